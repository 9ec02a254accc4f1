import Verif.Lexer.Blank
import Verif.Features.TokenRow
import Verif.Features.OnType
import Verif.Features.Demo
import Verif.Props.Indent
import Verif.Props.Edits
import Verif.Props.Text
import Verif.ChangeLemmas
/-!
# Formatting while typing (C50)

Specification: `Blanks` (Lexer/Blank.lean: blanks and tabs only); tokens are those of `lex`.
-/
namespace Verif.Props
open Verif Verif.Grammar Verif.Lexer Verif.Features

/-! ## Positions -/

theorem splitAtByte_some {t : Text} {n : Nat} {a b : Text} (h : splitAtByte t n = some (a, b)) : t = a ++ b ∧ blen a = n := by
  induction t generalizing n a with
  | nil =>
    cases n with
    | zero => simp only [splitAtByte, Option.some.injEq, Prod.mk.injEq] at h; obtain ⟨rfl, rfl⟩ := h; exact ⟨rfl, rfl⟩
    | succ n => cases h
  | cons c cs ih =>
    cases n with
    | zero => simp only [splitAtByte, Option.some.injEq, Prod.mk.injEq] at h; obtain ⟨rfl, rfl⟩ := h; exact ⟨rfl, rfl⟩
    | succ n =>
      rw [splitAtByte] at h
      split at h
      · next hle =>
        split at h
        · cases h
        · next p r hs =>
          simp only [Option.some.injEq, Prod.mk.injEq] at h
          obtain ⟨rfl, rfl⟩ := h
          obtain ⟨e1, e2⟩ := ih hs
          exact ⟨by rw [e1]; rfl, by simp [blen, e2]; omega⟩
      · cases h

theorem charBefore_some {text : Text} {b : Nat} {ch : Char} {post : Text} (h : charBefore text b ch = some post) :
    ∃ pre, text = pre ++ ch :: post ∧ b = blen (pre ++ [ch]) := by
  unfold charBefore at h
  split at h
  · cases h
  · next p q hs =>
    obtain ⟨e1, e2⟩ := splitAtByte_some hs
    split at h
    · next hl =>
      cases h
      rw [List.getLast?_eq_some_iff] at hl
      obtain ⟨pre, rfl⟩ := hl
      exact ⟨pre, by rw [e1]; simp, e2.symm⟩
    · cases h

/-- A column is reached within the line. -/
theorem skipCols_line (k : Nat) (s : Text) (i b o : Nat) (h : skipCols k s i b = some o) :
    (k ≤ i ∧ o = b) ∨ ∃ z y, s = z ++ y ∧ '\n' ∉ z ∧ b < o ∧ o ≤ b + blen z := by
  induction hn : s.length using Nat.strongRecOn generalizing s i b with
  | _ n ih =>
    cases s with
    | nil =>
      unfold skipCols at h
      split at h
      · cases h
      · cases h; exact Or.inl ⟨by omega, rfl⟩
    | cons c cs =>
      have hu := u8_pos c
      unfold skipCols at h
      split at h
      · split at h
        · cases h
        · next hc =>
          have fin : ∀ cs0 d, cs0.length < n → cs = d ++ cs0 → '\n' ∉ d → skipCols k cs0 (i + u16 c) (b + u8 c) = some o →
              ∃ z y, c :: cs = z ++ y ∧ '\n' ∉ z ∧ b < o ∧ o ≤ b + blen z := by
            intro cs0 d hl e hd h
            rcases ih cs0.length hl cs0 _ _ h rfl with ⟨-, rfl⟩ | ⟨z, y, e1, e2, e3, e4⟩
            · exact ⟨[c], cs, rfl, by simp [Ne.symm hc], by omega, by simp [blen]⟩
            · refine ⟨c :: (d ++ z), y, by rw [e, e1]; simp, ?_, by omega, ?_⟩
              · simp only [List.mem_cons, List.mem_append, not_or]
                exact ⟨Ne.symm hc, hd, e2⟩
              · simp only [blen, blen_append]; omega
          cases cs with
          | nil => exact Or.inr (fin [] [] (by simp at hn ⊢; omega) rfl (by simp) h)
          | cons d cs' =>
            simp only at h
            split at h
            · split at h
              · cases h
              · next hd => exact Or.inr (fin cs' [d] (by simp at hn; omega) rfl (by simp [Ne.symm hd]) h)
            · exact Or.inr (fin (d :: cs') [] (by simp at hn ⊢; omega) rfl (by simp) h)
      · cases h; exact Or.inl ⟨by omega, rfl⟩

/-- A position right behind a line break is the start of a line. -/
theorem pos_newline {pos : Position} {pre post : Text}
    (h : byteIndex pos (pre ++ '\n' :: post) = some (blen (pre ++ ['\n']))) : pos = posOf (pre ++ ['\n']) := by
  unfold byteIndex at h
  rw [if_neg (by simp)] at h
  split at h
  · cases h
  · next rest b hs =>
    obtain ⟨p, e1, e2, e3, e4⟩ := skipLines_bwd _ _ _ _ _ _ (Nat.zero_le _) hs
    have hsplit : pre ++ '\n' :: post = (pre ++ ['\n']) ++ post := by simp
    rw [hsplit] at e1
    rcases skipCols_line _ _ _ _ _ h with ⟨h1, h2⟩ | ⟨z, y, z1, z2, z3, z4⟩
    · have hb : blen (pre ++ ['\n']) = blen p := by omega
      obtain ⟨rfl, -⟩ := prefix_eq_of_blen e1 hb
      rw [posOf_nl]
      obtain ⟨l, ch⟩ := pos
      simp only [Nat.zero_add, Nat.le_zero] at h1 e3
      subst h1
      simp only [Position.mk.injEq, and_true]
      have : (posOf pre).line = pre.count '\n' := rfl
      rw [this, ← e3]
      simp
    · exfalso
      rw [z1, ← List.append_assoc] at e1
      -- `pre ++ ['\n']` ends within `z`
      have hlt : blen p < blen (pre ++ ['\n']) := by omega
      have hle : blen (pre ++ ['\n']) ≤ blen (p ++ z) := by rw [blen_append p z]; omega
      rcases List.append_eq_append_iff.1 e1 with ⟨a, f1, f2⟩ | ⟨a, f1, f2⟩
      · -- `p ++ z = pre ++ ['\n'] ++ a`
        rcases List.append_eq_append_iff.1 f1 with ⟨x, g1, g2⟩ | ⟨x, g1, g2⟩
        · -- pre ++ '\n' = p ++ x, z = x ++ a
          have hx : x ≠ [] := by rintro rfl; rw [g1] at hlt; simp at hlt
          have hm : '\n' ∈ x := by
            have := congrArg List.getLast? g1
            rw [List.getLast?_append, List.getLast?_append] at this
            simp only [List.getLast?_singleton, Option.some_or] at this
            have hl : x.getLast? = some (x.getLast hx) := List.getLast?_eq_some_getLast hx
            rw [hl] at this
            simp only [Option.some_or, Option.some.injEq] at this
            rw [this]
            exact List.getLast_mem _
          exact z2 (by rw [g2]; simp [hm])
        · rw [g1] at hlt; rw [blen_append (pre ++ ['\n']) x] at hlt; omega
      · -- pre ++ '\n' = p ++ z ++ a
        have := congrArg blen f1
        rw [blen_append (p ++ z) a] at this
        have ha : blen a = 0 := by omega
        have ha : a = [] := by
          cases a with
          | nil => rfl
          | cons c cs => have := u8_pos c; simp [blen] at ha; omega
        subst ha
        simp only [List.append_nil] at f1
        have hz : z ≠ [] := by rintro rfl; simp only [blen] at z4; omega
        have hm : '\n' ∈ z := by
          have := congrArg List.getLast? f1
          rw [List.getLast?_append, List.getLast?_append] at this
          simp only [List.getLast?_singleton, Option.some_or] at this
          have hl : z.getLast? = some (z.getLast hz) := List.getLast?_eq_some_getLast hz
          rw [hl] at this
          simp only [Option.some_or, Option.some.injEq] at this
          rw [this]
          exact List.getLast_mem _
        exact z2 hm

/-- A position right behind an ASCII character that is no line break is exact (in texts without lone carriage returns). -/
theorem pos_char {pos : Position} {pre post : Text} {c : Char} (hcr : NoLoneCR (pre ++ c :: post)) (hc : c ≠ '\n') (hu : u16 c = 1)
    (h : byteIndex pos (pre ++ c :: post) = some (blen (pre ++ [c]))) : pos = posOf (pre ++ [c]) := by
  obtain ⟨p, q, e1, e2, e3, -, e4, e5⟩ := (c02_byte_index_iff _ _ _ hcr).1 h
  have hsplit : pre ++ c :: post = (pre ++ [c]) ++ post := by simp
  rw [hsplit] at e1
  obtain ⟨rfl, rfl⟩ := prefix_eq_of_blen e1 e2.symm
  have hl : lastLine (pre ++ [c]) = lastLine pre ++ [c] := by rw [lastLine_snoc, if_neg hc]
  have := e5 _ _ hl (by simp)
  rw [hl] at e4
  simp only [len16_append, len16_cons, len16_nil, hu] at e4
  rw [posOf_ne _ _ hc]
  obtain ⟨l, ch⟩ := pos
  simp only at e3 e4 this
  simp only [Position.mk.injEq]
  refine ⟨?_, ?_⟩
  · rw [← e3]
    show lineNo (pre ++ [c]) = lineNo pre
    unfold lineNo
    rw [List.count_append, List.count_singleton]
    simp [hc]
  · show ch = len16 (lastLine pre) + u16 c
    omega

theorem posOf_blanks (p : Text) {b : Text} (hb : Blanks b) : posOf (p ++ b) = ⟨(posOf p).line, (posOf p).character + b.length⟩ := by
  induction b generalizing p with
  | nil => simp
  | cons c b ih =>
    have : p ++ c :: b = (p ++ [c]) ++ b := by simp
    rw [this, ih _ (fun x hx => hb x (List.mem_cons_of_mem _ hx))]
    have hc := hb c List.mem_cons_self
    have hn : c ≠ '\n' := by rcases hc with rfl | rfl <;> decide
    have hu : u16 c = 1 := by rcases hc with rfl | rfl <;> decide
    rw [posOf_ne _ _ hn, hu]
    simp; omega

/-! ## Blanks -/

theorem leadingBlanks_split (post : Text) : ∃ rest, post = leadingBlanks post ++ rest ∧ Blanks (leadingBlanks post) ∧
    rest.head? ≠ some ' ' ∧ rest.head? ≠ some '\t' := by
  refine ⟨post.dropWhile (fun c => c == ' ' || c == '\t'), List.takeWhile_append_dropWhile.symm, ?_, ?_⟩
  · intro c hc
    have := List.all_takeWhile (l := post) (p := fun c => c == ' ' || c == '\t')
    have := List.all_eq_true.1 this c hc
    simpa using this
  · have := List.head?_dropWhile_not (fun c => c == ' ' || c == '\t') post
    cases hh : (post.dropWhile (fun c => c == ' ' || c == '\t')).head? with
    | none => simp
    | some c =>
      rw [hh] at this
      simp only [Bool.or_eq_false_iff, beq_eq_false_iff_ne, Bool.not_eq_true] at this
      simp only [Option.some.injEq, ne_eq]
      exact this

theorem tabUnit_blanks (o : TypeOptions) : Blanks (tabUnit o) := by
  intro c hc
  unfold tabUnit at hc
  split at hc
  · exact Or.inl (List.eq_of_mem_replicate hc)
  · simp at hc; exact Or.inr hc

theorem repeat_blanks {t : Text} (h : Blanks t) (n : Nat) : Blanks (repeatText t n) := by
  intro c hc
  unfold repeatText at hc
  rw [List.mem_flatten] at hc
  obtain ⟨l, hl, hc⟩ := hc
  rw [List.eq_of_mem_replicate hl] at hc
  exact h c hc

theorem continuation_blanks {width s o text t indent new} (hi : Blanks indent) (h : continuation width s o text t indent = some new) :
    Blanks new := by
  have hu : Blanks (indent ++ tabUnit o) := by
    intro c hc
    rcases List.mem_append.1 hc with hc | hc
    · exact hi c hc
    · exact tabUnit_blanks o c hc
  unfold continuation at h
  split at h
  · split at h
    · cases h
    · cases h; intro c hc; exact Or.inl (List.eq_of_mem_replicate hc)
    · cases h; exact hu
  · cases h; exact hu

theorem apply_one {pre old post new : Text} :
    applyTextEdits (pre ++ (old ++ post)) [⟨⟨posOf pre, posOf (pre ++ old)⟩, new⟩] = some (ensureNL (pre ++ (new ++ post))) := by
  have := c05_segments [⟨pre, old, new⟩] post [⟨⟨posOf pre, posOf (pre ++ old)⟩, new⟩] (by simp [editsOf]) (by simp)
  simpa [origOf, resultOf] using this

/-! ## The token at the cursor -/

/-- The token in front of the cursor, with the tokens in front of it and behind it. -/
theorem cursor_token {text : Text} {g : Green} (P : Parsed text g) {pre post : Text} {ch : Char} (ht : text = pre ++ ch :: post) {t : Red}
    (h : (Red.root g).tokenAtLeft (blen (pre ++ [ch])) = some t) :
    ∃ L R u v, (Red.root g).tokens = L ++ t :: R ∧ g.leaves = L.map Red.kt ++ t.kt :: R.map Red.kt ∧
      t.text = u ++ ch :: v ∧ pre = flat (L.map Red.kt) ++ u ∧ post = v ++ flat (R.map Red.kt) := by
  have hpos : 0 < blen (pre ++ [ch]) := by
    have := u8_pos ch
    rw [blen_append]; simp [blen]; omega
  obtain ⟨L, R, h1, h2, h3, h4, h5⟩ := tokenAtLeft_row hpos P.leaf_nonempty h
  have htext : text = flat (L.map Red.kt) ++ (t.text ++ flat (R.map Red.kt)) := by
    have e0 : flat g.leaves = text := P.text_eq
    rw [← e0, h4]
    simp [flat, Red.kt]
  have hstop : t.stop = t.start + blen t.text := rfl
  have hs : pre ++ ch :: post = (pre ++ [ch]) ++ post := by simp
  rw [ht, hs] at htext
  rcases List.append_eq_append_iff.1 htext with ⟨a, e1, e2⟩ | ⟨a, e1, e2⟩
  · exfalso
    have := congrArg blen e1
    rw [blen_append (pre ++ [ch]) a] at this
    omega
  · -- `pre ++ [ch] = flat L ++ a`
    rcases List.append_eq_append_iff.1 e2 with ⟨v, f1, f2⟩ | ⟨v, f1, f2⟩
    · have hv : v = [] := by
        have q1 := congrArg blen e1
        have q2 := congrArg blen f1
        rw [blen_append (flat (L.map Red.kt)) a] at q1
        rw [blen_append t.text v] at q2
        have q0 : blen v = 0 := by omega
        cases v with
        | nil => rfl
        | cons c cs => have := u8_pos c; simp [blen] at q0; omega
      subst hv
      simp only [List.append_nil, List.nil_append] at f1 f2
      subst f1
      have hne : t.text ≠ [] := P.leaf_nonempty t.kt (by rw [h4]; simp)
      obtain ⟨u, c, hu⟩ : ∃ u c, t.text = u ++ [c] := ⟨t.text.dropLast, t.text.getLast hne, (List.dropLast_append_getLast hne).symm⟩
      rw [hu, ← List.append_assoc] at e1
      obtain ⟨q1, q2⟩ := List.append_inj' e1 rfl
      cases q2
      exact ⟨L, R, u, [], h1, h4, by rw [hu], q1, by simpa using f2.symm⟩
    · have hne : a ≠ [] := by
        rintro rfl
        simp only [List.append_nil] at e1
        rw [e1] at h2
        omega
      obtain ⟨u, c, hu⟩ : ∃ u c, a = u ++ [c] := ⟨a.dropLast, a.getLast hne, (List.dropLast_append_getLast hne).symm⟩
      rw [hu, ← List.append_assoc] at e1
      obtain ⟨q1, q2⟩ := List.append_inj' e1 rfl
      cases q2
      exact ⟨L, R, u, v, h1, h4, by rw [f1, hu]; simp, q1, f2⟩

/-! ## What the handlers answer -/

theorem onNewline_ok {width s o text g pos b edits} (h : onNewline width s o text g pos b = .ok (some edits)) :
    ∃ post t new, charBefore text b '\n' = some post ∧ (Red.root g).tokenAtLeft b = some t ∧
      (t.kind = K.WHITESPACE ∨ t.kind = K.ANON ∨ t.kind = K.NIL) ∧ edits = editAt pos (leadingBlanks post).length new ∧
      ((prevSemicolon g t = none ∧ new = repeatText (tabUnit o) (braceDepth t)) ∨
       ∃ sc, prevSemicolon g t = some sc ∧ continuation width s o text sc (repeatText (tabUnit o) (braceDepth t)) = some new) := by
  unfold onNewline at h
  split at h
  · cases h
  · next post hpost =>
    split at h
    · cases h
    · split at h
      · cases h
      · next t ht =>
        split at h
        · cases h
        · next hk =>
          have hk := Classical.not_not.1 hk
          split at h
          · next hs => cases h; exact ⟨post, t, _, hpost, ht, hk, rfl, Or.inl ⟨hs, rfl⟩⟩
          · next sc hs =>
            dsimp only at h
            split at h
            · cases h
            · next new hn => cases h; exact ⟨post, t, new, hpost, ht, hk, rfl, Or.inr ⟨sc, hs, hn⟩⟩

theorem onTerminator_ok {width s o text g pos b ch k edits} (h : onTerminator width s o text g pos b ch k = .ok (some edits)) :
    s.autoLineBreak = true ∧
    ∃ post t triple new, charBefore text b ch = some post ∧ (Red.root g).tokenAtLeft b = some t ∧ t.kind = k ∧
      tripleFor t k = some triple ∧ hasError triple = false ∧
      terminatorIndent width s o text t k = some new ∧
      edits = editAt pos (leadingBlanks post).length ('\n' :: new) := by
  unfold onTerminator at h
  split at h
  · cases h
  · next hs =>
    refine ⟨by simpa using hs, ?_⟩
    split at h
    · cases h
    · next post hpost =>
      split at h
      · cases h
      · split at h
        · cases h
        · next t ht =>
          split at h
          · cases h
          · next hk =>
            split at h
            · cases h
            · next triple htr =>
              split at h
              · cases h
              · next he =>
                split at h
                · cases h
                · next new hn =>
                  cases h
                  exact ⟨post, t, triple, new, hpost, ht, Classical.not_not.1 hk, htr, by simpa using he, hn, rfl⟩

/-- The tokens of a text as pairs of kind and text. -/
def tokenPairs (errLen : Text → Nat) (text : Text) : List (Kind × Text) := (lex errLen text).map (fun t => (t.kind, t.text))

/-- **C50.** The reply to a line break (if it is not an error or `null`) is one edit: the blanks behind the cursor are
replaced by other blanks. The line break is in a white space token, a `[ ]` or a `( )`; all tokens stay what they are, only
the blanks in that token change. In particular the line break is never in a string or a comment. -/
theorem c50_newline (errLen : Text → Nat) (text : Text) (g errs) (hp : parseSource errLen text = some (g, errs))
    (width : Char → Nat) (s : TypeSettings) (o : TypeOptions) (pos : Position) (edits : List TextEdit)
    (h : onType width s o text g pos ['\n'] = .ok (some edits)) :
    ∃ pre old post new, text = pre ++ '\n' :: (old ++ post) ∧ Blanks old ∧ Blanks new ∧
      post.head? ≠ some ' ' ∧ post.head? ≠ some '\t' ∧ pos = posOf (pre ++ ['\n']) ∧
      edits = [⟨⟨posOf (pre ++ ['\n']), posOf (pre ++ '\n' :: old)⟩, new⟩] ∧
      applyTextEdits text edits = some (ensureNL (pre ++ '\n' :: (new ++ post))) ∧
      ∃ A k u v B, (k = K.WHITESPACE ∨ k = K.ANON ∨ k = K.NIL) ∧ pre = flat A ++ u ∧
        tokenPairs errLen text = A ++ (k, u ++ '\n' :: (old ++ v)) :: B ∧
        Lexes (pre ++ '\n' :: (new ++ post)) (A ++ (k, u ++ '\n' :: (new ++ v)) :: B) := by
  have P := parsed_of hp
  unfold onType at h
  split at h
  · cases h
  · next b hb =>
    rw [if_pos rfl] at h
    obtain ⟨post0, t, new, h1, h2, h3, h4, h5⟩ := onNewline_ok h
    obtain ⟨pre, e1, rfl⟩ := charBefore_some h1
    obtain ⟨L, R, u, v0, t1, t2, t3, t4, t5⟩ := cursor_token P e1 h2
    obtain ⟨post, e2, hold, hx1, hx2⟩ := leadingBlanks_split post0
    have hnew : Blanks new := by
      have hi := repeat_blanks (tabUnit_blanks o) (braceDepth t)
      rcases h5 with ⟨-, rfl⟩ | ⟨sc, -, hc⟩
      · exact hi
      · exact continuation_blanks hi hc
    have hpos : pos = posOf (pre ++ ['\n']) := by
      rw [e1] at hb
      exact pos_newline hb
    have hedits : edits = [⟨⟨posOf (pre ++ ['\n']), posOf (pre ++ '\n' :: leadingBlanks post0)⟩, new⟩] := by
      have : pre ++ '\n' :: leadingBlanks post0 = (pre ++ ['\n']) ++ leadingBlanks post0 := by simp
      rw [h4, this, posOf_blanks _ hold, hpos]
      rfl
    generalize leadingBlanks post0 = old at e2 hold hedits
    refine ⟨pre, old, post, new, by rw [e1, e2], hold, hnew, hx1, hx2, hpos, hedits, ?_, ?_⟩
    · have q := apply_one (pre := pre ++ ['\n']) (old := old) (post := post) (new := new)
      have e0 : text = (pre ++ ['\n']) ++ (old ++ post) := by rw [e1, e2]; simp
      have e3 : (pre ++ ['\n']) ++ old = pre ++ '\n' :: old := by simp
      have e4 : (pre ++ ['\n']) ++ (new ++ post) = pre ++ '\n' :: (new ++ post) := by simp
      rw [e3, e4] at q
      rw [e0, hedits]
      exact q
    · -- tokens
      have hleaves : g.leaves = tokenPairs errLen text := source_leaves hp
      have hlx : Lexes text (tokenPairs errLen text) := c47_longest_match errLen text
      rw [← hleaves, t2] at hlx
      have hkt : t.kt = (t.kind, u ++ '\n' :: v0) := by unfold Red.kt; rw [t3]
      rw [hkt] at t2 hlx
      have hsuf := lexes_suffix hlx
      have hflat : flat ((t.kind, u ++ '\n' :: v0) :: R.map Red.kt) = (u ++ '\n' :: v0) ++ flat (R.map Red.kt) := by simp [flat]
      have hkE : t.kind ≠ K.Error := by rcases h3 with h | h | h <;> rw [h] <;> decide
      have hlong : Longest ((u ++ '\n' :: v0) ++ flat (R.map Red.kt)) t.kind (u ++ '\n' :: v0) ∧
          Lexes (flat (R.map Red.kt)) (R.map Red.kt) := by
        rw [hflat] at hsuf
        generalize hx : (u ++ '\n' :: v0) ++ flat (R.map Red.kt) = x at hsuf
        generalize hl : (t.kind, u ++ '\n' :: v0) :: R.map Red.kt = l at hsuf
        cases hsuf with
        | nil => cases hl
        | @tok k w after l h hs =>
          cases hl
          have := List.append_cancel_left hx
          subst this
          exact ⟨h, hs⟩
        | @err w after l h hw hs =>
          exfalso
          simp only [List.cons.injEq, Prod.mk.injEq] at hl
          exact hkE hl.1.1
      obtain ⟨hlong, hR⟩ := hlong
      obtain ⟨v, rfl, e3⟩ := blanks_inside hlong hold (by rw [← t5, e2])
      refine ⟨L.map Red.kt, t.kind, u, v, R.map Red.kt, h3, t4, by rw [← hleaves, t2], ?_⟩
      have hlong' := longest_newline hold hnew hlong
      have F := fill_newline hold hnew
      have hB : Lexes (u ++ '\n' :: (old ++ post)) ((t.kind, u ++ '\n' :: (old ++ v)) :: R.map Red.kt) := by
        have : u ++ '\n' :: (old ++ post) = (u ++ '\n' :: (old ++ v)) ++ flat (R.map Red.kt) := by rw [e3]; simp
        rw [this]
        exact .tok hlong hR
      have hB' : Lexes (u ++ '\n' :: (new ++ post)) ((t.kind, u ++ '\n' :: (new ++ v)) :: R.map Red.kt) := by
        have : u ++ '\n' :: (new ++ post) = (u ++ '\n' :: (new ++ v)) ++ flat (R.map Red.kt) := by rw [e3]; simp
        rw [this]
        exact .tok hlong' hR
      have := lexes_fill F (L.map Red.kt) hB (by rw [← List.append_assoc, ← t4, ← e2, ← e1]; exact hlx) hB'
      rw [← List.append_assoc, ← t4] at this
      exact this

theorem tokenPairs_of {errLen : Text → Nat} {text : Text} {l : List (Kind × Text)} (h : Lexes text l) (hok : ∀ p ∈ l, p.1 ≠ K.Error) :
    tokenPairs errLen text = l :=
  (c47_determined text l _ h (c47_longest_match errLen text) hok).symm

/-- The significant tokens: neither white space nor comments. -/
def sigPairs (l : List (Kind × Text)) : List (Kind × Text) := l.filter (fun p => !(p.1 == K.WHITESPACE || p.1 == K.Comment))

theorem kinds_sigPairs (errLen : Text → Nat) (text : Text) : kinds (lex errLen text) = (sigPairs (tokenPairs errLen text)).map (·.1) := by
  unfold kinds significant sigPairs tokenPairs
  rw [List.filter_map, List.map_map]
  rfl

/-- Same significant tokens, same tree. -/
theorem same_tree {errLen : Text → Nat} {text text' : Text} {g errs} (hp : parseSource errLen text = some (g, errs))
    (h : (sigPairs (tokenPairs errLen text')).map (·.1) = (sigPairs (tokenPairs errLen text)).map (·.1)) :
    ∃ g' errs', parseSource errLen text' = some (g', errs') ∧ g'.shape .nil = g.shape .nil ∧
      errs'.map (·.expected) = errs.map (·.expected) :=
  parseDocument_sig (c47_lossless errLen text) (c47_lossless errLen text') (by rw [kinds_sigPairs, kinds_sigPairs, h]) hp

/-- **C50.** In a document without lexical errors: the document after the edit has the same tokens up to the blanks in the
token with the line break, and the same syntax tree and errors. -/
theorem c50_newline_tree (errLen : Text → Nat) (text : Text) (g errs) (hp : parseSource errLen text = some (g, errs))
    (hok : ∀ t ∈ lex errLen text, t.kind ≠ K.Error)
    (width : Char → Nat) (s : TypeSettings) (o : TypeOptions) (pos : Position) (edits : List TextEdit)
    (h : onType width s o text g pos ['\n'] = .ok (some edits)) :
    ∃ newText g' errs', applyTextEdits text edits = some (ensureNL newText) ∧
      (∃ A k u old new v B, (k = K.WHITESPACE ∨ k = K.ANON ∨ k = K.NIL) ∧ Blanks old ∧ Blanks new ∧
        tokenPairs errLen text = A ++ (k, u ++ '\n' :: (old ++ v)) :: B ∧
        tokenPairs errLen newText = A ++ (k, u ++ '\n' :: (new ++ v)) :: B) ∧
      parseSource errLen newText = some (g', errs') ∧ g'.shape .nil = g.shape .nil ∧
      errs'.map (·.expected) = errs.map (·.expected) := by
  obtain ⟨pre, old, post, new, h1, h2, h3, -, -, -, h6, h7, A, k, u, v, B, h8, -, h10, h11⟩ :=
    c50_newline errLen text g errs hp width s o pos edits h
  have hok' : ∀ p ∈ tokenPairs errLen text, p.1 ≠ K.Error := by
    intro p hp
    obtain ⟨t, ht, rfl⟩ := List.mem_map.1 hp
    exact hok t ht
  rw [h10] at hok'
  have hn := tokenPairs_of (errLen := errLen) h11 (by
    intro p hp
    rcases List.mem_append.1 hp with hp | hp
    · exact hok' p (by simp [hp])
    · rcases List.mem_cons.1 hp with rfl | hp
      · show k ≠ K.Error
        rcases h8 with h | h | h <;> rw [h] <;> decide
      · exact hok' p (by simp [hp]))
  obtain ⟨g', errs', q1, q2, q3⟩ := same_tree (text' := pre ++ '\n' :: (new ++ post)) hp (by
    rw [hn, h10]
    unfold sigPairs
    simp only [List.filter_append, List.filter_cons]
    split <;> simp)
  exact ⟨_, g', errs', h7, ⟨A, k, u, old, new, v, B, h8, h2, h3, h10, hn⟩, q1, q2, q3⟩

/-! ## Terminators -/

theorem ws_split (C : Text) : ∃ s C', C = s ++ C' ∧ Spaces s ∧ NoSpace C' := by
  refine ⟨C.takeWhile wsClass.has, C.dropWhile wsClass.has, List.takeWhile_append_dropWhile.symm, ?_, ?_⟩
  · intro c hc
    exact List.all_eq_true.1 (List.all_takeWhile (l := C) (p := wsClass.has)) c hc
  · have := List.head?_dropWhile_not wsClass.has C
    cases hd : C.dropWhile wsClass.has with
    | nil => trivial
    | cons c cs => rw [hd] at this; exact this

/-- A reading of a text that starts with white space. -/
theorem lexes_ws {s C : Text} (hs : Spaces s) (hC : NoSpace C) {l : List (Kind × Text)} (h : Lexes (s ++ C) l) :
    ∃ l', Lexes C l' ∧ ((s = [] ∧ l = l') ∨ l = (K.WHITESPACE, s) :: l') := by
  by_cases he : s = []
  · subst he; exact ⟨l, h, Or.inl ⟨rfl, rfl⟩⟩
  · have hw := longest_ws hs he hC
    generalize hx : s ++ C = x at h
    cases h with
    | nil => rw [List.append_eq_nil_iff] at hx; exact absurd hx.1 he
    | @tok k w after l h hs' =>
      rw [← hx] at h
      obtain ⟨rfl, rfl, rfl⟩ := longest_unique rfl hx hw h
      exact ⟨l, hs', Or.inr rfl⟩
    | @err w after l h _ _ =>
      rw [← hx] at h
      obtain ⟨r, hr, -, hm⟩ := hw.rule
      exact absurd hm (h r hr s)

/-- The kind of a terminator. -/
def termKind (c : Char) : Kind := if c = ';' then K.Semicolon else K.Dot

theorem term_text {text : Text} {g : Green} (P : Parsed text g) {t : Red} (ht : InTree g t) (hn : t.isNode = false) {c : Char} (hc : isTerm c)
    (hk : t.kind = termKind c) : t.text = [c] := by
  obtain ⟨r, hr, h1, h2⟩ := P.lexed _ (Parsed.token_leaf ht hn) (by
    show t.kind ≠ K.Error
    rw [hk]
    rcases hc with rfl | rfl <;> decide)
  have h1 : r.kind = termKind c := h1.trans hk
  have hu : lexRules.all (fun r => (r.kind != K.Semicolon || r.re == .cls [(0x3B, 0x3B)]) && (r.kind != K.Dot || r.re == .cls [(0x2E, 0x2E)])) = true := by
    decide +kernel
  have hu := List.all_eq_true.1 hu r hr
  simp only [Bool.and_eq_true, Bool.or_eq_true, bne_iff_ne, beq_iff_eq] at hu
  have key : ∀ n, ∀ x : Char, x.toNat = n → ∀ w, Matches (.cls [(n, n)]) w → w = [x] := by
    intro n x hx w hm
    rw [matches_cls] at hm
    obtain ⟨d, rfl, hd⟩ := hm
    have : d.toNat = n := by
      simp only [Class.has, List.any_cons, List.any_nil, Bool.or_false, Bool.and_eq_true, Nat.ble_eq] at hd
      omega
    have : d = x := Char.toNat_inj.1 (by omega)
    rw [this]
  rcases hc with rfl | rfl
  · rcases hu.1 with h | h
    · exact absurd h1 h
    · rw [h] at h2; exact key _ ';' rfl _ h2
  · rcases hu.2 with h | h
    · exact absurd h1 h
    · rw [h] at h2; exact key _ '.' rfl _ h2

/-- **C50.** The reply to a typed `;` or `.` (if it is not an error or `null`) is one edit: the blanks behind the cursor are
replaced by a line break and blanks. The typed character is a token of its own; all significant tokens stay what they are. -/
theorem c50_terminator (errLen : Text → Nat) (text : Text) (g errs) (hp : parseSource errLen text = some (g, errs))
    (hcr : NoLoneCR text) (c : Char) (hc : c = ';' ∨ c = '.')
    (width : Char → Nat) (s : TypeSettings) (o : TypeOptions) (pos : Position) (edits : List TextEdit)
    (h : onType width s o text g pos [c] = .ok (some edits)) :
    s.autoLineBreak = true ∧
    ∃ pre old post new, text = pre ++ c :: (old ++ post) ∧ Blanks old ∧ Blanks new ∧
      post.head? ≠ some ' ' ∧ post.head? ≠ some '\t' ∧ pos = posOf (pre ++ [c]) ∧
      edits = [⟨⟨posOf (pre ++ [c]), posOf (pre ++ c :: old)⟩, '\n' :: new⟩] ∧
      applyTextEdits text edits = some (ensureNL (pre ++ c :: '\n' :: (new ++ post))) ∧
      ∃ A B sp B', pre = flat A ∧ Spaces sp ∧ tokenPairs errLen text = A ++ (termKind c, [c]) :: B ∧
        Lexes (pre ++ c :: '\n' :: (new ++ post)) (A ++ (termKind c, [c]) :: (K.WHITESPACE, '\n' :: new ++ sp) :: B') ∧
        ((old ++ sp = [] ∧ B = B') ∨ B = (K.WHITESPACE, old ++ sp) :: B') := by
  have P := parsed_of hp
  have hcn : c ≠ '\n' := by rcases hc with rfl | rfl <;> decide
  have hcu : u16 c = 1 := by rcases hc with rfl | rfl <;> decide
  unfold onType at h
  split at h
  · cases h
  · next b hb =>
    have h : onTerminator width s o text g pos b c (termKind c) = .ok (some edits) := by
      rcases hc with rfl | rfl
      · rw [if_neg (by decide), if_pos rfl] at h; exact h
      · rw [if_neg (by decide), if_neg (by decide), if_pos rfl] at h; exact h
    obtain ⟨hauto, post0, t, triple, new, h1, h2, h3, h4, h5, h6, h7⟩ := onTerminator_ok h
    refine ⟨hauto, ?_⟩
    obtain ⟨pre, e1, rfl⟩ := charBefore_some h1
    obtain ⟨L, R, u, v, t1, t2, t3, t4, t5⟩ := cursor_token P e1 h2
    obtain ⟨hin, hnode, -⟩ := tokenAtLeft_spec h2
    have htt := term_text P hin hnode hc h3
    have huv : u = [] ∧ v = [] := by
      rw [htt] at t3
      cases u with
      | nil => simp only [List.nil_append, List.cons.injEq, true_and] at t3; exact ⟨rfl, t3.symm⟩
      | cons d u => simp at t3
    obtain ⟨rfl, rfl⟩ := huv
    simp only [List.append_nil, List.nil_append] at t4 t5 t3
    obtain ⟨post, e2, hold, hx1, hx2⟩ := leadingBlanks_split post0
    have hnew : Blanks new := by
      have hi := repeat_blanks (tabUnit_blanks o) (braceDepth t)
      unfold terminatorIndent at h6
      split at h6
      · exact continuation_blanks hi h6
      · cases h6; exact hi
    have hpos : pos = posOf (pre ++ [c]) := by
      rw [e1] at hb
      exact pos_char (e1 ▸ hcr) hcn hcu hb
    have hedits : edits = [⟨⟨posOf (pre ++ [c]), posOf (pre ++ c :: leadingBlanks post0)⟩, '\n' :: new⟩] := by
      have : pre ++ c :: leadingBlanks post0 = (pre ++ [c]) ++ leadingBlanks post0 := by simp
      rw [h7, this, posOf_blanks _ hold, hpos]
      rfl
    generalize leadingBlanks post0 = old at e2 hold hedits
    refine ⟨pre, old, post, new, by rw [e1, e2], hold, hnew, hx1, hx2, hpos, hedits, ?_, ?_⟩
    · have q := apply_one (pre := pre ++ [c]) (old := old) (post := post) (new := '\n' :: new)
      have e0 : text = (pre ++ [c]) ++ (old ++ post) := by rw [e1, e2]; simp
      have e3 : (pre ++ [c]) ++ old = pre ++ c :: old := by simp
      have e4 : (pre ++ [c]) ++ ('\n' :: new ++ post) = pre ++ c :: '\n' :: (new ++ post) := by simp
      rw [e3, e4] at q
      rw [e0, hedits]
      exact q
    · have hleaves : g.leaves = tokenPairs errLen text := source_leaves hp
      have hlx : Lexes text (tokenPairs errLen text) := c47_longest_match errLen text
      rw [← hleaves, t2] at hlx
      have hkt : t.kt = (termKind c, [c]) := by unfold Red.kt; rw [h3, htt]
      rw [hkt] at t2 hlx
      have hsuf := lexes_suffix hlx
      have hflat : flat ((termKind c, [c]) :: R.map Red.kt) = [c] ++ flat (R.map Red.kt) := by simp [flat]
      have hkE : termKind c ≠ K.Error := by rcases hc with rfl | rfl <;> decide
      rw [hflat, ← t5, e2] at hsuf
      have hlong : Longest ([c] ++ (old ++ post)) (termKind c) [c] ∧ Lexes (old ++ post) (R.map Red.kt) := by
        generalize hx : [c] ++ (old ++ post) = x at hsuf
        generalize hl : (termKind c, [c]) :: R.map Red.kt = l at hsuf
        cases hsuf with
        | nil => cases hl
        | @tok k w after l h hs =>
          cases hl
          have := List.append_cancel_left hx
          subst this
          exact ⟨h, hs⟩
        | @err w after l h hw hs =>
          exfalso
          simp only [List.cons.injEq, Prod.mk.injEq] at hl
          exact hkE hl.1.1
      obtain ⟨hlong, hR⟩ := hlong
      have hlong' := longest_term hc hold hnew hlong
      obtain ⟨sp, C, rfl, hsp, hC⟩ := ws_split post
      have hsp' : Spaces (old ++ sp) := by
        intro x hx
        rcases List.mem_append.1 hx with hx | hx
        · exact blanks_spaces hold x hx
        · exact hsp x hx
      rw [← List.append_assoc] at hR
      obtain ⟨B', hB', hR'⟩ := lexes_ws hsp' hC hR
      have hspn : Spaces ('\n' :: new ++ sp) := by
        intro x hx
        simp only [List.cons_append, List.mem_cons, List.mem_append] at hx
        rcases hx with rfl | hx | hx
        · decide
        · exact blanks_spaces hnew x hx
        · exact hsp x hx
      refine ⟨L.map Red.kt, R.map Red.kt, sp, B', t4, hsp, by rw [← hleaves, t2], ?_, hR'⟩
      have hnewB : Lexes (c :: ('\n' :: new ++ (sp ++ C))) ((termKind c, [c]) :: (K.WHITESPACE, '\n' :: new ++ sp) :: B') := by
        refine Lexes.tok (w := [c]) (after := '\n' :: new ++ (sp ++ C)) ?_ ?_
        · exact hlong'
        · rw [← List.append_assoc]
          exact .tok (longest_ws hspn (by simp) hC) hB'
      have F := fill_term hc hold hnew
      have := lexes_fill (u := []) F (L.map Red.kt) (C := sp ++ C) (B := (termKind c, [c]) :: R.map Red.kt)
        (by simpa using hsuf) (by rw [← t4]; rw [e1, e2] at hlx; exact hlx) hnewB
      rw [← t4] at this
      exact this

/-- **C50.** In a document without lexical errors: after the edit of a `;` or `.`, the document has the same significant
tokens, and the same syntax tree and errors. -/
theorem c50_terminator_tree (errLen : Text → Nat) (text : Text) (g errs) (hp : parseSource errLen text = some (g, errs))
    (hcr : NoLoneCR text) (hok : ∀ t ∈ lex errLen text, t.kind ≠ K.Error) (c : Char) (hc : c = ';' ∨ c = '.')
    (width : Char → Nat) (s : TypeSettings) (o : TypeOptions) (pos : Position) (edits : List TextEdit)
    (h : onType width s o text g pos [c] = .ok (some edits)) :
    ∃ newText g' errs', applyTextEdits text edits = some (ensureNL newText) ∧
      sigPairs (tokenPairs errLen newText) = sigPairs (tokenPairs errLen text) ∧
      parseSource errLen newText = some (g', errs') ∧ g'.shape .nil = g.shape .nil ∧
      errs'.map (·.expected) = errs.map (·.expected) := by
  obtain ⟨-, pre, old, post, new, h1, h2, h3, -, -, -, h6, h7, A, B, sp, B', h8, h9, h10, h11, h12⟩ :=
    c50_terminator errLen text g errs hp hcr c hc width s o pos edits h
  have hok' : ∀ p ∈ tokenPairs errLen text, p.1 ≠ K.Error := by
    intro p hp
    obtain ⟨t, ht, rfl⟩ := List.mem_map.1 hp
    exact hok t ht
  rw [h10] at hok'
  have hB' : ∀ p ∈ B', p ∈ B := by
    intro p hp
    rcases h12 with ⟨-, rfl⟩ | rfl
    · exact hp
    · simp [hp]
  have hn := tokenPairs_of (errLen := errLen) h11 (by
    intro p hp
    simp only [List.mem_append, List.mem_cons] at hp
    rcases hp with hp | rfl | rfl | hp
    · exact hok' p (by simp [hp])
    · exact hok' _ (by simp)
    · show K.WHITESPACE ≠ K.Error
      decide
    · exact hok' p (by simp [hB' p hp]))
  have hsig : sigPairs (tokenPairs errLen (pre ++ c :: '\n' :: (new ++ post))) = sigPairs (tokenPairs errLen text) := by
    rw [hn, h10]
    unfold sigPairs
    rcases h12 with ⟨-, rfl⟩ | rfl
    · simp only [List.filter_append, List.filter_cons]; simp
    · simp only [List.filter_append, List.filter_cons]; simp
  obtain ⟨g', errs', q1, q2, q3⟩ := same_tree (text' := pre ++ c :: '\n' :: (new ++ post)) hp (by rw [hsig])
  exact ⟨_, g', errs', h7, hsig, q1, q2, q3⟩

/-! ## No panic -/

theorem columnAt_some (width : Char → Nat) (pre post : Text) :
    columnAt width (pre ++ post) (blen pre) = some (((lastLine pre).map width).sum) := by
  unfold columnAt
  rw [splitAtByte_append]
  simp only [Option.some.injEq]
  have key : ∀ (l : Text) (a : Nat), l.foldl (fun acc c => acc + width c) a = a + (l.map width).sum := by
    intro l
    induction l with
    | nil => simp
    | cons c l ih => intro a; simp only [List.foldl_cons, ih, List.map_cons, List.sum_cons]; omega
  rw [key]
  unfold lastLine
  rw [List.map_reverse, List.sum_reverse]
  omega

theorem tripleAbove_some {g : Green} {t triple : Red} (ht : InTree g t) (h : tripleAbove t = some triple) :
    InTree g triple ∧ triple.kind = K.TriplesSameSubjectPath ∧ triple ∈ Red.chain t.up := by
  unfold tripleAbove at h
  have h1 := List.mem_of_find?_eq_some h
  exact ⟨(ht.chain _ h1).1, by simpa using List.find?_some h, h1⟩

theorem propertyList_some {g : Green} {triple p : Red} (ht : InTree g triple) (h : propertyList triple = some p) :
    InTree g p ∧ p ∈ triple.childrenT := by
  unfold propertyList at h
  split at h
  · cases h
  · next q hq =>
    split at h
    · cases h
      have := (List.mem_filter.1 (List.mem_of_getElem? hq)).1
      exact ⟨ht.child this, this⟩
    · cases h

theorem alignColumn_some {text : Text} {g : Green} (P : Parsed text g) (width : Char → Nat) {t : Red} (ht : InTree g t) :
    ∃ x, alignColumn width text t = some x := by
  unfold alignColumn
  split
  · exact ⟨_, rfl⟩
  · next triple h1 =>
    split
    · exact ⟨_, rfl⟩
    · next p h2 =>
      obtain ⟨a, b, e1, e2⟩ := (propertyList_some (tripleAbove_some ht h1).1 h2).1.text
      rw [P.text_eq, List.append_assoc] at e1
      rw [e1, e2, columnAt_some]
      exact ⟨_, rfl⟩

theorem continuation_some {text : Text} {g : Green} (P : Parsed text g) (width s o) {t : Red} (ht : InTree g t) (indent : Text) :
    ∃ x, continuation width s o text t indent = some x := by
  unfold continuation
  split
  · obtain ⟨x, hx⟩ := alignColumn_some P width ht
    rw [hx]
    cases x <;> exact ⟨_, rfl⟩
  · exact ⟨_, rfl⟩

theorem root_stop {text : Text} {g : Green} (P : Parsed text g) : (Red.root g).stop = blen text := by
  show 0 + blen g.text = _
  rw [P.text_eq]; omega

theorem prevSemicolon_some {g : Green} {t sc : Red} (h : prevSemicolon g t = some sc) : InTree g sc ∧ sc.kind = K.Semicolon := by
  unfold prevSemicolon at h
  split at h
  · cases h
  · next x hx =>
    split at h
    · next hk =>
      cases h
      have := List.mem_of_find?_eq_some hx
      unfold tokensBefore at this
      have := (List.takeWhile_prefix _).subset (List.mem_reverse.1 this)
      unfold Red.tokens at this
      exact ⟨mem_descendantsT_root.1 (List.mem_filter.1 this).1, hk⟩
    · cases h

/-- **C50.** The server survives every request, whatever the position and the typed text. -/
theorem c50_no_panic (errLen : Text → Nat) (text : Text) (g errs) (hp : parseSource errLen text = some (g, errs))
    (width : Char → Nat) (s : TypeSettings) (o : TypeOptions) (pos : Position) (ch : Text) :
    onType width s o text g pos ch ≠ .panic := by
  have P := parsed_of hp
  have hterm : ∀ b c k, b ≤ blen text → onTerminator width s o text g pos b c k ≠ .panic := by
    intro b c k hb
    unfold onTerminator
    split
    · simp
    · split
      · simp
      · rw [root_stop P, if_neg (by omega)]
        split
        · simp
        · next t ht =>
          have hin := (tokenAtLeft_spec ht).1
          split
          · simp
          · split
            · simp
            · split
              · simp
              · obtain ⟨x, hx⟩ : ∃ x, terminatorIndent width s o text t k = some x := by
                  unfold terminatorIndent
                  split
                  · exact continuation_some P width s o hin _
                  · exact ⟨_, rfl⟩
                rw [hx]
                simp
  unfold onType
  split
  · simp
  · next b hb =>
    have hle := byteIndex_le hb
    split
    · unfold onNewline
      split
      · simp
      · rw [root_stop P, if_neg (by omega)]
        split
        · simp
        · next t ht =>
          dsimp only
          split
          · simp
          · split
            · simp
            · next sc hsc =>
              obtain ⟨x, hx⟩ := continuation_some P width s o (prevSemicolon_some hsc).1 (repeatText (tabUnit o) (braceDepth t))
              rw [hx]
              simp
    · split
      · exact hterm _ _ _ hle
      · split
        · exact hterm _ _ _ hle
        · simp

/-! ## The indentation -/

theorem path_of_start {g : Green} {L R : List Red} {t : Red} (h : (Red.root g).tokens = L ++ t :: R)
    (hne : ∀ p ∈ g.leaves, p.2 ≠ []) : ∀ x ∈ L, x.path ≠ t.path := by
  intro x hx he
  have hin : ∀ y ∈ (Red.root g).tokens, InTree g y := by
    intro y hy
    unfold Red.tokens at hy
    exact mem_descendantsT_root.1 (List.mem_filter.1 hy).1
  have hxt : x = t := (hin x (by rw [h]; simp [hx])).path_inj (hin t (by rw [h]; simp)) he
  subst hxt
  obtain ⟨L1, L2, rfl⟩ := List.append_of_mem hx
  obtain ⟨h1, h2⟩ := tokens_row (Red.root g)
  have h1 : (Red.root g).tokens.map Red.kt = g.leaves := h1
  rw [h] at h2
  have e1 := row_split (a := L1) (b := x :: (L2 ++ x :: R)) (by simpa using h2)
  have e2 := row_split (a := L1 ++ x :: L2) (b := x :: R) (by simpa using h2)
  have e1 := e1.1
  have e2 := e2.1
  have hx0 : x.text ≠ [] := hne x.kt (by rw [← h1, h]; simp)
  have := blen_pos hx0
  have e3 : blen (flat ((L1 ++ x :: L2).map Red.kt)) = blen (flat (L1.map Red.kt)) + blen x.text + blen (flat (L2.map Red.kt)) := by
    simp [flat, Red.kt, blen_append]; omega
  omega

theorem find_reverse_filter {α : Type} (p : α → Bool) (l : List α) : l.reverse.find? p = (l.filter p).getLast? := by
  rw [← List.head?_filter, List.filter_reverse, List.head?_reverse]

/-- The last significant token in front of a token. -/
theorem prevSemicolon_iff {g : Green} {L R : List Red} {t : Red} (h : (Red.root g).tokens = L ++ t :: R)
    (hne : ∀ p ∈ g.leaves, p.2 ≠ []) :
    (prevSemicolon g t = none ↔ ((sigPairs (L.map Red.kt)).getLast?).map (·.1) ≠ some K.Semicolon) := by
  have hL : tokensBefore g t = L.reverse := by
    unfold tokensBefore
    rw [h, List.takeWhile_append_of_pos]
    · rw [List.takeWhile_cons]; simp
    · intro x hx
      simpa using path_of_start h hne x hx
  unfold prevSemicolon
  rw [hL, find_reverse_filter]
  have : sigPairs (L.map Red.kt) = (L.filter (fun x => !(x.kind == K.WHITESPACE || x.kind == K.Comment))).map Red.kt := by
    unfold sigPairs
    rw [List.filter_map]
    rfl
  rw [this, List.getLast?_map]
  cases (L.filter (fun x => !(x.kind == K.WHITESPACE || x.kind == K.Comment))).getLast? with
  | none => simp
  | some x =>
    simp only [Option.map_some]
    split
    · next hk => simp [Red.kt, hk]
    · next hk => simp [Red.kt, hk]

theorem prevSemicolon_split {g : Green} {L R : List Red} {t sc : Red} (h : (Red.root g).tokens = L ++ t :: R)
    (hne : ∀ p ∈ g.leaves, p.2 ≠ []) (hs : prevSemicolon g t = some sc) :
    ∃ L₁ L₂, L = L₁ ++ sc :: L₂ ∧ sc.start = blen (flat (L₁.map Red.kt)) ∧ sigPairs (L₂.map Red.kt) = [] := by
  have hL : tokensBefore g t = L.reverse := by
    unfold tokensBefore
    rw [h, List.takeWhile_append_of_pos]
    · rw [List.takeWhile_cons]; simp
    · intro x hx
      simpa using path_of_start h hne x hx
  unfold prevSemicolon at hs
  split at hs
  · cases hs
  · next x hx =>
    split at hs
    · cases hs
      rw [hL, List.find?_eq_some_iff_append] at hx
      obtain ⟨-, a, b, e, ha⟩ := hx
      have e := congrArg List.reverse e
      simp only [List.reverse_reverse, List.reverse_append, List.reverse_cons, List.append_assoc, List.singleton_append] at e
      refine ⟨b.reverse, a.reverse, e, ?_, ?_⟩
      · obtain ⟨_, r2⟩ := tokens_row (Red.root g)
        rw [h, e] at r2
        have := (row_split (a := b.reverse) (b := sc :: (a.reverse ++ t :: R)) (by simpa using r2)).1
        rw [this]
        show 0 + _ = _
        omega
      · unfold sigPairs
        rw [List.filter_eq_nil_iff]
        intro p hp
        obtain ⟨y, hy, rfl⟩ := List.mem_map.1 hp
        have := ha y (List.mem_reverse.1 hy)
        simp only [Bool.not_not] at this
        simp only [Red.kt, this, Bool.not_true, Bool.false_eq_true, not_false_eq_true]
    · cases hs

/-- **C50.** The inserted blanks: as many tab units as the indentation depth (C40) of the token at the cursor; behind a `;` one
more, or, if predicates are aligned, as many blanks as the text in front of the first predicate of the triple is wide. -/
theorem c50_indent (errLen : Text → Nat) (text : Text) (g errs) (hp : parseSource errLen text = some (g, errs))
    (width : Char → Nat) (s : TypeSettings) (o : TypeOptions) (pos : Position) (edits : List TextEdit)
    (h : onType width s o text g pos ['\n'] = .ok (some edits)) :
    ∃ (A : List (Kind × Text)) (t : Red) (B : List (Kind × Text)) (range : Range) (new : Text), InTree g t ∧ t.isNode = false ∧ tokenPairs errLen text = A ++ (t.kind, t.text) :: B ∧
      t.start = blen (flat A) ∧ edits = [⟨range, new⟩] ∧
      (((sigPairs A).getLast?).map (·.1) ≠ some K.Semicolon → new = repeatText (tabUnit o) (braceDepth t)) ∧
      (((sigPairs A).getLast?).map (·.1) = some K.Semicolon →
        (s.alignPredicates = false ∧ new = repeatText (tabUnit o) (braceDepth t) ++ tabUnit o) ∨
        (s.alignPredicates = true ∧ ∃ sc A₁ A₂, InTree g sc ∧ sc.kind = K.Semicolon ∧ A = A₁ ++ (sc.kind, sc.text) :: A₂ ∧
          sc.start = blen (flat A₁) ∧ sigPairs A₂ = [] ∧
          ((∃ triple p before after, triple ∈ Red.chain sc.up ∧ triple.kind = K.TriplesSameSubjectPath ∧
              p ∈ triple.childrenT ∧ (p.kind = K.PropertyListPath ∨ p.kind = K.PropertyListPathNotEmpty) ∧
              text = before ++ p.text ++ after ∧ blen before = p.start ∧
              new = List.replicate ((lastLine before).map width).sum ' ') ∨
           (alignColumn width text sc = some none ∧ new = repeatText (tabUnit o) (braceDepth t) ++ tabUnit o)))) := by
  have P := parsed_of hp
  unfold onType at h
  split at h
  · cases h
  · next b hb =>
    rw [if_pos rfl] at h
    obtain ⟨post0, t, new, h1, h2, h3, h4, h5⟩ := onNewline_ok h
    obtain ⟨pre, e1, rfl⟩ := charBefore_some h1
    obtain ⟨L, R, u, v0, t1, t2, t3, t4, t5⟩ := cursor_token P e1 h2
    obtain ⟨hin, hnode, -⟩ := tokenAtLeft_spec h2
    have hleaves : g.leaves = tokenPairs errLen text := source_leaves hp
    have hstart : t.start = blen (flat (L.map Red.kt)) := by
      obtain ⟨_, r2⟩ := tokens_row (Red.root g)
      rw [t1] at r2
      have := (row_split r2).1
      rw [this]
      show 0 + _ = _
      omega
    have hps := prevSemicolon_iff t1 P.leaf_nonempty
    refine ⟨L.map Red.kt, t, R.map Red.kt, _, new, hin, hnode, by rw [← hleaves, t2]; rfl, hstart, h4, ?_, ?_⟩
    · intro hn
      rcases h5 with ⟨-, rfl⟩ | ⟨sc, hsc, -⟩
      · rfl
      · rw [hps.2 hn] at hsc; cases hsc
    · intro hy
      rcases h5 with ⟨hn, -⟩ | ⟨sc, hsc, hc⟩
      · exact absurd hy (hps.1 hn)
      · obtain ⟨hscin, hsck⟩ := prevSemicolon_some hsc
        obtain ⟨L₁, L₂, l1, l2, l3⟩ := prevSemicolon_split t1 P.leaf_nonempty hsc
        unfold continuation at hc
        split at hc
        · next ha =>
          refine Or.inr ⟨ha, sc, L₁.map Red.kt, L₂.map Red.kt, hscin, hsck, by rw [l1]; simp [Red.kt], l2, l3, ?_⟩
          split at hc
          · cases hc
          · next col hcol =>
            left
            cases hc
            unfold alignColumn at hcol
            split at hcol
            · cases hcol
            · next triple htr =>
              split at hcol
              · cases hcol
              · next p hpl =>
                obtain ⟨q1, q2, q3⟩ := tripleAbove_some hscin htr
                obtain ⟨q4, q5⟩ := propertyList_some q1 hpl
                obtain ⟨a, b, w1, w2⟩ := q4.text
                rw [P.text_eq] at w1
                refine ⟨triple, p, a, b, q3, q2, q5, ?_, w1, w2.symm, ?_⟩
                · unfold propertyList at hpl
                  split at hpl
                  · cases hpl
                  · split at hpl
                    · next hk => cases hpl; exact hk
                    · cases hpl
                · rw [w1, List.append_assoc, w2, columnAt_some] at hcol
                  simp only [Option.map_some, Option.some.injEq] at hcol
                  rw [hcol]
          · next hcol => cases hc; exact Or.inr ⟨hcol, rfl⟩
        · next ha => cases hc; exact Or.inl ⟨by simpa using ha, rfl⟩

/-! ## Concrete documents -/

/-- The edits of a reply, for comparison. -/
def editList : Reply (Option (List TextEdit)) → Option (List TextEdit)
  | .ok (some e) => some e
  | _ => none

/-- `SELECT * {?s ?p ?o; \n}`, predicates aligned: behind the line break, blanks up to the column of `?p` are inserted; behind
the `;`, its blank is replaced by a line break and blanks up to that column. -/
theorem c50_example :
    parseSource (fun _ => 1) ontypeText = some (ontypeTree, []) ∧
    editList (onType (fun _ => 1) ⟨true, true⟩ ⟨2, true⟩ ontypeText ontypeTree ⟨1, 0⟩ ['\n']) =
      some [⟨⟨⟨1, 0⟩, ⟨1, 0⟩⟩, List.replicate 13 ' '⟩] ∧
    editList (onType (fun _ => 1) ⟨true, true⟩ ⟨2, true⟩ ontypeText ontypeTree ⟨0, 19⟩ [';']) =
      some [⟨⟨⟨0, 19⟩, ⟨0, 20⟩⟩, '\n' :: List.replicate 13 ' '⟩] ∧
    editList (onType (fun _ => 1) ⟨false, true⟩ ⟨2, false⟩ ontypeText ontypeTree ⟨0, 19⟩ [';']) =
      some [⟨⟨⟨0, 19⟩, ⟨0, 20⟩⟩, ['\n', '\t', '\t']⟩] :=
  ⟨ontypeTree_parse, by decide +kernel, by decide +kernel, by decide +kernel⟩

/-- `SELECT * {?s ?p [\n], """\n"""}`: the line break in `[ ]` is indented, the one in the string is not. -/
theorem c50_string_example :
    parseSource (fun _ => 1) onstrText = some (onstrTree, []) ∧
    editList (onType (fun _ => 1) ⟨true, true⟩ ⟨2, true⟩ onstrText onstrTree ⟨1, 0⟩ ['\n']) =
      some [⟨⟨⟨1, 0⟩, ⟨1, 0⟩⟩, [' ', ' ']⟩] ∧
    editList (onType (fun _ => 1) ⟨true, true⟩ ⟨2, true⟩ onstrText onstrTree ⟨2, 0⟩ ['\n']) = none :=
  ⟨onstrTree_parse, by decide +kernel, by decide +kernel⟩

end Verif.Props
