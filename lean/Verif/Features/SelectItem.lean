import Verif.Features.SelectPut
import Verif.Props.AddFilter
/-!
# Adding an item to a select clause
-/
namespace Verif.Props
open Verif Verif.Grammar Verif.Lexer Verif.Features Verif.Format

/-- The outcome of replacing the tokens `D` at the offset by `I`: the edit does just that, the new document is read as the other tokens with `I` in
between, and it is valid and of the same type. -/
def Replaced (errLen : Text → Nat) (text : Text) (g : Green) (edit : TextEdit) (off : Nat) (D I : List (Kind × Text)) : Prop :=
  ∃ A B g', tokenPairs errLen text = A ++ D ++ B ∧ blen (flat A) = off ∧ edit = ⟨⟨posOf (flat A), posOf (flat A ++ flat D)⟩, flat I⟩ ∧
    applyTextEdits text [edit] = some (ensureNL (flat A ++ flat I ++ flat B)) ∧
    tokenPairs errLen (flat A ++ flat I ++ flat B) = A ++ I ++ B ∧
    Derives sparqlRules (.node g.kind) (kinds (lex errLen (flat A ++ flat I ++ flat B))) ∧
    parseSource errLen (flat A ++ flat I ++ flat B) = some (g', []) ∧ g'.kind = g.kind

/-- Tokens that make an item of a select clause. -/
structure ItemOk (I : List (Kind × Text)) : Prop where
  rules : ∀ p ∈ I, HasRule p
  noErr : ∀ p ∈ I, p.1 ≠ K.Error
  chain : okChain (K.WHITESPACE :: I.map (·.1)) = true
  chain' : okChain (I.map (·.1) ++ [K.WHITESPACE]) = true
  item : Derives sparqlRules ruleItem (sigK I)
  calm : Calm (flat I)
  first : ∃ c0 i, flat I = c0 :: i ∧ c0 ∈ openers

theorem okChain_tail {k : Kind} {l : List Kind} (h : okChain (k :: l) = true) : okChain l = true := by
  cases l with
  | nil => rfl
  | cons k' l => simp only [okChain, Bool.and_eq_true] at h; exact h.2

theorem blank_rule : HasRule (K.WHITESPACE, [' ']) := hasRule_of (by decide +kernel)

/-- Variables can be continued. -/
theorem var_more {k : Kind} (hk : k = K.VAR1 ∨ k = K.VAR2) {w : Text} (h : HasRule (k, w)) {c : Char}
    (hc : Class.has [(0x46, 0x46), (0x57, 0x57), (0x66, 0x66), (0x77, 0x77)] c = true) : ∃ r ∈ lexRules, r.boundary = false ∧ Matches r.re (w ++ [c]) := by
  obtain ⟨r, hr, hrk, hm⟩ := h
  refine ⟨r, hr, ?_, ?_⟩
  · have : lexRules.all (fun r => !(r.kind == K.VAR1 || r.kind == K.VAR2) || !r.boundary) = true := by decide +kernel
    have := List.all_eq_true.1 this r hr
    have hrk : r.kind = k := hrk
    rw [hrk] at this
    rcases hk with rfl | rfl <;> simpa using this
  · have hall : lexRules.all (fun r => !(r.kind == K.VAR1 || r.kind == K.VAR2) || everyState (fun q => !q.nullable ||
        (repsIn [(0x46, 0x46), (0x57, 0x57), (0x66, 0x66), (0x77, 0x77)] q).all (fun n => (q.derivN n).nullable)) r.re) = true := by decide +kernel
    have := List.all_eq_true.1 hall r hr
    have hrk : r.kind = k := hrk
    rw [hrk] at this
    have he : everyState (fun q => !q.nullable ||
        (repsIn [(0x46, 0x46), (0x57, 0x57), (0x66, 0x66), (0x77, 0x77)] q).all (fun n => (q.derivN n).nullable)) r.re = true := by
      rcases hk with rfl | rfl <;> simpa using this
    have hs := everyState_sound he (by rfl) w
    have hnull : (r.re.derivs w).nullable = true := by
      rw [nullable_iff, derivs_iff]; simpa using hm
    rw [hnull, Bool.not_true, Bool.false_or] at hs
    obtain ⟨n, hn, e⟩ := repsIn_spec (q := r.re.derivs w) hc
    have := List.all_eq_true.1 hs n hn
    rw [e, nullable_iff, deriv_iff, derivs_iff] at this
    exact this

section
variable {errLen : Text → Nat} {text : Text} {g : Green} {errs : List SyntaxErr} (hp : parseSource errLen text = some (g, errs))
  (hd : Derives sparqlRules (.node g.kind) (kinds (lex errLen text)))
include hp hd

/-- A token and what follows. -/
theorem longest_token {A B : List Red} {q : Red} (e : (Red.root g).tokens = A ++ q :: B) :
    Longest (q.text ++ flat (B.map Red.kt)) q.kind q.text := by
  have hL : Lexes text (tokenPairs errLen text) := c47_longest_match errLen text
  have hE := valid_noError hd
  rw [← tokens_pairs hp, e, List.map_append, List.map_cons] at hL hE
  have h := lexes_suffix hL
  have hq := hE q.kt (by simp)
  generalize hx : flat (q.kt :: B.map Red.kt) = x at h
  generalize hl : q.kt :: B.map Red.kt = l at h
  cases h with
  | nil => cases hl
  | @err w after l' h' hw hs' => injection hl with hl _; exact absurd (congrArg Prod.fst hl) hq
  | @tok k w after l' h' hs' =>
    injection hl with hl1 hl2
    rw [flat_cons] at hx
    have h1 : q.kind = k := congrArg Prod.fst hl1
    have h2 : q.text = w := congrArg Prod.snd hl1
    subst h1; subst h2
    have : flat (B.map Red.kt) = after := by
      have hx : q.text ++ flat (B.map Red.kt) = q.text ++ after := hx
      exact List.append_cancel_left hx
    rw [this]; exact h'

theorem no_comment {A B : List Red} {q y : Red} (e : (Red.root g).tokens = A ++ q :: y :: B) (hy : y.kind = K.Star ∨ y.kind = K.LParen) :
    q.kind ≠ K.Comment := by
  intro hk
  have h := longest_token hp hd e
  rw [hk] at h
  have h := (longest_comment.1 h).2
  have hr := all_rules hp hd y (by rw [e]; simp)
  obtain ⟨r, h1, h2, h3⟩ := hr
  have h2 : r.kind = y.kind := h2
  have hw : within commentClass r.re = true := by
    have : lexRules.all (fun r => !(r.kind == K.Star || r.kind == K.LParen) || within commentClass r.re) = true := by decide +kernel
    have := List.all_eq_true.1 this r h1
    rw [h2] at this
    rcases hy with hy | hy <;> rw [hy] at this <;> simpa using this
  obtain ⟨c, v, hcv⟩ := rule_cons h1 h3
  have hcv : y.text = c :: v := hcv
  have h3 : Matches r.re y.text := h3
  have hc := within_has h3 hw c (by rw [hcv]; simp)
  have := h c (v ++ flat (B.map Red.kt)) (by rw [List.map_cons, flat_cons]; show y.text ++ _ = _; rw [hcv]; rfl)
  rw [this] at hc; cases hc

/-- A variable is not followed by a letter. -/
theorem var_no_letter {A B : List Red} {q y : Red} (e : (Red.root g).tokens = A ++ q :: y :: B) (hq : q.kind = K.VAR1 ∨ q.kind = K.VAR2) :
    y.kind ≠ K.FROM ∧ y.kind ≠ K.WHERE := by
  have h := longest_token hp hd e
  have hqr : HasRule (q.kind, q.text) := all_rules hp hd q (by rw [e]; simp)
  obtain ⟨r, h1, h2, h3⟩ := all_rules hp hd y (by rw [e]; simp)
  have h2 : r.kind = y.kind := h2
  have h3 : Matches r.re y.text := h3
  obtain ⟨c, v, hcv⟩ := rule_cons h1 h3
  have hcv : y.text = c :: v := hcv
  have key : (y.kind = K.FROM ∨ y.kind = K.WHERE) → False := by
    intro hy
    have hc : Class.has [(0x46, 0x46), (0x57, 0x57), (0x66, 0x66), (0x77, 0x77)] c = true := by
      have : lexRules.all (fun r => !(r.kind == K.FROM || r.kind == K.WHERE) || subClass (firsts r.re) [(0x46, 0x46), (0x57, 0x57), (0x66, 0x66), (0x77, 0x77)]) = true := by
        decide +kernel
      have := List.all_eq_true.1 this r h1
      rw [h2] at this
      have hs : subClass (firsts r.re) [(0x46, 0x46), (0x57, 0x57), (0x66, 0x66), (0x77, 0x77)] = true := by
        rcases hy with hy | hy <;> rw [hy] at this <;> simpa using this
      exact sub_has hs (firsts_has h3 c v hcv)
    obtain ⟨r', h4, h5, h6⟩ := var_more hq hqr hc
    have := h.longest r' h4 (q.text ++ [c]) ⟨v ++ flat (B.map Red.kt), by rw [List.map_cons, flat_cons]; show q.text ++ (y.text ++ _) = _; rw [hcv]; simp [List.append_assoc], h6,
      fun hb => by rw [h5] at hb; cases hb⟩
    simp at this
    exact Nat.not_succ_le_self _ this
  exact ⟨fun h => key (.inl h), fun h => key (.inr h)⟩

omit hd in
theorem replaced_of {A D B : List Red} (e : (Red.root g).tokens = A ++ D ++ B) {I : List (Kind × Text)}
    (h : text = flat (A.map Red.kt) ++ flat (D.map Red.kt) ++ flat (B.map Red.kt) ∧
      tokenPairs errLen (flat (A.map Red.kt) ++ flat I ++ flat (B.map Red.kt)) = A.map Red.kt ++ I ++ B.map Red.kt ∧
      Derives sparqlRules (.node g.kind) (kinds (lex errLen (flat (A.map Red.kt) ++ flat I ++ flat (B.map Red.kt)))) ∧
      ∃ g', parseSource errLen (flat (A.map Red.kt) ++ flat I ++ flat (B.map Red.kt)) = some (g', []) ∧ g'.kind = g.kind) :
    Replaced errLen text g ⟨⟨posOf (flat (A.map Red.kt)), posOf (flat (A.map Red.kt) ++ flat (D.map Red.kt))⟩, flat I⟩ (blen (flat (A.map Red.kt)))
      (D.map Red.kt) I := by
  obtain ⟨h1, h2, h3, g', h4, h5⟩ := h
  refine ⟨A.map Red.kt, B.map Red.kt, g', ?_, rfl, rfl, ?_, h2, h3, h4, h5⟩
  · rw [← tokens_pairs hp, e, List.map_append, List.map_append]
  · conv_lhs => rw [h1]
    have := apply_one (pre := flat (A.map Red.kt)) (old := flat (D.map Red.kt)) (post := flat (B.map Red.kt)) (new := flat I)
    rw [List.append_assoc, this]; simp

omit hp hd in
/-- The offset of the text in front of a row of tokens. -/
theorem blen_front {A B : List Red} {t : Red} (e : (Red.root g).tokens = A ++ t :: B) : blen (flat (A.map Red.kt)) = t.start := by
  have hrow := (tokens_row (Red.root g)).2
  rw [e] at hrow
  have := (row_split hrow).1
  rw [this, show (Red.root g).start = 0 from rfl, Nat.zero_add]

/-- **A star replaced.** -/
theorem put_star {s c t : Red} (hs : IsSelect g s) (hc : Part s K.SelectClause c) (ht : t ∈ c.childrenT) (htk : t.kind = K.Star)
    {I : List (Kind × Text)} (hI : ItemOk I)
    (hlast : ∀ p I0, I = I0 ++ [p] → ∀ y ∈ (Red.root g).tokens, y.start = t.stop → (triviaKind y.kind = true ∨ y.kind ∈ [K.FROM, K.WHERE, K.LCurly]) → touch p.1 y.kind = true) :
    c.childrenT.getLast? = some t ∧ c.stop = t.start + 1 ∧ firstParen c = none ∧ ∃ A,
      text = A ++ ['*'] ++ (text.drop (A ++ ['*']).length) ∧ blen A = t.start ∧
      Replaced errLen text g ⟨⟨posOf A, posOf (A ++ ['*'])⟩, flat I⟩ t.start [(K.Star, ['*'])] I := by
  have P := parsed_of hp
  have hC := complete_of hp hd
  obtain ⟨L, R, pl⟩ := clause_place P hC hs hc
  obtain ⟨hcm, hcn, hck⟩ := hc
  have hcT := hs.1.child hcm
  have hcu : c.up ≠ [] := by rw [child_up hcm]; simp
  obtain ⟨H, M, hd'⟩ := clause_head P hC hcT hcn hck
  have hts : t.sig = true := by simp only [Red.sig, htk]; decide
  have htM : M = [t] ∧ t.isNode = false := by
    have hm : t ∈ H ++ M := by rw [← hd'.eq]; exact mem_sigC.2 ⟨ht, hts⟩
    rcases List.mem_append.1 hm with h | h
    · have := (hd'.head t h).2; rw [htk] at this; exfalso; revert this; decide
    · rcases hd'.items with ⟨t', e, h1, h2⟩ | ⟨-, hw⟩
      · rw [e, List.mem_singleton] at h; subst h; exact ⟨e, h1⟩
      · exfalso
        have hin : symOf t ∈ M.map symOf := List.mem_map.2 ⟨t, h, rfl⟩
        have hno : ∀ s ∈ M.map symOf, s ≠ .tok K.Star ∧ s ≠ .node K.Star := by
          have hs' := allSyms_sound (f := fun s => s != .tok K.Star && s != .node K.Star) hw (by decide)
          intro s h
          have := hs' s h
          simpa using this
        have := hno _ hin
        cases hn : t.isNode with
        | true => rw [symOf_node hn, htk] at this; exact this.2 rfl
        | false => rw [symOf_tok hn, htk] at this; exact this.1 rfl
  obtain ⟨rfl, htn⟩ := htM
  obtain ⟨X, y, hXy, hys⟩ := last_sig P hcT hcn hcu
  have hXf : X.filter Red.sig = H ∧ y = t := by
    have : X.filter Red.sig ++ [y] = H ++ [t] := by
      rw [← hd'.eq]; unfold sigC
      rw [hXy, List.filter_append, List.filter_cons_of_pos hys]; rfl
    obtain ⟨h1, h2⟩ := List.append_inj' this rfl
    exact ⟨h1, by simpa using h2⟩
  obtain ⟨hXf, rfl⟩ := hXf
  have hXm : ∀ x ∈ X, x ∈ c.childrenT := fun x hx => by rw [hXy]; simp [hx]
  have hct : c.tokens = X.flatMap Red.tokens ++ [y] := by
    rw [tokens_eq c, if_pos hcn, hXy, List.flatMap_append, List.flatMap_cons, tokens_tok htn]; simp
  have hroot : (Red.root g).tokens = (L ++ X.flatMap Red.tokens) ++ [y] ++ R := by rw [pl.eq, hct]; simp
  have hXk : ∀ t ∈ X.flatMap Red.tokens, t.kind ∈ frontKinds ∨ t.kind = K.Comment := by
    intro t ht
    rcases token_word P hcT hXm ht with h | ⟨x, hx, hxw⟩
    · have : t.kind = K.WHITESPACE ∨ t.kind = K.Comment := by simpa [triviaKind] using h
      rcases this with h | h
      · rw [h]; exact .inl (by decide)
      · exact .inr h
    · left
      have hxs := (List.mem_filter.1 hx).2
      rw [hXf] at hx
      obtain ⟨h1, h2⟩ := hd'.head x hx
      rw [word_tok h1 hxs, List.mem_singleton] at hxw
      rw [hxw]
      simp only [List.mem_cons, List.not_mem_nil, or_false] at h2
      rcases h2 with h | h | h <;> rw [h] <;> decide
  have hXne : X.flatMap Red.tokens ≠ [] := by
    intro h0
    have := flat_words P hcT hXm
    rw [h0, hXf] at this
    obtain ⟨x, H', eH⟩ := List.exists_cons_of_ne_nil hd'.ne
    rw [eH, List.map_cons, List.flatten_cons, word_tok (hd'.head x (by rw [eH]; simp)).1 ((List.mem_filter.1 (show x ∈ X.filter Red.sig by rw [hXf, eH]; simp)).2)] at this
    cases this
  obtain ⟨X0, q, hX0⟩ : ∃ X0 q, X.flatMap Red.tokens = X0 ++ [q] := by
    rcases List.eq_nil_or_concat (X.flatMap Red.tokens) with h | ⟨X0, q, h⟩
    · exact absurd h hXne
    · exact ⟨X0, q, by rw [h, List.concat_eq_append]⟩
  have hqk : q.kind ∈ frontKinds := by
    rcases hXk q (by rw [hX0]; simp) with h | h
    · exact h
    · exact absurd h (no_comment hp hd (A := L ++ X0) (q := q) (y := y) (B := R) (by rw [hroot, hX0]; simp) (.inl htk))
  have hstar : y.kt = (K.Star, ['*']) := by
    have hr := all_rules hp hd y (by rw [hroot]; simp)
    have hm : Matches rule_Star.re y.text := lexed_rule hr htk (by decide +kernel)
    obtain ⟨c', e', hc'⟩ := matches_cls.1 hm
    have hc' : 0x2A ≤ c'.toNat ∧ c'.toNat ≤ 0x2A := by simpa [Class.has] using hc'
    have : c' = '*' := Char.ext (UInt32.toNat_inj.1 (show c'.toNat = 0x2A by omega))
    rw [this] at e'
    show (y.kind, y.text) = _
    rw [htk, e']
  have hAb : blen (flat ((L ++ X.flatMap Red.tokens).map Red.kt)) = y.start := blen_front (g := g) (B := R) (by rw [hroot]; simp)
  have hDflat : flat ([y].map Red.kt) = ['*'] := by rw [List.map_cons, List.map_nil, hstar]; rfl
  obtain ⟨c0, i, hflat, hc0⟩ := hI.first
  have hput := put_opener hp hd (A := L ++ X.flatMap Red.tokens) (D := [y]) (B := R) hroot (pl.front.add (by
      intro t ht
      rcases hXk t ht with h | h
      · intro hl
        have : frontKinds.all (fun k => !lessKinds.contains k) = true := by decide
        have := List.all_eq_true.1 this _ h
        rw [List.contains_iff_mem.2 hl] at this; cases this
      · rw [h]; decide)) (A0 := L ++ X0) (q := q) (by rw [hX0]; simp) hqk
    (by intro c h; rw [hDflat, List.mem_singleton] at h; rw [h]; decide)
    (by intro t ht; rw [List.mem_singleton.1 ht, htk]; decide) hc0 hflat hI.rules hI.noErr (okChain_tail hI.chain)
    (by
      intro p I0 eI z B' eB
      refine hlast p I0 eI z (by rw [hroot, eB]; simp) ?_ ?_
      · have h1 := (tokens_row (Red.root g)).2
        rw [show (Red.root g).tokens = (L ++ X.flatMap Red.tokens) ++ (y :: z :: B') by rw [hroot, eB]; simp] at h1
        exact (row_split h1).2.1
      · cases htr : triviaKind z.kind with
        | true => exact .inl rfl
        | false =>
          right
          obtain ⟨k, rest, h1, h2⟩ := pl.ahead
          rw [eB] at h1
          have hs : sigKs (z :: B') = z.kind :: sigKs B' := by
            unfold sigKs
            rw [List.filter_cons_of_pos (by simp [htr])]
            rfl
          rw [hs] at h1
          injection h1 with h1 _
          rw [h1]; exact h2)
    (by rw [← hflat]; exact hI.calm)
    (by
      have h1 := hd'.fill (sigK I) (by
        have := Derives.seq ruleItem (.rep ruleItem) (sigK I) [] hI.item (.repNil _)
        rw [List.append_nil] at this
        exact this)
      have h2 := pl.fill _ h1
      rw [sigKs_append, flat_words P hcT hXm, hXf]
      simpa using h2)
  have hrep := replaced_of hp hroot hput
  rw [hDflat, hAb] at hrep
  refine ⟨by rw [hXy]; simp, ?_, ?_, flat ((L ++ X.flatMap Red.tokens).map Red.kt), ?_, hAb, ?_⟩
  · have h1 := (tokens_row c).2
    rw [hct] at h1
    have h2 := row_stop h1
    have h3 : y.stop = c.stop := by
      rw [h2, lv_flat, ← hct, (tokens_row c).1, flat_leaves]
      rfl
    rw [← h3]
    show y.start + blen y.text = _
    rw [show y.text = ['*'] from congrArg Prod.snd hstar]
    rfl
  · unfold firstParen
    rw [List.find?_eq_none]
    intro x hx h
    have hxk : x.kind = K.LParen := by simpa using h
    have hxs : x.sig = true := by simp only [Red.sig, hxk]; decide
    have : x ∈ H ++ [y] := by rw [← hd'.eq]; exact mem_sigC.2 ⟨hx, hxs⟩
    rcases List.mem_append.1 this with h | h
    · have := (hd'.head x h).2; rw [hxk] at this; revert this; decide
    · rw [List.mem_singleton.1 h, htk] at hxk; revert hxk; decide
  · have := hput.1
    rw [hDflat] at this
    conv_rhs => rw [this]
    rw [List.drop_left]
    exact this
  · rw [show [(K.Star, ['*'])] = [y].map Red.kt by rw [List.map_cons, List.map_nil, hstar]]
    exact hrep


omit hp hd in
theorem sigK_blank (I : List (Kind × Text)) : sigK (I ++ [(K.WHITESPACE, [' '])]) = sigK I ∧ sigK ((K.WHITESPACE, [' ']) :: I) = sigK I := by
  constructor
  · rw [sigK_append]
    exact List.append_nil _
  · rfl

/-- **In front of the first assignment.** -/
theorem put_before {s c lp : Red} (hs : IsSelect g s) (hc : Part s K.SelectClause c) (hlp : firstParen c = some lp)
    {I : List (Kind × Text)} (hI : ItemOk I) :
    (∃ l, c.childrenT.getLast? = some l ∧ l.kind ≠ K.Star) ∧ ∃ A B, text = A ++ B ∧ blen A = lp.start ∧
      Replaced errLen text g ⟨⟨posOf A, posOf A⟩, flat I ++ [' ']⟩ lp.start [] (I ++ [(K.WHITESPACE, [' '])]) := by
  have P := parsed_of hp
  have hC := complete_of hp hd
  obtain ⟨L, R, pl⟩ := clause_place P hC hs hc
  obtain ⟨hcm, hcn, hck⟩ := hc
  have hcT := hs.1.child hcm
  have hcu : c.up ≠ [] := by rw [child_up hcm]; simp
  obtain ⟨H, M, hd'⟩ := clause_head P hC hcT hcn hck
  obtain ⟨hlk, X, Y, hXY, hX⟩ := List.find?_eq_some_iff_append.1 hlp
  have hlk : lp.kind = K.LParen := by simpa using hlk
  have hX : ∀ x ∈ X, x.kind ≠ K.LParen := fun x hx => by simpa using hX x hx
  have hls : lp.sig = true := by simp only [Red.sig, hlk]; decide
  have hlm : lp ∈ c.childrenT := by rw [hXY]; simp
  have hln : lp.isNode = false := by
    cases h : lp.isNode with
    | false => rfl
    | true =>
      exfalso
      have h1 := sigC_whole P hC hcT hcn (by rw [hck]; exact r_clause)
      have h2 := allSyms_sound (f := fun s => s != .node K.LParen) h1 (by decide) (symOf lp) (List.mem_map.2 ⟨lp, mem_sigC.2 ⟨hlm, hls⟩, rfl⟩)
      rw [symOf_node h, hlk] at h2
      revert h2; decide
  have hsig : X.filter Red.sig ++ lp :: Y.filter Red.sig = H ++ M := by
    rw [← hd'.eq]; unfold sigC; rw [hXY, List.filter_append, List.filter_cons_of_pos hls]
  have hlH : lp ∉ H := by
    intro h
    have := (hd'.head lp h).2; rw [hlk] at this; revert this; decide
  obtain ⟨u, hXu, hMu⟩ : ∃ u, X.filter Red.sig = H ++ u ∧ M = u ++ lp :: Y.filter Red.sig := by
    rcases List.append_eq_append_iff.1 hsig with ⟨z, e1, e2⟩ | ⟨z, e1, e2⟩
    · cases z with
      | nil => exact ⟨[], by simpa using e1.symm, e2.symm⟩
      | cons b z =>
        injection e2 with e2 _
        exact absurd (by rw [e1, e2]; simp) hlH
    · exact ⟨z, e1, e2⟩
  have hitems : Whole sparqlRules (.rep ruleItem) (M.map symOf) := by
    rcases hd'.items with ⟨t, e, h1, h2⟩ | ⟨-, hw⟩
    · exfalso
      have : lp ∈ M := by rw [hMu]; simp
      rw [e, List.mem_singleton] at this
      rw [← this, hlk] at h2; revert h2; decide
    · exact hw
  have hXm : ∀ x ∈ X, x ∈ c.childrenT := fun x hx => by rw [hXY]; simp [hx]
  have hYm : ∀ x ∈ lp :: Y, x ∈ c.childrenT := fun x hx => by rw [hXY]; exact List.mem_append_right _ hx
  have hum : ∀ x ∈ u, x ∈ X ∧ x.sig = true := fun x hx => List.mem_filter.1 (by rw [hXu]; exact List.mem_append_right _ hx)
  have hspl := whole_items_split hitems rfl (u := u.map symOf) (v := (Y.filter Red.sig).map symOf) (by
    rw [hMu, List.map_append, List.map_cons, symOf_tok hln, hlk])
  have huv : ∀ x ∈ u, symOf x = .node K.Var := by
    intro x hx
    refine whole_vars hspl.1 rfl ?_ _ (List.mem_map.2 ⟨x, hx, rfl⟩)
    intro h
    obtain ⟨y, hy, hyk⟩ := List.mem_map.1 h
    exact hX y (hum y hy).1 (symOf_eq_tok.1 hyk).2
  have hct : c.tokens = X.flatMap Red.tokens ++ (lp :: Y).flatMap Red.tokens := by
    rw [tokens_eq c, if_pos hcn, hXY, List.flatMap_append]
  have hroot : (Red.root g).tokens = (L ++ X.flatMap Red.tokens) ++ [] ++ ((lp :: Y).flatMap Red.tokens ++ R) := by rw [pl.eq, hct]; simp
  have hBl : (lp :: Y).flatMap Red.tokens ++ R = lp :: (Y.flatMap Red.tokens ++ R) := by
    rw [List.flatMap_cons, tokens_tok hln]; simp
  have hXk : ∀ t ∈ X.flatMap Red.tokens, t.kind ∈ frontKinds ∨ t.kind = K.Comment := by
    intro t ht
    rcases token_word P hcT hXm ht with h | ⟨x, hx, hxw⟩
    · have : t.kind = K.WHITESPACE ∨ t.kind = K.Comment := by simpa [triviaKind] using h
      rcases this with h | h
      · rw [h]; exact .inl (by decide)
      · exact .inr h
    · left
      have hxs := (List.mem_filter.1 hx).2
      have hxm := (List.mem_filter.1 hx).1
      rw [hXu] at hx
      rcases List.mem_append.1 hx with hx | hx
      · obtain ⟨h1, h2⟩ := hd'.head x hx
        rw [word_tok h1 hxs, List.mem_singleton] at hxw
        rw [hxw]
        simp only [List.mem_cons, List.not_mem_nil, or_false] at h2
        rcases h2 with h | h | h <;> rw [h] <;> decide
      · have hdv := word_derives P hC x (hcT.child (hXm x hxm)) hxs
        rw [huv x hx] at hdv
        have := kinds_within (f := fun s => s == .node K.Var || s == .tok K.VAR1 || s == .tok K.VAR2) (by decide +kernel) hdv (by decide +kernel) _ hxw
        simp only [Bool.or_eq_true, beq_iff_eq] at this
        rcases this with (h | h) | h
        · cases h
        · injection h with h; rw [h]; decide
        · injection h with h; rw [h]; decide
  have hXne : X.flatMap Red.tokens ≠ [] := by
    intro h0
    have := flat_words P hcT hXm
    rw [h0, hXu] at this
    obtain ⟨x, H', eH⟩ := List.exists_cons_of_ne_nil hd'.ne
    rw [eH, List.cons_append, List.map_cons, List.flatten_cons, word_tok (hd'.head x (by rw [eH]; simp)).1 ((List.mem_filter.1 (show x ∈ X.filter Red.sig by rw [hXu, eH]; simp)).2)] at this
    cases this
  obtain ⟨X0, q, hX0⟩ : ∃ X0 q, X.flatMap Red.tokens = X0 ++ [q] := by
    rcases List.eq_nil_or_concat (X.flatMap Red.tokens) with h | ⟨X0, q, h⟩
    · exact absurd h hXne
    · exact ⟨X0, q, by rw [h, List.concat_eq_append]⟩
  have hqk : q.kind ∈ frontKinds := by
    rcases hXk q (by rw [hX0]; simp) with h | h
    · exact h
    · exact absurd h (no_comment hp hd (A := L ++ X0) (q := q) (y := lp) (B := Y.flatMap Red.tokens ++ R) (by rw [hroot, hX0, hBl]; simp) (.inr hlk))
  have hAb : blen (flat ((L ++ X.flatMap Red.tokens).map Red.kt)) = lp.start :=
    blen_front (g := g) (B := Y.flatMap Red.tokens ++ R) (by rw [hroot, hBl]; simp)
  obtain ⟨c0, i, hflat, hc0⟩ := hI.first
  have hflat' : flat (I ++ [(K.WHITESPACE, [' '])]) = c0 :: (i ++ [' ']) := by rw [flat_snoc, hflat]; rfl
  have hput := put_opener hp hd (A := L ++ X.flatMap Red.tokens) (D := []) (B := (lp :: Y).flatMap Red.tokens ++ R) hroot (pl.front.add (by
      intro t ht
      rcases hXk t ht with h | h
      · intro hl
        have : frontKinds.all (fun k => !lessKinds.contains k) = true := by decide
        have := List.all_eq_true.1 this _ h
        rw [List.contains_iff_mem.2 hl] at this; cases this
      · rw [h]; decide)) (A0 := L ++ X0) (q := q) (by rw [hX0]; simp) hqk
    (by intro c h; cases h)
    (by intro t ht; cases ht) hc0 hflat'
    (by
      intro p hp'
      rcases List.mem_append.1 hp' with h | h
      · exact hI.rules p h
      · rw [List.mem_singleton.1 h]; exact blank_rule)
    (by
      intro p hp'
      rcases List.mem_append.1 hp' with h | h
      · exact hI.noErr p h
      · rw [List.mem_singleton.1 h]; decide)
    (by rw [List.map_append]; exact hI.chain')
    (by
      intro p I0 eI z B' eB
      have h1 := (List.append_inj' eI rfl).2
      have h1 : (K.WHITESPACE, [' ']) = p := by simpa using h1
      rw [hBl] at eB
      injection eB with eB _
      rw [← h1, ← eB, hlk]; decide +kernel)
    (by
      rw [← List.cons_append, ← hflat]
      exact calm_append hI.calm (calm_of (by decide +kernel)))
    (by
      have hu := whole_subst hspl.1 (words_derive P hC hcT (l := u) (fun x hx => ⟨hXm x (hum x hx).1, (hum x hx).2⟩))
      have hv := words_derive P hC hcT (l := lp :: Y.filter Red.sig) (fun x hx => by
        rcases List.mem_cons.1 hx with rfl | hx
        · exact ⟨hlm, hls⟩
        · have := List.mem_filter.1 hx
          exact ⟨hYm x (List.mem_cons_of_mem _ this.1), this.2⟩)
      rw [List.map_cons, symOf_tok hln, hlk] at hv
      have hv := whole_subst hspl.2 hv
      have h1 := derives_rep_append hu (derives_rep_append (derives_one hI.item) hv)
      have h2 := hd'.fill _ (derives_items h1 (by
        intro h0
        have := (List.append_eq_nil_iff.1 (List.append_eq_nil_iff.1 h0).2).2
        rw [List.map_cons, List.flatten_cons, word_tok hln hls] at this
        cases this))
      have h3 := pl.fill _ h2
      rw [sigKs_append, sigKs_append, flat_words P hcT hXm, flat_words P hcT hYm, hXu, List.filter_cons_of_pos hls, (sigK_blank I).1, List.map_append,
        List.flatten_append]
      simpa [List.append_assoc] using h3)
  have hrep := replaced_of hp hroot hput
  rw [hAb, show flat (([] : List Red).map Red.kt) = [] from rfl, List.append_nil, flat_snoc] at hrep
  refine ⟨?_, flat ((L ++ X.flatMap Red.tokens).map Red.kt), flat (((lp :: Y).flatMap Red.tokens ++ R).map Red.kt), ?_, hAb, hrep⟩
  · obtain ⟨X', y, hXy, hys⟩ := last_sig P hcT hcn hcu
    refine ⟨y, by rw [hXy]; simp, ?_⟩
    intro hyk
    have hyM : y ∈ H ++ M := by rw [← hd'.eq]; exact mem_sigC.2 ⟨by rw [hXy]; simp, hys⟩
    rcases List.mem_append.1 hyM with h | h
    · have := (hd'.head y h).2; rw [hyk] at this; revert this; decide
    · have h2 := allSyms_sound (f := fun s => s != .tok K.Star && s != .node K.Star) hitems (by decide) (symOf y) (List.mem_map.2 ⟨y, h, rfl⟩)
      cases hn : y.isNode with
      | true => rw [symOf_node hn, hyk] at h2; revert h2; decide
      | false => rw [symOf_tok hn, hyk] at h2; revert h2; decide
  · have := hput.1
    simpa [flat] using this

/-- **At the end of the clause.** -/
theorem put_end {s c : Red} (hs : IsSelect g s) (hc : Part s K.SelectClause c) (hstar : ∀ l, c.childrenT.getLast? = some l → l.kind ≠ K.Star)
    {I : List (Kind × Text)} (hI : ItemOk I) (hlast : ∀ p I0, I = I0 ++ [p] → p.1 = K.RParen ∨
      ((p.1 = K.VAR1 ∨ p.1 = K.VAR2) ∧ firstParen c = none)) :
    (∃ l, c.childrenT.getLast? = some l ∧ l.kind ≠ K.Star) ∧ ∃ A B, text = A ++ B ∧ blen A = c.stop ∧
      Replaced errLen text g ⟨⟨posOf A, posOf A⟩, ' ' :: flat I⟩ c.stop [] ((K.WHITESPACE, [' ']) :: I) := by
  have P := parsed_of hp
  have hC := complete_of hp hd
  obtain ⟨L, R, pl⟩ := clause_place P hC hs hc
  obtain ⟨hcm, hcn, hck⟩ := hc
  have hcT := hs.1.child hcm
  have hcu : c.up ≠ [] := by rw [child_up hcm]; simp
  obtain ⟨H, M, hd'⟩ := clause_head P hC hcT hcn hck
  obtain ⟨X, y, hXy, hys⟩ := last_sig P hcT hcn hcu
  have hyl : c.childrenT.getLast? = some y := by rw [hXy]; simp
  have hyne := hstar y hyl
  have hysig : sigC c = X.filter Red.sig ++ [y] := by
    unfold sigC; rw [hXy, List.filter_append, List.filter_cons_of_pos hys]; rfl
  have hMitems : M ≠ [] ∧ Whole sparqlRules (.rep ruleItem) (M.map symOf) := by
    rcases hd'.items with ⟨t, e, h1, h2⟩ | h
    · exfalso
      have : X.filter Red.sig ++ [y] = H ++ [t] := by rw [← hysig, hd'.eq, e]
      have := (List.append_inj' this rfl).2
      have : y = t := by simpa using this
      rw [this] at hyne; exact hyne h2
    · exact h
  have hym : y ∈ c.childrenT := by rw [hXy]; simp
  have hyk : symOf y = .node K.Var ∨ symOf y = .tok K.RParen := by
    have h1 := sigC_tail P hC hcT hcn (by rw [hck]; exact r_clause) hysig
    have h2 : tailSyms nullNodes ruleClause = [.node K.Var, .tok K.RParen, .tok K.Star] ∨
      (tailSyms nullNodes ruleClause).all (fun s => s == .node K.Var || s == .tok K.RParen || s == .tok K.Star) = true := .inr (by decide +kernel)
    rcases h2 with h2 | h2
    · rw [h2] at h1
      simp only [List.mem_cons, List.not_mem_nil, or_false] at h1
      rcases h1 with h | h | h
      · exact .inl h
      · exact .inr h
      · exact absurd (symOf_eq_tok.1 h).2 hyne
    · have := List.all_eq_true.1 h2 _ h1
      simp only [Bool.or_eq_true, beq_iff_eq] at this
      rcases this with (h | h) | h
      · exact .inl h
      · exact .inr h
      · exact absurd (symOf_eq_tok.1 h).2 hyne
  -- the last token
  obtain ⟨T, q, hyt, hqk⟩ : ∃ T q, y.tokens = T ++ [q] ∧ ((symOf y = .node K.Var ∧ (q.kind = K.VAR1 ∨ q.kind = K.VAR2)) ∨ (symOf y = .tok K.RParen ∧ q.kind = K.RParen)) := by
    rcases hyk with h | h
    · obtain ⟨h1, h2⟩ := symOf_eq_node.1 h
      obtain ⟨k, hk, hl, -⟩ := var_pair hp hd (hcT.child hym) h1 h2
      have := (tokens_row y).1
      rw [hl] at this
      obtain ⟨t, T', e, e1, e2⟩ := List.map_eq_cons_iff.1 this
      have : T' = [] := by simpa using e2
      subst this
      have e1 : t.kind = k := congrArg Prod.fst e1
      exact ⟨[], t, e, .inl ⟨h, by rw [e1]; exact hk⟩⟩
    · obtain ⟨h1, h2⟩ := symOf_eq_tok.1 h
      exact ⟨[], y, by rw [tokens_tok h1]; rfl, .inr ⟨h, h2⟩⟩
  have hqt : triviaKind q.kind = false := by
    rcases hqk with ⟨-, h | h⟩ | ⟨-, h⟩ <;> rw [h] <;> decide
  have hct : c.tokens = (X.flatMap Red.tokens ++ T) ++ [q] := by
    rw [tokens_eq c, if_pos hcn, hXy, List.flatMap_append, List.flatMap_cons, hyt]; simp
  have hqs : (safeOf q.kind).has ' ' = true := by
    have := (tokens_row c).1
    rw [hct, List.map_append] at this
    exact node_end P hC hcT hcn (x := q.kt) this.symm hqt
  have hroot : (Red.root g).tokens = (L ++ c.tokens) ++ [] ++ R := by rw [pl.eq]; simp
  have hAb : blen (flat ((L ++ c.tokens).map Red.kt)) = c.stop := by
    have h0 : c.tokens ≠ [] := by rw [hct]; simp
    obtain ⟨t, ct, e⟩ := List.exists_cons_of_ne_nil h0
    have h1 := blen_front (g := g) (A := L) (t := t) (B := ct ++ R) (by rw [pl.eq, e]; simp)
    have hrow := (tokens_row c).2
    have h2 : t.start = c.start := by rw [e] at hrow; exact hrow.1
    rw [List.map_append, flat_append, blen_append, h1, h2]
    have h4 := (tokens_row c).1
    rw [h4, flat_leaves]
    rfl
  have hcalm : Calm (' ' :: flat I) := by
    have : ' ' :: flat I = [' '] ++ flat I := rfl
    rw [this]
    exact calm_append (calm_of (by decide +kernel)) hI.calm
  have hput := put_tokens hp hd (A := L ++ c.tokens) (D := []) (B := R) hroot (A0 := L ++ (X.flatMap Red.tokens ++ T)) (q := q) (by rw [hct]; simp) hqt hqs
    (by intro c h; cases h) (by intro t ht; cases ht) (I := (K.WHITESPACE, [' ']) :: I) (i := flat I) (by rw [flat_cons]; rfl)
    (by
      intro p hp'
      rcases List.mem_cons.1 hp' with h | h
      · rw [h]; exact blank_rule
      · exact hI.rules p h)
    (by
      intro p hp'
      rcases List.mem_cons.1 hp' with h | h
      · rw [h]; decide
      · exact hI.noErr p h)
    (by rw [List.map_cons]; exact hI.chain)
    (by
      intro p I0 eI z B' eB
      have hIne : I ≠ [] := by
        rintro rfl
        obtain ⟨c0, i, h, -⟩ := hI.first
        cases h
      obtain ⟨I1, p', eI'⟩ : ∃ I1 p', I = I1 ++ [p'] := by
        rcases List.eq_nil_or_concat I with h | ⟨I1, p', h⟩
        · exact absurd h hIne
        · exact ⟨I1, p', by rw [h, List.concat_eq_append]⟩
      have hpp : p' = p := by
        rw [eI', ← List.cons_append] at eI
        have := (List.append_inj' eI rfl).2
        simpa using this
      rw [hpp] at eI'
      have hz : triviaKind z.kind = true ∨ z.kind ∈ [K.FROM, K.WHERE, K.LCurly] := by
        cases htr : triviaKind z.kind with
        | true => exact .inl rfl
        | false =>
          right
          obtain ⟨k, rest, h1, h2⟩ := pl.ahead
          rw [eB] at h1
          have hs : sigKs (z :: B') = z.kind :: sigKs B' := by
            unfold sigKs
            rw [List.filter_cons_of_pos (by simp [htr])]
            rfl
          rw [hs] at h1
          injection h1 with h1 _
          rw [h1]; exact h2
      have hz : z.kind ∈ [K.WHITESPACE, K.Comment, K.FROM, K.WHERE, K.LCurly] := by
        rcases hz with h | h
        · have : z.kind = K.WHITESPACE ∨ z.kind = K.Comment := by simpa [triviaKind] using h
          rcases this with h | h <;> rw [h] <;> decide
        · exact List.mem_cons_of_mem _ (List.mem_cons_of_mem _ h)
      rcases hlast p I1 eI' with h | ⟨h, hno⟩
      · rw [h]
        have : [K.WHITESPACE, K.Comment, K.FROM, K.WHERE, K.LCurly].all (fun k => touch K.RParen k) = true := by decide +kernel
        exact List.all_eq_true.1 this _ hz
      · have hq : q.kind = K.VAR1 ∨ q.kind = K.VAR2 := by
          rcases hqk with ⟨-, h⟩ | ⟨h1, -⟩
          · exact h
          · exfalso
            -- a closing parenthesis needs an opening one
            have hnoL : Sym.tok K.LParen ∉ M.map symOf := by
              intro h
              obtain ⟨x, hx, hxk⟩ := List.mem_map.1 h
              have hxc : x ∈ c.childrenT := (mem_sigC.1 (show x ∈ sigC c by rw [hd'.eq]; exact List.mem_append_right _ hx)).1
              have := List.find?_eq_none.1 hno x hxc
              rw [(symOf_eq_tok.1 hxk).2] at this
              simp at this
            have hyM : y ∈ M := by
              have : y ∈ H ++ M := by rw [← hd'.eq, hysig]; simp
              rcases List.mem_append.1 this with h | h
              · exfalso
                have := (hd'.head y h).2
                rw [(symOf_eq_tok.1 h1).2] at this; revert this; decide
              · exact h
            have := whole_vars hMitems.2 rfl hnoL (symOf y) (List.mem_map.2 ⟨y, hyM, rfl⟩)
            rw [h1] at this; cases this
        obtain ⟨n1, n2⟩ := var_no_letter hp hd (A := L ++ (X.flatMap Red.tokens ++ T)) (q := q) (y := z) (B := B') (by rw [hroot, hct, eB]; simp) hq
        have : [K.WHITESPACE, K.Comment, K.FROM, K.WHERE, K.LCurly].all (fun k => k == K.FROM || k == K.WHERE || (touch K.VAR1 k && touch K.VAR2 k)) = true := by decide +kernel
        have := List.all_eq_true.1 this _ hz
        simp only [Bool.or_eq_true, beq_iff_eq, Bool.and_eq_true] at this
        rcases this with (h' | h') | h'
        · exact absurd h' n1
        · exact absurd h' n2
        · rcases h with h | h <;> rw [h]
          · exact h'.1
          · exact h'.2)
    hcalm
    (by
      have hMm : ∀ x ∈ M, x ∈ c.childrenT ∧ x.sig = true := fun x hx => mem_sigC.1 (by rw [hd'.eq]; exact List.mem_append_right _ hx)
      have hu := whole_subst hMitems.2 (words_derive P hC hcT hMm)
      have h1 := derives_rep_append hu (derives_one hI.item)
      have h2 := hd'.fill _ (derives_items h1 (by
        intro h0
        have h0 := (List.append_eq_nil_iff.1 h0).2
        have hi := hI.item
        rw [h0] at hi
        have := null_derives null_ok hi rfl
        revert this; decide +kernel))
      have h3 := pl.fill _ h2
      have hcs : sigKs c.tokens = (H.map word).flatten ++ (M.map word).flatten := by
        rw [tokens_eq c, if_pos hcn, flat_words P hcT (fun x h => h), show c.childrenT.filter Red.sig = H ++ M from hd'.eq, List.map_append, List.flatten_append]
      rw [sigKs_append, hcs, (sigK_blank I).2]
      simpa [List.append_assoc] using h3)
  have hrep := replaced_of hp hroot hput
  rw [hAb, show flat (([] : List Red).map Red.kt) = [] from rfl, List.append_nil, flat_cons] at hrep
  refine ⟨⟨y, hyl, hyne⟩, flat ((L ++ c.tokens).map Red.kt), flat (R.map Red.kt), ?_, hAb, hrep⟩
  have := hput.1
  simpa [flat] using this

end
end Verif.Props
