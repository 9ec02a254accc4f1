import Verif.Lexer.Glue
/-!
# Cutting a declaration out of a prologue

The tokens of a prologue keep their kinds when what follows it is replaced.
-/
namespace Verif.Lexer
open Verif Verif.Grammar Verif.Props

/-- No rule reads across the end of the token. -/
theorem longest_safe {r : LexRule} (hr : r ∈ lexRules) {w rest : Text} (hm : Matches r.re w) (hb : r.boundary = false)
    (hs : ∀ c y, rest = c :: y → ∀ r' ∈ lexRules, ∀ z, ¬ Matches r'.re (w ++ c :: z)) : Longest (w ++ rest) r.kind w := by
  refine ⟨⟨r, hr, rfl, rest, rfl, hm, fun h => by rw [hb] at h; cases h⟩, ?_⟩
  rintro r' hr' w' ⟨after, e, hm', -⟩
  rcases List.append_eq_append_iff.1 e with ⟨a, e1, e2⟩ | ⟨a, e1, e2⟩
  · cases a with
    | nil => rw [e1]; simp
    | cons c a =>
      exfalso
      rw [e1] at hm'
      exact hs c (a ++ after) e2 r' hr' a hm'
  · have := congrArg List.length e1
    simp only [List.length_append] at this
    omega

theorem wordEnd_append {u x x' : Text} (hu : u ≠ []) : wordEnd (u ++ x) = wordEnd (u ++ x') := by
  cases u with
  | nil => exact absurd rfl hu
  | cons c u => rfl

/-- No rule reads the token and `u`. -/
theorem longest_upto {k : Kind} {w u x x' : Text} (h : Longest (w ++ (u ++ x)) k w) (hu : u ≠ [])
    (hs : ∀ r ∈ lexRules, ∀ z, ¬ Matches r.re (w ++ (u ++ z))) : Longest (w ++ (u ++ x')) k w := by
  obtain ⟨⟨r, hr, hk, after, e, hm, hb⟩, hl⟩ := h
  have e := List.append_cancel_left e
  refine ⟨⟨r, hr, hk, u ++ x', rfl, hm, fun h => ?_⟩, ?_⟩
  · rw [wordEnd_append (x' := x) hu, e]; exact hb h
  · rintro r' hr' w' ⟨after', e', hm', hb'⟩
    rcases List.append_eq_append_iff.1 e' with ⟨a, e1, e2⟩ | ⟨a, e1, e2⟩
    · rcases List.append_eq_append_iff.1 e2 with ⟨d, e3, e4⟩ | ⟨d, e3, e4⟩
      · exfalso
        rw [e1, e3] at hm'
        exact hs r' hr' d hm'
      · cases d with
        | nil =>
          exfalso
          rw [List.append_nil] at e3
          rw [e1, ← e3] at hm'
          exact hs r' hr' [] (by rw [List.append_nil]; exact hm')
        | cons c d =>
          refine hl r' hr' w' ⟨(c :: d) ++ x, by rw [e1, e3]; simp, hm', fun h => ?_⟩
          rw [wordEnd_append (x' := x') (by simp), ← e4]
          exact hb' h
    · have := congrArg List.length e1
      simp only [List.length_append] at this
      omega

/-! ### First characters -/

theorem matches_cons {cl : Class} {q : Regex} {c : Char} {w : Text} (hc : cl.has c = true) (hw : Matches q w) :
    Matches (.seq (.cls cl) q) (c :: w) := matches_seq.2 ⟨[c], w, rfl, matches_cls.2 ⟨c, rfl, hc⟩, hw⟩

/-- The first character of a token, from a table that excludes the others. -/
theorem first_char {out inn : Class} {ks : List Kind} (h : noRuleOf (seqs [.cls out, anyText]) ks = true)
    (hc : ∀ c : Char, out.has c = true ∨ inn.has c = true) {r : LexRule} (hr : r ∈ lexRules) (hk : r.kind ∈ ks) {w : Text}
    (hm : Matches r.re w) : ∃ c y, w = c :: y ∧ inn.has c = true := by
  cases w with
  | nil =>
    have := List.all_eq_true.1 rules_not_nullable r hr
    rw [(nullable_iff r.re).2 hm] at this
    cases this
  | cons c y =>
    refine ⟨c, y, rfl, ?_⟩
    rcases hc c with hc | hc
    · exact absurd hm (noRuleOf_sound h hr hk (matches_cons hc (anyText_matches y)))
    · exact hc

theorem has_iff {cl : Class} {c : Char} : cl.has c = true ↔ ∃ p ∈ cl, p.1 ≤ c.toNat ∧ c.toNat ≤ p.2 := by
  simp [Class.has, Nat.ble_eq]

theorem char_le (c : Char) : c.toNat ≤ 0x10FFFF := by
  have := c.valid
  rcases this with h | ⟨-, h⟩ <;> (have h' : c.toNat < _ := h; omega)

theorem any_has (c : Char) : anyChar.has c = true := has_iff.2 ⟨(0, 0x10FFFF), by simp [anyChar], Nat.zero_le _, char_le c⟩

theorem head_of {t : Text} {l : List (Kind × Text)} (h : Lexes t l) {p : Kind × Text} (hp : p ∈ l) (hE : p.1 ≠ K.Error)
    {out inn : Class} {ks : List Kind} (ht : noRuleOf (seqs [.cls out, anyText]) ks = true)
    (hc : ∀ c : Char, out.has c = true ∨ inn.has c = true) (hk : p.1 ∈ ks) : ∃ c y, p.2 = c :: y ∧ inn.has c = true := by
  obtain ⟨r, hr, e, hm⟩ := lexes_rule h p hp hE
  exact first_char ht hc hr (by rw [e]; exact hk) hm

theorem ws_class (c : Char) : Class.has [(0, 0x8), (0xB, 0xB), (0xE, 0x1F), (0x21, 0x10FFFF)] c = true ∨ wsClass.has c = true := by
  have := char_le c
  simp only [has_iff, wsClass, List.mem_cons, List.not_mem_nil, or_false, exists_eq_or_imp, exists_eq_left]
  omega

theorem comment_class (c : Char) : Class.has [(0, 0x22), (0x24, 0x10FFFF)] c = true ∨ Class.has [(0x23, 0x23)] c = true := by
  have := char_le c
  simp only [has_iff, List.mem_cons, List.not_mem_nil, or_false, exists_eq_or_imp, exists_eq_left]
  omega

theorem string_class (c : Char) : Class.has [(0, 0x21), (0x23, 0x26), (0x28, 0x10FFFF)] c = true ∨ quoteClass.has c = true := by
  have := char_le c
  simp only [has_iff, quoteClass, List.mem_cons, List.not_mem_nil, or_false, exists_eq_or_imp, exists_eq_left]
  omega

theorem letter_class (c : Char) : Class.has [(0, 0x40), (0x5B, 0x60), (0x7B, 0x10FFFF)] c = true ∨ letter.has c = true := by
  have := char_le c
  simp only [has_iff, letter, List.mem_cons, List.not_mem_nil, or_false, exists_eq_or_imp, exists_eq_left]
  omega

theorem name_class (c : Char) : Class.has [(0, 0x39), (0x3B, 0x40), (0x5B, 0x60), (0x7B, 0xA9)] c = true ∨ nameHead.has c = true := by
  have := char_le c
  simp only [has_iff, nameHead, List.mem_cons, List.not_mem_nil, or_false, exists_eq_or_imp, exists_eq_left]
  omega

theorem iri_class (c : Char) : Class.has [(0, 0x3B), (0x3D, 0x10FFFF)] c = true ∨ Class.has [(0x3C, 0x3C)] c = true := by
  have := char_le c
  simp only [has_iff, List.mem_cons, List.not_mem_nil, or_false, exists_eq_or_imp, exists_eq_left]
  omega

/-! ### The prologue as a word -/

/-- Where a prologue is after a token: 0 between declarations, 1 before an IRI, 2 before a prefix, 3 before a version. -/
def proStep (s : Nat) (k : Kind) : Option Nat :=
  if s = 0 ∧ k = K.BASE then some 1
  else if s = 0 ∧ k = K.PREFIX then some 2
  else if s = 0 ∧ k = K.VERSION then some 3
  else if s = 1 ∧ k = K.IRIREF then some 0
  else if s = 2 ∧ k = K.PNAME_NS then some 1
  else if s = 3 ∧ (k = K.STRING_LITERAL1 ∨ k = K.STRING_LITERAL2) then some 0
  else none

/-- Reading the kinds of significant tokens. -/
def proRun (s : Nat) : List Kind → Option Nat
  | [] => some s
  | k :: ks => (proStep s k).bind (fun s' => proRun s' ks)

/-- The kinds of the significant tokens. -/
def sigK (l : List (Kind × Text)) : List Kind := (sigPairs l).map (·.1)

theorem sigK_append (a b : List (Kind × Text)) : sigK (a ++ b) = sigK a ++ sigK b := by simp [sigK, sigPairs]

theorem sigK_trivia {k : Kind} (h : k = K.WHITESPACE ∨ k = K.Comment) (w : Text) (l : List (Kind × Text)) :
    sigK ((k, w) :: l) = sigK l := by
  rcases h with rfl | rfl <;> simp [sigK, sigPairs]

theorem sigK_sig {k : Kind} (h : ¬ (k = K.WHITESPACE ∨ k = K.Comment)) (w : Text) (l : List (Kind × Text)) :
    sigK ((k, w) :: l) = k :: sigK l := by
  have : (!(k == K.WHITESPACE || k == K.Comment)) = true := by
    simp only [Bool.not_eq_true', Bool.or_eq_false_iff, beq_eq_false_iff_ne]
    exact ⟨fun e => h (Or.inl e), fun e => h (Or.inr e)⟩
  unfold sigK sigPairs
  rw [List.filter_cons, if_pos this]
  rfl

theorem proStep_cases {s s' : Nat} {k : Kind} (h : proStep s k = some s') :
    (s = 0 ∧ k = K.BASE ∧ s' = 1) ∨ (s = 0 ∧ k = K.PREFIX ∧ s' = 2) ∨ (s = 0 ∧ k = K.VERSION ∧ s' = 3) ∨
      (s = 1 ∧ k = K.IRIREF ∧ s' = 0) ∨ (s = 2 ∧ k = K.PNAME_NS ∧ s' = 1) ∨
      (s = 3 ∧ (k = K.STRING_LITERAL1 ∨ k = K.STRING_LITERAL2) ∧ s' = 0) := by
  unfold proStep at h
  split at h
  · next c => cases h; exact Or.inl ⟨c.1, c.2, rfl⟩
  split at h
  · next c => cases h; exact Or.inr (Or.inl ⟨c.1, c.2, rfl⟩)
  split at h
  · next c => cases h; exact Or.inr (Or.inr (Or.inl ⟨c.1, c.2, rfl⟩))
  split at h
  · next c => cases h; exact Or.inr (Or.inr (Or.inr (Or.inl ⟨c.1, c.2, rfl⟩)))
  split at h
  · next c => cases h; exact Or.inr (Or.inr (Or.inr (Or.inr (Or.inl ⟨c.1, c.2, rfl⟩))))
  split at h
  · next c => cases h; exact Or.inr (Or.inr (Or.inr (Or.inr (Or.inr ⟨c.1, c.2, rfl⟩))))
  · cases h

/-- An IRI follows. -/
theorem iri_follows {l : List (Kind × Text)} : ∀ {s : Nat}, (s = 1 ∨ s = 2) → proRun s (sigK l) = some 0 → ∃ w, (K.IRIREF, w) ∈ l := by
  induction l with
  | nil => intro s hs h; simp only [sigK, sigPairs, List.filter_nil, List.map_nil, proRun, Option.some.injEq] at h; omega
  | cons p l ih =>
    obtain ⟨k, w⟩ := p
    intro s hs h
    by_cases hk : k = K.WHITESPACE ∨ k = K.Comment
    · rw [sigK_trivia hk] at h
      obtain ⟨w', hw⟩ := ih hs h
      exact ⟨w', List.mem_cons_of_mem _ hw⟩
    · rw [sigK_sig hk, proRun] at h
      cases hp : proStep s k with
      | none => rw [hp] at h; cases h
      | some s' =>
        rw [hp] at h
        rcases proStep_cases hp with h' | h' | h' | h' | h' | h'
        · omega
        · omega
        · omega
        · rw [h'.2.1]; exact ⟨w, List.mem_cons_self⟩
        · obtain ⟨w', hw⟩ := ih (s := s') (Or.inl h'.2.2) h
          exact ⟨w', List.mem_cons_of_mem _ hw⟩
        · omega

theorem flat_cons (p : Kind × Text) (l : List (Kind × Text)) : flat (p :: l) = p.2 ++ flat l := rfl

theorem mem_split_flat {l : List (Kind × Text)} {p : Kind × Text} (h : p ∈ l) : ∃ a b, flat l = a ++ p.2 ++ b := by
  obtain ⟨A, B, rfl⟩ := List.append_of_mem h
  exact ⟨flat A, flat B, by rw [flat_append, flat_cons]; simp⟩

theorem lexes_tail {t : Text} {p : Kind × Text} {l : List (Kind × Text)} (h : Lexes t (p :: l)) : Lexes (flat l) l :=
  lexes_suffix (A := [p]) h

/-- The head of a reading, if it is no error. -/
theorem lexes_head {t : Text} {k : Kind} {w : Text} {l : List (Kind × Text)} (h : Lexes t ((k, w) :: l)) (hE : k ≠ K.Error) :
    Longest (w ++ flat l) k w := by
  have hf := (lexes_flat h).1
  rw [flat_cons] at hf
  generalize hx : (k, w) :: l = y at h
  cases h with
  | nil => cases hx
  | @tok k' w' after l' h1 h2 => cases hx; rw [hf]; exact h1
  | @err w' after l' h1 h2 h3 => cases hx; exact absurd rfl hE

theorem ws_is {r : LexRule} (hr : r ∈ lexRules) (hk : r.kind = K.WHITESPACE) : r.re = rule_WHITESPACE.re := by
  have h : lexRules.all (fun r => r.kind != K.WHITESPACE || r.re == rule_WHITESPACE.re) = true := by decide +kernel
  simpa [hk] using List.all_eq_true.1 h r hr

/-- What follows a white space token does not start with white space. -/
theorem noSpace_after {w rest : Text} (h : Longest (w ++ rest) K.WHITESPACE w) : NoSpace rest ∧ w ≠ [] ∧ Spaces w := by
  obtain ⟨⟨r, hr, hk, after, e, hm, -⟩, hl⟩ := h
  rw [ws_is hr hk, ws_matches] at hm
  refine ⟨?_, hm⟩
  cases rest with
  | nil => trivial
  | cons c y =>
    show wsClass.has c = false
    cases hc : wsClass.has c with
    | false => rfl
    | true =>
      have := hl rule_WHITESPACE ws_rule_mem (w ++ [c]) ⟨y, by simp, ws_matches.2 ⟨by simp, by
        intro d hd
        rcases List.mem_append.1 hd with hd | hd
        · exact hm.2 d hd
        · rw [List.mem_singleton.1 hd]; exact hc⟩, fun h => by cases h⟩
      rw [List.length_append, List.length_singleton] at this
      omega

/-! ### Comments -/

theorem comment_is {r : LexRule} (hr : r ∈ lexRules) (hk : r.kind = K.Comment) : r.re = rule_Comment.re ∧ r.boundary = false := by
  have h : lexRules.all (fun r => r.kind != K.Comment || (r.re == rule_Comment.re && r.boundary == false)) = true := by decide +kernel
  have := List.all_eq_true.1 h r hr
  simpa [hk] using this

/-- The characters in a comment. -/
def commentClass : Class := [(0x0, 0x9), (0xB, 0xC), (0xE, 0x10FFFF)]

theorem comment_matches {w : Text} : Matches rule_Comment.re w ↔ ∃ y, w = '#' :: y ∧ ∀ c ∈ y, commentClass.has c = true := by
  show Matches (.seq (.cls [(0x23, 0x23)]) (.star (.cls commentClass))) w ↔ _
  rw [matches_seq]
  constructor
  · rintro ⟨u, v, rfl, h1, h2⟩
    obtain ⟨c, rfl, hc⟩ := matches_cls.1 h1
    have : c = '#' := by
      simp only [has_iff, List.mem_singleton, exists_eq_left] at hc
      exact Char.ext (UInt32.toNat_inj.1 (by show c.toNat = 35; omega))
    subst this
    exact ⟨v, rfl, matches_star_cls.1 h2⟩
  · rintro ⟨y, rfl, h⟩
    exact ⟨['#'], y, rfl, matches_cls.2 ⟨'#', rfl, by decide⟩, matches_star_cls.2 h⟩

theorem comment_only : noRule (seqs [.cls [(0x23, 0x23)], anyText]) [K.Comment] = true := by decide +kernel

theorem comment_mem : rule_Comment ∈ lexRules := List.mem_cons_of_mem _ List.mem_cons_self

theorem comment_start {r : LexRule} (hr : r ∈ lexRules) {y : Text} (hm : Matches r.re ('#' :: y)) : r.kind = K.Comment := by
  by_cases hk : r.kind = K.Comment
  · exact hk
  · exact absurd hm (noRule_sound comment_only hr (by simpa using hk) (matches_cons (by decide) (anyText_matches y)))

/-- A comment token: up to the end of the line. -/
theorem longest_comment {w rest : Text} : Longest (w ++ rest) K.Comment w ↔
    (∃ y, w = '#' :: y ∧ ∀ c ∈ y, commentClass.has c = true) ∧ ∀ c y, rest = c :: y → commentClass.has c = false := by
  constructor
  · rintro ⟨⟨r, hr, hk, after, e, hm, -⟩, hl⟩
    rw [(comment_is hr hk).1, comment_matches] at hm
    refine ⟨hm, ?_⟩
    rintro c y rfl
    cases hc : commentClass.has c with
    | false => rfl
    | true =>
      obtain ⟨z, rfl, hz⟩ := hm
      have := hl rule_Comment comment_mem ('#' :: z ++ [c]) ⟨y, by simp, comment_matches.2 ⟨z ++ [c], rfl, by
        intro d hd
        rcases List.mem_append.1 hd with hd | hd
        · exact hz d hd
        · rw [List.mem_singleton.1 hd]; exact hc⟩, fun h => by cases h⟩
      rw [List.length_append, List.length_singleton] at this
      omega
  · rintro ⟨⟨y, rfl, hy⟩, hr⟩
    refine longest_safe (r := rule_Comment) comment_mem (comment_matches.2 ⟨y, rfl, hy⟩) rfl ?_
    intro c x hx r' hr' z hm
    rw [(comment_is hr' (comment_start hr' hm)).1, comment_matches] at hm
    obtain ⟨v, e, hv⟩ := hm
    simp only [List.cons_append, List.cons.injEq, true_and] at e
    have := hv c (by rw [← e]; simp)
    rw [hr c x hx] at this
    cases this

/-! ### Replacing what follows -/

/-- The first character of the text of tokens. -/
theorem flat_head {p : Kind × Text} {l : List (Kind × Text)} {c : Char} {y : Text} (h : p.2 = c :: y) :
    flat (p :: l) = c :: (y ++ flat l) := by rw [flat_cons, h]; rfl

theorem gap_of_ws {c : Char} {cl : Class} (h : wsClass.has c = true) : Class.has (gapClass ++ cl) c = true := by
  obtain ⟨p, hp, h⟩ := has_iff.1 h
  refine has_iff.2 ⟨p, List.mem_append_left _ ?_, h⟩
  simp only [wsClass, gapClass, List.mem_cons, List.not_mem_nil, or_false] at hp ⊢
  tauto

theorem gap_of_hash {c : Char} {cl : Class} (h : Class.has [(0x23, 0x23)] c = true) : Class.has (gapClass ++ cl) c = true := by
  obtain ⟨p, hp, h⟩ := has_iff.1 h
  refine has_iff.2 ⟨p, List.mem_append_left _ ?_, h⟩
  simp only [gapClass, List.mem_cons, List.not_mem_nil, or_false] at hp ⊢
  tauto

theorem has_right {a b : Class} {c : Char} (h : b.has c = true) : Class.has (a ++ b) c = true := by
  obtain ⟨p, hp, h⟩ := has_iff.1 h
  exact has_iff.2 ⟨p, List.mem_append_right _ hp, h⟩

theorem pro_rules : lexRules.all (fun r => (r.kind != K.IRIREF || r.re == rule_IRIREF.re) && (r.kind != K.VERSION || r.re == rule_VERSION.re)
    && (r.kind != K.STRING_LITERAL1 || r.re == rule_STRING_LITERAL1.re) && (r.kind != K.STRING_LITERAL2 || r.re == rule_STRING_LITERAL2.re)
    && (!r.boundary || (r.kind == K.a || r.kind == K.IN))) = true := by decide +kernel

/-- A token that no rule extends by a character in `cl`, followed by such a character. -/
theorem longest_before {k : Kind} {w rest : Text} {q : Regex} {cl : Class} (hq : noRule (seqs [q, .cls cl, anyText]) [] = true)
    {r : LexRule} (hr : r ∈ lexRules) (hk : r.kind = k) (hm : Matches r.re w) (hb : r.boundary = false) (hre : r.re = q)
    (hc : ∀ c y, rest = c :: y → cl.has c = true) : Longest (w ++ rest) k w := by
  rw [← hk]
  refine longest_safe hr hm hb ?_
  intro c y e r' hr' z
  refine noRule_sound hq hr' (by simp) ?_
  refine matches_seq.2 ⟨w, c :: z, rfl, hre ▸ hm, matches_cons (hc c y e) (anyText_matches z)⟩

set_option maxHeartbeats 1000000 in
/-- **The tokens of a prologue in front of other tokens.** -/
theorem lexes_cut {B : List (Kind × Text)} (hB : Lexes (flat B) B) {cb : Char} {yb : Text} (hb : flat B = cb :: yb)
    (hbl : letter.has cb = true) : ∀ (A X : List (Kind × Text)) (s : Nat) (t : Text), Lexes t (A ++ X) → proRun s (sigK A) = some 0 →
    (∃ cx yx, flat X = cx :: yx ∧ letter.has cx = true) → Lexes (flat (A ++ B)) (A ++ B) := by
  have hbs : wsClass.has cb = false := by
    cases h : wsClass.has cb with
    | false => rfl
    | true =>
      rw [has_iff] at h hbl
      simp only [wsClass, letter, List.mem_cons, List.not_mem_nil, or_false, exists_eq_or_imp, exists_eq_left] at h hbl
      omega
  intro A
  induction A with
  | nil => intro X s t _ _ _; exact hB
  | cons p A ih =>
    obtain ⟨k, w⟩ := p
    intro X s t hL hs hX
    have hL' : Lexes (flat (A ++ X)) (A ++ X) := lexes_tail hL
    have hne : ∀ q ∈ A, q.2 ≠ [] := fun q hq => (lexes_flat hL').2 q (List.mem_append_left _ hq)
    -- the text behind the token starts as before
    have hhead : ∀ q A', A = q :: A' → ∃ c y, q.2 = c :: y := by
      rintro q A' rfl
      cases e : q.2 with
      | nil => exact absurd e (hne q (by simp))
      | cons c y => exact ⟨c, y, rfl⟩
    by_cases hk : k = K.WHITESPACE ∨ k = K.Comment
    · rw [sigK_trivia hk] at hs
      have hA := ih X s _ hL' hs hX
      have hE : k ≠ K.Error := by rcases hk with rfl | rfl <;> decide
      have hlong : Longest (w ++ flat (A ++ X)) k w := lexes_head hL hE
      refine Lexes.tok (after := flat (A ++ B)) ?_ hA
      rcases hk with rfl | rfl
      · obtain ⟨h1, h2, h3⟩ := noSpace_after hlong
        refine longest_ws h3 h2 ?_
        cases hAe : A with
        | nil =>
          show NoSpace (flat B)
          rw [hb]; exact hbs
        | cons q A' =>
          obtain ⟨c, y, e⟩ := hhead q A' hAe
          rw [show A ++ X = q :: (A' ++ X) by rw [hAe]; rfl, flat_head e] at h1
          show NoSpace (flat (q :: (A' ++ B)))
          rw [flat_head e]
          exact h1
      · rw [longest_comment] at hlong ⊢
        refine ⟨hlong.1, ?_⟩
        cases hAe : A with
        | nil =>
          exfalso
          obtain ⟨cx, yx, e, hcx⟩ := hX
          have := hlong.2 cx yx (by rw [hAe]; exact e)
          rw [has_iff] at hcx
          have h' : commentClass.has cx = true := by
            rw [has_iff]
            simp only [commentClass, letter, List.mem_cons, List.not_mem_nil, or_false, exists_eq_or_imp, exists_eq_left] at hcx ⊢
            omega
          rw [this] at h'; cases h'
        | cons q A' =>
          obtain ⟨c, y, e⟩ := hhead q A' hAe
          have h1 := hlong.2 c (y ++ flat (A' ++ X)) (by rw [show A ++ X = q :: (A' ++ X) by rw [hAe]; rfl, flat_head e])
          intro c' y' e'
          have e' : flat (q :: (A' ++ B)) = c' :: y' := e'
          rw [flat_head e] at e'
          cases e'
          exact h1
    · rw [sigK_sig hk, proRun] at hs
      cases hp : proStep s k with
      | none => rw [hp] at hs; cases hs
      | some s' =>
        rw [hp] at hs
        have hs : proRun s' (sigK A) = some 0 := hs
        have hA := ih X s' _ hL' hs hX
        have hE : k ≠ K.Error := by
          rcases proStep_cases hp with h | h | h | h | h | h
          · rw [h.2.1]; decide
          · rw [h.2.1]; decide
          · rw [h.2.1]; decide
          · rw [h.2.1]; decide
          · rw [h.2.1]; decide
          · rcases h.2.1 with h | h <;> (rw [h]; decide)
        have hlong : Longest (w ++ flat (A ++ X)) k w := lexes_head hL hE
        obtain ⟨r, hr, hrk, after, e, hm, -⟩ := hlong.rule
        have hpr := List.all_eq_true.1 pro_rules r hr
        simp only [Bool.and_eq_true, Bool.or_eq_true, bne_iff_ne, ne_eq, beq_iff_eq, Bool.not_eq_true'] at hpr
        obtain ⟨⟨⟨⟨p1, p2⟩, p3⟩, p4⟩, p5⟩ := hpr
        refine Lexes.tok (after := flat (A ++ B)) ?_ hA
        -- tokens in front of an IRI
        have hlt : (s' = 1 ∨ s' = 2) → k ∈ [K.BASE, K.PREFIX, K.PNAME_NS] → Longest (w ++ flat (A ++ B)) k w := by
          intro hs' hkk
          obtain ⟨wi, hwi⟩ := iri_follows hs' hs
          obtain ⟨c, y, e1, hc⟩ := head_of hL' (p := (K.IRIREF, wi)) (List.mem_append_left _ hwi) (by show K.IRIREF ≠ K.Error; decide) first_iri iri_class (by show K.IRIREF ∈ [K.IRIREF]; decide)
          obtain ⟨a, b, e2⟩ := mem_split_flat hwi
          have e1 : wi = c :: y := e1
          have e3 : flat A = (a ++ [c]) ++ (y ++ b) := by rw [e2, e1]; simp
          rw [flat_append, e3, List.append_assoc] at hlong ⊢
          refine longest_upto hlong (by simp) ?_
          intro r' hr' z
          obtain ⟨c0, y0, e4, hc0⟩ := first_char first_name name_class hr (by rw [hrk]; exact hkk) hm
          refine noRule_sound name_no_lt hr' (by simp) ?_
          rw [e4]
          have : c0 :: y0 ++ (a ++ [c] ++ z) = c0 :: ((y0 ++ a) ++ (c :: z)) := by simp
          rw [this]
          exact matches_cons hc0 (matches_seq.2 ⟨_, _, rfl, anyText_matches _, matches_cons hc (anyText_matches _)⟩)
        have hbd : ¬ (k = K.a ∨ k = K.IN) → r.boundary = false := by
          intro h
          rcases p5 with h' | h'
          · exact h'
          · rw [hrk] at h'; exact absurd h' h
        rcases proStep_cases hp with h | h | h | h | h | h
        · exact hlt (Or.inl h.2.2) (by rw [h.2.1]; decide)
        · exact hlt (Or.inr h.2.2) (by rw [h.2.1]; decide)
        · have hre : r.re = rule_VERSION.re := by
            rcases p2 with h' | h'
            · exact absurd (hrk.trans h.2.1) h'
            · exact h'
          refine longest_before safe_version hr hrk hm (hbd (by rw [h.2.1]; decide)) hre ?_
          intro c y ec
          cases hAe : A with
          | nil => rw [hAe] at hs; rw [h.2.2] at hs; cases hs
          | cons q A' =>
            obtain ⟨k2, w2⟩ := q
            have hmem : (k2, w2) ∈ A ++ X := by rw [hAe]; simp
            have hcw : ∀ c' y', w2 = c' :: y' → c' = c := by
              intro c' y' e2
              rw [show A ++ B = (k2, w2) :: (A' ++ B) by rw [hAe]; rfl, flat_head (p := (k2, w2)) e2] at ec
              cases ec; rfl
            by_cases hk2 : k2 = K.WHITESPACE
            · obtain ⟨c', y', e2, h2⟩ := head_of hL' hmem (by show k2 ≠ K.Error; rw [hk2]; decide) first_ws ws_class (by show k2 ∈ _; rw [hk2]; decide)
              rw [← hcw c' y' e2]; exact gap_of_ws h2
            by_cases hk3 : k2 = K.Comment
            · obtain ⟨c', y', e2, h2⟩ := head_of hL' hmem (by show k2 ≠ K.Error; rw [hk3]; decide) first_comment comment_class (by show k2 ∈ _; rw [hk3]; decide)
              rw [← hcw c' y' e2]; exact gap_of_hash h2
            rw [hAe, sigK_sig (fun h => h.elim hk2 hk3), proRun] at hs
            cases hp2 : proStep s' k2 with
            | none => rw [hp2] at hs; cases hs
            | some s2 =>
              have : k2 = K.STRING_LITERAL1 ∨ k2 = K.STRING_LITERAL2 := by
                rcases proStep_cases hp2 with h | h | h | h | h | h <;> first | omega | exact h.2.1
              obtain ⟨c', y', e2, h2⟩ := head_of hL' hmem
                (by show k2 ≠ K.Error; rcases this with h | h <;> (rw [h]; decide)) first_string string_class
                (by show k2 ∈ _; rcases this with h | h <;> (rw [h]; decide))
              rw [← hcw c' y' e2]; exact has_right h2
        · have hre : r.re = rule_IRIREF.re := by
            rcases p1 with h' | h'
            · exact absurd (hrk.trans h.2.1) h'
            · exact h'
          exact longest_before safe_iri hr hrk hm (hbd (by rw [h.2.1]; decide)) hre (fun c _ _ => any_has c)
        · exact hlt (Or.inl h.2.2) (by rw [h.2.1]; decide)
        · have hnext : ∀ c y, flat (A ++ B) = c :: y → Class.has (gapClass ++ letter) c = true := by
            intro c y ec
            cases hAe : A with
            | nil =>
              rw [show A ++ B = B by rw [hAe]; rfl, hb] at ec
              cases ec
              exact has_right hbl
            | cons q A' =>
              obtain ⟨k2, w2⟩ := q
              have hmem : (k2, w2) ∈ A ++ X := by rw [hAe]; simp
              have hcw : ∀ c' y', w2 = c' :: y' → c' = c := by
                intro c' y' e2
                rw [show A ++ B = (k2, w2) :: (A' ++ B) by rw [hAe]; rfl, flat_head (p := (k2, w2)) e2] at ec
                cases ec; rfl
              by_cases hk2 : k2 = K.WHITESPACE
              · obtain ⟨c', y', e2, h2⟩ := head_of hL' hmem (by show k2 ≠ K.Error; rw [hk2]; decide) first_ws ws_class (by show k2 ∈ _; rw [hk2]; decide)
                rw [← hcw c' y' e2]; exact gap_of_ws h2
              by_cases hk3 : k2 = K.Comment
              · obtain ⟨c', y', e2, h2⟩ := head_of hL' hmem (by show k2 ≠ K.Error; rw [hk3]; decide) first_comment comment_class (by show k2 ∈ _; rw [hk3]; decide)
                rw [← hcw c' y' e2]; exact gap_of_hash h2
              rw [hAe, sigK_sig (fun h => h.elim hk2 hk3), proRun] at hs
              cases hp2 : proStep s' k2 with
              | none => rw [hp2] at hs; cases hs
              | some s2 =>
                have hkk : k2 = K.BASE ∨ k2 = K.PREFIX ∨ k2 = K.VERSION := by
                  rcases proStep_cases hp2 with h | h | h | h | h | h <;> first | omega | (rw [h.2.1]; decide)
                obtain ⟨c', y', e2, h2⟩ := head_of hL' hmem
                  (by show k2 ≠ K.Error; rcases hkk with h | h | h <;> (rw [h]; decide)) first_letter letter_class
                  (by show k2 ∈ _; rcases hkk with h | h | h <;> (rw [h]; decide))
                rw [← hcw c' y' e2]; exact has_right h2
          rcases h.2.1 with hk1 | hk1
          · have hre : r.re = rule_STRING_LITERAL1.re := by
              rcases p3 with h' | h'
              · exact absurd (hrk.trans hk1) h'
              · exact h'
            exact longest_before safe_str1 hr hrk hm (hbd (by rw [hk1]; decide)) hre hnext
          · have hre : r.re = rule_STRING_LITERAL2.re := by
              rcases p4 with h' | h'
              · exact absurd (hrk.trans hk1) h'
              · exact h'
            exact longest_before safe_str2 hr hrk hm (hbd (by rw [hk1]; decide)) hre hnext

end Verif.Lexer
