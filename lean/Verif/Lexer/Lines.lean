import Verif.Lexer.Splice
/-!
# Indenting lines

Blanks behind line breaks do not change the kinds of tokens, and only tokens with a line break get longer. A blank between tokens may be replaced by
a line break.
-/
namespace Verif.Lexer
open Verif Verif.Grammar Verif.Props Verif.Format

/-- `w'` is `w` with blanks put behind some of its line breaks. -/
inductive Deeper : Text → Text → Prop
  | nil : Deeper [] []
  | cons (c : Char) {w w' : Text} (h : Deeper w w') : Deeper (c :: w) (c :: w')
  | brk (n : Nat) {w w' : Text} (h : Deeper w w') : Deeper ('\n' :: w) ('\n' :: (List.replicate n ' ' ++ w'))

/-- As `Deeper`, and some of the blanks are line breaks. -/
inductive Laidout : Text → Text → Prop
  | nil : Laidout [] []
  | cons (c : Char) {w w' : Text} (h : Laidout w w') : Laidout (c :: w) (c :: w')
  | brk (n : Nat) {w w' : Text} (h : Laidout w w') : Laidout ('\n' :: w) ('\n' :: (List.replicate n ' ' ++ w'))
  | turn {w w' : Text} (h : Laidout w w') : Laidout (' ' :: w) ('\n' :: w')

theorem Deeper.laid {w w' : Text} (h : Deeper w w') : Laidout w w' := by
  induction h with
  | nil => exact .nil
  | cons c _ ih => exact .cons c ih
  | brk n _ ih => exact .brk n ih

theorem Deeper.refl (w : Text) : Deeper w w := by
  induction w with
  | nil => exact .nil
  | cons c w ih => exact .cons c ih

theorem Laidout.refl (w : Text) : Laidout w w := (Deeper.refl w).laid

theorem Laidout.append {a a' b b' : Text} (h : Laidout a a') (h' : Laidout b b') : Laidout (a ++ b) (a' ++ b') := by
  induction h with
  | nil => exact h'
  | cons c _ ih => exact .cons c ih
  | brk n _ ih => rw [List.cons_append, List.cons_append, List.append_assoc]; exact .brk n ih
  | turn _ ih => exact .turn ih

/-- Text without line breaks stays. -/
theorem Deeper.same {w w' : Text} (h : Deeper w w') (hn : '\n' ∉ w) : w' = w := by
  induction h with
  | nil => rfl
  | cons c _ ih => rw [ih (fun h => hn (List.mem_cons_of_mem _ h))]
  | brk n _ ih => exact absurd List.mem_cons_self hn

/-- The front of the new text comes from a front of the old text. -/
theorem Laidout.front {w w' : Text} (h : Laidout w w') : ∀ {p' q' : Text}, w' = p' ++ q' → ∃ p q, w = p ++ q ∧ Laidout p p' ∧ (p' ≠ [] → p ≠ []) ∧
    (Laidout q q' ∨ '\n' ∈ p') := by
  induction h with
  | nil =>
    intro p' q' e
    obtain ⟨rfl, rfl⟩ := List.append_eq_nil_iff.1 e.symm
    exact ⟨[], [], rfl, .nil, fun h => absurd rfl h, .inl .nil⟩
  | @cons c w w' h ih =>
    intro p' q' e
    cases p' with
    | nil => exact ⟨[], c :: w, rfl, .nil, fun h => absurd rfl h, .inl (by rw [List.nil_append] at e; rw [← e]; exact .cons c h)⟩
    | cons x p' =>
      injection e with e1 e2
      obtain ⟨p, q, h1, h2, -, h4⟩ := ih e2
      exact ⟨c :: p, q, by rw [h1]; rfl, by rw [← e1]; exact .cons c h2, fun _ => by simp, h4.imp id (List.mem_cons_of_mem _)⟩
  | @brk n w w' h ih =>
    intro p' q' e
    cases p' with
    | nil => exact ⟨[], '\n' :: w, rfl, .nil, fun h => absurd rfl h, .inl (by rw [List.nil_append] at e; rw [← e]; exact .brk n h)⟩
    | cons x p' =>
      injection e with e1 e2
      subst e1
      rcases List.append_eq_append_iff.1 e2 with ⟨z, h1, h2⟩ | ⟨z, h1, h2⟩
      · obtain ⟨p, q, k1, k2, -, k4⟩ := ih h2
        exact ⟨'\n' :: p, q, by rw [k1]; rfl, by rw [h1]; exact .brk n k2, fun _ => by simp, .inr (by simp)⟩
      · have hp : p' = List.replicate p'.length ' ' := by
          refine List.eq_replicate_of_mem (fun b hb => ?_)
          exact List.eq_of_mem_replicate (show b ∈ List.replicate n ' ' by rw [h1]; simp [hb])
        cases z with
        | nil =>
          refine ⟨['\n'], w, rfl, ?_, fun _ => by simp, .inl (by rw [h2]; exact h)⟩
          rw [hp]
          have := Laidout.brk p'.length Laidout.nil
          rw [List.append_nil] at this
          exact this
        | cons y z =>
          refine ⟨['\n'], w, rfl, ?_, fun _ => by simp, .inr (by simp)⟩
          rw [hp]
          have := Laidout.brk p'.length Laidout.nil
          rw [List.append_nil] at this
          exact this
  | @turn w w' h ih =>
    intro p' q' e
    cases p' with
    | nil => exact ⟨[], ' ' :: w, rfl, .nil, fun h => absurd rfl h, .inl (by rw [List.nil_append] at e; rw [← e]; exact .turn h)⟩
    | cons x p' =>
      injection e with e1 e2
      obtain ⟨p, q, h1, h2, -, h4⟩ := ih e2
      exact ⟨' ' :: p, q, by rw [h1]; rfl, by rw [← e1]; exact .turn h2, fun _ => by simp, h4.imp id (List.mem_cons_of_mem _)⟩

/-! ## States -/

/-- Behind a line break blanks do not matter; a line break can be a blank. -/
def lineState (q : Regex) : Bool :=
  let d := q.derivN 0xA
  (d.derivN 0x20 == d) && (d.isNone || d == q.derivN 0x20)

theorem rules_line : lexRules.all (fun r => everyState lineState r.re) = true := by decide +kernel

theorem line_state {r : LexRule} (hr : r ∈ lexRules) (u : Text) : ((r.re.derivs u).deriv '\n').deriv ' ' = (r.re.derivs u).deriv '\n' ∧
    ((r.re.derivs u).deriv '\n' = .none ∨ (r.re.derivs u).deriv '\n' = (r.re.derivs u).deriv ' ') := by
  have h := everyState_sound (List.all_eq_true.1 rules_line r hr) (by decide) u
  simp only [lineState, Bool.and_eq_true, Bool.or_eq_true, beq_iff_eq, isNone_iff] at h
  rw [deriv_eq, deriv_eq, deriv_eq]
  exact h

theorem line_blanks {r : LexRule} (hr : r ∈ lexRules) (u : Text) (n : Nat) :
    ((r.re.derivs u).deriv '\n').derivs (List.replicate n ' ') = (r.re.derivs u).deriv '\n' := by
  induction n with
  | zero => rfl
  | succ n ih => rw [List.replicate_succ]; simp only [Regex.derivs]; rw [(line_state hr u).1]; exact ih

theorem laid_matches {r : LexRule} (hr : r ∈ lexRules) {w w' : Text} (h : Laidout w w') : ∀ {u : Text}, Matches (r.re.derivs u) w' → Matches (r.re.derivs u) w := by
  induction h with
  | nil => intro u hm; exact hm
  | @cons c w w' h ih =>
    intro u hm
    rw [← deriv_iff] at hm ⊢
    have e : (r.re.derivs u).deriv c = r.re.derivs (u ++ [c]) := by rw [derivs_append]; rfl
    rw [e] at hm ⊢
    exact ih hm
  | @brk n w w' h ih =>
    intro u hm
    rw [← deriv_iff, ← derivs_iff, line_blanks hr] at hm
    rw [← deriv_iff]
    have e : (r.re.derivs u).deriv '\n' = r.re.derivs (u ++ ['\n']) := by rw [derivs_append]; rfl
    rw [e] at hm ⊢
    exact ih hm
  | @turn w w' h ih =>
    intro u hm
    rw [← deriv_iff] at hm ⊢
    rcases (line_state hr u).2 with h' | h'
    · rw [h'] at hm; exact absurd hm matches_none
    · rw [h'] at hm
      have e : (r.re.derivs u).deriv ' ' = r.re.derivs (u ++ [' ']) := by rw [derivs_append]; rfl
      rw [e] at hm ⊢
      exact ih hm

theorem deeper_matches {r : LexRule} (hr : r ∈ lexRules) {w w' : Text} (h : Deeper w w') : ∀ {u : Text}, Matches (r.re.derivs u) w → Matches (r.re.derivs u) w' := by
  induction h with
  | nil => intro u hm; exact hm
  | @cons c w w' h ih =>
    intro u hm
    rw [← deriv_iff] at hm ⊢
    have e : (r.re.derivs u).deriv c = r.re.derivs (u ++ [c]) := by rw [derivs_append]; rfl
    rw [e] at hm ⊢
    exact ih hm
  | @brk n w w' h ih =>
    intro u hm
    rw [← deriv_iff] at hm
    rw [← deriv_iff, ← derivs_iff, line_blanks hr]
    have e : (r.re.derivs u).deriv '\n' = r.re.derivs (u ++ ['\n']) := by rw [derivs_append]; rfl
    rw [e] at hm ⊢
    exact ih hm

theorem word_end {q q' : Text} (h : Laidout q q') : wordEnd q = wordEnd q' := by
  cases h with
  | nil => rfl
  | cons c h => rfl
  | brk n h => rfl
  | turn h => simp only [wordEnd]; decide

/-! ## Tokens -/

/-- The tokens of the new text: the same kinds; each token is laid out anew. -/
def Relaid (p p' : Kind × Text) : Prop :=
  p'.1 = p.1 ∧ Laidout p.2 p'.2 ∧ ∀ r ∈ lexRules, r.kind = p.1 → Matches r.re p.2 → Matches r.re p'.2

theorem Relaid.refl (p : Kind × Text) : Relaid p p := ⟨rfl, Laidout.refl _, fun _ _ _ h => h⟩

theorem relaid_deeper {k : Kind} {w w' : Text} (h : Deeper w w') : Relaid (k, w) (k, w') :=
  ⟨rfl, h.laid, fun _ hr _ hm => deeper_matches hr (u := []) h hm⟩

theorem turn_ws : lexRules.all (fun r => r.kind != K.WHITESPACE || (r.re.derivN 0xA == r.re.derivN 0x20)) = true := by decide +kernel

theorem relaid_turn {w : Text} : Relaid (K.WHITESPACE, ' ' :: w) (K.WHITESPACE, '\n' :: w) := by
  refine ⟨rfl, .turn (Laidout.refl _), fun r hr hk hm => ?_⟩
  have := List.all_eq_true.1 turn_ws r hr
  have hk : r.kind = K.WHITESPACE := hk
  rw [hk] at this
  simp only [bne_self_eq_false, Bool.false_or, beq_iff_eq] at this
  have hm : Matches r.re (' ' :: w) := hm
  show Matches r.re ('\n' :: w)
  rw [← deriv_iff, deriv_eq] at hm ⊢
  rw [show ('\n' : Char).toNat = 0xA from rfl, this]; exact hm

theorem laid_flat {L L' : List (Kind × Text)} (h : List.Forall₂ Relaid L L') : Laidout (flat L) (flat L') := by
  induction h with
  | nil => exact .nil
  | cons h _ ih => rw [flat_cons, flat_cons]; exact h.2.1.append ih

theorem laid_nil {q' : Text} (h : Laidout [] q') : q' = [] := by cases h; rfl

/-- **Laying out tokens anew.** -/
theorem lexes_laid {L : List (Kind × Text)} : ∀ {text : Text} {L' : List (Kind × Text)}, Lexes text L → (∀ p ∈ L, p.1 ≠ K.Error) → List.Forall₂ Relaid L L' →
    Lexes (flat L') L' := by
  induction L with
  | nil => intro text L' h _ hf; cases hf; exact .nil
  | cons p L ih =>
    intro text L' h hE hf
    cases hf with
    | @cons _ p' _ L' hp hf =>
      have hfl := laid_flat hf
      generalize hl : p :: L = l at h
      cases h with
      | nil => cases hl
      | @err w after l' h' hw hs' => injection hl with hl _; exact absurd (congrArg Prod.fst hl) (hE p List.mem_cons_self)
      | @tok k w after l' h' hs' =>
        injection hl with hl1 hl2
        subst hl1; subst hl2
        have hrest := ih hs' (fun q hq => hE q (List.mem_cons_of_mem _ hq)) hf
        obtain ⟨k', w'⟩ := p'
        obtain ⟨e1, h1, h2⟩ := hp
        have e1 : k' = k := e1
        subst e1
        have h1 : Laidout w w' := h1
        have hafter : flat L = after := (lexes_flat hs').1
        rw [hafter] at hfl
        rw [flat_cons]
        refine Lexes.tok ?_ hrest
        obtain ⟨r, hr, hk, a, e, hm, hb⟩ := h'.rule
        have e := List.append_cancel_left e
        subst e
        refine ⟨⟨r, hr, hk, flat L', rfl, h2 r hr hk hm, fun hbd => by rw [← word_end hfl]; exact hb hbd⟩, ?_⟩
        intro r' hr' u' hm'
        apply Classical.byContradiction
        intro hlt
        obtain ⟨after', e', hm1, hb1⟩ := hm'
        rcases List.append_eq_append_iff.1 e' with ⟨v', e1, e2⟩ | ⟨v', e1, e2⟩
        · have hv : v' ≠ [] := by
            rintro rfl
            rw [List.append_nil] at e1
            exact hlt (by rw [e1])
          obtain ⟨v, q, k1, k2, k3, k4⟩ := hfl.front e2
          have hlaid : Laidout (w ++ v) u' := by rw [e1]; exact h1.append k2
          have hmu : MatchesAt r' (w ++ after) (w ++ v) := by
            refine ⟨q, by rw [k1]; simp, laid_matches hr' (u := []) hlaid hm1, fun hbd => ?_⟩
            rcases k4 with k4 | k4
            · rw [word_end k4]; exact hb1 hbd
            · exfalso
              have hin : '\n' ∈ u' := by rw [e1]; simp [k4]
              obtain ⟨x, y, e⟩ := List.append_of_mem hin
              have h := List.all_eq_true.1 rules_newline r' hr'
              simp only [Bool.and_eq_true, Bool.or_eq_true, Bool.not_eq_true'] at h
              rcases h.2 with h | h
              · rw [h] at hbd; cases hbd
              · rw [e] at hm1; exact never_sound (c := '\n') h x y hm1
          have := h'.longest r' hr' _ hmu
          have hv2 := k3 hv
          cases v with
          | nil => exact hv2 rfl
          | cons c v => simp at this; omega
        · exact hlt (by rw [e1]; simp)

end Verif.Lexer
