import Verif.Format.Spaced
/-!
# Formatted queries keep their tokens apart
-/
namespace Verif.Format
open Verif Verif.Grammar Verif.Lexer Verif.Features Verif.Props

/-! ## Lists -/

theorem solid_pair : ∀ {L u v : List (Kind × Text)} {x y : Kind × Text}, solid L = u ++ x :: y :: v →
    ∃ A M B, L = A ++ x :: (M ++ y :: B) ∧ solid A = u ∧ (∀ p ∈ M, p.1 = K.WHITESPACE) := by
  have one : ∀ {L u v : List (Kind × Text)} {x : Kind × Text}, solid L = u ++ x :: v → ∃ A B, L = A ++ x :: B ∧ solid A = u ∧ solid B = v := by
    intro L
    induction L with
    | nil => intro u v x h; cases u <;> cases h
    | cons p L ih =>
      intro u v x h
      by_cases hp : p.1 = K.WHITESPACE
      · have e : solid (p :: L) = solid L := by unfold solid; rw [List.filter_cons_of_neg (by simp [hp])]
        rw [e] at h
        obtain ⟨A, B, h1, h2, h3⟩ := ih h
        refine ⟨p :: A, B, by rw [h1]; rfl, ?_, h3⟩
        unfold solid at h2 ⊢
        rw [List.filter_cons_of_neg (by simp [hp]), h2]
      · have e : solid (p :: L) = p :: solid L := by unfold solid; rw [List.filter_cons_of_pos (by simp [hp])]
        rw [e] at h
        cases u with
        | nil =>
          injection h with h1 h2
          exact ⟨[], L, by rw [h1]; rfl, rfl, h2⟩
        | cons q u =>
          injection h with h1 h2
          obtain ⟨A, B, h3, h4, h5⟩ := ih h2
          refine ⟨p :: A, B, by rw [h3]; rfl, ?_, h5⟩
          unfold solid at h4 ⊢
          rw [List.filter_cons_of_pos (by simp [hp]), h4, h1]
  intro L u v x y h
  obtain ⟨A, B, h1, h2, h3⟩ := one h
  have h4 : solid B = [] ++ y :: v := h3
  obtain ⟨M, B', h5, h6, -⟩ := one h4
  refine ⟨A, M, B', by rw [h1, h5], h2, ?_⟩
  intro p hp
  unfold solid at h6
  rw [List.filter_eq_nil_iff] at h6
  have := h6 p hp
  simpa using this

/-- There is no mark between neighbours. -/
theorem not_marked {l l1 l2 : Pieces} {x y : Kind × Text} (h : l = l1 ++ x :: y :: l2) (hx : x.1 ≠ K.WHITESPACE) (hy : y.1 ≠ K.WHITESPACE) :
    ¬ Marked l (solid l1 ++ [x]) := by
  have sx : solid [x] = [x] := by unfold solid; rw [List.filter_cons_of_pos (by simp [hx])]; rfl
  have sy : ∀ c, solid (y :: c) = y :: solid c := by intro c; unfold solid; rw [List.filter_cons_of_pos (by simp [hy])]
  rintro ⟨m1, m, m2, h1, h2, h3⟩
  have h4 : (l1 ++ [x]) ++ y :: l2 = m1 ++ m :: m2 := by rw [← h1, h]; simp
  rcases List.append_eq_append_iff.1 h4 with ⟨c, h5, h6⟩ | ⟨c, h5, h6⟩
  · cases c with
    | nil =>
      injection h6 with h6 _
      rw [h6] at hy; exact hy h2
    | cons z c =>
      injection h6 with h6 _
      rw [h5, solid_append, solid_append, sx, ← h6, sy] at h3
      have := congrArg List.length h3
      simp only [List.length_append, List.length_cons, List.length_nil] at this
      omega
  · cases c with
    | nil =>
      injection h6 with h6 _
      rw [← h6] at hy; exact hy h2
    | cons z c =>
      injection h6 with h6 _
      have hz : z.1 = K.WHITESPACE := by rw [← h6]; exact h2
      have h7 := congrArg solid h5
      rw [solid_append, solid_append, sx, h3] at h7
      have h8 : solid (z :: c) = [] := by
        have := congrArg List.length h7
        simp only [List.length_append, List.length_cons, List.length_nil] at this
        exact List.eq_nil_of_length_eq_zero (by omega)
      have h9 : x ∈ z :: c := by
        have : (l1 ++ [x]).getLast? = (m1 ++ z :: c).getLast? := by rw [h5]
        rw [List.getLast?_append_of_ne_nil _ (by simp), List.getLast?_append_of_ne_nil _ (by simp), List.getLast?_singleton] at this
        exact List.mem_of_getLast? this.symm
      unfold solid at h8
      rw [List.filter_eq_nil_iff] at h8
      have := h8 x h9
      simp [hx] at this

theorem solid_ws {M : Pieces} (h : ∀ p ∈ M, p.1 = K.WHITESPACE) : solid M = [] := by
  unfold solid
  rw [List.filter_eq_nil_iff]
  intro p hp
  simp [h p hp]

/-- The pieces up to a place between two neighbours. -/
theorem take_solid {P A M B : Pieces} {x y : Kind × Text} (h : P = A ++ x :: (M ++ y :: B)) (hx : x.1 ≠ K.WHITESPACE) (hM : ∀ p ∈ M, p.1 = K.WHITESPACE)
    {i : Nat} (h1 : A.length < i) (h2 : i ≤ A.length + 1 + M.length) : solid (slice P 0 i) = solid A ++ [x] := by
  unfold slice
  rw [List.drop_zero, h]
  have e : A ++ x :: (M ++ y :: B) = (A ++ [x]) ++ (M ++ y :: B) := by simp
  rw [e, List.take_append, List.take_of_length_le (by rw [List.length_append, List.length_singleton]; omega), List.take_append,
    solid_append, solid_append, solid_append]
  have h3 : i - (A ++ [x]).length - M.length = 0 := by rw [List.length_append, List.length_singleton]; omega
  rw [h3, List.take_zero, solid_ws (fun p hp => hM p (List.mem_of_mem_take hp))]
  have : solid [x] = [x] := by unfold solid; rw [List.filter_cons_of_pos (by simp [hx])]; rfl
  rw [this]
  simp [solid]

theorem off_parts {P A M B : Pieces} {x y : Kind × Text} (h : P = A ++ x :: (M ++ y :: B)) :
    off P (A.length + 1) = blen (flat (A ++ [x])) ∧ off P (A.length + 1 + M.length) = blen (flat (A ++ [x])) + blen (flat M) := by
  have e : P = (A ++ [x]) ++ (M ++ y :: B) := by rw [h]; simp
  have e2 : P = (A ++ [x] ++ M) ++ y :: B := by rw [h]; simp
  have l1 : A.length + 1 = (A ++ [x]).length := by simp
  have l2 : A.length + 1 + M.length = (A ++ [x] ++ M).length := by rw [List.length_append, List.length_append, List.length_singleton]
  unfold off
  constructor
  · rw [l1, e, List.take_left]
  · rw [l2, e2, List.take_left, flat_app, blen_append]

/-! ## Brackets -/

theorem nil_rule : lexRules.any (fun r => r.re == rule_NIL.re && !r.boundary) = true := by decide +kernel
theorem anon_rule : lexRules.any (fun r => r.re == rule_ANON.re && !r.boundary) = true := by decide +kernel
theorem close_rules : lexRules.all (fun r => (!([K.RParen, K.RParenDoubleMore].contains r.kind) || subClass (firsts r.re) [(0x29, 0x29)]) &&
    (r.kind != K.RBrack || subClass (firsts r.re) [(0x5D, 0x5D)])) = true := by decide +kernel

theorem one_char {n : Nat} {c : Char} (h : Class.has [(n, n)] c = true) : c = Char.ofNat n := by
  obtain ⟨p, hp, h1, h2⟩ := has_iff.1 h
  rw [List.mem_singleton.1 hp] at h1 h2
  dsimp only at h1 h2
  have : c.toNat = n := by omega
  rw [← Char.ofNat_toNat c, this]

/-- A bracket and the bracket that closes it are one token. -/
theorem no_brackets {t : Text} {L A M B : List (Kind × Text)} {x y : Kind × Text} (hl : Lexes t L) (h : L = A ++ x :: (M ++ y :: B))
    (hM : ∀ p ∈ M, p.1 = K.WHITESPACE) : ¬ closes2 x.1 y.1 := by
  intro hc
  have hrule := lexes_rule hl
  have hx : HasRule x := hrule x (by rw [h]; simp) (by rcases hc with ⟨h, -⟩ | ⟨h, -⟩ <;> rw [h] <;> decide)
  have hy : HasRule y := hrule y (by rw [h]; simp) (by rcases hc with ⟨-, h | h⟩ | ⟨-, h⟩ <;> rw [h] <;> decide)
  have hMs : Spaces (flat M) := by
    have : ∀ (M : List (Kind × Text)), (∀ p ∈ M, HasRule p ∧ p.1 = K.WHITESPACE) → Spaces (flat M) := by
      intro M
      induction M with
      | nil => intro _ c hc; cases hc
      | cons p M ih =>
        intro hp c hc
        have e : flat (p :: M) = p.2 ++ flat M := rfl
        rw [e] at hc
        rcases List.mem_append.1 hc with hc | hc
        · exact white_text (hp p List.mem_cons_self).1 (hp p List.mem_cons_self).2 c hc
        · exact ih (fun q hq => hp q (List.mem_cons_of_mem _ hq)) c hc
    refine this M (fun p hp => ⟨hrule p (by rw [h]; simp [hp]) (by rw [hM p hp]; decide), hM p hp⟩)
  rw [h] at hl
  have hs := lexes_suffix hl
  have key : ∀ (o c : Char) (v : Text), x.2 = [o] → y.2 = c :: v → (∃ r ∈ lexRules, r.boundary = false ∧ Matches r.re (o :: (flat M ++ [c]))) →
      x.1 ≠ K.Error → False := by
    intro o c v hx2 hy2 hr hE
    generalize hz : flat (x :: (M ++ y :: B)) = z at hs
    generalize hq : x :: (M ++ y :: B) = q at hs
    cases hs with
    | nil => cases hq
    | @tok k w after l hlong hs =>
      injection hq with hq1 hq2
      have e : w ++ after = o :: (flat M ++ [c]) ++ (v ++ flat B) := by
        rw [← hz]
        show x.2 ++ flat (M ++ y :: B) = _
        rw [flat_app, hx2]
        show [o] ++ (flat M ++ (y.2 ++ flat B)) = _
        rw [hy2]; simp
      obtain ⟨r, hr1, hr2, hr3⟩ := hr
      have := hlong.2 r hr1 (o :: (flat M ++ [c])) ⟨v ++ flat B, e, hr3, fun hb => by rw [hr2] at hb; cases hb⟩
      have hw : w = [o] := by rw [← hx2, hq1]
      rw [hw] at this
      simp only [List.length_cons, List.length_append, List.length_nil] at this
      omega
    | err =>
      injection hq with hq1 hq2
      rw [hq1] at hE
      exact hE rfl
  have hfirst : ∀ (n : Nat), (∀ r ∈ lexRules, r.kind = y.1 → subClass (firsts r.re) [(n, n)] = true) → ∃ v, y.2 = Char.ofNat n :: v := by
    intro n hr
    obtain ⟨r, h1, h2, h3⟩ := hy
    obtain ⟨c, v, e⟩ := rule_cons h1 h3
    refine ⟨v, ?_⟩
    have h4 := firsts_has h3 c v e
    rw [e, one_char (sub_has (hr r h1 h2) h4)]
  rcases hc with ⟨h1, h2⟩ | ⟨h1, h2⟩
  · have hx2 : x.2 = ['('] := (open_text (t := x.2) (by rw [← h1]; exact hx)).1
    obtain ⟨v, hv⟩ := hfirst 0x29 (by
      intro r hr hk
      have := List.all_eq_true.1 close_rules r hr
      rw [Bool.and_eq_true, Bool.or_eq_true] at this
      rcases this.1 with h | h
      · exfalso
        rw [hk] at h
        rcases h2 with h2 | h2 <;> rw [h2] at h <;> exact absurd h (by decide)
      · exact h)
    refine key '(' ')' v hx2 hv ?_ (by rw [h1]; decide)
    obtain ⟨r, hr, hre⟩ := List.any_eq_true.1 nil_rule
    rw [Bool.and_eq_true, beq_iff_eq] at hre
    refine ⟨r, hr, by simpa using hre.2, ?_⟩
    rw [hre.1]
    exact matches_cons (by decide) (matches_seq.2 ⟨flat M, [')'], rfl, matches_star_cls.2 (fun c hc => hMs c hc), matches_cls.2 ⟨')', rfl, by decide⟩⟩)
  · have hx2 : x.2 = ['['] := (brack_text (t := x.2) (by rw [← h1]; exact hx)).1
    obtain ⟨v, hv⟩ := hfirst 0x5D (by
      intro r hr hk
      have := List.all_eq_true.1 close_rules r hr
      rw [Bool.and_eq_true, Bool.or_eq_true, Bool.or_eq_true] at this
      rcases this.2 with h | h
      · exfalso
        rw [hk, h2] at h
        exact absurd h (by decide)
      · exact h)
    refine key '[' ']' v hx2 hv ?_ (by rw [h1]; decide)
    obtain ⟨r, hr, hre⟩ := List.any_eq_true.1 anon_rule
    rw [Bool.and_eq_true, beq_iff_eq] at hre
    refine ⟨r, hr, by simpa using hre.2, ?_⟩
    rw [hre.1]
    have hsub : subClass wsClass Lexer.space = true := by decide
    exact matches_cons (by decide) (matches_seq.2 ⟨flat M, [']'], rfl, matches_star_cls.2 (fun c hc => sub_has hsub (hMs c hc)), matches_cls.2 ⟨']', rfl, by decide⟩⟩)

end Verif.Format
