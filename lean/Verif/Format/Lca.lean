import Verif.Format.Owner
/-!
# Neighbouring tokens and the node they meet in
-/
namespace Verif.Format
open Verif Verif.Grammar Verif.Lexer Verif.Features Verif.Props

/-- A place in the leaves of some elements is a place in the leaves of one of them. -/
theorem lv_split : ∀ {l : List Red} {A B : List (Kind × Text)} {x : Kind × Text}, lv l = A ++ x :: B →
    ∃ X a Y A' B', l = X ++ a :: Y ∧ a.green.leaves = A' ++ x :: B' ∧ A = lv X ++ A' ∧ B = B' ++ lv Y := by
  intro l
  induction l with
  | nil => intro A B x h; cases A <;> cases h
  | cons c l ih =>
    intro A B x h
    have e : lv (c :: l) = c.green.leaves ++ lv l := rfl
    rw [e] at h
    rcases List.append_eq_append_iff.1 h with ⟨u, h1, h2⟩ | ⟨u, h1, h2⟩
    · obtain ⟨X, a, Y, A', B', e1, e2, e3, e4⟩ := ih h2
      exact ⟨c :: X, a, Y, A', B', by rw [e1]; rfl, e2, by rw [h1, e3, ← List.append_assoc]; rfl, e4⟩
    · cases u with
      | nil =>
        rw [List.append_nil] at h1
        obtain ⟨X, a, Y, A', B', e1, e2, e3, e4⟩ := ih (A := []) (B := B) (x := x) h2.symm
        refine ⟨c :: X, a, Y, A', B', by rw [e1]; rfl, e2, ?_, e4⟩
        show A = c.green.leaves ++ lv X ++ A'
        rw [List.append_assoc, ← e3, List.append_nil, h1]
      | cons y u =>
        injection h2 with h3 h4
        subst h3
        exact ⟨[], c, l, A, u, rfl, h1, rfl, h4⟩

section
variable {text : Text} {g : Green} (P : Parsed text g)
include P

/-- Trivia elements have trivia leaves only, other elements do not. -/
theorem trivia_run {r : Red} (hr : InTree g r) {X : List Red} (hX : ∀ c ∈ X, c ∈ r.childrenT) {M : List (Kind × Text)} {y : Kind × Text}
    {B : List (Kind × Text)} (hM : ∀ p ∈ M, triviaKind p.1 = true) (hy : triviaKind y.1 = false) (h : lv X = M ++ y :: B) :
    ∃ T b Y B', X = T ++ b :: Y ∧ (∀ t ∈ T, triviaKind t.kind = true) ∧ triviaKind b.kind = false ∧ b.green.leaves = y :: B' ∧ lv T = M ∧ B = B' ++ lv Y := by
  obtain ⟨T, b, Y, A', B', e1, e2, e3, e4⟩ := lv_split h
  have hb : triviaKind b.kind = false := by
    cases hk : triviaKind b.kind with
    | false => rfl
    | true =>
      have hin : InTree g b := .child hr (hX b (by rw [e1]; simp))
      have := token_leaves (trivia_token P hin hk)
      rw [e2] at this
      have hm : y ∈ [b.kt] := by rw [← this]; simp
      rw [List.mem_singleton.1 hm] at hy
      have : b.kt.1 = b.kind := rfl
      rw [this, hk] at hy
      cases hy
  have hA : A' = [] := by
    obtain ⟨⟨k, t, l, e, hk⟩, -⟩ := solid_tight P (child_solid P hr (hX b (by rw [e1]; simp)) hb)
    cases A' with
    | nil => rfl
    | cons p A' =>
      rw [e2] at e
      injection e with e5 e6
      have := hM p (by rw [e3]; simp)
      rw [e5] at this
      rw [this] at hk; cases hk
  subst hA
  rw [List.append_nil] at e3
  refine ⟨T, b, Y, B', e1, ?_, hb, e2, e3.symm, e4⟩
  intro t ht
  cases hk : triviaKind t.kind with
  | true => rfl
  | false =>
    exfalso
    obtain ⟨⟨k, x, l, e, hk'⟩, -⟩ := solid_tight P (child_solid P hr (hX t (by rw [e1]; simp [ht])) hk)
    have : (k, x) ∈ lv T := List.mem_flatMap.2 ⟨t, ht, by rw [e]; simp⟩
    rw [← e3] at this
    have := hM _ this
    rw [this] at hk'; cases hk'

/-- **Two tokens with only trivia between them end and begin two children of a node**, with only trivia between those. -/
theorem meet : ∀ (r : Red), InTree g r → ∀ {A M B : List (Kind × Text)} {x y : Kind × Text}, r.green.leaves = A ++ x :: (M ++ y :: B) →
    triviaKind x.1 = false → triviaKind y.1 = false → (∀ p ∈ M, triviaKind p.1 = true) →
    ∃ r' X a T b Y A' B', InTree g r' ∧ r'.isNode = true ∧ r'.childrenT = X ++ a :: (T ++ b :: Y) ∧ (∀ t ∈ T, triviaKind t.kind = true) ∧
      triviaKind a.kind = false ∧ triviaKind b.kind = false ∧ lv T = M ∧ a.green.leaves = A' ++ [x] ∧ b.green.leaves = y :: B' ∧
      a.stop = r.start + blen (flat (A ++ [x])) ∧ b.start = a.stop + blen (flat M) := by
  intro r
  refine red_induction (P := fun r => InTree g r → ∀ {A M B : List (Kind × Text)} {x y : Kind × Text}, r.green.leaves = A ++ x :: (M ++ y :: B) →
    triviaKind x.1 = false → triviaKind y.1 = false → (∀ p ∈ M, triviaKind p.1 = true) →
    ∃ r' X a T b Y A' B', InTree g r' ∧ r'.isNode = true ∧ r'.childrenT = X ++ a :: (T ++ b :: Y) ∧ (∀ t ∈ T, triviaKind t.kind = true) ∧
      triviaKind a.kind = false ∧ triviaKind b.kind = false ∧ lv T = M ∧ a.green.leaves = A' ++ [x] ∧ b.green.leaves = y :: B' ∧
      a.stop = r.start + blen (flat (A ++ [x])) ∧ b.start = a.stop + blen (flat M)) ?_ r
  intro r ih hr A M B x y h hx hy hM
  have hn : r.isNode = true := by
    cases hn : r.isNode with
    | true => rfl
    | false =>
      rw [token_leaves hn] at h
      have := congrArg List.length h
      simp at this
      omega
  rw [children_leaves hn] at h
  obtain ⟨X, a, Y, A', B', e1, e2, e3, e4⟩ := lv_split h
  have ha : a ∈ r.childrenT := by rw [e1]; simp
  have hpl := (child_places (r := r) (X := X) (Y := a :: Y) e1).2 a Y rfl
  have hstart : a.start + blen (flat (A' ++ [x])) = r.start + blen (flat (A ++ [x])) := by
    rw [hpl, e3, flat_app, flat_app, flat_app, blen_append, blen_append, blen_append]; omega
  have hak : triviaKind a.kind = false := by
    cases hk : triviaKind a.kind with
    | false => rfl
    | true =>
      have := token_leaves (trivia_token P (.child hr ha) hk)
      rw [e2] at this
      have hm : x ∈ [a.kt] := by rw [← this]; simp
      rw [List.mem_singleton.1 hm] at hx
      have : a.kt.1 = a.kind := rfl
      rw [this, hk] at hx
      cases hx
  rcases List.append_eq_append_iff.1 e4 with ⟨u, h1, h2⟩ | ⟨u, h1, h2⟩
  · -- `B'` is `M ++ u` and `u ++ lv Y = y :: B`
    cases u with
    | nil =>
      rw [List.append_nil] at h1
      have h3 : lv Y = [] ++ y :: B := h2.symm
      have hB : B' = [] := by
        obtain ⟨-, k, t, l, e, hk⟩ := solid_tight P (child_solid P hr ha hak)
        cases B' using List.reverseRecOn with
        | nil => rfl
        | append_singleton B' p _ =>
          rw [e2] at e
          rw [show A' ++ x :: (B' ++ [p]) = (A' ++ x :: B') ++ [p] by simp] at e
          have := (List.append_inj' e rfl).2
          injection this with h5 _
          have := hM p (by rw [← h1]; simp)
          rw [h5] at this
          rw [this] at hk; cases hk
      subst hB
      obtain ⟨T, b, Y', B2, f1, f2, f3, f4, f5, f6⟩ := trivia_run P hr (X := Y) (fun c hc => by rw [e1]; simp [hc]) (M := []) (by simp) hy h3
      subst h1
      have hT : T = [] := by
        cases T with
        | nil => rfl
        | cons t T =>
          have := token_leaves (trivia_token P (.child hr (by rw [e1, f1]; simp)) (f2 t List.mem_cons_self))
          have e : lv (t :: T) = t.green.leaves ++ lv T := rfl
          rw [f5, this] at e; cases e
      subst hT
      have hstop : a.stop = r.start + blen (flat (A ++ [x])) := by
        rw [← hstart, ← e2]; rfl
      refine ⟨r, X, a, [], b, Y', A', B2, hr, hn, by rw [e1, f1], by simp, hak, f3, rfl, e2, f4, hstop, ?_⟩
      have := (child_places (r := r) (X := X ++ [a]) (Y := b :: Y') (by rw [e1, f1]; simp))
      have h7 := this.2 b Y' rfl
      have h8 := this.1 X a rfl
      rw [h7, h8]; rfl
    | cons z u =>
      injection h2 with h3 h4
      subst h3
      subst h1
      obtain ⟨r', X', a', T, b, Y', A2, B2, q1, q2, q3, q4, q5, q6, q7, q8, q9, q10, q11⟩ := ih a ha (.child hr ha) e2 hx hy hM
      exact ⟨r', X', a', T, b, Y', A2, B2, q1, q2, q3, q4, q5, q6, q7, q8, q9, by rw [q10, hstart], q11⟩
  · -- `M = B' ++ u`, `lv Y = u ++ y :: B`
    have hB : B' = [] := by
      obtain ⟨-, k, t, l, e, hk⟩ := solid_tight P (child_solid P hr ha hak)
      cases B' using List.reverseRecOn with
      | nil => rfl
      | append_singleton B' p _ =>
        rw [e2] at e
        rw [show A' ++ x :: (B' ++ [p]) = (A' ++ x :: B') ++ [p] by simp] at e
        have := (List.append_inj' e rfl).2
        injection this with h5 _
        have := hM p (by rw [h1]; simp)
        rw [h5] at this
        rw [this] at hk; cases hk
    subst hB
    rw [List.nil_append] at h1
    subst h1
    obtain ⟨T, b, Y', B2, f1, f2, f3, f4, f5, f6⟩ := trivia_run P hr (X := Y) (fun c hc => by rw [e1]; simp [hc]) hM hy h2
    have hstop : a.stop = r.start + blen (flat (A ++ [x])) := by
      rw [← hstart, ← e2]; rfl
    refine ⟨r, X, a, T, b, Y', A', B2, hr, hn, by rw [e1, f1], f2, hak, f3, f5, e2, f4, hstop, ?_⟩
    have := (child_places (r := r) (X := X ++ [a] ++ T) (Y := b :: Y') (by rw [e1, f1]; simp)).2 b Y' rfl
    have h8 := (child_places (r := r) (X := X ++ [a]) (Y := T ++ b :: Y') (by rw [e1, f1]; simp)).1 X a rfl
    rw [this, h8, lv_append, flat_app, blen_append, f5]; omega

end
end Verif.Format
