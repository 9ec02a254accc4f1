import Mathlib.Logic.Relation
import Mathlib.Data.List.Basic
/-!
# The union-find structure of the variable analysis

Models `UnionFind` (`src/server/message_handler/common/mod.rs` L143-171). The `while` loop of `find` is a recursion on a
fuel argument; `none` is either an index out of bounds (a panic) or running out of fuel. That neither happens is proved.
-/
namespace Verif.Features

/-- `UnionFind::new` (common/mod.rs L149-153). -/
def ufNew (size : Nat) : List Nat := List.range size

/-- `UnionFind::find` with path halving (common/mod.rs L155-161): the new parents and the root. -/
def ufFindLoop : Nat → List Nat → Nat → Option (List Nat × Nat)
  | 0, _, _ => none
  | fuel + 1, parent, node =>
    match parent[node]? with
    | none => none
    | some p =>
      if p = node then some (parent, node)
      else
        match parent[p]? with
        | none => none
        | some q => ufFindLoop fuel (parent.set node q) q

/-- `find` with enough fuel for every structure the code builds. -/
def ufFind (parent : List Nat) (node : Nat) : Option (List Nat × Nat) := ufFindLoop (parent.length + 1) parent node

/-- `UnionFind::union` (common/mod.rs L163-168). -/
def ufUnion (parent : List Nat) (u v : Nat) : Option (List Nat) :=
  match ufFind parent u with
  | none => none
  | some (parent, rootU) =>
    match ufFind parent v with
    | none => none
    | some (parent, rootV) => some (if rootU ≠ rootV then parent.set rootU rootV else parent)

/-- A sequence of unions. -/
def ufUnions (parent : List Nat) : List (Nat × Nat) → Option (List Nat)
  | [] => some parent
  | (u, v) :: es =>
    match ufUnion parent u v with
    | none => none
    | some parent => ufUnions parent es

/-! ## Correctness -/

/-- `rep` is the root of every node and `d` bounds the length of the way to it by `m`. -/
structure UfInv (parent : List Nat) (rep d : Nat → Nat) (m : Nat) : Prop where
  lt : ∀ i p : Nat, parent[i]? = some p → p < parent.length
  rep_eq : ∀ i p : Nat, parent[i]? = some p → rep p = rep i
  root : ∀ i : Nat, parent[i]? = some i → rep i = i ∧ d i = 0
  step : ∀ i p : Nat, parent[i]? = some p → p ≠ i → d p < d i
  bound : ∀ i : Nat, d i ≤ m
  rep_lt : ∀ i : Nat, i < parent.length → parent[rep i]? = some (rep i)

theorem ufInv_set {parent rep d m} (h : UfInv parent rep d m) {i p q : Nat} (hi : parent[i]? = some p)
    (hp : parent[p]? = some q) (hne : p ≠ i) : UfInv (parent.set i q) rep d m := by
  have hil : i < parent.length := by
    by_contra hc
    rw [List.getElem?_eq_none (by omega)] at hi; cases hi
  have hdq : d q < d i := by
    have h1 := h.step i p hi hne
    by_cases e : q = p
    · subst e; exact h1
    · have := h.step p q hp e; omega
  have hqi : q ≠ i := by rintro rfl; omega
  refine ⟨?_, ?_, ?_, ?_, h.bound, ?_⟩
  · intro j x hj
    rw [List.length_set]
    rw [List.getElem?_set] at hj
    split at hj
    · rename_i e; subst e
      cases hj
      exact h.lt p q hp
    · exact h.lt j x hj
  · intro j x hj
    rw [List.getElem?_set] at hj
    split at hj
    · rename_i e; subst e
      cases hj
      rw [h.rep_eq p q hp, h.rep_eq i p hi]
    · exact h.rep_eq j x hj
  · intro j hj
    rw [List.getElem?_set] at hj
    split at hj
    · rename_i e; subst e
      cases hj
      exact absurd rfl hqi
    · exact h.root j hj
  · intro j x hj hne'
    rw [List.getElem?_set] at hj
    split at hj
    · rename_i e; subst e
      cases hj
      exact hdq
    · exact h.step j x hj hne'
  · intro j hj
    rw [List.length_set] at hj
    have hr := h.rep_lt j hj
    rw [List.getElem?_set]
    have : i ≠ rep j := by
      intro e
      rw [← e, hi] at hr
      cases hr; exact hne rfl
    rw [if_neg this]
    exact hr

theorem ufFindLoop_spec {rep d m} (fuel : Nat) (parent : List Nat) (i : Nat) (h : UfInv parent rep d m)
    (hi : i < parent.length) (hf : d i < fuel) :
    ∃ parent', ufFindLoop fuel parent i = some (parent', rep i) ∧ UfInv parent' rep d m ∧
      parent'.length = parent.length := by
  induction fuel generalizing parent i with
  | zero => omega
  | succ fuel ih =>
    unfold ufFindLoop
    cases hp : parent[i]? with
    | none => rw [List.getElem?_eq_none_iff] at hp; omega
    | some p =>
      dsimp only
      split
      · rename_i e; subst e
        exact ⟨parent, by rw [(h.root p hp).1], h, rfl⟩
      · rename_i hne
        have hpl := h.lt i p hp
        cases hq : parent[p]? with
        | none => rw [List.getElem?_eq_none_iff] at hq; omega
        | some q =>
          dsimp only
          have hs := ufInv_set h hp hq hne
          have hql := h.lt p q hq
          have hd : d q < d i := by
            have h1 := h.step i p hp hne
            by_cases e : q = p
            · subst e; exact h1
            · have := h.step p q hq e; omega
          obtain ⟨parent', h1, h2, h3⟩ := ih (parent.set i q) q hs (by rw [List.length_set]; exact hql) (by omega)
          refine ⟨parent', ?_, h2, by rw [h3, List.length_set]⟩
          rw [h1, h.rep_eq p q hq, h.rep_eq i p hp]

theorem ufFind_spec {rep d m} {parent : List Nat} {i : Nat} (h : UfInv parent rep d m) (hi : i < parent.length)
    (hm : m ≤ parent.length) :
    ∃ parent', ufFind parent i = some (parent', rep i) ∧ UfInv parent' rep d m ∧ parent'.length = parent.length :=
  ufFindLoop_spec _ parent i h hi (by have := h.bound i; omega)

theorem ufUnion_spec {rep d m} {parent : List Nat} {u v : Nat} (h : UfInv parent rep d m) (hu : u < parent.length)
    (hv : v < parent.length) (hm : m < parent.length) :
    ∃ parent' d', ufUnion parent u v = some parent' ∧ parent'.length = parent.length ∧
      UfInv parent' (fun i => if rep i = rep u then rep v else rep i) d' (m + 1) := by
  obtain ⟨p1, e1, i1, l1⟩ := ufFind_spec h hu (by omega)
  obtain ⟨p2, e2, i2, l2⟩ := ufFind_spec i1 (i := v) (by omega) (by omega)
  unfold ufUnion
  rw [e1]; dsimp only
  rw [e2]; dsimp only
  by_cases hr : rep u = rep v
  · refine ⟨p2, d, by rw [if_neg (by simpa using hr)], by omega, ?_⟩
    have hrep : (fun i => if rep i = rep u then rep v else rep i) = rep := by
      funext i
      split
      · rename_i e; rw [e, hr]
      · rfl
    rw [hrep]
    exact { i2 with bound := fun i => by have := i2.bound i; omega }
  · refine ⟨p2.set (rep u) (rep v), fun i => if rep i = rep u then d i + 1 else d i, by rw [if_pos hr],
      by rw [List.length_set]; omega, ?_⟩
    have hru : p2[rep u]? = some (rep u) := i2.rep_lt u (by omega)
    have hrv : p2[rep v]? = some (rep v) := i2.rep_lt v (by omega)
    have hul : rep u < p2.length := i2.lt _ _ hru
    have hvl : rep v < p2.length := i2.lt _ _ hrv
    have rru := (i2.root _ hru).1
    have rrv := (i2.root _ hrv).1
    refine ⟨?_, ?_, ?_, ?_, ?_, ?_⟩
    · intro i p hi
      rw [List.length_set]
      rw [List.getElem?_set] at hi
      split at hi
      · cases hi; exact hvl
      · exact i2.lt i p hi
    · intro i p hi
      rw [List.getElem?_set] at hi
      split at hi
      · rename_i e; cases hi
        rw [← e, rru, if_pos rfl, rrv]
        split <;> rfl
      · rw [i2.rep_eq i p hi]
    · intro i hi
      rw [List.getElem?_set] at hi
      split at hi
      · rename_i e
        injection hi with hi
        exact absurd (e.trans hi.symm) hr
      · rename_i hne
        have := i2.root i hi
        have hx : rep i ≠ rep u := by rw [this.1]; exact fun e => hne e.symm
        rw [if_neg hx, if_neg hx]
        exact this
    · intro i p hi hne
      rw [List.getElem?_set] at hi
      split at hi
      · rename_i e; cases hi
        rw [rrv, if_neg (fun e => hr e.symm), ← e, rru, if_pos rfl, (i2.root _ hrv).2]
        omega
      · have h1 := i2.step i p hi hne
        have h2 := i2.rep_eq i p hi
        rw [h2]
        split <;> omega
    · intro i
      have := i2.bound i
      split <;> omega
    · intro i hi
      rw [List.length_set] at hi
      rw [List.getElem?_set]
      split
      · exact hrv
      · rename_i hne
        rw [if_neg (fun e => hne e.symm)]
        exact i2.rep_lt i hi

theorem ufInv_new (n : Nat) : UfInv (ufNew n) id (fun _ => 0) 0 := by
  have key : ∀ i p : Nat, (ufNew n)[i]? = some p → p = i ∧ i < n := by
    intro i p h
    unfold ufNew at h
    by_cases hi : i < n
    · rw [List.getElem?_range hi] at h; cases h; exact ⟨rfl, hi⟩
    · rw [List.getElem?_eq_none (by simp; omega)] at h; cases h
  refine ⟨?_, ?_, ?_, ?_, ?_, ?_⟩
  · intro i p h
    obtain ⟨rfl, h⟩ := key i p h
    simpa [ufNew] using h
  · intro i p h; rw [(key i p h).1]
  · intro i _; exact ⟨rfl, rfl⟩
  · intro i p h hne; exact absurd (key i p h).1 hne
  · intro i; exact Nat.le_refl _
  · intro i hi
    have hi' : i < n := by simpa [ufNew] using hi
    simp only [ufNew, id]
    exact List.getElem?_range hi'

open Relation in
/-- Two nodes have the same root after joining along `edges` iff they are connected by them. -/
theorem ufUnions_spec (edges : List (Nat × Nat)) : ∀ {rep d m} {parent : List Nat} (R : Nat → Nat → Prop)
    (_ : UfInv parent rep d m) (_ : m + edges.length ≤ parent.length)
    (_ : ∀ e ∈ edges, e.1 < parent.length ∧ e.2 < parent.length)
    (_ : ∀ i j, rep i = rep j ↔ EqvGen R i j),
    ∃ parent' rep' d', ufUnions parent edges = some parent' ∧ parent'.length = parent.length ∧
      UfInv parent' rep' d' (m + edges.length) ∧
      ∀ i j, rep' i = rep' j ↔ EqvGen (fun a b => R a b ∨ (a, b) ∈ edges) i j := by
  induction edges with
  | nil =>
    intro rep d m parent R h _ _ hR
    refine ⟨parent, rep, d, rfl, rfl, h, ?_⟩
    intro i j
    rw [hR]
    simp
  | cons e es ih =>
    intro rep d m parent R h hm hb hR
    obtain ⟨u, v⟩ := e
    have huv := hb (u, v) (by simp)
    obtain ⟨p1, d1, e1, l1, i1⟩ := ufUnion_spec h huv.1 huv.2 (by simp at hm; omega)
    have hR1 : ∀ i j, ((fun i => if rep i = rep u then rep v else rep i) i =
        (fun i => if rep i = rep u then rep v else rep i) j) ↔ EqvGen (fun a b => R a b ∨ (a = u ∧ b = v)) i j := by
      intro i j
      have mono : ∀ {a b}, EqvGen R a b → EqvGen (fun a b => R a b ∨ (a = u ∧ b = v)) a b :=
        fun {a b} h => EqvGen.mono (r := R) (fun _ _ h => Or.inl h) a b h
      have huv' : EqvGen (fun a b => R a b ∨ (a = u ∧ b = v)) u v := .rel _ _ (.inr ⟨rfl, rfl⟩)
      constructor
      · intro hij
        dsimp only at hij
        by_cases hi : rep i = rep u
        · rw [if_pos hi] at hij
          have c1 := (mono ((hR i u).1 hi)).trans _ _ _ huv'
          by_cases hj : rep j = rep u
          · exact mono ((hR i j).1 (hi.trans hj.symm))
          · rw [if_neg hj] at hij
            exact c1.trans _ _ _ (mono ((hR v j).1 hij))
        · rw [if_neg hi] at hij
          by_cases hj : rep j = rep u
          · rw [if_pos hj] at hij
            exact ((mono ((hR i v).1 hij)).trans _ _ _ (huv'.symm _ _)).trans _ _ _ (mono ((hR u j).1 hj.symm))
          · rw [if_neg hj] at hij
            exact mono ((hR i j).1 hij)
      · intro hij
        induction hij with
        | rel a b hab =>
          rcases hab with hab | ⟨rfl, rfl⟩
          · have := (hR a b).2 (.rel _ _ hab)
            dsimp only; rw [this]
          · dsimp only; rw [if_pos rfl]; split <;> rfl
        | refl => rfl
        | symm a b _ ih => exact ih.symm
        | trans a b c _ _ ih1 ih2 => exact ih1.trans ih2
    obtain ⟨p2, r2, d2, e2, l2, i2, hR2⟩ := ih _ i1 (by simp at hm; omega)
      (fun e he => by rw [l1]; exact hb e (by simp [he])) hR1
    refine ⟨p2, r2, d2, ?_, by omega, ?_, ?_⟩
    · unfold ufUnions; rw [e1]; dsimp only; exact e2
    · have : m + 1 + es.length = m + ((u, v) :: es).length := by simp; omega
      rw [← this]; exact i2
    · intro i j
      rw [hR2]
      have : (fun a b => (R a b ∨ (a = u ∧ b = v)) ∨ (a, b) ∈ es) = (fun a b => R a b ∨ (a, b) ∈ (u, v) :: es) := by
        funext a b
        simp [or_assoc]
      rw [this]

open Relation in
/-- The structure the analysis builds: `find` succeeds on every node and two nodes get the same answer iff they are
connected by the edges. -/
theorem uf_correct (n : Nat) (edges : List (Nat × Nat)) (hl : edges.length ≤ n) (hb : ∀ e ∈ edges, e.1 < n ∧ e.2 < n) :
    ∃ parent rep d, ufUnions (ufNew n) edges = some parent ∧ parent.length = n ∧ UfInv parent rep d n ∧
      ∀ i j, rep i = rep j ↔ EqvGen (fun a b => (a, b) ∈ edges) i j := by
  have hn : (ufNew n).length = n := by simp [ufNew]
  have h0 : ∀ i j : Nat, id i = id j ↔ EqvGen (fun _ _ => False) i j := by
    intro i j
    constructor
    · intro h; cases h; exact .refl _
    · intro h
      induction h with
      | rel _ _ h => cases h
      | refl => rfl
      | symm _ _ _ ih => exact ih.symm
      | trans _ _ _ _ _ a b => exact a.trans b
  obtain ⟨p, r, d, h1, h2, h3, h4⟩ := ufUnions_spec edges _ (ufInv_new n) (by omega) (by rw [hn]; exact hb) h0
  refine ⟨p, r, d, h1, by omega, { h3 with bound := fun i => by have := h3.bound i; omega }, ?_⟩
  intro i j
  rw [h4]
  simp

end Verif.Features
