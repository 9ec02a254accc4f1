import Verif.Grammar.Front
import Verif.Grammar.LooseTree
/-!
# The nodes around the end of a forest
-/
namespace Verif.Grammar
open Forest

/-- Whether it is a node, and its kind; white space and comments do not count. -/
def Green.face : Green → Option (Bool × Kind)
  | .tok k _ => if triviaKind k then none else some (false, k)
  | .node k _ => some (true, k)

/-- The elements of a forest. -/
def facesF : Forest → List Kind → List (Bool × Kind)
  | .nil, _ => []
  | .tok r, w => (w.head?.map (fun k => (false, k))).toList ++ facesF r w.tail
  | .err _ r, w => facesF r w
  | .node k c r, w => (true, k) :: facesF r (w.drop c.toks)

/-- The nodes that contain the end, the innermost first, with their elements. -/
def trail : Forest → List Kind → List (Kind × List (Bool × Kind))
  | .nil, _ => []
  | .tok r, w => trail r w.tail
  | .err _ r, w => trail r w
  | .node k c r, w => if r = .nil then trail c w ++ [(k, facesF c w)] else trail r (w.drop c.toks)

theorem append_ne_nil {F G : Forest} (h : G ≠ .nil) : F.append G ≠ .nil := by
  cases F with
  | nil => exact h
  | _ => intro h; cases h

theorem trail_append {G : Forest} (h : G ≠ .nil) : ∀ (F : Forest) (w : List Kind), trail (F.append G) w = trail G (w.drop F.toks) := by
  intro F
  induction F with
  | nil => intro w; rfl
  | tok r ih => intro w; simp only [Forest.append, trail, ih, Forest.toks, ← List.drop_one, List.drop_drop, Nat.add_comm]
  | err e r ih => intro w; simp only [Forest.append, trail, ih, Forest.toks]
  | node k c r ihc ihr =>
    intro w
    simp only [Forest.append, trail, Forest.toks]
    rw [if_neg (append_ne_nil h), ihr, List.drop_drop]

theorem facesF_append (F G : Forest) : ∀ w, facesF (F.append G) w = facesF F w ++ facesF G (w.drop F.toks) := by
  induction F with
  | nil => intro w; rfl
  | tok r ih =>
    intro w
    simp only [Forest.append, facesF, ih, Forest.toks, ← List.drop_one, List.drop_drop, Nat.add_comm, List.append_assoc]
  | err e r ih => intro w; simp only [Forest.append, facesF, ih, Forest.toks]
  | node k c r ihc ihr =>
    intro w
    simp only [Forest.append, facesF, Forest.toks, ihr, List.drop_drop, List.cons_append]

/-- No reports and no empty nodes. -/
def clean : Forest → Prop
  | .nil => True
  | .tok r => clean r
  | .err _ _ => False
  | .node _ c r => c.toks ≠ 0 ∧ clean c ∧ clean r

theorem front_clean {F : Forest} (h : clean F) : front F.toks F = F := by
  induction F with
  | nil => rfl
  | tok r ih => rw [front, Forest.toks, if_neg (by omega), Nat.add_sub_cancel, ih h]
  | err e r ih => exact absurd h (by intro h; exact h)
  | node k c r ihc ihr =>
    obtain ⟨h1, h2, h3⟩ := h
    rw [front, Forest.toks, if_neg h1, if_neg (by omega), front_full (by omega), ihc h2, Nat.add_sub_cancel_left, ihr h3]

/-- A part of the beginning. -/
theorem front_short (F G : Forest) : ∀ n, n ≤ F.toks → front n (F.append G) = front n F := by
  induction F with
  | nil =>
    intro n h
    have : n = 0 := by simpa [Forest.toks] using h
    subst this
    rw [front_zero, front_zero]
  | tok r ih =>
    intro n h
    simp only [Forest.toks] at h
    simp only [Forest.append, front]
    by_cases hn : n = 0
    · rw [if_pos hn, if_pos hn]
    · rw [if_neg hn, if_neg hn, ih _ (by omega)]
  | err e r ih => intro n h; simp only [Forest.append, front]; exact ih n h
  | node k c r ihc ihr =>
    intro n h
    simp only [Forest.toks] at h
    simp only [Forest.append, front]
    by_cases hc : c.toks = 0
    · rw [if_pos hc, if_pos hc]; exact ihr n (by omega)
    · rw [if_neg hc, if_neg hc]
      by_cases hn : n = 0
      · rw [if_pos hn, if_pos hn]
      · rw [if_neg hn, if_neg hn, ihr _ (by omega)]

theorem tight_pos {k : Kind} {cs : List Green} (h : (Green.node k cs).Tight) : (sigKinds (Green.leavesL cs)).length ≠ 0 := by
  obtain ⟨⟨k', t, l, h1, h2⟩, -⟩ := h
  simp only [Green.leaves] at h1
  simp [h1, sigKinds, h2]

theorem clean_shape (g : Green) : ∀ r : Forest, (∀ n ∈ g.nodes, n.Tight) → clean r → clean (g.shape r) := by
  induction g using Green.rec (motive_2 := fun cs => (∀ n ∈ Green.nodesL cs, n.Tight) → clean (Green.shapeL cs)) with
  | tok k t =>
    intro r _ h
    simp only [Green.shape]
    split
    · exact h
    · exact h
  | node k cs ih =>
    intro r ht h
    refine ⟨?_, ih (fun n hn => ht n (by simp [Green.nodes, hn])), h⟩
    rw [toks_shapeL]
    exact tight_pos (ht (.node k cs) (by simp [Green.nodes]))
  | nil => trivial
  | cons g gs ihg ihs =>
    rename_i ht
    exact ihg _ (fun n hn => ht n (by simp [Green.nodesL, hn])) (ihs (fun n hn => ht n (by simp [Green.nodesL, hn])))

theorem clean_shapeL (cs : List Green) (ht : ∀ n ∈ Green.nodesL cs, n.Tight) : clean (Green.shapeL cs) := by
  induction cs with
  | nil => trivial
  | cons g gs ih =>
    exact clean_shape g _ (fun n hn => ht n (by simp [Green.nodesL, hn])) (ih (fun n hn => ht n (by simp [Green.nodesL, hn])))

theorem faces_shapeL (cs : List Green) : ∀ v, facesF (Green.shapeL cs) (sigKinds (Green.leavesL cs) ++ v) = cs.filterMap Green.face := by
  induction cs with
  | nil => intro v; rfl
  | cons g gs ih =>
    intro v
    cases g with
    | tok k t =>
      simp only [Green.shapeL, Green.shape, Green.leavesL, Green.leaves, List.filterMap_cons, Green.face]
      cases h : triviaKind k
      · simp [sigKinds, h, facesF]; exact ih v
      · simp [sigKinds, h]; exact ih v
    | node k c =>
      simp only [Green.shapeL, Green.shape, Green.leavesL, Green.leaves, List.filterMap_cons, Green.face, facesF,
        toks_shapeL, sigKinds_append, List.append_assoc, List.drop_left]
      rw [ih]

/-- One level: the part of a node that ends inside one of its elements. -/
theorem trail_level (k : Kind) (D : List Green) (c : Green) (B : List Green) (hD : ∀ n ∈ Green.nodesL D, n.Tight)
    {n : Nat} (hn : 0 < n) (hc : n ≤ (c.shape .nil).toks) (w : List Kind) :
    trail (front ((Green.shapeL D).toks + n) ((Green.node k (D ++ c :: B)).shape .nil)) (sigKinds (Green.leavesL D) ++ w) =
      trail (front n (c.shape .nil)) w ++ [(k, D.filterMap Green.face ++ facesF (front n (c.shape .nil)) w)] := by
  have hne : front n (c.shape .nil) ≠ .nil := by
    cases c with
    | tok k' t =>
      simp only [Green.shape] at hc ⊢
      split at hc
      · simp [Forest.toks] at hc; omega
      · rename_i h
        rw [if_neg h, front, if_neg (by omega)]
        intro h; cases h
    | node k' cs =>
      simp only [Green.shape, Forest.toks] at hc ⊢
      rw [front, if_neg (by omega), if_neg (by omega)]
      intro h; cases h
  have hS : Green.shapeL (D ++ c :: B) = (Green.shapeL D).append ((c.shape .nil).append (Green.shapeL B)) := by
    rw [shapeL_append, Green.shapeL]
    congr 1
    have := shape_append c .nil (Green.shapeL B)
    exact this
  have htoks : (Green.shapeL (D ++ c :: B)).toks = (Green.shapeL D).toks + ((c.shape .nil).toks + (Green.shapeL B).toks) := by
    rw [hS, toks_append, toks_append]
  have hfront : front ((Green.shapeL D).toks + n) (Green.shapeL (D ++ c :: B)) = (Green.shapeL D).append (front n (c.shape .nil)) := by
    rw [hS, front_append, front_clean (clean_shapeL D hD), front_short _ _ _ hc]
  have hlen : (Green.shapeL D).toks = (sigKinds (Green.leavesL D)).length := toks_shapeL D
  rw [Green.shape, front, if_neg (by omega), if_neg (by omega), hfront]
  have hnil : ∀ m, front m .nil = .nil := fun m => rfl
  rw [hnil, trail, if_pos rfl, trail_append hne, facesF_append, faces_shapeL, hlen, List.drop_left]

end Verif.Grammar
