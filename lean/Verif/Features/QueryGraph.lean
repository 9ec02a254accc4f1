import Mathlib.Logic.Relation
import Mathlib.Data.List.Perm.Basic
/-!
# The query graph of the completion

Models `src/server/message_handler/completion/environment/query_graph.rs`. Hash maps and hash sets come in an order that is not
specified and differs from one set to the next: every place that iterates over one asks a `HashOrder` for it, so a theorem for
all `HashOrder`s covers every order.
-/
namespace Verif.Features

/-- The order in which the `k`-th iterated hash set is met: any permutation. -/
structure HashOrder where
  order : {α : Type} → Nat → List α → List α
  perm : ∀ {α : Type} (k : Nat) (l : List α), (order k l).Perm l

/-- A node of the graph carrying its variables (query_graph.rs L67-71). -/
structure QNode (α : Type) (β : Type) where
  item : α
  vars : List β

variable {α β : Type} [BEq β]

/-- Two nodes share a variable (query_graph.rs L38-42). -/
def shareVar (a b : QNode α β) : Bool := a.vars.any (fun v => b.vars.contains v)

/-- The test of the inner loop by indices. -/
def shareAt (ns : List (QNode α β)) (u v : Nat) : Bool :=
  match ns[u]?, ns[v]? with
  | some a, some b => shareVar a b
  | _, _ => false

/-- The pairs the two loops of `connect` connect (query_graph.rs L35-47). -/
def graphEdges (ns : List (QNode α β)) : List (Nat × Nat) :=
  (List.range ns.length).flatMap (fun u =>
    ((List.range' (u + 1) (ns.length - (u + 1))).filter (fun v => shareAt ns u v)).map (fun v => (u, v)))

/-- `adjacency_list.get(&u)` after `connect`: `add_edge` puts each end into the set of the other (query_graph.rs L30-33). The keys
are the indices of the nodes (L20-21); `none` is a missing key. -/
def adjacent (n : Nat) (es : List (Nat × Nat)) (u : Nat) : Option (List Nat) :=
  if u < n then
    some (es.filterMap (fun e => if e.1 = u then some e.2 else if e.2 = u then some e.1 else none))
  else none

/-- How many of the first `n` numbers are not visited. -/
def unvisited (n : Nat) (visited : List Nat) : Nat := ((List.range n).filter (fun x => !visited.contains x)).length

/-- `visited.insert(node)`. -/
def visit (node : Nat) (visited : List Nat) : List Nat := if visited.contains node then visited else visited ++ [node]

/-- 1 if the top of the stack is visited. -/
def topVisited (visited : List Nat) : List Nat → Nat
  | [] => 0
  | x :: _ => if visited.contains x then 1 else 0

theorem unvisited_lt {n x : Nat} {visited : List Nat} (hx : x < n) (h : visited.contains x = false) :
    unvisited n (visit x visited) < unvisited n visited := by
  unfold unvisited visit
  rw [h]
  simp only [Bool.false_eq_true, if_false]
  have hp : (List.range n).filter (fun y => !(visited ++ [x]).contains y) =
      ((List.range n).filter (fun y => !visited.contains y)).filter (fun y => decide (y ≠ x)) := by
    rw [List.filter_filter]
    apply List.filter_congr
    intro y _
    simp [Bool.and_comm, eq_comm]
  rw [hp]
  refine Nat.lt_of_le_of_ne (List.length_filter_le ..) ?_
  intro e
  have := List.length_filter_eq_length_iff.1 e x (List.mem_filter.2 ⟨List.mem_range.2 hx, by rw [h]; rfl⟩)
  simp at this

/-- The loop of `component` (query_graph.rs L58-61); the head of the list is the top of the stack, `k` counts the hash sets
already iterated, `none` is the panic of `unwrap`. It is a total function: the loop ends. -/
def walkGraph (o : HashOrder) (n : Nat) (es : List (Nat × Nat)) (k : Nat) (visited : List Nat) (stack : List Nat) : Option (List Nat) :=
  match stack with
  | [] => some visited
  | node :: stack =>
    if _h : node < n then
      match adjacent n es node with
      | none => none
      | some adj =>
        walkGraph o n es (k + 1) (visit node visited) ((o.order k (adj.filter (fun v => !visited.contains v))).reverse ++ stack)
    else none
termination_by (unvisited n visited, topVisited visited stack, stack.length)
decreasing_by
  cases hv : visited.contains node with
  | false => exact Prod.Lex.left _ _ (unvisited_lt _h hv)
  | true =>
    have e : visit node visited = visited := by simp only [visit, hv, if_true]
    rw [e]
    apply Prod.Lex.right
    have h1 : topVisited visited (node :: stack) = 1 := by simp only [topVisited, hv, if_true]
    rw [h1]
    generalize hl : (o.order k (adj.filter (fun v => !visited.contains v))).reverse = l
    cases l with
    | nil =>
      have h2 : topVisited visited ([] ++ stack) ≤ 1 := by
        cases stack with
        | nil => simp [topVisited]
        | cons y s => simp only [List.nil_append, topVisited]; split <;> omega
      rcases Nat.lt_or_ge (topVisited visited ([] ++ stack)) 1 with h | h
      · exact Prod.Lex.left _ _ h
      · have : topVisited visited ([] ++ stack) = 1 := by omega
        rw [this]
        exact Prod.Lex.right _ (by simp)
    | cons y l =>
      have hy : y ∈ adj.filter (fun v => !visited.contains v) := by
        refine (o.perm k _).mem_iff.1 (List.mem_reverse.1 ?_)
        rw [hl]; simp
      have hy := (List.mem_filter.1 hy).2
      have : topVisited visited ((y :: l) ++ stack) = 0 := by
        simp only [List.cons_append, topVisited]
        rw [if_neg]
        intro h; rw [h] at hy; cases hy
      rw [this]
      exact Prod.Lex.left _ _ (by omega)

/-- `component` (query_graph.rs L49-65): `none` is a panic of `expect`, `unwrap` or the index. -/
def component (o : HashOrder) (ns : List (QNode α β)) (u : Nat) : Option (List α) :=
  match adjacent ns.length (graphEdges ns) u with
  | none => none
  | some adj =>
    match walkGraph o ns.length (graphEdges ns) 1 [u] (o.order 0 adj).reverse with
    | none => none
    | some visited => ((o.order 0 visited).mapM (fun i => ns[i]?)).map (List.map QNode.item)

/-! ## What it computes -/

/-- Two nodes share a variable. -/
def Share [BEq β] (ns : List (QNode α β)) (u v : Nat) : Prop :=
  u ≠ v ∧ ∃ a b, ns[u]? = some a ∧ ns[v]? = some b ∧ ∃ x, x ∈ a.vars ∧ x ∈ b.vars

variable [LawfulBEq β]

theorem shareAt_iff {ns : List (QNode α β)} {u v : Nat} : shareAt ns u v = true ↔
    ∃ a b, ns[u]? = some a ∧ ns[v]? = some b ∧ ∃ x, x ∈ a.vars ∧ x ∈ b.vars := by
  unfold shareAt
  constructor
  · intro h
    split at h
    · next a b h1 h2 =>
      unfold shareVar at h
      obtain ⟨x, hx, hb⟩ := List.any_eq_true.1 h
      exact ⟨a, b, h1, h2, x, hx, List.contains_iff_mem.1 hb⟩
    · cases h
  · rintro ⟨a, b, h1, h2, x, hx, hb⟩
    rw [h1, h2]
    exact List.any_eq_true.2 ⟨x, hx, List.contains_iff_mem.2 hb⟩

theorem mem_edges {ns : List (QNode α β)} {u v : Nat} : (u, v) ∈ graphEdges ns ↔ u < v ∧ v < ns.length ∧ shareAt ns u v = true := by
  unfold graphEdges
  simp only [List.mem_flatMap, List.mem_map, List.mem_filter, List.mem_range, List.mem_range'_1, Prod.mk.injEq]
  constructor
  · rintro ⟨a, h1, b, ⟨h2, h3⟩, rfl, rfl⟩
    exact ⟨by omega, by omega, h3⟩
  · rintro ⟨h1, h2, h3⟩
    exact ⟨u, by omega, v, ⟨by omega, h3⟩, rfl, rfl⟩

theorem share_lt {ns : List (QNode α β)} {u v : Nat} (h : Share ns u v) : u < ns.length ∧ v < ns.length := by
  obtain ⟨-, a, b, h1, h2, -⟩ := h
  exact ⟨(List.getElem?_eq_some_iff.1 h1).1, (List.getElem?_eq_some_iff.1 h2).1⟩

/-- The adjacency list of a node: the nodes it shares a variable with. -/
theorem mem_adjacent {ns : List (QNode α β)} {u : Nat} {adj : List Nat} (h : adjacent ns.length (graphEdges ns) u = some adj) (v : Nat) :
    v ∈ adj ↔ Share ns u v := by
  unfold adjacent at h
  split at h
  · next hu =>
    cases h
    simp only [List.mem_filterMap, Prod.exists]
    constructor
    · rintro ⟨a, b, hm, he⟩
      obtain ⟨h1, h2, h3⟩ := mem_edges.1 hm
      obtain ⟨x, y, h4, h5, w, h6, h7⟩ := shareAt_iff.1 h3
      split at he
      · next e => cases he; subst e; exact ⟨by omega, x, y, h4, h5, w, h6, h7⟩
      · split at he
        · next e => cases he; subst e; exact ⟨by omega, y, x, h5, h4, w, h7, h6⟩
        · cases he
    · intro hs
      have hl := share_lt hs
      obtain ⟨h1, x, y, h4, h5, w, h6, h7⟩ := hs
      rcases Nat.lt_or_gt_of_ne h1 with h | h
      · exact ⟨u, v, mem_edges.2 ⟨h, hl.2, shareAt_iff.2 ⟨x, y, h4, h5, w, h6, h7⟩⟩, by simp⟩
      · exact ⟨v, u, mem_edges.2 ⟨h, hl.1, shareAt_iff.2 ⟨y, x, h5, h4, w, h7, h6⟩⟩, by simp; omega⟩
  · cases h

theorem adjacent_some {n : Nat} {es : List (Nat × Nat)} {u : Nat} (h : u < n) : ∃ adj, adjacent n es u = some adj := by
  unfold adjacent; rw [if_pos h]; exact ⟨_, rfl⟩

theorem mem_visit {x y : Nat} {visited : List Nat} : y ∈ visit x visited ↔ y = x ∨ y ∈ visited := by
  unfold visit
  split
  · next h =>
    constructor
    · exact Or.inr
    · rintro (rfl | h')
      · exact List.contains_iff_mem.1 h
      · exact h'
  · simp only [List.mem_append, List.mem_singleton]; exact Or.comm

theorem visit_nodup {x : Nat} {visited : List Nat} (h : visited.Nodup) : (visit x visited).Nodup := by
  unfold visit
  split
  · exact h
  · next hx =>
    rw [List.nodup_append]
    refine ⟨h, by simp, ?_⟩
    intro a ha b hb
    simp only [List.mem_singleton] at hb
    subst hb
    rintro rfl
    exact hx (List.contains_iff_mem.2 ha)

/-- Reachable by edges. -/
abbrev Linked (ns : List (QNode α β)) : Nat → Nat → Prop := Relation.ReflTransGen (Share ns)

theorem walk_spec {o : HashOrder} {ns : List (QNode α β)} {u : Nat} (k : Nat) (visited stack : List Nat)
    (hu : u ∈ visited) (hn : visited.Nodup) (hv : ∀ x ∈ visited, x < ns.length ∧ Linked ns u x)
    (hs : ∀ x ∈ stack, x < ns.length ∧ Linked ns u x)
    (hc : ∀ x ∈ visited, ∀ y, Share ns x y → y ∈ visited ∨ y ∈ stack) :
    ∃ w, walkGraph o ns.length (graphEdges ns) k visited stack = some w ∧ w.Nodup ∧ (∀ x ∈ w, x < ns.length) ∧
      ∀ x, x ∈ w ↔ Linked ns u x := by
  fun_induction walkGraph o ns.length (graphEdges ns) k visited stack with
  | case1 k visited =>
    refine ⟨visited, rfl, hn, fun x hx => (hv x hx).1, fun x => ⟨fun hx => (hv x hx).2, ?_⟩⟩
    intro h
    induction h with
    | refl => exact hu
    | tail _ hstep ih =>
      rcases hc _ ih _ hstep with h | h
      · exact h
      · cases h
  | case2 k visited node stack hlt hnone =>
    obtain ⟨adj, ha⟩ := adjacent_some (es := graphEdges ns) hlt
    rw [ha] at hnone; cases hnone
  | case3 k visited node stack hlt adj hadj ih =>
    have hm : ∀ x, x ∈ (o.order k (adj.filter (fun v => !visited.contains v))).reverse ↔ Share ns node x ∧ x ∉ visited := by
      intro x
      rw [List.mem_reverse, (o.perm k _).mem_iff, List.mem_filter, mem_adjacent hadj]
      simp
    have hnode := hs node (List.mem_cons_self ..)
    refine ih (mem_visit.2 (Or.inr hu)) (visit_nodup hn) ?_ ?_ ?_
    · intro x hx
      rcases mem_visit.1 hx with rfl | hx
      · exact hnode
      · exact hv x hx
    · intro x hx
      rcases List.mem_append.1 hx with hx | hx
      · have := ((hm x).1 hx).1
        exact ⟨(share_lt this).2, hnode.2.tail this⟩
      · exact hs x (List.mem_cons_of_mem _ hx)
    · intro x hx y hy
      rcases mem_visit.1 hx with rfl | hx
      · by_cases hy' : y ∈ visited
        · exact Or.inl (mem_visit.2 (Or.inr hy'))
        · exact Or.inr (List.mem_append.2 (Or.inl ((hm y).2 ⟨hy, hy'⟩)))
      · rcases hc x hx y hy with h | h
        · exact Or.inl (mem_visit.2 (Or.inr h))
        · rcases List.mem_cons.1 h with rfl | h
          · exact Or.inl (mem_visit.2 (Or.inl rfl))
          · exact Or.inr (List.mem_append.2 (Or.inr h))
  | case4 k visited node stack hlt => exact absurd (hs node (List.mem_cons_self ..)).1 hlt

/-- `component` returns the items of the nodes reachable from `u`, each once, whatever the hash order. -/
theorem component_spec (o : HashOrder) (ns : List (QNode α β)) {u : Nat} (hu : u < ns.length) :
    ∃ (l : List α) (is : List Nat), component o ns u = some l ∧ is.Nodup ∧ (∀ i, i ∈ is ↔ Linked ns u i) ∧
      l = (is.filterMap (fun i => ns[i]?)).map QNode.item := by
  obtain ⟨adj, ha⟩ := adjacent_some (es := graphEdges ns) hu
  obtain ⟨w, h1, h2, h3, h4⟩ := walk_spec (o := o) (ns := ns) (u := u) 1 [u] (o.order 0 adj).reverse (by simp) (by simp)
    (by intro x hx; simp only [List.mem_singleton] at hx; subst hx; exact ⟨hu, .refl⟩)
    (by
      intro x hx
      rw [List.mem_reverse, (o.perm 0 _).mem_iff, mem_adjacent ha] at hx
      exact ⟨(share_lt hx).2, .single hx⟩)
    (by
      intro x hx y hy
      simp only [List.mem_singleton] at hx; subst hx
      right
      rw [List.mem_reverse, (o.perm 0 _).mem_iff, mem_adjacent ha]
      exact hy)
  have hw : ∀ l : List Nat, (∀ i ∈ l, i < ns.length) → l.mapM (fun i => ns[i]?) = some (l.filterMap (fun i => ns[i]?)) := by
    intro l
    induction l with
    | nil => intro _; rfl
    | cons i l ih =>
      intro h
      have hi := h i (List.mem_cons_self ..)
      rw [List.mapM_cons, ih (fun j hj => h j (List.mem_cons_of_mem _ hj)), List.filterMap_cons, List.getElem?_eq_getElem hi]
      rfl
  have hp := o.perm 0 w
  refine ⟨_, o.order 0 w, ?_, hp.nodup_iff.2 h2, fun i => (hp.mem_iff).trans (h4 i), rfl⟩
  unfold component
  rw [ha]
  simp only [h1]
  rw [hw _ (fun i hi => h3 i (hp.mem_iff.1 hi))]
  rfl

/-! ## Evaluation -/

/-- `walkGraph` with a bound on the steps, for examples. -/
def walkSteps (o : HashOrder) (n : Nat) (es : List (Nat × Nat)) : Nat → Nat → List Nat → List Nat → Option (List Nat)
  | _, _, visited, [] => some visited
  | 0, _, _, _ :: _ => none
  | f + 1, k, visited, node :: stack =>
    match adjacent n es node with
    | none => none
    | some adj =>
      walkSteps o n es f (k + 1) (visit node visited) ((o.order k (adj.filter (fun v => !visited.contains v))).reverse ++ stack)

theorem walkSteps_eq {o : HashOrder} {n : Nat} {es : List (Nat × Nat)} {w : List Nat} : ∀ (f k : Nat) (visited stack : List Nat),
    walkSteps o n es f k visited stack = some w → walkGraph o n es k visited stack = some w := by
  intro f
  induction f with
  | zero =>
    intro k visited stack h
    cases stack with
    | nil => rw [walkGraph]; exact h
    | cons a s => cases h
  | succ f ih =>
    intro k visited stack h
    cases stack with
    | nil => rw [walkGraph]; exact h
    | cons a s =>
      simp only [walkSteps] at h
      rw [walkGraph]
      cases ha : adjacent n es a with
      | none => rw [ha] at h; cases h
      | some adj =>
        rw [ha] at h
        have hlt : a < n := by
          unfold adjacent at ha
          split at ha
          · assumption
          · cases ha
        rw [dif_pos hlt]
        exact ih _ _ _ h

end Verif.Features
