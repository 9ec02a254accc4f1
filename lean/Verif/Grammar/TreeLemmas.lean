import Verif.Grammar.TreeSpec
/-!
# Lemmas about `remove_empty_nodes` and `build_tree`
-/
namespace Verif.Grammar
open Forest

/-! ## `remove_empty_nodes` -/

/-- The flags `remove_empty_nodes` computes for the events of a forest below an open node. -/
def flagsOf : Forest → List Bool
  | .nil => []
  | .tok r => false :: flagsOf r
  | .err _ r => false :: flagsOf r
  | .node _ c r => (c.toks == 0) :: (flagsOf c ++ (c.toks == 0) :: flagsOf r)

theorem flagsOf_length (F : Forest) : (flagsOf F).length = F.ser.length := by
  induction F with
  | nil => rfl
  | tok r ih => simp [flagsOf, ser, ih]
  | err e r ih => simp [flagsOf, ser, ih]
  | node k c r ihc ihr => simp [flagsOf, ser, ihc, ihr]

theorem replicate_plus {α} (n m : Nat) (a : α) :
    List.replicate (n + m) a = List.replicate n a ++ List.replicate m a := by
  rw [List.replicate_append_replicate]

theorem set_mid {α} (A B : List α) (x y : α) (i : Nat) (h : A.length = i) :
    (A ++ x :: B).set i y = A ++ y :: B := by
  subst h; simp

theorem removeLoop_ser (F : Forest) : ∀ (es : List Event) (i : Nat) (A B : List Bool) (j : Nat) (h : Bool)
    (st : List (Nat × Bool)), A.length = i →
    removeLoop (F.ser ++ es) i (A ++ List.replicate F.ser.length false ++ B) ((j, h) :: st) =
      removeLoop es (i + F.ser.length) (A ++ flagsOf F ++ B) ((j, h || decide (F.toks ≠ 0)) :: st) := by
  induction F with
  | nil => intro es i A B j h st hA; simp [ser, flagsOf, toks]
  | tok r ih =>
    intro es i A B j h st hA
    simp only [ser, List.cons_append, removeLoop, List.length_cons, List.replicate_succ, flagsOf, Forest.toks]
    have := ih es (i + 1) (A ++ [false]) B j true st (by simp [hA])
    simp only [List.append_assoc, List.cons_append, List.nil_append] at this ⊢
    rw [this]
    simp [Nat.add_assoc, Nat.add_comm 1]
  | err e r ih =>
    intro es i A B j h st hA
    simp only [ser, List.cons_append, removeLoop, List.length_cons, List.replicate_succ, flagsOf, Forest.toks]
    have := ih es (i + 1) (A ++ [false]) B j h st (by simp [hA])
    simp only [List.append_assoc, List.cons_append, List.nil_append] at this ⊢
    rw [this]
    simp only [Nat.add_assoc, Nat.add_comm 1]
    rfl
  | node k c r ihc ihr =>
    intro es i A B j h st hA
    simp only [ser, List.cons_append, removeLoop, List.length_cons, List.length_append, List.replicate_succ,
      List.append_assoc, flagsOf]
    have h1 := ihc (.close :: (r.ser ++ es)) (i + 1) (A ++ [false])
      (false :: (List.replicate r.ser.length false ++ B)) i false ((j, h) :: st) (by simp [hA])
    have e1 : A ++ false :: (List.replicate (c.ser.length + (r.ser.length + 1)) false ++ B) =
        A ++ [false] ++ List.replicate c.ser.length false ++ (false :: (List.replicate r.ser.length false ++ B)) := by
      simp [replicate_plus, List.replicate_succ]
    rw [e1, h1]
    simp only [removeLoop, Bool.false_or]
    by_cases hc : c.toks = 0
    · simp only [hc, ne_eq, not_true, decide_false, Bool.not_false, List.isEmpty_cons, Bool.true_and, if_true]
      have e2 : ((A ++ [false] ++ flagsOf c ++ false :: (List.replicate r.ser.length false ++ B)).set i true).set
          (i + 1 + c.ser.length) true =
          (A ++ true :: (flagsOf c ++ [true])) ++ List.replicate r.ser.length false ++ B := by
        have : A ++ [false] ++ flagsOf c ++ false :: (List.replicate r.ser.length false ++ B) =
          A ++ false :: (flagsOf c ++ false :: (List.replicate r.ser.length false ++ B)) := by simp
        rw [this, set_mid _ _ _ _ _ hA]
        have : A ++ true :: (flagsOf c ++ false :: (List.replicate r.ser.length false ++ B)) =
          (A ++ true :: flagsOf c) ++ false :: (List.replicate r.ser.length false ++ B) := by simp
        rw [this, set_mid _ _ _ _ _ (by simp [flagsOf_length, hA]; omega)]
        simp
      rw [e2, ihr es _ _ B j h st (by simp [flagsOf_length, hA]; omega)]
      simp [Forest.toks, hc]
      congr 1; omega
    · simp only [hc, ne_eq, not_false_eq_true, decide_true, Bool.not_true, Bool.false_and, if_true,
        Bool.false_eq_true, if_false]
      have e2 : A ++ [false] ++ flagsOf c ++ false :: (List.replicate r.ser.length false ++ B) =
          (A ++ false :: (flagsOf c ++ [false])) ++ List.replicate r.ser.length false ++ B := by simp
      rw [e2, ihr es _ _ B j true st (by simp [flagsOf_length, hA]; omega)]
      have hc' : (c.toks == 0) = false := by simpa using hc
      have h5 : decide (¬(node k c r).toks = 0) = true := by simp [Forest.toks]; omega
      simp only [hc', h5, Bool.or_true, Bool.true_or]
      simp
      congr 1; omega

theorem keepEvents_append (E E' : List Event) (f f' : List Bool) (h : E.length = f.length) :
    keepEvents (E ++ E') (f ++ f') = keepEvents E f ++ keepEvents E' f' := by
  unfold keepEvents
  rw [List.zip_append h, List.filterMap_append]

theorem keepEvents_flags (F : Forest) : keepEvents F.ser (flagsOf F) = F.prune.ser := by
  induction F with
  | nil => rfl
  | tok r ih => simpa [keepEvents, ser, flagsOf, prune] using ih
  | err e r ih => simpa [keepEvents, ser, flagsOf, prune] using ih
  | node k c r ihc ihr =>
    have hl : c.ser.length = (flagsOf c).length := (flagsOf_length c).symm
    have e : keepEvents (Forest.ser (.node k c r)) (flagsOf (.node k c r)) =
        (if c.toks == 0 then [] else [.openNode k]) ++ (keepEvents c.ser (flagsOf c) ++
          ((if c.toks == 0 then [] else [.close]) ++ keepEvents r.ser (flagsOf r))) := by
      simp only [ser, flagsOf]
      have := keepEvents_append [.openNode k] (c.ser ++ .close :: r.ser) [c.toks == 0]
        (flagsOf c ++ (c.toks == 0) :: flagsOf r) rfl
      simp only [List.cons_append, List.nil_append] at this
      rw [this, keepEvents_append _ _ _ _ hl]
      have := keepEvents_append [.close] r.ser [c.toks == 0] (flagsOf r) rfl
      simp only [List.cons_append, List.nil_append] at this
      rw [this]
      cases hc : (c.toks == 0) <;> simp [keepEvents]
    rw [e, ihc, ihr]
    by_cases hc : c.toks = 0
    · simp [prune, hc, ser_append]
    · simp [prune, hc, ser]

/-- `remove_empty_nodes` on a well-bracketed stream with one root. -/
theorem removeEmptyNodes_ser (k : Kind) (F : Forest) :
    removeEmptyNodes (Forest.ser (.node k F .nil)) = some (Forest.ser (.node k F.prune .nil)) := by
  unfold removeEmptyNodes
  have h := removeLoop_ser F [.close] 1 [false] [false] 0 false [] rfl
  have e1 : List.replicate (Forest.ser (.node k F .nil)).length false =
      [false] ++ List.replicate F.ser.length false ++ [false] := by
    simp only [ser, List.length_cons, List.length_append, List.length_nil, List.replicate_succ]
    simp only [List.cons_append, List.nil_append]
    rw [← List.replicate_succ', List.replicate_succ]
  rw [e1]
  have e2 : removeLoop (Forest.ser (.node k F .nil)) 0 ([false] ++ List.replicate F.ser.length false ++ [false]) [] =
      removeLoop (F.ser ++ [.close]) 1 ([false] ++ List.replicate F.ser.length false ++ [false]) [(0, false)] := by
    simp [ser, removeLoop]
  rw [e2, h]
  have e3 : ∀ b, removeLoop [.close] (1 + F.ser.length) ([false] ++ flagsOf F ++ [false]) [(0, b)] =
      some ([false] ++ flagsOf F ++ [false]) := by
    intro b; cases b <;> simp [removeLoop]
  rw [e3]
  simp only [Option.map_some, Option.some.injEq, ser]
  have := keepEvents_append [.openNode k] (F.ser ++ [.close]) [false] (flagsOf F ++ [false]) rfl
  simp only [List.cons_append, List.nil_append] at this ⊢
  rw [this, keepEvents_append _ _ _ _ (flagsOf_length F).symm, keepEvents_flags]
  simp [keepEvents]

/-! ## Pruning -/

theorem toks_prune (F : Forest) : F.prune.toks = F.toks := by
  induction F with
  | nil => rfl
  | tok r ih => simp [prune, Forest.toks, ih]
  | err e r ih => simp [prune, Forest.toks, ih]
  | node k c r ihc ihr =>
    by_cases hc : c.toks = 0
    · simp [prune, hc, toks_append, Forest.toks, ihc, ihr]
    · simp [prune, hc, Forest.toks, ihc, ihr]

theorem full_append (F G : Forest) : (F.append G).full ↔ F.full ∧ G.full := by
  induction F with
  | nil => simp [append, full]
  | tok r ih => simp [append, full, ih]
  | err e r ih => simp [append, full, ih]
  | node k c r _ ih => simp [append, full, ih, and_assoc]

theorem full_prune (F : Forest) : F.prune.full := by
  induction F with
  | nil => trivial
  | tok r ih => simpa [prune, full] using ih
  | err e r ih => simpa [prune, full] using ih
  | node k c r ihc ihr =>
    by_cases hc : c.toks = 0
    · simp [prune, hc, full_append, ihc, ihr]
    · simp [prune, hc, full, ihc, ihr, toks_prune]

theorem reports_append (F G : Forest) : ∀ m, (F.append G).reports m = F.reports m ++ G.reports (m + F.toks) := by
  induction F with
  | nil => intro m; simp [append, reports, Forest.toks]
  | tok r ih => intro m; simp only [append, reports, ih, Forest.toks]; congr 2; omega
  | err e r ih => intro m; simp [append, reports, ih, Forest.toks]
  | node k c r _ ih => intro m; simp [append, reports, ih, Forest.toks, Nat.add_assoc]

theorem reports_prune (F : Forest) : ∀ m, F.prune.reports m = F.reports m := by
  induction F with
  | nil => intro m; rfl
  | tok r ih => intro m; simp [prune, reports, ih]
  | err e r ih => intro m; simp [prune, reports, ih]
  | node k c r ihc ihr =>
    intro m
    by_cases hc : c.toks = 0
    · simp [prune, hc, reports_append, reports, ihc, ihr, toks_prune]
    · simp [prune, hc, reports, ihc, ihr, toks_prune]

theorem avoids_append (p) (F G : Forest) : (F.append G).avoids p ↔ F.avoids p ∧ G.avoids p := by
  induction F with
  | nil => simp [append, avoids]
  | tok r ih => simp [append, avoids, ih]
  | err e r ih => simp [append, avoids, ih]
  | node k c r _ ih => simp [append, avoids, ih, and_assoc]

theorem avoids_prune {p} {F : Forest} (h : F.avoids p) : F.prune.avoids p := by
  induction F with
  | nil => trivial
  | tok r ih => simpa [prune, avoids] using ih h
  | err e r ih => simpa [prune, avoids] using ih h
  | node k c r ihc ihr =>
    simp only [avoids] at h
    by_cases hc : c.toks = 0
    · simp [prune, hc, avoids_append, ihc h.2.1, ihr h.2.2]
    · simp [prune, hc, avoids, ihc h.2.1, ihr h.2.2, h.1]

/-- Pruning and forgetting error reports changes nothing if there is nothing to prune or forget. -/
theorem prune_of_full {F : Forest} (h : F.full) : F.prune = F := by
  induction F with
  | nil => rfl
  | tok r ih => simp [prune, ih h]
  | err e r ih => simp [prune, ih h]
  | node k c r ihc ihr => simp only [full] at h; simp [prune, h.1, ihc h.2.1, ihr h.2.2]

theorem dropErr_of_noErr {F : Forest} (h : F.noErr = true) : F.dropErr = F := by
  induction F with
  | nil => rfl
  | tok r ih => simp [dropErr, ih h]
  | err e r ih => simp [noErr] at h
  | node k c r ihc ihr => simp [noErr] at h; simp [dropErr, ihc h.1, ihr h.2]

/-! ## Trees -/

theorem leavesL_append (a b : List Green) : Green.leavesL (a ++ b) = Green.leavesL a ++ Green.leavesL b := by
  induction a with
  | nil => simp [Green.leavesL]
  | cons g gs ih => simp [Green.leavesL, ih]

theorem nodesL_append (a b : List Green) : Green.nodesL (a ++ b) = Green.nodesL a ++ Green.nodesL b := by
  induction a with
  | nil => simp [Green.nodesL]
  | cons g gs ih => simp [Green.nodesL, ih]

theorem shape_append (g : Green) (a b : Forest) : g.shape (a.append b) = (g.shape a).append b := by
  cases g with
  | tok k t => simp only [Green.shape]; split <;> rfl
  | node k cs => simp [Green.shape, append]

theorem shapeL_append (a b : List Green) : Green.shapeL (a ++ b) = (Green.shapeL a).append (Green.shapeL b) := by
  induction a with
  | nil => simp [Green.shapeL, append]
  | cons g gs ih => simp [Green.shapeL, ih, shape_append]

theorem significant_append (a b : List Tok) : significant (a ++ b) = significant a ++ significant b := by
  simp [significant]

def Tok.leaf (t : Tok) : Kind × Text := (t.kind, t.text)
def Tok.green (t : Tok) : Green := .tok t.kind t.text

theorem leavesL_toks (u : List Tok) : Green.leavesL (u.map Tok.green) = u.map Tok.leaf := by
  induction u with
  | nil => rfl
  | cons t ts ih => simp [Green.leavesL, Green.leaves, Tok.green, Tok.leaf, ih]

theorem nodesL_toks (u : List Tok) : Green.nodesL (u.map Tok.green) = [] := by
  induction u with
  | nil => rfl
  | cons t ts ih => simp [Green.nodesL, Green.nodes, Tok.green]; exact ih

theorem shapeL_trivia {u : List Tok} (h : ∀ t ∈ u, t.trivia = true) : Green.shapeL (u.map Tok.green) = .nil := by
  induction u with
  | nil => rfl
  | cons t ts ih =>
    have h1 := h t (by simp)
    simp only [List.map_cons, Green.shapeL, Tok.green, Green.shape]
    have : triviaKind t.kind = true := h1
    rw [if_pos this]
    exact ih (fun t ht => h t (by simp [ht]))

/-- `eatTrivia` moves the leading trivia. -/
theorem eatTrivia_spec (rest : List Tok) : ∀ b : BState, b.rest = rest →
    ∃ u v, rest = u ++ v ∧ (∀ t ∈ u, t.trivia = true) ∧ (∀ t ts, v = t :: ts → t.trivia = false) ∧
      eatTrivia rest b = ⟨b.done ++ u, v, b.parents, b.children ++ u.map Tok.green, b.errs⟩ := by
  induction rest with
  | nil =>
    intro b hb
    exact ⟨[], [], rfl, by simp, by simp, by cases b; simp_all [eatTrivia]⟩
  | cons t ts ih =>
    intro b hb
    unfold eatTrivia
    by_cases ht : t.trivia = true
    · rw [if_pos ht]
      obtain ⟨u, v, h1, h2, h3, h4⟩ := ih (b.emit t ts) rfl
      refine ⟨t :: u, v, by simp [h1], ?_, h3, ?_⟩
      · simp only [List.mem_cons]; rintro x (rfl | hx)
        · exact ht
        · exact h2 x hx
      · rw [h4]; simp [BState.emit, Tok.green]
    · rw [if_neg ht]
      refine ⟨[], t :: ts, rfl, by simp, ?_, by cases b; simp_all⟩
      intro t' ts' h; simp at h; rw [← h.1]; simpa using ht

theorem significant_trivia {u : List Tok} (h : ∀ t ∈ u, t.trivia = true) : significant u = [] := by
  simp only [significant, List.filter_eq_nil_iff]
  intro t ht; simp [h t ht]

theorem significant_cons_neg {t : Tok} {ts : List Tok} (h : t.trivia = false) :
    significant (t :: ts) = t :: significant ts := by simp [significant, h]

theorem errorSpan_anchor (done rest : List Tok) :
    errorSpan done rest = anchor (significant (done ++ rest)) (significant done).length := by
  unfold errorSpan anchor
  rw [significant_append]
  have h1 : rest.find? (fun t => !t.trivia) = (significant rest).head? := by
    unfold significant; rw [List.head?_filter]
  rw [h1]
  cases hs : significant rest with
  | cons t ts => simp
  | nil =>
    simp only [List.head?_nil, List.append_nil, List.getElem?_eq_none (Nat.le_refl _)]
    have h2 : done.reverse.find? (fun t => !t.trivia) = (significant done).getLast? := by
      unfold significant; rw [← List.head?_filter, ← List.head?_reverse]; simp
    rw [h2]
    cases (significant done).getLast? <;> rfl

/-- Kinds before which `build_tree` does not flush trivia. -/
def unitKind (k : Kind) : Prop := k = K.QueryUnit ∨ k = K.UpdateUnit

/-- The main lemma: running the events of a forest without empty nodes. -/
theorem buildLoop_ser (F : Forest) : ∀ (E : List Event) (b : BState), F.full → F.avoids unitKind →
    F.toks ≤ (significant b.rest).length →
    ∃ u v gs,
      b.rest = u ++ v ∧ (significant u).length = F.toks ∧
      (u ≠ [] → ∃ u' t, u = u' ++ [t] ∧ t.trivia = false) ∧
      (∀ t ts, b.rest = t :: ts → t.trivia = false → F.toks ≠ 0 → ∃ u', u = t :: u') ∧
      Green.leavesL gs = u.map Tok.leaf ∧ Green.shapeL gs = F.dropErr ∧
      (∀ g ∈ Green.nodesL gs, g.Tight) ∧
      buildLoop (F.ser ++ E) b = buildLoop E ⟨b.done ++ u, v, b.parents, b.children ++ gs,
        b.errs ++ (F.reports (significant b.done).length).map (fun p =>
          let a := anchor (significant (b.done ++ b.rest)) p.1; ⟨a.1, a.2, p.2⟩)⟩ := by
  induction F with
  | nil =>
    intro E b _ _ _
    exact ⟨[], b.rest, [], rfl, rfl, by simp, by simp [Forest.toks], rfl, rfl, by simp [Green.nodesL], by
      simp [ser, reports]⟩
  | err e r ih =>
    intro E b hf ha hn
    obtain ⟨u, v, gs, h1, h2, h3, h3', h4, h5, h6, h7⟩ := ih E
      { b with errs := b.errs ++ [⟨(errorSpan b.done b.rest).1, (errorSpan b.done b.rest).2, e⟩] } hf ha hn
    refine ⟨u, v, gs, h1, h2, h3, h3', h4, h5, h6, ?_⟩
    simp only [ser, List.cons_append, buildLoop, buildEvent]
    rw [h7]
    simp [reports, errorSpan_anchor]
  | tok r ih =>
    intro E b hf ha hn
    obtain ⟨u0, v0, g1, g2, g3, g4⟩ := eatTrivia_spec b.rest b rfl
    simp only [Forest.toks] at hn
    rw [g1, significant_append, significant_trivia g2, List.nil_append] at hn
    cases v0 with
    | nil => simp [significant] at hn
    | cons t ts =>
      have ht := g3 t ts rfl
      rw [significant_cons_neg ht, List.length_cons] at hn
      obtain ⟨u, v, gs, h1, h2, h3, h3', h4, h5, h6, h7⟩ := ih E
        ⟨b.done ++ u0 ++ [t], ts, b.parents, b.children ++ u0.map Tok.green ++ [t.green], b.errs⟩ hf ha (by simpa using hn)
      simp only at h1 h2 h3 h4 h5 h6 h7
      refine ⟨u0 ++ t :: u, v, u0.map Tok.green ++ t.green :: gs, by simp [g1, h1], ?_, ?_, ?_, ?_, ?_, ?_, ?_⟩
      · rw [significant_append, significant_trivia g2, significant_cons_neg ht]; simp [h2, Forest.toks]
      · intro _
        by_cases hu : u = []
        · exact ⟨u0, t, by simp [hu], ht⟩
        · obtain ⟨u', t', hu', ht'⟩ := h3 hu
          exact ⟨u0 ++ t :: u', t', by simp [hu'], ht'⟩
      · intro t' ts' hr ht' _
        rw [g1] at hr
        cases u0 with
        | nil => simp at hr; exact ⟨u, by simp [hr.1]⟩
        | cons x xs =>
          simp at hr
          have := g2 x (by simp)
          rw [hr.1, ht'] at this; simp at this
      · rw [leavesL_append, leavesL_toks]
        simp [Green.leavesL, Green.leaves, Tok.green, Tok.leaf, h4]
      · rw [shapeL_append, shapeL_trivia g2]
        have : triviaKind t.kind = false := ht
        simp [append, Green.shapeL, Green.shape, Tok.green, this, h5, dropErr]
      · rw [nodesL_append, nodesL_toks]
        simpa [Green.nodesL, Green.nodes, Tok.green] using h6
      · simp only [ser, List.cons_append, buildLoop, buildEvent, g4, BState.emit]
        simp only [Tok.green] at h7 ⊢
        rw [h7, g1]
        have e1 : significant (b.done ++ u0 ++ [t]) = significant b.done ++ [t] := by
          simp [significant_append, significant_trivia g2, significant_cons_neg ht]
          simp [significant]
        simp only [e1, reports, List.length_append, List.length_singleton]
        simp
  | node k c r ihc ihr =>
    intro E b hf ha hn
    simp only [full, avoids, Forest.toks] at hf ha hn
    obtain ⟨u0, v0, g1, g2, g3, g4⟩ := eatTrivia_spec b.rest b rfl
    rw [g1, significant_append, significant_trivia g2, List.nil_append] at hn
    have hv0 : ∃ t ts, v0 = t :: ts := by
      cases v0 with
      | nil => have := hf.1; simp [significant] at hn; omega
      | cons t ts => exact ⟨t, ts, rfl⟩
    obtain ⟨t, ts, hv0⟩ := hv0
    have ht := g3 t ts hv0
    obtain ⟨u1, v1, gs1, h1, h2, h3, h3', h4, h5, h6, h7⟩ := ihc (.close :: (r.ser ++ E))
      ⟨b.done ++ u0, v0, (k, (b.children ++ u0.map Tok.green).length) :: b.parents, b.children ++ u0.map Tok.green, b.errs⟩
      hf.2.1 ha.2.1 (by simp only; omega)
    simp only at h1 h2 h3 h3' h4 h5 h6 h7
    obtain ⟨u2, v2, gs2, i1, i2, i3, i3', i4, i5, i6, i7⟩ := ihr E
      ⟨b.done ++ u0 ++ u1, v1, b.parents, b.children ++ u0.map Tok.green ++ [.node k gs1],
        b.errs ++ (c.reports (significant b.done).length).map (fun p =>
          let a := anchor (significant (b.done ++ b.rest)) p.1; ⟨a.1, a.2, p.2⟩)⟩ hf.2.2 ha.2.2 (by
        simp only
        rw [h1, significant_append, List.length_append, h2] at hn
        omega)
    simp only at i1 i2 i3 i3' i4 i5 i6 i7
    obtain ⟨u1', hu1'⟩ := h3' t ts hv0 ht hf.1
    refine ⟨u0 ++ u1 ++ u2, v2, u0.map Tok.green ++ .node k gs1 :: gs2, by simp [g1, h1, i1], ?_, ?_, ?_, ?_, ?_, ?_, ?_⟩
    · rw [significant_append, significant_append, significant_trivia g2]; simp [h2, i2, Forest.toks]
    · intro _
      by_cases hu : u2 = []
      · obtain ⟨u', t', hu', ht'⟩ := h3 (by simp [hu1'])
        exact ⟨u0 ++ u', t', by simp [hu, hu'], ht'⟩
      · obtain ⟨u', t', hu', ht'⟩ := i3 hu
        exact ⟨u0 ++ u1 ++ u', t', by simp [hu'], ht'⟩
    · intro t' ts' hr ht' _
      rw [g1] at hr
      cases u0 with
      | nil =>
        simp only [List.nil_append, hv0, List.cons.injEq] at hr
        exact ⟨u1' ++ u2, by simp [hu1', hr.1]⟩
      | cons x xs =>
        simp at hr
        have := g2 x (by simp)
        rw [hr.1, ht'] at this; simp at this
    · rw [leavesL_append, leavesL_toks]
      simp [Green.leavesL, Green.leaves, h4, i4]
    · rw [shapeL_append, shapeL_trivia g2]
      simp [append, Green.shapeL, Green.shape, h5, i5, dropErr]
    · rw [nodesL_append, nodesL_toks]
      simp only [Green.nodesL, Green.nodes, List.nil_append, List.mem_append, List.mem_cons]
      rintro g ((rfl | hg) | hg)
      · constructor
        · exact ⟨t.kind, t.text, u1'.map Tok.leaf, by simp [Green.leaves, h4, hu1']; rfl, ht⟩
        · obtain ⟨u', t', hu', ht'⟩ := h3 (by simp [hu1'])
          exact ⟨t'.kind, t'.text, u'.map Tok.leaf, by simp [Green.leaves, h4, hu']; rfl, ht'⟩
      · exact h6 g hg
      · exact i6 g hg
    · have hk : ¬ (k = K.QueryUnit ∨ k = K.UpdateUnit) := ha.1
      simp only [ser, List.cons_append, List.append_assoc, buildLoop, buildEvent, hk, if_false, g4, BState.startNode]
      rw [h7]
      simp only [buildLoop, buildEvent, BState.finishNode]
      have e0 : significant (b.done ++ u0) = significant b.done := by
        rw [significant_append, significant_trivia g2, List.append_nil]
      have e1 : b.done ++ u0 ++ v0 = b.done ++ b.rest := by rw [g1]; simp
      have e2 : (significant (b.done ++ u0 ++ u1)).length = (significant b.done).length + c.toks := by
        rw [significant_append, e0]; simp [h2]
      have e3 : b.done ++ u0 ++ u1 ++ v1 = b.done ++ b.rest := by rw [g1, h1]; simp
      rw [e0, e1]
      have e4 : List.take (b.children ++ u0.map Tok.green).length (b.children ++ u0.map Tok.green ++ gs1) =
        b.children ++ u0.map Tok.green := List.take_left
      have e5 : List.drop (b.children ++ u0.map Tok.green).length (b.children ++ u0.map Tok.green ++ gs1) = gs1 :=
        List.drop_left
      rw [e4, e5, i7, e2, e3]
      simp [reports]

end Verif.Grammar
