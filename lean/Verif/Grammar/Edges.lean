import Verif.Grammar.Whole
/-!
# What right-hand sides begin with, end with, and which symbols are next to each other
-/
namespace Verif.Grammar

/-- The rule can be empty, if the nodes `N` can. -/
def nullRule (N : List Kind) : Rule → Bool
  | .tok _ => false
  | .node k => N.contains k
  | .seq a b => nullRule N a && nullRule N b
  | .alt a b => nullRule N a || nullRule N b
  | .opt _ => true
  | .rep _ => true

/-- The symbols a right-hand side can begin with. -/
def headSyms (N : List Kind) : Rule → List Sym
  | .tok k => [.tok k]
  | .node k => [.node k]
  | .seq a b => if nullRule N a then headSyms N a ++ headSyms N b else headSyms N a
  | .alt a b => headSyms N a ++ headSyms N b
  | .opt r => headSyms N r
  | .rep r => headSyms N r

/-- The symbols a right-hand side can end with. -/
def tailSyms (N : List Kind) : Rule → List Sym
  | .tok k => [.tok k]
  | .node k => [.node k]
  | .seq a b => if nullRule N b then tailSyms N a ++ tailSyms N b else tailSyms N b
  | .alt a b => tailSyms N a ++ tailSyms N b
  | .opt r => tailSyms N r
  | .rep r => tailSyms N r

/-- All pairs of symbols that can be next to each other satisfy `f`. -/
def nexts (N : List Kind) (f : Sym → Sym → Bool) : Rule → Bool
  | .tok _ => true
  | .node _ => true
  | .seq a b => nexts N f a && nexts N f b && (tailSyms N a).all (fun x => (headSyms N b).all (fun y => f x y))
  | .alt a b => nexts N f a && nexts N f b
  | .opt r => nexts N f r
  | .rep r => nexts N f r && (tailSyms N r).all (fun x => (headSyms N r).all (fun y => f x y))

/-- The nodes `N` are all nodes that can be empty. -/
def NullTable (R : Kind → Option Rule) (N : List Kind) : Prop := ∀ k r, R k = some r → nullRule N r = true → k ∈ N

theorem null_derives {R N} (hN : NullTable R N) {r : Rule} {w : List Kind} (d : Derives R r w) : w = [] → nullRule N r = true := by
  induction d with
  | tok k => intro h; cases h
  | node k r w h d ih =>
    intro e
    exact List.contains_iff_mem.2 (hN k r h (ih e))
  | seq a b u v _ _ ih1 ih2 =>
    intro e
    obtain ⟨h1, h2⟩ := List.append_eq_nil_iff.1 e
    simp [nullRule, ih1 h1, ih2 h2]
  | altL a b w _ ih => intro e; simp [nullRule, ih e]
  | altR a b w _ ih => intro e; simp [nullRule, ih e]
  | optNone => intro _; rfl
  | optSome => intro _; rfl
  | repNil => intro _; rfl
  | repCons => intro _; rfl

theorem null_whole {R N} (hN : NullTable R N) {r : Rule} {l : List Sym} (d : Whole R r l) : l = [] → nullRule N r = true := by
  induction d with
  | tok k => intro h; cases h
  | node k => intro h; cases h
  | empty k h => intro _; exact null_derives hN h rfl
  | seq _ _ ih1 ih2 =>
    intro e
    obtain ⟨h1, h2⟩ := List.append_eq_nil_iff.1 e
    simp [nullRule, ih1 h1, ih2 h2]
  | altL _ ih => intro e; simp [nullRule, ih e]
  | altR _ ih => intro e; simp [nullRule, ih e]
  | optNone => intro _; rfl
  | optSome => intro _; rfl
  | repNil => intro _; rfl
  | repCons => intro _; rfl

theorem headSyms_sound {R N} (hN : NullTable R N) {r : Rule} {l : List Sym} (d : Whole R r l) : ∀ {s t}, l = s :: t → s ∈ headSyms N r := by
  induction d with
  | tok k => intro s t h; injection h with h _; rw [← h]; exact List.mem_singleton.2 rfl
  | node k => intro s t h; injection h with h _; rw [← h]; exact List.mem_singleton.2 rfl
  | empty k h => intro s t h; cases h
  | @seq a b u v d1 _ ih1 ih2 =>
    intro s t h
    unfold headSyms
    cases u with
    | nil =>
      rw [if_pos (null_whole hN d1 rfl)]
      exact List.mem_append_right _ (ih2 h)
    | cons x u =>
      injection h with h1 _
      have := ih1 (s := s) (t := u) (by rw [h1])
      split
      · exact List.mem_append_left _ this
      · exact this
  | altL _ ih => intro s t h; exact List.mem_append_left _ (ih h)
  | altR _ ih => intro s t h; exact List.mem_append_right _ (ih h)
  | optNone => intro s t h; cases h
  | optSome _ ih => intro s t h; exact ih h
  | repNil => intro s t h; cases h
  | @repCons r u v _ _ ih1 ih2 =>
    intro s t h
    cases u with
    | nil => exact ih2 h
    | cons x u =>
      injection h with h1 _
      exact ih1 (s := s) (t := u) (by rw [h1])

theorem tailSyms_sound {R N} (hN : NullTable R N) {r : Rule} {l : List Sym} (d : Whole R r l) : ∀ {s t}, l = t ++ [s] → s ∈ tailSyms N r := by
  have one : ∀ {x s : Sym} {t : List Sym}, [x] = t ++ [s] → s = x := by
    intro x s t h
    have h0 : [] ++ [x] = t ++ [s] := h
    have := (List.append_inj' h0 rfl).2
    injection this with h1 _
    exact h1.symm
  have app : ∀ {u v t : List Sym} {s : Sym}, u ++ v = t ++ [s] → (v = [] ∧ u = t ++ [s]) ∨ ∃ t', v = t' ++ [s] := by
    intro u v t s h
    rcases List.eq_nil_or_concat v with rfl | ⟨v, y, rfl⟩
    · left; exact ⟨rfl, by rw [← h, List.append_nil]⟩
    · right
      rw [List.concat_eq_append, ← List.append_assoc] at h
      have := (List.append_inj' h rfl).2
      injection this with h1 _
      exact ⟨v, by rw [List.concat_eq_append, h1]⟩
  induction d with
  | tok k => intro s t h; rw [one h]; exact List.mem_singleton.2 rfl
  | node k => intro s t h; rw [one h]; exact List.mem_singleton.2 rfl
  | empty k h => intro s t h; cases t <;> cases h
  | @seq a b u v _ d2 ih1 ih2 =>
    intro s t h
    unfold tailSyms
    rcases app h with ⟨h1, h2⟩ | ⟨t', h1⟩
    · rw [if_pos (null_whole hN d2 h1)]
      exact List.mem_append_left _ (ih1 h2)
    · have := ih2 h1
      split
      · exact List.mem_append_right _ this
      · exact this
  | altL _ ih => intro s t h; exact List.mem_append_left _ (ih h)
  | altR _ ih => intro s t h; exact List.mem_append_right _ (ih h)
  | optNone => intro s t h; cases t <;> cases h
  | optSome _ ih => intro s t h; exact ih h
  | repNil => intro s t h; cases t <;> cases h
  | @repCons r u v _ _ ih1 ih2 =>
    intro s t h
    rcases app h with ⟨h1, h2⟩ | ⟨t', h1⟩
    · exact ih1 h2
    · exact ih2 h1

/-- Splits of a concatenation at two neighbours. -/
theorem pair_append {α : Type} {u v l1 l2 : List α} {x y : α} (h : u ++ v = l1 ++ x :: y :: l2) :
    (∃ w, u = l1 ++ x :: y :: w) ∨ (∃ w, v = w ++ x :: y :: l2) ∨ (u = l1 ++ [x] ∧ v = y :: l2) := by
  rcases List.append_eq_append_iff.1 h with ⟨w, h1, h2⟩ | ⟨w, h1, h2⟩
  · right; left; exact ⟨w, h2⟩
  · cases w with
    | nil => right; left; exact ⟨[], h2.symm⟩
    | cons a w =>
      injection h2 with h3 h4
      subst h3
      cases w with
      | nil => right; right; exact ⟨h1, h4.symm⟩
      | cons b w =>
        injection h4 with h5 h6
        subst h5
        left; exact ⟨w, h1⟩

theorem nexts_sound {R N f} (hN : NullTable R N) {r : Rule} {l : List Sym} (d : Whole R r l) (hf : nexts N f r = true) :
    ∀ {l1 x y l2}, l = l1 ++ x :: y :: l2 → f x y = true := by
  have short : ∀ {s : Sym} {l1 x y l2}, [s] = l1 ++ x :: y :: l2 → False := by
    intro s l1 x y l2 h
    have := congrArg List.length h
    simp only [List.length_append, List.length_cons, List.length_nil] at this
    omega
  have none : ∀ {l1 l2 : List Sym} {x y : Sym}, [] = l1 ++ x :: y :: l2 → False := by
    intro l1 l2 x y h
    cases l1 <;> cases h
  induction d with
  | tok k => intro l1 x y l2 h; exact (short h).elim
  | node k => intro l1 x y l2 h; exact (short h).elim
  | empty k h => intro l1 x y l2 h; exact (none h).elim
  | seq d1 d2 ih1 ih2 =>
    intro l1 x y l2 h
    simp only [nexts, Bool.and_eq_true] at hf
    rcases pair_append h with ⟨w, h1⟩ | ⟨w, h1⟩ | ⟨h1, h2⟩
    · exact ih1 hf.1.1 h1
    · exact ih2 hf.1.2 h1
    · exact List.all_eq_true.1 (List.all_eq_true.1 hf.2 x (tailSyms_sound hN d1 h1)) y (headSyms_sound hN d2 h2)
  | altL _ ih => intro l1 x y l2 h; simp only [nexts, Bool.and_eq_true] at hf; exact ih hf.1 h
  | altR _ ih => intro l1 x y l2 h; simp only [nexts, Bool.and_eq_true] at hf; exact ih hf.2 h
  | optNone => intro l1 x y l2 h; exact (none h).elim
  | optSome _ ih => intro l1 x y l2 h; exact ih hf h
  | repNil => intro l1 x y l2 h; exact (none h).elim
  | repCons d1 d2 ih1 ih2 =>
    intro l1 x y l2 h
    have hf' := hf
    simp only [nexts, Bool.and_eq_true] at hf
    rcases pair_append h with ⟨w, h1⟩ | ⟨w, h1⟩ | ⟨h1, h2⟩
    · exact ih1 hf.1 h1
    · exact ih2 hf' h1
    · exact List.all_eq_true.1 (List.all_eq_true.1 hf.2 x (tailSyms_sound hN d1 h1)) y (headSyms_sound hN d2 h2)

end Verif.Grammar
