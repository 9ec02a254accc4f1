import Verif.Format.Meet
import Verif.Format.TreePlan
/-!
# Where the formatter puts white space
-/
namespace Verif.Format
open Verif Verif.Grammar Verif.Lexer Verif.Features Verif.Props

/-- There is an edit between the two elements that begins with white space. -/
def SpacedAt (w : Walker) (g : Green) (a b : Red) : Prop :=
  ∃ r e, InTree g r ∧ e ∈ elemEdits w r ∧ (e.start = a.stop ∨ e.start = b.start) ∧ lead e.text ≠ []

theorem lead_sp (t : Text) : lead (' ' :: t) ≠ [] := by
  show (if wsClass.has ' ' then [gapMark] else []) ≠ []
  rw [if_pos (by decide)]; exact List.cons_ne_nil _ _

theorem lead_nl (t : Text) : lead ('\n' :: t) ≠ [] := by
  show (if wsClass.has '\n' then [gapMark] else []) ≠ []
  rw [if_pos (by decide)]; exact List.cons_ne_nil _ _

/-- An element of this kind, node or token. -/
theorem symOf_node {r : Red} {k : Kind} (h : symOf r = .node k) : r.isNode = true ∧ r.kind = k := by
  unfold symOf at h
  split at h
  · next hn => injection h with h; exact ⟨hn, h⟩
  · cases h

theorem symOf_tok {r : Red} {k : Kind} (h : symOf r = .tok k) : r.isNode = false ∧ r.kind = k := by
  unfold symOf at h
  split at h
  · cases h
  · next hn => injection h with h; exact ⟨by simpa using hn, h⟩

theorem beq_sym {s t : Sym} (h : (s == t) = true) : s = t := by simpa using h

section
variable {σ : Bool} {w : Walker} {text : Text} {g : Green} (W : Walks σ w text g) (hC : ∀ n ∈ g.nodes, Complete sparqlRules n)
variable {r a b : Red} {X T Y : List Red}

/-- Two neighbouring children. -/
structure Neighbours (g : Green) (r a b : Red) (X T Y : List Red) : Prop where
  tree : InTree g r
  node : r.isNode = true
  split : r.childrenT = X ++ a :: (T ++ b :: Y)
  trivia : ∀ t ∈ T, triviaKind t.kind = true
  left : triviaKind a.kind = false
  right : triviaKind b.kind = false

variable (hN : Neighbours g r a b X T Y)
include hN

theorem Neighbours.left_mem : a ∈ r.childrenT := by rw [hN.split]; simp
theorem Neighbours.right_mem : b ∈ r.childrenT := by rw [hN.split]; simp
theorem Neighbours.left_tree : InTree g a := .child hN.tree hN.left_mem
theorem Neighbours.right_tree : InTree g b := .child hN.tree hN.right_mem
theorem Neighbours.elder : elder b = X ++ a :: T := by
  exact (elder_eq (r := r) (c := b) (L := X ++ a :: T) (R := Y) (by rw [hN.split]; simp)).1
theorem Neighbours.parent : b.parent = some r := child_parent hN.right_mem

include W hC

theorem fmt_pair : (a, b) ∈ (fmtChildren r).zip ((fmtChildren r).drop 1) := by
  rw [fmt_eq W (whole_of W.parsed hC hN.tree hN.node).1, hN.split]
  have := pair_mem_filter (q := fun c : Red => !triviaKind c.kind) (X := X) (T := T) (Y := Y) (a := a) (b := b) (by rw [hN.left]; rfl) (by rw [hN.right]; rfl)
    (fun t ht => by rw [hN.trivia t ht]; rfl)
  simpa using this

theorem pair_mems : a ∈ fmtChildren r ∧ b ∈ fmtChildren r := by
  rw [fmt_eq W (whole_of W.parsed hC hN.tree hN.node).1]
  exact ⟨List.mem_filter.2 ⟨hN.left_mem, by rw [hN.left]; rfl⟩, List.mem_filter.2 ⟨hN.right_mem, by rw [hN.right]; rfl⟩⟩

omit W hC in
theorem pre_spaced {t : Text} (h : preText w b (levelOf b) = some t) (ht : lead t ≠ []) : SpacedAt w g a b := by
  refine ⟨b, insAt b.start t, hN.right_tree, ?_, .inr rfl, ht⟩
  unfold elemEdits nodeAug preNode
  rw [h]
  simp

omit W hC in
theorem in_spaced {e : SEdit} (h : e ∈ inNode w r (fmtChildren r) (levelOf r)) (hs : e.start = a.stop ∨ e.start = b.start) (ht : lead e.text ≠ []) :
    SpacedAt w g a b := by
  refine ⟨r, e, hN.tree, ?_, hs, ht⟩
  unfold elemEdits nodeAug
  simp [h]

/-- Separators. -/
theorem sep_spaced (h : separator r.kind = .lineBreak ∨ separator r.kind = .space) : SpacedAt w g a b := by
  have hp := fmt_pair W hC hN
  rcases h with h | h
  · refine ⟨r, ⟨a.stop, b.start, linebreak w (levelOf r)⟩, hN.tree, List.mem_append_right _ (List.mem_filterMap.2 ⟨(a, b), hp, ?_⟩), .inl rfl, lead_nl _⟩
    unfold sepEdit; rw [h]
  · refine ⟨r, ⟨a.stop, b.start, [' ']⟩, hN.tree, List.mem_append_right _ (List.mem_filterMap.2 ⟨(a, b), hp, ?_⟩), .inl rfl, lead_sp _⟩
    unfold sepEdit; rw [h]

omit W hC hN in
/-- Insertions in front of children. -/
theorem before_mem {ks : List Kind} {t : Text} {c : Red} {cs : List Red} (hc : c ∈ cs) (hk : c.kind ∈ ks) : insAt c.start t ∈ beforeKinds ks t cs :=
  List.mem_filterMap.2 ⟨c, hc, by rw [if_pos hk]⟩

omit W hC hN in
theorem after_mem {ks : List Kind} {t : Text} {c : Red} {cs : List Red} (hc : c ∈ cs) (hk : c.kind ∈ ks) : insAt c.stop t ∈ afterKinds ks t cs :=
  List.mem_filterMap.2 ⟨c, hc, by rw [if_pos hk]⟩

/-- M1. -/
theorem spaced_lines (hb : b.kind ∈ [K.DatasetClause, K.SolutionModifier, K.TriplesTemplate, K.ConstructTriples]) : SpacedAt w g a b := by
  refine pre_spaced hN (t := linebreak w (levelOf b)) ?_ (lead_nl _)
  unfold preText
  rw [if_pos]
  simp only [List.mem_cons, List.not_mem_nil, or_false] at hb ⊢
  rcases hb with h | h | h | h <;> simp [h]

theorem spaced_where (hb : b.kind = K.WhereClause) : SpacedAt w g a b := by
  have one : ∀ (q : Prop) [Decidable q] (x y : Text), lead x ≠ [] → lead y ≠ [] → ∃ t, (if q then some x else some y) = some t ∧ lead t ≠ [] := by
    intro q _ x y hx hy
    by_cases hq : q
    · exact ⟨_, if_pos hq, hx⟩
    · exact ⟨_, if_neg hq, hy⟩
  have : ∃ t, preText w b (levelOf b) = some t ∧ lead t ≠ [] := by
    unfold preText
    rw [hb, if_neg (by decide), if_neg (by decide), if_neg (by decide), if_neg (by decide), if_neg (by decide), if_neg (by decide), if_neg (by decide),
      if_pos rfl]
    exact one _ _ _ (lead_nl _) (lead_sp _)
  obtain ⟨t, h1, h2⟩ := this
  exact pre_spaced hN h1 h2

omit W hC in
/-- A node in front. -/
theorem prev_some (h : ∃ c ∈ X ++ [a], c.isNode = true) : (prevNode b).isSome = true := by
  obtain ⟨c, hc, hn⟩ := h
  unfold prevNode
  rw [hN.elder, List.getLast?_isSome]
  intro h0
  have : c ∈ (X ++ a :: T).filter Red.isNode := by
    refine List.mem_filter.2 ⟨?_, hn⟩
    rcases List.mem_append.1 hc with hc | hc
    · exact List.mem_append_left _ hc
    · rw [List.mem_singleton.1 hc]; simp
  rw [h0] at this; cases this

/-- A node whose right-hand sides begin with nodes begins with a node. -/
theorem head_node (hh : sparqlRulesTree.toList.all (fun p => p.1 != r.kind || (headSyms nullNodes p.2).all (fun s => match s with | .node _ => true | .tok _ => false)) = true) :
    ∃ c ∈ X ++ [a], c.isNode = true := by
  obtain ⟨-, rule, h1, h2, h3⟩ := whole_of W.parsed hC hN.tree hN.node
  have hX : ∀ c ∈ X ++ [a], c ∈ r.childrenT := by
    intro c hc
    rw [hN.split]
    rcases List.mem_append.1 hc with hc | hc
    · exact List.mem_append_left _ hc
    · rw [List.mem_singleton.1 hc]; simp
  cases hf : ((X ++ [a]).map Red.green).filterMap Green.sym with
  | nil =>
    exfalso
    rw [List.filterMap_eq_nil_iff] at hf
    have := hf a.green (List.mem_map_of_mem (by simp))
    rw [sym_eq W.parsed hC hN.left_tree hN.left] at this
    cases this
  | cons s l =>
    have h4 : (r.childrenT.map Red.green).filterMap Green.sym = s :: (l ++ ((T ++ b :: Y).map Red.green).filterMap Green.sym) := by
      have : r.childrenT = (X ++ [a]) ++ (T ++ b :: Y) := by rw [hN.split]; simp
      rw [this, List.map_append, List.filterMap_append, hf]; rfl
    have h5 := headSyms_sound null_ok h3 h4
    have h6 := List.all_eq_true.1 hh _ h2
    dsimp only at h6
    rw [bne_self_eq_false, Bool.false_or] at h6
    have h7 := List.all_eq_true.1 h6 s h5
    have h8 : s ∈ ((X ++ [a]).map Red.green).filterMap Green.sym := by rw [hf]; simp
    obtain ⟨x, h9, h10⟩ := List.mem_filterMap.1 h8
    obtain ⟨c, hc, rfl⟩ := List.mem_map.1 h9
    refine ⟨c, hc, ?_⟩
    have hcin : InTree g c := .child hN.tree (hX c hc)
    cases hk : triviaKind c.kind with
    | true => rw [trivia_sym W.parsed hcin hk] at h10; cases h10
    | false =>
      rw [sym_eq W.parsed hC hcin hk] at h10
      injection h10 with h10
      rw [← h10] at h7
      unfold symOf at h7
      cases hn : c.isNode with
      | true => rfl
      | false => rw [hn] at h7; cases h7

/-- M2. -/
theorem spaced_triples (hk : r.kind = K.TriplesBlock ∨ r.kind = K.GroupGraphPatternSub) (hb : b.kind = K.TriplesBlock) : SpacedAt w g a b := by
  have hp : (prevNode b).isSome = true := by
    refine prev_some hN (head_node W hC hN ?_)
    rcases hk with hk | hk
    · rw [hk]; decide +kernel
    · rw [hk]; decide +kernel
  refine pre_spaced hN (t := linebreak w (levelOf b)) ?_ (lead_nl _)
  unfold preText
  rw [hb, if_neg (by decide), if_pos rfl, if_pos hp]

omit hN in
/-- The first child of a node that has only one node. -/
theorem first_node (hb : InTree g b) (hbk : b.kind = K.GraphPatternNotTriples) (hbn : b.isNode = true) (hu : b ≠ Red.root g) :
    ∃ c, b.firstChild = some c ∧ c ∈ b.childrenT ∧ c.start = b.start ∧ c.parent = some b := by
  obtain ⟨⟨k, t, l, e, hk⟩, -⟩ := solid_tight W.parsed (r := b) ⟨hb, hu, by rw [hbk]; decide⟩
  rw [children_leaves hbn] at e
  obtain ⟨T, c, Y, B', e1, e2, e3, e4, e5, e6⟩ := trivia_run W.parsed hb (X := b.childrenT) (fun c hc => hc) (M := []) (by simp) hk e
  have hT : T = [] := by
    cases T with
    | nil => rfl
    | cons t T =>
      have := token_leaves (trivia_token W.parsed (.child hb (by rw [e1]; simp)) (e2 t List.mem_cons_self))
      have e : lv (t :: T) = t.green.leaves ++ lv T := rfl
      rw [e5, this] at e; cases e
  subst hT
  have hc : c ∈ b.childrenT := by rw [e1]; simp
  have hcn : c.isNode = true := by
    obtain ⟨-, rule, h1, h2, h3⟩ := whole_of W.parsed hC hb hbn
    have hs := sym_eq W.parsed hC (.child hb hc) e3
    rw [e1, List.nil_append, List.map_cons, List.filterMap_cons_some hs] at h3
    have h5 := headSyms_sound null_ok h3 rfl
    have tab : sparqlRulesTree.toList.all (fun p => p.1 != K.GraphPatternNotTriples ||
        (headSyms nullNodes p.2).all (fun s => match s with | .node _ => true | .tok _ => false)) = true := by decide +kernel
    have h6 := List.all_eq_true.1 tab _ h2
    dsimp only at h6
    rw [hbk, bne_self_eq_false, Bool.false_or] at h6
    have h7 := List.all_eq_true.1 h6 _ h5
    unfold symOf at h7
    cases hn : c.isNode with
    | true => rfl
    | false => rw [hn] at h7; cases h7
  refine ⟨c, ?_, hc, ?_, child_parent hc⟩
  · unfold Red.firstChild Red.children
    rw [e1, List.nil_append, List.filter_cons_of_pos hcn]
    rfl
  · have := (child_places (r := b) (X := []) (Y := c :: Y) e1).2 c Y rfl
    rw [this]; rfl

/-- M3. -/
theorem spaced_pattern (ha : a.isNode = true) (hbn : b.isNode = true) (hb : b.kind = K.GraphPatternNotTriples) : SpacedAt w g a b := by
  have hp := prev_some hN ⟨a, by simp, ha⟩
  obtain ⟨p, hp⟩ := Option.isSome_iff_exists.1 hp
  obtain ⟨c, h1, h2, h3, h4⟩ := first_node W hC hN.right_tree hb hbn (child_ne_root hN.right_mem)
  by_cases hF : c.kind = K.Filter
  · have : ∃ t, preText w c (levelOf c) = some t ∧ lead t ≠ [] := by
      have e : preText w c (levelOf c) = filterText w c (levelOf c) := by unfold preText; rw [hF]; rfl
      rw [e]
      unfold filterText
      rw [h4]
      have : (some b : Option Red).bind prevNode = some p := hp
      rw [this]
      dsimp only
      split
      · exact ⟨_, rfl, lead_sp _⟩
      · exact ⟨_, rfl, lead_nl _⟩
    obtain ⟨t, h5, h6⟩ := this
    refine ⟨c, insAt c.start t, .child hN.right_tree h2, ?_, .inr h3, h6⟩
    unfold elemEdits nodeAug preNode
    rw [h5]
    simp
  · refine pre_spaced hN (t := linebreak w (levelOf b)) ?_ (lead_nl _)
    unfold preText
    rw [hb, if_neg (by decide), if_neg (by decide), if_pos rfl, hp, h1]
    dsimp only
    rw [if_pos hF]

/-- M4. -/
theorem spaced_dot (hk : r.kind = K.TriplesTemplate ∨ r.kind = K.ConstructTriples ∨ r.kind = K.TriplesBlock) (hb : b.kind = K.Dot) : SpacedAt w g a b := by
  refine in_spaced hN (e := insAt b.start [' ']) ?_ (.inr rfl) (lead_sp _)
  have : inNode w r (fmtChildren r) (levelOf r) = beforeKinds [K.Dot] [' '] (fmtChildren r) := by
    unfold inNode
    rcases hk with h | h | h <;> rw [h] <;> rfl
  rw [this]
  exact before_mem (pair_mems W hC hN).2 (by rw [hb]; simp)

/-- M5. -/
theorem spaced_objects (hk : r.kind = K.PropertyListPathNotEmpty ∨ r.kind = K.PropertyListNotEmpty) (hb : b.kind = K.ObjectListPath ∨ b.kind = K.ObjectList) :
    SpacedAt w g a b := by
  refine in_spaced hN (e := insAt b.start [' ']) ?_ (.inr rfl) (lead_sp _)
  have : inNode w r (fmtChildren r) (levelOf r) = beforeKinds [K.Semicolon, K.ObjectListPath, K.ObjectList] [' '] (fmtChildren r) := by
    unfold inNode
    rcases hk with h | h <;> rw [h] <;> rfl
  rw [this]
  exact before_mem (pair_mems W hC hN).2 (by rcases hb with h | h <;> rw [h] <;> simp)

/-- M6. -/
theorem spaced_blank (hk : r.kind = K.BlankNodePropertyListPath ∨ r.kind = K.BlankNodePropertyList)
    (hb : b.kind = K.PropertyListPathNotEmpty ∨ b.kind = K.PropertyListNotEmpty) : SpacedAt w g a b := by
  have hin : inBlankNode b = true := by
    unfold inBlankNode
    rw [hN.parent]
    rcases hk with h | h <;> simp [h]
  have : ∃ t, preText w b (levelOf b) = some t ∧ lead t ≠ [] := by
    have e : preText w b (levelOf b) = if inBlankNode b then if 3 < b.childrenT.length then some (linebreak w (levelOf b)) else some [' '] else none := by
      unfold preText
      rcases hb with h | h <;> rw [h] <;> rfl
    rw [e, if_pos hin]
    split
    · exact ⟨_, rfl, lead_nl _⟩
    · exact ⟨_, rfl, lead_sp _⟩
  obtain ⟨t, h5, h6⟩ := this
  exact pre_spaced hN h5 h6

/-- M7. -/
theorem spaced_construct (hk : r.kind = K.ConstructQuery) (ha : a.kind = K.CONSTRUCT) : SpacedAt w g a b := by
  refine in_spaced hN (e := insAt a.stop [' ']) ?_ (.inl rfl) (lead_sp _)
  have : inNode w r (fmtChildren r) (levelOf r) = (fmtChildren r).filterMap constructEdit := by
    unfold inNode
    rw [hk]; rfl
  rw [this]
  exact List.mem_filterMap.2 ⟨a, (pair_mems W hC hN).1, by unfold constructEdit; rw [if_pos ha]⟩

/-- M8. -/
theorem spaced_bind (hk : r.kind = K.Bind) (hb : b.kind = K.AS) : SpacedAt w g a b := by
  refine in_spaced hN (e := insAt b.start [' ']) ?_ (.inr rfl) (lead_sp _)
  have : inNode w r (fmtChildren r) (levelOf r) = (fmtChildren r).flatMap bindEdits := by
    unfold inNode
    rw [hk]; rfl
  rw [this]
  refine List.mem_flatMap.2 ⟨b, (pair_mems W hC hN).2, ?_⟩
  unfold bindEdits
  rw [hb, if_neg (by decide), if_pos rfl]
  simp

/-- M9. -/
theorem spaced_group (hk : r.kind = K.GroupCondition) (ha : a.kind = K.Expression) (hb : b.kind = K.AS) : SpacedAt w g a b := by
  refine in_spaced hN (e := insAt b.start [' ']) ?_ (.inr rfl) (lead_sp _)
  have : inNode w r (fmtChildren r) (levelOf r) = ((fmtChildren r).zip ((fmtChildren r).drop 1)).filterMap (fun p => groupEdit p.1 p.2) := by
    unfold inNode
    rw [hk]; rfl
  rw [this]
  refine List.mem_filterMap.2 ⟨(a, b), fmt_pair W hC hN, ?_⟩
  unfold groupEdit
  dsimp only
  rw [ha, hb, if_neg (by decide), if_neg (by decide)]

theorem spaced_select (hk : r.kind = K.SelectClause) (hl : a.kind ≠ K.LParen) (hr : b.kind ≠ K.RParen) : SpacedAt w g a b := by
  have e : inNode w r (fmtChildren r) (levelOf r) = ((fmtChildren r).zip ((fmtChildren r).drop 1)).zipIdx.filterMap
      (fun p => selectEdit w (fmtChildren r) (levelOf r) p.2 p.1.1 p.1.2) := by
    unfold inNode
    rw [hk]; rfl
  obtain ⟨i, hi, hget⟩ := List.mem_iff_getElem.1 (fmt_pair W hC hN)
  have hm : ((a, b), i) ∈ ((fmtChildren r).zip ((fmtChildren r).drop 1)).zipIdx := by
    rw [List.mem_zipIdx_iff_getElem?]
    rw [List.getElem?_eq_getElem hi, hget]
  have : ∃ ed, selectEdit w (fmtChildren r) (levelOf r) i a b = some ed ∧ ed.start = b.start ∧ lead ed.text ≠ [] := by
    unfold selectEdit
    rw [if_neg hr, if_neg (fun h => hl h.2)]
    split
    · exact ⟨_, rfl, rfl, lead_sp _⟩
    · split
      · exact ⟨_, rfl, rfl, lead_nl _⟩
      · exact ⟨_, rfl, rfl, lead_sp _⟩
  obtain ⟨ed, h1, h2, h3⟩ := this
  refine in_spaced hN (e := ed) ?_ (.inr h2) h3
  rw [e]
  exact List.mem_filterMap.2 ⟨_, hm, h1⟩

/-- M10. -/
theorem spaced_describe (hk : r.kind = K.DescribeQuery) (hb : b.kind = K.VarOrIri) : SpacedAt w g a b := by
  refine in_spaced hN (e := insAt b.start [' ']) ?_ (.inr rfl) (lead_sp _)
  have : inNode w r (fmtChildren r) (levelOf r) = beforeKinds [K.VAR1, K.VAR2, K.VarOrIri, K.Star] [' '] (fmtChildren r) := by
    unfold inNode
    rw [hk]; rfl
  rw [this]
  exact before_mem (pair_mems W hC hN).2 (by rw [hb]; simp)

/-- M11. -/
theorem spaced_aggregate (hk : r.kind = K.Aggregate) (ha : a.kind = K.DISTINCT) : SpacedAt w g a b := by
  refine in_spaced hN (e := insAt a.stop [' ']) ?_ (.inl rfl) (lead_sp _)
  have : inNode w r (fmtChildren r) (levelOf r) = afterKinds [K.Semicolon, K.DISTINCT] [' '] (fmtChildren r) := by
    unfold inNode
    rw [hk]; rfl
  rw [this]
  exact after_mem (pair_mems W hC hN).1 (by rw [ha]; simp)

/-- **The pairs in `spacedPair` are spaced.** -/
theorem pair_spaced (h : spacedPair r.kind (symOf a) (symOf b) = true) : SpacedAt w g a b := by
  unfold spacedPair at h
  simp only [Bool.or_eq_true, Bool.and_eq_true, List.contains_cons, List.contains_nil, Bool.or_false, beq_iff_eq] at h
  rcases h with ((((((((((((h | h) | h) | h) | h) | h) | h) | h) | h) | h) | h) | h) | h) | h
  · rcases h with h | h | h | h | h
    · exact spaced_lines W hC hN (by rw [(symOf_node h).2]; simp)
    · exact spaced_where W hC hN (symOf_node h).2
    · exact spaced_lines W hC hN (by rw [(symOf_node h).2]; simp)
    · exact spaced_lines W hC hN (by rw [(symOf_node h).2]; simp)
    · exact spaced_lines W hC hN (by rw [(symOf_node h).2]; simp)
  · exact spaced_triples W hC hN h.1.1 (symOf_node h.2).2
  · exact spaced_pattern W hC hN (symOf_node h.1.2).1 (symOf_node h.2).1 (symOf_node h.2).2
  · exact spaced_dot W hC hN (h.1.elim (fun h => h.elim .inl (fun h => .inr (.inl h))) (fun h => .inr (.inr h))) (symOf_tok h.2).2
  · exact spaced_objects W hC hN (.inl h.1) (.inl (symOf_node h.2).2)
  · exact spaced_objects W hC hN (.inr h.1) (.inr (symOf_node h.2).2)
  · exact spaced_blank W hC hN (.inl h.1) (.inl (symOf_node h.2).2)
  · exact spaced_blank W hC hN (.inr h.1) (.inr (symOf_node h.2).2)
  · exact spaced_construct W hC hN h.1 (symOf_tok h.2).2
  · exact spaced_bind W hC hN h.1 (symOf_tok h.2).2
  · exact spaced_group W hC hN h.1.1 (symOf_node h.1.2).2 (symOf_tok h.2).2
  · refine spaced_select W hC hN h.1 ?_ ?_
    · rcases h.2 with h | h
      · rw [(symOf_node h.1).2]; decide
      · rw [(symOf_tok h.1).2]; decide
    · rcases h.2 with h | h
      · rw [(symOf_tok h.2).2]; decide
      · rcases h.2 with h | h
        · rw [(symOf_tok h).2]; decide
        · rw [(symOf_tok h).2]; decide
  · exact spaced_describe W hC hN h.1 (symOf_node h.2).2
  · exact spaced_aggregate W hC hN h.1 (symOf_tok h.2).2

end

/-- Nodes in which nothing is changed. -/
theorem plain_edits {w : Walker} {r : Red} (h : r.kind ∈ plainKinds) : elemEdits w r = [] := by
  have hs : ∀ k ∈ plainKinds, separator k = .unknown := by decide +kernel
  have hk : ∀ k ∈ plainKinds, k ≠ K.IN ∧ k ∉ keywords := by decide +kernel
  have h2 := hs _ h
  have h3 := hk _ h
  have e1 : inNode w r (fmtChildren r) (levelOf r) = [] := by
    unfold plainKinds at h
    simp only [List.mem_cons, List.not_mem_nil, or_false] at h
    unfold inNode
    rcases h with h | h | h | h | h | h | h | h | h | h <;> rw [h] <;> rfl
  have e2 : preNode w r (levelOf r) = none := by
    unfold plainKinds at h
    simp only [List.mem_cons, List.not_mem_nil, or_false] at h
    unfold preNode preText
    rcases h with h | h | h | h | h | h | h | h | h | h <;> rw [h] <;> rfl
  have e3 : postNode w r (levelOf r) = none := by
    unfold plainKinds at h
    simp only [List.mem_cons, List.not_mem_nil, or_false] at h
    unfold postNode postText
    rcases h with h | h | h | h | h | h | h | h | h | h <;> rw [h] <;> rfl
  have e4 : keywordEdits w r = [] := by
    unfold keywordEdits
    rw [if_neg h3.1, if_neg (fun h => h3.2 h.1)]
  unfold elemEdits nodeAug
  rw [e1, e2, e3, e4]
  show ([] : List SEdit) ++ _ = []
  rw [List.nil_append, List.filterMap_eq_nil_iff]
  intro p _
  unfold sepEdit
  rw [h2]

end Verif.Format
