import Verif.Features.Context
import Verif.Features.Demo
import Verif.Features.DemoActions
import Verif.Props.SameSubject
import Verif.Props.AddFilter
import Verif.Features.Group
/-!
# The context of a completion: C65
-/
namespace Verif.Props
open Verif Verif.Grammar Verif.Lexer Verif.Features

/-! ## The pieces of a group -/

theorem apart_of_pairwise {l : List Red} (h : l.Pairwise (fun a b => a.stop ≤ b.start)) : ∀ {a b : Red}, a ∈ l → b ∈ l → a ≠ b →
    a.stop ≤ b.start ∨ b.stop ≤ a.start := by
  induction h with
  | nil => intro a b ha; cases ha
  | cons h _ ih =>
    intro a b ha hb hne
    rcases List.mem_cons.1 ha with ea | ha <;> rcases List.mem_cons.1 hb with eb | hb
    · exact absurd (ea.trans eb.symm) hne
    · rw [ea]; exact Or.inl (h _ hb)
    · rw [eb]; exact Or.inr (h _ ha)
    · exact ih ha hb hne

theorem start_lt_stop {x : Red} (h : x.text ≠ []) : x.start < x.stop := by
  have : 0 < blen x.text := by
    cases e : x.text with
    | nil => exact absurd e h
    | cons c l =>
      have := u8_pos c
      simp only [blen]
      omega
  show x.here.off < x.here.off + blen x.text
  omega

theorem within_trans {a b c : Red} (h : Within a b) (h' : Within b c) : Within a c :=
  ⟨Nat.le_trans h'.1 h.1, Nat.le_trans h.2 h'.2⟩

theorem starts_ne {a b x y : Red} (hx : Within x a) (hy : Within y b) (h : a.stop ≤ b.start ∨ b.stop ≤ a.start)
    (hx' : x.text ≠ []) (hy' : y.text ≠ []) : x.start ≠ y.start := by
  have h1 := start_lt_stop hx'
  have h2 := start_lt_stop hy'
  obtain ⟨h3, h4⟩ := hx
  obtain ⟨h5, h6⟩ := hy
  omega

theorem gchild_nodes {r c : Red} (h : c ∈ r.childrenT) : c.green.nodes.length < r.green.nodes.length := by
  unfold Red.childrenT at h
  cases hg : r.here.green with
  | tok k t => rw [hg] at h; cases h
  | node k cs =>
    rw [hg] at h
    obtain ⟨s, hs, rfl⟩ := List.mem_map.1 h
    obtain ⟨a, b, e, -, -⟩ := mem_childSites hs
    have hl : ∀ (a b : List Green) (x : Green), x.nodes.length ≤ (Green.nodesL (a ++ x :: b)).length := by
      intro a b x
      induction a with
      | nil => simp [Green.nodesL]
      | cons y a ih => simp only [List.cons_append, Green.nodesL, List.length_append]; omega
    have := hl a b s.green
    rw [← e] at this
    show s.green.nodes.length < r.here.green.nodes.length
    rw [hg]
    simp only [Green.nodes, List.length_cons]
    omega

section
variable {text : Text} {g : Green} (P : Parsed text g)
include P

theorem top_ne {x : Red} {ks : List Kind} (hk : x.kind ∈ ks) (h : (!ks.contains K.QueryUnit && !ks.contains K.UpdateUnit) = true) :
    x ≠ Red.root g := by
  rintro rfl
  have hk : g.kind ∈ ks := hk
  simp only [Bool.and_eq_true, Bool.not_eq_true', List.contains_eq_mem, decide_eq_false_iff_not] at h
  rcases P.root with e | e <;> rw [e] at hk
  · exact h.1 hk
  · exact h.2 hk

theorem ne_text {x : Red} (hT : InTree g x) (hn : x.isNode = true) (h : x ≠ Red.root g) : x.text ≠ [] := by
  refine P.node_nonempty hT hn ?_
  intro e
  exact h (hT.root_of_up e)

/-- The parent of a pattern. -/
theorem pattern_parent {x w : Red} (hT : InTree g x) (hn : x.isNode = true) (hk : x.kind ∈ patternKinds) (hw : x ∈ w.childrenT) :
    w.kind = K.GraphPatternNotTriples := by
  obtain ⟨r, -, -, h3, h4⟩ := P.parent_kind hT hn (by rintro e; rw [e] at hk; revert hk; decide)
    (top_ne P hk (by decide)) [K.GraphPatternNotTriples] (by
      have : patternKinds.all (fun k => sparqlRulesTree.toList.all (fun p => !(symbols p.2).contains (.node k) ||
        [K.GraphPatternNotTriples].contains p.1)) = true := by decide +kernel
      exact List.all_eq_true.1 this _ hk)
  have := child_parent hw
  rw [child_parent h3] at this
  cases this
  simpa using h4

theorem mem_patternsOf {p : Red} (hp : InTree g p) (hn : p.isNode = true) (hk : p.kind = K.GroupGraphPattern) (x : Red) :
    x ∈ patternsOf p ↔ InTree g x ∧ PatternOf p x := by
  unfold patternsOf
  constructor
  · intro h
    cases hs : p.childOf [K.GroupGraphPatternSub] with
    | none => rw [hs] at h; cases h
    | some sub =>
      rw [hs] at h
      have hsub := childOf_part hs
      obtain ⟨w, hw, hx⟩ := List.mem_filterMap.1 h
      have hw := mem_children.1 hw
      have hwT := (hp.child hsub.1).child hw.1
      unfold castPattern at hx
      split at hx
      · cases hx
      · next y hy =>
        split at hx
        · next hyk =>
          cases hx
          have hy' : w.children.head? = some x := hy
          have hym := mem_children.1 (List.mem_of_mem_head? hy')
          have hxT := hwT.child hym.1
          refine ⟨hxT, hym.2, hk, hyk, w, sub, Red.chain p.up, ?_, pattern_parent P hxT hym.2 hyk hym.1, hy', hsub.2.2⟩
          rw [parent_chain (child_parent hym.1), parent_chain (child_parent hw.1), parent_chain (child_parent hsub.1)]
        · cases hx
  · rintro ⟨hT, hxn, -, hxk, w, sub, rest, hc, hwk, hwx, hsk⟩
    obtain ⟨hxm, hc2⟩ := child_of_chain hT hc
    have hwT := hT.chain w (by rw [hc]; simp)
    obtain ⟨hwm, hc3⟩ := child_of_chain hwT.1 hc2
    have hsT := hT.chain sub (by rw [hc]; simp)
    obtain ⟨hsm, -⟩ := child_of_chain hsT.1 hc3
    rw [(sub_iff P hp hn hk).2 ⟨hsm, hsT.2, hsk⟩]
    refine List.mem_filterMap.2 ⟨w, mem_children.2 ⟨hwm, hwT.2⟩, ?_⟩
    have : w.firstChild = some x := hwx
    unfold castPattern
    rw [this]
    exact if_pos hxk

omit P in
theorem sym_of {c : Red} (hn : c.isNode = true) (hE : c.kind ≠ K.Error) : c.green.sym = some (.node c.kind) := by
  unfold Red.isNode at hn
  show c.here.green.sym = some (.node c.here.green.kind)
  have hk : c.here.green.kind ≠ K.Error := hE
  cases hg : c.here.green with
  | tok k x => rw [hg] at hn; cases hn
  | node k x =>
    rw [hg] at hk
    have hk : k ≠ K.Error := hk
    simp [Green.sym, hk, Green.kind]

/-- The symbols of the children are part of a word of the rule. -/
theorem children_word {r : Red} (h : InTree g r) (hn : r.isNode = true) (hE : r.kind ≠ K.Error) : ∃ R w, sparqlRules r.kind = some R ∧
    Word R w ∧ ∀ c ∈ r.childrenT, ∀ s, c.green.sym = some s → s ∈ w := by
  have hf := P.follows _ (h.green_mem hn)
  have hgg : r.green = r.here.green := rfl
  unfold Red.isNode at hn
  cases hg : r.here.green with
  | tok k t => rw [hg] at hn; cases hn
  | node k cs =>
    rw [hgg, hg] at hf
    have hk : r.kind = k := by show r.here.green.kind = k; rw [hg]; rfl
    rw [hk] at hE
    simp only [Follows, if_neg hE] at hf
    obtain ⟨R, hR, w, hw, hsub⟩ := hf
    refine ⟨R, w, by rw [hk]; exact hR, hw, ?_⟩
    intro c hc s hs
    unfold Red.childrenT at hc
    rw [hg] at hc
    obtain ⟨site, hsite, rfl⟩ := List.mem_map.1 hc
    obtain ⟨a, b, e, -, -⟩ := mem_childSites hsite
    exact hsub.subset (List.mem_filterMap.2 ⟨site.green, by rw [e]; simp, hs⟩)

/-- A group has a body or a sub-select, not both. -/
theorem not_both {p s sub : Red} (hp : InTree g p) (hk : p.kind = K.GroupGraphPattern) (h : s ∈ p.childrenT)
    (hsn : s.isNode = true) (hs : s.kind = K.SelectQuery ∨ s.kind = K.SubSelect) (hsub : Part p K.GroupGraphPatternSub sub) : False := by
  obtain ⟨R, w, hR, hw, hall⟩ := children_word P hp (child_isNode h) (by rw [hk]; decide)
  rw [hk, r_pattern] at hR
  cases hR
  have h1 := hall s h _ (sym_of hsn (by rcases hs with e | e <;> rw [e] <;> decide))
  have h2 := hall sub hsub.1 _ (sym_of hsub.2.1 (by rw [hsub.2.2]; decide))
  rw [hsub.2.2] at h2
  cases hw with
  | seq a b =>
    cases a
    cases b with
    | seq a b =>
      cases b
      cases a with
      | altL a =>
        cases a
        revert h2; simp; decide
      | altR a =>
        cases a
        rcases hs with e | e <;> rw [e] at h1 <;> revert h1 <;> simp <;> decide

/-- What stands in a group that is just a group. -/
theorem justGroup_kind {x q : Red} (hT : InTree g x) (hn : x.isNode = true) (he : Faultless x) (h : JustGroup x q) :
    q ∈ x.childrenT ∧ q.isNode = true ∧ q.kind = K.GroupGraphPattern ∧ q.start = x.start := by
  obtain ⟨hk, hc⟩ := h
  have hq := mem_children.1 (show q ∈ x.children by rw [hc]; simp)
  have hqE : q.kind ≠ K.Error := he q (List.mem_filter.2 ⟨mem_descendantsT_of_child hq.1 (descendantsT_self _), hq.2⟩)
  have hsyms : ∀ R, sparqlRules K.GroupOrUnionGraphPattern = some R → ∀ s ∈ symbols R, s = .node K.GroupGraphPattern ∨ s = .tok K.UNION := by
    have : ((sparqlRules K.GroupOrUnionGraphPattern).all (fun R => (symbols R).all (fun s => s == .node K.GroupGraphPattern || s == .tok K.UNION))) = true := by
      decide +kernel
    intro R hR s hs
    rw [hR] at this
    simpa using List.all_eq_true.1 this s hs
  have hcs : ∀ c ∈ x.childrenT, c.green.sym = none ∨ c.green.sym = some (.node K.GroupGraphPattern) ∨ c.green.sym = some (.tok K.UNION) := by
    intro c hc
    have := P.child_sym hT hc
    rw [if_neg (by rw [hk]; decide)] at this
    rcases this with h | ⟨R, s, h1, h2, h3⟩
    · exact Or.inl h
    · rw [hk] at h1
      rcases hsyms R h1 s h3 with rfl | rfl
      · exact Or.inr (Or.inl h2)
      · exact Or.inr (Or.inr h2)
  refine ⟨hq.1, hq.2, ?_, ?_⟩
  · have := hcs q hq.1
    rw [sym_of hq.2 hqE] at this
    rcases this with h | h | h
    · cases h
    · injection h with h; injection h
    · injection h with h; cases h
  · obtain ⟨⟨k, t⟩, l, hl, hkk⟩ := P.starts _ (hT.green_mem hn) [K.LCurly] (by
      have : x.green.kind = K.GroupOrUnionGraphPattern := hk
      rw [this]; decide +kernel)
    have hkk : k = K.LCurly := by simpa using hkk
    unfold Red.isNode at hn
    have hgg : x.green = x.here.green := rfl
    cases hg : x.here.green with
    | tok k t => rw [hg] at hn; cases hn
    | node kk cs =>
      cases cs with
      | nil => rw [hgg, hg] at hl; simp [Green.leaves, Green.leavesL] at hl
      | cons c cs =>
        have hm : (⟨⟨c, 0, x.here.off⟩, x.here :: x.up⟩ : Red) ∈ x.childrenT := by
          unfold Red.childrenT; rw [hg]; simp [childSites]
        have hhead : x.childrenT = ⟨⟨c, 0, x.here.off⟩, x.here :: x.up⟩ :: (childSites 1 (x.here.off + blen c.text) cs).map (⟨·, x.here :: x.up⟩) := by
          unfold Red.childrenT; rw [hg]; rfl
        cases c with
        | tok k' t' =>
          exfalso
          rw [hgg, hg] at hl
          simp only [Green.leaves, Green.leavesL, List.singleton_append, List.cons.injEq, Prod.mk.injEq] at hl
          have hk' : k' = K.LCurly := hl.1.1.trans hkk
          subst hk'
          have := hcs _ hm
          revert this
          show Green.sym (.tok K.LCurly t') = none ∨ _ → False
          have e : Green.sym (.tok K.LCurly t') = some (.tok K.LCurly) := by simp [Green.sym]; decide
          show Green.sym (.tok K.LCurly t') = none ∨ Green.sym (.tok K.LCurly t') = _ ∨ Green.sym (.tok K.LCurly t') = _ → False
          rw [e]
          rintro (h | h | h)
          · cases h
          · injection h with h; cases h
          · injection h with h; injection h with h; revert h; decide
        | node k' cs' =>
          obtain ⟨tl, hc'⟩ : ∃ tl, x.children = ⟨⟨.node k' cs', 0, x.here.off⟩, x.here :: x.up⟩ :: tl := by
            unfold Red.children; rw [hhead]; exact ⟨_, List.filter_cons_of_pos rfl⟩
          rw [hc] at hc'
          injection hc' with e _
          rw [e]; rfl

omit P in
theorem eligible_iff' {cut : Nat} {x : Red} : eligible cut x = true ↔ x.start < cut ∧ Faultless x := by
  unfold eligible
  rw [Bool.and_eq_true, decide_eq_true_eq, Bool.not_eq_true', noErr_iff]
  exact Iff.rfl

/-- The kinds of pieces. -/
theorem piece_kind {cut : Nat} {p y : Red} (h : PieceOf g cut p y) (hp : InTree g p) (hn : p.isNode = true) :
    InTree g y ∧ y.isNode = true ∧ y.kind ∈ K.TriplesSameSubjectPath :: K.GroupGraphPattern :: patternKinds ∧ Within y p := by
  induction h with
  | triple hT h hs he =>
    obtain ⟨h1, h2, h3, -⟩ := id h
    refine ⟨hT, h1, by rw [h2]; simp, ?_⟩
    obtain ⟨-, -, -, bs, sub, rest, hc, -⟩ := h
    exact hT.anc_within _ (List.mem_cons_of_mem _ (by rw [hc]; simp))
  | pattern hT h hs he hj =>
    obtain ⟨h1, h2, h3, w, sub, rest, hc, -⟩ := h
    exact ⟨hT, h1, by right; right; exact h3, hT.anc_within _ (List.mem_cons_of_mem _ (by rw [hc]; simp))⟩
  | inside hT h hs he hj hy ih =>
    obtain ⟨h1, h2, h3, w, sub, rest, hc, -⟩ := h
    obtain ⟨hq1, hq2, hq3, -⟩ := justGroup_kind P hT h1 he hj
    obtain ⟨i1, i2, i3, i4⟩ := ih (hT.child hq1) hq2
    exact ⟨i1, i2, i3, within_trans i4 (within_trans (child_within hq1) (hT.anc_within _ (List.mem_cons_of_mem _ (by rw [hc]; simp))))⟩
  | select hk h hs => exact ⟨hp, hn, by rw [hk]; simp, ⟨Nat.le_refl _, Nat.le_refl _⟩⟩

/-- What `collect_nodes` collects. -/
structure Collected (g : Green) (cut : Nat) (p : Red) (ps : List Piece) : Prop where
  pieces : ∀ y, (∃ a ∈ ps, a.item = y) ↔ PieceOf g cut p y
  vars : ∀ a ∈ ps, ∀ v, v ∈ a.vars ↔ Sees a.item v
  apart : ps.Pairwise (fun a b => a.item.start ≠ b.item.start)

omit P in
theorem cast_child {w x : Red} (h : castPattern w = some x) : x ∈ w.childrenT ∧ x.isNode = true := by
  unfold castPattern at h
  split at h
  · cases h
  · next y hy =>
    split at h
    · cases h; exact mem_children.1 (List.mem_of_mem_head? (show w.children.head? = some x from hy))
    · cases h

omit P in
theorem patternsOf_sorted (p : Red) : (patternsOf p).Pairwise (fun a b => a.stop ≤ b.start) := by
  unfold patternsOf
  cases p.childOf [K.GroupGraphPatternSub] with
  | none => exact .nil
  | some sub =>
    refine List.Pairwise.filterMap castPattern (R := fun a b => a.stop ≤ b.start) ?_ ((children_sorted sub).filter _)
    intro a a' h b hb b' hb'
    have h1 := (child_within (cast_child hb).1).2
    have h2 := (child_within (cast_child hb').1).1
    omega

/-- Pieces of a pattern. -/
structure StepOk (g : Green) (cut : Nat) (x : Red) (l : List Piece) : Prop where
  pieces : ∀ y, (∃ a ∈ l, a.item = y) ↔ ((∀ q, ¬ JustGroup x q) ∧ y = x) ∨ ∃ q, JustGroup x q ∧ PieceOf g cut q y
  vars : ∀ a ∈ l, ∀ v, v ∈ a.vars ↔ Sees a.item v
  apart : l.Pairwise (fun a b => a.item.start ≠ b.item.start)
  inside : ∀ a ∈ l, Within a.item x ∧ a.item.text ≠ []

theorem piece_text {cut : Nat} {p y : Red} (h : PieceOf g cut p y) (hp : InTree g p) (hn : p.isNode = true) : y.text ≠ [] := by
  obtain ⟨h1, h2, h3, -⟩ := piece_kind P h hp hn
  exact ne_text P h1 h2 (top_ne P h3 (by decide))

theorem step_ok {cut : Nat} {p x : Red} {again : Red → Option (List Piece)} (hT : InTree g x) (h : PatternOf p x) (he : Faultless x)
    (ih : ∀ q, q ∈ x.childrenT → q.isNode = true → q.kind = K.GroupGraphPattern → ∃ ps, again q = some ps ∧ Collected g cut q ps) :
    ∃ l, pieceStep again x = some l ∧ StepOk g cut x l := by
  have hxk : x.kind ∈ patternKinds := h.2.2.1
  have hxn := h.1
  unfold pieceStep
  split
  · next hc =>
    obtain ⟨hc1, hc2⟩ := hc
    obtain ⟨q, hq⟩ := List.length_eq_one_iff.1 hc2
    have hj : JustGroup x q := ⟨hc1, hq⟩
    obtain ⟨h1, h2, h3, h4⟩ := justGroup_kind P hT hxn he hj
    have hfc : x.firstChild = some q := by unfold Red.firstChild; rw [hq]; rfl
    rw [hfc]
    simp only [if_pos h3]
    obtain ⟨ps, h5, h6⟩ := ih q h1 h2 h3
    refine ⟨ps, h5, ⟨?_, h6.vars, h6.apart, ?_⟩⟩
    · intro y
      rw [h6.pieces y]
      constructor
      · intro h; exact Or.inr ⟨q, hj, h⟩
      · rintro (⟨h, -⟩ | ⟨q', ⟨-, hq'⟩, h⟩)
        · exact absurd hj (h q)
        · rw [hq] at hq'; cases hq'; exact h
    · intro a ha
      have hpo := (h6.pieces a.item).1 ⟨a, ha, rfl⟩
      exact ⟨within_trans (piece_kind P hpo (hT.child h1) h2).2.2.2 (child_within h1), piece_text P hpo (hT.child h1) h2⟩
  · next hc =>
    have hj : ∀ q, ¬ JustGroup x q := fun q hq => hc ⟨hq.1, by rw [hq.2]; rfl⟩
    refine ⟨_, rfl, ⟨?_, ?_, List.pairwise_singleton _ _, ?_⟩⟩
    · intro y
      constructor
      · rintro ⟨a, ha, rfl⟩
        simp only [List.mem_singleton] at ha; subst ha
        exact Or.inl ⟨hj, rfl⟩
      · rintro (⟨-, rfl⟩ | ⟨q, hq, -⟩)
        · exact ⟨_, List.mem_singleton.2 rfl, rfl⟩
        · exact absurd hq (hj q)
    · intro a ha v
      simp only [List.mem_singleton] at ha; subst ha
      have : x.kind ≠ K.TriplesSameSubjectPath := by
        intro e; rw [e] at hxk; revert hxk; decide
      unfold Sees
      rw [if_neg this]
      exact mem_visible x.green v
    · intro a ha
      simp only [List.mem_singleton] at ha; subst ha
      exact ⟨⟨Nat.le_refl _, Nat.le_refl _⟩, ne_text P hT hxn (top_ne P hxk (by decide))⟩

omit P in
theorem kids_green (r : Red) : Green.kids r.green = r.children.map Red.green := by
  have hl : ∀ (gs : List Green) (i o : Nat) (up : List Site), gs.filter (fun c => !c.isTok) =
      (((childSites i o gs).map (fun s => (⟨s, up⟩ : Red))).filter Red.isNode).map Red.green := by
    intro gs
    induction gs with
    | nil => intro i o up; rfl
    | cons x xs ih =>
      intro i o up
      simp only [childSites, List.map_cons]
      cases x with
      | tok k t => rw [List.filter_cons_of_neg (by simp [Green.isTok]), List.filter_cons_of_neg (by simp [Red.isNode])]; exact ih _ _ _
      | node k t =>
        rw [List.filter_cons_of_pos (by simp [Green.isTok]), List.filter_cons_of_pos (by simp [Red.isNode]), List.map_cons, ← ih]; rfl
  unfold Red.children Red.childrenT Green.kids Green.parts
  show (match r.here.green with | .tok _ _ => [] | .node _ cs => cs).filter _ = _
  cases r.here.green with
  | tok k t => rfl
  | node k cs => exact hl cs _ _ _

omit P in
/-- A group around a sub-select shows what the sub-select shows. -/
theorem shows_select {p s : Red} {v : Text} (hk : p.kind = K.GroupGraphPattern) (h : p.children.head? = some s)
    (hs : s.kind = K.SelectQuery ∨ s.kind = K.SubSelect) : Shows p.green v ↔ Shows s.green v := by
  have hkids := kids_green p
  have hsm := mem_children.1 (List.mem_of_mem_head? h)
  have hpn := child_isNode hsm.1
  have hhead : (Green.kids p.green).head? = some s.green := by rw [hkids, List.head?_map, h]; rfl
  have hpt : p.green.isTok = false := by
    unfold Red.isNode at hpn
    show p.here.green.isTok = false
    cases hg : p.here.green with
    | tok k t => rw [hg] at hpn; cases hpn
    | node k cs => rfl
  have hst : s.green.isTok = false := by
    have hsn := hsm.2
    unfold Red.isNode at hsn
    show s.here.green.isTok = false
    cases hg : s.here.green with
    | tok k t => rw [hg] at hsn; cases hsn
    | node k cs => rfl
  have hsel : isSelect s.green := ⟨hst, hs⟩
  rw [← mem_visible, ← mem_visible, attr_visible p.green hpt]
  have hk' : p.green.kind = K.GroupGraphPattern := hk
  rw [hk']
  have e : visibleOf K.GroupGraphPattern ((Green.parts p.green).map attr) ((Green.kids p.green).map attr) (attr p.green).vars =
      (attr s.green).visible := by
    unfold visibleOf
    rw [if_neg (by decide), if_neg (by decide), if_neg (by decide), if_pos rfl, List.head?_map, hhead]
    simp only [Option.map_some]
    rw [if_pos (by rw [attr_kind]; exact hs)]
  rw [e]

theorem triple_pattern_apart {p t x y : Red} (hp : InTree g p) (hn : p.isNode = true) (hk : p.kind = K.GroupGraphPattern)
    (hT : InTree g t) (ht : TripleOf p t) (hx : InTree g x) (hxp : PatternOf p x) (hy : Within y x) (h1 : t.text ≠ []) (h2 : y.text ≠ []) :
    t.start ≠ y.start := by
  obtain ⟨htn, htk, -, bs, sub, rest, hc, hb, hsk⟩ := ht
  obtain ⟨hxn, -, hxk, w, sub', rest', hc', hwk, -, hsk'⟩ := hxp
  obtain ⟨hxm, hc2⟩ := child_of_chain hx hc'
  have hwT := hx.chain w (by rw [hc']; simp)
  obtain ⟨hwm, hc3⟩ := child_of_chain hwT.1 hc2
  have hsT' := hx.chain sub' (by rw [hc']; simp)
  obtain ⟨hsm', -⟩ := child_of_chain hsT'.1 hc3
  rcases List.eq_nil_or_concat bs with rfl | ⟨bs', b, rfl⟩
  · exfalso
    obtain ⟨b, -, -, hbm, hbk⟩ := triple_block P hT htn htk
    rw [parent_chain (child_parent hbm)] at hc
    simp only [List.nil_append, List.cons.injEq] at hc
    rw [hc.1, hsk] at hbk
    revert hbk; decide
  · have h4' : Red.chain t.up = bs' ++ b :: (sub :: p :: rest) := by rw [hc]; simp
    have hcb := chain_suffix _ _ h4'
    have hbT := hT.chain b (by rw [h4']; simp)
    have hbk := hb b (by simp)
    obtain ⟨hbm, hcs⟩ := child_of_chain hbT.1 hcb
    have hsT := hT.chain sub (by rw [h4']; simp)
    obtain ⟨hsm, -⟩ := child_of_chain hsT.1 hcs
    have e1 := (sub_iff P hp hn hk).2 ⟨hsm, hsT.2, hsk⟩
    have e2 := (sub_iff P hp hn hk).2 ⟨hsm', hsT'.2, hsk'⟩
    rw [e1] at e2; cases e2
    have hne : b ≠ w := by rintro rfl; rw [hbk] at hwk; revert hwk; decide
    exact starts_ne (hT.anc_within b (List.mem_cons_of_mem _ (by rw [h4']; simp))) (within_trans hy (child_within hxm))
      (apart_of_pairwise (children_sorted sub) hbm hwm hne) h1 h2

theorem collected (fuel : Nat) : ∀ (p : Red) (cut : Nat), InTree g p → p.isNode = true → p.kind = K.GroupGraphPattern →
    p.green.nodes.length < fuel → ∃ ps, collectIn fuel p cut = some ps ∧ Collected g cut p ps := by
  induction fuel with
  | zero => intro p cut _ _ _ h; omega
  | succ fuel ih =>
    intro p cut hp hn hk hf
    have hX : ∀ x, x ∈ (patternsOf p).filter (eligible cut) ↔ InTree g x ∧ PatternOf p x ∧ x.start < cut ∧ Faultless x := by
      intro x
      rw [List.mem_filter, mem_patternsOf P hp hn hk, eligible_iff', and_assoc]
    have hA : ∀ t, t ∈ ((tripleBlocks p).flatMap triplesOf).filter (eligible cut) ↔ InTree g t ∧ TripleOf p t ∧ t.start < cut ∧ Faultless t := by
      intro t
      have := mem_patternTriples P hp hn hk t
      unfold patternTriples at this
      rw [List.mem_filter, this, eligible_iff', and_assoc]
    have hstep : ∀ x ∈ (patternsOf p).filter (eligible cut), ∃ l, pieceStep (fun q => collectIn fuel q cut) x = some l ∧ StepOk g cut x l := by
      intro x hx
      obtain ⟨hT, h, hs, he⟩ := (hX x).1 hx
      refine step_ok P hT h he ?_
      intro q hq hqn hqk
      refine ih q cut (hT.child hq) hqn hqk ?_
      obtain ⟨-, -, -, w, sub, rest, hc, -⟩ := h
      obtain ⟨hxm, hc2⟩ := child_of_chain hT hc
      have hwT := hT.chain w (by rw [hc]; simp)
      obtain ⟨hwm, hc3⟩ := child_of_chain hwT.1 hc2
      have hsT := hT.chain sub (by rw [hc]; simp)
      obtain ⟨hsm, -⟩ := child_of_chain hsT.1 hc3
      have := gchild_nodes hq
      have := gchild_nodes hxm
      have := gchild_nodes hwm
      have := gchild_nodes hsm
      omega
    obtain ⟨ls, h1, h2⟩ := unwrapAll_some (f := pieceStep (fun q => collectIn fuel q cut)) (l := (patternsOf p).filter (eligible cut))
      (fun x hx => by obtain ⟨l, hl, -⟩ := hstep x hx; rw [hl]; rfl)
    have h3 : ls = ((patternsOf p).filter (eligible cut)).map (fun x => (pieceStep (fun q => collectIn fuel q cut) x).getD []) := by
      have := congrArg (List.map (fun o : Option (List Piece) => o.getD [])) h2
      simpa [List.map_map, Function.comp_def] using this
    generalize hF : (fun x => (pieceStep (fun q => collectIn fuel q cut) x).getD []) = F at h3
    have hok : ∀ x ∈ (patternsOf p).filter (eligible cut), StepOk g cut x (F x) := by
      intro x hx
      obtain ⟨l, hl, ho⟩ := hstep x hx
      rw [← hF]; simp only [hl, Option.getD_some]; exact ho
    have hflat : ls.flatten = ((patternsOf p).filter (eligible cut)).flatMap F := by rw [h3]; rfl
    refine ⟨groupPieces p cut ++ ls.flatten ++ selectPieces p, by simp only [collectIn, h1], ?_⟩
    have hG : ∀ a, a ∈ groupPieces p cut ↔ ∃ t, a = ⟨t, tripleVars t⟩ ∧ InTree g t ∧ TripleOf p t ∧ t.start < cut ∧ Faultless t := by
      intro a
      unfold groupPieces
      rw [List.mem_map]
      constructor
      · rintro ⟨t, ht, rfl⟩; exact ⟨t, rfl, (hA t).1 ht⟩
      · rintro ⟨t, rfl, ht⟩; exact ⟨t, (hA t).2 ht, rfl⟩
    have hS : ∀ a, a ∈ selectPieces p ↔ ∃ s, p.children.head? = some s ∧ (s.kind = K.SelectQuery ∨ s.kind = K.SubSelect) ∧ a = ⟨p, shownVars s⟩ := by
      intro a
      unfold selectPieces subSelectOf Red.firstChild
      cases p.children.head? with
      | none => simp
      | some s =>
        by_cases e : s.kind = K.SelectQuery ∨ s.kind = K.SubSelect
        · simp [e]
        · simp [e]
    refine ⟨?_, ?_, ?_⟩
    · intro y
      constructor
      · rintro ⟨a, ha, rfl⟩
        rcases List.mem_append.1 ha with ha | ha
        · rcases List.mem_append.1 ha with ha | ha
          · obtain ⟨t, rfl, hT, ht, hs, he⟩ := (hG a).1 ha
            exact .triple hT ht hs he
          · rw [hflat] at ha
            obtain ⟨x, hx, ha⟩ := List.mem_flatMap.1 ha
            obtain ⟨hT, h, hs, he⟩ := (hX x).1 hx
            rcases ((hok x hx).pieces a.item).1 ⟨a, ha, rfl⟩ with ⟨hj, e⟩ | ⟨q, hj, hy⟩
            · rw [e]; exact .pattern hT h hs he hj
            · exact .inside hT h hs he hj hy
        · obtain ⟨s, h1, h2, rfl⟩ := (hS a).1 ha
          exact .select hk h1 h2
      · intro h
        cases h with
        | triple hT ht hs he => exact ⟨_, List.mem_append_left _ (List.mem_append_left _ ((hG _).2 ⟨y, rfl, hT, ht, hs, he⟩)), rfl⟩
        | pattern hT ht hs he hj =>
          have hx := (hX y).2 ⟨hT, ht, hs, he⟩
          obtain ⟨a, ha, e⟩ := ((hok y hx).pieces y).2 (Or.inl ⟨hj, rfl⟩)
          refine ⟨a, List.mem_append_left _ (List.mem_append_right _ ?_), e⟩
          rw [hflat]; exact List.mem_flatMap.2 ⟨y, hx, ha⟩
        | @inside _ x q _ hT ht hs he hj hy =>
          have hx := (hX x).2 ⟨hT, ht, hs, he⟩
          obtain ⟨a, ha, e⟩ := ((hok x hx).pieces y).2 (Or.inr ⟨q, hj, hy⟩)
          refine ⟨a, List.mem_append_left _ (List.mem_append_right _ ?_), e⟩
          rw [hflat]; exact List.mem_flatMap.2 ⟨x, hx, ha⟩
        | select _ h1 h2 => exact ⟨_, List.mem_append_right _ ((hS _).2 ⟨_, h1, h2, rfl⟩), rfl⟩
    · intro a ha v
      rcases List.mem_append.1 ha with ha | ha
      · rcases List.mem_append.1 ha with ha | ha
        · obtain ⟨t, rfl, hT, ht, hs, he⟩ := (hG a).1 ha
          unfold Sees
          rw [if_pos ht.2.1]
          exact attr_vars t.green v
        · rw [hflat] at ha
          obtain ⟨x, hx, ha⟩ := List.mem_flatMap.1 ha
          exact (hok x hx).vars a ha v
      · obtain ⟨s, h1, h2, rfl⟩ := (hS a).1 ha
        unfold Sees
        rw [if_neg (by rw [hk]; decide)]
        exact (mem_visible s.green v).trans (shows_select hk h1 h2).symm
    · cases hsel : selectPieces p with
      | cons a l =>
        obtain ⟨s, h1, h2, -⟩ := (hS a).1 (by rw [hsel]; simp)
        have hnone : p.childOf [K.GroupGraphPatternSub] = none := by
          cases hsub : p.childOf [K.GroupGraphPatternSub] with
          | none => rfl
          | some sub =>
            have hs := mem_children.1 (List.mem_of_mem_head? h1)
            exact (not_both P hp hk hs.1 hs.2 h2 (childOf_part hsub)).elim
        have e1 : groupPieces p cut = [] := by unfold groupPieces tripleBlocks; rw [hnone]; rfl
        have e2 : ls.flatten = [] := by rw [hflat]; unfold patternsOf; rw [hnone]; rfl
        rw [e1, e2]
        have : selectPieces p = [a] := by
          unfold selectPieces at hsel ⊢
          split at hsel
          · cases hsel
          · cases hsel; rfl
        rw [hsel] at this
        rw [this]
        exact List.pairwise_singleton _ _
      | nil =>
        rw [List.append_nil, List.pairwise_append]
        refine ⟨?_, ?_, ?_⟩
        · unfold groupPieces
          rw [List.pairwise_map]
          refine ((patternTriples_sorted p).filter _).imp_of_mem ?_
          intro a b ha hb hab
          obtain ⟨ha1, ha2, -⟩ := (hA a).1 ha
          have := start_lt_stop (ne_text P ha1 ha2.1 (top_ne P (ks := [K.TriplesSameSubjectPath]) (by rw [ha2.2.1]; simp) (by decide)))
          show a.start ≠ b.start
          omega
        · rw [hflat]
          rw [List.pairwise_flatMap]
          refine ⟨fun x hx => (hok x hx).apart, ?_⟩
          refine ((patternsOf_sorted p).filter _).imp_of_mem ?_
          intro x y hx hy hxy a ha b hb
          exact starts_ne ((hok x hx).inside a ha).1 ((hok y hy).inside b hb).1 (Or.inl hxy) ((hok x hx).inside a ha).2 ((hok y hy).inside b hb).2
        · intro a ha b hb
          obtain ⟨t, rfl, hT, ht, -, -⟩ := (hG a).1 ha
          rw [hflat] at hb
          obtain ⟨x, hx, hb⟩ := List.mem_flatMap.1 hb
          have htt := ne_text P hT ht.1 (top_ne P (ks := [K.TriplesSameSubjectPath]) (by rw [ht.2.1]; simp) (by decide))
          obtain ⟨hxT, hxp, -, -⟩ := (hX x).1 hx
          obtain ⟨hw, hne⟩ := (hok x hx).inside b hb
          refine triple_pattern_apart P hp hn hk hT ht hxT hxp hw htt hne

/-! ## The group around a trigger -/

/-- Where the elements of a group can stand. -/
theorem climb {r : Red} (hT : InTree g r) (hn : r.isNode = true)
    (hk : r.kind ∈ [K.TriplesSameSubjectPath, K.TriplesBlock, K.InlineData, K.GraphPatternNotTriples, K.GroupGraphPatternSub]) :
    ∃ p sub, r.ancestors.find? (fun x => x.kind == K.GroupGraphPattern) = some p ∧ InTree g p ∧ p.isNode = true ∧
      p.kind = K.GroupGraphPattern ∧ Part p K.GroupGraphPatternSub sub := by
  induction hT with
  | root => exact absurd rfl (top_ne P hk (by decide))
  | @child r c hr hc ih =>
    have hup : c.ancestors = c :: r.ancestors := by
      unfold Red.ancestors
      rw [parent_chain (child_parent hc)]
    have hck : (c.kind == K.GroupGraphPattern) = false := by
      have : (fun k => k == K.GroupGraphPattern) c.kind = false := by
        simp only [List.mem_cons, List.not_mem_nil, or_false] at hk
        rcases hk with e | e | e | e | e <;> rw [e] <;> decide
      exact this
    rw [hup, List.find?_cons_of_neg (by rw [hck]; decide)]
    have hpar : r.kind ∈ [K.TriplesBlock, K.GraphPatternNotTriples, K.GroupGraphPatternSub] ∨
        (c.kind = K.GroupGraphPatternSub ∧ r.kind = K.GroupGraphPattern) := by
      have key : ∀ ks : List Kind, sparqlRulesTree.toList.all (fun p => !(symbols p.2).contains (.node c.kind) || ks.contains p.1) = true → r.kind ∈ ks := by
        intro ks hks
        obtain ⟨r', -, -, h3, h4⟩ := P.parent_kind (hr.child hc) hn (by
          rintro e; rw [e] at hk; revert hk; decide) (top_ne P hk (by decide)) ks hks
        have := child_parent hc
        rw [child_parent h3] at this
        cases this
        exact h4
      simp only [List.mem_cons, List.not_mem_nil, or_false] at hk
      rcases hk with e | e | e | e | e
      · left; have := key [K.TriplesBlock] (by rw [e]; decide +kernel); simp only [List.mem_singleton] at this; rw [this]; simp
      · left
        have := key [K.TriplesBlock, K.GroupGraphPatternSub] (by rw [e]; decide +kernel)
        simp only [List.mem_cons, List.not_mem_nil, or_false] at this
        rcases this with h | h <;> rw [h] <;> simp
      · left; have := key [K.GraphPatternNotTriples] (by rw [e]; decide +kernel); simp only [List.mem_singleton] at this; rw [this]; simp
      · left; have := key [K.GroupGraphPatternSub] (by rw [e]; decide +kernel); simp only [List.mem_singleton] at this; rw [this]; simp
      · right; have := key [K.GroupGraphPattern] (by rw [e]; decide +kernel); simp only [List.mem_singleton] at this; exact ⟨e, this⟩
    rcases hpar with h | ⟨h1, h2⟩
    · refine ih (child_isNode hc) ?_
      simp only [List.mem_cons, List.not_mem_nil, or_false] at h
      rcases h with h | h | h <;> rw [h] <;> simp
    · refine ⟨r, c, ?_, hr, child_isNode hc, h2, ⟨hc, hn, h1⟩⟩
      unfold Red.ancestors
      rw [List.find?_cons_of_pos (by rw [h2]; decide)]

/-- Pieces start before the cut. -/
theorem piece_start {cut : Nat} {p y : Red} (h : PieceOf g cut p y) (hp : InTree g p) (hn : p.isNode = true) : y.start < cut ∨
    (y = p ∧ ∃ s, s ∈ p.childrenT ∧ s.isNode = true ∧ (s.kind = K.SelectQuery ∨ s.kind = K.SubSelect)) := by
  induction h with
  | triple _ _ hs _ => exact Or.inl hs
  | pattern _ _ hs _ _ => exact Or.inl hs
  | inside hT h hs he hj hy ih =>
    obtain ⟨h1, h2, h3, h4⟩ := justGroup_kind P hT h.1 he hj
    rcases ih (hT.child h1) h2 with h | ⟨e, -⟩
    · exact Or.inl h
    · left; rw [e, h4]; exact hs
  | select hk h hs =>
    have := mem_children.1 (List.mem_of_mem_head? h)
    exact Or.inr ⟨rfl, _, this.1, this.2, hs⟩

/-! ## The graph -/

omit P in
theorem linked_iff {cut : Nat} {p t : Red} {vars : List Text} {ps : List Piece} (hc : Collected g cut p ps) (y : Red) :
    Connected g cut p (fun v => v ∈ vars) y ↔
      ∃ i a, 0 < i ∧ (⟨t, vars⟩ :: ps : List Piece)[i]? = some a ∧ a.item = y ∧ Linked (⟨t, vars⟩ :: ps) 0 i := by
  have hget : ∀ {y : Red}, PieceOf g cut p y → ∃ i a, 0 < i ∧ (⟨t, vars⟩ :: ps : List Piece)[i]? = some a ∧ a ∈ ps ∧ a.item = y := by
    intro y hy
    obtain ⟨a, ha, e⟩ := (hc.pieces y).2 hy
    obtain ⟨i, hi, e'⟩ := List.getElem_of_mem ha
    exact ⟨i + 1, a, by omega, by rw [List.getElem?_cons_succ, List.getElem?_eq_getElem hi, e'], ha, e⟩
  constructor
  · intro h
    induction h with
    | @start y v hy hv hs =>
      obtain ⟨i, a, hi, h1, h2, h3⟩ := hget hy
      refine ⟨i, a, hi, h1, h3, .single ⟨by omega, _, a, rfl, h1, v, hv, (hc.vars a h2 v).2 (by rw [h3]; exact hs)⟩⟩
    | @step y z v _ hz h1 h2 ih =>
      obtain ⟨i, a, hi, i1, i2, i3⟩ := ih
      obtain ⟨j, b, hj, j1, j2, j3⟩ := hget hz
      have ha : a ∈ ps := by
        obtain ⟨i', rfl⟩ : ∃ i', i = i' + 1 := ⟨i - 1, by omega⟩
        rw [List.getElem?_cons_succ] at i1
        exact List.mem_of_getElem? i1
      refine ⟨j, b, hj, j1, j3, ?_⟩
      by_cases e : i = j
      · rw [← e]; exact i3
      · exact i3.tail ⟨e, a, b, i1, j1, v, (hc.vars a ha v).2 (by rw [i2]; exact h1), (hc.vars b j2 v).2 (by rw [j3]; exact h2)⟩
  · rintro ⟨i, a, hi, h1, rfl, h3⟩
    have : ∀ i, Linked (⟨t, vars⟩ :: ps) 0 i → ∀ a, 0 < i → (⟨t, vars⟩ :: ps : List Piece)[i]? = some a →
        Connected g cut p (fun v => v ∈ vars) a.item := by
      intro i h
      induction h with
      | refl => intro a hi; omega
      | @tail j i _ hs ih =>
        intro a hi ha
        obtain ⟨-, b, a', hb, ha', v, hv1, hv2⟩ := hs
        rw [ha] at ha'; cases ha'
        have hmem : a ∈ ps := by
          obtain ⟨i', rfl⟩ : ∃ i', i = i' + 1 := ⟨i - 1, by omega⟩
          rw [List.getElem?_cons_succ] at ha
          exact List.mem_of_getElem? ha
        have hpo := (hc.pieces a.item).1 ⟨a, hmem, rfl⟩
        have hsee := (hc.vars a hmem v).1 hv2
        rcases Nat.eq_zero_or_pos j with rfl | hj
        · rw [List.getElem?_cons_zero] at hb
          cases hb
          exact .start hpo hv1 hsee
        · have hbm : b ∈ ps := by
            obtain ⟨j', rfl⟩ : ∃ j', j = j' + 1 := ⟨j - 1, by omega⟩
            rw [List.getElem?_cons_succ] at hb
            exact List.mem_of_getElem? hb
          exact .step (ih b hj hb) hpo ((hc.vars b hbm v).1 hv1) hsee
    exact this i h3 a hi h1

/-- What the context of a trigger must be. -/
structure ContextOf (g : Green) (p : Red) (cut : Nat) (vars : Text → Prop) (c : Ctx) : Prop where
  /-- the pieces that hang together with the variables -/
  nodes : ∀ y, y ∈ c.nodes ↔ Connected g cut p vars y
  /-- in the order of the document, each once -/
  sorted : c.nodes.Pairwise (fun a b => a.start < b.start)
  /-- the prefixes used in them -/
  prefixes : ∀ pre, pre ∈ c.prefixes ↔ ∃ y ∈ c.nodes, ∃ n ∈ y.descendants, Uses g n pre

theorem context_of (o : HashOrder) {t : Red} (hT : InTree g t) (hn : t.isNode = true)
    (hk : t.kind = K.TriplesSameSubjectPath ∨ t.kind = K.InlineData) (vars : List Text) :
    ∃ p c, t.ancestors.find? (fun x => x.kind == K.GroupGraphPattern) = some p ∧ computeContext o t vars = some (some c) ∧
      ContextOf g p t.start (fun v => v ∈ vars) c := by
  obtain ⟨p, sub, hp, hpT, hpn, hpk, hsub⟩ := climb P hT hn (by rcases hk with e | e <;> rw [e] <;> simp)
  obtain ⟨ps, h1, hc⟩ := collected P (p.green.nodes.length + 1) p t.start hpT hpn hpk (by omega)
  obtain ⟨l, is, h2, h3, h4, h5⟩ := component_spec o (⟨t, vars⟩ :: ps : List Piece) (u := 0) (by simp)
  have hstart : ∀ a ∈ ps, a.item.start < t.start := by
    intro a ha
    rcases piece_start P ((hc.pieces a.item).1 ⟨a, ha, rfl⟩) hpT hpn with h | ⟨-, s, hs1, hs2, hs3⟩
    · exact h
    · exact (not_both P hpT hpk hs1 hs2 hs3 hsub).elim
  have hother : ∀ a ∈ ps, otherRange t a.item = true := by
    intro a ha
    have := hstart a ha
    unfold otherRange
    simp only [Bool.not_eq_true', Bool.and_eq_false_iff, beq_eq_false_iff_ne]
    left; omega
  have hself : otherRange t t = false := by simp [otherRange]
  have hmem : ∀ y, y ∈ l.filter (otherRange t) ↔ Connected g t.start p (fun v => v ∈ vars) y := by
    intro y
    rw [linked_iff (t := t) hc y, List.mem_filter, h5, List.mem_map]
    constructor
    · rintro ⟨⟨a, ha, rfl⟩, ho⟩
      obtain ⟨i, hi, hi'⟩ := List.mem_filterMap.1 ha
      refine ⟨i, a, ?_, hi', rfl, (h4 i).1 hi⟩
      rcases Nat.eq_zero_or_pos i with rfl | h
      · rw [List.getElem?_cons_zero] at hi'
        cases hi'
        rw [hself] at ho; cases ho
      · exact h
    · rintro ⟨i, a, hi, ha, rfl, hl⟩
      refine ⟨⟨a, List.mem_filterMap.2 ⟨i, (h4 i).2 hl, ha⟩, rfl⟩, hother a ?_⟩
      obtain ⟨i', rfl⟩ : ∃ i', i = i' + 1 := ⟨i - 1, by omega⟩
      rw [List.getElem?_cons_succ] at ha
      exact List.mem_of_getElem? ha
  have hne : (l.filter (otherRange t)).Pairwise (fun a b => a.start ≠ b.start) := by
    have hl : l.Pairwise (fun a b => otherRange t a = true → otherRange t b = true → a.start ≠ b.start) := by
      rw [h5, List.pairwise_map]
      refine List.Pairwise.filterMap _ (R := fun i j => i ≠ j) ?_ h3
      intro i j hij a ha b hb hoa hob
      have pos : ∀ {i : Nat} {a : Piece}, (⟨t, vars⟩ :: ps : List Piece)[i]? = some a → otherRange t a.item = true →
          ∃ k, i = k + 1 ∧ ps[k]? = some a := by
        intro i a ha ho
        cases i with
        | zero => rw [List.getElem?_cons_zero] at ha; cases ha; rw [hself] at ho; cases ho
        | succ k => exact ⟨k, rfl, by rw [List.getElem?_cons_succ] at ha; exact ha⟩
      obtain ⟨k, rfl, hk1⟩ := pos ha hoa
      obtain ⟨m, rfl, hm1⟩ := pos hb hob
      obtain ⟨hk2, hk3⟩ := List.getElem?_eq_some_iff.1 hk1
      obtain ⟨hm2, hm3⟩ := List.getElem?_eq_some_iff.1 hm1
      have hp' := List.pairwise_iff_getElem.1 hc.apart
      rw [← hk3, ← hm3]
      rcases Nat.lt_or_gt_of_ne (show k ≠ m by omega) with h | h
      · exact hp' k m hk2 hm2 h
      · exact (hp' m k hm2 hk2 h).symm
    refine (hl.filter _).imp_of_mem ?_
    intro a b ha hb h
    exact h (List.mem_filter.1 ha).2 (List.mem_filter.1 hb).2
  have hperm : (sortNodes (l.filter (otherRange t))).Perm (l.filter (otherRange t)) := List.perm_insertionSort _ _
  have hmem' : ∀ y, y ∈ sortNodes (l.filter (otherRange t)) ↔ Connected g t.start p (fun v => v ∈ vars) y :=
    fun y => hperm.mem_iff.trans (hmem y)
  have hpT' : ∀ y ∈ sortNodes (l.filter (otherRange t)), InTree g y := by
    intro y hy
    have := (hmem' y).1 hy
    have hpo : PieceOf g t.start p y := by cases this with
      | start h _ _ => exact h
      | step _ h _ _ => exact h
    exact (piece_kind P hpo hpT hpn).1
  have huse : ∀ n ∈ (sortNodes (l.filter (otherRange t))).flatMap (fun n => n.descendants.filter (fun c => c.kind == K.PrefixedName)),
      ∃ pre, Uses g n pre := by
    intro n hnm
    obtain ⟨y, hy, hm⟩ := List.mem_flatMap.1 hnm
    obtain ⟨hm, hkk⟩ := List.mem_filter.1 hm
    obtain ⟨hm1, hm2⟩ := List.mem_filter.1 hm
    exact uses_of P (inTree_of_mem_descendantsT _ (hpT' y hy) n hm1) hm2 (by simpa using hkk)
  obtain ⟨prs, hp1, hp2⟩ := unwrapAll_some (f := usePrefix) (l := (sortNodes (l.filter (otherRange t))).flatMap
    (fun n => n.descendants.filter (fun c => c.kind == K.PrefixedName))) (fun n hnm => by
      obtain ⟨pre, hu⟩ := huse n hnm
      rw [usePrefix_eq hu]; rfl)
  refine ⟨p, ⟨sortNodes (l.filter (otherRange t)), prs⟩, hp, ?_, ⟨hmem', ?_, ?_⟩⟩
  · unfold computeContext collectNodes
    rw [hp]
    simp only [h1, h2, hp1]
  · have hs : (sortNodes (l.filter (otherRange t))).Pairwise (fun a b => a.start ≤ b.start) := by
      have : Std.Total (fun a b : Red => a.start ≤ b.start) := ⟨fun a b => Nat.le_total _ _⟩
      have : IsTrans Red (fun a b : Red => a.start ≤ b.start) := ⟨fun a b c h1 h2 => Nat.le_trans h1 h2⟩
      exact List.pairwise_insertionSort _ _
    have hd : (sortNodes (l.filter (otherRange t))).Pairwise (fun a b => a.start ≠ b.start) :=
      (hperm.pairwise_iff (fun h => h.symm)).2 hne
    exact (hs.and hd).imp (fun h => Nat.lt_of_le_of_ne h.1 h.2)
  · intro pre
    rw [mem_of_map_some hp2]
    constructor
    · rintro ⟨n, hnm, hu⟩
      obtain ⟨pre', hu'⟩ := huse n hnm
      rw [usePrefix_eq hu'] at hu; cases hu
      obtain ⟨y, hy, hm⟩ := List.mem_flatMap.1 hnm
      exact ⟨y, hy, n, (List.mem_filter.1 hm).1, hu'⟩
    · rintro ⟨y, hy, n, hm, hu⟩
      exact ⟨n, List.mem_flatMap.2 ⟨y, hy, List.mem_filter.2 ⟨hm, by rw [hu.2.2.1]; simp⟩⟩, usePrefix_eq hu⟩

end

/-! ## The variables of a VALUES block -/

/-- The variables a VALUES block assigns, in their order: the one of `VALUES ?x { .. }`, those up to the `)` of
`VALUES (?x ?y) { .. }`. -/
def ValuesVars (d : Red) (vs : List Text) : Prop :=
  ∃ b e, d.children.getLast? = some b ∧ b.children.head? = some e ∧
    ((e.kind = K.InlineDataOneVar ∧ ∃ v, e.children.head? = some v ∧ v.kind = K.Var ∧ vs = [v.text]) ∨
     (e.kind = K.InlineDataFull ∧ ∃ pre post, e.childrenT = pre ++ post ∧ (∀ c ∈ pre, c.kind ≠ K.RParen) ∧
       (post = [] ∨ ∃ r l, post = r :: l ∧ r.kind = K.RParen) ∧
       vs = (pre.filter (fun c => c.isNode && c.kind == K.Var)).map Red.text))

theorem isTok_of {r : Red} (h : r.isNode = true) : r.green.isTok = false := by
  unfold Red.isNode at h
  show r.here.green.isTok = false
  cases hg : r.here.green with
  | tok k t => rw [hg] at h; cases h
  | node k cs => rfl

theorem isTok_iff (r : Red) : r.isNode = !r.green.isTok := by
  unfold Red.isNode
  show _ = !r.here.green.isTok
  cases r.here.green <;> rfl

theorem parts_green (r : Red) : Green.parts r.green = r.childrenT.map Red.green := by
  rw [children_green]
  show Green.parts r.here.green = _
  cases r.here.green <;> rfl

theorem data_eq {b : Red} (h : b.isNode = true) : (attr b.green).data =
    visibleIf [K.InlineDataOneVar, K.InlineDataFull] ((Green.kids b.green).head?.map attr) := by
  have := isTok_of h
  cases hg : b.green with
  | tok k t => rw [hg] at this; cases this
  | node k cs =>
    unfold Green.kids Green.parts
    rw [← List.head?_map, ← kids_attr]; rfl

theorem shown_values {d : Red} (hk : d.kind = K.InlineData) {vs : List Text} (h : ValuesVars d vs) : shownVars d = vs := by
  obtain ⟨b, e, hb, he, h⟩ := h
  have hbm := mem_children.1 (List.mem_of_getLast? hb)
  have hem := mem_children.1 (List.mem_of_mem_head? he)
  unfold shownVars
  rw [attr_visible d.green (isTok_of (child_isNode hbm.1)), show d.green.kind = K.InlineData from hk]
  have h1 : visibleOf K.InlineData ((Green.parts d.green).map attr) ((Green.kids d.green).map attr) (attr d.green).vars = (attr b.green).data := by
    unfold visibleOf
    simp only [if_neg (show ¬ (K.InlineData = K.SelectQuery ∨ K.InlineData = K.SubSelect) by decide),
      if_neg (show ¬ (K.InlineData = K.SelectClause) by decide), if_neg (show ¬ (K.InlineData = K.WhereClause) by decide),
      if_neg (show ¬ (K.InlineData = K.GroupGraphPattern) by decide),
      if_neg (show ¬ (K.InlineData = K.OptionalGraphPattern ∨ K.InlineData = K.MinusGraphPattern ∨ K.InlineData = K.GraphGraphPattern ∨
        K.InlineData = K.ServiceGraphPattern) by decide), if_neg (show ¬ (K.InlineData = K.GroupOrUnionGraphPattern) by decide),
      if_neg (show ¬ (K.InlineData = K.GraphPatternNotTriples) by decide), if_neg (show ¬ (K.InlineData = K.Filter) by decide),
      if_neg (show ¬ (K.InlineData = K.Bind) by decide), if_true]
    rw [kids_green, List.getLast?_map, List.getLast?_map, hb]
    rfl
  rw [h1, data_eq hbm.2, kids_green, List.head?_map, he]
  have hek : (attr e.green).kind = e.kind := attr_kind _
  have hen := isTok_of hem.2
  rcases h with ⟨hek', v, hv, hvk, rfl⟩ | ⟨hek', pre, post, hpp, hpre, hpost, rfl⟩
  · show visibleIf _ (some (attr e.green)) = _
    unfold visibleIf
    simp only
    rw [if_pos (by rw [hek, hek']; decide), attr_visible e.green hen, show e.green.kind = K.InlineDataOneVar from hek']
    unfold visibleOf
    simp only [if_neg (show ¬ (K.InlineDataOneVar = K.SelectQuery ∨ K.InlineDataOneVar = K.SubSelect) by decide),
      if_neg (show ¬ (K.InlineDataOneVar = K.SelectClause) by decide), if_neg (show ¬ (K.InlineDataOneVar = K.WhereClause) by decide),
      if_neg (show ¬ (K.InlineDataOneVar = K.GroupGraphPattern) by decide),
      if_neg (show ¬ (K.InlineDataOneVar = K.OptionalGraphPattern ∨ K.InlineDataOneVar = K.MinusGraphPattern ∨
        K.InlineDataOneVar = K.GraphGraphPattern ∨ K.InlineDataOneVar = K.ServiceGraphPattern) by decide),
      if_neg (show ¬ (K.InlineDataOneVar = K.GroupOrUnionGraphPattern) by decide),
      if_neg (show ¬ (K.InlineDataOneVar = K.GraphPatternNotTriples) by decide), if_neg (show ¬ (K.InlineDataOneVar = K.Filter) by decide),
      if_neg (show ¬ (K.InlineDataOneVar = K.Bind) by decide), if_neg (show ¬ (K.InlineDataOneVar = K.InlineData) by decide), if_true]
    rw [kids_green, List.head?_map, List.head?_map, hv]
    show (if (attr v.green).kind = K.Var then [(attr v.green).name] else []) = _
    rw [attr_kind, attr_name, if_pos (show v.green.kind = K.Var from hvk)]
    rfl
  · show visibleIf _ (some (attr e.green)) = _
    unfold visibleIf
    simp only
    rw [if_pos (by rw [hek, hek']; decide), attr_visible e.green hen, show e.green.kind = K.InlineDataFull from hek']
    unfold visibleOf
    simp only [if_neg (show ¬ (K.InlineDataFull = K.SelectQuery ∨ K.InlineDataFull = K.SubSelect) by decide),
      if_neg (show ¬ (K.InlineDataFull = K.SelectClause) by decide), if_neg (show ¬ (K.InlineDataFull = K.WhereClause) by decide),
      if_neg (show ¬ (K.InlineDataFull = K.GroupGraphPattern) by decide),
      if_neg (show ¬ (K.InlineDataFull = K.OptionalGraphPattern ∨ K.InlineDataFull = K.MinusGraphPattern ∨
        K.InlineDataFull = K.GraphGraphPattern ∨ K.InlineDataFull = K.ServiceGraphPattern) by decide),
      if_neg (show ¬ (K.InlineDataFull = K.GroupOrUnionGraphPattern) by decide),
      if_neg (show ¬ (K.InlineDataFull = K.GraphPatternNotTriples) by decide), if_neg (show ¬ (K.InlineDataFull = K.Filter) by decide),
      if_neg (show ¬ (K.InlineDataFull = K.Bind) by decide), if_neg (show ¬ (K.InlineDataFull = K.InlineData) by decide),
      if_neg (show ¬ (K.InlineDataFull = K.InlineDataOneVar) by decide), if_true]
    rw [parts_green, hpp, List.map_map]
    have htw : ((pre ++ post).map (attr ∘ Red.green)).takeWhile (fun a => a.kind != K.RParen) = pre.map (attr ∘ Red.green) := by
      rw [List.map_append]
      have h1 : ∀ a ∈ pre.map (attr ∘ Red.green), (a.kind != K.RParen) = true := by
        intro a ha
        obtain ⟨c, hc, rfl⟩ := List.mem_map.1 ha
        simp only [Function.comp, attr_kind, bne_iff_ne]
        exact hpre c hc
      rw [List.takeWhile_append_of_pos h1]
      rcases hpost with rfl | ⟨r, l, rfl, hr⟩
      · simp
      · rw [List.map_cons, List.takeWhile_cons_of_neg]
        · simp
        · simp only [Function.comp, attr_kind]
          rw [show r.green.kind = K.RParen from hr]; decide
    rw [htw, List.filter_map, List.map_map]
    have : pre.filter ((fun a : Attr => a.node && a.kind == K.Var) ∘ attr ∘ Red.green) = pre.filter (fun c => c.isNode && c.kind == K.Var) := by
      apply List.filter_congr
      intro c _
      simp only [Function.comp, attr_kind, attr_node, isTok_iff]
      rfl
    rw [this]
    apply List.map_congr_left
    intro c _
    simp only [Function.comp, attr_name]
    rfl

/-! ## C65 -/

theorem nearest_group {t p : Red} (h : Nearest t K.GroupGraphPattern p) : t.ancestors.find? (fun x => x.kind == K.GroupGraphPattern) = some p := by
  obtain ⟨a, b, h1, h2, h3⟩ := h
  rw [List.find?_eq_some_iff_append]
  exact ⟨by simpa using h2, a, b, h1, fun x hx => by simpa using h3 x hx⟩

/-- **C65** For every document, whether it is correct or not, and every triple or VALUES block in it there is an enclosing group; the
computation of the context always ends, without a panic and whatever the order of the hash sets. Asked for a triple, the context
consists of exactly the pieces of that group that hang together with the triple by shared variables, in the order of the document
and each once, and lists exactly the prefixes used in them. -/
theorem c65_triple (errLen : Text → Nat) (text : Text) (g errs) (hp : parseSource errLen text = some (g, errs)) (o : HashOrder)
    (t : Red) (hT : InTree g t) (hn : t.isNode = true) (hk : t.kind = K.TriplesSameSubjectPath) :
    ∃ p c, Nearest t K.GroupGraphPattern p ∧ completionContext o (.predicate t) = some (some c) ∧
      completionContext o (.object t) = some (some c) ∧ ContextOf g p t.start (HasVar t.green) c := by
  have P := parsed_of hp
  obtain ⟨p, c, h1, h2, h3, h4, h5⟩ := context_of P o hT hn (Or.inl hk) (tripleVars t)
  refine ⟨p, c, ?_, h2, h2, ?_, h4, h5⟩
  · obtain ⟨h1, a, b, h2, h3⟩ := List.find?_eq_some_iff_append.1 h1
    exact ⟨a, b, h2, by simpa using h1, fun x hx => by simpa using h3 x hx⟩
  · intro y
    rw [h3 y]
    have : (fun v => v ∈ tripleVars t) = HasVar t.green := by
      funext v; exact propext (attr_vars t.green v)
    rw [this]

/-- **C65** Asked for the `i`-th slot of a VALUES block, the context consists of the pieces that hang together with the `i`-th variable of
the block; there is none if the block has no such variable. -/
theorem c65_values (errLen : Text → Nat) (text : Text) (g errs) (hp : parseSource errLen text = some (g, errs)) (o : HashOrder)
    (d : Red) (hT : InTree g d) (hn : d.isNode = true) (hk : d.kind = K.InlineData) (vs : List Text) (hvs : ValuesVars d vs) (i : Nat) :
    (∀ v, vs[i]? = some v → ∃ p c, Nearest d K.GroupGraphPattern p ∧ completionContext o (.inlineData d i) = some (some c) ∧
      ContextOf g p d.start (fun w => w = v) c) ∧
    (vs[i]? = none → completionContext o (.inlineData d i) = some none) := by
  have P := parsed_of hp
  have hsv := shown_values hk hvs
  constructor
  · intro v hv
    obtain ⟨p, c, h1, h2, h3, h4, h5⟩ := context_of P o hT hn (Or.inr hk) [v]
    refine ⟨p, c, ?_, ?_, ?_, h4, h5⟩
    · obtain ⟨h1, a, b, h2, h3⟩ := List.find?_eq_some_iff_append.1 h1
      exact ⟨a, b, h2, by simpa using h1, fun x hx => by simpa using h3 x hx⟩
    · simp only [completionContext, hsv, hv]; exact h2
    · intro y
      rw [h3 y]
      have : (fun w => w ∈ [v]) = (fun w => w = v) := by funext w; simp
      rw [this]
  · intro hv
    simp only [completionContext, hsv, hv]

theorem strict_unique {l l' : List Red} (h : l.Pairwise (fun a b => a.start < b.start)) (h' : l'.Pairwise (fun a b => a.start < b.start))
    (e : ∀ y, y ∈ l ↔ y ∈ l') : l = l' := by
  induction h generalizing l' with
  | nil =>
    cases l' with
    | nil => rfl
    | cons a l' => exact absurd ((e a).2 (by simp)) (by simp)
  | @cons a l ha hl ih =>
    cases h' with
    | nil => exact absurd ((e a).1 (by simp)) (by simp)
    | @cons b l' hb hl' =>
      have hab : a = b := by
        rcases List.mem_cons.1 ((e a).1 (by simp)) with h | h
        · exact h
        · rcases List.mem_cons.1 ((e b).2 (by simp)) with h2 | h2
          · exact h2.symm
          · have := hb a h; have := ha b h2; omega
      subst hab
      rw [ih hl']
      intro y
      have := e y
      simp only [List.mem_cons] at this
      constructor
      · intro hy
        rcases this.1 (Or.inr hy) with rfl | h
        · exact absurd (ha _ hy) (by omega)
        · exact h
      · intro hy
        rcases this.2 (Or.inr hy) with rfl | h
        · exact absurd (hb _ hy) (by omega)
        · exact h

/-- **C65** The pieces and their order do not depend on the order in which hash sets are met. -/
theorem c65_order (errLen : Text → Nat) (text : Text) (g errs) (hp : parseSource errLen text = some (g, errs)) (o o' : HashOrder)
    (t : Red) (hT : InTree g t) (hn : t.isNode = true) (hk : t.kind = K.TriplesSameSubjectPath) (c c' : Ctx)
    (h : completionContext o (.predicate t) = some (some c)) (h' : completionContext o' (.predicate t) = some (some c')) :
    c.nodes = c'.nodes ∧ ∀ pre, pre ∈ c.prefixes ↔ pre ∈ c'.prefixes := by
  obtain ⟨p, d, h1, h2, -, h3⟩ := c65_triple errLen text g errs hp o t hT hn hk
  obtain ⟨p', d', h1', h2', -, h3'⟩ := c65_triple errLen text g errs hp o' t hT hn hk
  rw [h] at h2; cases h2
  rw [h'] at h2'; cases h2'
  have hpp : p = p' := by
    have := nearest_group h1
    rw [nearest_group h1'] at this
    cases this; rfl
  subst hpp
  have hn : c.nodes = c'.nodes := strict_unique h3.sorted h3'.sorted (fun y => (h3.nodes y).trans (h3'.nodes y).symm)
  exact ⟨hn, fun pre => by rw [h3.prefixes, h3'.prefixes, hn]⟩

/-! ## Cases -/

/-- The order of insertion. -/
def plainOrder : HashOrder := ⟨fun _ l => l, fun _ _ => List.Perm.refl _⟩

/-- `component` with a bound on the steps, for examples. -/
def componentSteps (f : Nat) (o : HashOrder) (ns : List Piece) (u : Nat) : Option (List Red) :=
  match adjacent ns.length (graphEdges ns) u with
  | none => none
  | some adj =>
    match walkSteps o ns.length (graphEdges ns) f 1 [u] (o.order 0 adj).reverse with
    | none => none
    | some visited => ((o.order 0 visited).mapM (fun i => ns[i]?)).map (List.map QNode.item)

/-- `computeContext` with a bound on the steps, for examples. -/
def contextSteps (f : Nat) (o : HashOrder) (t : Red) (vars : List Text) : Option Ctx :=
  match t.ancestors.find? (fun x => x.kind == K.GroupGraphPattern) with
  | none => none
  | some p =>
    match collectNodes p t.start with
    | none => none
    | some ps =>
      match componentSteps f o (⟨t, vars⟩ :: ps) 0 with
      | none => none
      | some ns =>
        match unwrapAll usePrefix ((sortNodes (ns.filter (otherRange t))).flatMap (fun n => n.descendants.filter (fun c => c.kind == K.PrefixedName))) with
        | none => none
        | some prefixes => some ⟨sortNodes (ns.filter (otherRange t)), prefixes⟩

theorem contextSteps_eq {f : Nat} {o : HashOrder} {t : Red} {vars : List Text} {c : Ctx} (h : contextSteps f o t vars = some c) :
    computeContext o t vars = some (some c) := by
  unfold contextSteps at h
  unfold computeContext
  split at h
  · cases h
  · next p hp =>
    simp only [hp]
    split at h
    · cases h
    · next ps hps =>
      simp only [hps]
      split at h
      · cases h
      · next ns hns =>
        have : component o (⟨t, vars⟩ :: ps) 0 = some ns := by
          unfold componentSteps at hns
          unfold component
          split at hns
          · cases hns
          · next adj ha =>
            simp only [ha]
            split at hns
            · cases hns
            · next w hw =>
              simp only [walkSteps_eq _ _ _ _ hw]
              exact hns
        simp only [this]
        split at h
        · cases h
        · next pr hpr => simp only [hpr]; cases h; rfl

/-- The last element of a kind. -/
def lastOf (k : Kind) (g : Green) : Option Red := ((Red.root g).descendants.filter (fun x => x.kind == k)).getLast?

theorem lastOf_spec {k : Kind} {g : Green} {t : Red} (h : lastOf k g = some t) : InTree g t ∧ t.isNode = true ∧ t.kind = k := by
  have h := List.mem_of_getLast? h
  obtain ⟨h, hk⟩ := List.mem_filter.1 h
  obtain ⟨h1, h2⟩ := List.mem_filter.1 h
  exact ⟨mem_descendantsT_root.1 h1, h2, by simpa using hk⟩

/-- The spans of the context of the last triple, with its prefixes. -/
def ctxOf (g : Green) : Option (List (Nat × Nat) × List Text) :=
  match lastOf K.TriplesSameSubjectPath g with
  | none => none
  | some t => (contextSteps 50 plainOrder t (tripleVars t)).map (fun c => (c.nodes.map span, c.prefixes))

theorem ctx_spans : ctxOf ctxTree = some ([(11, 21), (36, 45), (48, 59), (60, 87)], [['e', 'x']]) := by decide +kernel

/-- The spans of the context of a slot of the last VALUES block. -/
def slotOf (g : Green) (i : Nat) : Option (List (Nat × Nat)) :=
  match lastOf K.InlineData g with
  | none => none
  | some d =>
    match (shownVars d)[i]? with
    | none => none
    | some v => (contextSteps 50 plainOrder d [v]).map (fun c => c.nodes.map span)

theorem slot_spans : slotOf slotTree 0 = some [(11, 20)] ∧ slotOf slotTree 1 = some [(23, 32)] := by decide +kernel

/-- Cases: at the end of `SELECT * { ?a ex:p ?b . ?c <q> ?d { ?b <r> ?e } FILTER (?e) { SELECT ?e { ?e <x> ?z } } ?a ` the context
is the first triple, the one of the inner group (by `?b`), the filter and the sub-select (by `?e`), but not `?c <q> ?d`; at the end of
`SELECT * { ?a <p> ?b . ?c <q> ?d VALUES (?a ?c) { (<u> <v>) (<w> ` it is the second triple for the slot 1 and would be the first
for the slot 0. -/
theorem c65_cases : (∃ errs, parseSource (fun _ => 1) ctxText = some (ctxTree, errs)) ∧
    (∃ t c, InTree ctxTree t ∧ t.isNode = true ∧ t.kind = K.TriplesSameSubjectPath ∧
      completionContext plainOrder (.predicate t) = some (some c) ∧
      c.nodes.map span = [(11, 21), (36, 45), (48, 59), (60, 87)] ∧ c.prefixes = [['e', 'x']]) ∧
    (∃ errs, parseSource (fun _ => 1) slotText = some (slotTree, errs)) ∧
    (∃ d c c', InTree slotTree d ∧ d.isNode = true ∧ d.kind = K.InlineData ∧
      completionContext plainOrder (.inlineData d 0) = some (some c) ∧ c.nodes.map span = [(11, 20)] ∧
      completionContext plainOrder (.inlineData d 1) = some (some c') ∧ c'.nodes.map span = [(23, 32)]) := by
  refine ⟨⟨_, ctxTree_parse⟩, ?_, ⟨_, slotTree_parse⟩, ?_⟩
  · have h := ctx_spans
    unfold ctxOf at h
    split at h
    · cases h
    · next t ht =>
      obtain ⟨h1, h2, h3⟩ := lastOf_spec ht
      obtain ⟨c, hc, e⟩ := Option.map_eq_some_iff.1 h
      injection e with e1 e2
      exact ⟨t, c, h1, h2, h3, contextSteps_eq hc, e1, e2⟩
  · obtain ⟨h, h'⟩ := slot_spans
    unfold slotOf at h h'
    cases hd : lastOf K.InlineData slotTree with
    | none => rw [hd] at h; cases h
    | some d =>
      rw [hd] at h h'
      simp only at h h'
      obtain ⟨h1, h2, h3⟩ := lastOf_spec hd
      cases h0 : (shownVars d)[0]? with
      | none => rw [h0] at h; cases h
      | some v =>
        cases h1' : (shownVars d)[1]? with
        | none => rw [h1'] at h'; cases h'
        | some v' =>
          rw [h0] at h; rw [h1'] at h'
          simp only at h h'
          obtain ⟨c, hc, e⟩ := Option.map_eq_some_iff.1 h
          obtain ⟨c', hc', e'⟩ := Option.map_eq_some_iff.1 h'
          refine ⟨d, c, c', h1, h2, h3, ?_, e, ?_, e'⟩
          · simp only [completionContext, h0]; exact contextSteps_eq hc
          · simp only [completionContext, h1']; exact contextSteps_eq hc'

end Verif.Props
