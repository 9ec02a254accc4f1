import Verif.Features.Occurrences
import Mathlib.Data.List.Forall2
/-!
# Correctness of the variable analysis
-/
namespace Verif.Features
open Verif Verif.Grammar Relation

/-! ## Chains of parents -/

theorem chain_suffix {up : List Site} {x : Red} (h : x ∈ Red.chain up) :
    ∃ pre, Red.chain up = pre ++ x.ancestors := by
  induction up with
  | nil => cases h
  | cons s up ih =>
    rcases List.mem_cons.1 h with rfl | h
    · exact ⟨[], rfl⟩
    · obtain ⟨pre, hp⟩ := ih h
      exact ⟨⟨s, up⟩ :: pre, by rw [Red.chain, hp]; rfl⟩

theorem ancestors_suffix {r x : Red} (h : x ∈ r.ancestors) : ∃ pre, r.ancestors = pre ++ x.ancestors := by
  rcases List.mem_cons.1 h with rfl | h
  · exact ⟨[], rfl⟩
  · obtain ⟨pre, hp⟩ := chain_suffix h
    exact ⟨r :: pre, by unfold Red.ancestors; rw [hp]; rfl⟩

theorem ancestors_trans {r x y : Red} (h : x ∈ r.ancestors) (h' : y ∈ x.ancestors) : y ∈ r.ancestors := by
  obtain ⟨pre, hp⟩ := ancestors_suffix h
  rw [hp]; exact List.mem_append_right _ h'

/-- The sub-selects above a chain, from the innermost on. -/
theorem chain_subs (up : List Site) :
    ((Red.chain up).find? Red.isSub = none ∧ (Red.chain up).filter Red.isSub = []) ∨
    ∃ e, (Red.chain up).find? Red.isSub = some e ∧ (Red.chain up).filter Red.isSub = e.ancestors.filter Red.isSub := by
  induction up with
  | nil => left; exact ⟨rfl, rfl⟩
  | cons s up ih =>
    by_cases hs : Red.isSub ⟨s, up⟩ = true
    · right
      refine ⟨⟨s, up⟩, ?_, ?_⟩
      · rw [Red.chain, List.find?_cons_of_pos hs]
      · rfl
    · rw [Red.chain, List.find?_cons_of_neg hs, List.filter_cons_of_neg hs]
      exact ih

theorem InTree.ancestors_last {g : Green} {r : Red} (h : InTree g r) : r.top = Red.root g := by
  induction h with
  | root => rfl
  | @child r c hr hc ih =>
    unfold Red.top at ih ⊢
    rw [parent_chain (child_parent hc)]
    cases hch : Red.chain r.up with
    | nil => rw [hch] at ih; simpa using ih
    | cons x l =>
      rw [hch] at ih
      rw [List.getLastD_cons, List.getLastD_cons] at *
      exact ih

/-! ## Regions -/

theorem regionId_some {g : Green} {regions : List Red} {r : Red} {i : Nat} (ht : ∀ x ∈ regions, InTree g x)
    (hr : InTree g r) (h : regionId regions r = some i) : regions[i]? = some r := by
  unfold regionId at h
  rw [List.findIdx?_eq_some_iff_getElem] at h
  obtain ⟨hi, hp, _⟩ := h
  rw [List.getElem?_eq_getElem hi]
  simp only [beq_iff_eq] at hp
  rw [(ht _ (List.getElem_mem hi)).path_inj hr hp]

theorem regionId_none {regions : List Red} {r : Red} (h : regionId regions r = none) : ∀ x ∈ regions, x.path ≠ r.path := by
  unfold regionId at h
  rw [List.findIdx?_eq_none_iff] at h
  intro x hx
  have := h x hx
  simpa using this

theorem regionId_mem {g : Green} {regions : List Red} {r : Red} (ht : ∀ x ∈ regions, InTree g x) (h : r ∈ regions) :
    ∃ i, regionId regions r = some i ∧ regions[i]? = some r := by
  cases hi : regionId regions r with
  | none => exact absurd rfl (regionId_none hi r h)
  | some i => exact ⟨i, rfl, regionId_some ht (ht r h) hi⟩

/-- What registering keeps. -/
structure RegInv (g : Green) (regions : List Red) : Prop where
  head : regions[0]? = some (Red.root g)
  tree : ∀ r ∈ regions, InTree g r
  sub : ∀ (i : Nat) r, regions[i]? = some r → i ≠ 0 → r.isSub = true
  nodup : regions.Pairwise (fun a b => a.path ≠ b.path)

theorem RegInv.idx_inj {g : Green} {regions : List Red} (h : RegInv g regions) {i j : Nat} {r : Red}
    (hi : regions[i]? = some r) (hj : regions[j]? = some r) : i = j := by
  have hil : i < regions.length := by
    by_contra hc; rw [List.getElem?_eq_none (by omega)] at hi; cases hi
  have hjl : j < regions.length := by
    by_contra hc; rw [List.getElem?_eq_none (by omega)] at hj; cases hj
  rw [List.getElem?_eq_getElem hil] at hi
  rw [List.getElem?_eq_getElem hjl] at hj
  have hp := List.pairwise_iff_getElem.1 h.nodup
  by_contra hne
  rcases Nat.lt_or_gt_of_ne hne with hlt | hlt
  · have := hp i j hil hjl hlt
    injection hi with hi; injection hj with hj
    rw [hi, hj] at this; exact this rfl
  · have := hp j i hjl hil hlt
    injection hi with hi; injection hj with hj
    rw [hi, hj] at this; exact this rfl

theorem registerLoop_spec {g : Green} (bs : List Red) (regions : List Red) (inn : Option Nat) (h : RegInv g regions)
    (hb : ∀ b ∈ bs, InTree g b ∧ b.isSub = true) :
    ∃ l, (registerLoop bs regions inn).1 = regions ++ l ∧ (∀ x ∈ l, x ∈ bs) ∧ RegInv g (regions ++ l) ∧
      (∀ b ∈ bs, b ∈ regions ++ l) ∧
      (registerLoop bs regions inn).2 = inn.or (bs.head?.bind (regionId (regions ++ l))) := by
  induction bs generalizing regions inn with
  | nil => exact ⟨[], by simp [registerLoop], by simp, by simpa using h, by simp, by simp [registerLoop]⟩
  | cons b bs ih =>
    have hbb := hb b (by simp)
    unfold registerLoop
    cases hid : regionId regions b with
    | some id =>
      dsimp only
      have hat := regionId_some h.tree hbb.1 hid
      obtain ⟨l, h1, h2, h3, h4, h5⟩ := ih regions (inn.or (some id)) h (fun x hx => hb x (by simp [hx]))
      refine ⟨l, h1, fun x hx => List.mem_cons_of_mem _ (h2 x hx), h3, ?_, ?_⟩
      · intro x hx
        rcases List.mem_cons.1 hx with rfl | hx
        · exact List.mem_append_left _ (List.mem_of_getElem? hat)
        · exact h4 x hx
      · rw [h5]
        have hbm : b ∈ regions ++ l := List.mem_append_left _ (List.mem_of_getElem? hat)
        obtain ⟨i, e1, e2⟩ := regionId_mem h3.tree hbm
        have hil : id < regions.length := by
          by_contra hc; rw [List.getElem?_eq_none (by omega)] at hat; cases hat
        have : i = id := h3.idx_inj e2 (by rw [List.getElem?_append_left hil]; exact hat)
        simp only [List.head?_cons, Option.bind_some, e1, this]
        cases inn <;> rfl
    | none =>
      dsimp only
      have hnew : RegInv g (regions ++ [b]) := by
        refine ⟨?_, ?_, ?_, ?_⟩
        · have : 0 < regions.length := by
            by_contra hc
            have := h.head
            rw [List.getElem?_eq_none (by omega)] at this; cases this
          rw [List.getElem?_append_left this]; exact h.head
        · intro r hr
          rcases List.mem_append.1 hr with hr | hr
          · exact h.tree r hr
          · simp only [List.mem_singleton] at hr; subst hr; exact hbb.1
        · intro i r hi hne
          by_cases hl : i < regions.length
          · rw [List.getElem?_append_left hl] at hi; exact h.sub i r hi hne
          · rw [List.getElem?_append_right (by omega)] at hi
            have := List.mem_of_getElem? hi
            simp only [List.mem_singleton] at this; subst this; exact hbb.2
        · rw [List.pairwise_append]
          refine ⟨h.nodup, List.pairwise_singleton _ _, ?_⟩
          intro x hx y hy
          simp only [List.mem_singleton] at hy; subst hy
          exact regionId_none hid x hx
      obtain ⟨l, h1, h2, h3, h4, h5⟩ := ih (regions ++ [b]) (inn.or (some regions.length)) hnew
        (fun x hx => hb x (by simp [hx]))
      rw [List.append_assoc] at h1 h3 h4 h5
      refine ⟨[b] ++ l, h1, ?_, h3, ?_, ?_⟩
      · intro x hx
        rcases List.mem_append.1 hx with hx | hx
        · simp only [List.mem_singleton] at hx; subst hx; simp
        · exact List.mem_cons_of_mem _ (h2 x hx)
      · intro x hx
        rcases List.mem_cons.1 hx with rfl | hx
        · simp
        · exact h4 x hx
      · rw [h5]
        have hbm : b ∈ regions ++ ([b] ++ l) := by simp
        obtain ⟨i, e1, e2⟩ := regionId_mem h3.tree hbm
        have : i = regions.length := h3.idx_inj e2 (by
          rw [List.getElem?_append_right (Nat.le_refl _)]; simp)
        simp only [List.head?_cons, Option.bind_some, e1, this]
        cases inn <;> rfl

/-- All sub-selects around a region are regions. -/
def SubClosed (regions : List Red) : Prop := ∀ r ∈ regions, ∀ x ∈ Red.chain r.up, x.isSub = true → x ∈ regions

/-- The id found for an element is that of its scope. -/
def IdOf (g : Green) (regions : List Red) (v : Red) (i : Nat) : Prop :=
  regions[i]? = some ((scopeOf v).getD (Red.root g))

theorem registerRegions_spec {g : Green} (v : Red) (regions : List Red) (h : RegInv g regions) (hc : SubClosed regions)
    (hv : InTree g v) :
    ∃ l, (registerRegions v regions).1 = regions ++ l ∧ RegInv g (regions ++ l) ∧ SubClosed (regions ++ l) ∧
      IdOf g (regions ++ l) v (registerRegions v regions).2 := by
  have hb : ∀ b ∈ v.ancestors.filter Red.isSub, InTree g b ∧ b.isSub = true := by
    intro b hb
    rw [List.mem_filter] at hb
    exact ⟨hv.ancestors b hb.1, hb.2⟩
  obtain ⟨l, h1, h2, h3, h4, h5⟩ := registerLoop_spec _ regions none h hb
  refine ⟨l, h1, h3, ?_, ?_⟩
  · intro r hr x hx hs
    rcases List.mem_append.1 hr with hr | hr
    · exact List.mem_append_left _ (hc r hr x hx hs)
    · have hr' := h2 r hr
      rw [List.mem_filter] at hr'
      apply h4
      rw [List.mem_filter]
      exact ⟨ancestors_trans hr'.1 (List.mem_cons_of_mem _ hx), hs⟩
  · unfold IdOf registerRegions
    dsimp only
    rw [h5]
    unfold scopeOf
    rw [← List.head?_filter]
    cases hh : (v.ancestors.filter Red.isSub).head? with
    | none => exact h3.head
    | some s =>
      obtain ⟨i, e1, e2⟩ := regionId_mem h3.tree (h4 s (List.mem_of_head? hh))
      simp [e1, e2]

theorem registerAll_spec {g : Green} (vs : List Red) (regions : List Red) (h : RegInv g regions) (hc : SubClosed regions)
    (hv : ∀ v ∈ vs, InTree g v) :
    ∃ l, (registerAll vs regions).1 = regions ++ l ∧ RegInv g (regions ++ l) ∧ SubClosed (regions ++ l) ∧
      List.Forall₂ (IdOf g (regions ++ l)) vs (registerAll vs regions).2 := by
  induction vs generalizing regions with
  | nil => exact ⟨[], by simp [registerAll], by simpa using h, by simpa using hc, .nil⟩
  | cons v vs ih =>
    obtain ⟨l, h1, h2, h3, h4⟩ := registerRegions_spec v regions h hc (hv v (by simp))
    obtain ⟨l', k1, k2, k3, k4⟩ := ih (regions ++ l) h2 h3 (fun x hx => hv x (by simp [hx]))
    unfold registerAll
    dsimp only
    rw [h1]
    rw [List.append_assoc] at k1 k2 k3 k4
    refine ⟨l ++ l', k1, k2, k3, .cons ?_ k4⟩
    unfold IdOf at h4 ⊢
    rw [← List.append_assoc, List.getElem?_append_left]
    · exact h4
    · by_contra hcc
      rw [List.getElem?_eq_none (by omega)] at h4; cases h4

/-! ## Connectivity -/

/-- The scope with the given id. -/
def scopeAt (regions : List Red) (i : Nat) : Option Red :=
  match regions[i]? with
  | none => none
  | some r => if r.isSub then some r else none

theorem enclosing_mem {s e : Red} (h : enclosing s = some e) : e ∈ Red.chain s.up ∧ e.isSub = true :=
  ⟨List.mem_of_find?_eq_some h, List.find?_some h⟩

theorem mem_regionEdges {name : Text} {regions : List Red} {i j : Nat} :
    (i, j) ∈ regionEdges name regions ↔ ∃ r, regions[i]? = some r ∧ (r.kind = K.SelectQuery ∨ r.kind = K.SubSelect) ∧
      projects r.green name = true ∧ j = parentRegionId regions r := by
  unfold regionEdges
  rw [List.mem_filterMap]
  constructor
  · rintro ⟨⟨r, k⟩, hm, hp⟩
    rw [List.mem_zipIdx_iff_getElem?] at hm
    dsimp only at hp hm
    split at hp
    · rename_i hc
      injection hp with hp
      injection hp with h1 h2
      subst h1
      exact ⟨r, hm, hc.1, hc.2, h2.symm⟩
    · cases hp
  · rintro ⟨r, h1, h2, h3, h4⟩
    refine ⟨(r, i), ?_, ?_⟩
    · rw [List.mem_zipIdx_iff_getElem?]; exact h1
    · dsimp only
      rw [if_pos ⟨h2, h3⟩, h4]

section
variable {g : Green} {regions : List Red} {name : Text} (h : RegInv g regions) (hc : SubClosed regions)
  (hroot : g.kind ≠ K.SubSelect ∧ g.kind ≠ K.SelectQuery)
include h hc hroot

omit hc hroot in
theorem parentRegion_spec {r : Red} (hr : r ∈ regions) (hc : SubClosed regions) :
    regions[parentRegionId regions r]? = some ((enclosing r).getD (Red.root g)) := by
  unfold parentRegionId
  show regions[match enclosing r with | some node => (regionId regions node).getD 0 | none => 0]? = _
  cases he : enclosing r with
  | none => exact h.head
  | some e =>
    have := enclosing_mem he
    obtain ⟨i, e1, e2⟩ := regionId_mem h.tree (hc r hr e this.1 this.2)
    dsimp only
    rw [e1]; exact e2

omit hc in
theorem scopeAt_root : scopeAt regions 0 = none := by
  unfold scopeAt
  rw [h.head]
  dsimp only
  have : (Red.root g).isSub = false := by
    unfold Red.isSub
    have : (Red.root g).kind = g.kind := rfl
    rw [this]
    simpa using hroot.1
  rw [this]; rfl

omit hc in
/-- ids and scopes correspond. -/
theorem scopeAt_of {i : Nat} {s : Option Red} (hs : ∀ x, s = some x → x.isSub = true)
    (hi : regions[i]? = some (s.getD (Red.root g))) : scopeAt regions i = s := by
  cases s with
  | none =>
    have : i = 0 := h.idx_inj hi h.head
    subst this
    exact scopeAt_root h hroot
  | some x =>
    unfold scopeAt
    rw [hi]
    simp [hs x rfl]

theorem edge_shares {i j : Nat} (he : (i, j) ∈ regionEdges name regions) :
    Shares g name (scopeAt regions i) (scopeAt regions j) := by
  obtain ⟨r, h1, h2, h3, h4⟩ := mem_regionEdges.1 he
  have hm := List.mem_of_getElem? h1
  have hsub : r.isSub = true := by
    by_cases hi : i = 0
    · subst hi
      rw [h.head] at h1
      injection h1 with h1
      subst h1
      rcases h2 with h2 | h2
      · exact absurd h2 hroot.2
      · exact absurd h2 hroot.1
    · exact h.sub i r h1 hi
  refine ⟨r, h.tree r hm, hsub, (projects_iff _ _).1 h3, ?_, ?_⟩
  · unfold scopeAt; rw [h1]; simp [hsub]
  · subst h4
    exact scopeAt_of h hroot (fun x hx => (enclosing_mem hx).2) (parentRegion_spec h hm hc)

theorem connected_shares {i j : Nat} (he : EqvGen (fun a b => (a, b) ∈ regionEdges name regions) i j) :
    EqvGen (Shares g name) (scopeAt regions i) (scopeAt regions j) := by
  induction he with
  | rel a b hab => exact .rel _ _ (edge_shares h hc hroot hab)
  | refl => exact .refl _
  | symm _ _ _ ih => exact .symm _ _ ih
  | trans _ _ _ _ _ ih1 ih2 => exact .trans _ _ _ ih1 ih2

end

/-- The id of the innermost registered scope around a scope. -/
noncomputable def nearest (regions : List Red) : Option Red → Nat
  | none => 0
  | some s =>
    match (s.ancestors.filter Red.isSub).find? (fun x => (regionId regions x).isSome) with
    | none => 0
    | some r => (regionId regions r).getD 0

section
variable {g : Green} {regions : List Red} {name : Text} (h : RegInv g regions) (hc : SubClosed regions)
include h hc

omit hc in
theorem nearest_registered {i : Nat} {s : Option Red} (hs : ∀ x, s = some x → x.isSub = true)
    (hi : regions[i]? = some (s.getD (Red.root g))) : nearest regions s = i := by
  cases s with
  | none => exact (h.idx_inj hi h.head).symm
  | some x =>
    obtain ⟨k, e1, e2⟩ := regionId_mem h.tree (List.mem_of_getElem? hi)
    have : k = i := h.idx_inj e2 hi
    simp only [Option.getD_some] at e1
    unfold nearest Red.ancestors
    dsimp only
    rw [List.filter_cons_of_pos (hs x rfl), List.find?_cons_of_pos (by simp [e1])]
    simp [e1, this]

theorem shares_nearest {a b : Option Red} (hs : Shares g name a b) :
    EqvGen (fun a b => (a, b) ∈ regionEdges name regions) (nearest regions a) (nearest regions b) := by
  obtain ⟨s, h1, h2, h3, rfl, rfl⟩ := hs
  by_cases hm : s ∈ regions
  · obtain ⟨i, _, e2⟩ := regionId_mem h.tree hm
    have n1 : nearest regions (some s) = i :=
      nearest_registered h (fun x hx => by cases hx; exact h2) (by simpa using e2)
    have n2 : nearest regions (enclosing s) = parentRegionId regions s :=
      nearest_registered h (fun x hx => (enclosing_mem hx).2) (parentRegion_spec h hm hc)
    rw [n1, n2]
    exact .rel _ _ (mem_regionEdges.2 ⟨s, e2, .inr (by simpa [Red.isSub] using h2), (projects_iff _ _).2 h3, rfl⟩)
  · have hno : regionId regions s = none := by
      cases hid : regionId regions s with
      | none => rfl
      | some i => exact absurd (List.mem_of_getElem? (regionId_some h.tree h1 hid)) hm
    have e : nearest regions (some s) = nearest regions (enclosing s) := by
      show (match (s.ancestors.filter Red.isSub).find? (fun x => (regionId regions x).isSome) with
        | none => 0 | some r => (regionId regions r).getD 0) = _
      unfold Red.ancestors
      rw [List.filter_cons_of_pos h2, List.find?_cons_of_neg (by simp [hno])]
      rcases chain_subs s.up with ⟨c1, c2⟩ | ⟨e, c1, c2⟩
      · rw [c2]
        show 0 = nearest regions ((Red.chain s.up).find? Red.isSub)
        rw [c1]; rfl
      · rw [c2]
        show _ = nearest regions ((Red.chain s.up).find? Red.isSub)
        rw [c1]; rfl
    rw [e]; exact .refl _

theorem shares_connected {a b : Option Red} (hs : EqvGen (Shares g name) a b) :
    EqvGen (fun a b => (a, b) ∈ regionEdges name regions) (nearest regions a) (nearest regions b) := by
  induction hs with
  | rel a b hab => exact shares_nearest h hc hab
  | refl => exact .refl _
  | symm _ _ _ ih => exact .symm _ _ ih
  | trans _ _ _ _ _ ih1 ih2 => exact .trans _ _ _ ih1 ih2

end

/-! ## The whole function -/

theorem filterComponent_spec {rep d m} (component : Nat) (l : List (Red × Nat)) (parent : List Nat)
    (h : UfInv parent rep d m) (hm : m ≤ parent.length) (hl : ∀ p ∈ l, p.2 < parent.length) :
    filterComponent component parent l = some ((l.filter (fun p => decide (rep p.2 = component))).map (·.1)) := by
  induction l generalizing parent with
  | nil => rfl
  | cons p l ih =>
    obtain ⟨v, r⟩ := p
    unfold filterComponent
    obtain ⟨p', e1, e2, e3⟩ := ufFind_spec h (hl (v, r) (by simp)) hm
    rw [e1]
    dsimp only
    rw [ih p' e2 (by omega) (fun p hp => by rw [e3]; exact hl p (by simp [hp]))]
    by_cases hr : rep r = component
    · simp [hr]
    · simp [hr]

theorem scopeOf_sub {v x : Red} (h : scopeOf v = some x) : x.isSub = true := List.find?_some h

theorem regionEdges_length (name : Text) (regions : List Red) : (regionEdges name regions).length ≤ regions.length := by
  unfold regionEdges
  refine Nat.le_trans (List.length_filterMap_le _ _) ?_
  simp

/-- The analysis does not panic and returns, in document order, exactly the occurrences of the same variable. -/
theorem findOccurrences_spec {g : Green} {t : Red} (hroot : g.kind ≠ K.SubSelect ∧ g.kind ≠ K.SelectQuery)
    (ht : Occurs g t) :
    ∃ p : Red → Bool, findOccurrences t = some ((Red.root g).descendants.filter p) ∧
      ∀ v ∈ (Red.root g).descendants, p v = true ↔ (Occurs g v ∧ SameVariable g v t) := by
  classical
  unfold findOccurrences
  simp only [ht.1.ancestors_last]
  set name := t.varName with hname
  set occ := (Red.root g).descendants.filter (fun v => v.isVar && v.varName == name) with hocc
  have hoccTree : ∀ v ∈ occ, InTree g v := by
    intro v hv
    rw [hocc, List.mem_filter] at hv
    have := hv.1
    unfold Red.descendants at this
    rw [List.mem_filter] at this
    exact mem_descendantsT_root.1 this.1
  have hinv0 : RegInv g [Red.root g] := by
    refine ⟨rfl, ?_, ?_, List.pairwise_singleton _ _⟩
    · intro r hr; simp only [List.mem_singleton] at hr; subst hr; exact .root
    · intro i r hi hne
      rw [List.getElem?_eq_none (by simp; omega)] at hi; cases hi
  have hcl0 : SubClosed [Red.root g] := by
    intro r hr x hx; simp only [List.mem_singleton] at hr; subst hr; cases hx
  obtain ⟨l, r1, r2, r3, r4⟩ := registerAll_spec occ [Red.root g] hinv0 hcl0 hoccTree
  rw [r1]
  set regions := [Red.root g] ++ l with hregions
  set ids := (registerAll occ [Red.root g]).2 with hids
  have hb : ∀ e ∈ regionEdges name regions, e.1 < regions.length ∧ e.2 < regions.length := by
    rintro ⟨i, j⟩ he
    obtain ⟨r, h1, _, _, h4⟩ := mem_regionEdges.1 he
    refine ⟨?_, ?_⟩
    · by_contra hcc; rw [List.getElem?_eq_none (by simpa using hcc)] at h1; cases h1
    · have := parentRegion_spec r2 (List.mem_of_getElem? h1) r3
      rw [← h4] at this
      by_contra hcc; rw [List.getElem?_eq_none (by simpa using hcc)] at this; cases this
  obtain ⟨parent, rep, d, u1, u2, u3, u4⟩ := uf_correct regions.length (regionEdges name regions)
    (regionEdges_length _ _) hb
  rw [u1]
  dsimp only
  -- the trigger is an occurrence
  have htocc : t ∈ occ := by
    rw [hocc, List.mem_filter]
    refine ⟨?_, by simp [ht.2, hname]⟩
    unfold Red.descendants
    rw [List.mem_filter]
    refine ⟨mem_descendantsT_root.2 ht.1, ?_⟩
    have := ht.2
    unfold Red.isVar at this
    simp only [Bool.and_eq_true] at this
    exact this.1
  cases hidx : occ.findIdx? (fun v => v.path == t.path) with
  | none =>
    rw [List.findIdx?_eq_none_iff] at hidx
    have := hidx t htocc
    simp at this
  | some index =>
    dsimp only
    rw [List.findIdx?_eq_some_iff_getElem] at hidx
    obtain ⟨hil, hip, _⟩ := hidx
    have hit : occ[index] = t := by
      simp only [beq_iff_eq] at hip
      exact (hoccTree _ (List.getElem_mem hil)).path_inj ht.1 hip
    have hlen : occ.length = ids.length := r4.length_eq
    have hil' : index < ids.length := by omega
    rw [List.getElem?_eq_getElem hil']
    dsimp only
    have hidAll : ∀ (k : Nat) (hk : k < occ.length) (hk' : k < ids.length), IdOf g regions occ[k] ids[k] :=
      fun k hk hk' => (List.forall₂_iff_get.1 r4).2 k hk hk'
    have hlt : ∀ v i, IdOf g regions v i → i < regions.length := by
      intro v i hi
      by_contra hcc
      unfold IdOf at hi
      rw [List.getElem?_eq_none (by omega)] at hi; cases hi
    have hidt := hidAll index hil hil'
    rw [hit] at hidt
    obtain ⟨p', f1, f2, f3⟩ := ufFind_spec (i := ids[index]) u3 (by rw [u2]; exact hlt _ _ hidt) (by omega)
    rw [f1]
    dsimp only
    have hz : ∀ p ∈ occ.zip ids, IdOf g regions p.1 p.2 := by
      intro p hp
      obtain ⟨k, hk, e⟩ := List.mem_iff_getElem.1 hp
      simp only [List.length_zip] at hk
      rw [List.getElem_zip] at e
      rw [← e]
      exact hidAll k (by omega) (by omega)
    rw [filterComponent_spec _ _ p' f2 (by omega) (by
      intro p hp; rw [f3, u2]; exact hlt _ _ (hz p hp))]
    -- connectivity
    have conn : ∀ v i, IdOf g regions v i → ((rep i = rep ids[index]) ↔ EqvGen (Shares g name) (scopeOf v) (scopeOf t)) := by
      intro v i hi
      rw [u4]
      constructor
      · intro he
        have := connected_shares r2 r3 hroot he
        rw [scopeAt_of r2 hroot (fun x hx => scopeOf_sub hx) hi,
          scopeAt_of r2 hroot (fun x hx => scopeOf_sub hx) hidt] at this
        exact this
      · intro he
        have := shares_connected r2 r3 he
        rw [nearest_registered r2 (fun x hx => scopeOf_sub hx) hi,
          nearest_registered r2 (fun x hx => scopeOf_sub hx) hidt] at this
        exact this
    refine ⟨fun v => (v.isVar && v.varName == name) &&
      decide (EqvGen (Shares g name) (scopeOf v) (scopeOf t)), ?_, ?_⟩
    · congr 1
      have hfil : (Red.root g).descendants.filter (fun v => (v.isVar && v.varName == name) &&
          decide (EqvGen (Shares g name) (scopeOf v) (scopeOf t))) =
          occ.filter (fun v => decide (EqvGen (Shares g name) (scopeOf v) (scopeOf t))) := by
        rw [hocc, List.filter_filter]
        apply List.filter_congr
        intro x _
        exact Bool.and_comm _ _
      rw [hfil]
      have gen : ∀ (o : List Red) (k : List Nat), List.Forall₂ (IdOf g regions) o k →
          ((o.zip k).filter (fun p => decide (rep p.2 = rep ids[index]))).map (·.1) =
            o.filter (fun v => decide (EqvGen (Shares g name) (scopeOf v) (scopeOf t))) := by
        intro o k hok
        induction hok with
        | nil => rfl
        | @cons v i o k hvi _ ih =>
          have := conn v i hvi
          simp only [List.zip_cons_cons, List.filter_cons]
          by_cases hh : rep i = rep ids[index]
          · rw [if_pos (by simpa using hh), if_pos (by simpa using this.1 hh), List.map_cons, ih]
          · rw [if_neg (by simpa using hh), if_neg (by simpa using fun e => hh (this.2 e)), ih]
      exact gen occ ids r4
    · intro v hv
      have hvt : InTree g v := by
        unfold Red.descendants at hv
        rw [List.mem_filter] at hv
        exact mem_descendantsT_root.1 hv.1
      simp only [Bool.and_eq_true, decide_eq_true_eq, beq_iff_eq]
      constructor
      · rintro ⟨⟨a, b⟩, c⟩
        exact ⟨⟨hvt, a⟩, b, c⟩
      · rintro ⟨⟨_, a⟩, b, c⟩
        exact ⟨⟨a, b⟩, c⟩

end Verif.Features
