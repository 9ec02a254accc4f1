import Verif.Text
import Verif.TextLemmas
import Verif.Grammar.TreeSpec
import Mathlib.Data.List.Induction
/-!
# Positions in a syntax tree

Models the part of rowan's `SyntaxNode`/`SyntaxToken` (cursors into an immutable green tree) the language server uses:
`text_range`, `kind`, `parent`, `ancestors`, `children`, `children_with_tokens`, `first_child`, `last_child`,
`first_child_or_token`, `last_child_or_token`, `descendants` (preorder), `token_at_offset`.

A cursor is the green element it points to with its offset and its index in its parent, and the chain of its parents.
Two cursors of one tree are the same (rowan: equal green pointer and offset) iff they have the same path of indices; rowan
would identify two different nodes only if both are empty, and there are none in parser output (C15).
-/
namespace Verif.Features
open Verif Verif.Grammar

/-- An element of a tree with its index in the parent and its byte offset. -/
structure Site where
  green : Green
  idx : Nat
  off : Nat

/-- A cursor (rowan `SyntaxElement`): the element and its parents, innermost first. -/
structure Red where
  here : Site
  up : List Site

namespace Red

/-- The cursor of the root (rowan `SyntaxNode::new_root`). -/
def root (g : Green) : Red := ⟨⟨g, 0, 0⟩, []⟩

def green (r : Red) : Green := r.here.green
def kind (r : Red) : Kind := r.here.green.kind
def text (r : Red) : Text := r.here.green.text

/-- `text_range().start()`. -/
def start (r : Red) : Nat := r.here.off

/-- `text_range().end()`. -/
def stop (r : Red) : Nat := r.here.off + blen r.text

/-- Indices from the element up to the root: the identity of a cursor. -/
def path (r : Red) : List Nat := r.here.idx :: r.up.map (·.idx)

def isNode (r : Red) : Bool :=
  match r.here.green with
  | .tok _ _ => false
  | .node _ _ => true

/-- `parent()`. -/
def parent (r : Red) : Option Red :=
  match r.up with
  | [] => none
  | s :: up => some ⟨s, up⟩

/-- The parents of an element, innermost first. -/
def chain : List Site → List Red
  | [] => []
  | s :: up => ⟨s, up⟩ :: chain up

/-- `ancestors()`: the node itself and its parents, innermost first. -/
def ancestors (r : Red) : List Red := r :: chain r.up

end Red

/-- Children of a green node with index and offset. -/
def childSites (idx off : Nat) : List Green → List Site
  | [] => []
  | g :: gs => ⟨g, idx, off⟩ :: childSites (idx + 1) (off + blen g.text) gs

namespace Red

/-- `children_with_tokens()`. -/
def childrenT (r : Red) : List Red :=
  match r.here.green with
  | .tok _ _ => []
  | .node _ cs => (childSites 0 r.here.off cs).map (⟨·, r.here :: r.up⟩)

/-- `children()`. -/
def children (r : Red) : List Red := r.childrenT.filter isNode

/-- `first_child()`. -/
def firstChild (r : Red) : Option Red := r.children.head?
/-- `last_child()`. -/
def lastChild (r : Red) : Option Red := r.children.getLast?
/-- `first_child_or_token()`. -/
def firstChildT (r : Red) : Option Red := r.childrenT.head?
/-- `last_child_or_token()`. -/
def lastChildT (r : Red) : Option Red := r.childrenT.getLast?

end Red

mutual
/-- `descendants_with_tokens()` of an element: preorder, the element first. -/
def elems (g : Green) (idx off : Nat) (up : List Site) : List Red :=
  match g with
  | .tok k t => [⟨⟨.tok k t, idx, off⟩, up⟩]
  | .node k cs => ⟨⟨.node k cs, idx, off⟩, up⟩ :: elemsL cs 0 off (⟨.node k cs, idx, off⟩ :: up)
def elemsL (cs : List Green) (idx off : Nat) (up : List Site) : List Red :=
  match cs with
  | [] => []
  | g :: gs => elems g idx off up ++ elemsL gs (idx + 1) (off + blen g.text) up
end

namespace Red

/-- `descendants_with_tokens()`. -/
def descendantsT (r : Red) : List Red := elems r.here.green r.here.idx r.here.off r.up

/-- `descendants()`: the nodes among them. -/
def descendants (r : Red) : List Red := r.descendantsT.filter isNode

/-- The tokens below an element, left to right (`first_token`, `next_token`, ...). -/
def tokens (r : Red) : List Red := r.descendantsT.filter (fun e => !e.isNode)

/-- `token_at_offset(offset).left_biased()`: the first (non-empty) token that contains the offset or ends at it. rowan's
assertion that the offset is inside the tree is not modelled here. -/
def tokenAtLeft (r : Red) (offset : Nat) : Option Red :=
  r.tokens.find? (fun t => decide (t.text ≠ []) && decide (t.start ≤ offset) && decide (offset ≤ t.stop))

end Red

/-! ## Specification: being a cursor of a tree -/

/-- The cursors of a tree. -/
inductive InTree (g : Green) : Red → Prop
  | root : InTree g (Red.root g)
  | child {r c} : InTree g r → c ∈ r.childrenT → InTree g c

/-! ## Lemmas -/

theorem Green.text_node (k : Kind) (cs : List Green) : (Green.node k cs).text = (cs.map Green.text).flatten := by
  unfold Green.text
  rw [Green.leaves]
  induction cs with
  | nil => simp [Green.leavesL]
  | cons g gs ih => simp [Green.leavesL, ih]

theorem Green.text_tok (k : Kind) (t : Text) : (Green.tok k t).text = t := by
  simp [Green.text, Green.leaves]

theorem mem_childSites {idx off : Nat} {gs : List Green} {s : Site} (h : s ∈ childSites idx off gs) :
    ∃ a b, gs = a ++ s.green :: b ∧ s.idx = idx + a.length ∧ s.off = off + blen (a.map Green.text).flatten := by
  induction gs generalizing idx off with
  | nil => cases h
  | cons g gs ih =>
    simp only [childSites, List.mem_cons] at h
    rcases h with rfl | h
    · exact ⟨[], gs, rfl, rfl, rfl⟩
    · obtain ⟨a, b, h1, h2, h3⟩ := ih h
      exact ⟨g :: a, b, by rw [h1]; rfl, by rw [h2]; simp; omega, by rw [h3]; simp [blen_append]; omega⟩

theorem childSites_append (idx off : Nat) (a b : List Green) :
    childSites idx off (a ++ b) =
      childSites idx off a ++ childSites (idx + a.length) (off + blen (a.map Green.text).flatten) b := by
  induction a generalizing idx off with
  | nil => simp [childSites]
  | cons g a ih =>
    simp only [List.cons_append, childSites, ih, List.length_cons, List.map_cons, List.flatten_cons, blen_append]
    congr 3 <;> omega

/-- A child is at the place where its text is. -/
theorem child_text {r c : Red} (h : c ∈ r.childrenT) :
    ∃ a b, r.text = a ++ c.text ++ b ∧ c.start = r.start + blen a := by
  unfold Red.childrenT at h
  cases hg : r.here.green with
  | tok k t => rw [hg] at h; cases h
  | node k cs =>
    rw [hg] at h
    simp only [List.mem_map] at h
    obtain ⟨s, hs, rfl⟩ := h
    obtain ⟨a, b, h1, _, h3⟩ := mem_childSites hs
    refine ⟨(a.map Green.text).flatten, (b.map Green.text).flatten, ?_, ?_⟩
    · show r.here.green.text = _
      rw [hg, Green.text_node, h1]
      simp [Red.text]
    · exact h3

theorem child_up {r c : Red} (h : c ∈ r.childrenT) : c.up = r.here :: r.up := by
  unfold Red.childrenT at h
  cases hg : r.here.green with
  | tok k t => rw [hg] at h; cases h
  | node k cs =>
    rw [hg] at h
    simp only [List.mem_map] at h
    obtain ⟨s, _, rfl⟩ := h
    rfl

theorem child_parent {r c : Red} (h : c ∈ r.childrenT) : c.parent = some r := by
  unfold Red.parent
  rw [child_up h]

theorem child_isNode {r c : Red} (h : c ∈ r.childrenT) : r.isNode = true := by
  unfold Red.childrenT at h
  unfold Red.isNode
  cases hg : r.here.green with
  | tok k t => rw [hg] at h; cases h
  | node k cs => rfl

theorem parent_chain {r p : Red} (h : r.parent = some p) : Red.chain r.up = p :: Red.chain p.up := by
  unfold Red.parent at h
  cases hu : r.up with
  | nil => rw [hu] at h; cases h
  | cons s up => rw [hu] at h; cases h; rfl

/-- Every cursor of a tree sits where its text is. -/
theorem InTree.text {g : Green} {r : Red} (h : InTree g r) :
    ∃ a b, g.text = a ++ r.text ++ b ∧ r.start = blen a := by
  induction h with
  | root => exact ⟨[], [], by simp [Red.text, Red.root], rfl⟩
  | @child r c _ hc ih =>
    obtain ⟨a, b, h1, h2⟩ := ih
    obtain ⟨a', b', h3, h4⟩ := child_text hc
    exact ⟨a ++ a', b' ++ b, by rw [h1, h3]; simp, by rw [h4, h2, blen_append]⟩

theorem InTree.parent {g : Green} {r p : Red} (h : InTree g r) (hp : r.parent = some p) : InTree g p ∧ r ∈ p.childrenT := by
  cases h with
  | root => cases hp
  | @child q c hq hc =>
    rw [child_parent hc] at hp
    cases hp
    exact ⟨hq, hc⟩

theorem InTree.root_of_up {g : Green} {r : Red} (h : InTree g r) (hu : r.up = []) : r = Red.root g := by
  cases h with
  | root => rfl
  | child _ hc => rw [child_up hc] at hu; cases hu

theorem InTree.chain {g : Green} {r : Red} (h : InTree g r) : ∀ x ∈ Red.chain r.up, InTree g x ∧ x.isNode = true := by
  induction h with
  | root => intro x hx; cases hx
  | @child r c hr hc ih =>
    intro x hx
    rw [parent_chain (child_parent hc)] at hx
    rcases List.mem_cons.1 hx with rfl | hx
    · exact ⟨hr, child_isNode hc⟩
    · exact ih x hx

theorem InTree.ancestors {g : Green} {r : Red} (h : InTree g r) : ∀ x ∈ r.ancestors, InTree g x := by
  intro x hx
  rcases List.mem_cons.1 hx with rfl | hx
  · exact h
  · exact (h.chain x hx).1

/-- A range of bytes inside another. -/
def Within (a b : Red) : Prop := b.start ≤ a.start ∧ a.stop ≤ b.stop

theorem child_within {r c : Red} (h : c ∈ r.childrenT) : Within c r := by
  obtain ⟨a, b, h1, h2⟩ := child_text h
  have h1 := congrArg blen h1
  simp only [blen_append] at h1
  constructor
  · omega
  · show c.start + blen c.text ≤ r.start + blen r.text
    omega

theorem InTree.anc_within {g : Green} {r : Red} (h : InTree g r) : ∀ x ∈ r.ancestors, Within r x := by
  induction h with
  | root => intro x hx; simp [Red.ancestors, Red.root, Red.chain] at hx; subst hx; exact ⟨Nat.le_refl _, Nat.le_refl _⟩
  | @child r c hr hc ih =>
    intro x hx
    have hw := child_within hc
    rcases List.mem_cons.1 hx with rfl | hx
    · exact ⟨Nat.le_refl _, Nat.le_refl _⟩
    · rw [parent_chain (child_parent hc)] at hx
      have := ih x hx
      exact ⟨by have := this.1; have := hw.1; omega, by have := this.2; have := hw.2; omega⟩

/-! ### Preorder -/

theorem elems_head (g : Green) (idx off : Nat) (up : List Site) : ∃ l, elems g idx off up = ⟨⟨g, idx, off⟩, up⟩ :: l := by
  cases g with
  | tok k t => exact ⟨[], by rw [elems]⟩
  | node k cs => exact ⟨_, by rw [elems]⟩

theorem elemsL_eq (cs : List Green) (idx off : Nat) (up : List Site) :
    elemsL cs idx off up = (childSites idx off cs).flatMap (fun s => elems s.green s.idx s.off up) := by
  induction cs generalizing idx off with
  | nil => simp [elemsL, childSites]
  | cons g gs ih => simp [elemsL, childSites, ih]

/-- The descendants of an element are itself and those of its children, in order. -/
theorem descendantsT_eq (r : Red) : r.descendantsT = r :: r.childrenT.flatMap Red.descendantsT := by
  obtain ⟨⟨g, idx, off⟩, up⟩ := r
  cases g with
  | tok k t => simp [Red.descendantsT, elems, Red.childrenT]
  | node k cs =>
    simp only [Red.descendantsT, elems, Red.childrenT, elemsL_eq]
    rw [List.flatMap_map]
    rfl

theorem descendantsT_self (r : Red) : r ∈ r.descendantsT := by rw [descendantsT_eq]; simp

theorem mem_descendantsT_of_child {r c x : Red} (hc : c ∈ r.childrenT) (hx : x ∈ c.descendantsT) : x ∈ r.descendantsT := by
  rw [descendantsT_eq]
  exact List.mem_cons_of_mem _ (List.mem_flatMap.2 ⟨c, hc, hx⟩)

/-- Size of a green tree (for induction). -/
theorem red_induction {P : Red → Prop} (h : ∀ r, (∀ c ∈ r.childrenT, P c) → P r) : ∀ r, P r := by
  intro r
  obtain ⟨⟨g, idx, off⟩, up⟩ := r
  revert idx off up
  induction g using Green.rec (motive_2 := fun cs => ∀ s ∈ cs, ∀ idx off up, P ⟨⟨s, idx, off⟩, up⟩) with
  | tok k t => intro idx off up; apply h; intro c hc; cases hc
  | node k cs ih =>
    intro idx off up
    apply h
    intro c hc
    simp only [Red.childrenT, List.mem_map] at hc
    obtain ⟨s, hs, rfl⟩ := hc
    obtain ⟨a, b, h1, _, _⟩ := mem_childSites hs
    obtain ⟨sg, si, so⟩ := s
    exact ih sg (by rw [h1]; simp) si so _
  | nil => rename_i hs _ _ _; cases hs
  | cons g gs ih1 ih2 =>
    rename_i s hs i o u
    rcases List.mem_cons.1 hs with rfl | hs
    · exact ih1 u i o
    · exact ih2 s hs i o u

theorem inTree_of_mem_descendantsT {g : Green} (r : Red) (h : InTree g r) : ∀ x ∈ r.descendantsT, InTree g x := by
  revert h
  refine red_induction (P := fun r => InTree g r → ∀ x ∈ r.descendantsT, InTree g x) ?_ r
  intro r ih hr x hx
  rw [descendantsT_eq] at hx
  rcases List.mem_cons.1 hx with rfl | hx
  · exact hr
  · obtain ⟨c, hc, hx⟩ := List.mem_flatMap.1 hx
    exact ih c hc (hr.child hc) x hx

theorem descendantsT_trans {r x y : Red} (hx : x ∈ r.descendantsT) (hy : y ∈ x.descendantsT) : y ∈ r.descendantsT := by
  revert hx
  refine red_induction (P := fun r => x ∈ r.descendantsT → y ∈ r.descendantsT) ?_ r
  intro r ih hx
  rw [descendantsT_eq] at hx
  rcases List.mem_cons.1 hx with rfl | hx
  · exact hy
  · obtain ⟨c, hc, hx⟩ := List.mem_flatMap.1 hx
    exact mem_descendantsT_of_child hc (ih c hc hx)

/-- The descendants of the root are exactly the cursors of the tree. -/
theorem mem_descendantsT_root {g : Green} {r : Red} : r ∈ (Red.root g).descendantsT ↔ InTree g r := by
  constructor
  · exact inTree_of_mem_descendantsT _ InTree.root r
  · intro h
    induction h with
    | root => exact descendantsT_self _
    | @child r c _ hc ih => exact descendantsT_trans ih (mem_descendantsT_of_child hc (descendantsT_self c))

theorem descendantsT_anc {r x : Red} (h : x ∈ r.descendantsT) : r ∈ x.ancestors := by
  revert h
  refine red_induction (P := fun r => x ∈ r.descendantsT → r ∈ x.ancestors) ?_ r
  intro r ih hx
  rw [descendantsT_eq] at hx
  rcases List.mem_cons.1 hx with rfl | hx
  · simp [Red.ancestors]
  · obtain ⟨c, hc, hx⟩ := List.mem_flatMap.1 hx
    have := ih c hc hx
    have hp := parent_chain (child_parent hc)
    -- `c` is an ancestor of `x`, `r` is the parent of `c`
    have key : ∀ (up : List Site) (z : Red), c ∈ z :: Red.chain up → z.up = up → r ∈ z :: Red.chain up := by
      intro up
      induction up with
      | nil =>
        intro z hz hu
        simp only [Red.chain, List.mem_singleton] at hz
        subst hz
        rw [child_up hc] at hu; cases hu
      | cons s up ih =>
        intro z hz hu
        rcases List.mem_cons.1 hz with rfl | hz
        · rw [← hu, hp]; simp
        · exact List.mem_cons_of_mem _ (ih ⟨s, up⟩ hz rfl)
    exact key x.up x this rfl

/-! ### Paths identify cursors -/

theorem childrenT_get {r c : Red} (h : c ∈ r.childrenT) : r.childrenT[c.here.idx]? = some c := by
  unfold Red.childrenT at h ⊢
  cases hg : r.here.green with
  | tok k t => rw [hg] at h; cases h
  | node k cs =>
    rw [hg] at h
    simp only [List.mem_map] at h
    obtain ⟨s, hs, rfl⟩ := h
    obtain ⟨a, b, h1, h2, h3⟩ := mem_childSites hs
    simp only [h1, childSites_append, List.map_append]
    have hl : ∀ (i o : Nat) (l : List Green), (childSites i o l).length = l.length := by
      intro i o l
      induction l generalizing i o with
      | nil => rfl
      | cons _ _ ih => simp [childSites, ih]
    rw [List.getElem?_append_right (by simp [hl, h2]), List.length_map, hl, h2]
    simp only [Nat.zero_add, Nat.sub_self, childSites, List.map_cons, List.getElem?_cons_zero]
    have e : s = ⟨s.green, a.length, r.here.off + blen (a.map Green.text).flatten⟩ := by
      obtain ⟨sg, si, so⟩ := s
      simp only at h2 h3
      rw [h2, h3]; simp
    rw [← e]

theorem path_child {r c : Red} (h : c ∈ r.childrenT) : c.path = c.here.idx :: r.path := by
  unfold Red.path
  rw [child_up h]
  rfl

theorem InTree.path_inj {g : Green} {r r' : Red} (h : InTree g r) (h' : InTree g r') (hp : r.path = r'.path) : r = r' := by
  induction h generalizing r' with
  | root =>
    cases h' with
    | root => rfl
    | child h1 h2 => rw [path_child h2] at hp; simp [Red.path, Red.root] at hp
  | @child p c hp' hc ih =>
    cases h' with
    | root => rw [path_child hc] at hp; simp [Red.path, Red.root] at hp
    | @child p2 c2 hp2 hc2 =>
      rw [path_child hc, path_child hc2] at hp
      injection hp with e1 e2
      have := ih hp2 e2
      subst this
      have a1 := childrenT_get hc
      have a2 := childrenT_get hc2
      rw [e1, a2] at a1
      injection a1 with a1
      exact a1.symm

end Verif.Features
