import Verif.Format.Lexical
import Verif.Format.Walker
import Verif.Props.Diagnostics
import Verif.Features.TokenRow
/-!
# Elements of the tree and pieces of the document
-/
namespace Verif.Format
open Verif Verif.Grammar Verif.Lexer Verif.Features Verif.Props

/-! ## Lists of pieces -/

/-- Begins with trivia. -/
def begins (l : Pieces) : Bool :=
  match l.head? with
  | some x => triviaKind x.1
  | none => false

/-- Ends with trivia. -/
def ends (l : Pieces) : Bool :=
  match l.getLast? with
  | some x => triviaKind x.1
  | none => false

theorem begins_append {a b : Pieces} (h : a ≠ []) : begins (a ++ b) = begins a := by
  cases a with
  | nil => exact absurd rfl h
  | cons x a => rfl

theorem ends_append {a b : Pieces} (h : b ≠ []) : ends (a ++ b) = ends b := by
  unfold ends
  rw [List.getLast?_append_of_ne_nil _ h]

/-- The places of edits, for lists. -/
def ShapeL (A M B : Pieces) : Prop :=
  (M = [] ∧ (ends A = false ∨ begins B = false)) ∨ (∃ x, M = [x] ∧ triviaKind x.1 = false) ∨
  (M ≠ [] ∧ (∀ x ∈ M, triviaKind x.1 = true) ∧ ends A = false ∧ begins B = false)

theorem tr_at (A B : Pieces) : tr (A ++ B) A.length = begins B := by
  unfold tr begins
  rw [List.getElem?_append_right (Nat.le_refl _), Nat.sub_self, ← List.head?_eq_getElem?]
  cases B.head? <;> rfl

theorem tr_before (A B : Pieces) (h : 0 < A.length) : tr (A ++ B) (A.length - 1) = ends A := by
  unfold tr ends
  rw [List.getElem?_append_left (by omega), ← List.getLast?_eq_getElem?]
  cases A.getLast? <;> rfl

theorem fits_split {P A M B : Pieces} {e : SEdit} (hP : P = A ++ (M ++ B)) (h1 : e.start = blen (flat A))
    (h2 : e.stop = blen (flat A) + blen (flat M)) (h3 : Laid Firm (firmOf M) e.text) (h4 : ShapeL A M B) :
    Fits P e A.length (A.length + M.length) ∧ slice P A.length (A.length + M.length) = M := by
  have hs : slice P A.length (A.length + M.length) = M := by
    unfold slice
    rw [hP, ← List.append_assoc, List.take_left' (by simp), List.drop_left' rfl]
  have ht : P.take A.length = A := by rw [hP, List.take_left' rfl]
  refine ⟨⟨by omega, by rw [hP]; simp, by rw [h1]; unfold off; rw [ht], ?_, by rw [hs]; exact h3, ?_⟩, hs⟩
  · rw [h2, off_add P (show A.length ≤ A.length + M.length by omega), hs]
    unfold off; rw [ht]
  · rw [hP]
    rcases h4 with ⟨hM, h⟩ | ⟨x, hM, h⟩ | ⟨hM, h5, h6, h7⟩
    · left
      subst hM
      refine ⟨by simp, ?_⟩
      rintro ⟨hp, ha, hb⟩
      rw [tr_before _ _ hp] at ha
      rw [tr_at] at hb
      rcases h with h | h
      · rw [h] at ha; cases ha
      · rw [List.nil_append, h] at hb; cases hb
    · right; left
      subst hM
      refine ⟨rfl, ?_⟩
      rw [tr_at]; exact h
    · right; right
      have hl : 0 < M.length := List.length_pos_iff.2 hM
      refine ⟨by omega, ?_, ?_, ?_⟩
      · intro k hk1 hk2
        unfold tr
        rw [List.getElem?_append_right hk1, List.getElem?_append_left (by omega), List.getElem?_eq_getElem (by omega)]
        exact h5 _ (List.getElem_mem _)
      · by_cases h0 : A.length = 0
        · exact .inl h0
        · exact .inr (by rw [tr_before _ _ (by omega)]; exact h6)
      · rw [← List.append_assoc, ← List.length_append, tr_at]; exact h7

/-! ## Pieces of leaves -/

/-- The leaves of the document, split into pieces. -/
def PL (σ : Bool) (l : List (Kind × Text)) : Pieces := l.flatMap (pieces σ)

theorem PL_append (a b : List (Kind × Text)) : PL σ (a ++ b) = PL σ a ++ PL σ b := by unfold PL; rw [List.flatMap_append]

/-- Leaves the lexer produced. -/
def Good (l : List (Kind × Text)) : Prop := ∀ p ∈ l, (p.1 ≠ K.Error → HasRule p) ∧ p.2 ≠ []

theorem Good.left {a b : List (Kind × Text)} (h : Good (a ++ b)) : Good a := fun p hp => h p (List.mem_append_left _ hp)
theorem Good.right {a b : List (Kind × Text)} (h : Good (a ++ b)) : Good b := fun p hp => h p (List.mem_append_right _ hp)

theorem good_of {text g} (P : Parsed text g) : Good g.leaves := fun p hp => ⟨P.lexed p hp, P.leaf_nonempty p hp⟩

theorem flat_PL {l : List (Kind × Text)} (h : Good l) : flat (PL σ l) = flat l := by
  induction l with
  | nil => rfl
  | cons p l ih =>
    have h1 := pieces_facts (σ := σ) (h p List.mem_cons_self).1 (h p List.mem_cons_self).2
    have h2 := ih (fun q hq => h q (List.mem_cons_of_mem _ hq))
    have e1 : PL σ (p :: l) = pieces σ p ++ PL σ l := rfl
    rw [e1, flat_app, h1.flat, h2]
    simp [flat]

theorem PL_ne_nil {p : Kind × Text} {l : List (Kind × Text)} (h : Good (p :: l)) : PL σ (p :: l) ≠ [] := by
  have h1 := pieces_facts (σ := σ) (h p List.mem_cons_self).1 (h p List.mem_cons_self).2
  have e1 : PL σ (p :: l) = pieces σ p ++ PL σ l := rfl
  rw [e1]
  intro h2
  exact h1.nonempty.1 (List.append_eq_nil_iff.1 h2).1

theorem begins_PL {p : Kind × Text} {l : List (Kind × Text)} (h : Good (p :: l)) : begins (PL σ (p :: l)) = triviaKind p.1 := by
  have h1 := pieces_facts (σ := σ) (h p List.mem_cons_self).1 (h p List.mem_cons_self).2
  have e1 : PL σ (p :: l) = pieces σ p ++ PL σ l := rfl
  rw [e1, begins_append h1.nonempty.1]
  unfold begins
  cases hh : (pieces σ p).head? with
  | none => exact absurd (List.head?_eq_none_iff.1 hh) h1.nonempty.1
  | some x => rw [← h1.first x hh]

theorem ends_PL {p : Kind × Text} {l : List (Kind × Text)} (h : Good (l ++ [p])) : ends (PL σ (l ++ [p])) = triviaKind p.1 := by
  have hp := h p (by simp)
  have h1 := pieces_facts (σ := σ) hp.1 hp.2
  have e1 : PL σ (l ++ [p]) = PL σ l ++ pieces σ p := by rw [PL_append]; simp [PL]
  rw [e1, ends_append h1.nonempty.1]
  unfold ends
  cases hh : (pieces σ p).getLast? with
  | none => exact absurd (List.getLast?_eq_none_iff.1 hh) h1.nonempty.1
  | some x => rw [← h1.last x hh]

theorem PL_nonempty {l : List (Kind × Text)} (h : Good l) : ∀ x ∈ PL σ l, x.2 ≠ [] := by
  intro x hx
  obtain ⟨p, hp, hx⟩ := List.mem_flatMap.1 hx
  exact (pieces_facts (h p hp).1 (h p hp).2).nonempty.2 x hx

theorem PL_comment {l : List (Kind × Text)} (h : Good l) : ∀ x ∈ PL σ l, x.1 = K.Comment → x ∈ l := by
  intro x hx hc
  obtain ⟨p, hp, hx⟩ := List.mem_flatMap.1 hx
  have := (pieces_facts (h p hp).1 (h p hp).2).comment x hx hc
  rw [this.2]; exact hp

theorem PL_trivia {l : List (Kind × Text)} (h : ∀ p ∈ l, triviaKind p.1 = true) : PL σ l = l := by
  induction l with
  | nil => rfl
  | cons p l ih =>
    have e1 : PL σ (p :: l) = pieces σ p ++ PL σ l := rfl
    have hp := h p List.mem_cons_self
    have : p.1 = K.WHITESPACE ∨ p.1 = K.Comment := by simpa [triviaKind] using hp
    have h1 : pieces σ p = [p] := by
      refine pieces_one ?_ ?_ <;> rcases this with h | h <;> rw [h] <;> decide
    rw [e1, h1, ih (fun q hq => h q (List.mem_cons_of_mem _ hq))]
    rfl

/-! ## Kinds of elements -/

section
variable {text : Text} {g : Green} (P : Parsed text g)
include P

/-- The kinds of nodes are not kinds of tokens. -/
theorem node_kind {r : Red} (h : InTree g r) (hn : r.isNode = true) : lexRules.all (fun x => x.kind != r.kind) = true := by
  by_cases hE : r.kind = K.Error
  · rw [hE]; decide +kernel
  · by_cases hr : r = Red.root g
    · have : r.kind = g.kind := by rw [hr]; rfl
      rcases P.root with h1 | h1 <;> rw [this, h1] <;> decide +kernel
    · obtain ⟨p, R, -, -, -, h4, h5⟩ := P.parent_rule h hn hE hr
      have key : sparqlRulesTree.toList.all (fun p => (symbols p.2).all (fun s => match s with
          | .node k => lexRules.all (fun x => x.kind != k)
          | _ => true)) = true := by decide +kernel
      have := List.all_eq_true.1 key _ (KTree.find_mem _ _ _ h4)
      exact List.all_eq_true.1 this _ h5

/-- The leaf of a token. -/
theorem token_rule {r : Red} (h : InTree g r) (hn : r.isNode = false) (hE : r.kind ≠ K.Error) : HasRule r.kt :=
  P.lexed _ (Parsed.token_leaf h hn) hE

/-- An element with the kind of a token is a token. -/
theorem is_token {r : Red} (h : InTree g r) {ks : List Kind} (hk : r.kind ∈ ks)
    (hks : ks.all (fun k => lexRules.any (fun x => x.kind == k)) = true) : r.isNode = false := by
  cases hn : r.isNode with
  | false => rfl
  | true =>
    have h1 := node_kind P h hn
    have h2 := List.all_eq_true.1 hks _ hk
    obtain ⟨x, hx, hx2⟩ := List.any_eq_true.1 h2
    have := List.all_eq_true.1 h1 x hx
    simp only [beq_iff_eq, bne_iff_ne] at hx2 this
    exact absurd hx2 this

theorem trivia_token {r : Red} (h : InTree g r) (hk : triviaKind r.kind = true) : r.isNode = false := by
  have : r.kind ∈ [K.WHITESPACE, K.Comment] := by simpa [triviaKind] using hk
  exact is_token P h this (by decide +kernel)

omit P in
theorem token_leaves {r : Red} (hn : r.isNode = false) : r.green.leaves = [r.kt] := by
  have ht : r.green = r.here.green := rfl
  unfold Red.isNode at hn
  cases hg : r.here.green with
  | tok k x =>
    have h1 : r.kind = k := by show r.here.green.kind = k; rw [hg]; rfl
    have h2 : r.text = x := by show r.here.green.text = x; rw [hg]; exact Green.text_tok k x
    rw [ht, hg]; unfold Red.kt; rw [h1, h2]; rfl
  | node k x => rw [hg] at hn; cases hn

/-- Elements with something solid at both ends. -/
def Solid (g : Green) (r : Red) : Prop := InTree g r ∧ r ≠ Red.root g ∧ triviaKind r.kind = false

theorem solid_tight {r : Red} (h : Solid g r) : r.green.Tight := by
  obtain ⟨h1, h2, h3⟩ := h
  cases hn : r.isNode with
  | true => exact P.tight _ (P.inner_of h1 hn (fun hu => h2 (h1.root_of_up hu)))
  | false =>
    have := token_leaves hn
    exact ⟨⟨r.kind, r.text, [], this, h3⟩, ⟨r.kind, r.text, [], this, h3⟩⟩

/-! ## Placement -/

omit P in
/-- The leaves of a list of elements. -/
theorem good_inTree (hg : Good g.leaves) {r : Red} (h : InTree g r) : Good r.green.leaves := by
  obtain ⟨A, B, e, -⟩ := inTree_leaves h
  rw [e] at hg
  exact hg.left.right

omit P in
theorem blen_leaves (r : Red) : blen (flat r.green.leaves) = blen r.text := rfl

theorem solid_begin {r : Red} (h : Solid g r) (B : Pieces) : begins (PL σ r.green.leaves ++ B) = false := by
  obtain ⟨⟨k, t, l, e, hk⟩, -⟩ := solid_tight P h
  have hg := good_inTree (good_of P) h.1
  rw [e] at hg ⊢
  rw [begins_append (PL_ne_nil hg), begins_PL hg]
  exact hk

theorem solid_end {r : Red} (h : Solid g r) (A : Pieces) : ends (A ++ PL σ r.green.leaves) = false := by
  obtain ⟨-, ⟨k, t, l, e, hk⟩⟩ := solid_tight P h
  have hg := good_inTree (good_of P) h.1
  rw [e] at hg ⊢
  have hne : PL σ (l ++ [(k, t)]) ≠ [] := by
    intro h0
    have h1 := ends_PL (σ := σ) hg
    have : flat (PL σ (l ++ [(k, t)])) = [] := by rw [h0]; rfl
    rw [flat_PL hg] at this
    have h2 := (hg (k, t) (by simp)).2
    have h3 := List.flatten_eq_nil_iff.1 this t (List.mem_map_of_mem (f := Prod.snd) (a := (k, t)) (by simp))
    exact h2 h3
  rw [ends_append hne, ends_PL hg]
  exact hk

/-- Where an element is. -/
theorem placed {r : Red} (h : InTree g r) : ∃ A B, Good A ∧ Good B ∧ g.leaves = A ++ (r.green.leaves ++ B) ∧ r.start = blen (flat (PL σ A)) ∧
    PL σ g.leaves = PL σ A ++ (PL σ r.green.leaves ++ PL σ B) ∧ r.stop = blen (flat (PL σ A)) + blen (flat (PL σ r.green.leaves)) := by
  obtain ⟨A, B, e, hs⟩ := inTree_leaves h
  have hg := good_of P
  rw [e] at hg
  refine ⟨A, B, hg.left.left, hg.right, by rw [e, List.append_assoc], by rw [flat_PL hg.left.left]; exact hs, by rw [e, PL_append, PL_append, List.append_assoc], ?_⟩
  rw [flat_PL hg.left.left, flat_PL hg.left.right, blen_leaves, ← hs]
  rfl

omit P in
/-- The leaves of some elements. -/
def lv (X : List Red) : List (Kind × Text) := X.flatMap (fun c => c.green.leaves)

omit P in
theorem lv_append (X Y : List Red) : lv (X ++ Y) = lv X ++ lv Y := by unfold lv; rw [List.flatMap_append]

omit P in
theorem lv_flat (X : List Red) : flat (lv X) = flat (X.map Red.kt) := by
  induction X with
  | nil => rfl
  | cons x X ih =>
    have e : lv (x :: X) = x.green.leaves ++ lv X := rfl
    rw [e, flat_app, ih]
    simp only [List.map_cons, flat, List.flatten_cons]
    rfl

omit P in
theorem children_leaves {r : Red} (hn : r.isNode = true) : r.green.leaves = lv r.childrenT := by
  have h := children_green r
  have hl : ∀ gs : List Green, Green.leavesL gs = gs.flatMap Green.leaves := by
    intro gs
    induction gs with
    | nil => rfl
    | cons x gs ih => simp [Green.leavesL, ih]
  have e : lv r.childrenT = (r.childrenT.map Red.green).flatMap Green.leaves := by
    unfold lv; rw [List.flatMap_map]
  rw [e, h]
  have hr : r.green = r.here.green := rfl
  unfold Red.isNode at hn
  cases hg : r.here.green with
  | tok k t => rw [hg] at hn; cases hn
  | node k cs => rw [hr, hg]; exact hl cs

omit P in
theorem children_row (r : Red) : Row r.start r.childrenT := by
  unfold Red.childrenT
  cases hg : r.here.green with
  | tok k t => trivial
  | node k cs =>
    have key : ∀ (gs : List Green) (i o : Nat) (up : List Site), Row o ((childSites i o gs).map (fun s => (⟨s, up⟩ : Red))) := by
      intro gs
      induction gs with
      | nil => intro i o up; trivial
      | cons x gs ih => intro i o up; exact ⟨rfl, ih _ _ _⟩
    exact key cs 0 _ _

omit P in
theorem row_stop : ∀ {X : List Red} {o : Nat} {x : Red}, Row o (X ++ [x]) → x.stop = o + blen (flat (lv (X ++ [x]))) := by
  intro X
  induction X with
  | nil =>
    intro o x h
    have : x.start = o := h.1
    show x.start + blen x.text = _
    rw [this, lv_flat]; simp [flat, Red.kt]
  | cons y X ih =>
    intro o x h
    obtain ⟨h1, h2⟩ := h
    have := ih h2
    have e : lv (y :: X ++ [x]) = y.green.leaves ++ lv (X ++ [x]) := rfl
    rw [e, flat_app, blen_append, this]
    have : y.stop = y.start + blen y.text := rfl
    rw [this, h1, blen_leaves]
    omega

omit P in
theorem row_prefix : ∀ {X Y : List Red} {o : Nat}, Row o (X ++ Y) → Row o X := by
  intro X
  induction X with
  | nil => intro Y o _; trivial
  | cons x X ih => intro Y o h; exact ⟨h.1, ih h.2⟩

omit P in
/-- The children of an element and their places. -/
theorem child_places {r : Red} {X Y : List Red} (h : r.childrenT = X ++ Y) :
    (∀ X' x, X = X' ++ [x] → x.stop = r.start + blen (flat (lv X))) ∧
    (∀ y Y', Y = y :: Y' → y.start = r.start + blen (flat (lv X))) := by
  have hr := children_row r
  rw [h] at hr
  constructor
  · intro X' x hX
    have := row_prefix hr
    rw [hX] at this ⊢
    exact row_stop this
  · intro y Y' hY
    have := row_split hr
    rw [hY, ← lv_flat] at this
    exact this.1

omit P in
theorem child_inTree {r : Red} (h : InTree g r) {X Y : List Red} (e : r.childrenT = X ++ Y) :
    (∀ x ∈ X, InTree g x) ∧ (∀ y ∈ Y, InTree g y) := by
  constructor
  · intro x hx; exact .child h (by rw [e]; exact List.mem_append_left _ hx)
  · intro x hx; exact .child h (by rw [e]; exact List.mem_append_right _ hx)

omit P in
/-- A child is not the root. -/
theorem child_ne_root {r c : Red} (h : c ∈ r.childrenT) : c ≠ Red.root g := by
  intro h2
  have := child_up h
  rw [h2] at this
  cases this

/-- Significant children are solid. -/
theorem child_solid {r c : Red} (h : InTree g r) (hc : c ∈ r.childrenT) (hk : triviaKind c.kind = false) : Solid g c :=
  ⟨.child h hc, child_ne_root hc, hk⟩

end
end Verif.Format
