import Verif.Props.Renaming
/-!
# The row of tokens of a tree

The tokens of a tree, left to right, with their offsets.
-/
namespace Verif.Features
open Verif Verif.Grammar Verif.Lexer Verif.Props

/-- Kind and text of a token. -/
def Red.kt (t : Red) : Kind × Text := (t.kind, t.text)

/-- Tokens that follow each other without gaps, from offset `o`. -/
def Row : Nat → List Red → Prop
  | _, [] => True
  | o, t :: ts => t.start = o ∧ Row t.stop ts

theorem row_append {o : Nat} {a b : List Red} (ha : Row o a) (hb : Row (o + blen (flat (a.map Red.kt))) b) : Row o (a ++ b) := by
  induction a generalizing o with
  | nil => simpa [flat] using hb
  | cons t a ih =>
    obtain ⟨h1, h2⟩ := ha
    refine ⟨h1, ih h2 ?_⟩
    have : blen (flat ((t :: a).map Red.kt)) = blen t.text + blen (flat (a.map Red.kt)) := by
      simp [flat, Red.kt, blen_append]
    rw [this] at hb
    have e : t.stop + blen (flat (a.map Red.kt)) = o + (blen t.text + blen (flat (a.map Red.kt))) := by
      have : t.stop = t.start + blen t.text := rfl
      omega
    rw [e]; exact hb

theorem row_split {o : Nat} {a b : List Red} (h : Row o (a ++ b)) : Row (o + blen (flat (a.map Red.kt))) b := by
  induction a generalizing o with
  | nil => simpa [flat] using h
  | cons t a ih =>
    obtain ⟨h1, h2⟩ := h
    have := ih h2
    have e : o + blen (flat ((t :: a).map Red.kt)) = t.stop + blen (flat (a.map Red.kt)) := by
      have e1 : blen (flat ((t :: a).map Red.kt)) = blen t.text + blen (flat (a.map Red.kt)) := by
        simp [flat, Red.kt, blen_append]
      have : t.stop = t.start + blen t.text := rfl
      omega
    rw [e]; exact this

theorem tokens_eq (r : Red) : r.tokens = if r.isNode then r.childrenT.flatMap Red.tokens else [r] := by
  unfold Red.tokens
  rw [descendantsT_eq]
  cases hn : r.isNode with
  | true =>
    simp only [List.filter_cons, hn, Bool.not_true, if_true]
    rw [List.filter_flatMap]
    rfl
  | false =>
    have : r.childrenT = [] := by
      cases hc : r.childrenT with
      | nil => rfl
      | cons c cs => have := child_isNode (r := r) (c := c) (by rw [hc]; simp); rw [hn] at this; cases this
    rw [this]
    simp [hn]

/-- The tokens of an element are its leaves, in a row. -/
theorem tokens_row (r : Red) : r.tokens.map Red.kt = r.green.leaves ∧ Row r.start r.tokens := by
  refine red_induction (P := fun r => r.tokens.map Red.kt = r.green.leaves ∧ Row r.start r.tokens) ?_ r
  intro r ih
  rw [tokens_eq]
  obtain ⟨⟨g, idx, off⟩, up⟩ := r
  cases g with
  | tok k t =>
    refine ⟨?_, ?_⟩
    · simp [Red.isNode, Red.kt, Red.kind, Red.text, Green.kind, Green.text_tok, Red.green, Green.leaves]
    · exact ⟨rfl, trivial⟩
  | node k cs =>
    have hn : (⟨⟨.node k cs, idx, off⟩, up⟩ : Red).isNode = true := rfl
    rw [if_pos hn]
    simp only [Red.childrenT] at ih ⊢
    have key : ∀ (cs : List Green) (i o : Nat) (up : List Site),
        (∀ c ∈ (childSites i o cs).map (fun s => (⟨s, up⟩ : Red)), c.tokens.map Red.kt = c.green.leaves ∧ Row c.start c.tokens) →
        (((childSites i o cs).map (fun s => (⟨s, up⟩ : Red))).flatMap Red.tokens).map Red.kt = Green.leavesL cs ∧
          Row o (((childSites i o cs).map (fun s => (⟨s, up⟩ : Red))).flatMap Red.tokens) := by
      intro cs
      induction cs with
      | nil => intro i o up _; simp [childSites, Green.leavesL, Row]
      | cons c cs ih =>
        intro i o up h
        simp only [childSites, List.map_cons, List.flatMap_cons, Green.leavesL, List.map_append] at h ⊢
        have h0 := h _ List.mem_cons_self
        obtain ⟨h1, h2⟩ := ih (i + 1) (o + blen c.text) up (fun x hx => h x (List.mem_cons_of_mem _ hx))
        refine ⟨by rw [h1, h0.1]; rfl, row_append h0.2 ?_⟩
        rw [h0.1]
        exact h2
    have := key cs 0 off _ ih
    refine ⟨?_, this.2⟩
    rw [this.1]
    simp only [Red.green, Green.leaves]

/-- The token found at an offset: it contains the character in front of the offset. -/
theorem tokenAtLeft_row {g : Green} {o : Nat} {t : Red} (hpos : 0 < o) (hne : ∀ p ∈ g.leaves, p.2 ≠ [])
    (h : (Red.root g).tokenAtLeft o = some t) :
    ∃ L R, (Red.root g).tokens = L ++ t :: R ∧ t.start < o ∧ o ≤ t.stop ∧
      g.leaves = L.map Red.kt ++ t.kt :: R.map Red.kt ∧ t.start = blen (flat (L.map Red.kt)) := by
  obtain ⟨h1, h2⟩ := tokens_row (Red.root g)
  have h1 : (Red.root g).tokens.map Red.kt = g.leaves := h1
  have h2 : Row 0 (Red.root g).tokens := h2
  unfold Red.tokenAtLeft at h
  have hne' : ∀ x ∈ (Red.root g).tokens, x.text ≠ [] := fun x hx => hne _ (by rw [← h1]; exact List.mem_map.2 ⟨x, hx, rfl⟩)
  have key : ∀ (l : List Red) (s : Nat), Row s l → s < o → (∀ x ∈ l, x.text ≠ []) →
      l.find? (fun t => decide (t.text ≠ []) && decide (t.start ≤ o) && decide (o ≤ t.stop)) = some t →
      ∃ L R, l = L ++ t :: R ∧ t.start < o ∧ o ≤ t.stop ∧ t.start = s + blen (flat (L.map Red.kt)) := by
    intro l
    induction l with
    | nil => intro s _ _ _ h; cases h
    | cons x l ih =>
      intro s hr hs hx h
      obtain ⟨r1, r2⟩ := hr
      rw [List.find?_cons] at h
      split at h
      · next hc =>
        cases h
        simp only [Bool.and_eq_true, decide_eq_true_eq] at hc
        exact ⟨[], l, rfl, by omega, hc.2, by simp [flat, r1]⟩
      · next hc =>
        have hlt : x.stop < o := by
          by_contra hle
          simp only [hx x List.mem_cons_self, Bool.and_eq_false_iff, decide_eq_false_iff_not, ne_eq, not_false_eq_true] at hc
          rcases hc with (hc | hc) | hc
          · exact absurd trivial hc
          · omega
          · omega
        obtain ⟨L, R, e1, e2, e3, e4⟩ := ih x.stop r2 hlt (fun y hy => hx y (List.mem_cons_of_mem _ hy)) h
        refine ⟨x :: L, R, by rw [e1]; rfl, e2, e3, ?_⟩
        rw [e4]
        have : blen (flat ((x :: L).map Red.kt)) = blen x.text + blen (flat (L.map Red.kt)) := by
          simp [flat, Red.kt, blen_append]
        rw [this]
        have : x.stop = x.start + blen x.text := rfl
        omega
  obtain ⟨L, R, e1, e2, e3, e4⟩ := key _ 0 h2 hpos hne' h
  refine ⟨L, R, e1, e2, e3, ?_, by omega⟩
  rw [← h1, e1]
  simp

/-- Something is found inside of the text. -/
theorem tokenAtLeft_some {g : Green} {o : Nat} (hpos : 0 < o) (hle : o ≤ blen g.text) (hne : ∀ p ∈ g.leaves, p.2 ≠ []) :
    ∃ t, (Red.root g).tokenAtLeft o = some t := by
  obtain ⟨h1, h2⟩ := tokens_row (Red.root g)
  have h1 : (Red.root g).tokens.map Red.kt = g.leaves := h1
  have h2 : Row 0 (Red.root g).tokens := h2
  have hne' : ∀ x ∈ (Red.root g).tokens, x.text ≠ [] := fun x hx => hne _ (by rw [← h1]; exact List.mem_map.2 ⟨x, hx, rfl⟩)
  have hl : blen (flat ((Red.root g).tokens.map Red.kt)) = blen g.text := by rw [h1]; rfl
  unfold Red.tokenAtLeft
  have key : ∀ (l : List Red) (s : Nat), Row s l → s < o → o ≤ s + blen (flat (l.map Red.kt)) → (∀ x ∈ l, x.text ≠ []) →
      ∃ t, l.find? (fun t => decide (t.text ≠ []) && decide (t.start ≤ o) && decide (o ≤ t.stop)) = some t := by
    intro l
    induction l with
    | nil => intro s _ h1 h2; simp [flat, blen] at h2; omega
    | cons x l ih =>
      intro s hr hs hle hx
      obtain ⟨r1, r2⟩ := hr
      have e0 : blen (flat ((x :: l).map Red.kt)) = blen x.text + blen (flat (l.map Red.kt)) := by
        simp [flat, Red.kt, blen_append]
      have e1 : x.stop = x.start + blen x.text := rfl
      rw [List.find?_cons]
      split
      · exact ⟨x, rfl⟩
      · next hc =>
        refine ih x.stop r2 ?_ (by omega) (fun y hy => hx y (List.mem_cons_of_mem _ hy))
        by_contra hle
        simp only [hx x List.mem_cons_self, Bool.and_eq_false_iff, decide_eq_false_iff_not, ne_eq, not_false_eq_true] at hc
        rcases hc with (hc | hc) | hc
        · exact absurd trivial hc
        · omega
        · omega
  exact key _ 0 h2 hpos (by omega) hne'

end Verif.Features
