import Verif.Features.Red
import Verif.ApplyEditsLemmas
/-!
# Ranges of syntax elements, and edits that replace them
-/
namespace Verif.Features
open Verif Verif.Grammar

/-! ## Offsets of positions -/

theorem skipLines_le (line : Nat) (t : Text) (i b : Nat) (rest : Text) (b' : Nat)
    (h : skipLines line t i b = some (rest, b')) : b' + blen rest ≤ b + blen t := by
  fun_induction skipLines line t i b with
  | case1 => simp at h
  | case2 => simp at h; obtain ⟨rfl, rfl⟩ := h; simp
  | case3 cs i b _ ih =>
    have := ih h
    have h1 : u8 '\n' = 1 := by decide
    simp only [blen_cons]; omega
  | case4 c i b _ _ ih =>
    have := ih h
    simp only [blen_cons] at this ⊢; omega
  | case5 i b c d cs' _ _ hc ih =>
    have := ih h
    obtain ⟨rfl, rfl⟩ := hc
    have h1 : u8 '\n' = 1 := by decide
    have h2 : u8 '\r' = 1 := by decide
    simp only [blen_cons]; omega
  | case6 i b c d cs' _ _ hc ih =>
    have := ih h
    simp only [blen_cons] at this ⊢; omega
  | case7 c cs i b _ => simp at h; obtain ⟨rfl, rfl⟩ := h; simp

theorem skipCols_le (ch : Nat) (t : Text) (i b o : Nat) (h : skipCols ch t i b = some o) : o ≤ b + blen t := by
  fun_induction skipCols ch t i b with
  | case1 => simp at h
  | case2 => simp at h; subst h; simp
  | case3 => simp at h
  | case4 c i b _ _ ih => have := ih h; simp only [blen_cons, blen_nil] at this ⊢; omega
  | case5 => simp at h
  | case6 i b d cs' _ _ _ ih => have := ih h; simp only [blen_cons] at this ⊢; omega
  | case7 i b c d cs' _ _ _ ih => have := ih h; simp only [blen_cons] at this ⊢; omega
  | case8 => simp at h; subst h; omega

/-- The offset of a position is inside the text. -/
theorem byteIndex_le {p : Position} {t : Text} {o : Nat} (h : byteIndex p t = some o) : o ≤ blen t := by
  unfold byteIndex at h
  split at h
  · simp at h; omega
  · split at h
    · simp at h
    · next rest b hs =>
      have h1 := skipLines_le _ _ _ _ _ _ hs
      have h2 := skipCols_le _ _ _ _ _ h
      omega

/-! ## Preorder -/

theorem descendantsT_within {r x : Red} (h : x ∈ r.descendantsT) : Within x r := by
  revert h
  refine red_induction (P := fun r => x ∈ r.descendantsT → Within x r) ?_ r
  intro r ih hx
  rw [descendantsT_eq] at hx
  rcases List.mem_cons.1 hx with rfl | hx
  · exact ⟨Nat.le_refl _, Nat.le_refl _⟩
  · obtain ⟨c, hc, hx⟩ := List.mem_flatMap.1 hx
    have h1 := ih c hc hx
    have h2 := child_within hc
    exact ⟨Nat.le_trans h2.1 h1.1, Nat.le_trans h1.2 h2.2⟩

theorem chain_parent {r c x : Red} (hc : c ∈ r.childrenT) (hx : c ∈ x.ancestors) : r ∈ Red.chain x.up := by
  have hp := parent_chain (child_parent hc)
  have key : ∀ (up : List Site) (z : Red), c ∈ z :: Red.chain up → z.up = up → r ∈ Red.chain up := by
    intro up
    induction up with
    | nil =>
      intro z hz hu
      simp only [Red.chain, List.mem_singleton] at hz
      subst hz
      rw [child_up hc] at hu; cases hu
    | cons s up ih =>
      intro z hz hu
      rcases List.mem_cons.1 hz with rfl | hz
      · rw [← hu, hp]; simp
      · exact List.mem_cons_of_mem _ (ih ⟨s, up⟩ hz rfl)
  exact key x.up x hx rfl

theorem childSites_pairwise (idx off : Nat) (gs : List Green) :
    (childSites idx off gs).Pairwise (fun a b => a.off + blen a.green.text ≤ b.off) := by
  induction gs generalizing idx off with
  | nil => exact .nil
  | cons g gs ih =>
    refine .cons ?_ (ih _ _)
    intro s hs
    obtain ⟨a, b, _, _, h⟩ := mem_childSites hs
    simp only [] at *
    omega

theorem childrenT_pairwise (r : Red) : r.childrenT.Pairwise (fun a b => a.stop ≤ b.start) := by
  unfold Red.childrenT
  split
  · exact .nil
  · rw [List.pairwise_map]
    exact childSites_pairwise _ _ _

/-- Preorder: an earlier element encloses a later one or ends before it starts. -/
theorem descendantsT_order (r : Red) :
    r.descendantsT.Pairwise (fun a b => a ∈ Red.chain b.up ∨ a.stop ≤ b.start) := by
  refine red_induction (P := fun r => r.descendantsT.Pairwise (fun a b => a ∈ Red.chain b.up ∨ a.stop ≤ b.start)) ?_ r
  intro r ih
  rw [descendantsT_eq]
  refine .cons ?_ ?_
  · intro x hx
    obtain ⟨c, hc, hx⟩ := List.mem_flatMap.1 hx
    exact Or.inl (chain_parent hc (descendantsT_anc hx))
  · rw [List.pairwise_flatMap]
    refine ⟨ih, ?_⟩
    refine (childrenT_pairwise r).imp ?_
    intro a b hab x hx y hy
    right
    have h1 := (descendantsT_within hx).2
    have h2 := (descendantsT_within hy).1
    omega

/-! ## Cursors and green nodes -/

theorem nodesL_mem {gs : List Green} {n : Green} : n ∈ Green.nodesL gs ↔ ∃ g ∈ gs, n ∈ g.nodes := by
  induction gs with
  | nil => simp [Green.nodesL]
  | cons g gs ih => simp [Green.nodesL, ih]

theorem nodes_trans {g n m : Green} (h1 : n ∈ g.nodes) (h2 : m ∈ n.nodes) : m ∈ g.nodes := by
  revert n m
  induction g using Green.rec (motive_2 := fun cs => ∀ g ∈ cs, ∀ n m, n ∈ g.nodes → m ∈ n.nodes → m ∈ g.nodes) with
  | tok k t => intro n m h1; simp [Green.nodes] at h1
  | node k cs ih =>
    intro n m h1 h2
    simp only [Green.nodes, List.mem_cons] at h1
    rcases h1 with rfl | h1
    · exact h2
    · obtain ⟨g', hg, hn⟩ := nodesL_mem.1 h1
      simp only [Green.nodes, List.mem_cons]
      exact Or.inr (nodesL_mem.2 ⟨g', hg, ih g' hg n m hn h2⟩)
  | nil => rename_i h _ _ _ _; cases h
  | cons g gs ih1 ih2 =>
    rename_i g' hg n m h1 h2
    rcases List.mem_cons.1 hg with rfl | hg
    · exact ih1 h1 h2
    · exact ih2 g' hg n m h1 h2

/-- The green node under a cursor is a node of the tree. -/
theorem InTree.green_mem {g : Green} {r : Red} (h : InTree g r) (hn : r.isNode = true) : r.green ∈ g.nodes := by
  induction h with
  | root =>
    cases g with
    | tok k t => cases hn
    | node k cs => simp [Red.root, Red.green, Green.nodes]
  | @child p c hp hc ih =>
    have hpn := child_isNode hc
    have h1 := ih hpn
    refine nodes_trans h1 ?_
    unfold Red.childrenT at hc
    have hg : p.green = p.here.green := rfl
    rw [hg]
    cases hk : p.here.green with
    | tok k t => rw [hk] at hc; cases hc
    | node k cs =>
      rw [hk] at hc
      simp only [List.mem_map] at hc
      obtain ⟨s, hs, rfl⟩ := hc
      obtain ⟨a, b, e, _, _⟩ := mem_childSites hs
      simp only [Green.nodes, List.mem_cons]
      right
      refine nodesL_mem.2 ⟨s.green, by rw [e]; simp, ?_⟩
      unfold Red.green
      unfold Red.isNode at hn
      simp only at hn ⊢
      cases hs' : s.green with
      | tok k t => rw [hs'] at hn; cases hn
      | node k cs => simp [Green.nodes]

/-! ## Replacing disjoint pieces -/

/-- `old` stands in the text at byte offset `start`. -/
def At (text : Text) (start : Nat) (old : Text) : Prop := ∃ a b, text = a ++ old ++ b ∧ start = blen a

theorem prefix_of_blen {t p q r s : Text} (h1 : t = p ++ q) (h2 : t = r ++ s) (hl : blen p ≤ blen r) :
    ∃ m, r = p ++ m ∧ q = m ++ s := by
  rcases List.append_eq_append_iff.1 (h1.symm.trans h2) with ⟨m, h3, h4⟩ | ⟨m, h3, h4⟩
  · exact ⟨m, h3, h4⟩
  · have : m = [] := by
      rw [h3, blen_append] at hl
      cases m with
      | nil => rfl
      | cons c m => have := u8_pos c; simp only [blen_cons] at hl; omega
    subst this
    exact ⟨[], by simpa using h3.symm, by simpa using h4.symm⟩

/-- Byte offsets of the replaced pieces. -/
def startsOf : Nat → List Seg → List Nat
  | _, [] => []
  | o, s :: ss => (o + blen s.keep) :: startsOf (o + blen s.keep + blen s.old) ss

/-- Pieces of a text in order without overlap, with their replacements, are a decomposition of the text. -/
theorem exists_segs_sorted (text : Text) (l : List (Nat × Text × Text)) (hAt : ∀ p ∈ l, At text p.1 p.2.1)
    (ho : l.Pairwise (fun p q => p.1 + blen p.2.1 ≤ q.1)) :
    ∃ segs last, text = origOf segs ++ last ∧ segs.map (fun s => (s.old, s.new)) = l.map (·.2) ∧
      l.map (fun p => (Range.fromByteOffsetRange p.1 (p.1 + blen p.2.1) text).map (fun r => (⟨r, p.2.2⟩ : TextEdit))) =
        (editsOf [] segs).map some ∧ startsOf 0 segs = l.map (·.1) := by
  suffices H : ∀ (l : List (Nat × Text × Text)) (pre rest : Text), text = pre ++ rest →
      (∀ p ∈ l, At text p.1 p.2.1) → (∀ p ∈ l, blen pre ≤ p.1) →
      l.Pairwise (fun p q => p.1 + blen p.2.1 ≤ q.1) →
      ∃ segs last, rest = origOf segs ++ last ∧ segs.map (fun s => (s.old, s.new)) = l.map (·.2) ∧
        l.map (fun p => (Range.fromByteOffsetRange p.1 (p.1 + blen p.2.1) text).map (fun r => (⟨r, p.2.2⟩ : TextEdit))) =
          (editsOf pre segs).map some ∧ startsOf (blen pre) segs = l.map (·.1) by
    obtain ⟨segs, last, h1, h2, h3, h4⟩ := H l [] text rfl hAt (by simp) ho
    exact ⟨segs, last, h1, h2, h3, h4⟩
  intro l
  induction l with
  | nil => intro pre rest _ _ _ _; exact ⟨[], rest, by simp [origOf], rfl, rfl, rfl⟩
  | cons p l ih =>
    intro pre rest ht hA hb hp
    obtain ⟨a, b, h1, h2⟩ := hA p (by simp)
    have hle := hb p (by simp)
    rw [List.append_assoc] at h1
    obtain ⟨m, hm, hr⟩ := prefix_of_blen ht h1 (by omega)
    have ht' : text = (pre ++ m ++ p.2.1) ++ b := by rw [ht, hr]; simp
    rcases List.pairwise_cons.1 hp with ⟨hp1, hp2⟩
    have hbl : p.1 = blen pre + blen m := by rw [h2, hm, blen_append]
    obtain ⟨segs, last, i1, i2, i3, i4⟩ := ih (pre ++ m ++ p.2.1) b ht' (fun q hq => hA q (by simp [hq]))
      (by intro q hq; have := hp1 q hq; simp only [blen_append]; omega) hp2
    refine ⟨⟨m, p.2.1, p.2.2⟩ :: segs, last, by rw [hr, i1]; simp [origOf], by simp [i2], ?_, by
      simp only [startsOf, List.map_cons]
      rw [← i4, hbl]
      simp only [blen_append]⟩
    have e1 : fromByteIndex p.1 text = some (posOf (pre ++ m)) := by
      rw [hbl, ← blen_append, ht, hr]
      have := fromByteIndex_of_prefix (pre ++ m) (p.2.1 ++ b)
      simpa using this
    have e2 : fromByteIndex (p.1 + blen p.2.1) text = some (posOf (pre ++ m ++ p.2.1)) := by
      have := fromByteIndex_of_prefix (pre ++ m ++ p.2.1) b
      rw [← ht'] at this
      rw [← this]
      simp only [blen_append]
      rw [hbl]
    simp only [List.map_cons, editsOf]
    rw [i3]
    congr 1
    unfold Range.fromByteOffsetRange
    rw [e1, e2]
    rfl

/-- The edits for nonempty pieces have different ranges. -/
theorem editsOf_ranges_ne (segs : List Seg) (pre : Text) (h : ∀ s ∈ segs, s.old ≠ []) :
    (editsOf pre segs).Pairwise (fun a b => a.range ≠ b.range) ∧
    ∀ e ∈ editsOf pre segs, ∃ x, e.range.start = posOf (pre ++ x) := by
  induction segs generalizing pre with
  | nil => exact ⟨.nil, by simp [editsOf]⟩
  | cons s ss ih =>
    obtain ⟨h1, h2⟩ := ih (pre ++ s.keep ++ s.old) (fun x hx => h x (by simp [hx]))
    refine ⟨.cons ?_ h1, ?_⟩
    · intro e he hr
      obtain ⟨x, hx⟩ := h2 e he
      have : posOf (pre ++ s.keep) = posOf (pre ++ s.keep ++ s.old ++ x) := by
        rw [← hx, ← hr]
      have e := posOf_inj (a := pre ++ s.keep) (b := s.old ++ x) (c := pre ++ s.keep ++ s.old ++ x) (d := []) (by simp) this
      have hl := congrArg List.length e
      have := List.length_pos_iff.2 (h s (by simp))
      simp only [List.length_append] at hl
      omega
    · intro e he
      simp only [editsOf, List.mem_cons] at he
      rcases he with rfl | he
      · exact ⟨s.keep, rfl⟩
      · obtain ⟨x, hx⟩ := h2 e he
        exact ⟨s.keep ++ s.old ++ x, by rw [hx]; simp⟩

end Verif.Features
