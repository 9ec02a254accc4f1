import Verif.Features.QuickFix
import Verif.Features.PrefixTokens
/-!
# The element that covers a range
-/
namespace Verif.Features
open Verif Verif.Grammar Verif.Lexer Verif.Props

/-- The search below an element. -/
def coverRed (a b : Nat) (r : Red) : Red := coverAt a b r.here.green r.here.idx r.here.off r.up

theorem coverIn_some {a b : Nat} (hab : a < b) {up : List Site} : ∀ {cs : List Green} {idx off : Nat} {s : Site}, s ∈ childSites idx off cs →
    s.off ≤ a → b ≤ s.off + blen s.green.text → coverIn a b cs idx off up = some (coverAt a b s.green s.idx s.off up) := by
  intro cs
  induction cs with
  | nil => intro idx off s h; cases h
  | cons g gs ih =>
    intro idx off s h h1 h2
    rw [childSites] at h
    unfold coverIn
    rcases List.mem_cons.1 h with rfl | h
    · rw [if_pos ⟨h1, h2⟩]
    · obtain ⟨x, y, -, -, h3⟩ := mem_childSites h
      rw [if_neg (by omega)]
      exact ih h h1 h2

theorem coverIn_none {a b : Nat} {up : List Site} : ∀ {cs : List Green} {idx off : Nat},
    (∀ s ∈ childSites idx off cs, ¬ (s.off ≤ a ∧ b ≤ s.off + blen s.green.text)) → coverIn a b cs idx off up = none := by
  intro cs
  induction cs with
  | nil => intro idx off _; rw [coverIn]
  | cons g gs ih =>
    intro idx off h
    rw [childSites] at h
    unfold coverIn
    rw [if_neg (h ⟨g, idx, off⟩ (by simp))]
    exact ih (fun s hs => h s (by simp [hs]))

theorem coverRed_child {a b : Nat} (hab : a < b) {r c : Red} (hc : c ∈ r.childrenT) (h1 : c.start ≤ a) (h2 : b ≤ c.stop) :
    coverRed a b r = coverRed a b c := by
  obtain ⟨⟨g, idx, off⟩, up⟩ := r
  unfold Red.childrenT at hc
  cases g with
  | tok k t => cases hc
  | node k cs =>
    obtain ⟨s, hs, rfl⟩ := List.mem_map.1 hc
    show coverAt a b (.node k cs) idx off up = _
    unfold coverAt
    rw [coverIn_some hab hs h1 h2]
    rfl

/-- The search passes by every element that contains the range. -/
theorem cover_down {g : Green} {a b : Nat} (hab : a < b) {x : Red} (hx : InTree g x) (h1 : x.start ≤ a) (h2 : b ≤ x.stop) :
    covering g a b = coverRed a b x := by
  induction hx with
  | root => rfl
  | @child r c hr hc ih =>
    have hw := child_within hc
    rw [ih (Nat.le_trans hw.1 h1) (Nat.le_trans h2 hw.2), coverRed_child hab hc h1 h2]

/-- The search ends at a node with two parts that are not empty. -/
theorem cover_node {g : Green} {x c d : Red} (hx : InTree g x) (hc : c ∈ x.childrenT) (hd : d ∈ x.childrenT) (hcd : c ≠ d)
    (hcn : c.text ≠ []) (hdn : d.text ≠ []) : covering g x.start x.stop = x := by
  have hcp := blen_pos hcn
  have hdp := blen_pos hdn
  have hwc := child_within hc
  have hwd := child_within hd
  have ec : c.stop = c.start + blen c.text := rfl
  have ed : d.stop = d.start + blen d.text := rfl
  have hab : x.start < x.stop := by have := hwc.1; have := hwc.2; omega
  rw [cover_down hab hx (Nat.le_refl _) (Nat.le_refl _)]
  have horder : ∀ {u v : Red}, u ∈ x.childrenT → v ∈ x.childrenT → u ≠ v → u.stop ≤ v.start ∨ v.stop ≤ u.start := by
    intro u v hu hv huv
    have hp := childrenT_pairwise x
    obtain ⟨i, hi, rfl⟩ := List.getElem_of_mem hu
    obtain ⟨j, hj, rfl⟩ := List.getElem_of_mem hv
    rcases Nat.lt_trichotomy i j with h | h | h
    · exact Or.inl (List.pairwise_iff_getElem.1 hp i j hi hj h)
    · subst h; exact absurd rfl huv
    · exact Or.inr (List.pairwise_iff_getElem.1 hp j i hj hi h)
  have hno : ∀ e ∈ x.childrenT, ¬ (e.start ≤ x.start ∧ x.stop ≤ e.stop) := by
    rintro e he ⟨h1, h2⟩
    have a1 := hwc.1
    have a2 := hwc.2
    have a3 := hwd.1
    have a4 := hwd.2
    by_cases h : e = c
    · subst h
      rcases horder he hd hcd with h | h <;> omega
    · rcases horder he hc h with h | h <;> omega
  obtain ⟨⟨gr, idx, off⟩, up⟩ := x
  unfold coverRed
  cases gr with
  | tok k t => cases hc
  | node k cs =>
    show coverAt _ _ (.node k cs) idx off up = _
    unfold coverAt
    rw [coverIn_none]
    · rfl
    · intro s hs
      exact hno ⟨s, _⟩ (List.mem_map.2 ⟨s, hs, rfl⟩)

/-- The first significant token behind an element. -/
theorem nextSignificant_of {text : Text} {g : Green} (P : Parsed text g) {x : Red} {L T R : List Red} {n : Red}
    (e : (Red.root g).tokens = L ++ x.tokens ++ (T ++ n :: R)) (hL : x.start = blen (flat (L.map Red.kt)))
    (hT : ∀ t ∈ T, triviaKind t.kind = true) (hn : triviaKind n.kind = false) :
    nextSignificant g x = some n ∧ n.start = x.stop + blen (flat (T.map Red.kt)) := by
  have hrow := (tokens_row (Red.root g)).2
  have hne := tokens_nonempty P
  have h0 : (Red.root g).start = 0 := rfl
  rw [h0, e] at hrow
  rw [e] at hne
  have hxt : blen (flat (x.tokens.map Red.kt)) = blen x.text := by rw [(tokens_row x).1, flat_leaves]
  have hlen : blen (flat ((L ++ x.tokens).map Red.kt)) = x.stop := by
    rw [List.map_append, flat_append, blen_append, hxt, ← hL]; rfl
  have hrow2 := row_split hrow
  rw [hlen, Nat.zero_add] at hrow2
  have hrow3 := row_split (a := T) hrow2
  have hnext : n.start = x.stop + blen (flat (T.map Red.kt)) := hrow3.1
  refine ⟨?_, hnext⟩
  unfold nextSignificant
  rw [e, List.find?_append (xs := L ++ x.tokens), List.find?_append (xs := T)]
  have h1 : (L ++ x.tokens).find? (fun t => decide (x.stop ≤ t.start) && !isTriviaKind t.kind) = none := by
    rw [List.find?_eq_none]
    intro t ht
    simp only [Bool.and_eq_true, decide_eq_true_eq, not_and]
    intro hs
    exfalso
    obtain ⟨a, b, hab⟩ := List.append_of_mem ht
    have hrow' := hrow
    rw [hab, List.append_assoc] at hrow'
    have := (row_split (a := a) hrow').1
    have h3 : blen (flat ((L ++ x.tokens).map Red.kt)) = blen (flat (a.map Red.kt)) + (blen t.text + blen (flat (b.map Red.kt))) := by
      rw [hab]; simp [flat, blen_append, Red.kt]
    rw [hlen] at h3
    have h4 := blen_pos (hne t (List.mem_append_left _ ht))
    omega
  have h2 : T.find? (fun t => decide (x.stop ≤ t.start) && !isTriviaKind t.kind) = none := by
    rw [List.find?_eq_none]
    intro t ht
    have : isTriviaKind t.kind = true := hT t ht
    simp [this]
  rw [h1, h2]
  have h3 : isTriviaKind n.kind = false := hn
  rw [List.find?_cons_of_pos (by simp [h3, hnext])]
  rfl

end Verif.Features
