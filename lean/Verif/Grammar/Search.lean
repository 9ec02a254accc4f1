import Verif.Format.Edge
/-!
# Searching for a derivation

Used for the fixed texts that code actions insert: `der` finds a derivation of a concrete sequence of token kinds.
-/
namespace Verif.Grammar
open Verif.Format

/-- Searches for a derivation, up to a depth. -/
def der : Nat → Rule → List Kind → Bool
  | 0, _, _ => false
  | _ + 1, .tok k, w => w == [k]
  | n + 1, .node k, w =>
    match sparqlRules k with
    | none => false
    | some r =>
      (match w with
      | [] => nullNodes.contains k
      | k' :: _ => (symFirst (.node k)).testBit k') && der n r w
  | n + 1, .seq a b, w => (List.range (w.length + 1)).any (fun i => der n a (w.take i) && der n b (w.drop i))
  | n + 1, .alt a b, w => der n a w || der n b w
  | n + 1, .opt r, w => w.isEmpty || der n r w
  | n + 1, .rep r, w => w.isEmpty || (List.range w.length).any (fun i => der n r (w.take (i + 1)) && der n (.rep r) (w.drop (i + 1)))

theorem der_sound : ∀ {n : Nat} {r : Rule} {w : List Kind}, der n r w = true → Derives sparqlRules r w := by
  intro n
  induction n with
  | zero => intro r w h; cases h
  | succ n ih =>
    intro r w h
    cases r with
    | tok k => rw [show w = [k] by simpa [der] using h]; exact .tok k
    | node k =>
      simp only [der] at h
      cases hr : sparqlRules k with
      | none => rw [hr] at h; cases h
      | some r =>
        rw [hr] at h
        simp only [Bool.and_eq_true] at h
        exact .node k r w hr (ih h.2)
    | seq a b =>
      simp only [der] at h
      obtain ⟨i, -, h⟩ := List.any_eq_true.1 h
      simp only [Bool.and_eq_true] at h
      have := Derives.seq a b _ _ (ih h.1) (ih h.2)
      rwa [List.take_append_drop] at this
    | alt a b =>
      simp only [der, Bool.or_eq_true] at h
      rcases h with h | h
      · exact .altL _ _ _ (ih h)
      · exact .altR _ _ _ (ih h)
    | opt r =>
      simp only [der, Bool.or_eq_true, List.isEmpty_iff] at h
      rcases h with h | h
      · rw [h]; exact .optNone _
      · exact .optSome _ _ (ih h)
    | rep r =>
      simp only [der, Bool.or_eq_true, List.isEmpty_iff] at h
      rcases h with h | h
      · rw [h]; exact .repNil _
      · obtain ⟨i, -, h⟩ := List.any_eq_true.1 h
        simp only [Bool.and_eq_true] at h
        have := Derives.repCons r _ _ (ih h.1) (ih h.2)
        rwa [List.take_append_drop] at this

/-- The rule can begin with the token. -/
def mayStart (r : Rule) : List Kind → Bool
  | [] => false
  | k :: _ => (headSyms nullNodes r).any (fun s => (symFirst s).testBit k)

/-- Reads a derivation from the front, choosing by the next token: the rest. -/
def ll : Nat → Rule → List Kind → Option (List Kind)
  | 0, _, _ => none
  | _ + 1, .tok k, w =>
    match w with
    | [] => none
    | k' :: rest => if k' = k then some rest else none
  | n + 1, .node k, w =>
    match sparqlRules k with
    | none => none
    | some r => ll n r w
  | n + 1, .seq a b, w =>
    match ll n a w with
    | none => none
    | some rest => ll n b rest
  | n + 1, .alt a b, w => if mayStart a w || !mayStart b w then ll n a w else ll n b w
  | n + 1, .opt r, w => if mayStart r w then ll n r w else some w
  | n + 1, .rep r, w =>
    if mayStart r w then
      match ll n r w with
      | none => none
      | some rest => ll n (.rep r) rest
    else some w

theorem ll_front : ∀ {n : Nat} {r : Rule} {w rest : List Kind}, ll n r w = some rest → ∃ u, w = u ++ rest ∧ Derives sparqlRules r u := by
  intro n
  induction n with
  | zero => intro r w rest h; cases h
  | succ n ih =>
    intro r w rest h
    cases r with
    | tok k =>
      cases w with
      | nil => cases h
      | cons k' w =>
        simp only [ll] at h
        split at h
        · rename_i hk
          injection h with h
          exact ⟨[k], by rw [hk, h]; rfl, .tok k⟩
        · cases h
    | node k =>
      simp only [ll] at h
      cases hr : sparqlRules k with
      | none => rw [hr] at h; cases h
      | some r =>
        rw [hr] at h
        obtain ⟨u, e, d⟩ := ih h
        exact ⟨u, e, .node k r u hr d⟩
    | seq a b =>
      simp only [ll] at h
      split at h
      · cases h
      · rename_i rest' h1
        obtain ⟨u, e, d⟩ := ih h1
        obtain ⟨u', e', d'⟩ := ih h
        exact ⟨u ++ u', by rw [e, e', List.append_assoc], .seq a b u u' d d'⟩
    | alt a b =>
      simp only [ll] at h
      split at h
      · obtain ⟨u, e, d⟩ := ih h; exact ⟨u, e, .altL _ _ _ d⟩
      · obtain ⟨u, e, d⟩ := ih h; exact ⟨u, e, .altR _ _ _ d⟩
    | opt r =>
      simp only [ll] at h
      split at h
      · obtain ⟨u, e, d⟩ := ih h; exact ⟨u, e, .optSome _ _ d⟩
      · injection h with h; exact ⟨[], by rw [h]; rfl, .optNone _⟩
    | rep r =>
      simp only [ll] at h
      split at h
      · split at h
        · cases h
        · rename_i rest' h1
          obtain ⟨u, e, d⟩ := ih h1
          obtain ⟨u', e', d'⟩ := ih h
          exact ⟨u ++ u', by rw [e, e', List.append_assoc], .repCons r u u' d d'⟩
      · injection h with h; exact ⟨[], by rw [h]; rfl, .repNil _⟩

theorem ll_sound {n : Nat} {r : Rule} {w : List Kind} (h : ll n r w = some []) : Derives sparqlRules r w := by
  obtain ⟨u, e, d⟩ := ll_front h
  rw [e, List.append_nil]; exact d

end Verif.Grammar
