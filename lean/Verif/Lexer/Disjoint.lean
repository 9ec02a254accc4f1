import Verif.Lexer.LexLemmas
/-!
# Disjointness of regular expressions

A checker for "no text matches both" with its soundness proof. A class is a union of ranges, so membership of a code point
depends only on the greatest range boundary that does not exceed it; checking one representative per boundary is enough
(for every character, of which there are more than a million).
-/
namespace Verif.Lexer
open Verif Verif.Grammar

/-- `Class.has` on code points. -/
def Class.hasN (cl : Class) (n : Nat) : Bool := cl.any (fun r => Nat.ble r.1 n && Nat.ble n r.2)

/-- `Regex.deriv` on code points. -/
def Regex.derivN (n : Nat) : Regex → Regex
  | .none => .none
  | .eps => .none
  | .cls cl => if cl.hasN n then .eps else .none
  | .seq a b => if a.nullable then mkAlt (mkSeq (a.derivN n) b) (b.derivN n) else mkSeq (a.derivN n) b
  | .alt a b => mkAlt (a.derivN n) (b.derivN n)
  | .star a => mkSeq (a.derivN n) (.star a)

theorem deriv_eq (c : Char) (r : Regex) : r.deriv c = r.derivN c.toNat := by
  induction r with
  | none => rfl
  | eps => rfl
  | cls cl => rfl
  | seq a b iha ihb => simp only [Regex.deriv, Regex.derivN, iha, ihb]
  | alt a b iha ihb => simp only [Regex.deriv, Regex.derivN, iha, ihb]
  | star a ih => simp only [Regex.deriv, Regex.derivN, ih]

/-- The boundaries of the classes a derivative depends on. -/
def Regex.bounds : Regex → List Nat
  | .none => []
  | .eps => []
  | .cls cl => cl.flatMap (fun r => [r.1, r.2 + 1])
  | .seq a b => if a.nullable then a.bounds ++ b.bounds else a.bounds
  | .alt a b => a.bounds ++ b.bounds
  | .star a => a.bounds

/-- `m` and `n` are not separated by any of the boundaries. -/
def SameSide (l : List Nat) (m n : Nat) : Prop := ∀ x ∈ l, x ≤ m ↔ x ≤ n

theorem hasN_same {cl : Class} {m n : Nat} (h : SameSide (cl.flatMap (fun r => [r.1, r.2 + 1])) m n) :
    cl.hasN m = cl.hasN n := by
  unfold Class.hasN
  induction cl with
  | nil => rfl
  | cons r rs ih =>
    have h1 := h r.1 (by simp)
    have h2 := h (r.2 + 1) (by simp)
    simp only [List.any_cons]
    rw [ih (fun x hx => h x (by simp only [List.flatMap_cons, List.mem_append]; exact Or.inr hx))]
    congr 1
    rw [Bool.eq_iff_iff]
    simp only [Bool.and_eq_true, Nat.ble_eq]
    omega

theorem derivN_same {r : Regex} {m n : Nat} (h : SameSide r.bounds m n) : r.derivN m = r.derivN n := by
  induction r with
  | none => rfl
  | eps => rfl
  | cls cl => simp only [Regex.derivN, hasN_same h]
  | seq a b iha ihb =>
    simp only [Regex.derivN]
    simp only [Regex.bounds] at h
    split
    · next hn =>
      rw [if_pos hn] at h
      rw [iha (fun x hx => h x (by simp [hx])), ihb (fun x hx => h x (by simp [hx]))]
    · next hn => rw [if_neg hn] at h; rw [iha h]
  | alt a b iha ihb =>
    simp only [Regex.bounds] at h
    simp only [Regex.derivN]
    rw [iha (fun x hx => h x (by simp [hx])), ihb (fun x hx => h x (by simp [hx]))]
  | star a ih => simp only [Regex.derivN, ih h]

/-- Every number has a representative among `0` and the boundaries. -/
theorem exists_rep (l : List Nat) (n : Nat) : ∃ m ∈ 0 :: l, SameSide l m n := by
  induction l with
  | nil => exact ⟨0, by simp, by simp [SameSide]⟩
  | cons x xs ih =>
    obtain ⟨m, hm, hs⟩ := ih
    by_cases hx : x ≤ n
    · by_cases hxm : x ≤ m
      · refine ⟨m, by simp only [List.mem_cons] at hm ⊢; tauto, ?_⟩
        intro y hy
        simp only [List.mem_cons] at hy
        rcases hy with rfl | hy
        · tauto
        · exact hs y hy
      · refine ⟨x, by simp, ?_⟩
        intro y hy
        simp only [List.mem_cons] at hy
        rcases hy with rfl | hy
        · simp [hx]
        · have := hs y hy
          omega
    · by_cases hxm : x ≤ m
      · -- then m is in xs, m > n, but m is on the same side of itself
        exfalso
        simp only [List.mem_cons] at hm
        rcases hm with rfl | hm
        · omega
        · have := hs m hm
          omega
      · refine ⟨m, by simp only [List.mem_cons] at hm ⊢; tauto, ?_⟩
        intro y hy
        simp only [List.mem_cons] at hy
        rcases hy with rfl | hy
        · tauto
        · exact hs y hy

def Regex.isNone : Regex → Bool
  | .none => true
  | _ => false

theorem isNone_iff {r : Regex} : r.isNone = true ↔ r = .none := by cases r <;> simp [Regex.isNone]

/-- Without repetitions. -/
def uniq : List (Regex × Regex) → List (Regex × Regex)
  | [] => []
  | x :: xs => if (uniq xs).contains x then uniq xs else x :: uniq xs

theorem mem_uniq {x : Regex × Regex} {l} : x ∈ uniq l ↔ x ∈ l := by
  induction l with
  | nil => simp [uniq]
  | cons y ys ih =>
    unfold uniq
    split
    · next h =>
      rw [List.contains_iff_mem, ] at h
      rw [List.mem_cons, ih]
      constructor
      · exact Or.inr
      · rintro (rfl | h')
        · exact ih.1 h
        · exact h'
    · rw [List.mem_cons, List.mem_cons, ih]

/-- The pairs of derivatives, without the pairs where one is dead. -/
def nextPairs (a b : Regex) : List (Regex × Regex) :=
  let ns := 0 :: (a.bounds ++ b.bounds)
  uniq (ns.filterMap (fun n =>
    let a' := a.derivN n
    if a'.isNone then none else
    let b' := b.derivN n
    if b'.isNone then none else some (a', b')))

/-- No text matches both `a` and `b`. `seen`: pairs under inspection. -/
def apart : Nat → List (Regex × Regex) → Regex → Regex → Bool
  | 0, _, _, _ => false
  | f + 1, seen, a, b =>
    seen.contains (a, b) ||
    (!(a.nullable && b.nullable) &&
      (nextPairs a b).all (fun p => apart f ((a, b) :: seen) p.1 p.2))

/-- No common word of length at most `n`. -/
def NoCommon (n : Nat) (p : Regex × Regex) : Prop := ∀ w : Text, w.length ≤ n → Matches p.1 w → ¬ Matches p.2 w

theorem nextPairs_mem (a b : Regex) (c : Char) :
    (a.deriv c, b.deriv c) ∈ nextPairs a b ∨ a.deriv c = .none ∨ b.deriv c = .none := by
  obtain ⟨m, hm, hs⟩ := exists_rep (a.bounds ++ b.bounds) c.toNat
  have ha : a.derivN m = a.deriv c := by
    rw [deriv_eq]; exact derivN_same (fun x hx => hs x (by simp [hx]))
  have hb : b.derivN m = b.deriv c := by
    rw [deriv_eq]; exact derivN_same (fun x hx => hs x (by simp [hx]))
  by_cases h1 : a.deriv c = .none
  · exact Or.inr (Or.inl h1)
  by_cases h2 : b.deriv c = .none
  · exact Or.inr (Or.inr h2)
  left
  unfold nextPairs
  simp only [mem_uniq, List.mem_filterMap]
  refine ⟨m, hm, ?_⟩
  rw [ha, hb]
  rw [if_neg (by rw [isNone_iff]; exact h1), if_neg (by rw [isNone_iff]; exact h2)]

theorem apart_sound (f : Nat) : ∀ seen a b, apart f seen a b = true →
    ∀ n, (∀ p ∈ seen, NoCommon n p) → NoCommon n (a, b) := by
  induction f with
  | zero => intro _ _ _ h; simp [apart] at h
  | succ f ih =>
    intro seen a b h n
    unfold apart at h
    simp only [Bool.or_eq_true, List.contains_iff_mem, Bool.and_eq_true] at h
    rcases h with h | ⟨h1, h2⟩
    · intro hs; exact hs _ h
    · induction n with
      | zero =>
        intro _ w hw m1 m2
        have : w = [] := by simpa using hw
        subst this
        rw [(nullable_iff _).2 m1, (nullable_iff _).2 m2] at h1
        simp at h1
      | succ n ihn =>
        intro hs w hw m1 m2
        have hs' : ∀ p ∈ seen, NoCommon n p := fun p hp w hw => hs p hp w (by omega)
        cases w with
        | nil =>
          rw [(nullable_iff _).2 m1, (nullable_iff _).2 m2] at h1
          simp at h1
        | cons c w =>
          have m1' := (deriv_iff a c w).2 m1
          have m2' := (deriv_iff b c w).2 m2
          rcases nextPairs_mem a b c with hp | hp | hp
          · have := List.all_eq_true.1 h2 _ hp
            refine ih _ _ _ this n ?_ w (by simpa using hw) m1' m2'
            intro p hp
            rcases List.mem_cons.1 hp with rfl | hp
            · exact ihn hs'
            · exact hs' p hp
          · rw [hp] at m1'; exact matches_none m1'
          · rw [hp] at m2'; exact matches_none m2'

/-- The checker is sound. -/
theorem apart_disjoint {f : Nat} {a b : Regex} (h : apart f [] a b = true) (w : Text) (ha : Matches a w) :
    ¬ Matches b w :=
  apart_sound f [] a b h w.length (by simp) w (Nat.le_refl _) ha

/-- All pairs are apart. -/
def allApart (f : Nat) : List LexRule → Bool
  | [] => true
  | r :: rs => rs.all (fun r' => apart f [] r.re r'.re) && allApart f rs

theorem allApart_sound {f : Nat} {l : List LexRule} (h : allApart f l = true) :
    l.Pairwise (fun r r' => ∀ w, Matches r.re w → ¬ Matches r'.re w) := by
  induction l with
  | nil => exact .nil
  | cons r rs ih =>
    unfold allApart at h
    rw [Bool.and_eq_true] at h
    refine .cons ?_ (ih h.2)
    intro r' hr' w
    exact apart_disjoint (List.all_eq_true.1 h.1 r' hr') w

end Verif.Lexer
