import Verif.Lexer.Disjoint
import Verif.Features.Rename
/-!
# Exchanging variable names does not change what the lexer rules match

For every rule and every context with at least one character in front, a text with a variable (`?` or `$` and a name)
matches iff it matches with another variable in its place. Checked on the derivatives of the rules.
-/
namespace Verif.Lexer
open Verif Verif.Grammar Verif.Features

/-- The derivative by a text. -/
def Regex.derivs (r : Regex) : Text → Regex
  | [] => r
  | c :: cs => (r.deriv c).derivs cs

theorem derivs_iff (r : Regex) (w z : Text) : Matches (r.derivs w) z ↔ Matches r (w ++ z) := by
  induction w generalizing r with
  | nil => rfl
  | cons c cs ih => simp only [Regex.derivs, ih, deriv_iff, List.cons_append]

theorem derivs_append (r : Regex) (u v : Text) : r.derivs (u ++ v) = (r.derivs u).derivs v := by
  induction u generalizing r with
  | nil => rfl
  | cons c cs ih => simp only [List.cons_append, Regex.derivs, ih]

theorem derivs_none (w : Text) : Regex.none.derivs w = .none := by
  induction w with
  | nil => rfl
  | cons c cs ih => simpa [Regex.derivs, Regex.deriv] using ih

/-- The derivatives by single characters that are not dead. -/
def steps (q : Regex) : List Regex := ((0 :: q.bounds).map q.derivN).filter (fun r => !r.isNone)

theorem mem_steps (q : Regex) (c : Char) : q.deriv c ∈ steps q ∨ q.deriv c = .none := by
  obtain ⟨m, hm, hs⟩ := exists_rep q.bounds c.toNat
  have h : q.derivN m = q.deriv c := by rw [deriv_eq]; exact derivN_same hs
  by_cases hn : q.deriv c = .none
  · exact Or.inr hn
  · left
    unfold steps
    rw [List.mem_filter]
    refine ⟨List.mem_map.2 ⟨m, hm, h⟩, ?_⟩
    cases hi : (q.deriv c).isNone with
    | false => rfl
    | true => exact absurd (isNone_iff.1 hi) hn

/-- A set of states closed under derivatives. -/
def closedSet (S : List Regex) : Bool := S.all (fun q => (steps q).all (fun r => S.contains r))

theorem closed_derivs {S : List Regex} (h : closedSet S = true) {q : Regex} (hq : q ∈ S) (w : Text) :
    q.derivs w ∈ S ∨ q.derivs w = .none := by
  induction w generalizing q with
  | nil => exact Or.inl hq
  | cons c cs ih =>
    rcases mem_steps q c with h1 | h1
    · have := List.all_eq_true.1 (List.all_eq_true.1 h q hq) _ h1
      exact ih (List.contains_iff_mem.1 this)
    · right
      rw [Regex.derivs, h1]; exact derivs_none cs

/-- The characters of variable names. -/
def varChar : Class := varStartChar ++ varMoreChar

/-- Representatives of the characters of a class, for a state. -/
def repsIn (cl : Class) (q : Regex) : List Nat :=
  (0 :: (q.bounds ++ cl.flatMap (fun r => [r.1, r.2 + 1]))).filter (fun n => cl.hasN n)

theorem repsIn_spec {cl : Class} {q : Regex} {c : Char} (h : cl.has c = true) :
    ∃ n ∈ repsIn cl q, q.derivN n = q.deriv c := by
  obtain ⟨m, hm, hs⟩ := exists_rep (q.bounds ++ cl.flatMap (fun r => [r.1, r.2 + 1])) c.toNat
  have h1 : q.derivN m = q.deriv c := by
    rw [deriv_eq]; exact derivN_same (fun x hx => hs x (by simp only [List.mem_append]; exact Or.inl hx))
  have h2 : cl.hasN m = cl.hasN c.toNat := hasN_same (fun x hx => hs x (by simp only [List.mem_append]; exact Or.inr hx))
  refine ⟨m, ?_, h1⟩
  unfold repsIn
  rw [List.mem_filter]
  exact ⟨hm, by rw [h2]; exact h⟩

/-- In this state a variable can be exchanged for another. -/
def okState (q : Regex) : Bool :=
  let q1 := q.derivN 0x3F
  let q2 := q.derivN 0x24
  (q1.nullable == q2.nullable) &&
  (let a := q1.derivN 0x41
   (repsIn varStartChar q1).all (fun n => q1.derivN n == a) &&
   (repsIn varStartChar q2).all (fun n => q2.derivN n == a) &&
   (repsIn varChar a).all (fun n => a.derivN n == a))

/-- A sigil. -/
def isSigil (c : Char) : Prop := c = '?' ∨ c = '$'

theorem okState_var {q : Regex} (h : okState q = true) {s : Char} (hs : isSigil s) {n : Text}
    (hn : isValidVariableName n = true) : q.derivs (s :: n) = (q.derivN 0x3F).derivN 0x41 := by
  unfold okState at h
  simp only [Bool.and_eq_true] at h
  obtain ⟨-, ⟨h1, h2⟩, h3⟩ := h
  cases n with
  | nil => cases hn
  | cons c cs =>
    simp only [isValidVariableName, Bool.and_eq_true] at hn
    have e1 : (q.deriv s).deriv c = (q.derivN 0x3F).derivN 0x41 := by
      rcases hs with rfl | rfl
      · have hq : q.deriv '?' = q.derivN 0x3F := deriv_eq _ _
        rw [hq]
        obtain ⟨n, hm, hd⟩ := repsIn_spec (q := q.derivN 0x3F) hn.1
        rw [← hd]
        exact eq_of_beq (List.all_eq_true.1 h1 n hm)
      · have hq : q.deriv '$' = q.derivN 0x24 := deriv_eq _ _
        rw [hq]
        obtain ⟨n, hm, hd⟩ := repsIn_spec (q := q.derivN 0x24) hn.1
        rw [← hd]
        exact eq_of_beq (List.all_eq_true.1 h2 n hm)
    simp only [Regex.derivs]
    rw [e1]
    have hcs := hn.2
    clear e1 hn
    induction cs with
    | nil => rfl
    | cons d ds ih =>
      simp only [List.all_cons, Bool.and_eq_true] at hcs
      have hd : varChar.has d = true := by
        have := hcs.1
        unfold isVarNameChar isVarNameStartChar at this
        unfold varChar Class.has at *
        rw [List.any_append]
        exact this
      obtain ⟨n, hm, hd'⟩ := repsIn_spec (q := (q.derivN 0x3F).derivN 0x41) hd
      simp only [Regex.derivs]
      rw [← hd', eq_of_beq (List.all_eq_true.1 h3 n hm)]
      exact ih hcs.2

theorem okState_sigil {q : Regex} (h : okState q = true) {s s' : Char} (hs : isSigil s) (hs' : isSigil s') :
    Matches q [s] ↔ Matches q [s'] := by
  have key : ∀ s, isSigil s → (Matches q [s] ↔ (q.derivN 0x3F).nullable = true) := by
    intro s hs
    unfold okState at h
    simp only [Bool.and_eq_true] at h
    have h0 := eq_of_beq h.1
    rw [← deriv_iff, ← nullable_iff]
    rcases hs with rfl | rfl
    · have hq : q.deriv '?' = q.derivN 0x3F := deriv_eq _ _
      rw [hq]
    · have hq : q.deriv '$' = q.derivN 0x24 := deriv_eq _ _
      rw [hq, h0]
  rw [key s hs, key s' hs']

/-- No class of the expression has a sigil. -/
def noSigil : Regex → Bool
  | .none => true
  | .eps => true
  | .cls cl => !cl.hasN 0x3F && !cl.hasN 0x24
  | .seq a b => noSigil a && noSigil b
  | .alt a b => noSigil a && noSigil b
  | .star a => noSigil a

theorem noSigil_matches {r : Regex} (h : noSigil r = true) {w : Text} (hm : Matches r w) : ∀ c ∈ w, ¬ isSigil c := by
  induction hm with
  | eps => simp
  | @cls cl c hc =>
    intro d hd hs
    simp only [List.mem_singleton] at hd
    subst hd
    simp only [noSigil, Bool.and_eq_true, Bool.not_eq_true'] at h
    rcases hs with rfl | rfl
    · have := h.1.symm.trans hc; cases this
    · have := h.2.symm.trans hc; cases this
  | seq _ _ ih1 ih2 =>
    simp only [noSigil, Bool.and_eq_true] at h
    intro c hc
    rcases List.mem_append.1 hc with hc | hc
    · exact ih1 h.1 c hc
    · exact ih2 h.2 c hc
  | altL _ ih => simp only [noSigil, Bool.and_eq_true] at h; exact ih h.1
  | altR _ ih => simp only [noSigil, Bool.and_eq_true] at h; exact ih h.2
  | starNil => simp
  | starCons _ _ ih1 ih2 =>
    intro c hc
    rcases List.mem_append.1 hc with hc | hc
    · exact ih1 (by simpa [noSigil] using h) c hc
    · exact ih2 h c hc

/-- Worklist closure. -/
def closeUp : Nat → List Regex → List Regex → List Regex
  | 0, seen, _ => seen
  | _, seen, [] => seen
  | f + 1, seen, q :: qs =>
    let nx := (steps q).foldl (fun acc r => if acc.contains r || seen.contains r then acc else r :: acc) []
    closeUp f (nx ++ seen) (nx ++ qs)

/-- The states reachable by nonempty texts. -/
def statesOf (r : Regex) : List Regex :=
  let s := (steps r).foldl (fun acc r => if acc.contains r then acc else r :: acc) []
  closeUp 200 s s

/-- Variables can be exchanged in a rule (behind at least one character). -/
def swapOk (r : Regex) : Bool :=
  noSigil r ||
  (let S := statesOf r
   (steps r).all (fun q => S.contains q) && closedSet S && S.all okState)

theorem okState_none : okState .none = true := by decide

/-- Exchanging a variable behind a nonempty context. -/
theorem swapOk_var {r : Regex} (h : swapOk r = true) {u z : Text} (hu : u ≠ []) {s s' : Char} (hs : isSigil s)
    (hs' : isSigil s') {n m : Text} (hn : isValidVariableName n = true) (hm : isValidVariableName m = true) :
    Matches r (u ++ (s :: n ++ z)) → Matches r (u ++ (s' :: m ++ z)) := by
  unfold swapOk at h
  rw [Bool.or_eq_true] at h
  rcases h with h | h
  · intro hmat
    exact absurd hs (noSigil_matches h hmat s (by simp))
  · simp only [Bool.and_eq_true] at h
    obtain ⟨⟨h1, h2⟩, h3⟩ := h
    cases u with
    | nil => exact absurd rfl hu
    | cons c u =>
      have hst : okState (r.derivs (c :: u)) = true := by
        rcases mem_steps r c with hc | hc
        · have := List.contains_iff_mem.1 (List.all_eq_true.1 h1 _ hc)
          rcases closed_derivs h2 this u with h4 | h4
          · exact List.all_eq_true.1 h3 _ h4
          · rw [Regex.derivs, h4]; exact okState_none
        · rw [Regex.derivs, hc, derivs_none]; exact okState_none
      rw [← derivs_iff, ← derivs_iff, ← derivs_iff, ← derivs_iff, okState_var hst hs hn, okState_var hst hs' hm]
      exact id

theorem swapOk_sigil {r : Regex} (h : swapOk r = true) {u : Text} (hu : u ≠ []) {s s' : Char} (hs : isSigil s)
    (hs' : isSigil s') : Matches r (u ++ [s]) → Matches r (u ++ [s']) := by
  unfold swapOk at h
  rw [Bool.or_eq_true] at h
  rcases h with h | h
  · intro hmat
    exact absurd hs (noSigil_matches h hmat s (by simp))
  · simp only [Bool.and_eq_true] at h
    obtain ⟨⟨h1, h2⟩, h3⟩ := h
    cases u with
    | nil => exact absurd rfl hu
    | cons c u =>
      have hst : okState (r.derivs (c :: u)) = true := by
        rcases mem_steps r c with hc | hc
        · have := List.contains_iff_mem.1 (List.all_eq_true.1 h1 _ hc)
          rcases closed_derivs h2 this u with h4 | h4
          · exact List.all_eq_true.1 h3 _ h4
          · rw [Regex.derivs, h4]; exact okState_none
        · rw [Regex.derivs, hc, derivs_none]; exact okState_none
      rw [← derivs_iff, ← derivs_iff, okState_sigil hst hs hs']
      exact id

/-- Variables can be exchanged in all rules; rules with a word boundary have no sigil. -/
theorem rules_swap : lexRules.all (fun r => swapOk r.re && (!r.boundary || noSigil r.re)) = true := by decide +kernel

end Verif.Lexer
