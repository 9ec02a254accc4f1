import Verif.Grammar.Tree
/-!
# A code for trees, to state the tree of a concrete document in examples
-/
namespace Verif.Features
open Verif Verif.Grammar

/-- A code for a tree (examples only). Defined by the recursor so that the kernel can evaluate it. -/
noncomputable def Green.code (g : Green) : List Nat :=
  Green.rec (motive_1 := fun _ => List Nat) (motive_2 := fun _ => List Nat)
    (fun k t => 0 :: k :: t.length :: t.map Char.toNat) (fun k _ ih => 1 :: k :: (ih ++ [2])) [] (fun _ _ a b => a ++ b) g

/-- Codes of a list of trees. -/
noncomputable def Green.codeL : List Green → List Nat
  | [] => []
  | g :: gs => Green.code g ++ Green.codeL gs

theorem code_tok (k t) : Green.code (.tok k t) = 0 :: k :: t.length :: t.map Char.toNat := rfl

theorem code_node (k cs) : Green.code (.node k cs) = 1 :: k :: (Green.codeL cs ++ [2]) := by
  have : ∀ cs : List Green, (Green.rec_1 (motive_1 := fun _ => List Nat) (motive_2 := fun _ => List Nat)
    (fun k t => 0 :: k :: t.length :: t.map Char.toNat) (fun k _ ih => 1 :: k :: (ih ++ [2])) [] (fun _ _ a b => a ++ b) cs)
      = Green.codeL cs := by
    intro cs
    induction cs with
    | nil => rfl
    | cons g gs ih => simp only [Green.codeL, ← ih]; rfl
  rw [← this cs]
  rfl

theorem codeL_end {cs : List Green} {x y : List Nat} (h : 2 :: x = Green.codeL cs ++ y) : cs = [] := by
  cases cs with
  | nil => rfl
  | cons g gs =>
    cases g with
    | tok k t => simp [Green.codeL, code_tok] at h
    | node k cs => simp [Green.codeL, code_node] at h

theorem toNat_inj_list {a b : List Char} (h : a.map Char.toNat = b.map Char.toNat) : a = b := by
  induction a generalizing b with
  | nil => cases b with
    | nil => rfl
    | cons => cases h
  | cons x a ih =>
    cases b with
    | nil => cases h
    | cons y b =>
      simp only [List.map_cons, List.cons.injEq] at h
      rw [ih h.2, Char.ext (UInt32.toNat_inj.1 h.1)]

theorem code_cancel (g : Green) : ∀ g' x y, Green.code g ++ x = Green.code g' ++ y → g = g' ∧ x = y := by
  induction g using Green.rec (motive_2 := fun cs => ∀ cs' x y,
      Green.codeL cs ++ 2 :: x = Green.codeL cs' ++ 2 :: y → cs = cs' ∧ x = y) with
  | tok k t =>
    intro g' x y h
    cases g' with
    | tok k' t' =>
      simp only [code_tok, List.cons_append, List.cons.injEq, true_and] at h
      obtain ⟨rfl, h1, h2⟩ := h
      obtain ⟨h3, rfl⟩ := List.append_inj h2 (by simpa using h1)
      exact ⟨by rw [toNat_inj_list h3], rfl⟩
    | node k' cs => simp [code_tok, code_node] at h
  | node k cs ih =>
    intro g' x y h
    cases g' with
    | tok k' t' => simp [code_tok, code_node] at h
    | node k' cs' =>
      simp only [code_node, List.cons_append, List.cons.injEq, true_and, List.append_assoc, List.nil_append] at h
      obtain ⟨rfl, h⟩ := h
      obtain ⟨rfl, rfl⟩ := ih cs' x y h
      exact ⟨rfl, rfl⟩
  | nil =>
    rename_i cs' x y h
    have := codeL_end h
    subst this
    simpa [Green.codeL] using h
  | cons g gs ih1 ih2 =>
    rename_i cs' x y h
    cases cs' with
    | nil =>
      have := codeL_end (cs := g :: gs) (x := y) (y := 2 :: x) (by simpa [Green.codeL] using h.symm)
      cases this
    | cons g' gs' =>
      simp only [Green.codeL, List.append_assoc] at h
      obtain ⟨rfl, h'⟩ := ih1 g' _ _ h
      obtain ⟨rfl, rfl⟩ := ih2 gs' x y h'
      exact ⟨rfl, rfl⟩

theorem code_inj {g g' : Green} (h : Green.code g = Green.code g') : g = g' :=
  (code_cancel g g' [] [] (by simpa using h)).1

end Verif.Features
