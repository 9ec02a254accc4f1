import Verif.Lexer.Disjoint
/-!
# The lexer rules are pairwise disjoint

The check is split into blocks of rows to keep the memory of the kernel small.
-/
namespace Verif.Lexer

/-- Rule number `i` is apart from all later ones. -/
def apartRow (f : Nat) (l : List LexRule) (i : Nat) : Bool :=
  match l.drop i with
  | [] => true
  | r :: rs => rs.all (fun r' => apart f [] r.re r'.re)

theorem allApart_of_rows {f : Nat} (l : List LexRule) (h : ∀ i < l.length, apartRow f l i = true) : allApart f l = true := by
  induction l with
  | nil => rfl
  | cons r rs ih =>
    unfold allApart
    rw [Bool.and_eq_true]
    refine ⟨h 0 (by simp), ih ?_⟩
    intro i hi
    have := h (i + 1) (by simp only [List.length_cons]; omega)
    simpa [apartRow] using this

/-- Rows `i`, ..., `i + n - 1`. -/
def rowsFrom (i n : Nat) : Bool := (List.range' i n).all (apartRow 30 lexRules)

theorem row_of {i n j : Nat} (h : rowsFrom i n = true) (h1 : i ≤ j) (h2 : j < i + n) : apartRow 30 lexRules j = true :=
  List.all_eq_true.1 h j (List.mem_range'_1.2 ⟨h1, h2⟩)

theorem rows0 : rowsFrom 0 1 = true := by decide +kernel
theorem rows1 : rowsFrom 1 1 = true := by decide +kernel
theorem rows2 : rowsFrom 2 1 = true := by decide +kernel
theorem rows3 : rowsFrom 3 1 = true := by decide +kernel
theorem rows4 : rowsFrom 4 1 = true := by decide +kernel
theorem rows5 : rowsFrom 5 1 = true := by decide +kernel
theorem rows6 : rowsFrom 6 1 = true := by decide +kernel
theorem rows7 : rowsFrom 7 1 = true := by decide +kernel
theorem rows8 : rowsFrom 8 1 = true := by decide +kernel
theorem rows9 : rowsFrom 9 1 = true := by decide +kernel
theorem rows10 : rowsFrom 10 10 = true := by decide +kernel
theorem rows20 : rowsFrom 20 10 = true := by decide +kernel
theorem rows30 : rowsFrom 30 10 = true := by decide +kernel
theorem rows40 : rowsFrom 40 10 = true := by decide +kernel
theorem rows50 : rowsFrom 50 10 = true := by decide +kernel
theorem rows60 : rowsFrom 60 10 = true := by decide +kernel
theorem rows70 : rowsFrom 70 10 = true := by decide +kernel
theorem rows80 : rowsFrom 80 10 = true := by decide +kernel
theorem rows90 : rowsFrom 90 10 = true := by decide +kernel
theorem rows100 : rowsFrom 100 10 = true := by decide +kernel
theorem rows110 : rowsFrom 110 10 = true := by decide +kernel
theorem rows120 : rowsFrom 120 10 = true := by decide +kernel
theorem rows130 : rowsFrom 130 10 = true := by decide +kernel
theorem rows140 : rowsFrom 140 10 = true := by decide +kernel
theorem rows150 : rowsFrom 150 10 = true := by decide +kernel
theorem rows160 : rowsFrom 160 10 = true := by decide +kernel
theorem rows170 : rowsFrom 170 10 = true := by decide +kernel
theorem rows180 : rowsFrom 180 2 = true := by decide +kernel

theorem lexRules_length : lexRules.length = 182 := by decide +kernel

/-- The lexer rules are pairwise disjoint. -/
theorem rules_apart : allApart 30 lexRules = true := by
  refine allApart_of_rows _ ?_
  intro i hi
  rw [lexRules_length] at hi
  by_cases h0 : i < 1
  · exact row_of rows0 (by omega) (by omega)
  by_cases h1 : i < 2
  · exact row_of rows1 (by omega) (by omega)
  by_cases h2 : i < 3
  · exact row_of rows2 (by omega) (by omega)
  by_cases h3 : i < 4
  · exact row_of rows3 (by omega) (by omega)
  by_cases h4 : i < 5
  · exact row_of rows4 (by omega) (by omega)
  by_cases h5 : i < 6
  · exact row_of rows5 (by omega) (by omega)
  by_cases h6 : i < 7
  · exact row_of rows6 (by omega) (by omega)
  by_cases h7 : i < 8
  · exact row_of rows7 (by omega) (by omega)
  by_cases h8 : i < 9
  · exact row_of rows8 (by omega) (by omega)
  by_cases h9 : i < 10
  · exact row_of rows9 (by omega) (by omega)
  by_cases h10 : i < 20
  · exact row_of rows10 (by omega) (by omega)
  by_cases h20 : i < 30
  · exact row_of rows20 (by omega) (by omega)
  by_cases h30 : i < 40
  · exact row_of rows30 (by omega) (by omega)
  by_cases h40 : i < 50
  · exact row_of rows40 (by omega) (by omega)
  by_cases h50 : i < 60
  · exact row_of rows50 (by omega) (by omega)
  by_cases h60 : i < 70
  · exact row_of rows60 (by omega) (by omega)
  by_cases h70 : i < 80
  · exact row_of rows70 (by omega) (by omega)
  by_cases h80 : i < 90
  · exact row_of rows80 (by omega) (by omega)
  by_cases h90 : i < 100
  · exact row_of rows90 (by omega) (by omega)
  by_cases h100 : i < 110
  · exact row_of rows100 (by omega) (by omega)
  by_cases h110 : i < 120
  · exact row_of rows110 (by omega) (by omega)
  by_cases h120 : i < 130
  · exact row_of rows120 (by omega) (by omega)
  by_cases h130 : i < 140
  · exact row_of rows130 (by omega) (by omega)
  by_cases h140 : i < 150
  · exact row_of rows140 (by omega) (by omega)
  by_cases h150 : i < 160
  · exact row_of rows150 (by omega) (by omega)
  by_cases h160 : i < 170
  · exact row_of rows160 (by omega) (by omega)
  by_cases h170 : i < 180
  · exact row_of rows170 (by omega) (by omega)
  by_cases h180 : i < 182
  · exact row_of rows180 (by omega) (by omega)
  omega

end Verif.Lexer
