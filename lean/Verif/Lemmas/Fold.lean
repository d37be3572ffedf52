import Verif.Num.Exact
import Mathlib.Algebra.BigOperators.Group.List.Basic

/-! Folds of maximum, minimum and addition. -/

set_option linter.unusedSectionVars false

namespace Verif
open FloatOps
variable {K : Type} [Field K] [LinearOrder K] [IsStrictOrderedRing K] [FloorRing K]

theorem foldl_max_mem (a : K) (l : List K) :
    l.foldl max a ∈ a :: l ∧ ∀ x ∈ a :: l, x ≤ l.foldl max a := by
  induction l generalizing a with
  | nil => simp
  | cons b l ih =>
    obtain ⟨h1, h2⟩ := ih (max a b)
    simp only [List.foldl_cons, List.mem_cons] at *
    constructor
    · rcases h1 with h | h
      · rcases max_choice a b with h' | h' <;> rw [h, h'] <;> simp
      · exact Or.inr (Or.inr h)
    · have h3 := h2 (max a b) (Or.inl rfl)
      rintro x (rfl | rfl | h)
      · exact le_trans (le_max_left _ _) h3
      · exact le_trans (le_max_right _ _) h3
      · exact h2 x (Or.inr h)

theorem foldl_min_mem (a : K) (l : List K) :
    l.foldl min a ∈ a :: l ∧ ∀ x ∈ a :: l, l.foldl min a ≤ x := by
  induction l generalizing a with
  | nil => simp
  | cons b l ih =>
    obtain ⟨h1, h2⟩ := ih (min a b)
    simp only [List.foldl_cons, List.mem_cons] at *
    constructor
    · rcases h1 with h | h
      · rcases min_choice a b with h' | h' <;> rw [h, h'] <;> simp
      · exact Or.inr (Or.inr h)
    · have h3 := h2 (min a b) (Or.inl rfl)
      rintro x (rfl | rfl | h)
      · exact le_trans h3 (min_le_left _ _)
      · exact le_trans h3 (min_le_right _ _)
      · exact h2 x (Or.inr h)

theorem foldl_fmax (a : K) (l : List K) : l.foldl fmax a = l.foldl max a := by
  have : (fmax : K → K → K) = max := by funext x y; exact ex_fmax x y
  rw [this]

theorem foldl_fmin (a : K) (l : List K) : l.foldl fmin a = l.foldl min a := by
  have : (fmin : K → K → K) = min := by funext x y; exact ex_fmin x y
  rw [this]

theorem foldl_fadd (a : K) (l : List K) : l.foldl FloatOps.add a = a + l.sum := by
  induction l generalizing a with
  | nil => simp
  | cons b l ih => simp [ih, add_assoc]

end Verif
