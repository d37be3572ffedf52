import Verif.Num.FloatOps
import Mathlib.Algebra.Order.Floor.Ring
import Mathlib.Algebra.Order.Field.Basic
import Mathlib.Algebra.Order.Round
import Mathlib.Data.Rat.Cast.Order
import Mathlib.Tactic.Linarith
import Mathlib.Tactic.FieldSimp
import Mathlib.Tactic.Ring
import Mathlib.Tactic.Positivity

/-!
# Exact arithmetic instance

`FloatOps K` for every linearly ordered field with a floor function (`ℚ`, `ℝ`): the same algorithms
without rounding error.
-/

set_option linter.unusedSectionVars false

namespace Verif
open FloatOps

variable {K : Type} [Field K] [LinearOrder K] [IsStrictOrderedRing K] [FloorRing K]

/-- `std::round`: nearest integer, halves away from zero. -/
def roundHalfAway (x : K) : ℤ := if 0 ≤ x then ⌊x + 1 / 2⌋ else ⌈x - 1 / 2⌉

/-- `std::numeric_limits<float>::max()` = (2^24 - 1) * 2^104. -/
def maxFiniteRat : ℚ := (2 ^ 24 - 1) * 2 ^ 104

/-- Exact arithmetic. -/
instance (priority := 50) exactOps : FloatOps K where
  add a b := a + b
  sub a b := a - b
  mul a b := a * b
  div a b := a / b
  neg a := -a
  lt a b := decide (a < b)
  le a b := decide (a ≤ b)
  beq a b := decide (a = b)
  floor a := (⌊a⌋ : K)
  ceil a := (⌈a⌉ : K)
  round a := (roundHalfAway a : K)
  ofRat q := (q : K)
  maxFinite := (maxFiniteRat : K)

instance (priority := 50) exactWide {K : Type} [Field K] : Wide K K := ⟨id, id⟩

section simps
variable (a b : K)
@[simp] theorem ex_add : a +. b = a + b := rfl
@[simp] theorem ex_sub : a -. b = a - b := rfl
@[simp] theorem ex_mul : a *. b = a * b := rfl
@[simp] theorem ex_div : a /. b = a / b := rfl
@[simp] theorem ex_neg : FloatOps.neg a = -a := rfl
@[simp] theorem ex_lt : (a <. b) = decide (a < b) := rfl
@[simp] theorem ex_le : (a <=. b) = decide (a ≤ b) := rfl
@[simp] theorem ex_beq : FloatOps.beq a b = decide (a = b) := rfl
@[simp] theorem ex_floor : FloatOps.floor a = (⌊a⌋ : K) := rfl
@[simp] theorem ex_ceil : FloatOps.ceil a = (⌈a⌉ : K) := rfl
@[simp] theorem ex_round : FloatOps.round a = (roundHalfAway a : K) := rfl
@[simp] theorem ex_ofRat (q : ℚ) : (FloatOps.ofRat q : K) = (q : K) := rfl
@[simp] theorem ex_maxFinite : (FloatOps.maxFinite : K) = (maxFiniteRat : K) := rfl
@[simp] theorem ex_widen : (Wide.widen a : K) = a := rfl
@[simp] theorem ex_narrow : (Wide.narrow a : K) = a := rfl

@[simp] theorem ex_fmax : fmax a b = max a b := by
  unfold fmax
  simp only [ex_lt, decide_eq_true_eq]
  split
  · rename_i h; exact (max_eq_right h.le).symm
  · rename_i h; exact (max_eq_left (not_lt.mp h)).symm
@[simp] theorem ex_fmin : fmin a b = min a b := by
  unfold fmin
  simp only [ex_lt, decide_eq_true_eq]
  split
  · rename_i h; exact (min_eq_right h.le).symm
  · rename_i h; exact (min_eq_left (not_lt.mp h)).symm
end simps

theorem roundHalfAway_intCast (n : ℤ) : roundHalfAway (n : K) = n := by
  unfold roundHalfAway
  split
  · rw [Int.floor_eq_iff]; constructor <;> linarith
  · rw [Int.ceil_eq_iff]; constructor <;> linarith

theorem roundHalfAway_nonneg {x : K} (h : 0 ≤ x) : 0 ≤ roundHalfAway x := by
  unfold roundHalfAway
  rw [if_pos h]
  exact Int.floor_nonneg.mpr (by linarith)

theorem roundHalfAway_le (x : K) : (roundHalfAway x : K) ≤ x + 1 / 2 := by
  unfold roundHalfAway
  split
  · exact Int.floor_le _
  · have := Int.ceil_lt_add_one (x - 1 / 2); linarith

theorem le_roundHalfAway (x : K) : x - 1 / 2 ≤ (roundHalfAway x : K) := by
  unfold roundHalfAway
  split
  · have := Int.lt_floor_add_one (x + 1 / 2); linarith
  · exact Int.le_ceil _

theorem roundHalfAway_mono {x y : K} (h : x ≤ y) : roundHalfAway x ≤ roundHalfAway y := by
  unfold roundHalfAway
  split <;> split
  · exact Int.floor_le_floor (by linarith)
  · linarith
  · rename_i h1 h2
    have a : ⌈x - 1 / 2⌉ ≤ 0 := Int.ceil_le.mpr (by push_cast; linarith)
    have b : 0 ≤ ⌊y + 1 / 2⌋ := Int.floor_nonneg.mpr (by linarith)
    linarith
  · exact Int.ceil_le_ceil (by linarith)

instance : SignLaws K where
  le_of_lt a b h := by simp at *; exact h.le
  le_refl_zero := by simp
  not_lt_of_le a b h := by simp at *; exact h
  sub_not_neg a b h := by simp at *; exact h
  add_not_neg a b h h' := by simp at *; linarith
  mul_not_neg a b h h' := by simp at *; positivity
  div_not_neg a b h h' := by simp at *; positivity
  round_not_neg a h := by
    simp at *
    exact_mod_cast roundHalfAway_nonneg h
  ceil_not_neg a h := by
    simp at *
    exact_mod_cast Int.ceil_nonneg h
  floor_not_neg a h := by
    simp at *
    exact_mod_cast Int.floor_nonneg.mpr h
  not_neg_of_not_lt u x h h' := by simp at *; linarith
  not_neg_of_lt m x h h' := by simp at *; linarith

end Verif
