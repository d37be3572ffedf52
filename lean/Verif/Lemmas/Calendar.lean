import Verif.Model.Time
import Verif.Spec.Calendar
import Mathlib.Tactic.Linarith

/-! # Arithmetic of the civil calendar -/

namespace Verif.Time
open Spec

theorem monthStart_step (n : ℤ) : monthStart (n + 1) = monthStart n + monthLength (n / 12) (n % 12 + 1) := by
  have hm : n % 12 = 0 ∨ n % 12 = 1 ∨ n % 12 = 2 ∨ n % 12 = 3 ∨ n % 12 = 4 ∨ n % 12 = 5 ∨ n % 12 = 6 ∨ n % 12 = 7 ∨
      n % 12 = 8 ∨ n % 12 = 9 ∨ n % 12 = 10 ∨ n % 12 = 11 := by omega
  unfold monthStart monthLength leap
  dsimp only
  rcases hm with h | h | h | h | h | h | h | h | h | h | h | h
  all_goals
    rw [h]
    norm_num
  · have e1 : (n + 1 - 2) / 12 = (n - 2) / 12 := by omega
    have e2 : (n + 1 - 2) % 12 = 11 := by omega
    have e3 : (n - 2) % 12 = 10 := by omega
    rw [e1, e2, e3]; omega
  · have e1 : (n + 1 - 2) / 12 = (n - 2) / 12 + 1 := by omega
    have e2 : (n + 1 - 2) % 12 = 0 := by omega
    have e3 : (n - 2) % 12 = 11 := by omega
    have e4 : (n - 2) / 12 = n / 12 - 1 := by omega
    rw [e1, e2, e3, e4]
    generalize n / 12 = y
    split <;> omega
  all_goals
    have e1 : (n + 1 - 2) / 12 = (n - 2) / 12 := by omega
    rw [e1]
    generalize hy : (n - 2) / 12 = y
    have e2 : (n + 1 - 2) % 12 = (n - 2) % 12 + 1 := by omega
    rw [e2]
    have e3 : (n - 2) % 12 = n % 12 - 2 := by omega
    rw [e3, h]
    norm_num
  all_goals omega

theorem monthLength_bounds (y m : ℤ) : 28 ≤ monthLength y m ∧ monthLength y m ≤ 31 := by
  unfold monthLength
  split
  · split <;> omega
  · split <;> omega

theorem monthStart_lt (n : ℤ) : monthStart n + 28 ≤ monthStart (n + 1) := by
  rw [monthStart_step]; have := monthLength_bounds (n / 12) (n % 12 + 1); omega

theorem monthStart_add (n : ℤ) (k : ℕ) : monthStart n + 28 * k ≤ monthStart (n + k) := by
  induction k with
  | zero => simp
  | succ k ih =>
    have := monthStart_lt (n + k)
    push_cast
    rw [← add_assoc]
    omega

theorem monthStart_mono {a b : ℤ} (h : a ≤ b) : monthStart a + 28 * (b - a) ≤ monthStart b := by
  have := monthStart_add a (b - a).toNat
  rw [show a + ((b - a).toNat : ℤ) = b by omega] at this
  omega

/-- `monthOf z` is the month containing day `z`. -/
theorem monthOf_spec (z : ℤ) : monthStart (monthOf z) ≤ z ∧ z < monthStart (monthOf z + 1) := by
  have key : monthStart ((z + 719468) * 4800 / 146097 + 2 - 1) ≤ z ∧ z < monthStart ((z + 719468) * 4800 / 146097 + 2 + 2) := by
    unfold monthStart
    dsimp only
    generalize hq : (z + 719468) * 4800 / 146097 = q
    have e1 : q + 2 - 1 - 2 = q - 1 := by omega
    have e2 : q + 2 + 2 - 2 = q + 2 := by omega
    rw [e1, e2]
    constructor
    · generalize hy : (q - 1) / 12 = y
      generalize hm : (q - 1) % 12 = m
      omega
    · generalize hy : (q + 2) / 12 = y
      generalize hm : (q + 2) % 12 = m
      omega
  unfold monthOf
  dsimp only
  split
  · next h => exact ⟨h, by have := key.2; rwa [show (z + 719468) * 4800 / 146097 + 2 + 1 + 1 = (z + 719468) * 4800 / 146097 + 2 + 2 by omega]⟩
  · split
    · next h1 h2 => exact ⟨h2, by omega⟩
    · next h1 h2 => exact ⟨key.1, by rw [sub_add_cancel]; omega⟩

theorem monthOf_unique {z n : ℤ} (h1 : monthStart n ≤ z) (h2 : z < monthStart (n + 1)) : monthOf z = n := by
  obtain ⟨g1, g2⟩ := monthOf_spec z
  by_contra hne
  rcases lt_or_gt_of_ne hne with hlt | hgt
  · have := monthStart_mono (show monthOf z + 1 ≤ n by omega); omega
  · have := monthStart_mono (show n + 1 ≤ monthOf z by omega); omega

end Verif.Time
