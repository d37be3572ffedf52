import Verif.Num.IEEELemmas
import Mathlib.Algebra.Order.Floor.Ring
import Mathlib.Tactic.Linarith
import Mathlib.Tactic.Ring
import Mathlib.Tactic.FieldSimp
import Mathlib.Tactic.Positivity
import Mathlib.Algebra.Order.Field.Power

/-!
# The standard model of floating point error

Every finite result of `+ - * /` differs from the exact result by at most a relative error `2^-p` plus, near
zero, half the smallest positive number.
-/

namespace Verif.Fl
variable {f : Fmt}

/-- A number: neither NaN nor an infinity. -/
def IsFin : Fl f → Prop
  | fin _ => True
  | negZero => True
  | _ => False

instance : (x : Fl f) → Decidable (IsFin x)
  | fin _ => isTrue trivial
  | negZero => isTrue trivial
  | nan => isFalse id
  | inf _ => isFalse id

/-- Bound of the rounding error of a result whose exact value is `x`. -/
def errBound (f : Fmt) (x : ℚ) : ℚ := (2 : ℚ) ^ (-(f.p : ℤ)) * |x| + (2 : ℚ) ^ (f.emin - 1)

theorem errBound_nonneg (x : ℚ) : 0 ≤ errBound f x := by
  unfold errBound; positivity

theorem rne_err (y : ℚ) : |(rne y : ℚ) - y| ≤ 1 / 2 := by
  have h1 := Int.floor_le y
  have h2 := Int.lt_floor_add_one y
  unfold rne
  dsimp only
  split_ifs <;> push_cast <;> rw [abs_le] <;> constructor <;> linarith

theorem ulp_le (x : ℚ) (hx : x ≠ 0) : ulp f x ≤ 2 * errBound f x := by
  have hax : 0 < |x| := abs_pos.mpr hx
  have hlow := Int.zpow_log_le_self (b := 2) (by norm_num) hax
  push_cast at hlow
  have h2 : (2 : ℚ) ≠ 0 := by norm_num
  unfold ulp errBound
  rcases le_total (Int.log 2 |x| - (f.p - 1)) f.emin with h | h
  · rw [max_eq_right h]
    have h3 : (2 : ℚ) ^ f.emin = 2 * (2 : ℚ) ^ (f.emin - 1) := by
      rw [zpow_sub_one₀ h2]; ring
    have : 0 ≤ (2 : ℚ) ^ (-(f.p : ℤ)) * |x| := by positivity
    linarith
  · rw [max_eq_left h]
    have h3 : (2 : ℚ) ^ (Int.log 2 |x| - ((f.p : ℤ) - 1)) = 2 * ((2 : ℚ) ^ (-(f.p : ℤ)) * (2 : ℚ) ^ (Int.log 2 |x|)) := by
      rw [← zpow_add₀ h2, ← zpow_one_add₀ h2]; congr 1; ring
    have h4 : (2 : ℚ) ^ (-(f.p : ℤ)) * (2 : ℚ) ^ (Int.log 2 |x|) ≤ (2 : ℚ) ^ (-(f.p : ℤ)) * |x| :=
      mul_le_mul_of_nonneg_left hlow (by positivity)
    have : 0 < (2 : ℚ) ^ (f.emin - 1) := by positivity
    linarith

theorem rndQ_err {x : ℚ} (hx : x ≠ 0) : |rndQ f x - x| ≤ errBound f x := by
  have hu := ulp_pos f x
  have h := rne_err (x / ulp f x)
  have e : rndQ f x - x = ((rne (x / ulp f x) : ℚ) - x / ulp f x) * ulp f x := by
    unfold rndQ; field_simp
  rw [e, abs_mul, abs_of_pos hu]
  have := mul_le_mul_of_nonneg_right h hu.le
  have := ulp_le (f := f) x hx
  linarith

theorem rnd_err {x : ℚ} (hx : x ≠ 0) (h : IsFin (rnd f x)) : |toQ (rnd f x) - x| ≤ errBound f x := by
  have he := rndQ_err (f := f) hx
  unfold rnd at h ⊢
  dsimp only at h ⊢
  by_cases h1 : (2 : ℚ) ^ f.emax ≤ |rndQ f x|
  · rw [if_pos h1] at h; exact h.elim
  · rw [if_neg h1] at h ⊢
    by_cases h2 : rndQ f x = 0
    · rw [if_pos h2]
      rw [h2] at he
      by_cases h3 : x < 0
      · rw [if_pos h3]; simpa [toQ] using he
      · rw [if_neg h3]; simpa [toQ] using he
    · rw [if_neg h2]; simpa [toQ] using he

theorem ofRat_err {x : ℚ} (h : IsFin (ofRat f x)) : |toQ (ofRat f x) - x| ≤ errBound f x := by
  unfold ofRat at h ⊢
  by_cases hx : x = 0
  · rw [if_pos hx, hx]; simpa [toQ] using errBound_nonneg (f := f) 0
  · rw [if_neg hx] at h ⊢; exact rnd_err hx h

theorem toQ_neg (a : Fl f) : toQ (neg a) = -toQ a := by
  cases a with
  | fin q =>
    rw [neg_fin]
    by_cases h : q = 0
    · rw [if_pos h, h]; simp [toQ]
    · rw [if_neg h]; rfl
  | _ => simp [toQ]

theorem isFin_neg {a : Fl f} : IsFin (neg a) ↔ IsFin a := by
  cases a with
  | fin q => rw [neg_fin]; split <;> simp [IsFin]
  | _ => simp [IsFin]

theorem toQ_zero (s : Bool) : toQ (zero s : Fl f) = 0 := by cases s <;> rfl

theorem isFin_zero (s : Bool) : IsFin (zero s : Fl f) := by cases s <;> trivial

theorem add_err {a b : Fl f} (h : IsFin (add a b)) :
    IsFin a ∧ IsFin b ∧ |toQ (add a b) - (toQ a + toQ b)| ≤ errBound f (toQ a + toQ b) := by
  cases a with
  | nan => exact h.elim
  | inf s =>
    cases b with
    | inf t => rw [add_inf_inf] at h; split at h <;> exact h.elim
    | nan => exact h.elim
    | negZero => exact h.elim
    | fin q => exact h.elim
  | negZero =>
    cases b with
    | inf t => exact h.elim
    | nan => exact h.elim
    | negZero => exact ⟨trivial, trivial, by simpa [toQ] using errBound_nonneg (f := f) 0⟩
    | fin q => exact ⟨trivial, trivial, ofRat_err h⟩
  | fin p =>
    cases b with
    | inf t => exact h.elim
    | nan => exact h.elim
    | negZero => exact ⟨trivial, trivial, ofRat_err h⟩
    | fin q => exact ⟨trivial, trivial, ofRat_err h⟩

theorem sub_err {a b : Fl f} (h : IsFin (sub a b)) :
    IsFin a ∧ IsFin b ∧ |toQ (sub a b) - (toQ a - toQ b)| ≤ errBound f (toQ a - toQ b) := by
  obtain ⟨h1, h2, h3⟩ := add_err (a := a) (b := neg b) h
  rw [toQ_neg, ← sub_eq_add_neg] at h3
  exact ⟨h1, isFin_neg.mp h2, h3⟩

theorem mul_err {a b : Fl f} (h : IsFin (mul a b)) :
    IsFin a ∧ IsFin b ∧ |toQ (mul a b) - toQ a * toQ b| ≤ errBound f (toQ a * toQ b) := by
  cases a with
  | nan => exact h.elim
  | inf s =>
    cases b with
    | inf t => rw [mul_inf_inf] at h; exact h.elim
    | nan => exact h.elim
    | negZero => rw [mul_inf_nz] at h; exact h.elim
    | fin q => rw [mul_inf_fin] at h; split at h <;> exact h.elim
  | negZero =>
    cases b with
    | inf t => exact h.elim
    | nan => exact h.elim
    | negZero => exact ⟨trivial, trivial, by simpa [toQ] using errBound_nonneg (f := f) 0⟩
    | fin q => exact ⟨trivial, trivial, by rw [mul_nz_fin, toQ_zero]; simpa [toQ] using errBound_nonneg (f := f) 0⟩
  | fin p =>
    cases b with
    | inf t => rw [mul_fin_inf] at h; split at h <;> exact h.elim
    | nan => exact h.elim
    | negZero => exact ⟨trivial, trivial, by rw [mul_fin_nz, toQ_zero]; simpa [toQ] using errBound_nonneg (f := f) 0⟩
    | fin q =>
      refine ⟨trivial, trivial, ?_⟩
      rw [mul_fin_fin] at h ⊢
      change |toQ (if p * q = 0 then zero _ else rnd f (p * q)) - p * q| ≤ errBound f (p * q)
      by_cases h0 : p * q = 0
      · rw [if_pos h0, h0, toQ_zero]; simpa using errBound_nonneg (f := f) 0
      · rw [if_neg h0] at h ⊢; exact rnd_err h0 h

theorem div_err {a b : Fl f} (hb : IsFin b) (h : IsFin (div a b)) :
    IsFin a ∧ toQ b ≠ 0 ∧ |toQ (div a b) - toQ a / toQ b| ≤ errBound f (toQ a / toQ b) := by
  cases b with
  | nan => exact hb.elim
  | inf t => exact hb.elim
  | negZero =>
    cases a with
    | nan => exact h.elim
    | inf s => exact h.elim
    | negZero => exact h.elim
    | fin p => rw [div_fin_nz] at h; split at h <;> exact h.elim
  | fin q =>
    cases a with
    | nan => exact h.elim
    | inf s => exact h.elim
    | negZero =>
      rw [div_nz_fin] at h ⊢
      by_cases h0 : q = 0
      · rw [if_pos h0] at h; exact h.elim
      · rw [if_neg h0, toQ_zero]
        exact ⟨trivial, h0, by simpa [toQ] using errBound_nonneg (f := f) 0⟩
    | fin p =>
      rw [div_fin_fin] at h ⊢
      by_cases h0 : q = 0
      · rw [if_pos h0] at h; split at h <;> exact h.elim
      · rw [if_neg h0] at h ⊢
        by_cases h1 : p = 0
        · rw [if_pos h1, toQ_zero]
          exact ⟨trivial, h0, by simpa [toQ, h1] using errBound_nonneg (f := f) 0⟩
        · rw [if_neg h1] at h ⊢
          exact ⟨trivial, h0, rnd_err (div_ne_zero h1 h0) h⟩

theorem toQ_ofIntSigned (s : Bool) (n : ℤ) : toQ (ofIntSigned s n : Fl f) = n := by
  unfold ofIntSigned
  by_cases h : n = 0
  · rw [if_pos h, toQ_zero, h]; simp
  · rw [if_neg h]; rfl

theorem isFin_ofIntSigned (s : Bool) (n : ℤ) : IsFin (ofIntSigned s n : Fl f) := by
  unfold ofIntSigned
  split
  · exact isFin_zero _
  · trivial

theorem floor_spec {x : Fl f} (h : IsFin (floor x)) : IsFin x ∧ toQ (floor x) = ⌊toQ x⌋ := by
  cases x with
  | fin q => exact ⟨trivial, toQ_ofIntSigned _ _⟩
  | negZero => exact ⟨trivial, by simp [floor, toQ]⟩
  | nan => exact h.elim
  | inf s => exact h.elim

theorem ceil_spec {x : Fl f} (h : IsFin (ceil x)) : IsFin x ∧ toQ (ceil x) = ⌈toQ x⌉ := by
  cases x with
  | fin q => exact ⟨trivial, toQ_ofIntSigned _ _⟩
  | negZero => exact ⟨trivial, by simp [ceil, toQ]⟩
  | nan => exact h.elim
  | inf s => exact h.elim

/-- `round` gives an integer at distance at most one half. -/
theorem round_spec {x : Fl f} (h : IsFin (round x)) : IsFin x ∧ ∃ n : ℤ, toQ (round x) = n ∧ |(n : ℚ) - toQ x| ≤ 1 / 2 := by
  cases x with
  | fin q =>
    refine ⟨trivial, _, toQ_ofIntSigned _ _, ?_⟩
    simp only [toQ]
    split
    · have h1 := Int.floor_le (q + 1 / 2); have h2 := Int.lt_floor_add_one (q + 1 / 2)
      rw [abs_le]; constructor <;> linarith
    · have h1 := Int.le_ceil (q - 1 / 2); have h2 := Int.ceil_lt_add_one (q - 1 / 2)
      rw [abs_le]; constructor <;> linarith
  | negZero => exact ⟨trivial, 0, by simp [round, toQ], by simp [toQ]⟩
  | nan => exact h.elim
  | inf s => exact h.elim

theorem lt_iff {a b : Fl f} (ha : IsFin a) (hb : IsFin b) : lt a b = true ↔ toQ a < toQ b := by
  cases a <;> cases b <;> simp_all [IsFin, toQ]

theorem lt_eq_false_iff {a b : Fl f} (ha : IsFin a) (hb : IsFin b) : lt a b = false ↔ toQ b ≤ toQ a := by
  cases a <;> cases b <;> simp_all [IsFin, toQ]

end Verif.Fl
