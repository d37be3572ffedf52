import Verif.Num.Error
import Verif.Model.Account

/-!
# Rounding to units in binary32

Error bounds of `Floor`, `Ceil`, `Round` (base/account.cc 7-17) in binary32.
-/

namespace Verif.FloatMoney
open FloatOps Fl

/-- Half the smallest positive binary32 number. -/
def tinyQ : ℚ := 1 / 2 ^ 150

theorem tinyQ_pos : 0 < tinyQ := by unfold tinyQ; positivity

theorem err32 (x : ℚ) : errBound binary32 x = |x| / 16777216 + tinyQ := by
  unfold errBound tinyQ
  have h1 : (2 : ℚ) ^ (-((24 : ℕ) : ℤ)) = 1 / 16777216 := by
    rw [zpow_neg]; norm_num
  have h2 : (2 : ℚ) ^ ((-149 : ℤ) - 1) = 1 / 2 ^ 150 := by
    rw [show ((-149 : ℤ) - 1) = -((150 : ℕ) : ℤ) by norm_num, zpow_neg, zpow_natCast, one_div]
  change (2 : ℚ) ^ (-((24 : ℕ) : ℤ)) * |x| + (2 : ℚ) ^ ((-149 : ℤ) - 1) = _
  rw [h1, h2]; ring

/-- `x` is within `E` of a whole number of units, if units are used. -/
def NearGrid (unit x : F32) (E : ℚ) : Prop :=
  (lit F32 0 <. unit) = true → ∃ N : ℤ, |toQ x - N * toQ unit| ≤ E

theorem lit0 : (lit F32 0) = fin 0 := by
  show Fl.ofRat binary32 0 = fin 0
  simp [Fl.ofRat]

theorem unit_pos {u : F32} (hf : IsFin u) (h : (lit F32 0 <. u) = true) : 0 < toQ u := by
  rw [lit0] at h
  exact (lt_iff (a := fin 0) trivial hf).mp h

theorem abs_add_bound {x y e : ℚ} (h : |x - y| ≤ e) : |x| ≤ |y| + e ∧ |y| ≤ |x| + e := by
  have h1 := abs_sub_abs_le_abs_sub x y
  have h2 := abs_sub_abs_le_abs_sub y x
  rw [abs_sub_comm y x] at h2
  constructor <;> linarith

theorem prodErr {u : F32} {n : F32} {N : ℤ} (hn : toQ n = N) (h : IsFin (u *. n)) :
    IsFin u ∧ IsFin n ∧ |toQ (u *. n) - N * toQ u| ≤ |N * toQ u| / 16777216 + tinyQ ∧
    |toQ (u *. n) - N * toQ u| ≤ 2 * |toQ (u *. n)| / 16777216 + 2 * tinyQ := by
  obtain ⟨h1, h2, h3⟩ := mul_err (a := u) (b := n) h
  rw [hn, err32, mul_comm (toQ u)] at h3
  change |toQ (u *. n) - N * toQ u| ≤ _ at h3
  refine ⟨h1, h2, h3, ?_⟩
  have := (abs_add_bound h3).2
  have := tinyQ_pos
  have := abs_nonneg (toQ (u *. n))
  linarith

theorem roundUnit_close {u x : F32} {E : ℚ} (hE : 0 ≤ E) (hg : NearGrid u x E)
    (h : IsFin (roundUnit x u)) :
    IsFin x ∧ |toQ (roundUnit x u) - toQ x| ≤ 4 * E + 4 * |toQ x| / 16777216 + tinyQ * (1 + 4 * |toQ u|) ∧
    NearGrid u (roundUnit x u) (2 * |toQ (roundUnit x u)| / 16777216 + 2 * tinyQ) := by
  have ht := tinyQ_pos
  unfold roundUnit at h ⊢
  by_cases hu : (lit F32 0 <. u) = true
  swap
  · have hu' : ((u >. lit F32 0) = true) ↔ False := by simpa using hu
    rw [if_neg (by simpa using hu)] at h ⊢
    refine ⟨h, ?_, fun hh => absurd hh hu⟩
    rw [sub_self, abs_zero]
    have : 0 ≤ |toQ x| := abs_nonneg _
    have : 0 ≤ tinyQ * (1 + 4 * |toQ u|) := by positivity
    linarith
  rw [if_pos hu] at h ⊢
  obtain ⟨hfu, hfr, -⟩ := mul_err (a := u) (b := FloatOps.round (x /. u)) h
  obtain ⟨hfd, n, hn, hr⟩ := round_spec (x := x /. u) hfr
  obtain ⟨-, -, hp1, hp2⟩ := prodErr (u := u) (n := FloatOps.round (x /. u)) hn h
  obtain ⟨hfx, -, hd⟩ := div_err (a := x) hfu hfd
  change |toQ (x /. u) - _| ≤ _ at hd
  refine ⟨hfx, ?_, fun _ => ⟨n, hp2⟩⟩
  obtain ⟨N, hN⟩ := hg hu
  have hup := unit_pos hfu hu
  rw [err32] at hd
  generalize toQ (u *. FloatOps.round (x /. u)) = R at *
  generalize toQ (x /. u) = y at *
  generalize toQ x = X at *
  generalize toQ u = U at *
  -- distance of the quotient from N
  have hXU : |X / U| = |X| / U := by rw [abs_div, abs_of_pos hup]
  set D := E / U + |X| / U / 16777216 + tinyQ with hD
  have hyN : |y - N| ≤ D := by
    have h1 : |X / U - N| ≤ E / U := by
      have : X / U - N = (X - N * U) / U := by field_simp
      rw [this, abs_div, abs_of_pos hup]
      exact div_le_div_of_nonneg_right hN hup.le
    rw [hXU] at hd
    have := abs_add_le (y - X / U) (X / U - N)
    have e : y - X / U + (X / U - N) = y - N := by ring
    rw [e] at this
    linarith
  have hD0 : 0 ≤ D := le_trans (abs_nonneg _) hyN
  have hnN : |(n : ℚ) - N| ≤ 2 * D := by
    have h1 : |(n : ℚ) - N| ≤ 1 / 2 + D := by
      have := abs_add_le ((n : ℚ) - y) (y - N)
      have e : (n : ℚ) - y + (y - N) = n - N := by ring
      rw [e] at this
      linarith
    by_cases hs : D < 1 / 2
    · have h2 : |(n : ℚ) - N| < 1 := by linarith
      have h3 : |n - N| < 1 := by exact_mod_cast h2
      have h4 : n - N = 0 := Int.abs_lt_one_iff.mp h3
      have : (n : ℚ) - N = 0 := by exact_mod_cast h4
      rw [this, abs_zero]; linarith
    · linarith
  have hnU : |n * U - X| ≤ 3 * E + 2 * |X| / 16777216 + 2 * tinyQ * U := by
    have h1 : |n * U - N * U| ≤ 2 * D * U := by
      rw [← sub_mul, abs_mul, abs_of_pos hup]
      exact mul_le_mul_of_nonneg_right hnN hup.le
    have h2 : 2 * D * U = 2 * E + 2 * |X| / 16777216 + 2 * tinyQ * U := by
      rw [hD]; field_simp
    have := abs_add_le (n * U - N * U) (N * U - X)
    have e : n * U - N * U + (N * U - X) = n * U - X := by ring
    rw [e, abs_sub_comm (↑N * U) X] at this
    linarith
  have h5 := (abs_add_bound hnU).1
  have := abs_add_le (R - n * U) (n * U - X)
  have e : R - n * U + (n * U - X) = R - X := by ring
  rw [e] at this
  have h6 : |U| = U := abs_of_pos hup
  rw [h6]
  have h7 : 0 ≤ tinyQ * U := by positivity
  have h8 : 0 ≤ |X| := abs_nonneg _
  linarith

theorem ceilUnit_close {u x : F32} (hx0 : 0 ≤ toQ x) (h : IsFin (ceilUnit x u)) :
    IsFin x ∧ toQ x - 3 * toQ x / 16777216 - tinyQ * (1 + 2 * |toQ u|) ≤ toQ (ceilUnit x u) ∧
    toQ (ceilUnit x u) ≤ toQ x + 3 * toQ x / 16777216 + 17 / 16 * |toQ u| + tinyQ * (1 + 2 * |toQ u|) ∧
    NearGrid u (ceilUnit x u) (2 * |toQ (ceilUnit x u)| / 16777216 + 2 * tinyQ) := by
  have ht := tinyQ_pos
  unfold ceilUnit at h ⊢
  by_cases hu : (lit F32 0 <. u) = true
  swap
  · rw [if_neg (by simpa using hu)] at h ⊢
    have : 0 ≤ |toQ u| := abs_nonneg _
    have : 0 ≤ tinyQ * (1 + 2 * |toQ u|) := by positivity
    exact ⟨h, by linarith, by linarith, fun hh => absurd hh hu⟩
  rw [if_pos hu] at h ⊢
  obtain ⟨hfu, hfr, -⟩ := mul_err (a := u) (b := FloatOps.ceil (x /. u)) h
  obtain ⟨hfd, hn⟩ := ceil_spec (x := x /. u) hfr
  obtain ⟨-, -, hp1, hp2⟩ := prodErr (u := u) (n := FloatOps.ceil (x /. u)) hn h
  have hgrid : NearGrid u (u *. FloatOps.ceil (x /. u))
      (2 * |toQ (u *. FloatOps.ceil (x /. u))| / 16777216 + 2 * tinyQ) := fun _ => ⟨_, hp2⟩
  obtain ⟨hfx, -, hd⟩ := div_err (a := x) hfu hfd
  change |toQ (x /. u) - _| ≤ _ at hd
  have hup := unit_pos hfu hu
  rw [err32] at hd
  have hc1 := Int.le_ceil (toQ (x /. u))
  have hc2 := Int.ceil_lt_add_one (toQ (x /. u))
  generalize ⌈toQ (x /. u)⌉ = n at *
  generalize toQ (u *. FloatOps.ceil (x /. u)) = R at *
  generalize toQ (x /. u) = y at *
  generalize toQ x = X at *
  generalize toQ u = U at *
  rw [abs_of_nonneg (div_nonneg hx0 hup.le)] at hd
  have h6 : |U| = U := abs_of_pos hup
  rw [h6]
  obtain ⟨hd1, hd2⟩ := abs_le.mp hd
  have k1 : X - X / 16777216 - tinyQ * U ≤ n * U := by
    have : (X / U - (X / U / 16777216 + tinyQ)) * U ≤ n * U :=
      mul_le_mul_of_nonneg_right (by linarith) hup.le
    have e : (X / U - (X / U / 16777216 + tinyQ)) * U = X - X / 16777216 - tinyQ * U := by
      field_simp; ring
    linarith
  have k2 : n * U ≤ X + X / 16777216 + tinyQ * U + U := by
    have : n * U ≤ (X / U + (X / U / 16777216 + tinyQ) + 1) * U :=
      mul_le_mul_of_nonneg_right (by linarith) hup.le
    have e : (X / U + (X / U / 16777216 + tinyQ) + 1) * U = X + X / 16777216 + tinyQ * U + U := by
      field_simp; ring
    linarith
  have k3 : |(n : ℚ) * U| ≤ X + X / 16777216 + tinyQ * U + U := by
    have : 0 ≤ tinyQ * U := by positivity
    rw [abs_le]; constructor <;> linarith
  obtain ⟨hp3, hp4⟩ := abs_le.mp hp1
  have h7 : 0 ≤ tinyQ * U := by positivity
  have h8 : tinyQ * (1 + 2 * U) = tinyQ + 2 * (tinyQ * U) := by ring
  refine ⟨hfx, ?_, ?_, hgrid⟩
  · by_cases hs : 0 ≤ (n : ℚ) * U
    · rw [abs_of_nonneg hs] at hp3
      linarith
    · rw [abs_of_neg (not_le.mp hs)] at hp3
      linarith
  · linarith

theorem floorUnit_close {u x : F32} (hx0 : 0 ≤ toQ x) (h : IsFin (floorUnit x u)) :
    IsFin x ∧ toQ (floorUnit x u) ≤ toQ x + 3 * toQ x / 16777216 + tinyQ * (1 + 2 * |toQ u|) ∧
    toQ x - 3 * toQ x / 16777216 - 2 * |toQ u| - tinyQ * (1 + 2 * |toQ u|) ≤ toQ (floorUnit x u) ∧
    NearGrid u (floorUnit x u) (2 * |toQ (floorUnit x u)| / 16777216 + 2 * tinyQ) := by
  have ht := tinyQ_pos
  unfold floorUnit at h ⊢
  by_cases hu : (lit F32 0 <. u) = true
  swap
  · rw [if_neg (by simpa using hu)] at h ⊢
    have : 0 ≤ |toQ u| := abs_nonneg _
    have : 0 ≤ tinyQ * (1 + 2 * |toQ u|) := by positivity
    exact ⟨h, by linarith, by linarith, fun hh => absurd hh hu⟩
  rw [if_pos hu] at h ⊢
  obtain ⟨hfu, hfr, -⟩ := mul_err (a := u) (b := FloatOps.floor (x /. u)) h
  obtain ⟨hfd, hn⟩ := floor_spec (x := x /. u) hfr
  obtain ⟨-, -, hp1, hp2⟩ := prodErr (u := u) (n := FloatOps.floor (x /. u)) hn h
  have hgrid : NearGrid u (u *. FloatOps.floor (x /. u))
      (2 * |toQ (u *. FloatOps.floor (x /. u))| / 16777216 + 2 * tinyQ) := fun _ => ⟨_, hp2⟩
  obtain ⟨hfx, -, hd⟩ := div_err (a := x) hfu hfd
  change |toQ (x /. u) - _| ≤ _ at hd
  have hup := unit_pos hfu hu
  rw [err32] at hd
  have hc1 := Int.floor_le (toQ (x /. u))
  have hc2 := Int.lt_floor_add_one (toQ (x /. u))
  generalize ⌊toQ (x /. u)⌋ = n at *
  generalize toQ (u *. FloatOps.floor (x /. u)) = R at *
  generalize toQ (x /. u) = y at *
  generalize toQ x = X at *
  generalize toQ u = U at *
  rw [abs_of_nonneg (div_nonneg hx0 hup.le)] at hd
  have h6 : |U| = U := abs_of_pos hup
  rw [h6]
  obtain ⟨hd1, hd2⟩ := abs_le.mp hd
  have k1 : X - X / 16777216 - tinyQ * U - U ≤ n * U := by
    have : (X / U - (X / U / 16777216 + tinyQ) - 1) * U ≤ n * U :=
      mul_le_mul_of_nonneg_right (by linarith) hup.le
    have e : (X / U - (X / U / 16777216 + tinyQ) - 1) * U = X - X / 16777216 - tinyQ * U - U := by
      field_simp; ring
    linarith
  have k2 : n * U ≤ X + X / 16777216 + tinyQ * U := by
    have : n * U ≤ (X / U + (X / U / 16777216 + tinyQ)) * U :=
      mul_le_mul_of_nonneg_right (by linarith) hup.le
    have e : (X / U + (X / U / 16777216 + tinyQ)) * U = X + X / 16777216 + tinyQ * U := by
      field_simp; ring
    linarith
  have h7 : 0 ≤ tinyQ * U := by positivity
  have k3 : |(n : ℚ) * U| ≤ X + X / 16777216 + tinyQ * U + U := by
    rw [abs_le]; constructor <;> linarith
  obtain ⟨hp3, hp4⟩ := abs_le.mp hp1
  have h8 : tinyQ * (1 + 2 * U) = tinyQ + 2 * (tinyQ * U) := by ring
  refine ⟨hfx, ?_, ?_, hgrid⟩
  · by_cases hs : 0 ≤ (n : ℚ) * U
    · rw [abs_of_nonneg hs] at hp4
      linarith
    · rw [abs_of_neg (not_le.mp hs)] at hp4
      linarith
  · linarith

end Verif.FloatMoney
