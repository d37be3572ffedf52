import Verif.Spec.FloatStop
import Verif.Lemmas.FloatVal
import Mathlib.Analysis.SpecialFunctions.Exp
import Mathlib.Analysis.SpecialFunctions.ExpDeriv
import Mathlib.Analysis.Complex.ExponentialBounds

/-!
# Rounding errors of the per-tick factor of the stop trader
-/

namespace Verif.FloatStop

section
variable {c y L D T x E S G R p : ℝ}

theorem log_err (hc0 : 1 / 2 ≤ c) (hc1 : c ≤ 2) (hy0 : 1 / 2 ≤ y) (hy1 : y ≤ 2)
    (hy : |y - c| ≤ |c| / 16777216 + 1 / 2 ^ 150) (hL : |L - Real.log y| ≤ |Real.log y| / 2 ^ 23) :
    |L - Real.log c| ≤ 6 / 16777216 ∧ |Real.log c| ≤ 7 / 10 := by
  have key : ∀ z : ℝ, 1 / 2 ≤ z → z ≤ 2 → |Real.log z| ≤ 7 / 10 := by
    intro z h0 h1
    have l2 := Real.log_two_lt_d9
    rw [abs_le]
    constructor
    · have := Real.log_le_log (by norm_num) h0
      rw [show (1 / 2 : ℝ) = 2⁻¹ by norm_num, Real.log_inv] at this
      linarith
    · have := Real.log_le_log (by linarith) h1
      linarith
  have kc := key c hc0 hc1
  have ky := key y hy0 hy1
  refine ⟨?_, kc⟩
  have d : |y - c| ≤ 21 / 10 / 16777216 := by
    rw [abs_of_pos (show (0 : ℝ) < c by linarith)] at hy
    norm_num at hy ⊢
    linarith
  have up : Real.log y - Real.log c ≤ 2 * |y - c| := by
    rw [← Real.log_div (by linarith) (by linarith)]
    have := Real.log_le_sub_one_of_pos (x := y / c) (by apply div_pos <;> linarith)
    have h2 : y / c - 1 = (y - c) / c := by field_simp
    have h3 : (y - c) / c ≤ 2 * |y - c| := by
      rw [div_le_iff₀ (by linarith)]
      nlinarith [le_abs_self (y - c), abs_nonneg (y - c)]
    linarith
  have down : Real.log c - Real.log y ≤ 2 * |y - c| := by
    rw [← Real.log_div (by linarith) (by linarith)]
    have := Real.log_le_sub_one_of_pos (x := c / y) (by apply div_pos <;> linarith)
    have h2 : c / y - 1 = (c - y) / y := by field_simp
    have h3 : (c - y) / y ≤ 2 * |y - c| := by
      rw [div_le_iff₀ (by linarith)]
      nlinarith [neg_abs_le (y - c), abs_nonneg (y - c)]
    linarith
  have hl : |L - Real.log y| ≤ 14 / 10 / 16777216 := by
    refine hL.trans ?_
    norm_num
    linarith
  rw [abs_le] at hl ⊢
  constructor <;> linarith [hl.1, hl.2]

theorem exponent_err (hl : |L - Real.log c| ≤ 6 / 16777216) (hc : |Real.log c| ≤ 7 / 10) (hD0 : 1 ≤ D) (hD1 : D ≤ 3600)
    (hT : |T - 86400 / D| ≤ |86400 / D| / 16777216 + 1 / 2 ^ 150) (hx : |x - L / T| ≤ |L / T| / 16777216 + 1 / 2 ^ 150) :
    |x - Real.log c * (D / 86400)| ≤ 1 / 2 ^ 25 ∧ |Real.log c * (D / 86400)| ≤ 3 / 100 ∧ |x| ≤ 1 := by
  generalize Real.log c = l at *
  obtain ⟨a, ha⟩ : ∃ a : ℝ, a = D / 86400 := ⟨_, rfl⟩
  have ha0 : 0 < a := by rw [ha]; positivity
  have ha1 : a ≤ 1 / 24 := by rw [ha]; linarith
  have hinv : 86400 / D = 1 / a := by rw [ha]; field_simp
  rw [hinv] at hT
  rw [← ha]
  have hTa : |T * a - 1| ≤ 11 / 10 / 16777216 := by
    have h1 : T * a - 1 = (T - 1 / a) * a := by field_simp
    rw [h1, abs_mul, abs_of_pos ha0]
    rw [abs_of_pos (show (0 : ℝ) < 1 / a by positivity)] at hT
    have h2 := mul_le_mul_of_nonneg_right hT ha0.le
    have h3 : (1 / a / 16777216 + 1 / 2 ^ 150) * a = 1 / 16777216 + a / 2 ^ 150 := by field_simp
    rw [h3] at h2
    norm_num at h2 ⊢
    linarith
  rw [abs_le] at hTa
  have hT0 : 0 < T := by
    by_contra h
    have : T * a ≤ 0 := mul_nonpos_of_nonpos_of_nonneg (not_lt.mp h) ha0.le
    linarith [hTa.1]
  obtain ⟨w, hw⟩ : ∃ w : ℝ, w = 1 / (T * a) := ⟨_, rfl⟩
  have hTa0 : 0 < T * a := mul_pos hT0 ha0
  have hw0 : |w - 1| ≤ 2 / 16777216 := by
    have h1 : w * (T * a) = 1 := by rw [hw]; field_simp
    have hw1 : 0 < w := by rw [hw]; positivity
    generalize T * a = z at *
    have hw2 : w ≤ 11 / 10 := by
      by_contra h
      push Not at h
      nlinarith [hTa.1]
    rw [abs_le]
    constructor <;> nlinarith [hTa.1, hTa.2]
  have hLT : L / T = L * a * w := by rw [hw]; field_simp
  rw [hLT] at hx
  rw [abs_le] at hl hc hw0
  have hL : |L| ≤ 71 / 100 := by rw [abs_le]; constructor <;> linarith [hl.1, hl.2, hc.1, hc.2]
  have hLa : |L * a| ≤ 71 / 2400 := by
    rw [abs_mul, abs_of_pos ha0]
    nlinarith [abs_nonneg L]
  have hla : |(L - l) * a| ≤ 1 / 4 / 16777216 := by
    rw [abs_mul, abs_of_pos ha0]
    have : |L - l| ≤ 6 / 16777216 := abs_le.mpr ⟨hl.1, hl.2⟩
    nlinarith [abs_nonneg (L - l)]
  have hl0 : |l * a| ≤ 3 / 100 := by
    rw [abs_mul, abs_of_pos ha0]
    have : |l| ≤ 7 / 10 := abs_le.mpr hc
    nlinarith [abs_nonneg l]
  have hmul : |L * a * (w - 1)| ≤ 1 / 10 / 16777216 := by
    rw [abs_mul]
    have h1 : |w - 1| ≤ 2 / 16777216 := abs_le.mpr hw0
    have := mul_le_mul hLa h1 (abs_nonneg _) (by norm_num)
    norm_num at this ⊢
    linarith
  have hLw : |L * a * w| ≤ 3 / 100 := by
    have : L * a * w = L * a * (w - 1) + L * a := by ring
    rw [this]
    refine (abs_add_le _ _).trans ?_
    norm_num at hmul hLa ⊢
    linarith
  have e1 : x - l * a = (x - L * a * w) + L * a * (w - 1) + (L - l) * a := by ring
  have hfin : |x - l * a| ≤ 1 / 2 ^ 25 := by
    rw [e1]
    refine (abs_add_le _ _).trans ?_
    have := abs_add_le (x - L * a * w) (L * a * (w - 1))
    norm_num at hx hmul hla hLw this ⊢
    linarith
  refine ⟨hfin, hl0, ?_⟩
  rw [abs_le] at *
  norm_num at *
  constructor <;> linarith [hfin.1, hfin.2, hl0.1, hl0.2]

theorem factor_err {x₀ : ℝ} (hx : |x - x₀| ≤ 1 / 2 ^ 25) (hx0 : |x₀| ≤ 3 / 100) (hE : |E - Real.exp x| ≤ Real.exp x / 2 ^ 23) :
    |E - Real.exp x₀| ≤ 33 / 10 / 16777216 ∧ |Real.exp x₀ - 1| ≤ 6 / 100 := by
  have hK : |Real.exp x₀ - 1| ≤ 6 / 100 := by
    have := Real.abs_exp_sub_one_le (x := x₀) (by linarith)
    linarith
  have hd := Real.abs_exp_sub_one_le (x := x - x₀) (by norm_num at hx ⊢; linarith)
  have he : Real.exp x = Real.exp x₀ * Real.exp (x - x₀) := by rw [← Real.exp_add]; ring_nf
  rw [he] at hE
  have hk := Real.exp_pos x₀
  generalize Real.exp x₀ = K at *
  generalize Real.exp (x - x₀) = w at *
  generalize |x - x₀| = d at *
  have hw : |w - 1| ≤ 1 / 16777216 := by norm_num at hx hd ⊢; linarith
  refine ⟨?_, hK⟩
  rw [abs_le] at hK hw
  have hKw : K * w ≤ 107 / 100 := by nlinarith [hK.2, hw.2]
  have hd2 : |K * w - K| ≤ 107 / 100 / 16777216 := by
    rw [show K * w - K = K * (w - 1) by ring, abs_mul, abs_of_pos hk]
    have : |w - 1| ≤ 1 / 16777216 := abs_le.mpr hw
    nlinarith [hK.2, abs_nonneg (w - 1)]
  have e : E - K = (E - K * w) + (K * w - K) := by ring
  rw [e]
  refine (abs_add_le _ _).trans ?_
  norm_num at hE hd2 ⊢
  linarith

theorem price_err {K : ℝ} (hE : |E - K| ≤ 33 / 10 / 16777216) (hK : |K - 1| ≤ 6 / 100)
    (hS : |S - (E - 1)| ≤ |E - 1| / 16777216 + 1 / 2 ^ 150) (hG : |G - (1 + S)| ≤ |1 + S| / 16777216 + 1 / 2 ^ 150)
    (hp : 1 / 2 ^ 100 ≤ p) (hR : |R - G * p| ≤ |G * p| / 16777216 + 1 / 2 ^ 150) :
    |R - K * p| ≤ K * p / 2 ^ 21 ∧ |G| ≤ 2 := by
  have hp0 : 0 < p := lt_of_lt_of_le (by positivity) hp
  have ht : (1 : ℝ) / 2 ^ 150 ≤ p / 2 ^ 50 := by
    rw [le_div_iff₀ (by positivity)]
    refine le_trans (le_of_eq ?_) hp
    norm_num
  have hE1 : |E - 1| ≤ 7 / 100 := by
    rw [abs_le] at *
    constructor <;> linarith [hE.1, hE.2, hK.1, hK.2]
  have hS' : |S - (E - 1)| ≤ 8 / 100 / 16777216 := by
    norm_num at hS hE1 ⊢
    linarith
  have hS1 : |1 + S| ≤ 108 / 100 := by
    rw [abs_le] at *
    constructor <;> linarith [hS'.1, hS'.2, hE1.1, hE1.2]
  have hG' : |G - (1 + S)| ≤ 109 / 100 / 16777216 := by
    norm_num at hG hS1 ⊢
    linarith
  have hGK : |G - K| ≤ 45 / 10 / 16777216 := by
    rw [abs_le] at *
    constructor <;> linarith [hS'.1, hS'.2, hG'.1, hG'.2, hE.1, hE.2]
  have hG2 : |G| ≤ 11 / 10 := by
    rw [abs_le] at *
    constructor <;> linarith [hGK.1, hGK.2, hK.1, hK.2]
  have hGp : |G * p| ≤ 11 / 10 * p := by
    rw [abs_mul, abs_of_pos hp0]
    nlinarith
  have h1 : |R - G * p| ≤ 12 / 10 / 16777216 * p := by
    norm_num at hR ht hGp ⊢
    linarith
  have h2 : |G * p - K * p| ≤ 45 / 10 / 16777216 * p := by
    rw [← sub_mul, abs_mul, abs_of_pos hp0]
    nlinarith
  have h3 : |R - K * p| ≤ 57 / 10 / 16777216 * p := by
    rw [show R - K * p = (R - G * p) + (G * p - K * p) by ring]
    refine (abs_add_le _ _).trans ?_
    linarith
  have hK0 : 94 / 100 ≤ K := by linarith [(abs_le.mp hK).1]
  refine ⟨h3.trans ?_, hG2.trans (by norm_num)⟩
  have : 94 / 100 * p ≤ K * p := by nlinarith
  norm_num at this ⊢
  linarith

end
end Verif.FloatStop
