import Verif.Spec.Scanf

/-!
# A rational number is rounded in one way only
-/

namespace Verif.Spec
open Verif
variable {f : Fmt}

/-- The value lies below `2^emax`. -/
private theorem repr_lt {x : Fl f} (hx : x.IsFin) (hr : x.Repr) : |x.toQ| < (2 : ℚ) ^ f.emax := by
  cases x with
  | nan => exact hx.elim
  | inf => exact hx.elim
  | negZero => simp only [Fl.toQ, abs_zero]; positivity
  | fin q =>
    obtain ⟨m, e, h1, -, h2, h3⟩ := hr
    change |q| < _
    rw [h3, abs_mul, abs_of_pos (zpow_pos (by norm_num : (0 : ℚ) < 2) e)]
    have : (|(m : ℚ)|) < (2 : ℚ) ^ (f.p : ℤ) := by rw [zpow_natCast]; exact_mod_cast h1
    calc |(m : ℚ)| * (2 : ℚ) ^ e < (2 : ℚ) ^ (f.p : ℤ) * (2 : ℚ) ^ e := mul_lt_mul_of_pos_right this (zpow_pos (by norm_num) _)
      _ = (2 : ℚ) ^ ((f.p : ℤ) + e) := (zpow_add₀ (by norm_num) _ _).symm
      _ ≤ (2 : ℚ) ^ f.emax := zpow_le_zpow_right₀ (by norm_num) (by omega)

/-- The exponent of an even significand is not too large. -/
private theorem even_exponent (hf : f.emin + f.p ≤ f.emax) (hp : 1 ≤ f.p) {q : ℚ} {m e : ℤ} (hq : |q| < (2 : ℚ) ^ f.emax)
    (hn : e = f.emin ∨ 2 ^ (f.p - 1) ≤ |m|) (h : q = m * (2 : ℚ) ^ e) : e + f.p ≤ f.emax := by
  rcases hn with rfl | hn
  · exact hf
  · have h1 : (2 : ℚ) ^ ((f.p : ℤ) - 1) ≤ |(m : ℚ)| := by
      have : ((2 ^ (f.p - 1) : ℤ) : ℚ) ≤ ((|m| : ℤ) : ℚ) := by exact_mod_cast hn
      push_cast at this
      have e1 : ((f.p : ℤ) - 1) = ((f.p - 1 : ℕ) : ℤ) := by omega
      rw [e1, zpow_natCast]; exact this
    rw [h, abs_mul, abs_of_pos (zpow_pos (by norm_num : (0 : ℚ) < 2) e)] at hq
    have h2 : (2 : ℚ) ^ ((f.p : ℤ) - 1 + e) < (2 : ℚ) ^ f.emax := by
      rw [zpow_add₀ (by norm_num)]
      exact lt_of_le_of_lt (mul_le_mul_of_nonneg_right h1 (zpow_pos (by norm_num) _).le) hq
    have := (zpow_lt_zpow_iff_right₀ (by norm_num : (1 : ℚ) < 2)).mp h2
    omega

/-- Between two values with even significands there is another one. -/
private theorem between (hf : f.emin + f.p ≤ f.emax) (hp : 1 ≤ f.p) {a b : ℚ} (hab : a < b)
    (ha : Fl.EvenDigits f a) (hb : Fl.EvenDigits f b) (ha' : |a| < (2 : ℚ) ^ f.emax) (hb' : |b| < (2 : ℚ) ^ f.emax) :
    ∃ y : Fl f, y.IsFin ∧ y.Repr ∧ a < y.toQ ∧ y.toQ < b := by
  obtain ⟨m1, e1, h11, h12, h13, ⟨k1, h14⟩, h15⟩ := ha
  obtain ⟨m2, e2, h21, h22, h23, ⟨k2, h24⟩, h25⟩ := hb
  have hE1 := even_exponent hf hp ha' h13 h15
  have hE2 := even_exponent hf hp hb' h23 h25
  have hpow : ∃ t : ℤ, (2 : ℤ) ^ f.p = 2 * t := ⟨2 ^ (f.p - 1), by
    conv_lhs => rw [show f.p = (f.p - 1) + 1 by omega, pow_succ]
    ring⟩
  obtain ⟨t, ht⟩ := hpow
  rcases le_total e1 e2 with he | he
  · obtain ⟨k, hk⟩ := Int.eq_ofNat_of_zero_le (sub_nonneg.mpr he)
    have hu : (0 : ℚ) < (2 : ℚ) ^ e1 := zpow_pos (by norm_num) _
    have hb2 : b = ((m2 * 2 ^ k : ℤ) : ℚ) * (2 : ℚ) ^ e1 := by
      rw [h25, show e2 = e1 + k by omega, zpow_add₀ (by norm_num)]
      push_cast
      rw [zpow_natCast]; ring
    have hlt : m1 < m2 * 2 ^ k := by
      rw [h15, hb2] at hab
      exact_mod_cast lt_of_mul_lt_mul_right hab hu.le
    have heven : ∃ j, m2 * 2 ^ k = j + j := ⟨k2 * 2 ^ k, by rw [h24]; ring⟩
    obtain ⟨j, hj⟩ := heven
    refine ⟨.fin (((m1 + 1 : ℤ) : ℚ) * (2 : ℚ) ^ e1), trivial, ⟨m1 + 1, e1, ?_, h12, hE1, rfl⟩, ?_, ?_⟩
    · rw [abs_lt] at h11 ⊢; omega
    · change a < _
      rw [h15]
      exact mul_lt_mul_of_pos_right (by push_cast; linarith) hu
    · change _ < b
      rw [hb2]
      refine mul_lt_mul_of_pos_right ?_ hu
      have : m1 + 1 < m2 * 2 ^ k := by omega
      exact_mod_cast this
  · obtain ⟨k, hk⟩ := Int.eq_ofNat_of_zero_le (sub_nonneg.mpr he)
    have hu : (0 : ℚ) < (2 : ℚ) ^ e2 := zpow_pos (by norm_num) _
    have ha2 : a = ((m1 * 2 ^ k : ℤ) : ℚ) * (2 : ℚ) ^ e2 := by
      rw [h15, show e1 = e2 + k by omega, zpow_add₀ (by norm_num)]
      push_cast
      rw [zpow_natCast]; ring
    have hlt : m1 * 2 ^ k < m2 := by
      rw [h25, ha2] at hab
      exact_mod_cast lt_of_mul_lt_mul_right hab hu.le
    have heven : ∃ j, m1 * 2 ^ k = j + j := ⟨k1 * 2 ^ k, by rw [h14]; ring⟩
    obtain ⟨j, hj⟩ := heven
    refine ⟨.fin (((m2 - 1 : ℤ) : ℚ) * (2 : ℚ) ^ e2), trivial, ⟨m2 - 1, e2, ?_, h22, hE2, rfl⟩, ?_, ?_⟩
    · rw [abs_lt] at h21 ⊢; omega
    · change a < _
      rw [ha2]
      refine mul_lt_mul_of_pos_right ?_ hu
      have : m1 * 2 ^ k < m2 - 1 := by omega
      exact_mod_cast this
    · change _ < b
      rw [h25]
      exact mul_lt_mul_of_pos_right (by push_cast; linarith) hu

private theorem closer {a b y v : ℚ} (h1 : a < y) (h2 : y < b) (h : |a - v| = |b - v|) (ha : |a - v| ≤ |y - v|) : False := by
  rcases abs_cases (a - v) with ⟨e1, _⟩ | ⟨e1, _⟩ <;> rcases abs_cases (b - v) with ⟨e2, _⟩ | ⟨e2, _⟩ <;>
    rcases abs_cases (y - v) with ⟨e3, _⟩ | ⟨e3, _⟩ <;> linarith

private theorem toQ_unique (hf : f.emin + f.p ≤ f.emax) (hp : 1 ≤ f.p) {v : ℚ} {x y : Fl f} (hx : RoundedTo f v x)
    (hy : RoundedTo f v y) (fx : x.IsFin) (fy : y.IsFin) : x.toQ = y.toQ := by
  by_contra hne
  have heq : |x.toQ - v| = |y.toQ - v| := le_antisymm (hx.nearest fx y fy hy.held) (hy.nearest fy x fx hx.held)
  have ex := hx.even fx y fy hy.held heq (Ne.symm hne)
  have ey := hy.even fy x fx hx.held heq.symm hne
  rcases lt_or_gt_of_ne hne with h | h
  · obtain ⟨z, hz, hzr, h1, h2⟩ := between hf hp h ex ey (repr_lt fx hx.held) (repr_lt fy hy.held)
    exact closer h1 h2 heq (hx.nearest fx z hz hzr)
  · obtain ⟨z, hz, hzr, h1, h2⟩ := between hf hp h ey ex (repr_lt fy hy.held) (repr_lt fx hx.held)
    exact closer h1 h2 heq.symm (hy.nearest fy z hz hzr)

theorem isFin_of {x : Fl f} (h : x ≠ .nan) (h' : ¬ ∃ s, x = .inf s) : x.IsFin := by
  cases x with
  | nan => exact absurd rfl h
  | inf s => exact absurd ⟨s, rfl⟩ h'
  | negZero => trivial
  | fin q => trivial

/-- There is only one rounded value with a given sign. -/
theorem RoundedTo.unique (hf : f.emin + f.p ≤ f.emax) (hp : 1 ≤ f.p) {v : ℚ} {x y : Fl f} (hx : RoundedTo f v x)
    (hy : RoundedTo f v y) (hs : x.signBit = y.signBit) : x = y := by
  by_cases hi : ∃ s, x = .inf s
  · obtain ⟨s', e'⟩ := hy.infinite.mpr (hx.infinite.mp hi)
    obtain ⟨s, e⟩ := hi
    rw [e, e'] at hs ⊢
    rw [show s = s' from hs]
  · have hi' : ¬ ∃ s, y = .inf s := fun h => hi (hx.infinite.mpr (hy.infinite.mp h))
    have fx := isFin_of hx.number hi
    have fy := isFin_of hy.number hi'
    have hq := toQ_unique hf hp hx hy fx fy
    cases x with
    | nan => exact fx.elim
    | inf => exact fx.elim
    | negZero =>
      cases y with
      | nan => exact fy.elim
      | inf => exact fy.elim
      | negZero => rfl
      | fin q =>
        exfalso
        have : q = 0 := hq.symm
        subst this
        simp [Fl.signBit] at hs
    | fin q =>
      cases y with
      | nan => exact fy.elim
      | inf => exact fy.elim
      | fin q' => rw [show q = q' from hq]
      | negZero =>
        exfalso
        have : q = 0 := hq
        subst this
        simp [Fl.signBit] at hs

end Verif.Spec
