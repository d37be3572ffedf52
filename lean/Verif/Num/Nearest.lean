import Verif.Num.Repr
import Verif.Num.Error
import Verif.Num.Mono
import Mathlib.Algebra.Order.Field.Power

/-!
# Rounding gives the nearest value of the format

No representable value is nearer to `x` than `rndQ f x`, and if another one is just as near, the significand of `rndQ f x` is even.
Rounding overflows from `(2^p - 1/2) · 2^(emax - p)` on.
-/

namespace Verif.Fl
variable {f : Fmt}

/-- A value of `p` bits whose exponent is large enough, with no bound from above. -/
def OnGrid (f : Fmt) (y : ℚ) : Prop := ∃ m e : ℤ, |m| < 2 ^ f.p ∧ f.emin ≤ e ∧ y = m * (2 : ℚ) ^ e

/-- The significand of the value, normalised, is even. -/
def EvenDigits (f : Fmt) (y : ℚ) : Prop :=
  ∃ m e : ℤ, |m| < 2 ^ f.p ∧ f.emin ≤ e ∧ (e = f.emin ∨ 2 ^ (f.p - 1) ≤ |m|) ∧ Even m ∧ y = m * (2 : ℚ) ^ e

theorem rne_nearest (z : ℚ) (n : ℤ) : |(rne z : ℚ) - z| ≤ |(n : ℚ) - z| := by
  by_cases h : n = rne z
  · rw [h]
  · have h1 := rne_err z
    have h2 : (1 : ℚ) ≤ |(n : ℚ) - rne z| := by
      have : (1 : ℤ) ≤ |n - rne z| := Int.one_le_abs (sub_ne_zero.mpr h)
      exact_mod_cast this
    have h3 : |(n : ℚ) - rne z| ≤ |(n : ℚ) - z| + |(rne z : ℚ) - z| := by
      have := abs_sub_le (n : ℚ) z (rne z)
      rwa [abs_sub_comm z] at this
    linarith

theorem rne_tie {z : ℚ} {n : ℤ} (h : |(rne z : ℚ) - z| = |(n : ℚ) - z|) (hn : n ≠ rne z) : Even (rne z) := by
  have h1 := rne_err z
  have h2 : (1 : ℚ) ≤ |(n : ℚ) - rne z| := by
    have : (1 : ℤ) ≤ |n - rne z| := Int.one_le_abs (sub_ne_zero.mpr hn)
    exact_mod_cast this
  have h3 : |(n : ℚ) - rne z| ≤ |(n : ℚ) - z| + |(rne z : ℚ) - z| := by
    have := abs_sub_le (n : ℚ) z (rne z)
    rwa [abs_sub_comm z] at this
  have h4 : |(rne z : ℚ) - z| = 1 / 2 := by linarith
  have hf1 := Int.floor_le z
  have hf2 := Int.lt_floor_add_one z
  revert h4
  unfold rne
  dsimp only
  intro h4
  split_ifs at h4 ⊢ with c1 c2 c3
  · rw [abs_sub_comm, abs_of_nonneg (by linarith)] at h4
    linarith
  · push_cast at h4
    rw [abs_of_nonneg (by linarith)] at h4
    linarith
  · exact Int.even_iff.mpr c3
  · rw [Int.even_iff]; omega

/-- The grid of `x`: what `rndQ` does in terms of the exponent. -/
theorem rndQ_nearest (hp : 2 ≤ f.p) {x y : ℚ} (hx : x ≠ 0) (hy : OnGrid f y) :
    |rndQ f x - x| ≤ |y - x| ∧ (|rndQ f x - x| = |y - x| → y ≠ rndQ f x → Even (rne (x / ulp f x))) := by
  obtain ⟨m, e, hm, he, rfl⟩ := hy
  set E := max (Int.log 2 |x| - (f.p - 1)) f.emin with hE
  have hu : ulp f x = (2 : ℚ) ^ E := rfl
  have hupos : (0 : ℚ) < (2 : ℚ) ^ E := zpow_pos (by norm_num) _
  have key : ∀ n : ℤ, |(n : ℚ) * (2 : ℚ) ^ E - x| = |(n : ℚ) - x / (2 : ℚ) ^ E| * (2 : ℚ) ^ E := by
    intro n
    rw [← abs_of_pos hupos, ← abs_mul, abs_of_pos hupos]
    congr 1
    field_simp
  have grid : ∀ n : ℤ, |rndQ f x - x| ≤ |(n : ℚ) * (2 : ℚ) ^ E - x| ∧
      (|rndQ f x - x| = |(n : ℚ) * (2 : ℚ) ^ E - x| → (n : ℚ) * (2 : ℚ) ^ E ≠ rndQ f x → Even (rne (x / ulp f x))) := by
    intro n
    have hr : rndQ f x = (rne (x / (2 : ℚ) ^ E) : ℚ) * (2 : ℚ) ^ E := rfl
    rw [hr, key, key, hu]
    refine ⟨mul_le_mul_of_nonneg_right (rne_nearest _ _) hupos.le, fun h hne => ?_⟩
    refine rne_tie (mul_right_cancel₀ hupos.ne' h) (fun hh => hne (by rw [hh]))
  by_cases hc : E ≤ e
  · obtain ⟨k, hk⟩ := Int.eq_ofNat_of_zero_le (sub_nonneg.mpr hc)
    have : (m : ℚ) * (2 : ℚ) ^ e = ((m * 2 ^ k : ℤ) : ℚ) * (2 : ℚ) ^ E := by
      have : e = E + k := by omega
      rw [this, zpow_add₀ (by norm_num)]
      push_cast
      rw [zpow_natCast]
      ring
    rw [this]
    exact grid _
  · push Not at hc
    have hax : 0 < |x| := abs_pos.mpr hx
    have hlow := Int.zpow_log_le_self (b := 2) (by norm_num) hax
    push_cast at hlow
    have hEl : E = Int.log 2 |x| - (f.p - 1) := by
      rcases max_choice (Int.log 2 |x| - ((f.p : ℤ) - 1)) f.emin with h | h
      · rw [hE, h]
      · exfalso; rw [hE, h] at hc; omega
    set L := Int.log 2 |x| with hL
    have hy : |(m : ℚ) * (2 : ℚ) ^ e| < (2 : ℚ) ^ L := by
      rw [abs_mul, abs_of_pos (zpow_pos (by norm_num : (0 : ℚ) < 2) e)]
      have h1 : ((|m| : ℤ) : ℚ) < (2 : ℚ) ^ (f.p : ℤ) := by
        rw [zpow_natCast]; exact_mod_cast hm
      push_cast at h1
      calc |(m : ℚ)| * (2 : ℚ) ^ e < (2 : ℚ) ^ (f.p : ℤ) * (2 : ℚ) ^ e := mul_lt_mul_of_pos_right h1 (zpow_pos (by norm_num) _)
        _ = (2 : ℚ) ^ ((f.p : ℤ) + e) := (zpow_add₀ (by norm_num) _ _).symm
        _ ≤ (2 : ℚ) ^ L := zpow_le_zpow_right₀ (by norm_num) (by omega)
    have hg : ∃ n : ℤ, |(n : ℚ) * (2 : ℚ) ^ E - x| = |x| - (2 : ℚ) ^ L := by
      have hpw : ((2 ^ (f.p - 1) : ℤ) : ℚ) * (2 : ℚ) ^ E = (2 : ℚ) ^ L := by
        push_cast
        rw [← zpow_natCast, ← zpow_add₀ (by norm_num), Nat.cast_sub (by omega)]
        congr 1
        push_cast; omega
      rcases le_total 0 x with hs | hs
      · refine ⟨2 ^ (f.p - 1), ?_⟩
        rw [hpw]
        rw [abs_of_nonneg hs] at hlow
        rw [abs_of_nonneg hs, abs_sub_comm, abs_of_nonneg (by linarith)]
      · refine ⟨-2 ^ (f.p - 1), ?_⟩
        rw [Int.cast_neg, neg_mul, hpw]
        rw [abs_of_nonpos hs] at hlow
        rw [abs_of_nonpos hs, abs_of_nonneg (by linarith)]
        ring
    obtain ⟨n, hn⟩ := hg
    have hb := (grid n).1
    rw [hn] at hb
    have hlt : |x| - (2 : ℚ) ^ L < |(m : ℚ) * (2 : ℚ) ^ e - x| := by
      have := abs_sub_abs_le_abs_sub x ((m : ℚ) * (2 : ℚ) ^ e)
      rw [abs_sub_comm x] at this
      linarith
    exact ⟨by linarith, fun h => by linarith⟩

/-- `rne (x / ulp f x)` is, up to a power of two, the normalised significand. -/
theorem rndQ_digits (hp : 2 ≤ f.p) {x : ℚ} (hx : x ≠ 0) (hev : Even (rne (x / ulp f x))) : EvenDigits f (rndQ f x) := by
  set e := max (Int.log 2 |x| - (f.p - 1)) f.emin with he
  have hu : ulp f x = (2 : ℚ) ^ e := rfl
  have hupos : (0 : ℚ) < (2 : ℚ) ^ e := zpow_pos (by norm_num) _
  have hax : 0 < |x| := abs_pos.mpr hx
  have hlow := Int.zpow_log_le_self (b := 2) (by norm_num) hax
  have hhigh := Int.lt_zpow_succ_log_self (b := 2) (by norm_num) |x|
  push_cast at hlow hhigh
  set k := rne (x / ulp f x) with hk
  have hr : rndQ f x = k * (2 : ℚ) ^ e := rfl
  have hle : ∀ n : ℤ, x / ulp f x ≤ n → k ≤ n := fun n h => by
    have := rne_mono h
    rwa [rne_int] at this
  have hge' : ∀ n : ℤ, (n : ℚ) ≤ x / ulp f x → n ≤ k := fun n h => by
    have := rne_mono h
    rwa [rne_int] at this
  have hq : |x / (2 : ℚ) ^ e| ≤ (2 : ℚ) ^ f.p := by
    rw [abs_div, abs_of_pos hupos, div_le_iff₀ hupos, ← zpow_natCast, ← zpow_add₀ (by norm_num)]
    refine hhigh.le.trans (zpow_le_zpow_right₀ (by norm_num) ?_)
    omega
  rw [abs_le] at hq
  have hk1 : k ≤ 2 ^ f.p := hle _ (by rw [hu]; push_cast; exact hq.2)
  have hk2 : -2 ^ f.p ≤ k := hge' _ (by rw [hu]; push_cast; exact hq.1)
  have hbig : e = f.emin ∨ (2 : ℤ) ^ (f.p - 1) ≤ |k| := by
    rcases le_or_gt (Int.log 2 |x| - (f.p - 1)) f.emin with hm | hm
    · left; rw [he, max_eq_right hm]
    · right
      have hem : e = Int.log 2 |x| - (f.p - 1) := by rw [he, max_eq_left hm.le]
      have hge : (2 : ℚ) ^ (f.p - 1) ≤ |x / (2 : ℚ) ^ e| := by
        rw [abs_div, abs_of_pos hupos, le_div_iff₀ hupos, ← zpow_natCast, ← zpow_add₀ (by norm_num)]
        refine le_trans (zpow_le_zpow_right₀ (by norm_num) ?_) hlow
        rw [hem]
        push_cast [Nat.cast_sub (show 1 ≤ f.p by omega)]
        omega
      rcases le_abs.mp hge with hge | hge
      · refine le_abs.mpr (.inl (hge' _ ?_))
        rw [hu]; push_cast; exact hge
      · refine le_abs.mpr (.inr ?_)
        have : k ≤ -2 ^ (f.p - 1) := hle _ (by rw [hu]; push_cast; linarith)
        linarith
  have hee : f.emin ≤ e := le_max_right _ _
  rw [hr]
  by_cases hlt : |k| < 2 ^ f.p
  · exact ⟨k, e, hlt, hee, hbig, hev, rfl⟩
  · have hkabs : |k| = 2 ^ f.p := le_antisymm (abs_le.mpr ⟨hk2, hk1⟩) (not_lt.mp hlt)
    obtain ⟨p, hp'⟩ : ∃ p, f.p = p + 2 := ⟨f.p - 2, by omega⟩
    have hpos : (0 : ℤ) < 2 ^ p := by positivity
    have hpow : (2 : ℤ) ^ f.p = 2 * 2 ^ (f.p - 1) := by rw [hp']; simp [pow_succ]; ring
    have hpow' : (2 : ℤ) ^ (f.p - 1) = 2 * 2 ^ p := by rw [hp']; simp [pow_succ]; ring
    rcases abs_choice k with hc | hc
    · refine ⟨2 ^ (f.p - 1), e + 1, ?_, by omega, .inr (le_abs_self _), ⟨2 ^ p, by omega⟩, ?_⟩
      · rw [abs_of_pos (by omega)]; omega
      · have : k = 2 * 2 ^ (f.p - 1) := by omega
        rw [this, zpow_add₀ (by norm_num)]; push_cast; ring
    · refine ⟨-2 ^ (f.p - 1), e + 1, ?_, by omega, .inr ?_, ⟨-2 ^ p, by omega⟩, ?_⟩
      · rw [abs_neg, abs_of_pos (by omega)]; omega
      · rw [abs_neg, abs_of_pos (by omega)]
      · have : k = 2 * -2 ^ (f.p - 1) := by omega
        rw [this, zpow_add₀ (by norm_num)]; push_cast; ring

/-- A rounded value is on the grid. -/
theorem onGrid_rndQ (hf : f.emin + f.p ≤ f.emax) (hp : 0 < f.p) {x : ℚ} (hx : x ≠ 0) (h : |rndQ f x| < (2 : ℚ) ^ f.emax) :
    OnGrid f (rndQ f x) := by
  obtain ⟨m, e, h1, h2, -, h3⟩ := rndQ_repr hf hp hx h
  exact ⟨m, e, h1, h2, h3⟩

/-- From where on rounding gives infinity. -/
def overflowFrom (f : Fmt) : ℚ := (2 ^ f.p - 1 / 2) * (2 : ℚ) ^ (f.emax - f.p)

private theorem log_top {x : ℚ} (h1 : (2 : ℚ) ^ (f.emax - 1) ≤ x) (h2 : x < (2 : ℚ) ^ f.emax) : Int.log 2 x = f.emax - 1 := by
  have hx : 0 < x := lt_of_lt_of_le (zpow_pos (by norm_num) _) h1
  apply le_antisymm
  · have := (Int.lt_zpow_iff_log_lt (b := 2) (by norm_num) hx (x := f.emax)).mp (by push_cast; exact h2)
    omega
  · exact (Int.zpow_le_iff_le_log (b := 2) (by norm_num) hx).mp (by push_cast; exact h1)

private theorem top_split (hf : f.emin + f.p ≤ f.emax) (hp : 2 ≤ f.p) {x : ℚ} (h1 : (2 ^ f.p - 1) * (2 : ℚ) ^ (f.emax - f.p) ≤ x)
    (h2 : x < (2 : ℚ) ^ f.emax) : ulp f x = (2 : ℚ) ^ (f.emax - f.p) := by
  have hu : (0 : ℚ) < (2 : ℚ) ^ (f.emax - f.p) := zpow_pos (by norm_num) _
  have h3 : (2 : ℚ) ^ (f.emax - 1) ≤ (2 ^ f.p - 1) * (2 : ℚ) ^ (f.emax - f.p) := by
    have : (2 : ℚ) ^ (f.emax - 1) = 2 ^ (f.p - 1) * (2 : ℚ) ^ (f.emax - f.p) := by
      rw [← zpow_natCast, ← zpow_add₀ (by norm_num), Nat.cast_sub (by omega)]
      congr 1; push_cast; omega
    rw [this]
    refine mul_le_mul_of_nonneg_right ?_ hu.le
    obtain ⟨p, hp'⟩ : ∃ p, f.p = p + 1 := ⟨f.p - 1, by omega⟩
    rw [hp', Nat.add_sub_cancel, pow_succ (2 : ℚ)]
    have : (1 : ℚ) ≤ 2 ^ p := one_le_pow₀ (by norm_num)
    linarith
  have hx : 0 ≤ x := le_trans (by positivity) (h3.trans h1)
  unfold ulp
  rw [abs_of_nonneg hx, log_top (h3.trans h1) h2, max_eq_left (by omega)]
  congr 1; omega

private theorem top_pow : (2 : ℚ) ^ f.emax = 2 ^ f.p * (2 : ℚ) ^ (f.emax - f.p) := by
  rw [← zpow_natCast, ← zpow_add₀ (by norm_num)]
  congr 1; omega

private theorem overflow_pos (hf : f.emin + f.p ≤ f.emax) (hp : 2 ≤ f.p) {x : ℚ} (hx : 0 < x) :
    (2 : ℚ) ^ f.emax ≤ rndQ f x ↔ overflowFrom f ≤ x := by
  have hu : (0 : ℚ) < (2 : ℚ) ^ (f.emax - f.p) := zpow_pos (by norm_num) _
  have hpe : ((2 : ℤ) ^ f.p - 1) % 2 = 1 := by
    obtain ⟨p, hp'⟩ : ∃ p, f.p = p + 1 := ⟨f.p - 1, by omega⟩
    rw [hp', pow_succ]; omega
  constructor
  · intro h
    by_contra hlt
    push Not at hlt
    unfold overflowFrom at hlt
    by_cases hm : (2 ^ f.p - 1) * (2 : ℚ) ^ (f.emax - f.p) ≤ x
    · have hx2 : x < (2 : ℚ) ^ f.emax := by rw [top_pow]; linarith
      have hul := top_split hf hp hm hx2
      have hfl : ⌊x / (2 : ℚ) ^ (f.emax - f.p)⌋ = 2 ^ f.p - 1 := by
        rw [Int.floor_eq_iff]
        push_cast
        rw [le_div_iff₀ hu, div_lt_iff₀ hu]
        exact ⟨hm, by linarith⟩
      have hr : rndQ f x = (2 ^ f.p - 1) * (2 : ℚ) ^ (f.emax - f.p) := by
        unfold rndQ rne
        rw [hul, hfl]
        dsimp only
        rw [if_pos]
        · push_cast; rfl
        · push_cast
          rw [sub_lt_iff_lt_add, div_lt_iff₀ hu]
          linarith
      rw [hr, top_pow] at h
      linarith
    · push Not at hm
      have hM := rndQ_mono (f := f) (by omega) hm.le
      have hMx : (2 ^ f.p - 1) * (2 : ℚ) ^ (f.emax - f.p) < (2 : ℚ) ^ f.emax := by rw [top_pow]; linarith
      have hul := top_split hf hp (le_refl _) hMx
      have : rndQ f ((2 ^ f.p - 1) * (2 : ℚ) ^ (f.emax - f.p)) ≤ (2 ^ f.p - 1) * (2 : ℚ) ^ (f.emax - f.p) :=
        rndQ_le_of_grid (n := 2 ^ f.p - 1) (by rw [hul]; push_cast; rfl) (le_refl _)
      linarith
  · intro h
    have hT : (2 : ℚ) ^ f.emax ≤ rndQ f (overflowFrom f) := by
      have h1 : (2 ^ f.p - 1) * (2 : ℚ) ^ (f.emax - f.p) ≤ overflowFrom f := by unfold overflowFrom; linarith
      have h2 : overflowFrom f < (2 : ℚ) ^ f.emax := by rw [top_pow]; unfold overflowFrom; linarith
      have hul := top_split hf hp h1 h2
      have hdiv : overflowFrom f / (2 : ℚ) ^ (f.emax - f.p) = 2 ^ f.p - 1 / 2 := by
        unfold overflowFrom; rw [mul_div_assoc, div_self hu.ne', mul_one]
      have hfl : ⌊(2 : ℚ) ^ f.p - 1 / 2⌋ = 2 ^ f.p - 1 := by
        rw [Int.floor_eq_iff]
        push_cast
        exact ⟨by linarith, by linarith⟩
      unfold rndQ rne
      rw [hul, hdiv, hfl, top_pow]
      dsimp only
      have hd : (2 : ℚ) ^ f.p - 1 / 2 - ((2 ^ f.p - 1 : ℤ) : ℚ) = 1 / 2 := by push_cast; ring
      rw [hd, if_neg (by norm_num), if_neg (by norm_num), if_neg (by omega)]
      push_cast
      rw [sub_add_cancel]
    exact hT.trans (rndQ_mono (by omega) h)

/-- Rounding overflows from a certain value on. -/
theorem overflow_iff (hf : f.emin + f.p ≤ f.emax) (hp : 2 ≤ f.p) {x : ℚ} (hx : x ≠ 0) :
    (2 : ℚ) ^ f.emax ≤ |rndQ f x| ↔ overflowFrom f ≤ |x| := by
  rcases lt_or_gt_of_ne hx with h | h
  · rw [abs_of_neg h, ← overflow_pos hf hp (x := -x) (by linarith), rndQ_neg,
      abs_of_nonpos (rndQ_nonpos h.le)]
  · rw [abs_of_pos h, ← overflow_pos hf hp h, abs_of_nonneg (rndQ_nonneg h.le)]

end Verif.Fl
