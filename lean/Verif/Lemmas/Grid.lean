import Verif.Lemmas.Account
import Mathlib.Tactic.Push

/-! Exact-arithmetic lemmas about rounding to units. -/

set_option linter.unusedSectionVars false

namespace Verif
open FloatOps Spec

variable {K : Type} [Field K] [LinearOrder K] [IsStrictOrderedRing K] [FloorRing K]

theorem roundUnit_pos {u x : K} (hu : 0 < u) : roundUnit x u = u * (roundHalfAway (x / u) : K) := by
  simp [roundUnit, hu]
theorem ceilUnit_pos {u x : K} (hu : 0 < u) : ceilUnit x u = u * (⌈x / u⌉ : K) := by
  simp [ceilUnit, hu]
theorem floorUnit_pos {u x : K} (hu : 0 < u) : floorUnit x u = u * (⌊x / u⌋ : K) := by
  simp [floorUnit, hu]
theorem roundUnit_nonpos {u x : K} (hu : ¬ 0 < u) : roundUnit x u = x := by
  simp [roundUnit, hu]
theorem ceilUnit_nonpos {u x : K} (hu : ¬ 0 < u) : ceilUnit x u = x := by
  simp [ceilUnit, hu]
theorem floorUnit_nonpos {u x : K} (hu : ¬ 0 < u) : floorUnit x u = x := by
  simp [floorUnit, hu]

theorem roundHalfAway_nearest (z : K) (m : ℤ) :
    |z - roundHalfAway z| ≤ |z - m| ∧
      (|z - roundHalfAway z| = |z - m| → |(m : K)| ≤ |(roundHalfAway z : K)|) := by
  set n := roundHalfAway z with hn
  have h1 : (n : K) ≤ z + 1 / 2 := roundHalfAway_le z
  have h2 : z - 1 / 2 ≤ (n : K) := le_roundHalfAway z
  have habs : |z - n| ≤ 1 / 2 := abs_le.mpr ⟨by linarith, by linarith⟩
  by_cases hmn : m = n
  · subst hmn; exact ⟨le_refl _, fun _ => le_refl _⟩
  rcases lt_or_gt_of_ne hmn with hlt | hgt
  · have : (m : K) + 1 ≤ n := by exact_mod_cast hlt
    have hz : (1 : K) / 2 ≤ z - m := by linarith
    have : |z - m| = z - m := abs_of_nonneg (by linarith)
    refine ⟨by rw [this]; linarith, fun heq => ?_⟩
    have hzm : z - m = 1 / 2 := by rw [this] at heq; linarith
    have hnn : (n : K) = m + 1 := by linarith
    -- z = m + 1/2 and n = m + 1, so z is non-negative
    have hz0 : 0 ≤ z := by
      by_contra hneg
      have : n = ⌈z - 1 / 2⌉ := by rw [hn]; unfold roundHalfAway; rw [if_neg hneg]
      have h3 : (n : ℤ) = m := by
        rw [this, Int.ceil_eq_iff]; constructor <;> linarith
      exact hmn h3.symm
    have hm : (0 : K) ≤ m + 1 / 2 := by linarith
    have : (0 : ℤ) ≤ m := by
      by_contra h; push Not at h
      have : (m : K) + 1 ≤ 0 := by exact_mod_cast h
      linarith
    have hm' : (0 : K) ≤ m := by exact_mod_cast this
    rw [abs_of_nonneg hm', abs_of_nonneg (by linarith)]; linarith
  · have : (n : K) + 1 ≤ m := by exact_mod_cast hgt
    have hz : (1 : K) / 2 ≤ m - z := by linarith
    have : |z - m| = m - z := by rw [abs_sub_comm]; exact abs_of_nonneg (by linarith)
    refine ⟨by rw [this]; linarith, fun heq => ?_⟩
    have hzm : m - z = 1 / 2 := by rw [this] at heq; linarith
    have hnn : (n : K) = m - 1 := by linarith
    have hz0 : ¬ 0 ≤ z := by
      intro hpos
      have : n = ⌊z + 1 / 2⌋ := by rw [hn]; unfold roundHalfAway; rw [if_pos hpos]
      have h3 : (n : ℤ) = m := by
        rw [this, Int.floor_eq_iff]; constructor <;> linarith
      exact hmn h3.symm
    have : (m : ℤ) ≤ 0 := by
      by_contra h; push Not at h
      have : (1 : K) ≤ m := by exact_mod_cast h
      linarith
    have hm' : (m : K) ≤ 0 := by exact_mod_cast this
    rw [abs_of_nonpos hm', abs_of_nonpos (by linarith)]; linarith

theorem roundUnit_spec (x u : K) : NearestTo u x (roundUnit x u) := by
  unfold NearestTo
  split
  · rename_i hu
    rw [roundUnit_pos hu]
    refine ⟨⟨_, mul_comm _ _⟩, ?_⟩
    rintro y ⟨m, rfl⟩
    obtain ⟨h1, h2⟩ := roundHalfAway_nearest (x / u) m
    have e1 : |x - u * (roundHalfAway (x / u) : K)| = u * |x / u - roundHalfAway (x / u)| := by
      rw [← abs_of_pos hu, ← abs_mul, abs_of_pos hu]; congr 1; field_simp
    have e2 : |x - m * u| = u * |x / u - m| := by
      rw [← abs_of_pos hu, ← abs_mul, abs_of_pos hu]; congr 1; field_simp
    rw [e1, e2]
    refine ⟨mul_le_mul_of_nonneg_left h1 hu.le, fun h => ?_⟩
    have := h2 (mul_left_cancel₀ hu.ne' h)
    rw [abs_mul, abs_mul, mul_comm]
    exact mul_le_mul_of_nonneg_left this (abs_nonneg u)
  · rename_i hu; exact roundUnit_nonpos hu

theorem ceilUnit_spec (x u : K) : CeilTo u x (ceilUnit x u) := by
  unfold CeilTo
  split
  · rename_i hu
    rw [ceilUnit_pos hu]
    refine ⟨⟨?_, ⟨_, mul_comm _ _⟩⟩, ?_⟩
    · have := Int.le_ceil (x / u)
      rw [div_le_iff₀ hu] at this; linarith
    · rintro y ⟨hy, m, rfl⟩
      have : ⌈x / u⌉ ≤ m := Int.ceil_le.mpr (by rw [div_le_iff₀ hu]; exact hy)
      have : (⌈x / u⌉ : K) ≤ m := by exact_mod_cast this
      rw [mul_comm]; exact mul_le_mul_of_nonneg_right this hu.le
  · rename_i hu; exact ceilUnit_nonpos hu

theorem floorUnit_spec (x u : K) : FloorTo u x (floorUnit x u) := by
  unfold FloorTo
  split
  · rename_i hu
    rw [floorUnit_pos hu]
    refine ⟨⟨?_, ⟨_, mul_comm _ _⟩⟩, ?_⟩
    · have := Int.floor_le (x / u)
      rw [le_div_iff₀ hu] at this; linarith
    · rintro y ⟨hy, m, rfl⟩
      have : m ≤ ⌊x / u⌋ := Int.le_floor.mpr (by rw [le_div_iff₀ hu]; exact hy)
      have : (m : K) ≤ ⌊x / u⌋ := by exact_mod_cast this
      rw [mul_comm u]; exact mul_le_mul_of_nonneg_right this hu.le
  · rename_i hu; exact floorUnit_nonpos hu

theorem Spec.NearestTo.unique {u x r s : K} (h : NearestTo u x r) (h' : NearestTo u x s)
    (hx : 0 ≤ x) : r = s := by
  unfold NearestTo at *
  split at h
  · rename_i hu
    rw [if_pos hu] at h'
    have a1 := h.2 s h'.1
    have a2 := h'.2 r h.1
    have e : |x - r| = |x - s| := le_antisymm a1.1 a2.1
    have e2 : |r| = |s| := le_antisymm (a2.2 e.symm) (a1.2 e)
    rcases abs_eq_abs.mp e2 with h3 | h3
    · exact h3
    · subst h3
      rcases abs_eq_abs.mp e with h4 | h4
      · linarith
      · have : x = 0 := by linarith
        subst this
        have a3 := (h.2 0 ⟨0, by simp⟩).1
        simp at a3
        simp [a3]
  · rename_i hu; rw [if_neg hu] at h'; rw [h, h']

theorem Spec.CeilTo.unique {u x r s : K} (h : CeilTo u x r) (h' : CeilTo u x s) : r = s := by
  unfold CeilTo at *
  split at h
  · rename_i hu; rw [if_pos hu] at h'; exact h.unique h'
  · rename_i hu; rw [if_neg hu] at h'; rw [h, h']

theorem Spec.FloorTo.unique {u x r s : K} (h : FloorTo u x r) (h' : FloorTo u x s) : r = s := by
  unfold FloorTo at *
  split at h
  · rename_i hu; rw [if_pos hu] at h'; exact h.unique h'
  · rename_i hu; rw [if_neg hu] at h'; rw [h, h']

theorem roundUnit_of_multiple {u x : K} (h : 0 < u → IsMultiple u x) : roundUnit x u = x := by
  by_cases hu : 0 < u
  · obtain ⟨n, rfl⟩ := h hu
    rw [roundUnit_pos hu, mul_div_cancel_right₀ _ hu.ne', roundHalfAway_intCast, mul_comm]
  · exact roundUnit_nonpos hu

theorem isMultiple_roundUnit (x u : K) (hu : 0 < u) : IsMultiple u (roundUnit x u) := by
  rw [roundUnit_pos hu]; exact ⟨_, mul_comm _ _⟩
theorem isMultiple_ceilUnit (x u : K) (hu : 0 < u) : IsMultiple u (ceilUnit x u) := by
  rw [ceilUnit_pos hu]; exact ⟨_, mul_comm _ _⟩
theorem isMultiple_floorUnit (x u : K) (hu : 0 < u) : IsMultiple u (floorUnit x u) := by
  rw [floorUnit_pos hu]; exact ⟨_, mul_comm _ _⟩

theorem Spec.IsMultiple.add {u x y : K} (hx : IsMultiple u x) (hy : IsMultiple u y) :
    IsMultiple u (x + y) := by
  obtain ⟨m, rfl⟩ := hx; obtain ⟨n, rfl⟩ := hy
  exact ⟨m + n, by push_cast; ring⟩
theorem Spec.IsMultiple.sub {u x y : K} (hx : IsMultiple u x) (hy : IsMultiple u y) :
    IsMultiple u (x - y) := by
  obtain ⟨m, rfl⟩ := hx; obtain ⟨n, rfl⟩ := hy
  exact ⟨m - n, by push_cast; ring⟩

theorem le_ceilUnit (x u : K) : x ≤ ceilUnit x u := by
  have := ceilUnit_spec x u
  unfold CeilTo at this
  split at this
  · exact this.1.1
  · exact this.ge

theorem floorUnit_le (x u : K) : floorUnit x u ≤ x := by
  have := floorUnit_spec x u
  unfold FloorTo at this
  split at this
  · exact this.1.1
  · exact this.le

theorem ceilUnit_mono {x y : K} (u : K) (h : x ≤ y) : ceilUnit x u ≤ ceilUnit y u := by
  by_cases hu : 0 < u
  · rw [ceilUnit_pos hu, ceilUnit_pos hu]
    have : (⌈x / u⌉ : K) ≤ ⌈y / u⌉ := by
      exact_mod_cast Int.ceil_le_ceil (div_le_div_of_nonneg_right h hu.le)
    exact mul_le_mul_of_nonneg_left this hu.le
  · rwa [ceilUnit_nonpos hu, ceilUnit_nonpos hu]

theorem floorUnit_mono {x y : K} (u : K) (h : x ≤ y) : floorUnit x u ≤ floorUnit y u := by
  by_cases hu : 0 < u
  · rw [floorUnit_pos hu, floorUnit_pos hu]
    have : (⌊x / u⌋ : K) ≤ ⌊y / u⌋ := by
      exact_mod_cast Int.floor_le_floor (div_le_div_of_nonneg_right h hu.le)
    exact mul_le_mul_of_nonneg_left this hu.le
  · rwa [floorUnit_nonpos hu, floorUnit_nonpos hu]

theorem ceilUnit_le_of_multiple {u x y : K} (hy : 0 < u → IsMultiple u y) (h : x ≤ y) :
    ceilUnit x u ≤ y := by
  have := ceilUnit_spec x u
  unfold CeilTo at this
  split at this
  · rename_i hu; exact this.2 ⟨h, hy hu⟩
  · rw [this]; exact h

theorem le_floorUnit_of_multiple {u x y : K} (hy : 0 < u → IsMultiple u y) (h : y ≤ x) :
    y ≤ floorUnit x u := by
  have := floorUnit_spec x u
  unfold FloorTo at this
  split at this
  · rename_i hu; exact this.2 ⟨h, hy hu⟩
  · rw [this]; exact h

theorem ceilUnit_lt (x u : K) (hu : 0 < u) : ceilUnit x u < x + u := by
  rw [ceilUnit_pos hu]
  have := Int.ceil_lt_add_one (x / u)
  have := mul_lt_mul_of_pos_left this hu
  have e : u * (x / u + 1) = x + u := by field_simp
  linarith

theorem roundUnit_le_half (x u : K) (hu : 0 < u) : roundUnit x u ≤ x + u / 2 := by
  rw [roundUnit_pos hu]
  have := mul_le_mul_of_nonneg_left (roundHalfAway_le (x / u)) hu.le
  have e : u * (x / u + 1 / 2) = x + u / 2 := by field_simp
  linarith

theorem roundUnit_nonneg {x u : K} (hx : 0 ≤ x) : 0 ≤ roundUnit x u := by
  by_cases hu : 0 < u
  · rw [roundUnit_pos hu]
    have : (0 : K) ≤ roundHalfAway (x / u) := by
      exact_mod_cast roundHalfAway_nonneg (div_nonneg hx hu.le)
    positivity
  · rwa [roundUnit_nonpos hu]

theorem roundUnit_mono {x y : K} (u : K) (h : x ≤ y) : roundUnit x u ≤ roundUnit y u := by
  by_cases hu : 0 < u
  · rw [roundUnit_pos hu, roundUnit_pos hu]
    have : (roundHalfAway (x / u) : K) ≤ roundHalfAway (y / u) := by
      exact_mod_cast roundHalfAway_mono (div_le_div_of_nonneg_right h hu.le)
    exact mul_le_mul_of_nonneg_left this hu.le
  · rwa [roundUnit_nonpos hu, roundUnit_nonpos hu]

theorem getFee_eq (a : Account K) (fc : FeeConfig K) (q : K) :
    a.getFee fc q = ceilUnit (max fc.minimumFee (fc.fixedFee + fc.relativeFee * q)) a.quoteUnit := by
  simp [Account.getFee, mul_comm]

theorem getFee_spec (a : Account K) (fc : FeeConfig K) (q : K) :
    FeeOf fc a.quoteUnit q (a.getFee fc q) := by
  rw [getFee_eq]; exact ceilUnit_spec _ _

theorem getFee_mono (a : Account K) (fc : FeeConfig K) (hr : 0 ≤ fc.relativeFee) {q q' : K}
    (h : q ≤ q') : a.getFee fc q ≤ a.getFee fc q' := by
  rw [getFee_eq, getFee_eq]
  refine ceilUnit_mono _ (max_le_max (le_refl _) ?_)
  have := mul_le_mul_of_nonneg_left h hr
  linarith

theorem isMultiple_getFee (a : Account K) (fc : FeeConfig K) (q : K) (hu : 0 < a.quoteUnit) :
    IsMultiple a.quoteUnit (a.getFee fc q) := isMultiple_ceilUnit _ _ hu

end Verif
