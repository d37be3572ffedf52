import Verif.Lemmas.FloatWide

/-!
# Relative errors
-/

namespace Verif.FloatScore
open FloatOps FloatMoney FloatNN
open Fl (toQ IsFin)

/-- `x` is `X` up to the relative error `η`. -/
def Rel {K : Type} [Field K] [LinearOrder K] (η x X : K) : Prop := (1 - η) * X ≤ x ∧ x ≤ (1 + η) * X

section
variable {K : Type} [Field K] [LinearOrder K] [IsStrictOrderedRing K]

theorem Rel.abs {η x X : K} (h : Rel η x X) : |x - X| ≤ η * X := by
  obtain ⟨a, b⟩ := h
  rw [abs_le]; constructor <;> linarith

theorem Rel.of_abs {η x X : K} (h : |x - X| ≤ η * X) : Rel η x X := by
  rw [abs_le] at h
  constructor <;> linarith [h.1, h.2]

theorem Rel.mono {η θ x X : K} (h : Rel η x X) (hX : 0 ≤ X) (hle : η ≤ θ) : Rel θ x X := by
  have := mul_le_mul_of_nonneg_right hle hX
  obtain ⟨a, b⟩ := h
  constructor <;> linarith

theorem Rel.trans {a b c x y Y : K} (h1 : Rel a x y) (h2 : Rel b y Y) (hY : 0 ≤ Y) (ha : a ≤ 1) (ha0 : 0 ≤ a)
    (hlo : 1 - c ≤ (1 - a) * (1 - b)) (hhi : (1 + a) * (1 + b) ≤ 1 + c) : Rel c x Y := by
  obtain ⟨p, q⟩ := h1
  obtain ⟨r, s⟩ := h2
  have e1 := mul_le_mul_of_nonneg_left r (sub_nonneg.mpr ha)
  have e2 := mul_le_mul_of_nonneg_left s (by linarith : 0 ≤ 1 + a)
  have e3 := mul_le_mul_of_nonneg_right hlo hY
  have e4 := mul_le_mul_of_nonneg_right hhi hY
  constructor <;> linarith

theorem Rel.mul {a b c x y X Y : K} (h1 : Rel a x X) (h2 : Rel b y Y) (hX : 0 ≤ X) (hY : 0 ≤ Y) (ha : a ≤ 1) (hb : b ≤ 1)
    (hlo : 1 - c ≤ (1 - a) * (1 - b)) (hhi : (1 + a) * (1 + b) ≤ 1 + c) : Rel c (x * y) (X * Y) := by
  obtain ⟨p, q⟩ := h1
  obtain ⟨r, s⟩ := h2
  have hx : 0 ≤ x := le_trans (mul_nonneg (sub_nonneg.mpr ha) hX) p
  have hy : 0 ≤ y := le_trans (mul_nonneg (sub_nonneg.mpr hb) hY) r
  have e1 : ((1 - a) * X) * ((1 - b) * Y) ≤ x * y := mul_le_mul p r (mul_nonneg (sub_nonneg.mpr hb) hY) hx
  have e2 : x * y ≤ ((1 + a) * X) * ((1 + b) * Y) := mul_le_mul q s hy (le_trans hx q)
  have hXY := mul_nonneg hX hY
  have e3 := mul_le_mul_of_nonneg_right hlo hXY
  have e4 := mul_le_mul_of_nonneg_right hhi hXY
  constructor
  · refine e3.trans (le_trans (le_of_eq ?_) e1); ring
  · refine e2.trans (le_trans (le_of_eq ?_) e4); ring

theorem Rel.div {a b c x y X Y : K} (h1 : Rel a x X) (h2 : Rel b y Y) (hX : 0 ≤ X) (hY : 0 < Y) (ha : a ≤ 1) (hb : b < 1)
    (hc : 0 ≤ c) (hc1 : c ≤ 1) (hlo : (1 - c) * (1 + b) ≤ 1 - a) (hhi : 1 + a ≤ (1 + c) * (1 - b)) : Rel c (x / y) (X / Y) := by
  obtain ⟨p, q⟩ := h1
  obtain ⟨r, s⟩ := h2
  have hy : 0 < y := lt_of_lt_of_le (mul_pos (sub_pos.mpr hb) hY) r
  have hx : 0 ≤ x := le_trans (mul_nonneg (sub_nonneg.mpr ha) hX) p
  constructor
  · rw [le_div_iff₀ hy]
    calc (1 - c) * (X / Y) * y ≤ (1 - c) * (X / Y) * ((1 + b) * Y) := by
          apply mul_le_mul_of_nonneg_left s
          exact mul_nonneg (by linarith) (div_nonneg hX hY.le)
      _ = ((1 - c) * (1 + b)) * X := by field_simp
      _ ≤ (1 - a) * X := mul_le_mul_of_nonneg_right hlo hX
      _ ≤ x := p
  · rw [div_le_iff₀ hy]
    calc x ≤ (1 + a) * X := q
      _ ≤ ((1 + c) * (1 - b)) * X := mul_le_mul_of_nonneg_right hhi hX
      _ = (1 + c) * (X / Y) * ((1 - b) * Y) := by field_simp
      _ ≤ _ := by
          apply mul_le_mul_of_nonneg_left r
          exact mul_nonneg (by linarith) (div_nonneg hX hY.le)

end

/-- One rounding in binary32 of a number of at least 2^-120. -/
theorem rel_round {z w : ℚ} (h : |z - w| ≤ |w| / 16777216 + tinyQ) (hw : 1 / 2 ^ 120 ≤ w) : Rel (11 / 10 / 16777216) z w := by
  have h0 : 0 < w := lt_of_lt_of_le (by positivity) hw
  rw [abs_of_pos h0] at h
  apply Rel.of_abs
  refine h.trans ?_
  have : tinyQ ≤ w / 2 ^ 28 := by
    unfold tinyQ
    norm_num at hw ⊢
    linarith
  norm_num at this ⊢
  linarith

/-- The value of a balance sheet in binary32. -/
theorem value_rel {q pr b : F32} (hq : IsFin q) (hp : IsFin pr) (hb : IsFin b) (q0 : 0 ≤ toQ q) (q1 : toQ q ≤ 2 ^ 80)
    (p0 : 0 ≤ toQ pr) (p1 : toQ pr ≤ 2 ^ 40) (b0 : 0 ≤ toQ b) (b1 : toQ b ≤ 2 ^ 80)
    (hW : 1 / 2 ^ 110 ≤ toQ q + toQ pr * toQ b) :
    IsFin (q +. pr *. b) ∧ Rel (21 / 10 / 16777216) (toQ (q +. pr *. b)) (toQ q + toQ pr * toQ b) := by
  have hpb0 : 0 ≤ toQ pr * toQ b := mul_nonneg p0 b0
  have hpb1 : toQ pr * toQ b ≤ 2 ^ 40 * 2 ^ 80 := mul_le_mul p1 b1 b0 (by positivity)
  obtain ⟨m1, m2⟩ := mul_fin hp hb (by rw [abs_of_nonneg hpb0]; exact hpb1.trans (by norm_num))
  rw [abs_of_nonneg hpb0] at m2
  have ht0 := tinyQ_pos
  have ht : tinyQ ≤ (toQ q + toQ pr * toQ b) / 2 ^ 40 := by
    unfold tinyQ
    norm_num at hW ⊢
    linarith
  have hm0 := abs_le.mp m2
  generalize toQ pr * toQ b = X at *
  generalize (pr *. b) = m at *
  have a1 : |toQ q + toQ m| ≤ 2 * (toQ q + X) := by
    rw [abs_le]; norm_num at *; constructor <;> linarith
  have a2 : |toQ q + toQ m| ≤ (toQ q + X) * (1 + 11 / 10 / 16777216) := by
    rw [abs_le]; norm_num at *; constructor <;> linarith
  obtain ⟨s1, s2⟩ := add_fin hq m1 (a1.trans (by norm_num at *; linarith))
  refine ⟨s1, Rel.of_abs ?_⟩
  have s3 : |toQ (q +. m) - (toQ q + X)| ≤ |toQ (q +. m) - (toQ q + toQ m)| + |toQ m - X| := by
    rw [show toQ (q +. m) - (toQ q + X) = (toQ (q +. m) - (toQ q + toQ m)) + (toQ m - X) by ring]
    exact abs_add_le _ _
  norm_num at *
  linarith

/-- A quotient in binary32. -/
theorem quot_rel {x y : F32} {X Y a b c d : ℚ} (hx : IsFin x) (hy : IsFin y) (h1 : Rel a (toQ x) X) (h2 : Rel b (toQ y) Y)
    (hX : 0 ≤ X) (hY : 0 < Y) (ha : a ≤ 1) (hb : b < 1) (hc : 0 ≤ c) (hc1 : c ≤ 1 / 2) (hlo : (1 - c) * (1 + b) ≤ 1 - a)
    (hhi : 1 + a ≤ (1 + c) * (1 - b)) (l : 1 / 2 ^ 110 ≤ X / Y) (u : X / Y ≤ 2 ^ 110)
    (dlo : 1 - d ≤ (1 - 11 / 10 / 16777216) * (1 - c)) (dhi : (1 + 11 / 10 / 16777216) * (1 + c) ≤ 1 + d) :
    IsFin (x /. y) ∧ Rel d (toQ (x /. y)) (X / Y) := by
  have hy0 : 0 < toQ y := lt_of_lt_of_le (mul_pos (sub_pos.mpr hb) hY) h2.1
  have hq := Rel.div h1 h2 hX hY ha hb hc (by linarith) hlo hhi
  have hXY : 0 < X / Y := lt_of_lt_of_le (by positivity) l
  have lo : 1 / 2 * (X / Y) ≤ toQ x / toQ y := le_trans (mul_le_mul_of_nonneg_right (by linarith) hXY.le) hq.1
  have hi : toQ x / toQ y ≤ 2 * (X / Y) := le_trans hq.2 (mul_le_mul_of_nonneg_right (by linarith) hXY.le)
  have hpos : 0 ≤ toQ x / toQ y := le_trans (by linarith) lo
  obtain ⟨d1, d2⟩ := div_fin hx hy hy0.ne' (by rw [abs_of_nonneg hpos]; norm_num at *; linarith)
  refine ⟨d1, ?_⟩
  have r := rel_round d2 (by norm_num at *; linarith)
  exact Rel.trans r hq hXY.le (by norm_num) (by norm_num) dlo dhi

/-! ### Binary64 with a wide range -/

theorem err64' (x : ℚ) : Fl.errBound binary64 x ≤ |x| / 2 ^ 53 + 1 / 2 ^ 1075 := by
  unfold Fl.errBound
  have h1 : (2 : ℚ) ^ (-((53 : ℕ) : ℤ)) = 1 / 2 ^ 53 := by rw [zpow_neg, zpow_natCast, one_div]
  have h2 : (2 : ℚ) ^ ((-1074 : ℤ) - 1) = 1 / 2 ^ 1075 := by
    rw [show ((-1074 : ℤ) - 1) = -((1075 : ℕ) : ℤ) by norm_num, zpow_neg, zpow_natCast, one_div]
  show (2 : ℚ) ^ (-((53 : ℕ) : ℤ)) * |x| + (2 : ℚ) ^ ((-1074 : ℤ) - 1) ≤ _
  rw [h1, h2, div_eq_mul_one_div |x|, mul_comm |x|]

theorem rnd_fin64' {x : ℚ} (h : |x| ≤ 2 ^ 1000) : IsFin (Fl.rnd binary64 x) := by
  have hlt : |rndQ binary64 x| < (2 : ℚ) ^ (1024 : ℤ) := by
    have e1 : (2 : ℚ) ^ (1002 : ℕ) ≤ (2 : ℚ) ^ (1024 : ℤ) := by
      rw [show (1024 : ℤ) = ((1024 : ℕ) : ℤ) by norm_num, zpow_natCast]
      exact pow_le_pow_right₀ (by norm_num) (by norm_num)
    refine lt_of_lt_of_le ?_ e1
    by_cases hx : x = 0
    · subst hx
      have e : rndQ binary64 0 = 0 := le_antisymm (rndQ_nonpos le_rfl) (rndQ_nonneg le_rfl)
      rw [e, abs_zero]; positivity
    · have h2 := (Fl.rndQ_err (f := binary64) hx).trans (err64' x)
      have h3 := (abs_add_bound h2).1
      have h4 : (1 : ℚ) / 2 ^ 1075 ≤ 1 := by rw [div_le_one (by positivity)]; exact one_le_pow₀ (by norm_num)
      have h5 : (1 : ℚ) ≤ 2 ^ 1000 := one_le_pow₀ (by norm_num)
      have h6 : |x| / 2 ^ 53 ≤ |x| := div_le_self (abs_nonneg _) (one_le_pow₀ (by norm_num))
      have h7 : (2 : ℚ) ^ 1002 = 4 * 2 ^ 1000 := by
        rw [show (1002 : ℕ) = 1000 + 2 by norm_num, pow_add, mul_comm]; norm_num only
      rw [h7]
      clear e1 h7 h2
      generalize (2 : ℚ) ^ 1000 = A at *
      generalize (1 : ℚ) / 2 ^ 1075 = B at *
      generalize |x| / 2 ^ 53 = C at *
      linarith
  unfold Fl.rnd
  dsimp only
  rw [if_neg (not_le.mpr hlt)]
  split_ifs <;> trivial

/-- A product in binary64, within the range of normal numbers. -/
theorem mul_rel64 {x y : F64} (hx : IsFin x) (hy : IsFin y) (l : 1 / 2 ^ 1000 ≤ toQ x * toQ y) (u : toQ x * toQ y ≤ 2 ^ 1000) :
    IsFin (x *. y) ∧ Rel (1 / 2 ^ 52) (toQ (x *. y)) (toQ x * toQ y) := by
  have h0 : 0 < toQ x * toQ y := lt_of_lt_of_le (by positivity) l
  have hf : IsFin (x *. y) := by
    show IsFin (Fl.mul x y)
    rw [Fl.mul_num hx hy]
    split
    · exact Fl.isFin_zero _
    · exact rnd_fin64' (by rw [abs_of_pos h0]; exact u)
  refine ⟨hf, Rel.of_abs ?_⟩
  have e := ((Fl.mul_err (a := x) (b := y) hf).2.2).trans (err64' _)
  rw [abs_of_pos h0] at e
  have ht : (1 : ℚ) / 2 ^ 1075 ≤ toQ x * toQ y / 2 ^ 53 := by
    rw [show (1 : ℚ) / 2 ^ 1075 = 1 / 2 ^ 1000 / 2 ^ 75 by rw [div_div, ← pow_add]]
    exact (div_le_div_of_nonneg_right l (by positivity)).trans
      (div_le_div_of_nonneg_left h0.le (by positivity) (pow_le_pow_right₀ (by norm_num) (by norm_num)))
  refine e.trans ?_
  clear l u e
  generalize (1 : ℚ) / 2 ^ 1075 = B at *
  generalize toQ x * toQ y = A at *
  have : A / 2 ^ 53 + A / 2 ^ 53 = 1 / 2 ^ 52 * A := by ring
  linarith

end Verif.FloatScore
