import Verif.Num.IEEE
import Mathlib.Tactic.Linarith
import Mathlib.Tactic.NormNum
import Mathlib.Tactic.Ring
import Mathlib.Tactic.Positivity
import Mathlib.Algebra.Order.Field.Basic

/-! Lemmas about the IEEE model, in particular the sign laws. -/

namespace Verif

theorem rne_nonneg {y : ℚ} (h : 0 ≤ y) : 0 ≤ rne y := by
  have : 0 ≤ ⌊y⌋ := Int.floor_nonneg.mpr h
  unfold rne; simp only
  split
  · exact this
  · split
    · omega
    · split <;> omega

theorem rne_nonpos {y : ℚ} (h : y ≤ 0) : rne y ≤ 0 := by
  unfold rne; simp only
  have hf := Int.floor_le y
  by_cases hz : ⌊y⌋ = 0
  · have : y = 0 := by
      rw [hz] at hf; push_cast at hf; linarith
    subst this
    simp
  · have : ⌊y⌋ ≤ -1 := by
      have : ⌊y⌋ ≤ 0 := Int.floor_le_iff.mpr (by push_cast; linarith)
      omega
    split
    · omega
    · split
      · omega
      · split <;> omega

theorem ulp_pos (f : Fmt) (x : ℚ) : 0 < ulp f x := by
  unfold ulp; exact zpow_pos (by norm_num) _

theorem rndQ_nonneg {f : Fmt} {x : ℚ} (h : 0 ≤ x) : 0 ≤ rndQ f x := by
  unfold rndQ
  have hu := ulp_pos f x
  have : (0 : ℚ) ≤ (rne (x / ulp f x) : ℚ) := by
    exact_mod_cast rne_nonneg (div_nonneg h hu.le)
  positivity

theorem rndQ_nonpos {f : Fmt} {x : ℚ} (h : x ≤ 0) : rndQ f x ≤ 0 := by
  unfold rndQ
  have hu := ulp_pos f x
  have : (rne (x / ulp f x) : ℚ) ≤ 0 := by
    exact_mod_cast rne_nonpos (div_nonpos_of_nonpos_of_nonneg h hu.le)
  exact mul_nonpos_of_nonpos_of_nonneg this hu.le

namespace Fl
variable {f : Fmt}

section tables
variable (a b : ℚ) (s t : Bool) (x : Fl f)
@[simp] theorem lt_nan_left : lt nan x = false := rfl
@[simp] theorem lt_nan_right : lt x nan = false := by cases x <;> rfl
@[simp] theorem lt_inf_inf : lt (inf s : Fl f) (inf t) = (s && !t) := rfl
@[simp] theorem lt_inf_fin : lt (inf s : Fl f) (fin b) = s := rfl
@[simp] theorem lt_inf_nz : lt (inf s : Fl f) negZero = s := rfl
@[simp] theorem lt_fin_inf : lt (fin a : Fl f) (inf t) = !t := rfl
@[simp] theorem lt_nz_inf : lt (negZero : Fl f) (inf t) = !t := rfl
@[simp] theorem lt_fin_fin : lt (fin a : Fl f) (fin b) = decide (a < b) := rfl
@[simp] theorem lt_nz_fin : lt (negZero : Fl f) (fin b) = decide (0 < b) := rfl
@[simp] theorem lt_fin_nz : lt (fin a : Fl f) negZero = decide (a < 0) := rfl
@[simp] theorem lt_nz_nz : lt (negZero : Fl f) negZero = false := rfl

@[simp] theorem beq_nan_left : beq nan x = false := rfl
@[simp] theorem beq_nan_right : beq x nan = false := by cases x <;> rfl
@[simp] theorem beq_inf_inf : beq (inf s : Fl f) (inf t) = (s == t) := rfl
@[simp] theorem beq_inf_fin : beq (inf s : Fl f) (fin b) = false := rfl
@[simp] theorem beq_inf_nz : beq (inf s : Fl f) negZero = false := rfl
@[simp] theorem beq_fin_inf : beq (fin a : Fl f) (inf t) = false := rfl
@[simp] theorem beq_nz_inf : beq (negZero : Fl f) (inf t) = false := rfl
@[simp] theorem beq_fin_fin : beq (fin a : Fl f) (fin b) = decide (a = b) := rfl
@[simp] theorem beq_nz_fin : beq (negZero : Fl f) (fin b) = decide (0 = b) := rfl
@[simp] theorem beq_fin_nz : beq (fin a : Fl f) negZero = decide (a = 0) := rfl
@[simp] theorem beq_nz_nz : beq (negZero : Fl f) negZero = true := rfl

@[simp] theorem neg_nan : neg (nan : Fl f) = nan := rfl
@[simp] theorem neg_inf : neg (inf s : Fl f) = inf (!s) := rfl
@[simp] theorem neg_nz : neg (negZero : Fl f) = fin 0 := rfl
theorem neg_fin : neg (fin a : Fl f) = if a = 0 then negZero else fin (-a) := rfl

@[simp] theorem add_nan_left : add nan x = nan := rfl
@[simp] theorem add_nan_right : add x nan = nan := by cases x <;> rfl
theorem add_inf_inf : add (inf s : Fl f) (inf t) = if s = t then inf s else nan := rfl
@[simp] theorem add_inf_fin : add (inf s : Fl f) (fin b) = inf s := rfl
@[simp] theorem add_inf_nz : add (inf s : Fl f) negZero = inf s := rfl
@[simp] theorem add_fin_inf : add (fin a : Fl f) (inf t) = inf t := rfl
@[simp] theorem add_nz_inf : add (negZero : Fl f) (inf t) = inf t := rfl
@[simp] theorem add_fin_fin : add (fin a : Fl f) (fin b) = ofRat f (a + b) := rfl
@[simp] theorem add_nz_fin : add (negZero : Fl f) (fin b) = ofRat f (0 + b) := rfl
@[simp] theorem add_fin_nz : add (fin a : Fl f) negZero = ofRat f (a + 0) := rfl
@[simp] theorem add_nz_nz : add (negZero : Fl f) negZero = negZero := rfl

@[simp] theorem mul_nan_left : mul nan x = nan := rfl
@[simp] theorem mul_nan_right : mul x nan = nan := by cases x <;> rfl
@[simp] theorem mul_inf_inf : mul (inf s : Fl f) (inf t) = inf (s != t) := by
  cases t <;> simp [mul, signBit]
theorem mul_inf_fin : mul (inf s : Fl f) (fin b) = if b = 0 then nan else inf (s != decide (b < 0)) := by
  simp [mul, toQ, signBit]
@[simp] theorem mul_inf_nz : mul (inf s : Fl f) negZero = nan := by simp [mul, toQ]
theorem mul_fin_inf : mul (fin a : Fl f) (inf t) = if a = 0 then nan else inf (decide (a < 0) != t) := rfl
@[simp] theorem mul_nz_inf : mul (negZero : Fl f) (inf t) = nan := rfl
theorem mul_fin_fin : mul (fin a : Fl f) (fin b) =
    if a * b = 0 then zero (decide (a < 0) != decide (b < 0)) else rnd f (a * b) := rfl
@[simp] theorem mul_nz_fin : mul (negZero : Fl f) (fin b) = zero (true != decide (b < 0)) := by
  simp [mul, toQ, signBit]
@[simp] theorem mul_fin_nz : mul (fin a : Fl f) negZero = zero (decide (a < 0) != true) := by
  simp [mul, toQ, signBit]
@[simp] theorem mul_nz_nz : mul (negZero : Fl f) negZero = fin 0 := by
  simp [mul, toQ, signBit, zero]

@[simp] theorem div_nan_left : div nan x = nan := rfl
@[simp] theorem div_nan_right : div x nan = nan := by cases x <;> rfl
@[simp] theorem div_inf_inf : div (inf s : Fl f) (inf t) = nan := rfl
@[simp] theorem div_inf_fin : div (inf s : Fl f) (fin b) = inf (s != decide (b < 0)) := rfl
@[simp] theorem div_inf_nz : div (inf s : Fl f) negZero = inf (s != true) := rfl
@[simp] theorem div_fin_inf : div (fin a : Fl f) (inf t) = zero (decide (a < 0) != t) := rfl
@[simp] theorem div_nz_inf : div (negZero : Fl f) (inf t) = zero (true != t) := rfl
theorem div_fin_fin : div (fin a : Fl f) (fin b) =
    if b = 0 then (if a = 0 then nan else inf (decide (a < 0) != decide (b < 0)))
    else if a = 0 then zero (decide (a < 0) != decide (b < 0))
    else rnd f (a / b) := rfl
theorem div_nz_fin : div (negZero : Fl f) (fin b) =
    if b = 0 then nan else zero (true != decide (b < 0)) := by
  simp [div, toQ, signBit]
theorem div_fin_nz : div (fin a : Fl f) negZero =
    if a = 0 then nan else inf (decide (a < 0) != true) := by
  simp [div, toQ, signBit]
@[simp] theorem div_nz_nz : div (negZero : Fl f) negZero = nan := rfl
end tables

/-- Numerically not below zero, or NaN. -/
def NotNeg (x : Fl f) : Prop := lt x (fin 0) = false

@[simp] theorem notNeg_nan : NotNeg (nan : Fl f) := by simp [NotNeg]
@[simp] theorem notNeg_inf (s : Bool) : NotNeg (inf s : Fl f) ↔ s = false := by simp [NotNeg]
@[simp] theorem notNeg_nz : NotNeg (negZero : Fl f) := by simp [NotNeg]
@[simp] theorem notNeg_fin (q : ℚ) : NotNeg (fin q : Fl f) ↔ 0 ≤ q := by simp [NotNeg]

@[simp] theorem ofRat_zero : ofRat f 0 = fin 0 := rfl

theorem rnd_notNeg {x : ℚ} (h : 0 ≤ x) : NotNeg (rnd f x) := by
  unfold rnd; simp only
  have := rndQ_nonneg (f := f) h
  split
  · simp [h]
  · split
    · split <;> simp
    · simpa using this

theorem ofRat_notNeg {x : ℚ} (h : 0 ≤ x) : NotNeg (ofRat f x) := by
  unfold ofRat; split
  · simp
  · exact rnd_notNeg h

@[simp] theorem zero_notNeg (s : Bool) : NotNeg (zero s : Fl f) := by
  cases s <;> simp [zero]

theorem add_notNeg {a b : Fl f} (ha : NotNeg a) (hb : NotNeg b) : NotNeg (add a b) := by
  cases a <;> cases b <;> simp_all [add_inf_inf]
  · exact ofRat_notNeg hb
  · exact ofRat_notNeg ha
  · exact ofRat_notNeg (add_nonneg ha hb)

theorem sub_notNeg {a b : Fl f} (h : lt a b = false) : NotNeg (sub a b) := by
  unfold sub
  cases a <;> cases b <;> simp_all [add_inf_inf, neg_fin]
  all_goals try split
  all_goals try simp_all
  all_goals exact ofRat_notNeg (by linarith)

theorem ofIntSigned_notNeg {s : Bool} {n : ℤ} (h : 0 ≤ n) : NotNeg (ofIntSigned s n : Fl f) := by
  unfold ofIntSigned; split
  · exact zero_notNeg s
  · simpa using h

theorem mul_notNeg {a b : Fl f} (ha : lt (fin 0) a = true) (hb : NotNeg b) :
    NotNeg (mul a b) := by
  cases a <;> cases b <;> simp_all [mul_inf_fin, mul_fin_inf, mul_fin_fin]
  all_goals split
  all_goals simp_all
  · exact ha.le
  · exact rnd_notNeg (mul_nonneg ha.le hb)

theorem div_notNeg {a b : Fl f} (hb : lt (fin 0) b = true) (ha : NotNeg a) :
    NotNeg (div a b) := by
  cases a <;> cases b <;> simp_all [div_nz_fin, div_fin_fin]
  · exact hb.le
  · split <;> simp
  · rw [if_neg hb.ne']
    split
    · simp
    · exact rnd_notNeg (div_nonneg ha hb.le)

instance : SignLaws (Fl f) where
  le_of_lt a b h := by change le a b = true; change lt a b = true at h; simp [le, h]
  le_refl_zero := by change le (fin 0) (fin 0) = true; simp [le]
  not_lt_of_le a b h := by
    change lt b a = false; change le a b = true at h
    cases a <;> cases b <;> simp_all [le]
    · rcases h with h | h <;> simp_all
    all_goals rcases h with h | h <;> linarith
  sub_not_neg a b h := sub_notNeg h
  add_not_neg a b h h' := add_notNeg h h'
  mul_not_neg a b h h' := mul_notNeg h h'
  div_not_neg a b h h' := div_notNeg h h'
  round_not_neg a h := by
    change NotNeg a at h; change NotNeg (round a)
    cases a <;> simp_all [round]
    exact ofIntSigned_notNeg (Int.floor_nonneg.mpr (by linarith))
  ceil_not_neg a h := by
    change NotNeg a at h; change NotNeg (ceil a)
    cases a <;> simp_all [ceil]
    exact ofIntSigned_notNeg (Int.ceil_nonneg h)
  floor_not_neg a h := by
    change NotNeg a at h; change NotNeg (floor a)
    cases a <;> simp_all [floor]
    exact ofIntSigned_notNeg (Int.floor_nonneg.mpr h)
  not_neg_of_not_lt u x h h' := by
    change le (fin 0) u = true at h; change lt x u = false at h'; change NotNeg x
    cases u <;> cases x <;> simp_all [le]
    rcases h with h | h <;> linarith
  not_neg_of_lt m x h h' := by
    change NotNeg m at h; change lt m x = true at h'; change NotNeg x
    cases m <;> cases x <;> simp_all
    all_goals linarith

end Fl
end Verif
