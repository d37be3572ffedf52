import Verif.Num.Mono
import Verif.Lemmas.FloatMoney
import Verif.Lemmas.Account

/-!
# IEEE numbers for which `x >= 0` holds

Closure properties of "zero or positive, possibly infinite, but not NaN", and when results are finite.
-/

namespace Verif.FloatNN
open FloatOps
open Fl (toQ IsFin)
variable {f : Fmt}

/-- The C++ test `x >= 0` succeeds. -/
def GeZero (x : Fl f) : Prop := Fl.le (.fin 0) x = true

theorem geZero_iff {x : Fl f} : GeZero x ↔ x ≠ .nan ∧ Fl.NotNeg x := by
  unfold GeZero Fl.le
  cases x <;> simp
  exact le_iff_lt_or_eq.symm

theorem geZero_of_fin {x : Fl f} (h : IsFin x) (h0 : 0 ≤ toQ x) : GeZero x := by
  rw [geZero_iff]
  cases x <;> simp_all [IsFin, toQ]

theorem toQ_of_geZero {x : Fl f} (h : GeZero x) (hf : IsFin x) : 0 ≤ toQ x := by
  rw [geZero_iff] at h
  cases x <;> simp_all [IsFin, toQ]

theorem geZero_of_pos {x : Fl f} (h : Fl.lt (.fin 0) x = true) : GeZero x := by
  unfold GeZero Fl.le; simp [h]

theorem pos_of_fin {x : Fl f} (h : IsFin x) (h0 : 0 < toQ x) : Fl.lt (.fin 0) x = true :=
  (Fl.lt_iff (a := (.fin 0 : Fl f)) trivial h).mpr h0

theorem toQ_of_pos {x : Fl f} (h : IsFin x) (h0 : Fl.lt (.fin 0) x = true) : 0 < toQ x :=
  (Fl.lt_iff (a := (.fin 0 : Fl f)) trivial h).mp h0

theorem geZero_add {a b : Fl f} (ha : GeZero a) (hb : GeZero b) : GeZero (Fl.add a b) := by
  rw [geZero_iff] at *
  refine ⟨?_, Fl.add_notNeg ha.2 hb.2⟩
  cases a <;> cases b <;> simp_all [Fl.add_inf_inf]
  all_goals exact Fl.ofRat_ne_nan _

theorem geZero_sub {a b : Fl f} (h : Fl.lt b a = true) : GeZero (Fl.sub a b) := by
  rw [geZero_iff]
  refine ⟨?_, Fl.sub_notNeg (by cases a <;> cases b <;> simp_all <;> linarith)⟩
  unfold Fl.sub
  cases a <;> cases b <;> simp_all [Fl.add_inf_inf, Fl.neg_fin]
  all_goals try split
  all_goals try simp_all
  all_goals exact Fl.ofRat_ne_nan _

theorem geZero_mul {u x : Fl f} (hu : IsFin u) (h0 : 0 < toQ u) (hx : GeZero x) : GeZero (Fl.mul u x) := by
  rw [geZero_iff] at *
  refine ⟨?_, Fl.mul_notNeg (pos_of_fin hu h0) hx.2⟩
  cases u <;> cases x <;> simp_all [Fl.mul_fin_inf, Fl.mul_fin_fin, IsFin, toQ, Fl.mul_fin_nz]
  · exact fun h => absurd h h0.ne'
  · exact Fl.zero_ne_nan _
  · split
    · exact Fl.zero_ne_nan _
    · exact Fl.rnd_ne_nan _

theorem geZero_mul' {u x : Fl f} (hu : IsFin u) (h0 : 0 < toQ u) (hx : GeZero x) : GeZero (Fl.mul x u) := by
  have hp := pos_of_fin hu h0
  rw [geZero_iff] at *
  cases u <;> cases x <;> simp_all [Fl.mul_inf_fin, Fl.mul_fin_fin, IsFin, toQ, Fl.mul_nz_fin]
  · exact ⟨fun h => absurd h h0.ne', by split <;> simp_all; exact h0.le⟩
  · exact Fl.zero_ne_nan _
  · split
    · exact ⟨Fl.zero_ne_nan _, Fl.zero_notNeg _⟩
    · exact ⟨Fl.rnd_ne_nan _, Fl.rnd_notNeg (mul_nonneg hx h0.le)⟩

theorem geZero_div {u x : Fl f} (hu : IsFin u) (h0 : 0 < toQ u) (hx : GeZero x) : GeZero (Fl.div x u) := by
  rw [geZero_iff] at *
  refine ⟨?_, Fl.div_notNeg (pos_of_fin hu h0) hx.2⟩
  cases u <;> cases x <;> simp_all [Fl.div_nz_fin, Fl.div_fin_fin, IsFin, toQ]
  · exact ⟨h0.ne', Fl.zero_ne_nan _⟩
  · rw [if_neg h0.ne']
    split
    · exact Fl.zero_ne_nan _
    · exact Fl.rnd_ne_nan _

theorem ofIntSigned_ne_nan (s : Bool) (n : ℤ) : (Fl.ofIntSigned s n : Fl f) ≠ .nan := by
  unfold Fl.ofIntSigned; split
  · exact Fl.zero_ne_nan _
  · simp

theorem geZero_floor {x : Fl f} (hx : GeZero x) : GeZero (Fl.floor x) := by
  rw [geZero_iff] at *
  refine ⟨?_, SignLaws.floor_not_neg x hx.2⟩
  cases x <;> simp_all [Fl.floor, ofIntSigned_ne_nan]

theorem geZero_ceil {x : Fl f} (hx : GeZero x) : GeZero (Fl.ceil x) := by
  rw [geZero_iff] at *
  refine ⟨?_, SignLaws.ceil_not_neg x hx.2⟩
  cases x <;> simp_all [Fl.ceil, ofIntSigned_ne_nan]

theorem geZero_round {x : Fl f} (hx : GeZero x) : GeZero (Fl.round x) := by
  rw [geZero_iff] at *
  refine ⟨?_, SignLaws.round_not_neg x hx.2⟩
  cases x <;> simp_all [Fl.round, ofIntSigned_ne_nan]

theorem litZero : (lit (Fl f) 0) = .fin 0 := rfl

section units
variable {u x : Fl f} (hu : IsFin u)
include hu

theorem geZero_floorUnit (hx : GeZero x) : GeZero (floorUnit x u) := by
  unfold floorUnit
  split
  · rename_i h
    have h0 := toQ_of_pos hu h
    exact geZero_mul hu h0 (geZero_floor (geZero_div hu h0 hx))
  · exact hx

theorem geZero_ceilUnit (hx : GeZero x) : GeZero (ceilUnit x u) := by
  unfold ceilUnit
  split
  · rename_i h
    have h0 := toQ_of_pos hu h
    exact geZero_mul hu h0 (geZero_ceil (geZero_div hu h0 hx))
  · exact hx

theorem geZero_roundUnit (hx : GeZero x) : GeZero (roundUnit x u) := by
  unfold roundUnit
  split
  · rename_i h
    have h0 := toQ_of_pos hu h
    exact geZero_mul hu h0 (geZero_round (geZero_div hu h0 hx))
  · exact hx

end units

/-- A cap that is NaN is ignored. -/
theorem geZero_fmin {x m : Fl f} (hx : GeZero x) (hm : Fl.NotNeg m) : GeZero (fmin x m) := by
  unfold fmin
  split
  · rename_i h
    rw [geZero_iff]
    refine ⟨?_, hm⟩
    rintro rfl
    cases h
  · exact hx

/-- A NaN in the second place is ignored. -/
theorem geZero_fmax {x m : Fl f} (hm : GeZero m) : GeZero (fmax m x) := by
  unfold fmax
  split
  · rename_i h
    change Fl.lt m x = true at h
    rw [geZero_iff] at *
    cases m <;> cases x <;> simp_all <;> linarith
  · exact hm

theorem geZero_getFee (a : Account (Fl f)) (fc : FeeConfig (Fl f)) (q : Fl f) (hu : IsFin a.quoteUnit)
    (hm : GeZero fc.minimumFee) : GeZero (a.getFee fc q) :=
  geZero_ceilUnit hu (geZero_fmax hm)

theorem notNeg_maxBase (a : Account (Fl f)) (t : OhlcTick (Fl f)) (hv : Fl.NotNeg t.volume) (hu : IsFin a.baseUnit) :
    Fl.NotNeg (a.maxBaseAmount t) := by
  unfold Account.maxBaseAmount
  split
  · rename_i h
    have h1 : Fl.NotNeg (Fl.mul a.maxVolumeRatio t.volume) := Fl.mul_notNeg h hv
    unfold floorUnit
    split
    · rename_i h2
      exact Fl.mul_notNeg h2 (SignLaws.floor_not_neg (a.maxVolumeRatio *. t.volume /. a.baseUnit) (Fl.div_notNeg h2 h1))
    · exact h1
  · show Fl.NotNeg (Fl.maxFin f)
    unfold Fl.maxFin
    rw [Fl.notNeg_fin]
    have h1 : (1 : ℚ) ≤ 2 ^ f.p := one_le_pow₀ (by norm_num)
    have : (0 : ℚ) ≤ (2 : ℚ) ^ (f.emax - f.p) := by positivity
    exact mul_nonneg (by linarith) this

/-! ### Finite results in binary32 -/

open FloatMoney

theorem rnd_fin {x : ℚ} (h : |x| ≤ 2 ^ 127) : IsFin (Fl.rnd binary32 x) := by
  have hlt : |rndQ binary32 x| < (2 : ℚ) ^ (128 : ℤ) := by
    have e1 : (2 : ℚ) ^ (128 : ℤ) = 2 ^ 128 := by norm_cast
    rw [e1]
    by_cases hx : x = 0
    · subst hx
      have e : rndQ binary32 0 = 0 := le_antisymm (rndQ_nonpos le_rfl) (rndQ_nonneg le_rfl)
      rw [e, abs_zero]; norm_num
    · have h2 := Fl.rndQ_err (f := binary32) hx
      rw [err32] at h2
      have h3 := (abs_add_bound h2).1
      have h4 : tinyQ ≤ 1 := by unfold tinyQ; norm_num
      norm_num at h ⊢
      linarith
  unfold Fl.rnd
  dsimp only
  rw [if_neg (not_le.mpr hlt)]
  split_ifs <;> trivial

theorem ofRat_fin {x : ℚ} (h : |x| ≤ 2 ^ 127) : IsFin (Fl.ofRat binary32 x) := by
  unfold Fl.ofRat
  split
  · trivial
  · exact rnd_fin h

theorem add_fin {x y : F32} (hx : IsFin x) (hy : IsFin y) (h : |toQ x + toQ y| ≤ 2 ^ 127) :
    IsFin (x +. y) ∧ |toQ (x +. y) - (toQ x + toQ y)| ≤ |toQ x + toQ y| / 16777216 + tinyQ := by
  have hf : IsFin (x +. y) := by
    show IsFin (Fl.add x y)
    cases x <;> cases y <;> first | exact hx.elim | exact hy.elim | exact ofRat_fin h | trivial
  refine ⟨hf, ?_⟩
  have := (Fl.add_err (a := x) (b := y) hf).2.2
  rwa [err32] at this

theorem sub_fin {x y : F32} (hx : IsFin x) (hy : IsFin y) (h : |toQ x - toQ y| ≤ 2 ^ 127) :
    IsFin (x -. y) ∧ |toQ (x -. y) - (toQ x - toQ y)| ≤ |toQ x - toQ y| / 16777216 + tinyQ := by
  have := add_fin (x := x) (y := Fl.neg y) hx (Fl.isFin_neg.mpr hy) (by rwa [Fl.toQ_neg, ← sub_eq_add_neg])
  rw [Fl.toQ_neg, ← sub_eq_add_neg] at this
  exact this

theorem mul_fin {x y : F32} (hx : IsFin x) (hy : IsFin y) (h : |toQ x * toQ y| ≤ 2 ^ 127) :
    IsFin (x *. y) ∧ |toQ (x *. y) - toQ x * toQ y| ≤ |toQ x * toQ y| / 16777216 + tinyQ := by
  have hf : IsFin (x *. y) := by
    show IsFin (Fl.mul x y)
    rw [Fl.mul_num hx hy]
    split
    · exact Fl.isFin_zero _
    · exact rnd_fin h
  refine ⟨hf, ?_⟩
  have := (Fl.mul_err (a := x) (b := y) hf).2.2
  rwa [err32] at this

theorem div_fin {x y : F32} (hx : IsFin x) (hy : IsFin y) (h0 : toQ y ≠ 0) (h : |toQ x / toQ y| ≤ 2 ^ 127) :
    IsFin (x /. y) ∧ |toQ (x /. y) - toQ x / toQ y| ≤ |toQ x / toQ y| / 16777216 + tinyQ := by
  have hf : IsFin (x /. y) := by
    show IsFin (Fl.div x y)
    cases y with
    | nan => exact hy.elim
    | inf s => exact hy.elim
    | negZero => exact absurd rfl h0
    | fin b =>
      change b ≠ 0 at h0
      cases x with
      | nan => exact hx.elim
      | inf s => exact hx.elim
      | negZero => rw [Fl.div_nz_fin, if_neg h0]; exact Fl.isFin_zero _
      | fin a =>
        rw [Fl.div_fin_fin, if_neg h0]
        split
        · exact Fl.isFin_zero _
        · exact rnd_fin h
  refine ⟨hf, ?_⟩
  have := (Fl.div_err (a := x) hy hf).2.2
  rwa [err32] at this

end Verif.FloatNN
