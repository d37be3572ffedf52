import Verif.Props.FloatQuote
import Verif.Lemmas.FloatVal

/-!
# C102: amounts of base currency in binary32

C04 and C11 are statements about exact arithmetic.  Here: how much base currency an executed order moves in binary32.
-/

namespace Verif.Props
open FloatOps Spec FloatMoney FloatNN FloatVal
open Fl (toQ IsFin)

/-- An executed buy or sell of `b` moves `b` rounded to the unit, up to rounding. -/
private theorem moved (a a' : Account F32) (fc : FeeConfig F32) (b p : F32) (hg : FloatOnGrid a)
    (hu : SaneUnits a) (hn : Numbers a) (hd : NoDebt a) (hn' : Numbers a')
    (h : a.buyBase fc b p = .ok (true, a') ∨ a.sellBase fc b p = .ok (true, a')) :
    IsFin (roundUnit b a.baseUnit) ∧ (b >=. lit F32 0) = true ∧ 0 ≤ toQ (roundUnit b a.baseUnit) ∧
    |(|toQ a'.baseBalance - toQ a.baseBalance|) - toQ (roundUnit b a.baseUnit)| ≤
      44 * (toQ a.baseBalance + toQ (roundUnit b a.baseUnit)) / 16777216 + 34 * (tinyQ * (1 + toQ a.baseUnit)) := by
  have ht := tinyQ_pos
  have dB := hd.base
  have ub := hu.base.2
  have htu : 0 ≤ tinyQ * toQ a.baseUnit := mul_nonneg ht.le ub
  have hgB : NearGrid a.baseUnit a.baseBalance _ := nearGrid_of_near hg.base
  have hB := hn'.base
  rcases h with h | h
  · obtain ⟨-, hb0, hc⟩ := a.buyBase_cases h
    rcases hc with ⟨h, -⟩ | ⟨-, -, q, fee, -, -, -, rfl⟩
    · cases h
    have nb : NotBelowZero (roundUnit b a.baseUnit) := roundUnit_notBelow' (SignLaws.not_lt_of_le _ _ hb0)
    simp only [Account.afterBuy] at hB ⊢
    obtain ⟨-, fb, eB⟩ := Fl.add_err (a := a.baseBalance) (b := roundUnit b a.baseUnit) (fin_of_round hB)
    have hgb := round_grid fb
    have b0 : 0 ≤ toQ (roundUnit b a.baseUnit) := notBelow_toQ fb nb
    generalize roundUnit b a.baseUnit = b' at *
    rw [err32] at eB
    change |toQ (a.baseBalance +. b') - _| ≤ _ at eB
    have sB := stored (u := a.baseUnit) eB (ex := 4 * |toQ a.baseBalance| / 16777216 + 4 * tinyQ)
      (ey := 2 * |toQ b'| / 16777216 + 2 * tinyQ) (by positivity) (by positivity)
      (fun h => grid_add (hgB h) (hgb h)) hB
    rw [abs_of_nonneg dB, abs_of_nonneg b0, abs_of_nonneg (add_nonneg dB b0), abs_of_nonneg ub] at sB
    refine ⟨fb, hb0, b0, ?_⟩
    generalize toQ (roundUnit (a.baseBalance +. b') a.baseUnit) = B' at *
    have e1 : tinyQ * (1 + toQ a.baseUnit) = tinyQ + tinyQ * toQ a.baseUnit := by ring
    rw [e1] at sB ⊢
    have h1 := abs_abs_sub_abs_le (B' - toQ a.baseBalance) (toQ b')
    rw [abs_of_nonneg b0] at h1
    refine h1.trans ?_
    rw [show B' - toQ a.baseBalance - toQ b' = B' - (toQ a.baseBalance + toQ b') by ring]
    refine sB.trans ?_
    linarith
  · obtain ⟨-, hb0, hc⟩ := a.sellBase_cases h
    rcases hc with ⟨h, -⟩ | ⟨-, -, h1, q, fee, -, -, -, rfl⟩
    · cases h
    have nb : NotBelowZero (roundUnit b a.baseUnit) := roundUnit_notBelow' (SignLaws.not_lt_of_le _ _ hb0)
    simp only [Account.afterSell] at hB ⊢
    obtain ⟨-, fb, eB⟩ := Fl.sub_err (a := a.baseBalance) (b := roundUnit b a.baseUnit) (fin_of_round hB)
    have hgb := round_grid fb
    have b0 : 0 ≤ toQ (roundUnit b a.baseUnit) := notBelow_toQ fb nb
    have hbB : toQ (roundUnit b a.baseUnit) ≤ toQ a.baseBalance :=
      (Fl.lt_eq_false_iff (a := a.baseBalance) (b := roundUnit b a.baseUnit) hn.base fb).mp h1
    generalize roundUnit b a.baseUnit = b' at *
    rw [err32] at eB
    change |toQ (a.baseBalance -. b') - _| ≤ _ at eB
    have sB := stored (u := a.baseUnit) eB (ex := 4 * |toQ a.baseBalance| / 16777216 + 4 * tinyQ)
      (ey := 2 * |toQ b'| / 16777216 + 2 * tinyQ) (by positivity) (by positivity)
      (fun h => grid_sub (hgB h) (hgb h)) hB
    rw [abs_of_nonneg dB, abs_of_nonneg b0, abs_of_nonneg (sub_nonneg.mpr hbB), abs_of_nonneg ub] at sB
    refine ⟨fb, hb0, b0, ?_⟩
    generalize toQ (roundUnit (a.baseBalance -. b') a.baseUnit) = B' at *
    have e1 : tinyQ * (1 + toQ a.baseUnit) = tinyQ + tinyQ * toQ a.baseUnit := by ring
    rw [e1] at sB ⊢
    have h1 := abs_abs_sub_abs_le (B' - toQ a.baseBalance) (-toQ b')
    rw [abs_neg, abs_of_nonneg b0] at h1
    refine h1.trans ?_
    rw [show B' - toQ a.baseBalance - -toQ b' = B' - (toQ a.baseBalance - toQ b') by ring]
    refine sB.trans ?_
    linarith

/-- **C102** (orders given as an amount of base currency). In binary32 an executed market or stop order for `x` base currency
changes the base balance by `x`, up to about half a unit and a 2^-17 part of the balance and the amount (plus underflow).
A limit order moves at most that much. -/
theorem C102_base_amount (a a' : Account F32) (c : AccountConfig F32) (o : Order F32) (t : OhlcTick F32)
    (ty : OrderType) (x : F32) (hty : o.type = some ty) (ho : o.amount = .base x)
    (hg : FloatOnGrid a) (hu : SaneUnits a) (hn : Numbers a) (hd : NoDebt a) (hn' : Numbers a')
    (h : a.executeOrder c o t = .ok (true, a')) :
    (ty ≠ .limit → |(|toQ a'.baseBalance - toQ a.baseBalance|) - toQ x| ≤
      17 / 32 * toQ a.baseUnit + (toQ a.baseBalance + toQ x) / 2 ^ 17 + (1 + toQ a.baseUnit) / 2 ^ 140) ∧
    (IsFin x → |toQ a'.baseBalance - toQ a.baseBalance| ≤
      toQ x + 17 / 32 * toQ a.baseUnit + (toQ a.baseBalance + toQ x) / 2 ^ 17 + (1 + toQ a.baseUnit) / 2 ^ 140) := by
  have hv : ValidOrder o := by
    by_contra hv
    rw [Account.executeOrder_invalid a c o t hv] at h; cases h
  obtain ⟨ty', sd, hty', hsd, -⟩ := id hv
  obtain rfl : ty = ty' := Option.some.inj (hty.symm.trans hty')
  rw [Account.executeOrder_valid a c o t hv hty hsd] at h
  split_ifs at h with hr
  · cases h
  rw [ho] at h
  have h' : ∃ b fc p, b = (if ty = .limit then fmin x (a.maxBaseAmount t) else x) ∧
      (a.buyBase fc b p = .ok (true, a') ∨ a.sellBase fc b p = .ok (true, a')) := by
    cases sd
    · exact ⟨_, _, _, rfl, .inl h⟩
    · exact ⟨_, _, _, rfl, .inr h⟩
  obtain ⟨b, fc, p, hb, h⟩ := h'
  obtain ⟨f, g0, r0, m⟩ := moved a a' fc b p hg hu hn hd hn' h
  have fb : IsFin b := fin_of_round f
  have b0 : 0 ≤ toQ b := by
    rw [lit0] at g0
    exact (le_iff (a := .fin 0) trivial fb).mp g0
  have ub := hu.base.2
  have hh := (roundUnit_half b0 f).2
  rw [abs_of_nonneg ub] at hh
  have htu' : tinyQ * (1 + 2 * toQ a.baseUnit) ≤ 2 * (tinyQ * (1 + toQ a.baseUnit)) := by
    have := tinyQ_pos; nlinarith
  have dB := hd.base
  have ht := tinyQ_pos
  have htu : 0 ≤ tinyQ * (1 + toQ a.baseUnit) := by positivity
  have e : (1 + toQ a.baseUnit) / 2 ^ 140 = 1024 * (tinyQ * (1 + toQ a.baseUnit)) := by unfold tinyQ; ring
  rw [e]
  generalize tinyQ * (1 + 2 * toQ a.baseUnit) = z' at *
  generalize tinyQ * (1 + toQ a.baseUnit) = z at *
  generalize |toQ a'.baseBalance - toQ a.baseBalance| = D at *
  have hh' := abs_le.mp hh
  have m' := abs_le.mp m
  have key : |D - toQ b| ≤ 17 / 32 * toQ a.baseUnit + (toQ a.baseBalance + toQ b) / 2 ^ 17 + 1024 * z := by
    rw [abs_le]
    constructor <;> (norm_num; linarith)
  constructor
  · intro hl
    rw [if_neg hl] at hb
    rw [← hb]; exact key
  · intro fx
    have hbx : toQ b ≤ toQ x := by
      rw [hb]
      split
      · rename_i hl
        rw [hb, if_pos hl] at fb
        unfold fmin at fb ⊢
        split at fb
        · rename_i hlt
          rw [if_pos hlt]
          exact ((Fl.lt_iff fb fx).mp hlt).le
        · rename_i hlt
          rw [if_neg hlt]
      · exact le_refl _
    have := (abs_le.mp key).2
    norm_num at *; linarith

/-! ### The cap on limit orders -/

private theorem roundUnit_mono_fl {u x y : F32} (hu : IsFin u ∧ 0 ≤ toQ u) (hu2 : toQ u ≤ 2 ^ 100) (hx : IsFin x) (hy : IsFin y) (hx0 : 0 ≤ toQ x)
    (hxy : toQ x ≤ toQ y) (hy1 : toQ y ≤ 2 ^ 104) (hy2 : 0 < toQ u → toQ y / toQ u ≤ 2 ^ 104) :
    IsFin (roundUnit y u) ∧ toQ (roundUnit x u) ≤ toQ (roundUnit y u) := by
  unfold roundUnit
  by_cases h : (lit F32 0 <. u) = true
  swap
  · rw [if_neg (by simpa using h), if_neg (by simpa using h)]; exact ⟨hy, hxy⟩
  rw [if_pos h, if_pos h]
  have upos := unit_pos hu.1 h
  have q2 := hy2 upos
  have q1 : toQ x / toQ u ≤ toQ y / toQ u := by gcongr
  have q0 : 0 ≤ toQ x / toQ u := div_nonneg hx0 upos.le
  have ht : tinyQ ≤ 1 / 2 ^ 150 := le_refl _
  have ht0 := tinyQ_pos
  have hr : ∀ z : F32, IsFin z → 0 ≤ toQ z / toQ u → toQ z / toQ u ≤ 2 ^ 104 → toQ z ≤ 2 ^ 104 → ∃ n : ℤ,
      n = ⌊rndQ binary32 (toQ z / toQ u) + 1 / 2⌋ ∧ toQ (FloatOps.round (z /. u)) = n ∧ IsFin (u *. FloatOps.round (z /. u)) ∧
      toQ (u *. FloatOps.round (z /. u)) = rndQ binary32 (toQ u * n) := by
    intro z hz h0 h1 h2
    have hb : |toQ z / toQ u| ≤ 2 ^ 127 := by rw [abs_of_nonneg h0]; exact h1.trans (by norm_num)
    obtain ⟨f1, e1⟩ := div_fin hz hu.1 upos.ne' hb
    rw [abs_of_nonneg h0] at e1
    have v1 := div_val hz hu.1 upos.ne' hb
    have hpos : 0 ≤ toQ (z /. u) := by rw [v1]; exact rndQ_nonneg h0
    rw [← v1]
    have hround : IsFin (FloatOps.round (z /. u)) ∧ toQ (FloatOps.round (z /. u)) = (⌊toQ (z /. u) + 1 / 2⌋ : ℤ) := by
      show IsFin (Fl.round (z /. u)) ∧ toQ (Fl.round (z /. u)) = _
      generalize z /. u = d at *
      cases d with
      | fin q =>
        have hq : 0 ≤ q := hpos
        simp only [Fl.round, if_pos hq]
        exact ⟨Fl.isFin_ofIntSigned _ _, Fl.toQ_ofIntSigned _ _⟩
      | negZero => exact ⟨trivial, by simp [Fl.round, toQ]; norm_num⟩
      | nan => exact f1.elim
      | inf s => exact f1.elim
    refine ⟨_, rfl, hround.2, ?_⟩
    have hn1 : ((⌊toQ (z /. u) + 1 / 2⌋ : ℤ) : ℚ) ≤ toQ (z /. u) + 1 / 2 := Int.floor_le _
    have hn0 : (0 : ℚ) ≤ ((⌊toQ (z /. u) + 1 / 2⌋ : ℤ) : ℚ) := by exact_mod_cast Int.floor_nonneg.mpr (by linarith)
    have hprod : |toQ u * toQ (FloatOps.round (z /. u))| ≤ 2 ^ 127 := by
      rw [hround.2, abs_of_nonneg (mul_nonneg upos.le hn0)]
      have e2 : toQ u * (toQ z / toQ u) = toQ z := by field_simp
      have h3 : toQ u * ((⌊toQ (z /. u) + 1 / 2⌋ : ℤ) : ℚ) ≤ toQ u * (17 / 16 * (toQ z / toQ u) + 1) := by
        refine mul_le_mul_of_nonneg_left (hn1.trans ?_) upos.le
        have := (abs_le.mp e1).2
        norm_num at *; linarith
      refine h3.trans ?_
      have e3 : toQ u * (17 / 16 * (toQ z / toQ u) + 1) = 17 / 16 * (toQ u * (toQ z / toQ u)) + toQ u := by ring
      rw [e3, e2]
      norm_num at *; linarith
    obtain ⟨f2, -⟩ := mul_fin hu.1 hround.1 hprod
    refine ⟨f2, ?_⟩
    rw [mul_val hu.1 hround.1 hprod, hround.2]
  obtain ⟨n, hn, -, -, en⟩ := hr x hx q0 (q1.trans q2) (hxy.trans hy1)
  obtain ⟨m, hm, -, fm, em⟩ := hr y hy (q0.trans q1) q2 hy1
  refine ⟨fm, ?_⟩
  rw [en, em]
  refine rndQ_le ?_
  have : n ≤ m := by
    rw [hn, hm]
    exact Int.floor_le_floor (by have := rndQ_le q1; linarith)
  have : (n : ℚ) ≤ m := by exact_mod_cast this
  gcongr

/-- Rounding down to the unit: finite, and hardly more than the amount. -/
private theorem floorUnit_fin_q {u x : F32} (hu : IsFin u ∧ 0 ≤ toQ u) (hu2 : toQ u ≤ 2 ^ 100) (hx : IsFin x) (hx0 : 0 ≤ toQ x)
    (hx1 : toQ x ≤ 2 ^ 102) (hx2 : 0 < toQ u → toQ x / toQ u ≤ 2 ^ 102) : IsFin (floorUnit x u) := by
  unfold floorUnit
  by_cases h : (lit F32 0 <. u) = true
  swap
  · rw [if_neg (by simpa using h)]; exact hx
  rw [if_pos h]
  have upos := unit_pos hu.1 h
  have ht0 := tinyQ_pos
  have ht : tinyQ ≤ 1 / 2 ^ 150 := le_refl _
  have h0 : 0 ≤ toQ x / toQ u := div_nonneg hx0 upos.le
  have h1 := hx2 upos
  have hb : |toQ x / toQ u| ≤ 2 ^ 127 := by rw [abs_of_nonneg h0]; exact h1.trans (by norm_num)
  obtain ⟨f1, e1⟩ := div_fin hx hu.1 upos.ne' hb
  rw [abs_of_nonneg h0] at e1
  have v1 := div_val hx hu.1 upos.ne' hb
  have hpos : 0 ≤ toQ (x /. u) := by rw [v1]; exact rndQ_nonneg h0
  have hfl : IsFin (FloatOps.floor (x /. u)) ∧ toQ (FloatOps.floor (x /. u)) = (⌊toQ (x /. u)⌋ : ℤ) := by
    have : IsFin (FloatOps.floor (x /. u)) := by
      show IsFin (Fl.floor (x /. u))
      generalize x /. u = d at *
      cases d with
      | fin q => exact Fl.isFin_ofIntSigned _ _
      | negZero => trivial
      | nan => exact f1.elim
      | inf s => exact f1.elim
    exact ⟨this, (Fl.floor_spec (x := x /. u) this).2⟩
  have hn1 : ((⌊toQ (x /. u)⌋ : ℤ) : ℚ) ≤ toQ (x /. u) := Int.floor_le _
  have hn0 : (0 : ℚ) ≤ ((⌊toQ (x /. u)⌋ : ℤ) : ℚ) := by exact_mod_cast Int.floor_nonneg.mpr hpos
  refine (mul_fin hu.1 hfl.1 ?_).1
  rw [hfl.2, abs_of_nonneg (mul_nonneg upos.le hn0)]
  have e2 : toQ u * (toQ x / toQ u) = toQ x := by field_simp
  have h3 : toQ u * ((⌊toQ (x /. u)⌋ : ℤ) : ℚ) ≤ toQ u * (2 * (toQ x / toQ u) + 1) := by
    refine mul_le_mul_of_nonneg_left (hn1.trans ?_) upos.le
    have := (abs_le.mp e1).2
    norm_num at *; linarith
  refine h3.trans ?_
  have e3 : toQ u * (2 * (toQ x / toQ u) + 1) = 2 * (toQ u * (toQ x / toQ u)) + toQ u := by ring
  rw [e3, e2]
  norm_num at *; linarith

/-- What `b` can be when it comes from a cap `m`: `b` at most `m`, or `b` rounded down from at most `m`. -/
private theorem fmin_le_cap {x m : F32} (hm : IsFin m) (h : IsFin (fmin x m)) : toQ (fmin x m) ≤ toQ m := by
  unfold fmin at h ⊢
  split at h
  · rename_i hlt
    rw [if_pos hlt]
  · rename_i hlt
    rw [if_neg hlt]
    exact (Fl.lt_eq_false_iff hm h).mp (Bool.eq_false_iff.mpr hlt)

/-- **C102** (share of the volume). In binary32, with a positive volume ratio, an executed limit order moves at most
`ratio * volume` base currency, up to a 2^-17 part of that and of the base balance (plus underflow) - whatever its side
and its amount. -/
theorem C102_volume_cap (a a' : Account F32) (c : AccountConfig F32) (o : Order F32) (t : OhlcTick F32)
    (hty : o.type = some .limit) (hg : FloatOnGrid a) (hu : SaneUnits a) (hn : Numbers a) (hd : NoDebt a) (hn' : Numbers a')
    (hr : IsFin a.maxVolumeRatio) (hr0 : 0 < toQ a.maxVolumeRatio) (hv : IsFin t.volume) (hv0 : 0 ≤ toQ t.volume)
    (hu1 : toQ a.baseUnit = 0 ∨ 1 / 2 ^ 60 ≤ toQ a.baseUnit) (hu2 : toQ a.baseUnit ≤ 2 ^ 60)
    (h1 : toQ a.maxVolumeRatio * toQ t.volume ≤ 2 ^ 40)
    (h : a.executeOrder c o t = .ok (true, a')) :
    |toQ a'.baseBalance - toQ a.baseBalance| ≤ toQ a.maxVolumeRatio * toQ t.volume +
      (toQ a.baseBalance + toQ a.maxVolumeRatio * toQ t.volume) / 2 ^ 17 + (1 + toQ a.baseUnit) / 2 ^ 140 := by
  have hvo : ValidOrder o := by
    by_contra hv
    rw [Account.executeOrder_invalid a c o t hv] at h; cases h
  obtain ⟨ty, sd, hty', hsd, -⟩ := id hvo
  obtain rfl : OrderType.limit = ty := Option.some.inj (hty.symm.trans hty')
  rw [Account.executeOrder_valid a c o t hvo hty hsd] at h
  split_ifs at h with hnr
  · cases h
  have ht0 := tinyQ_pos
  have ht : tinyQ ≤ 1 / 2 ^ 150 := le_refl _
  have ub := hu.base.2
  have dB := hd.base
  have hrv0 : 0 ≤ toQ a.maxVolumeRatio * toQ t.volume := mul_nonneg hr0.le hv0
  -- the cap
  obtain ⟨fx, ex⟩ := mul_fin hr hv (by rw [abs_of_nonneg hrv0]; exact h1.trans (by norm_num))
  have vx := mul_val hr hv (by rw [abs_of_nonneg hrv0]; exact h1.trans (by norm_num))
  rw [abs_of_nonneg hrv0] at ex
  have hx0 : 0 ≤ toQ (a.maxVolumeRatio *. t.volume) := by rw [vx]; exact rndQ_nonneg hrv0
  have hcap : a.maxBaseAmount t = floorUnit (a.maxVolumeRatio *. t.volume) a.baseUnit := by
    unfold Account.maxBaseAmount
    rw [if_pos]
    rw [lit0]; exact (Fl.lt_iff (a := .fin 0) trivial hr).mpr hr0
  generalize toQ a.maxVolumeRatio * toQ t.volume = rv at *
  generalize a.maxVolumeRatio *. t.volume = x at *
  have hux : ∀ y : ℚ, 0 ≤ y → y ≤ 2 ^ 42 → 0 < toQ a.baseUnit → y / toQ a.baseUnit ≤ 2 ^ 102 := by
    intro y h0 hy hpos
    rw [div_le_iff₀ hpos]
    rcases hu1 with h | h
    · rw [h] at hpos; exact absurd hpos (lt_irrefl _)
    · have := mul_le_mul_of_nonneg_left h (by norm_num : (0 : ℚ) ≤ 2 ^ 102)
      norm_num at *; linarith
  have hxle : toQ x ≤ 2 ^ 41 := by
    have := (abs_le.mp ex).2
    norm_num at *; linarith
  have hxrv := (abs_le.mp ex).2
  have fcap := floorUnit_fin_q hu.base (hu2.trans (by norm_num)) fx hx0 (hxle.trans (by norm_num))
    (hux _ hx0 (hxle.trans (by norm_num)))
  obtain ⟨-, c1, -, cg⟩ := floorUnit_close hx0 fcap
  have cap0 : 0 ≤ toQ (floorUnit x a.baseUnit) :=
    toQ_of_geZero (geZero_floorUnit hu.base.1 (geZero_of_fin fx hx0)) fcap
  rw [← hcap] at fcap c1 cg cap0
  rw [abs_of_nonneg ub] at c1
  rw [abs_of_nonneg cap0] at cg
  have htu0 : 0 ≤ tinyQ * toQ a.baseUnit := by positivity
  have htu1 : tinyQ * toQ a.baseUnit ≤ 1 := by
    have := mul_le_mul ht hu2 ub (by norm_num)
    refine this.trans (by norm_num)
  have e1 : tinyQ * (1 + 2 * toQ a.baseUnit) = tinyQ + 2 * (tinyQ * toQ a.baseUnit) := by ring
  have e2 : tinyQ * (1 + 4 * toQ a.baseUnit) = tinyQ + 4 * (tinyQ * toQ a.baseUnit) := by ring
  have e3 : tinyQ * (1 + toQ a.baseUnit) = tinyQ + tinyQ * toQ a.baseUnit := by ring
  rw [e1] at c1
  have hm1 : toQ (a.maxBaseAmount t) ≤ 2 ^ 42 := by norm_num at *; linarith
  have ge0 : ∀ b : F32, IsFin b → (b >=. lit F32 0) = true → 0 ≤ toQ b := by
    intro b fb g0
    rw [lit0] at g0
    exact (le_iff (a := .fin 0) trivial fb).mp g0
  -- what is traded
  have key : ∃ b fc p, (a.buyBase fc b p = .ok (true, a') ∨ a.sellBase fc b p = .ok (true, a')) ∧
      (IsFin (roundUnit b a.baseUnit) → (b >=. lit F32 0) = true → toQ (roundUnit b a.baseUnit) ≤
        toQ (a.maxBaseAmount t) + 40 * toQ (a.maxBaseAmount t) / 16777216 + 40 * (tinyQ + tinyQ * toQ a.baseUnit)) := by
    have base : ∀ y b : F32, b = fmin y (a.maxBaseAmount t) → IsFin (roundUnit b a.baseUnit) → (b >=. lit F32 0) = true →
        toQ (roundUnit b a.baseUnit) ≤
        toQ (a.maxBaseAmount t) + 40 * toQ (a.maxBaseAmount t) / 16777216 + 40 * (tinyQ + tinyQ * toQ a.baseUnit) := by
      intro y b hb f g0
      have fb : IsFin b := fin_of_round f
      have b0 := ge0 b fb g0
      have hbm : toQ b ≤ toQ (a.maxBaseAmount t) := by
        rw [hb] at fb ⊢; exact fmin_le_cap fcap fb
      obtain ⟨fr, hle⟩ := roundUnit_mono_fl hu.base (hu2.trans (by norm_num)) fb fcap b0 hbm (hm1.trans (by norm_num))
        (fun hp => (hux _ cap0 hm1 hp).trans (by norm_num))
      obtain ⟨-, k, -⟩ := roundUnit_close (by positivity) cg fr
      rw [abs_of_nonneg cap0, abs_of_nonneg ub, e2] at k
      have := (abs_le.mp k).2
      linarith
    have quot : ∀ y b : F32, b = floorUnit (fmin y (a.maxBaseAmount t)) a.baseUnit → IsFin (roundUnit b a.baseUnit) →
        (b >=. lit F32 0) = true → toQ (roundUnit b a.baseUnit) ≤
        toQ (a.maxBaseAmount t) + 40 * toQ (a.maxBaseAmount t) / 16777216 + 40 * (tinyQ + tinyQ * toQ a.baseUnit) := by
      intro y b hb f g0
      have fb : IsFin b := fin_of_round f
      have b0 := ge0 b fb g0
      have fb' := fb
      rw [hb] at fb'
      obtain ⟨fw, u1, u2⟩ := floorUnit_upper fb'
      rw [← hb, abs_of_nonneg ub, e1] at u1
      rw [← hb, abs_of_nonneg b0] at u2
      have hw := fmin_le_cap fcap fw
      obtain ⟨-, k, -⟩ := roundUnit_close (by positivity) u2 f
      rw [abs_of_nonneg b0, abs_of_nonneg ub, e2] at k
      have := (abs_le.mp k).2
      generalize toQ (fmin y (a.maxBaseAmount t)) = w at *
      rcases abs_cases w with ⟨hw', -⟩ | ⟨hw', -⟩ <;> rw [hw'] at u1 <;> linarith
    rcases hvo with ⟨-, -, -, -, -, y, -, hy | hy⟩ <;> rw [hy] at h <;> cases sd <;> simp only [tradeOf, if_true] at h
    · exact ⟨_, _, _, .inl h, base y _ rfl⟩
    · exact ⟨_, _, _, .inr h, base y _ rfl⟩
    · rcases (a.buyAtQuote_cases h).2.2 with ⟨h, -⟩ | ⟨q', fee, b, -, -, hb, -, -, -, -, h⟩
      · cases h
      · exact ⟨_, _, _, .inl h, quot _ _ hb⟩
    · rcases (a.sellAtQuote_cases h).2.2 with ⟨h, -⟩ | ⟨q', fee, b, -, -, hb, -, -, h⟩
      · cases h
      · exact ⟨_, _, _, .inr h, quot _ _ hb⟩
  obtain ⟨b, fc, p, ht', hb⟩ := key
  obtain ⟨f, g0, r0, k⟩ := moved a a' fc b p hg hu hn hd hn' ht'
  have hb := hb f g0
  have k := (abs_le.mp k).2
  have e : (1 + toQ a.baseUnit) / 2 ^ 140 = 1024 * (tinyQ * (1 + toQ a.baseUnit)) := by unfold tinyQ; ring
  rw [e, e3]
  rw [e3] at k
  generalize tinyQ * toQ a.baseUnit = z at *
  generalize |toQ a'.baseBalance - toQ a.baseBalance| = D at *
  norm_num at *
  linarith

/-! ### Non-vacuity -/

/-- The limit sell of 40 on a tick of volume 8 with ratio 1/2 (it executes, see `Props/FloatMoney.lean`) sells no more than 4. -/
example (a' : Account F32) (hn : Numbers a')
    (h : fmAcc.executeOrder (exCfg F32) ⟨some .limit, some .sell, .base (lit F32 40), some (lit F32 58)⟩ (exTick F32) =
      .ok (true, a')) :
    |toQ a'.baseBalance - toQ fmAcc.baseBalance| ≤ 4 + 1 / 2 ^ 13 := by
  have := C102_volume_cap fmAcc a' (exCfg F32) _ _ rfl fmAcc_grid fmAcc_units fmAcc_numbers fmAcc_noDebt hn
    (by decide +kernel) (by decide +kernel) (by decide +kernel) (by decide +kernel) (by decide +kernel) (by decide +kernel)
    (by decide +kernel) h
  refine this.trans ?_
  decide +kernel

/-- The market buy of 2 (it executes too) buys 2, up to half a unit of 1/8 and a bit. -/
example (a' : Account F32) (hn : Numbers a')
    (h : fmAcc.executeOrder (exCfg F32) ⟨some .market, some .buy, .base (lit F32 2), none⟩ (exTick F32) = .ok (true, a')) :
    |(|toQ a'.baseBalance - toQ fmAcc.baseBalance|) - 2| ≤ 7 / 100 := by
  have := (C102_base_amount fmAcc a' (exCfg F32) _ _ .market _ rfl rfl fmAcc_grid fmAcc_units fmAcc_numbers fmAcc_noDebt hn h).1
    (by decide)
  rw [show toQ (lit F32 2) = 2 by decide +kernel] at this
  refine this.trans ?_
  decide +kernel

end Verif.Props
