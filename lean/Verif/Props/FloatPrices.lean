import Verif.Props.FloatRobustTraders

/-!
# C09 in binary32: execution prices leave the range of the tick by rounding errors only
-/

namespace Verif.Props
open FloatOps Spec FloatMoney FloatNN
open Fl (toQ IsFin)

private theorem mix_core {l x y m a c r lo hi T : ℚ} (l0 : 0 ≤ l) (l1 : l ≤ 1) (hlo : 0 < lo)
    (hT : T ≤ lo / 1000000000) (hTy : T * y ≤ lo / 1000000000)
    (hx0 : lo ≤ x) (hx1 : x ≤ hi) (hy0 : lo ≤ y) (hy1 : y ≤ hi)
    (hm : |m - (1 - l)| ≤ (1 - l) / 16777216 + T) (ha : |a - l * x| ≤ l * x / 16777216 + T)
    (hc : |c - m * y| ≤ m * y / 16777216 + T) (hr : |r - (a + c)| ≤ (a + c) / 16777216 + T) :
    lo * (1 - 1 / 2 ^ 22) ≤ r ∧ r ≤ hi * (1 + 1 / 2 ^ 22) := by
  have hhi : lo ≤ hi := hx0.trans hx1
  have y0 : 0 ≤ y := hlo.le.trans hy0
  rw [abs_le] at *
  have e1 : l * lo ≤ l * x := mul_le_mul_of_nonneg_left hx0 l0
  have e2 : l * x ≤ l * hi := mul_le_mul_of_nonneg_left hx1 l0
  have e3 : (1 - l) * lo ≤ (1 - l) * y := mul_le_mul_of_nonneg_left hy0 (by linarith)
  have e4 : (1 - l) * y ≤ (1 - l) * hi := mul_le_mul_of_nonneg_left hy1 (by linarith)
  have m3 : m * y ≤ (1 - l) * y * (1 + 1 / 16777216) + T * y := by
    have := mul_le_mul_of_nonneg_right (by linarith [hm.2] : m ≤ (1 - l) * (1 + 1 / 16777216) + T) y0
    linarith
  have m4 : (1 - l) * y * (1 - 1 / 16777216) - T * y ≤ m * y := by
    have := mul_le_mul_of_nonneg_right (by linarith [hm.1] : (1 - l) * (1 - 1 / 16777216) - T ≤ m) y0
    linarith
  generalize l * x = lx at *
  generalize (1 - l) * y = ly at *
  generalize m * y = my at *
  generalize T * y = ty at *
  have s1 : lo ≤ lx + ly := by linarith
  have s2 : lx + ly ≤ hi := by linarith
  constructor <;> norm_num <;> linarith [ha.1, ha.2, hc.1, hc.2, hr.1, hr.2]

/-- The weighted price of two prices in `[lo, hi]`. -/
private theorem mix {l x y : F32} {lo hi : ℚ} (hl : Between 0 1 l) (hlo : 1 / 2 ^ 40 ≤ lo) (hhi : hi ≤ 2 ^ 40)
    (hx : Between lo hi x) (hy : Between lo hi y) :
    Between (lo * (1 - 1 / 2 ^ 22)) (hi * (1 + 1 / 2 ^ 22)) (l *. x +. (lit F32 1 -. l) *. y) := by
  obtain ⟨fl, l0, l1⟩ := hl
  obtain ⟨fx, x0, x1⟩ := hx
  obtain ⟨fy, y0, y1⟩ := hy
  have hlo0 : 0 < lo := lt_of_lt_of_le (by positivity) hlo
  have hT : tinyQ = 1 / 2 ^ 150 := rfl
  have hx' : toQ x ≤ 2 ^ 40 := x1.trans hhi
  have hy' : toQ y ≤ 2 ^ 40 := y1.trans hhi
  have hy0 : 0 ≤ toQ y := hlo0.le.trans y0
  have hx0 : 0 ≤ toQ x := hlo0.le.trans x0
  have h1 : (0 : ℚ) ≤ 1 - toQ l := by linarith
  obtain ⟨fm, em⟩ := sub_fin fin_one fl (by rw [toQ_one, abs_of_nonneg h1]; norm_num; linarith)
  rw [toQ_one, abs_of_nonneg h1] at em
  have m0 : 0 ≤ toQ (lit F32 1 -. l) := by
    refine toQ_of_geZero ?_ fm
    rw [geZero_iff]
    refine ⟨fun h => ?_, Fl.sub_notNeg (a := lit F32 1) (b := l) ((Fl.lt_eq_false_iff fin_one fl).mpr (by rw [toQ_one]; exact l1))⟩
    rw [h] at fm; exact fm
  have m2 : toQ (lit F32 1 -. l) ≤ 2 := by have := (abs_le.mp em).2; norm_num at *; linarith
  have hlx0 : 0 ≤ toQ l * toQ x := mul_nonneg l0 hx0
  have hlx1 : toQ l * toQ x ≤ 1 * 2 ^ 40 := mul_le_mul l1 hx' hx0 (by norm_num)
  obtain ⟨fa, ea⟩ := mul_fin fl fx (by rw [abs_of_nonneg hlx0]; exact hlx1.trans (by norm_num))
  rw [abs_of_nonneg hlx0] at ea
  have hmy0 : 0 ≤ toQ (lit F32 1 -. l) * toQ y := mul_nonneg m0 hy0
  have hmy1 : toQ (lit F32 1 -. l) * toQ y ≤ 2 * 2 ^ 40 := mul_le_mul m2 hy' hy0 (by norm_num)
  obtain ⟨fc, ec⟩ := mul_fin fm fy (by rw [abs_of_nonneg hmy0]; exact hmy1.trans (by norm_num))
  rw [abs_of_nonneg hmy0] at ec
  have a0 : 0 ≤ toQ (l *. x) := toQ_of_geZero (geZero_mul' fx (hlo0.trans_le x0) (geZero_of_fin fl l0)) fa
  have c0 : 0 ≤ toQ ((lit F32 1 -. l) *. y) := toQ_of_geZero (geZero_mul' fy (hlo0.trans_le y0) (geZero_of_fin fm m0)) fc
  have hac0 : 0 ≤ toQ (l *. x) + toQ ((lit F32 1 -. l) *. y) := add_nonneg a0 c0
  obtain ⟨fr, er⟩ := add_fin fa fc (by
    rw [abs_of_nonneg hac0]
    have := (abs_le.mp ea).2
    have := (abs_le.mp ec).2
    norm_num at *
    linarith)
  rw [abs_of_nonneg hac0] at er
  refine ⟨fr, mix_core l0 l1 hlo0 ?_ ?_ x0 x1 y0 y1 em ea ec er⟩
  · rw [hT]; norm_num at *; linarith
  · have := mul_le_mul_of_nonneg_left hy' (tinyQ_pos.le)
    refine this.trans ?_
    rw [hT]; norm_num at *; linarith

private theorem fmax_between {x y : F32} (hx : IsFin x) (hy : IsFin y) :
    IsFin (fmax x y) ∧ toQ (fmax x y) = max (toQ x) (toQ y) := by
  unfold fmax
  split
  · rename_i h; exact ⟨hy, (max_eq_right ((Fl.lt_iff hx hy).mp h).le).symm⟩
  · rename_i h
    exact ⟨hx, (max_eq_left ((Fl.lt_eq_false_iff hx hy).mp (Bool.eq_false_iff.mpr h))).symm⟩

private theorem fmin_between {x y : F32} (hx : IsFin x) (hy : IsFin y) :
    IsFin (fmin x y) ∧ toQ (fmin x y) = min (toQ x) (toQ y) := by
  unfold fmin
  split
  · rename_i h; exact ⟨hy, (min_eq_right ((Fl.lt_iff hy hx).mp h).le).symm⟩
  · rename_i h
    exact ⟨hx, (min_eq_left ((Fl.lt_eq_false_iff hy hx).mp (Bool.eq_false_iff.mpr h))).symm⟩

/-- **C09** in binary32, for any liquidity between 0 and 1: with prices between 2^-40 and 2^40 the price of a market or
triggered stop order is a number, and lies between the best and the worst price up to a relative error of 2^-22.
(`C09_bounds_fail_in_binary32` shows that some error is unavoidable.) -/
theorem C09_binary32 (a : Account F32) (t : OhlcTick F32) (stop : F32) (hl : Between 0 1 a.marketLiquidity)
    (ht : TickBetween (1 / 2 ^ 40) (2 ^ 40) t) (hs : Between (1 / 2 ^ 40) (2 ^ 40) stop)
    (hlo : toQ t.low ≤ toQ t.opn) (hoh : toQ t.opn ≤ toQ t.high) :
    Between (toQ t.opn * (1 - 1 / 2 ^ 22)) (toQ t.high * (1 + 1 / 2 ^ 22)) (a.marketBuyPrice t) ∧
    Between (toQ t.low * (1 - 1 / 2 ^ 22)) (toQ t.opn * (1 + 1 / 2 ^ 22)) (a.marketSellPrice t) ∧
    (toQ stop ≤ toQ t.high →
      Between (max (toQ stop) (toQ t.opn) * (1 - 1 / 2 ^ 22)) (toQ t.high * (1 + 1 / 2 ^ 22)) (a.stopBuyPrice t stop)) ∧
    (toQ t.low ≤ toQ stop →
      Between (toQ t.low * (1 - 1 / 2 ^ 22)) (min (toQ stop) (toQ t.opn) * (1 + 1 / 2 ^ 22)) (a.stopSellPrice t stop)) := by
  obtain ⟨⟨fo, o0, o1⟩, ⟨fh, h0, h1⟩, ⟨flow, l0, l1⟩, -⟩ := ht
  obtain ⟨fs, s0, s1⟩ := hs
  refine ⟨mix hl o0 h1 ⟨fo, le_rfl, hoh⟩ ⟨fh, hoh, le_rfl⟩, mix hl l0 o1 ⟨fo, hlo, le_rfl⟩ ⟨flow, le_rfl, hlo⟩,
    fun h => ?_, fun h => ?_⟩
  · obtain ⟨fm, em⟩ := fmax_between fs fo
    exact mix hl (o0.trans (le_max_right _ _)) h1 ⟨fm, em.ge, em.le.trans (max_le h hoh)⟩ ⟨fh, max_le h hoh, le_rfl⟩
  · obtain ⟨fm, em⟩ := fmin_between fs fo
    exact mix hl l0 ((min_le_right _ _).trans o1) ⟨fm, (le_min h hlo).trans em.ge, em.le⟩ ⟨flow, le_rfl, le_min h hlo⟩

/-! ### Non-vacuity: liquidity 0.9 -/

/-- An account with market liquidity 0.9. -/
def fpAcc : Account F32 := ⟨lit F32 1, lit F32 1, lit F32 0, lit F32 (1 / 8), lit F32 (1 / 8), lit F32 (9 / 10), lit F32 0⟩

/-- A tick with low 9.1 and high 12.3. -/
def fpTick : OhlcTick F32 := ⟨60, lit F32 10, lit F32 (123 / 10), lit F32 (91 / 10), lit F32 11, lit F32 1⟩

example : Between 0 1 fpAcc.marketLiquidity ∧ TickBetween (1 / 2 ^ 40) (2 ^ 40) fpTick ∧
    Between (1 / 2 ^ 40) (2 ^ 40) (lit F32 (21 / 2)) ∧ toQ fpTick.low ≤ toQ fpTick.opn ∧ toQ fpTick.opn ≤ toQ fpTick.high ∧
    toQ (lit F32 (21 / 2)) ≤ toQ fpTick.high := by
  refine ⟨⟨?_, ?_⟩, ⟨⟨?_, ?_⟩, ⟨?_, ?_⟩, ⟨?_, ?_⟩, ?_⟩, ⟨?_, ?_⟩, ?_⟩
  all_goals first | exact ofRat_fin (by norm_num) | decide +kernel

end Verif.Props
