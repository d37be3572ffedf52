import Verif.Spec.FloatMoney
import Verif.Spec.Exec
import Verif.Model.Traders

/-!
# Vocabulary for back-tests in binary32 (C87)
-/

namespace Verif.Spec
open FloatOps

/-- `x` is a number (not NaN, not infinite) between `lo` and `hi`. -/
def Between (lo hi : ℚ) (x : F32) : Prop := Fl.IsFin x ∧ lo ≤ x.toQ ∧ x.toQ ≤ hi

/-- Prices of the tick are numbers between `lo` and `hi`; the volume is not below zero. -/
structure TickBetween (lo hi : ℚ) (t : OhlcTick F32) : Prop where
  opn : Between lo hi t.opn
  high : Between lo hi t.high
  low : Between lo hi t.low
  volume : (t.volume <. lit F32 0) = false

/-- A usable tick: a positive timestamp, prices between 2^-40 and 2^40 and a volume that is not below zero. -/
structure CleanTick32 (t : OhlcTick F32) : Prop where
  ts : 0 < t.ts
  prices : TickBetween (1 / 2 ^ 40) (2 ^ 40) t
  close : Between (1 / 2 ^ 40) (2 ^ 40) t.close

/-- A usable history: usable ticks in order of time, no two of them with the same timestamp (ticks without volume, on
which the trader does nothing, may repeat the timestamp of a neighbour). -/
structure CleanHistory32 (ticks : List (OhlcTick F32)) : Prop where
  each : ∀ t ∈ ticks, CleanTick32 t
  sorted : ticks.Pairwise (fun a b => a.ts ≤ b.ts)
  strict : (ticks.filter active).Pairwise (fun a b => a.ts < b.ts)

/-- Nothing, or an amount between 2^-61 and 2^80. -/
def Holding (x : F32) : Prop := Fl.IsFin x ∧ (x.toQ = 0 ∨ 1 / 2 ^ 61 ≤ x.toQ) ∧ x.toQ ≤ 2 ^ 80

/-- A usable account configuration: something to start with, units between 2^-60 and 2^60, a liquidity between 0 and 1,
minimum fees that are not negative (fixed and relative fees are arbitrary). -/
structure CleanAccount32 (c : AccountConfig F32) : Prop where
  base : Holding c.startBase
  quote : Holding c.startQuote
  some : 0 < c.startBase.toQ ∨ 0 < c.startQuote.toQ
  baseUnit : Between (1 / 2 ^ 60) (2 ^ 60) c.baseUnit
  quoteUnit : Between (1 / 2 ^ 60) (2 ^ 60) c.quoteUnit
  liquidity : Between 0 1 c.marketLiquidity
  fees : ∀ ty, ((feeFor c ty).minimumFee >=. lit F32 0) = true

/-- Sensible parameters of a built-in trader.  Rebalancing: `alpha` at most 1, `epsilon` at most `1 - 2^-20`, and the
band `alpha * epsilon` not narrower than 2^-16.  Stop: `margin` at most `1 - 2^-24` (the largest float below 1). -/
def CleanParameters32 : BuiltIn F32 → Prop
  | .rebalancing cfg => Between 0 1 cfg.alpha ∧ Between 0 (1 - 1 / 2 ^ 20) cfg.epsilon ∧
      1 / 2 ^ 16 ≤ cfg.alpha.toQ * cfg.epsilon.toQ
  | .stop cfg => Between 0 (1 - 1 / 2 ^ 24) cfg.margin ∧ Between 0 (2 ^ 60) cfg.moveMargin

/-- A balance is not a number, or larger than 2^80. -/
def Outgrown (a : Account F32) : Prop :=
  ¬ (Fl.IsFin a.baseBalance ∧ a.baseBalance.toQ ≤ 2 ^ 80 ∧ Fl.IsFin a.quoteBalance ∧ a.quoteBalance.toQ ≤ 2 ^ 80)

/-- The account ends with something: each balance is nothing or an amount between 2^-61 and 2^80, and not both are nothing. -/
structure Solvent (r : ExecutionResult F32) : Prop where
  base : Holding r.endBase
  quote : Holding r.endQuote
  some : 0 < r.endBase.toQ ∨ 0 < r.endQuote.toQ

end Verif.Spec
