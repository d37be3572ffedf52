import Verif.Num.Exact
import Verif.Model.Evaluate

/-!
# The same coins in another unit

`d` new units of the base currency are worth one old unit (for example 1000 millicoins to the coin).  What is an amount of base currency is multiplied by `d`, what is a price - an amount of
quote currency for one unit - is divided by `d`; what is an amount of quote currency, a ratio or a time stays.  Written without reference to any function of the model.
-/

namespace Verif.Spec.BaseUnits
open Verif

variable {K : Type} [Field K]

/-- The prices of a tick, and its volume. -/
def tick (d : K) (t : OhlcTick K) : OhlcTick K :=
  { ts := t.ts, opn := d⁻¹ * t.opn, high := d⁻¹ * t.high, low := d⁻¹ * t.low, close := d⁻¹ * t.close, volume := d * t.volume }

/-- The starting balance and the unit; the fees are amounts of quote currency. -/
def config (d : K) (a : AccountConfig K) : AccountConfig K :=
  { startBase := d * a.startBase, startQuote := a.startQuote, baseUnit := d * a.baseUnit, quoteUnit := a.quoteUnit,
    marketFee := a.marketFee, stopFee := a.stopFee, limitFee := a.limitFee,
    marketLiquidity := a.marketLiquidity, maxVolumeRatio := a.maxVolumeRatio }

/-- The balance and the unit. -/
def account (d : K) (a : Account K) : Account K :=
  { baseBalance := d * a.baseBalance, quoteBalance := a.quoteBalance, totalFee := a.totalFee, baseUnit := d * a.baseUnit,
    quoteUnit := a.quoteUnit, marketLiquidity := a.marketLiquidity, maxVolumeRatio := a.maxVolumeRatio }

/-- An amount in an order. -/
def amount (d : K) : Amount K → Amount K
  | .none => .none
  | .base x => .base (d * x)
  | .quote x => .quote x

/-- The price, and an amount of base currency. -/
def order (d : K) (o : Order K) : Order K :=
  { type := o.type, side := o.side, amount := amount d o.amount, price := o.price.map (d⁻¹ * ·) }

/-- The figures of a back-test: values, fees and volatilities stay. -/
def result (d : K) (r : ExecutionResult K) : ExecutionResult K :=
  { startBase := d * r.startBase, startQuote := r.startQuote, endBase := d * r.endBase, endQuote := r.endQuote,
    startPrice := d⁻¹ * r.startPrice, endPrice := d⁻¹ * r.endPrice, startValue := r.startValue, endValue := r.endValue,
    totalExecutedOrders := r.totalExecutedOrders, totalFee := r.totalFee,
    baseVolatility := r.baseVolatility, traderVolatility := r.traderVolatility }

/-- A period of an evaluation: the gains stay. -/
def period (d : K) (p : Period K) : Period K :=
  { start := p.start, stop := p.stop, result := result d p.result, finalGain := p.finalGain, baseFinalGain := p.baseFinalGain }

/-- An evaluation: score and averages stay. -/
def evaluation (d : K) (e : EvaluationResult K) : EvaluationResult K :=
  { accountConfig := config d e.accountConfig, evalConfig := e.evalConfig, name := e.name, periods := e.periods.map (period d),
    score := e.score, avgGain := e.avgGain, avgBaseGain := e.avgBaseGain, avgTotalExecutedOrders := e.avgTotalExecutedOrders,
    avgTotalFee := e.avgTotalFee }

end Verif.Spec.BaseUnits
