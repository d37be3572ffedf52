import Verif.Num.Exact
import Verif.Model.Evaluate
import Verif.Model.Traders

/-!
# The same money in another unit

`c` new units of the quote currency are worth one old unit (for example 100 cents to the dollar).  What is an amount of quote currency, or a
price, is multiplied by `c`; what is an amount of base currency, a ratio or a time stays.  Written without reference to any function of
the model.
-/

namespace Verif.Spec.Units
open Verif

variable {K : Type} [Mul K]

/-- The prices of a tick; the volume is an amount of base currency. -/
def tick (c : K) (t : OhlcTick K) : OhlcTick K :=
  { ts := t.ts, opn := c * t.opn, high := c * t.high, low := c * t.low, close := c * t.close, volume := t.volume }

/-- The fixed and the minimum fee; the relative fee is a ratio. -/
def fee (c : K) (f : FeeConfig K) : FeeConfig K :=
  { relativeFee := f.relativeFee, fixedFee := c * f.fixedFee, minimumFee := c * f.minimumFee }

/-- The starting balance, the unit and the fees. -/
def config (c : K) (a : AccountConfig K) : AccountConfig K :=
  { startBase := a.startBase, startQuote := c * a.startQuote, baseUnit := a.baseUnit, quoteUnit := c * a.quoteUnit,
    marketFee := fee c a.marketFee, stopFee := fee c a.stopFee, limitFee := fee c a.limitFee,
    marketLiquidity := a.marketLiquidity, maxVolumeRatio := a.maxVolumeRatio }

/-- The balance, the fees paid and the unit. -/
def account (c : K) (a : Account K) : Account K :=
  { baseBalance := a.baseBalance, quoteBalance := c * a.quoteBalance, totalFee := c * a.totalFee, baseUnit := a.baseUnit,
    quoteUnit := c * a.quoteUnit, marketLiquidity := a.marketLiquidity, maxVolumeRatio := a.maxVolumeRatio }

/-- An amount in an order. -/
def amount (c : K) : Amount K → Amount K
  | .none => .none
  | .base x => .base x
  | .quote x => .quote (c * x)

/-- The price, and an amount of quote currency. -/
def order (c : K) (o : Order K) : Order K :=
  { type := o.type, side := o.side, amount := amount c o.amount, price := o.price.map (c * ·) }

/-- The figures of a back-test. -/
def result (c : K) (r : ExecutionResult K) : ExecutionResult K :=
  { startBase := r.startBase, startQuote := c * r.startQuote, endBase := r.endBase, endQuote := c * r.endQuote,
    startPrice := c * r.startPrice, endPrice := c * r.endPrice, startValue := c * r.startValue, endValue := c * r.endValue,
    totalExecutedOrders := r.totalExecutedOrders, totalFee := c * r.totalFee,
    baseVolatility := r.baseVolatility, traderVolatility := r.traderVolatility }

/-- A period of an evaluation: the gains are ratios. -/
def period (c : K) (p : Period K) : Period K :=
  { start := p.start, stop := p.stop, result := result c p.result, finalGain := p.finalGain, baseFinalGain := p.baseFinalGain }

/-- An evaluation: score and gains are ratios, the average fee is an amount. -/
def evaluation (c : K) (e : EvaluationResult K) : EvaluationResult K :=
  { accountConfig := config c e.accountConfig, evalConfig := e.evalConfig, name := e.name, periods := e.periods.map (period c),
    score := e.score, avgGain := e.avgGain, avgBaseGain := e.avgBaseGain, avgTotalExecutedOrders := e.avgTotalExecutedOrders,
    avgTotalFee := c * e.avgTotalFee }

end Verif.Spec.Units
