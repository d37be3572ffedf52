import Verif.Model.Account
import Verif.Num.Exact

/-!
# Specification vocabulary for the account (C01-C14)

Independent of the rounding helpers of the model: roundings are described as least / greatest / nearest
multiples of a unit.
-/

set_option linter.unusedSectionVars false

namespace Verif.Spec
open FloatOps

section exact
variable {K : Type} [Field K] [LinearOrder K] [IsStrictOrderedRing K]

/-- `x` is an integer number of units. -/
def IsMultiple (u x : K) : Prop := ∃ n : ℤ, x = n * u

/-- `r` is the smallest multiple of `u` that is `≥ x` (`x` itself if units are not used). -/
def CeilTo (u x r : K) : Prop :=
  if 0 < u then IsLeast {y | x ≤ y ∧ IsMultiple u y} r else r = x

/-- `r` is the largest multiple of `u` that is `≤ x` (`x` itself if units are not used). -/
def FloorTo (u x r : K) : Prop :=
  if 0 < u then IsGreatest {y | y ≤ x ∧ IsMultiple u y} r else r = x

/-- `r` is the multiple of `u` nearest to `x`, the one of larger magnitude if there are two
(`x` itself if units are not used). -/
def NearestTo (u x r : K) : Prop :=
  if 0 < u then
    IsMultiple u r ∧ (∀ y, IsMultiple u y → |x - r| ≤ |x - y| ∧ (|x - r| = |x - y| → |y| ≤ |r|))
  else r = x

/-- The fee for a transaction of `q` quote currency: the larger of the minimum fee and
fixed + relative fee, rounded up to the quote unit. -/
def FeeOf (fc : FeeConfig K) (quoteUnit q fee : K) : Prop :=
  CeilTo quoteUnit (max fc.minimumFee (fc.fixedFee + fc.relativeFee * q)) fee

/-- Balances and the fee counter are whole numbers of units (when units are in use). -/
structure OnGrid (a : Account K) : Prop where
  base : 0 < a.baseUnit → IsMultiple a.baseUnit a.baseBalance
  quote : 0 < a.quoteUnit → IsMultiple a.quoteUnit a.quoteBalance
  fee : 0 < a.quoteUnit → IsMultiple a.quoteUnit a.totalFee

/-- Portfolio value at price `p`. -/
def valueAt (a : Account K) (p : K) : K := a.baseBalance * p + a.quoteBalance

end exact

section generic
variable {F : Type} [FloatOps F]

/-- What makes an order acceptable: it has a type and a side, a positive price unless it is a market
order, and a positive amount (in either currency). -/
def ValidOrder (o : Order F) : Prop :=
  ∃ ty sd, o.type = some ty ∧ o.side = some sd ∧
    (ty = .market ∨ ∃ p, o.price = some p ∧ (lit F 0 <. p) = true) ∧
    ∃ x, (lit F 0 <. x) = true ∧ (o.amount = .base x ∨ o.amount = .quote x)

/-- Linear interpolation: liquidity 1 is the best, 0 the worst price. -/
def interp (liquidity best worst : F) : F :=
  liquidity *. best +. (lit F 1 -. liquidity) *. worst

/-- The fee schedule that applies to an order type. -/
def feeFor (c : AccountConfig F) : OrderType → FeeConfig F
  | .market => c.marketFee
  | .stop => c.stopFee
  | .limit => c.limitFee

/-- Does the tick reach the order's price?  (Not reached = strictly on the wrong side.) -/
def notReached (t : OhlcTick F) (price : F) : OrderType → Side → Bool
  | .market, _ => false
  | .stop, .buy => t.high <. price
  | .stop, .sell => price <. t.low
  | .limit, .buy => price <. t.low
  | .limit, .sell => t.high <. price

/-- The price at which an order executes. -/
def execPrice (liquidity : F) (t : OhlcTick F) (price : F) : OrderType → Side → F
  | .market, .buy => interp liquidity t.opn t.high
  | .market, .sell => interp liquidity t.opn t.low
  | .stop, .buy => interp liquidity (fmax price t.opn) t.high
  | .stop, .sell => interp liquidity (fmin price t.opn) t.low
  | .limit, _ => price

/-- What a valid, triggered order does, as one table: limit orders are capped by the tradeable volume,
the others are not. -/
def tradeOf (a : Account F) (c : AccountConfig F) (t : OhlcTick F) (price : F) (ty : OrderType) :
    Side → Amount F → Res (Bool × Account F)
  | .buy, .base x =>
    a.buyBase (feeFor c ty) (if ty = .limit then fmin x (a.maxBaseAmount t) else x)
      (execPrice a.marketLiquidity t price ty .buy)
  | .buy, .quote x =>
    a.buyAtQuote (feeFor c ty) x (execPrice a.marketLiquidity t price ty .buy)
      (if ty = .limit then a.maxBaseAmount t else FloatOps.maxFinite)
  | .sell, .base x =>
    a.sellBase (feeFor c ty) (if ty = .limit then fmin x (a.maxBaseAmount t) else x)
      (execPrice a.marketLiquidity t price ty .sell)
  | .sell, .quote x =>
    a.sellAtQuote (feeFor c ty) x (execPrice a.marketLiquidity t price ty .sell)
      (if ty = .limit then a.maxBaseAmount t else FloatOps.maxFinite)
  | _, .none => .error .assertion

/-- A sequence of orders, each executed on its own tick; the account after the last one
(faults propagate, results of the single orders are discarded). -/
def runOrders (c : AccountConfig F) : Account F → List (Order F × OhlcTick F) → Res (Account F)
  | a, [] => .ok a
  | a, (o, t) :: rest => do
    let r ← a.executeOrder c o t
    runOrders c r.2 rest

end generic
end Verif.Spec
