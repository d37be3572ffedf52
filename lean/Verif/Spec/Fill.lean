import Verif.Spec.Account

/-!
# Specification: when an order is executed, and how much it trades (C76)

Exact arithmetic; roundings are the least / greatest / nearest multiples of `Verif.Spec.Account`.
-/

namespace Verif.Spec
variable {K : Type} [Field K] [LinearOrder K] [IsStrictOrderedRing K]

/-- The most base currency an order may trade on a tick: for limit orders with a positive volume ratio, that share of the
volume of the tick, rounded down to the base unit; otherwise the largest `float`. -/
def CapOf (a : Account K) (t : OhlcTick K) (ty : OrderType) (cap : K) : Prop :=
  if ty = .limit ∧ 0 < a.maxVolumeRatio then FloorTo a.baseUnit (a.maxVolumeRatio * t.volume) cap
  else cap = (maxFiniteRat : K)

/-- `b` is the base amount that an order wants to trade at price `p` under the fee schedule `fc`.  An amount of base
currency is rounded to the unit (after the volume cap, for limit orders).  For an amount of quote currency, rounded to
`x'`: at least one unit; a buy must not ask for more than the quote balance, nor for so little that the fee of `x'` eats it
up; what is left after the fee (the sum with the fee, for a sell) is divided by the price and rounded down. -/
def Wanted (a : Account K) (fc : FeeConfig K) (t : OhlcTick K) (ty : OrderType) (p : K) : Side → Amount K → K → Prop
  | _, .base x, b =>
    if ty = .limit then ∃ cap, CapOf a t ty cap ∧ NearestTo a.baseUnit (min x cap) b else NearestTo a.baseUnit x b
  | .buy, .quote x, b => ∃ x' fee cap, NearestTo a.quoteUnit x x' ∧ FeeOf fc a.quoteUnit x' fee ∧ CapOf a t ty cap ∧
    a.quoteUnit ≤ x' ∧ x' ≤ a.quoteBalance ∧ fee < x' ∧ FloorTo a.baseUnit (min ((x' - fee) / p) cap) b
  | .sell, .quote x, b => ∃ x' fee cap, NearestTo a.quoteUnit x x' ∧ FeeOf fc a.quoteUnit x' fee ∧ CapOf a t ty cap ∧
    a.quoteUnit ≤ x' ∧ FloorTo a.baseUnit (min ((x' + fee) / p) cap) b
  | _, .none, _ => False

/-- Trading `b` base currency at price `p` is affordable and turns the account `a` into `a'`: a buy costs `b * p`, rounded
up, plus the fee of that; a sell yields `b * p`, rounded down, less the fee of that, which must leave at least one quote
unit. -/
def Settles (a : Account K) (fc : FeeConfig K) (p : K) : Side → K → Account K → Prop
  | .buy, b, a' => ∃ q fee, CeilTo a.quoteUnit (b * p) q ∧ FeeOf fc a.quoteUnit q fee ∧ q + fee ≤ a.quoteBalance ∧
    a' = { a with
      baseBalance := a.baseBalance + b, quoteBalance := a.quoteBalance - (q + fee), totalFee := a.totalFee + fee }
  | .sell, b, a' => ∃ q fee, FloorTo a.quoteUnit (b * p) q ∧ FeeOf fc a.quoteUnit q fee ∧ b ≤ a.baseBalance ∧
    a.quoteUnit ≤ q - fee ∧
    a' = { a with
      baseBalance := a.baseBalance - b, quoteBalance := a.quoteBalance + (q - fee), totalFee := a.totalFee + fee }

end Verif.Spec
