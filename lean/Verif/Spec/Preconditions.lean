import Verif.Model.Account

/-!
# Which calls are allowed (C98)
-/

namespace Verif.Spec
open FloatOps

variable {F : Type} [FloatOps F]

/-- The order-specific trading methods of `Account` (base/account.h 66-131): order type, side and whether the amount is a
base or a quote amount select the method; `price` is not used by the market methods. -/
def tradingMethod (a : Account F) (fc : FeeConfig F) (t : OhlcTick F) :
    OrderType → Side → (inBase : Bool) → (amount price : F) → Res (Bool × Account F)
  | .market, .buy, true, x, _ => a.marketBuy fc t x
  | .market, .buy, false, x, _ => a.marketBuyAtQuote fc t x
  | .market, .sell, true, x, _ => a.marketSell fc t x
  | .market, .sell, false, x, _ => a.marketSellAtQuote fc t x
  | .stop, .buy, true, x, p => a.stopBuy fc t x p
  | .stop, .buy, false, x, p => a.stopBuyAtQuote fc t x p
  | .stop, .sell, true, x, p => a.stopSell fc t x p
  | .stop, .sell, false, x, p => a.stopSellAtQuote fc t x p
  | .limit, .buy, true, x, p => a.limitBuy fc t x p
  | .limit, .buy, false, x, p => a.limitBuyAtQuote fc t x p
  | .limit, .sell, true, x, p => a.limitSell fc t x p
  | .limit, .sell, false, x, p => a.limitSellAtQuote fc t x p

/-- The period of a tick, as a number, never decreases from one tick to the next. (Ticks within a period may come in any
order.) -/
def PeriodsInOrder (period : ℤ) (l : List (OhlcTick F)) : Prop :=
  l.IsChain (fun a b => a.ts.tdiv period ≤ b.ts.tdiv period)

end Verif.Spec
