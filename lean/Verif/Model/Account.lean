import Verif.Model.Base

/-!
# base/account.h, base/account.cc

A method that mutates the account and returns `bool` becomes a function returning
`Res (Bool × Account F)`: the returned flag and the account after the call, or the failed assertion.
-/

namespace Verif
open FloatOps

/-- base/account.h 11-41 `struct Account`. -/
structure Account (F : Type) where
  baseBalance : F
  quoteBalance : F
  totalFee : F
  baseUnit : F
  quoteUnit : F
  marketLiquidity : F
  maxVolumeRatio : F
  deriving DecidableEq

section
variable {F : Type} [FloatOps F]

/-- base/account.cc 7-9 `Floor`. -/
def floorUnit (amount unit : F) : F :=
  if unit >. lit F 0 then unit *. FloatOps.floor (amount /. unit) else amount

/-- base/account.cc 11-13 `Ceil`. -/
def ceilUnit (amount unit : F) : F :=
  if unit >. lit F 0 then unit *. FloatOps.ceil (amount /. unit) else amount

/-- base/account.cc 15-17 `Round`. -/
def roundUnit (amount unit : F) : F :=
  if unit >. lit F 0 then unit *. FloatOps.round (amount /. unit) else amount

/-- `order.price()`: 0 when unset.  (base/account.cc 25, 319-357.) -/
def Order.getPrice (o : Order F) : F := o.price.getD (lit F 0)

/-- base/account.cc 19-31 `IsValidOrder`. -/
def isValidOrder (o : Order F) : Bool :=
  o.type.isSome && o.side.isSome &&
  (o.type == some .market || (o.price.isSome && o.getPrice >. lit F 0)) &&
  (match o.amount with
   | .base a => a >. lit F 0
   | .quote a => a >. lit F 0
   | .none => false)

namespace Account

/-- base/account.cc 34-42 `InitAccount` (a fresh `Account` that was then initialised). -/
def init (c : AccountConfig F) : Account F where
  baseBalance := c.startBase
  quoteBalance := c.startQuote
  totalFee := lit F 0
  baseUnit := c.baseUnit
  quoteUnit := c.quoteUnit
  marketLiquidity := c.marketLiquidity
  maxVolumeRatio := c.maxVolumeRatio

variable (a : Account F)

/-- base/account.cc 44-49 `GetFee`. -/
def getFee (fc : FeeConfig F) (quoteAmount : F) : F :=
  ceilUnit (fmax fc.minimumFee (fc.fixedFee +. quoteAmount *. fc.relativeFee)) a.quoteUnit

/-- base/account.cc 51-54 `GetMarketBuyPrice`. -/
def marketBuyPrice (t : OhlcTick F) : F :=
  a.marketLiquidity *. t.opn +. (lit F 1 -. a.marketLiquidity) *. t.high

/-- base/account.cc 56-59 `GetMarketSellPrice`. -/
def marketSellPrice (t : OhlcTick F) : F :=
  a.marketLiquidity *. t.opn +. (lit F 1 -. a.marketLiquidity) *. t.low

/-- base/account.cc 61-64 `GetStopBuyPrice`. -/
def stopBuyPrice (t : OhlcTick F) (price : F) : F :=
  a.marketLiquidity *. fmax price t.opn +. (lit F 1 -. a.marketLiquidity) *. t.high

/-- base/account.cc 66-69 `GetStopSellPrice`. -/
def stopSellPrice (t : OhlcTick F) (price : F) : F :=
  a.marketLiquidity *. fmin price t.opn +. (lit F 1 -. a.marketLiquidity) *. t.low

/-- base/account.cc 71-75 `GetMaxBaseAmount`. -/
def maxBaseAmount (t : OhlcTick F) : F :=
  if a.maxVolumeRatio >. lit F 0 then floorUnit (a.maxVolumeRatio *. t.volume) a.baseUnit
  else FloatOps.maxFinite

/-- base/account.cc 77-95 `BuyBase`. -/
def buyBase (fc : FeeConfig F) (baseAmount price : F) : Res (Bool × Account F) := do
  assertThat (price >. lit F 0)
  assertThat (baseAmount >=. lit F 0)
  let baseAmount := roundUnit baseAmount a.baseUnit
  if baseAmount <. a.baseUnit then
    return (false, a)
  let quoteAmount := ceilUnit (baseAmount *. price) a.quoteUnit
  let quoteFee := a.getFee fc quoteAmount
  let total := quoteAmount +. quoteFee
  if total >. a.quoteBalance then
    return (false, a)
  return (true, { a with
    baseBalance := roundUnit (a.baseBalance +. baseAmount) a.baseUnit
    quoteBalance := roundUnit (a.quoteBalance -. total) a.quoteUnit
    totalFee := roundUnit (a.totalFee +. quoteFee) a.quoteUnit })

/-- base/account.cc 97-115 `BuyAtQuote`. -/
def buyAtQuote (fc : FeeConfig F) (quoteAmount price maxBase : F) : Res (Bool × Account F) := do
  assertThat (price >. lit F 0)
  assertThat (quoteAmount >=. lit F 0)
  let quoteAmount := roundUnit quoteAmount a.quoteUnit
  if quoteAmount <. a.quoteUnit || quoteAmount >. a.quoteBalance then
    return (false, a)
  let quoteFee := a.getFee fc quoteAmount
  if quoteAmount <=. quoteFee then
    return (false, a)
  let baseAmount := floorUnit (fmin ((quoteAmount -. quoteFee) /. price) maxBase) a.baseUnit
  if baseAmount <. a.baseUnit then
    return (false, a)
  a.buyBase fc baseAmount price

/-- base/account.cc 117-135 `SellBase`. -/
def sellBase (fc : FeeConfig F) (baseAmount price : F) : Res (Bool × Account F) := do
  assertThat (price >. lit F 0)
  assertThat (baseAmount >=. lit F 0)
  let baseAmount := roundUnit baseAmount a.baseUnit
  if baseAmount <. a.baseUnit || baseAmount >. a.baseBalance then
    return (false, a)
  let quoteAmount := floorUnit (baseAmount *. price) a.quoteUnit
  let quoteFee := a.getFee fc quoteAmount
  let total := quoteAmount -. quoteFee
  if total <. a.quoteUnit then
    return (false, a)
  return (true, { a with
    baseBalance := roundUnit (a.baseBalance -. baseAmount) a.baseUnit
    quoteBalance := roundUnit (a.quoteBalance +. total) a.quoteUnit
    totalFee := roundUnit (a.totalFee +. quoteFee) a.quoteUnit })

/-- base/account.cc 137-156 `SellAtQuote`. -/
def sellAtQuote (fc : FeeConfig F) (quoteAmount price maxBase : F) : Res (Bool × Account F) := do
  assertThat (price >. lit F 0)
  assertThat (quoteAmount >=. lit F 0)
  let quoteAmount := roundUnit quoteAmount a.quoteUnit
  if quoteAmount <. a.quoteUnit then
    return (false, a)
  let quoteFee := a.getFee fc quoteAmount
  let baseAmount := floorUnit (fmin ((quoteAmount +. quoteFee) /. price) maxBase) a.baseUnit
  if baseAmount <. a.baseUnit then
    return (false, a)
  a.sellBase fc baseAmount price

/-- base/account.cc 158-162 `MarketBuy`. -/
def marketBuy (fc : FeeConfig F) (t : OhlcTick F) (baseAmount : F) : Res (Bool × Account F) :=
  a.buyBase fc baseAmount (a.marketBuyPrice t)

/-- base/account.cc 164-168 `MarketBuyAtQuote` (default `max_base_amount`: base/account.h 75-76). -/
def marketBuyAtQuote (fc : FeeConfig F) (t : OhlcTick F) (quoteAmount : F) :
    Res (Bool × Account F) :=
  a.buyAtQuote fc quoteAmount (a.marketBuyPrice t) FloatOps.maxFinite

/-- base/account.cc 170-174 `MarketSell`. -/
def marketSell (fc : FeeConfig F) (t : OhlcTick F) (baseAmount : F) : Res (Bool × Account F) :=
  a.sellBase fc baseAmount (a.marketSellPrice t)

/-- base/account.cc 176-180 `MarketSellAtQuote` (default `max_base_amount`: base/account.h 85-86). -/
def marketSellAtQuote (fc : FeeConfig F) (t : OhlcTick F) (quoteAmount : F) :
    Res (Bool × Account F) :=
  a.sellAtQuote fc quoteAmount (a.marketSellPrice t) FloatOps.maxFinite

/-- base/account.cc 182-193 `StopBuy`. -/
def stopBuy (fc : FeeConfig F) (t : OhlcTick F) (baseAmount stopPrice : F) :
    Res (Bool × Account F) := do
  assertThat (stopPrice >. lit F 0)
  assertThat (baseAmount >=. lit F 0)
  if t.high <. stopPrice then
    return (false, a)
  a.buyBase fc baseAmount (a.stopBuyPrice t stopPrice)

/-- base/account.cc 195-207 `StopBuyAtQuote`. -/
def stopBuyAtQuote (fc : FeeConfig F) (t : OhlcTick F) (quoteAmount stopPrice : F) :
    Res (Bool × Account F) := do
  assertThat (stopPrice >. lit F 0)
  assertThat (quoteAmount >=. lit F 0)
  if t.high <. stopPrice then
    return (false, a)
  a.buyAtQuote fc quoteAmount (a.stopBuyPrice t stopPrice) FloatOps.maxFinite

/-- base/account.cc 209-220 `StopSell`. -/
def stopSell (fc : FeeConfig F) (t : OhlcTick F) (baseAmount stopPrice : F) :
    Res (Bool × Account F) := do
  assertThat (stopPrice >. lit F 0)
  assertThat (baseAmount >=. lit F 0)
  if t.low >. stopPrice then
    return (false, a)
  a.sellBase fc baseAmount (a.stopSellPrice t stopPrice)

/-- base/account.cc 222-234 `StopSellAtQuote`. -/
def stopSellAtQuote (fc : FeeConfig F) (t : OhlcTick F) (quoteAmount stopPrice : F) :
    Res (Bool × Account F) := do
  assertThat (stopPrice >. lit F 0)
  assertThat (quoteAmount >=. lit F 0)
  if t.low >. stopPrice then
    return (false, a)
  a.sellAtQuote fc quoteAmount (a.stopSellPrice t stopPrice) FloatOps.maxFinite

/-- base/account.cc 236-247 `LimitBuy`. -/
def limitBuy (fc : FeeConfig F) (t : OhlcTick F) (baseAmount limitPrice : F) :
    Res (Bool × Account F) := do
  assertThat (limitPrice >. lit F 0)
  assertThat (baseAmount >=. lit F 0)
  if t.low >. limitPrice then
    return (false, a)
  a.buyBase fc (fmin baseAmount (a.maxBaseAmount t)) limitPrice

/-- base/account.cc 249-261 `LimitBuyAtQuote`. -/
def limitBuyAtQuote (fc : FeeConfig F) (t : OhlcTick F) (quoteAmount limitPrice : F) :
    Res (Bool × Account F) := do
  assertThat (limitPrice >. lit F 0)
  assertThat (quoteAmount >=. lit F 0)
  if t.low >. limitPrice then
    return (false, a)
  a.buyAtQuote fc quoteAmount limitPrice (a.maxBaseAmount t)

/-- base/account.cc 263-274 `LimitSell`. -/
def limitSell (fc : FeeConfig F) (t : OhlcTick F) (baseAmount limitPrice : F) :
    Res (Bool × Account F) := do
  assertThat (limitPrice >. lit F 0)
  assertThat (baseAmount >=. lit F 0)
  if t.high <. limitPrice then
    return (false, a)
  a.sellBase fc (fmin baseAmount (a.maxBaseAmount t)) limitPrice

/-- base/account.cc 276-288 `LimitSellAtQuote`. -/
def limitSellAtQuote (fc : FeeConfig F) (t : OhlcTick F) (quoteAmount limitPrice : F) :
    Res (Bool × Account F) := do
  assertThat (limitPrice >. lit F 0)
  assertThat (quoteAmount >=. lit F 0)
  if t.high <. limitPrice then
    return (false, a)
  a.sellAtQuote fc quoteAmount limitPrice (a.maxBaseAmount t)

/-- base/account.cc 290-363 `ExecuteOrder`.  After the validity assertion the inner
`assert(side == SELL)`, `assert(oneof_amount_case == kQuoteAmount)` cannot fail: enum getters of a valid
order only return declared values; they are the remaining match cases here. -/
def executeOrder (c : AccountConfig F) (o : Order F) (t : OhlcTick F) : Res (Bool × Account F) := do
  assertThat (isValidOrder o)
  match o.type, o.side, o.amount with
  | some .market, some .buy, .base x => a.marketBuy c.marketFee t x
  | some .market, some .buy, .quote x => a.marketBuyAtQuote c.marketFee t x
  | some .market, some .sell, .base x => a.marketSell c.marketFee t x
  | some .market, some .sell, .quote x => a.marketSellAtQuote c.marketFee t x
  | some .stop, some .buy, .base x => a.stopBuy c.stopFee t x o.getPrice
  | some .stop, some .buy, .quote x => a.stopBuyAtQuote c.stopFee t x o.getPrice
  | some .stop, some .sell, .base x => a.stopSell c.stopFee t x o.getPrice
  | some .stop, some .sell, .quote x => a.stopSellAtQuote c.stopFee t x o.getPrice
  | some .limit, some .buy, .base x => a.limitBuy c.limitFee t x o.getPrice
  | some .limit, some .buy, .quote x => a.limitBuyAtQuote c.limitFee t x o.getPrice
  | some .limit, some .sell, .base x => a.limitSell c.limitFee t x o.getPrice
  | some .limit, some .sell, .quote x => a.limitSellAtQuote c.limitFee t x o.getPrice
  | _, _, _ => .error .assertion

end Account
end
end Verif
