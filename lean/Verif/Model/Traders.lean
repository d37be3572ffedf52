import Verif.Model.Evaluate

/-!
# traders/: the rebalancing trader, the stop trader and the factory
-/

namespace Verif
open FloatOps

/-- `absl::StrFormat` conversions used by the traders and the logger (what they print is left open):
`%d` of an integer and `%.<n>f` of a `float`.
(traders/rebalancing_trader.cc 74, 79; traders/stop_trader.cc 92, 99; logging/csv_logger.cc 11-42.) -/
structure Format (F : Type) where
  int : ℤ → String
  fixed : ℕ → F → String

section
variable {F : Type} [FloatOps F]

/-! ## traders/rebalancing_trader -/

/-- traders/trader_config.proto 8-18 `RebalancingTraderConfig`. -/
structure RebalancingConfig (F : Type) where
  alpha : F
  epsilon : F
  deriving DecidableEq

/-- traders/rebalancing_trader.h 26-32: the members of `RebalancingTrader` other than the configuration. -/
structure RebalancingState (F : Type) where
  lastBase : F
  lastQuote : F
  lastTs : ℤ
  lastClose : F
  deriving DecidableEq

/-- traders/rebalancing_trader.h 26-32: the member initialisers. -/
def RebalancingState.init : RebalancingState F := ⟨lit F 0, lit F 0, 0, lit F 0⟩

/-- A market order for an amount of base currency.  (traders/rebalancing_trader.cc 28-43.) -/
def marketOrder (side : Side) (amount : F) : Order F := ⟨some .market, some side, .base amount, none⟩

/-- A limit order for an amount of base currency.  (traders/rebalancing_trader.cc 47-68.) -/
def limitOrder (side : Side) (amount price : F) : Order F := ⟨some .limit, some side, .base amount, some price⟩

/-- traders/rebalancing_trader.cc 19-66: the orders `RebalancingTrader::Update` emits. -/
def rebalancingOrders (cfg : RebalancingConfig F) (price base quote : F) : List (Order F) :=
  let portfolio := base *. price +. quote
  let alphaUp := cfg.alpha *. (lit F 1 +. cfg.epsilon)
  let alphaDown := cfg.alpha *. (lit F 1 -. cfg.epsilon)
  let beta := base *. price /. portfolio
  if beta >. alphaUp then
    [marketOrder .sell (((lit F 1 -. cfg.alpha) *. portfolio -. quote) /. price)]
  else if beta <. alphaDown then
    [marketOrder .buy ((quote -. (lit F 1 -. cfg.alpha) *. portfolio) /. price)]
  else if base >. lit F (1 / 1000000) && quote >. lit F (1 / 1000000) then
    let sells :=
      if cfg.alpha *. (lit F 1 +. cfg.epsilon) <. lit F 1 then
        let sellPrice := (cfg.alpha *. (lit F 1 +. cfg.epsilon) *. quote) /.
          (lit F 1 -. cfg.alpha *. (lit F 1 +. cfg.epsilon))
        if sellPrice >. price && sellPrice <. lit F 100 *. price then
          [limitOrder .sell (base *. cfg.epsilon /. (lit F 1 +. cfg.epsilon)) sellPrice]
        else []
      else []
    let buyPrice := (cfg.alpha *. (lit F 1 -. cfg.epsilon) *. quote) /.
      (lit F 1 -. cfg.alpha *. (lit F 1 -. cfg.epsilon))
    let buys :=
      if buyPrice <. price && buyPrice >. price /. lit F 100 then
        [limitOrder .buy (base *. cfg.epsilon /. (lit F 1 -. cfg.epsilon)) buyPrice]
      else []
    sells ++ buys
  else []

/-- traders/rebalancing_trader.cc 10-71 `RebalancingTrader::Update` (the side-input signals are not used; `orders` is
empty on entry, eval/eval.cc 109). -/
def rebalancingUpdate (cfg : RebalancingConfig F) (s : RebalancingState F) (t : OhlcTick F) (_signals : List F)
    (base quote : F) : Res (RebalancingState F × List (Order F)) := do
  assertThat (decide (t.ts > s.lastTs))
  assertThat (t.close >. lit F 0)
  assertThat (base >. lit F 0 || quote >. lit F 0)
  return (⟨base, quote, t.ts, t.close⟩, rebalancingOrders cfg t.close base quote)

/-- traders/rebalancing_trader.cc 73-76 `GetInternalState`. -/
def rebalancingShow (fmt : Format F) (s : RebalancingState F) : String :=
  String.intercalate "," [fmt.int s.lastTs, fmt.fixed 3 s.lastBase, fmt.fixed 3 s.lastQuote, fmt.fixed 3 s.lastClose]

/-- traders/rebalancing_trader.h 13-33 `class RebalancingTrader`. -/
abbrev rebalancingTrader (fmt : Format F) (cfg : RebalancingConfig F) : Trader F where
  State := RebalancingState F
  update := rebalancingUpdate cfg
  internalState := rebalancingShow fmt

/-- traders/rebalancing_trader.cc 78-85 `RebalancingTraderEmitter::GetName`, `NewTrader`. -/
def rebalancingEmitter (fmt : Format F) (cfg : RebalancingConfig F) : Emitter F where
  name := "rebalancing-trader[" ++ fmt.fixed 3 cfg.alpha ++ "|" ++ fmt.fixed 3 cfg.epsilon ++ "]"
  trader := rebalancingTrader fmt cfg
  init := .init

/-! ## traders/stop_trader -/

/-- traders/trader_config.proto 21-30 `StopTraderConfig`. -/
structure StopConfig (F : Type) where
  margin : F
  moveMargin : F
  increasePerDay : F
  decreasePerDay : F
  deriving DecidableEq

/-- traders/stop_trader.h 25-29 `enum class Mode`. -/
inductive Mode | none | long | cash
  deriving DecidableEq

/-- traders/stop_trader.h 32-42: the members of `StopTrader` other than the configuration and the constant
`max_allowed_gap_sec_`. -/
structure StopState (F : Type) where
  lastBase : F
  lastQuote : F
  lastTs : ℤ
  lastClose : F
  mode : Mode
  stopPrice : F
  deriving DecidableEq

/-- traders/stop_trader.h 32-42: the member initialisers. -/
def StopState.init : StopState F := ⟨lit F 0, lit F 0, 0, lit F 0, .none, lit F 0⟩

/-- traders/stop_trader.h 44-46 `max_allowed_gap_sec_`. -/
def maxAllowedGapSec : ℤ := 1 * 60 * 60

/-- traders/stop_trader.cc 41-74 `UpdateStopOrderPrice`: the new stop price. -/
def updateStopPrice [Libm F] (cfg : StopConfig F) (mode : Mode) (lastTs ts : ℤ) (stop price : F) : Res F :=
  let samplingRate := lit F ((min kSecondsPerDay (ts - lastTs) : ℤ) : ℚ)
  let ticksPerDay := lit F (kSecondsPerDay : ℚ) /. samplingRate
  if mode = .long then
    let threshold := (lit F 1 -. cfg.moveMargin) *. price
    if stop <=. threshold then
      let increase := Libm.exp (Libm.log (lit F 1 +. cfg.increasePerDay) /. ticksPerDay) -. lit F 1
      .ok (fmax stop (fmin threshold ((lit F 1 +. increase) *. stop)))
    else .ok stop
  else do
    assertThat (decide (mode = .cash))
    let threshold := (lit F 1 +. cfg.moveMargin) *. price
    if stop >=. threshold then
      let decrease := lit F 1 -. Libm.exp (Libm.log (lit F 1 -. cfg.decreasePerDay) /. ticksPerDay)
      return fmin stop (fmax threshold ((lit F 1 -. decrease) *. stop))
    else return stop

/-- traders/stop_trader.cc 76-89 `EmitStopOrder`. -/
def stopOrder (s : StopState F) : Res (Order F) :=
  if s.mode = .long then .ok ⟨some .stop, some .sell, .base s.lastBase, some s.stopPrice⟩
  else do
    assertThat (decide (s.mode = .cash))
    return ⟨some .stop, some .buy, .quote s.lastQuote, some s.stopPrice⟩

/-- traders/stop_trader.cc 19-20: the mode of a trader with the given balances. -/
def stopMode (price base quote : F) : Mode := if base *. price >=. quote then .long else .cash

/-- traders/stop_trader.cc 10-39 `StopTrader::Update` (the side-input signals are not used; `orders` is empty on entry,
eval/eval.cc 109). -/
def stopUpdate [Libm F] (cfg : StopConfig F) (s : StopState F) (t : OhlcTick F) (_signals : List F) (base quote : F) :
    Res (StopState F × List (Order F)) := do
  assertThat (decide (t.ts > s.lastTs))
  assertThat (t.close >. lit F 0)
  assertThat (base >. lit F 0 || quote >. lit F 0)
  let mode := stopMode t.close base quote
  let stop ←
    if t.ts ≥ s.lastTs + maxAllowedGapSec ∨ mode ≠ s.mode then
      if mode = .long then .ok ((lit F 1 -. cfg.margin) *. t.close)
      else do
        assertThat (decide (mode = .cash))
        Except.ok ((lit F 1 +. cfg.margin) *. t.close)
    else do
      assertThat (decide (mode = s.mode))
      updateStopPrice cfg mode s.lastTs t.ts s.stopPrice t.close
  let s : StopState F := ⟨base, quote, t.ts, t.close, mode, stop⟩
  let order ← stopOrder s
  return (s, [order])

/-- traders/stop_trader.cc 91-96 `GetInternalState`. -/
def stopShow (fmt : Format F) (s : StopState F) : String :=
  String.intercalate "," [fmt.int s.lastTs, fmt.fixed 3 s.lastBase, fmt.fixed 3 s.lastQuote, fmt.fixed 3 s.lastClose,
    if s.mode = .long then "LONG" else "CASH", fmt.fixed 3 s.stopPrice]

/-- traders/stop_trader.h 12-52 `class StopTrader`. -/
abbrev stopTrader [Libm F] (fmt : Format F) (cfg : StopConfig F) : Trader F where
  State := StopState F
  update := stopUpdate cfg
  internalState := stopShow fmt

/-- traders/stop_trader.cc 98-108 `StopTraderEmitter::GetName`, `NewTrader`. -/
def stopEmitter [Libm F] (fmt : Format F) (cfg : StopConfig F) : Emitter F where
  name := "stop-trader[" ++ fmt.fixed 3 cfg.margin ++ "|" ++ fmt.fixed 3 cfg.moveMargin ++ "|" ++
    fmt.fixed 3 cfg.increasePerDay ++ "|" ++ fmt.fixed 3 cfg.decreasePerDay ++ "]"
  trader := stopTrader fmt cfg
  init := .init

/-! ## Batches and traders/trader_factory -/

/-- The two kinds of emitter objects.  (traders/trader_factory.cc 14-37.) -/
inductive BuiltIn (F : Type)
  | rebalancing (cfg : RebalancingConfig F)
  | stop (cfg : StopConfig F)
  deriving DecidableEq

/-- The emitter: `RebalancingTraderEmitter` (traders/rebalancing_trader.h 36-51) or `StopTraderEmitter`
(traders/stop_trader.h 55-72). -/
def BuiltIn.emitter [Libm F] (fmt : Format F) : BuiltIn F → Emitter F
  | .rebalancing cfg => rebalancingEmitter fmt cfg
  | .stop cfg => stopEmitter fmt cfg

/-- traders/rebalancing_trader.cc 87-100 `RebalancingTraderEmitter::GetBatchOfTraders`: two nested loops that append to
`batch`. -/
def rebalancingBatch (alphas epsilons : List F) : List (BuiltIn F) :=
  alphas.foldl (fun batch alpha =>
    epsilons.foldl (fun batch epsilon => batch ++ [.rebalancing ⟨alpha, epsilon⟩]) batch) []

/-- traders/stop_trader.cc 110-136 `StopTraderEmitter::GetBatchOfTraders`: four nested loops that append to `batch`. -/
def stopBatch (margins moveMargins increases decreases : List F) : List (BuiltIn F) :=
  margins.foldl (fun batch m =>
    moveMargins.foldl (fun batch mm =>
      increases.foldl (fun batch i =>
        decreases.foldl (fun batch d => batch ++ [.stop ⟨m, mm, i, d⟩]) batch) batch) batch) []

/-- traders/trader_factory.cc 49-56 `GetTrader`, with the defaults of 15-20 and 30-37. -/
def getTrader (name : String) : Res (BuiltIn F) :=
  if name = "rebalancing" then .ok (.rebalancing ⟨lit F (7 / 10), lit F (5 / 100)⟩)
  else do
    assertThat (decide (name = "stop"))
    return .stop ⟨lit F (1 / 10), lit F (1 / 10), lit F (1 / 100), lit F (1 / 10)⟩

/-- traders/trader_factory.cc 23-27: the default grid of rebalancing traders (`float` literals). -/
def defaultAlphas : List F := [lit F (1 / 10), lit F (3 / 10), lit F (5 / 10), lit F (7 / 10), lit F (9 / 10)]
/-- traders/trader_factory.cc 26. -/
def defaultEpsilons : List F := [lit F (1 / 100), lit F (5 / 100), lit F (1 / 10), lit F (2 / 10)]

section
variable {D : Type} [FloatOps D] [Wide F D]

/-- A `double` literal that initialises a `float`.  (traders/trader_factory.cc 42-45.) -/
def dlit (F : Type) {D : Type} [FloatOps D] [Wide F D] (q : ℚ) : F := Wide.narrow (lit D q)

/-- traders/trader_factory.cc 42-43: the margins of the default grid of stop traders (`double` literals in a
`vector<float>`). -/
def defaultMargins : List F := [dlit F (5 / 100), dlit F (1 / 10), dlit F (15 / 100), dlit F (2 / 10)]
/-- traders/trader_factory.cc 44-45: the daily rates of the default grid of stop traders. -/
def defaultRates : List F := [dlit F (1 / 100), dlit F (5 / 100), dlit F (1 / 10)]

/-- traders/trader_factory.cc 58-66 `GetBatchOfTraders`. -/
def getBatchOfTraders (name : String) : Res (List (BuiltIn F)) :=
  if name = "rebalancing" then .ok (rebalancingBatch defaultAlphas defaultEpsilons)
  else do
    assertThat (decide (name = "stop"))
    return stopBatch defaultMargins defaultMargins defaultRates defaultRates

end
end
end Verif
