import Verif.Model.Account
import Verif.Model.SideInput
import Verif.Model.Indicators
import Verif.Model.Run

/-!
# eval/eval.cc 38-141: `ExecuteTrader`

The trader is an arbitrary deterministic state machine; the logger is whatever listens to the logging events.
The model records every call `ExecuteTrader` makes across an interface as an `Event`.
-/

namespace Verif
open FloatOps

/-- base/trader.h 41-61 `class Trader`: a state, the `Update` method (which emits orders and may abort) and the
`const` method `GetInternalState`. -/
structure Trader (F : Type) where
  State : Type
  update : State → OhlcTick F → List F → F → F → Res (State × List (Order F))
  internalState : State → String

/-- Observable calls made by `ExecuteTrader`.
(eval/eval.cc 38-141: calls of `Trader` (base/trader.h) and `Logger` (logging/logger.h 16-27).) -/
inductive Event (F : Type)
  /-- `account.ExecuteOrder(account_config, order, ohlc_tick)` and its outcome (flag and account afterwards). -/
  | exec (t : OhlcTick F) (o : Order F) (r : Res (Bool × Account F))
  /-- `trader.Update(ohlc_tick, signals, base, quote, orders)` and the orders it emitted. -/
  | update (t : OhlcTick F) (signals : List F) (base quote : F) (r : Res (List (Order F)))
  /-- `logger->LogExchangeState(ohlc_tick, account)`. -/
  | tickRow (t : OhlcTick F) (a : Account F)
  /-- `logger->LogExchangeState(ohlc_tick, account, order)`. -/
  | orderRow (t : OhlcTick F) (a : Account F) (o : Order F)
  /-- `logger->LogTraderState(state)`. -/
  | traderRow (s : String)

/-- eval/eval.proto 10-39 `ExecutionResult` (unset fields read as 0, in particular the volatilities of a fast
evaluation and all fields of the default result). -/
structure ExecutionResult (F : Type) where
  startBase : F
  startQuote : F
  endBase : F
  endQuote : F
  startPrice : F
  endPrice : F
  startValue : F
  endValue : F
  totalExecutedOrders : ℕ
  totalFee : F
  baseVolatility : F
  traderVolatility : F
  deriving DecidableEq

section
variable {F D : Type} [FloatOps F] [FloatOps D] [Wide F D]

/-- A default-constructed `ExecutionResult`.  (eval/eval.cc 43-46.) -/
def ExecutionResult.default : ExecutionResult F :=
  ⟨lit F 0, lit F 0, lit F 0, lit F 0, lit F 0, lit F 0, lit F 0, lit F 0, 0, lit F 0, lit F 0, lit F 0⟩

/-- The local variables of `ExecuteTrader` (eval/eval.cc 47-62) and the state of the trader. -/
structure ExecState (F S : Type) where
  account : Account F
  signals : List F
  prevIndex : ℤ
  orders : List (Order F)
  executed : ℕ
  trader : S
  baseVol : Indicator F (VolState F)
  traderVol : Indicator F (VolState F)

/-- eval/eval.cc 66-80: the signals and the side-input index after the tick at time `ts`. -/
def sideStep (side : Option (SideInput F)) (ts : ℤ) (signals : List F) (prev : ℤ) : Res (List F × ℤ) :=
  match side with
  | none => .ok (signals, prev)
  | some s => do
    let i ← s.indexHint ts prev
    if i ≥ 0 then do
      let recordTs ← s.timestamp i
      let sg ← s.signals i []
      -- the age is an int64 converted to float
      return (sg ++ [lit F ((ts - recordTs : ℤ) : ℚ)], i)
    else return (signals, prev)

/-- eval/eval.cc 90-100: execution of the standing orders on tick `t`. -/
def execOrders (log : Bool) (c : AccountConfig F) (t : OhlcTick F) :
    List (Order F) → Account F → ℕ → Run (Event F) (Account F × ℕ)
  | [], a, n => return (a, n)
  | o :: rest, a, n => do
    let r ← Run.call (.exec t o) (a.executeOrder c o t)
    if r.1 then do
      Run.emitIf log (.orderRow t r.2 o)
      execOrders log c t rest r.2 (n + 1)
    else execOrders log c t rest r.2 n

/-- eval/eval.cc 108-122: the part after the zero-volume test. -/
def traderStep [Libm F] (T : Trader F) (fast log : Bool) (t : OhlcTick F) (s : ExecState F T.State) :
    Run (Event F) (ExecState F T.State) := do
  let u := T.update s.trader t s.signals s.account.baseBalance s.account.quoteBalance
  let r ← Run.call (fun u => .update t s.signals s.account.baseBalance s.account.quoteBalance (u.map (·.2))) u
  Run.emitIf log (.traderRow (T.internalState r.1))
  let s := { s with trader := r.1, orders := r.2 }
  if fast then return s
  else do
    let bv ← Run.lift (Vol.update s.baseVol t (lit F 1) (lit F 0))
    let tv ← Run.lift (Vol.update s.traderVol t s.account.baseBalance s.account.quoteBalance)
    return { s with baseVol := bv, traderVol := tv }

/-- eval/eval.cc 63-123: the body of the loop over the ticks. -/
def tickStep [Libm F] (c : AccountConfig F) (side : Option (SideInput F)) (T : Trader F) (fast log : Bool)
    (s : ExecState F T.State) (t : OhlcTick F) : Run (Event F) (ExecState F T.State) := do
  let sg ← Run.lift (sideStep side t.ts s.signals s.prevIndex)
  let s := { s with signals := sg.1, prevIndex := sg.2 }
  Run.emitIf log (.tickRow t s.account)
  let r ← execOrders log c t s.orders s.account s.executed
  let s := { s with account := r.1, executed := r.2 }
  if FloatOps.beq t.volume (lit F 0) then return s
  else traderStep T fast log t s

/-- eval/eval.cc 47-62: the state before the loop. -/
def execInit (c : AccountConfig F) (T : Trader F) (init : T.State) : Res (ExecState F T.State) := do
  let bv ← Vol.make 0 kSecondsPerDay
  let tv ← Vol.make 0 kSecondsPerDay
  return ⟨Account.init c, [], -1, [], 0, init, bv, tv⟩

/-- `volatility * std::sqrt(365)`: a product in `double`, stored in a `float` field.  (eval/eval.cc 134-138.) -/
def annualised [Libm F] [Libm D] (v : Indicator F (VolState F)) : F :=
  Wide.narrow (Wide.widen (Vol.get v) *. Libm.sqrt (lit D 365))

/-- eval/eval.cc 124-141: the result (`first`, `last` are the first and the last tick). -/
def execResult [Libm F] [Libm D] {S : Type} (c : AccountConfig F) (fast : Bool) (first last : OhlcTick F)
    (s : ExecState F S) : ExecutionResult F where
  startBase := c.startBase
  startQuote := c.startQuote
  endBase := s.account.baseBalance
  endQuote := s.account.quoteBalance
  startPrice := first.close
  endPrice := last.close
  startValue := c.startQuote +. first.close *. c.startBase
  endValue := s.account.quoteBalance +. last.close *. s.account.baseBalance
  totalExecutedOrders := s.executed
  totalFee := s.account.totalFee
  baseVolatility := if fast then lit F 0 else annualised s.baseVol
  traderVolatility := if fast then lit F 0 else annualised s.traderVol

/-- eval/eval.cc 38-141 `ExecuteTrader` on the ticks of a well-formed iterator range (`EvaluateTrader` deals with an
inverted one). -/
def executeTrader [Libm F] [Libm D] (c : AccountConfig F) (ticks : List (OhlcTick F)) (side : Option (SideInput F))
    (fast : Bool) (T : Trader F) (init : T.State) (log : Bool) : Run (Event F) (ExecutionResult F) :=
  match ticks with
  | [] => return ExecutionResult.default
  | first :: rest => do
    let s ← Run.lift (execInit c T init)
    let s ← (first :: rest).foldlM (tickStep c side T fast log) s
    return execResult c fast first ((first :: rest).getLast (by simp)) s

end
end Verif
