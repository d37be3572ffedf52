import Verif.Model.Exec
import Verif.Model.Time
import Verif.Model.History

/-!
# eval/eval.cc 10-36 and 143-228: `EvaluateTrader`, `EvaluateBatchOfTraders`
-/

namespace Verif
open FloatOps

/-- base/trader.h 66-77 `class TraderEmitter`: a name and `NewTrader`, which is `const` and creates a trader of one kind
in its initial state (assumed deterministic). -/
structure Emitter (F : Type) where
  name : String
  trader : Trader F
  init : trader.State

/-- eval/eval.proto 42-52 `EvaluationConfig`. -/
structure EvalConfig where
  start : ℤ
  stop : ℤ
  months : ℤ
  fast : Bool
  deriving DecidableEq

/-- eval/eval.proto 63-74 `EvaluationResult.Period`. -/
structure Period (F : Type) where
  start : ℤ
  stop : ℤ
  result : ExecutionResult F
  finalGain : F
  baseFinalGain : F
  deriving DecidableEq

/-- eval/eval.proto 55-87 `EvaluationResult`. -/
structure EvaluationResult (F : Type) where
  accountConfig : AccountConfig F
  evalConfig : EvalConfig
  name : String
  periods : List (Period F)
  score : F
  avgGain : F
  avgBaseGain : F
  avgTotalExecutedOrders : F
  avgTotalFee : F
  deriving DecidableEq

section
variable {F D : Type} [FloatOps F] [FloatOps D] [Wide F D] [Libm F] [Libm D]

/-- eval/eval.cc 10-21 `GetAverage`: a running `float` sum, divided by the size converted to `float`. -/
def getAverage {α : Type} (l : List α) (selector : α → F) : F :=
  if l.isEmpty then lit F 0
  else l.foldl (fun sum x => sum +. selector x) (lit F 0) /. lit F l.length

/-- eval/eval.cc 23-35 `GetGeometricAverage`: a running `double` product, then `pow(mul, 1.0 / size)` narrowed to
`float`. -/
def getGeometricAverage {α : Type} (l : List α) (selector : α → F) : Res F :=
  if l.isEmpty then .ok (lit F 0)
  else
    let mul : D := l.foldl (fun mul x => mul *. Wide.widen (selector x)) (lit D 1)
    do
      assertThat (mul >=. lit D 0)
      return Wide.narrow (Libm.pow mul (lit D 1 /. lit D l.length))

/-- What `EvaluateTrader` is given, apart from the logger.  (eval/eval.cc 143-147.) -/
structure EvalInputs (F : Type) where
  account : AccountConfig F
  cfg : EvalConfig
  history : List (OhlcTick F)
  side : Option (SideInput F)
  emitter : Emitter F

/-- eval/eval.cc 153-186: one round of the loop.  Returns whether the loop goes on, and the periods so far.
An inverted iterator range (`begin` after `end`) makes `ExecuteTrader` run past the end of the history, which is
undefined behaviour. -/
def evalRound (i : EvalInputs F) (log : Bool) (offset : ℤ) (periods : List (Period F)) :
    Run (Event F) (Bool × List (Period F)) := do
  let start ← Run.lift (Time.addMonths i.cfg.start offset)
  let stop ← Run.lift (if i.cfg.months > 0 then Time.addMonths start i.cfg.months else .ok i.cfg.stop)
  if stop > i.cfg.stop then return (false, periods)
  else
    let s := historySubset OhlcTick.ts i.history start stop
    if s.1 = s.2 then return (true, periods)
    else if s.2 < s.1 then Run.lift (.error .undefinedBehaviour)
    else do
      let r ← executeTrader i.account ((i.history.drop s.1).take (s.2 - s.1)) i.side i.cfg.fast i.emitter.trader
        i.emitter.init log
      Run.lift (assertThat (r.startValue >. lit F 0))
      Run.lift (assertThat (r.startPrice >. lit F 0 && r.endPrice >. lit F 0))
      return (decide (i.cfg.months ≠ 0), periods ++
        [⟨start, stop, r, r.endValue /. r.startValue, r.endPrice /. r.startPrice⟩])

/-- eval/eval.cc 153-186: the loop over `month_offset`.  `fuel` is the number of values of `month_offset` left before
`++month_offset` overflows (undefined behaviour). -/
def evalLoop (i : EvalInputs F) (log : Bool) : ℕ → ℤ → List (Period F) → Run (Event F) (List (Period F))
  | 0, _, _ => Run.lift (.error .signedOverflow)
  | fuel + 1, offset, periods => do
    let r ← evalRound i log offset periods
    if r.1 then evalLoop i log fuel (offset + 1) r.2 else return r.2

/-- eval/eval.cc 187-205: the summary of the periods. -/
def summarise (i : EvalInputs F) (periods : List (Period F)) : Res (EvaluationResult F) := do
  let score ← getGeometricAverage periods (fun p => p.finalGain /. p.baseFinalGain)
  return {
    accountConfig := i.account
    evalConfig := i.cfg
    name := i.emitter.name
    periods := periods
    score := score
    avgGain := getAverage periods (fun p => p.finalGain)
    avgBaseGain := getAverage periods (fun p => p.baseFinalGain)
    avgTotalExecutedOrders := getAverage periods (fun p => lit F p.result.totalExecutedOrders)
    avgTotalFee := getAverage periods (fun p => p.result.totalFee) }

/-- eval/eval.cc 143-206 `EvaluateTrader`: `month_offset` is an `int` starting at 0. -/
def evaluateTrader (i : EvalInputs F) (log : Bool) : Run (Event F) (EvaluationResult F) := do
  let periods ← evalLoop i log (2 ^ 31) 0 []
  Run.lift (summarise i periods)

/-! ## Batch evaluation -/

/-- The private state of one asynchronous task (eval/eval.cc 216-222): inside the loop of `EvaluateTrader`, or finished
with a result in its future. -/
inductive Task (F : Type)
  | running (fuel : ℕ) (offset : ℤ) (periods : List (Period F))
  | finished (r : EvaluationResult F)

/-- One step of a task: one round of the loop of `EvaluateTrader` (and the summary after the last one).  The tasks share
only constant data (`account_config`, `eval_config`, `ohlc_history`, `side_input`, the emitter; no logger).
(eval/eval.cc 216-222.) -/
def Task.step (i : EvalInputs F) : Task F → Res (Task F)
  | .finished r => .ok (.finished r)
  | .running 0 _ _ => .error .signedOverflow
  | .running (fuel + 1) offset periods =>
    match (evalRound i false offset periods).out with
    | .error e => .error e
    | .ok (true, ps) => .ok (.running fuel (offset + 1) ps)
    | .ok (false, ps) => (summarise i ps).map .finished

/-- eval/eval.cc 208-228 `EvaluateBatchOfTraders`: the tasks are started together; `schedule` says which task makes the
next step.  A fault in any task is a fault of the batch (an abort of the process, or an exception rethrown by `get`). -/
def batchRun (inputs : List (EvalInputs F)) : List ℕ → List (Task F) → Res (List (Task F))
  | [], tasks => .ok tasks
  | k :: schedule, tasks =>
    match inputs[k]?, tasks[k]? with
    | some i, some t => do
      let t ← Task.step i t
      batchRun inputs schedule (tasks.set k t)
    | _, _ => batchRun inputs schedule tasks

/-- The tasks as created by `std::async`.  (eval/eval.cc 214-223.) -/
def batchStart (inputs : List (EvalInputs F)) : List (Task F) := inputs.map (fun _ => .running (2 ^ 31) 0 [])

/-- eval/eval.cc 223-227: `get()` on the futures in order succeeds once all tasks are finished. -/
def batchResults : List (Task F) → Option (List (EvaluationResult F))
  | [] => some []
  | .finished r :: rest => (batchResults rest).map (r :: ·)
  | .running .. :: _ => none

end
end Verif
