import Verif.Conformance.Libm
import Verif.Model.Evaluate
import Verif.Model.Logger
import Lean.Elab.Term

/-!
# The common part of eval/eval_test.cc and logging/csv_logger_test.cc
-/

namespace Verif.Conformance
open Verif FloatOps

/-- The characters of a string literal (the kernel is slow to take a long string apart). -/
elab "chars!" s:str : term => return Lean.toExpr s.getString.toList

/-- A number in a text-format message: read as a `double`, stored as a `float`. -/
def p (q : ℚ) : F32 := Wide.narrow (d q)

/-- eval/eval_test.cc 33-47 `AddOhlcTick`, at a given time; the flag collects the assertions. -/
def addTick (ts : ℤ) (opn high low close : F32) (h : List (OhlcTick F32) × Bool) : List (OhlcTick F32) × Bool :=
  (h.1 ++ [⟨ts, opn, high, low, close, f 1000⟩],
    h.2 && low <=. opn && low <=. high && low <=. close && opn <=. high && close <=. high)

/-- eval/eval_test.cc 50-59 `AddDailyOhlcTick`. -/
def addDaily (opn high low close : F32) (h : List (OhlcTick F32) × Bool) : List (OhlcTick F32) × Bool :=
  match h.1.getLast? with
  | none => addTick 1483228800 opn high low close h
  | some t => addTick (t.ts + 24 * 60 * 60) opn high low close (h.1, h.2 && almost opn t.close)

/-- eval/eval_test.cc 62-72 `AddMonthlyOhlcTick`. -/
def addMonthly (opn high low close : F32) (h : List (OhlcTick F32) × Bool) : List (OhlcTick F32) × Bool :=
  match h.1.getLast? with
  | none => addTick 1483228800 opn high low close h
  | some t =>
    match Time.addMonths t.ts 1 with
    | .ok ts => addTick ts opn high low close (h.1, h.2 && almost opn t.close)
    | .error _ => (h.1, false)

/-- eval/eval_test.cc 74-80 `SetupDailyOhlcHistory`. -/
def dailyHistory : List (OhlcTick F32) × Bool :=
  ([], true) |> addDaily (f 100) (f 150) (f 80) (f 120)
    |> addDaily (f 120) (f 180) (f 100) (f 150)
    |> addDaily (f 150) (f 250) (f 100) (f 140)
    |> addDaily (f 140) (f 150) (f 80) (f 100)
    |> addDaily (f 100) (f 120) (f 20) (f 50)

/-- eval/eval_test.cc 82-95 `SetupMonthlyOhlcHistory`. -/
def monthlyHistory : List (OhlcTick F32) × Bool :=
  ([], true) |> addMonthly (f 100) (f 150) (f 80) (f 120)
    |> addMonthly (f 120) (f 180) (f 100) (f 150)
    |> addMonthly (f 150) (f 250) (f 100) (f 140)
    |> addMonthly (f 140) (f 150) (f 80) (f 100)
    |> addMonthly (f 100) (f 120) (f 20) (f 50)
    |> addMonthly (f 50) (f 100) (f 40) (f 80)
    |> addMonthly (f 80) (f 180) (f 50) (f 150)
    |> addMonthly (f 150) (f 250) (f 120) (f 240)
    |> addMonthly (f 240) (f 450) (f 220) (f 400)
    |> addMonthly (f 400) (f 450) (f 250) (f 300)
    |> addMonthly (f 300) (f 700) (f 220) (f 650)
    |> addMonthly (f 650) (f 800) (f 600) (f 750)

/-- eval/eval_test.cc 140-149: the members of `TestTrader` that change. -/
structure TestState where
  base : F32
  quote : F32
  ts : ℤ
  close : F32
  isLong : Bool

/-- `%d` and `%.<n>f`. -/
abbrev fmt := Logger.abslFormat binary32

/-- The text of a number with `n` decimals. -/
def fixed (n : ℕ) (x : F32) : List Char := (fmt.fixed n x).toList

/-- eval/eval_test.cc 98-150 `TestTrader`. -/
def testTrader (buy sell : F32) : Trader F32 where
  State := TestState
  update := fun _ t _ base quote =>
    let isLong := t.close *. base >. quote
    .ok (⟨base, quote, t.ts, t.close, isLong⟩,
      [if isLong then ⟨some .limit, some .sell, .base base, some sell⟩ else ⟨some .limit, some .buy, .quote quote, some buy⟩])
  internalState := fun s => String.ofList
    ((fmt.int s.ts).toList ++ ',' :: fixed 3 s.base ++ ',' :: fixed 3 s.quote ++ ',' :: fixed 3 s.close ++ ',' ::
      (if s.isLong then "IN_LONG,LIMIT_SELL@".toList ++ fixed 0 sell else "IN_CASH,LIMIT_BUY@".toList ++ fixed 0 buy))

/-- `TestTrader(buy_price, sell_price)`. -/
def testInit (buy sell : F32) : (testTrader buy sell).State := TestState.mk (f 0) (f 0) 0 (f 0) false

/-- eval/eval_test.cc 153-172 `TestTraderEmitter`. -/
def testEmitter (buy sell : F32) : Emitter F32 :=
  ⟨String.ofList ("test-trader[".toList ++ fixed 0 buy ++ '|' :: fixed 0 sell ++ [']']), testTrader buy sell, testInit buy sell⟩

/-- eval/eval_test.cc 1090-1103: the members of `TestTraderWithSideInput`. -/
structure SideState where
  base : F32
  quote : F32
  ts : ℤ
  close : F32
  recommendation : ℤ
  age : ℤ

/-- `static_cast<int>` of a non-negative number. -/
def truncate (x : F32) : ℤ := x.toQ.floor

/-- eval/eval_test.cc 1019-1104 `TestTraderWithSideInput`. -/
def sideTrader : Trader F32 where
  State := SideState
  update := fun s t signals base quote =>
    match signals with
    | [] => .ok (⟨base, quote, t.ts, t.close, s.recommendation, s.age⟩, [])
    | [x, y] =>
      let r := truncate x
      let a := truncate y
      if r < 0 ∨ 2 < r ∨ a < 0 then .error .assertion
      else .ok (⟨base, quote, t.ts, t.close, r, a⟩,
        if r = 1 ∧ a ≤ 3600 ∧ (quote >. f 0) = true then [⟨some .market, some .buy, .quote quote, none⟩]
        else if r = 2 ∧ a ≤ 3600 ∧ (base >. f 0) = true then [⟨some .market, some .sell, .base base, none⟩]
        else [])
    | _ => .error .assertion
  internalState := fun s => String.ofList
    ((fmt.int s.ts).toList ++ ',' :: fixed 3 s.base ++ ',' :: fixed 3 s.quote ++ ',' :: fixed 3 s.close ++ ',' ::
      (if s.recommendation = -1 then "UNKNOWN".toList
       else if 3600 < s.age then "TOO_OLD".toList
       else if s.recommendation = 0 then "DO_NOTHING".toList
       else if s.recommendation = 1 then "SHOULD_BUY".toList else "SHOULD_SELL".toList) ++ ',' :: (fmt.int s.age).toList)

/-- `TestTraderWithSideInput()`. -/
def sideInit : sideTrader.State := SideState.mk (f 0) (f 0) 0 (f 0) (-1) (-1)

/-- The line that an event adds to the log of the exchange. -/
def exchangeLine : Event F32 → List Char
  | .tickRow t a => Logger.joinFields [Logger.tickCsv fmt t, Logger.accountCsv fmt a, Logger.emptyOrderCsv] ++ ['\n']
  | .orderRow t a o => Logger.joinFields [Logger.tickCsv fmt t, Logger.accountCsv fmt a, Logger.orderCsv fmt o] ++ ['\n']
  | _ => []

/-- The line that an event adds to the log of the trader. -/
def traderLine : Event F32 → List Char
  | .traderRow s => s.toList ++ ['\n']
  | _ => []

/-- The logger after a run, line by line. -/
def logged {α : Type} (r : Run (Event F32) α) : Logger.CsvLogger := ⟨some (r.trace.flatMap exchangeLine), some (r.trace.flatMap traderLine)⟩

/-- `logged` is what the logger of the model holds. -/
theorem logged_eq {α : Type} (r : Run (Event F32) α) : logged r = Logger.CsvLogger.after fmt ⟨some [], some []⟩ r.trace := by
  have h : ∀ (l : List (Event F32)) (x y : List Char),
      Logger.CsvLogger.after fmt ⟨some x, some y⟩ l = ⟨some (x ++ l.flatMap exchangeLine), some (y ++ l.flatMap traderLine)⟩ := by
    intro l
    induction l with
    | nil => intro x y; simp [Logger.CsvLogger.after]
    | cons e l ih =>
      intro x y
      have := fun x y => ih x y
      simp only [Logger.CsvLogger.after] at this
      cases e <;>
        simp [Logger.CsvLogger.after, Logger.CsvLogger.hear, Logger.CsvLogger.logTick, Logger.CsvLogger.logOrder,
          Logger.CsvLogger.logTrader, exchangeLine, traderLine, this, List.append_assoc]
  simpa [logged] using (h r.trace [] []).symm

/-- Never used: the result of a failed back-test. -/
def noResult : ExecutionResult F32 := ExecutionResult.default

/-- Never used: the result of a failed evaluation. -/
def noEvaluation : EvaluationResult F32 := ⟨newAccountConfig, ⟨0, 0, 0, false⟩, "", [], f 0, f 0, f 0, f 0, f 0⟩

/-- `EXPECT_EQ` of the text written to a stream. -/
def wrote (o : Option (List Char)) (s : List Char) : Bool := o == some s

/-- eval/eval.cc 208-228, the batch under one of its schedules: the traders take turns. -/
def batch (l : List (EvalInputs F32)) : List (EvaluationResult F32) :=
  match batchRun l (List.replicate 20 (List.range l.length)).flatten (batchStart l) with
  | .ok t => (batchResults t).getD []
  | .error _ => []

/-- logging/csv_logger_test.cc 8-30 `PrepareExampleOhlcHistory`. -/
def loggerHistory : List (OhlcTick F32) :=
  [⟨1483228800, f 100, f 150, f 80, f 120, f 1000⟩, ⟨1483315200, f 120, f 180, f 100, f 150, f 500⟩,
    ⟨1483401600, f 150, f 250, f 100, f 140, f 800⟩]

/-- logging/csv_logger_test.cc 32-40 `PrepareExampleAccount`. -/
def loggerAccount : Account F32 :=
  { newAccount with
    baseBalance := f 2, quoteBalance := f 1000, totalFee := f 50, baseUnit := f (1 / 10000), quoteUnit := f (1 / 100),
    marketLiquidity := f (1 / 2), maxVolumeRatio := f (9 / 10) }

end Verif.Conformance
