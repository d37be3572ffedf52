import Verif.Model.ConvertMain
import Verif.Model.Logger

/-!
# trader.cc: the back-testing program

Standard output and standard error are the lists of their lines (see `Verif.Model.ConvertMain`).  Proto files are taken after decompression.  Flag values of
type `double` that do not fit into a `float` are not considered (the conversion is undefined behaviour).
-/

namespace Verif
open FloatOps

namespace TraderMain

/-- trader.cc 20-45: the flags. -/
structure Flags (D : Type) where
  inputOhlc : Text
  inputSide : Text
  outputExchangeLog : Text
  outputTraderLog : Text
  trader : String
  startTime : Text
  endTime : Text
  months : ℤ
  startBase : D
  startQuote : D
  marketLiquidity : D
  maxVolumeRatio : D
  evaluateBatch : Bool

/-- trader.cc 20-44: the values of the flags that are not given on the command line. -/
def defaultFlags [FloatOps D] : Flags D where
  inputOhlc := []
  inputSide := []
  outputExchangeLog := []
  outputTraderLog := []
  trader := "stop"
  startTime := "2017-01-01".toList
  endTime := "2021-01-01".toList
  months := 0
  startBase := lit D 1
  startQuote := lit D 0
  marketLiquidity := lit D (1 / 2)
  maxVolumeRatio := lit D (1 / 2)
  evaluateBatch := false

/-- The surroundings of the program: how numbers are printed, how messages are serialised, what protobuf's `DebugString`
prints (as lines) about the two configurations, how the elapsed times are printed (`%.3f`; 0 is that of reading the ticks, 1
that of reading the side inputs, 2 that of the evaluation), which files can be opened for writing; how many characters of a log have left the buffer of the stream when the process is aborted; what `std::sort` makes
of a vector of results (of which it only promises that it is sorted, see `SortsByScore`); and how the tasks of a batch are
interleaved.  (Library code used by trader.cc 60-240.) -/
structure Env (F : Type) where
  fmt : Format F
  ohlcCodec : Codec (OhlcTick F)
  sideCodec : Codec (SideInputRecord F)
  canWrite : Text → Bool
  flushed : Text → ℕ
  sort : List (EvaluationResult F) → List (EvaluationResult F)
  schedule : List ℕ
  debugAccount : AccountConfig F → List Text
  debugEval : EvalConfig → List Text
  seconds : ℕ → Text

section
variable {F D : Type} [FloatOps F] [FloatOps D] [Wide F D] [Libm F] [Libm D]

omit [FloatOps D] [Libm F] [Libm D] in
/-- trader.cc 58-77 `GetAccountConfig`. -/
def accountConfig (fl : Flags D) : AccountConfig F where
  startBase := Wide.narrow fl.startBase
  startQuote := Wide.narrow fl.startQuote
  baseUnit := lit F (1 / 100000)
  quoteUnit := lit F (1 / 100)
  marketFee := ⟨lit F (5 / 1000), lit F 0, lit F 0⟩
  limitFee := ⟨lit F (5 / 1000), lit F 0, lit F 0⟩
  stopFee := ⟨lit F (5 / 1000), lit F 0, lit F 0⟩
  marketLiquidity := Wide.narrow fl.marketLiquidity
  maxVolumeRatio := Wide.narrow fl.maxVolumeRatio

/-- A log as the bytes of a file.  (trader.cc 114-120.) -/
def textBytes (s : Text) : List UInt8 := s.map (fun c => UInt8.ofNat c.toNat)

/-- trader.cc 105-121 `OpenLogFile`: the stream is `none` for `nullptr`, otherwise what has been written to it; an
error is its message. -/
def openLogFile (canWrite : Text → Bool) (months : ℤ) (name : Text) (w : Files) : Files × Except Text (Option Text) :=
  if name.isEmpty then (w, .ok none)
  else if months > 0 then (w, .error "Logging disabled when evaluating multiple periods".toList)
  else if canWrite name then (w.write name [], .ok (some []))
  else (w, .error ("Cannot open the file: ".toList ++ name))

/-- The file behind a log stream.  (trader.cc 114-120.) -/
def writeLog (w : Files) (name : Text) (stream : Option Text) : Files :=
  match stream with
  | none => w
  | some s => w.write name (textBytes s)

/-- The files behind the streams of the logger (if both have the same name, what the file holds is a mixture of both logs,
which is not modelled).  (trader.cc 222-229.) -/
def writeLogs (fl : Flags D) (w : Files) (l : Logger.CsvLogger) : Files :=
  writeLog (writeLog w fl.outputExchangeLog l.exchange) fl.outputTraderLog l.trader

/-- A minimal field width, as in `%9.2f`.  (trader.cc 138.) -/
def padLeft (n : ℕ) (s : Text) : Text := List.replicate (n - s.length) ' ' ++ s

omit [Libm F] in
/-- trader.cc 133-147: the line of one period in `PrintTraderEvalResult`. -/
def periodLine (fmt : Format F) (p : Period F) : Text :=
  "[".toList ++ Time.formatTimeUTC (.sec p.start) ++ " - ".toList ++ Time.formatTimeUTC (.sec p.stop) ++ "): ".toList ++
    padLeft 9 (fmt.fixed 2 ((p.finalGain -. lit F 1) *. lit F 100)).toList ++ "% ".toList ++
    padLeft 9 (fmt.fixed 2 ((p.baseFinalGain -. lit F 1) *. lit F 100)).toList ++ "% ".toList ++
    padLeft 8 (fmt.fixed 3 (p.finalGain /. p.baseFinalGain)).toList ++ " ".toList ++
    padLeft 8 (fmt.fixed 3 p.result.traderVolatility).toList ++ " ".toList ++
    padLeft 8 (fmt.fixed 3 p.result.baseVolatility).toList

omit [Libm F] in
/-- trader.cc 133-147 `PrintTraderEvalResult`. -/
def printTraderEvalResult (fmt : Format F) (r : EvaluationResult F) : List Text :=
  ("------------------ period ------------------".toList ++ "    trader & base gain    score    t&b volatility".toList) ::
    r.periods.map (periodLine fmt)

omit [FloatOps F] [Libm F] in
/-- trader.cc 123-131 `PrintBatchEvalResults`. -/
def printBatchEvalResults (fmt : Format F) (rs : List (EvaluationResult F)) (topN : ℕ) : List Text :=
  (rs.take (min topN rs.length)).map (fun r => r.name.toList ++ ": ".toList ++ (fmt.fixed 5 r.score).toList)

omit [Libm F] in
/-- trader.cc 212-215: the comparison given to `std::sort`. -/
def better (a b : EvaluationResult F) : Bool := a.score >. b.score

omit [Libm F] in
/-- The requirements of `std::sort` on the comparison, for the elements of the vector: a strict weak order.  Otherwise the
behaviour is undefined.  (trader.cc 212-215.) -/
def sortable (rs : List (EvaluationResult F)) : Bool :=
  let same (a b : EvaluationResult F) : Bool := !better a b && !better b a
  rs.all (fun a => !better a a && rs.all (fun b => rs.all (fun c =>
    (!(better a b && better b c) || better a c) && (!(same a b && same b c) || same a c))))

/-- trader.cc 239-241: the last lines of a run. -/
def lastLines (seconds : Text) : List Text := [[], "Evaluated in ".toList ++ seconds ++ " seconds".toList]

/-- trader.cc 204-216: the batch. -/
def runBatch (env : Env F) (fl : Flags D) (cfg : EvalConfig) (ticks : List (OhlcTick F)) (side : Option (SideInput F))
    (w : Files) (lines : List Text) : Outcome :=
  let lines := lines ++ [[], "Batch evaluation:".toList]
  match getBatchOfTraders fl.trader with
  | .error e => ⟨w, lines, .fault e, []⟩
  | .ok batch =>
    let inputs : List (EvalInputs F) := batch.map (fun b => ⟨accountConfig fl, cfg, ticks, side, b.emitter env.fmt⟩)
    match batchRun inputs env.schedule (batchStart inputs) with
    | .error e => ⟨w, lines, .fault e, []⟩
    | .ok tasks => match batchResults tasks with
      | none => ⟨w, lines, .running, []⟩
      | some rs =>
        if sortable rs then
          ⟨w, lines ++ printBatchEvalResults env.fmt (env.sort rs) 20 ++ lastLines (env.seconds 2), .success, []⟩
        else ⟨w, lines, .fault .undefinedBehaviour, []⟩

/-- trader.cc 217-238: one trader. -/
def runSingle (env : Env F) (fl : Flags D) (cfg : EvalConfig) (ticks : List (OhlcTick F)) (side : Option (SideInput F))
    (w : Files) (lines : List Text) : Outcome :=
  match getTrader fl.trader with
  | .error e => ⟨w, lines, .fault e, []⟩
  | .ok b =>
    let emitter := b.emitter env.fmt
    let lines := lines ++ [[], emitter.name.toList ++ " evaluation:".toList]
    match openLogFile env.canWrite fl.months fl.outputExchangeLog w with
    | (w, .error message) => ⟨w, lines, .failure, [message]⟩
    | (w, .ok exchange) => match openLogFile env.canWrite fl.months fl.outputTraderLog w with
      | (w, .error message) => ⟨w, lines, .failure, [message]⟩
      | (w, .ok trader) =>
        let run := evaluateTrader ⟨accountConfig fl, cfg, ticks, side, emitter⟩ true
        let log := (Logger.CsvLogger.mk exchange trader).after env.fmt run.trace
        match run.out with
        | .error e =>
          ⟨writeLogs fl w ⟨log.exchange.map (fun s => s.take (env.flushed s)), log.trader.map (fun s => s.take (env.flushed s))⟩,
            lines, .fault e, []⟩
        | .ok r =>
          ⟨writeLogs fl w log, lines ++ printTraderEvalResult env.fmt r ++ lastLines (env.seconds 2), .success, []⟩

omit [FloatOps F] [Libm F] in
/-- trader.cc 91-93: what `ReadHistory` prints about the records of the file. -/
def loadedLine (fmt : Format F) (n : ℕ) (seconds : Text) : Text :=
  "- Loaded ".toList ++ (fmt.int n).toList ++ " records in ".toList ++ seconds ++ " seconds".toList

omit [FloatOps F] [Libm F] in
/-- trader.cc 96-100: the line that `ReadHistory` prints about the selected records. -/
def selectedLine (fmt : Format F) (n : ℕ) (start stop : Time.Instant) : Text :=
  "- Selected ".toList ++ (fmt.int n).toList ++ " records within the time period: [".toList ++ Time.formatTimeUTC start ++
    " - ".toList ++ Time.formatTimeUTC stop ++ ")".toList

/-- util/proto.h 51, 85-87: the message of a file that cannot be read. -/
def readMessage (name : Text) : Convert.LoadError → List Text
  | .cannotOpen => ["Cannot open the input file: ".toList ++ name]
  | _ => ["Cannot parse the input stream".toList]

/-- trader.cc 203-238: the evaluation. -/
def evaluate (env : Env F) (fl : Flags D) (cfg : EvalConfig) (ticks : List (OhlcTick F)) (side : Option (SideInput F))
    (w : Files) (lines : List Text) : Outcome :=
  if fl.evaluateBatch then runBatch env fl { cfg with fast := true } ticks side w lines
  else runSingle env fl { cfg with fast := false } ticks side w lines

/-- trader.cc 181-201: reading the histories. -/
def readInputs (env : Env F) (fl : Flags D) (start stop : Time.Instant) (w : Files) (lines : List Text) : Outcome :=
  let cfg : EvalConfig := ⟨start.toUnixSeconds, stop.toUnixSeconds, fl.months, false⟩
  let lines := lines ++ ["Reading OHLC history from: ".toList ++ fl.inputOhlc]
  match readHistory env.ohlcCodec OhlcTick.ts start.toUnixSeconds stop.toUnixSeconds (w fl.inputOhlc) with
  | .error e => ⟨w, lines, .failure, readMessage fl.inputOhlc e⟩
  | .ok (n, .error e) => ⟨w, lines ++ [loadedLine env.fmt n (env.seconds 0)], .fault e, []⟩
  | .ok (n, .ok ticks) =>
    let lines := lines ++ [loadedLine env.fmt n (env.seconds 0), selectedLine env.fmt ticks.length start stop]
    if fl.inputSide.isEmpty then evaluate env fl cfg ticks none w lines
    else
      let lines := lines ++ ["Reading side history from: ".toList ++ fl.inputSide]
      match readHistory env.sideCodec SideInputRecord.ts start.toUnixSeconds stop.toUnixSeconds (w fl.inputSide) with
      | .error e => ⟨w, lines, .failure, readMessage fl.inputSide e⟩
      | .ok (n, .error e) => ⟨w, lines ++ [loadedLine env.fmt n (env.seconds 1)], .fault e, []⟩
      | .ok (n, .ok recs) =>
        let lines := lines ++ [loadedLine env.fmt n (env.seconds 1), selectedLine env.fmt recs.length start stop]
        match SideInput.make recs with
        | .error e => ⟨w, lines, .fault e, []⟩
        | .ok side => evaluate env fl cfg ticks (some side) w lines

/-- trader.cc 150-243 `main`.  `CheckOk` (51-56) ends the program with `EXIT_FAILURE`. -/
def main (env : Env F) (fl : Flags D) (w : Files) : Outcome :=
  let lines := "Trader AccountConfig:".toList :: env.debugAccount (accountConfig fl)
  match Time.parseTime fl.startTime with
  | none => ⟨w, lines, .failure, Convert.timeMessage fl.startTime⟩
  | some start => match Time.parseTime fl.endTime with
    | none => ⟨w, lines, .failure, Convert.timeMessage fl.endTime⟩
    | some stop =>
      readInputs env fl start stop w (lines ++ ["Selected time period:".toList,
        "[".toList ++ Time.formatTimeUTC start ++ " - ".toList ++ Time.formatTimeUTC stop ++ ")".toList,
        [], "Trader EvaluationConfig:".toList] ++
        env.debugEval ⟨start.toUnixSeconds, stop.toUnixSeconds, fl.months, false⟩)

end
end TraderMain
end Verif
