import Verif.Model.Traders
import Verif.Model.TimeText

/-!
# convert.cc 326-559: the reports, the conversion and `main`

Standard output and standard error are the lists of their lines (of a run that is aborted: the lines handed to `PrintF`,
some of which may still be in its buffer).  Files are a map from names to contents.  The proto files are taken after
decompression (see `Verif.Model.Proto`), so the flag `compress` does not occur.
-/

namespace Verif
open FloatOps

/-- The contents of the files that can be read (`none`: cannot be opened).
(What convert.cc 69, 122, 183 and util/proto.h 84 open.) -/
abbrev Files := Text → Option (List UInt8)

/-- How a program ends: `return 0`, `exit(EXIT_FAILURE)`, not (yet), or abnormally.  (convert.cc 54-58, 443-474, 558.) -/
inductive Exit
  | success
  | failure
  | running
  | fault (e : Fault)
  deriving DecidableEq

/-- What can be observed of a run of a program: the files, the lines of standard output, how it ends, and the lines that
`LogError` writes to standard error (the message of a failed `assert` is not among them).  (`main`, convert.cc 422-559.) -/
structure Outcome where
  files : Files
  lines : List Text
  exit : Exit
  err : List Text

/-- A file opened with `std::ios::trunc` and then written to.  (util/proto.h 131-145, trader.cc 114-120.) -/
def Files.write (w : Files) (name : Text) (bytes : List UInt8) : Files := fun n => if n = name then some bytes else w n

/-- A file as a text: one character per byte.  (convert.cc 69, 122, 183.) -/
def textFile (bytes : Option (List UInt8)) : Option Text := bytes.map (fun l => l.map (fun b => Char.ofNat b.toNat))

/-- `int` converted to `size_t`.  (convert.cc 395, 526: flags of type `int` passed as `size_t`.) -/
def toSize (x : ℤ) : ℕ := (x % 2 ^ 64).toNat

namespace Convert
section
variable {F : Type} [FloatOps F]

omit [FloatOps F] in
/-- convert.cc 337-345: the line of a gap. -/
def gapLine (fmt : Format F) (g : HistoryGap) : Text :=
  (fmt.int g.1).toList ++ " [".toList ++ Time.formatTimeUTC (.sec g.1) ++ "] - ".toList ++ (fmt.int g.2).toList ++
    " [".toList ++ Time.formatTimeUTC (.sec g.2) ++ "]: ".toList ++ durationToString (g.2 - g.1)

omit [FloatOps F] in
/-- convert.cc 334-347 `PrintPriceHistoryGaps`. -/
def printPriceHistoryGaps (fmt : Format F) (l : List (PriceRecord F)) (topN : ℕ) : List Text :=
  (getPriceHistoryGaps l 0 0 topN).map (gapLine fmt)

/-- The keys of the map in increasing order; all keys are below `bound`.  (The iteration at convert.cc 362.) -/
def mapKeys (m : IndexMap) (bound : ℕ) : List ℕ := (List.range bound).filter (fun i => (m i).isSome)

omit [FloatOps F] in
/-- convert.cc 370-374: the line of a record. -/
def recordLine (fmt : Format F) (isOutlier : Bool) (r : PriceRecord F) : Text :=
  (if isOutlier then " x".toList else "  ".toList) ++ " ".toList ++ (fmt.int r.ts).toList ++ " [".toList ++
    Time.formatTimeUTC (.sec r.ts) ++ "]: ".toList ++ (fmt.fixed 2 r.price).toList ++ " [".toList ++
    (fmt.fixed 4 r.volume).toList ++ "]".toList

omit [FloatOps F] in
/-- convert.cc 362-377: the loop over the map; `prev` is `index_prev`. -/
def outlierLoop (fmt : Format F) (l : List (PriceRecord F)) (m : IndexMap) : ℕ → List ℕ → Res (List Text)
  | _, [] => .ok []
  | prev, index :: rest =>
    match l[index]? with
    | none => .error .assertion
    | some r => do
      let lines ← outlierLoop fmt l m index rest
      return (if prev > 0 ∧ index > prev + 1 then ["   ...".toList] else []) ++
        recordLine fmt ((m index).getD false) r :: lines

omit [FloatOps F] in
/-- convert.cc 352-377 `PrintOutliersWithContext`. -/
def printOutliersWithContext (fmt : Format F) (l : List (PriceRecord F)) (outliers : List ℕ) (left right lastN : ℕ) :
    Res (List Text) :=
  let m := getOutlierIndicesWithContext outliers l.length left right lastN
  outlierLoop fmt l m 0 (mapKeys m (l.length + (outliers.foldl max 0 + 1)))

variable [Libm F]

/-- convert.cc 380-402 `ConvertPriceHistoryToOhlcHistory`: the lines printed and the history.  The flags
`max_price_deviation_per_min` (narrowed to `float`), `sampling_rate_sec` and `last_n_outliers` are arguments.  A sampling
rate of 0 divides by 0; for negative rates see `resample`. -/
def convertPriceHistory (fmt : Format F) (maxDev : F) (rate lastN : ℤ) (l : List (PriceRecord F)) :
    Res (List Text × List (OhlcTick F)) := do
  let clean := removeOutliers maxDev l
  let lines ← printOutliersWithContext fmt l clean.2 5 5 (toSize lastN)
  let ticks ← if rate = 0 ∧ clean.1 ≠ [] then .error .undefinedBehaviour else resample rate clean.1
  return (["Removed ".toList ++ (fmt.int clean.2.length).toList ++ " outliers".toList,
    "Last ".toList ++ (fmt.int lastN).toList ++ " outliers:".toList] ++ lines ++
    ["Resampled ".toList ++ (fmt.int clean.1.length).toList ++ " records to ".toList ++ (fmt.int ticks.length).toList ++
      " OHLC ticks".toList], ticks)

/-! ## `main` -/

/-- convert.cc 14-48: the flags. -/
structure Flags (F : Type) where
  inputPriceCsv : Text
  inputPriceProto : Text
  outputPrice : Text
  inputOhlcCsv : Text
  inputOhlcProto : Text
  outputOhlc : Text
  inputSideCsv : Text
  outputSide : Text
  startTime : Text
  endTime : Text
  maxDeviation : F
  samplingRate : ℤ
  topNGaps : ℤ
  lastNOutliers : ℤ

omit [Libm F] in
/-- convert.cc 14-48: the values of the flags that are not given on the command line (the maximal deviation is a `double`). -/
def defaultFlags {D : Type} [FloatOps D] [Wide F D] : Flags F where
  inputPriceCsv := []
  inputPriceProto := []
  outputPrice := []
  inputOhlcCsv := []
  inputOhlcProto := []
  outputOhlc := []
  inputSideCsv := []
  outputSide := []
  startTime := "2017-01-01".toList
  endTime := "2021-01-01".toList
  maxDeviation := Wide.narrow (lit D (5 / 100))
  samplingRate := 300
  topNGaps := 50
  lastNOutliers := 20

/-- The surroundings of the program: how numbers are read and printed, how messages are serialised and printed by
`DebugString` (as lines; a text that ends with a newline has an empty last line), which files can be opened for writing, and
how the elapsed times are printed (`%.3f`): 0 is that of reading the input, 1 to 3 those of writing the outputs.
(Library code used by convert.cc 62-419.) -/
structure Env (F : Type) where
  fmt : Format F
  scanner : Scanner F
  priceCodec : Codec (PriceRecord F)
  ohlcCodec : Codec (OhlcTick F)
  sideCodec : Codec (SideInputRecord F)
  canWrite : Text → Bool
  debugPrice : PriceRecord F → List Text
  debugOhlc : OhlcTick F → List Text
  debugSide : SideInputRecord F → List Text
  seconds : ℕ → Text

omit [FloatOps F] [Libm F] in
/-- convert.cc 440-475: exactly one kind of input history, from one file; otherwise the message printed. -/
def checkInputs (fl : Flags F) : Option Text :=
  let price := !fl.inputPriceCsv.isEmpty || !fl.inputPriceProto.isEmpty
  let ohlc := !fl.inputOhlcCsv.isEmpty || !fl.inputOhlcProto.isEmpty
  let side := !fl.inputSideCsv.isEmpty
  let num := (if price then 1 else 0) + (if ohlc then 1 else 0) + (if side then 1 else 0)
  if !fl.inputPriceCsv.isEmpty && !fl.inputPriceProto.isEmpty then
    some "Cannot have two input price history files".toList
  else if !fl.inputOhlcCsv.isEmpty && !fl.inputOhlcProto.isEmpty then
    some "Cannot have two input OHLC history files".toList
  else if num > 1 then some "Cannot read more than one input history file".toList
  else if num = 0 then some "Input history file not specified".toList
  else none

/-! ### Messages -/

omit [FloatOps F] [Libm F] in
/-- convert.cc 69-72, 92-103, 122-125, 149-161, 183-186, 200-203, 211-214, 223-226: the message of an error in a CSV file;
`prices` is the complaint about prices, `view` is what has been done to a line when it is printed.  (The line is looked up
by its number.) -/
def csvMessage (fmt : Format F) (name prices : Text) (view : Text → Text) (file : Option Text) : LoadError → List Text
  | .record row what =>
    let line := view (((file.map linesOf).getD []).getD (row - 1) [])
    [(match what with
      | .timestamp => "Invalid timestamp".toList
      | .price => prices
      | .volume => "Invalid volume".toList
      | .unparsable => "Cannot parse the timestamp".toList
      | .signals => "Invalid number of signals".toList) ++
        " on the line ".toList ++ (fmt.int row).toList ++ ": ".toList ++ line]
  | _ => ["Cannot open the file: ".toList ++ name]

omit [FloatOps F] [Libm F] in
/-- convert.cc 259-269, 291-298, 309-322 and util/proto.h 51, 55, 85-87: the message of an error in a proto file. -/
def protoMessage {R : Type} (fmt : Format F) (name prices : Text) (debug : R → List Text) : LoadError × Option R → List Text
  | (.record index .timestamp, some m) =>
    ("Invalid timestamp on the record ".toList ++ (fmt.int index).toList ++ ":".toList) :: debug m
  | (.record index what, some m) =>
    ("Invalid record ".toList ++ (fmt.int index).toList ++ ":".toList) :: debug m ++
      [if what = .volume then "Invalid volume".toList else prices]
  | (.cannotOpen, _) => ["Cannot open the input file: ".toList ++ name]
  | _ => ["Cannot parse the input stream".toList]

omit [FloatOps F] [Libm F] in
/-- convert.cc 109-111, 170-172, 228-230, 278-280: after a history has been read. -/
def loadedLine (env : Env F) (n : ℕ) (what : String) : Text :=
  "Loaded ".toList ++ (env.fmt.int n).toList ++ " ".toList ++ what.toList ++ " in ".toList ++ env.seconds 0 ++
    " seconds".toList

/-- The outcome of reading a history: the lines on standard output, and the history or the lines on standard error.
(convert.cc 62-284.) -/
abbrev Load (R : Type) := List Text × Except (List Text) (List R)

omit [FloatOps F] [Libm F] in
/-- What is printed while a history is read (the beginnings and ends of convert.cc 62-113, 116-174, 177-232, 235-282). -/
def load {R E : Type} (env : Env F) (opening name : Text) (what : String) (message : E → List Text) (r : Except E (List R)) :
    Load R :=
  match r with
  | .error e => ([opening ++ name], .error (message e))
  | .ok l => ([opening ++ name, loadedLine env l.length what], .ok l)

omit [Libm F] in
/-- convert.cc 477-490: reading the prices. -/
def loadPrice (env : Env F) (fl : Flags F) (w : Files) (start stop : ℤ) : Load (PriceRecord F) :=
  if !fl.inputPriceCsv.isEmpty then
    load env "Reading price history from CSV file: ".toList fl.inputPriceCsv "records"
      (csvMessage env.fmt fl.inputPriceCsv "Invalid price".toList id (textFile (w fl.inputPriceCsv)))
      (readPriceCsv env.scanner start stop (textFile (w fl.inputPriceCsv)))
  else if !fl.inputPriceProto.isEmpty then
    load env "Reading history from delimited proto file: ".toList fl.inputPriceProto "records"
      (protoMessage env.fmt fl.inputPriceProto "Invalid price".toList env.debugPrice)
      (readPriceProto env.priceCodec start stop (w fl.inputPriceProto))
  else ([], .ok [])

omit [Libm F] in
/-- convert.cc 494-507: reading the ticks. -/
def loadOhlc (env : Env F) (fl : Flags F) (w : Files) (start stop : ℤ) : Load (OhlcTick F) :=
  if !fl.inputOhlcCsv.isEmpty then
    load env "Reading OHLC history from CSV file: ".toList fl.inputOhlcCsv "OHLC ticks"
      (csvMessage env.fmt fl.inputOhlcCsv "Invalid OHLC prices".toList id (textFile (w fl.inputOhlcCsv)))
      (readOhlcCsv env.scanner start stop (textFile (w fl.inputOhlcCsv)))
  else if !fl.inputOhlcProto.isEmpty then
    load env "Reading history from delimited proto file: ".toList fl.inputOhlcProto "records"
      (protoMessage env.fmt fl.inputOhlcProto "Invalid OHLC prices".toList env.debugOhlc)
      (readOhlcProto env.ohlcCodec start stop (w fl.inputOhlcProto))
  else ([], .ok [])

omit [Libm F] in
/-- convert.cc 511-519: reading the side inputs (in a message, blanks have replaced the commas of the line: 198). -/
def loadSide (env : Env F) (fl : Flags F) (w : Files) (start stop : ℤ) : Load (SideInputRecord F) :=
  if !fl.inputSideCsv.isEmpty then
    load env "Reading side history from CSV file: ".toList fl.inputSideCsv "records"
      (csvMessage env.fmt fl.inputSideCsv [] (fun line => line.map (fun c => if c = ',' then ' ' else c))
        (textFile (w fl.inputSideCsv)))
      (readSideCsv env.scanner start stop (textFile (w fl.inputSideCsv)))
  else ([], .ok [])

/-- convert.cc 405-419 `WriteHistoryToDelimitedProtoFile` and util/proto.h 132-144 `WriteDelimitedMessagesToFile`: the file
is truncated as soon as it is opened. -/
def writeHistory {M : Type} (canWrite : Text → Bool) (codec : Codec M) (history : List M) (name : Text) (w : Files) :
    Files × Status :=
  if canWrite name then
    let r := Proto.writeMessages codec history []
    (w.write name r.1, r.2)
  else (w, .invalidArgument)

/-- convert.cc 534-539, 541-546, 548-553: an output is written if there is something to write and its name is given. -/
def output {M : Type} (canWrite : Text → Bool) (codec : Codec M) (history : List M) (name : Text) (w : Files) :
    Files × Status :=
  if !history.isEmpty && !name.isEmpty then writeHistory canWrite codec history name w else (w, .ok)

omit [FloatOps F] [Libm F] in
/-- convert.cc 410-411, 415-417: what is printed about an output. -/
def outputLines {M : Type} (env : Env F) (k : ℕ) (history : List M) (name : Text) : List Text :=
  if !history.isEmpty && !name.isEmpty then
    ["Writing ".toList ++ (env.fmt.int history.length).toList ++ " records to the file: ".toList ++ name,
      "Finished in ".toList ++ env.seconds k ++ " seconds".toList]
  else []

/-- util/proto.h 122-124, 139-141: the message of an output that failed. -/
def outputMessage {M : Type} (canWrite : Text → Bool) (codec : Codec M) (debug : M → List Text) (history : List M)
    (name : Text) : List Text :=
  if canWrite name then
    match history.find? (fun m => (Proto.serializeDelimited codec m).isNone) with
    | some m => "Cannot serialize the message:".toList :: debug m
    | none => []
  else ["Cannot open the input file: ".toList ++ name]

omit [FloatOps F] [Libm F] in
/-- convert.cc 534-553: the three outputs, one after the other, until one fails (`CheckOk`). -/
def writeOutputs (env : Env F) (fl : Flags F) (price : List (PriceRecord F)) (ohlc : List (OhlcTick F))
    (side : List (SideInputRecord F)) (w : Files) (lines : List Text) : Outcome :=
  let lines := lines ++ outputLines env 1 price fl.outputPrice
  match output env.canWrite env.priceCodec price fl.outputPrice w with
  | (w, .ok) =>
    let lines := lines ++ outputLines env 2 ohlc fl.outputOhlc
    match output env.canWrite env.ohlcCodec ohlc fl.outputOhlc w with
    | (w, .ok) =>
      let lines := lines ++ outputLines env 3 side fl.outputSide
      match output env.canWrite env.sideCodec side fl.outputSide w with
      | (w, .ok) => ⟨w, lines, .success, []⟩
      | (w, _) => ⟨w, lines, .failure, outputMessage env.canWrite env.sideCodec env.debugSide side fl.outputSide⟩
    | (w, _) => ⟨w, lines, .failure, outputMessage env.canWrite env.ohlcCodec env.debugOhlc ohlc fl.outputOhlc⟩
  | (w, _) => ⟨w, lines, .failure, outputMessage env.canWrite env.priceCodec env.debugPrice price fl.outputPrice⟩

/-- convert.cc 523-553: after the histories have been read.  Simplified: if the conversion aborts, the lines it has printed until
then are left out. -/
def convertAndWrite (env : Env F) (fl : Flags F) (price : List (PriceRecord F)) (ohlc : List (OhlcTick F))
    (side : List (SideInputRecord F)) (w : Files) (lines : List Text) : Outcome :=
  let lines := lines ++ if price.isEmpty then [] else
    ("Top ".toList ++ (env.fmt.int fl.topNGaps).toList ++ " gaps:".toList) ::
      printPriceHistoryGaps env.fmt price (toSize fl.topNGaps)
  if !price.isEmpty && ohlc.isEmpty && !fl.outputOhlc.isEmpty then
    match convertPriceHistory env.fmt fl.maxDeviation fl.samplingRate fl.lastNOutliers price with
    | .error e => ⟨w, lines, .fault e, []⟩
    | .ok (more, ohlc) => writeOutputs env fl price ohlc side w (lines ++ more)
  else writeOutputs env fl price ohlc side w lines

/-- util/time.cc 29-30: the message of `ParseTime`. -/
def timeMessage (datetime : Text) : List Text := ["Cannot parse datetime: ".toList ++ datetime]

/-- convert.cc 422-559 `main`.  `CheckOk` (54-59) ends the program with `EXIT_FAILURE`. -/
def main (env : Env F) (fl : Flags F) (w : Files) : Outcome :=
  match Time.parseTime fl.startTime with
  | none => ⟨w, [], .failure, timeMessage fl.startTime⟩
  | some start => match Time.parseTime fl.endTime with
    | none => ⟨w, [], .failure, timeMessage fl.endTime⟩
    | some stop =>
      let lines := ["Selected time period:".toList,
        "[".toList ++ Time.formatTimeUTC start ++ " - ".toList ++ Time.formatTimeUTC stop ++ ")".toList]
      match checkInputs fl with
      | some message => ⟨w, lines, .failure, [message]⟩
      | none => match loadPrice env fl w start.toUnixSeconds stop.toUnixSeconds with
        | (more, .error message) => ⟨w, lines ++ more, .failure, message⟩
        | (more, .ok price) =>
          let lines := lines ++ more
          match loadOhlc env fl w start.toUnixSeconds stop.toUnixSeconds with
          | (more, .error message) => ⟨w, lines ++ more, .failure, message⟩
          | (more, .ok ohlc) =>
            let lines := lines ++ more
            match loadSide env fl w start.toUnixSeconds stop.toUnixSeconds with
            | (more, .error message) => ⟨w, lines ++ more, .failure, message⟩
            | (more, .ok side) => convertAndWrite env fl price ohlc side w (lines ++ more)

end
end Convert
end Verif
