import Verif.Spec.TraderMain

/-!
# Specification vocabulary for what the programs print (C99)
-/

namespace Verif.Spec
open Verif FloatOps

section
variable {F : Type}

/-- The period, as both programs print it. -/
def periodText (a b : Time.Instant) : Text :=
  "[".toList ++ Time.formatTimeUTC a ++ " - ".toList ++ Time.formatTimeUTC b ++ ")".toList

/-- "Loaded 5 records in 0.001 seconds" -/
def loadedText (fmt : Format F) (n : ℕ) (what : String) (seconds : Text) : Text :=
  "Loaded ".toList ++ (fmt.int n).toList ++ (" " ++ what ++ " in ").toList ++ seconds ++ " seconds".toList

/-! ### convert.cc -/

/-- The two lines about a file that is written; there are none if there is nothing to write, or no name. -/
def writtenText {M : Type} (fmt : Format F) (l : List M) (name seconds : Text) : List Text :=
  if l = [] ∨ name = [] then [] else
    ["Writing ".toList ++ (fmt.int l.length).toList ++ " records to the file: ".toList ++ name,
      "Finished in ".toList ++ seconds ++ " seconds".toList]

/-- The report on a conversion of `records` records, `outliers` of which were left out, into `ticks` ticks; `context` are the lines
showing the last `lastN` outliers. -/
def conversionText (fmt : Format F) (records outliers ticks : ℕ) (lastN : ℤ) (context : List Text) : List Text :=
  ["Removed ".toList ++ (fmt.int outliers).toList ++ " outliers".toList,
    "Last ".toList ++ (fmt.int lastN).toList ++ " outliers:".toList] ++ context ++
  ["Resampled ".toList ++ (fmt.int ((records : ℤ) - outliers)).toList ++ " records to ".toList ++ (fmt.int ticks).toList ++
    " OHLC ticks".toList]

/-- The complaint about a line of a CSV file. -/
def csvComplaint (fmt : Format F) (prices : String) (what : Convert.Complaint) (row : ℕ) (line : Text) : Text :=
  (match what with
    | .timestamp => "Invalid timestamp"
    | .price => prices
    | .volume => "Invalid volume"
    | .unparsable => "Cannot parse the timestamp"
    | .signals => "Invalid number of signals").toList ++
    " on the line ".toList ++ (fmt.int row).toList ++ ": ".toList ++ line

/-- The complaint about a record of a proto file. -/
def protoComplaint (fmt : Format F) (prices : String) (what : Convert.Complaint) (n : ℕ) (debug : List Text) : List Text :=
  if what = .timestamp then ("Invalid timestamp on the record ".toList ++ (fmt.int n).toList ++ ":".toList) :: debug
  else ("Invalid record ".toList ++ (fmt.int n).toList ++ ":".toList) :: debug ++
    [(if what = .volume then "Invalid volume" else prices).toList]

/-! ### trader.cc -/

variable {D : Type} [FloatOps F] [Wide F D]

/-- What is printed before anything is read: the account, the period, and the configuration of the evaluation. -/
def openingText (env : TraderMain.Env F) (fl : TraderMain.Flags D) (a b : Time.Instant) : List Text :=
  "Trader AccountConfig:".toList :: env.debugAccount (TraderMain.accountConfig fl) ++
    ["Selected time period:".toList, periodText a b, [], "Trader EvaluationConfig:".toList] ++
    env.debugEval ⟨a.toUnixSeconds, b.toUnixSeconds, fl.months, false⟩

/-- The three lines about a history that has been read: `n` records, of which `m` are in the period. -/
def readText (fmt : Format F) (what : String) (name : Text) (n m : ℕ) (seconds : Text) (a b : Time.Instant) : List Text :=
  [("Reading " ++ what ++ " history from: ").toList ++ name,
    "- ".toList ++ loadedText fmt n "records" seconds,
    "- Selected ".toList ++ (fmt.int m).toList ++ " records within the time period: ".toList ++ periodText a b]

/-- The side inputs to use, and what is printed about them. -/
inductive ReadsSideInput (env : TraderMain.Env F) (fl : TraderMain.Flags D) (files : Files) (a b : Time.Instant) :
    Option (SideInput F) → List Text → Prop
  | none (h : fl.inputSide = []) : ReadsSideInput env fl files a b none []
  | some (h : fl.inputSide ≠ []) (all recs : List (SideInputRecord F)) (hh : Holds env.sideCodec files fl.inputSide all)
      (hs : SortedBy SideInputRecord.ts all)
      (hr : recs = all.filter (fun r => decide (InWindow a.toUnixSeconds b.toUnixSeconds r.ts)))
      (side : SideInput F) (hm : SideInput.make recs = .ok side) :
      ReadsSideInput env fl files a b (some side)
        (readText env.fmt "side" fl.inputSide all.length recs.length (env.seconds 1) a b)

/-- Everything has been read: the ticks and the side inputs to use, and what is printed up to that point. -/
def ReadsAll (env : TraderMain.Env F) (fl : TraderMain.Flags D) (files : Files) (a b : Time.Instant)
    (ticks : List (OhlcTick F)) (side : Option (SideInput F)) (printed : List Text) : Prop :=
  Time.parseTime fl.startTime = some a ∧ Time.parseTime fl.endTime = some b ∧
  (0 < b.toUnixSeconds → a.toUnixSeconds ≤ b.toUnixSeconds) ∧
  ∃ all more, Holds env.ohlcCodec files fl.inputOhlc all ∧ SortedBy OhlcTick.ts all ∧
    ticks = all.filter (fun t => decide (InWindow a.toUnixSeconds b.toUnixSeconds t.ts)) ∧
    ReadsSideInput env fl files a b side more ∧
    printed = openingText env fl a b ++
      readText env.fmt "OHLC" fl.inputOhlc all.length ticks.length (env.seconds 0) a b ++ more

/-- The last lines. -/
def evaluatedText (seconds : Text) : List Text := [[], "Evaluated in ".toList ++ seconds ++ " seconds".toList]

end
end Verif.Spec
