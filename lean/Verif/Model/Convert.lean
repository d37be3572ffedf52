import Verif.Model.History
import Verif.Model.Proto
import Verif.Model.Time

/-!
# convert.cc: reading price, OHLC and side histories

A text file is the list of its characters.  How `%f` and `>> float` read a number is a parameter (`Scanner`); how integers
are read, how the fields of a line are assigned and how the records are checked is modelled.
-/

namespace Verif
open FloatOps

/-- A text (one character per byte).  (The type of `line` at convert.cc 74, 127, 188.) -/
abbrev Text := List Char

namespace Convert

/-! ## Reading characters -/

/-- `std::getline` until it fails (convert.cc 82, 138, 196): the lines of a text.  A last line without a newline counts
if it is not empty.  `acc` is the part of the current line already read, reversed. -/
def linesLoop (acc : Text) : Text → List Text
  | [] => if acc.isEmpty then [] else [acc.reverse]
  | c :: rest => if c = '\n' then acc.reverse :: linesLoop [] rest else linesLoop (c :: acc) rest

/-- `std::getline` until it fails.  (convert.cc 82, 138, 196.) -/
def linesOf (text : Text) : List Text := linesLoop [] text

/-- C `isspace` in the "C" locale.  (Library code called at convert.cc 84, 140-141 (`sscanf`) and 200 (`>>`).) -/
def isSpace (c : Char) : Bool := c = ' ' || c = '\t' || c = '\n' || c = '\x0b' || c = '\x0c' || c = '\r'

/-- The value of a decimal digit.  (Library code called at convert.cc 84, 140-141 (`sscanf`) and 200 (`>>`).) -/
def digit? (c : Char) : Option ℕ := if '0' ≤ c ∧ c ≤ '9' then some (c.toNat - '0'.toNat) else none

/-- Reads digits as long as there are any.  (Library code called at convert.cc 84, 140-141 (`sscanf`) and 200 (`>>`).) -/
def digitsLoop (acc : ℕ) : Text → ℕ × Text
  | [] => (acc, [])
  | c :: rest => match digit? c with
    | some d => digitsLoop (10 * acc + d) rest
    | none => (acc, c :: rest)

/-- An unsigned decimal number: at least one digit.  (Library code called at convert.cc 84, 140-141 (`sscanf`) and 200 (`>>`).) -/
def natural (s : Text) : Option (ℕ × Text) :=
  match s with
  | [] => none
  | c :: rest => match digit? c with
    | some d => some (digitsLoop d rest)
    | none => none

/-- White space, an optional sign, digits; the mathematical value.
(Library code called at convert.cc 84, 140-141 (`sscanf`) and 200 (`>>`).) -/
def integer (s : Text) : Option (ℤ × Text) :=
  match s.dropWhile isSpace with
  | '-' :: rest => (natural rest).map (fun r => (-(r.1 : ℤ), r.2))
  | '+' :: rest => (natural rest).map (fun r => ((r.1 : ℤ), r.2))
  | rest => (natural rest).map (fun r => ((r.1 : ℤ), r.2))

/-- Range of `int64_t`.  (convert.cc 77-78, 191-192.) -/
def isInt64 (x : ℤ) : Bool := decide (-2 ^ 63 ≤ x) && decide (x < 2 ^ 63)

/-- `sscanf` with `%lld`: a value out of range is replaced by the nearest one (what glibc does; the standard leaves it
undefined).  (Called at convert.cc 84, 140-141.) -/
def scanInt (s : Text) : Option (ℤ × Text) :=
  (integer s).map (fun r => (max (-2 ^ 63) (min (2 ^ 63 - 1) r.1), r.2))

/-- `istream >> int64_t`: a value out of range is a failure.  (Called at convert.cc 200.) -/
def streamInt (s : Text) : Option (ℤ × Text) :=
  match integer s with
  | some (x, rest) => if isInt64 x then some (x, rest) else none
  | none => none

/-- How a floating point number is read: by `sscanf` with `%f`, and by `istream >> float`.  Both return the value and the
remaining characters, or fail.  (Called at convert.cc 84, 140-141, 217.) -/
structure Scanner (F : Type) where
  scan : Text → Option (F × Text)
  stream : Text → Option (F × Text)

/-- What `line.c_str()` passes on: the characters before the first NUL.  (convert.cc 84, 140.) -/
def cString (line : Text) : Text := line.takeWhile (fun c => c ≠ '\x00')

section
variable {F : Type}

/-- `sscanf` with `",%f"` repeated `n` times: the values read before the first mismatch.  (convert.cc 84, 140-141.) -/
def scanFloats (sc : Scanner F) : ℕ → Text → List F
  | 0, _ => []
  | n + 1, s => match s with
    | ',' :: rest => match sc.scan rest with
      | some (x, rest) => x :: scanFloats sc n rest
      | none => []
    | _ => []

/-- convert.cc 84: `sscanf(line.c_str(), "%lld,%f,%f", &timestamp_sec, &price, &volume)`; the result is not looked at, so
variables that were not read keep their values. -/
def scanPriceLine (sc : Scanner F) (line : Text) (s : PriceRecord F) : PriceRecord F :=
  match scanInt (cString line) with
  | none => s
  | some (t, rest) =>
    let v := scanFloats sc 2 rest
    ⟨t, v[0]?.getD s.price, v[1]?.getD s.volume⟩

/-- convert.cc 140-141: `sscanf(line.c_str(), "%lld,%f,%f,%f,%f,%f", …)`. -/
def scanOhlcLine (sc : Scanner F) (line : Text) (s : OhlcTick F) : OhlcTick F :=
  match scanInt (cString line) with
  | none => s
  | some (t, rest) =>
    let v := scanFloats sc 5 rest
    ⟨t, v[0]?.getD s.opn, v[1]?.getD s.high, v[2]?.getD s.low, v[3]?.getD s.close, v[4]?.getD s.volume⟩

end

/-! ## Checking records -/

/-- What an `InvalidArgumentError` of the readers complains about.  (convert.cc 93-102, 150-160, 201-226, 261-269.) -/
inductive Complaint
  | timestamp
  | price
  | volume
  | unparsable
  | signals
  deriving DecidableEq, Repr

/-- Why a history could not be loaded: the line (or the record of a proto file) and the complaint; or the file cannot be
opened (util/proto.h 85-87), or its content is not a sequence of messages (util/proto.h 47-52). -/
inductive LoadError
  | record (row : ℕ) (what : Complaint)
  | cannotOpen
  | cannotParse
  deriving DecidableEq, Repr

section
variable {F : Type} [FloatOps F]

/-- convert.cc 95-102, 291-299: the checks of a price record. -/
def checkPrice (r : PriceRecord F) : Option Complaint :=
  if r.price <=. lit F 0 then some .price
  else if r.volume <. lit F 0 then some .volume
  else none

/-- convert.cc 152-160, 309-323: the checks of an OHLC tick. -/
def checkOhlc (t : OhlcTick F) : Option Complaint :=
  if t.opn <=. lit F 0 || t.high <=. lit F 0 || t.low <=. lit F 0 || t.close <=. lit F 0 || t.low >. t.opn ||
      t.low >. t.high || t.low >. t.close || t.high <. t.opn || t.high <. t.close then some .price
  else if t.volume <. lit F 0 then some .volume
  else none

end

/-! ## CSV files -/

section
variable {R : Type}

/-- convert.cc 82-108 and 138-169: the loop over the lines.  The two functions have the same text up to the fields (`scan`
assigns the variables of the function from a line, `check` are its checks); `cur` are the current values of the variables,
`prev` is `timestamp_sec_prev`, `row` the number of lines already read (the `int` counter is not bounded here).  Returns the
records appended from here on. -/
def csvLoop (ts : R → ℤ) (scan : Text → R → R) (check : R → Option Complaint) (start stop : ℤ) :
    ℕ → ℤ → R → List Text → Except LoadError (List R)
  | _, _, _, [] => .ok []
  | row, prev, cur, line :: rest =>
    let cur := scan line cur
    if start > 0 ∧ ts cur < start then csvLoop ts scan check start stop (row + 1) prev cur rest
    else if stop > 0 ∧ ts cur ≥ stop then .ok []
    else if ts cur ≤ 0 ∨ ts cur < prev then .error (.record (row + 1) .timestamp)
    else match check cur with
      | some what => .error (.record (row + 1) what)
      | none => (csvLoop ts scan check start stop (row + 1) (ts cur) cur rest).map (cur :: ·)

variable {F : Type} [FloatOps F]

/-- convert.cc 62-113 `ReadPriceHistoryFromCsvFile`; `none` is a file that cannot be opened.  `start`, `stop` are the
bounds in Unix seconds. -/
def readPriceCsv (sc : Scanner F) (start stop : ℤ) (file : Option Text) : Except LoadError (List (PriceRecord F)) :=
  match file with
  | none => .error .cannotOpen
  | some text =>
    csvLoop PriceRecord.ts (scanPriceLine sc) checkPrice start stop 0 0 ⟨0, lit F 0, lit F 0⟩ (linesOf text)

/-- convert.cc 116-174 `ReadOhlcHistoryFromCsvFile`. -/
def readOhlcCsv (sc : Scanner F) (start stop : ℤ) (file : Option Text) : Except LoadError (List (OhlcTick F)) :=
  match file with
  | none => .error .cannotOpen
  | some text =>
    csvLoop OhlcTick.ts (scanOhlcLine sc) checkOhlc start stop 0 0
      ⟨0, lit F 0, lit F 0, lit F 0, lit F 0, lit F 0⟩ (linesOf text)

omit [FloatOps F] in
/-- convert.cc 217-219: `while (iss >> signal)`.  Every successful extraction consumes a character, so as many rounds as
there are characters are enough (`fuel`). -/
def streamFloats (sc : Scanner F) : ℕ → Text → List F
  | 0, _ => []
  | fuel + 1, s => match sc.stream s with
    | some (x, rest) => x :: streamFloats sc fuel rest
    | none => []

omit [FloatOps F] in
/-- convert.cc 196-227: the loop over the lines of a side history.  `num` is `num_signals`. -/
def sideLoop (sc : Scanner F) (start stop : ℤ) : ℕ → ℤ → ℕ → List Text → Except LoadError (List (SideInputRecord F))
  | _, _, _, [] => .ok []
  | row, prev, num, line :: rest =>
    let line := line.map (fun c => if c = ',' then ' ' else c)
    match streamInt line with
    | none => .error (.record (row + 1) .unparsable)
    | some (t, tail) =>
      if start > 0 ∧ t < start then sideLoop sc start stop (row + 1) prev num rest
      else if stop > 0 ∧ t ≥ stop then .ok []
      else if t ≤ 0 ∨ t ≤ prev then .error (.record (row + 1) .timestamp)
      else
        let signals := streamFloats sc tail.length tail
        let num := if num = 0 then signals.length else num
        if num = 0 ∨ num ≠ signals.length then .error (.record (row + 1) .signals)
        else (sideLoop sc start stop (row + 1) t num rest).map (⟨t, signals⟩ :: ·)

omit [FloatOps F] in
/-- convert.cc 177-232 `ReadSideHistoryFromCsvFile`. -/
def readSideCsv (sc : Scanner F) (start stop : ℤ) (file : Option Text) : Except LoadError (List (SideInputRecord F)) :=
  match file with
  | none => .error .cannotOpen
  | some text => sideLoop sc start stop 0 0 0 (linesOf text)

/-! ## Proto files -/

omit [FloatOps F] in
/-- convert.cc 250-274: the callback.  The state is `timestamp_sec_prev`, the history (`record_index` is its length) and
the error reported, if any, with the message it is about. -/
def protoReader (ts : R → ℤ) (check : R → Option Complaint) (start stop : ℤ) (s : ℤ × List R × Option (LoadError × R))
    (m : R) : (ℤ × List R × Option (LoadError × R)) × Option ReaderSignal :=
  if start > 0 ∧ ts m < start then (s, some .kContinue)
  else if stop > 0 ∧ ts m ≥ stop then (s, some .kBreak)
  else if ts m ≤ 0 ∨ ts m < s.1 then ((s.1, s.2.1, some (.record s.2.1.length .timestamp, m)), none)
  else match check m with
    | some what => ((s.1, s.2.1, some (.record s.2.1.length what, m)), none)
    | none => ((ts m, s.2.1 ++ [m], s.2.2), some .kContinue)

omit [FloatOps F] in
/-- convert.cc 235-282 `ReadHistoryFromDelimitedProtoFile`: the history, or the error and the message it is about. -/
def readHistoryProto (codec : Codec R) (ts : R → ℤ) (check : R → Option Complaint) (start stop : ℤ)
    (file : Option (List UInt8)) : Except (LoadError × Option R) (List R) :=
  match Proto.readFile codec (protoReader ts check start stop) (0, [], none) file with
  | ((_, history, _), .ok) => .ok history
  | ((_, _, some (e, m)), _) => .error (e, some m)
  | ((_, _, none), _) => .error (if file.isNone then .cannotOpen else .cannotParse, none)

/-- convert.cc 285-300 `ReadPriceHistoryFromDelimitedProtoFile`. -/
def readPriceProto (codec : Codec (PriceRecord F)) (start stop : ℤ) (file : Option (List UInt8)) :
    Except (LoadError × Option (PriceRecord F)) (List (PriceRecord F)) :=
  readHistoryProto codec PriceRecord.ts checkPrice start stop file

/-- convert.cc 303-324 `ReadOhlcHistoryFromDelimitedProtoFile`. -/
def readOhlcProto (codec : Codec (OhlcTick F)) (start stop : ℤ) (file : Option (List UInt8)) :
    Except (LoadError × Option (OhlcTick F)) (List (OhlcTick F)) :=
  readHistoryProto codec OhlcTick.ts checkOhlc start stop file

end

/-! ## Printing -/

/-- `%d` of `absl::StrFormat`.  (The writer of the files that convert.cc 84, 140, 200 read.) -/
def printInt (x : ℤ) : Text := if x < 0 then '-' :: Nat.toDigits 10 x.natAbs else Nat.toDigits 10 x.natAbs

/-- `%02d`: padded with zeros to two characters, the sign first.  (Called at convert.cc 330.) -/
def printInt02 (x : ℤ) : Text :=
  let digits := Nat.toDigits 10 x.natAbs
  if x < 0 then '-' :: digits
  else List.replicate (2 - digits.length) '0' ++ digits

/-- convert.cc 326-331 `DurationToString`: `absl::StrFormat("%d:%02d:%02d", hours, minutes, seconds)`; C++ division
truncates. -/
def durationToString (d : ℤ) : Text :=
  printInt (d.tdiv 3600) ++ ':' :: printInt02 ((d.tdiv 60).tmod 60) ++ ':' :: printInt02 (d.tmod 60)

end Convert

/-- trader.cc 80-102 `ReadHistory`: the whole file, then the subset (see `TraderMain.readInputs` for what is printed).
Returns the number of records read, and the subset, which may fail. -/
def readHistory {M : Type} (codec : Codec M) (ts : M → ℤ) (start stop : ℤ) (file : Option (List UInt8)) :
    Except Convert.LoadError (ℕ × Res (List M)) :=
  match Proto.readFile codec (fun ms m => (ms ++ [m], some ReaderSignal.kContinue)) [] file with
  | (history, .ok) => .ok (history.length, historySubsetCopy ts history start stop)
  | _ => .error (if file.isNone then .cannotOpen else .cannotParse)

end Verif
