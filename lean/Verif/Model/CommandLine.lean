import Verif.Model.ConvertMain
import Verif.Model.TraderMain

/-!
# The command lines of convert.cc and trader.cc

`absl::ParseCommandLine` (abseil 20211102.0, WORKSPACE 17-22) as called at convert.cc 427 and trader.cc 155, for the flags
declared at convert.cc 14-47 and trader.cc 20-44.  It goes through all arguments, and then ends the program with status 1 if
one of them was not understood.

Simplifications: the flags that abseil itself declares (`builtinNames`: help texts, files of flags, flags from the
environment, ignored flags) are not modelled: the outcome is then left open (`none`).  The text of a usage error, which goes to
standard error, is not modelled.  How the text of a `double` is read (`absl::SimpleAtod`) is a parameter.
-/

namespace Verif.CommandLine
open FloatOps Verif.Convert

/-- The types of flags.  (convert.cc 14-47, trader.cc 20-44.) -/
inductive Kind
  | string
  | int
  | double
  | bool
  deriving DecidableEq

/-- `absl::StripAsciiWhitespace`.  (Called for the flags of type `int` and `bool`, convert.cc 40-46, trader.cc 35, 44.) -/
def strip (s : Text) : Text := ((s.dropWhile isSpace).reverse.dropWhile isSpace).reverse

/-- The value of a digit in base 10 or 16.  (Flags of type `int`, convert.cc 40-43, trader.cc 35.) -/
def digitIn (base : ℕ) (c : Char) : Option ℕ :=
  let v := if '0' ≤ c ∧ c ≤ '9' then c.toNat - '0'.toNat
    else if 'a' ≤ c ∧ c ≤ 'z' then c.toNat - 'a'.toNat + 10
    else if 'A' ≤ c ∧ c ≤ 'Z' then c.toNat - 'A'.toNat + 10
    else 36
  if v < base then some v else none

/-- The digits of a number.  The code stops as soon as the number is too large; here this is checked at the end, which is the
same, since the number only grows.  (Flags of type `int`, convert.cc 40-43, trader.cc 35.) -/
def digitsIn (base : ℕ) (acc : ℕ) : Text → Option ℕ
  | [] => some acc
  | c :: rest => match digitIn base c with
    | some d => digitsIn base (base * acc + d) rest
    | none => none

/-- At least one digit.  (Flags of type `int`, convert.cc 40-43, trader.cc 35.) -/
def numberIn (base : ℕ) (s : Text) : Option ℕ := if s = [] then none else digitsIn base 0 s

/-- `AbslParseFlag` for `int`: base 16 if the text starts with `0x`, otherwise base 10 with an optional sign.
(Flags of type `int`, convert.cc 40-43, trader.cc 35.) -/
def parseInt (s : Text) : Option ℤ :=
  let n : Option ℤ := match strip s with
    | '0' :: 'x' :: rest => (numberIn 16 rest).map (↑)
    | '0' :: 'X' :: rest => (numberIn 16 rest).map (↑)
    | '-' :: rest => (numberIn 10 rest).map (fun n => -(n : ℤ))
    | '+' :: rest => (numberIn 10 rest).map (↑)
    | rest => (numberIn 10 rest).map (↑)
  n.filter (fun n => decide (-2 ^ 31 ≤ n ∧ n < 2 ^ 31))

/-- `AbslParseFlag` for `bool`.  (Flags of type `bool`, convert.cc 46, trader.cc 44.) -/
def parseBool (s : Text) : Option Bool :=
  let s := (strip s).map Char.toLower
  if s = ['1'] ∨ s = ['t'] ∨ s = ['t', 'r', 'u', 'e'] ∨ s = ['y'] ∨ s = ['y', 'e', 's'] then some true
  else if s = ['0'] ∨ s = ['f'] ∨ s = ['f', 'a', 'l', 's', 'e'] ∨ s = ['n'] ∨ s = ['n', 'o'] then some false
  else none

/-- A declared flag: its name, its type, and what a text as its value does to the values of all flags (`none`: the text is not
a value of the type).  (`ABSL_FLAG`, convert.cc 14-47, trader.cc 20-44.) -/
structure FlagDef (S : Type) where
  name : Text
  kind : Kind
  set : Text → Option (S → S)

variable {S D : Type}

/-- A flag of type `std::string`.  (`ABSL_FLAG`, convert.cc 14-47, trader.cc 20-44.) -/
def stringFlag (name : String) (set : Text → S → S) : FlagDef S := ⟨name.toList, .string, fun s => some (set s)⟩

/-- A flag of type `int`.  (`ABSL_FLAG`, convert.cc 14-47, trader.cc 20-44.) -/
def intFlag (name : String) (set : ℤ → S → S) : FlagDef S := ⟨name.toList, .int, fun s => (parseInt s).map set⟩

/-- A flag of type `double`.  (`ABSL_FLAG`, convert.cc 14-47, trader.cc 20-44.) -/
def doubleFlag (atod : Text → Option D) (name : String) (set : D → S → S) : FlagDef S :=
  ⟨name.toList, .double, fun s => (atod s).map set⟩

/-- A flag of type `bool`.  (`ABSL_FLAG`, convert.cc 14-47, trader.cc 20-44.) -/
def boolFlag (name : String) (set : Bool → S → S) : FlagDef S := ⟨name.toList, .bool, fun s => (parseBool s).map set⟩

/-- The flags that abseil declares itself.  (Library code linked into convert.cc 427, trader.cc 155.) -/
def builtinNames : List Text :=
  ["flagfile".toList, "fromenv".toList, "tryfromenv".toList, "undefok".toList, "help".toList, "helpfull".toList,
   "helpshort".toList, "helppackage".toList, "helpon".toList, "helpmatch".toList, "version".toList, "only_check_args".toList]

/-- `absl::ConsumePrefix(&arg, "-")`.  (Library code called at convert.cc 427, trader.cc 155.) -/
def dropDash : Text → Text
  | '-' :: rest => rest
  | rest => rest

/-- Splits at the first `=` (without one there is no value).  (Library code called at convert.cc 427, trader.cc 155.) -/
def splitEq : Text → Text × Option Text
  | [] => ([], none)
  | c :: rest => if c = '=' then ([], some rest) else (c :: (splitEq rest).1, (splitEq rest).2)

/-- `SplitNameAndValue`, called behind the first dash: a second dash is dropped.
(Library code called at convert.cc 427, trader.cc 155.) -/
def splitNameAndValue (arg : Text) : Text × Option Text := splitEq (dropDash arg)

/-- `LocateFlag`: the flag of a name, or of a name without `no` in front (then the result is negative).
(Library code called at convert.cc 427, trader.cc 155.) -/
def locate (defs : List (FlagDef S)) (name : Text) : Option (FlagDef S × Bool) :=
  match defs.find? (fun d => decide (d.name = name)) with
  | some d => some (d, false)
  | none => match name with
    | 'n' :: 'o' :: rest => (defs.find? (fun d => decide (d.name = rest))).map (fun d => (d, true))
    | _ => none

/-- Whether a name is that of one of the flags of abseil, possibly negated.
(Library code called at convert.cc 427, trader.cc 155.) -/
def isBuiltin (name : Text) : Bool :=
  decide (name ∈ builtinNames) || match name with
    | 'n' :: 'o' :: rest => decide (rest ∈ builtinNames)
    | _ => false

/-- What an argument is: not a flag, the end of the flags, one of the flags of abseil, a mistake, a flag with its value, or a
flag whose value is the next argument.  (Library code called at convert.cc 427, trader.cc 155.) -/
inductive Step (S : Type)
  | positional
  | stop
  | builtin
  | mistake
  | assign (d : FlagDef S) (value : Text)
  | takesNext (d : FlagDef S)

/-- `DeduceFlagValue`, up to the reading of the next argument.  (Library code called at convert.cc 427, trader.cc 155.) -/
def deduce (d : FlagDef S) (negative : Bool) (value : Option Text) : Step S :=
  if d.kind = .bool then match value with
    | none => .assign d (if negative then ['0'] else ['1'])
    | some v => if v = [] ∨ negative = true then .mistake else .assign d v
  else if negative = true then .mistake
  else match value with
    | none => .takesNext d
    | some v => .assign d v

/-- Steps 50 to 90 of `ParseCommandLineImpl` for one argument.  (Library code called at convert.cc 427, trader.cc 155.) -/
def classify (defs : List (FlagDef S)) (arg : Text) : Step S :=
  match arg with
  | '-' :: c :: rest =>
    let (name, value) := splitNameAndValue (c :: rest)
    if name = [] then .stop
    else if isBuiltin name then .builtin
    else match locate defs name with
      | none => .mistake
      | some (d, negative) => deduce d negative value
  | _ => .positional

/-- Step 100: sets a flag; a text that is not a value of its type is a mistake.
(Library code called at convert.cc 427, trader.cc 155.) -/
def setFlag (d : FlagDef S) (value : Text) (st : S × Bool) : S × Bool :=
  match d.set value with
  | some f => (f st.1, st.2)
  | none => (st.1, false)

/-- The loop of `ParseCommandLineImpl` over the arguments behind the name of the program: the values of the flags, and whether
everything was understood so far.  (Library code called at convert.cc 427, trader.cc 155.) -/
def parseLoop (defs : List (FlagDef S)) : List Text → S × Bool → Option (S × Bool)
  | [], st => some st
  | arg :: rest, st => match classify defs arg with
    | .positional => parseLoop defs rest st
    | .stop => some st
    | .builtin => none
    | .mistake => parseLoop defs rest (st.1, false)
    | .assign d value => parseLoop defs rest (setFlag d value st)
    | .takesNext d => match rest with
      | [] => some (st.1, false)
      | value :: rest => parseLoop defs rest (setFlag d value st)

/-- `absl::ParseCommandLine` and then the rest of `main`: a mistake ends the program with status 1 before it does anything.
(convert.cc 427, trader.cc 155.) -/
def run (defs : List (FlagDef S)) (defaults : S) (main : S → Outcome) (args : List Text) (w : Files) : Option Outcome :=
  match parseLoop defs args (defaults, true) with
  | none => none
  | some (fl, true) => some (main fl)
  | some (_, false) => some ⟨w, [], .failure, []⟩

/-- The flags of convert.cc 14-47.  `--compress` has no effect without zlib (util/proto.h). -/
def convertDefs {F : Type} [FloatOps D] [Wide F D] (atod : Text → Option D) : List (FlagDef (Convert.Flags F)) :=
  [stringFlag "input_price_history_csv_file" (fun v fl => { fl with inputPriceCsv := v }),
   stringFlag "input_price_history_delimited_proto_file" (fun v fl => { fl with inputPriceProto := v }),
   stringFlag "output_price_history_delimited_proto_file" (fun v fl => { fl with outputPrice := v }),
   stringFlag "input_ohlc_history_csv_file" (fun v fl => { fl with inputOhlcCsv := v }),
   stringFlag "input_ohlc_history_delimited_proto_file" (fun v fl => { fl with inputOhlcProto := v }),
   stringFlag "output_ohlc_history_delimited_proto_file" (fun v fl => { fl with outputOhlc := v }),
   stringFlag "input_side_history_csv_file" (fun v fl => { fl with inputSideCsv := v }),
   stringFlag "output_side_history_delimited_proto_file" (fun v fl => { fl with outputSide := v }),
   stringFlag "start_time" (fun v fl => { fl with startTime := v }),
   stringFlag "end_time" (fun v fl => { fl with endTime := v }),
   doubleFlag atod "max_price_deviation_per_min" (fun v fl => { fl with maxDeviation := Wide.narrow v }),
   intFlag "sampling_rate_sec" (fun v fl => { fl with samplingRate := v }),
   intFlag "top_n_gaps" (fun v fl => { fl with topNGaps := v }),
   intFlag "last_n_outliers" (fun v fl => { fl with lastNOutliers := v }),
   boolFlag "compress" (fun _ fl => fl)]

/-- The flags of trader.cc 20-44. -/
def traderDefs (atod : Text → Option D) : List (FlagDef (TraderMain.Flags D)) :=
  [stringFlag "input_ohlc_history_delimited_proto_file" (fun v fl => { fl with inputOhlc := v }),
   stringFlag "input_side_history_delimited_proto_file" (fun v fl => { fl with inputSide := v }),
   stringFlag "output_exchange_log_file" (fun v fl => { fl with outputExchangeLog := v }),
   stringFlag "output_trader_log_file" (fun v fl => { fl with outputTraderLog := v }),
   stringFlag "trader" (fun v fl => { fl with trader := String.ofList v }),
   stringFlag "start_time" (fun v fl => { fl with startTime := v }),
   stringFlag "end_time" (fun v fl => { fl with endTime := v }),
   intFlag "evaluation_period_months" (fun v fl => { fl with months := v }),
   doubleFlag atod "start_base_balance" (fun v fl => { fl with startBase := v }),
   doubleFlag atod "start_quote_balance" (fun v fl => { fl with startQuote := v }),
   doubleFlag atod "market_liquidity" (fun v fl => { fl with marketLiquidity := v }),
   doubleFlag atod "max_volume_ratio" (fun v fl => { fl with maxVolumeRatio := v }),
   boolFlag "evaluate_batch" (fun v fl => { fl with evaluateBatch := v })]

/-- The program convert, from its command line (without the name of the program).  (convert.cc 422-559 `main`.) -/
def convert {F : Type} [FloatOps F] [Libm F] [FloatOps D] [Wide F D] (atod : Text → Option D) (env : Convert.Env F) (args : List Text)
    (w : Files) : Option Outcome :=
  run (convertDefs atod) (Convert.defaultFlags (D := D)) (fun fl => Convert.main env fl w) args w

/-- The program trader, from its command line (without the name of the program).  (trader.cc 150-243 `main`.) -/
def trader {F : Type} [FloatOps F] [Libm F] [FloatOps D] [Libm D] [Wide F D] (atod : Text → Option D) (env : TraderMain.Env F)
    (args : List Text) (w : Files) : Option Outcome :=
  run (traderDefs atod) TraderMain.defaultFlags (fun fl => TraderMain.main env fl w) args w

end Verif.CommandLine
