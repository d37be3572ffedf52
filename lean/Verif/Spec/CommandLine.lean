import Verif.Model.CommandLine
import Verif.Spec.TimeText

/-!
# Specification: how a command line is written, and what it says (C107)
-/

namespace Verif.Spec
open Verif.Convert
open Verif.CommandLine (Kind)

/-- Names and types of the flags of a program. -/
abbrev Registry := List (Text × Kind)

/-- One dash or two. -/
def Dashes (d : Text) : Prop := d = ['-'] ∨ d = ['-', '-']

/-- An argument that is not a flag: it does not start with a dash, or is nothing but a dash. -/
def Positional (arg : Text) : Prop := arg = ['-'] ∨ ∀ rest, arg ≠ '-' :: rest

/-- An argument behind which there are no more flags: `--`, and an argument with an empty name before `=`. -/
def EndOfFlags (arg : Text) : Prop := arg = ['-', '-'] ∨ ∃ d value, Dashes d ∧ arg = d ++ '=' :: value

/-- `Spelled reg args settings`: the arguments set these flags, in this order, to these texts.

* `--name=value` sets a flag (a text may be empty, the value of a switch must not be),
* `--name value` sets a flag that is not a switch,
* `--name` and `--noname` set a switch;
* other arguments have no effect. -/
inductive Spelled (reg : Registry) : List Text → List (Text × Text) → Prop
  | nil : Spelled reg [] []
  | stop {arg : Text} {rest : List Text} (h : EndOfFlags arg) : Spelled reg (arg :: rest) []
  | positional {arg : Text} {rest : List Text} {l : List (Text × Text)} (h : Positional arg) (hr : Spelled reg rest l) :
      Spelled reg (arg :: rest) l
  | assign {d name value : Text} {k : Kind} {rest : List Text} {l : List (Text × Text)} (hd : Dashes d) (hn : (name, k) ∈ reg)
      (hv : k = .bool → value ≠ []) (hr : Spelled reg rest l) :
      Spelled reg ((d ++ name ++ '=' :: value) :: rest) ((name, value) :: l)
  | next {d name value : Text} {k : Kind} {rest : List Text} {l : List (Text × Text)} (hd : Dashes d) (hn : (name, k) ∈ reg)
      (hk : k ≠ .bool) (hr : Spelled reg rest l) : Spelled reg ((d ++ name) :: value :: rest) ((name, value) :: l)
  | on {d name : Text} {rest : List Text} {l : List (Text × Text)} (hd : Dashes d) (hn : (name, Kind.bool) ∈ reg)
      (hr : Spelled reg rest l) : Spelled reg ((d ++ name) :: rest) ((name, ['1']) :: l)
  | off {d name : Text} {rest : List Text} {l : List (Text × Text)} (hd : Dashes d) (hn : (name, Kind.bool) ∈ reg)
      (hr : Spelled reg rest l) : Spelled reg ((d ++ 'n' :: 'o' :: name) :: rest) ((name, ['0']) :: l)

/-- The text a flag was set to last. -/
def lastFor (settings : List (Text × Text)) (name : String) : Option Text :=
  ((settings.filter (fun s => decide (s.1 = name.toList))).getLast?).map (·.2)

/-- The number that a sequence of decimal or hexadecimal digits stands for. -/
def numeral (base : ℕ) (ds : Text) : ℕ :=
  ds.foldl (fun n c => base * n + (if c.isDigit then c.toNat - 48 else c.toLower.toNat - 87)) 0

/-- A decimal digit, or a letter from a to f. -/
def HexDigit (c : Char) : Prop := c.isDigit = true ∨ 'a' ≤ c ∧ c ≤ 'f' ∨ 'A' ≤ c ∧ c ≤ 'F'

/-- How the value of a flag of type `int` is written: decimal digits, possibly with a sign, or `0x` and hexadecimal digits;
with blanks around it. -/
def IntText (s : Text) (n : ℤ) : Prop :=
  (-2 ^ 31 ≤ n ∧ n < 2 ^ 31) ∧ ∃ b t b', Blank b ∧ Blank b' ∧ s = b ++ t ++ b' ∧
    ((∃ ds, ds ≠ [] ∧ (∀ c ∈ ds, c.isDigit = true) ∧
        ((t = ds ∨ t = '+' :: ds) ∧ n = numeral 10 ds ∨ t = '-' :: ds ∧ n = -(numeral 10 ds : ℤ))) ∨
      ∃ x ds, (x = 'x' ∨ x = 'X') ∧ ds ≠ [] ∧ (∀ c ∈ ds, HexDigit c) ∧ t = '0' :: x :: ds ∧ n = numeral 16 ds)

/-- How the value of a switch is written. -/
def SwitchText (s : Text) (on : Bool) : Prop :=
  ∃ b t b', Blank b ∧ Blank b' ∧ s = b ++ t ++ b' ∧
    String.ofList (t.map Char.toLower) ∈
      (if on then ["1", "t", "true", "y", "yes"] else ["0", "f", "false", "n", "no"])

/-- The text is a value of the type. -/
def ValueText {D : Type} (atod : Text → Option D) (k : Kind) (s : Text) : Prop :=
  match k with
  | .string => True
  | .int => ∃ n, IntText s n
  | .double => ∃ x, atod s = some x
  | .bool => ∃ b, SwitchText s b

/-- All settings are values of the types of their flags - also those that are overridden later. -/
def ValidSettings {D : Type} (atod : Text → Option D) (reg : Registry) (settings : List (Text × Text)) : Prop :=
  ∀ s ∈ settings, ∃ k, (s.1, k) ∈ reg ∧ ValueText atod k s.2

/-- The value of a flag: what the last setting says, otherwise the default. -/
def FlagValue {V : Type} (settings : List (Text × Text)) (name : String) (means : Text → V → Prop) (default v : V) : Prop :=
  (∀ s, lastFor settings name = some s → means s v) ∧ (lastFor settings name = none → v = default)

/-- The flags of trader (README and trader.cc). -/
def traderRegistry : Registry :=
  [("input_ohlc_history_delimited_proto_file".toList, .string), ("input_side_history_delimited_proto_file".toList, .string),
   ("output_exchange_log_file".toList, .string), ("output_trader_log_file".toList, .string), ("trader".toList, .string),
   ("start_time".toList, .string), ("end_time".toList, .string), ("evaluation_period_months".toList, .int),
   ("start_base_balance".toList, .double), ("start_quote_balance".toList, .double), ("market_liquidity".toList, .double),
   ("max_volume_ratio".toList, .double), ("evaluate_batch".toList, .bool)]

/-- What the settings say about the flags of trader. -/
structure TraderFlags {D : Type} [FloatOps D] (atod : Text → Option D) (settings : List (Text × Text)) (fl : TraderMain.Flags D) :
    Prop where
  inputOhlc : FlagValue settings "input_ohlc_history_delimited_proto_file" (fun s v => v = s) [] fl.inputOhlc
  inputSide : FlagValue settings "input_side_history_delimited_proto_file" (fun s v => v = s) [] fl.inputSide
  exchange : FlagValue settings "output_exchange_log_file" (fun s v => v = s) [] fl.outputExchangeLog
  traderLog : FlagValue settings "output_trader_log_file" (fun s v => v = s) [] fl.outputTraderLog
  trader : FlagValue settings "trader" (fun s v => v.toList = s) "stop" fl.trader
  startTime : FlagValue settings "start_time" (fun s v => v = s) "2017-01-01".toList fl.startTime
  endTime : FlagValue settings "end_time" (fun s v => v = s) "2021-01-01".toList fl.endTime
  months : FlagValue settings "evaluation_period_months" IntText 0 fl.months
  startBase : FlagValue settings "start_base_balance" (fun s v => atod s = some v) (FloatOps.lit D 1) fl.startBase
  startQuote : FlagValue settings "start_quote_balance" (fun s v => atod s = some v) (FloatOps.lit D 0) fl.startQuote
  liquidity : FlagValue settings "market_liquidity" (fun s v => atod s = some v) (FloatOps.lit D (1 / 2)) fl.marketLiquidity
  volume : FlagValue settings "max_volume_ratio" (fun s v => atod s = some v) (FloatOps.lit D (1 / 2)) fl.maxVolumeRatio
  batch : FlagValue settings "evaluate_batch" SwitchText false fl.evaluateBatch

/-- The flags of convert (README and convert.cc). -/
def convertRegistry : Registry :=
  [("input_price_history_csv_file".toList, .string), ("input_price_history_delimited_proto_file".toList, .string),
   ("output_price_history_delimited_proto_file".toList, .string), ("input_ohlc_history_csv_file".toList, .string),
   ("input_ohlc_history_delimited_proto_file".toList, .string), ("output_ohlc_history_delimited_proto_file".toList, .string),
   ("input_side_history_csv_file".toList, .string), ("output_side_history_delimited_proto_file".toList, .string),
   ("start_time".toList, .string), ("end_time".toList, .string), ("max_price_deviation_per_min".toList, .double),
   ("sampling_rate_sec".toList, .int), ("top_n_gaps".toList, .int), ("last_n_outliers".toList, .int), ("compress".toList, .bool)]

/-- What the settings say about the flags of convert (`--compress` has no effect). The maximal deviation is a `double`. -/
structure ConvertFlags {F D : Type} [FloatOps D] [Wide F D] (atod : Text → Option D) (settings : List (Text × Text))
    (fl : Convert.Flags F) : Prop where
  priceCsv : FlagValue settings "input_price_history_csv_file" (fun s v => v = s) [] fl.inputPriceCsv
  priceProto : FlagValue settings "input_price_history_delimited_proto_file" (fun s v => v = s) [] fl.inputPriceProto
  price : FlagValue settings "output_price_history_delimited_proto_file" (fun s v => v = s) [] fl.outputPrice
  ohlcCsv : FlagValue settings "input_ohlc_history_csv_file" (fun s v => v = s) [] fl.inputOhlcCsv
  ohlcProto : FlagValue settings "input_ohlc_history_delimited_proto_file" (fun s v => v = s) [] fl.inputOhlcProto
  ohlc : FlagValue settings "output_ohlc_history_delimited_proto_file" (fun s v => v = s) [] fl.outputOhlc
  sideCsv : FlagValue settings "input_side_history_csv_file" (fun s v => v = s) [] fl.inputSideCsv
  side : FlagValue settings "output_side_history_delimited_proto_file" (fun s v => v = s) [] fl.outputSide
  startTime : FlagValue settings "start_time" (fun s v => v = s) "2017-01-01".toList fl.startTime
  endTime : FlagValue settings "end_time" (fun s v => v = s) "2021-01-01".toList fl.endTime
  deviation : FlagValue settings "max_price_deviation_per_min" (fun s v => ∃ x, atod s = some x ∧ v = Wide.narrow x)
    (Wide.narrow (FloatOps.lit D (5 / 100))) fl.maxDeviation
  rate : FlagValue settings "sampling_rate_sec" IntText 300 fl.samplingRate
  gaps : FlagValue settings "top_n_gaps" IntText 50 fl.topNGaps
  outliers : FlagValue settings "last_n_outliers" IntText 20 fl.lastNOutliers

/-- An argument that could be about one of the flags that abseil declares itself. -/
def NamesBuiltin (arg : Text) : Prop :=
  ∃ d no name rest, Dashes d ∧ (no = [] ∨ no = ['n', 'o']) ∧ name ∈ CommandLine.builtinNames ∧ arg = d ++ no ++ name ++ rest ∧
    (rest = [] ∨ ∃ v, rest = '=' :: v)

end Verif.Spec
