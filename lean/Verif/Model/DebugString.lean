import Verif.Model.Scanf
import Verif.Model.TraderMain

/-!
# The text of the configurations that trader.cc prints, and of the records that convert.cc complains about

`AccountConfig::DebugString` and `EvaluationConfig::DebugString` (protobuf 3.17.3) as called at trader.cc 159 and 179, for the messages
that trader.cc builds, in which all fields but `fast_eval` are set.  Floats are printed by `FloatToBuffer`: with six significant
digits if they read back as the same value, otherwise with nine.

`PriceRecord::DebugString`, `OhlcTick::DebugString` and `SideInputRecord::DebugString` are those of complete records, in which all
fields are set, as convert.cc 104-107, 162-168, 215-218 and base/history.cc 154-181 make them.  Messages from elsewhere in which
fields are missing, or that hold unknown fields, are printed differently; this is not modelled.
-/

namespace Verif.DebugString
open Verif.Convert

/-- `%.{P}g`: the significant digits of a positive number as an integer of `P` digits, and the decimal exponent of the first digit.
A number that rounds up to the next power of ten gets the larger exponent.  (Library code called at trader.cc 159.) -/
def roundDigits (P : ℕ) (q : ℚ) : ℕ × ℤ :=
  let k := Int.log 10 q
  let n := (rne (q / (10 : ℚ) ^ (k - (P - 1)))).toNat
  if n = 10 ^ P then (10 ^ (P - 1), k + 1) else (n, k)

/-- Digits without zeros at the end.  (Library code called at trader.cc 159.) -/
def stripZeros (ds : Text) : Text := (ds.reverse.dropWhile (· = '0')).reverse

/-- A number with a decimal point; without zeros at the end, and without the point if no digits follow.
(Library code called at trader.cc 159.) -/
def withPoint (whole frac : Text) : Text :=
  if stripZeros frac = [] then whole else whole ++ '.' :: stripZeros frac

/-- An exponent: a sign and at least two digits.  (Library code called at trader.cc 159.) -/
def exponentText (k : ℤ) : Text :=
  'e' :: (if k < 0 then '-' else '+') ::
    (if k.natAbs < 10 then '0' :: Nat.toDigits 10 k.natAbs else Nat.toDigits 10 k.natAbs)

/-- `%.{P}g` for a positive number.  (Library code called at trader.cc 159.) -/
def formatG (P : ℕ) (q : ℚ) : Text :=
  let r := roundDigits P q
  let ds := Nat.toDigits 10 r.1
  if r.2 < -4 ∨ (P : ℤ) ≤ r.2 then withPoint (ds.take 1) (ds.drop 1) ++ exponentText r.2
  else if r.2 < 0 then withPoint ['0'] (List.replicate (-r.2 - 1).toNat '0' ++ ds)
  else withPoint (ds.take (r.2 + 1).toNat) (ds.drop (r.2 + 1).toNat)

/-- `%.{P}g`; `FloatToBuffer` treats infinities and `nan` itself.  (Library code called at trader.cc 159.) -/
def printG (P : ℕ) (x : F32) : Text :=
  match x with
  | .fin q => if q = 0 then ['0'] else if q < 0 then '-' :: formatG P (-q) else formatG P q
  | .negZero => ['-', '0']
  | .inf false => "inf".toList
  | .inf true => "-inf".toList
  | .nan => "nan".toList

/-- protobuf's `FloatToBuffer`.  `safe_strtof` also fails if `strtof` sets `errno`, which it may do for very small numbers
(`erange`).  (Library code called at trader.cc 159.) -/
def floatText (erange : Text → Bool) (x : F32) : Text :=
  match x with
  | .inf false => "inf".toList
  | .inf true => "-inf".toList
  | .nan => "nan".toList
  | x =>
    let t := printG 6 x
    match strtof (f := binary32) t with
    | some (y, []) => if !erange t && FloatOps.beq y x then t else printG 9 x
    | _ => printG 9 x

/-- A field of a message.  (Library code called at trader.cc 159, 179.) -/
def field (name : String) (value : Text) : Text := name.toList ++ ": ".toList ++ value

/-- The lines of a `FeeConfig` inside of another message.  (base/base.proto 44-52; called at trader.cc 159.) -/
def feeLines (erange : Text → Bool) (name : String) (c : FeeConfig F32) : List Text :=
  [name.toList ++ " {".toList,
   "  ".toList ++ field "relative_fee" (floatText erange c.relativeFee),
   "  ".toList ++ field "fixed_fee" (floatText erange c.fixedFee),
   "  ".toList ++ field "minimum_fee" (floatText erange c.minimumFee),
   "}".toList]

/-- `AccountConfig::DebugString` (base/base.proto 55-85), all fields set, as lines; the text ends with a newline, so the last line is
empty.  (trader.cc 159.) -/
def accountLines (erange : Text → Bool) (c : AccountConfig F32) : List Text :=
  [field "start_base_balance" (floatText erange c.startBase),
   field "start_quote_balance" (floatText erange c.startQuote),
   field "base_unit" (floatText erange c.baseUnit),
   field "quote_unit" (floatText erange c.quoteUnit)] ++
  feeLines erange "market_order_fee_config" c.marketFee ++
  feeLines erange "stop_order_fee_config" c.stopFee ++
  feeLines erange "limit_order_fee_config" c.limitFee ++
  [field "market_liquidity" (floatText erange c.marketLiquidity),
   field "max_volume_ratio" (floatText erange c.maxVolumeRatio),
   []]

/-- `EvaluationConfig::DebugString` (eval/eval.proto 42-53), without `fast_eval`, which is not set.  (trader.cc 174-179.) -/
def evalLines (c : EvalConfig) : List Text :=
  [field "start_timestamp_sec" (printInt c.start),
   field "end_timestamp_sec" (printInt c.stop),
   field "evaluation_period_months" (printInt c.months),
   []]

/-- `PriceRecord::DebugString` (base/base.proto 8-15), all fields set.  (Called at convert.cc 262, 267 and util/proto.h 124.) -/
def priceLines (erange : Text → Bool) (r : PriceRecord F32) : List Text :=
  [field "timestamp_sec" (printInt r.ts),
   field "price" (floatText erange r.price),
   field "volume" (floatText erange r.volume),
   []]

/-- `OhlcTick::DebugString` (base/base.proto 19-32), all fields set.  (Called at convert.cc 262, 267 and util/proto.h 124.) -/
def ohlcLines (erange : Text → Bool) (t : OhlcTick F32) : List Text :=
  [field "timestamp_sec" (printInt t.ts),
   field "open" (floatText erange t.opn),
   field "high" (floatText erange t.high),
   field "low" (floatText erange t.low),
   field "close" (floatText erange t.close),
   field "volume" (floatText erange t.volume),
   []]

/-- `SideInputRecord::DebugString` (base/base.proto 36-42), the timestamp set; `signal` is a repeated field, printed once for each
value.  (Called at util/proto.h 124.) -/
def sideLines (erange : Text → Bool) (r : SideInputRecord F32) : List Text :=
  field "timestamp_sec" (printInt r.ts) :: r.signals.map (fun x => field "signal" (floatText erange x)) ++ [[]]

end Verif.DebugString
