import Verif.Model.Traders
import Verif.Model.Convert
import Verif.Num.IEEE

/-!
# logging/csv_logger: the CSV logs
-/

namespace Verif
open FloatOps

namespace Logger

/-- `%s,%s,…`: the fields separated by commas.  (logging/csv_logger.cc 11-42.) -/
def joinFields (fields : List Text) : Text := [','].intercalate fields

section
variable {F : Type}

/-- logging/csv_logger.cc 10-18 `OhlcTickToCsv`. -/
def tickCsv (fmt : Format F) (t : OhlcTick F) : Text :=
  joinFields [(fmt.int t.ts).toList, (fmt.fixed 3 t.opn).toList, (fmt.fixed 3 t.high).toList, (fmt.fixed 3 t.low).toList,
    (fmt.fixed 3 t.close).toList, (fmt.fixed 3 t.volume).toList]

/-- logging/csv_logger.cc 21-26 `AccountToCsv`. -/
def accountCsv (fmt : Format F) (a : Account F) : Text :=
  joinFields [(fmt.fixed 3 a.baseBalance).toList, (fmt.fixed 3 a.quoteBalance).toList, (fmt.fixed 3 a.totalFee).toList]

/-- `Order::Type_Name(order.type())`; an unset type reads as `MARKET` (base/base.proto 79-86). -/
def typeName : Option OrderType → Text
  | none => "MARKET".toList
  | some .market => "MARKET".toList
  | some .stop => "STOP".toList
  | some .limit => "LIMIT".toList

/-- `Order::Side_Name(order.side())`; an unset side reads as `BUY` (base/base.proto 89-93). -/
def sideName : Option Side → Text
  | none => "BUY".toList
  | some .buy => "BUY".toList
  | some .sell => "SELL".toList

variable [FloatOps F]

/-- logging/csv_logger.cc 29-42 `OrderToCsv`. -/
def orderCsv (fmt : Format F) (o : Order F) : Text :=
  let price := o.price.getD (lit F 0)
  joinFields [typeName o.type, sideName o.side,
    (match o.amount with | .base a => (fmt.fixed 3 a).toList | _ => []),
    (match o.amount with | .quote a => (fmt.fixed 3 a).toList | _ => []),
    if price >. lit F 0 then (fmt.fixed 3 price).toList else []]

/-- logging/csv_logger.cc 44 `EmptyOrderToCsv`. -/
def emptyOrderCsv : Text := ",,,,".toList

/-- logging/csv_logger.h 11-38: the two streams of a `CsvLogger`, as the characters written so far; `none` is `nullptr`. -/
structure CsvLogger where
  exchange : Option Text
  trader : Option Text
  deriving DecidableEq

/-- logging/csv_logger.cc 47-53 `LogExchangeState(ohlc_tick, account)`. -/
def CsvLogger.logTick (fmt : Format F) (l : CsvLogger) (t : OhlcTick F) (a : Account F) : CsvLogger :=
  { l with exchange := l.exchange.map (· ++ (joinFields [tickCsv fmt t, accountCsv fmt a, emptyOrderCsv] ++ ['\n'])) }

/-- logging/csv_logger.cc 55-61 `LogExchangeState(ohlc_tick, account, order)`. -/
def CsvLogger.logOrder (fmt : Format F) (l : CsvLogger) (t : OhlcTick F) (a : Account F) (o : Order F) : CsvLogger :=
  { l with exchange := l.exchange.map (· ++ (joinFields [tickCsv fmt t, accountCsv fmt a, orderCsv fmt o] ++ ['\n'])) }

omit [FloatOps F] in
/-- logging/csv_logger.cc 63-67 `LogTraderState`. -/
def CsvLogger.logTrader (l : CsvLogger) (state : String) : CsvLogger :=
  { l with trader := l.trader.map (· ++ (state.toList ++ ['\n'])) }

/-- The logger during a back-test: it hears the logging calls of the trace.  (eval/eval.cc 84, 96, 113.) -/
def CsvLogger.hear (fmt : Format F) (l : CsvLogger) : Event F → CsvLogger
  | .tickRow t a => l.logTick fmt t a
  | .orderRow t a o => l.logOrder fmt t a o
  | .traderRow s => l.logTrader s
  | .exec .. => l
  | .update .. => l

/-- The logger after a back-test with the given trace of calls.  (eval/eval.cc 38-141 with the logger of logging/csv_logger.cc.) -/
def CsvLogger.after (fmt : Format F) (l : CsvLogger) (trace : List (Event F)) : CsvLogger := trace.foldl (·.hear fmt) l

end

/-! ## `absl::StrFormat` -/

/-- `%.<n>f` of a number with the given sign and absolute value: the absolute value is rounded to `n` decimals, ties to
even (what abseil does; the result is exact).
(Library code called at logging/csv_logger.cc 11-42, traders/rebalancing_trader.cc 74, traders/stop_trader.cc 92.) -/
def fixedText (n : ℕ) (neg : Bool) (x : ℚ) : Text :=
  let m := (rne (x * 10 ^ n)).toNat
  let digits := Nat.toDigits 10 (m % 10 ^ n)
  (if neg then ['-'] else []) ++ Nat.toDigits 10 (m / 10 ^ n) ++
    (if n = 0 then [] else '.' :: (List.replicate (n - digits.length) '0' ++ digits))

/-- `%.<n>f` of a floating point number.
(Library code called at logging/csv_logger.cc 11-42, traders/rebalancing_trader.cc 74, traders/stop_trader.cc 92.) -/
def printFixed {f : Fmt} (n : ℕ) : Fl f → Text
  | .nan => "nan".toList
  | .inf neg => if neg then "-inf".toList else "inf".toList
  | .negZero => fixedText n true 0
  | .fin q => fixedText n (decide (q < 0)) |q|

/-- `%d` and `%.<n>f` as abseil prints them.
(Library code called at logging/csv_logger.cc 11-42, traders/rebalancing_trader.cc 74, traders/stop_trader.cc 92.) -/
def abslFormat (f : Fmt) : Format (Fl f) where
  int x := String.ofList (Convert.printInt x)
  fixed n x := String.ofList (printFixed n x)

end Logger
end Verif
