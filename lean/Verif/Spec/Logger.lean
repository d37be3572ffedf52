import Verif.Spec.Exec
import Verif.Spec.Convert
import Verif.Model.Logger

/-!
# Specification vocabulary for the CSV logs (C70, C75)
-/

namespace Verif.Spec
open Verif FloatOps

section
variable {F : Type}

/-- Printed numbers contain neither a comma nor a newline. -/
structure PlainFormat (fmt : Format F) : Prop where
  int : ∀ x, ∀ c ∈ (fmt.int x).toList, c ≠ ',' ∧ c ≠ '\n'
  fixed : ∀ n x, ∀ c ∈ (fmt.fixed n x).toList, c ≠ ',' ∧ c ≠ '\n'

/-- The columns of a line: what stands between its commas. -/
def columns (line : Text) : List Text := line.splitOn ','

/-- The calls of the exchange log, in order: tick, account, and the order if one was executed. -/
def exchangeCalls (trace : List (Event F)) : List (OhlcTick F × Account F × Option (Order F)) :=
  trace.filterMap fun e => match e with
    | .tickRow t a => some (t, a, none)
    | .orderRow t a o => some (t, a, some o)
    | _ => none

variable [FloatOps F]

/-- The five columns of an order: type and side (an unset one reads as the first), base amount, quote amount (one of them is
empty), and the price, empty unless it is positive. -/
def orderColumns (fmt : Format F) (o : Order F) : List Text :=
  [match o.type with | some .stop => "STOP".toList | some .limit => "LIMIT".toList | _ => "MARKET".toList,
    match o.side with | some .sell => "SELL".toList | _ => "BUY".toList,
    match o.amount with | .base x => (fmt.fixed 3 x).toList | .quote _ => [] | .none => [],
    match o.amount with | .base _ => [] | .quote x => (fmt.fixed 3 x).toList | .none => [],
    if lit F 0 <. o.price.getD (lit F 0) then (fmt.fixed 3 (o.price.getD (lit F 0))).toList else []]

/-- The 14 columns of a row of the exchange log: timestamp, open, high, low, close, volume; base balance, quote balance,
total fee; and those of the executed order, empty if the row reports no order. -/
def exchangeColumns (fmt : Format F) (call : OhlcTick F × Account F × Option (Order F)) : List Text :=
  [(fmt.int call.1.ts).toList] ++
  [call.1.opn, call.1.high, call.1.low, call.1.close, call.1.volume,
    call.2.1.baseBalance, call.2.1.quoteBalance, call.2.1.totalFee].map (fun x => (fmt.fixed 3 x).toList) ++
  match call.2.2 with
  | some o => orderColumns fmt o
  | none => [[], [], [], [], []]

/-- A line of the exchange log: its columns separated by commas. -/
def exchangeLine (fmt : Format F) (call : OhlcTick F × Account F × Option (Order F)) : Text :=
  [','].intercalate (exchangeColumns fmt call)

end

/-- The text is a decimal number with `n` decimals, and `v` is its value. -/
def ShowsDecimal (n : ℕ) (text : Text) (v : ℚ) : Prop :=
  ∃ (neg : Bool) (whole frac : Text), text = (if neg then ['-'] else []) ++ whole ++ '.' :: frac ∧
    whole ≠ [] ∧ (∀ c ∈ whole, c.isDigit) ∧ frac.length = n ∧ (∀ c ∈ frac, c.isDigit) ∧
    v = (if neg then -1 else 1) * ((Nat.ofDigitChars 10 whole 0 : ℕ) + (Nat.ofDigitChars 10 frac 0 : ℕ) / 10 ^ n)

/-- Two decimal digits. -/
def twoDigits (n : ℕ) : Text := [Nat.digitChar (n / 10), Nat.digitChar (n % 10)]

end Verif.Spec
