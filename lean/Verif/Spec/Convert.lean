import Verif.Spec.History
import Verif.Model.Convert

/-!
# Specification vocabulary for loading histories (C65-C67, C69)
-/

namespace Verif.Spec
open Verif FloatOps

section
variable {R : Type}

/-- The records of the period `[start, stop)` (a bound that is not positive is no bound), given the records of a file in
order: records before the start are left out, and reading ends at the first other record at or past the end. -/
def periodOf (ts : R → ℤ) (start stop : ℤ) (rs : List R) : List R :=
  (rs.filter (fun r => decide (start ≤ 0 ∨ start ≤ ts r))).takeWhile (fun r => decide (stop ≤ 0 ∨ ts r < stop))

/-- A history that may be loaded: positive timestamps, inside the window, never decreasing, every record good. -/
structure Loadable (ts : R → ℤ) (good : R → Prop) (start stop : ℤ) (rs : List R) : Prop where
  positive : ∀ r ∈ rs, 0 < ts r
  window : ∀ r ∈ rs, InWindow start stop (ts r)
  sorted : SortedBy ts rs
  each : ∀ r ∈ rs, good r

end

section
variable {F : Type} [FloatOps F]

/-- A price record that passes the checks: the price is not `≤ 0`, the volume is not `< 0` (a NaN passes). -/
structure GoodPrice (r : PriceRecord F) : Prop where
  price : (r.price <=. lit F 0) = false
  volume : (r.volume <. lit F 0) = false

/-- A tick that passes the checks: no price is `≤ 0`, the low is above no other price, the high is below no other price,
the volume is not `< 0` (a NaN passes). -/
structure GoodTick (t : OhlcTick F) : Prop where
  positive : ∀ x ∈ [t.opn, t.high, t.low, t.close], (x <=. lit F 0) = false
  low : ∀ x ∈ [t.opn, t.high, t.close], (t.low >. x) = false
  high : ∀ x ∈ [t.opn, t.close], (t.high <. x) = false
  volume : (t.volume <. lit F 0) = false

omit [FloatOps F] in
/-- What may follow a number: the end of the line, a comma, a blank or a carriage return. -/
def Ends (rest : Text) : Prop := ∀ c, rest.head? = some c → c = ',' ∨ c = ' ' ∨ c = '\r'

omit [FloatOps F] in
/-- `text` is read as the number `x` by `%f`. -/
structure NumberText (sc : Convert.Scanner F) (x : F) (text : Text) : Prop where
  read : ∀ rest, Ends rest → sc.scan (text ++ rest) = some (x, rest)
  plain : ∀ c ∈ text, c ≠ '\x00' ∧ c ≠ '\n'

omit [FloatOps F] in
/-- `text` is a list of numbers, each preceded by a comma, read as `xs`; more characters may follow. -/
inductive NumbersText (sc : Convert.Scanner F) : List F → Text → Prop
  | nil (rest : Text) (he : Ends rest) (plain : ∀ c ∈ rest, c ≠ '\x00' ∧ c ≠ '\n') : NumbersText sc [] rest
  | cons {x : F} {xs : List F} {text rest : Text} (hx : NumberText sc x text) (hr : NumbersText sc xs rest) :
      NumbersText sc (x :: xs) (',' :: text ++ rest)

/-- Range of `int64_t`. -/
def IsInt64 (t : ℤ) : Prop := -2 ^ 63 ≤ t ∧ t < 2 ^ 63

omit [FloatOps F] in
/-- A line that spells out a price record: `timestamp,price,volume` (more columns may follow). -/
def PriceLine (sc : Convert.Scanner F) (line : Text) (r : PriceRecord F) : Prop :=
  IsInt64 r.ts ∧ ∃ rest, NumbersText sc [r.price, r.volume] rest ∧ line = Convert.printInt r.ts ++ rest

omit [FloatOps F] in
/-- A line that spells out a tick: `timestamp,open,high,low,close,volume` (more columns may follow). -/
def OhlcLine (sc : Convert.Scanner F) (line : Text) (t : OhlcTick F) : Prop :=
  IsInt64 t.ts ∧ ∃ rest, NumbersText sc [t.opn, t.high, t.low, t.close, t.volume] rest ∧ line = Convert.printInt t.ts ++ rest

omit [FloatOps F] in
/-- `text` is a list of signals, each preceded by a comma; `>>` (which sees blanks in place of the commas) reads them as
`xs` and then fails. -/
inductive SignalsText (sc : Convert.Scanner F) : List F → Text → Prop
  | nil (rest : Text) (he : Ends rest) (hn : '\n' ∉ rest)
      (hf : sc.stream (rest.map (fun c => if c = ',' then ' ' else c)) = none) : SignalsText sc [] rest
  | cons {x : F} {xs : List F} {text rest : Text} (hp : '\n' ∉ text ∧ ',' ∉ text)
      (hx : ∀ rest, Ends rest → sc.stream (' ' :: text ++ rest) = some (x, rest)) (hr : SignalsText sc xs rest) :
      SignalsText sc (x :: xs) (',' :: text ++ rest)

omit [FloatOps F] in
/-- A line that spells out a side record: `timestamp,signal,…,signal`. -/
def SideLine (sc : Convert.Scanner F) (line : Text) (r : SideInputRecord F) : Prop :=
  IsInt64 r.ts ∧ ∃ rest, SignalsText sc r.signals rest ∧ line = Convert.printInt r.ts ++ rest

omit [FloatOps F] in
/-- A side history that may be loaded: positive, strictly increasing timestamps inside the window, and the same number of
signals everywhere, at least one. -/
structure LoadableSide (start stop : ℤ) (rs : List (SideInputRecord F)) : Prop where
  positive : ∀ r ∈ rs, 0 < r.ts
  window : ∀ r ∈ rs, InWindow start stop r.ts
  increasing : rs.Pairwise (fun a b => a.ts < b.ts)
  signals : ∃ n, 0 < n ∧ ∀ r ∈ rs, r.signals.length = n

/-- A line in which not even a timestamp can be read (such as a header or an empty line): after blanks and an optional
sign, there is no digit. -/
def NoTimestamp (line : Text) : Prop := Convert.scanInt (Convert.cString line) = none

/-- The text of a file with these lines. -/
def textOf (lines : List Text) : Text := (lines.map (· ++ ['\n'])).flatten

end
end Verif.Spec
