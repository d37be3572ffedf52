import Verif.Spec.Convert
import Verif.Num.Nearest

/-!
# Specification vocabulary for reading numbers (C105)
-/

namespace Verif.Spec
open Verif

/-- A decimal number as it is written: a sign (`some true` is a minus, `some false` a plus), digits, digits after a point, and an
exponent: its letter, its sign and its digits. -/
structure Numeral where
  sign : Option Bool
  whole : Text
  frac : Option Text
  exponent : Option (Char × Option Bool × Text)

/-- A sign as it is written. -/
def signText : Option Bool → Text
  | none => []
  | some true => ['-']
  | some false => ['+']

namespace Numeral

/-- There is a digit before the exponent, and one in the exponent if there is any. -/
structure WellFormed (n : Numeral) : Prop where
  whole : ∀ c ∈ n.whole, c.isDigit
  frac : ∀ ds, n.frac = some ds → ∀ c ∈ ds, c.isDigit
  some_digit : n.whole ++ n.frac.getD [] ≠ []
  exponent : ∀ mark sign ds, n.exponent = some (mark, sign, ds) → (mark = 'e' ∨ mark = 'E') ∧ ds ≠ [] ∧ ∀ c ∈ ds, c.isDigit

/-- The digits after the point, with the point. -/
def fracText (n : Numeral) : Text :=
  match n.frac with
  | none => []
  | some ds => '.' :: ds

/-- The exponent, with its letter. -/
def exponentText (n : Numeral) : Text :=
  match n.exponent with
  | none => []
  | some (mark, sign, ds) => mark :: signText sign ++ ds

/-- The number as it is written. -/
def text (n : Numeral) : Text := signText n.sign ++ n.whole ++ n.fracText ++ n.exponentText

/-- The number that a sequence of digits denotes. -/
def digitsValue (ds : Text) : ℕ := ds.foldl (fun n c => 10 * n + (c.toNat - '0'.toNat)) 0

/-- The exponent that is written. -/
def exponentValue (n : Numeral) : ℤ :=
  match n.exponent with
  | none => 0
  | some (_, sign, ds) => if sign = some true then -(digitsValue ds : ℤ) else digitsValue ds

/-- Whether there is a minus. -/
def negative (n : Numeral) : Bool := n.sign == some true

/-- The absolute value of the number. -/
def magnitude (n : Numeral) : ℚ :=
  (digitsValue n.whole + digitsValue (n.frac.getD []) / 10 ^ (n.frac.getD []).length) * (10 : ℚ) ^ n.exponentValue

/-- The value of the number. -/
def value (n : Numeral) : ℚ := if n.negative then -n.magnitude else n.magnitude

end Numeral

/-- `x` is the value `v` rounded to the format: infinite from `(2^p - 1/2) · 2^(emax - p)` on; otherwise a value of the format such
that no other is nearer to `v`, and if another is as near, the last bit of `x` is zero. -/
structure RoundedTo (f : Fmt) (v : ℚ) (x : Fl f) : Prop where
  infinite : (∃ s, x = .inf s) ↔ (2 ^ f.p - 1 / 2) * (2 : ℚ) ^ (f.emax - f.p) ≤ |v|
  number : x ≠ .nan
  held : x.Repr
  nearest : x.IsFin → ∀ y : Fl f, y.IsFin → y.Repr → |x.toQ - v| ≤ |y.toQ - v|
  even : x.IsFin → ∀ y : Fl f, y.IsFin → y.Repr → |x.toQ - v| = |y.toQ - v| → y.toQ ≠ x.toQ → Fl.EvenDigits f x.toQ

/-- What a number that is written out is read as. -/
structure ReadAs (f : Fmt) (n : Numeral) (x : Fl f) : Prop where
  rounded : RoundedTo f n.value x
  sign : x.signBit = n.negative

/-- No number can be read: after white space and an optional sign comes the end, or a character that begins no number and none
of the words `nan` and `inf`. -/
def NoNumber (s : Text) : Prop :=
  ∃ blanks sign rest, s = blanks ++ signText sign ++ rest ∧ (∀ c ∈ blanks, Convert.isSpace c) ∧
    ∀ c, rest.head? = some c → ¬ c.isDigit ∧ c ≠ '.' ∧ c.toLower ≠ 'n' ∧ c.toLower ≠ 'i' ∧
      (sign = none → Convert.isSpace c = false ∧ c ≠ '-' ∧ c ≠ '+')

/-- A line of a CSV file: a timestamp, numbers, and what may follow them. -/
structure CsvRow where
  ts : ℤ
  numbers : List Numeral
  more : Text

namespace CsvRow

/-- The line as it is written. -/
def line (r : CsvRow) : Text := Convert.printInt r.ts ++ (r.numbers.map (fun n => ',' :: n.text)).flatten ++ r.more

/-- A line with `k` numbers. -/
structure WellFormed (k : ℕ) (r : CsvRow) : Prop where
  ts : IsInt64 r.ts
  count : r.numbers.length = k
  numbers : ∀ n ∈ r.numbers, n.WellFormed
  ends : Ends r.more
  plain : ∀ c ∈ r.more, c ≠ '\x00' ∧ c ≠ '\n'

/-- The record in which the numbers of the line are rounded to `float`. -/
def ReadPrice (r : CsvRow) (p : PriceRecord F32) : Prop :=
  p.ts = r.ts ∧ List.Forall₂ (ReadAs binary32) r.numbers [p.price, p.volume]

/-- The tick in which the numbers of the line are rounded to `float`. -/
def ReadTick (r : CsvRow) (t : OhlcTick F32) : Prop :=
  t.ts = r.ts ∧ List.Forall₂ (ReadAs binary32) r.numbers [t.opn, t.high, t.low, t.close, t.volume]

/-- The side record in which the numbers of the line are rounded to `float`. -/
def ReadSide (r : CsvRow) (s : SideInputRecord F32) : Prop :=
  s.ts = r.ts ∧ List.Forall₂ (ReadAs binary32) r.numbers s.signals

end CsvRow
end Verif.Spec
