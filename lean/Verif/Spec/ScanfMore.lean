import Verif.Spec.Scanf

/-!
# Specification vocabulary for the other ways to write a number (C105)
-/

namespace Verif.Spec
open Verif

/-- The hexadecimal digits; the capital letters come last. -/
def hexDigits : Text := "0123456789abcdefABCDEF".toList

/-- The value of a hexadecimal digit. -/
def hexDigitValue (c : Char) : ℕ := if hexDigits.idxOf c < 16 then hexDigits.idxOf c else hexDigits.idxOf c - 6

/-- The number that a sequence of hexadecimal digits denotes. -/
def hexValue (ds : Text) : ℕ := ds.foldl (fun n c => 16 * n + hexDigitValue c) 0

/-- A hexadecimal number as it is written: a sign, `0x` (the letter may be a capital), digits, digits after a point, and a binary
exponent: its letter, its sign and its decimal digits. -/
structure HexNumeral where
  sign : Option Bool
  x : Char
  whole : Text
  frac : Option Text
  exponent : Option (Char × Option Bool × Text)

namespace HexNumeral

/-- There is a digit before the exponent, and one in the exponent if there is any. -/
structure WellFormed (n : HexNumeral) : Prop where
  x : n.x = 'x' ∨ n.x = 'X'
  whole : ∀ c ∈ n.whole, c ∈ hexDigits
  frac : ∀ ds, n.frac = some ds → ∀ c ∈ ds, c ∈ hexDigits
  some_digit : n.whole ++ n.frac.getD [] ≠ []
  exponent : ∀ mark sign ds, n.exponent = some (mark, sign, ds) → (mark = 'p' ∨ mark = 'P') ∧ ds ≠ [] ∧ ∀ c ∈ ds, c.isDigit

/-- What follows `0x`. -/
def body (n : HexNumeral) : Text :=
  n.whole ++ (match n.frac with | none => [] | some ds => '.' :: ds) ++
    (match n.exponent with | none => [] | some (mark, sign, ds) => mark :: signText sign ++ ds)

/-- The number as it is written. -/
def text (n : HexNumeral) : Text := signText n.sign ++ '0' :: n.x :: n.body

/-- The exponent that is written. -/
def exponentValue (n : HexNumeral) : ℤ :=
  match n.exponent with
  | none => 0
  | some (_, sign, ds) => if sign = some true then -(Numeral.digitsValue ds : ℤ) else Numeral.digitsValue ds

/-- Whether there is a minus. -/
def negative (n : HexNumeral) : Bool := n.sign == some true

/-- The absolute value of the number. -/
def magnitude (n : HexNumeral) : ℚ :=
  (hexValue n.whole + hexValue (n.frac.getD []) / 16 ^ (n.frac.getD []).length) * (2 : ℚ) ^ n.exponentValue

/-- The value of the number. -/
def value (n : HexNumeral) : ℚ := if n.negative then -n.magnitude else n.magnitude

end HexNumeral

end Verif.Spec
