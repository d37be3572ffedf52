import Verif.Spec.CommandLine
import Verif.Spec.Scanf

/-!
# Specification: how the value of a flag of type `double` is written (C108)
-/

namespace Verif.Spec
open Verif

/-- Digits with an optional point among, before or behind them, at least one digit: the number they stand for. -/
def PointText (digit : Char → Prop) (base : ℕ) (t : Text) (v : ℚ) : Prop :=
  ∃ whole frac, (∀ c ∈ whole ++ frac, digit c) ∧ whole ++ frac ≠ [] ∧ (t = whole ++ '.' :: frac ∨ frac = [] ∧ t = whole) ∧
    v = (numeral base (whole ++ frac) : ℚ) / (base : ℚ) ^ frac.length

/-- Nothing, or an exponent: a letter, an optional sign, decimal digits. -/
def ExponentText (letter capital : Char) (t : Text) (k : ℤ) : Prop :=
  t = [] ∧ k = 0 ∨
  ∃ mark sign ds, (mark = letter ∨ mark = capital) ∧ ds ≠ [] ∧ (∀ c ∈ ds, c.isDigit = true) ∧ t = mark :: signText sign ++ ds ∧
    k = if sign = some true then -(numeral 10 ds : ℤ) else numeral 10 ds

/-- A number without its sign: decimal with a decimal exponent, or hexadecimal with a binary exponent (whose digits are decimal). -/
def AmountText (t : Text) (v : ℚ) : Prop :=
  (∃ p e w k, t = p ++ e ∧ PointText (fun c => c.isDigit = true) 10 p w ∧ ExponentText 'e' 'E' e k ∧ v = w * (10 : ℚ) ^ k) ∨
  ∃ x p e w k, (x = 'x' ∨ x = 'X') ∧ t = '0' :: x :: (p ++ e) ∧ PointText HexDigit 16 p w ∧ ExponentText 'p' 'P' e k ∧
    v = w * (2 : ℚ) ^ k

/-- A word in small or capital letters. -/
def WordText (word : String) (t : Text) : Prop := t.map Char.toLower = word.toList

/-- How the value of a flag of type `double` is written, and what it means: with blanks around it and an optional sign, a number
(rounded to the nearest `double`), an infinity, or not a number. -/
def DoubleText {f : Fmt} (s : Text) (x : Fl f) : Prop :=
  ∃ b sign t b', Blank b ∧ Blank b' ∧ s = b ++ signText sign ++ t ++ b' ∧
    ((∃ v, AmountText t v ∧ RoundedTo f (if sign = some true then -v else v) x ∧ x.signBit = (sign == some true)) ∨
      (WordText "inf" t ∨ WordText "infinity" t) ∧ x = .inf (sign == some true) ∨
      (∃ word more, t = word ++ more ∧ WordText "nan" word ∧
        (more = [] ∨ ∃ payload, (∀ c ∈ payload, c.isAlphanum = true ∨ c = '_') ∧ more = '(' :: payload ++ [')'])) ∧ x = .nan)

end Verif.Spec
