import Mathlib.Data.Int.Notation

/-!
# The Gregorian calendar (C60, C61)
-/

namespace Verif.Spec

/-- A calendar date. -/
structure Date where
  year : ℤ
  month : ℤ
  day : ℤ
  deriving DecidableEq

/-- Every fourth year, except full centuries not divisible by 400. -/
def leap (y : ℤ) : Bool := decide (y % 4 = 0) && (!decide (y % 100 = 0) || decide (y % 400 = 0))

/-- Number of days of a month. -/
def monthLength (y m : ℤ) : ℤ :=
  if m = 2 then (if leap y then 29 else 28)
  else if m = 4 ∨ m = 6 ∨ m = 9 ∨ m = 11 then 30 else 31

/-- An existing date. -/
structure Date.Valid (d : Date) : Prop where
  month_pos : 1 ≤ d.month
  month_le : d.month ≤ 12
  day_pos : 1 ≤ d.day
  day_le : d.day ≤ monthLength d.year d.month

/-- The following day. -/
def Date.next (d : Date) : Date :=
  if d.day < monthLength d.year d.month then { d with day := d.day + 1 }
  else if d.month < 12 then ⟨d.year, d.month + 1, 1⟩
  else ⟨d.year + 1, 1, 1⟩

/-- The month `k` months later (or earlier): year and month. -/
def shiftMonth (y m k : ℤ) : ℤ × ℤ := ((12 * y + (m - 1) + k) / 12, (12 * y + (m - 1) + k) % 12 + 1)

end Verif.Spec
