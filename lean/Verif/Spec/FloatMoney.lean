import Verif.Num.Error
import Verif.Spec.Account

/-!
# Vocabulary for money in binary32 (C85-C87)
-/

namespace Verif.Spec
open FloatOps

/-- In IEEE arithmetic: the stored value is a correctly rounded integer multiple of the unit, a zero, or
not finite. -/
def FloatMultiple {f : Fmt} (u x : Fl f) : Prop :=
  x = .nan ∨ (∃ s, x = .inf s) ∨ x = .negZero ∨ ∃ n : ℤ, x = Fl.ofRat f (n * u.toQ)

/-- `x` is, up to a few rounding errors, a whole number of units `u`. -/
def NearMultiple (u x : F32) : Prop := ∃ n : ℤ, |x.toQ - n * u.toQ| ≤ 4 * |x.toQ| / 2 ^ 24 + 1 / 2 ^ 148

/-- Balances and fee counter are whole numbers of units (where units are used), up to a few rounding errors. -/
structure FloatOnGrid (a : Account F32) : Prop where
  base : (lit F32 0 <. a.baseUnit) = true → NearMultiple a.baseUnit a.baseBalance
  quote : (lit F32 0 <. a.quoteUnit) = true → NearMultiple a.quoteUnit a.quoteBalance
  fee : (lit F32 0 <. a.quoteUnit) = true → NearMultiple a.quoteUnit a.totalFee

/-- Units are numbers that are not negative. -/
structure SaneUnits (a : Account F32) : Prop where
  base : Fl.IsFin a.baseUnit ∧ 0 ≤ a.baseUnit.toQ
  quote : Fl.IsFin a.quoteUnit ∧ 0 ≤ a.quoteUnit.toQ

/-- Balances and the fee counter are numbers (no NaN, no infinity). -/
structure Numbers (a : Account F32) : Prop where
  base : Fl.IsFin a.baseBalance
  quote : Fl.IsFin a.quoteBalance
  fee : Fl.IsFin a.totalFee

/-- Balances and the fee counter are not negative. -/
structure NoDebt (a : Account F32) : Prop where
  base : 0 ≤ a.baseBalance.toQ
  quote : 0 ≤ a.quoteBalance.toQ
  fee : 0 ≤ a.totalFee.toQ

/-- The exact worth of the stored balances when one unit of base costs `p`. -/
def worth (a : Account F32) (p : ℚ) : ℚ := a.baseBalance.toQ * p + a.quoteBalance.toQ

/-- What underflow to zero can cost or yield: of the order of the smallest positive `float`, 2^-149, scaled
by price and units. -/
def underflow (a : Account F32) (p : ℚ) : ℚ :=
  (1 + p) * (1 + a.baseUnit.toQ + a.quoteUnit.toQ) / 2 ^ 140

end Verif.Spec
