import Verif.Model.Base
import Mathlib.Tactic.Linarith

/-!
# Specification vocabulary for machine integers (C92)
-/

namespace Verif.Spec

/-- A timestamp between 1970 and the year 146 billion: the lower half of the non-negative `int64_t` values. -/
def Dated (ts : ℤ) : Prop := 0 ≤ ts ∧ ts < 2 ^ 62

/-- A positive `int`: a sampling rate or the size of a period, in seconds. -/
def PositiveInt (n : ℤ) : Prop := 0 < n ∧ n < 2 ^ 31

end Verif.Spec
