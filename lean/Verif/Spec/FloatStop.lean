import Verif.Spec.FloatRobust
import Mathlib.Analysis.SpecialFunctions.Log.Basic

/-!
# Vocabulary for the stop trader in binary32 (C95)
-/

namespace Verif.Spec
open FloatOps
open Fl (toQ)

/-- The real number that a float stands for. -/
noncomputable def realOf (x : F32) : ℝ := (toQ x : ℝ)

/-- `expf` and `logf` are accurate to a relative 2^-23 (about one unit in the last place) near 0 and near 1. -/
structure AccurateLibm [Libm F32] : Prop where
  log : ∀ x : F32, Between (1 / 2) 2 x → Fl.IsFin (Libm.log x) ∧
    |realOf (Libm.log x) - Real.log (realOf x)| ≤ |Real.log (realOf x)| / 2 ^ 23
  exp : ∀ x : F32, Between (-1) 1 x → Fl.IsFin (Libm.exp x) ∧
    |realOf (Libm.exp x) - Real.exp (realOf x)| ≤ Real.exp (realOf x) / 2 ^ 23

/-- Facts about rounded `expf` and `logf` near 0 and near 1.  The floats next to 1 are `1 - 2^-24` and `1 + 2^-23`, so
`exp x` is rounded to 1 for small `x`; and `(y - 1) / y ≤ log y ≤ y - 1`. -/
structure RoundedLibm [Libm F32] : Prop where
  exp : ∀ x : F32, Between (-(4 / 5) / 2 ^ 25) (4 / 5 / 2 ^ 24) x → Fl.IsFin (Libm.exp x) ∧ toQ (Libm.exp x) = 1
  log_up : ∀ y : F32, Between 1 (101 / 100) y → Between 0 (toQ y - 1) (Libm.log y)
  log_down : ∀ y : F32, Between (99 / 100) 1 y → Between (51 / 50 * (toQ y - 1)) 0 (Libm.log y)

end Verif.Spec
