import Verif.Num.FloatOps
import Mathlib.Analysis.SpecialFunctions.Pow.Real
import Mathlib.Analysis.SpecialFunctions.Sqrt

/-! The libm functions over the real numbers. -/

namespace Verif

/-- Exact `sqrt`, `exp`, `log`, `pow`. -/
noncomputable instance realLibm : Libm ℝ := ⟨Real.sqrt, Real.exp, Real.log, fun x y => x ^ y⟩

end Verif
