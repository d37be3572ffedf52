import Verif.Model.ConvertMain
import Verif.Spec.Outliers
import Verif.Spec.History

/-!
# Specification: what convert.cc reports (C79)
-/

namespace Verif.Spec
open Verif

variable {F : Type}

/-- The line of a gap from `a` to `b`: both times, as seconds and as dates, and the duration. -/
def gapReport (fmt : Format F) (a b : ℤ) : Text :=
  [(fmt.int a).toList, " [".toList, Time.formatTimeUTC (.sec a), "] - ".toList, (fmt.int b).toList, " [".toList,
    Time.formatTimeUTC (.sec b), "]: ".toList, Convert.durationToString (b - a)].flatten

/-- The line of a price record; outliers are marked with an `x`. -/
def recordReport (fmt : Format F) (outlier : Bool) (r : PriceRecord F) : Text :=
  [if outlier then " x ".toList else "   ".toList, (fmt.int r.ts).toList, " [".toList, Time.formatTimeUTC (.sec r.ts),
    "]: ".toList, (fmt.fixed 2 r.price).toList, " [".toList, (fmt.fixed 4 r.volume).toList, "]".toList].flatten

/-- Lines with increasing positions.  Dots stand where positions are left out, except directly behind position 0. -/
def withDots : List (ℕ × Text) → List Text
  | [] => []
  | [(_, x)] => [x]
  | (i, x) :: (j, y) :: rest => x :: ((if j = i + 1 ∨ i = 0 then [] else ["   ...".toList]) ++ withDots ((j, y) :: rest))

end Verif.Spec
