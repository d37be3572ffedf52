import Verif.Model.IndicatorUtil
import Verif.Num.Exact

/-!
# Sequences of AddNewValue / UpdateCurrentValue calls (C43-C46)
-/

namespace Verif.Spec

/-- One call on a window helper. -/
inductive WinOp (F : Type)
  /-- `AddNewValue(value)` -/
  | add (value : F)
  /-- `UpdateCurrentValue(value)` -/
  | update (value : F)

/-- The sequence of values a helper has been told about: `add` appends a value, `update` replaces the last one
(there is nothing to replace in an empty sequence: `none`). -/
def values {F : Type} : List (WinOp F) → Option (List F)
  | ops => ops.foldlM (fun vs op => match op with
    | .add x => some (vs ++ [x])
    | .update x => if vs = [] then none else some (vs.dropLast ++ [x])) []

/-- The last `n` elements. -/
def lastN {α : Type} (n : ℕ) (l : List α) : List α := l.drop (l.length - n)

section
variable {K : Type} [Field K]

/-- Arithmetic mean. -/
def mean (l : List K) : K := l.sum / l.length

/-- Population variance: the mean of the squared deviations from the mean. -/
def variance (l : List K) : K := mean (l.map (fun x => (x - mean l) ^ 2))
end

end Verif.Spec
