import Verif.Model.History

/-!
# Specification vocabulary for histories (C15-C24)
-/

namespace Verif.Spec
open FloatOps

/-- Timestamps never decrease along the history. -/
def SortedBy {α : Type} (ts : α → ℤ) (l : List α) : Prop := l.Pairwise (fun a b => ts a ≤ ts b)

/-- `start ≤ t < stop`, where a non-positive bound means "unbounded". -/
def InWindow (start stop t : ℤ) : Prop := (0 < start → start ≤ t) ∧ (0 < stop → t < stop)

instance (start stop t : ℤ) : Decidable (InWindow start stop t) := by unfold InWindow; infer_instance

end Verif.Spec
