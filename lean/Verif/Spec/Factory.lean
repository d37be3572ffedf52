import Verif.Model.Traders

/-!
# Specification vocabulary for the factory's default batches (C72)

The parameter grids that a user of `--trader=... --evaluate_batch` gets, in percent.
-/

namespace Verif.Spec
open FloatOps

/-- A percentage as a number of the type `F`, rounded once if `F` rounds. -/
def percent (F : Type) [FloatOps F] (p : ℕ) : F := FloatOps.ofRat ((p : ℚ) / 100)

variable {F : Type} [FloatOps F]

/-- The rebalancing traders of the default batch: a target share of 10, 30, 50, 70 or 90 % and a tolerance of 1, 5, 10 or 20 %. -/
def OnRebalancingGrid (cfg : RebalancingConfig F) : Prop :=
  (∃ p ∈ [10, 30, 50, 70, 90], cfg.alpha = percent F p) ∧ ∃ p ∈ [1, 5, 10, 20], cfg.epsilon = percent F p

/-- The stop traders of the default batch: margins of 5, 10, 15 or 20 % and daily rates of 1, 5 or 10 %. -/
def OnStopGrid (cfg : StopConfig F) : Prop :=
  (∃ p ∈ [5, 10, 15, 20], cfg.margin = percent F p) ∧ (∃ p ∈ [5, 10, 15, 20], cfg.moveMargin = percent F p) ∧
  (∃ p ∈ [1, 5, 10], cfg.increasePerDay = percent F p) ∧ ∃ p ∈ [1, 5, 10], cfg.decreasePerDay = percent F p

end Verif.Spec
