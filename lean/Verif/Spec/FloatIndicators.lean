import Verif.Num.Error
import Verif.Spec.Indicators
import Mathlib.Data.Rat.Floor

/-!
# Indicators in binary32: conditions on the ticks, and exact values to compare with
-/

namespace Verif.Spec
open FloatOps
open Fl (toQ IsFin)

/-- The closes are finite numbers of absolute value at most `M`. -/
def ClosesWithin (M : ℚ) (l : List (OhlcTick F32)) : Prop := ∀ t ∈ l, IsFin t.close ∧ |toQ t.close| ≤ M

/-- Opens and closes are finite numbers of absolute value at most `M`. -/
def PricesWithin (M : ℚ) (l : List (OhlcTick F32)) : Prop :=
  ∀ t ∈ l, (IsFin t.opn ∧ |toQ t.opn| ≤ M) ∧ IsFin t.close ∧ |toQ t.close| ≤ M

/-- Lows, highs and closes are finite, of absolute value at most `M`, and the close is between low and high. -/
def RangesWithin (M : ℚ) (l : List (OhlcTick F32)) : Prop :=
  ∀ t ∈ l, (IsFin t.low ∧ |toQ t.low| ≤ M) ∧ (IsFin t.high ∧ |toQ t.high| ≤ M) ∧ IsFin t.close ∧
    toQ t.low ≤ toQ t.close ∧ toQ t.close ≤ toQ t.high

/-- The exact closes of the aggregated history. -/
def exactCloses (period : ℤ) (l : List (OhlcTick F32)) : List ℚ := (aggregate period l).map (fun t => toQ t.close)

/-- The bound on the error of the MACD series. -/
def macdErr (M wf ws : ℚ) : ℚ :=
  (M / 2 ^ 20 + 1 / 2 ^ 130) / wf + (M / 2 ^ 20 + 1 / 2 ^ 130) / ws + (M / 2 ^ 22 + 1 / 2 ^ 130)

/-- The exact values of the prices of a tick. -/
def exactTick (t : OhlcTick F32) : OhlcTick ℚ := ⟨t.ts, toQ t.opn, toQ t.high, toQ t.low, toQ t.close, toQ t.volume⟩

/-- The exact average of the upward moves (of the aggregated history) over `N` periods. -/
def exactUp (N period : ℤ) (l : List (OhlcTick F32)) : ℚ := mma N (upMoves ((aggregate period l).map exactTick))

/-- The exact average of the downward moves over `N` periods. -/
def exactDown (N period : ℤ) (l : List (OhlcTick F32)) : ℚ := mma N (downMoves ((aggregate period l).map exactTick))

/-- The exact moves from one aggregated tick to the next are at most `B`. -/
def MovesWithin (B : ℚ) (period : ℤ) (l : List (OhlcTick F32)) : Prop :=
  (∀ x ∈ upMoves ((aggregate period l).map exactTick), x ≤ B) ∧ ∀ x ∈ downMoves ((aggregate period l).map exactTick), x ≤ B

end Verif.Spec
