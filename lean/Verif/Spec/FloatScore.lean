import Verif.Spec.Evaluate
import Verif.Spec.FloatStop
import Mathlib.Analysis.SpecialFunctions.Pow.Real

/-!
# Vocabulary for the accuracy of reported gains, averages and scores (C103)
-/

namespace Verif.Spec
open FloatOps
open Fl (toQ IsFin)

/-- What the account was worth at the start of the period, in exact arithmetic: quote balance plus base balance at the
price of the first tick. -/
def startWorth (p : Period F32) : ℚ := toQ p.result.startQuote + toQ p.result.startPrice * toQ p.result.startBase

/-- What the account was worth at the end of the period, in exact arithmetic. -/
def endWorth (p : Period F32) : ℚ := toQ p.result.endQuote + toQ p.result.endPrice * toQ p.result.endBase

/-- The growth of the account, in exact arithmetic. -/
def exactGain (p : Period F32) : ℚ := endWorth p / startWorth p

/-- The growth of the price, in exact arithmetic. -/
def exactBaseGain (p : Period F32) : ℚ := toQ p.result.endPrice / toQ p.result.startPrice

/-- How much better than the price the account did, in exact arithmetic. -/
def exactRatio (p : Period F32) : ℚ := exactGain p / exactBaseGain p

/-- A period within the range of `float`: prices between 2^-40 and 2^40, balances up to 2^80, an account that is worth at
least 2^-110 before and after, and that grew or shrank by a factor of at most 2^100. -/
structure Modest (p : Period F32) : Prop where
  startPrice : Between (1 / 2 ^ 40) (2 ^ 40) p.result.startPrice
  endPrice : Between (1 / 2 ^ 40) (2 ^ 40) p.result.endPrice
  startBase : Between 0 (2 ^ 80) p.result.startBase
  startQuote : Between 0 (2 ^ 80) p.result.startQuote
  endBase : Between 0 (2 ^ 80) p.result.endBase
  endQuote : Between 0 (2 ^ 80) p.result.endQuote
  startWorth : 1 / 2 ^ 110 ≤ startWorth p
  endWorth : 1 / 2 ^ 110 ≤ endWorth p
  gain : 1 / 2 ^ 100 ≤ exactGain p ∧ exactGain p ≤ 2 ^ 100

/-- The arithmetic mean of a quantity over the periods. -/
def periodMean (l : List (Period F32)) (f : Period F32 → ℚ) : ℚ := (l.map f).sum / l.length

/-- The geometric mean of the exact ratios. -/
noncomputable def geometricMean (l : List (Period F32)) : ℝ :=
  (l.map (fun p => (exactRatio p : ℝ))).prod ^ (1 / (l.length : ℝ))

/-- `pow` on `double` is accurate to a relative 2^-40 (a thousand times worse than the usual unit in the last place) for
arguments between 2^-1000 and 2^1000 and exponents between 0 and 2. -/
def AccuratePow [Libm F64] : Prop :=
  ∀ x y : F64, IsFin x → 1 / 2 ^ 1000 ≤ toQ x → toQ x ≤ 2 ^ 1000 → IsFin y → 0 < toQ y → toQ y ≤ 2 →
    IsFin (Libm.pow x y) ∧ |(toQ (Libm.pow x y) : ℝ) - (toQ x : ℝ) ^ (toQ y : ℝ)| ≤ (toQ x : ℝ) ^ (toQ y : ℝ) / 2 ^ 40

end Verif.Spec
