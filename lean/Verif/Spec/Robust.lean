import Verif.Spec.Exec
import Verif.Spec.Account
import Verif.Model.Traders

/-!
# Specification vocabulary for clean inputs (C59)
-/

namespace Verif.Spec
open FloatOps

section exact
variable {K : Type} [Field K] [LinearOrder K] [IsStrictOrderedRing K] [FloorRing K]

/-- A usable tick: a positive timestamp, positive prices and a volume that is not negative. -/
structure CleanTick (t : OhlcTick K) : Prop where
  ts : 0 < t.ts
  opn : 0 < t.opn
  high : 0 < t.high
  low : 0 < t.low
  close : 0 < t.close
  volume : 0 ≤ t.volume

/-- A usable history: usable ticks in order of time, no two of them with the same timestamp (ticks without volume, on
which the trader does nothing, may repeat the timestamp of a neighbour). -/
structure CleanHistory (ticks : List (OhlcTick K)) : Prop where
  each : ∀ t ∈ ticks, CleanTick t
  sorted : ticks.Pairwise (fun a b => a.ts ≤ b.ts)
  strict : (ticks.filter active).Pairwise (fun a b => a.ts < b.ts)

/-- A usable account configuration: something to start with, positive units and a liquidity between 0 and 1
(fees are arbitrary). -/
structure CleanAccount (c : AccountConfig K) : Prop where
  base : 0 ≤ c.startBase
  quote : 0 ≤ c.startQuote
  some : 0 < c.startBase ∨ 0 < c.startQuote
  baseUnit : 0 < c.baseUnit
  quoteUnit : 0 < c.quoteUnit
  liquidity : 0 ≤ c.marketLiquidity ∧ c.marketLiquidity ≤ 1

/-- Sensible parameters of a built-in trader. -/
def CleanParameters : BuiltIn K → Prop
  | .rebalancing cfg => 0 ≤ cfg.alpha ∧ 0 < cfg.epsilon ∧ cfg.epsilon < 1
  | .stop cfg => 0 ≤ cfg.margin ∧ cfg.margin < 1 ∧ 0 ≤ cfg.moveMargin

end exact
end Verif.Spec
