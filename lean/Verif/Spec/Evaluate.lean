import Verif.Model.Evaluate
import Verif.Spec.History

/-!
# Specification vocabulary for evaluations (C34-C38)
-/

namespace Verif.Spec
open FloatOps

/-- The instant `k` calendar months after `t` (UTC): same day of the month and time of day, surplus days running into the
following month (`Props.C60_calendar`); without machine overflow. -/
def plusMonths (t k : ℤ) : ℤ :=
  let c := Time.toCivil t
  Time.fromCivil { c with month := c.month + k }

/-- Start of the `k`-th evaluation window. -/
def windowStart (cfg : EvalConfig) (k : ℕ) : ℤ := plusMonths cfg.start k

/-- End of the `k`-th evaluation window, when windows have a length in months. -/
def windowStop (cfg : EvalConfig) (k : ℕ) : ℤ := plusMonths (windowStart cfg k) cfg.months

/-- The ticks in `[start, stop)` (non-positive bounds: unbounded). -/
def windowTicks {F : Type} (history : List (OhlcTick F)) (start stop : ℤ) : List (OhlcTick F) :=
  history.filter (fun t => decide (InWindow start stop t.ts))

section
variable {F D : Type} [FloatOps F] [FloatOps D] [Wide F D] [Libm F] [Libm D]

/-- `p` reports a back-test of a fresh trader with a fresh account on exactly the ticks of the window `[start, stop)`;
the gains are the ratios of end and start value / price, and start value and prices are positive. -/
structure IsPeriod (i : EvalInputs F) (start stop : ℤ) (p : Period F) : Prop where
  start_eq : p.start = start
  stop_eq : p.stop = stop
  result : (executeTrader i.account (windowTicks i.history start stop) i.side i.cfg.fast i.emitter.trader i.emitter.init
    false).out = .ok p.result
  startValue : (lit F 0 <. p.result.startValue) = true
  startPrice : (lit F 0 <. p.result.startPrice) = true
  endPrice : (lit F 0 <. p.result.endPrice) = true
  finalGain : p.finalGain = p.result.endValue /. p.result.startValue
  baseFinalGain : p.baseFinalGain = p.result.endPrice /. p.result.startPrice

end
end Verif.Spec
