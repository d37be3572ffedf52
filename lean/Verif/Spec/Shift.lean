import Verif.Model.Evaluate

/-!
# The same history at another time

Everything happens `d` seconds later (earlier if `d` is negative).  Written without reference to any function of the model.
-/

namespace Verif.Spec.Shift
open Verif

variable {F : Type}

/-- A tick, `d` seconds later. -/
def tick (d : ℤ) (t : OhlcTick F) : OhlcTick F :=
  { ts := t.ts + d, opn := t.opn, high := t.high, low := t.low, close := t.close, volume := t.volume }

/-- A side input, `d` seconds later. -/
def side (d : ℤ) (s : SideInput F) : SideInput F := { numSignals := s.numSignals, timestamps := s.timestamps.map (· + d), data := s.data }

/-- A bound of the evaluation; 0 stays 0 ("unbounded"). -/
def bound (d x : ℤ) : ℤ := if x = 0 then 0 else x + d

/-- The evaluated window, `d` seconds later. -/
def config (d : ℤ) (c : EvalConfig) : EvalConfig := { start := bound d c.start, stop := bound d c.stop, months := c.months, fast := c.fast }

/-- A period, `d` seconds later, with the same result. -/
def period (d : ℤ) (p : Period F) : Period F :=
  { start := bound d p.start, stop := bound d p.stop, result := p.result, finalGain := p.finalGain, baseFinalGain := p.baseFinalGain }

/-- An evaluation, `d` seconds later, with the same figures. -/
def evaluation (d : ℤ) (e : EvaluationResult F) : EvaluationResult F :=
  { accountConfig := e.accountConfig, evalConfig := config d e.evalConfig, name := e.name, periods := e.periods.map (period d), score := e.score,
    avgGain := e.avgGain, avgBaseGain := e.avgBaseGain, avgTotalExecutedOrders := e.avgTotalExecutedOrders, avgTotalFee := e.avgTotalFee }

end Verif.Spec.Shift
