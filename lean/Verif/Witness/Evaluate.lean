import Verif.Props.Evaluate
import Verif.Props.Machine
import Verif.Props.Indicators
import Verif.Props.Defaults
import Verif.Witness.Backtest

/-!
# Witnesses: the theorems about evaluation, machine integers and average indicators (C35, C36, C42, C49, C92, C100),
each applied to concrete data
-/

namespace Verif.Witness.Ev
open FloatOps Spec Props

attribute [local instance] evLibm

theorem sorted : SortedBy OhlcTick.ts evInputs.history := by unfold SortedBy evInputs evTicks; decide +kernel
theorem months : SmallMonths evInputs.cfg.months := by unfold SmallMonths; decide

theorem res_ok (log : Bool) : ∃ r, (evaluateTrader evInputs log).out = .ok r := by
  rw [evOut]
  have : (summarise evInputs evPeriods).isOk = true := by decide +kernel
  cases h : summarise evInputs evPeriods with
  | ok r => exact ⟨r, rfl⟩
  | error e => rw [h] at this; cases this

example := C35_periods evInputs sorted (by decide) true (res_ok true).choose_spec
example := C35_windows evInputs.cfg (by decide) 7
example := C35_echo evInputs false (res_ok false).choose_spec
example := C36_terminates evInputs sorted (by decide) months (by decide) true

/-- The first of the two periods does not depend on the ticks after it. -/
abbrev shorter : EvalInputs ℚ := { evInputs with history := evTicks.take 2 }
theorem first : IsPeriod evInputs 1577836800 1580515200 evPeriods[0] := by constructor <;> decide +kernel
theorem first' : IsPeriod shorter 1577836800 1580515200 evPeriods[0] := by constructor <;> decide +kernel
example := C35_local (i := evInputs) (j := shorter) rfl rfl rfl rfl (by decide +kernel) first first'

/-- A negative number of months; and an empty window. -/
example := C36_never_returns { evInputs with cfg := ⟨1577836800, 1585785600, -1, true⟩ } (.inl (by decide)) false
example := C36_never_returns { evInputs with cfg := ⟨1580000000, 1583000000, 0, true⟩ } (.inr ⟨rfl, sorted, by decide +kernel⟩) false

/-! ### Machine integers -/

theorem dated {t : ℤ} (h : 0 ≤ t) (h' : t ≤ 2000000000) : Dated t := by unfold Dated; omega

theorem dated_ticks : ∀ t ∈ evTicks, Dated t.ts := by unfold Dated; decide +kernel

example := C92_gaps (1600000000, 1600000060) (1600000060, 1600000600) (dated (by decide) (by decide)) (dated (by decide) (by decide))
  (dated (by decide) (by decide)) (dated (by decide) (by decide))

abbrev trades : List (PriceRecord ℚ) := [⟨1600000020, 2, 1⟩, ⟨1600000025, 9, 1⟩, ⟨1600000200, 3, 1⟩]
theorem dated_trades : ∀ r ∈ trades, Dated r.ts := by unfold Dated; decide +kernel
example := C92_outliers (1 / 20 : ℚ) trades dated_trades
example := C92_resample (F := ℚ) 300 (by unfold PositiveInt; decide) trades dated_trades
/-- An empty window of three daily ticks. -/
abbrev window : LastN ℚ := ⟨3, 86400, []⟩
theorem dated_window : DatedWindow window := ⟨by unfold PositiveInt; decide, by intro x hx; cases hx⟩
example := C92_window evTicks dated_ticks window dated_window
example := C92_indicator (F := ℚ) (fun _ (n : ℕ) _ => .ok (n + 1)) ⟨window, 0⟩ dated_window evTicks[0] (dated (by decide) (by decide))

abbrev fmt : Format ℚ := ⟨fun _ => "0", fun _ _ => "1"⟩
abbrev stopCfg : StopConfig ℚ := ⟨1 / 10, 1 / 20, 1 / 100, 1 / 10⟩

theorem dated_side : ∀ l, some btSide = some l → ∀ r ∈ l, Dated r.ts := by
  intro l h; cases h; unfold Dated btSide; decide +kernel
theorem dated_bt : ∀ t ∈ btTicks, Dated t.ts := by unfold Dated btTicks; decide +kernel

example := C92_stop fmt stopCfg (evTicks.map (fun t => ⟨t, [], 10, 100⟩))
  (by unfold Dated; decide +kernel) (StopState.init) (by unfold Dated; decide)
example := C92_execute btCfg _ Bt.side_of dated_side btTicks dated_bt true true btTrader (0 : ℕ)
example := C92_execute_stop btCfg _ Bt.side_of dated_side btTicks dated_bt false true fmt stopCfg
example := C92_loaded (F := ℚ) decimalScanner (tableCodec tmPrices) (tableCodec tmTicks) 1483228800 1609459200 (by decide) (by decide)

/-! ### The default flags -/

abbrev p2017 : List (PriceRecord ℚ) := [⟨1483228801, 2, 1⟩, ⟨1483228810, 3, 1⟩]
def files2017 : Files := fun _ =>
  some ("1483228799,5,5\n1483228801,2,1\n1483228810,3,1\n".toList.map (fun c => UInt8.ofNat c.toNat))
def env2017 : Convert.Env ℚ := { tmConvertEnv with priceCodec := tableCodec p2017 }

example := C100_defaults env2017 files2017 "in.csv".toList "ohlc".toList (by decide) (by decide) p2017 (by decide +kernel) (by simp)
  (by
    intro t ht
    simp only [List.mem_cons, List.not_mem_nil, or_false] at ht
    rcases ht with rfl | rfl <;> exact ⟨by unfold Writable; decide +kernel, by decide +kernel⟩)
  rfl (tmEnv []) rfl "stop" (.inr rfl) false (by simp)

/-! ### Averages -/

theorem feedable : Feedable evTicks := by
  unfold Feedable Spec.SortedBy evTicks
  exact ⟨by decide +kernel, by decide +kernel⟩

example := C42_ema (F := ℚ) 2 9 86400 (by decide) evTicks feedable
example := C49_macd (F := ℚ) 12 26 9 86400 (by decide) evTicks feedable

end Verif.Witness.Ev
