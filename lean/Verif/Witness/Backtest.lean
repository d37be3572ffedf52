import Verif.Props.Backtest
import Verif.Props.BacktestAccount
import Verif.Props.Batch
import Verif.Props.Calendar

/-!
# Witnesses: the theorems about back-tests and batches (C28-C34, C37, C60, C74), each applied to concrete data
-/

namespace Verif.Witness.Bt
open FloatOps Spec Props Time

attribute [local instance] evLibm

abbrev side : SideInput ℚ := ⟨1, [100, 200], [7, 8]⟩
theorem side_of : SideOf (some btSide) (some side) := .some _ _ rfl

/-- A different side input that agrees with `btSide` up to time 150. -/
abbrev other : List (SideInputRecord ℚ) := [⟨100, [7]⟩, ⟨170, [9]⟩]
theorem other_of : SideOf (some other) (some ⟨1, [100, 170], [7, 9]⟩) := .some _ _ rfl

abbrev result (fast log : Bool) : ExecutionResult ℚ :=
  match (executeTrader btCfg btTicks (some side) fast btTrader (0 : ℕ) log).out with
  | .ok r => r
  | .error _ => ⟨0, 0, 0, 0, 0, 0, 0, 0, 0, 0, 0, 0⟩

theorem result_ok (fast log : Bool) :
    (executeTrader btCfg btTicks (some side) fast btTrader (0 : ℕ) log).out = .ok (result fast log) := by
  have : (executeTrader btCfg btTicks (some side) fast btTrader (0 : ℕ) log).out.isOk = true := by
    cases fast <;> cases log <;> decide +kernel
  unfold result
  cases h : (executeTrader btCfg btTicks (some side) fast btTrader (0 : ℕ) log).out with
  | ok r => rfl
  | error e => rw [h] at this; cases this

theorem feedable : Feedable btTicks := by
  unfold Feedable Spec.SortedBy btTicks
  constructor
  · decide +kernel
  · decide +kernel

/-- The two inputs differ after time 150; up to there the traces agree. -/
example := C28_no_lookahead side_of other_of 150 (by decide +kernel) btCfg (btTicks.take 2) (btTicks.drop 2)
  (by decide +kernel) true btTrader (0 : ℕ) true

example := C29_rounds side_of btCfg btTicks true btTrader (0 : ℕ) true (result_ok true true)
example := C29_active_ticks side_of btCfg btTicks false btTrader (0 : ℕ) false (result_ok false false)
example := C30_signals side_of btCfg btTicks false btTrader (0 : ℕ) true
example := C31_volatility_never_aborts side_of btCfg btTicks feedable btTrader (0 : ℕ) true _ (result_ok true true)
example := C31_same_calls side_of btCfg btTicks feedable btTrader (0 : ℕ) true
example := C32_story side_of btCfg btTicks false btTrader (0 : ℕ) true
example := C32_rows side_of btCfg btTicks false btTrader (0 : ℕ) (result_ok false true)
example := C33_result side_of btCfg btTicks (by decide) false btTrader (0 : ℕ) true (result_ok false true)

theorem idle : Idle btIdle := by
  intro s t sg b q r h
  cases h; rfl

example : ∃ r, (executeTrader btCfg btTicks none true btIdle (0 : ℕ) false).out = .ok r ∧ r.endQuote = btCfg.startQuote := by
  have : (executeTrader btCfg btTicks none true btIdle (0 : ℕ) false).out.isOk = true := by decide +kernel
  cases h : (executeTrader btCfg btTicks none true btIdle (0 : ℕ) false).out with
  | ok r => exact ⟨r, rfl, (C34_idle .none btCfg btTicks (by decide) true btIdle idle (0 : ℕ) false h).2.2.1⟩
  | error e => rw [h] at this; cases this

/-! ### C74 -/

example := C74_final side_of btCfg btTicks (by decide) false btTrader (0 : ℕ) true (result_ok false true)
example : NotBelowZero (result false true).endBase ∧ NotBelowZero (result false true).endQuote :=
  C74_balances_never_negative side_of btCfg btTicks (by decide) false btTrader (0 : ℕ) true (result_ok false true)
    (by decide +kernel) (by decide +kernel) (by unfold NotBelowZero; decide +kernel) (by unfold NotBelowZero; decide +kernel)

/-- The account half-way through the trace. -/
example := C74_account_is_order_history side_of btCfg btTicks true btTrader (0 : ℕ) false
  ((executeTrader btCfg btTicks (some side) true btTrader (0 : ℕ) false).trace.take 2)
  ((executeTrader btCfg btTicks (some side) true btTrader (0 : ℕ) false).trace.drop 2)
  (List.take_append_drop _ _).symm (by
    have hall : ((executeTrader btCfg btTicks (some side) true btTrader (0 : ℕ) false).trace.take 2).all
        (fun e => match e with | .exec _ _ (.error _) => false | _ => true) = true := by decide +kernel
    intro t o e hm
    have := List.all_eq_true.mp hall _ hm
    cases this)

/-! ### C37: a batch of two evaluations under two schedules -/

example : ∃ schedule tasks rs, batchRun [evInputs, evInputs] schedule (batchStart [evInputs, evInputs]) = .ok tasks ∧
    batchResults tasks = some rs ∧
    List.Forall₂ (fun i r => (evaluateTrader i false).out = .ok r) [evInputs, evInputs] rs ∧
    ∀ s₂ t₂ r₂, batchRun [evInputs, evInputs] s₂ (batchStart [evInputs, evInputs]) = .ok t₂ → batchResults t₂ = some r₂ →
      r₂ = rs := by
  obtain ⟨schedule, hfair⟩ := enough_steps (2 ^ 31 + 1)
  have : ∃ tasks rs, batchRun [evInputs, evInputs] schedule (batchStart [evInputs, evInputs]) = .ok tasks ∧
      batchResults tasks = some rs := by
    rw [C37_completes [evInputs, evInputs] schedule hfair]
    have : ∃ r, (evaluateTrader evInputs false).out = .ok r := by
      rw [evOut false]
      rcases C36_summary evInputs evPeriods with ⟨r, hr, _⟩ | ⟨_, h⟩
      · exact ⟨r, hr⟩
      · exfalso; revert h; decide +kernel
    intro i hi
    simp only [List.mem_cons, List.not_mem_nil, or_false, or_self] at hi
    rw [hi]; exact this
  obtain ⟨tasks, rs, h1, h2⟩ := this
  exact ⟨schedule, tasks, rs, h1, h2, C37_batch _ _ h1 h2, fun s₂ t₂ r₂ h h' => C37_deterministic _ _ _ h h1 h' h2⟩

/-! ### C60 -/

/-- 31 January 2021 plus one month: there is no 31 February, three days later it is 3 March. -/
example : ∃ r, addMonths 1612051200 1 = .ok r ∧ dateOf (toCivil r) = ⟨2021, 3, 3⟩ := by
  obtain ⟨r, h, hd⟩ := C60_calendar 1612051200 1 (by unfold SmallMonths; omega) 2021 2 (by decide)
  refine ⟨r, h, hd.trans (by decide)⟩

example : ∃ r, addMonths 1577836800 5 = .ok r ∧ addMonths r 9 = addMonths 1577836800 14 :=
  C60_additive 1577836800 5 9 (by unfold SmallMonths; omega) (by unfold SmallMonths; omega)
    (by unfold SmallMonths; omega) (by decide)

end Verif.Witness.Bt
