import Verif.Spec.Evaluate
import Verif.Props.Backtest
import Verif.Props.Calendar
import Verif.Props.HistorySubset

/-! # Lemmas about `EvaluateTrader` -/

set_option linter.unusedSectionVars false

namespace Verif
open FloatOps Spec Time Props

section windows

theorem plusMonths_eq (t k : ℤ) :
    plusMonths t k = (monthStart (monthOf (t / 86400) + k) + (toCivil t).day - 1) * 86400 + t % 86400 := by
  simp only [plusMonths, fromCivil, dayNumber, toCivil]
  rw [show 12 * (monthOf (t / 86400) / 12) + (monthOf (t / 86400) % 12 + 1 + k) - 1 = monthOf (t / 86400) + k by omega]
  omega

theorem addMonths_eq {t k r : ℤ} (h : addMonths t k = .ok r) : r = plusMonths t k := by
  by_cases hk : isInt ((toCivil t).month + k) = true
  · rw [addMonths_ok t k hk] at h
    rw [plusMonths_eq, Except.ok.inj h]
  · unfold addMonths at h
    dsimp only at h
    rw [if_neg hk] at h; cases h

theorem addMonths_plus (t : ℤ) {k : ℤ} (h : SmallMonths k) : addMonths t k = .ok (plusMonths t k) := by
  rw [addMonths_small t h, plusMonths_eq]

theorem day_bounds (t : ℤ) : 1 ≤ (toCivil t).day ∧ (toCivil t).day ≤ 31 := by
  have h1 := (toCivil_valid t).day_pos
  have h2 := (toCivil_valid t).day_le
  have h3 := (monthLength_bounds (dateOf (toCivil t)).year (dateOf (toCivil t)).month).2
  simp only [dateOf] at h1 h2 h3
  omega

theorem plusMonths_zero (t : ℤ) : plusMonths t 0 = t := by
  rw [plusMonths_eq, add_zero]
  simp only [toCivil]
  omega

theorem plusMonths_mono (t : ℤ) {j k : ℤ} (h : j ≤ k) : plusMonths t j + 28 * 86400 * (k - j) ≤ plusMonths t k := by
  rw [plusMonths_eq, plusMonths_eq]
  have := monthStart_mono (show monthOf (t / 86400) + j ≤ monthOf (t / 86400) + k by omega)
  omega

theorem lt_plusMonths (t : ℤ) {k : ℤ} (h : 0 < k) : t + 28 * 86400 * k ≤ plusMonths t k := by
  have := plusMonths_mono t (show (0 : ℤ) ≤ k by omega)
  rw [plusMonths_zero] at this
  omega

/-- The month and day of the month reached by adding months. -/
theorem plusMonths_landing (t k : ℤ) :
    let n := monthOf (t / 86400) + k
    let d := (toCivil t).day
    let len := monthStart (n + 1) - monthStart n
    (d ≤ len → monthOf (plusMonths t k / 86400) = n ∧ (toCivil (plusMonths t k)).day = d) ∧
    (len < d → monthOf (plusMonths t k / 86400) = n + 1 ∧ (toCivil (plusMonths t k)).day = d - len) := by
  intro n d len
  have hd := day_bounds t
  have hq : plusMonths t k / 86400 = monthStart n + d - 1 := by
    rw [plusMonths_eq]
    show ((monthStart n + d - 1) * 86400 + t % 86400) / 86400 = monthStart n + d - 1
    omega
  have hd' : 1 ≤ d ∧ d ≤ 31 := hd
  have hl : len = monthStart (n + 1) - monthStart n := rfl
  clear_value n d len
  have h1 := monthStart_lt n
  have h2 := monthStart_lt (n + 1)
  refine ⟨fun h => ?_, fun h => ?_⟩
  · have hm : monthOf (plusMonths t k / 86400) = n := by
      rw [hq]; exact monthOf_unique (by omega) (by omega)
    refine ⟨hm, ?_⟩
    simp only [toCivil]
    rw [hm, hq]; omega
  · have hm : monthOf (plusMonths t k / 86400) = n + 1 := by
      rw [hq]; exact monthOf_unique (by omega) (by omega)
    refine ⟨hm, ?_⟩
    simp only [toCivil]
    rw [hm, hq]; omega

theorem windowStop_lt (cfg : EvalConfig) (k : ℕ) : windowStop cfg k < windowStop cfg (k + 1) := by
  unfold windowStop windowStart
  set t := cfg.start
  set m := cfg.months
  have hd := day_bounds t
  have a := plusMonths_landing t k
  have b := plusMonths_landing t ((k + 1 : ℕ) : ℤ)
  rw [plusMonths_eq (plusMonths t k) m, plusMonths_eq (plusMonths t ((k + 1 : ℕ) : ℤ)) m]
  have t1 : plusMonths t k % 86400 = t % 86400 := by rw [plusMonths_eq]; omega
  have t2 : plusMonths t ((k + 1 : ℕ) : ℤ) % 86400 = t % 86400 := by rw [plusMonths_eq]; omega
  rw [t1, t2]
  dsimp only at a b
  push_cast at b ⊢
  rw [← add_assoc] at b
  generalize monthOf (t / 86400) + (k : ℤ) = n at *
  generalize (toCivil t).day = d at *
  generalize hA : monthOf (plusMonths t k / 86400) = nA at *
  generalize hB : monthOf (plusMonths t (k + 1) / 86400) = nB at *
  generalize hC : (toCivil (plusMonths t k)).day = dA at *
  generalize hE : (toCivil (plusMonths t (k + 1))).day = dB at *
  obtain ⟨a1, a2⟩ := a
  obtain ⟨b1, b2⟩ := b
  have b3 := monthLength_bounds (n / 12) (n % 12 + 1)
  rw [← sub_eq_iff_eq_add'.mpr (monthStart_step n)] at b3
  have b4 := monthLength_bounds ((n + 1) / 12) ((n + 1) % 12 + 1)
  rw [← sub_eq_iff_eq_add'.mpr (monthStart_step (n + 1))] at b4
  by_cases c1 : d ≤ monthStart (n + 1) - monthStart n
  · obtain ⟨rfl, rfl⟩ := a1 c1
    by_cases c2 : dA ≤ monthStart (nA + 1 + 1) - monthStart (nA + 1)
    · obtain ⟨rfl, rfl⟩ := b1 c2
      have := monthStart_mono (show nA + m ≤ nA + 1 + m by omega)
      omega
    · obtain ⟨rfl, rfl⟩ := b2 (by omega)
      have := monthStart_mono (show nA + m ≤ nA + 1 + 1 + m by omega)
      omega
  · obtain ⟨rfl, rfl⟩ := a2 (by omega)
    by_cases c2 : d ≤ monthStart (n + 1 + 1) - monthStart (n + 1)
    · obtain ⟨rfl, rfl⟩ := b1 c2
      omega
    · obtain ⟨rfl, rfl⟩ := b2 (by omega)
      have := monthStart_mono (show n + 1 + m ≤ n + 1 + 1 + m by omega)
      omega

theorem windowStop_strictMono (cfg : EvalConfig) : StrictMono (windowStop cfg) :=
  strictMono_nat_of_lt_succ (windowStop_lt cfg)

theorem window_lower (cfg : EvalConfig) (hm : 0 < cfg.months) (k : ℕ) :
    cfg.start + 28 * 86400 * (k + 1) ≤ windowStop cfg k ∧ windowStart cfg k < windowStop cfg k := by
  have h1 := plusMonths_mono cfg.start (show (0 : ℤ) ≤ k by omega)
  have h2 := lt_plusMonths (plusMonths cfg.start k) hm
  rw [plusMonths_zero] at h1
  unfold windowStop windowStart
  omega

end windows

section rounds
variable {F D : Type} [FloatOps F] [FloatOps D] [Wide F D] [Libm F] [Libm D]

/-- One back-test of a window and its asserts. -/
def periodRun (i : EvalInputs F) (log : Bool) (start stop : ℤ) : Run (Event F) (Period F) := do
  let r ← executeTrader i.account (windowTicks i.history start stop) i.side i.cfg.fast i.emitter.trader i.emitter.init log
  Run.lift (assertThat (r.startValue >. lit F 0))
  Run.lift (assertThat (r.startPrice >. lit F 0 && r.endPrice >. lit F 0))
  return ⟨start, stop, r, r.endValue /. r.startValue, r.endPrice /. r.startPrice⟩

theorem periodRun_trace (i : EvalInputs F) (log : Bool) (start stop : ℤ) :
    (periodRun i log start stop).trace = (executeTrader i.account (windowTicks i.history start stop) i.side i.cfg.fast
      i.emitter.trader i.emitter.init log).trace := by
  unfold periodRun
  simp only [Run.bind_eq]
  cases h : (executeTrader i.account (windowTicks i.history start stop) i.side i.cfg.fast
      i.emitter.trader i.emitter.init log).out with
  | error e => rw [Run.andThen_error h]
  | ok r =>
    rw [Run.andThen_ok h]
    simp only [assertThat]
    split <;> split <;> simp [Run.lift, Run.andThen, Run.pure_eq, Run.ret]

theorem periodRun_ok (i : EvalInputs F) (log : Bool) (start stop : ℤ) (p : Period F) :
    (periodRun i log start stop).out = .ok p ↔ IsPeriod i start stop p := by
  have hlog : (executeTrader i.account (windowTicks i.history start stop) i.side i.cfg.fast i.emitter.trader i.emitter.init
      log).out = (executeTrader i.account (windowTicks i.history start stop) i.side i.cfg.fast i.emitter.trader
      i.emitter.init false).out := by
    cases log
    · rfl
    · exact (C31_logger ..).1
  unfold periodRun
  simp only [Run.bind_eq]
  cases h : (executeTrader i.account (windowTicks i.history start stop) i.side i.cfg.fast
      i.emitter.trader i.emitter.init log).out with
  | error e =>
    rw [Run.andThen_error h]
    refine ⟨fun h' => (by cases h'), fun h' => ?_⟩
    have := h'.result
    rw [← hlog, h] at this; cases this
  | ok r =>
    rw [Run.andThen_ok h]
    simp only [assertThat]
    rw [h] at hlog
    constructor
    · intro h'
      split at h'
      · next c1 =>
        split at h'
        · next c2 =>
          simp only [Run.lift, Run.andThen, Run.pure_eq, Run.ret] at h'
          cases h'
          rw [Bool.and_eq_true] at c2
          exact ⟨rfl, rfl, hlog.symm, c1, c2.1, c2.2, rfl, rfl⟩
        · simp [Run.lift, Run.andThen] at h'
      · simp [Run.lift, Run.andThen] at h'
    · rintro ⟨h1, h2, h3, h4, h5, h6, h7, h8⟩
      rw [← hlog] at h3
      cases h3
      rw [if_pos h4, if_pos (by rw [Bool.and_eq_true]; exact ⟨h5, h6⟩)]
      simp only [Run.lift, Run.andThen, Run.pure_eq, Run.ret]
      cases p
      simp only at h1 h2 h7 h8
      subst h1 h2 h7 h8
      rfl

open scoped Classical in
/-- One round of the loop of `EvaluateTrader` on a sorted history, given the window. -/
theorem evalRound_window (i : EvalInputs F) (hs : SortedBy OhlcTick.ts i.history) (log : Bool) (offset : ℤ)
    (periods : List (Period F)) {start stop : ℤ} (h1 : addMonths i.cfg.start offset = .ok start)
    (h2 : (if i.cfg.months > 0 then addMonths start i.cfg.months else .ok i.cfg.stop) = .ok stop) :
    evalRound i log offset periods =
      if stop > i.cfg.stop then ⟨[], .ok (false, periods)⟩
      else if InvertedWithRecord OhlcTick.ts i.history start stop then ⟨[], .error .undefinedBehaviour⟩
      else if windowTicks i.history start stop = [] then ⟨[], .ok (true, periods)⟩
      else (periodRun i log start stop).andThen (fun p => Run.ret (decide (i.cfg.months ≠ 0), periods ++ [p])) := by
  unfold evalRound
  simp only [Run.bind_eq]
  rw [h1]
  rw [Run.andThen_ok (x := Run.lift (Except.ok start)) rfl]
  simp only [h2]
  rw [Run.andThen_ok (x := Run.lift (Except.ok stop)) rfl]
  simp only [Run.lift, List.nil_append]
  by_cases c0 : stop > i.cfg.stop
  · rw [if_pos c0, if_pos c0]; rfl
  · rw [if_neg c0, if_neg c0]
    have hr := C15_subset_range OhlcTick.ts i.history hs start stop
    have hi := (C16_inverted_window OhlcTick.ts i.history hs start stop).2
    by_cases c1 : InvertedWithRecord OhlcTick.ts i.history start stop
    · rw [if_pos c1]
      have := hi.mpr c1
      rw [if_neg (by omega), if_pos this]
    · rw [if_neg c1]
      have hle : ¬ (historySubset OhlcTick.ts i.history start stop).2 < (historySubset OhlcTick.ts i.history start stop).1 :=
        fun h => c1 (hi.mp h)
      have hcopy := C15_subset_copy OhlcTick.ts i.history hs start stop c1
      unfold historySubsetCopy at hcopy
      dsimp only at hcopy hr
      generalize hA : (historySubset OhlcTick.ts i.history start stop).1 = A at *
      generalize hB : (historySubset OhlcTick.ts i.history start stop).2 = B at *
      by_cases c2 : A = B
      · rw [if_pos (by omega)] at hcopy
        have hnil : windowTicks i.history start stop = [] := (Except.ok.inj hcopy).symm
        rw [if_pos c2, if_pos hnil]; rfl
      · rw [if_neg (by omega), if_neg (by omega)] at hcopy
        have heq : (i.history.drop A).take (B - A) = windowTicks i.history start stop := Except.ok.inj hcopy
        have hne : windowTicks i.history start stop ≠ [] := by
          rw [← heq]
          intro h
          have := congrArg List.length h
          rw [List.length_take, List.length_drop, List.length_nil] at this
          omega
        rw [if_neg c2, if_neg hle, if_neg hne, heq]
        unfold periodRun
        simp only [Run.bind_eq, Run.andThen_assoc, Run.lift]
        rfl

end rounds
end Verif
