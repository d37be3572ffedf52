import Verif.Lemmas.Evaluate

/-!
# C35, C36: the periods of an evaluation, and termination
-/

set_option linter.unusedSectionVars false

namespace Verif.Props
open FloatOps Spec Time

section
variable {F D : Type} [FloatOps F] [FloatOps D] [Wide F D] [Libm F] [Libm D]

/-- The `k`-th window contains a tick. -/
def Busy (i : EvalInputs F) (k : ℕ) : Prop := windowTicks i.history (windowStart i.cfg k) (windowStop i.cfg k) ≠ []

open scoped Classical in
/-- The back-tests of the given windows, one after the other. -/
noncomputable def windowsRun (i : EvalInputs F) (log : Bool) : List ℕ → List (Period F) →
    Run (Event F) (List (Period F))
  | [], ps => Run.ret ps
  | k :: ks, ps =>
    if Busy i k then
      (periodRun i log (windowStart i.cfg k) (windowStop i.cfg k)).andThen (fun p => windowsRun i log ks (ps ++ [p]))
    else windowsRun i log ks ps

open scoped Classical in
theorem evalRound_months (i : EvalInputs F) (hs : SortedBy OhlcTick.ts i.history) (hm : 0 < i.cfg.months) (log : Bool)
    (k : ℕ) (ps : List (Period F)) (h1 : addMonths i.cfg.start k = .ok (windowStart i.cfg k))
    (h2 : addMonths (windowStart i.cfg k) i.cfg.months = .ok (windowStop i.cfg k)) :
    evalRound i log k ps =
      if windowStop i.cfg k > i.cfg.stop then ⟨[], .ok (false, ps)⟩
      else if Busy i k then (periodRun i log (windowStart i.cfg k) (windowStop i.cfg k)).andThen
        (fun p => Run.ret (true, ps ++ [p]))
      else ⟨[], .ok (true, ps)⟩ := by
  rw [evalRound_window i hs log k ps h1 (stop := windowStop i.cfg k) (by rw [if_pos hm]; exact h2)]
  by_cases c : windowStop i.cfg k > i.cfg.stop
  · rw [if_pos c, if_pos c]
  · rw [if_neg c, if_neg c, if_neg]
    · unfold Busy
      by_cases c2 : windowTicks i.history (windowStart i.cfg k) (windowStop i.cfg k) = []
      · rw [if_pos c2, if_neg (not_not.mpr c2)]
      · rw [if_neg c2, if_pos c2]
        have : decide (i.cfg.months ≠ 0) = true := by simp; omega
        rw [this]
    · rintro ⟨_, t, _, h3, h4⟩
      have := (window_lower i.cfg hm k).2
      omega

theorem evalRound_error (i : EvalInputs F) (log : Bool) (k : ℤ) (ps : List (Period F)) {x : Bool × List (Period F)}
    (h : (evalRound i log k ps).out = .ok x) (hm : 0 < i.cfg.months) :
    addMonths i.cfg.start k = .ok (plusMonths i.cfg.start k) ∧
    addMonths (plusMonths i.cfg.start k) i.cfg.months = .ok (plusMonths (plusMonths i.cfg.start k) i.cfg.months) := by
  unfold evalRound at h
  simp only [Run.bind_eq, if_pos hm] at h
  cases h1 : addMonths i.cfg.start k with
  | error e => rw [h1] at h; simp [Run.andThen, Run.lift] at h
  | ok a =>
    have := addMonths_eq h1; subst this
    refine ⟨rfl, ?_⟩
    rw [h1, Run.andThen_ok (x := Run.lift (Except.ok _)) rfl] at h
    cases h2 : addMonths (plusMonths i.cfg.start k) i.cfg.months with
    | error e => rw [h2] at h; simp [Run.andThen, Run.lift] at h
    | ok b => rw [addMonths_eq h2]

/-- The loop of a successful evaluation is the sequence of the back-tests of the windows. -/
theorem evalLoop_ok (i : EvalInputs F) (hs : SortedBy OhlcTick.ts i.history) (hm : 0 < i.cfg.months) (log : Bool)
    (fuel j : ℕ) (ps : List (Period F)) {rs : List (Period F)} (h : (evalLoop i log fuel j ps).out = .ok rs)
    (hj : ∀ k < j, windowStop i.cfg k ≤ i.cfg.stop) :
    ∃ n, (∀ k, k < j + n ↔ windowStop i.cfg k ≤ i.cfg.stop) ∧
      evalLoop i log fuel j ps = windowsRun i log (List.range' j n) ps := by
  induction fuel generalizing j ps with
  | zero => cases h
  | succ fuel ih =>
    unfold evalLoop at h ⊢
    simp only [Run.bind_eq] at h ⊢
    cases hr : (evalRound i log j ps).out with
    | error e => rw [Run.andThen_error hr] at h; cases h
    | ok x =>
      obtain ⟨h1, h2⟩ := evalRound_error i log j ps hr hm
      have hround := evalRound_months i hs hm log j ps h1 h2
      rw [hround] at hr h ⊢
      by_cases c : windowStop i.cfg j > i.cfg.stop
      · rw [if_pos c] at hr ⊢
        cases hr
        refine ⟨0, fun k => ⟨fun h => hj k (by omega), fun h => ?_⟩, ?_⟩
        · by_contra hk
          have := (windowStop_strictMono i.cfg).monotone (show j ≤ k by omega)
          omega
        · rw [Run.andThen_ok (x := ⟨[], .ok (false, ps)⟩) rfl]
          rfl
      · rw [if_neg c] at hr h ⊢
        have hj' : ∀ k < j + 1, windowStop i.cfg k ≤ i.cfg.stop := by
          intro k hk
          rcases Nat.lt_succ_iff_lt_or_eq.mp hk with h' | rfl
          · exact hj k h'
          · omega
        by_cases cb : Busy i j
        · rw [if_pos cb] at hr h ⊢
          rw [Run.andThen_assoc] at h ⊢
          cases hp : (periodRun i log (windowStart i.cfg j) (windowStop i.cfg j)).out with
          | error e => rw [Run.andThen_error hp] at h; cases h
          | ok p =>
            rw [Run.andThen_ok hp] at h ⊢
            simp only [Run.ret, Run.andThen, if_true, List.nil_append] at h ⊢
            have := ih (j + 1) (ps ++ [p]) (by push_cast; exact h) hj'
            obtain ⟨n, hn, he⟩ := this
            refine ⟨n + 1, fun k => by rw [← hn]; omega, ?_⟩
            rw [List.range'_succ, windowsRun, if_pos cb, Run.andThen_ok hp, ← he]
            push_cast
            rfl
        · rw [if_neg cb] at hr h ⊢
          rw [Run.andThen_ok (x := ⟨[], .ok (true, ps)⟩) rfl] at h ⊢
          simp only [if_true, List.nil_append] at h ⊢
          obtain ⟨n, hn, he⟩ := ih (j + 1) ps (by push_cast; exact h) hj'
          refine ⟨n + 1, fun k => by rw [← hn]; omega, ?_⟩
          rw [List.range'_succ, windowsRun, if_neg cb, ← he]
          push_cast
          rfl

/-- The loop terminates if no month arithmetic overflows. -/
theorem evalLoop_terminates (i : EvalInputs F) (hs : SortedBy OhlcTick.ts i.history) (hm : 0 < i.cfg.months)
    (hsm : SmallMonths i.cfg.months) (log : Bool) (n : ℕ) :
    ∀ (fuel j : ℕ) (ps : List (Period F)), n < fuel → SmallMonths ((j + n : ℕ) : ℤ) →
      (∀ k, k < j + n ↔ windowStop i.cfg k ≤ i.cfg.stop) →
      evalLoop i log fuel j ps = windowsRun i log (List.range' j n) ps := by
  induction n with
  | zero =>
    intro fuel j ps hf hsj hK
    obtain ⟨fuel, rfl⟩ : ∃ f, fuel = f + 1 := ⟨fuel - 1, by omega⟩
    unfold evalLoop
    simp only [Run.bind_eq]
    have hround := evalRound_months i hs hm log j ps (addMonths_plus _ (by simpa using hsj)) (addMonths_plus _ hsm)
    have c : windowStop i.cfg j > i.cfg.stop := by
      by_contra hc
      have := (hK j).mpr (by omega)
      omega
    rw [hround, if_pos c, Run.andThen_ok (x := ⟨[], .ok (false, ps)⟩) rfl]
    rfl
  | succ n ih =>
    intro fuel j ps hf hsj hK
    obtain ⟨fuel, rfl⟩ : ∃ f, fuel = f + 1 := ⟨fuel - 1, by omega⟩
    unfold evalLoop
    simp only [Run.bind_eq]
    have hsj' : SmallMonths (j : ℤ) := by
      unfold SmallMonths at hsj ⊢
      push_cast at hsj
      omega
    have hround := evalRound_months i hs hm log j ps (addMonths_plus _ hsj') (addMonths_plus _ hsm)
    have c : ¬ windowStop i.cfg j > i.cfg.stop := not_lt.mpr ((hK j).mp (by omega))
    have hstep : ∀ ps', evalLoop i log fuel ((j : ℤ) + 1) ps' = windowsRun i log (List.range' (j + 1) n) ps' := by
      intro ps'
      have := ih fuel (j + 1) ps' (by omega) (by rw [show j + 1 + n = j + (n + 1) by omega]; exact hsj)
        (fun k => by rw [← hK]; omega)
      rw [← this]; push_cast; rfl
    rw [hround, if_neg c, List.range'_succ, windowsRun]
    by_cases cb : Busy i j
    · rw [if_pos cb, if_pos cb, Run.andThen_assoc]
      congr 1
      funext p
      rw [← hstep]
      simp [Run.ret, Run.andThen]
    · rw [if_neg cb, if_neg cb, ← hstep]
      simp [Run.andThen]

/-- What the back-tests of a list of windows produce. -/
theorem windowsRun_ok (i : EvalInputs F) (log : Bool) (ks : List ℕ) (ps : List (Period F)) {rs : List (Period F)}
    (h : (windowsRun i log ks ps).out = .ok rs) :
    ∃ new, rs = ps ++ new ∧
      List.Forall₂ (fun k p => IsPeriod i (windowStart i.cfg k) (windowStop i.cfg k) p)
        (ks.filter (fun k => !(windowTicks i.history (windowStart i.cfg k) (windowStop i.cfg k)).isEmpty)) new ∧
      (windowsRun i log ks ps).trace = (ks.filter (fun k => !(windowTicks i.history (windowStart i.cfg k) (windowStop i.cfg k)).isEmpty)).flatMap (fun k =>
        (executeTrader i.account (windowTicks i.history (windowStart i.cfg k) (windowStop i.cfg k)) i.side i.cfg.fast
          i.emitter.trader i.emitter.init log).trace) := by
  induction ks generalizing ps with
  | nil =>
    cases h
    exact ⟨[], by simp, by simp, rfl⟩
  | cons k ks ih =>
    unfold windowsRun at h ⊢
    by_cases c : Busy i k
    · rw [if_pos c] at h ⊢
      cases hp : (periodRun i log (windowStart i.cfg k) (windowStop i.cfg k)).out with
      | error e => rw [Run.andThen_error hp] at h; cases h
      | ok p =>
        rw [Run.andThen_ok hp] at h ⊢
        obtain ⟨new, h1, h2, h3⟩ := ih _ h
        refine ⟨p :: new, by rw [h1]; simp, ?_, ?_⟩
        · rw [List.filter_cons_of_pos (by simpa [Busy] using c)]
          exact List.Forall₂.cons ((periodRun_ok ..).mp hp) h2
        · rw [List.filter_cons_of_pos (by simpa [Busy] using c), List.flatMap_cons, h3, periodRun_trace]
    · rw [if_neg c] at h ⊢
      obtain ⟨new, h1, h2, h3⟩ := ih _ h
      rw [List.filter_cons_of_neg (by simpa [Busy] using c)]
      exact ⟨new, h1, h2, h3⟩

/-- The back-test of the window `[a, b)` goes wrong with fault `e`: it faults itself, or its start value or a price is
not positive (an assertion). -/
def PeriodFault (i : EvalInputs F) (a b : ℤ) (e : Fault) : Prop :=
  (executeTrader i.account (windowTicks i.history a b) i.side i.cfg.fast i.emitter.trader i.emitter.init
    false).out = .error e ∨
  ∃ r, (executeTrader i.account (windowTicks i.history a b) i.side i.cfg.fast i.emitter.trader i.emitter.init
    false).out = .ok r ∧ e = .assertion ∧
    ¬ ((lit F 0 <. r.startValue) = true ∧ (lit F 0 <. r.startPrice) = true ∧ (lit F 0 <. r.endPrice) = true)

theorem periodRun_error (i : EvalInputs F) (log : Bool) (a b : ℤ) {e : Fault} :
    (periodRun i log a b).out = .error e ↔ PeriodFault i a b e := by
  have hlog : (executeTrader i.account (windowTicks i.history a b) i.side i.cfg.fast i.emitter.trader i.emitter.init
      log).out = (executeTrader i.account (windowTicks i.history a b) i.side i.cfg.fast i.emitter.trader
      i.emitter.init false).out := by
    cases log
    · rfl
    · exact (C31_logger ..).1
  unfold periodRun PeriodFault
  simp only [Run.bind_eq]
  rw [← hlog]
  cases h : (executeTrader i.account (windowTicks i.history a b) i.side i.cfg.fast
      i.emitter.trader i.emitter.init log).out with
  | error e' =>
    rw [Run.andThen_error h]
    simp
  | ok r =>
    rw [Run.andThen_ok h]
    simp only [assertThat]
    by_cases c1 : (lit F 0 <. r.startValue) = true
    · by_cases c2 : (lit F 0 <. r.startPrice) = true
      · by_cases c3 : (lit F 0 <. r.endPrice) = true
        · simp [c1, c2, c3, Run.lift, Run.andThen, Run.pure_eq, Run.ret]
        · simp [c1, c2, c3, Run.lift, Run.andThen, @eq_comm Fault .assertion]
      · simp [c1, c2, Run.lift, Run.andThen, @eq_comm Fault .assertion]
    · simp [c1, Run.lift, Run.andThen, @eq_comm Fault .assertion]

theorem windowsRun_error (i : EvalInputs F) (log : Bool) (ks : List ℕ) (ps : List (Period F)) {e : Fault}
    (h : (windowsRun i log ks ps).out = .error e) :
    ∃ k ∈ ks, Busy i k ∧ PeriodFault i (windowStart i.cfg k) (windowStop i.cfg k) e := by
  induction ks generalizing ps with
  | nil => cases h
  | cons k ks ih =>
    unfold windowsRun at h
    by_cases c : Busy i k
    · rw [if_pos c] at h
      cases hp : (periodRun i log (windowStart i.cfg k) (windowStop i.cfg k)).out with
      | error e' =>
        rw [Run.andThen_error hp] at h
        cases h
        exact ⟨k, by simp, c, (periodRun_error ..).mp hp⟩
      | ok p =>
        rw [Run.andThen_ok hp] at h
        obtain ⟨k', hk', h'⟩ := ih _ h
        exact ⟨k', by simp [hk'], h'⟩
    · rw [if_neg c] at h
      obtain ⟨k', hk', h'⟩ := ih _ h
      exact ⟨k', by simp [hk'], h'⟩

theorem evaluateTrader_out (i : EvalInputs F) (log : Bool) :
    (evaluateTrader i log).out = (evalLoop i log (2 ^ 31) 0 []).out.bind (summarise i) := by
  unfold evaluateTrader
  simp only [Run.bind_eq]
  cases h : (evalLoop i log (2 ^ 31) 0 []).out with
  | error e => rw [Run.andThen_error h]; rfl
  | ok ps => rw [Run.andThen_ok h]; rfl

theorem evaluateTrader_trace (i : EvalInputs F) (log : Bool) :
    (evaluateTrader i log).trace = (evalLoop i log (2 ^ 31) 0 []).trace := by
  unfold evaluateTrader
  simp only [Run.bind_eq]
  cases h : (evalLoop i log (2 ^ 31) 0 []).out with
  | error e => rw [Run.andThen_error h]
  | ok ps => rw [Run.andThen_ok h]; simp [Run.lift]

theorem summarise_fields (i : EvalInputs F) {ps : List (Period F)} {r : EvaluationResult F}
    (h : summarise i ps = .ok r) :
    r.accountConfig = i.account ∧ r.evalConfig = i.cfg ∧ r.name = i.emitter.name ∧ r.periods = ps := by
  unfold summarise at h
  simp only [bind, Except.bind, pure, Except.pure] at h
  split at h
  · cases h
  · cases h; exact ⟨rfl, rfl, rfl, rfl⟩

/-! ## C35 -/

/-- **C35**. A successful evaluation with a period length of `m > 0` calendar months on a sorted history: its periods
are exactly the back-tests, each with a fresh account and a fresh trader and on exactly the ticks of the window, of the
windows `[start + k months, start + k months + m months)`, `k = 0, 1, …`, that end no later than the configured end and
contain a tick, in this order; the interface calls made are exactly those of these back-tests. -/
theorem C35_periods (i : EvalInputs F) (hs : SortedBy OhlcTick.ts i.history) (hm : 0 < i.cfg.months) (log : Bool)
    {r : EvaluationResult F} (h : (evaluateTrader i log).out = .ok r) :
    ∃ K : ℕ, (∀ k, k < K ↔ windowStop i.cfg k ≤ i.cfg.stop) ∧
      List.Forall₂ (fun k p => IsPeriod i (windowStart i.cfg k) (windowStop i.cfg k) p)
        ((List.range K).filter
          (fun k => !(windowTicks i.history (windowStart i.cfg k) (windowStop i.cfg k)).isEmpty)) r.periods ∧
      (evaluateTrader i log).trace = ((List.range K).filter
          (fun k => !(windowTicks i.history (windowStart i.cfg k) (windowStop i.cfg k)).isEmpty)).flatMap (fun k =>
        (executeTrader i.account (windowTicks i.history (windowStart i.cfg k) (windowStop i.cfg k)) i.side i.cfg.fast
          i.emitter.trader i.emitter.init log).trace) := by
  rw [evaluateTrader_out] at h
  cases hl : (evalLoop i log (2 ^ 31) 0 []).out with
  | error e => rw [hl] at h; cases h
  | ok ps =>
    rw [hl] at h
    obtain ⟨_, _, _, hps⟩ := summarise_fields i (show summarise i ps = .ok r from h)
    obtain ⟨n, hn, he⟩ := evalLoop_ok i hs hm log (2 ^ 31) 0 [] (by push_cast; exact hl) (by simp)
    rw [zero_add] at hn
    have he' : evalLoop i log (2 ^ 31) 0 [] = windowsRun i log (List.range' 0 n) [] := by
      rw [← he]; push_cast; rfl
    rw [he'] at hl
    obtain ⟨new, h1, h2, h3⟩ := windowsRun_ok i log _ _ hl
    refine ⟨n, hn, ?_, ?_⟩
    · rw [hps, h1, List.nil_append, List.range_eq_range']; exact h2
    · rw [evaluateTrader_trace, he', h3, List.range_eq_range']

/-- **C35** (the windows). Windows move forward: the starts and the ends both strictly increase, every window is a
proper one, and it is at least 28 days per month long. -/
theorem C35_windows (cfg : EvalConfig) (hm : 0 < cfg.months) (k : ℕ) :
    windowStart cfg 0 = cfg.start ∧
    windowStart cfg k < windowStart cfg (k + 1) ∧ windowStop cfg k < windowStop cfg (k + 1) ∧
    windowStart cfg k + 28 * 86400 * cfg.months ≤ windowStop cfg k := by
  refine ⟨plusMonths_zero _, ?_, windowStop_lt cfg k, lt_plusMonths _ hm⟩
  have := plusMonths_mono cfg.start (show (k : ℤ) ≤ ((k + 1 : ℕ) : ℤ) by omega)
  unfold windowStart
  push_cast at this ⊢
  omega

/-- **C35** (echo). The result repeats the configurations and the name of the emitter. -/
theorem C35_echo (i : EvalInputs F) (log : Bool) {r : EvaluationResult F} (h : (evaluateTrader i log).out = .ok r) :
    r.accountConfig = i.account ∧ r.evalConfig = i.cfg ∧ r.name = i.emitter.name := by
  rw [evaluateTrader_out] at h
  cases hl : (evalLoop i log (2 ^ 31) 0 []).out with
  | error e => rw [hl] at h; cases h
  | ok ps =>
    rw [hl] at h
    obtain ⟨h1, h2, h3, _⟩ := summarise_fields i (show summarise i ps = .ok r from h)
    exact ⟨h1, h2, h3⟩

/-- **C35** (independence). A period's result depends on the history only through the ticks inside its window: two
evaluations that differ only in their histories (and the configured end) and have the same ticks in a window report the
same back-test for it. -/
theorem C35_local {i j : EvalInputs F} {a b : ℤ} {p q : Period F} (hacc : i.account = j.account)
    (hfast : i.cfg.fast = j.cfg.fast) (hside : i.side = j.side) (hem : i.emitter = j.emitter)
    (ht : windowTicks i.history a b = windowTicks j.history a b) (hp : IsPeriod i a b p) (hq : IsPeriod j a b q) :
    p = q := by
  obtain ⟨p1, p2, p3, _, _, _, p7, p8⟩ := hp
  obtain ⟨q1, q2, q3, _, _, _, q7, q8⟩ := hq
  rw [hacc, hfast, hside, hem, ht, q3] at p3
  cases p; cases q
  simp only at *
  cases p3
  subst p1 p2 q1 q2 p7 p8 q7 q8
  rfl

/-! ## C36 -/

theorem windows_exist (cfg : EvalConfig) (hm : 0 < cfg.months) :
    ∃ K : ℕ, (∀ k, k < K ↔ windowStop cfg k ≤ cfg.stop) ∧ 28 * 86400 * (K : ℤ) ≤ max 0 (cfg.stop - cfg.start) := by
  have hex : ∃ k, cfg.stop < windowStop cfg k := by
    refine ⟨(cfg.stop - cfg.start).toNat, ?_⟩
    have := (window_lower cfg hm (cfg.stop - cfg.start).toNat).1
    omega
  classical
  refine ⟨Nat.find hex, fun k => ⟨fun h => not_lt.mp (Nat.find_min hex h), fun h => ?_⟩, ?_⟩
  · by_contra hk
    have h1 := Nat.find_spec hex
    have h2 := (windowStop_strictMono cfg).monotone (not_lt.mp hk)
    omega
  · rcases Nat.eq_zero_or_pos (Nat.find hex) with h0 | h0
    · rw [h0]; simp
    · have h1 := Nat.find_min hex (Nat.sub_lt h0 one_pos)
      have h2 := (window_lower cfg hm (Nat.find hex - 1)).1
      have : ((Nat.find hex - 1 : ℕ) : ℤ) = (Nat.find hex : ℤ) - 1 := by omega
      rw [this] at h2
      omega

/-- **C36** (termination for `m > 0`). If the period is at most 2^31 - 14 months long and the evaluation interval at most
28 * 86400 * (2^31 - 14) seconds (more than 160 million years), `EvaluateTrader` on a sorted history terminates without
integer overflow: it aborts because the back-test of one of the windows went wrong, or it sums up the periods (`C36_summary`). -/
theorem C36_terminates (i : EvalInputs F) (hs : SortedBy OhlcTick.ts i.history) (hm : 0 < i.cfg.months)
    (hsm : SmallMonths i.cfg.months) (hlen : i.cfg.stop - i.cfg.start ≤ 28 * 86400 * (2 ^ 31 - 14)) (log : Bool) :
    ∃ K : ℕ, (∀ k, k < K ↔ windowStop i.cfg k ≤ i.cfg.stop) ∧
      ((∃ k e, k < K ∧ windowTicks i.history (windowStart i.cfg k) (windowStop i.cfg k) ≠ [] ∧
        PeriodFault i (windowStart i.cfg k) (windowStop i.cfg k) e ∧ (evaluateTrader i log).out = .error e) ∨
      (∃ ps, List.Forall₂ (fun k p => IsPeriod i (windowStart i.cfg k) (windowStop i.cfg k) p)
        ((List.range K).filter
          (fun k => !(windowTicks i.history (windowStart i.cfg k) (windowStop i.cfg k)).isEmpty)) ps ∧
        (evaluateTrader i log).out = summarise i ps)) := by
  obtain ⟨K, hK, hb⟩ := windows_exist i.cfg hm
  have hKs : (K : ℤ) ≤ 2 ^ 31 - 14 := by
    rcases le_total 0 (i.cfg.stop - i.cfg.start) with h | h
    · rw [max_eq_right h] at hb; omega
    · rw [max_eq_left h] at hb; omega
  have he := evalLoop_terminates i hs hm hsm log K (2 ^ 31) 0 [] (by omega)
    (by unfold SmallMonths; rw [zero_add]; omega) (by rw [zero_add]; exact hK)
  rw [Nat.cast_zero] at he
  refine ⟨K, hK, ?_⟩
  rw [evaluateTrader_out, he]
  cases hw : (windowsRun i log (List.range' 0 K) []).out with
  | error e =>
    left
    obtain ⟨k, hk, hbusy, hf⟩ := windowsRun_error i log _ _ hw
    refine ⟨k, e, ?_, hbusy, hf, rfl⟩
    simpa [List.mem_range'_1] using hk
  | ok ps =>
    right
    obtain ⟨new, h1, h2, _⟩ := windowsRun_ok i log _ _ hw
    rw [List.nil_append] at h1
    subst h1
    exact ⟨_, by rw [List.range_eq_range']; exact h2, rfl⟩

/-- **C36** (completion). If moreover the back-test of every window with ticks goes well, the evaluation reports exactly
these back-tests. -/
theorem C36_completes (i : EvalInputs F) (hs : SortedBy OhlcTick.ts i.history) (hm : 0 < i.cfg.months)
    (hsm : SmallMonths i.cfg.months) (hlen : i.cfg.stop - i.cfg.start ≤ 28 * 86400 * (2 ^ 31 - 14)) (log : Bool)
    {K : ℕ} (hK : ∀ k, k < K ↔ windowStop i.cfg k ≤ i.cfg.stop) {ps : List (Period F)}
    (hps : List.Forall₂ (fun k p => IsPeriod i (windowStart i.cfg k) (windowStop i.cfg k) p)
      ((List.range K).filter
        (fun k => !(windowTicks i.history (windowStart i.cfg k) (windowStop i.cfg k)).isEmpty)) ps) :
    (evaluateTrader i log).out = summarise i ps := by
  obtain ⟨K', hK', h⟩ := C36_terminates i hs hm hsm hlen log
  have : K' = K := by
    apply le_antisymm
    · by_contra hc
      have := (hK K).mpr ((hK' K).mp (by omega))
      omega
    · by_contra hc
      have := (hK' K').mpr ((hK K').mp (by omega))
      omega
  subst this
  rcases h with ⟨k, e, hk, hbusy, hf, _⟩ | ⟨ps', h1, h2⟩
  · exfalso
    have hmem : k ∈ (List.range K').filter
        (fun k => !(windowTicks i.history (windowStart i.cfg k) (windowStop i.cfg k)).isEmpty) := by
      simpa [List.mem_filter] using ⟨hk, hbusy⟩
    obtain ⟨p, -, hp⟩ : ∃ p ∈ ps, IsPeriod i (windowStart i.cfg k) (windowStop i.cfg k) p := by
      generalize (List.range K').filter
        (fun k => !(windowTicks i.history (windowStart i.cfg k) (windowStop i.cfg k)).isEmpty) = ks at hps hmem
      induction hps with
      | nil => cases hmem
      | cons h _ ih =>
        rcases List.mem_cons.mp hmem with rfl | hmem
        · exact ⟨_, by simp, h⟩
        · obtain ⟨p, hp, h'⟩ := ih hmem
          exact ⟨p, by simp [hp], h'⟩
    rcases hf with hf | ⟨r, hr, _, hn⟩
    · rw [hp.result] at hf; cases hf
    · rw [hp.result] at hr; cases hr
      exact hn ⟨hp.startValue, hp.startPrice, hp.endPrice⟩
  · rw [h2]
    congr 1
    generalize (List.range K').filter
        (fun k => !(windowTicks i.history (windowStart i.cfg k) (windowStop i.cfg k)).isEmpty) = ks at hps h1
    clear h2
    induction h1 generalizing ps with
    | nil => cases hps; rfl
    | cons h _ ih =>
      cases hps with
      | cons h' hps =>
        rw [C35_local rfl rfl rfl rfl rfl h h', ih hps]

/-- **C36** (the summary). Summing up the periods always succeeds, except that it aborts if the product of the ratios
`final_gain / base_final_gain` does not compare `≥ 0`. -/
theorem C36_summary (i : EvalInputs F) (ps : List (Period F)) :
    (∃ r, summarise i ps = .ok r ∧ r.periods = ps) ∨
    (summarise i ps = .error .assertion ∧
      ((lit D 0 <=. ps.foldl (fun mul p => mul *. Wide.widen (p.finalGain /. p.baseFinalGain)) (lit D 1)) = false)) := by
  cases hsum : summarise i ps with
  | ok r => exact Or.inl ⟨r, rfl, (summarise_fields i hsum).2.2.2⟩
  | error e =>
    right
    unfold summarise getGeometricAverage at hsum
    simp only [bind, Except.bind, pure, Except.pure, assertThat] at hsum
    split at hsum
    · rename_i h'
      cases hsum
      split at h'
      · cases h'
      · split at h'
        · rename_i h''
          cases h'
          split at h''
          · cases h''
          · rename_i hneg
            cases h''
            exact ⟨rfl, by simpa using hneg⟩
        · cases h'
    · cases hsum

/-- **C36** (the summary, exact arithmetic). If the account's value was never negative at the end of a period, the summary
succeeds. -/
theorem C36_summary_exact {K : Type} [Field K] [LinearOrder K] [IsStrictOrderedRing K] [FloorRing K] [Libm K]
    (i : EvalInputs K) (ps : List (Period K))
    (h : ∀ p ∈ ps, ∃ a b, IsPeriod i a b p ∧ 0 ≤ p.result.endValue) : ∃ r, summarise i ps = .ok r ∧ r.periods = ps := by
  rcases C36_summary i ps with h' | ⟨_, h'⟩
  · exact h'
  · exfalso
    have key : ∀ (qs : List (Period K)) (m : K), (∀ p ∈ qs, 0 ≤ p.finalGain / p.baseFinalGain) → 0 ≤ m →
        (0 : K) ≤ qs.foldl (fun (mul : K) p => mul *. Wide.widen (p.finalGain /. p.baseFinalGain)) m := by
      intro qs
      induction qs with
      | nil => intro m _ hm; exact hm
      | cons q qs ih =>
        intro m hq hm
        rw [List.foldl_cons]
        apply ih
        · intro p hp; exact hq p (by simp [hp])
        · simp only [ex_mul, ex_widen, ex_div]
          exact mul_nonneg hm (hq q (by simp))
    have := key ps (lit K 1) ?_ ?_
    · simp only [ex_le, decide_eq_false_iff_not] at h'
      rw [show lit K 0 = 0 by simp [lit]] at h'
      exact h' this
    · intro p hp
      obtain ⟨a, b, hP, hv⟩ := h p hp
      have h1 := hP.startValue
      have h2 := hP.startPrice
      have h3 := hP.endPrice
      simp only [ex_lt, lit, ex_ofRat, Rat.cast_zero, decide_eq_true_eq] at h1 h2 h3
      rw [hP.finalGain, hP.baseFinalGain]
      simp only [ex_div]
      positivity
    · simp [lit]

/-- **C36** (single window). With a period length of 0 months and a tick in the configured window, `EvaluateTrader` makes
exactly one back-test, of that window. -/
theorem C36_single (i : EvalInputs F) (hs : SortedBy OhlcTick.ts i.history) (hm : i.cfg.months = 0)
    (hne : windowTicks i.history i.cfg.start i.cfg.stop ≠ []) (log : Bool) :
    (∀ r, (evaluateTrader i log).out = .ok r →
      ∃ p, IsPeriod i i.cfg.start i.cfg.stop p ∧ r.periods = [p]) ∧
    (∀ p, IsPeriod i i.cfg.start i.cfg.stop p → (evaluateTrader i log).out = summarise i [p]) ∧
    (∀ e, PeriodFault i i.cfg.start i.cfg.stop e → (evaluateTrader i log).out = .error e) ∧
    (evaluateTrader i log).trace = (executeTrader i.account (windowTicks i.history i.cfg.start i.cfg.stop) i.side
      i.cfg.fast i.emitter.trader i.emitter.init log).trace := by
  have h0 : addMonths i.cfg.start 0 = .ok i.cfg.start := by
    rw [addMonths_plus _ (by unfold SmallMonths; omega), plusMonths_zero]
  have hround := evalRound_window i hs log 0 [] h0 (stop := i.cfg.stop) (by rw [if_neg (by omega)])
  rw [if_neg (lt_irrefl _), if_neg, if_neg hne, hm] at hround
  · have hloop : evalLoop i log (2 ^ 31) 0 [] = (periodRun i log i.cfg.start i.cfg.stop).andThen
        (fun p => Run.ret [p]) := by
      rw [show (2 ^ 31 : ℕ) = (2 ^ 31 - 1) + 1 by norm_num]
      unfold evalLoop
      simp only [Run.bind_eq]
      rw [hround, Run.andThen_assoc]
      congr 1
    rw [evaluateTrader_out, evaluateTrader_trace, hloop]
    cases hp : (periodRun i log i.cfg.start i.cfg.stop).out with
    | error e =>
      rw [Run.andThen_error hp]
      refine ⟨fun r h => (by cases h), fun p h => ?_, fun e' h => ?_, ?_⟩
      · rw [(periodRun_ok i log ..).mpr h] at hp; cases hp
      · rw [← periodRun_error i log, hp] at h; cases h; rfl
      · exact periodRun_trace ..
    | ok p =>
      rw [Run.andThen_ok hp]
      have hpp := (periodRun_ok i log ..).mp hp
      refine ⟨fun r h => ⟨p, hpp, (summarise_fields i h).2.2.2⟩, fun p' h => ?_, fun e h => ?_, ?_⟩
      · rw [(periodRun_ok i log ..).mpr h] at hp
        cases hp; rfl
      · rw [← periodRun_error i log, hp] at h; cases h
      · simp [Run.ret, periodRun_trace]
  · by_contra hc
    obtain ⟨h1, t, ht, h2, h3⟩ := hc
    apply hne
    rw [windowTicks, List.filter_eq_nil_iff]
    intro t' _ hw
    obtain ⟨h4, h5⟩ := of_decide_eq_true hw
    have := h4 (by omega); have := h5 h1; omega

theorem evalLoop_never (i : EvalInputs F) (log : Bool) (P : ℤ → Prop) (hP : ∀ k, P k → P (k + 1))
    (hround : ∀ k ps x, P k → (evalRound i log k ps).out = .ok x → x.1 = true) (fuel : ℕ) :
    ∀ (k : ℤ) (ps : List (Period F)), P k → ∀ rs, (evalLoop i log fuel k ps).out ≠ .ok rs := by
  induction fuel with
  | zero => intro k ps _ rs h; cases h
  | succ fuel ih =>
    intro k ps hk rs h
    unfold evalLoop at h
    simp only [Run.bind_eq] at h
    cases hr : (evalRound i log k ps).out with
    | error e => rw [Run.andThen_error hr] at h; cases h
    | ok x =>
      rw [Run.andThen_ok hr] at h
      simp only [hround k ps x hk hr, if_true] at h
      exact ih (k + 1) _ (hP k hk) rs h

/-- **C36** (the exception). With a period length of 0 months and no tick in the configured window, or with a negative
period length, `EvaluateTrader` never returns: the month counter runs until undefined behaviour. -/
theorem C36_never_returns (i : EvalInputs F)
    (h : i.cfg.months < 0 ∨ (i.cfg.months = 0 ∧ SortedBy OhlcTick.ts i.history ∧
      windowTicks i.history i.cfg.start i.cfg.stop = [])) (log : Bool) (r : EvaluationResult F) :
    (evaluateTrader i log).out ≠ .ok r := by
  intro hr
  rw [evaluateTrader_out] at hr
  cases hl : (evalLoop i log (2 ^ 31) 0 []).out with
  | error e => rw [hl] at hr; cases hr
  | ok ps =>
    rcases h with hm | ⟨hm, hs, hempty⟩
    · refine evalLoop_never i log (fun _ => True) (fun _ _ => trivial) ?_ _ _ _ trivial _ hl
      intro k qs x _ hx
      unfold evalRound at hx
      simp only [Run.bind_eq, if_neg (show ¬ i.cfg.months > 0 by omega)] at hx
      cases h1 : addMonths i.cfg.start k with
      | error e => rw [h1] at hx; simp [Run.andThen, Run.lift] at hx
      | ok a =>
        rw [h1, Run.andThen_ok (x := Run.lift (Except.ok _)) rfl,
          Run.andThen_ok (x := Run.lift (Except.ok _)) rfl, if_neg (lt_irrefl _)] at hx
        dsimp only at hx
        split at hx
        · cases hx; rfl
        · split at hx
          · cases hx
          · generalize executeTrader i.account _ i.side i.cfg.fast i.emitter.trader i.emitter.init log = run at hx
            cases ho : run.out with
            | error e => rw [Run.andThen_error ho] at hx; cases hx
            | ok r =>
              rw [Run.andThen_ok ho] at hx
              dsimp only at hx
              have hdec : decide (i.cfg.months ≠ 0) = true := by simp; omega
              simp only [assertThat] at hx
              split at hx
              · split at hx
                · simp only [Run.lift, Run.andThen, Run.pure_eq, Run.ret] at hx
                  cases hx; exact hdec
                · simp [Run.lift, Run.andThen] at hx
              · simp [Run.lift, Run.andThen] at hx
    · refine evalLoop_never i log (fun k => 0 ≤ k) (fun k hk => by omega) ?_ _ _ _ (le_refl 0) _ hl
      intro k qs x hk hx
      cases h1 : addMonths i.cfg.start k with
      | error e =>
        unfold evalRound at hx
        simp only [Run.bind_eq] at hx
        rw [h1] at hx; simp [Run.andThen, Run.lift] at hx
      | ok a =>
        have ha := addMonths_eq h1
        have hle := plusMonths_mono i.cfg.start hk
        rw [plusMonths_zero, ← ha] at hle
        have hround := evalRound_window i hs log k qs h1 (stop := i.cfg.stop) (by rw [if_neg (by omega)])
        rw [if_neg (lt_irrefl _)] at hround
        have he : windowTicks i.history a i.cfg.stop = [] := by
          rw [windowTicks, List.filter_eq_nil_iff] at hempty ⊢
          intro t ht hw
          apply hempty t ht
          rw [decide_eq_true_eq] at hw ⊢
          exact ⟨fun h => by have := hw.1 (by omega); omega, hw.2⟩
        rw [if_pos he] at hround
        rw [hround] at hx
        split at hx
        · cases hx
        · cases hx; rfl

end

/-! ## Non-vacuity -/

section examples

local instance evLibm : Libm ℚ := ⟨id, id, id, fun x _ => x⟩

/-- Ticks in January and March 2020 (none in February), and one in April. -/
def evTicks : List (OhlcTick ℚ) :=
  [⟨1577836800, 10, 10, 10, 10, 5⟩, ⟨1578000000, 10, 12, 10, 12, 5⟩, ⟨1583100000, 12, 12, 12, 12, 5⟩,
   ⟨1583200000, 12, 12, 6, 6, 5⟩, ⟨1586000000, 6, 6, 6, 6, 5⟩]

/-- 2020-01-01 to 2020-04-02 in windows of one month. -/
def evInputs : EvalInputs ℚ := ⟨btCfg, ⟨1577836800, 1585785600, 1, true⟩, evTicks, none, ⟨"t", btTrader, (0 : ℕ)⟩⟩

example : SortedBy OhlcTick.ts evInputs.history ∧ 0 < evInputs.cfg.months ∧ SmallMonths evInputs.cfg.months ∧
    evInputs.cfg.stop - evInputs.cfg.start ≤ 28 * 86400 * (2 ^ 31 - 14) := by
  refine ⟨by unfold SortedBy evInputs evTicks; decide +kernel, by decide, ?_, by decide⟩
  unfold SmallMonths; decide

/-- The two periods of the evaluation: January and March. -/
def evPeriods : List (Period ℚ) :=
  [⟨1577836800, 1580515200, ⟨0, 100, 1, 90, 10, 12, 100, 102, 1, 0, 0, 0⟩, 51 / 50, 6 / 5⟩,
   ⟨1583020800, 1585699200, ⟨0, 100, 1, 88, 12, 6, 100, 94, 1, 0, 0, 0⟩, 47 / 50, 1 / 2⟩]

theorem evWindows (k : ℕ) : k < 3 ↔ windowStop evInputs.cfg k ≤ evInputs.cfg.stop := by
  have h2 : windowStop evInputs.cfg 2 ≤ evInputs.cfg.stop := by decide +kernel
  have h3 : evInputs.cfg.stop < windowStop evInputs.cfg 3 := by decide +kernel
  have hmono := (windowStop_strictMono evInputs.cfg).monotone
  constructor
  · intro h
    exact le_trans (hmono (show k ≤ 2 by omega)) h2
  · intro h
    by_contra hc
    have := hmono (show 3 ≤ k by omega)
    omega

theorem evOut (log : Bool) : (evaluateTrader evInputs log).out = summarise evInputs evPeriods := by
  refine C36_completes evInputs ?_ (by decide) ?_ (by decide) log evWindows ?_
  · unfold SortedBy evInputs evTicks; decide +kernel
  · unfold SmallMonths; decide
  · rw [show (List.range 3).filter (fun k => !(windowTicks evInputs.history (windowStart evInputs.cfg k)
      (windowStop evInputs.cfg k)).isEmpty) = [0, 2] by decide +kernel]
    refine .cons ?_ (.cons ?_ .nil)
    all_goals constructor <;> decide +kernel

example : (evaluateTrader evInputs true).out = summarise evInputs evPeriods ∧
    ((summarise evInputs evPeriods).toOption.map (fun r => (r.avgGain, r.avgTotalExecutedOrders)) =
      some (49 / 50, 1)) := ⟨evOut true, by decide +kernel⟩

/-- A single window. -/
example : windowTicks evTicks 1577836800 1585785600 ≠ [] := by decide +kernel

/-- No ticks in the window. -/
example : windowTicks evTicks 1580000000 1583000000 = [] := by decide +kernel

end examples
end Verif.Props
