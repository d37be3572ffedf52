import Verif.Lemmas.Locality
import Verif.Props.Evaluate

/-!
# C112: what an evaluation depends on
-/

set_option linter.unusedSectionVars false

namespace Verif.Props
open FloatOps Spec Time

section
variable {F D : Type} [FloatOps F] [FloatOps D] [Wide F D] [Libm F] [Libm D]

theorem evalLoop_congr {i j : EvalInputs F} {log : Bool}
    (h : ∀ (k : ℕ) ps, evalRound (D := D) i log k ps = evalRound (D := D) j log k ps) (fuel : ℕ) :
    ∀ (k : ℕ) ps, evalLoop (D := D) i log fuel k ps = evalLoop (D := D) j log fuel k ps := by
  induction fuel with
  | zero => intros; rfl
  | succ fuel ih =>
    intro k ps
    unfold evalLoop
    rw [h]
    simp only [Run.bind_eq]
    congr 1
    funext r
    split
    · exact ih (k + 1) r.2
    · rfl

theorem windowTicks_shrink {l l' : List (OhlcTick F)} {a b c d : ℤ} (h : windowTicks l a b = windowTicks l' a b)
    (hsub : ∀ t, InWindow c d t → InWindow a b t) : windowTicks l c d = windowTicks l' c d := by
  have key : ∀ l : List (OhlcTick F), windowTicks l c d = windowTicks (windowTicks l a b) c d := by
    intro l
    unfold windowTicks
    rw [List.filter_filter]
    apply List.filter_congr
    intro t _
    by_cases h1 : InWindow c d t.ts
    · simp [h1, hsub _ h1]
    · simp [h1]
  rw [key l, key l', h]

/-- **C112** (the history outside the window). Two sorted histories with the same ticks in the configured window `[start, stop)` give the same
evaluation: result, errors, and every call and log row.  (For a period length of 0 months only the evaluations that return are compared; for a start
before 1970 windows may have no upper bound, see `Spec.InWindow`.) -/
theorem C112_history (i : EvalInputs F) (history : List (OhlcTick F)) (hs : SortedBy OhlcTick.ts i.history) (hs' : SortedBy OhlcTick.ts history)
    (h0 : 0 ≤ i.cfg.start) (ht : windowTicks history i.cfg.start i.cfg.stop = windowTicks i.history i.cfg.start i.cfg.stop) (log : Bool) :
    (0 < i.cfg.months → evaluateTrader (D := D) { i with history := history } log = evaluateTrader (D := D) i log) ∧
    ∀ r, (evaluateTrader (D := D) i log).out = .ok r → evaluateTrader (D := D) { i with history := history } log = evaluateTrader (D := D) i log := by
  have hpos : 0 < i.cfg.months → evaluateTrader (D := D) { i with history := history } log = evaluateTrader (D := D) i log := by
    intro hm
    have hround : ∀ (k : ℕ) ps, evalRound (D := D) { i with history := history } log k ps = evalRound (D := D) i log k ps := by
      intro k ps
      cases h1 : addMonths i.cfg.start k with
      | error e =>
        unfold evalRound
        simp only [Run.bind_eq]
        rw [h1, Run.andThen_error rfl, Run.andThen_error rfl]
      | ok a =>
        have ha := addMonths_eq h1
        cases h2 : addMonths a i.cfg.months with
        | error e =>
          unfold evalRound
          simp only [Run.bind_eq, if_pos hm]
          rw [h1, Run.andThen_ok (x := Run.lift (Except.ok a)) rfl, Run.andThen_ok (x := Run.lift (Except.ok a)) rfl, h2, Run.andThen_error rfl,
            Run.andThen_error rfl]
        | ok b =>
          have hb := addMonths_eq h2
          obtain ⟨w1, w2⟩ := window_lower i.cfg hm k
          have w3 := plusMonths_mono i.cfg.start (show (0 : ℤ) ≤ k by omega)
          rw [plusMonths_zero] at w3
          unfold windowStop windowStart at w1 w2
          rw [← ha, ← hb] at w1 w2
          rw [← ha] at w3
          rw [evalRound_window i hs log k ps h1 (stop := b) (by rw [if_pos hm]; exact h2),
            evalRound_window { i with history := history } hs' log k ps h1 (stop := b) (by rw [if_pos hm]; exact h2)]
          dsimp only
          by_cases c : b > i.cfg.stop
          · rw [if_pos c, if_pos c]
          · have e : windowTicks history a b = windowTicks i.history a b :=
              windowTicks_shrink ht (fun t h => ⟨fun h3 => by have := h.1 (by omega); omega, fun h3 => by have := h.2 (by omega); omega⟩)
            have hp : periodRun (D := D) { i with history := history } log a b = periodRun (D := D) i log a b := by
              unfold periodRun; simp only [e]
            have n1 : ∀ l : List (OhlcTick F), ¬ InvertedWithRecord OhlcTick.ts l a b := by rintro l ⟨_, _, _, h3, h4⟩; omega
            rw [if_neg c, if_neg c, if_neg (n1 _), if_neg (n1 _), hp, e]
    have hloop := evalLoop_congr hround (2 ^ 31) 0 []
    unfold evaluateTrader
    rw [show (0 : ℤ) = ((0 : ℕ) : ℤ) from rfl, hloop]
    rfl
  refine ⟨hpos, fun r hr => ?_⟩
  rcases lt_trichotomy i.cfg.months 0 with hm | hm | hm
  · exact absurd hr (C36_never_returns i (Or.inl hm) log r)
  · by_cases hne : windowTicks i.history i.cfg.start i.cfg.stop = []
    · exact absurd hr (C36_never_returns i (Or.inr ⟨hm, hs, hne⟩) log r)
    · obtain ⟨a1, -, -, a4⟩ := C36_single (D := D) i hs hm hne log
      obtain ⟨-, b2, -, b4⟩ := C36_single (D := D) { i with history := history } hs' hm (by dsimp only; rw [ht]; exact hne) log
      obtain ⟨p, hp, hps⟩ := a1 r hr
      have hp' : IsPeriod (D := D) { i with history := history } i.cfg.start i.cfg.stop p := by
        obtain ⟨p1, p2, p3, p4, p5, p6, p7, p8⟩ := hp
        exact ⟨p1, p2, by dsimp only; rw [ht]; exact p3, p4, p5, p6, p7, p8⟩
      have hout : (evaluateTrader (D := D) { i with history := history } log).out = (evaluateTrader (D := D) i log).out := by
        obtain ⟨-, a2, -, -⟩ := C36_single (D := D) i hs hm hne log
        rw [a2 p hp]
        exact b2 p hp'
      have htr : (evaluateTrader (D := D) { i with history := history } log).trace = (evaluateTrader (D := D) i log).trace := by
        rw [a4, b4]; dsimp only; rw [ht]
      generalize evaluateTrader (D := D) { i with history := history } log = x at hout htr ⊢
      generalize evaluateTrader (D := D) i log = y at hout htr ⊢
      cases x; cases y; cases hout; cases htr; rfl
  · exact hpos hm

/-- **C112** (the side input). Two side inputs that give the same signals at every tick of a sorted history give the same evaluation. -/
theorem C112_side {recs₁ recs₂ : Option (List (SideInputRecord F))} {side₁ side₂ : Option (SideInput F)} (h₁ : SideOf recs₁ side₁)
    (h₂ : SideOf recs₂ side₂) (i : EvalInputs F) (hs : SortedBy OhlcTick.ts i.history)
    (hsg : ∀ t ∈ i.history, signalsAt recs₁ t.ts = signalsAt recs₂ t.ts) (log : Bool) :
    evaluateTrader (D := D) { i with side := side₁ } log = evaluateTrader (D := D) { i with side := side₂ } log := by
  have hround : ∀ (k : ℕ) ps, evalRound (D := D) { i with side := side₁ } log k ps = evalRound (D := D) { i with side := side₂ } log k ps := by
    intro k ps
    have hex : ∀ a b : ℕ, executeTrader (D := D) i.account ((i.history.drop a).take b) side₁ i.cfg.fast i.emitter.trader i.emitter.init log =
        executeTrader (D := D) i.account ((i.history.drop a).take b) side₂ i.cfg.fast i.emitter.trader i.emitter.init log := by
      intro a b
      have hsub : ((i.history.drop a).take b).Sublist i.history := (List.take_sublist _ _).trans (List.drop_sublist _ _)
      exact executeTrader_signals h₁ h₂ _ _ (hs.sublist hsub) (fun t ht => hsg t (hsub.subset ht)) _ _ _ _
    unfold evalRound
    simp only [hex]
  have hloop := evalLoop_congr hround (2 ^ 31) 0 []
  unfold evaluateTrader
  rw [show (0 : ℤ) = ((0 : ℕ) : ℤ) from rfl, hloop]
  rfl

/-- **C112** (selecting beforehand). Evaluating only the ticks of the configured window - what the trader program loads - is evaluating the whole
history. -/
theorem C112_preselected (i : EvalInputs F) (hs : SortedBy OhlcTick.ts i.history) (h0 : 0 ≤ i.cfg.start) (log : Bool) (r : EvaluationResult F)
    (h : (evaluateTrader (D := D) i log).out = .ok r) :
    evaluateTrader (D := D) { i with history := windowTicks i.history i.cfg.start i.cfg.stop } log = evaluateTrader (D := D) i log :=
  (C112_history i _ hs (hs.sublist List.filter_sublist) h0 (by
    unfold windowTicks; rw [List.filter_filter]; simp) log).2 r h

/-- **C112** (selecting the side input beforehand). This is not so for the side input: if it is cut to `[start, stop)` - as the trader program does -
then a record before `start` is lost although it would still be the latest one known: until the first record of the window the trader gets no signals
at all, and from then on the same ones. -/
theorem C112_side_cut (recs : List (SideInputRecord F)) (hs : SortedBy SideInputRecord.ts recs) {start stop t : ℤ} (h0 : 0 < start) (h2 : t < stop) :
    signalsAt (some (recs.filter (fun r => decide (InWindow start stop r.ts)))) t =
      if ∃ r ∈ recs, start ≤ r.ts ∧ r.ts ≤ t then signalsAt (some recs) t else [] := by
  unfold signalsAt known
  simp only [Option.getD_some, List.filter_filter]
  have e : ∀ r ∈ recs, (decide (r.ts ≤ t) && decide (InWindow start stop r.ts)) = (decide (start ≤ r.ts) && decide (r.ts ≤ t)) := by
    intro r _
    rw [Bool.eq_iff_iff]
    rw [Bool.and_eq_true, Bool.and_eq_true, decide_eq_true_eq, decide_eq_true_eq, decide_eq_true_eq]
    constructor
    · rintro ⟨h3, h4, h5⟩; exact ⟨h4 h0, h3⟩
    · rintro ⟨h3, h4⟩; exact ⟨h4, fun _ => h3, fun _ => by omega⟩
  rw [List.filter_congr e, ← List.filter_filter]
  by_cases c : ∃ r ∈ recs, start ≤ r.ts ∧ r.ts ≤ t
  · rw [if_pos c]
    have hs' : SortedBy SideInputRecord.ts (recs.filter (fun r => decide (r.ts ≤ t))) := hs.sublist List.filter_sublist
    obtain ⟨r, h3, h4, h5⟩ := c
    have hm : r ∈ recs.filter (fun r => decide (r.ts ≤ t)) := List.mem_filter.mpr ⟨h3, by simpa using h5⟩
    generalize recs.filter (fun r => decide (r.ts ≤ t)) = l at hs' hm ⊢
    have hlast : (l.filter (fun r => decide (start ≤ r.ts))).getLast? = l.getLast? := by
      rcases List.eq_nil_or_concat l with rfl | ⟨l', b, rfl⟩
      · rfl
      · have hb : start ≤ b.ts := by
          rw [List.concat_eq_append] at hm hs'
          rcases List.mem_append.mp hm with hm | hm
          · have := (List.pairwise_append.mp hs').2.2 r hm b (by simp)
            omega
          · rw [List.mem_singleton.mp hm] at h4; exact h4
        rw [List.concat_eq_append, List.filter_append, List.filter_cons_of_pos (by simpa using hb)]
        simp
    rw [hlast]
  · rw [if_neg c]
    have : (recs.filter (fun r => decide (r.ts ≤ t))).filter (fun r => decide (start ≤ r.ts)) = [] := by
      rw [List.filter_filter, List.filter_eq_nil_iff]
      intro r hr hc
      simp only [Bool.and_eq_true, decide_eq_true_eq] at hc
      exact c ⟨r, hr, hc⟩
    rw [this]; rfl

/-- **C112** (each period alone). A successful evaluation in periods of `m > 0` months is the sequence of the evaluations of its periods alone: the
evaluation of the window of a period with period length 0 reports exactly this period - it can only fail in the score of that single period, which
must not be negative -, and the calls and log rows of the whole are those of these evaluations one after the other. -/
theorem C112_periods_alone (i : EvalInputs F) (hs : SortedBy OhlcTick.ts i.history) (hm : 0 < i.cfg.months) (log : Bool)
    {r : EvaluationResult F} (h : (evaluateTrader (D := D) i log).out = .ok r) :
    let alone (p : Period F) := evaluateTrader (D := D) { i with cfg := { i.cfg with start := p.start, stop := p.stop, months := 0 } } log
    (∀ p ∈ r.periods, (∀ r', (alone p).out = .ok r' → r'.periods = [p]) ∧
      (((lit D 1 *. Wide.widen (p.finalGain /. p.baseFinalGain) >=. lit D 0) = true → ∃ r', (alone p).out = .ok r') ∧
       ((lit D 1 *. Wide.widen (p.finalGain /. p.baseFinalGain) >=. lit D 0) = false → (alone p).out = .error .assertion))) ∧
    (evaluateTrader (D := D) i log).trace = r.periods.flatMap (fun p => (alone p).trace) := by
  obtain ⟨K, -, hall, htr⟩ := C35_periods (D := D) i hs hm log h
  intro alone
  have hone : ∀ p a b, IsPeriod (D := D) i a b p → windowTicks i.history a b ≠ [] →
      ((∀ r', (alone p).out = .ok r' → r'.periods = [p]) ∧
      (((lit D 1 *. Wide.widen (p.finalGain /. p.baseFinalGain) >=. lit D 0) = true → ∃ r', (alone p).out = .ok r') ∧
       ((lit D 1 *. Wide.widen (p.finalGain /. p.baseFinalGain) >=. lit D 0) = false → (alone p).out = .error .assertion))) ∧
      (alone p).trace = (executeTrader (D := D) i.account (windowTicks i.history a b) i.side i.cfg.fast i.emitter.trader i.emitter.init log).trace := by
    intro p a b hp hne
    have hp' := hp
    obtain ⟨rfl, rfl, p3, p4, p5, p6, p7, p8⟩ := hp
    obtain ⟨-, c2, -, c4⟩ := C36_single (D := D) { i with cfg := { i.cfg with start := p.start, stop := p.stop, months := 0 } } hs rfl hne log
    have e := c2 p ⟨rfl, rfl, p3, p4, p5, p6, p7, p8⟩
    refine ⟨⟨fun r' hr => ?_, fun hge => ?_, fun hlt => ?_⟩, c4⟩
    · exact (summarise_fields _ (e.symm.trans hr)).2.2.2
    · have : ∃ r', summarise (D := D) { i with cfg := { i.cfg with start := p.start, stop := p.stop, months := 0 } } [p] = .ok r' := by
        unfold summarise getGeometricAverage
        simp only [List.isEmpty_cons, Bool.false_eq_true, if_false, List.foldl_cons, List.foldl_nil, hge, assertThat, if_true, bind, Except.bind, pure,
          Except.pure]
        exact ⟨_, rfl⟩
      obtain ⟨r', hr'⟩ := this
      exact ⟨r', e.trans hr'⟩
    · refine e.trans ?_
      unfold summarise getGeometricAverage
      simp only [List.isEmpty_cons, Bool.false_eq_true, if_false, List.foldl_cons, List.foldl_nil, hlt, assertThat, bind, Except.bind]
  have hfil : ∀ k ∈ (List.range K).filter (fun k => !(windowTicks i.history (windowStart i.cfg k) (windowStop i.cfg k)).isEmpty),
      windowTicks i.history (windowStart i.cfg k) (windowStop i.cfg k) ≠ [] := by
    intro k hk
    simpa using (List.mem_filter.mp hk).2
  rw [htr]
  generalize (List.range K).filter (fun k => !(windowTicks i.history (windowStart i.cfg k) (windowStop i.cfg k)).isEmpty) = ks at hall hfil ⊢
  generalize r.periods = ps at hall ⊢
  clear htr h
  induction hall with
  | nil => exact ⟨fun p hp => absurd hp List.not_mem_nil, rfl⟩
  | cons h1 _ ih =>
    obtain ⟨i1, i2⟩ := ih (fun k hk => hfil k (List.mem_cons_of_mem _ hk))
    obtain ⟨o1, o2⟩ := hone _ _ _ h1 (hfil _ (by simp))
    refine ⟨fun p hp => ?_, ?_⟩
    · rcases List.mem_cons.mp hp with rfl | hp
      · exact o1
      · exact i1 p hp
    · rw [List.flatMap_cons, List.flatMap_cons, i2, o2]

end

/-! ## Non-vacuity, and the need for `0 ≤ start` -/

section examples
attribute [local instance] evLibm

/-- The same window in a longer history: a tick before the window, and other ticks after it. -/
def evLonger : List (OhlcTick ℚ) :=
  ⟨1577000000, 9, 9, 9, 9, 1⟩ :: evTicks.take 4 ++ [⟨1585785600, 6, 8, 6, 8, 2⟩, ⟨1590000000, 8, 8, 7, 7, 3⟩]

theorem evSorted : SortedBy OhlcTick.ts evTicks := by unfold SortedBy evTicks; decide +kernel

example : evLonger ≠ evInputs.history ∧
    (evaluateTrader { evInputs with history := evLonger } true).out = summarise evInputs evPeriods ∧
    (evaluateTrader { evInputs with history := evLonger } true).trace = (evaluateTrader evInputs true).trace := by
  have h := (C112_history evInputs evLonger evSorted (by unfold SortedBy evLonger evTicks; decide +kernel) (by decide) (by decide +kernel) true).1 (by decide)
  exact ⟨by unfold evLonger evInputs evTicks; decide +kernel, by rw [h]; exact evOut true, by rw [h]⟩

/-- A record superseded before the first tick, one superseded between two ticks, and one after the last tick. -/
example (log : Bool) :
    evaluateTrader { evInputs with side := some ⟨1, [1570000000, 1577000000, 1579000000, 1583000000, 1590000000], [3, 5, 6, 7, 8]⟩ } log =
    evaluateTrader { evInputs with side := some ⟨1, [1577000000, 1583000000], [5, 7]⟩ } log :=
  C112_side (.some [⟨1570000000, [3]⟩, ⟨1577000000, [5]⟩, ⟨1579000000, [6]⟩, ⟨1583000000, [7]⟩, ⟨1590000000, [8]⟩] _ rfl)
    (.some [⟨1577000000, [5]⟩, ⟨1583000000, [7]⟩] _ rfl) evInputs evSorted (by decide +kernel) log

/-- A side input that starts too late is none at all. -/
example (log : Bool) : evaluateTrader { evInputs with side := some ⟨2, [1590000000], [3, 4]⟩ } log = evaluateTrader { evInputs with side := none } log :=
  C112_side (.some [⟨1590000000, [3, 4]⟩] _ rfl) .none evInputs evSorted (by decide +kernel) log

example := C112_preselected evInputs evSorted (by decide) true

/-- A signal of 1500 is known at 2000, but not if the side input is cut to start at 1600. -/
example : signalsAt (some ([⟨1500, [5]⟩, ⟨2500, [6]⟩] : List (SideInputRecord ℚ))) 2000 = [5, 500] ∧
    signalsAt (some (([⟨1500, [5]⟩, ⟨2500, [6]⟩] : List (SideInputRecord ℚ)).filter (fun r => decide (InWindow 1600 3000 r.ts)))) 2000 = [] ∧
    signalsAt (some (([⟨1500, [5]⟩, ⟨2500, [6]⟩] : List (SideInputRecord ℚ)).filter (fun r => decide (InWindow 1600 3000 r.ts)))) 2600 = [6, 100] := by
  refine ⟨by decide +kernel, ?_, ?_⟩ <;>
    rw [C112_side_cut _ (by unfold SortedBy; decide) (by decide) (by decide)] <;> decide +kernel

/-- January 2020 alone. -/
example : ∃ r, (evaluateTrader { evInputs with cfg := ⟨1577836800, 1580515200, 0, true⟩ } true).out = .ok r ∧ r.periods = evPeriods.take 1 := by
  have hsum : ∃ r, summarise evInputs evPeriods = .ok r ∧ r.periods = evPeriods := by
    cases h : summarise evInputs evPeriods with
    | error e => exact absurd h (by
        have : (summarise evInputs evPeriods).toOption.isSome = true := by decide +kernel
        intro hc; rw [hc] at this; cases this)
    | ok r => exact ⟨r, rfl, (summarise_fields _ h).2.2.2⟩
  obtain ⟨r, h1, h2⟩ := hsum
  have hp := (C112_periods_alone evInputs evSorted (by decide) true ((evOut true).trans h1)).1 evPeriods[0] (by rw [h2]; exact List.getElem_mem _)
  obtain ⟨r', h3⟩ := hp.2.1 (by decide +kernel)
  exact ⟨r', h3, hp.1 r' h3⟩

/-- December 1969 up to the first second of 1970, in windows of one month. -/
def oldCfg : EvalConfig := ⟨-2678400, 1, 1, true⟩

/-- Its evaluation on a history. -/
def oldInputs (history : List (OhlcTick ℚ)) : EvalInputs ℚ := ⟨btCfg, oldCfg, history, none, ⟨"t", btTrader, (0 : ℕ)⟩⟩

/-- The first (and only) window ends at second 0, which is no bound. -/
theorem oldOut (history : List (OhlcTick ℚ)) (hs : SortedBy OhlcTick.ts history) (hne : history ≠ []) (p : Period ℚ)
    (hp : IsPeriod (oldInputs history) (-2678400) 0 p) (log : Bool) :
    (evaluateTrader (oldInputs history) log).out = summarise (oldInputs history) [p] := by
  refine C36_completes (oldInputs history) hs (show 0 < oldCfg.months by decide)
    (show SmallMonths oldCfg.months by unfold SmallMonths; decide) (show oldCfg.stop - oldCfg.start ≤ 28 * 86400 * (2 ^ 31 - 14) by decide) log (K := 1) ?_ ?_
  · have h0 : windowStop oldCfg 0 ≤ 1 := by decide +kernel
    have h1 : 1 < windowStop oldCfg 1 := by decide +kernel
    have hmono := (windowStop_strictMono oldCfg).monotone
    intro k
    show k < 1 ↔ windowStop oldCfg k ≤ 1
    constructor
    · intro h
      obtain rfl : k = 0 := by omega
      exact h0
    · intro h
      by_contra hc
      have := hmono (show 1 ≤ k by omega)
      omega
  · have w1 : windowStart (oldInputs history).cfg 0 = -2678400 := (show windowStart oldCfg 0 = -2678400 by decide +kernel)
    have w2 : windowStop (oldInputs history).cfg 0 = 0 := (show windowStop oldCfg 0 = 0 by decide +kernel)
    have hall : windowTicks history (-2678400) 0 = history := by
      unfold windowTicks
      rw [List.filter_eq_self]
      intro t _
      simp [InWindow]
    have : (List.range 1).filter (fun k => !(windowTicks (oldInputs history).history (windowStart (oldInputs history).cfg k)
        (windowStop (oldInputs history).cfg k)).isEmpty) = [0] := by
      rw [show List.range 1 = [0] from rfl, List.filter_cons_of_pos]
      · rfl
      · rw [w1, w2]
        show (!(windowTicks history (-2678400) 0).isEmpty) = true
        rw [hall]
        cases history with
        | nil => exact absurd rfl hne
        | cons _ _ => rfl
    rw [this]
    refine .cons ?_ .nil
    rw [w1, w2]
    exact hp

/-- **C112** (before 1970). A window that ends at or before the first second of 1970 has no bounds, and its period reports trades on ticks that lie
outside the configured time: two histories with the same ticks there give different results. -/
theorem C112_before_epoch :
    let old : List (OhlcTick ℚ) := [⟨-100, 10, 10, 10, 10, 5⟩]
    let new : List (OhlcTick ℚ) := [⟨-100, 10, 10, 10, 10, 5⟩, ⟨1577836800, 20, 20, 20, 20, 5⟩]
    windowTicks old (-2678400) 1 = windowTicks new (-2678400) 1 ∧
    ∃ r r', (evaluateTrader (oldInputs old) false).out = .ok r ∧ (evaluateTrader (oldInputs new) false).out = .ok r' ∧
      r.periods.map (fun p => (p.start, p.stop, p.baseFinalGain)) = [(-2678400, 0, 1)] ∧
      r'.periods.map (fun p => (p.start, p.stop, p.baseFinalGain)) = [(-2678400, 0, 2)] := by
  intro old new
  refine ⟨by decide +kernel, ?_⟩
  have h1 := oldOut old (by unfold SortedBy; decide +kernel) (by simp [old]) ⟨-2678400, 0, ⟨0, 100, 0, 100, 10, 10, 100, 100, 0, 0, 0, 0⟩, 1, 1⟩
    (by constructor <;> decide +kernel) false
  have h2 := oldOut new (by unfold SortedBy; decide +kernel) (by simp [new]) ⟨-2678400, 0, ⟨0, 100, 1, 80, 10, 20, 100, 100, 1, 0, 0, 0⟩, 1, 2⟩
    (by constructor <;> decide +kernel) false
  rw [h1, h2]
  cases a : summarise (oldInputs old) [⟨-2678400, 0, ⟨0, 100, 0, 100, 10, 10, 100, 100, 0, 0, 0, 0⟩, 1, 1⟩] with
  | error e => exact absurd ((congrArg (fun x => x.toOption.isSome) a).symm.trans (by decide +kernel : _ = true)) (by simp [Except.toOption])
  | ok r =>
    cases b : summarise (oldInputs new) [⟨-2678400, 0, ⟨0, 100, 1, 80, 10, 20, 100, 100, 1, 0, 0, 0⟩, 1, 2⟩] with
    | error e => exact absurd ((congrArg (fun x => x.toOption.isSome) b).symm.trans (by decide +kernel : _ = true)) (by simp [Except.toOption])
    | ok r' =>
      refine ⟨r, r', rfl, rfl, ?_, ?_⟩
      · rw [(summarise_fields _ a).2.2.2]; rfl
      · rw [(summarise_fields _ b).2.2.2]; rfl

end examples
end Verif.Props
