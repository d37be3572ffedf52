import Verif.Lemmas.Shift
import Verif.Props.Evaluate
import Verif.Model.Traders

/-!
# C111: the same history at another time
-/

namespace Verif.Props.Shift
open Verif FloatOps Spec Spec.Shift Verif.Shift Simulation Time

section
variable {F D : Type} [FloatOps F] [FloatOps D] [Wide F D] [Libm F] [Libm D]

/-- A trader for which only differences of times matter: if its states in the two runs are related by `R`, then the same tick, `d` seconds later, gives related
states and the same orders, or the same abort. -/
def TimeBlind (d : ℤ) (T : Trader F) (R : T.State → T.State → Prop) : Prop :=
  ∀ s s' t signals base quote, R s s' → 0 < t.ts → 0 < t.ts + d →
    match T.update s t signals base quote, T.update s' (tick d t) signals base quote with
    | .ok (a, orders), .ok (b, orders') => R a b ∧ orders' = orders
    | .error e, .error e' => e' = e
    | _, _ => False

theorem TimeBlind.respects {d : ℤ} {T : Trader F} {R : T.State → T.State → Prop} (h : TimeBlind d T R) : Respects d T R := by
  intro s s' t sg b q hs h0 h1
  have := h s s' t sg b q hs h0 h1
  cases hx : T.update s t sg b q <;> cases hy : T.update s' (tick d t) sg b q <;> rw [hx, hy] at this
  · exact this.symm
  · exact this
  · exact this
  · exact this

theorem inWindow_shift {d start stop t : ℤ} (h1 : start = 0 ∨ 0 < start ∧ 0 < start + d) (h2 : stop = 0 ∨ 0 < stop ∧ 0 < stop + d) :
    InWindow (bound d start) (bound d stop) (t + d) ↔ InWindow start stop t := by
  unfold InWindow bound
  split <;> split <;> omega

theorem windowTicks_shift {d start stop : ℤ} (l : List (OhlcTick F)) (h1 : start = 0 ∨ 0 < start ∧ 0 < start + d)
    (h2 : stop = 0 ∨ 0 < stop ∧ 0 < stop + d) :
    windowTicks (l.map (tick d)) (bound d start) (bound d stop) = (windowTicks l start stop).map (tick d) := by
  unfold windowTicks
  rw [List.filter_map]
  congr 1
  refine List.filter_congr fun t _ => ?_
  simp only [Function.comp]
  exact decide_eq_decide.2 (inWindow_shift h1 h2)

theorem evaluate_single (i : EvalInputs F) (hs : SortedBy OhlcTick.ts i.history) (hm : i.cfg.months = 0)
    (hne : windowTicks i.history i.cfg.start i.cfg.stop ≠ []) (log : Bool) :
    (evaluateTrader (D := D) i log).out =
      (periodRun (D := D) i log i.cfg.start i.cfg.stop).out >>= fun p => summarise (D := D) i [p] := by
  obtain ⟨-, h2, h3, -⟩ := C36_single (D := D) i hs hm hne log
  cases hp : (periodRun (D := D) i log i.cfg.start i.cfg.stop).out with
  | error e => exact h3 e ((periodRun_error i log _ _).1 hp)
  | ok p => exact h2 p ((periodRun_ok i log _ _ p).1 hp)

/-- **C111** (any trader, any arithmetic). Move the history, the side input and the evaluated window by `d` seconds: the evaluation has the same figures (or aborts in the
same way), for every `d` in a fast evaluation, for whole days otherwise (the volatilities are those of daily returns).  The evaluated window is a single period
that contains a tick; all times are positive. -/
theorem C111_any (d : ℤ) (i : EvalInputs F) (R : i.emitter.trader.State → i.emitter.trader.State → Prop)
    (hT : TimeBlind d i.emitter.trader R) (hinit : R i.emitter.init i.emitter.init)
    (hs : SortedBy OhlcTick.ts i.history) (hpos : ∀ t ∈ i.history, 0 < t.ts ∧ 0 < t.ts + d)
    (hm : i.cfg.months = 0) (hstart : i.cfg.start = 0 ∨ 0 < i.cfg.start ∧ 0 < i.cfg.start + d)
    (hstop : i.cfg.stop = 0 ∨ 0 < i.cfg.stop ∧ 0 < i.cfg.stop + d) (hne : ∃ t ∈ i.history, InWindow i.cfg.start i.cfg.stop t.ts)
    (hd : i.cfg.fast = true ∨ 86400 ∣ d) (log : Bool) :
    (evaluateTrader (D := D) { i with cfg := config d i.cfg, history := i.history.map (tick d), side := i.side.map (side d) } log).out =
      (evaluateTrader (D := D) i log).out.map (evaluation d) := by
  have hne' : windowTicks i.history i.cfg.start i.cfg.stop ≠ [] := by
    obtain ⟨t, ht, hw⟩ := hne
    intro h
    have : t ∈ windowTicks i.history i.cfg.start i.cfg.stop := List.mem_filter.2 ⟨ht, decide_eq_true hw⟩
    rw [h] at this; cases this
  have hw := windowTicks_shift i.history hstart hstop
  rw [evaluate_single i hs hm hne' log]
  rw [evaluate_single (D := D) { i with cfg := config d i.cfg, history := i.history.map (tick d), side := i.side.map (side d) }
    (by unfold SortedBy at hs ⊢; rw [List.pairwise_map]; exact hs.imp (by intro a b h; simp only [tick]; omega))
    hm (by show windowTicks (i.history.map (tick d)) (bound d i.cfg.start) (bound d i.cfg.stop) ≠ []; rw [hw]; simpa using hne') log]
  have hrun := executeTrader_shift (D := D) (cfg := i.account) (sd := i.side) hT.respects (fast := i.cfg.fast)
    (fun hf => by rcases hd with h | h; · rw [hf] at h; cases h
                  · exact h) i.emitter.init hinit (windowTicks i.history i.cfg.start i.cfg.stop)
    (fun t ht => hpos t (List.mem_filter.1 ht).1) log
  have hper : (periodRun (D := D) { i with cfg := config d i.cfg, history := i.history.map (tick d), side := i.side.map (side d) } log
      (bound d i.cfg.start) (bound d i.cfg.stop)).out = (periodRun (D := D) i log i.cfg.start i.cfg.stop).out.map (period d) := by
    apply ResRel.map_eq
    unfold periodRun
    simp only [hw]
    refine RunRel.bind (R := fun r r' => r' = r) ?_ ?_
    · show ResRel _ _ _
      rw [show (config d i.cfg).fast = i.cfg.fast from rfl, hrun]
      exact ResRel.refl _ fun _ => rfl
    · rintro r _ rfl
      refine RunRel.bind (RunRel.lift (ResRel.assert rfl)) fun _ _ _ => ?_
      exact RunRel.bind (RunRel.lift (ResRel.assert rfl)) fun _ _ _ => RunRel.pure rfl
  show (periodRun (D := D) _ log (bound d i.cfg.start) (bound d i.cfg.stop)).out >>= _ = _
  rw [hper]
  cases (periodRun (D := D) i log i.cfg.start i.cfg.stop).out with
  | error e => rfl
  | ok p =>
    show summarise _ [period d p] = (summarise i [p]).map (evaluation d)
    apply ResRel.map_eq
    unfold summarise
    refine ResRel.bind (R := fun a b => b = a) (ResRel.refl _ fun _ => rfl) ?_
    rintro score _ rfl
    exact rfl

/-! ### The two traders -/

/-- States of the rebalancing trader in the two runs: never updated, or last updated `d` seconds apart. -/
def rebalancingPair (d : ℤ) (s s' : RebalancingState F) : Prop :=
  s'.lastTs = s.lastTs + d ∨ s.lastTs = 0 ∧ s'.lastTs = 0

theorem rebalancing_timeBlind (d : ℤ) (fmt : Format F) (cfg : RebalancingConfig F) : TimeBlind d (rebalancingTrader fmt cfg) (rebalancingPair d) := by
  intro s s' t sg base quote hs h0 h1
  have hts : decide ((tick d t).ts > s'.lastTs) = decide (t.ts > s.lastTs) := by
    rw [show (tick d t).ts = t.ts + d from rfl, decide_eq_decide]
    rcases hs with h | ⟨h, h'⟩ <;> rw [h] <;> omega
  have hcl : (tick d t).close = t.close := rfl
  simp only [rebalancingTrader, rebalancingUpdate, hts, hcl]
  cases assertThat (decide (t.ts > s.lastTs)) with
  | error e => exact rfl
  | ok _ =>
    simp only [bind, Except.bind]
    cases assertThat (t.close >. lit F 0) with
    | error e => exact rfl
    | ok _ =>
      simp only
      cases assertThat (base >. lit F 0 || quote >. lit F 0) with
      | error e => exact rfl
      | ok _ => exact ⟨.inl rfl, rfl⟩

/-- States of the stop trader in the two runs: never updated, or last updated `d` seconds apart. -/
def stopPair (d : ℤ) (s s' : StopState F) : Prop :=
  s'.mode = s.mode ∧ s'.stopPrice = s.stopPrice ∧ (s'.lastTs = s.lastTs + d ∨ s.lastTs = 0 ∧ s'.lastTs = 0 ∧ s.mode = .none)

theorem stop_timeBlind (d : ℤ) (fmt : Format F) (cfg : StopConfig F) : TimeBlind d (stopTrader fmt cfg) (stopPair d) := by
  have key : Respects d (stopTrader fmt cfg) (stopPair d) := by
    rintro s s' t sg base quote ⟨hm, hp, hs⟩ h0 h1
    have hts : decide ((tick d t).ts > s'.lastTs) = decide (t.ts > s.lastTs) := by
      rw [show (tick d t).ts = t.ts + d from rfl, decide_eq_decide]
      rcases hs with h | ⟨h, h', -⟩ <;> rw [h] <;> omega
    have hcl : (tick d t).close = t.close := rfl
    have hmode : stopMode t.close base quote ≠ .none := by unfold stopMode; split <;> simp
    have hcond : ((tick d t).ts ≥ s'.lastTs + maxAllowedGapSec ∨ stopMode t.close base quote ≠ s'.mode) ↔
        (t.ts ≥ s.lastTs + maxAllowedGapSec ∨ stopMode t.close base quote ≠ s.mode) := by
      rw [hm, show (tick d t).ts = t.ts + d from rfl]
      rcases hs with h | ⟨-, -, h⟩
      · rw [h, show (t.ts + d ≥ s.lastTs + d + maxAllowedGapSec) = (t.ts ≥ s.lastTs + maxAllowedGapSec) by simp only [eq_iff_iff]; omega]
      · rw [h]; exact iff_of_true (.inr hmode) (.inr hmode)
    have htail (x : F) : ResRel (fun r r' : StopState F × List (Order F) => stopPair d r.1 r'.1 ∧ r'.2 = r.2)
        (stopOrder ⟨base, quote, t.ts, t.close, stopMode t.close base quote, x⟩ >>= fun o => pure
          ((⟨base, quote, t.ts, t.close, stopMode t.close base quote, x⟩ : StopState F), [o]))
        (stopOrder ⟨base, quote, t.ts + d, t.close, stopMode t.close base quote, x⟩ >>= fun o => pure
          ((⟨base, quote, t.ts + d, t.close, stopMode t.close base quote, x⟩ : StopState F), [o])) := by
      unfold stopOrder
      dsimp only
      split
      · exact ⟨⟨rfl, rfl, .inl rfl⟩, rfl⟩
      · cases assertThat (decide (stopMode t.close base quote = .cash)) with
        | error e => exact rfl
        | ok _ => exact ⟨⟨rfl, rfl, .inl rfl⟩, rfl⟩
    simp only [stopTrader, stopUpdate, hts, hcl]
    refine ResRel.bind (ResRel.assert rfl) fun _ _ _ => ?_
    refine ResRel.bind (ResRel.assert rfl) fun _ _ _ => ?_
    refine ResRel.bind (ResRel.assert rfl) fun _ _ _ => ?_
    by_cases hc : t.ts ≥ s.lastTs + maxAllowedGapSec ∨ stopMode t.close base quote ≠ s.mode
    · rw [if_pos hc, if_pos (hcond.2 hc)]
      split
      · exact htail _
      · exact ResRel.bind (ResRel.assert rfl) fun _ _ _ => htail _
    · rw [if_neg hc, if_neg (fun h => hc (hcond.1 h)), hm, hp]
      refine ResRel.bind (ResRel.assert rfl) fun _ _ _ => ?_
      have hl : s'.lastTs = s.lastTs + d := by
        rcases hs with h | ⟨-, -, h⟩
        · exact h
        · exact absurd (.inr (h ▸ hmode)) hc
      have hup : updateStopPrice cfg (stopMode t.close base quote) s'.lastTs (tick d t).ts s.stopPrice t.close =
          updateStopPrice cfg (stopMode t.close base quote) s.lastTs t.ts s.stopPrice t.close := by
        unfold updateStopPrice
        rw [hl, show (tick d t).ts - (s.lastTs + d) = t.ts - s.lastTs by simp [tick]]
      rw [hup]
      refine ResRel.bind (R := fun a b => b = a) (ResRel.refl _ fun _ => rfl) ?_
      intro x y hxy
      rw [hxy]
      exact htail x
  intro s s' t sg base quote hs h0 h1
  have := key s s' t sg base quote hs h0 h1
  cases hx : (stopTrader fmt cfg).update s t sg base quote <;> cases hy : (stopTrader fmt cfg).update s' (tick d t) sg base quote <;> rw [hx, hy] at this
  · exact this.symm
  · exact this
  · exact this
  · exact this

/-- **C111** (the traders of the program). -/
theorem C111_traders (d : ℤ) (fmt : Format F) (acc : AccountConfig F) (ev : EvalConfig) (history : List (OhlcTick F)) (sd : Option (SideInput F))
    (hs : SortedBy OhlcTick.ts history) (hpos : ∀ t ∈ history, 0 < t.ts ∧ 0 < t.ts + d)
    (hm : ev.months = 0) (hstart : ev.start = 0 ∨ 0 < ev.start ∧ 0 < ev.start + d)
    (hstop : ev.stop = 0 ∨ 0 < ev.stop ∧ 0 < ev.stop + d) (hne : ∃ t ∈ history, InWindow ev.start ev.stop t.ts)
    (hd : ev.fast = true ∨ 86400 ∣ d) (log : Bool) :
    (∀ cfg : RebalancingConfig F,
      (evaluateTrader (D := D) ⟨acc, config d ev, history.map (tick d), sd.map (side d), rebalancingEmitter fmt cfg⟩ log).out =
        (evaluateTrader (D := D) ⟨acc, ev, history, sd, rebalancingEmitter fmt cfg⟩ log).out.map (evaluation d)) ∧
    (∀ cfg : StopConfig F,
      (evaluateTrader (D := D) ⟨acc, config d ev, history.map (tick d), sd.map (side d), stopEmitter fmt cfg⟩ log).out =
        (evaluateTrader (D := D) ⟨acc, ev, history, sd, stopEmitter fmt cfg⟩ log).out.map (evaluation d)) :=
  ⟨fun cfg => C111_any d ⟨acc, ev, history, sd, rebalancingEmitter fmt cfg⟩ (rebalancingPair d) (rebalancing_timeBlind d fmt cfg) (.inr ⟨rfl, rfl⟩)
      hs hpos hm hstart hstop hne hd log,
    fun cfg => C111_any d ⟨acc, ev, history, sd, stopEmitter fmt cfg⟩ (stopPair d) (stop_timeBlind d fmt cfg) ⟨rfl, rfl, .inr ⟨rfl, rfl, rfl⟩⟩
      hs hpos hm hstart hstop hne hd log⟩

end

section examples
attribute [local instance] evLibm

def sFmt : Format ℚ := ⟨fun _ => "", fun _ _ => ""⟩
def sStop : StopConfig ℚ := ⟨1 / 10, 1 / 20, 1 / 100, 1 / 10⟩
def sCfg : AccountConfig ℚ := ⟨0, 100, 1 / 8, 1 / 100, ⟨1 / 100, 1 / 2, 1⟩, ⟨1 / 100, 1 / 2, 1⟩, ⟨1 / 100, 1 / 2, 1⟩, 1, 0⟩
def sSide : SideInput ℚ := ⟨1, [1577836900, 1583150000], [3, 4]⟩

/-- The example history of the evaluation, a year (2020) later, from its first second on, with a side input. -/
example := C111_traders (D := ℚ) (366 * 86400) sFmt sCfg ⟨1577836800, 0, 0, false⟩ evTicks (some sSide)
  (by unfold SortedBy evTicks; decide +kernel) (by unfold evTicks; decide +kernel) rfl (by decide) (by decide)
  (by unfold evTicks; decide +kernel) (by decide) true

/-- Half an hour earlier, without volatilities. -/
example := C111_traders (D := ℚ) (-1800) sFmt sCfg ⟨0, 1585785600, 0, true⟩ evTicks none
  (by unfold SortedBy evTicks; decide +kernel) (by unfold evTicks; decide +kernel) rfl (by decide) (by decide)
  (by unfold evTicks; decide +kernel) (by decide) false

/-- The evaluation completes and places orders. -/
example : ((evaluateTrader (D := ℚ) ⟨sCfg, ⟨1577836800, 0, 0, true⟩, evTicks, some sSide, stopEmitter sFmt sStop⟩ true).out.toOption.map
    fun r => (r.avgTotalExecutedOrders, r.avgTotalFee)) = some (2, 147 / 50) := by decide +kernel

/-- **C111** (whole days). Moved by twelve hours, the same history can have another volatility: the two ticks fall on one day or on two. -/
theorem C111_needs_whole_days : ∃ (acc : AccountConfig ℚ) (history : List (OhlcTick ℚ)) (e : Emitter ℚ) (r r' : EvaluationResult ℚ),
    SortedBy OhlcTick.ts history ∧ (∀ t ∈ history, 0 < t.ts) ∧
    (evaluateTrader (D := ℚ) ⟨acc, ⟨0, 0, 0, false⟩, history, none, e⟩ false).out = .ok r ∧
    (evaluateTrader (D := ℚ) ⟨acc, ⟨0, 0, 0, false⟩, history.map (tick 43200), none, e⟩ false).out = .ok r' ∧
    r.periods.map (·.result.baseVolatility) ≠ r'.periods.map (·.result.baseVolatility) := by
  refine ⟨sCfg, [⟨86400, 10, 10, 10, 10, 1⟩, ⟨86400 + 43200, 10, 20, 10, 20, 1⟩], rebalancingEmitter sFmt ⟨1 / 2, 1 / 10⟩, ?_⟩
  have h (h : List (OhlcTick ℚ)) (hok : (evaluateTrader (D := ℚ) ⟨sCfg, ⟨0, 0, 0, false⟩, h, none, rebalancingEmitter sFmt ⟨1 / 2, 1 / 10⟩⟩ false).out.isOk = true) :
      ∃ r, (evaluateTrader (D := ℚ) ⟨sCfg, ⟨0, 0, 0, false⟩, h, none, rebalancingEmitter sFmt ⟨1 / 2, 1 / 10⟩⟩ false).out = .ok r := by
    cases hx : (evaluateTrader (D := ℚ) ⟨sCfg, ⟨0, 0, 0, false⟩, h, none, rebalancingEmitter sFmt ⟨1 / 2, 1 / 10⟩⟩ false).out with
    | error e => rw [hx] at hok; cases hok
    | ok r => exact ⟨r, rfl⟩
  obtain ⟨r, hr⟩ := h [⟨86400, 10, 10, 10, 10, 1⟩, ⟨86400 + 43200, 10, 20, 10, 20, 1⟩] (by decide +kernel)
  obtain ⟨r', hr'⟩ := h ([⟨86400, 10, 10, 10, 10, 1⟩, ⟨86400 + 43200, 10, 20, 10, 20, 1⟩].map (tick 43200)) (by decide +kernel)
  refine ⟨r, r', by unfold SortedBy; decide +kernel, by decide +kernel, hr, hr', ?_⟩
  have h1 : ((evaluateTrader (D := ℚ) ⟨sCfg, ⟨0, 0, 0, false⟩, [⟨86400, 10, 10, 10, 10, 1⟩, ⟨86400 + 43200, 10, 20, 10, 20, 1⟩], none,
    rebalancingEmitter sFmt ⟨1 / 2, 1 / 10⟩⟩ false).out.toOption.map fun r => r.periods.map (·.result.baseVolatility)) ≠
    ((evaluateTrader (D := ℚ) ⟨sCfg, ⟨0, 0, 0, false⟩, [⟨86400, 10, 10, 10, 10, 1⟩, ⟨86400 + 43200, 10, 20, 10, 20, 1⟩].map (tick 43200), none,
    rebalancingEmitter sFmt ⟨1 / 2, 1 / 10⟩⟩ false).out.toOption.map fun r => r.periods.map (·.result.baseVolatility)) := by decide +kernel
  rw [hr, hr'] at h1
  exact fun h => h1 (congrArg some h)

end examples
end Verif.Props.Shift
