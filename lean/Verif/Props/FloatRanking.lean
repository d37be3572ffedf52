import Verif.Props.Ranking
import Verif.Props.FloatScore

/-!
# C125: the ranking in float arithmetic
-/

namespace Verif.Props.Ranking
open FloatOps Spec Verif.Props
open Fl (toQ IsFin)

set_option linter.unusedSectionVars false

section
variable [Libm F32] [Libm F64]

/-- The range in which the score is accurate (C103): modest periods, with exact ratios of account growth to price growth between 2^-m and 2^m for an `m` up to
100, and at most 900 / `m` periods. -/
def InRange (r : EvaluationResult F32) : Prop :=
  r.periods ≠ [] ∧ (∀ p ∈ r.periods, Modest p) ∧ ∃ m : ℕ, 0 < m ∧ m ≤ 100 ∧ r.periods.length * m ≤ 900 ∧
    ∀ p ∈ r.periods, 1 / 2 ^ m ≤ exactRatio p ∧ exactRatio p ≤ 2 ^ m

/-- The compounded growth of the account over all periods, in exact arithmetic. -/
def exactCompounded (r : EvaluationResult F32) : ℚ := (r.periods.map exactGain).prod

private theorem ratio_prod (l : List (Period F32)) :
    (l.map fun p => (exactRatio p : ℝ)).prod = ((l.map exactGain).prod : ℚ) / ((l.map exactBaseGain).prod : ℚ) := by
  induction l with
  | nil => simp
  | cons p l ih =>
    simp only [List.map_cons, List.prod_cons, ih]
    rw [show (exactRatio p : ℝ) = (exactGain p : ℝ) / (exactBaseGain p : ℝ) by unfold exactRatio; push_cast; rfl, div_mul_div_comm, Rat.cast_mul, Rat.cast_mul]

private theorem prod_pos (l : List (Period F32)) (f : Period F32 → ℚ) (h : ∀ p ∈ l, 0 < f p) : 0 < (l.map f).prod := by
  induction l with
  | nil => simp
  | cons p l ih =>
    simp only [List.map_cons, List.prod_cons]
    exact mul_pos (h p (by simp)) (ih fun q hq => h q (by simp [hq]))

private theorem base_same {i j : EvalInputs F32} {l l' : List (Period F32)} (h : List.Forall₂ (SamePeriod (D := F64) i j) l l') :
    l.map exactBaseGain = l'.map exactBaseGain := by
  induction h with
  | nil => rfl
  | cons h _ ih => simp only [List.map_cons, ih, exactBaseGain, h.startPrice, h.endPrice]

private theorem higher (hpow : AccuratePow) {recs₁ recs₂ : Option (List (SideInputRecord F32))} {i j : EvalInputs F32} (hh : i.history = j.history)
    (si : SideOf recs₁ i.side) (sj : SideOf recs₂ j.side) (hsort : SortedBy OhlcTick.ts i.history) (log₁ log₂ : Bool)
    {r s : EvaluationResult F32} (hr : (evaluateTrader i log₁).out = .ok r) (hs : (evaluateTrader j log₂).out = .ok s) (R : InRange r) (S : InRange s)
    (hl : r.periods.length = s.periods.length) (hb : r.periods.map exactBaseGain = s.periods.map exactBaseGain)
    (h : exactCompounded r * (1 + 1 / 2 ^ 18) ^ r.periods.length ≤ exactCompounded s) : (r.score <. s.score) = true := by
  obtain ⟨r0, r1, m, m0, m1, m2, m3⟩ := R
  obtain ⟨s0, s1, k, k0, k1, k2, k3⟩ := S
  obtain ⟨f1, e1⟩ := C103_score hpow i si hsort log₁ hr r0 r1 m m0 m1 m2 m3
  obtain ⟨f2, e2⟩ := C103_score hpow j sj (hh ▸ hsort) log₂ hs s0 s1 k k0 k1 k2 k3
  have hgain : ∀ p : Period F32, Modest p → 0 < exactGain p := fun p hp => lt_of_lt_of_le (by positivity) hp.gain.1
  have hbase : ∀ p : Period F32, Modest p → 0 < exactBaseGain p := fun p hp =>
    div_pos (lt_of_lt_of_le (by positivity) hp.endPrice.2.1) (lt_of_lt_of_le (by positivity) hp.startPrice.2.1)
  have hA : (0 : ℝ) < ((r.periods.map exactGain).prod : ℚ) := by exact_mod_cast prod_pos _ _ fun p hp => hgain p (r1 p hp)
  have hD : (0 : ℝ) < ((r.periods.map exactBaseGain).prod : ℚ) := by exact_mod_cast prod_pos _ _ fun p hp => hbase p (r1 p hp)
  have hn : (r.periods.length : ℝ) ≠ 0 := by simpa using r0
  have h' : (((r.periods.map exactGain).prod : ℚ) : ℝ) * (1 + 1 / 2 ^ 18) ^ r.periods.length ≤ ((s.periods.map exactGain).prod : ℚ) := by
    have : (((r.periods.map exactGain).prod * (1 + 1 / 2 ^ 18) ^ r.periods.length : ℚ) : ℝ) ≤ ((s.periods.map exactGain).prod : ℚ) :=
      Rat.cast_le.mpr h
    push_cast at this ⊢
    exact this
  have hg : geometricMean r.periods * (1 + 1 / 2 ^ 18) ≤ geometricMean s.periods := by
    unfold geometricMean
    rw [ratio_prod, ratio_prod, ← hb, ← hl]
    have e : (1 + 1 / 2 ^ 18 : ℝ) = ((1 + 1 / 2 ^ 18) ^ r.periods.length) ^ (1 / (r.periods.length : ℝ)) := by
      have hx : (0 : ℝ) ≤ 1 + 1 / 2 ^ 18 := by positivity
      generalize (1 + 1 / 2 ^ 18 : ℝ) = x at hx
      rw [← Real.rpow_natCast, ← Real.rpow_mul hx, mul_one_div_cancel hn, Real.rpow_one]
    rw [e, ← Real.mul_rpow (div_pos hA hD).le (by positivity)]
    refine Real.rpow_le_rpow (by positivity) ?_ (by positivity)
    rw [div_mul_eq_mul_div]
    exact div_le_div_of_nonneg_right h' hD.le
  have hpos : 0 < geometricMean r.periods := by
    unfold geometricMean
    rw [ratio_prod]
    exact Real.rpow_pos_of_pos (div_pos hA hD) _
  rw [abs_le] at e1 e2
  have : realOf r.score < realOf s.score := by
    have h1 := e1.2
    have h2 := e2.1
    norm_num at h1 h2 hg ⊢
    nlinarith
  exact (Fl.lt_iff f1 f2).mpr (by unfold realOf at this; exact_mod_cast this)

/-- **C125** (ranking, in float arithmetic). A trader whose account compounds, computed exactly from the reported prices and balances, at least by a factor 1 + 2^-18 per period
better than that of another one has the higher score; conversely a trader with at least the score of another one has compounded at most by a factor 1 + 2^-18 per
period worse. -/
theorem C125_float_ranking (hpow : AccuratePow) {recs₁ recs₂ : Option (List (SideInputRecord F32))} {i j : EvalInputs F32} (hc : i.cfg = j.cfg)
    (hh : i.history = j.history) (si : SideOf recs₁ i.side) (sj : SideOf recs₂ j.side) (hsort : SortedBy OhlcTick.ts i.history) (log₁ log₂ : Bool)
    {r s : EvaluationResult F32} (hr : (evaluateTrader i log₁).out = .ok r) (hs : (evaluateTrader j log₂).out = .ok s) (R : InRange r) (S : InRange s) :
    (exactCompounded r * (1 + 1 / 2 ^ 18) ^ r.periods.length ≤ exactCompounded s → (r.score <. s.score) = true) ∧
    ((s.score <. r.score) = false → exactCompounded r < exactCompounded s * (1 + 1 / 2 ^ 18) ^ r.periods.length) := by
  have hp := (C125_same_periods (D := F64) hc hh log₁ log₂ hr hs).1
  have hl := hp.length_eq
  have hb := base_same hp
  refine ⟨higher hpow hh si sj hsort log₁ log₂ hr hs R S hl hb, fun hle => ?_⟩
  by_contra hcon
  have := higher hpow hh.symm sj si (hh ▸ hsort) log₂ log₁ hs hr S R hl.symm hb.symm (by rw [← hl]; exact not_lt.mp hcon)
  rw [this] at hle
  exact absurd hle (by decide)

end

section examples
attribute [local instance] fr32 accPow

/-- A trader that never trades. -/
def frHold : Trader F32 := ⟨Unit, fun _ _ _ _ _ => .ok ((), []), fun _ => "hold"⟩

/-- The same evaluation as `accInputs` for the trader that never trades. -/
noncomputable def holdInputs : EvalInputs F32 :=
  ⟨fr32Account, ⟨1514764800, 1517443200, 0, true⟩, fr32Ticks, none, ⟨"hold", frHold, ()⟩⟩

/-- Its only period: no order, the account fell from 205 to 185. -/
noncomputable def holdPeriod : Period F32 :=
  ⟨1514764800, 1517443200, ⟨.fin 1, .fin 100, .fin 1, .fin 100, .fin 105, .fin 85, .fin 205, .fin 185, 0,
    .fin 0, .fin 0, .fin 0⟩, .fin 185 /. .fin 205, .fin 85 /. .fin 105⟩

theorem holdPeriod_modest : Modest holdPeriod := by
  refine ⟨⟨trivial, ?_, ?_⟩, ⟨trivial, ?_, ?_⟩, ⟨trivial, ?_, ?_⟩, ⟨trivial, ?_, ?_⟩, ⟨trivial, ?_, ?_⟩, ⟨trivial, ?_, ?_⟩, ?_, ?_, ?_, ?_⟩ <;>
  (simp only [holdPeriod, startWorth, endWorth, exactGain, toQ]; norm_num)

private theorem returns (i : EvalInputs F32) (p : Period F32) (hs : SortedBy OhlcTick.ts i.history) (hm : i.cfg.months = 0)
    (hne : windowTicks i.history i.cfg.start i.cfg.stop ≠ []) (hP : IsPeriod i i.cfg.start i.cfg.stop p)
    (hsum : (lit F64 0 <=. lit F64 1 *. Wide.widen (p.finalGain /. p.baseFinalGain)) = true) :
    ∃ r, (evaluateTrader i false).out = .ok r ∧ r.periods = [p] := by
  have hout := (C36_single i hs hm hne false).2.1 p hP
  rcases C36_summary i [p] with ⟨r, h1, h2⟩ | ⟨-, h⟩
  · exact ⟨r, hout.trans h1, h2⟩
  · rw [List.foldl_cons, List.foldl_nil, hsum] at h
    exact absurd h (by decide)

private theorem fr32_window : windowTicks fr32Ticks 1514764800 1517443200 = fr32Ticks := by decide +kernel

theorem accInputs_returns : ∃ r, (evaluateTrader accInputs false).out = .ok r ∧ r.periods = [accPeriod] := by
  have hex : (executeTrader fr32Account fr32Ticks none true
    (rebalancingTrader ⟨fun _ => "", fun _ _ => ""⟩ ⟨.fin (11 / 16), .fin (1 / 16)⟩) RebalancingState.init false).out =
      .ok accPeriod.result := by
    decide +kernel
  have hw : windowTicks accInputs.history accInputs.cfg.start accInputs.cfg.stop = fr32Ticks := fr32_window
  refine returns accInputs accPeriod fr32Ticks_clean.sorted rfl (by rw [hw]; exact List.cons_ne_nil _ _) ?_ (by decide +kernel)
  refine ⟨rfl, rfl, ?_, by decide +kernel, by decide +kernel, by decide +kernel, rfl, rfl⟩
  rw [hw]
  exact hex

theorem holdInputs_returns : ∃ r, (evaluateTrader holdInputs false).out = .ok r ∧ r.periods = [holdPeriod] := by
  have hex : (executeTrader fr32Account fr32Ticks none true frHold () false).out = .ok holdPeriod.result := by decide +kernel
  have hw : windowTicks holdInputs.history holdInputs.cfg.start holdInputs.cfg.stop = fr32Ticks := fr32_window
  refine returns holdInputs holdPeriod fr32Ticks_clean.sorted rfl (by rw [hw]; exact List.cons_ne_nil _ _) ?_ (by decide +kernel)
  refine ⟨rfl, rfl, ?_, by decide +kernel, by decide +kernel, by decide +kernel, rfl, rfl⟩
  rw [hw]
  exact hex

/-- Rebalancing in a falling market (the account keeps about 84% of its value) against doing nothing (about 90%): the score of the rebalancing trader is lower. -/
example : ∃ r s, (evaluateTrader accInputs false).out = .ok r ∧ (evaluateTrader holdInputs false).out = .ok s ∧ (r.score <. s.score) = true := by
  obtain ⟨r, hr, pr⟩ := accInputs_returns
  obtain ⟨s, hs, ps⟩ := holdInputs_returns
  refine ⟨r, s, hr, hs, (C125_float_ranking accPow_accurate (i := accInputs) (j := holdInputs) (recs₁ := none) (recs₂ := none) rfl rfl .none .none
    fr32Ticks_clean.sorted false false hr hs ⟨?_, ?_, 1, ?_, ?_, ?_, ?_⟩ ⟨?_, ?_, 1, ?_, ?_, ?_, ?_⟩).1 ?_⟩ <;>
  (try simp only [pr, ps, List.mem_singleton, forall_eq, exactCompounded]) <;>
  first
  | exact accPeriod_modest
  | exact holdPeriod_modest
  | (simp [accPeriod, holdPeriod, startWorth, endWorth, exactGain, exactRatio, exactBaseGain, toQ] <;> norm_num)

end examples
end Verif.Props.Ranking
