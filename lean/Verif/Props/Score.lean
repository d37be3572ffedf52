import Verif.Props.Evaluate
import Verif.Num.RealMath
import Mathlib.Analysis.MeanInequalities
import Mathlib.Algebra.Order.BigOperators.Group.List

/-!
# C38 and C34: the score and the averages of an evaluation, in exact arithmetic
-/

set_option linter.unusedSectionVars false

namespace Verif.Props
open FloatOps Spec Time

section general
variable {F D : Type} [FloatOps F] [FloatOps D] [Wide F D] [Libm F] [Libm D]

/-- **C38** (no period). An evaluation without periods reports zeros (for every arithmetic, in particular binary32). -/
theorem C38_empty (i : EvalInputs F) (log : Bool) {r : EvaluationResult F} (h : (evaluateTrader i log).out = .ok r)
    (he : r.periods = []) :
    r.score = lit F 0 ∧ r.avgGain = lit F 0 ∧ r.avgBaseGain = lit F 0 ∧ r.avgTotalExecutedOrders = lit F 0 ∧
    r.avgTotalFee = lit F 0 := by
  rw [evaluateTrader_out] at h
  cases hl : (evalLoop i log (2 ^ 31) 0 []).out with
  | error e => rw [hl] at h; cases h
  | ok ps =>
    rw [hl] at h
    have hps := (summarise_fields i (show summarise i ps = .ok r from h)).2.2.2
    rw [he] at hps
    subst hps
    cases h
    exact ⟨rfl, rfl, rfl, rfl, rfl⟩

/-- Every reported period is the back-test of a window containing a tick. -/
theorem periods_are (i : EvalInputs F) (hs : SortedBy OhlcTick.ts i.history) (log : Bool) {r : EvaluationResult F}
    (h : (evaluateTrader i log).out = .ok r) :
    ∀ p ∈ r.periods, ∃ a b, IsPeriod i a b p ∧ windowTicks i.history a b ≠ [] := by
  rcases lt_trichotomy i.cfg.months 0 with hm | hm | hm
  · exact absurd h (C36_never_returns i (Or.inl hm) log r)
  · by_cases he : windowTicks i.history i.cfg.start i.cfg.stop = []
    · exact absurd h (C36_never_returns i (Or.inr ⟨hm, hs, he⟩) log r)
    · obtain ⟨p, hp, hr⟩ := (C36_single i hs hm he log).1 r h
      rw [hr]
      intro q hq
      rw [List.mem_singleton] at hq
      subst hq
      exact ⟨_, _, hp, he⟩
  · obtain ⟨K, _, hf, _⟩ := C35_periods i hs hm log h
    intro p hp
    have hall : ∀ (ks : List ℕ) (qs : List (Period F)),
        List.Forall₂ (fun k p => IsPeriod i (windowStart i.cfg k) (windowStop i.cfg k) p) ks qs → p ∈ qs →
        ∃ k ∈ ks, IsPeriod i (windowStart i.cfg k) (windowStop i.cfg k) p := by
      intro ks qs hkq
      induction hkq with
      | nil => intro h; cases h
      | cons h _ ih =>
        intro hq
        rcases List.mem_cons.mp hq with rfl | hq
        · exact ⟨_, by simp, h⟩
        · obtain ⟨k, hk, h'⟩ := ih hq
          exact ⟨k, by simp [hk], h'⟩
    obtain ⟨k, hk, hP⟩ := hall _ _ hf hp
    refine ⟨_, _, hP, ?_⟩
    rw [List.mem_filter] at hk
    intro he
    rw [he] at hk
    simp at hk

end general

section exact

theorem foldl_sum {α : Type} (l : List α) (f : α → ℝ) (a : ℝ) :
    l.foldl (fun s x => s +. f x) a = a + (l.map f).sum := by
  induction l generalizing a with
  | nil => simp
  | cons x l ih => rw [List.foldl_cons, ih]; simp [add_assoc]

theorem foldl_prod {α : Type} (l : List α) (f : α → ℝ) (a : ℝ) :
    l.foldl (fun (s : ℝ) x => s *. Wide.widen (f x)) a = a * (l.map f).prod := by
  induction l generalizing a with
  | nil => simp
  | cons x l ih => rw [List.foldl_cons, ih]; simp [mul_assoc]

theorem getAverage_real {α : Type} (l : List α) (hl : l ≠ []) (f : α → ℝ) :
    getAverage l f = (l.map f).sum / l.length := by
  unfold getAverage
  rw [if_neg (by simpa using hl), foldl_sum]
  simp [lit]

theorem getGeometricAverage_real {α : Type} (l : List α) (hl : l ≠ []) (f : α → ℝ) {x : ℝ}
    (h : getGeometricAverage l f = .ok x) : x = (l.map f).prod ^ (1 / (l.length : ℝ)) ∧ 0 ≤ (l.map f).prod := by
  unfold getGeometricAverage at h
  rw [if_neg (by simpa using hl)] at h
  simp only [foldl_prod, bind, Except.bind, pure, Except.pure, assertThat, lit, ex_ofRat, Rat.cast_one, one_mul,
    Rat.cast_zero, ex_le] at h
  split at h
  · cases h
  · rename_i h'
    split at h'
    · rename_i hp
      cases h
      refine ⟨?_, by simpa using hp⟩
      simp [Libm.pow]
    · cases h'

/-- **C38**. In exact arithmetic the score is the geometric mean of `final_gain / base_final_gain` over the reported
periods, and the averages are the arithmetic means. -/
theorem C38_means (i : EvalInputs ℝ) (log : Bool) {r : EvaluationResult ℝ} (h : (evaluateTrader i log).out = .ok r)
    (hne : r.periods ≠ []) :
    r.score = (r.periods.map (fun p => p.finalGain / p.baseFinalGain)).prod ^ (1 / (r.periods.length : ℝ)) ∧
    r.avgGain = (r.periods.map (fun p => p.finalGain)).sum / r.periods.length ∧
    r.avgBaseGain = (r.periods.map (fun p => p.baseFinalGain)).sum / r.periods.length ∧
    r.avgTotalExecutedOrders =
      (r.periods.map (fun p => (p.result.totalExecutedOrders : ℝ))).sum / r.periods.length ∧
    r.avgTotalFee = (r.periods.map (fun p => p.result.totalFee)).sum / r.periods.length := by
  rw [evaluateTrader_out] at h
  cases hl : (evalLoop i log (2 ^ 31) 0 []).out with
  | error e => rw [hl] at h; cases h
  | ok ps =>
    rw [hl] at h
    have h : summarise i ps = .ok r := h
    have hps := (summarise_fields i h).2.2.2
    rw [hps] at hne ⊢
    unfold summarise at h
    simp only [bind, Except.bind, pure, Except.pure] at h
    cases hg : getGeometricAverage ps (fun p => p.finalGain /. p.baseFinalGain) with
    | error e => rw [hg] at h; cases h
    | ok x =>
      rw [hg] at h
      cases h
      have hx := getGeometricAverage_real ps hne _ hg
      refine ⟨hx.1, ?_, ?_, ?_, ?_⟩
      · exact getAverage_real ps hne _
      · exact getAverage_real ps hne _
      · show getAverage ps (fun p => lit ℝ p.result.totalExecutedOrders) = _
        rw [getAverage_real ps hne]; simp [lit]
      · exact getAverage_real ps hne _

theorem mean_bounds (l : List ℝ) (hl : l ≠ []) {lo hi : ℝ} (h : ∀ x ∈ l, lo ≤ x ∧ x ≤ hi) :
    lo ≤ l.sum / l.length ∧ l.sum / l.length ≤ hi := by
  have hn : (0 : ℝ) < l.length := by exact_mod_cast List.length_pos_iff.mpr hl
  have h1 := List.card_nsmul_le_sum l lo (fun x hx => (h x hx).1)
  have h2 := List.sum_le_card_nsmul l hi (fun x hx => (h x hx).2)
  rw [nsmul_eq_mul] at h1 h2
  refine ⟨?_, ?_⟩
  · rw [le_div_iff₀ hn]; linarith
  · rw [div_le_iff₀ hn]; linarith

theorem prod_bounds (l : List ℝ) {lo hi : ℝ} (h0 : 0 ≤ lo) (h : ∀ x ∈ l, lo ≤ x ∧ x ≤ hi) :
    lo ^ l.length ≤ l.prod ∧ (l.prod ≤ hi ^ l.length) ∧ 0 ≤ l.prod := by
  induction l with
  | nil => simp
  | cons x l ih =>
    obtain ⟨a, b⟩ := h x (by simp)
    obtain ⟨c, d, e⟩ := ih (fun y hy => h y (by simp [hy]))
    simp only [List.prod_cons, List.length_cons, pow_succ']
    have hx : 0 ≤ x := le_trans h0 a
    exact ⟨mul_le_mul a c (pow_nonneg h0 _) hx, mul_le_mul b d e (le_trans hx b), mul_nonneg hx e⟩

theorem geomean_bounds (l : List ℝ) (hl : l ≠ []) {lo hi : ℝ} (h0 : 0 ≤ lo) (h : ∀ x ∈ l, lo ≤ x ∧ x ≤ hi) :
    lo ≤ l.prod ^ (1 / (l.length : ℝ)) ∧ l.prod ^ (1 / (l.length : ℝ)) ≤ hi := by
  obtain ⟨a, b, c⟩ := prod_bounds l h0 h
  have hn : l.length ≠ 0 := fun h => hl (List.length_eq_zero_iff.mp h)
  have hhi : 0 ≤ hi := by
    obtain ⟨x, hx⟩ := List.exists_mem_of_ne_nil l hl
    have := h x hx
    linarith
  have hn' : (0 : ℝ) ≤ 1 / (l.length : ℝ) := by positivity
  have key : ∀ y : ℝ, 0 ≤ y → (y ^ l.length) ^ (1 / (l.length : ℝ)) = y := by
    intro y hy
    rw [one_div, Real.pow_rpow_inv_natCast hy hn]
  refine ⟨?_, ?_⟩
  · calc lo = (lo ^ l.length) ^ (1 / (l.length : ℝ)) := (key lo h0).symm
      _ ≤ _ := Real.rpow_le_rpow (pow_nonneg h0 _) a hn'
  · calc _ ≤ (hi ^ l.length) ^ (1 / (l.length : ℝ)) := Real.rpow_le_rpow c b hn'
      _ = hi := key hi hhi

/-- **C38** (bounds). Each mean lies between any bounds on the values of the periods, in particular between their
minimum and maximum. -/
theorem C38_bounds (i : EvalInputs ℝ) (log : Bool) {r : EvaluationResult ℝ} (h : (evaluateTrader i log).out = .ok r)
    (hne : r.periods ≠ []) (lo hi : ℝ) :
    (0 ≤ lo → (∀ p ∈ r.periods, lo ≤ p.finalGain / p.baseFinalGain ∧ p.finalGain / p.baseFinalGain ≤ hi) →
      lo ≤ r.score ∧ r.score ≤ hi) ∧
    ((∀ p ∈ r.periods, lo ≤ p.finalGain ∧ p.finalGain ≤ hi) → lo ≤ r.avgGain ∧ r.avgGain ≤ hi) ∧
    ((∀ p ∈ r.periods, lo ≤ p.baseFinalGain ∧ p.baseFinalGain ≤ hi) → lo ≤ r.avgBaseGain ∧ r.avgBaseGain ≤ hi) ∧
    ((∀ p ∈ r.periods, lo ≤ p.result.totalExecutedOrders ∧ (p.result.totalExecutedOrders : ℝ) ≤ hi) →
      lo ≤ r.avgTotalExecutedOrders ∧ r.avgTotalExecutedOrders ≤ hi) ∧
    ((∀ p ∈ r.periods, lo ≤ p.result.totalFee ∧ p.result.totalFee ≤ hi) →
      lo ≤ r.avgTotalFee ∧ r.avgTotalFee ≤ hi) := by
  obtain ⟨m1, m2, m3, m4, m5⟩ := C38_means i log h hne
  have hmean : ∀ f : Period ℝ → ℝ, (∀ p ∈ r.periods, lo ≤ f p ∧ f p ≤ hi) →
      lo ≤ (r.periods.map f).sum / r.periods.length ∧ (r.periods.map f).sum / r.periods.length ≤ hi := by
    intro f hf
    have := mean_bounds (r.periods.map f) (by simpa using hne) (lo := lo) (hi := hi) (by
      intro x hx
      obtain ⟨p, hp, rfl⟩ := List.mem_map.mp hx
      exact hf p hp)
    rwa [List.length_map] at this
  rw [m1, m2, m3, m4, m5]
  refine ⟨fun h0 hp => ?_, hmean _, hmean _, hmean _, hmean _⟩
  have := geomean_bounds (r.periods.map (fun p => p.finalGain / p.baseFinalGain)) (by simpa using hne) h0 (hi := hi) (by
    intro x hx
    obtain ⟨p, hp', rfl⟩ := List.mem_map.mp hx
    exact hp p hp')
  rwa [List.length_map] at this

/-! ## C34 -/

/-- **C34** (score). In exact arithmetic, a trader that never emits an order and starts with base currency only has in
every period the same gain as the baseline, and a score of exactly 1 if there is a period. -/
theorem C34_score {recs : Option (List (SideInputRecord ℝ))} (i : EvalInputs ℝ) (hside : SideOf recs i.side)
    (hs : SortedBy OhlcTick.ts i.history) (hT : Idle i.emitter.trader) (hq : i.account.startQuote = 0) (log : Bool)
    {r : EvaluationResult ℝ} (h : (evaluateTrader i log).out = .ok r) :
    (∀ p ∈ r.periods, p.finalGain = p.baseFinalGain ∧ p.result.totalExecutedOrders = 0 ∧ p.result.totalFee = 0) ∧
    r.avgGain = r.avgBaseGain ∧ (r.periods ≠ [] → r.score = 1) := by
  have key : ∀ p ∈ r.periods, (p.finalGain = p.baseFinalGain ∧ p.result.totalExecutedOrders = 0 ∧
      p.result.totalFee = 0) ∧ 0 < p.baseFinalGain := by
    intro p hp
    obtain ⟨a, b, hP, hne⟩ := periods_are i hs log h p hp
    obtain ⟨_, e1, e2, e3, e4⟩ := C34_idle hside _ _ hne _ _ hT _ _ hP.result
    obtain ⟨r1, r2, _, _, _, r6, r7, r8, r9, _⟩ := C33_result hside _ _ hne _ _ _ _ hP.result
    have h1 := hP.startValue
    have h2 := hP.startPrice
    have h3 := hP.endPrice
    simp only [ex_lt, lit, ex_ofRat, Rat.cast_zero, decide_eq_true_eq] at h1 h2 h3
    refine ⟨⟨?_, e4, by rw [e3]; simp [lit]⟩, by rw [hP.baseFinalGain]; exact div_pos h3 h2⟩
    rw [hP.finalGain, hP.baseFinalGain]
    rw [r9, e1, e2, hq]
    rw [r8, r1, r2, hq] at h1 ⊢
    simp only [ex_add, ex_mul, ex_div, zero_add] at h1 ⊢
    have : i.account.startBase ≠ 0 := by
      rintro h0
      rw [h0, mul_zero] at h1
      exact lt_irrefl _ h1
    rw [mul_div_mul_right _ _ this]
  refine ⟨fun p hp => (key p hp).1, ?_, ?_⟩
  · by_cases hne : r.periods = []
    · obtain ⟨_, a, b, _⟩ := C38_empty i log h hne
      rw [a, b]
    · obtain ⟨_, a, b, _⟩ := C38_means i log h hne
      rw [a, b, List.map_congr_left (fun p hp => (key p hp).1.1)]
  · intro hne
    have := (C38_bounds i log h hne 1 1).1 zero_le_one (fun p hp => by
      obtain ⟨⟨h1, _⟩, h2⟩ := key p hp
      rw [h1, div_self h2.ne']
      exact ⟨le_refl _, le_refl _⟩)
    linarith [this.1, this.2]

end exact

/-! ## Non-vacuity -/

section examples

/-- An account with 2 base currency and nothing else. -/
noncomputable def scCfg : AccountConfig ℝ := ⟨2, 0, 0, 0, ⟨0, 0, 0⟩, ⟨0, 0, 0⟩, ⟨0, 0, 0⟩, 1, 0⟩

/-- A trader that never trades. -/
abbrev scIdle : Trader ℝ := ⟨Unit, fun u _ _ _ _ => .ok (u, []), fun _ => ""⟩

/-- Two ticks, one evaluation window. -/
noncomputable def scInputs : EvalInputs ℝ :=
  ⟨scCfg, ⟨0, 0, 0, true⟩, [⟨60, 10, 10, 10, 10, 5⟩, ⟨120, 10, 12, 10, 12, 5⟩], none, ⟨"idle", scIdle, ()⟩⟩

theorem scStep (s : ExecState ℝ Unit) (t : OhlcTick ℝ) (ht : t.volume ≠ 0) (ho : s.orders = []) :
    (tickStep scCfg none scIdle true false s t).out = .ok s := by
  have hu : ∀ t sg b q, scIdle.update () t sg b q = .ok ((), []) := fun _ _ _ _ => rfl
  cases s
  simp only at ho
  subst ho
  simp [tickStep, sideStep, execOrders, traderStep, Run.bind_eq, Run.pure_eq, Run.andThen, Run.lift, Run.ret,
    Run.emitIf, Run.call, lit, ht, scIdle]

theorem scRun : (executeTrader scCfg [⟨60, 10, 10, 10, 10, 5⟩, ⟨120, 10, 12, 10, 12, 5⟩] none true scIdle () false).out =
    .ok ⟨2, 0, 2, 0, 10, 12, 20, 24, 0, 0, 0, 0⟩ := by
  rw [executeTrader_eq _ _ _ _ _ _ _ (by simp)]
  have h1 := scStep (execStart scCfg scIdle ()) ⟨60, 10, 10, 10, 10, 5⟩ (by norm_num) rfl
  have h2 := scStep (execStart scCfg scIdle ()) ⟨120, 10, 12, 10, 12, 5⟩ (by norm_num) rfl
  have h3 : (execLoop scCfg [⟨60, 10, 10, 10, 10, 5⟩, ⟨120, 10, 12, 10, 12, 5⟩] none true scIdle () false).out =
      .ok (execStart scCfg scIdle ()) := by
    unfold execLoop
    simp only [List.foldlM_cons, List.foldlM_nil, Run.bind_eq]
    rw [Run.andThen_ok h1, Run.andThen_ok h2]
    rfl
  rw [h3]
  norm_num [Except.map, execResult, execStart, Account.init, scCfg, lit]

/-- The idle evaluation returns, so `C34_score`, `C38_means` and `C38_bounds` apply to it. -/
example : SideOf none scInputs.side ∧ SortedBy OhlcTick.ts scInputs.history ∧ Idle scInputs.emitter.trader ∧
    scInputs.account.startQuote = 0 ∧ ∃ r, (evaluateTrader scInputs true).out = .ok r ∧ r.periods ≠ [] := by
  refine ⟨.none, ?_, ?_, rfl, ?_⟩
  · unfold SortedBy scInputs; simp
  · intro s t sg b q r h
    cases h; rfl
  · have hs : SortedBy OhlcTick.ts scInputs.history := by unfold SortedBy scInputs; simp
    have hne : windowTicks scInputs.history scInputs.cfg.start scInputs.cfg.stop = scInputs.history := by
      simp [windowTicks, scInputs, InWindow]
    have hex : (executeTrader scInputs.account scInputs.history scInputs.side scInputs.cfg.fast
        scInputs.emitter.trader scInputs.emitter.init false).out =
        .ok ⟨2, 0, 2, 0, 10, 12, 20, 24, 0, 0, 0, 0⟩ := by
      exact scRun
    have hp : IsPeriod scInputs scInputs.cfg.start scInputs.cfg.stop
        ⟨0, 0, ⟨2, 0, 2, 0, 10, 12, 20, 24, 0, 0, 0, 0⟩, 24 / 20, 12 / 10⟩ := by
      constructor
      · rfl
      · rfl
      · rw [hne, hex]
      all_goals simp [lit]
    have hout := (C36_single scInputs hs rfl (by rw [hne]; simp [scInputs]) true).2.1 _ hp
    rw [hout]
    obtain ⟨r, hr, hps⟩ := C36_summary_exact scInputs [_] (by
      intro p hp'
      rw [List.mem_singleton] at hp'
      subst hp'
      exact ⟨_, _, hp, by norm_num⟩)
    exact ⟨r, hr, by rw [hps]; simp⟩

end examples
end Verif.Props
