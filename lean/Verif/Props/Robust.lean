import Verif.Spec.Robust
import Verif.Props.Rebalancing
import Verif.Props.StopTrader
import Verif.Props.BacktestAccount
import Verif.Props.Batch
import Verif.Props.Orders

/-!
# C59: back-tests on clean data never abort
-/

set_option linter.unusedSectionVars false

namespace Verif.Props
open Verif Verif.Spec FloatOps

section exact
variable {K : Type} [Field K] [LinearOrder K] [IsStrictOrderedRing K] [FloorRing K]

/-! ### The account -/

/-- An account on which every valid order can be processed. -/
structure HealthyAccount (a : Account K) : Prop where
  base : 0 ≤ a.baseBalance
  quote : 0 ≤ a.quoteBalance
  some : 0 < a.baseBalance ∨ 0 < a.quoteBalance
  baseUnit : 0 < a.baseUnit
  quoteUnit : 0 < a.quoteUnit
  liquidity : 0 ≤ a.marketLiquidity ∧ a.marketLiquidity ≤ 1

theorem healthy_init {c : AccountConfig K} (h : CleanAccount c) : HealthyAccount (Account.init c) :=
  ⟨h.base, h.quote, h.some, h.baseUnit, h.quoteUnit, h.liquidity⟩

theorem roundUnit_pos {u x : K} (hu : 0 < u) (hx : u ≤ x) : 0 < roundUnit x u := by
  unfold roundUnit
  simp only [ex_lt, ex_ofRat, Rat.cast_zero, decide_eq_true_eq, ex_mul, ex_round, ex_div]
  rw [if_pos hu]
  apply mul_pos hu
  have h1 : (1 : K) ≤ x / u := by rwa [le_div_iff₀ hu, one_mul]
  have := roundHalfAway_mono h1
  have e : roundHalfAway (1 : K) = 1 := by simpa using roundHalfAway_intCast (K := K) 1
  rw [e] at this
  exact_mod_cast lt_of_lt_of_le (by norm_num : (0 : ℤ) < 1) this

/-- A healthy account stays healthy, whatever is executed on it. -/
theorem healthy_step {a a' : Account K} (ha : HealthyAccount a) {c : AccountConfig K} {o : Order K} {t : OhlcTick K}
    {ok : Bool} (h : a.executeOrder c o t = .ok (ok, a')) : HealthyAccount a' := by
  obtain ⟨h1, h2, h3, h4, -⟩ := C01_executeOrder a c o t ok a' h
  have hneg := C02_balances_never_negative c [(o, t)] a a' (by simpa using ha.baseUnit.le) (by simpa using ha.quoteUnit.le)
    (by simpa [NotBelowZero] using ha.base) (by simpa [NotBelowZero] using ha.quote)
    (by simp [runOrders, h, bind, Except.bind])
  simp only [NotBelowZero, ex_lt, ex_ofRat, Rat.cast_zero, decide_eq_false_iff_not, not_lt] at hneg
  refine ⟨hneg.1, hneg.2, ?_, by rw [h2]; exact ha.baseUnit, by rw [h3]; exact ha.quoteUnit,
    by rw [h4]; exact ha.liquidity⟩
  rcases a.executeOrder_ok h with ⟨rfl, rfl⟩ | ⟨rfl, ty, sd, b, -, -, -, ⟨-, h⟩ | ⟨-, h⟩⟩
  · exact ha.some
  · left
    rcases (a.buyBase_cases h).2.2 with ⟨h, -⟩ | ⟨-, hb, q, fee, -, -, -, rfl⟩
    · cases h
    · refine roundUnit_pos ha.baseUnit ?_
      simp only [ex_lt, decide_eq_false_iff_not, not_lt, ex_add] at hb ⊢
      linarith [ha.base]
  · right
    rcases (a.sellBase_cases h).2.2 with ⟨h, -⟩ | ⟨-, -, -, q, fee, -, -, hq, rfl⟩
    · cases h
    · refine roundUnit_pos ha.quoteUnit ?_
      simp only [ex_lt, decide_eq_false_iff_not, not_lt, ex_sub, ex_add] at hq ⊢
      linarith [ha.quote]

theorem healthy_orders (log : Bool) (c : AccountConfig K) {t : OhlcTick K} (ht : CleanTick t) (os : List (Order K))
    (hos : ∀ o ∈ os, ValidOrder o) (a : Account K) (ha : HealthyAccount a) (n : ℕ) :
    ∃ r, (execOrders log c t os a n).out = .ok r ∧ HealthyAccount r.1 := by
  induction os generalizing a n with
  | nil => exact ⟨_, rfl, ha⟩
  | cons o rest ih =>
    obtain ⟨⟨ok, a'⟩, hx⟩ := (C13_accepts_iff_valid a c o t ha.liquidity.1 ha.liquidity.2 ha.baseUnit.le ht.low ht.opn
      ht.high ht.volume).mpr (hos o (by simp))
    have ha' := healthy_step ha hx
    rw [execOrders_cons, hx]
    cases ok
    · exact ih (fun o ho => hos o (by simp [ho])) a' ha' n
    · exact ih (fun o ho => hos o (by simp [ho])) a' ha' (n + 1)

/-! ### The loop -/

/-- A trader that, fed with clean ticks in strictly increasing order of time and balances that are not both zero, never
aborts and only emits valid orders (`I s l`: `s` is a state it can be in after ticks up to time `l`). -/
structure SafeTrader (T : Trader K) (init : T.State) (I : T.State → ℤ → Prop) : Prop where
  start : I init 0
  step : ∀ s l t sg base quote, I s l → CleanTick t → l < t.ts → 0 ≤ base → 0 ≤ quote → (0 < base ∨ 0 < quote) →
    ∃ s' os, T.update s t sg base quote = .ok (s', os) ∧ I s' t.ts ∧ ∀ o ∈ os, ValidOrder o

/-- The state of the loop is fine after ticks up to time `m`, the last active one at time `l`. -/
structure SafeState {T : Trader K} (recs : Option (List (SideInputRecord K))) (I : T.State → ℤ → Prop) (l m : ℤ)
    (s : ExecState K T.State) : Prop where
  account : HealthyAccount s.account
  orders : ∀ o ∈ s.orders, ValidOrder o
  trader : I s.trader l
  index : s.prevIndex < (known recs m).length
  noSide : recs = none → s.prevIndex < 0

theorem known_length_mono {F : Type} [FloatOps F] (recs : Option (List (SideInputRecord F))) {t u : ℤ} (h : t ≤ u) :
    (known recs t).length ≤ (known recs u).length := by
  rw [known_of_known recs h]; exact List.length_filter_le _ _

variable [Libm K]

theorem safe_tick {recs : Option (List (SideInputRecord K))} {side : Option (SideInput K)} (hside : SideOf recs side)
    (c : AccountConfig K) {T : Trader K} {init : T.State} {I : T.State → ℤ → Prop} (hT : SafeTrader T init I) (log : Bool)
    {l m : ℤ} {s : ExecState K T.State} (hs : SafeState recs I l m s) {t : OhlcTick K} (ht : CleanTick t)
    (hm : m ≤ t.ts) (hl : active t = true → l < t.ts) :
    ∃ s', (tickStep c side T true log s t).out = .ok s' ∧
      SafeState recs I (if active t = true then t.ts else l) t.ts s' := by
  have hk := known_length_mono recs hm
  rw [tickStep_eq, sideStep_eq hside _ _ _ (by
    have := known_mono_length recs t.ts
    have := hs.index
    omega) hs.noSide]
  have hside' : ∃ r, sideSpec (known recs t.ts) t.ts s.signals s.prevIndex = .ok r ∧ r.2 < (known recs t.ts).length ∧
      (recs = none → r.2 < 0) := by
    have hi := hs.index
    unfold sideSpec
    split
    · exact ⟨_, rfl, by dsimp only; omega, hs.noSide⟩
    · rename_i hn
      rw [if_pos (by omega)]
      refine ⟨_, rfl, by dsimp only; omega, fun h => ?_⟩
      exfalso
      apply hn
      subst h
      exact ⟨rfl, hs.noSide rfl⟩
  obtain ⟨sg, hsg, hi1, hi2⟩ := hside'
  obtain ⟨r, hr, hacc⟩ := healthy_orders log c ht s.orders hs.orders s.account hs.account s.executed
  rw [hsg]
  dsimp only
  rw [hr]
  dsimp only
  by_cases hact : active t = true
  · rw [if_pos hact, if_pos hact, traderStep_eq]
    dsimp only
    obtain ⟨s', os, hu, hI, hos⟩ := hT.step s.trader l t sg.1 r.1.baseBalance r.1.quoteBalance hs.trader ht (hl hact)
      hacc.base hacc.quote hacc.some
    rw [hu]
    exact ⟨_, rfl, ⟨hacc, hos, hI, hi1, hi2⟩⟩
  · rw [if_neg hact, if_neg hact]
    exact ⟨_, rfl, ⟨hacc, hs.orders, hs.trader, hi1, hi2⟩⟩

theorem safe_loop {recs : Option (List (SideInputRecord K))} {side : Option (SideInput K)} (hside : SideOf recs side)
    (c : AccountConfig K) {T : Trader K} {init : T.State} {I : T.State → ℤ → Prop} (hT : SafeTrader T init I) (log : Bool)
    (ticks : List (OhlcTick K)) : ∀ (l m : ℤ) (s : ExecState K T.State), SafeState recs I l m s →
    CleanHistory ticks → (∀ t ∈ ticks, m ≤ t.ts) → (∀ t ∈ ticks, active t = true → l < t.ts) →
    ∃ s', (ticks.foldlM (tickStep c side T true log) s).out = .ok s' := by
  induction ticks with
  | nil => intro l m s _ _ _ _; exact ⟨s, rfl⟩
  | cons t rest ih =>
    intro l m s hs hc hm hl
    obtain ⟨s', h1, h2⟩ := safe_tick hside c hT log hs (hc.each t (by simp)) (hm t (by simp)) (hl t (by simp))
    rw [List.foldlM_cons, Run.bind_eq, Run.andThen_ok h1]
    have hsort := List.pairwise_cons.mp hc.sorted
    refine ih _ _ s' h2 ⟨fun x hx => hc.each x (by simp [hx]), hsort.2, ?_⟩ (fun x hx => hsort.1 x hx) ?_
    · by_cases hact : active t = true
      · have := hc.strict
        rw [List.filter_cons_of_pos hact] at this
        exact (List.pairwise_cons.mp this).2
      · have := hc.strict
        rwa [List.filter_cons_of_neg hact] at this
    · intro x hx hxa
      by_cases hact : active t = true
      · rw [if_pos hact]
        have := hc.strict
        rw [List.filter_cons_of_pos hact] at this
        exact (List.pairwise_cons.mp this).1 x (List.mem_filter.mpr ⟨hx, hxa⟩)
      · rw [if_neg hact]
        exact hl x (by simp [hx]) hxa

/-- **C59** (any well-behaved trader). A back-test on clean data with a clean account returns a result, fast or not,
logged or not, with any side input. -/
theorem C59_any_safe_trader {recs : Option (List (SideInputRecord K))} {side : Option (SideInput K)}
    (hside : SideOf recs side) (c : AccountConfig K) (hc : CleanAccount c) (ticks : List (OhlcTick K))
    (ht : CleanHistory ticks) (T : Trader K) (init : T.State) (I : T.State → ℤ → Prop) (hT : SafeTrader T init I)
    (fast log : Bool) : ∃ r, (executeTrader c ticks side fast T init log).out = .ok r := by
  have hfast : ∃ r, (executeTrader c ticks side true T init log).out = .ok r := by
    cases ticks with
    | nil => exact ⟨_, rfl⟩
    | cons a l =>
      rw [executeTrader_eq _ _ _ _ _ _ _ (by simp)]
      obtain ⟨s, hs⟩ := safe_loop hside c hT log (a :: l) 0 0 (execStart c T init)
        ⟨healthy_init hc, by simp [execStart], hT.start, by simp only [execStart]; omega, fun _ => by simp [execStart]⟩ ht
        (fun t h => (ht.each t h).ts.le) (fun t h _ => (ht.each t h).ts)
      have hs' : (execLoop c (a :: l) side true T init log).out = .ok s := hs
      dsimp only
      rw [hs']; exact ⟨_, rfl⟩
  cases fast with
  | true => exact hfast
  | false =>
    obtain ⟨r, hr⟩ := hfast
    exact C31_volatility_never_aborts hside c ticks ⟨ht.sorted, fun t h => (ht.each t h).ts.le⟩ T init log r hr

/-! ### The built-in traders -/

theorem rebalancing_safe (fmt : Format K) (cfg : RebalancingConfig K) (h : CleanParameters (.rebalancing cfg)) :
    SafeTrader (rebalancingTrader fmt cfg) RebalancingState.init (fun s l => s.lastTs ≤ l) where
  start := le_refl _
  step s l t sg base quote hI ht hl hb hq hbq := by
    obtain ⟨⟨s', os⟩, hu⟩ := (C52_returns_iff cfg s t sg base quote).mpr
      ⟨lt_of_le_of_lt hI hl, by simpa using ht.close, by simpa using hbq⟩
    refine ⟨s', os, hu, ?_, C52_orders_valid cfg s s' t sg base quote os h.1 h.2.1 h.2.2 hb hq hu⟩
    obtain ⟨-, -, -, rfl, -⟩ := rebalancingUpdate_ok hu
    exact le_refl _

theorem stop_safe (fmt : Format K) (cfg : StopConfig K) (h : CleanParameters (.stop cfg)) :
    SafeTrader (stopTrader fmt cfg) StopState.init (fun s l => s.lastTs ≤ l ∧ PositiveStop s) where
  start := ⟨le_refl _, .inl rfl⟩
  step s l t sg base quote hI ht hl hb hq hbq := by
    obtain ⟨⟨s', os⟩, hu⟩ := (C56_returns_iff cfg s t sg base quote).mpr
      ⟨lt_of_le_of_lt hI.1 hl, by simpa using ht.close, by simpa using hbq⟩
    obtain ⟨h1, h2⟩ := stopUpdate_valid (cfg := cfg) h hI.2 hb hu
    refine ⟨s', os, hu, ⟨?_, h1⟩, h2⟩
    obtain ⟨-, -, -, rfl, -⟩ := stopUpdate_ok hu
    exact le_refl _

/-- **C59** (execution). `ExecuteTrader` with either built-in trader on clean data returns a result. -/
theorem C59_execution_never_aborts {recs : Option (List (SideInputRecord K))} {side : Option (SideInput K)}
    (hside : SideOf recs side) (fmt : Format K) (b : BuiltIn K) (hb : CleanParameters b) (c : AccountConfig K)
    (hc : CleanAccount c) (ticks : List (OhlcTick K)) (ht : CleanHistory ticks) (fast log : Bool) :
    ∃ r, (executeTrader c ticks side fast (b.emitter fmt).trader (b.emitter fmt).init log).out = .ok r := by
  cases b with
  | rebalancing cfg => exact C59_any_safe_trader hside c hc ticks ht _ _ _ (rebalancing_safe fmt cfg hb) fast log
  | stop cfg => exact C59_any_safe_trader hside c hc ticks ht _ _ _ (stop_safe fmt cfg hb) fast log

/-- Part of a clean history is clean. -/
theorem clean_filter {ticks : List (OhlcTick K)} (h : CleanHistory ticks) (p : OhlcTick K → Bool) :
    CleanHistory (ticks.filter p) where
  each t ht := h.each t (List.mem_of_mem_filter ht)
  sorted := h.sorted.sublist List.filter_sublist
  strict := h.strict.sublist (List.filter_sublist.filter _)

/-- The inputs of an evaluation of a built-in trader on clean data. -/
structure CleanEvaluation (recs : Option (List (SideInputRecord K))) (fmt : Format K) (i : EvalInputs K) : Prop where
  side : SideOf recs i.side
  trader : ∃ b : BuiltIn K, CleanParameters b ∧ i.emitter = b.emitter fmt
  account : CleanAccount i.account
  history : CleanHistory i.history

theorem clean_period {recs : Option (List (SideInputRecord K))} {fmt : Format K} {i : EvalInputs K}
    (h : CleanEvaluation recs fmt i) (start stop : ℤ) (hne : windowTicks i.history start stop ≠ []) :
    ∃ p, IsPeriod i start stop p := by
  obtain ⟨b, hb, he⟩ := h.trader
  have hclean : CleanHistory (windowTicks i.history start stop) := clean_filter h.history _
  obtain ⟨r, hr⟩ := C59_execution_never_aborts h.side fmt b hb i.account h.account _ hclean i.cfg.fast false
  rw [← he] at hr
  obtain ⟨r1, r2, -, -, -, r6, r7, r8, -⟩ := C33_result h.side _ _ hne _ _ _ _ hr
  have hsp : 0 < r.startPrice := by rw [r6]; exact (hclean.each _ (List.head_mem hne)).close
  have hep : 0 < r.endPrice := by rw [r7]; exact (hclean.each _ (List.getLast_mem hne)).close
  have hsv : 0 < r.startValue := by
    rw [r8, r1, r2]
    simp only [ex_add, ex_mul]
    rcases h.account.some with hs | hs
    · have := mul_pos hsp hs; linarith [h.account.quote]
    · have := mul_nonneg hsp.le h.account.base; linarith
  exact ⟨⟨start, stop, r, r.endValue /. r.startValue, r.endPrice /. r.startPrice⟩, rfl, rfl, hr, by simpa using hsv, by simpa using hsp, by simpa using hep, rfl, rfl⟩

/-- **C59** (evaluation). `EvaluateTrader` with either built-in trader on clean data returns a result, with windows of a
positive number of months, or without windows if there is a tick in the evaluated range. -/
theorem C59_evaluation_never_aborts {recs : Option (List (SideInputRecord K))} {fmt : Format K} {i : EvalInputs K}
    (h : CleanEvaluation recs fmt i)
    (hcfg : (0 < i.cfg.months ∧ i.cfg.months < 2 ^ 31 - 12 ∧ i.cfg.stop - i.cfg.start ≤ 28 * 86400 * (2 ^ 31 - 14)) ∨
      (i.cfg.months = 0 ∧ ∃ t ∈ i.history, InWindow i.cfg.start i.cfg.stop t.ts)) (log : Bool) :
    ∃ r, (evaluateTrader i log).out = .ok r := by
  rcases hcfg with ⟨hm, hm2, hlen⟩ | ⟨hm, t, ht, htw⟩
  · obtain ⟨r, hr, -⟩ := C74_evaluation_returns i h.side h.history.sorted hm ⟨by omega, hm2⟩ hlen log
      h.account.baseUnit.le h.account.quoteUnit.le h.account.base h.account.quote
      (fun k _ hne => clean_period h _ _ hne)
    exact ⟨r, hr⟩
  · have hne : windowTicks i.history i.cfg.start i.cfg.stop ≠ [] := by
      intro he
      have : t ∈ windowTicks i.history i.cfg.start i.cfg.stop := List.mem_filter.mpr ⟨ht, by simpa using htw⟩
      rw [he] at this; cases this
    obtain ⟨p, hp⟩ := clean_period h i.cfg.start i.cfg.stop hne
    obtain ⟨-, h2, -, -⟩ := C36_single i h.history.sorted hm hne log
    rw [h2 p hp]
    have hv : 0 ≤ p.result.endValue := by
      have h1 := C74_balances_never_negative h.side _ _ hne _ _ _ _ hp.result (by simpa [lit] using h.account.baseUnit.le)
        (by simpa [lit] using h.account.quoteUnit.le) (by simpa [NotBelowZero, lit] using h.account.base)
        (by simpa [NotBelowZero, lit] using h.account.quote)
      obtain ⟨_, _, _, _, _, _, _, _, r9, _⟩ := C33_result h.side _ _ hne _ _ _ _ hp.result
      have h3 := hp.endPrice
      simp only [ex_lt, lit, ex_ofRat, Rat.cast_zero, decide_eq_true_eq, NotBelowZero, decide_eq_false_iff_not,
        not_lt] at h1 h3
      rw [r9]
      simp only [ex_add, ex_mul]
      have := h1.1; have := h1.2
      positivity
    obtain ⟨r, hr, -⟩ := C36_summary_exact i [p] (fun q hq => by
      rw [List.mem_singleton] at hq; subst hq; exact ⟨_, _, hp, hv⟩)
    exact ⟨r, hr⟩

/-- **C59** (batch). A batch of built-in traders evaluated on clean data delivers all its results, under every schedule
that lets each task run to its end. -/
theorem C59_batch_never_aborts {recs : Option (List (SideInputRecord K))} {fmt : Format K} (inputs : List (EvalInputs K))
    (h : ∀ i ∈ inputs, CleanEvaluation recs fmt i ∧ 0 < i.cfg.months ∧ i.cfg.months < 2 ^ 31 - 12 ∧
      i.cfg.stop - i.cfg.start ≤ 28 * 86400 * (2 ^ 31 - 14))
    (schedule : List ℕ) (hfair : ∀ k < inputs.length, 2 ^ 31 + 1 ≤ schedule.count k) :
    ∃ tasks rs, batchRun inputs schedule (batchStart inputs) = .ok tasks ∧ batchResults tasks = some rs :=
  (C37_completes inputs schedule hfair).mpr (fun i hi => C59_evaluation_never_aborts (h i hi).1 (.inl (h i hi).2) false)

end exact

/-! ### The converse: the order of the ticks matters -/

section generic
variable {F D : Type} [FloatOps F] [FloatOps D] [Wide F D] [Libm F] [Libm D]

/-- A trader that insists on increasing timestamps. -/
def Punctual (T : Trader F) (last : T.State → ℤ) : Prop :=
  ∀ s s' t sg b q os, T.update s t sg b q = .ok (s', os) → last s < t.ts ∧ last s' = t.ts

theorem punctual_loop {c : AccountConfig F} {side : Option (SideInput F)} {T : Trader F} {last : T.State → ℤ}
    (hT : Punctual T last) (fast log : Bool) (ticks : List (OhlcTick F)) (s s' : ExecState F T.State)
    (h : (ticks.foldlM (tickStep c side T fast log) s).out = .ok s') :
    (ticks.filter active).Pairwise (fun a b => a.ts < b.ts) ∧ ∀ t ∈ ticks.filter active, last s.trader < t.ts := by
  induction ticks generalizing s with
  | nil => simp
  | cons t rest ih =>
    rw [List.foldlM_cons, Run.bind_eq] at h
    cases hx : (tickStep c side T fast log s t).out with
    | error e => rw [Run.andThen_error hx] at h; cases h
    | ok s1 =>
      rw [Run.andThen_ok hx] at h
      obtain ⟨h1, h2⟩ := ih s1 h
      rw [tickStep_eq] at hx
      cases hsg : sideStep side t.ts s.signals s.prevIndex with
      | error e => rw [hsg] at hx; cases hx
      | ok sg =>
        rw [hsg] at hx
        dsimp only at hx
        cases hr : (execOrders log c t s.orders s.account s.executed).out with
        | error e => rw [hr] at hx; cases hx
        | ok r =>
          rw [hr] at hx
          dsimp only at hx
          by_cases hact : active t = true
          · rw [if_pos hact, traderStep_eq] at hx
            dsimp only at hx
            cases hu : T.update s.trader t sg.1 r.1.baseBalance r.1.quoteBalance with
            | error e => rw [hu] at hx; cases hx
            | ok u =>
              rw [hu] at hx
              obtain ⟨-, -, -, -, -, hv⟩ := volPart_ok hx
              obtain ⟨g1, g2⟩ := hT _ _ _ _ _ _ _ hu
              rw [hv] at h2
              dsimp only at h2
              rw [g2] at h2
              rw [List.filter_cons_of_pos hact]
              refine ⟨List.pairwise_cons.mpr ⟨h2, h1⟩, ?_⟩
              intro x hx'
              rcases List.mem_cons.mp hx' with rfl | hx'
              · exact g1
              · exact lt_trans g1 (h2 x hx')
          · rw [if_neg hact] at hx
            cases hx
            rw [List.filter_cons_of_neg hact]
            exact ⟨h1, h2⟩

theorem builtIn_punctual (fmt : Format F) (b : BuiltIn F) :
    ∃ last : (b.emitter fmt).trader.State → ℤ, Punctual (b.emitter fmt).trader last ∧
      last (b.emitter fmt).init = 0 := by
  cases b with
  | rebalancing cfg =>
    refine ⟨fun s : RebalancingState F => s.lastTs, ?_, rfl⟩
    intro s s' t sg b q os h
    obtain ⟨h1, -, -, rfl, -⟩ := rebalancingUpdate_ok (sg := sg) h
    exact ⟨h1, rfl⟩
  | stop cfg =>
    refine ⟨fun s : StopState F => s.lastTs, ?_, rfl⟩
    intro s s' t sg b q os h
    obtain ⟨h1, -, -, rfl, -⟩ := stopUpdate_ok (sg := sg) h
    exact ⟨h1, rfl⟩

/-- **C59** (duplicates). Two active ticks with the same timestamp, or in the wrong order, make every back-test of a
built-in trader abort; in any arithmetic, whatever else is in the history and the account. -/
theorem C59_duplicate_aborts (fmt : Format F) (b : BuiltIn F) (c : AccountConfig F) (side : Option (SideInput F))
    (pre mid post : List (OhlcTick F)) (x y : OhlcTick F) (hx : active x = true) (hy : active y = true)
    (hxy : y.ts ≤ x.ts) (fast log : Bool) (r : ExecutionResult F) :
    (executeTrader c (pre ++ x :: mid ++ y :: post) side fast (b.emitter fmt).trader (b.emitter fmt).init log).out
      ≠ .ok r := by
  intro h
  obtain ⟨last, hl, -⟩ := builtIn_punctual fmt b
  rw [executeTrader_eq _ _ _ _ _ _ _ (by simp)] at h
  dsimp only at h
  cases hs : (execLoop c (pre ++ x :: mid ++ y :: post) side fast (b.emitter fmt).trader (b.emitter fmt).init log).out with
  | error e => rw [hs] at h; cases h
  | ok s =>
    obtain ⟨h1, -⟩ := punctual_loop hl fast log _ _ s hs
    rw [List.filter_append, List.filter_append, List.filter_cons_of_pos hx, List.filter_cons_of_pos hy] at h1
    have := (List.pairwise_append.mp h1).2.2 x (by simp) y (by simp)
    omega

end generic

section iff
variable {K : Type} [Field K] [LinearOrder K] [IsStrictOrderedRing K] [FloorRing K] [Libm K]

/-- **C59** (exactly when). For clean ticks in order of time, a back-test of a built-in trader returns a result if and
only if no two active ticks have the same timestamp. -/
theorem C59_returns_iff {recs : Option (List (SideInputRecord K))} {side : Option (SideInput K)}
    (hside : SideOf recs side) (fmt : Format K) (b : BuiltIn K) (hb : CleanParameters b) (c : AccountConfig K)
    (hc : CleanAccount c) (ticks : List (OhlcTick K)) (ht : ∀ t ∈ ticks, CleanTick t)
    (hsort : ticks.Pairwise (fun a b => a.ts ≤ b.ts)) (fast log : Bool) :
    (∃ r, (executeTrader c ticks side fast (b.emitter fmt).trader (b.emitter fmt).init log).out = .ok r) ↔
      ((ticks.filter active).map (·.ts)).Nodup := by
  constructor
  · rintro ⟨r, h⟩
    cases ticks with
    | nil => simp
    | cons a l =>
      rw [executeTrader_eq _ _ _ _ _ _ _ (by simp)] at h
      dsimp only at h
      obtain ⟨last, hl, -⟩ := builtIn_punctual fmt b
      cases hs : (execLoop c (a :: l) side fast (b.emitter fmt).trader (b.emitter fmt).init log).out with
      | error e => rw [hs] at h; cases h
      | ok s =>
        obtain ⟨h1, -⟩ := punctual_loop hl fast log _ _ s hs
        rw [List.Nodup, List.pairwise_map]
        exact h1.imp (fun h => by omega)
  · intro hn
    refine C59_execution_never_aborts hside fmt b hb c hc ticks ⟨ht, hsort, ?_⟩ fast log
    rw [List.Nodup, List.pairwise_map] at hn
    have := hsort.sublist (List.filter_sublist (p := active))
    exact (this.and hn).imp (fun h => by omega)

end iff

/-! ### Non-vacuity -/

section examples

/-- Three days of ticks; the one in the middle has no volume and repeats a timestamp. -/
def robTicks : List (OhlcTick ℚ) :=
  [⟨1514764800, 100, 110, 90, 105, 10⟩, ⟨1514768400, 105, 120, 100, 115, 3⟩, ⟨1514768400, 115, 115, 115, 115, 0⟩,
   ⟨1514851200, 115, 118, 80, 85, 7⟩]

/-- 1 base, 100 quote, cents, fees of 1%. -/
def robAccount : AccountConfig ℚ where
  startBase := 1
  startQuote := 100
  baseUnit := 1 / 1000
  quoteUnit := 1 / 100
  marketFee := ⟨1 / 100, 0, 0⟩
  stopFee := ⟨1 / 100, 0, 0⟩
  limitFee := ⟨1 / 100, 0, 0⟩
  marketLiquidity := 1 / 2
  maxVolumeRatio := 1 / 2

theorem robTicks_clean : CleanHistory robTicks where
  each t h := by
    unfold robTicks at h
    simp only [List.mem_cons, List.not_mem_nil, or_false] at h
    rcases h with rfl | rfl | rfl | rfl <;> constructor <;> norm_num
  sorted := by unfold robTicks; decide +kernel
  strict := by unfold robTicks; decide +kernel

theorem robAccount_clean : CleanAccount robAccount := by
  constructor <;> unfold robAccount <;> norm_num

/-- Clean data is not accepted vacuously: a trade takes place. -/
example [Libm ℚ] (fmt : Format ℚ) : ∃ r, (executeTrader robAccount robTicks none true
    (BuiltIn.emitter fmt (.rebalancing ⟨7 / 10, 1 / 20⟩)).trader
    (BuiltIn.emitter fmt (.rebalancing ⟨7 / 10, 1 / 20⟩)).init false).out = .ok r :=
  C59_execution_never_aborts .none fmt (.rebalancing ⟨7 / 10, 1 / 20⟩)
    (by unfold CleanParameters; norm_num) robAccount robAccount_clean robTicks robTicks_clean true false

attribute [local instance] evLibm in
example : (executions (executeTrader robAccount robTicks none true
    (rebalancingTrader ⟨fun _ => "", fun _ _ => ""⟩ ⟨7 / 10, 1 / 20⟩) RebalancingState.init false).trace).length = 1 := by
  decide +kernel

/-- An evaluation in windows of one month. -/
def robInputs (fmt : Format ℚ) [Libm ℚ] (b : BuiltIn ℚ) : EvalInputs ℚ :=
  ⟨robAccount, ⟨1512086400, 1519862400, 1, false⟩, robTicks, none, b.emitter fmt⟩

theorem robInputs_clean [Libm ℚ] (fmt : Format ℚ) :
    CleanEvaluation none fmt (robInputs fmt (.stop ⟨1 / 10, 1 / 20, 1 / 100, 1 / 10⟩)) where
  side := .none
  trader := ⟨.stop ⟨1 / 10, 1 / 20, 1 / 100, 1 / 10⟩, by unfold CleanParameters; norm_num, rfl⟩
  account := robAccount_clean
  history := robTicks_clean

example [Libm ℚ] (fmt : Format ℚ) :
    ∃ r, (evaluateTrader (robInputs fmt (.stop ⟨1 / 10, 1 / 20, 1 / 100, 1 / 10⟩)) true).out = .ok r :=
  C59_evaluation_never_aborts (robInputs_clean fmt) (.inl (by unfold robInputs; norm_num)) true

/-- The same history with volume in the duplicated tick aborts. -/
example [Libm ℚ] (fmt : Format ℚ) (r : ExecutionResult ℚ) : (executeTrader robAccount
    [⟨1514764800, 100, 110, 90, 105, 10⟩, ⟨1514768400, 105, 120, 100, 115, 3⟩, ⟨1514768400, 115, 115, 115, 115, 1⟩,
      ⟨1514851200, 115, 118, 80, 85, 7⟩] none true
    (BuiltIn.emitter fmt (.rebalancing ⟨7 / 10, 1 / 20⟩)).trader
    (BuiltIn.emitter fmt (.rebalancing ⟨7 / 10, 1 / 20⟩)).init false).out ≠ .ok r :=
  C59_duplicate_aborts fmt _ robAccount none [⟨1514764800, 100, 110, 90, 105, 10⟩] [] [⟨1514851200, 115, 118, 80, 85, 7⟩]
    ⟨1514768400, 105, 120, 100, 115, 3⟩ ⟨1514768400, 115, 115, 115, 115, 1⟩ (by decide +kernel) (by decide +kernel)
    (by decide) true false r

/-- A schedule that lets both tasks of a batch of two finish. -/
example [Libm ℚ] (fmt : Format ℚ) : ∃ tasks rs,
    batchRun [robInputs fmt (.stop ⟨1 / 10, 1 / 20, 1 / 100, 1 / 10⟩), robInputs fmt (.stop ⟨1 / 10, 1 / 20, 1 / 100, 1 / 10⟩)]
      (List.replicate (2 ^ 31 + 1) 1 ++ List.replicate (2 ^ 31 + 1) 0) (batchStart
      [robInputs fmt (.stop ⟨1 / 10, 1 / 20, 1 / 100, 1 / 10⟩), robInputs fmt (.stop ⟨1 / 10, 1 / 20, 1 / 100, 1 / 10⟩)])
      = .ok tasks ∧ batchResults tasks = some rs := by
  refine C59_batch_never_aborts (recs := none) (fmt := fmt) _ ?_ _ ?_
  · intro i hi
    simp only [List.mem_cons, List.not_mem_nil, or_false, or_self] at hi
    subst hi
    exact ⟨robInputs_clean fmt, by unfold robInputs; norm_num⟩
  · intro k hk
    simp only [List.length_cons, List.length_nil] at hk
    rw [List.count_append, List.count_replicate, List.count_replicate]
    have : k = 0 ∨ k = 1 := by omega
    rcases this with rfl | rfl <;> simp

attribute [local instance] evLibm in
/-- **C59** (the units must be positive). With a quote unit of 0, a fee as large as the proceeds of a sale empties the
account completely, and the next update aborts. -/
theorem C59_zero_unit_aborts : ∃ (c : AccountConfig ℚ) (ticks : List (OhlcTick ℚ)) (b : BuiltIn ℚ),
    CleanHistory ticks ∧ CleanParameters b ∧ 0 < c.startBase ∧ 0 ≤ c.startQuote ∧ 0 < c.baseUnit ∧ 0 ≤ c.quoteUnit ∧
    0 ≤ c.marketLiquidity ∧ c.marketLiquidity ≤ 1 ∧
    (executeTrader c ticks none true (b.emitter ⟨fun _ => "", fun _ _ => ""⟩).trader
      (b.emitter ⟨fun _ => "", fun _ _ => ""⟩).init false).out = .error .assertion := by
  refine ⟨{ robAccount with startQuote := 0, quoteUnit := 0, marketFee := ⟨1, 0, 0⟩ }, robTicks, .rebalancing ⟨0, 1 / 2⟩,
    robTicks_clean, by unfold CleanParameters; norm_num, ?_, ?_, ?_, ?_, ?_, ?_, ?_⟩ <;> decide +kernel

end examples
end Verif.Props
