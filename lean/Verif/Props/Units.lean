import Verif.Lemmas.UnitsEvaluate
import Verif.Props.Settlement
import Verif.Props.Evaluate

/-!
# C110: the unit of the quote currency does not matter
-/

namespace Verif.Props.Units
open Verif FloatOps Spec Spec.Units Verif.Units

section
variable {K : Type} [Field K] [LinearOrder K] [IsStrictOrderedRing K] [FloorRing K]

/-- **C110** (orders). The same order on the same tick, with all amounts of quote currency and all prices converted: the same answer, the same abort,
and the same account, converted. -/
theorem C110_order (c : K) (hc : 0 < c) (a : Account K) (cfg : AccountConfig K) (o : Order K) (t : OhlcTick K) :
    (account c a).executeOrder (config c cfg) (order c o) (tick c t) =
      (a.executeOrder cfg o t).map fun r => (r.1, account c r.2) := executeOrder_scale hc a cfg o t

/-- **C110** (order histories). -/
theorem C110_orders (c : K) (hc : 0 < c) (cfg : AccountConfig K) (l : List (Order K × OhlcTick K)) : ∀ a : Account K,
    runOrders (config c cfg) (account c a) (l.map fun x => (order c x.1, tick c x.2)) = (runOrders cfg a l).map (account c) := by
  induction l with
  | nil => intro a; rfl
  | cons x l ih =>
    intro a
    simp only [List.map_cons, runOrders, C110_order c hc]
    cases a.executeOrder cfg x.1 x.2 with
    | error e => rfl
    | ok r => exact ih r.2

variable [Libm K]

/-- **C110** (any trader). A trader that emits the same orders, converted, when everything it sees is converted gets the same evaluation, converted: the same
periods, gains, volatilities, numbers of orders and score, and all amounts multiplied by `c`; or the same abort. -/
theorem C110_evaluate_any (c : K) (hc : 0 < c) (i : EvalInputs K) (st : i.emitter.trader.State → i.emitter.trader.State)
    (hinit : st i.emitter.init = i.emitter.init)
    (hupdate : ∀ s t sg base quote, i.emitter.trader.update (st s) (tick c t) sg base (c * quote) =
      (i.emitter.trader.update s t sg base quote).map fun r => (st r.1, r.2.map (order c)))
    (log : Bool) :
    (evaluateTrader (D := K) { i with account := config c i.account, history := i.history.map (tick c) } log).out =
      (evaluateTrader (D := K) i log).out.map (evaluation c) :=
  evaluate_scale hc i (Inv := fun _ => True) (fun _ _ _ _ _ _ _ => trivial) (fun s t sg a _ => hupdate s t sg a.baseBalance a.quoteBalance)
    trivial hinit log

/-- The state of a stop trader, converted. -/
def stopState (c : K) (s : StopState K) : StopState K :=
  { lastBase := s.lastBase, lastQuote := c * s.lastQuote, lastTs := s.lastTs, lastClose := c * s.lastClose, mode := s.mode, stopPrice := c * s.stopPrice }

theorem stopUpdate_scale {c : K} (hc : 0 < c) (cfg : StopConfig K) (s : StopState K) (t : OhlcTick K) (sg : List K) (base quote : K) :
    stopUpdate cfg (stopState c s) (tick c t) sg base (c * quote) =
      (stopUpdate cfg s t sg base quote).map fun r => (stopState c r.1, r.2.map (order c)) := by
  open Simulation in
  apply ResRel.map_eq
  have hts : (tick c t).ts = t.ts := rfl
  have hcl : (tick c t).close = c * t.close := rfl
  have hl : (stopState c s).lastTs = s.lastTs := rfl
  have hm : (stopState c s).mode = s.mode := rfl
  have hsp : (stopState c s).stopPrice = c * s.stopPrice := rfl
  have hmode : stopMode (c * t.close) base (c * quote) = stopMode t.close base quote := by
    simp only [stopMode, ex_mul, show base * (c * t.close) = c * (base * t.close) by ring, le_scale hc]
  have hthr (m p : K) : m * (c * p) = c * (m * p) := by ring
  simp only [stopUpdate, hts, hcl, hl, hm, hsp, hmode, pos_scale hc]
  refine Simulation.ResRel.bind (Simulation.ResRel.assert rfl) fun _ _ _ => ?_
  refine Simulation.ResRel.bind (Simulation.ResRel.assert rfl) fun _ _ _ => ?_
  refine Simulation.ResRel.bind (Simulation.ResRel.assert rfl) fun _ _ _ => ?_
  have htail (x : K) : Simulation.ResRel (fun a b => b = (stopState c a.1, a.2.map (order c)))
      (stopOrder ⟨base, quote, t.ts, t.close, stopMode t.close base quote, x⟩ >>= fun o => pure
        ((⟨base, quote, t.ts, t.close, stopMode t.close base quote, x⟩ : StopState K), [o]))
      (stopOrder ⟨base, c * quote, t.ts, c * t.close, stopMode t.close base quote, c * x⟩ >>= fun o => pure
        ((⟨base, c * quote, t.ts, c * t.close, stopMode t.close base quote, c * x⟩ : StopState K), [o])) := by
    unfold stopOrder
    dsimp only
    split
    · exact rfl
    · cases stopMode t.close base quote <;> exact rfl
  have hup : Simulation.ResRel (fun a b => b = c * a)
      (updateStopPrice cfg (stopMode t.close base quote) s.lastTs t.ts s.stopPrice t.close)
      (updateStopPrice cfg (stopMode t.close base quote) s.lastTs t.ts (c * s.stopPrice) (c * t.close)) := by
    unfold updateStopPrice
    simp only [ex_mul, hthr, le_scale hc, min_scale hc, max_scale hc]
    split
    · split <;> exact rfl
    · refine Simulation.ResRel.bind (Simulation.ResRel.assert rfl) fun _ _ _ => ?_
      split <;> exact rfl
  split
  · split
    · simp only [ex_mul, hthr]; exact htail _
    · refine Simulation.ResRel.bind (Simulation.ResRel.assert rfl) fun _ _ _ => ?_
      simp only [ex_mul, hthr]; exact htail _
  · refine Simulation.ResRel.bind (Simulation.ResRel.assert rfl) fun _ _ _ => ?_
    refine Simulation.ResRel.bind hup ?_
    rintro x _ rfl
    exact htail x

theorem stopState_init (c : K) : stopState c (StopState.init : StopState K) = StopState.init := by simp [StopState.init, stopState, lit]

/-- **C110** (stop trader). For every history, configuration and side input. -/
theorem C110_stop (c : K) (hc : 0 < c) (fmt : Format K) (cfg : StopConfig K) (acc : AccountConfig K) (ev : EvalConfig) (history : List (OhlcTick K))
    (side : Option (SideInput K)) (log : Bool) :
    (evaluateTrader (D := K) ⟨config c acc, ev, history.map (tick c), side, stopEmitter fmt cfg⟩ log).out =
      (evaluateTrader (D := K) ⟨acc, ev, history, side, stopEmitter fmt cfg⟩ log).out.map (evaluation c) :=
  C110_evaluate_any c hc ⟨acc, ev, history, side, stopEmitter fmt cfg⟩ (stopState c) (stopState_init c)
    (fun s t sg base quote => stopUpdate_scale hc cfg s t sg base quote) log

/-- The state of a rebalancing trader, converted. -/
def rebalancingState (c : K) (s : RebalancingState K) : RebalancingState K :=
  { lastBase := s.lastBase, lastQuote := c * s.lastQuote, lastTs := s.lastTs, lastClose := c * s.lastClose }

theorem rebalancingOrders_scale {c : K} (hc : 0 < c) (cfg : RebalancingConfig K) (price base quote : K)
    (hq : (lit K (1 / 1000000) <. c * quote) = (lit K (1 / 1000000) <. quote)) :
    rebalancingOrders cfg (c * price) base (c * quote) = (rebalancingOrders cfg price base quote).map (order c) := by
  have h3 (x y : K) : x * (c * y) = c * (x * y) := by ring
  simp only [rebalancingOrders, hq]
  simp only [ex_mul, ex_add, ex_sub, ex_div, h3, ← mul_add, ← mul_sub, div_scale hc]
  simp only [mul_div_assoc c, lt_scale hc]
  split_ifs <;> simp [marketOrder, limitOrder, order, amount]

theorem rebalancingState_init (c : K) : rebalancingState c (RebalancingState.init : RebalancingState K) = RebalancingState.init := by
  simp [RebalancingState.init, rebalancingState, lit]

/-- The accounts that a back-test can reach: the quote balance is empty or at least one unit. -/
def Reached (acc : AccountConfig K) (a : Account K) : Prop :=
  a.quoteUnit = acc.quoteUnit ∧ 0 ≤ a.baseUnit ∧ 0 ≤ a.baseBalance ∧ (a.quoteBalance = 0 ∨ acc.quoteUnit ≤ a.quoteBalance)

theorem Reached.step {acc : AccountConfig K} (hu0 : 0 < acc.quoteUnit) (a : Account K) (o : Order K) (t : OhlcTick K) (b : Bool) (a' : Account K)
    (h : Reached acc a) (hx : a.executeOrder acc o t = .ok (b, a')) : Reached acc a' := by
  obtain ⟨h1, h2, h3, h4⟩ := h
  obtain ⟨hf, k1, k2, -⟩ := C01_executeOrder a acc o t b a' hx
  have hn := C02_balances_never_negative acc [(o, t)] a a' (by simpa [lit] using h2) (by simp [lit, h1, hu0.le])
    (by simp [NotBelowZero, lit, h3]) (by rcases h4 with h | h <;> simp [NotBelowZero, lit] <;> linarith) (by simp [runOrders, hx, bind, Except.bind])
  refine ⟨k2.trans h1, k1 ▸ h2, by simpa [NotBelowZero, lit] using hn.1, ?_⟩
  cases b with
  | false => rw [hf rfl]; exact h4
  | true =>
    have hg := ((C03_grid a a' acc o t hx).2 (h1 ▸ hu0)).1
    obtain ⟨n, hn'⟩ := hg
    have h0 : 0 ≤ a'.quoteBalance := by simpa [NotBelowZero, lit] using hn.2
    rw [h1] at hn'
    rcases lt_trichotomy n 0 with hneg | hz | hpos
    · have : (n : K) ≤ -1 := by exact_mod_cast (by omega : n ≤ -1)
      exact absurd h0 (by rw [hn']; nlinarith)
    · left; rw [hn', hz]; simp
    · right
      have : (1 : K) ≤ n := by exact_mod_cast hpos
      rw [hn']; nlinarith

theorem rebalancingUpdate_scale {c : K} (hc : 0 < c) (cfg : RebalancingConfig K) (acc : AccountConfig K)
    (hu : 1 / 1000000 < acc.quoteUnit) (hcu : 1 / 1000000 < c * acc.quoteUnit) (s : RebalancingState K) (t : OhlcTick K) (sg : List K)
    (a : Account K) (ha : Reached acc a) :
    rebalancingUpdate cfg (rebalancingState c s) (tick c t) sg a.baseBalance (c * a.quoteBalance) =
      (rebalancingUpdate cfg s t sg a.baseBalance a.quoteBalance).map fun r => (rebalancingState c r.1, r.2.map (order c)) := by
  obtain ⟨-, -, -, h4⟩ := ha
  have hq : (lit K (1 / 1000000) <. c * a.quoteBalance) = (lit K (1 / 1000000) <. a.quoteBalance) := by
    have e : (lit K (1 / 1000000) : K) = 1 / 1000000 := by simp [lit]
    simp only [ex_lt, e, decide_eq_decide]
    rcases h4 with h | h
    · rw [h]; simp
    · have : c * acc.quoteUnit ≤ c * a.quoteBalance := mul_le_mul_of_nonneg_left h hc.le
      exact ⟨fun _ => lt_of_lt_of_le hu h, fun _ => lt_of_lt_of_le hcu this⟩
  have ho := rebalancingOrders_scale hc cfg t.close a.baseBalance a.quoteBalance hq
  apply Simulation.ResRel.map_eq
  unfold rebalancingUpdate
  refine Simulation.ResRel.bind (Simulation.ResRel.assert rfl) fun _ _ _ => ?_
  refine Simulation.ResRel.bind (Simulation.ResRel.assert (pos_scale hc _).symm) fun _ _ _ => ?_
  refine Simulation.ResRel.bind (Simulation.ResRel.assert (by rw [pos_scale hc])) fun _ _ _ => ?_
  show (_, rebalancingOrders cfg (c * t.close) a.baseBalance (c * a.quoteBalance)) = _
  rw [ho]
  rfl

/-- **C110** (rebalancing trader). The trader stops placing limit orders below a millionth of a unit (traders/rebalancing_trader.cc 46), so the conversion must
not move a possible balance across that bound: it does not if a quote unit is worth more than that on both scales. -/
theorem C110_rebalancing (c : K) (hc : 0 < c) (fmt : Format K) (cfg : RebalancingConfig K) (acc : AccountConfig K) (ev : EvalConfig)
    (history : List (OhlcTick K)) (side : Option (SideInput K)) (log : Bool)
    (hu : 1 / 1000000 < acc.quoteUnit) (hcu : 1 / 1000000 < c * acc.quoteUnit) (hbu : 0 ≤ acc.baseUnit) (hb : 0 ≤ acc.startBase)
    (hs : acc.startQuote = 0 ∨ acc.quoteUnit ≤ acc.startQuote) :
    (evaluateTrader (D := K) ⟨config c acc, ev, history.map (tick c), side, rebalancingEmitter fmt cfg⟩ log).out =
      (evaluateTrader (D := K) ⟨acc, ev, history, side, rebalancingEmitter fmt cfg⟩ log).out.map (evaluation c) := by
  have hu0 : 0 < acc.quoteUnit := lt_trans (by norm_num) hu
  rw [show (⟨config c acc, ev, history.map (tick c), side, rebalancingEmitter fmt cfg⟩ : EvalInputs K) =
    inputs c ⟨acc, ev, history, side, rebalancingEmitter fmt cfg⟩ from rfl]
  exact evaluate_scale hc ⟨acc, ev, history, side, rebalancingEmitter fmt cfg⟩ (st := rebalancingState c)
    (Inv := Reached acc) (Reached.step hu0) (fun s t sg a ha => rebalancingUpdate_scale hc cfg acc hu hcu s t sg a ha) ⟨rfl, hbu, hb, hs⟩
    (rebalancingState_init c) log

end

/-- **C110** (why the rebalancing trader needs a bound on the quote unit). The bound of a millionth is an absolute number: with half the portfolio in each currency, a millionth of a
unit of quote currency gets no limit order, the same money counted in half units gets one. -/
theorem C110_threshold :
    ∃ (cfg : RebalancingConfig ℚ) (c price base quote : ℚ), 0 < c ∧ 0 < cfg.alpha ∧ cfg.alpha < 1 ∧ 0 < cfg.epsilon ∧ cfg.epsilon < 1 ∧ 0 < price ∧
      0 < base ∧ 0 < quote ∧ rebalancingOrders cfg price base quote = [] ∧
      rebalancingOrders cfg (c * price) base (c * quote) ≠ [] :=
  ⟨⟨1 / 2, 1 / 10⟩, 2, 1 / 1000000, 1, 1 / 1000000, by norm_num, by norm_num, by norm_num, by norm_num, by norm_num, by norm_num, by norm_num,
    by norm_num, by decide +kernel, by decide +kernel⟩

/-- **C110** (the base currency is different). Counting the base currency in tenths - ten times the balance at a tenth of the price - is the same portfolio, but the
rebalancing trader places other orders: one coin at 100 gets a sell order for 1/11 coin at 1100/9 and a buy order for 1/9 coin at 900/11; ten tenths at 10 get
one order, to sell 10/11 of a tenth at 1100/9, where 110/9 is meant.  (Its limit prices are not prices but values of the whole base balance, see C55.) -/
theorem C110_base_currency_matters :
    rebalancingOrders (⟨1 / 2, 1 / 10⟩ : RebalancingConfig ℚ) 100 1 100 = [limitOrder .sell (1 / 11) (1100 / 9), limitOrder .buy (1 / 9) (900 / 11)] ∧
    rebalancingOrders (⟨1 / 2, 1 / 10⟩ : RebalancingConfig ℚ) 10 10 100 = [limitOrder .sell (10 / 11) (1100 / 9)] := by
  constructor <;> decide +kernel

section examples
attribute [local instance] evLibm

/-- Dollars and cents: four orders, all executed. -/
example : runOrders (config 100 (exCfg ℚ)) (account 100 (Account.init (exCfg ℚ))) ((exOrders ℚ).map fun x => (order 100 x.1, tick 100 x.2)) =
    .ok ⟨77 / 8, 100 * (67479 / 64), 100 * (293 / 64), 1 / 8, 100 / 64, 1 / 2, 1 / 2⟩ := by
  rw [C110_orders 100 (by norm_num)]; decide +kernel

/-- A trader that does not look at amounts of quote currency. -/
def uHalf : Trader ℚ := ⟨ℕ, fun n _ _ base _ => .ok (n + 1, [if n % 2 = 0 then ⟨some .market, some .buy, .base 1, none⟩
  else ⟨some .market, some .sell, .base base, none⟩]), fun _ => ""⟩

theorem uHalf_respects (s : ℕ) (t : OhlcTick ℚ) (sg : List ℚ) (base quote : ℚ) :
    uHalf.update s (tick 100 t) sg base (100 * quote) = (uHalf.update s t sg base quote).map fun r => (r.1, r.2.map (order 100)) := by
  simp only [uHalf, Except.map, List.map_cons, List.map_nil]
  by_cases h : s % 2 = 0 <;> simp [h, order, amount]

example := C110_evaluate_any (100 : ℚ) (by norm_num) ⟨btCfg, ⟨1577836800, 1585785600, 1, true⟩, evTicks, none, ⟨"t", uHalf, (0 : ℕ)⟩⟩ id rfl
  uHalf_respects true

def uFmt : Format ℚ := ⟨fun _ => "", fun _ _ => ""⟩
def uStop : StopConfig ℚ := ⟨1 / 10, 1 / 20, 1 / 100, 1 / 10⟩
def uCfg : AccountConfig ℚ := ⟨0, 100, 1 / 8, 1 / 100, ⟨1 / 100, 1 / 2, 1⟩, ⟨1 / 100, 1 / 2, 1⟩, ⟨1 / 100, 1 / 2, 1⟩, 1, 0⟩

/-- Stop and rebalancing trader on the example history of the evaluation. -/
example := C110_stop (100 : ℚ) (by norm_num) uFmt uStop uCfg ⟨0, 0, 0, true⟩ evTicks none true
example := C110_rebalancing (100 : ℚ) (by norm_num) uFmt ⟨1 / 2, 1 / 10⟩ uCfg ⟨0, 0, 0, true⟩ evTicks none true (by unfold uCfg; norm_num)
  (by unfold uCfg; norm_num) (by unfold uCfg; norm_num) (by unfold uCfg; norm_num) (by right; unfold uCfg; norm_num)

/-- They complete, with executed orders and fees. -/
example : ((evaluateTrader (D := ℚ) ⟨uCfg, ⟨0, 0, 0, true⟩, evTicks, none, rebalancingEmitter uFmt ⟨1 / 2, 1 / 10⟩⟩ true).out.toOption.map
    fun r => (r.avgTotalExecutedOrders, r.avgTotalFee)) = some (3, 3) := by decide +kernel
example : ((evaluateTrader (D := ℚ) ⟨uCfg, ⟨0, 0, 0, true⟩, evTicks, none, stopEmitter uFmt uStop⟩ true).out.toOption.map
    fun r => (r.avgTotalExecutedOrders, r.avgTotalFee)) = some (2, 147 / 50) := by decide +kernel

end examples
end Verif.Props.Units
