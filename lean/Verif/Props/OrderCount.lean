import Verif.Props.Evaluate
import Verif.Props.StopTrader
import Verif.Props.Rebalancing
import Verif.Props.Pipeline
import Verif.Props.Bound

/-!
# C121: how many orders a backtest can execute
-/

namespace Verif.Props.OrderCount
open Verif Verif.Spec Verif.Props FloatOps

section
variable {F D : Type} [FloatOps F] [FloatOps D] [Wide F D] [Libm F] [Libm D]

/-- Whatever it is told, the trader emits at most `k` orders per update. -/
def EmitsAtMost (k : ℕ) (T : Trader F) : Prop :=
  ∀ s t sg b q s' os, T.update s t sg b q = .ok (s', os) → os.length ≤ k

theorem attempts_execOrders (log : Bool) (c : AccountConfig F) (t : OhlcTick F) : ∀ (os : List (Order F)) (a : Account F) (n : ℕ),
    (attempts (execOrders log c t os a n).trace).length ≤ os.length ∧ ∀ r, (execOrders log c t os a n).out = .ok r → r.2 ≤ n + os.length
  | [], a, n => ⟨by simp [execOrders, Run.pure_eq, Run.ret, attempts], fun r h => by
      simp only [execOrders, Run.pure_eq, Run.ret] at h
      cases h
      exact Nat.le_refl _⟩
  | o :: rest, a, n => by
    rw [execOrders_cons]
    cases he : a.executeOrder c o t with
    | error e => exact ⟨by simp [attempts], fun r h => by cases h⟩
    | ok p =>
      obtain ⟨done, a'⟩ := p
      cases done with
      | false =>
        obtain ⟨h1, h2⟩ := attempts_execOrders log c t rest a' n
        refine ⟨?_, fun r h => ?_⟩
        · simp only [attempts, List.filterMap_cons, List.length_cons, List.cons_append, List.nil_append] at h1 ⊢
          omega
        · have := h2 r h
          simp only [List.length_cons]; omega
      | true =>
        obtain ⟨h1, h2⟩ := attempts_execOrders log c t rest a' (n + 1)
        refine ⟨?_, fun r h => ?_⟩
        · cases log <;> simp only [attempts, List.filterMap_cons, List.length_cons, Bool.false_eq_true, if_true, if_false, List.filterMap_append,
            List.filterMap_nil, List.nil_append, List.cons_append] at h1 ⊢ <;> omega
        · have := h2 r h
          simp only [List.length_cons]; omega

theorem attempts_row (log : Bool) (t : OhlcTick F) (a : Account F) :
    attempts (if log then [.tickRow t a] else [] : List (Event F)) = [] := by cases log <;> rfl

theorem attempts_trader (T : Trader F) (fast log : Bool) (t : OhlcTick F) (s : ExecState F T.State) :
    attempts (traderStep T fast log t s).trace = [] := by
  rw [traderStep_eq]
  cases T.update s.trader t s.signals s.account.baseBalance s.account.quoteBalance with
  | error e => rfl
  | ok u => cases log <;> rfl

theorem step_count {k : ℕ} {T : Trader F} (hT : EmitsAtMost k T) (c : AccountConfig F) (side : Option (SideInput F)) (fast log : Bool)
    (s : ExecState F T.State) (t : OhlcTick F) :
    (attempts (tickStep c side T fast log s t).trace).length ≤ s.orders.length ∧
    ∀ s', (tickStep c side T fast log s t).out = .ok s' → s'.executed ≤ s.executed + s.orders.length ∧
      (s'.orders.length ≤ k ∨ s'.orders = s.orders) := by
  obtain ⟨h1, h2⟩ := attempts_execOrders log c t s.orders s.account s.executed
  rw [tickStep_eq]
  cases sideStep side t.ts s.signals s.prevIndex with
  | error e => exact ⟨by simp [attempts], fun s' h => by cases h⟩
  | ok sg =>
    dsimp only
    cases hx : (execOrders log c t s.orders s.account s.executed).out with
    | error e =>
      dsimp only
      exact ⟨by rw [attempts_append, attempts_row]; exact h1, fun s' h => by cases h⟩
    | ok r =>
      have h3 := h2 r hx
      dsimp only
      split
      · refine ⟨by rw [attempts_append, attempts_append, attempts_row, attempts_trader, List.append_nil]; exact h1, fun s' h => ?_⟩
        rw [traderStep_eq] at h
        dsimp only at h
        cases hu : T.update s.trader t sg.1 r.1.baseBalance r.1.quoteBalance with
        | error e => rw [hu] at h; cases h
        | ok u =>
          rw [hu] at h
          obtain ⟨-, -, -, ho, he, -⟩ := volPart_ok h
          exact ⟨by rw [he]; exact h3, .inl (by rw [ho]; exact hT _ _ _ _ _ u.1 u.2 hu)⟩
      · refine ⟨by rw [attempts_append, attempts_row]; exact h1, fun s' h => ?_⟩
        obtain rfl := Except.ok.inj h
        exact ⟨h3, .inr rfl⟩

/-- The bound is `0` before the first round and for the first round. -/
theorem loop_count {k : ℕ} {T : Trader F} (hT : EmitsAtMost k T) (c : AccountConfig F) (side : Option (SideInput F)) (fast log : Bool)
    (init : T.State) (ticks : List (OhlcTick F)) :
    (attempts (execLoop c ticks side fast T init log).trace).length ≤ k * (ticks.length - 1) ∧
    ∀ s, (execLoop c ticks side fast T init log).out = .ok s → s.executed ≤ k * (ticks.length - 1) := by
  have h := foldlM_induct (tickStep c side T fast log) (execStart c T init)
    (fun l _ s => s.orders.length ≤ k ∧ (l = [] → s.orders = []) ∧ s.executed ≤ k * (l.length - 1))
    (fun l tr => (attempts tr).length ≤ k * (l.length - 1))
    ⟨Nat.zero_le _, fun _ => rfl, Nat.zero_le _⟩ (Nat.zero_le _) (by
      intro l t tr s ⟨i1, i2, i3⟩ hq
      obtain ⟨s1, s2⟩ := step_count hT c side fast log s t
      have hk : ∀ n, n ≤ k * (l.length - 1) → n + s.orders.length ≤ k * ((l ++ [t]).length - 1) := by
        intro n hn
        cases l with
        | nil => rw [i2 rfl]; simpa using hn
        | cons a l =>
          have : k * ((a :: l ++ [t]).length - 1) = k * ((a :: l).length - 1) + k := by
            simp only [List.length_append, List.length_cons, List.length_nil]
            rw [show l.length + 1 + (0 + 1) - 1 = (l.length + 1 - 1) + 1 by omega, Nat.mul_succ]
          omega
      refine ⟨?_, fun s' hs' => ?_⟩
      · rw [attempts_append, List.length_append]
        have := hk _ hq
        omega
      · obtain ⟨e1, e2⟩ := s2 s' hs'
        refine ⟨?_, fun hl => by simp at hl, (hk _ i3).trans' e1⟩
        rcases e2 with e2 | e2
        · exact e2
        · rw [e2]; exact i1)
    (by
      intro l t tr hq
      refine hq.trans (Nat.mul_le_mul_left _ ?_)
      simp only [List.length_append, List.length_cons, List.length_nil]
      omega) ticks
  exact ⟨h.1, fun s hs => (h.2 s hs).2.2⟩

/-- **C121**. A trader that emits at most `k` orders per update: on `n` ticks at most `k (n - 1)` orders are submitted to the exchange, even in a
run that aborts, and the reported number of executed orders is at most `k (n - 1)`. -/
theorem C121_bound {k : ℕ} {T : Trader F} (hT : EmitsAtMost k T) (c : AccountConfig F) (ticks : List (OhlcTick F)) (side : Option (SideInput F))
    (fast : Bool) (init : T.State) (log : Bool) :
    (attempts (executeTrader (D := D) c ticks side fast T init log).trace).length ≤ k * (ticks.length - 1) ∧
    ∀ r, (executeTrader (D := D) c ticks side fast T init log).out = .ok r → r.totalExecutedOrders ≤ k * (ticks.length - 1) := by
  obtain ⟨h1, h2⟩ := loop_count hT c side fast log init ticks
  refine ⟨by rw [executeTrader_trace]; exact h1, fun r hr => ?_⟩
  cases ticks with
  | nil => cases hr; exact Nat.zero_le _
  | cons t l =>
    rw [executeTrader_eq _ _ _ _ _ _ _ (by simp)] at hr
    cases hx : (execLoop c (t :: l) side fast T init log).out with
    | error e => rw [hx] at hr; cases hr
    | ok s =>
      rw [hx] at hr
      rw [← Except.ok.inj hr]
      exact h2 s hx

theorem stop_emits (fmt : Format F) (cfg : StopConfig F) : EmitsAtMost 1 (stopTrader fmt cfg) := by
  intro s t sg b q s' os h
  obtain ⟨-, -, -, -, rfl⟩ := stopUpdate_ok (sg := sg) h
  exact Nat.le_refl 1

omit [Libm F] in
theorem rebalancing_emits (fmt : Format F) (cfg : RebalancingConfig F) : EmitsAtMost 2 (rebalancingTrader fmt cfg) := by
  intro s t sg b q s' os h
  obtain ⟨-, -, -, -, rfl⟩ := rebalancingUpdate_ok (sg := sg) h
  unfold rebalancingOrders
  dsimp only
  split_ifs <;> simp

/-- **C121** (built-in traders). On `n` ticks the stop trader executes at most `n - 1` orders, and the rebalancing trader at most `2 (n - 1)`. -/
theorem C121_built_in (fmt : Format F) (c : AccountConfig F) (ticks : List (OhlcTick F)) (side : Option (SideInput F)) (fast log : Bool) :
    (∀ cfg s r, (executeTrader (D := D) c ticks side fast (stopTrader fmt cfg) s log).out = .ok r → r.totalExecutedOrders ≤ ticks.length - 1) ∧
    ∀ cfg s r, (executeTrader (D := D) c ticks side fast (rebalancingTrader fmt cfg) s log).out = .ok r →
      r.totalExecutedOrders ≤ 2 * (ticks.length - 1) :=
  ⟨fun cfg s r h => by have := (C121_bound (stop_emits fmt cfg) c ticks side fast s log).2 r h; omega,
    fun cfg s r h => (C121_bound (rebalancing_emits fmt cfg) c ticks side fast s log).2 r h⟩

theorem period_count {k : ℕ} {i : EvalInputs F} (hT : EmitsAtMost k i.emitter.trader) {a b : ℤ} {p : Period F}
    (h : IsPeriod (D := D) i a b p) : p.result.totalExecutedOrders ≤ k * ((windowTicks i.history a b).length - 1) :=
  (C121_bound hT i.account _ i.side i.cfg.fast i.emitter.init false).2 _ h.result

/-- **C121** (evaluation). No period of an evaluation, over windows of months or over the whole time at once, reports more than `k` executed
orders per tick of its window but the first. -/
theorem C121_evaluation {k : ℕ} (i : EvalInputs F) (hT : EmitsAtMost k i.emitter.trader) (hs : SortedBy OhlcTick.ts i.history) (log : Bool)
    (r : EvaluationResult F) (h : (evaluateTrader (D := D) i log).out = .ok r)
    (hm : 0 < i.cfg.months ∨ i.cfg.months = 0 ∧ windowTicks i.history i.cfg.start i.cfg.stop ≠ []) :
    ∀ p ∈ r.periods, p.result.totalExecutedOrders ≤ k * ((windowTicks i.history p.start p.stop).length - 1) := by
  intro p hp
  rcases hm with hm | ⟨hm, hne⟩
  · obtain ⟨K, -, hall, -⟩ := C35_periods i hs hm log h
    have hex : ∀ {l : List ℕ} {ps : List (Period F)},
        List.Forall₂ (fun j p => IsPeriod (D := D) i (windowStart i.cfg j) (windowStop i.cfg j) p) l ps →
        p ∈ ps → ∃ j, IsPeriod (D := D) i (windowStart i.cfg j) (windowStop i.cfg j) p := by
      intro l ps hf hm
      induction hf with
      | nil => cases hm
      | cons h1 _ ih =>
        rcases List.mem_cons.mp hm with rfl | hm
        · exact ⟨_, h1⟩
        · exact ih hm
    obtain ⟨j, hj⟩ := hex hall hp
    rw [hj.start_eq, hj.stop_eq]
    exact period_count hT hj
  · obtain ⟨q, hq, hps⟩ := (C36_single i hs hm hne log).1 r h
    rw [hps] at hp
    obtain rfl := List.mem_singleton.mp hp
    rw [hq.start_eq, hq.stop_eq]
    exact period_count hT hq

/-- **C121** (the counter). A built-in trader on at most 2^30 ticks: the number of executed orders fits in an `int`. -/
theorem C121_counter (fmt : Format F) (b : BuiltIn F) (c : AccountConfig F) (ticks : List (OhlcTick F)) (hn : ticks.length ≤ 2 ^ 30)
    (side : Option (SideInput F)) (fast log : Bool) (r : ExecutionResult F)
    (h : (executeTrader (D := D) c ticks side fast (b.emitter fmt).trader (b.emitter fmt).init log).out = .ok r) :
    r.totalExecutedOrders < 2 ^ 31 := by
  cases b with
  | rebalancing cfg => have := (C121_built_in fmt c ticks side fast log).2 cfg _ r h; omega
  | stop cfg => have := (C121_built_in fmt c ticks side fast log).1 cfg _ r h; omega

end

section
variable {K : Type} [Field K] [LinearOrder K] [IsStrictOrderedRing K] [FloorRing K] [Libm K]

/-- **C121** (with C115). With prices between `m` and `M` no trader that emits at most `k` orders per update gains more than a factor of `M / m` per
order it may have executed on that many ticks, and once more. -/
theorem C121_gain {recs : Option (List (SideInputRecord K))} {side : Option (SideInput K)} (hside : SideOf recs side) (c : AccountConfig K)
    (hc : SoundConfig c) (ticks : List (OhlcTick K)) (hne : ticks ≠ []) (fast : Bool) {k : ℕ} {T : Trader K} (hT : EmitsAtMost k T)
    (init : T.State) (log : Bool) (m M : K) (hm : 0 < m)
    (ht : ∀ t ∈ ticks, m ≤ t.low ∧ t.low ≤ t.opn ∧ t.opn ≤ t.high ∧ t.high ≤ M ∧ t.low ≤ t.close ∧ t.close ≤ t.high)
    {r : ExecutionResult K} (hr : (executeTrader c ticks side fast T init log).out = .ok r) :
    r.endValue ≤ r.startValue * (M / m) ^ (k * (ticks.length - 1) + 1) := by
  have h := Bound.C115_gain hside c hc ticks hne fast T init log m M hm ht hr
  have hf := ht _ (List.head_mem hne)
  have hk1 : 1 ≤ M / m := by rw [le_div_iff₀ hm]; linarith
  obtain ⟨e1, e2, -, -, -, e6, -, e8, -⟩ := C33_result hside c ticks hne fast T init log hr
  have h0 : 0 ≤ r.startValue := by
    have hb := hc.startBase; have hq := hc.startQuote
    rw [← e1] at hb; rw [← e2] at hq
    rw [e8, e6]
    simp only [ex_add, ex_mul]
    have : 0 ≤ (ticks.head hne).close := by linarith
    positivity
  refine h.trans (mul_le_mul_of_nonneg_left (pow_le_pow_right₀ hk1 ?_) h0)
  have := (C121_bound hT c ticks side fast init log).2 r hr
  omega

end

/-! ## Concrete cases -/

attribute [local instance] evLibm

theorem btTrader_emits : EmitsAtMost 1 btTrader := by
  rintro (_ | n) t sg b q s' os h
  · have := (Prod.mk.inj (Except.ok.inj h)).2
    rw [← this]; exact Nat.le_refl 1
  · have := (Prod.mk.inj (Except.ok.inj h)).2
    rw [← this]; exact Nat.zero_le 1

example := C121_bound (D := ℚ) btTrader_emits btCfg btTicks none true (0 : ℕ) false

/-- The bound is attained: four ticks, one order per update, three executions. -/
example : 1 * (btTicks.length - 1) = 3 ∧ ((executeTrader (D := ℚ) btCfg btTicks none true btTrader (0 : ℕ) false).out.map
    (fun r => r.totalExecutedOrders)).toOption = some 3 := by decide +kernel

example := fun r h => C121_evaluation (D := ℚ) evInputs btTrader_emits (by unfold SortedBy evInputs evTicks; decide +kernel) true r h (.inl (by decide))

theorem wTrader_emits : EmitsAtMost 1 Bound.wTrader := by
  intro n t sg b q s' os h
  have := (Prod.mk.inj (Except.ok.inj h)).2
  rw [← this]; exact Nat.le_refl 1

example (r) (hr : (executeTrader Bound.wCfg Bound.wTicks none true Bound.wTrader (0 : ℕ) false).out = .ok r) :=
  C121_gain .none Bound.wCfg Bound.wCfg_sound Bound.wTicks (by simp [Bound.wTicks]) true wTrader_emits (0 : ℕ) false 10 20 (by norm_num) (by decide +kernel) hr

end Verif.Props.OrderCount
