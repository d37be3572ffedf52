import Verif.Props.StopTrader
import Verif.Props.Rebalancing
import Verif.Props.Backtest
import Verif.Props.Pipeline
import Verif.Num.Mono

/-!
# C117: the built-in traders leave a quiet market alone

A stop trader whose margins are wider than the range of all prices never trades.  A rebalancing trader on a flat market never trades if it starts in its band, and
trades exactly once otherwise.
-/

set_option linter.unusedSectionVars false

namespace Verif.Spec
/-- The order cannot execute on a tick with prices between `low` and `high`, whatever the account. -/
def OutOfReach {F : Type} [FloatOps F] (P : OhlcTick F → Prop) (o : Order F) : Prop :=
  ∀ t, P t → ∀ (a a' : Account F) (c : AccountConfig F), a.executeOrder c o t ≠ .ok (true, a')

/-- All prices of the tick lie between `m` and `M`. -/
def TickWithin {K : Type} [LE K] (m M : K) (t : OhlcTick K) : Prop :=
  (m ≤ t.opn ∧ t.opn ≤ M) ∧ (m ≤ t.high ∧ t.high ≤ M) ∧ (m ≤ t.low ∧ t.low ≤ M) ∧ (m ≤ t.close ∧ t.close ≤ M)

/-- All prices of the tick are `p`. -/
def Flat {F : Type} (p : F) (t : OhlcTick F) : Prop := t.opn = p ∧ t.high = p ∧ t.low = p ∧ t.close = p
end Verif.Spec

namespace Verif.Props.Quiet
open FloatOps Spec

section generic
variable {F D : Type} [FloatOps F] [FloatOps D] [Wide F D] [Libm F] [Libm D]

/-- Orders that are out of reach do not change the account. -/
theorem execOrders_idle (log : Bool) (c : AccountConfig F) {P : OhlcTick F → Prop} {t : OhlcTick F} (ht : P t) (hsame : ∀ (a a' : Account F) (o : Order F),
      a.executeOrder c o t = .ok (false, a') → a' = a) (os : List (Order F))
    (hos : ∀ o ∈ os, OutOfReach P o) (a : Account F) (n : ℕ) :
    executions (execOrders log c t os a n).trace = [] ∧ ∀ r, (execOrders log c t os a n).out = .ok r → r = (a, n) := by
  induction os generalizing a n with
  | nil =>
    refine ⟨rfl, fun r hr => ?_⟩
    rw [execOrders, Run.pure_eq] at hr
    exact (Except.ok.inj hr).symm
  | cons o os ih =>
    rw [execOrders_cons]
    cases hx : a.executeOrder c o t with
    | error e => exact ⟨rfl, fun r hr => by cases hr⟩
    | ok p =>
      obtain ⟨b, a'⟩ := p
      cases b with
      | true => exact absurd hx (hos o (by simp) t ht a a' c)
      | false =>
        obtain rfl := hsame a a' o hx
        obtain ⟨h1, h2⟩ := ih (fun o h => hos o (by simp [h])) a' n
        refine ⟨?_, h2⟩
        dsimp only
        rw [executions_append, h1]; rfl

variable [SignLaws F]

theorem failed_same {a a' : Account F} {c : AccountConfig F} {o : Order F} {t : OhlcTick F} (h : a.executeOrder c o t = .ok (false, a')) : a' = a := by
  rcases Account.executeOrder_ok a h with ⟨-, h⟩ | ⟨h, -⟩
  · exact h
  · cases h

/-- An order whose price is not reached is out of reach. -/
theorem outOfReach_of {P : OhlcTick F → Prop} {o : Order F} {ty : OrderType} {sd : Side} (hty : o.type = some ty) (hsd : o.side = some sd)
    (h : ∀ t, P t → notReached t o.getPrice ty sd = true) : OutOfReach P o := by
  intro t ht a a' c he
  by_cases hv : ValidOrder o
  · rw [Account.executeOrder_valid a c o t hv hty hsd, if_pos (h t ht)] at he; cases he
  · rw [Account.executeOrder_invalid a c o t hv] at he; cases he

/-- From a state whose standing orders are out of reach, a trader that only ever places such orders never trades, whether the run returns or aborts. -/
theorem idle_loop (c : AccountConfig F) (side : Option (SideInput F)) (T : Trader F) (I : T.State → Prop) (P : OhlcTick F → Prop) (s0 : ExecState F T.State)
    (hI : I s0.trader) (hos : ∀ o ∈ s0.orders, OutOfReach P o)
    (hstep : ∀ s t (sg : List F) s' os, I s → P t → T.update s t sg s0.account.baseBalance s0.account.quoteBalance = .ok (s', os) → I s' ∧ ∀ o ∈ os, OutOfReach P o)
    (ticks : List (OhlcTick F)) (ht : ∀ t ∈ ticks, P t) (fast log : Bool) :
    executions (ticks.foldlM (tickStep c side T fast log) s0).trace = [] ∧
      ∀ s, (ticks.foldlM (tickStep c side T fast log) s0).out = .ok s → s.account = s0.account ∧ s.executed = s0.executed := by
  have key := foldlM_induct (tickStep c side T fast log) s0
    (fun l _ s => (∀ t ∈ l, P t) → s.account = s0.account ∧ s.executed = s0.executed ∧ I s.trader ∧ ∀ o ∈ s.orders, OutOfReach P o)
    (fun l tr => (∀ t ∈ l, P t) → executions tr = [])
    (fun _ => ⟨rfl, rfl, hI, hos⟩) (fun _ => rfl) ?_ (fun l t tr h hl => h (fun x hx => hl x (by simp [hx]))) ticks
  · obtain ⟨k1, k2⟩ := key
    exact ⟨k1 ht, fun s hs => ⟨(k2 s hs ht).1, (k2 s hs ht).2.1⟩⟩
  · intro l t tr s hinv hq
    by_cases hlt : ∀ x ∈ l ++ [t], P x
    swap
    · exact ⟨fun h => absurd h hlt, fun s' _ h => absurd h hlt⟩
    have hPt : P t := hlt t (by simp)
    obtain ⟨i1, i2, i3, i4⟩ := hinv (fun x hx => hlt x (by simp [hx]))
    have hq := hq (fun x hx => hlt x (by simp [hx]))
    obtain ⟨x1, x2⟩ := execOrders_idle log c hPt (fun a a' o h => failed_same h) s.orders i4 s.account s.executed
    have hrow : executions (if log = true then [Event.tickRow t s.account] else []) = [] := by cases log <;> rfl
    rw [tickStep_eq]
    cases hsg : sideStep side t.ts s.signals s.prevIndex with
    | error e => exact ⟨fun _ => by simpa using hq, fun s' h => by cases h⟩
    | ok sg =>
      dsimp only
      cases hx : (execOrders log c t s.orders s.account s.executed).out with
      | error e =>
        refine ⟨fun _ => ?_, fun s' h => by cases h⟩
        dsimp only
        rw [executions_append, executions_append, hq, x1, hrow]; rfl
      | ok r =>
        obtain rfl := x2 r hx
        dsimp only
        by_cases hact : active t = true
        · rw [if_pos hact, traderStep_eq]
          dsimp only
          rw [i1]
          cases hu : T.update s.trader t sg.1 s0.account.baseBalance s0.account.quoteBalance with
          | error e =>
            refine ⟨fun _ => ?_, fun s' h => by cases h⟩
            rw [← i1, executions_append, executions_append, executions_append, hq, x1, hrow]; rfl
          | ok u =>
            obtain ⟨s', os⟩ := u
            obtain ⟨j1, j2⟩ := hstep _ _ _ _ _ i3 hPt hu
            refine ⟨fun _ => ?_, fun s2 h2 _ => ?_⟩
            · rw [← i1, executions_append, executions_append, executions_append, hq, x1, hrow]
              cases log <;> rfl
            · obtain ⟨v1, -, -, v4, v5, v6⟩ := volPart_ok h2
              rw [v1, v4, v5, v6]
              exact ⟨rfl, i2, j1, j2⟩
        · rw [if_neg hact]
          refine ⟨fun _ => ?_, fun s' h _ => ?_⟩
          · dsimp only
            rw [executions_append, executions_append, hq, x1, hrow]; rfl
          · cases h
            exact ⟨i1, i2, i3, i4⟩

/-- A trader that only ever places orders out of reach never trades, whether the run returns or aborts. -/
theorem idle (c : AccountConfig F) (side : Option (SideInput F)) (T : Trader F) (init : T.State) (I : T.State → Prop) (P : OhlcTick F → Prop) (hI : I init)
    (hstep : ∀ s t (sg : List F) s' os, I s → P t → T.update s t sg c.startBase c.startQuote = .ok (s', os) → I s' ∧ ∀ o ∈ os, OutOfReach P o)
    (ticks : List (OhlcTick F)) (ht : ∀ t ∈ ticks, P t) (fast log : Bool) :
    executions (executeTrader c ticks side fast T init log).trace = [] ∧
      ∀ s, (execLoop c ticks side fast T init log).out = .ok s → s.account = Account.init c ∧ s.executed = 0 := by
  cases ticks with
  | nil => exact ⟨rfl, fun s hs => by cases hs; exact ⟨rfl, rfl⟩⟩
  | cons t0 rest =>
    rw [executeTrader_eq _ _ _ _ _ _ _ (by simp)]
    exact idle_loop c side T I P (execStart c T init) hI (by simp [execStart]) hstep (t0 :: rest) ht fast log

/-- ... and ends with what it started with. -/
theorem idle_result (c : AccountConfig F) (side : Option (SideInput F)) (T : Trader F) (init : T.State) (I : T.State → Prop) (P : OhlcTick F → Prop) (hI : I init)
    (hstep : ∀ s t (sg : List F) s' os, I s → P t → T.update s t sg c.startBase c.startQuote = .ok (s', os) → I s' ∧ ∀ o ∈ os, OutOfReach P o)
    (ticks : List (OhlcTick F)) (hne : ticks ≠ []) (ht : ∀ t ∈ ticks, P t) (fast log : Bool) {r : ExecutionResult F}
    (hr : (executeTrader c ticks side fast T init log).out = .ok r) :
    r.totalExecutedOrders = 0 ∧ r.endBase = c.startBase ∧ r.endQuote = c.startQuote ∧ r.totalFee = lit F 0 := by
  have h := (idle c side T init I P hI hstep ticks ht fast log).2
  rw [executeTrader_eq _ _ _ _ _ _ _ hne] at hr
  dsimp only at hr
  cases hx : (execLoop c ticks side fast T init log).out with
  | error e => rw [hx] at hr; cases hr
  | ok s =>
    rw [hx] at hr; cases hr
    obtain ⟨h1, h2⟩ := h s hx
    simp only [execResult, h1, h2]
    exact ⟨trivial, rfl, rfl, rfl⟩

/-- The rebalancing trader finds its allocation within the band: it compares, in its own arithmetic, the allocation with the edges. -/
def InBand (cfg : RebalancingConfig F) (price base quote : F) : Prop :=
  (cfg.alpha *. (lit F 1 +. cfg.epsilon) <. base *. price /. (base *. price +. quote)) = false ∧
  (base *. price /. (base *. price +. quote) <. cfg.alpha *. (lit F 1 -. cfg.epsilon)) = false

theorem rebalancing_outOfReach (cfg : RebalancingConfig F) {p base quote : F} (hband : InBand cfg p base quote) :
    ∀ o ∈ rebalancingOrders cfg p base quote, OutOfReach (Flat p) o := by
  intro o ho
  have hno : ∀ sd x, rebalancingOrders cfg p base quote ≠ [marketOrder sd x] := by
    intro sd x e
    unfold rebalancingOrders at e
    dsimp only at e
    rw [if_neg (by rw [hband.1]; simp), if_neg (by rw [hband.2]; simp)] at e
    split_ifs at e <;> simp [marketOrder, limitOrder] at e
  rcases rebalancingOrders_shape cfg p base quote with ⟨sd, x, e⟩ | ⟨sells, buys, e, hs, hb⟩
  · exact absurd e (hno sd x)
  · rw [e, List.mem_append] at ho
    rcases ho with ho | ho
    · rcases hs with rfl | ⟨x, q, rfl, h1, -⟩
      · simp at ho
      · rw [List.mem_singleton] at ho; subst ho
        refine outOfReach_of (ty := .limit) (sd := .sell) rfl rfl (fun t ht => ?_)
        rw [show notReached t _ .limit .sell = (t.high <. _) from rfl, ht.2.1]; exact h1
    · rcases hb with rfl | ⟨x, q, rfl, h1, -⟩
      · simp at ho
      · rw [List.mem_singleton] at ho; subst ho
        refine outOfReach_of (ty := .limit) (sd := .buy) rfl rfl (fun t ht => ?_)
        rw [show notReached t _ .limit .buy = (_ <. t.low) from rfl, ht.2.2.1]; exact h1

/-- **C117** (the rebalancing trader, any arithmetic). On a flat market a rebalancing trader that finds its starting balances within the band never executes an order,
with any fees, units, volumes, timestamps, side input, and even in a run that aborts. -/
theorem C117_rebalancing_in_band (fmt : Format F) (cfg : RebalancingConfig F) (c : AccountConfig F) (side : Option (SideInput F)) (p : F)
    (hband : InBand cfg p c.startBase c.startQuote) (ticks : List (OhlcTick F)) (ht : ∀ t ∈ ticks, Flat p t) (fast log : Bool) :
    executions (executeTrader c ticks side fast (rebalancingTrader fmt cfg) RebalancingState.init log).trace = [] ∧
    ∀ r, ticks ≠ [] → (executeTrader c ticks side fast (rebalancingTrader fmt cfg) RebalancingState.init log).out = .ok r →
      r.totalExecutedOrders = 0 ∧ r.endBase = c.startBase ∧ r.endQuote = c.startQuote ∧ r.totalFee = lit F 0 := by
  have hstep : ∀ s t (sg : List F) s' os, True → Flat p t → (rebalancingTrader fmt cfg).update s t sg c.startBase c.startQuote = .ok (s', os) →
      True ∧ ∀ o ∈ os, OutOfReach (Flat p) o := by
    intro s t sg s' os _ hf hu
    obtain ⟨-, -, -, -, rfl⟩ := rebalancingUpdate_ok (sg := sg) hu
    rw [hf.2.2.2]
    exact ⟨trivial, rebalancing_outOfReach cfg hband⟩
  exact ⟨(idle c side _ _ (fun _ => True) (Flat p) trivial hstep ticks ht fast log).1,
    fun r hne hr => idle_result c side _ _ (fun _ => True) (Flat p) trivial hstep ticks hne ht fast log hr⟩

end generic

section exact
variable {K : Type} [Field K] [LinearOrder K] [IsStrictOrderedRing K] [FloorRing K] [Libm K]

/-- What keeps the stop price away from the market. -/
def FarStop (m M : K) (s : StopState K) : Prop := (s.mode = .long → s.stopPrice < m) ∧ (s.mode = .cash → M < s.stopPrice)

theorem below {m M x close : K} (hm : 0 < m) (h : (1 - x) * M < m) (h1 : m ≤ close) (h2 : close ≤ M) : (1 - x) * close < m := by
  rcases le_total 0 (1 - x) with hx | hx
  · exact lt_of_le_of_lt (mul_le_mul_of_nonneg_left h2 hx) h
  · have : (1 - x) * close ≤ 0 := mul_nonpos_of_nonpos_of_nonneg hx (by linarith)
    linarith

theorem above {m M x close : K} (hm : 0 < m) (h : M < (1 + x) * m) (h1 : m ≤ close) (h2 : close ≤ M) : M < (1 + x) * close := by
  have hx : 0 < 1 + x := by
    by_contra hx
    have : (1 + x) * m ≤ 0 := mul_nonpos_of_nonpos_of_nonneg (not_lt.mp hx) hm.le
    linarith
  exact lt_of_lt_of_le h (mul_le_mul_of_nonneg_left h1 hx.le)

theorem farStop_next {cfg : StopConfig K} {m M : K} (hm : 0 < m) {s : StopState K} (hs : FarStop m M s) {t : OhlcTick K}
    (h1 : m ≤ t.close) (h2 : t.close ≤ M) (base quote : K)
    (hdown : stopMode t.close base quote = .long → (1 - cfg.margin) * M < m ∧ (1 - cfg.moveMargin) * M < m)
    (hup : stopMode t.close base quote = .cash → M < (1 + cfg.margin) * m ∧ M < (1 + cfg.moveMargin) * m) :
    (stopMode t.close base quote = .long → nextStop cfg s t base quote < m) ∧ (stopMode t.close base quote = .cash → M < nextStop cfg s t base quote) := by
  have e1 : lit K 1 = (1 : K) := by simp [lit]
  unfold nextStop
  dsimp only
  constructor
  · intro hmode
    have b1 := below hm (hdown hmode).1 h1 h2
    have b3 := below hm (hdown hmode).2 h1 h2
    have hl : (quote <=. base *. t.close) = true := by
      by_contra hl
      unfold stopMode at hmode; rw [if_neg hl] at hmode; cases hmode
    rw [hmode]
    split_ifs with hc
    · simpa [e1, lit] using b1
    · have hsm : s.mode = .long := by
        by_contra hx; exact hc (.inr (fun h => hx h.symm))
      have hst := hs.1 hsm
      simp only [updateStopPrice, if_true]
      split_ifs
      · simp only [ex_fmax, ex_fmin, max_lt_iff, e1]
        exact ⟨hst, lt_of_le_of_lt (min_le_left _ _) (by simpa using b3)⟩
      · exact hst
  · intro hmode
    have b2 := above hm (hup hmode).1 h1 h2
    have b4 := above hm (hup hmode).2 h1 h2
    have hl : ¬ (quote <=. base *. t.close) = true := by
      intro hl
      unfold stopMode at hmode; rw [if_pos hl] at hmode; cases hmode
    rw [hmode]
    split_ifs with hc
    · simpa [e1, lit] using b2
    · have hsm : s.mode = .cash := by
        by_contra hx; exact hc (.inr (fun h => hx h.symm))
      have hst := hs.2 hsm
      simp only [updateStopPrice, reduceCtorEq, if_false, decide_true, assertThat_true, bind, Except.bind, pure, Except.pure]
      split_ifs
      · simp only [ex_fmax, ex_fmin, lt_min_iff, e1]
        exact ⟨hst, lt_of_lt_of_le (by simpa using b4) (le_max_left _ _)⟩
      · exact hst

/-- **C117** (the stop trader). If both margins are wider than the range of all prices, the stop trader never executes an order: with any daily rates, fees, units,
volumes, gaps in time, side input, and even in a run that aborts.  The range matters downwards if the trader can be long (its base currency is worth no less than its
quote currency at some price of the range) and upwards if it can be in cash. -/
theorem C117_stop_margin (fmt : Format K) (cfg : StopConfig K) (c : AccountConfig K) (side : Option (SideInput K)) (m M : K) (hm : 0 < m) (hb : 0 ≤ c.startBase)
    (hlong : c.startQuote ≤ c.startBase * M → ∀ x, x = cfg.margin ∨ x = cfg.moveMargin → (1 - x) * M < m)
    (hcash : c.startBase * m < c.startQuote → ∀ x, x = cfg.margin ∨ x = cfg.moveMargin → M < (1 + x) * m)
    (ticks : List (OhlcTick K)) (ht : ∀ t ∈ ticks, TickWithin m M t) (fast log : Bool) :
    executions (executeTrader c ticks side fast (stopTrader fmt cfg) StopState.init log).trace = [] ∧
    ∀ r, ticks ≠ [] → (executeTrader c ticks side fast (stopTrader fmt cfg) StopState.init log).out = .ok r →
      r.totalExecutedOrders = 0 ∧ r.endBase = c.startBase ∧ r.endQuote = c.startQuote ∧ r.totalFee = 0 := by
  have hstep : ∀ s t (sg : List K) s' os, FarStop m M s → TickWithin m M t → (stopTrader fmt cfg).update s t sg c.startBase c.startQuote = .ok (s', os) →
      FarStop m M s' ∧ ∀ o ∈ os, OutOfReach (TickWithin m M) o := by
    intro s t sg s' os hs hp hu
    have hc := hp.2.2.2
    have hdown : stopMode t.close c.startBase c.startQuote = .long → (1 - cfg.margin) * M < m ∧ (1 - cfg.moveMargin) * M < m := by
      intro hmode
      have hq : c.startQuote ≤ c.startBase * t.close := by
        by_contra hq
        unfold stopMode at hmode
        rw [if_neg (by simpa using hq)] at hmode; cases hmode
      have hq := hq.trans (mul_le_mul_of_nonneg_left hc.2 hb)
      exact ⟨hlong hq _ (.inl rfl), hlong hq _ (.inr rfl)⟩
    have hup : stopMode t.close c.startBase c.startQuote = .cash → M < (1 + cfg.margin) * m ∧ M < (1 + cfg.moveMargin) * m := by
      intro hmode
      have hq : c.startBase * t.close < c.startQuote := by
        by_contra hq
        unfold stopMode at hmode
        rw [if_pos (by simpa using hq)] at hmode; cases hmode
      have hq := lt_of_le_of_lt (mul_le_mul_of_nonneg_left hc.1 hb) hq
      exact ⟨hcash hq _ (.inl rfl), hcash hq _ (.inr rfl)⟩
    obtain ⟨-, -, -, rfl, rfl⟩ := stopUpdate_ok (sg := sg) hu
    obtain ⟨f1, f2⟩ := farStop_next hm hs hc.1 hc.2 c.startBase c.startQuote hdown hup
    refine ⟨⟨f1, f2⟩, ?_⟩
    intro o ho
    rw [List.mem_singleton] at ho
    subst ho
    split_ifs with hl
    · have hmode : stopMode t.close c.startBase c.startQuote = .long := by unfold stopMode; rw [if_pos hl]
      refine outOfReach_of (ty := .stop) (sd := .sell) rfl rfl (fun t' ht' => ?_)
      simp only [notReached, Order.getPrice, Option.getD_some, ex_lt, decide_eq_true_eq]
      exact lt_of_lt_of_le (f1 hmode) ht'.2.2.1.1
    · have hmode : stopMode t.close c.startBase c.startQuote = .cash := by unfold stopMode; rw [if_neg hl]
      refine outOfReach_of (ty := .stop) (sd := .buy) rfl rfl (fun t' ht' => ?_)
      simp only [notReached, Order.getPrice, Option.getD_some, ex_lt, decide_eq_true_eq]
      exact lt_of_le_of_lt ht'.2.1.2 (f2 hmode)
  have hinit : FarStop m M StopState.init := ⟨fun h => by simp [StopState.init] at h, fun h => by simp [StopState.init] at h⟩
  refine ⟨(idle c side _ _ (FarStop m M) _ hinit hstep ticks ht fast log).1, fun r hne hr => ?_⟩
  have := idle_result c side _ _ (FarStop m M) _ hinit hstep ticks hne ht fast log hr
  simpa [lit] using this

/-- The market order of the rebalancing trader, executed on a flat market without fees and units, makes the allocation alpha. -/
theorem restore_flat (cfg : RebalancingConfig K) (s s' : RebalancingState K) (t next : OhlcTick K) (sg : List K) (a : Account K) (c : AccountConfig K)
    (o : Order K) (hb : 0 ≤ a.baseBalance) (hq : 0 ≤ a.quoteBalance) (ha0 : 0 ≤ cfg.alpha) (ha1 : cfg.alpha ≤ 1) (he0 : 0 < cfg.epsilon) (he1 : cfg.epsilon < 1)
    (hfee : FreeOfFees c.marketFee) (hbu : a.baseUnit = 0) (hqu : a.quoteUnit = 0) (hnext : Flat t.close next) (hm : isMarket o)
    (h : rebalancingUpdate cfg s t sg a.baseBalance a.quoteBalance = .ok (s', [o])) :
    ∃ a', a.executeOrder c o next = .ok (true, a') ∧ allocation a'.baseBalance a'.quoteBalance t.close = cfg.alpha ∧ valueAt a' t.close = valueAt a t.close := by
  have hv : ValidOrder o := C52_orders_valid cfg s s' t sg _ _ _ ha0 he0 he1 hb hq h o (by simp)
  have hres := C53_restores_alpha cfg s s' t sg _ _ _ hb hq ha0 ha1 h
  obtain ⟨-, hp, -, -, hos⟩ := rebalancingUpdate_ok h
  have hp : 0 < t.close := by simpa using hp
  obtain ⟨sd, x, e⟩ : ∃ sd x, o = marketOrder sd x := by
    rcases rebalancingOrders_shape cfg t.close a.baseBalance a.quoteBalance with ⟨sd, x, e⟩ | ⟨sells, buys, e, hs, hb⟩
    · rw [e] at hos; exact ⟨sd, x, by simpa using hos⟩
    · exfalso
      rw [e] at hos
      rcases hs with rfl | ⟨x, p, rfl, -⟩ <;> rcases hb with rfl | ⟨y, q, rfl, -⟩ <;> simp at hos <;>
        simp [hos, isMarket, limitOrder] at hm
  subst e
  have hx : 0 < x := by
    obtain ⟨_, _, _, _, _, y, hy, hy'⟩ := hv
    have hy : 0 < y := by simpa using hy
    rcases hy' with hy' | hy' <;> simp [marketOrder] at hy'
    rwa [hy']
  have hround : ∀ y : K, roundUnit y (0 : K) = y := fun y => by simp [roundUnit]
  have hceil : ∀ y : K, ceilUnit y (0 : K) = y := fun y => by simp [ceilUnit]
  have hfloor : ∀ y : K, floorUnit y (0 : K) = y := fun y => by simp [floorUnit]
  have hfee' : ∀ q : K, a.getFee c.marketFee q = 0 := by
    intro q
    unfold Account.getFee
    rw [hqu, hceil, hfee.1, hfee.2.1, hfee.2.2]
    simp
  have hflat : ∀ l : K, interp l t.close t.close = t.close := by
    intro l
    simp only [interp, lit, ex_add, ex_mul, ex_sub, ex_ofRat, Rat.cast_one]
    ring
  rw [Account.executeOrder_valid a c _ next hv rfl rfl]
  rw [if_neg (by simp [notReached])]
  cases sd
  · obtain ⟨r1, r2, r3⟩ := (hres x).2 rfl
    simp only [marketOrder, tradeOf, execPrice, hnext.1, hnext.2.1, hflat, reduceCtorEq, if_false, feeFor]
    rw [Account.buyBase_eq, if_pos (by simpa using hp), if_pos (by simpa using hx.le)]
    simp only [hbu, hqu, hround, hceil, hfee']
    rw [if_neg (by simpa using hx.le), if_neg (by simpa using r2)]
    refine ⟨_, rfl, ?_, ?_⟩
    · simp only [Account.afterBuy, hbu, hqu, hround, ex_add, ex_sub, ex_mul, add_zero]; exact r1
    · simp only [valueAt, Account.afterBuy, hbu, hqu, hround, ex_add, ex_sub, ex_mul, add_zero]; exact r3
  · obtain ⟨r1, r2, r3⟩ := (hres x).1 rfl
    simp only [marketOrder, tradeOf, execPrice, hnext.1, hnext.2.2.1, hflat, reduceCtorEq, if_false, feeFor]
    rw [Account.sellBase_eq, if_pos (by simpa using hp), if_pos (by simpa using hx.le)]
    simp only [hbu, hqu, hround, hfloor, hfee']
    rw [if_neg (by simp [hx.le, r2]), if_neg (by simpa using (mul_pos hx hp).le)]
    refine ⟨_, rfl, ?_, ?_⟩
    · simp only [Account.afterSell, hbu, hqu, hround, ex_add, ex_sub, ex_mul, sub_zero]; exact r1
    · simp only [valueAt, Account.afterSell, hbu, hqu, hround, ex_add, ex_sub, ex_mul, sub_zero]; exact r3

/-- **C117** (the rebalancing trader, out of the band). On a flat market of at least two ticks, all with some volume, without market fees and units, a rebalancing
trader that starts out of its band executes exactly one order: afterwards its allocation is alpha for good, and the portfolio is worth what it was. -/
theorem C117_rebalancing_once (fmt : Format K) (cfg : RebalancingConfig K) (c : AccountConfig K) (side : Option (SideInput K)) (p : K)
    (ha0 : 0 ≤ cfg.alpha) (ha1 : cfg.alpha ≤ 1) (he0 : 0 < cfg.epsilon) (he1 : cfg.epsilon < 1)
    (hb : 0 ≤ c.startBase) (hq : 0 ≤ c.startQuote) (hfee : FreeOfFees c.marketFee) (hbu : c.baseUnit = 0) (hqu : c.quoteUnit = 0)
    (hout : ¬ (cfg.alpha * (1 - cfg.epsilon) ≤ allocation c.startBase c.startQuote p ∧ allocation c.startBase c.startQuote p ≤ cfg.alpha * (1 + cfg.epsilon)))
    (ticks : List (OhlcTick K)) (hlen : 2 ≤ ticks.length) (ht : ∀ t ∈ ticks, Flat p t ∧ t.volume ≠ 0) (fast log : Bool) {r : ExecutionResult K}
    (hr : (executeTrader c ticks side fast (rebalancingTrader fmt cfg) RebalancingState.init log).out = .ok r) :
    r.totalExecutedOrders = 1 ∧ allocation r.endBase r.endQuote p = cfg.alpha ∧ r.endBase * p + r.endQuote = c.startBase * p + c.startQuote := by
  match ticks, hlen with
  | t1 :: t2 :: rest, _ =>
  have act : ∀ t ∈ t1 :: t2 :: rest, active t = true := by
    intro t h
    have := (ht t h).2
    simp only [active, lit]
    simpa using this
  rw [executeTrader_eq _ _ _ _ _ _ _ (by simp)] at hr
  dsimp only at hr
  cases hx : (execLoop c (t1 :: t2 :: rest) side fast (rebalancingTrader fmt cfg) RebalancingState.init log).out with
  | error e => rw [hx] at hr; cases hr
  | ok s =>
  rw [hx] at hr; cases hr
  unfold execLoop at hx
  rw [List.foldlM_cons, Run.bind_eq] at hx
  cases h1 : (tickStep c side (rebalancingTrader fmt cfg) fast log (execStart c (rebalancingTrader fmt cfg) RebalancingState.init) t1).out with
  | error e => rw [Run.andThen_error h1] at hx; cases hx
  | ok s1 =>
  rw [Run.andThen_ok h1] at hx
  dsimp only at hx
  rw [List.foldlM_cons, Run.bind_eq] at hx
  cases h2 : (tickStep c side (rebalancingTrader fmt cfg) fast log s1 t2).out with
  | error e => rw [Run.andThen_error h2] at hx; cases hx
  | ok s2 =>
  rw [Run.andThen_ok h2] at hx
  dsimp only at hx
  -- the first tick
  have k1 : ∃ (tr' : RebalancingState K) (sg : List K), s1.account = Account.init c ∧ s1.executed = 0 ∧
      rebalancingUpdate cfg RebalancingState.init t1 sg c.startBase c.startQuote = .ok (tr', s1.orders) := by
    rw [tickStep_eq] at h1
    cases hsg : sideStep side t1.ts (execStart c (rebalancingTrader fmt cfg) RebalancingState.init).signals (execStart c (rebalancingTrader fmt cfg) RebalancingState.init).prevIndex with
    | error e => rw [hsg] at h1; cases h1
    | ok sg =>
      rw [hsg] at h1
      dsimp only at h1
      rw [show (execOrders log c t1 (execStart c (rebalancingTrader fmt cfg) RebalancingState.init).orders
        (execStart c (rebalancingTrader fmt cfg) RebalancingState.init).account (execStart c (rebalancingTrader fmt cfg) RebalancingState.init).executed).out =
        .ok (Account.init c, 0) from rfl] at h1
      dsimp only at h1
      rw [if_pos (act t1 (by simp)), traderStep_eq] at h1
      dsimp only at h1
      rw [show (Account.init c).baseBalance = c.startBase from rfl, show (Account.init c).quoteBalance = c.startQuote from rfl,
        show (execStart c (rebalancingTrader fmt cfg) RebalancingState.init).trader = RebalancingState.init from rfl] at h1
      cases hu : rebalancingUpdate cfg RebalancingState.init t1 sg.1 c.startBase c.startQuote with
      | error e => rw [hu] at h1; cases h1
      | ok u =>
        rw [hu] at h1
        obtain ⟨v1, -, -, v4, v5, v6⟩ := volPart_ok h1
        exact ⟨u.1, sg.1, v1, v5, by rw [v4]; exact hu⟩
  obtain ⟨tr', sg1, a1, n1, u1⟩ := k1
  have f1 := (ht t1 (by simp)).1
  have f2 := (ht t2 (by simp)).1
  have hu1 := rebalancingUpdate_ok u1
  have hp : 0 < p := by have := hu1.2.1; rw [f1.2.2.2] at this; simpa using this
  have hmk : ∃ o, s1.orders = [o] ∧ isMarket o := by
    have h := hu1.2.2.2.2
    rw [rebalancingOrders_exact, f1.2.2.2] at h
    split_ifs at h with g1 g2
    · exact ⟨_, h, rfl⟩
    · exact ⟨_, h, rfl⟩
    all_goals exact absurd ⟨not_lt.mp g2, not_lt.mp g1⟩ hout
  obtain ⟨o, ho, hom⟩ := hmk
  rw [ho] at u1
  obtain ⟨a', e1, e2, e3⟩ := restore_flat cfg RebalancingState.init tr' t1 t2 sg1 (Account.init c) c o hb hq ha0 ha1 he0 he1 hfee hbu hqu
    (by rw [f1.2.2.2]; exact f2) hom u1
  rw [f1.2.2.2] at e2 e3
  -- the second tick
  have k2 : s2.account = a' ∧ s2.executed = 1 ∧ s2.orders = rebalancingOrders cfg p a'.baseBalance a'.quoteBalance := by
    rw [tickStep_eq] at h2
    cases hsg : sideStep side t2.ts s1.signals s1.prevIndex with
    | error e => rw [hsg] at h2; cases h2
    | ok sg =>
      rw [hsg] at h2
      dsimp only at h2
      rw [ho, a1, n1] at h2
      have hex : (execOrders log c t2 [o] (Account.init c) 0).out = .ok (a', 1) := by
        rw [execOrders_cons, e1]; rfl
      rw [hex] at h2
      dsimp only at h2
      rw [if_pos (act t2 (by simp)), traderStep_eq] at h2
      dsimp only at h2
      cases hu : rebalancingUpdate cfg s1.trader t2 sg.1 a'.baseBalance a'.quoteBalance with
      | error e => rw [hu] at h2; cases h2
      | ok u =>
        rw [hu] at h2
        obtain ⟨v1, -, -, v4, v5, v6⟩ := volPart_ok h2
        refine ⟨v1, v5, ?_⟩
        rw [v4]
        have := (rebalancingUpdate_ok (s' := u.1) (os := u.2) hu).2.2.2.2
        rw [f2.2.2.2] at this
        exact this
  obtain ⟨a2, n2, o2⟩ := k2
  have hband : InBand cfg p a'.baseBalance a'.quoteBalance := by
    have h := e2
    unfold allocation at h
    unfold InBand
    simp only [lit, ex_add, ex_sub, ex_mul, ex_div, ex_lt, ex_ofRat, Rat.cast_one, decide_eq_false_iff_not, not_lt, h]
    constructor <;> nlinarith
  have hidle := (idle_loop c side (rebalancingTrader fmt cfg) (fun _ => True) (Flat p) s2 trivial
    (by rw [o2]; exact rebalancing_outOfReach cfg hband)
    (by
      intro s t sg s' os _ hf hu
      obtain ⟨-, -, -, -, rfl⟩ := rebalancingUpdate_ok (sg := sg) hu
      rw [hf.2.2.2, a2]
      exact ⟨trivial, rebalancing_outOfReach cfg hband⟩)
    rest (fun t h => (ht t (by simp [h])).1) fast log).2 s hx
  simp only [execResult, hidle.1, hidle.2, a2, n2]
  refine ⟨trivial, e2, ?_⟩
  simpa [valueAt, Account.init] using e3

end exact

/-! ### The stop trader in binary32 -/

section float
variable [Libm F32] [Libm F64]

theorem lt_lt {a b c : F32} (h : Fl.lt a b = true) (h' : Fl.lt b c = true) : Fl.lt a c = true := by
  cases a <;> cases b <;> cases c <;> simp_all <;> linarith
theorem lt_le {a b c : F32} (h : Fl.lt a b = true) (h' : Fl.Le b c) : Fl.lt a c = true := by
  obtain ⟨hb, hc, h'⟩ := h'
  cases a <;> cases b <;> cases c <;> simp_all <;> linarith
theorem le_lt {a b c : F32} (h : Fl.Le a b) (h' : Fl.lt b c = true) : Fl.lt a c = true := by
  obtain ⟨hb, hc, h⟩ := h
  cases a <;> cases b <;> cases c <;> simp_all <;> linarith

/-- All prices of the tick are numbers between `m` and `M`. -/
def Within32 (m M : F32) (t : OhlcTick F32) : Prop :=
  ∀ x, x = t.opn ∨ x = t.high ∨ x = t.low ∨ x = t.close → Fl.Le m x ∧ Fl.Le x M

/-- What keeps the stop price away from the market. -/
def FarStop32 (m M : F32) (s : StopState F32) : Prop :=
  (s.mode = .long → (s.stopPrice <. m) = true) ∧ (s.mode = .cash → (M <. s.stopPrice) = true)

/-- A margin that is wider than the range of prices, as computed in `float`. -/
structure Wide32 (x m M : F32) : Prop where
  finDown : Fl.IsFin (lit F32 1 -. x)
  posDown : 0 < Fl.toQ (lit F32 1 -. x)
  down : ((lit F32 1 -. x) *. M <. m) = true
  finUp : Fl.IsFin (lit F32 1 +. x)
  posUp : 0 < Fl.toQ (lit F32 1 +. x)
  up : (M <. (lit F32 1 +. x) *. m) = true

theorem Wide32.below {x m M close : F32} (h : Wide32 x m M) (hc : Fl.Le close M) : ((lit F32 1 -. x) *. close <. m) = true :=
  le_lt (Fl.Le.mul_left (by decide) h.finDown h.posDown hc) h.down
theorem Wide32.above {x m M close : F32} (h : Wide32 x m M) (hc : Fl.Le m close) : (M <. (lit F32 1 +. x) *. close) = true :=
  lt_le h.up (Fl.Le.mul_left (by decide) h.finUp h.posUp hc)

theorem fmax_lt {a b m : F32} (ha : (a <. m) = true) (hb : (b <. m) = true) : (fmax a b <. m) = true := by unfold fmax; split_ifs <;> assumption
theorem fmin_lt {a m : F32} (b : F32) (ha : (a <. m) = true) : (fmin a b <. m) = true := by
  unfold fmin
  split_ifs with h
  · exact lt_lt h ha
  · exact ha
theorem lt_fmin {a b m : F32} (ha : (m <. a) = true) (hb : (m <. b) = true) : (m <. fmin a b) = true := by unfold fmin; split_ifs <;> assumption
theorem lt_fmax {a m : F32} (b : F32) (ha : (m <. a) = true) : (m <. fmax a b) = true := by
  unfold fmax
  split_ifs with h
  · exact lt_lt ha h
  · exact ha

theorem farStop_next32 {cfg : StopConfig F32} {m M : F32} (hw : Wide32 cfg.margin m M) (hw' : Wide32 cfg.moveMargin m M) {s : StopState F32} (hs : FarStop32 m M s)
    {t : OhlcTick F32} (ht : Within32 m M t) (base quote : F32) :
    (stopMode t.close base quote = .long → (nextStop cfg s t base quote <. m) = true) ∧
      (stopMode t.close base quote = .cash → (M <. nextStop cfg s t base quote) = true) := by
  obtain ⟨h1, h2⟩ := ht t.close (by simp)
  have b1 := hw.below h2
  have b2 := hw.above h1
  have b3 := hw'.below h2
  have b4 := hw'.above h1
  unfold nextStop
  dsimp only
  constructor
  · intro hmode
    have hl : (quote <=. base *. t.close) = true := by
      by_contra hl
      unfold stopMode at hmode; rw [if_neg hl] at hmode; cases hmode
    rw [hmode]
    split_ifs with hc
    · exact b1
    · have hsm : s.mode = .long := by
        by_contra hx; exact hc (.inr (fun h => hx h.symm))
      have hst := hs.1 hsm
      simp only [updateStopPrice, if_true]
      split_ifs
      · exact fmax_lt hst (fmin_lt _ b3)
      · exact hst
  · intro hmode
    have hl : ¬ (quote <=. base *. t.close) = true := by
      intro hl
      unfold stopMode at hmode; rw [if_pos hl] at hmode; cases hmode
    rw [hmode]
    split_ifs with hc
    · exact b2
    · have hsm : s.mode = .cash := by
        by_contra hx; exact hc (.inr (fun h => hx h.symm))
      have hst := hs.2 hsm
      simp only [updateStopPrice, reduceCtorEq, if_false, decide_true, assertThat_true, bind, Except.bind, pure, Except.pure]
      split_ifs
      · exact lt_fmin hst (lt_fmax _ b4)
      · exact hst

/-- **C117** (the stop trader, binary32). The same for the program's `float` arithmetic: if both margins, as the trader computes with them, are wider than the range of
the prices, it never executes an order, whatever `std::exp` and `std::log` return. -/
theorem C117_stop_margin_f32 (fmt : Format F32) (cfg : StopConfig F32) (c : AccountConfig F32) (side : Option (SideInput F32)) (m M : F32)
    (hw : Wide32 cfg.margin m M) (hw' : Wide32 cfg.moveMargin m M) (ticks : List (OhlcTick F32)) (ht : ∀ t ∈ ticks, Within32 m M t) (fast log : Bool) :
    executions (executeTrader (D := F64) c ticks side fast (stopTrader fmt cfg) StopState.init log).trace = [] ∧
    ∀ r, ticks ≠ [] → (executeTrader (D := F64) c ticks side fast (stopTrader fmt cfg) StopState.init log).out = .ok r →
      r.totalExecutedOrders = 0 ∧ r.endBase = c.startBase ∧ r.endQuote = c.startQuote ∧ r.totalFee = lit F32 0 := by
  have hstep : ∀ s t (sg : List F32) s' os, FarStop32 m M s → Within32 m M t → (stopTrader fmt cfg).update s t sg c.startBase c.startQuote = .ok (s', os) →
      FarStop32 m M s' ∧ ∀ o ∈ os, OutOfReach (Within32 m M) o := by
    intro s t sg s' os hs hp hu
    obtain ⟨-, -, -, rfl, rfl⟩ := stopUpdate_ok (sg := sg) hu
    obtain ⟨f1, f2⟩ := farStop_next32 hw hw' hs hp c.startBase c.startQuote
    refine ⟨⟨f1, f2⟩, ?_⟩
    intro o ho
    rw [List.mem_singleton] at ho
    subst ho
    split_ifs with hl
    · have hmode : stopMode t.close c.startBase c.startQuote = .long := by unfold stopMode; rw [if_pos hl]
      exact outOfReach_of (ty := .stop) (sd := .sell) rfl rfl (fun t' ht' => lt_le (f1 hmode) (ht' t'.low (by simp)).1)
    · have hmode : stopMode t.close c.startBase c.startQuote = .cash := by unfold stopMode; rw [if_neg hl]
      exact outOfReach_of (ty := .stop) (sd := .buy) rfl rfl (fun t' ht' => le_lt (ht' t'.high (by simp)).2 (f2 hmode))
  have hinit : FarStop32 m M StopState.init := ⟨fun h => by simp [StopState.init] at h, fun h => by simp [StopState.init] at h⟩
  exact ⟨(idle c side _ _ (FarStop32 m M) _ hinit hstep ticks ht fast log).1,
    fun r hne hr => idle_result c side _ _ (FarStop32 m M) _ hinit hstep ticks hne ht fast log hr⟩

/-- Prices between 95 and 104, and the default margin of 10 %. -/
example (fmt : Format F32) := C117_stop_margin_f32 fmt ⟨lit F32 (1 / 10), lit F32 (1 / 10), lit F32 (1 / 100), lit F32 (1 / 10)⟩
  ⟨lit F32 1, lit F32 50, lit F32 0, lit F32 0, ⟨lit F32 0, lit F32 0, lit F32 0⟩, ⟨lit F32 0, lit F32 0, lit F32 0⟩, ⟨lit F32 0, lit F32 0, lit F32 0⟩, lit F32 1, lit F32 0⟩
  none (lit F32 95) (lit F32 104)
  ⟨by decide +kernel, by decide +kernel, by decide +kernel, by decide +kernel, by decide +kernel, by decide +kernel⟩
  ⟨by decide +kernel, by decide +kernel, by decide +kernel, by decide +kernel, by decide +kernel, by decide +kernel⟩
  [⟨60, lit F32 100, lit F32 104, lit F32 96, lit F32 98, lit F32 5⟩, ⟨120, lit F32 98, lit F32 103, lit F32 95, lit F32 101, lit F32 0⟩]
  (by
    intro t h
    simp only [List.mem_cons, List.not_mem_nil, or_false] at h
    have : ∀ a b : F32, Fl.IsFin a → Fl.IsFin b → Fl.toQ a ≤ Fl.toQ b → Fl.Le a b := fun a b ha hb hab => Fl.Le.of_fin ha hb hab
    rcases h with rfl | rfl <;> rintro x (rfl | rfl | rfl | rfl) <;>
      exact ⟨this _ _ (by decide +kernel) (by decide +kernel) (by decide +kernel), this _ _ (by decide +kernel) (by decide +kernel) (by decide +kernel)⟩) true false

/-- The rebalancing trader with the default parameters, 70 % of the account in base currency, on a flat market. -/
example (fmt : Format F32) := C117_rebalancing_in_band (D := F64) fmt ⟨lit F32 (7 / 10), lit F32 (5 / 100)⟩
  ⟨lit F32 7, lit F32 300, lit F32 0, lit F32 0, ⟨lit F32 0, lit F32 0, lit F32 0⟩, ⟨lit F32 0, lit F32 0, lit F32 0⟩, ⟨lit F32 0, lit F32 0, lit F32 0⟩, lit F32 1, lit F32 0⟩
  none (lit F32 100) (by constructor <;> decide +kernel)
  [⟨60, lit F32 100, lit F32 100, lit F32 100, lit F32 100, lit F32 5⟩, ⟨120, lit F32 100, lit F32 100, lit F32 100, lit F32 100, lit F32 0⟩]
  (by intro t h; simp only [List.mem_cons, List.not_mem_nil, or_false] at h; rcases h with rfl | rfl <;> exact ⟨rfl, rfl, rfl, rfl⟩) true false

end float

/-! ### The hypotheses are met, and needed -/

section witness
attribute [local instance] evLibm

/-- 1 unit of base and 50 of quote currency, fees, units and a volume limit. -/
def qCfg : AccountConfig ℚ := ⟨1, 50, 1/10, 1/100, ⟨1/100, 0, 1/2⟩, ⟨1/100, 0, 1/2⟩, ⟨1/200, 1/10, 0⟩, 1/2, 1/2⟩
/-- 0 units of base and 100 of quote currency, no fees, no units. -/
def qFree : AccountConfig ℚ := ⟨0, 100, 0, 0, ⟨0, 0, 0⟩, ⟨0, 0, 0⟩, ⟨0, 0, 0⟩, 1/3, 0⟩
def qFmt : Format ℚ := ⟨fun _ => "", fun _ _ => ""⟩
/-- Prices between 95 and 104, a gap of more than an hour, a tick without volume. -/
def qTicks : List (OhlcTick ℚ) := [⟨60, 100, 104, 96, 98, 5⟩, ⟨120, 98, 103, 95, 101, 0⟩, ⟨180, 101, 104, 97, 104, 5⟩, ⟨9000, 100, 102, 95, 95, 5⟩]
/-- A flat market, with a tick without volume. -/
def qFlat : List (OhlcTick ℚ) := [⟨60, 50, 50, 50, 50, 5⟩, ⟨120, 50, 50, 50, 50, 0⟩, ⟨180, 50, 50, 50, 50, 5⟩]
/-- A flat market, with volume in each tick. -/
def qFull : List (OhlcTick ℚ) := [⟨60, 50, 50, 50, 50, 5⟩, ⟨120, 50, 50, 50, 50, 1⟩, ⟨180, 50, 50, 50, 50, 5⟩, ⟨240, 50, 50, 50, 50, 2⟩]
/-- Margins of 10 %, no rates. -/
def qStop : StopConfig ℚ := ⟨1/10, 1/10, 0, 0⟩
/-- Alpha one half, epsilon 5 %. -/
def qReb : RebalancingConfig ℚ := ⟨1/2, 1/20⟩

example := C117_stop_margin qFmt qStop qCfg none 95 104 (by norm_num) (by norm_num [qCfg])
  (by rintro - x (rfl | rfl) <;> norm_num [qStop]) (by rintro - x (rfl | rfl) <;> norm_num [qStop]) qTicks
  (by intro t h; simp only [qTicks, List.mem_cons, List.not_mem_nil, or_false] at h; rcases h with rfl | rfl | rfl | rfl <;> norm_num [TickWithin]) true false
example : ((executeTrader qCfg qTicks none true (stopTrader qFmt qStop) StopState.init false).out.toOption.map (·.totalExecutedOrders)) = some 0 := by
  decide +kernel
example := C117_rebalancing_in_band qFmt qReb qCfg none 50 (by constructor <;> decide +kernel) qFlat
  (by intro t h; simp only [qFlat, List.mem_cons, List.not_mem_nil, or_false] at h; rcases h with rfl | rfl | rfl <;> exact ⟨rfl, rfl, rfl, rfl⟩) true false
example : ((executeTrader qCfg qFlat none true (rebalancingTrader qFmt qReb) RebalancingState.init false).out.toOption.map (·.totalExecutedOrders)) = some 0 := by
  decide +kernel
example (r) (hr : (executeTrader qFree qFull none true (rebalancingTrader qFmt qReb) RebalancingState.init false).out = .ok r) :=
  C117_rebalancing_once qFmt qReb qFree none 50 (by norm_num [qReb]) (by norm_num [qReb]) (by norm_num [qReb]) (by norm_num [qReb]) (by norm_num [qFree])
    (by norm_num [qFree]) (by simp [FreeOfFees, qFree]) rfl rfl (by norm_num [allocation, qFree, qReb]) qFull (by simp [qFull])
    (by intro t h; simp only [qFull, List.mem_cons, List.not_mem_nil, or_false] at h
        rcases h with rfl | rfl | rfl | rfl <;> exact ⟨⟨rfl, rfl, rfl, rfl⟩, by norm_num⟩) true false hr
example : ((executeTrader qFree qFull none true (rebalancingTrader qFmt qReb) RebalancingState.init false).out.toOption.map
    (fun r => (r.totalExecutedOrders, r.endBase, r.endQuote))) = some (1, 1, 50) := by decide +kernel

/-- **C117** (the margin is sharp). With prices between 90 and 100 a margin of 10 %, `(1 - margin) · 100 = 90`, is not wider than the range, and a trader that is long
sells; with prices between 100 and 110, `110 = (1 + margin) · 100`, a trader in cash buys. -/
theorem C117_stop_margin_sharp :
    (∃ (ticks : List (OhlcTick ℚ)) (r : ExecutionResult ℚ), (∀ t ∈ ticks, TickWithin 90 100 t) ∧ (1 - qStop.margin) * 100 = 90 ∧
      qCfg.startQuote ≤ qCfg.startBase * 90 ∧
      (executeTrader qCfg ticks none true (stopTrader qFmt qStop) StopState.init false).out = .ok r ∧ r.totalExecutedOrders = 1) ∧
    ∃ (ticks : List (OhlcTick ℚ)) (r : ExecutionResult ℚ), (∀ t ∈ ticks, TickWithin 100 110 t) ∧ (1 + qStop.margin) * 100 = 110 ∧
      qFree.startBase * 110 < qFree.startQuote ∧
      (executeTrader qFree ticks none true (stopTrader qFmt qStop) StopState.init false).out = .ok r ∧ r.totalExecutedOrders = 1 := by
  refine ⟨⟨[⟨60, 100, 100, 100, 100, 5⟩, ⟨120, 95, 96, 90, 95, 5⟩], ⟨1, 50, 0, 1391 / 10, 100, 95, 150, 1391 / 10, 1, 9 / 10, 0, 0⟩, ?_, ?_, ?_, ?_, rfl⟩,
    ⟨[⟨60, 100, 100, 100, 100, 5⟩, ⟨120, 105, 110, 101, 105, 5⟩], ⟨0, 100, 10 / 11, 0, 100, 105, 100, 1050 / 11, 1, 0, 0, 0⟩, ?_, ?_, ?_, ?_, rfl⟩⟩
  · intro t h
    simp only [List.mem_cons, List.not_mem_nil, or_false] at h
    rcases h with rfl | rfl <;> norm_num [TickWithin]
  · norm_num [qStop]
  · norm_num [qCfg]
  · decide +kernel
  · intro t h
    simp only [List.mem_cons, List.not_mem_nil, or_false] at h
    rcases h with rfl | rfl <;> norm_num [TickWithin]
  · norm_num [qStop]
  · norm_num [qFree]
  · decide +kernel

/-- **C117** (every tick must have volume). On a flat market with one tick without volume the market order executes twice, and the rebalancing trader ends with an
allocation of 1 instead of one half. -/
theorem C117_rebalancing_zero_volume : ∃ r : ExecutionResult ℚ, (∀ t ∈ qFlat, Flat 50 t) ∧
    (executeTrader qFree qFlat none true (rebalancingTrader qFmt qReb) RebalancingState.init false).out = .ok r ∧
    r.totalExecutedOrders = 2 ∧ allocation r.endBase r.endQuote 50 = 1 ∧ qReb.alpha = 1 / 2 := by
  refine ⟨⟨0, 100, 2, 0, 50, 50, 100, 100, 2, 0, 0, 0⟩, ?_, by decide +kernel, rfl, by norm_num [allocation], rfl⟩
  intro t h
  simp only [qFlat, List.mem_cons, List.not_mem_nil, or_false] at h
  rcases h with rfl | rfl | rfl <;> exact ⟨rfl, rfl, rfl, rfl⟩

end witness
end Verif.Props.Quiet
