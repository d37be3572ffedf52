import Verif.Spec.StopLoss
import Verif.Props.Quiet
import Verif.Props.FloatAfford
import Verif.Num.Nearest
import Verif.Props.Scanf

/-!
# C119: a stop order limits the loss
-/

set_option linter.unusedSectionVars false

namespace Verif.Props.StopLoss
open FloatOps Spec

section generic
variable {F D : Type} [FloatOps F] [FloatOps D] [Wide F D] [Libm F] [Libm D]

theorem firstReached_append (a b : List (Event F)) : firstReached (a ++ b) = (firstReached a).or (firstReached b) := by
  unfold firstReached; rw [List.findSome?_append]

theorem firstReached_exec (t : OhlcTick F) (o : Order F) (r : Res (Bool × Account F)) (rest : List (Event F)) :
    firstReached (.exec t o r :: rest) = if reached t o then some (t, o, r) else firstReached rest := by
  unfold firstReached
  rw [List.findSome?_cons]
  dsimp only
  cases h : reached t o <;> simp

theorem firstReached_rows (log : Bool) (t : OhlcTick F) (a : Account F) :
    firstReached (if log = true then [Event.tickRow t a] else []) = none := by cases log <;> rfl

/-- The close of the last tick. -/
def lastClose (close : F) (ticks : List (OhlcTick F)) : F := (ticks.getLast?.map OhlcTick.close).getD close

theorem lastClose_cons (close : F) (t : OhlcTick F) (rest : List (OhlcTick F)) :
    lastClose close (t :: rest) = lastClose t.close rest := by
  unfold lastClose
  rw [List.getLast?_cons]
  cases rest.getLast? <;> rfl

/-- A trader that always has one order standing, as long as that order is not reached. -/
theorem phase (c : AccountConfig F) (side : Option (SideInput F)) (T : Trader F) (fast log : Bool) (a : Account F)
    {C : F → ℤ → List (OhlcTick F) → Prop} {P : F → ℤ → T.State → Order F → Prop} {Q : OhlcTick F → Order F → Prop}
    (hC : ∀ cl τ t rest, C cl τ (t :: rest) → C t.close (if active t then t.ts else τ) rest)
    (hQ : ∀ cl τ t rest s o, C cl τ (t :: rest) → P cl τ s o → reached t o = true → Q t o)
    (hun : ∀ cl τ t rest s o, C cl τ (t :: rest) → P cl τ s o → reached t o = false →
      ∀ x, a.executeOrder c o t = .ok x → x = (false, a))
    (hidle : ∀ cl τ t rest s o, C cl τ (t :: rest) → P cl τ s o → reached t o = false → active t = false → P t.close τ s o)
    (hupd : ∀ cl τ t rest s o (sg : List F) s' os', C cl τ (t :: rest) → P cl τ s o → reached t o = false → active t = true →
      T.update s t sg a.baseBalance a.quoteBalance = .ok (s', os') → ∃ o', os' = [o'] ∧ P t.close t.ts s' o')
    (ticks : List (OhlcTick F)) : ∀ (cl : F) (τ : ℤ) (s : ExecState F T.State) (o : Order F), C cl τ ticks → s.account = a →
      s.orders = [o] → P cl τ s.trader o →
      (∀ x, firstReached (ticks.foldlM (tickStep c side T fast log) s).trace = some x →
        Q x.1 x.2.1 ∧ x.2.2 = a.executeOrder c x.2.1 x.1) ∧
      (firstReached (ticks.foldlM (tickStep c side T fast log) s).trace = none →
        executions (ticks.foldlM (tickStep c side T fast log) s).trace = [] ∧
        ∀ s', (ticks.foldlM (tickStep c side T fast log) s).out = .ok s' → s'.account = a ∧ s'.executed = s.executed ∧
          ∃ τ' o', s'.orders = [o'] ∧ P (lastClose cl ticks) τ' s'.trader o') := by
  induction ticks with
  | nil =>
    intro cl τ s o _ ha ho hP
    refine ⟨(fun x hx => by cases hx), fun _ => ⟨rfl, fun s' hs => ?_⟩⟩
    cases hs
    exact ⟨ha, rfl, τ, o, ho, hP⟩
  | cons t rest ih =>
    intro cl τ s o hc ha ho hP
    have hC' := hC _ _ _ _ hc
    have hq := hQ _ _ _ _ _ _ hc hP
    have hun := hun _ _ _ _ _ _ hc hP
    have hidle := hidle _ _ _ _ _ _ hc hP
    have hupd := fun sg s' os' => hupd _ _ _ _ _ _ sg s' os' hc hP
    rw [List.foldlM_cons, Run.bind_eq, lastClose_cons]
    have hrow : ∀ x, executions (if log = true then [Event.tickRow t x] else []) = ([] : List (OhlcTick F × Account F × Order F)) :=
      fun _ => by cases log <;> rfl
    -- the orders executed on this tick
    have hexec := execOrders_cons log c t o [] s.account s.executed
    rw [← ho, ha] at hexec
    by_cases hr : reached t o = true
    · -- the order is reached
      have hfirst : ∀ (more : List (Event F)), ∀ pre, firstReached pre = none →
          firstReached (pre ++ ((execOrders log c t s.orders a s.executed).trace ++ more)) = some (t, o, a.executeOrder c o t) := by
        intro more pre hpre
        rw [firstReached_append, hpre, Option.none_or, firstReached_append, hexec]
        cases hx : a.executeOrder c o t with
        | error e => rw [firstReached_exec, if_pos hr]; rfl
        | ok p =>
          obtain ⟨b, a'⟩ := p
          cases b
          · dsimp only; rw [List.cons_append, firstReached_exec, if_pos hr]; rfl
          · dsimp only; rw [List.cons_append, firstReached_exec, if_pos hr]; rfl
      have hall : (tickStep c side T fast log s t).trace = [] ∧ (∃ e, (tickStep c side T fast log s t).out = .error e) ∨
          firstReached (tickStep c side T fast log s t).trace = some (t, o, a.executeOrder c o t) := by
        rw [tickStep_eq]
        cases hsg : sideStep side t.ts s.signals s.prevIndex with
        | error e => exact .inl ⟨rfl, e, rfl⟩
        | ok sg =>
          refine .inr ?_
          dsimp only
          rw [ha]
          cases hx : (execOrders log c t s.orders a s.executed).out with
          | error e =>
            have := hfirst [] _ (firstReached_rows log t a)
            rwa [List.append_nil] at this
          | ok r =>
            dsimp only
            by_cases hact : active t = true
            · rw [if_pos hact]
              dsimp only
              rw [List.append_assoc]
              exact hfirst _ _ (firstReached_rows log t a)
            · rw [if_neg hact]
              have := hfirst [] _ (firstReached_rows log t a)
              rwa [List.append_nil] at this
      rcases hall with ⟨h1, e, h2⟩ | h
      · rw [Run.andThen_error h2, h1]
        refine ⟨(fun x hx => by cases hx), fun _ => ⟨rfl, fun s' hs => by cases hs⟩⟩
      · have hh : firstReached ((tickStep c side T fast log s t).andThen (fun s' => rest.foldlM (tickStep c side T fast log) s')).trace =
            some (t, o, a.executeOrder c o t) := by
          cases hx : (tickStep c side T fast log s t).out with
          | error e => rw [Run.andThen_error hx]; exact h
          | ok s' => rw [Run.andThen_ok hx]; dsimp only; rw [firstReached_append, h]; rfl
        refine ⟨fun x hx => ?_, fun hn => ?_⟩
        · rw [hh] at hx
          obtain rfl := Option.some.inj hx
          exact ⟨hq hr, rfl⟩
        · rw [hh] at hn; cases hn
    · -- the order is not reached
      have hr : reached t o = false := by simpa using hr
      have hx1 : firstReached (execOrders log c t s.orders a s.executed).trace = none ∧
          executions (execOrders log c t s.orders a s.executed).trace = [] ∧
          ∀ r, (execOrders log c t s.orders a s.executed).out = .ok r → r = (a, s.executed) := by
        rw [hexec]
        cases hx : a.executeOrder c o t with
        | error e =>
          refine ⟨?_, rfl, fun r h => by cases h⟩
          rw [firstReached_exec, hr]; rfl
        | ok p =>
          obtain rfl := hun hr p hx
          refine ⟨?_, rfl, fun r h => ?_⟩
          · dsimp only; rw [List.cons_append, firstReached_exec, hr]; rfl
          · exact (Except.ok.inj h).symm
      obtain ⟨x1, x2, x3⟩ := hx1
      have hstep : firstReached (tickStep c side T fast log s t).trace = none ∧ executions (tickStep c side T fast log s t).trace = [] ∧
          ∀ s', (tickStep c side T fast log s t).out = .ok s' → s'.account = a ∧ s'.executed = s.executed ∧
            ∃ o', s'.orders = [o'] ∧ P t.close (if active t then t.ts else τ) s'.trader o' := by
        rw [tickStep_eq]
        cases hsg : sideStep side t.ts s.signals s.prevIndex with
        | error e => exact ⟨rfl, rfl, fun s' h => by cases h⟩
        | ok sg =>
          dsimp only
          rw [ha]
          cases hx : (execOrders log c t s.orders a s.executed).out with
          | error e =>
            dsimp only
            rw [firstReached_append, x1, firstReached_rows, executions_append, x2, hrow]
            exact ⟨rfl, rfl, fun s' h => by cases h⟩
          | ok r =>
            obtain rfl := x3 r hx
            dsimp only
            by_cases hact : active t = true
            · rw [if_pos hact, traderStep_eq, if_pos hact]
              dsimp only
              cases hu : T.update s.trader t sg.1 a.baseBalance a.quoteBalance with
              | error e =>
                dsimp only
                rw [firstReached_append, firstReached_append, x1, firstReached_rows, executions_append, executions_append, x2, hrow]
                exact ⟨rfl, rfl, fun s' h => by cases h⟩
              | ok u =>
                obtain ⟨s1, os1⟩ := u
                obtain ⟨o', rfl, hP'⟩ := hupd _ _ _ hr hact hu
                dsimp only
                rw [firstReached_append, firstReached_append, x1, firstReached_rows, executions_append, executions_append, x2, hrow]
                refine ⟨by cases log <;> rfl, by cases log <;> rfl, fun s' h => ?_⟩
                obtain ⟨v1, -, -, v4, v5, v6⟩ := volPart_ok h
                rw [v1, v4, v5, v6]
                exact ⟨rfl, rfl, o', rfl, hP'⟩
            · rw [if_neg hact, if_neg hact]
              dsimp only
              rw [firstReached_append, x1, firstReached_rows, executions_append, x2, hrow]
              refine ⟨rfl, rfl, fun s' h => ?_⟩
              cases h
              exact ⟨rfl, rfl, o, ho, hidle hr (by simpa using hact)⟩
      obtain ⟨y1, y2, y3⟩ := hstep
      cases hx : (tickStep c side T fast log s t).out with
      | error e =>
        rw [Run.andThen_error hx]
        dsimp only
        rw [y1, y2]
        exact ⟨(fun x h => by cases h), fun _ => ⟨rfl, fun s' h => by cases h⟩⟩
      | ok s1 =>
        obtain ⟨z1, z2, o', z3, z4⟩ := y3 s1 hx
        obtain ⟨i1, i2⟩ := ih t.close _ s1 o' hC' z1 z3 z4
        rw [Run.andThen_ok hx]
        dsimp only
        rw [firstReached_append, y1, executions_append, y2, Option.none_or, List.nil_append]
        rw [← z2]
        exact ⟨i1, i2⟩

/-- The first tick: no order is standing, and the trader is asked. -/
theorem first_tick (c : AccountConfig F) (side : Option (SideInput F)) (T : Trader F) (init : T.State) (fast log : Bool) (t : OhlcTick F)
    (hact : active t = true) :
    firstReached (tickStep c side T fast log (execStart c T init) t).trace = none ∧
    executions (tickStep c side T fast log (execStart c T init) t).trace = [] ∧
    ∀ s, (tickStep c side T fast log (execStart c T init) t).out = .ok s → s.account = Account.init c ∧ s.executed = 0 ∧
      ∃ sg, T.update init t sg c.startBase c.startQuote = .ok (s.trader, s.orders) := by
  rw [tickStep_eq]
  cases hsg : sideStep side t.ts (execStart c T init).signals (execStart c T init).prevIndex with
  | error e => exact ⟨rfl, rfl, fun s' h => by cases h⟩
  | ok sg =>
    have hx : execOrders log c t (execStart c T init).orders (execStart c T init).account (execStart c T init).executed =
        ⟨[], .ok (Account.init c, 0)⟩ := rfl
    dsimp only
    rw [hx]
    dsimp only
    rw [if_pos hact, traderStep_eq]
    dsimp only
    cases hu : T.update (execStart c T init).trader t sg.1 (Account.init c).baseBalance (Account.init c).quoteBalance with
    | error e =>
      refine ⟨by cases log <;> rfl, by cases log <;> rfl, fun s' h => by cases h⟩
    | ok u =>
      obtain ⟨s1, os1⟩ := u
      dsimp only
      refine ⟨by cases log <;> rfl, by cases log <;> rfl, fun s' h => ?_⟩
      obtain ⟨v1, -, -, v4, v5, v6⟩ := volPart_ok h
      rw [v1, v4, v5, v6]
      exact ⟨rfl, rfl, sg.1, hu⟩

/-- From the first tick on: what the rest of the run does from the state after the first tick, the run does. -/
theorem from_first (c : AccountConfig F) (side : Option (SideInput F)) (T : Trader F) (init : T.State) (fast log : Bool) (t : OhlcTick F)
    (rest : List (OhlcTick F)) (hact : active t = true) {Q : OhlcTick F × Order F × Res (Bool × Account F) → Prop} {R : ExecState F T.State → Prop}
    (h : ∀ s sg, s.account = Account.init c → s.executed = 0 → T.update init t sg c.startBase c.startQuote = .ok (s.trader, s.orders) →
      (∀ x, firstReached (rest.foldlM (tickStep c side T fast log) s).trace = some x → Q x) ∧
      (firstReached (rest.foldlM (tickStep c side T fast log) s).trace = none →
        executions (rest.foldlM (tickStep c side T fast log) s).trace = [] ∧
        ∀ s', (rest.foldlM (tickStep c side T fast log) s).out = .ok s' → R s')) :
    (∀ x, firstReached (executeTrader c (t :: rest) side fast T init log).trace = some x → Q x) ∧
    (firstReached (executeTrader c (t :: rest) side fast T init log).trace = none →
      executions (executeTrader c (t :: rest) side fast T init log).trace = [] ∧
      ∀ r, (executeTrader c (t :: rest) side fast T init log).out = .ok r →
        ∃ s, R s ∧ r.endBase = s.account.baseBalance ∧ r.endQuote = s.account.quoteBalance ∧ r.totalExecutedOrders = s.executed ∧
          r.endPrice = lastClose t.close rest) := by
  rw [executeTrader_eq _ _ _ _ _ _ _ (by simp)]
  dsimp only
  unfold execLoop
  rw [List.foldlM_cons, Run.bind_eq]
  obtain ⟨f1, f2, f3⟩ := first_tick c side T init fast log t hact
  cases hx : (tickStep c side T fast log (execStart c T init) t).out with
  | error e =>
    rw [Run.andThen_error hx]
    dsimp only
    rw [f1, f2]
    exact ⟨(fun x h => by cases h), fun _ => ⟨rfl, fun r h => by cases h⟩⟩
  | ok s =>
    obtain ⟨g1, g2, sg, g3⟩ := f3 s hx
    obtain ⟨h1, h2⟩ := h s sg g1 g2 g3
    rw [Run.andThen_ok hx]
    dsimp only
    rw [firstReached_append, f1, executions_append, f2, Option.none_or, List.nil_append]
    refine ⟨h1, fun hn => ⟨(h2 hn).1, fun r hr => ?_⟩⟩
    cases hy : (rest.foldlM (tickStep c side T fast log) s).out with
    | error e => rw [hy] at hr; cases hr
    | ok s' =>
      rw [hy] at hr
      obtain rfl := (Except.ok.inj hr)
      refine ⟨s', (h2 hn).2 s' hy, rfl, rfl, rfl, ?_⟩
      simp only [execResult, lastClose]
      cases rest with
      | nil => rfl
      | cons u us => rw [List.getLast_cons (by simp), List.getLast?_eq_some_getLast (by simp)]; rfl

theorem unreached [SignLaws F] {a : Account F} {c : AccountConfig F} {o : Order F} {t : OhlcTick F} {ty : OrderType} {sd : Side} (hty : o.type = some ty)
    (hsd : o.side = some sd) (h : reached t o = false) {x : Bool × Account F} (hx : a.executeOrder c o t = .ok x) : x = (false, a) := by
  have hv : ValidOrder o := by
    by_contra hv
    rw [Account.executeOrder_invalid a c o t hv] at hx
    cases hx
  rw [Account.executeOrder_valid a c o t hv hty hsd] at hx
  simp only [reached, hty, hsd, Bool.not_eq_false'] at h
  rw [if_pos h] at hx
  exact (Except.ok.inj hx).symm

end generic

section exact
variable {K : Type} [Field K] [LinearOrder K] [IsStrictOrderedRing K] [FloorRing K] [Libm K]

theorem lit_one : lit K 1 = (1 : K) := by simp [lit]

/-- The standing order of a long trader: a sale of everything, at a price not below the floor and below the last close. -/
def Guarding (B floor cl : K) (τ : ℤ) (s : StopState K) (o : Order K) : Prop :=
  ∃ p, o = stopSell B p ∧ floor ≤ p ∧ p < cl ∧ s.mode = .long ∧ s.stopPrice = p ∧ s.lastTs = τ

/-- The standing order of a trader in cash: a purchase for everything, at a price not above the ceiling and above the last close. -/
def Waiting (Q ceiling cl : K) (τ : ℤ) (s : StopState K) (o : Order K) : Prop :=
  ∃ p, o = stopBuy Q p ∧ p ≤ ceiling ∧ cl < p ∧ s.mode = .cash ∧ s.stopPrice = p ∧ s.lastTs = τ

theorem sell_phase (fmt : Format K) (cfg : StopConfig K) (c : AccountConfig K) (side : Option (SideInput K)) (fast log : Bool) (a : Account K) (floor : K)
    (hmm : 0 < cfg.moveMargin) (hb : 0 < a.baseBalance) (hfloor : 0 < floor) (hlong : a.quoteBalance ≤ a.baseBalance * floor)
    (ticks : List (OhlcTick K)) (cl : K) (τ : ℤ) (s : ExecState K (stopTrader fmt cfg).State) (o : Order K)
    (hC : NeverOpensLower cl ticks ∧ NoPause τ ticks) (ha : s.account = a) (ho : s.orders = [o]) (hP : Guarding a.baseBalance floor cl τ s.trader o) :
    (∀ x, firstReached (ticks.foldlM (tickStep c side (stopTrader fmt cfg) fast log) s).trace = some x →
      (∃ p, x.2.1 = stopSell a.baseBalance p ∧ floor ≤ p ∧ p < x.1.opn ∧ x.1.low ≤ p) ∧ x.2.2 = a.executeOrder c x.2.1 x.1) ∧
    (firstReached (ticks.foldlM (tickStep c side (stopTrader fmt cfg) fast log) s).trace = none →
      executions (ticks.foldlM (tickStep c side (stopTrader fmt cfg) fast log) s).trace = [] ∧
      ∀ s', (ticks.foldlM (tickStep c side (stopTrader fmt cfg) fast log) s).out = .ok s' → s'.account = a ∧ s'.executed = s.executed ∧
        ∃ τ' o', s'.orders = [o'] ∧ Guarding a.baseBalance floor (lastClose cl ticks) τ' s'.trader o') := by
  refine phase c side (stopTrader fmt cfg) fast log a (C := fun cl τ ticks => NeverOpensLower cl ticks ∧ NoPause τ ticks)
    (P := fun cl τ s o => Guarding a.baseBalance floor cl τ s o)
    (Q := fun t o => ∃ p, o = stopSell a.baseBalance p ∧ floor ≤ p ∧ p < t.opn ∧ t.low ≤ p) ?_ ?_ ?_ ?_ ?_ ticks cl τ s o hC ha ho hP
  · rintro cl τ t rest ⟨h1, h2⟩
    refine ⟨h1.2.2, ?_⟩
    unfold NoPause at h2
    split_ifs at h2 ⊢
    · exact h2.2
    · exact h2
  · rintro cl τ t rest s o ⟨h1, -⟩ ⟨p, rfl, h3, h4, -, -, -⟩ hr
    refine ⟨p, rfl, h3, lt_of_lt_of_le h4 (by simpa using h1.1), ?_⟩
    simpa [reached, stopSell, notReached, Order.getPrice] using hr
  · rintro cl τ t rest s o - ⟨p, rfl, -⟩ hr x hx
    exact unreached (ty := .stop) (sd := .sell) rfl rfl hr hx
  · rintro cl τ t rest s o ⟨h1, -⟩ ⟨p, rfl, h3, h4, h5, h6, h7⟩ hr -
    have hr : p < t.low := by simpa [reached, stopSell, notReached, Order.getPrice] using hr
    exact ⟨p, rfl, h3, lt_of_lt_of_le hr (by simpa using h1.2.1), h5, h6, h7⟩
  · rintro cl τ t rest s o sg s' os' ⟨h1, h2⟩ ⟨p, rfl, h3, h4, h5, h6, h7⟩ hr hact hu
    have hr : p < t.low := by simpa [reached, stopSell, notReached, Order.getPrice] using hr
    have hpc : p < t.close := lt_of_lt_of_le hr (by simpa using h1.2.1)
    have hnp : t.ts < s.lastTs + 3600 := by
      unfold NoPause at h2; rw [if_pos hact] at h2; rw [h7]; exact h2.1
    obtain ⟨-, -, -, rfl, rfl⟩ := stopUpdate_ok (sg := sg) hu
    have hl : a.quoteBalance ≤ a.baseBalance * t.close :=
      hlong.trans (mul_le_mul_of_nonneg_left (h3.trans hpc.le) hb.le)
    have hl' : (a.quoteBalance <=. a.baseBalance *. t.close) = true := by simpa using hl
    have hmode : stopMode t.close a.baseBalance a.quoteBalance = .long := by unfold stopMode; rw [if_pos hl']
    have hnext : p ≤ nextStop cfg s t a.baseBalance a.quoteBalance ∧ nextStop cfg s t a.baseBalance a.quoteBalance < t.close := by
      unfold nextStop
      dsimp only
      rw [if_neg (by rw [hmode, h5]; simp; exact hnp), hmode, h6]
      simp only [updateStopPrice, if_true]
      split_ifs
      · simp only [ex_fmax, ex_fmin, lit_one, ex_mul, ex_sub]
        refine ⟨le_max_left _ _, max_lt hpc (lt_of_le_of_lt (min_le_left _ _) ?_)⟩
        have : 0 < t.close := by linarith
        nlinarith
      · exact ⟨le_refl _, hpc⟩
    rw [if_pos hl']
    exact ⟨_, rfl, _, rfl, h3.trans hnext.1, hnext.2, hmode, rfl, rfl⟩

theorem buy_phase (fmt : Format K) (cfg : StopConfig K) (c : AccountConfig K) (side : Option (SideInput K)) (fast log : Bool) (a : Account K) (ceiling : K)
    (hmm : 0 < cfg.moveMargin) (hb : 0 ≤ a.baseBalance) (hcash : a.baseBalance * ceiling < a.quoteBalance)
    (ticks : List (OhlcTick K)) (cl : K) (τ : ℤ) (s : ExecState K (stopTrader fmt cfg).State) (o : Order K)
    (hC : NeverOpensHigher cl ticks ∧ NoPause τ ticks) (ha : s.account = a) (ho : s.orders = [o]) (hP : Waiting a.quoteBalance ceiling cl τ s.trader o) :
    (∀ x, firstReached (ticks.foldlM (tickStep c side (stopTrader fmt cfg) fast log) s).trace = some x →
      (∃ p, x.2.1 = stopBuy a.quoteBalance p ∧ p ≤ ceiling ∧ 0 < x.1.opn ∧ x.1.opn < p ∧ p ≤ x.1.high) ∧ x.2.2 = a.executeOrder c x.2.1 x.1) ∧
    (firstReached (ticks.foldlM (tickStep c side (stopTrader fmt cfg) fast log) s).trace = none →
      executions (ticks.foldlM (tickStep c side (stopTrader fmt cfg) fast log) s).trace = [] ∧
      ∀ s', (ticks.foldlM (tickStep c side (stopTrader fmt cfg) fast log) s).out = .ok s' → s'.account = a ∧ s'.executed = s.executed ∧
        ∃ τ' o', s'.orders = [o'] ∧ Waiting a.quoteBalance ceiling (lastClose cl ticks) τ' s'.trader o') := by
  refine phase c side (stopTrader fmt cfg) fast log a (C := fun cl τ ticks => NeverOpensHigher cl ticks ∧ NoPause τ ticks)
    (P := fun cl τ s o => Waiting a.quoteBalance ceiling cl τ s o)
    (Q := fun t o => ∃ p, o = stopBuy a.quoteBalance p ∧ p ≤ ceiling ∧ 0 < t.opn ∧ t.opn < p ∧ p ≤ t.high) ?_ ?_ ?_ ?_ ?_ ticks cl τ s o hC ha ho hP
  · rintro cl τ t rest ⟨h1, h2⟩
    refine ⟨h1.2.2, ?_⟩
    unfold NoPause at h2
    split_ifs at h2 ⊢
    · exact h2.2
    · exact h2
  · rintro cl τ t rest s o ⟨h1, -⟩ ⟨p, rfl, h3, h4, -, -, -⟩ hr
    refine ⟨p, rfl, h3, by simpa using h1.1.1, lt_of_le_of_lt (by simpa using h1.1.2) h4, ?_⟩
    simpa [reached, stopBuy, notReached, Order.getPrice] using hr
  · rintro cl τ t rest s o - ⟨p, rfl, -⟩ hr x hx
    exact unreached (ty := .stop) (sd := .buy) rfl rfl hr hx
  · rintro cl τ t rest s o ⟨h1, -⟩ ⟨p, rfl, h3, h4, h5, h6, h7⟩ hr -
    have hr : t.high < p := by simpa [reached, stopBuy, notReached, Order.getPrice] using hr
    exact ⟨p, rfl, h3, lt_of_le_of_lt (by simpa using h1.2.1) hr, h5, h6, h7⟩
  · rintro cl τ t rest s o sg s' os' ⟨h1, h2⟩ ⟨p, rfl, h3, h4, h5, h6, h7⟩ hr hact hu
    have hr : t.high < p := by simpa [reached, stopBuy, notReached, Order.getPrice] using hr
    have hpc : t.close < p := lt_of_le_of_lt (by simpa using h1.2.1) hr
    have hnp : t.ts < s.lastTs + 3600 := by
      unfold NoPause at h2; rw [if_pos hact] at h2; rw [h7]; exact h2.1
    obtain ⟨-, hpos, -, rfl, rfl⟩ := stopUpdate_ok (sg := sg) hu
    have hpos : 0 < t.close := by simpa using hpos
    have hl : a.baseBalance * t.close < a.quoteBalance :=
      lt_of_le_of_lt (mul_le_mul_of_nonneg_left (hpc.le.trans h3) hb) hcash
    have hl' : ¬ (a.quoteBalance <=. a.baseBalance *. t.close) = true := by simpa using hl
    have hmode : stopMode t.close a.baseBalance a.quoteBalance = .cash := by unfold stopMode; rw [if_neg hl']
    have hnext : nextStop cfg s t a.baseBalance a.quoteBalance ≤ p ∧ t.close < nextStop cfg s t a.baseBalance a.quoteBalance := by
      unfold nextStop
      dsimp only
      rw [if_neg (by rw [hmode, h5]; simp; exact hnp), hmode, h6]
      simp only [updateStopPrice, reduceCtorEq, if_false, decide_true, assertThat_true, bind, Except.bind, pure, Except.pure]
      split_ifs
      · simp only [ex_fmax, ex_fmin, lit_one, ex_mul, ex_add]
        refine ⟨min_le_left _ _, lt_min hpc (lt_of_lt_of_le ?_ (le_max_left _ _))⟩
        nlinarith
      · exact ⟨le_refl _, hpc⟩
    rw [if_neg hl']
    exact ⟨_, rfl, _, rfl, hnext.1.trans h3, hnext.2, hmode, rfl, rfl⟩

/-- **C119** (a long position). A trader that starts long, with its base currency worth no less than its quote currency even at the first stop price
`(1 - margin) * close`, sees no pause of an hour and no tick that opens below the last close.  Then the first of its orders that is reached sells the whole base
balance at a stop price `p` of at least that first stop price, and what the execution gives is a sale at the price between `p` and the low of the tick that the
liquidity determines.  If no order is ever reached nothing is executed, and the run ends above the first stop price. -/
theorem C119_sell (fmt : Format K) (cfg : StopConfig K) (c : AccountConfig K) (side : Option (SideInput K)) (t : OhlcTick K) (rest : List (OhlcTick K))
    (hm : 0 < cfg.margin) (hm1 : cfg.margin < 1) (hmm : 0 < cfg.moveMargin) (hb : 0 < c.startBase)
    (hlong : c.startQuote ≤ c.startBase * ((1 - cfg.margin) * t.close)) (hact : active t = true)
    (hopen : NeverOpensLower t.close rest) (hpause : NoPause t.ts rest) (fast log : Bool) :
    (∀ u o r, firstReached (executeTrader c (t :: rest) side fast (stopTrader fmt cfg) StopState.init log).trace = some (u, o, r) →
      ∃ p, o = stopSell c.startBase p ∧ (1 - cfg.margin) * t.close ≤ p ∧
        r = (Account.init c).sellBase c.stopFee c.startBase (interp c.marketLiquidity p u.low)) ∧
    (firstReached (executeTrader c (t :: rest) side fast (stopTrader fmt cfg) StopState.init log).trace = none →
      executions (executeTrader c (t :: rest) side fast (stopTrader fmt cfg) StopState.init log).trace = [] ∧
      ∀ r, (executeTrader c (t :: rest) side fast (stopTrader fmt cfg) StopState.init log).out = .ok r →
        r.totalExecutedOrders = 0 ∧ r.endBase = c.startBase ∧ r.endQuote = c.startQuote ∧ (1 - cfg.margin) * t.close < r.endPrice) := by
  have key := from_first c side (stopTrader fmt cfg) StopState.init fast log t rest hact
    (Q := fun x => 0 < t.close ∧ (∃ p, x.2.1 = stopSell c.startBase p ∧ (1 - cfg.margin) * t.close ≤ p ∧ p < x.1.opn ∧ x.1.low ≤ p) ∧
      x.2.2 = (Account.init c).executeOrder c x.2.1 x.1)
    (R := fun s => s.account = Account.init c ∧ s.executed = 0 ∧
      ∃ τ' o', s.orders = [o'] ∧ Guarding c.startBase ((1 - cfg.margin) * t.close) (lastClose t.close rest) τ' s.trader o')
    (fun s sg h1 h2 h3 => by
      obtain ⟨-, hpos, -, e1, e2⟩ := stopUpdate_ok (sg := sg) h3
      have hpos : 0 < t.close := by simpa using hpos
      have hfl : (1 - cfg.margin) * t.close < t.close := by nlinarith
      have hl' : (c.startQuote <=. c.startBase *. t.close) = true := by
        have := hlong.trans (mul_le_mul_of_nonneg_left hfl.le hb.le)
        simpa using this
      have hmode : stopMode t.close c.startBase c.startQuote = .long := by unfold stopMode; rw [if_pos hl']
      have hnext : nextStop cfg StopState.init t c.startBase c.startQuote = (1 - cfg.margin) * t.close := by
        unfold nextStop
        dsimp only
        rw [if_pos (.inr (by rw [hmode]; simp [StopState.init])), if_pos hl']
        simp [lit]
      rw [if_pos hl', hnext] at e2
      rw [hmode, hnext] at e1
      have hP : Guarding c.startBase ((1 - cfg.margin) * t.close) t.close t.ts s.trader (stopSell c.startBase ((1 - cfg.margin) * t.close)) :=
        ⟨_, rfl, le_refl _, hfl, by rw [e1], by rw [e1], by rw [e1]⟩
      obtain ⟨i1, i2⟩ := sell_phase fmt cfg c side fast log (Account.init c) ((1 - cfg.margin) * t.close) hmm hb
        (mul_pos (by linarith) hpos) hlong rest t.close t.ts s _ ⟨hopen, hpause⟩ h1 e2 hP
      refine ⟨fun x hx => ⟨hpos, i1 x hx⟩, fun hn => ⟨(i2 hn).1, fun s' hs => ?_⟩⟩
      obtain ⟨j1, j2, j3⟩ := (i2 hn).2 s' hs
      exact ⟨j1, j2.trans h2, j3⟩)
  refine ⟨fun u o r hx => ?_, fun hn => ⟨(key.2 hn).1, fun r hr => ?_⟩⟩
  · obtain ⟨hpos, ⟨p, ho, h1, h2, h3⟩, he⟩ := key.1 _ hx
    dsimp only at ho he h2 h3
    subst ho
    refine ⟨p, rfl, h1, ?_⟩
    have hp : 0 < p := lt_of_lt_of_le (mul_pos (by linarith) hpos) h1
    have hv : ValidOrder (stopSell c.startBase p) := ⟨.stop, .sell, rfl, rfl, .inr ⟨p, rfl, by simpa using hp⟩, c.startBase, by simpa using hb, .inl rfl⟩
    rw [he, Account.executeOrder_valid _ _ _ _ hv rfl rfl, if_neg (by simpa [notReached, stopSell, Order.getPrice] using h3)]
    simp only [tradeOf, stopSell, Order.getPrice, Option.getD_some, execPrice, reduceCtorEq, if_false, feeFor, ex_fmin, min_eq_left h2.le]
    rfl
  · obtain ⟨s, ⟨h1, h2, τ', o', h3, p, h4, h5, h6, -⟩, r1, r2, r3, r4⟩ := (key.2 hn).2 r hr
    rw [r1, r2, r3, r4, h1]
    exact ⟨h2, rfl, rfl, lt_of_le_of_lt h5 h6⟩

/-- **C119** (a position in cash). A trader that starts in cash, with its base currency worth less than its quote currency even at the first stop price
`(1 + margin) * close`, sees no pause of an hour and no tick that opens above the last close.  Then the first of its orders that is reached spends the whole quote
balance at a stop price `p` of at most that first stop price, and what the execution gives is a purchase at the price between `p` and the high of the tick that the
liquidity determines.  If no order is ever reached nothing is executed, and the run ends below the first stop price. -/
theorem C119_buy (fmt : Format K) (cfg : StopConfig K) (c : AccountConfig K) (side : Option (SideInput K)) (t : OhlcTick K) (rest : List (OhlcTick K))
    (hm : 0 < cfg.margin) (hmm : 0 < cfg.moveMargin) (hb : 0 ≤ c.startBase)
    (hcash : c.startBase * ((1 + cfg.margin) * t.close) < c.startQuote) (hact : active t = true)
    (hopen : NeverOpensHigher t.close rest) (hpause : NoPause t.ts rest) (fast log : Bool) :
    (∀ u o r, firstReached (executeTrader c (t :: rest) side fast (stopTrader fmt cfg) StopState.init log).trace = some (u, o, r) →
      ∃ p, o = stopBuy c.startQuote p ∧ 0 < p ∧ p ≤ (1 + cfg.margin) * t.close ∧
        r = (Account.init c).buyAtQuote c.stopFee c.startQuote (interp c.marketLiquidity p u.high) FloatOps.maxFinite) ∧
    (firstReached (executeTrader c (t :: rest) side fast (stopTrader fmt cfg) StopState.init log).trace = none →
      executions (executeTrader c (t :: rest) side fast (stopTrader fmt cfg) StopState.init log).trace = [] ∧
      ∀ r, (executeTrader c (t :: rest) side fast (stopTrader fmt cfg) StopState.init log).out = .ok r →
        r.totalExecutedOrders = 0 ∧ r.endBase = c.startBase ∧ r.endQuote = c.startQuote ∧ r.endPrice < (1 + cfg.margin) * t.close) := by
  have key := from_first c side (stopTrader fmt cfg) StopState.init fast log t rest hact
    (Q := fun x => 0 < t.close ∧ (∃ p, x.2.1 = stopBuy c.startQuote p ∧ p ≤ (1 + cfg.margin) * t.close ∧ 0 < x.1.opn ∧ x.1.opn < p ∧ p ≤ x.1.high) ∧
      x.2.2 = (Account.init c).executeOrder c x.2.1 x.1)
    (R := fun s => s.account = Account.init c ∧ s.executed = 0 ∧
      ∃ τ' o', s.orders = [o'] ∧ Waiting c.startQuote ((1 + cfg.margin) * t.close) (lastClose t.close rest) τ' s.trader o')
    (fun s sg h1 h2 h3 => by
      obtain ⟨-, hpos, -, e1, e2⟩ := stopUpdate_ok (sg := sg) h3
      have hpos : 0 < t.close := by simpa using hpos
      have hfl : t.close < (1 + cfg.margin) * t.close := by nlinarith
      have hl' : ¬ (c.startQuote <=. c.startBase *. t.close) = true := by
        have := lt_of_le_of_lt (mul_le_mul_of_nonneg_left hfl.le hb) hcash
        simpa using this
      have hmode : stopMode t.close c.startBase c.startQuote = .cash := by unfold stopMode; rw [if_neg hl']
      have hnext : nextStop cfg StopState.init t c.startBase c.startQuote = (1 + cfg.margin) * t.close := by
        unfold nextStop
        dsimp only
        rw [if_pos (.inr (by rw [hmode]; simp [StopState.init])), if_neg hl']
        simp [lit]
      rw [if_neg hl', hnext] at e2
      rw [hmode, hnext] at e1
      have hP : Waiting c.startQuote ((1 + cfg.margin) * t.close) t.close t.ts s.trader (stopBuy c.startQuote ((1 + cfg.margin) * t.close)) :=
        ⟨_, rfl, le_refl _, hfl, by rw [e1], by rw [e1], by rw [e1]⟩
      obtain ⟨i1, i2⟩ := buy_phase fmt cfg c side fast log (Account.init c) ((1 + cfg.margin) * t.close) hmm hb
        hcash rest t.close t.ts s _ ⟨hopen, hpause⟩ h1 e2 hP
      refine ⟨fun x hx => ⟨hpos, i1 x hx⟩, fun hn => ⟨(i2 hn).1, fun s' hs => ?_⟩⟩
      obtain ⟨j1, j2, j3⟩ := (i2 hn).2 s' hs
      exact ⟨j1, j2.trans h2, j3⟩)
  refine ⟨fun u o r hx => ?_, fun hn => ⟨(key.2 hn).1, fun r hr => ?_⟩⟩
  · obtain ⟨hpos, ⟨p, ho, h1, h0, h2, h3⟩, he⟩ := key.1 _ hx
    dsimp only at ho he h2 h3 h0
    subst ho
    have hp : 0 < p := h0.trans h2
    refine ⟨p, rfl, hp, h1, ?_⟩
    have hq : 0 < c.startQuote := lt_of_le_of_lt (mul_nonneg hb (mul_nonneg (by linarith) hpos.le)) hcash
    have hv : ValidOrder (stopBuy c.startQuote p) := ⟨.stop, .buy, rfl, rfl, .inr ⟨p, rfl, by simpa using hp⟩, c.startQuote, by simpa using hq, .inr rfl⟩
    rw [he, Account.executeOrder_valid _ _ _ _ hv rfl rfl, if_neg (by simpa [notReached, stopBuy, Order.getPrice] using h3)]
    simp only [tradeOf, stopBuy, Order.getPrice, Option.getD_some, execPrice, reduceCtorEq, if_false, feeFor, ex_fmax, max_eq_left h2.le]
    rfl
  · obtain ⟨s, ⟨h1, h2, τ', o', h3, p, h4, h5, h6, -⟩, r1, r2, r3, r4⟩ := (key.2 hn).2 r hr
    rw [r1, r2, r3, r4, h1]
    exact ⟨h2, rfl, rfl, lt_of_lt_of_le h6 h5⟩

/-- **C119** (the floor of a long position). With a liquidity of 1, no fees and no units, the first of the orders that is reached turns the position into quote
currency for good: the whole base balance is gone, and the account holds at least what the position was worth at the first stop price. -/
theorem C119_floor (fmt : Format K) (cfg : StopConfig K) (c : AccountConfig K) (side : Option (SideInput K)) (t : OhlcTick K) (rest : List (OhlcTick K))
    (hm : 0 < cfg.margin) (hm1 : cfg.margin < 1) (hmm : 0 < cfg.moveMargin) (hb : 0 < c.startBase) (hpos : 0 < t.close)
    (hlong : c.startQuote ≤ c.startBase * ((1 - cfg.margin) * t.close)) (hact : active t = true)
    (hopen : NeverOpensLower t.close rest) (hpause : NoPause t.ts rest)
    (hliq : c.marketLiquidity = 1) (hfee : FreeOfFees c.stopFee) (hbu : c.baseUnit = 0) (hqu : c.quoteUnit = 0) (fast log : Bool)
    (u : OhlcTick K) (o : Order K) (r : Res (Bool × Account K))
    (hx : firstReached (executeTrader c (t :: rest) side fast (stopTrader fmt cfg) StopState.init log).trace = some (u, o, r)) :
    ∃ a, r = .ok (true, a) ∧ a.baseBalance = 0 ∧ c.startQuote + (1 - cfg.margin) * (c.startBase * t.close) ≤ a.quoteBalance := by
  obtain ⟨p, -, h1, rfl⟩ := (C119_sell fmt cfg c side t rest hm hm1 hmm hb hlong hact hopen hpause fast log).1 u o r hx
  have hp : 0 < p := lt_of_lt_of_le (mul_pos (by linarith) hpos) h1
  have hround : ∀ y : K, roundUnit y (0 : K) = y := fun y => by simp [roundUnit]
  have hceil : ∀ y : K, ceilUnit y (0 : K) = y := fun y => by simp [ceilUnit]
  have hfloor : ∀ y : K, floorUnit y (0 : K) = y := fun y => by simp [floorUnit]
  have hi : interp c.marketLiquidity p u.low = p := by
    simp [interp, hliq, lit]
  have hbu' : (Account.init c).baseUnit = 0 := hbu
  have hqu' : (Account.init c).quoteUnit = 0 := hqu
  have hb0 : (Account.init c).baseBalance = c.startBase := rfl
  have hq0 : (Account.init c).quoteBalance = c.startQuote := rfl
  have hfee' : ∀ q : K, (Account.init c).getFee c.stopFee q = 0 := by
    intro q
    unfold Account.getFee
    rw [hqu', hceil, hfee.1, hfee.2.1, hfee.2.2]
    simp
  rw [hi, Account.sellBase_eq, if_pos (by simpa using hp), if_pos (by simpa using hb.le)]
  simp only [hbu', hqu', hround, hfloor, hfee', hb0]
  rw [if_neg (by simp [hb.le]), if_neg (by simpa using (mul_pos hb hp).le)]
  refine ⟨_, rfl, ?_, ?_⟩
  · simp only [Account.afterSell, hbu', hqu', hround, ex_sub, hb0, sub_self]
  · simp only [Account.afterSell, hbu', hqu', hround, ex_add, ex_sub, ex_mul, sub_zero, hq0]
    nlinarith [mul_le_mul_of_nonneg_left h1 hb.le]

/-- **C119** (the ceiling of a position in cash). With a liquidity of 1, no fees and no units, the first of the orders that is reached turns the position into base
currency: all quote currency is spent, and the account holds at least the base currency it buys at the first stop price (as long as the amount does not exceed
the largest `float`). -/
theorem C119_ceiling (fmt : Format K) (cfg : StopConfig K) (c : AccountConfig K) (side : Option (SideInput K)) (t : OhlcTick K) (rest : List (OhlcTick K))
    (hm : 0 < cfg.margin) (hmm : 0 < cfg.moveMargin) (hb : 0 ≤ c.startBase) (hpos : 0 < t.close)
    (hcash : c.startBase * ((1 + cfg.margin) * t.close) < c.startQuote) (hact : active t = true)
    (hopen : NeverOpensHigher t.close rest) (hpause : NoPause t.ts rest)
    (hliq : c.marketLiquidity = 1) (hfee : FreeOfFees c.stopFee) (hbu : c.baseUnit = 0) (hqu : c.quoteUnit = 0) (fast log : Bool)
    (u : OhlcTick K) (o : Order K) (r : Res (Bool × Account K))
    (hx : firstReached (executeTrader c (t :: rest) side fast (stopTrader fmt cfg) StopState.init log).trace = some (u, o, r))
    (hbig : ∀ p, o.price = some p → c.startQuote / p ≤ FloatOps.maxFinite) :
    ∃ a, r = .ok (true, a) ∧ a.quoteBalance = 0 ∧ c.startBase + c.startQuote / ((1 + cfg.margin) * t.close) ≤ a.baseBalance := by
  obtain ⟨p, rfl, hp, h1, rfl⟩ := (C119_buy fmt cfg c side t rest hm hmm hb hcash hact hopen hpause fast log).1 u o r hx
  have hround : ∀ y : K, roundUnit y (0 : K) = y := fun y => by simp [roundUnit]
  have hceil : ∀ y : K, ceilUnit y (0 : K) = y := fun y => by simp [ceilUnit]
  have hfloor : ∀ y : K, floorUnit y (0 : K) = y := fun y => by simp [floorUnit]
  have hq : 0 < c.startQuote := lt_of_le_of_lt (mul_nonneg hb (mul_nonneg (by linarith) hpos.le)) hcash
  have hi : interp c.marketLiquidity p u.high = p := by simp [interp, hliq, lit]
  have hbu' : (Account.init c).baseUnit = 0 := hbu
  have hqu' : (Account.init c).quoteUnit = 0 := hqu
  have hb0 : (Account.init c).baseBalance = c.startBase := rfl
  have hq0 : (Account.init c).quoteBalance = c.startQuote := rfl
  have hfee' : ∀ q : K, (Account.init c).getFee c.stopFee q = 0 := by
    intro q
    unfold Account.getFee
    rw [hqu', hceil, hfee.1, hfee.2.1, hfee.2.2]
    simp
  have hmin : fmin (c.startQuote / p) FloatOps.maxFinite = c.startQuote / p := by
    rw [ex_fmin]; exact min_eq_left (hbig p rfl)
  have hqp : 0 < c.startQuote / p := div_pos hq hp
  have hdm : c.startQuote / p * p = c.startQuote := div_mul_cancel₀ _ hp.ne'
  rw [hi, Account.buyAtQuote_eq, if_pos (by simpa using hp), if_pos (by simpa using hq.le)]
  simp only [hbu', hqu', hround, hfloor, hfee', hq0, ex_sub, ex_div, sub_zero, hmin]
  rw [if_neg (by simp [hq.le]), if_neg (by simpa using hq), if_neg (by simpa using hqp.le)]
  rw [Account.buyBase_eq, if_pos (by simpa using hp), if_pos (by simpa using hqp.le)]
  simp only [hbu', hqu', hround, hceil, hfee', hq0, ex_mul, ex_add, add_zero, hdm]
  rw [if_neg (by simpa using hqp.le), if_neg (by simp)]
  refine ⟨_, rfl, ?_, ?_⟩
  · simp only [Account.afterBuy, hbu', hqu', hround, ex_add, ex_sub, add_zero, hq0, sub_self]
  · simp only [Account.afterBuy, hbu', hqu', hround, ex_add, hb0]
    exact add_le_add_right (div_le_div_of_nonneg_left hq.le hp h1) _
end exact

/-! ### The program's `float` arithmetic -/

section float
variable [Libm F32] [Libm F64]

theorem rnd_of_repr {q : ℚ} (h : (Fl.fin q : F32).Repr) (h0 : q ≠ 0) : Fl.rnd binary32 q = .fin q := by
  have hg : Fl.OnGrid binary32 q := by
    obtain ⟨m, e, h1, h2, -, h4⟩ := h
    exact ⟨m, e, h1, h2, h4⟩
  have hr : rndQ binary32 q = q := by
    have := Fl.rndQ_nearest (f := binary32) (by decide) h0 hg
    rw [sub_self, abs_zero] at this
    exact sub_eq_zero.mp (abs_nonpos_iff.mp this.1)
  have hlt : |q| < (2 : ℚ) ^ binary32.emax := by
    obtain ⟨m, e, h1, -, h3, rfl⟩ := h
    rw [abs_mul, abs_of_pos (by positivity : (0 : ℚ) < 2 ^ e)]
    have h1' : |(m : ℚ)| < 2 ^ binary32.p := by exact_mod_cast h1
    calc |(m : ℚ)| * 2 ^ e < 2 ^ binary32.p * 2 ^ e := mul_lt_mul_of_pos_right h1' (by positivity)
      _ = (2 : ℚ) ^ (e + binary32.p) := by rw [zpow_add₀ (by norm_num), mul_comm]; norm_cast
      _ ≤ (2 : ℚ) ^ binary32.emax := zpow_le_zpow_right₀ (by norm_num) h3
  unfold Fl.rnd
  dsimp only
  rw [hr, if_neg (not_le.mpr hlt), if_neg h0]

theorem fin_pos {x : F32} (hx : Fl.IsFin x) (h : (lit F32 0 <. x) = true) : ∃ q, x = .fin q ∧ 0 < q := by
  have := pos_of_cmp hx h
  cases x with
  | fin q => exact ⟨q, rfl, this⟩
  | nan => exact hx.elim
  | inf s => exact hx.elim
  | negZero => simp [Fl.toQ] at this

theorem mul_one32 {x : F32} (hx : Fl.IsFin x) (hr : x.Repr) (h : (lit F32 0 <. x) = true) : x *. lit F32 1 = x ∧ lit F32 1 *. x = x := by
  obtain ⟨q, rfl, hq⟩ := fin_pos hx h
  have e : (lit F32 1 : F32) = .fin 1 := by decide +kernel
  have k1 : (Fl.fin q : F32) *. lit F32 1 = .fin q := by
    rw [e]
    change Fl.mul (Fl.fin q) (Fl.fin 1) = _
    simp only [Fl.mul, Fl.toQ, mul_one]
    rw [if_neg hq.ne', rnd_of_repr hr hq.ne']
  refine ⟨k1, ?_⟩
  rw [← k1]
  change Fl.mul _ (Fl.mul _ _) = Fl.mul _ _
  change Fl.mul (Fl.fin q : F32) (lit F32 1) = Fl.fin q at k1
  rw [k1, Fl.mul_comm', k1]

/-- A price shrunk by a margin is no higher, a price grown by a margin no lower. -/
theorem shrink32 {m x : F32} (hm : (lit F32 0 <=. m) = true) (hx : Fl.IsFin x) (hr : x.Repr) (h : (lit F32 0 <. x) = true) :
    Fl.Le ((lit F32 1 -. m) *. x) x := by
  have e : (lit F32 1 : F32) = .fin 1 := by decide +kernel
  have h1 : Fl.Le (lit F32 1 -. m) (lit F32 1) := by
    have h0 := le_of_cmp hm
    have hn : Fl.Le (Fl.neg m) (Fl.negZero : F32) := by
      obtain ⟨-, hm2, hm3⟩ := h0
      have e0 : (lit F32 0 : F32) = .fin 0 := by decide +kernel
      rw [e0] at hm3
      refine ⟨?_, by simp, ?_⟩
      · cases m <;> simp_all [Fl.neg]; split_ifs <;> simp
      · cases m with
        | nan => simp at hm2
        | inf s => cases s <;> simp_all [Fl.neg, Fl.lt]
        | negZero => rfl
        | fin q =>
          simp only [Fl.neg]
          split_ifs
          · rfl
          · have hq : 0 ≤ q := not_lt.mp (of_decide_eq_false hm3)
            simpa [Fl.lt, Fl.toQ] using hq
    have := Fl.Le.add_left (f := binary32) (by decide) (a := lit F32 1) (by rw [e]; trivial) hn
    have e2 : Fl.add (lit F32 1 : F32) Fl.negZero = lit F32 1 := by decide +kernel
    rw [e2] at this
    exact this
  have := Fl.Le.mul_left (f := binary32) (by decide) hx (pos_of_cmp hx h) h1
  have k := (mul_one32 hx hr h).1
  change Fl.mul _ _ = _ at k
  rw [k] at this
  rw [Fl.mul_comm'] at this
  exact this

theorem grow32 {m x : F32} (hm : (lit F32 0 <=. m) = true) (hx : Fl.IsFin x) (hr : x.Repr) (h : (lit F32 0 <. x) = true) :
    Fl.Le x ((lit F32 1 +. m) *. x) := by
  have e : (lit F32 1 : F32) = .fin 1 := by decide +kernel
  have h1 : Fl.Le (lit F32 1) (lit F32 1 +. m) := by
    have := Fl.Le.add_left (f := binary32) (by decide) (a := lit F32 1) (by rw [e]; trivial) (le_of_cmp hm)
    have e2 : Fl.add (lit F32 1 : F32) (lit F32 0) = lit F32 1 := by decide +kernel
    rw [e2] at this
    exact this
  have := Fl.Le.mul_left (f := binary32) (by decide) hx (pos_of_cmp hx h) h1
  have k := (mul_one32 hx hr h).1
  change Fl.mul _ _ = _ at k
  rw [k] at this
  rw [Fl.mul_comm' x] at this
  exact this

theorem interp32 {x y : F32} (hx : Fl.IsFin x) (hr : x.Repr) (h : (lit F32 0 <. x) = true) (hy : Fl.IsFin y) : interp (lit F32 1) x y = x := by
  unfold interp
  rw [(mul_one32 hx hr h).2]
  obtain ⟨q, rfl, hq⟩ := fin_pos hx h
  have e : (lit F32 1 -. lit F32 1 : F32) = .fin 0 := by decide +kernel
  rw [e]
  change Fl.add (Fl.fin q) (Fl.mul (Fl.fin 0) y) = _
  have hz : ∃ s, Fl.mul (Fl.fin 0 : F32) y = Fl.zero s := by
    cases y with
    | nan => exact hy.elim
    | inf s => exact hy.elim
    | negZero => exact ⟨_, by simp only [Fl.mul, Fl.toQ, mul_zero, if_true]; rfl⟩
    | fin z => exact ⟨_, by simp only [Fl.mul, Fl.toQ, zero_mul, if_true]; rfl⟩
  obtain ⟨s, hs⟩ := hz
  rw [hs]
  have : Fl.ofRat binary32 q = .fin q := by
    unfold Fl.ofRat; rw [if_neg hq.ne', rnd_of_repr hr hq.ne']
  cases s
  · simpa [Fl.zero, Fl.add, Fl.toQ] using this
  · simpa [Fl.zero, Fl.add, Fl.toQ] using this

theorem mul_repr32 (x y : F32) : (x *. y).Repr := by
  have hz : ∀ s, (Fl.zero s : F32).Repr := by
    intro s; cases s
    · exact Fl.repr_zero (by decide)
    · trivial
  change (Fl.mul x y).Repr
  unfold Fl.mul
  split <;> try trivial
  · split_ifs <;> trivial
  · split_ifs <;> trivial
  · split_ifs with h
    · exact hz _
    · exact Fl.rnd_repr (by decide) (by decide) h

theorem le_fmax32 {a b : F32} (ha : a ≠ .nan) : Fl.Le a (fmax a b) := by
  unfold fmax
  split_ifs with h
  · refine ⟨ha, ?_, ?_⟩
    · rintro rfl; cases a <;> simp [FloatOps.lt, Fl.lt] at h
    · exact SignLaws.not_lt_of_le _ _ (SignLaws.le_of_lt _ _ h)
  · exact Fl.Le.refl ha
theorem fmin_le32 {a b : F32} (ha : a ≠ .nan) : Fl.Le (fmin a b) a := by
  unfold fmin
  split_ifs with h
  · refine ⟨?_, ha, SignLaws.not_lt_of_le _ _ (SignLaws.le_of_lt _ _ h)⟩
    rintro rfl; simp [FloatOps.lt, Fl.lt] at h
  · exact Fl.Le.refl ha
theorem fmax_le32 {a b c : F32} (ha : Fl.Le a c) (hb : Fl.Le b c) : Fl.Le (fmax a b) c := by unfold fmax; split_ifs <;> assumption
theorem le_fmin32 {a b c : F32} (ha : Fl.Le c a) (hb : Fl.Le c b) : Fl.Le c (fmin a b) := by unfold fmin; split_ifs <;> assumption

theorem le_cmp {a b : F32} (h : Fl.Le a b) : (a <=. b) = true := by
  obtain ⟨h1, h2, h3⟩ := h
  change Fl.le a b = true
  cases a <;> cases b <;> simp_all [Fl.le, Fl.beq, Fl.lt]
  · rename_i s t; revert h3; cases s <;> cases t <;> decide
  · rename_i b; rcases lt_or_eq_of_le h3 with h | h
    · exact .inl h
    · exact .inr h
  · rename_i a; rcases lt_or_eq_of_le h3 with h | h
    · exact .inl h
    · exact .inr h
  · rename_i a b; rcases lt_or_eq_of_le h3 with h | h
    · exact .inl h
    · exact .inr h

/-- The prices at which the ticks close are finite `float` numbers. -/
def Closes32 (ticks : List (OhlcTick F32)) : Prop := ∀ u ∈ ticks, Fl.IsFin u.close ∧ u.close.Repr

/-- The standing order of a long trader. -/
def Guarding32 (B floor cl : F32) (τ : ℤ) (s : StopState F32) (o : Order F32) : Prop :=
  ∃ p, o = stopSell B p ∧ Fl.Le floor p ∧ Fl.Le p cl ∧ p.Repr ∧ Fl.IsFin cl ∧ s.mode = .long ∧ s.stopPrice = p ∧ s.lastTs = τ

theorem pos_of_Le {x y : F32} (h : (lit F32 0 <. x) = true) (h' : Fl.Le x y) : (lit F32 0 <. y) = true := Quiet.lt_le h h'

theorem fin_between {x y p : F32} (h : (lit F32 0 <. x) = true) (hx : Fl.Le x p) (hy : Fl.Le p y) (hf : Fl.IsFin y) : Fl.IsFin p :=
  fin_of_Le hf (SignLaws.not_lt_of_le _ _ (SignLaws.le_of_lt _ _ (pos_of_Le h hx))) hy

theorem sell_phase32 (fmt : Format F32) (cfg : StopConfig F32) (c : AccountConfig F32) (side : Option (SideInput F32)) (fast log : Bool) (a : Account F32) (floor : F32)
    (hmm : (lit F32 0 <=. cfg.moveMargin) = true) (hb : (lit F32 0 <. a.baseBalance) = true) (hbf : Fl.IsFin a.baseBalance)
    (hfloor : (lit F32 0 <. floor) = true) (hlong : (a.quoteBalance <=. a.baseBalance *. floor) = true)
    (ticks : List (OhlcTick F32)) (cl : F32) (τ : ℤ) (s : ExecState F32 (stopTrader fmt cfg).State) (o : Order F32)
    (hC : NeverOpensLower cl ticks ∧ NoPause τ ticks ∧ Closes32 ticks) (ha : s.account = a) (ho : s.orders = [o]) (hP : Guarding32 a.baseBalance floor cl τ s.trader o) :
    (∀ x, firstReached (ticks.foldlM (tickStep (D := F64) c side (stopTrader fmt cfg) fast log) s).trace = some x →
      (∃ p, x.2.1 = stopSell a.baseBalance p ∧ Fl.Le floor p ∧ Fl.IsFin p ∧ p.Repr ∧ Fl.Le p x.1.opn ∧ (p <. x.1.low) = false) ∧
        x.2.2 = a.executeOrder c x.2.1 x.1) ∧
    (firstReached (ticks.foldlM (tickStep (D := F64) c side (stopTrader fmt cfg) fast log) s).trace = none →
      executions (ticks.foldlM (tickStep (D := F64) c side (stopTrader fmt cfg) fast log) s).trace = [] ∧
      ∀ s', (ticks.foldlM (tickStep (D := F64) c side (stopTrader fmt cfg) fast log) s).out = .ok s' → s'.account = a ∧ s'.executed = s.executed ∧
        ∃ τ' o', s'.orders = [o'] ∧ Guarding32 a.baseBalance floor (lastClose cl ticks) τ' s'.trader o') := by
  refine phase c side (stopTrader fmt cfg) fast log a (C := fun cl τ ticks => NeverOpensLower cl ticks ∧ NoPause τ ticks ∧ Closes32 ticks)
    (P := fun cl τ s o => Guarding32 a.baseBalance floor cl τ s o)
    (Q := fun t o => ∃ p, o = stopSell a.baseBalance p ∧ Fl.Le floor p ∧ Fl.IsFin p ∧ p.Repr ∧ Fl.Le p t.opn ∧ (p <. t.low) = false)
    ?_ ?_ ?_ ?_ ?_ ticks cl τ s o hC ha ho hP
  · rintro cl τ t rest ⟨h1, h2, h3⟩
    refine ⟨h1.2.2, ?_, fun u hu => h3 u (by simp [hu])⟩
    unfold NoPause at h2
    split_ifs at h2 ⊢
    · exact h2.2
    · exact h2
  · rintro cl τ t rest s o ⟨h1, -, -⟩ ⟨p, rfl, h3, h4, h5, h6, -⟩ hr
    refine ⟨p, rfl, h3, fin_between hfloor h3 h4 h6, h5, h4.trans (le_of_cmp h1.1), ?_⟩
    simpa [reached, stopSell, notReached, Order.getPrice] using hr
  · rintro cl τ t rest s o - ⟨p, rfl, -⟩ hr x hx
    exact unreached (ty := .stop) (sd := .sell) rfl rfl hr hx
  · rintro cl τ t rest s o ⟨h1, -, h2⟩ ⟨p, rfl, h3, h4, h5, h6, h7, h8, h9⟩ hr -
    have hr : (p <. t.low) = true := by simpa [reached, stopSell, notReached, Order.getPrice] using hr
    exact ⟨p, rfl, h3, (le_of_cmp (SignLaws.le_of_lt _ _ hr)).trans (le_of_cmp h1.2.1), h5, (h2 t (by simp)).1, h7, h8, h9⟩
  · rintro cl τ t rest s o sg s' os' ⟨h1, h2, hcl⟩ ⟨p, rfl, h3, h4, h5, h6, h7, h8, h9⟩ hr hact hu
    have hr : (p <. t.low) = true := by simpa [reached, stopSell, notReached, Order.getPrice] using hr
    have hpc : Fl.Le p t.close := (le_of_cmp (SignLaws.le_of_lt _ _ hr)).trans (le_of_cmp h1.2.1)
    have hnp : t.ts < s.lastTs + 3600 := by
      unfold NoPause at h2; rw [if_pos hact] at h2; rw [h9]; exact h2.1
    obtain ⟨c1, c2⟩ := hcl t (by simp)
    obtain ⟨-, hpos, -, rfl, rfl⟩ := stopUpdate_ok (sg := sg) hu
    have hl' : (a.quoteBalance <=. a.baseBalance *. t.close) = true :=
      le_cmp ((le_of_cmp hlong).trans (Fl.Le.mul_left (by decide) hbf (pos_of_cmp hbf hb) (h3.trans hpc)))
    have hmode : stopMode t.close a.baseBalance a.quoteBalance = .long := by unfold stopMode; rw [if_pos hl']
    have hth := shrink32 hmm c1 c2 hpos
    have hnext : Fl.Le p (nextStop cfg s t a.baseBalance a.quoteBalance) ∧ Fl.Le (nextStop cfg s t a.baseBalance a.quoteBalance) t.close ∧
        (nextStop cfg s t a.baseBalance a.quoteBalance).Repr := by
      unfold nextStop
      dsimp only
      rw [if_neg (by rw [hmode, h7]; simp; exact hnp), hmode, h8]
      simp only [updateStopPrice, if_true]
      split_ifs
      · refine ⟨le_fmax32 hpc.1, fmax_le32 hpc ((fmin_le32 hth.1).trans hth), ?_⟩
        unfold fmax fmin
        split_ifs <;> first | exact h5 | exact mul_repr32 _ _
      · exact ⟨Fl.Le.refl hpc.1, hpc, h5⟩
    rw [if_pos hl']
    exact ⟨_, rfl, _, rfl, h3.trans hnext.1, hnext.2.1, hnext.2.2, c1, hmode, rfl, rfl⟩

/-- **C119** (a long position, binary32). The same for the program's `float` arithmetic, whatever `std::exp` and `std::log` return: every number below is the one
the program computes.  With a liquidity of 1 the sale is at the stop price exactly, not a rounding of it. -/
theorem C119_sell_f32 (fmt : Format F32) (cfg : StopConfig F32) (c : AccountConfig F32) (side : Option (SideInput F32)) (t : OhlcTick F32) (rest : List (OhlcTick F32))
    (hm : (lit F32 0 <=. cfg.margin) = true) (hmm : (lit F32 0 <=. cfg.moveMargin) = true) (hb : (lit F32 0 <. c.startBase) = true) (hbf : Fl.IsFin c.startBase)
    (hfloor : (lit F32 0 <. (lit F32 1 -. cfg.margin) *. t.close) = true)
    (hlong : (c.startQuote <=. c.startBase *. ((lit F32 1 -. cfg.margin) *. t.close)) = true) (hact : active t = true)
    (hcl : Closes32 (t :: rest)) (hopen : NeverOpensLower t.close rest) (hpause : NoPause t.ts rest) (fast log : Bool) :
    (∀ u o r, firstReached (executeTrader (D := F64) c (t :: rest) side fast (stopTrader fmt cfg) StopState.init log).trace = some (u, o, r) →
      ∃ p, o = stopSell c.startBase p ∧ ((lit F32 1 -. cfg.margin) *. t.close <=. p) = true ∧
        r = (Account.init c).sellBase c.stopFee c.startBase (interp c.marketLiquidity p u.low) ∧
        (c.marketLiquidity = lit F32 1 → Fl.IsFin u.low → interp c.marketLiquidity p u.low = p)) ∧
    (firstReached (executeTrader (D := F64) c (t :: rest) side fast (stopTrader fmt cfg) StopState.init log).trace = none →
      executions (executeTrader (D := F64) c (t :: rest) side fast (stopTrader fmt cfg) StopState.init log).trace = [] ∧
      ∀ r, (executeTrader (D := F64) c (t :: rest) side fast (stopTrader fmt cfg) StopState.init log).out = .ok r →
        r.totalExecutedOrders = 0 ∧ r.endBase = c.startBase ∧ r.endQuote = c.startQuote ∧ ((lit F32 1 -. cfg.margin) *. t.close <=. r.endPrice) = true) := by
  obtain ⟨c1, c2⟩ := hcl t (by simp)
  have key := from_first (D := F64) c side (stopTrader fmt cfg) StopState.init fast log t rest hact
    (Q := fun x => (∃ p, x.2.1 = stopSell c.startBase p ∧ Fl.Le ((lit F32 1 -. cfg.margin) *. t.close) p ∧ Fl.IsFin p ∧ p.Repr ∧ Fl.Le p x.1.opn ∧
      (p <. x.1.low) = false) ∧ x.2.2 = (Account.init c).executeOrder c x.2.1 x.1)
    (R := fun s => s.account = Account.init c ∧ s.executed = 0 ∧
      ∃ τ' o', s.orders = [o'] ∧ Guarding32 c.startBase ((lit F32 1 -. cfg.margin) *. t.close) (lastClose t.close rest) τ' s.trader o')
    (fun s sg h1 h2 h3 => by
      obtain ⟨-, hpos, -, e1, e2⟩ := stopUpdate_ok (sg := sg) h3
      have hfl := shrink32 hm c1 c2 hpos
      have hl' : (c.startQuote <=. c.startBase *. t.close) = true :=
        le_cmp ((le_of_cmp hlong).trans (Fl.Le.mul_left (by decide) hbf (pos_of_cmp hbf hb) hfl))
      have hmode : stopMode t.close c.startBase c.startQuote = .long := by unfold stopMode; rw [if_pos hl']
      have hnext : nextStop cfg StopState.init t c.startBase c.startQuote = (lit F32 1 -. cfg.margin) *. t.close := by
        unfold nextStop
        dsimp only
        rw [if_pos (.inr (by rw [hmode]; simp [StopState.init])), if_pos hl']
      rw [if_pos hl', hnext] at e2
      rw [hmode, hnext] at e1
      have hP : Guarding32 c.startBase ((lit F32 1 -. cfg.margin) *. t.close) t.close t.ts s.trader (stopSell c.startBase ((lit F32 1 -. cfg.margin) *. t.close)) :=
        ⟨_, rfl, Fl.Le.refl hfl.1, hfl, mul_repr32 _ _, c1, by rw [e1], by rw [e1], by rw [e1]⟩
      obtain ⟨i1, i2⟩ := sell_phase32 fmt cfg c side fast log (Account.init c) ((lit F32 1 -. cfg.margin) *. t.close) hmm hb hbf
        hfloor hlong rest t.close t.ts s _ ⟨hopen, hpause, fun u hu => hcl u (by simp [hu])⟩ h1 e2 hP
      refine ⟨fun x hx => i1 x hx, fun hn => ⟨(i2 hn).1, fun s' hs => ?_⟩⟩
      obtain ⟨j1, j2, j3⟩ := (i2 hn).2 s' hs
      exact ⟨j1, j2.trans h2, j3⟩)
  refine ⟨fun u o r hx => ?_, fun hn => ⟨(key.2 hn).1, fun r hr => ?_⟩⟩
  · obtain ⟨⟨p, ho, h1, h2, h3, h4, h5⟩, he⟩ := key.1 _ hx
    dsimp only at ho he h4 h5
    subst ho
    have hp : (lit F32 0 <. p) = true := pos_of_Le hfloor h1
    refine ⟨p, rfl, le_cmp h1, ?_, fun hq hf => by rw [hq]; exact interp32 h2 h3 hp hf⟩
    have hv : ValidOrder (stopSell c.startBase p) := ⟨.stop, .sell, rfl, rfl, .inr ⟨p, rfl, hp⟩, c.startBase, hb, .inl rfl⟩
    have hmin : fmin p u.opn = p := by
      unfold fmin; rw [if_neg (by rw [show (u.opn <. p) = false from h4.2.2]; simp)]
    rw [he, Account.executeOrder_valid _ _ _ _ hv rfl rfl, if_neg (by simp [notReached, stopSell, Order.getPrice, h5])]
    simp only [tradeOf, stopSell, Order.getPrice, Option.getD_some, execPrice, reduceCtorEq, if_false, feeFor, hmin]
    rfl
  · obtain ⟨s, ⟨h1, h2, τ', o', h3, p, h4, h5, h6, -⟩, r1, r2, r3, r4⟩ := (key.2 hn).2 r hr
    rw [r1, r2, r3, r4, h1]
    exact ⟨h2, rfl, rfl, le_cmp (h5.trans h6)⟩

/-- The standing order of a trader in cash. -/
def Waiting32 (Q ceiling cl : F32) (τ : ℤ) (s : StopState F32) (o : Order F32) : Prop :=
  ∃ p, o = stopBuy Q p ∧ Fl.Le p ceiling ∧ Fl.Le cl p ∧ p.Repr ∧ s.mode = .cash ∧ s.stopPrice = p ∧ s.lastTs = τ

theorem buy_phase32 (fmt : Format F32) (cfg : StopConfig F32) (c : AccountConfig F32) (side : Option (SideInput F32)) (fast log : Bool) (a : Account F32) (ceiling : F32)
    (hmm : (lit F32 0 <=. cfg.moveMargin) = true) (hb : NotBelowZero a.baseBalance) (hbf : Fl.IsFin a.baseBalance) (hcf : Fl.IsFin ceiling)
    (hcash : ∀ x, (lit F32 0 <. x) = true → Fl.Le x ceiling → (a.baseBalance *. x <. a.quoteBalance) = true)
    (ticks : List (OhlcTick F32)) (cl : F32) (τ : ℤ) (s : ExecState F32 (stopTrader fmt cfg).State) (o : Order F32)
    (hC : NeverOpensHigher cl ticks ∧ NoPause τ ticks ∧ Closes32 ticks) (ha : s.account = a) (ho : s.orders = [o]) (hP : Waiting32 a.quoteBalance ceiling cl τ s.trader o) :
    (∀ x, firstReached (ticks.foldlM (tickStep (D := F64) c side (stopTrader fmt cfg) fast log) s).trace = some x →
      (∃ p, x.2.1 = stopBuy a.quoteBalance p ∧ Fl.Le p ceiling ∧ (lit F32 0 <. p) = true ∧ p.Repr ∧ Fl.Le x.1.opn p ∧ (x.1.high <. p) = false) ∧
        x.2.2 = a.executeOrder c x.2.1 x.1) ∧
    (firstReached (ticks.foldlM (tickStep (D := F64) c side (stopTrader fmt cfg) fast log) s).trace = none →
      executions (ticks.foldlM (tickStep (D := F64) c side (stopTrader fmt cfg) fast log) s).trace = [] ∧
      ∀ s', (ticks.foldlM (tickStep (D := F64) c side (stopTrader fmt cfg) fast log) s).out = .ok s' → s'.account = a ∧ s'.executed = s.executed ∧
        ∃ τ' o', s'.orders = [o'] ∧ Waiting32 a.quoteBalance ceiling (lastClose cl ticks) τ' s'.trader o') := by
  refine phase c side (stopTrader fmt cfg) fast log a (C := fun cl τ ticks => NeverOpensHigher cl ticks ∧ NoPause τ ticks ∧ Closes32 ticks)
    (P := fun cl τ s o => Waiting32 a.quoteBalance ceiling cl τ s o)
    (Q := fun t o => ∃ p, o = stopBuy a.quoteBalance p ∧ Fl.Le p ceiling ∧ (lit F32 0 <. p) = true ∧ p.Repr ∧ Fl.Le t.opn p ∧ (t.high <. p) = false)
    ?_ ?_ ?_ ?_ ?_ ticks cl τ s o hC ha ho hP
  · rintro cl τ t rest ⟨h1, h2, h3⟩
    refine ⟨h1.2.2, ?_, fun u hu => h3 u (by simp [hu])⟩
    unfold NoPause at h2
    split_ifs at h2 ⊢
    · exact h2.2
    · exact h2
  · rintro cl τ t rest s o ⟨h1, -, -⟩ ⟨p, rfl, h3, h4, h5, -⟩ hr
    have hop := (le_of_cmp h1.1.2).trans h4
    refine ⟨p, rfl, h3, pos_of_Le h1.1.1 hop, h5, hop, ?_⟩
    simpa [reached, stopBuy, notReached, Order.getPrice] using hr
  · rintro cl τ t rest s o - ⟨p, rfl, -⟩ hr x hx
    exact unreached (ty := .stop) (sd := .buy) rfl rfl hr hx
  · rintro cl τ t rest s o ⟨h1, -, h2⟩ ⟨p, rfl, h3, h4, h5, h7, h8, h9⟩ hr -
    have hr : (t.high <. p) = true := by simpa [reached, stopBuy, notReached, Order.getPrice] using hr
    exact ⟨p, rfl, h3, (le_of_cmp h1.2.1).trans (le_of_cmp (SignLaws.le_of_lt _ _ hr)), h5, h7, h8, h9⟩
  · rintro cl τ t rest s o sg s' os' ⟨h1, h2, hcl⟩ ⟨p, rfl, h3, h4, h5, h7, h8, h9⟩ hr hact hu
    have hr : (t.high <. p) = true := by simpa [reached, stopBuy, notReached, Order.getPrice] using hr
    have hpc : Fl.Le t.close p := (le_of_cmp h1.2.1).trans (le_of_cmp (SignLaws.le_of_lt _ _ hr))
    have hnp : t.ts < s.lastTs + 3600 := by
      unfold NoPause at h2; rw [if_pos hact] at h2; rw [h9]; exact h2.1
    obtain ⟨c1, c2⟩ := hcl t (by simp)
    obtain ⟨-, hpos, -, rfl, rfl⟩ := stopUpdate_ok (sg := sg) hu
    have hl' : ¬ (a.quoteBalance <=. a.baseBalance *. t.close) = true := by
      intro h
      have := SignLaws.not_lt_of_le _ _ h
      rw [hcash _ hpos (hpc.trans h3)] at this
      cases this
    have hmode : stopMode t.close a.baseBalance a.quoteBalance = .cash := by unfold stopMode; rw [if_neg hl']
    have hth := grow32 hmm c1 c2 hpos
    have hnext : Fl.Le (nextStop cfg s t a.baseBalance a.quoteBalance) p ∧ Fl.Le t.close (nextStop cfg s t a.baseBalance a.quoteBalance) ∧
        (nextStop cfg s t a.baseBalance a.quoteBalance).Repr := by
      unfold nextStop
      dsimp only
      rw [if_neg (by rw [hmode, h7]; simp; exact hnp), hmode, h8]
      simp only [updateStopPrice, reduceCtorEq, if_false, decide_true, assertThat_true, bind, Except.bind, pure, Except.pure]
      split_ifs
      · refine ⟨fmin_le32 hpc.2.1, le_fmin32 hpc (hth.trans (le_fmax32 hth.2.1)), ?_⟩
        unfold fmax fmin
        split_ifs <;> first | exact h5 | exact mul_repr32 _ _
      · exact ⟨Fl.Le.refl hpc.2.1, hpc, h5⟩
    rw [if_neg hl']
    exact ⟨_, rfl, _, rfl, hnext.1.trans h3, hnext.2.1, hnext.2.2, hmode, rfl, rfl⟩

/-- **C119** (a position in cash, binary32). The same for the program's `float` arithmetic.  The balances are read as: the base currency is worth less than the quote
currency, in the program's arithmetic, at every positive price up to the first stop price. -/
theorem C119_buy_f32 (fmt : Format F32) (cfg : StopConfig F32) (c : AccountConfig F32) (side : Option (SideInput F32)) (t : OhlcTick F32) (rest : List (OhlcTick F32))
    (hm : (lit F32 0 <=. cfg.margin) = true) (hmm : (lit F32 0 <=. cfg.moveMargin) = true)
    (hb : c.startBase = lit F32 0 ∨ (lit F32 0 <. c.startBase) = true) (hbf : Fl.IsFin c.startBase)
    (hceil : Fl.IsFin ((lit F32 1 +. cfg.margin) *. t.close))
    (hcash : (c.startBase *. ((lit F32 1 +. cfg.margin) *. t.close) <. c.startQuote) = true) (hact : active t = true)
    (hcl : Closes32 (t :: rest)) (hopen : NeverOpensHigher t.close rest) (hpause : NoPause t.ts rest) (fast log : Bool) :
    (∀ u o r, firstReached (executeTrader (D := F64) c (t :: rest) side fast (stopTrader fmt cfg) StopState.init log).trace = some (u, o, r) →
      ∃ p, o = stopBuy c.startQuote p ∧ (p <=. (lit F32 1 +. cfg.margin) *. t.close) = true ∧
        r = (Account.init c).buyAtQuote c.stopFee c.startQuote (interp c.marketLiquidity p u.high) FloatOps.maxFinite ∧
        (c.marketLiquidity = lit F32 1 → Fl.IsFin u.high → interp c.marketLiquidity p u.high = p)) ∧
    (firstReached (executeTrader (D := F64) c (t :: rest) side fast (stopTrader fmt cfg) StopState.init log).trace = none →
      executions (executeTrader (D := F64) c (t :: rest) side fast (stopTrader fmt cfg) StopState.init log).trace = [] ∧
      ∀ r, (executeTrader (D := F64) c (t :: rest) side fast (stopTrader fmt cfg) StopState.init log).out = .ok r →
        r.totalExecutedOrders = 0 ∧ r.endBase = c.startBase ∧ r.endQuote = c.startQuote ∧ (r.endPrice <=. (lit F32 1 +. cfg.margin) *. t.close) = true) := by
  obtain ⟨c1, c2⟩ := hcl t (by simp)
  have hcash' : ∀ x, (lit F32 0 <. x) = true → Fl.Le x ((lit F32 1 +. cfg.margin) *. t.close) → (c.startBase *. x <. c.startQuote) = true := by
    intro x hx hle
    rcases hb with hb | hb
    · have hz : ∀ y : F32, Fl.IsFin y → (lit F32 0 <. y) = true → c.startBase *. y = .fin 0 := by
        intro y hy h
        obtain ⟨q, rfl, hq⟩ := fin_pos hy h
        rw [hb, show (lit F32 0 : F32) = .fin 0 from by decide +kernel]
        change Fl.mul (.fin 0) (.fin q) = _
        simp only [Fl.mul, Fl.toQ, zero_mul, if_true, Fl.signBit]
        rw [decide_eq_false (lt_irrefl _), decide_eq_false (not_lt.mpr hq.le)]
        rfl
      rw [hz x (fin_of_Le hceil (SignLaws.not_lt_of_le _ _ (SignLaws.le_of_lt _ _ hx)) hle) hx]
      rwa [hz _ hceil (pos_of_Le hx hle)] at hcash
    · exact Quiet.le_lt (Fl.Le.mul_left (by decide) hbf (pos_of_cmp hbf hb) hle) hcash
  have hbn : NotBelowZero c.startBase := by
    rcases hb with hb | hb
    · rw [hb]; exact (by decide +kernel : Fl.lt (lit F32 0) (lit F32 0) = false)
    · exact SignLaws.not_lt_of_le _ _ (SignLaws.le_of_lt _ _ hb)
  have key := from_first (D := F64) c side (stopTrader fmt cfg) StopState.init fast log t rest hact
    (Q := fun x => (lit F32 0 <. t.close) = true ∧ (∃ p, x.2.1 = stopBuy c.startQuote p ∧ Fl.Le p ((lit F32 1 +. cfg.margin) *. t.close) ∧ (lit F32 0 <. p) = true ∧ p.Repr ∧
      Fl.Le x.1.opn p ∧ (x.1.high <. p) = false) ∧ x.2.2 = (Account.init c).executeOrder c x.2.1 x.1)
    (R := fun s => s.account = Account.init c ∧ s.executed = 0 ∧
      ∃ τ' o', s.orders = [o'] ∧ Waiting32 c.startQuote ((lit F32 1 +. cfg.margin) *. t.close) (lastClose t.close rest) τ' s.trader o')
    (fun s sg h1 h2 h3 => by
      obtain ⟨-, hpos, -, e1, e2⟩ := stopUpdate_ok (sg := sg) h3
      have hfl := grow32 hm c1 c2 hpos
      have hl' : ¬ (c.startQuote <=. c.startBase *. t.close) = true := by
        intro h
        have := SignLaws.not_lt_of_le _ _ h
        rw [hcash' _ hpos hfl] at this
        cases this
      have hmode : stopMode t.close c.startBase c.startQuote = .cash := by unfold stopMode; rw [if_neg hl']
      have hnext : nextStop cfg StopState.init t c.startBase c.startQuote = (lit F32 1 +. cfg.margin) *. t.close := by
        unfold nextStop
        dsimp only
        rw [if_pos (.inr (by rw [hmode]; simp [StopState.init])), if_neg hl']
      rw [if_neg hl', hnext] at e2
      rw [hmode, hnext] at e1
      have hP : Waiting32 c.startQuote ((lit F32 1 +. cfg.margin) *. t.close) t.close t.ts s.trader (stopBuy c.startQuote ((lit F32 1 +. cfg.margin) *. t.close)) :=
        ⟨_, rfl, Fl.Le.refl hfl.2.1, hfl, mul_repr32 _ _, by rw [e1], by rw [e1], by rw [e1]⟩
      obtain ⟨i1, i2⟩ := buy_phase32 fmt cfg c side fast log (Account.init c) ((lit F32 1 +. cfg.margin) *. t.close) hmm hbn hbf
        hceil hcash' rest t.close t.ts s _ ⟨hopen, hpause, fun u hu => hcl u (by simp [hu])⟩ h1 e2 hP
      refine ⟨fun x hx => ⟨hpos, i1 x hx⟩, fun hn => ⟨(i2 hn).1, fun s' hs => ?_⟩⟩
      obtain ⟨j1, j2, j3⟩ := (i2 hn).2 s' hs
      exact ⟨j1, j2.trans h2, j3⟩)
  refine ⟨fun u o r hx => ?_, fun hn => ⟨(key.2 hn).1, fun r hr => ?_⟩⟩
  · obtain ⟨hpos, ⟨p, ho, h1, hp, h3, h4, h5⟩, he⟩ := key.1 _ hx
    dsimp only at ho he h4 h5
    subst ho
    have h2 : Fl.IsFin p := fin_of_Le hceil (SignLaws.not_lt_of_le _ _ (SignLaws.le_of_lt _ _ hp)) h1
    refine ⟨p, rfl, le_cmp h1, ?_, fun hq hf => by rw [hq]; exact interp32 h2 h3 hp hf⟩
    have hq : (lit F32 0 <. c.startQuote) = true := by
      refine Quiet.le_lt (b := c.startBase *. t.close) ?_ (hcash' _ hpos (grow32 hm c1 c2 hpos))
      refine ⟨by decide, ?_, notBelow_mul hpos hbn⟩
      rintro e
      have := hcash' _ hpos (grow32 hm c1 c2 hpos)
      rw [e] at this
      cases this
    have hv : ValidOrder (stopBuy c.startQuote p) := ⟨.stop, .buy, rfl, rfl, .inr ⟨p, rfl, hp⟩, c.startQuote, hq, .inr rfl⟩
    have hmax : fmax p u.opn = p := by
      unfold fmax; rw [if_neg (by rw [show (p <. u.opn) = false from h4.2.2]; simp)]
    rw [he, Account.executeOrder_valid _ _ _ _ hv rfl rfl, if_neg (by simp [notReached, stopBuy, Order.getPrice, h5])]
    simp only [tradeOf, stopBuy, Order.getPrice, Option.getD_some, execPrice, reduceCtorEq, if_false, feeFor, hmax]
    rfl
  · obtain ⟨s, ⟨h1, h2, τ', o', h3, p, h4, h5, h6, -⟩, r1, r2, r3, r4⟩ := (key.2 hn).2 r hr
    rw [r1, r2, r3, r4, h1]
    exact ⟨h2, rfl, rfl, le_cmp (h6.trans h5)⟩

theorem lit_repr32 (q : ℚ) : (lit F32 q).Repr := Fl.ofRat_repr (by decide) (by decide) _

/-- The price falls through the first stop price, in `float`; the defaults of the stop trader, 2 units of base currency, liquidity 1. -/
theorem ex_closes32 : Closes32 [⟨60, lit F32 100, lit F32 100, lit F32 100, lit F32 100, lit F32 5⟩, ⟨120, lit F32 100, lit F32 101, lit F32 95, lit F32 (481/5), lit F32 3⟩,
    ⟨180, lit F32 97, lit F32 97, lit F32 70, lit F32 72, lit F32 1⟩] := by
  intro u hu
  simp only [List.mem_cons, List.not_mem_nil, or_false] at hu
  rcases hu with rfl | rfl | rfl <;> exact ⟨by decide +kernel, lit_repr32 _⟩
theorem ex_pause32 : NoPause 60 [(⟨120, lit F32 100, lit F32 101, lit F32 95, lit F32 (481/5), lit F32 3⟩ : OhlcTick F32),
    ⟨180, lit F32 97, lit F32 97, lit F32 70, lit F32 72, lit F32 1⟩] := by
  unfold NoPause; rw [if_pos (by decide +kernel)]; refine ⟨by decide, ?_⟩
  unfold NoPause; rw [if_pos (by decide +kernel)]; exact ⟨by decide, trivial⟩
example (fmt : Format F32) := C119_sell_f32 fmt ⟨lit F32 (1 / 10), lit F32 (1 / 10), lit F32 (1 / 100), lit F32 (1 / 10)⟩
  ⟨lit F32 2, lit F32 10, lit F32 0, lit F32 0, ⟨lit F32 0, lit F32 0, lit F32 0⟩, ⟨lit F32 0, lit F32 0, lit F32 0⟩, ⟨lit F32 0, lit F32 0, lit F32 0⟩, lit F32 1, lit F32 0⟩
  none ⟨60, lit F32 100, lit F32 100, lit F32 100, lit F32 100, lit F32 5⟩
  [⟨120, lit F32 100, lit F32 101, lit F32 95, lit F32 (481/5), lit F32 3⟩, ⟨180, lit F32 97, lit F32 97, lit F32 70, lit F32 72, lit F32 1⟩]
  (by decide +kernel) (by decide +kernel) (by decide +kernel) (by decide +kernel) (by decide +kernel) (by decide +kernel) (by decide +kernel)
  ex_closes32 ⟨by decide +kernel, by decide +kernel, by decide +kernel, by decide +kernel, trivial⟩ ex_pause32 true false
/-- The price rises through the first stop price, in `float`; the trader has a little base currency. -/
example (fmt : Format F32) := C119_buy_f32 fmt ⟨lit F32 (1 / 10), lit F32 (1 / 10), lit F32 (1 / 100), lit F32 (1 / 10)⟩
  ⟨lit F32 (1/10), lit F32 50, lit F32 0, lit F32 0, ⟨lit F32 0, lit F32 0, lit F32 0⟩, ⟨lit F32 0, lit F32 0, lit F32 0⟩, ⟨lit F32 0, lit F32 0, lit F32 0⟩, lit F32 1, lit F32 0⟩
  none ⟨60, lit F32 100, lit F32 100, lit F32 100, lit F32 100, lit F32 5⟩
  [⟨120, lit F32 100, lit F32 101, lit F32 95, lit F32 (481/5), lit F32 3⟩, ⟨180, lit F32 96, lit F32 130, lit F32 70, lit F32 72, lit F32 1⟩]
  (by decide +kernel) (by decide +kernel) (.inr (by decide +kernel)) (by decide +kernel) (by decide +kernel) (by decide +kernel) (by decide +kernel)
  (by
    intro u hu
    simp only [List.mem_cons, List.not_mem_nil, or_false] at hu
    rcases hu with rfl | rfl | rfl <;> exact ⟨by decide +kernel, lit_repr32 _⟩)
  ⟨⟨by decide +kernel, by decide +kernel⟩, by decide +kernel, ⟨by decide +kernel, by decide +kernel⟩, by decide +kernel, trivial⟩
  (by
    unfold NoPause; rw [if_pos (by decide +kernel)]; refine ⟨by decide, ?_⟩
    unfold NoPause; rw [if_pos (by decide +kernel)]; exact ⟨by decide, trivial⟩) true false

end float

section examples
attribute [local instance] evLibm

/-- 2 units of base and 10 of quote currency, no fees, no units, liquidity 1. -/
def lCfg : AccountConfig ℚ := ⟨2, 10, 0, 0, ⟨0, 0, 0⟩, ⟨0, 0, 0⟩, ⟨0, 0, 0⟩, 1, 0⟩
/-- 0 units of base and 100 of quote currency, no fees, no units, liquidity 1. -/
def bCfg : AccountConfig ℚ := ⟨0, 110, 0, 0, ⟨0, 0, 0⟩, ⟨0, 0, 0⟩, ⟨0, 0, 0⟩, 1, 0⟩
def lFmt : Format ℚ := ⟨fun _ => "", fun _ _ => ""⟩
def lStop : StopConfig ℚ := ⟨1/10, 1/10, 1/100, 1/100⟩
def lFirst : OhlcTick ℚ := ⟨60, 100, 100, 100, 100, 5⟩
/-- The price falls through 90. -/
def lRest : List (OhlcTick ℚ) := [⟨120, 100, 101, 95, 96, 3⟩, ⟨180, 97, 97, 92, 94, 0⟩, ⟨240, 94, 94, 70, 72, 1⟩, ⟨300, 72, 72, 60, 61, 1⟩]
/-- The price rises through 110. -/
def bRest : List (OhlcTick ℚ) := [⟨120, 100, 103, 95, 102, 3⟩, ⟨180, 101, 109, 92, 108, 0⟩, ⟨240, 108, 120, 108, 118, 1⟩]
/-- The price stays above 90. -/
def lQuiet : List (OhlcTick ℚ) := [⟨120, 100, 101, 95, 96, 3⟩, ⟨180, 97, 97, 92, 94, 0⟩]

theorem lOpen : NeverOpensLower lFirst.close lRest := ⟨by decide +kernel, by decide +kernel, by decide +kernel, by decide +kernel, by decide +kernel, by decide +kernel, by decide +kernel, by decide +kernel, trivial⟩
theorem lPause : NoPause lFirst.ts lRest := by simp [NoPause, lRest, lFirst, active, lit]
theorem bOpen : NeverOpensHigher lFirst.close bRest := ⟨⟨by decide +kernel, by decide +kernel⟩, by decide +kernel, ⟨by decide +kernel, by decide +kernel⟩, by decide +kernel, ⟨by decide +kernel, by decide +kernel⟩, by decide +kernel, trivial⟩
theorem bPause : NoPause lFirst.ts bRest := by simp [NoPause, bRest, lFirst, active, lit]

example := C119_sell lFmt lStop lCfg none lFirst lRest (by norm_num [lStop]) (by norm_num [lStop]) (by norm_num [lStop]) (by norm_num [lCfg])
  (by norm_num [lCfg, lStop, lFirst]) (by decide +kernel) lOpen lPause true false
/-- The sale happens on the third tick, at 90. -/
example : ((firstReached (executeTrader lCfg (lFirst :: lRest) none true (stopTrader lFmt lStop) StopState.init false).trace).map
    (fun x => (x.1.ts, x.2.1, x.2.2.toOption.map (fun y => (y.1, y.2.baseBalance, y.2.quoteBalance))))) =
    some (240, stopSell 2 90, some (true, 0, 190)) := by decide +kernel
example (u o r) (h : firstReached (executeTrader lCfg (lFirst :: lRest) none true (stopTrader lFmt lStop) StopState.init false).trace = some (u, o, r)) :=
  C119_floor lFmt lStop lCfg none lFirst lRest (by norm_num [lStop]) (by norm_num [lStop]) (by norm_num [lStop]) (by norm_num [lCfg]) (by norm_num [lFirst])
    (by norm_num [lCfg, lStop, lFirst]) (by decide +kernel) lOpen lPause rfl (by simp [FreeOfFees, lCfg]) rfl rfl true false u o r h
example := (C119_sell lFmt lStop lCfg none lFirst lQuiet (by norm_num [lStop]) (by norm_num [lStop]) (by norm_num [lStop]) (by norm_num [lCfg])
  (by norm_num [lCfg, lStop, lFirst]) (by decide +kernel) ⟨by decide +kernel, by decide +kernel, by decide +kernel, by decide +kernel, trivial⟩
  (by simp [NoPause, lQuiet, lFirst, active, lit]) true false).2 (by decide +kernel)

example := C119_buy lFmt lStop bCfg none lFirst bRest (by norm_num [lStop]) (by norm_num [lStop]) (by norm_num [bCfg])
  (by norm_num [bCfg, lStop, lFirst]) (by decide +kernel) bOpen bPause true false
/-- The purchase happens on the third tick, at 110. -/
example : ((firstReached (executeTrader bCfg (lFirst :: bRest) none true (stopTrader lFmt lStop) StopState.init false).trace).map
    (fun x => (x.1.ts, x.2.1, x.2.2.toOption.map (fun y => (y.1, y.2.baseBalance, y.2.quoteBalance))))) =
    some (240, stopBuy 110 110, some (true, 1, 0)) := by decide +kernel
example (u o r) (h : firstReached (executeTrader bCfg (lFirst :: bRest) none true (stopTrader lFmt lStop) StopState.init false).trace = some (u, o, r)) :=
  C119_ceiling lFmt lStop bCfg none lFirst bRest (by norm_num [lStop]) (by norm_num [lStop]) (by norm_num [bCfg]) (by norm_num [lFirst])
    (by norm_num [bCfg, lStop, lFirst]) (by decide +kernel) bOpen bPause rfl (by simp [FreeOfFees, bCfg]) rfl rfl true false u o r h

/-- **C119** (why the ticks must not open lower, nor pause). On a tick that opens at 50 the same account sells at 50, far below the first stop price 90; and after
a pause of an hour the stop price is set anew, so that it may follow the price down. -/
theorem C119_gap_breaks :
    ((firstReached (executeTrader lCfg [lFirst, ⟨120, 50, 50, 40, 45, 1⟩] none true (stopTrader lFmt lStop) StopState.init false).trace).map
      (fun x => (x.2.1, x.2.2.toOption.map (fun y => (y.1, y.2.baseBalance, y.2.quoteBalance))))) = some (stopSell 2 90, some (true, 0, 110)) ∧
    ((firstReached (executeTrader lCfg [lFirst, ⟨3660, 100, 100, 91, 91, 1⟩, ⟨3720, 91, 91, 80, 80, 1⟩] none true
        (stopTrader lFmt lStop) StopState.init false).trace).map
      (fun x => (x.2.1, x.2.2.toOption.map (fun y => (y.1, y.2.baseBalance, y.2.quoteBalance))))) =
      some (stopSell 2 (819/10), some (true, 0, 1738/10)) := by
  constructor <;> decide +kernel

end examples

end Verif.Props.StopLoss
