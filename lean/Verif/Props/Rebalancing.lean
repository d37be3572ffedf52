import Verif.Model.Traders
import Verif.Spec.Traders
import Verif.Lemmas.Account
import Verif.Num.IEEE

/-!
# Properties of the rebalancing trader (C52-C55)
-/

set_option linter.unusedSectionVars false

namespace Verif.Props
open FloatOps Spec

section generic
variable {F : Type} [FloatOps F]

theorem rebalancingUpdate_ok {cfg : RebalancingConfig F} {s s' : RebalancingState F} {t : OhlcTick F} {sg : List F}
    {base quote : F} {os : List (Order F)} (h : rebalancingUpdate cfg s t sg base quote = .ok (s', os)) :
    t.ts > s.lastTs ∧ (lit F 0 <. t.close) = true ∧ ((lit F 0 <. base) = true ∨ (lit F 0 <. quote) = true) ∧
    s' = ⟨base, quote, t.ts, t.close⟩ ∧ os = rebalancingOrders cfg t.close base quote := by
  unfold rebalancingUpdate at h
  obtain ⟨h1, h⟩ := assertThat_bind_ok h
  obtain ⟨h2, h⟩ := assertThat_bind_ok h
  obtain ⟨h3, h⟩ := assertThat_bind_ok h
  simp only [pure, Except.pure, Except.ok.injEq, Prod.mk.injEq] at h
  exact ⟨by simpa using h1, h2, by simpa using h3, h.1.symm, h.2.symm⟩

/-- **C52** (when `Update` aborts, any arithmetic). `Update` returns exactly if time advanced, the price is positive and
the account is not empty. -/
theorem C52_returns_iff (cfg : RebalancingConfig F) (s : RebalancingState F) (t : OhlcTick F) (sg : List F)
    (base quote : F) :
    (∃ r, rebalancingUpdate cfg s t sg base quote = .ok r) ↔
      t.ts > s.lastTs ∧ (lit F 0 <. t.close) = true ∧ ((lit F 0 <. base) = true ∨ (lit F 0 <. quote) = true) := by
  constructor
  · rintro ⟨⟨s', os⟩, h⟩
    obtain ⟨h1, h2, h3, -, -⟩ := rebalancingUpdate_ok h
    exact ⟨h1, h2, h3⟩
  · rintro ⟨h1, h2, h3⟩
    refine ⟨(⟨base, quote, t.ts, t.close⟩, rebalancingOrders cfg t.close base quote), ?_⟩
    unfold rebalancingUpdate
    rw [decide_eq_true h1, h2]
    have : ((lit F 0 <. base) || (lit F 0 <. quote)) = true := by simpa using h3
    rw [this]; rfl

/-- The possible sets of orders, in any arithmetic. -/
theorem rebalancingOrders_shape (cfg : RebalancingConfig F) (price base quote : F) :
    (∃ sd x, rebalancingOrders cfg price base quote = [marketOrder sd x]) ∨
    (∃ sells buys, rebalancingOrders cfg price base quote = sells ++ buys ∧
      (sells = [] ∨ ∃ x p, sells = [limitOrder .sell x p] ∧ (price <. p) = true ∧ (p <. lit F 100 *. price) = true) ∧
      (buys = [] ∨ ∃ x p, buys = [limitOrder .buy x p] ∧ (p <. price) = true ∧ (price /. lit F 100 <. p) = true)) := by
  unfold rebalancingOrders
  dsimp only
  split_ifs with h1 h2 h3 h4 h5 h6 h7 h8
  all_goals first
    | exact .inl ⟨_, _, rfl⟩
    | right
  all_goals simp only [Bool.and_eq_true] at *
  · exact ⟨_, _, rfl, .inr ⟨_, _, rfl, h5.1, h5.2⟩, .inr ⟨_, _, rfl, h6.1, h6.2⟩⟩
  · exact ⟨_, _, rfl, .inr ⟨_, _, rfl, h5.1, h5.2⟩, .inl rfl⟩
  · exact ⟨[], _, rfl, .inl rfl, .inr ⟨_, _, rfl, h7.1, h7.2⟩⟩
  · exact ⟨[], _, rfl, .inl rfl, .inl rfl⟩
  · exact ⟨[], _, rfl, .inl rfl, .inr ⟨_, _, rfl, h8.1, h8.2⟩⟩
  · exact ⟨[], _, rfl, .inl rfl, .inl rfl⟩
  · exact ⟨[], [], rfl, .inl rfl, .inl rfl⟩

/-- **C52** (shape, any arithmetic). `Update` emits either exactly one market order, or at most one limit sell followed
by at most one limit buy and nothing else. -/
theorem C52_shape (cfg : RebalancingConfig F) (s s' : RebalancingState F) (t : OhlcTick F) (sg : List F)
    (base quote : F) (os : List (Order F)) (h : rebalancingUpdate cfg s t sg base quote = .ok (s', os)) :
    (∃ o, os = [o] ∧ isMarket o) ∨
    (∃ sells buys, os = sells ++ buys ∧ sells.length ≤ 1 ∧ buys.length ≤ 1 ∧
      (∀ o ∈ sells, isLimit .sell o) ∧ (∀ o ∈ buys, isLimit .buy o)) := by
  obtain ⟨-, -, -, -, rfl⟩ := rebalancingUpdate_ok h
  rcases rebalancingOrders_shape cfg t.close base quote with ⟨sd, x, e⟩ | ⟨sells, buys, e, hs, hb⟩
  · exact .inl ⟨_, e, rfl⟩
  · refine .inr ⟨sells, buys, e, ?_, ?_, ?_, ?_⟩
    · rcases hs with rfl | ⟨x, p, rfl, -⟩ <;> simp
    · rcases hb with rfl | ⟨x, p, rfl, -⟩ <;> simp
    · rcases hs with rfl | ⟨x, p, rfl, -⟩ <;> simp [isLimit, limitOrder]
    · rcases hb with rfl | ⟨x, p, rfl, -⟩ <;> simp [isLimit, limitOrder]

/-- **C54** (limit prices, any arithmetic). Limit sells are priced above the close of the tick and below 100 times it,
limit buys below the close and above a hundredth of it. -/
theorem C54_limit_prices (cfg : RebalancingConfig F) (s s' : RebalancingState F) (t : OhlcTick F) (sg : List F)
    (base quote : F) (os : List (Order F)) (h : rebalancingUpdate cfg s t sg base quote = .ok (s', os))
    (o : Order F) (ho : o ∈ os) :
    (isLimit .sell o → ∃ p, o.price = some p ∧ (t.close <. p) = true ∧ (p <. lit F 100 *. t.close) = true) ∧
    (isLimit .buy o → ∃ p, o.price = some p ∧ (p <. t.close) = true ∧ (t.close /. lit F 100 <. p) = true) := by
  obtain ⟨-, -, -, -, rfl⟩ := rebalancingUpdate_ok h
  rcases rebalancingOrders_shape cfg t.close base quote with ⟨sd, x, e⟩ | ⟨sells, buys, e, hs, hb⟩
  · rw [e, List.mem_singleton] at ho
    subst ho
    exact ⟨fun h => by simp [isLimit, marketOrder] at h, fun h => by simp [isLimit, marketOrder] at h⟩
  · rw [e, List.mem_append] at ho
    rcases ho with ho | ho
    · rcases hs with rfl | ⟨x, p, rfl, h1, h2⟩
      · simp at ho
      · rw [List.mem_singleton] at ho
        subst ho
        exact ⟨fun _ => ⟨p, rfl, h1, h2⟩, fun h => by simp [isLimit, limitOrder] at h⟩
    · rcases hb with rfl | ⟨x, p, rfl, h1, h2⟩
      · simp at ho
      · rw [List.mem_singleton] at ho
        subst ho
        exact ⟨fun h => by simp [isLimit, limitOrder] at h, fun _ => ⟨p, rfl, h1, h2⟩⟩

/-- **C54** (any arithmetic, including NaN). `Update` emits a market order only if the computed allocation compares
outside the band. -/
theorem C54_no_market_order_in_band (cfg : RebalancingConfig F) (s s' : RebalancingState F) (t : OhlcTick F)
    (sg : List F) (base quote : F) (os : List (Order F))
    (h : rebalancingUpdate cfg s t sg base quote = .ok (s', os))
    (hup : (cfg.alpha *. (lit F 1 +. cfg.epsilon) <. base *. t.close /. (base *. t.close +. quote)) = false)
    (hdown : (base *. t.close /. (base *. t.close +. quote) <. cfg.alpha *. (lit F 1 -. cfg.epsilon)) = false) :
    ∀ o ∈ os, ¬ isMarket o := by
  obtain ⟨-, -, -, -, rfl⟩ := rebalancingUpdate_ok h
  unfold rebalancingOrders
  dsimp only
  rw [hup, hdown]
  simp only [Bool.false_eq_true, if_false]
  intro o ho
  split_ifs at ho <;> simp only [List.append_nil, List.nil_append, List.cons_append, List.mem_cons, List.not_mem_nil,
    or_false] at ho
  all_goals rcases ho with rfl | rfl <;> simp [isMarket, limitOrder]

end generic

section exact
variable {K : Type} [Field K] [LinearOrder K] [IsStrictOrderedRing K] [FloorRing K]

/-- The orders in exact arithmetic. -/
theorem rebalancingOrders_exact (cfg : RebalancingConfig K) (price base quote : K) :
    rebalancingOrders cfg price base quote =
      if cfg.alpha * (1 + cfg.epsilon) < allocation base quote price then
        [marketOrder .sell (((1 - cfg.alpha) * (base * price + quote) - quote) / price)]
      else if allocation base quote price < cfg.alpha * (1 - cfg.epsilon) then
        [marketOrder .buy ((quote - (1 - cfg.alpha) * (base * price + quote)) / price)]
      else if 1 / 1000000 < base ∧ 1 / 1000000 < quote then
        (if cfg.alpha * (1 + cfg.epsilon) < 1 then
          if price < cfg.alpha * (1 + cfg.epsilon) * quote / (1 - cfg.alpha * (1 + cfg.epsilon)) ∧
              cfg.alpha * (1 + cfg.epsilon) * quote / (1 - cfg.alpha * (1 + cfg.epsilon)) < 100 * price then
            [limitOrder .sell (base * cfg.epsilon / (1 + cfg.epsilon))
              (cfg.alpha * (1 + cfg.epsilon) * quote / (1 - cfg.alpha * (1 + cfg.epsilon)))]
          else []
        else []) ++
        (if cfg.alpha * (1 - cfg.epsilon) * quote / (1 - cfg.alpha * (1 - cfg.epsilon)) < price ∧
            price / 100 < cfg.alpha * (1 - cfg.epsilon) * quote / (1 - cfg.alpha * (1 - cfg.epsilon)) then
          [limitOrder .buy (base * cfg.epsilon / (1 - cfg.epsilon))
            (cfg.alpha * (1 - cfg.epsilon) * quote / (1 - cfg.alpha * (1 - cfg.epsilon)))]
        else [])
      else [] := by
  unfold rebalancingOrders allocation
  simp only [ex_add, ex_sub, ex_mul, ex_div, ex_lt, ex_ofRat, Rat.cast_one, Rat.cast_div, Rat.cast_ofNat,
    decide_eq_true_eq, Bool.and_eq_true]

/-- **C52**. With 0 ≤ alpha, 0 < epsilon < 1 and non-negative balances every order `Update` emits is valid. -/
theorem C52_orders_valid (cfg : RebalancingConfig K) (s s' : RebalancingState K) (t : OhlcTick K) (sg : List K)
    (base quote : K) (os : List (Order K)) (ha : 0 ≤ cfg.alpha) (he0 : 0 < cfg.epsilon) (he1 : cfg.epsilon < 1)
    (hb : 0 ≤ base) (hq : 0 ≤ quote)
    (h : rebalancingUpdate cfg s t sg base quote = .ok (s', os)) : ∀ o ∈ os, ValidOrder o := by
  obtain ⟨-, hp, hbq, -, rfl⟩ := rebalancingUpdate_ok h
  simp only [ex_lt, ex_ofRat, Rat.cast_zero, decide_eq_true_eq] at hp hbq
  have hV : 0 < base * t.close + quote := by
    rcases hbq with h | h
    · have := mul_pos h hp; linarith
    · have := mul_nonneg hb hp.le; linarith
  have market : ∀ sd (x : K), 0 < x → ValidOrder (marketOrder sd x) := fun sd x hx =>
    ⟨.market, sd, rfl, rfl, .inl rfl, x, by simpa using hx, .inl rfl⟩
  have limit : ∀ sd (x p : K), 0 < x → 0 < p → ValidOrder (limitOrder sd x p) := fun sd x p hx hp =>
    ⟨.limit, sd, rfl, rfl, .inr ⟨p, rfl, by simpa using hp⟩, x, by simpa using hx, .inl rfl⟩
  rw [rebalancingOrders_exact]
  unfold allocation
  intro o ho
  split_ifs at ho with h1 h2 h3 h4 h5 h6 h7 h8
  all_goals simp only [List.append_nil, List.nil_append, List.cons_append, List.mem_cons, List.not_mem_nil, or_false] at ho
  · subst ho
    refine market _ _ (div_pos ?_ hp)
    rw [lt_div_iff₀ hV] at h1
    have := mul_nonneg (mul_nonneg ha he0.le) hV.le
    nlinarith
  · subst ho
    refine market _ _ (div_pos ?_ hp)
    rw [div_lt_iff₀ hV] at h2
    have := mul_nonneg (mul_nonneg ha he0.le) hV.le
    nlinarith
  all_goals
    have hb' : 0 < base := lt_trans (by norm_num) h3.1
    have hs : 0 < base * cfg.epsilon / (1 + cfg.epsilon) := by positivity
    have hbu : 0 < base * cfg.epsilon / (1 - cfg.epsilon) := div_pos (by positivity) (by linarith)
    have hp100 : 0 < t.close / 100 := by positivity
    first
    | (rcases ho with rfl | rfl
       · exact limit _ _ _ hs (hp.trans h5.1)
       · exact limit _ _ _ hbu (hp100.trans h6.2))
    | (subst ho; exact limit _ _ _ hs (hp.trans h5.1))
    | (subst ho; exact limit _ _ _ hbu (hp100.trans h7.2))
    | (subst ho; exact limit _ _ _ hbu (hp100.trans h8.2))

/-- **C54** (exact arithmetic). A market order is emitted if and only if the allocation is outside the closed band: a
sell above it, a buy below it, and then it is the only order. -/
theorem C54_market_order_iff (cfg : RebalancingConfig K) (s s' : RebalancingState K) (t : OhlcTick K) (sg : List K)
    (base quote : K) (os : List (Order K)) (ha : 0 ≤ cfg.alpha) (he0 : 0 ≤ cfg.epsilon)
    (h : rebalancingUpdate cfg s t sg base quote = .ok (s', os)) :
    ((∃ x, os = [marketOrder .sell x]) ↔ cfg.alpha * (1 + cfg.epsilon) < allocation base quote t.close) ∧
    ((∃ x, os = [marketOrder .buy x]) ↔ allocation base quote t.close < cfg.alpha * (1 - cfg.epsilon)) ∧
    ((∃ o ∈ os, isMarket o) ↔ ¬ (cfg.alpha * (1 - cfg.epsilon) ≤ allocation base quote t.close ∧
      allocation base quote t.close ≤ cfg.alpha * (1 + cfg.epsilon))) := by
  obtain ⟨-, -, -, -, rfl⟩ := rebalancingUpdate_ok h
  have hband : cfg.alpha * (1 - cfg.epsilon) ≤ cfg.alpha * (1 + cfg.epsilon) :=
    mul_le_mul_of_nonneg_left (by linarith) ha
  generalize hbeta : allocation base quote t.close = beta at *
  by_cases h1 : cfg.alpha * (1 + cfg.epsilon) < beta
  · have e : rebalancingOrders cfg t.close base quote = [marketOrder .sell (((1 - cfg.alpha) * (base * t.close + quote) - quote) / t.close)] := by
      rw [rebalancingOrders_exact, hbeta, if_pos h1]
    have h2 : ¬ beta < cfg.alpha * (1 - cfg.epsilon) := by linarith
    rw [e]
    refine ⟨⟨fun _ => h1, fun _ => ⟨_, rfl⟩⟩, ⟨fun ⟨x, hx⟩ => ?_, fun hx => absurd hx h2⟩,
      ⟨fun _ hx => absurd h1 (not_lt.mpr hx.2), fun _ => ⟨_, List.mem_singleton.mpr rfl, rfl⟩⟩⟩
    simp [marketOrder] at hx
  · by_cases h2 : beta < cfg.alpha * (1 - cfg.epsilon)
    · have e : rebalancingOrders cfg t.close base quote = [marketOrder .buy ((quote - (1 - cfg.alpha) * (base * t.close + quote)) / t.close)] := by
        rw [rebalancingOrders_exact, hbeta, if_neg h1, if_pos h2]
      rw [e]
      refine ⟨⟨fun ⟨x, hx⟩ => ?_, fun hx => absurd hx h1⟩, ⟨fun _ => h2, fun _ => ⟨_, rfl⟩⟩,
        ⟨fun _ hx => absurd h2 (not_lt.mpr hx.1), fun _ => ⟨_, List.mem_singleton.mpr rfl, rfl⟩⟩⟩
      simp [marketOrder] at hx
    · have hno : ∀ o ∈ rebalancingOrders cfg t.close base quote, ¬ isMarket o := by
        refine C54_no_market_order_in_band cfg s s' t sg base quote _ h ?_ ?_
        · unfold allocation at hbeta
          simpa [hbeta] using h1
        · unfold allocation at hbeta
          simpa [hbeta] using h2
      refine ⟨⟨fun ⟨x, hx⟩ => ?_, fun hx => absurd hx h1⟩, ⟨fun ⟨x, hx⟩ => ?_, fun hx => absurd hx h2⟩,
        ⟨fun ⟨o, ho, hm⟩ => absurd hm (hno o ho), fun hx => absurd ⟨not_lt.mp h2, not_lt.mp h1⟩ hx⟩⟩
      · exact absurd rfl (hno (marketOrder .sell x) (by rw [hx]; simp))
      · exact absurd rfl (hno (marketOrder .buy x) (by rw [hx]; simp))

/-- **C53**. The amount of an emitted market order: selling (buying) exactly that much at the observed price, without
fees, leaves the portfolio value unchanged and makes the allocation exactly alpha; the trade is affordable. -/
theorem C53_restores_alpha (cfg : RebalancingConfig K) (s s' : RebalancingState K) (t : OhlcTick K) (sg : List K)
    (base quote : K) (os : List (Order K)) (hb : 0 ≤ base) (hq : 0 ≤ quote) (ha0 : 0 ≤ cfg.alpha)
    (ha1 : cfg.alpha ≤ 1)
    (h : rebalancingUpdate cfg s t sg base quote = .ok (s', os)) (x : K) :
    (os = [marketOrder .sell x] →
      allocation (base - x) (quote + x * t.close) t.close = cfg.alpha ∧ x ≤ base ∧
      (base - x) * t.close + (quote + x * t.close) = base * t.close + quote) ∧
    (os = [marketOrder .buy x] →
      allocation (base + x) (quote - x * t.close) t.close = cfg.alpha ∧ x * t.close ≤ quote ∧
      (base + x) * t.close + (quote - x * t.close) = base * t.close + quote) := by
  obtain ⟨-, hp, hbq, -, rfl⟩ := rebalancingUpdate_ok h
  simp only [ex_lt, ex_ofRat, Rat.cast_zero, decide_eq_true_eq] at hp hbq
  have hV : 0 < base * t.close + quote := by
    rcases hbq with h | h
    · have := mul_pos h hp; linarith
    · have := mul_nonneg hb hp.le; linarith
  have amount : ∀ sd, rebalancingOrders cfg t.close base quote = [marketOrder sd x] →
      (sd = .sell ∧ x * t.close = base * t.close - cfg.alpha * (base * t.close + quote)) ∨
      (sd = .buy ∧ x * t.close = cfg.alpha * (base * t.close + quote) - base * t.close) := by
    intro sd e
    rw [rebalancingOrders_exact] at e
    split_ifs at e <;> simp [marketOrder, limitOrder] at e
    · obtain ⟨rfl, rfl⟩ := e
      left; refine ⟨rfl, ?_⟩; rw [div_mul_cancel₀ _ hp.ne']; ring
    · obtain ⟨rfl, rfl⟩ := e
      right; refine ⟨rfl, ?_⟩; rw [div_mul_cancel₀ _ hp.ne']; ring
  constructor
  · intro e
    rcases amount _ e with ⟨-, hx⟩ | ⟨h, -⟩
    · refine ⟨?_, ?_, by ring⟩
      · unfold allocation
        rw [div_eq_iff (by rw [show (base - x) * t.close + (quote + x * t.close) = base * t.close + quote by ring]; exact hV.ne'),
          show (base - x) * t.close + (quote + x * t.close) = base * t.close + quote by ring, sub_mul, hx]
        ring
      · have : x * t.close ≤ base * t.close := by rw [hx]; have := mul_nonneg ha0 hV.le; linarith
        exact le_of_mul_le_mul_right this hp
    · cases h
  · intro e
    rcases amount _ e with ⟨h, -⟩ | ⟨-, hx⟩
    · cases h
    · refine ⟨?_, ?_, by ring⟩
      · unfold allocation
        rw [div_eq_iff (by rw [show (base + x) * t.close + (quote - x * t.close) = base * t.close + quote by ring]; exact hV.ne'),
          show (base + x) * t.close + (quote - x * t.close) = base * t.close + quote by ring, add_mul, hx]
        ring
      · rw [hx]
        have : cfg.alpha * (base * t.close + quote) ≤ 1 * (base * t.close + quote) :=
          mul_le_mul_of_nonneg_right ha1 hV.le
        linarith

/-- No fees. -/
def FreeOfFees (fc : FeeConfig K) : Prop := fc.relativeFee = 0 ∧ fc.fixedFee = 0 ∧ fc.minimumFee = 0

/-- **C53** (through the account). The emitted market order, executed by `ExecuteOrder` on a tick that opens at the
observed price, without fees, units and slippage, succeeds and leaves an account whose allocation is exactly alpha. -/
theorem C53_execution (cfg : RebalancingConfig K) (s s' : RebalancingState K) (t next : OhlcTick K) (sg : List K)
    (a : Account K) (c : AccountConfig K) (o : Order K) (hb : 0 ≤ a.baseBalance) (hq : 0 ≤ a.quoteBalance)
    (ha0 : 0 ≤ cfg.alpha) (ha1 : cfg.alpha ≤ 1) (he0 : 0 < cfg.epsilon) (he1 : cfg.epsilon < 1)
    (hfee : FreeOfFees c.marketFee) (hbu : a.baseUnit = 0) (hqu : a.quoteUnit = 0) (hl : a.marketLiquidity = 1)
    (hopen : next.opn = t.close) (hm : isMarket o)
    (h : rebalancingUpdate cfg s t sg a.baseBalance a.quoteBalance = .ok (s', [o])) :
    ∃ a', a.executeOrder c o next = .ok (true, a') ∧
      allocation a'.baseBalance a'.quoteBalance t.close = cfg.alpha ∧
      valueAt a' t.close = valueAt a t.close := by
  have hv : ValidOrder o := C52_orders_valid cfg s s' t sg _ _ _ ha0 he0 he1 hb hq h o (by simp)
  have hres := C53_restores_alpha cfg s s' t sg _ _ _ hb hq ha0 ha1 h
  obtain ⟨-, hp, -, -, hos⟩ := rebalancingUpdate_ok h
  have hp : 0 < t.close := by simpa using hp
  obtain ⟨sd, x, e⟩ : ∃ sd x, o = marketOrder sd x := by
    rcases rebalancingOrders_shape cfg t.close a.baseBalance a.quoteBalance with ⟨sd, x, e⟩ | ⟨sells, buys, e, hs, hb⟩
    · rw [e] at hos; exact ⟨sd, x, by simpa using hos⟩
    · exfalso
      rw [e] at hos
      rcases hs with rfl | ⟨x, p, rfl, -⟩ <;> rcases hb with rfl | ⟨y, q, rfl, -⟩ <;> simp at hos <;>
        simp [hos, isMarket, limitOrder] at hm
  subst e
  have hx : 0 < x := by
    obtain ⟨_, _, _, _, _, y, hy, hy'⟩ := hv
    have hy : 0 < y := by simpa using hy
    rcases hy' with hy' | hy' <;> simp [marketOrder] at hy'
    rwa [hy']
  have hround : ∀ y : K, roundUnit y (0 : K) = y := fun y => by simp [roundUnit]
  have hceil : ∀ y : K, ceilUnit y (0 : K) = y := fun y => by simp [ceilUnit]
  have hfloor : ∀ y : K, floorUnit y (0 : K) = y := fun y => by simp [floorUnit]
  have hfee' : ∀ q : K, a.getFee c.marketFee q = 0 := by
    intro q
    unfold Account.getFee
    rw [hqu, hceil, hfee.1, hfee.2.1, hfee.2.2]
    simp
  have hvb := (Account.isValidOrder_iff _).mpr hv
  unfold Account.executeOrder
  rw [hvb, assertThat_true]
  cases sd
  · obtain ⟨r1, r2, r3⟩ := (hres x).2 rfl
    simp only [marketOrder, bind, Except.bind, Account.marketBuy]
    have hpr : a.marketBuyPrice next = t.close := by simp [Account.marketBuyPrice, hl, hopen]
    rw [hpr, Account.buyBase_eq, if_pos (by simpa using hp), if_pos (by simpa using hx.le)]
    simp only [hbu, hqu, hround, hceil, hfee']
    rw [if_neg (by simpa using hx.le), if_neg (by simpa using r2)]
    refine ⟨_, rfl, ?_, ?_⟩
    · simp only [Account.afterBuy, hbu, hqu, hround, ex_add, ex_sub, ex_mul, add_zero]; exact r1
    · simp only [valueAt, Account.afterBuy, hbu, hqu, hround, ex_add, ex_sub, ex_mul, add_zero]; exact r3
  · obtain ⟨r1, r2, r3⟩ := (hres x).1 rfl
    simp only [marketOrder, bind, Except.bind, Account.marketSell]
    have hpr : a.marketSellPrice next = t.close := by simp [Account.marketSellPrice, hl, hopen]
    rw [hpr, Account.sellBase_eq, if_pos (by simpa using hp), if_pos (by simpa using hx.le)]
    simp only [hbu, hqu, hround, hfloor, hfee']
    rw [if_neg (by simp [hx.le, r2]), if_neg (by simpa using (mul_pos hx hp).le)]
    refine ⟨_, rfl, ?_, ?_⟩
    · simp only [Account.afterSell, hbu, hqu, hround, ex_add, ex_sub, ex_mul, sub_zero]; exact r1
    · simp only [valueAt, Account.afterSell, hbu, hqu, hround, ex_add, ex_sub, ex_mul, sub_zero]; exact r3

/-! ## C55 -/

/-- The limit orders in closed form. -/
theorem rebalancing_limit {cfg : RebalancingConfig K} {price base quote : K} {sd : Side} {x p : K}
    (h : limitOrder sd x p ∈ rebalancingOrders cfg price base quote) :
    1 / 1000000 < base ∧ 1 / 1000000 < quote ∧
    ((sd = .sell ∧ cfg.alpha * (1 + cfg.epsilon) < 1 ∧ x = base * cfg.epsilon / (1 + cfg.epsilon) ∧
      p = cfg.alpha * (1 + cfg.epsilon) * quote / (1 - cfg.alpha * (1 + cfg.epsilon))) ∨
     (sd = .buy ∧ x = base * cfg.epsilon / (1 - cfg.epsilon) ∧
      p = cfg.alpha * (1 - cfg.epsilon) * quote / (1 - cfg.alpha * (1 - cfg.epsilon)))) := by
  rw [rebalancingOrders_exact] at h
  split_ifs at h with h1 h2 h3 h4 h5 h6 h7 h8
  all_goals simp [marketOrder, limitOrder] at h
  · rcases h with ⟨rfl, rfl, rfl⟩ | ⟨rfl, rfl, rfl⟩
    · exact ⟨h3.1, h3.2, .inl ⟨rfl, h4, rfl, rfl⟩⟩
    · exact ⟨h3.1, h3.2, .inr ⟨rfl, rfl, rfl⟩⟩
  · obtain ⟨rfl, rfl, rfl⟩ := h
    exact ⟨h3.1, h3.2, .inl ⟨rfl, h4, rfl, rfl⟩⟩
  · obtain ⟨rfl, rfl, rfl⟩ := h
    exact ⟨h3.1, h3.2, .inr ⟨rfl, rfl, rfl⟩⟩
  · obtain ⟨rfl, rfl, rfl⟩ := h
    exact ⟨h3.1, h3.2, .inr ⟨rfl, rfl, rfl⟩⟩

/-- The price at which the allocation equals `e`. -/
theorem allocation_eq_iff {base quote p e : K} (hb : 0 < base) (hq : 0 < quote) (hp : 0 ≤ p) (he : e < 1) :
    allocation base quote p = e ↔ p = e * quote / (1 - e) / base := by
  have hV : 0 < base * p + quote := by positivity
  have h1e : 0 < 1 - e := by linarith
  unfold allocation
  rw [div_eq_iff hV.ne', eq_div_iff hb.ne', eq_div_iff h1e.ne']
  constructor <;> intro h <;> linarith

/-- **C55**. Limit prices: the emitted sell (buy) price is `base_balance` times the price at which the allocation
reaches the upper (lower) edge of the band, so it is that price if and only if the trader holds exactly one unit of base
currency. -/
theorem C55_limit_price_on_edge_iff (cfg : RebalancingConfig K) (s s' : RebalancingState K) (t : OhlcTick K)
    (sg : List K) (base quote : K) (os : List (Order K)) (ha : 0 < cfg.alpha) (ha1 : cfg.alpha < 1)
    (he0 : 0 < cfg.epsilon) (he1 : cfg.epsilon < 1)
    (h : rebalancingUpdate cfg s t sg base quote = .ok (s', os)) (sd : Side) (x p : K)
    (ho : limitOrder sd x p ∈ os) :
    allocation base quote (p / base) = bandEdge cfg.alpha cfg.epsilon sd ∧
    (allocation base quote p = bandEdge cfg.alpha cfg.epsilon sd ↔ base = 1) := by
  obtain ⟨edge, hedge⟩ : ∃ e, e = bandEdge cfg.alpha cfg.epsilon sd := ⟨_, rfl⟩
  rw [← hedge]
  obtain ⟨-, hp, -, -, rfl⟩ := rebalancingUpdate_ok h
  obtain ⟨h1, h2, h3⟩ := rebalancing_limit ho
  have hb : 0 < base := lt_trans (by norm_num) h1
  have hq : 0 < quote := lt_trans (by norm_num) h2
  have key : 0 < edge ∧ edge < 1 ∧ p = edge * quote / (1 - edge) := by
    rcases h3 with ⟨rfl, h4, -, h5⟩ | ⟨rfl, -, h5⟩
    · subst hedge
      exact ⟨mul_pos ha (by linarith), h4, h5⟩
    · subst hedge
      exact ⟨mul_pos ha (by linarith), by unfold bandEdge; nlinarith, h5⟩
  obtain ⟨k0, k1, k2⟩ := key
  have hp0 : 0 < p := by rw [k2]; exact div_pos (by positivity) (by linarith)
  constructor
  · rw [allocation_eq_iff hb hq (by positivity) k1, k2]
  · rw [allocation_eq_iff hb hq hp0.le k1, ← k2, eq_div_iff hb.ne']
    constructor
    · intro h
      have : p * (base - 1) = 0 := by linarith
      rcases mul_eq_zero.mp this with h' | h'
      · exact absurd h' hp0.ne'
      · linarith
    · rintro rfl; ring

/-- **C55** (the amounts). Filling a limit order at the price where the allocation is on the edge restores alpha
exactly; for the emitted orders that is the emitted price divided by `base_balance`. -/
theorem C55_limit_amount_restores_alpha (cfg : RebalancingConfig K) (s s' : RebalancingState K) (t : OhlcTick K)
    (sg : List K) (base quote : K) (os : List (Order K)) (ha : 0 < cfg.alpha) (ha1 : cfg.alpha < 1)
    (he0 : 0 < cfg.epsilon) (he1 : cfg.epsilon < 1)
    (h : rebalancingUpdate cfg s t sg base quote = .ok (s', os)) (x p : K) :
    (limitOrder .sell x p ∈ os →
      allocation (base - x) (quote + x * (p / base)) (p / base) = cfg.alpha) ∧
    (limitOrder .buy x p ∈ os →
      allocation (base + x) (quote - x * (p / base)) (p / base) = cfg.alpha) := by
  have edge : ∀ sd, limitOrder sd x p ∈ os →
      allocation base quote (p / base) = bandEdge cfg.alpha cfg.epsilon sd := fun sd ho =>
    (C55_limit_price_on_edge_iff cfg s s' t sg base quote os ha ha1 he0 he1 h sd x p ho).1
  obtain ⟨-, -, -, -, rfl⟩ := rebalancingUpdate_ok h
  have scale : ∀ (b q e : K), 0 < b → allocation base quote q = e → 0 < base * q + quote →
      base * q = e * (base * q + quote) := by
    intro b q e _ he hV
    unfold allocation at he
    rwa [div_eq_iff hV.ne'] at he
  have pos : ∀ sd, limitOrder sd x p ∈ rebalancingOrders cfg t.close base quote →
      0 < base ∧ 0 < base * (p / base) + quote := by
    intro sd ho
    obtain ⟨h1, h2, h3⟩ := rebalancing_limit ho
    have hb : 0 < base := lt_trans (by norm_num) h1
    have hq : 0 < quote := lt_trans (by norm_num) h2
    have hp : 0 < p := by
      rcases h3 with ⟨-, h4, -, h5⟩ | ⟨-, -, h5⟩ <;> rw [h5]
      · exact div_pos (by positivity) (by linarith)
      · exact div_pos (mul_pos (mul_pos ha (by linarith)) hq) (by nlinarith)
    exact ⟨hb, by positivity⟩
  constructor
  · intro ho
    obtain ⟨hb, hV⟩ := pos _ ho
    have hE := scale base (p / base) _ hb (edge _ ho) hV
    obtain ⟨-, -, ⟨-, -, hx, -⟩ | ⟨h, -⟩⟩ := rebalancing_limit ho
    · generalize p / base = q at *
      unfold allocation
      have e1 : (base - x) * q + (quote + x * q) = base * q + quote := by ring
      have hbx : (base - x) * (1 + cfg.epsilon) = base := by
        rw [hx]; have : (1 + cfg.epsilon) ≠ 0 := by positivity
        field_simp; ring
      rw [e1, div_eq_iff hV.ne']
      have h1e : (0 : K) < 1 + cfg.epsilon := by positivity
      refine mul_right_cancel₀ h1e.ne' ?_
      calc (base - x) * q * (1 + cfg.epsilon) = (base - x) * (1 + cfg.epsilon) * q := by ring
        _ = base * q := by rw [hbx]
        _ = _ := hE
        _ = _ := by rw [bandEdge]; ring
    · cases h
  · intro ho
    obtain ⟨hb, hV⟩ := pos _ ho
    have hE := scale base (p / base) _ hb (edge _ ho) hV
    obtain ⟨-, -, ⟨h, -⟩ | ⟨-, hx, -⟩⟩ := rebalancing_limit ho
    · cases h
    · generalize p / base = q at *
      unfold allocation
      have e1 : (base + x) * q + (quote - x * q) = base * q + quote := by ring
      have h1e : (0 : K) < 1 - cfg.epsilon := by linarith
      have hbx : (base + x) * (1 - cfg.epsilon) = base := by
        rw [hx, add_mul, div_mul_cancel₀ _ h1e.ne']; ring
      rw [e1, div_eq_iff hV.ne']
      refine mul_right_cancel₀ h1e.ne' ?_
      calc (base + x) * q * (1 - cfg.epsilon) = (base + x) * (1 - cfg.epsilon) * q := by ring
        _ = base * q := by rw [hbx]
        _ = _ := hE
        _ = _ := by rw [bandEdge]; ring

end exact

/-! ## Examples -/

/-- A config, and ticks that put a trader holding 1 base unit and 100 quote units above, below and inside the band. -/
abbrev rbCfg : RebalancingConfig ℚ := ⟨1 / 2, 1 / 10⟩
abbrev rbTick (price : ℚ) : OhlcTick ℚ := ⟨300, price, price, price, price, 1⟩

/-- All three kinds of outcomes occur: market sell, market buy, a pair of limit orders. -/
example :
    rebalancingUpdate rbCfg .init (rbTick 300) [] 1 100 = .ok (⟨1, 100, 300, 300⟩, [marketOrder .sell (1 / 3)]) ∧
    rebalancingUpdate rbCfg .init (rbTick 50) [] 1 100 = .ok (⟨1, 100, 300, 50⟩, [marketOrder .buy (1 / 2)]) ∧
    rebalancingUpdate rbCfg .init (rbTick 100) [] 1 100 = .ok (⟨1, 100, 300, 100⟩,
      [limitOrder .sell (1 / 11) (1100 / 9), limitOrder .buy (1 / 9) (900 / 11)]) := by
  decide +kernel

/-- **C55**, concretely: with 2 base units worth 100 each and 200 quote units the allocation is in the middle of the
band, the band would be left when the price rises to 122.22, but the limit sell is placed at 244.44. -/
example :
    rebalancingUpdate rbCfg .init (rbTick 100) [] 2 200 = .ok (⟨2, 200, 300, 100⟩,
      [limitOrder .sell (2 / 11) (2200 / 9)]) ∧
    allocation (2 : ℚ) 200 (1100 / 9) = 1 / 2 * (1 + 1 / 10) ∧ allocation (2 : ℚ) 200 (2200 / 9) = 22 / 31 := by
  refine ⟨by decide +kernel, ?_, ?_⟩ <;> norm_num [allocation]

/-- Hypotheses of `C53_execution` are met: the account of the first example without fees and units. -/
example : ∃ (a : Account ℚ) (c : AccountConfig ℚ) (s' : RebalancingState ℚ) (o : Order ℚ),
    FreeOfFees c.marketFee ∧ a.baseUnit = 0 ∧ a.quoteUnit = 0 ∧ a.marketLiquidity = 1 ∧ isMarket o ∧
    rebalancingUpdate rbCfg .init (rbTick 300) [] a.baseBalance a.quoteBalance = .ok (s', [o]) :=
  ⟨⟨1, 100, 0, 0, 0, 1, 0⟩, ⟨1, 100, 0, 0, ⟨0, 0, 0⟩, ⟨0, 0, 0⟩, ⟨0, 0, 0⟩, 1, 0⟩, ⟨1, 100, 300, 300⟩,
    marketOrder .sell (1 / 3), ⟨rfl, rfl, rfl⟩, rfl, rfl, rfl, rfl, by decide +kernel⟩

end Verif.Props
