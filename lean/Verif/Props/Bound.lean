import Verif.Props.Settlement
import Verif.Props.BacktestAccount

/-!
# C115: the range of prices bounds every gain

Whatever a trader does, it cannot gain more than the prices allow: nothing at all on a flat or falling market, and at most the ratio of the highest to the lowest price
with every purchase.
-/

namespace Verif.Spec
/-- A configuration on which trading can only cost: balances and units are not negative, the starting balances are on the currency grids, the liquidity is a share
between 0 and 1 and no minimum fee is negative. -/
structure SoundConfig {K : Type} [Field K] [LinearOrder K] [IsStrictOrderedRing K] (c : AccountConfig K) : Prop where
  startBase : 0 ≤ c.startBase
  startQuote : 0 ≤ c.startQuote
  baseUnit : 0 ≤ c.baseUnit
  quoteUnit : 0 ≤ c.quoteUnit
  baseGrid : 0 < c.baseUnit → IsMultiple c.baseUnit c.startBase
  quoteGrid : 0 < c.quoteUnit → IsMultiple c.quoteUnit c.startQuote
  liquidity : 0 ≤ c.marketLiquidity ∧ c.marketLiquidity ≤ 1
  fees : ∀ ty, 0 ≤ (feeFor c ty).minimumFee

/-- The executed orders that bought. -/
def purchases {F : Type} (trace : List (Event F)) : ℕ := ((executions trace).filter fun x => x.2.2.side == some .buy).length
end Verif.Spec

namespace Verif.Props.Bound
open FloatOps Spec

section account
variable {K : Type} [Field K] [LinearOrder K] [IsStrictOrderedRing K] [FloorRing K]

/-- What holds for the account at every moment. -/
structure Healthy (c : AccountConfig K) (a : Account K) : Prop where
  grid : OnGrid a
  base : 0 ≤ a.baseBalance
  quote : 0 ≤ a.quoteBalance
  units : a.baseUnit = c.baseUnit ∧ a.quoteUnit = c.quoteUnit
  liquidity : a.marketLiquidity = c.marketLiquidity

theorem healthy_init {c : AccountConfig K} (hc : SoundConfig c) : Healthy c (Account.init c) :=
  ⟨⟨hc.baseGrid, hc.quoteGrid, fun _ => ⟨0, by simp [Account.init, lit]⟩⟩, hc.startBase, hc.startQuote, ⟨rfl, rfl⟩, rfl⟩

theorem buyPrice_ge {l : K} (h0 : 0 ≤ l) (h1 : l ≤ 1) {t : OhlcTick K} (hlo : t.low ≤ t.opn) (hoh : t.opn ≤ t.high) {price : K} {ty : OrderType}
    (hn : notReached t price ty .buy = false) : t.low ≤ execPrice l t price ty .buy := by
  have e1 : lit K 1 = (1 : K) := by simp [lit]
  cases ty
  · simp only [execPrice, interp, ex_add, ex_mul, ex_sub, e1]
    nlinarith
  · simp only [execPrice, interp, ex_add, ex_mul, ex_sub, e1, ex_fmax]
    have := le_max_right price t.opn
    nlinarith
  · simpa [notReached, execPrice] using hn

theorem sellPrice_le {l : K} (h0 : 0 ≤ l) (h1 : l ≤ 1) {t : OhlcTick K} (hlo : t.low ≤ t.opn) (hoh : t.opn ≤ t.high) {price : K} {ty : OrderType}
    (hn : notReached t price ty .sell = false) : execPrice l t price ty .sell ≤ t.high := by
  have e1 : lit K 1 = (1 : K) := by simp [lit]
  cases ty
  · simp only [execPrice, interp, ex_add, ex_mul, ex_sub, e1]
    nlinarith
  · simp only [execPrice, interp, ex_add, ex_mul, ex_sub, e1, ex_fmin]
    have := min_le_right price t.opn
    nlinarith
  · simpa [notReached, execPrice] using hn

/-- One order: nothing changes, or it buys at no less than the low, or it sells at no more than the high, and at that price no money is created. -/
theorem order_step {c : AccountConfig K} (hc : SoundConfig c) {a a' : Account K} (ha : Healthy c a) {o : Order K} {t : OhlcTick K} (hlo : t.low ≤ t.opn)
    (hoh : t.opn ≤ t.high) {ok : Bool} (h : a.executeOrder c o t = .ok (ok, a')) :
    Healthy c a' ∧ ((ok = false ∧ a' = a) ∨ (ok = true ∧ ∃ p, 0 < p ∧ valueAt a' p ≤ valueAt a p ∧
      ((o.side = some .buy ∧ t.low ≤ p ∧ a.baseBalance ≤ a'.baseBalance) ∨ (o.side = some .sell ∧ p ≤ t.high ∧ a'.baseBalance ≤ a.baseBalance)))) := by
  have hrun : runOrders c a [(o, t)] = .ok a' := by simp only [runOrders, h, bind, Except.bind]
  have hnn := C02_balances_never_negative c [(o, t)] a a' (by rw [ha.units.1]; simpa [lit] using hc.baseUnit) (by rw [ha.units.2]; simpa [lit] using hc.quoteUnit)
    (by simpa [NotBelowZero, lit] using ha.base) (by simpa [NotBelowZero, lit] using ha.quote) hrun
  have hnn' : 0 ≤ a'.baseBalance ∧ 0 ≤ a'.quoteBalance := by simpa [NotBelowZero, lit] using hnn
  have h' := h
  rcases Account.executeOrder_ok a h with ⟨rfl, rfl⟩ | ⟨rfl, ty, sd, b, hty, hsd, hn, hcase⟩
  · exact ⟨ha, .inl ⟨rfl, rfl⟩⟩
  have hval := (C05_no_free_money a a' c o t ty sd hty hsd ha.grid h').2 (hc.fees ty)
  have hgrid := C03_onGrid_step a a' c o t true ha.grid h'
  have hl := hc.liquidity
  rw [← ha.liquidity] at hl
  have hself : roundUnit a.baseBalance a.baseUnit = a.baseBalance := roundUnit_of_multiple ha.grid.base
  rcases hcase with ⟨rfl, hb⟩ | ⟨rfl, hb⟩
  · obtain ⟨hp, hb0, hb⟩ := a.buyBase_cases hb
    rcases hb with ⟨hb, -⟩ | ⟨-, -, q, fee, -, -, -, rfl⟩
    · cases hb
    refine ⟨⟨hgrid, hnn'.1, hnn'.2, ha.units, ha.liquidity⟩, .inr ⟨rfl, _, by simpa [lit] using hp, hval.1, .inl ⟨hsd, buyPrice_ge hl.1 hl.2 hlo hoh hn, ?_⟩⟩⟩
    have hb0 : 0 ≤ b := by simpa [lit] using hb0
    have : roundUnit a.baseBalance a.baseUnit ≤ roundUnit (a.baseBalance + roundUnit b a.baseUnit) a.baseUnit :=
      roundUnit_mono _ (by have := roundUnit_nonneg (u := a.baseUnit) hb0; linarith)
    rw [hself] at this
    exact this
  · obtain ⟨hp, hb0, hb⟩ := a.sellBase_cases hb
    rcases hb with ⟨hb, -⟩ | ⟨-, -, -, q, fee, -, -, -, rfl⟩
    · cases hb
    refine ⟨⟨hgrid, hnn'.1, hnn'.2, ha.units, ha.liquidity⟩, .inr ⟨rfl, _, by simpa [lit] using hp, hval.1, .inr ⟨hsd, sellPrice_le hl.1 hl.2 hlo hoh hn, ?_⟩⟩⟩
    have hb0 : 0 ≤ b := by simpa [lit] using hb0
    have : roundUnit (a.baseBalance - roundUnit b a.baseUnit) a.baseUnit ≤ roundUnit a.baseBalance a.baseUnit :=
      roundUnit_mono _ (by have := roundUnit_nonneg (u := a.baseUnit) hb0; linarith)
    rw [hself] at this
    exact this

/-- Valued at the highest price, a sale gains nothing and a purchase at most the ratio of the prices. -/
theorem value_step {c : AccountConfig K} (hc : SoundConfig c) {a a' : Account K} (ha : Healthy c a) {o : Order K} {t : OhlcTick K} {m M : K} (hm : 0 < m)
    (hlo : t.low ≤ t.opn) (hoh : t.opn ≤ t.high) (hml : m ≤ t.low) (hhM : t.high ≤ M) {ok : Bool} (h : a.executeOrder c o t = .ok (ok, a')) :
    Healthy c a' ∧ valueAt a' M ≤ valueAt a M * (M / m) ^ (if ok = true ∧ o.side = some .buy then 1 else 0) := by
  obtain ⟨h1, h2⟩ := order_step hc ha hlo hoh h
  refine ⟨h1, ?_⟩
  have hM : 0 < M := by linarith
  rcases h2 with ⟨rfl, rfl⟩ | ⟨rfl, p, hp, hv, ⟨hs, hlp, hbb⟩ | ⟨hs, hph, hbb⟩⟩
  · simp
  · simp only [hs, and_self, if_true, pow_one]
    have b0 := h1.base; have q0 := h1.quote; have b1 := ha.base; have q1 := ha.quote
    simp only [valueAt] at hv ⊢
    have hmp : m ≤ p := hml.trans hlp
    have hV : 0 ≤ a.baseBalance * M + a.quoteBalance := by positivity
    rcases le_total M p with hMp | hMp
    · have h3 : a'.baseBalance * M + a'.quoteBalance ≤ a.baseBalance * M + a.quoteBalance := by nlinarith
      have h4 : 1 ≤ M / m := by rw [le_div_iff₀ hm]; linarith
      nlinarith
    · have h3 : (a'.baseBalance * M + a'.quoteBalance) * p ≤ M * (a'.baseBalance * p + a'.quoteBalance) := by nlinarith
      have h4 : M * (a'.baseBalance * p + a'.quoteBalance) ≤ M * (a.baseBalance * p + a.quoteBalance) := mul_le_mul_of_nonneg_left hv hM.le
      have h5 : M * (a.baseBalance * p + a.quoteBalance) ≤ M * (a.baseBalance * M + a.quoteBalance) := by
        refine mul_le_mul_of_nonneg_left ?_ hM.le
        nlinarith
      have h6 : a'.baseBalance * M + a'.quoteBalance ≤ (M * (a.baseBalance * M + a.quoteBalance)) / p := by
        rw [le_div_iff₀ hp]; linarith
      have h7 : (M * (a.baseBalance * M + a.quoteBalance)) / p ≤ (M * (a.baseBalance * M + a.quoteBalance)) / m :=
        div_le_div_of_nonneg_left (mul_nonneg hM.le hV) hm hmp
      calc _ ≤ _ := h6
        _ ≤ _ := h7
        _ = _ := by field_simp
  · have hne : ¬ (True ∧ o.side = some .buy) := by rw [hs]; simp
    simp only [hs, reduceCtorEq, and_false, if_false, pow_zero, mul_one, Option.some.injEq]
    simp only [valueAt] at hv ⊢
    nlinarith

/-- Orders on one flat tick gain nothing. -/
theorem round_flat {c : AccountConfig K} (hc : SoundConfig c) (t : OhlcTick K) (h0 : 0 < t.close) (ho : t.opn = t.close) (hh : t.high = t.close) (hl : t.low = t.close)
    (os : List (Order K)) : ∀ a a' : Account K, Healthy c a → runOrders c a (os.map fun o => (o, t)) = .ok a' →
      Healthy c a' ∧ valueAt a' t.close ≤ valueAt a t.close := by
  induction os with
  | nil => intro a a' ha h; cases h; exact ⟨ha, le_rfl⟩
  | cons o os ih =>
    intro a a' ha h
    simp only [List.map_cons, runOrders] at h
    cases hx : a.executeOrder c o t with
    | error e => rw [hx] at h; cases h
    | ok r =>
      rw [hx] at h
      obtain ⟨ok, a1⟩ := r
      obtain ⟨h1, h2⟩ := value_step hc ha h0 (by rw [hl, ho]) (by rw [hh, ho]) hl.ge hh.le hx
      obtain ⟨h3, h4⟩ := ih a1 a' h1 h
      rw [div_self h0.ne', one_pow, mul_one] at h2
      exact ⟨h3, h4.trans h2⟩

theorem runOrders_append (c : AccountConfig K) (x y : List (Order K × OhlcTick K)) (a a' : Account K) (h : runOrders c a (x ++ y) = .ok a') :
    ∃ b, runOrders c a x = .ok b ∧ runOrders c b y = .ok a' := by
  induction x generalizing a with
  | nil => exact ⟨a, rfl, h⟩
  | cons z x ih =>
    obtain ⟨o, t⟩ := z
    simp only [List.cons_append, runOrders] at h ⊢
    cases hx : a.executeOrder c o t with
    | error e => rw [hx] at h; cases h
    | ok r => rw [hx] at h; exact ih r.2 h

/-- Orders on flat ticks with falling prices gain nothing. -/
theorem falling_run {c : AccountConfig K} (hc : SoundConfig c) (rounds : List (OhlcTick K × List (Order K))) :
    ∀ (a a' : Account K) (p0 pe : K), Healthy c a →
      (∀ x ∈ rounds, 0 < x.1.close ∧ x.1.opn = x.1.close ∧ x.1.high = x.1.close ∧ x.1.low = x.1.close) →
      rounds.Pairwise (fun x y => y.1.close ≤ x.1.close) → pe ≤ p0 → (∀ x ∈ rounds, x.1.close ≤ p0) → (∀ x ∈ rounds, pe ≤ x.1.close) →
      runOrders c a (rounds.map fun x => x.2.map fun o => (o, x.1)).flatten = .ok a' → valueAt a' pe ≤ valueAt a p0 := by
  induction rounds with
  | nil =>
    intro a a' p0 pe ha _ _ hp _ _ h
    cases h
    have := ha.base
    simp only [valueAt]
    nlinarith
  | cons x rounds ih =>
    intro a a' p0 pe ha hflat hpw hp h0 he h
    rw [List.map_cons, List.flatten_cons] at h
    obtain ⟨b, h1, h2⟩ := runOrders_append c _ _ a a' h
    obtain ⟨f1, f2, f3, f4⟩ := hflat x (by simp)
    obtain ⟨hb, hv⟩ := round_flat hc x.1 f1 f2 f3 f4 x.2 a b ha h1
    have h3 := ih b a' x.1.close pe hb (fun y hy => hflat y (by simp [hy])) (List.pairwise_cons.mp hpw).2 (he x (by simp))
      (fun y hy => (List.pairwise_cons.mp hpw).1 y hy) (fun y hy => he y (by simp [hy])) h2
    refine h3.trans (hv.trans ?_)
    have := ha.base
    have := h0 x (by simp)
    simp only [valueAt]
    nlinarith

end account

section runs
variable {K : Type} [Field K] [LinearOrder K] [IsStrictOrderedRing K] [FloorRing K] [Libm K]
variable {recs : Option (List (SideInputRecord K))} {side : Option (SideInput K)}

theorem exec_tick_mem (hside : SideOf recs side) (c : AccountConfig K) (ticks : List (OhlcTick K)) (fast : Bool) (T : Trader K) (init : T.State) (log : Bool)
    {r : ExecutionResult K} (hr : (executeTrader c ticks side fast T init log).out = .ok r) {t : OhlcTick K} {o : Order K} {x}
    (h : Event.exec t o x ∈ (executeTrader c ticks side fast T init log).trace) : t ∈ ticks := by
  obtain ⟨segs, hlen, hflat, hg⟩ := C29_rounds hside c ticks fast T init log hr
  rw [hflat, List.mem_flatten] at h
  obtain ⟨seg, hs, hx⟩ := h
  obtain ⟨i, hi, rfl⟩ := List.mem_iff_getElem.mp hs
  have ha := (hg i hi (by omega)).attempts
  have hm : (t, o) ∈ attempts segs[i] := List.mem_filterMap.mpr ⟨_, hx, rfl⟩
  rw [ha, List.mem_map] at hm
  obtain ⟨_, -, he⟩ := hm
  cases he
  exact List.getElem_mem _

/-- Valued at the highest price, the account at any moment. -/
theorem bound_at (hside : SideOf recs side) {c : AccountConfig K} (hc : SoundConfig c) (ticks : List (OhlcTick K)) (fast : Bool) (T : Trader K) (init : T.State) (log : Bool)
    {r : ExecutionResult K} (hr : (executeTrader c ticks side fast T init log).out = .ok r) {m M : K} (hm : 0 < m)
    (ht : ∀ t ∈ ticks, m ≤ t.low ∧ t.low ≤ t.opn ∧ t.opn ≤ t.high ∧ t.high ≤ M) (before after : List (Event K))
    (htr : (executeTrader c ticks side fast T init log).trace = before ++ after) :
    Healthy c (accountAfter c before) ∧ valueAt (accountAfter c before) M ≤ (c.startBase * M + c.startQuote) * (M / m) ^ purchases before := by
  have hstory := C32_story hside c ticks fast T init log
  induction before using List.reverseRecOn generalizing after with
  | nil => exact ⟨healthy_init hc, by simp [purchases, executions, accountAfter, valueAt, Account.init]⟩
  | append_singleton l ev ih =>
    obtain ⟨ih1, ih2⟩ := ih (ev :: after) (by rw [htr]; simp)
    have hev := hstory l ev after (by rw [htr]; simp)
    have hother : ∀ (_ : accountAfter c (l ++ [ev]) = accountAfter c l) (_ : purchases (l ++ [ev]) = purchases l), 
        Healthy c (accountAfter c (l ++ [ev])) ∧ valueAt (accountAfter c (l ++ [ev])) M ≤ (c.startBase * M + c.startQuote) * (M / m) ^ purchases (l ++ [ev]) := by
      intro h1 h2; rw [h1, h2]; exact ⟨ih1, ih2⟩
    cases ev with
    | exec t o x =>
      have hev : x = (accountAfter c l).executeOrder c o t := hev
      have hmem : t ∈ ticks := exec_tick_mem hside c ticks fast T init log hr (x := x) (o := o) (by rw [htr]; simp)
      obtain ⟨t1, t2, t3, t4⟩ := ht t hmem
      cases x with
      | error e => exact hother (by simp [accountAfter]) (by simp [purchases, executions])
      | ok y =>
        obtain ⟨ok, a'⟩ := y
        have ha' : accountAfter c (l ++ [Event.exec t o (.ok (ok, a'))]) = a' := by simp [accountAfter]
        obtain ⟨h1, h2⟩ := value_step hc ih1 hm t2 t3 t1 t4 hev.symm
        rw [ha']
        refine ⟨h1, h2.trans ?_⟩
        have hp : purchases (l ++ [Event.exec t o (.ok (ok, a'))]) = purchases l + (if ok = true ∧ o.side = some .buy then 1 else 0) := by
          unfold purchases executions
          rw [List.filterMap_append, List.filter_append, List.length_append]
          cases ok
          · simp
          · by_cases hs : o.side = some .buy
            · simp [hs]
            · simp [hs]
        rw [hp, pow_add, ← mul_assoc]
        have hM : 0 < M := by linarith
        exact mul_le_mul_of_nonneg_right ih2 (pow_nonneg (div_nonneg hM.le hm.le) _)
    | update t sg b q x => exact hother (by simp [accountAfter]) (by simp [purchases, executions])
    | tickRow t a => exact hother (by simp [accountAfter]) (by simp [purchases, executions])
    | orderRow t a o => exact hother (by simp [accountAfter]) (by simp [purchases, executions])
    | traderRow x => exact hother (by simp [accountAfter]) (by simp [purchases, executions])

/-- **C115** (the bound). With all prices between `m` and `M`, no trader ends with more than its starting balances valued at `M`, times `M / m` for every executed
purchase. -/
theorem C115_bound (hside : SideOf recs side) (c : AccountConfig K) (hc : SoundConfig c) (ticks : List (OhlcTick K)) (hne : ticks ≠ []) (fast : Bool) (T : Trader K)
    (init : T.State) (log : Bool) (m M : K) (hm : 0 < m)
    (ht : ∀ t ∈ ticks, m ≤ t.low ∧ t.low ≤ t.opn ∧ t.opn ≤ t.high ∧ t.high ≤ M ∧ t.close ≤ t.high)
    {r : ExecutionResult K} (hr : (executeTrader c ticks side fast T init log).out = .ok r) :
    r.endValue ≤ (r.startBase * M + r.startQuote) * (M / m) ^ purchases (executeTrader c ticks side fast T init log).trace := by
  obtain ⟨h1, h2⟩ := bound_at hside hc ticks fast T init log hr hm (fun t h => ⟨(ht t h).1, (ht t h).2.1, (ht t h).2.2.1, (ht t h).2.2.2.1⟩)
    (executeTrader c ticks side fast T init log).trace [] (List.append_nil _).symm
  obtain ⟨e1, e2, e3, e4, -, e6, e7, e8, e9, -⟩ := C33_result hside c ticks hne fast T init log hr
  rw [e1, e2]
  refine le_trans ?_ h2
  rw [e9, e3, e4, e7]
  have := ht _ (List.getLast_mem hne)
  have := h1.base
  simp only [valueAt, ex_add, ex_mul]
  nlinarith

/-- **C115** (the bound, in reported figures). The gain is at most `M / m` per executed order, and once more for what was held from the start. -/
theorem C115_gain (hside : SideOf recs side) (c : AccountConfig K) (hc : SoundConfig c) (ticks : List (OhlcTick K)) (hne : ticks ≠ []) (fast : Bool) (T : Trader K)
    (init : T.State) (log : Bool) (m M : K) (hm : 0 < m)
    (ht : ∀ t ∈ ticks, m ≤ t.low ∧ t.low ≤ t.opn ∧ t.opn ≤ t.high ∧ t.high ≤ M ∧ t.low ≤ t.close ∧ t.close ≤ t.high)
    {r : ExecutionResult K} (hr : (executeTrader c ticks side fast T init log).out = .ok r) :
    r.endValue ≤ r.startValue * (M / m) ^ (r.totalExecutedOrders + 1) := by
  have h := C115_bound hside c hc ticks hne fast T init log m M hm (fun t h => ⟨(ht t h).1, (ht t h).2.1, (ht t h).2.2.1, (ht t h).2.2.2.1, (ht t h).2.2.2.2.2⟩) hr
  obtain ⟨e1, e2, e3, e4, -, e6, e7, e8, e9, e10, -⟩ := C33_result hside c ticks hne fast T init log hr
  have hf := ht _ (List.head_mem hne)
  have hM : 0 < M := by linarith
  have hk1 : 1 ≤ M / m := by rw [le_div_iff₀ hm]; linarith
  have hb := hc.startBase; have hq := hc.startQuote
  rw [← e1] at hb; rw [← e2] at hq
  have hs : r.startBase * M + r.startQuote ≤ r.startValue * (M / m) := by
    rw [e8, e6]
    simp only [ex_add, ex_mul]
    rw [mul_div_assoc', le_div_iff₀ hm]
    have : r.startBase * m ≤ (ticks.head hne).close * r.startBase := by nlinarith
    nlinarith
  have hpow : (M / m) ^ purchases (executeTrader c ticks side fast T init log).trace ≤ (M / m) ^ r.totalExecutedOrders := by
    refine pow_le_pow_right₀ hk1 ?_
    rw [e10]; exact List.length_filter_le _ _
  have h0 : 0 ≤ r.startBase * M + r.startQuote := by positivity
  calc r.endValue ≤ _ := h
    _ ≤ (r.startBase * M + r.startQuote) * (M / m) ^ r.totalExecutedOrders := mul_le_mul_of_nonneg_left hpow h0
    _ ≤ (r.startValue * (M / m)) * (M / m) ^ r.totalExecutedOrders := mul_le_mul_of_nonneg_right hs (by positivity)
    _ = _ := by rw [pow_succ]; ring

/-- **C115** (flat and falling markets). If every tick has a single price and the prices never rise, no trader ends with more than it started with. -/
theorem C115_falling (hside : SideOf recs side) (c : AccountConfig K) (hc : SoundConfig c) (ticks : List (OhlcTick K)) (hne : ticks ≠ []) (fast : Bool) (T : Trader K)
    (init : T.State) (log : Bool) (hflat : ∀ t ∈ ticks, 0 < t.close ∧ t.opn = t.close ∧ t.high = t.close ∧ t.low = t.close)
    (hfall : ticks.Pairwise fun s t => t.close ≤ s.close)
    {r : ExecutionResult K} (hr : (executeTrader c ticks side fast T init log).out = .ok r) : r.endValue ≤ r.startValue := by
  obtain ⟨segs, hlen, hsegs, hg⟩ := C29_rounds hside c ticks fast T init log hr
  obtain ⟨a, ha, h3, h4, -⟩ := C74_final hside c ticks hne fast T init log hr
  obtain ⟨e1, e2, -, -, -, e6, e7, e8, e9, -⟩ := C33_result hside c ticks hne fast T init log hr
  -- the rounds
  have hatt : ∃ rounds : List (OhlcTick K × List (Order K)), rounds.map (·.1) = ticks ∧
      (attempts (executeTrader c ticks side fast T init log).trace).map (fun x => (x.2, x.1)) = (rounds.map fun x => x.2.map fun o => (o, x.1)).flatten := by
    rw [hsegs]
    clear hsegs ha hr hne e1 e2 e6 e7 e8 e9 h3 h4 hfall hflat
    have key : ∀ (segs : List (List (Event K))) (ticks : List (OhlcTick K)), segs.length = ticks.length →
        (∀ (i : ℕ) (h1 : i < segs.length) (h2 : i < ticks.length), ∃ os : List (Order K), attempts segs[i] = os.map fun o => (ticks[i], o)) →
        ∃ rounds : List (OhlcTick K × List (Order K)), rounds.map (·.1) = ticks ∧
          (attempts segs.flatten).map (fun x => (x.2, x.1)) = (rounds.map fun x => x.2.map fun o => (o, x.1)).flatten := by
      intro segs
      induction segs with
      | nil => intro ticks hl _; cases ticks with
        | nil => exact ⟨[], rfl, rfl⟩
        | cons t ts => simp at hl
      | cons s segs ih =>
        intro ticks hl h
        cases ticks with
        | nil => simp at hl
        | cons t ts =>
          obtain ⟨rounds, hr1, hr2⟩ := ih ts (by simpa using hl) (fun i h1 h2 => h (i + 1) (by simpa using h1) (by simpa using h2))
          obtain ⟨os, hos⟩ := h 0 (by simp) (by simp)
          simp only [List.getElem_cons_zero] at hos
          refine ⟨(t, os) :: rounds, by simp [hr1], ?_⟩
          rw [List.flatten_cons, attempts_append, List.map_append, hr2, hos]
          simp
    exact key segs ticks hlen (fun i h1 h2 => ⟨_, (hg i h1 h2).attempts⟩)
  obtain ⟨rounds, hr1, hr2⟩ := hatt
  rw [hr2] at ha
  have hmem : ∀ x ∈ rounds, x.1 ∈ ticks := fun x hx => by rw [← hr1]; exact List.mem_map_of_mem hx
  have hpw : rounds.Pairwise (fun x y => y.1.close ≤ x.1.close) := by rw [← hr1] at hfall; exact List.pairwise_map.mp hfall
  have hhead : ∀ t ∈ ticks, t.close ≤ (ticks.head hne).close := by
    intro t ht
    cases ticks with
    | nil => exact absurd rfl hne
    | cons f l =>
      rcases List.mem_cons.mp ht with rfl | h
      · exact le_rfl
      · exact (List.pairwise_cons.mp hfall).1 t h
  have hlast : ∀ t ∈ ticks, (ticks.getLast hne).close ≤ t.close := by
    intro t ht
    rw [← List.dropLast_append_getLast hne] at ht hfall
    rcases List.mem_append.mp ht with h | h
    · exact (List.pairwise_append.mp hfall).2.2 t h _ (by simp)
    · rw [List.mem_singleton.mp h]
  have := falling_run hc rounds (Account.init c) a (ticks.head hne).close (ticks.getLast hne).close (healthy_init hc) (fun x hx => hflat _ (hmem x hx)) hpw
    (hhead _ (List.getLast_mem hne)) (fun x hx => hhead _ (hmem x hx)) (fun x hx => hlast _ (hmem x hx)) ha
  rw [e9, e8, e6, e7, h3, h4, e1, e2]
  simp only [valueAt, Account.init, ex_add, ex_mul] at this ⊢
  linarith

end runs

/-! ### The hypotheses are met -/

section witness
attribute [local instance] evLibm

/-- Fees of 1 % with a minimum, units on both currencies, half the interval as liquidity. -/
def wCfg : AccountConfig ℚ := ⟨2, 1000, 1/10, 1/100, ⟨1/100, 0, 1/2⟩, ⟨1/100, 0, 1/2⟩, ⟨1/200, 1/10, 0⟩, 1/2, 1/2⟩

theorem wCfg_sound : SoundConfig wCfg where
  startBase := by norm_num [wCfg]
  startQuote := by norm_num [wCfg]
  baseUnit := by norm_num [wCfg]
  quoteUnit := by norm_num [wCfg]
  baseGrid := fun _ => ⟨20, by norm_num [wCfg]⟩
  quoteGrid := fun _ => ⟨100000, by norm_num [wCfg]⟩
  liquidity := by norm_num [wCfg]
  fees := by intro ty; cases ty <;> norm_num [wCfg, feeFor]

/-- Spends everything, then sells everything, by turns: the state counts the updates. -/
def wTrader : Trader ℚ := ⟨ℕ, fun n _ _ base quote => .ok (n + 1, [if n % 2 = 0 then ⟨some .market, some .buy, .quote (quote / 2), none⟩
  else ⟨some .market, some .sell, .base base, none⟩]), fun _ => ""⟩

/-- The same, leaving nothing for fees. -/
def wAllIn : Trader ℚ := ⟨ℕ, fun n _ _ base quote => .ok (n + 1, [if n % 2 = 0 then ⟨some .market, some .buy, .quote quote, none⟩
  else ⟨some .market, some .sell, .base base, none⟩]), fun _ => ""⟩

/-- Prices between 10 and 20. -/
def wTicks : List (OhlcTick ℚ) := [⟨60, 12, 20, 10, 15, 5⟩, ⟨120, 11, 16, 10, 14, 5⟩, ⟨180, 17, 20, 12, 18, 5⟩, ⟨240, 16, 19, 15, 17, 5⟩]
/-- A falling market. -/
def wFalling : List (OhlcTick ℚ) := [⟨60, 20, 20, 20, 20, 5⟩, ⟨120, 18, 18, 18, 18, 5⟩, ⟨180, 18, 18, 18, 18, 0⟩, ⟨240, 15, 15, 15, 15, 5⟩]
/-- A market that moves between 10 and 20. -/
def wZigzag : List (OhlcTick ℚ) := [⟨60, 20, 20, 20, 20, 5⟩, ⟨120, 10, 10, 10, 10, 5⟩, ⟨180, 20, 20, 20, 20, 5⟩, ⟨240, 10, 10, 10, 10, 5⟩, ⟨300, 20, 20, 20, 20, 5⟩]

/-- Three executions, two of them purchases. -/
example : (executions (executeTrader wCfg wTicks none true wTrader (0 : ℕ) false).trace).length = 3 ∧
    purchases (executeTrader wCfg wTicks none true wTrader (0 : ℕ) false).trace = 2 := by decide +kernel

example (r) (hr : (executeTrader wCfg wTicks none true wTrader (0 : ℕ) false).out = .ok r) :=
  C115_bound .none wCfg wCfg_sound wTicks (by simp [wTicks]) true wTrader (0 : ℕ) false 10 20 (by norm_num) (by decide +kernel) hr
example (r) (hr : (executeTrader wCfg wTicks none true wTrader (0 : ℕ) false).out = .ok r) :=
  C115_gain .none wCfg wCfg_sound wTicks (by simp [wTicks]) true wTrader (0 : ℕ) false 10 20 (by norm_num) (by decide +kernel) hr
example (r) (hr : (executeTrader wCfg wFalling none true wTrader (0 : ℕ) false).out = .ok r) :=
  C115_falling .none wCfg wCfg_sound wFalling (by simp [wFalling]) true wTrader (0 : ℕ) false (by decide +kernel) (by simp [wFalling]; norm_num) hr

/-- Both runs complete, with executed orders. -/
example : ((executeTrader wCfg wTicks none true wTrader (0 : ℕ) false).out.toOption.map (·.totalExecutedOrders)) = some 3 ∧
    ((executeTrader wCfg wFalling none true wTrader (0 : ℕ) false).out.toOption.map (·.totalExecutedOrders)) = some 2 := by decide +kernel

/-- **C115** (the bound is attained). Without fees, buying at the lowest and selling at the highest price doubles the account with each of two purchases, on prices
between 10 and 20: `C115_bound` holds with equality. -/
theorem C115_attained : ∃ r, (executeTrader btCfg wZigzag none true wAllIn (0 : ℕ) false).out = .ok r ∧
    purchases (executeTrader btCfg wZigzag none true wAllIn (0 : ℕ) false).trace = 2 ∧ r.totalExecutedOrders = 4 ∧
    r.endValue = (r.startBase * 20 + r.startQuote) * (20 / 10) ^ 2 ∧ r.endValue = 400 ∧ r.startValue = 100 := by
  refine ⟨⟨0, 100, 0, 400, 20, 20, 100, 400, 4, 0, 0, 0⟩, by decide +kernel, by decide +kernel, ?_⟩
  norm_num

end witness

end Verif.Props.Bound
