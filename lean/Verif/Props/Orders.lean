import Verif.Props.Settlement

/-!
# Account properties C09, C10, C12, C13: when and at which price orders execute
-/

set_option linter.unusedSectionVars false

namespace Verif.Props
open FloatOps Spec

/-! ## C09 -/

section exact
variable {K : Type} [Field K] [LinearOrder K] [IsStrictOrderedRing K] [FloorRing K]

private theorem interp_between {l x y : K} (h0 : 0 ≤ l) (h1 : l ≤ 1) (h : x ≤ y) :
    x ≤ l * x + (1 - l) * y ∧ l * x + (1 - l) * y ≤ y := by
  constructor <;> nlinarith

private theorem interp_between' {l x y : K} (h0 : 0 ≤ l) (h1 : l ≤ 1) (h : y ≤ x) :
    y ≤ l * x + (1 - l) * y ∧ l * x + (1 - l) * y ≤ x := by
  constructor <;> nlinarith

/-- **C09**. For liquidity in [0,1] and a tick with low ≤ open ≤ high, market prices lie between the open
and the worst price of the tick, and prices of triggered stop orders between the better of stop price and
open and the worst price of the tick. -/
theorem C09_price_bounds (a : Account K) (t : OhlcTick K) (stop : K)
    (h0 : 0 ≤ a.marketLiquidity) (h1 : a.marketLiquidity ≤ 1) (hlo : t.low ≤ t.opn)
    (hoh : t.opn ≤ t.high) :
    (t.opn ≤ a.marketBuyPrice t ∧ a.marketBuyPrice t ≤ t.high) ∧
    (t.low ≤ a.marketSellPrice t ∧ a.marketSellPrice t ≤ t.opn) ∧
    (stop ≤ t.high → max stop t.opn ≤ a.stopBuyPrice t stop ∧ a.stopBuyPrice t stop ≤ t.high) ∧
    (t.low ≤ stop → t.low ≤ a.stopSellPrice t stop ∧ a.stopSellPrice t stop ≤ min stop t.opn) := by
  simp only [Account.marketBuyPrice, Account.marketSellPrice, Account.stopBuyPrice,
    Account.stopSellPrice, ex_add, ex_mul, ex_sub, ex_ofRat, Rat.cast_one, ex_fmax, ex_fmin]
  exact ⟨interp_between h0 h1 hoh, interp_between' h0 h1 hlo,
    fun hs => interp_between h0 h1 (max_le hs hoh), fun hs => interp_between' h0 h1 (le_min hs hlo)⟩

/-- **C09** (end points and monotonicity): liquidity 1 gives exactly the best price, 0 exactly the worst,
and more liquidity is never worse for the trader. -/
theorem C09_liquidity (a : Account K) (t : OhlcTick K) (stop : K) :
    (a.marketLiquidity = 1 → a.marketBuyPrice t = t.opn ∧ a.marketSellPrice t = t.opn ∧
      a.stopBuyPrice t stop = max stop t.opn ∧ a.stopSellPrice t stop = min stop t.opn) ∧
    (a.marketLiquidity = 0 → a.marketBuyPrice t = t.high ∧ a.marketSellPrice t = t.low ∧
      a.stopBuyPrice t stop = t.high ∧ a.stopSellPrice t stop = t.low) ∧
    (∀ a2 : Account K, a.marketLiquidity ≤ a2.marketLiquidity → t.low ≤ t.opn → t.opn ≤ t.high →
      a2.marketBuyPrice t ≤ a.marketBuyPrice t ∧ a.marketSellPrice t ≤ a2.marketSellPrice t ∧
      (stop ≤ t.high → a2.stopBuyPrice t stop ≤ a.stopBuyPrice t stop) ∧
      (t.low ≤ stop → a.stopSellPrice t stop ≤ a2.stopSellPrice t stop)) := by
  simp only [Account.marketBuyPrice, Account.marketSellPrice, Account.stopBuyPrice,
    Account.stopSellPrice, ex_add, ex_mul, ex_sub, ex_ofRat, Rat.cast_one, ex_fmax, ex_fmin]
  refine ⟨fun h => by simp [h], fun h => by simp [h], fun a2 hl h1 h2 => ⟨?_, ?_, fun hs => ?_, fun hs => ?_⟩⟩
  · nlinarith
  · nlinarith
  · have := max_le hs h2; nlinarith
  · have := le_min hs h1; nlinarith

/-- Hypotheses of C09 are met by an ordinary tick. -/
example : (0:ℚ) ≤ (Account.init (exCfg ℚ)).marketLiquidity ∧ (Account.init (exCfg ℚ)).marketLiquidity ≤ 1 ∧
    (exTick ℚ).low ≤ (exTick ℚ).opn ∧ (exTick ℚ).opn ≤ (exTick ℚ).high ∧
    (45 : ℚ) ≤ (exTick ℚ).high ∧ (exTick ℚ).low ≤ 45 := by decide +kernel

end exact

/-- A positive `float`: rounding to the format leaves it unchanged. -/
def IsFloat (f : Fmt) (q : ℚ) : Prop := 0 < q ∧ Fl.ofRat f q = .fin q

private theorem fl_one : (lit F32 1 : F32) = .fin 1 := by decide +kernel
private theorem fl_sub11 : FloatOps.sub (.fin 1 : F32) (.fin 1) = .fin 0 := by decide +kernel
private theorem fl_sub10 : FloatOps.sub (.fin 1 : F32) (.fin 0) = .fin 1 := by decide +kernel

private theorem fl_one_mul {q : ℚ} (h : IsFloat binary32 q) :
    FloatOps.mul (.fin 1 : F32) (.fin q) = .fin q := by
  have : FloatOps.mul (.fin 1 : F32) (.fin q)
    = if (1 : ℚ) * q = 0 then Fl.zero (Fl.signBit (.fin 1 : F32) != Fl.signBit (.fin q : F32))
      else Fl.rnd binary32 (1 * q) := rfl
  have hq : (1 : ℚ) * q ≠ 0 := by rw [one_mul]; exact h.1.ne'
  rw [this, if_neg hq, one_mul]
  have h2 := h.2
  unfold Fl.ofRat at h2
  rwa [if_neg h.1.ne'] at h2

private theorem fl_zero_mul {q : ℚ} (h : 0 < q) :
    FloatOps.mul (.fin 0 : F32) (.fin q) = .fin 0 := by
  have : FloatOps.mul (.fin 0 : F32) (.fin q)
    = if (0 : ℚ) * q = 0 then Fl.zero (Fl.signBit (.fin 0 : F32) != Fl.signBit (.fin q : F32))
      else Fl.rnd binary32 (0 * q) := rfl
  have hs : Fl.signBit (.fin q : F32) = false := by
    show decide (q < 0) = false
    simpa using h.le
  have hs0 : Fl.signBit (.fin 0 : F32) = false := rfl
  rw [this, if_pos (zero_mul q), hs, hs0]
  rfl

private theorem fl_add_zero {q : ℚ} (h : IsFloat binary32 q) :
    FloatOps.add (.fin q : F32) (.fin 0) = .fin q ∧ FloatOps.add (.fin 0 : F32) (.fin q) = .fin q := by
  have h1 : FloatOps.add (.fin q : F32) (.fin 0) = Fl.ofRat binary32 (q + 0) := rfl
  have h2 : FloatOps.add (.fin 0 : F32) (.fin q) = Fl.ofRat binary32 (0 + q) := rfl
  rw [h1, h2, add_zero, zero_add]
  exact ⟨h.2, h.2⟩

/-- **C09** in binary32: with liquidity exactly 1 the execution price is bit-for-bit the best price, with
0 bit-for-bit the worst, for all positive finite floats. -/
theorem C09_endpoints_binary32 (a : Account F32) (t : OhlcTick F32) (o h l s : ℚ)
    (ho : IsFloat binary32 o) (hh : IsFloat binary32 h) (hl : IsFloat binary32 l)
    (hs : IsFloat binary32 s)
    (hto : t.opn = .fin o) (hth : t.high = .fin h) (htl : t.low = .fin l) :
    (a.marketLiquidity = .fin 1 → a.marketBuyPrice t = t.opn ∧ a.marketSellPrice t = t.opn ∧
      a.stopBuyPrice t (.fin s) = fmax (.fin s) t.opn ∧
      a.stopSellPrice t (.fin s) = fmin (.fin s) t.opn) ∧
    (a.marketLiquidity = .fin 0 → a.marketBuyPrice t = t.high ∧ a.marketSellPrice t = t.low ∧
      a.stopBuyPrice t (.fin s) = t.high ∧ a.stopSellPrice t (.fin s) = t.low) := by
  have hmax : ∃ m, IsFloat binary32 m ∧ fmax (.fin s : F32) (.fin o) = .fin m := by
    unfold fmax; split
    · exact ⟨o, ho, rfl⟩
    · exact ⟨s, hs, rfl⟩
  have hmin : ∃ m, IsFloat binary32 m ∧ fmin (.fin s : F32) (.fin o) = .fin m := by
    unfold fmin; split
    · exact ⟨o, ho, rfl⟩
    · exact ⟨s, hs, rfl⟩
  obtain ⟨m, hm, em⟩ := hmax
  obtain ⟨n, hn, en⟩ := hmin
  unfold Account.marketBuyPrice Account.marketSellPrice Account.stopBuyPrice Account.stopSellPrice
  rw [hto, hth, htl, em, en, fl_one]
  constructor
  · intro e
    rw [e, fl_sub11, fl_one_mul ho, fl_one_mul hm, fl_one_mul hn, fl_zero_mul hh.1, fl_zero_mul hl.1,
      (fl_add_zero ho).1, (fl_add_zero hm).1, (fl_add_zero hn).1]
    exact ⟨rfl, rfl, rfl, rfl⟩
  · intro e
    rw [e, fl_sub10, fl_zero_mul ho.1, fl_zero_mul hm.1, fl_zero_mul hn.1, fl_one_mul hh, fl_one_mul hl,
      (fl_add_zero hh).2, (fl_add_zero hl).2]
    exact ⟨rfl, rfl, rfl, rfl⟩

example : IsFloat binary32 (13421773 / 134217728) := by
  constructor <;> decide +kernel

/-- C09's bounds are *not* valid in binary32 for intermediate liquidity: rounding can push the market buy
price above the high of the tick. -/
theorem C09_bounds_fail_in_binary32 :
    ∃ (a : Account F32) (t : OhlcTick F32),
      IsFloat binary32 a.marketLiquidity.toQ ∧ Fl.lt a.marketLiquidity (.fin 1) = true ∧
      t.opn = t.high ∧ IsFloat binary32 t.high.toQ ∧
      Fl.lt t.high (a.marketBuyPrice t) = true := by
  refine ⟨⟨.fin 0, .fin 0, .fin 0, .fin 0, .fin 0, .fin (5033165 / 16777216), .fin 0⟩,
    ⟨300, .fin (14225677 / 8388608), .fin (14225677 / 8388608), .fin 1, .fin 1, .fin 1⟩,
    ⟨?_, ?_⟩, ?_, rfl, ⟨?_, ?_⟩, ?_⟩ <;> decide +kernel

/-! ## C10, C12 -/

section generic
variable {F : Type} [FloatOps F]

/-- **C12** (fee schedules). `ExecuteOrder` looks at nothing in the configuration but the fee schedule of
the order's own type. -/
theorem C12_fee_schedule (a : Account F) (c c' : AccountConfig F) (o : Order F) (t : OhlcTick F)
    (h : ∀ ty, o.type = some ty → feeFor c ty = feeFor c' ty) :
    a.executeOrder c o t = a.executeOrder c' o t := by
  unfold Account.executeOrder
  have hm : o.type = some .market → c.marketFee = c'.marketFee := h .market
  have hs : o.type = some .stop → c.stopFee = c'.stopFee := h .stop
  have hl : o.type = some .limit → c.limitFee = c'.limitFee := h .limit
  congr 1
  funext u
  rcases ht : o.type with _ | ty
  · rfl
  · cases ty <;> simp only [ht, forall_const, reduceCtorEq, false_implies, Option.some.injEq] at hm hs hl
    all_goals
      simp only [hm, hs, hl]
      rcases o.side with _ | sd
      · rfl
      · cases sd <;> cases o.amount <;> rfl

/-- **C12** (market orders ignore the price field). -/
theorem C12_market_ignores_price (a : Account F) (c : AccountConfig F) (o : Order F) (t : OhlcTick F)
    (p : Option F) (h : o.type = some .market) :
    a.executeOrder c { o with price := p } t = a.executeOrder c o t := by
  obtain ⟨ty, sd, am, pr⟩ := o
  simp only at h
  subst h
  unfold Account.executeOrder isValidOrder Order.getPrice
  simp only [BEq.rfl, Bool.true_or]
  congr 1
  funext u
  rcases sd with _ | sd
  · rfl
  · cases sd <;> cases am <;> rfl

end generic

section laws
variable {F : Type} [FloatOps F] [SignLaws F]

/-- **C12** (what a valid order does). The complete table: an order whose price the tick does not reach is
rejected; otherwise it is exactly the primitive trade of `Spec.tradeOf`. -/
theorem C12_trade_table (a : Account F) (c : AccountConfig F) (o : Order F) (t : OhlcTick F)
    (ty : OrderType) (sd : Side) (hv : ValidOrder o) (hty : o.type = some ty) (hsd : o.side = some sd) :
    a.executeOrder c o t =
      if notReached t o.getPrice ty sd then .ok (false, a)
      else tradeOf a c t o.getPrice ty sd o.amount :=
  Account.executeOrder_valid a c o t hv hty hsd

/-- **C10** (trigger). An executed stop buy or limit sell implies that the high of the tick is not below
its price, an executed stop sell or limit buy that the low is not above it. -/
theorem C10_trigger (a a' : Account F) (c : AccountConfig F) (o : Order F) (t : OhlcTick F) (p : F)
    (hp : o.price = some p) (h : a.executeOrder c o t = .ok (true, a')) :
    (o.type = some .stop → o.side = some .buy → (t.high <. p) = false) ∧
    (o.type = some .limit → o.side = some .sell → (t.high <. p) = false) ∧
    (o.type = some .stop → o.side = some .sell → (p <. t.low) = false) ∧
    (o.type = some .limit → o.side = some .buy → (p <. t.low) = false) := by
  have hgp : o.getPrice = p := by simp [Order.getPrice, hp]
  rcases a.executeOrder_ok h with ⟨h, -⟩ | ⟨-, ty, sd, b, h1, h2, h3, -⟩
  · cases h
  · rw [h1, h2, ← hgp]
    refine ⟨?_, ?_, ?_, ?_⟩ <;> intro e1 e2 <;> cases e1 <;> cases e2 <;> exact h3

/-- **C10** (no effect when not triggered). -/
theorem C10_untriggered (a : Account F) (c : AccountConfig F) (o : Order F) (t : OhlcTick F) (p : F)
    (hv : ValidOrder o) (hp : o.price = some p)
    (h : (o.type = some .stop ∧ o.side = some .buy ∧ (t.high <. p) = true) ∨
         (o.type = some .limit ∧ o.side = some .sell ∧ (t.high <. p) = true) ∨
         (o.type = some .stop ∧ o.side = some .sell ∧ (p <. t.low) = true) ∨
         (o.type = some .limit ∧ o.side = some .buy ∧ (p <. t.low) = true)) :
    a.executeOrder c o t = .ok (false, a) := by
  have hgp : o.getPrice = p := by simp [Order.getPrice, hp]
  rcases h with ⟨h1, h2, h3⟩ | ⟨h1, h2, h3⟩ | ⟨h1, h2, h3⟩ | ⟨h1, h2, h3⟩ <;>
    rw [C12_trade_table a c o t _ _ hv h1 h2, hgp] <;> simp [notReached, h3]

/-- **C10** (limit price). An executed limit order settles at exactly its limit price. -/
theorem C10_limit_fills_at_limit (a a' : Account F) (c : AccountConfig F) (o : Order F)
    (t : OhlcTick F) (p : F) (hp : o.price = some p) (hty : o.type = some .limit)
    (h : a.executeOrder c o t = .ok (true, a')) :
    ∃ b, (o.side = some .buy ∧ a.buyBase c.limitFee b p = .ok (true, a')) ∨
         (o.side = some .sell ∧ a.sellBase c.limitFee b p = .ok (true, a')) := by
  have hgp : o.getPrice = p := by simp [Order.getPrice, hp]
  rcases a.executeOrder_ok h with ⟨h, -⟩ | ⟨-, ty, sd, b, h1, h2, h3, h4⟩
  · cases h
  · rw [hty] at h1; cases h1
    rw [hgp] at h4
    refine ⟨b, ?_⟩
    rcases h4 with ⟨rfl, h4⟩ | ⟨rfl, h4⟩
    · exact .inl ⟨h2, h4⟩
    · exact .inr ⟨h2, h4⟩

end laws

/-- Both a triggered and an untriggered stop order exist on the example tick (high 60, low 40). -/
example :
    (match (Account.init (exCfg ℚ)).executeOrder (exCfg ℚ)
        ⟨some .stop, some .buy, .base 1, some 59⟩ (exTick ℚ) with
      | .ok (b, _) => b | .error _ => false) = true ∧
    (match (Account.init (exCfg ℚ)).executeOrder (exCfg ℚ)
        ⟨some .stop, some .buy, .base 1, some 61⟩ (exTick ℚ) with
      | .ok (b, _) => !b | .error _ => false) = true := by decide +kernel

/-! ## C13 -/

/-- **C13** (any arithmetic): an order that is not valid is refused by an assertion failure before
anything else happens. -/
theorem C13_invalid_aborts {F : Type} [FloatOps F] (a : Account F) (c : AccountConfig F) (o : Order F)
    (t : OhlcTick F) (h : ¬ ValidOrder o) : a.executeOrder c o t = .error .assertion :=
  Account.executeOrder_invalid a c o t h

section exact
variable {K : Type} [Field K] [LinearOrder K] [IsStrictOrderedRing K] [FloorRing K]

theorem buyBase_total (a : Account K) (fc : FeeConfig K) {b p : K} (hp : 0 < p) (hb : 0 ≤ b) :
    ∃ r, a.buyBase fc b p = .ok r := by
  rw [Account.buyBase_eq, if_pos (by simpa using hp), if_pos (by simpa using hb)]
  simp only
  split_ifs <;> exact ⟨_, rfl⟩

theorem sellBase_total (a : Account K) (fc : FeeConfig K) {b p : K} (hp : 0 < p) (hb : 0 ≤ b) :
    ∃ r, a.sellBase fc b p = .ok r := by
  rw [Account.sellBase_eq, if_pos (by simpa using hp), if_pos (by simpa using hb)]
  simp only
  split_ifs <;> exact ⟨_, rfl⟩

theorem floorUnit_nonneg {x u : K} (hx : 0 ≤ x) : 0 ≤ floorUnit x u := by
  by_cases hu : 0 < u
  · rw [floorUnit_pos hu]
    have : (0 : K) ≤ (⌊x / u⌋ : K) := by exact_mod_cast Int.floor_nonneg.mpr (div_nonneg hx hu.le)
    positivity
  · rw [floorUnit_nonpos hu]; exact hx

theorem buyAtQuote_total (a : Account K) (fc : FeeConfig K) {q p m : K} (hp : 0 < p)
    (hq : 0 ≤ q) (hm : 0 ≤ m) : ∃ r, a.buyAtQuote fc q p m = .ok r := by
  rw [Account.buyAtQuote_eq, if_pos (by simpa using hp), if_pos (by simpa using hq)]
  simp only
  split_ifs with h1 h2 h3
  · exact ⟨_, rfl⟩
  · exact ⟨_, rfl⟩
  · exact ⟨_, rfl⟩
  · refine buyBase_total a fc hp ?_
    simp only [ex_fmin, ex_div, ex_sub]
    refine floorUnit_nonneg (le_min (div_nonneg ?_ hp.le) hm)
    simp only [ex_le, decide_eq_true_eq, not_le] at h2
    linarith

theorem sellAtQuote_total (a : Account K) (fc : FeeConfig K) {q p m : K} (hp : 0 < p)
    (hq : 0 ≤ q) (hm : 0 ≤ m) (hbu : 0 ≤ a.baseUnit) :
    ∃ r, a.sellAtQuote fc q p m = .ok r := by
  rw [Account.sellAtQuote_eq, if_pos (by simpa using hp), if_pos (by simpa using hq)]
  simp only
  split_ifs with h1 h3
  · exact ⟨_, rfl⟩
  · exact ⟨_, rfl⟩
  · refine sellBase_total a fc hp ?_
    simp only [ex_lt, decide_eq_true_eq, not_lt] at h3
    exact le_trans hbu h3

/-- The largest `float` is not negative. -/
theorem maxFinite_nonneg : (0 : K) ≤ (FloatOps.maxFinite : K) := by
  simp only [ex_maxFinite]
  exact_mod_cast (by decide +kernel : (0 : ℚ) ≤ maxFiniteRat)

/-- The volume cap is not negative. -/
theorem maxBaseAmount_nonneg (a : Account K) (t : OhlcTick K) (hvol : 0 ≤ t.volume) : 0 ≤ a.maxBaseAmount t := by
  unfold Account.maxBaseAmount
  split_ifs with hr
  · refine floorUnit_nonneg ?_
    have : 0 < a.maxVolumeRatio := by simpa using hr
    simp only [ex_mul]; positivity
  · exact maxFinite_nonneg

/-- Orders execute at positive prices. -/
theorem execPrice_pos (liq : K) (t : OhlcTick K) (price : K) (ty : OrderType) (sd : Side) (h0 : 0 ≤ liq) (h1 : liq ≤ 1)
    (hl : 0 < t.low) (ho : 0 < t.opn) (hh : 0 < t.high) (hgp : ty = .market ∨ 0 < price) :
    0 < execPrice liq t price ty sd := by
  have hpos : ∀ u v : K, 0 < u → 0 < v → 0 < interp liq u v := by
    intro u v hu hv
    simp only [interp, ex_add, ex_mul, ex_sub, ex_ofRat, Rat.cast_one]
    rcases h0.lt_or_eq with h | h
    · have : 0 ≤ (1 - liq) * v := mul_nonneg (by linarith) hv.le
      have := mul_pos h hu
      linarith
    · rw [← h]; simpa using hv
  rcases hgp with rfl | hgp
  · cases sd <;> simp only [execPrice] <;> apply hpos <;> assumption
  · cases ty <;> cases sd <;> simp only [execPrice, ex_fmax, ex_fmin]
    · exact hpos _ _ ho hh
    · exact hpos _ _ ho hl
    · exact hpos _ _ (lt_max_of_lt_left hgp) hh
    · exact hpos _ _ (lt_min hgp ho) hl
    · exact hgp
    · exact hgp

/-- **C13** (exact arithmetic). On a tick with positive prices and non-negative volume, with liquidity in
[0,1] and a non-negative base unit, `ExecuteOrder` returns (true or false) for every valid order and aborts
for every other one. -/
theorem C13_accepts_iff_valid (a : Account K) (c : AccountConfig K) (o : Order K) (t : OhlcTick K)
    (h0 : 0 ≤ a.marketLiquidity) (h1 : a.marketLiquidity ≤ 1) (hbu : 0 ≤ a.baseUnit)
    (hl : 0 < t.low) (ho : 0 < t.opn) (hh : 0 < t.high) (hvol : 0 ≤ t.volume) :
    (∃ r, a.executeOrder c o t = .ok r) ↔ ValidOrder o := by
  constructor
  · rintro ⟨r, h⟩
    by_contra hv
    rw [C13_invalid_aborts a c o t hv] at h; cases h
  intro hv
  obtain ⟨ty, sd, hty, hsd, hpr, x, hx, hamt⟩ := id hv
  have hx : 0 < x := by simpa using hx
  rw [C12_trade_table a c o t ty sd hv hty hsd]
  split_ifs with hn
  · exact ⟨_, rfl⟩
  have hcap := maxBaseAmount_nonneg a t hvol
  have hmaxf := maxFinite_nonneg (K := K)
  have hgp : ty = .market ∨ 0 < o.getPrice := by
    rcases hpr with h | ⟨p, hp, hpp⟩
    · exact .inl h
    · right; simpa [Order.getPrice, hp] using hpp
  have hprice := execPrice_pos a.marketLiquidity t o.getPrice ty sd h0 h1 hl ho hh hgp
  have hx' : 0 ≤ (if ty = .limit then fmin x (a.maxBaseAmount t) else x) := by
    split_ifs
    · simp only [ex_fmin]; exact le_min hx.le hcap
    · exact hx.le
  have hm' : 0 ≤ (if ty = .limit then a.maxBaseAmount t else FloatOps.maxFinite) := by
    split_ifs
    · exact hcap
    · exact hmaxf
  rcases hamt with h | h <;> rw [h] <;> cases sd <;> simp only [tradeOf]
  · exact buyBase_total a _ hprice hx'
  · exact sellBase_total a _ hprice hx'
  · exact buyAtQuote_total a _ hprice hx.le hm'
  · exact sellAtQuote_total a _ hprice hx.le hm' hbu

/-- Both kinds of orders exist, and the example tick meets the hypotheses. -/
example : ValidOrder (⟨some .limit, some .buy, .quote 400, some 41⟩ : Order ℚ) ∧
    ¬ ValidOrder (⟨some .limit, some .buy, .quote 400, none⟩ : Order ℚ) ∧
    ¬ ValidOrder (⟨some .market, some .buy, .base 0, none⟩ : Order ℚ) := by
  simp only [← Account.isValidOrder_iff]
  decide +kernel

end exact

/-- In binary32 a valid order *can* abort: the interpolated price of a tick at the smallest subnormal
price rounds to zero and trips `assert(price > 0)`. -/
theorem C13_binary32_underflow_abort :
    ∃ (a : Account F32) (c : AccountConfig F32) (o : Order F32) (t : OhlcTick F32),
      isValidOrder o = true ∧ Fl.lt (.fin 0) t.opn = true ∧ Fl.lt (.fin 0) t.low = true ∧
      Fl.lt (.fin 0) t.high = true ∧ IsFloat binary32 t.opn.toQ ∧
      a.executeOrder c o t = .error .assertion := by
  refine ⟨⟨.fin 0, .fin 2000, .fin 0, .fin 0, .fin 0, .fin (1 / 2), .fin 0⟩,
    exCfg F32, ⟨some .market, some .buy, .base (.fin 1), none⟩,
    ⟨300, .fin (1 / 2 ^ 149), .fin (1 / 2 ^ 149), .fin (1 / 2 ^ 149), .fin (1 / 2 ^ 149), .fin 1⟩,
    ?_, ?_, ?_, ?_, ⟨?_, ?_⟩, ?_⟩ <;> decide +kernel

end Verif.Props
