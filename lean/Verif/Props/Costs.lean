import Verif.Props.Terms
import Verif.Props.StopTrader
import Verif.Props.Evaluate
import Verif.Props.Pipeline
import Verif.Props.StopLoss

/-!
# C123: lower costs never leave the stop trader with less
-/

namespace Verif.Props.Costs
open Verif Verif.Spec Verif.Props FloatOps

section
variable {K : Type} [Field K] [LinearOrder K] [IsStrictOrderedRing K] [FloorRing K]

/-- A stop order costs a share of its value and nothing else; amounts are not rounded. -/
structure Proportional (c : AccountConfig K) : Prop where
  baseUnit : c.baseUnit = 0
  quoteUnit : c.quoteUnit = 0
  fixedFee : c.stopFee.fixedFee = 0
  minimumFee : c.stopFee.minimumFee = 0
  relativeFee : 0 ≤ c.stopFee.relativeFee
  liquidity : 0 ≤ c.marketLiquidity ∧ c.marketLiquidity ≤ 1
  startBase : 0 ≤ c.startBase
  startQuote : 0 ≤ c.startQuote

/-- The prices of a tick lie between `m` and `M`. -/
structure Within (m M : K) (t : OhlcTick K) : Prop where
  low : m ≤ t.low
  opn : t.low ≤ t.opn ∧ t.opn ≤ t.high
  close : t.low ≤ t.close ∧ t.close ≤ t.high
  high : t.high ≤ M

/-! ## Trades without rounding -/

/-- The account trades without rounding, at the liquidity of the configuration. -/
structure Plain (c : AccountConfig K) (a : Account K) : Prop where
  baseUnit : a.baseUnit = 0
  quoteUnit : a.quoteUnit = 0
  liquidity : a.marketLiquidity = c.marketLiquidity

def sellOrder (x P : K) : Order K := ⟨some .stop, some .sell, .base x, some P⟩
def buyOrder (x P : K) : Order K := ⟨some .stop, some .buy, .quote x, some P⟩

theorem fee_is {a : Account K} {c : AccountConfig K} (hc : Proportional c) (ha : Plain c a) {v : K} (hv : 0 ≤ v) :
    a.getFee c.stopFee v = v * c.stopFee.relativeFee := by
  have h : 0 ≤ v * c.stopFee.relativeFee := mul_nonneg hv hc.relativeFee
  simp [Account.getFee, ceilUnit, ha.quoteUnit, hc.fixedFee, hc.minimumFee, h]

theorem sell_is {a : Account K} {c : AccountConfig K} (hc : Proportional c) (ha : Plain c a) (hr : c.stopFee.relativeFee ≤ 1) {x p : K} (hx : 0 < x)
    (hp : 0 < p) {d : Bool} {w : Account K} (h : a.sellBase c.stopFee x p = .ok (d, w)) :
    (d = false ∧ w = a ∧ a.baseBalance < x) ∨
    (d = true ∧ Plain c w ∧ x ≤ a.baseBalance ∧ w.baseBalance = a.baseBalance - x ∧
      w.quoteBalance = a.quoteBalance + x * p * (1 - c.stopFee.relativeFee)) := by
  have hv : 0 ≤ x * p := (mul_pos hx hp).le
  have hz : ∀ y : K, roundUnit y (0 : K) = y := fun y => by simp [roundUnit]
  have hfl : ∀ y : K, floorUnit y (0 : K) = y := fun y => by simp [floorUnit]
  unfold Account.sellBase at h
  obtain ⟨-, h⟩ := assertThat_bind_ok h
  obtain ⟨-, h⟩ := assertThat_bind_ok h
  simp only [ha.baseUnit, ha.quoteUnit, hz, hfl, ex_mul] at h
  rw [fee_is hc ha hv] at h
  have hn : ¬ x < 0 := not_lt.mpr hx.le
  have hn2 : ¬ x * p - x * p * c.stopFee.relativeFee < 0 := by
    have := mul_le_mul_of_nonneg_left hr hv
    push Not; linarith
  simp only [ex_lt, ex_sub, ex_add, hn, hn2, decide_false, Bool.false_or, Bool.false_eq_true, if_false, decide_eq_true_eq] at h
  split at h
  · rename_i hb
    cases h
    exact .inl ⟨rfl, rfl, hb⟩
  · rename_i hb
    cases h
    exact .inr ⟨rfl, ⟨rfl, rfl, ha.liquidity⟩, not_lt.mp hb, rfl, by dsimp only; ring⟩

theorem buy_is {a : Account K} {c : AccountConfig K} (hc : Proportional c) (ha : Plain c a) (hr : c.stopFee.relativeFee < 1) {x p : K} (hx : 0 < x)
    (hp : 0 < p) (hcap : x * (1 - c.stopFee.relativeFee) / p ≤ FloatOps.maxFinite) {d : Bool} {w : Account K}
    (h : a.buyAtQuote c.stopFee x p FloatOps.maxFinite = .ok (d, w)) :
    (d = false ∧ w = a ∧ a.quoteBalance < x) ∨
    (d = true ∧ Plain c w ∧ x ≤ a.quoteBalance ∧ w.baseBalance = a.baseBalance + x * (1 - c.stopFee.relativeFee) / p ∧
      w.quoteBalance = a.quoteBalance - x * (1 - c.stopFee.relativeFee ^ 2)) := by
  have hz : ∀ y : K, roundUnit y (0 : K) = y := fun y => by simp [roundUnit]
  have hfl : ∀ y : K, floorUnit y (0 : K) = y := fun y => by simp [floorUnit]
  have hce : ∀ y : K, ceilUnit y (0 : K) = y := fun y => by simp [ceilUnit]
  have h0 := hc.relativeFee
  generalize hR : c.stopFee.relativeFee = r at *
  have hxr : x * r < x := by nlinarith
  have hb0 : 0 ≤ x * (1 - r) / p := div_nonneg (mul_nonneg hx.le (by linarith)) hp.le
  unfold Account.buyAtQuote at h
  obtain ⟨-, h⟩ := assertThat_bind_ok h
  obtain ⟨-, h⟩ := assertThat_bind_ok h
  simp only [ha.baseUnit, ha.quoteUnit, hz, hfl, ex_div, ex_sub] at h
  rw [fee_is hc ha hx.le, hR] at h
  have e : x - x * r = x * (1 - r) := by ring
  rw [e, ex_fmin, min_eq_left hcap] at h
  have hn : ¬ x < 0 := not_lt.mpr hx.le
  simp only [ex_lt, ex_le, hn, decide_false, Bool.false_or, decide_eq_true_eq, not_le.mpr hxr, not_lt.mpr hb0] at h
  split at h
  · rename_i hb
    cases h
    exact .inl ⟨rfl, rfl, hb⟩
  · rename_i hb
    unfold Account.buyBase at h
    obtain ⟨-, h⟩ := assertThat_bind_ok h
    obtain ⟨-, h⟩ := assertThat_bind_ok h
    simp only [ha.baseUnit, ha.quoteUnit, hz, hce, ex_mul, ex_add, ex_sub] at h
    have e2 : x * (1 - r) / p * p = x * (1 - r) := div_mul_cancel₀ _ hp.ne'
    rw [e2, fee_is hc ha (mul_nonneg hx.le (by linarith)), hR] at h
    have e3 : x * (1 - r) + x * (1 - r) * r = x * (1 - r ^ 2) := by ring
    rw [e3] at h
    have hn3 : ¬ a.quoteBalance < x * (1 - r ^ 2) := by
      have : 0 ≤ x * r ^ 2 := by positivity
      push Not; nlinarith [not_lt.mp hb]
    simp only [ex_lt, decide_eq_true_eq, not_lt.mpr hb0, if_false, hn3] at h
    cases h
    exact .inr ⟨rfl, ⟨rfl, rfl, ha.liquidity⟩, not_lt.mp hb, rfl, rfl⟩

theorem exec_sell {a : Account K} {c : AccountConfig K} (hc : Proportional c) (ha : Plain c a) (hr : c.stopFee.relativeFee ≤ 1) {x P : K} (hx : 0 < x)
    {t : OhlcTick K} (hp : t.low ≤ P → 0 < execPrice c.marketLiquidity t P .stop .sell) {d : Bool} {w : Account K}
    (h : a.executeOrder c (sellOrder x P) t = .ok (d, w)) :
    (d = false ∧ w = a ∧ (P < t.low ∨ a.baseBalance < x)) ∨
    (d = true ∧ Plain c w ∧ t.low ≤ P ∧ x ≤ a.baseBalance ∧ w.baseBalance = a.baseBalance - x ∧
      w.quoteBalance = a.quoteBalance + x * execPrice c.marketLiquidity t P .stop .sell * (1 - c.stopFee.relativeFee)) := by
  have hv : ValidOrder (sellOrder x P) := by
    by_contra hv
    rw [Account.executeOrder_invalid a c _ t hv] at h
    cases h
  rw [Account.executeOrder_valid a c _ t hv rfl rfl] at h
  simp only [sellOrder, Order.getPrice, Option.getD_some, notReached, tradeOf, ha.liquidity, feeFor, reduceCtorEq, if_false, ex_lt, decide_eq_true_eq] at h
  split at h
  · rename_i hn
    cases h
    exact .inl ⟨rfl, rfl, .inl hn⟩
  · rename_i hn
    rcases sell_is hc ha hr hx (hp (not_lt.mp hn)) h with ⟨h1, h2, h3⟩ | ⟨h1, h2, h3, h4, h5⟩
    · exact .inl ⟨h1, h2, .inr h3⟩
    · exact .inr ⟨h1, h2, not_lt.mp hn, h3, h4, h5⟩

theorem exec_buy {a : Account K} {c : AccountConfig K} (hc : Proportional c) (ha : Plain c a) (hr : c.stopFee.relativeFee < 1) {x P : K} (hx : 0 < x)
    {t : OhlcTick K} (hp : P ≤ t.high → 0 < execPrice c.marketLiquidity t P .stop .buy)
    (hcap : P ≤ t.high → x * (1 - c.stopFee.relativeFee) / execPrice c.marketLiquidity t P .stop .buy ≤ FloatOps.maxFinite) {d : Bool} {w : Account K}
    (h : a.executeOrder c (buyOrder x P) t = .ok (d, w)) :
    (d = false ∧ w = a ∧ (t.high < P ∨ a.quoteBalance < x)) ∨
    (d = true ∧ Plain c w ∧ P ≤ t.high ∧ x ≤ a.quoteBalance ∧
      w.baseBalance = a.baseBalance + x * (1 - c.stopFee.relativeFee) / execPrice c.marketLiquidity t P .stop .buy ∧
      w.quoteBalance = a.quoteBalance - x * (1 - c.stopFee.relativeFee ^ 2)) := by
  have hv : ValidOrder (buyOrder x P) := by
    by_contra hv
    rw [Account.executeOrder_invalid a c _ t hv] at h
    cases h
  rw [Account.executeOrder_valid a c _ t hv rfl rfl] at h
  simp only [buyOrder, Order.getPrice, Option.getD_some, notReached, tradeOf, ha.liquidity, feeFor, reduceCtorEq, if_false, ex_lt, decide_eq_true_eq] at h
  split at h
  · rename_i hn
    cases h
    exact .inl ⟨rfl, rfl, .inl hn⟩
  · rename_i hn
    rcases buy_is hc ha hr hx (hp (not_lt.mp hn)) (hcap (not_lt.mp hn)) h with ⟨h1, h2, h3⟩ | ⟨h1, h2, h3, h4, h5⟩
    · exact .inl ⟨h1, h2, .inr h3⟩
    · exact .inr ⟨h1, h2, not_lt.mp hn, h3, h4, h5⟩

theorem exec_refused {a : Account K} {c : AccountConfig K} (ha : Plain c a) {x P : K} (hx : a.quoteBalance < x)
    {t : OhlcTick K} {d : Bool} {w : Account K} (h : a.executeOrder c (buyOrder x P) t = .ok (d, w)) : d = false ∧ w = a := by
  have hv : ValidOrder (buyOrder x P) := by
    by_contra hv
    rw [Account.executeOrder_invalid a c _ t hv] at h
    cases h
  rw [Account.executeOrder_valid a c _ t hv rfl rfl] at h
  simp only [buyOrder, Order.getPrice, Option.getD_some, notReached, tradeOf, ha.liquidity, feeFor, reduceCtorEq, if_false, ex_lt, decide_eq_true_eq] at h
  split at h
  · cases h
    exact ⟨rfl, rfl⟩
  · have hz : ∀ y : K, roundUnit y (0 : K) = y := fun y => by simp [roundUnit]
    unfold Account.buyAtQuote at h
    obtain ⟨-, h⟩ := assertThat_bind_ok h
    obtain ⟨-, h⟩ := assertThat_bind_ok h
    simp only [ha.quoteUnit, hz, ex_lt, hx, decide_true, Bool.or_true, if_true] at h
    cases h
    exact ⟨rfl, rfl⟩

/-! ## Prices -/

theorem ex_lit_one : (lit K 1 : K) = 1 := by simp

theorem sell_price {m M L P : K} {t : OhlcTick K} (ht : Within m M t) (hL : 0 ≤ L ∧ L ≤ 1) (hP : t.low ≤ P) :
    m ≤ execPrice L t P .stop .sell ∧ execPrice L t P .stop .sell ≤ M := by
  simp only [execPrice, interp, ex_add, ex_mul, ex_sub, ex_lit_one, ex_fmin]
  have h1 : t.low ≤ min P t.opn := le_min hP ht.opn.1
  have h2 : min P t.opn ≤ t.high := (min_le_right _ _).trans ht.opn.2
  have := ht.low; have := ht.high; have := ht.opn
  constructor <;> nlinarith [hL.1, hL.2]

theorem buy_price {m M L P : K} {t : OhlcTick K} (ht : Within m M t) (hL : 0 ≤ L ∧ L ≤ 1) (hP : P ≤ t.high) :
    m ≤ execPrice L t P .stop .buy ∧ execPrice L t P .stop .buy ≤ M := by
  simp only [execPrice, interp, ex_add, ex_mul, ex_sub, ex_lit_one, ex_fmax]
  have h1 : max P t.opn ≤ t.high := max_le hP ht.opn.2
  have h2 : t.low ≤ max P t.opn := ht.opn.1.trans (le_max_right _ _)
  have := ht.low; have := ht.high; have := ht.opn
  constructor <;> nlinarith [hL.1, hL.2]

/-! ## Two accounts -/

/-- Two accounts that hold coins, the first better off at every price between `m` and `M`, now and after selling. -/
structure Coins (m M r₁ r₂ b₁ q₁ b₂ q₂ : K) : Prop where
  base₁ : 0 < b₁
  base₂ : 0 < b₂
  quote₁ : 0 ≤ q₁
  quote₂ : 0 ≤ q₂
  mode₁ : q₁ ≤ b₁ * m
  mode₂ : q₂ ≤ b₂ * m
  value : ∀ p, m ≤ p → p ≤ M → q₂ + p * b₂ ≤ q₁ + p * b₁
  sell : ∀ p, m ≤ p → p ≤ M → q₂ + b₂ * p * (1 - r₂) ≤ q₁ + b₁ * p * (1 - r₁)

/-- What a unit of money that was spent on coins at the fee `r` is worth when the price has changed by `x`. -/
theorem worth_mono {r₁ r₂ x₁ x₂ : K} (h0 : 0 ≤ r₁) (h : r₁ ≤ r₂) (hx : x₂ ≤ x₁) (h2 : 2 * r₂ ≤ x₂) (h1 : 2 * r₂ ≤ 1) :
    (1 - r₂) * x₂ + r₂ ^ 2 ≤ (1 - r₁) * x₁ + r₁ ^ 2 := by
  have a : (1 - r₂) * x₂ + r₂ ^ 2 ≤ (1 - r₁) * x₂ + r₁ ^ 2 := by nlinarith [mul_nonneg (sub_nonneg.mpr h) (by linarith : 0 ≤ x₂ - r₁ - r₂)]
  have b : (1 - r₁) * x₂ ≤ (1 - r₁) * x₁ := mul_le_mul_of_nonneg_left hx (by linarith)
  linarith

theorem sold_mono {r₁ r₂ x₁ x₂ : K} (h0 : 0 ≤ r₁) (h : r₁ ≤ r₂) (hx : x₂ ≤ x₁) (h2 : 2 * r₂ ≤ x₂) (h1 : 2 * r₂ ≤ 1) :
    (1 - r₂) * x₂ * (1 - r₂) + r₂ ^ 2 ≤ (1 - r₁) * x₁ * (1 - r₁) + r₁ ^ 2 := by
  have a : (1 - r₂) * x₂ * (1 - r₂) + r₂ ^ 2 ≤ (1 - r₁) * x₂ * (1 - r₁) + r₁ ^ 2 := by
    have e : (1 - r₁) * x₂ * (1 - r₁) + r₁ ^ 2 - ((1 - r₂) * x₂ * (1 - r₂) + r₂ ^ 2) = (r₂ - r₁) * (x₂ * (2 - r₁ - r₂) - (r₁ + r₂)) := by ring
    have f : 0 ≤ x₂ * (2 - r₁ - r₂) - (r₁ + r₂) := by nlinarith
    nlinarith [mul_nonneg (sub_nonneg.mpr h) f]
  have b : (1 - r₁) * x₂ * (1 - r₁) ≤ (1 - r₁) * x₁ * (1 - r₁) :=
    mul_le_mul_of_nonneg_right (mul_le_mul_of_nonneg_left hx (by linarith)) (by linarith)
  linarith

/-- Buying coins for all money. -/
theorem enter_coins {m M r₁ r₂ B Q₁ Q₂ p₁ p₂ : K} (hm : 0 < m) (hr : 0 ≤ r₁) (h : r₁ ≤ r₂) (hs : 2 * r₂ * M ≤ m) (hB : 0 ≤ B) (hQ₂ : 0 < Q₂)
    (hQ : Q₂ ≤ Q₁) (hp₁ : m ≤ p₁) (hp : p₁ ≤ p₂) (hp₂ : p₂ ≤ M) :
    Coins m M r₁ r₂ (B + Q₁ * (1 - r₁) / p₁) (Q₁ - Q₁ * (1 - r₁ ^ 2)) (B + Q₂ * (1 - r₂) / p₂) (Q₂ - Q₂ * (1 - r₂ ^ 2)) := by
  have hM : 0 < M := by linarith
  have h1 : 2 * r₂ ≤ 1 := by
    by_contra hc
    push Not at hc
    nlinarith
  have p₁0 : 0 < p₁ := by linarith
  have p₂0 : 0 < p₂ := by linarith
  have hQ₁ : 0 < Q₁ := by linarith
  have x₁ : ∀ y, m ≤ y → 2 * r₂ ≤ y / p₁ := fun y hy => by
    rw [le_div_iff₀ p₁0]; nlinarith
  have x₂ : ∀ y, m ≤ y → 2 * r₂ ≤ y / p₂ := fun y hy => by
    rw [le_div_iff₀ p₂0]; nlinarith
  have x₂₁ : ∀ y, m ≤ y → y / p₂ ≤ y / p₁ := fun y hy => div_le_div_of_nonneg_left (by linarith) p₁0 hp
  have e : ∀ Q r p y : K, p ≠ 0 → Q * (1 - r) / p * y = Q * ((1 - r) * (y / p)) := fun Q r p y hp => by field_simp
  refine ⟨?_, ?_, ?_, ?_, ?_, ?_, ?_, ?_⟩
  · have : 0 < Q₁ * (1 - r₁) / p₁ := div_pos (mul_pos hQ₁ (by linarith)) p₁0
    linarith
  · have : 0 < Q₂ * (1 - r₂) / p₂ := div_pos (mul_pos hQ₂ (by linarith)) p₂0
    linarith
  · have : 0 ≤ Q₁ * r₁ ^ 2 := by positivity
    linarith
  · have : 0 ≤ Q₂ * r₂ ^ 2 := by positivity
    linarith
  · rw [add_mul, e _ _ _ _ p₁0.ne']
    have a : r₁ ^ 2 ≤ (1 - r₁) * (m / p₁) := by nlinarith [x₁ m le_rfl]
    nlinarith [mul_le_mul_of_nonneg_left a hQ₁.le, mul_nonneg hB hm.le]
  · rw [add_mul, e _ _ _ _ p₂0.ne']
    have a : r₂ ^ 2 ≤ (1 - r₂) * (m / p₂) := by nlinarith [x₂ m le_rfl]
    nlinarith [mul_le_mul_of_nonneg_left a hQ₂.le, mul_nonneg hB hm.le]
  · intro y hy _
    rw [mul_comm y, mul_comm y, add_mul, add_mul, e _ _ _ _ p₁0.ne', e _ _ _ _ p₂0.ne']
    have a := worth_mono hr h (x₂₁ y hy) (x₂ y hy) h1
    have b : 0 ≤ (1 - r₂) * (y / p₂) + r₂ ^ 2 := by
      have := x₂ y hy
      have : 0 ≤ (1 - r₂) * (y / p₂) := mul_nonneg (by linarith) (by linarith)
      positivity
    have c := mul_le_mul hQ a b hQ₁.le
    nlinarith
  · intro y hy _
    rw [add_mul B, e Q₂ _ _ _ p₂0.ne', add_mul (B * y), add_mul B, e Q₁ _ _ _ p₁0.ne', add_mul (B * y)]
    have a := sold_mono hr h (x₂₁ y hy) (x₂ y hy) h1
    have b : 0 ≤ (1 - r₂) * (y / p₂) * (1 - r₂) + r₂ ^ 2 := by
      have := x₂ y hy
      have : 0 ≤ (1 - r₂) * (y / p₂) * (1 - r₂) := mul_nonneg (mul_nonneg (by linarith) (by linarith)) (by linarith)
      positivity
    have c := mul_le_mul hQ a b hQ₁.le
    have d : B * y * (1 - r₂) ≤ B * y * (1 - r₁) := mul_le_mul_of_nonneg_left (by linarith) (mul_nonneg hB (by linarith))
    nlinarith

/-! ## Two runs side by side -/

/-- What two stop traders hold and have ordered: nothing ordered yet; an order for all they hold; or an order that was executed and not yet
replaced, for more than they hold. -/
inductive Joint (m M r₁ r₂ : K) : K → K → K → K → List (Order K) → List (Order K) → Prop
  | start (b q) : 0 ≤ b → 0 ≤ q → Joint m M r₁ r₂ b q b q [] []
  | sameSell (b q P) : 0 < b → 0 ≤ q → Joint m M r₁ r₂ b q b q [sellOrder b P] [sellOrder b P]
  | sameBuy (b q P) : 0 ≤ b → 0 < q → Joint m M r₁ r₂ b q b q [buyOrder q P] [buyOrder q P]
  | cashBuy (q₁ q₂ P) : 0 < q₂ → q₂ ≤ q₁ → Joint m M r₁ r₂ 0 q₁ 0 q₂ [buyOrder q₁ P] [buyOrder q₂ P]
  | cashSell (q₁ q₂ x₁ x₂ P) : 0 < q₂ → q₂ ≤ q₁ → 0 < x₁ → 0 < x₂ → Joint m M r₁ r₂ 0 q₁ 0 q₂ [sellOrder x₁ P] [sellOrder x₂ P]
  | coinsSell (b₁ q₁ b₂ q₂ P) : Coins m M r₁ r₂ b₁ q₁ b₂ q₂ → Joint m M r₁ r₂ b₁ q₁ b₂ q₂ [sellOrder b₁ P] [sellOrder b₂ P]
  | coinsBuy (b₁ q₁ b₂ q₂ x₁ x₂ P) : Coins m M r₁ r₂ b₁ q₁ b₂ q₂ → 0 < x₁ → 0 < x₂ → q₁ < x₁ → q₂ < x₂ →
      Joint m M r₁ r₂ b₁ q₁ b₂ q₂ [buyOrder x₁ P] [buyOrder x₂ P]

/-- The first of two related accounts is worth at least as much. -/
theorem Joint.worth {m M r₁ r₂ b₁ q₁ b₂ q₂ : K} {os₁ os₂ : List (Order K)} (j : Joint m M r₁ r₂ b₁ q₁ b₂ q₂ os₁ os₂) {p : K} (h1 : m ≤ p) (h2 : p ≤ M) :
    q₂ + p * b₂ ≤ q₁ + p * b₁ := by
  cases j with
  | start | sameSell | sameBuy => exact le_rfl
  | cashBuy _ _ _ h h' => simpa using h'
  | cashSell _ _ _ _ _ h h' => simpa using h'
  | coinsSell _ _ _ _ _ h => exact h.value p h1 h2
  | coinsBuy _ _ _ _ _ _ _ h => exact h.value p h1 h2

/-- The common assumptions. -/
structure Setting (m M : K) (c₁ c₂ : AccountConfig K) : Prop where
  pos : 0 < m
  le : m ≤ M
  costs₁ : Proportional c₁
  costs₂ : Proportional c₂
  fees : c₁.stopFee.relativeFee ≤ c₂.stopFee.relativeFee
  liquid : c₂.marketLiquidity ≤ c₁.marketLiquidity
  small : 2 * c₂.stopFee.relativeFee * M ≤ m

theorem Setting.half {m M : K} {c₁ c₂ : AccountConfig K} (S : Setting m M c₁ c₂) : 2 * c₂.stopFee.relativeFee ≤ 1 := by
  by_contra hc
  push Not at hc
  nlinarith [S.small, S.pos, S.le]

/-- Selling everything, from a position in which the first account gains at least as much by selling. -/
theorem sold {m M : K} {c₁ c₂ : AccountConfig K} (S : Setting m M c₁ c₂) {b₁ q₁ b₂ q₂ P : K} (hb₁ : 0 < b₁) (hb₂ : 0 < b₂) (hq₂ : 0 ≤ q₂)
    (hsell : ∀ p, m ≤ p → p ≤ M → q₂ + b₂ * p * (1 - c₂.stopFee.relativeFee) ≤ q₁ + b₁ * p * (1 - c₁.stopFee.relativeFee))
    {t : OhlcTick K} (ht : Within m M t) (hP : t.low ≤ P) :
    0 < q₂ + b₂ * execPrice c₂.marketLiquidity t P .stop .sell * (1 - c₂.stopFee.relativeFee) ∧
    q₂ + b₂ * execPrice c₂.marketLiquidity t P .stop .sell * (1 - c₂.stopFee.relativeFee) ≤
      q₁ + b₁ * execPrice c₁.marketLiquidity t P .stop .sell * (1 - c₁.stopFee.relativeFee) := by
  have p₁ := sell_price ht S.costs₁.liquidity hP
  have p₂ := sell_price ht S.costs₂.liquidity hP
  have hp := Terms.sellPrice_better S.liquid t ht.opn.1 P .stop (by simpa [notReached] using hP)
  have hh := S.half
  have h0 := S.costs₁.relativeFee
  have hf := S.fees
  have hm := S.pos
  refine ⟨?_, (hsell _ p₂.1 p₂.2).trans ?_⟩
  · have : 0 < b₂ * execPrice c₂.marketLiquidity t P .stop .sell * (1 - c₂.stopFee.relativeFee) :=
      mul_pos (mul_pos hb₂ (by linarith [p₂.1])) (by linarith)
    linarith
  · have : b₁ * execPrice c₂.marketLiquidity t P .stop .sell * (1 - c₁.stopFee.relativeFee) ≤
        b₁ * execPrice c₁.marketLiquidity t P .stop .sell * (1 - c₁.stopFee.relativeFee) :=
      mul_le_mul_of_nonneg_right (mul_le_mul_of_nonneg_left hp hb₁.le) (by linarith)
    linarith

theorem execOrders_one {log : Bool} {c : AccountConfig K} {t : OhlcTick K} {o : Order K} {a : Account K} {n : ℕ} {r : Account K × ℕ}
    (h : (execOrders log c t [o] a n).out = .ok r) : ∃ d, a.executeOrder c o t = .ok (d, r.1) ∧ r.2 = if d then n + 1 else n := by
  rw [execOrders_cons] at h
  cases hx : a.executeOrder c o t with
  | error e => rw [hx] at h; cases h
  | ok p =>
    obtain ⟨d, w⟩ := p
    rw [hx] at h
    cases d with
    | false =>
      simp only [execOrders, Run.pure_eq, Run.ret] at h
      cases h
      exact ⟨false, rfl, rfl⟩
    | true =>
      simp only [execOrders, Run.pure_eq, Run.ret] at h
      cases h
      exact ⟨true, rfl, rfl⟩

/-- Two orders to sell at the same stop price, both affordable or both not. -/
theorem two_sells {m M : K} {c₁ c₂ : AccountConfig K} (S : Setting m M c₁ c₂) {t : OhlcTick K} (ht : Within m M t) {a₁ a₂ : Account K} {x₁ x₂ P : K}
    (h₁ : Plain c₁ a₁) (h₂ : Plain c₂ a₂) (hx₁ : 0 < x₁) (hx₂ : 0 < x₂) (hi : a₁.baseBalance < x₁ ↔ a₂.baseBalance < x₂) {l₁ l₂ : Bool} {n : ℕ} {w₁ w₂ : Account K × ℕ}
    (e₁ : (execOrders l₁ c₁ t [sellOrder x₁ P] a₁ n).out = .ok w₁) (e₂ : (execOrders l₂ c₂ t [sellOrder x₂ P] a₂ n).out = .ok w₂) :
    (w₁ = (a₁, n) ∧ w₂ = (a₂, n)) ∨
    (t.low ≤ P ∧ x₁ ≤ a₁.baseBalance ∧ Plain c₁ w₁.1 ∧ Plain c₂ w₂.1 ∧ w₁.2 = w₂.2 ∧
      w₁.1.baseBalance = a₁.baseBalance - x₁ ∧ w₂.1.baseBalance = a₂.baseBalance - x₂ ∧
      w₁.1.quoteBalance = a₁.quoteBalance + x₁ * execPrice c₁.marketLiquidity t P .stop .sell * (1 - c₁.stopFee.relativeFee) ∧
      w₂.1.quoteBalance = a₂.quoteBalance + x₂ * execPrice c₂.marketLiquidity t P .stop .sell * (1 - c₂.stopFee.relativeFee)) := by
  have hm := S.pos
  have hh := S.half
  have h0 := S.costs₁.relativeFee
  have hf := S.fees
  obtain ⟨d₁, x₁', n₁⟩ := execOrders_one e₁
  obtain ⟨d₂, x₂', n₂⟩ := execOrders_one e₂
  have r₁ := exec_sell S.costs₁ h₁ (by linarith) hx₁ (fun hP => lt_of_lt_of_le hm (sell_price ht S.costs₁.liquidity hP).1) x₁'
  have r₂ := exec_sell S.costs₂ h₂ (by linarith) hx₂ (fun hP => lt_of_lt_of_le hm (sell_price ht S.costs₂.liquidity hP).1) x₂'
  rcases r₁ with ⟨f₁, g₁, k₁⟩ | ⟨f₁, g₁, k₁, y₁, u₁, v₁⟩ <;> rcases r₂ with ⟨f₂, g₂, k₂⟩ | ⟨f₂, g₂, k₂, y₂, u₂, v₂⟩ <;> subst f₁ <;> subst f₂
  · exact .inl ⟨Prod.ext g₁ n₁, Prod.ext g₂ n₂⟩
  · exfalso
    rcases k₁ with k | k
    · exact absurd k₂ (not_le.mpr k)
    · exact absurd y₂ (not_le.mpr (hi.mp k))
  · exfalso
    rcases k₂ with k | k
    · exact absurd k₁ (not_le.mpr k)
    · exact absurd y₁ (not_le.mpr (hi.mpr k))
  · exact .inr ⟨k₁, y₁, g₁, g₂, by rw [n₁, n₂], u₁, u₂, v₁, v₂⟩

/-- Two orders to buy with all money at the same stop price. -/
theorem two_buys {m M : K} {c₁ c₂ : AccountConfig K} (S : Setting m M c₁ c₂) {t : OhlcTick K} (ht : Within m M t) {a₁ a₂ : Account K} {P : K}
    (h₁ : Plain c₁ a₁) (h₂ : Plain c₂ a₂) (hx₁ : 0 < a₁.quoteBalance) (hx₂ : 0 < a₂.quoteBalance) (hc₁ : a₁.quoteBalance ≤ m * FloatOps.maxFinite)
    (hc₂ : a₂.quoteBalance ≤ m * FloatOps.maxFinite) {l₁ l₂ : Bool} {n : ℕ} {w₁ w₂ : Account K × ℕ}
    (e₁ : (execOrders l₁ c₁ t [buyOrder a₁.quoteBalance P] a₁ n).out = .ok w₁) (e₂ : (execOrders l₂ c₂ t [buyOrder a₂.quoteBalance P] a₂ n).out = .ok w₂) :
    (w₁ = (a₁, n) ∧ w₂ = (a₂, n)) ∨
    (P ≤ t.high ∧ Plain c₁ w₁.1 ∧ Plain c₂ w₂.1 ∧ w₁.2 = w₂.2 ∧
      w₁.1.baseBalance = a₁.baseBalance + a₁.quoteBalance * (1 - c₁.stopFee.relativeFee) / execPrice c₁.marketLiquidity t P .stop .buy ∧
      w₂.1.baseBalance = a₂.baseBalance + a₂.quoteBalance * (1 - c₂.stopFee.relativeFee) / execPrice c₂.marketLiquidity t P .stop .buy ∧
      w₁.1.quoteBalance = a₁.quoteBalance - a₁.quoteBalance * (1 - c₁.stopFee.relativeFee ^ 2) ∧
      w₂.1.quoteBalance = a₂.quoteBalance - a₂.quoteBalance * (1 - c₂.stopFee.relativeFee ^ 2)) := by
  have hm := S.pos
  have hh := S.half
  have h0 := S.costs₁.relativeFee
  have hf := S.fees
  have cap : ∀ {q r p : K}, 0 < q → 0 ≤ r → m ≤ p → q ≤ m * FloatOps.maxFinite → q * (1 - r) / p ≤ FloatOps.maxFinite := by
    intro q r p hq hr hp hc
    have p0 : 0 < p := by linarith
    have hX : (0 : K) ≤ FloatOps.maxFinite := by
      by_contra hX
      push Not at hX
      nlinarith
    rw [div_le_iff₀ p0]
    nlinarith [mul_le_mul_of_nonneg_left hp hX]
  obtain ⟨d₁, x₁', n₁⟩ := execOrders_one e₁
  obtain ⟨d₂, x₂', n₂⟩ := execOrders_one e₂
  have r₁ := exec_buy S.costs₁ h₁ (by linarith) hx₁ (fun hP => lt_of_lt_of_le hm (buy_price ht S.costs₁.liquidity hP).1)
    (fun hP => cap hx₁ h0 (buy_price ht S.costs₁.liquidity hP).1 hc₁) x₁'
  have r₂ := exec_buy S.costs₂ h₂ (by linarith) hx₂ (fun hP => lt_of_lt_of_le hm (buy_price ht S.costs₂.liquidity hP).1)
    (fun hP => cap hx₂ (h0.trans hf) (buy_price ht S.costs₂.liquidity hP).1 hc₂) x₂'
  rcases r₁ with ⟨f₁, g₁, k₁⟩ | ⟨f₁, g₁, k₁, -, u₁, v₁⟩ <;> rcases r₂ with ⟨f₂, g₂, k₂⟩ | ⟨f₂, g₂, k₂, -, u₂, v₂⟩ <;> subst f₁ <;> subst f₂
  · exact .inl ⟨Prod.ext g₁ n₁, Prod.ext g₂ n₂⟩
  · exfalso
    rcases k₁ with k | k
    · exact absurd k₂ (not_le.mpr k)
    · exact absurd k (lt_irrefl _)
  · exfalso
    rcases k₂ with k | k
    · exact absurd k₁ (not_le.mpr k)
    · exact absurd k (lt_irrefl _)
  · exact .inr ⟨k₁, g₁, g₂, by rw [n₁, n₂], u₁, u₂, v₁, v₂⟩

/-- Money spent on coins grows at most by the factor `M / m` up to the highest price. -/
theorem stake_buy {m M r b q p : K} (hm : 0 < m) (hM : m ≤ M) (hr : 0 ≤ r) (hr1 : r ≤ 1) (hb : 0 ≤ b) (hq : 0 ≤ q) (hp : m ≤ p) :
    q - q * (1 - r ^ 2) + M * (b + q * (1 - r) / p) ≤ (q + M * b) * (M / m) := by
  have p0 : 0 < p := by linarith
  have hk : 1 ≤ M / m := by rw [le_div_iff₀ hm]; linarith
  have h1 : M * (q * (1 - r) / p) ≤ q * (1 - r) * (M / m) := by
    have : M * (q * (1 - r) / p) = q * (1 - r) * (M / p) := by ring
    rw [this]
    exact mul_le_mul_of_nonneg_left (div_le_div_of_nonneg_left (by linarith) hm hp) (mul_nonneg hq (by linarith))
  have h2 : M * b ≤ M * b * (M / m) := by nlinarith [mul_nonneg (by linarith : 0 ≤ M) hb]
  have h3 : q * r ^ 2 ≤ q * r * (M / m) := by
    have : r ^ 2 ≤ r * (M / m) := by nlinarith
    nlinarith
  nlinarith

/-- Selling coins gains at most their worth at the highest price. -/
theorem stake_sell {m M r b q p x : K} (hm : 0 < m) (hM : m ≤ M) (hr : 0 ≤ r) (hr1 : r ≤ 1) (hx : 0 ≤ x) (hb : x ≤ b) (hq : 0 ≤ q) (hp : m ≤ p) (hp' : p ≤ M) :
    q + x * p * (1 - r) + M * (b - x) ≤ (q + M * b) * (M / m) := by
  have hk : 1 ≤ M / m := by rw [le_div_iff₀ hm]; linarith
  have h1 : x * p * (1 - r) ≤ M * x := by
    have a : x * p * (1 - r) ≤ x * p := by nlinarith [mul_nonneg hx (by linarith : 0 ≤ p)]
    nlinarith
  have h2 : q + M * b ≤ (q + M * b) * (M / m) := by
    have : 0 ≤ q + M * b := by nlinarith
    nlinarith
  linarith

/-- A round of the exchange takes related accounts to related accounts; the money at stake grows at most by the factor `M / m`. -/
theorem exec_round {m M : K} {c₁ c₂ : AccountConfig K} (S : Setting m M c₁ c₂) {t : OhlcTick K} (ht : Within m M t) {a₁ a₂ : Account K} {os₁ os₂ : List (Order K)}
    (j : Joint m M c₁.stopFee.relativeFee c₂.stopFee.relativeFee a₁.baseBalance a₁.quoteBalance a₂.baseBalance a₂.quoteBalance os₁ os₂)
    (h₁ : Plain c₁ a₁) (h₂ : Plain c₂ a₂) (hcap : a₁.quoteBalance + M * a₁.baseBalance ≤ m * FloatOps.maxFinite) {l₁ l₂ : Bool} {n : ℕ} {w₁ w₂ : Account K × ℕ}
    (e₁ : (execOrders l₁ c₁ t os₁ a₁ n).out = .ok w₁) (e₂ : (execOrders l₂ c₂ t os₂ a₂ n).out = .ok w₂) :
    Joint m M c₁.stopFee.relativeFee c₂.stopFee.relativeFee w₁.1.baseBalance w₁.1.quoteBalance w₂.1.baseBalance w₂.1.quoteBalance os₁ os₂ ∧
      Plain c₁ w₁.1 ∧ Plain c₂ w₂.1 ∧ w₁.2 = w₂.2 ∧
      w₁.1.quoteBalance + M * w₁.1.baseBalance ≤ (a₁.quoteBalance + M * a₁.baseBalance) * (M / m) := by
  have hm := S.pos
  have hM : 0 < M := lt_of_lt_of_le S.pos S.le
  have hk : 1 ≤ M / m := by rw [le_div_iff₀ hm]; linarith [S.le]
  have hh := S.half
  have h0 := S.costs₁.relativeFee
  have hf := S.fees
  have keep : ∀ x : K, 0 ≤ x → x ≤ x * (M / m) := fun x hx => by nlinarith
  have hf₂ : 0 ≤ c₂.stopFee.relativeFee := h0.trans hf
  obtain ⟨b₁, hb₁⟩ : ∃ b, a₁.baseBalance = b := ⟨_, rfl⟩
  obtain ⟨q₁, hq₁⟩ : ∃ b, a₁.quoteBalance = b := ⟨_, rfl⟩
  obtain ⟨b₂, hb₂⟩ : ∃ b, a₂.baseBalance = b := ⟨_, rfl⟩
  obtain ⟨q₂, hq₂⟩ : ∃ b, a₂.quoteBalance = b := ⟨_, rfl⟩
  rw [hb₁, hq₁, hb₂, hq₂] at j
  rw [hb₁, hq₁] at hcap ⊢
  have left : ∀ q r : K, 0 < q → 0 ≤ r → 2 * r ≤ 1 → q - q * (1 - r ^ 2) < q := by
    intro q r hq hr h2
    have : 0 < q * (1 - r ^ 2) := mul_pos hq (by nlinarith)
    linarith
  have same : w₁ = (a₁, n) ∧ w₂ = (a₂, n) → 0 ≤ b₁ → 0 ≤ q₁ → Joint m M c₁.stopFee.relativeFee c₂.stopFee.relativeFee w₁.1.baseBalance w₁.1.quoteBalance w₂.1.baseBalance w₂.1.quoteBalance os₁ os₂ ∧
      Plain c₁ w₁.1 ∧ Plain c₂ w₂.1 ∧ w₁.2 = w₂.2 ∧ w₁.1.quoteBalance + M * w₁.1.baseBalance ≤ (q₁ + M * b₁) * (M / m) := by
    rintro ⟨rfl, rfl⟩ hb hq
    rw [hb₁, hq₁, hb₂, hq₂]
    exact ⟨j, h₁, h₂, rfl, keep _ (by positivity)⟩
  cases j with
  | start _ _ hb hq =>
    simp only [execOrders, Run.pure_eq, Run.ret] at e₁ e₂
    cases e₁; cases e₂
    exact same ⟨rfl, rfl⟩ hb hq
  | sameSell _ _ P hb hq =>
    rcases two_sells S ht h₁ h₂ hb hb (by rw [hb₁, hb₂]) e₁ e₂ with h | ⟨hP, -, g₁, g₂, hn, u₁, u₂, v₁, v₂⟩
    · exact same h hb.le hq
    · rw [hb₁, sub_self] at u₁
      rw [hb₂, sub_self] at u₂
      rw [hq₁] at v₁
      rw [hq₂] at v₂
      obtain ⟨s₁, s₂⟩ := sold (q₁ := q₁) S hb hb hq (fun p hp _ => by
        have : b₁ * p * (1 - c₂.stopFee.relativeFee) ≤ b₁ * p * (1 - c₁.stopFee.relativeFee) :=
          mul_le_mul_of_nonneg_left (by linarith) (mul_nonneg hb.le (by linarith))
        linarith) ht hP
      have pr := sell_price ht S.costs₁.liquidity hP
      have st := stake_sell hm S.le h0 (by linarith) hb.le le_rfl hq pr.1 pr.2
      rw [sub_self] at st
      rw [u₁, u₂, v₁, v₂]
      exact ⟨.cashSell _ _ _ _ _ s₁ s₂ hb hb, g₁, g₂, hn, st⟩
  | sameBuy _ _ P hb hq =>
    have c1 : q₁ ≤ m * FloatOps.maxFinite := by nlinarith
    rcases two_buys S ht h₁ h₂ (by rw [hq₁]; exact hq) (by rw [hq₂]; exact hq) (by rw [hq₁]; exact c1) (by rw [hq₂]; exact c1) (P := P) (by rw [hq₁]; exact e₁) (by rw [hq₂]; exact e₂)
      with h | ⟨hP, g₁, g₂, hn, u₁, u₂, v₁, v₂⟩
    · exact same h hb hq.le
    · rw [hb₁, hq₁] at u₁
      rw [hb₂, hq₂] at u₂
      rw [hq₁] at v₁
      rw [hq₂] at v₂
      have pr₁ := buy_price ht S.costs₁.liquidity hP
      have pr₂ := buy_price ht S.costs₂.liquidity hP
      have hpp := (Terms.buyPrice_better S.liquid S.costs₁.liquidity.2 t (by linarith [ht.low, ht.opn.1]) ht.opn.2 P .stop (by simpa [notReached] using hP) (by linarith [pr₂.1])).2
      have en := enter_coins hm h0 hf S.small hb hq le_rfl pr₁.1 hpp pr₂.2
      have st := stake_buy hm S.le h0 (by linarith) hb hq.le pr₁.1
      rw [u₁, u₂, v₁, v₂]
      refine ⟨.coinsBuy _ _ _ _ _ _ _ en hq hq ?_ ?_, g₁, g₂, hn, st⟩
      · exact left _ _ (by assumption) h0 (by linarith)
      · exact left _ _ (by assumption) hf₂ hh
  | cashBuy _ _ P hq hqq =>
    have hq1 : 0 < q₁ := by linarith
    have c1 : q₁ ≤ m * FloatOps.maxFinite := by nlinarith
    rcases two_buys S ht h₁ h₂ (by rw [hq₁]; exact hq1) (by rw [hq₂]; exact hq) (by rw [hq₁]; exact c1) (by rw [hq₂]; exact hqq.trans c1) (P := P) (by rw [hq₁]; exact e₁) (by rw [hq₂]; exact e₂)
      with h | ⟨hP, g₁, g₂, hn, u₁, u₂, v₁, v₂⟩
    · exact same h le_rfl hq1.le
    · rw [hb₁, hq₁] at u₁
      rw [hb₂, hq₂] at u₂
      rw [hq₁] at v₁
      rw [hq₂] at v₂
      have pr₁ := buy_price ht S.costs₁.liquidity hP
      have pr₂ := buy_price ht S.costs₂.liquidity hP
      have hpp := (Terms.buyPrice_better S.liquid S.costs₁.liquidity.2 t (by linarith [ht.low, ht.opn.1]) ht.opn.2 P .stop (by simpa [notReached] using hP) (by linarith [pr₂.1])).2
      have en := enter_coins hm h0 hf S.small le_rfl hq hqq pr₁.1 hpp pr₂.2
      have st := stake_buy (b := 0) hm S.le h0 (by linarith) le_rfl hq1.le pr₁.1
      rw [u₁, u₂, v₁, v₂]
      refine ⟨.coinsBuy _ _ _ _ _ _ _ en hq1 hq ?_ ?_, g₁, g₂, hn, st⟩
      · exact left _ _ (by assumption) h0 (by linarith)
      · exact left _ _ (by assumption) hf₂ hh
  | cashSell _ _ x₁ x₂ P hq hqq hx₁ hx₂ =>
    rcases two_sells S ht h₁ h₂ hx₁ hx₂ (by rw [hb₁, hb₂]; exact ⟨fun _ => hx₂, fun _ => hx₁⟩) e₁ e₂ with h | ⟨-, hx, -⟩
    · exact same h le_rfl (hq.le.trans hqq)
    · rw [hb₁] at hx; linarith
  | coinsSell _ _ _ _ P hC =>
    have hb := hC.base₁
    rcases two_sells S ht h₁ h₂ hb hC.base₂ (by rw [hb₁, hb₂]; simp) e₁ e₂ with h | ⟨hP, -, g₁, g₂, hn, u₁, u₂, v₁, v₂⟩
    · exact same h hb.le hC.quote₁
    · rw [hb₁, sub_self] at u₁
      rw [hb₂, sub_self] at u₂
      rw [hq₁] at v₁
      rw [hq₂] at v₂
      obtain ⟨s₁, s₂⟩ := sold S hb hC.base₂ hC.quote₂ hC.sell ht hP
      have pr := sell_price ht S.costs₁.liquidity hP
      have st := stake_sell hm S.le h0 (by linarith) hb.le le_rfl hC.quote₁ pr.1 pr.2
      rw [sub_self] at st
      rw [u₁, u₂, v₁, v₂]
      exact ⟨.cashSell _ _ _ _ _ s₁ s₂ hb hC.base₂, g₁, g₂, hn, st⟩
  | coinsBuy _ _ _ _ x₁ x₂ P hC hx₁ hx₂ hy₁ hy₂ =>
    obtain ⟨d₁, y₁, n₁⟩ := execOrders_one e₁
    obtain ⟨d₂, y₂, n₂⟩ := execOrders_one e₂
    obtain ⟨f₁, z₁⟩ := exec_refused h₁ (by rw [hq₁]; exact hy₁) y₁
    obtain ⟨f₂, z₂⟩ := exec_refused h₂ (by rw [hq₂]; exact hy₂) y₂
    subst f₁ f₂
    exact same ⟨Prod.ext z₁ n₁, Prod.ext z₂ n₂⟩ hC.base₁.le hC.quote₁

/-! ## The loop -/

section loop
variable [Libm K]

/-- The states of the two runs before a tick. -/
structure Related (m M W : K) (c₁ c₂ : AccountConfig K) (k : ℕ) (s₁ s₂ : ExecState K (StopState K)) : Prop where
  joint : Joint m M c₁.stopFee.relativeFee c₂.stopFee.relativeFee s₁.account.baseBalance s₁.account.quoteBalance s₂.account.baseBalance s₂.account.quoteBalance
    s₁.orders s₂.orders
  plain₁ : Plain c₁ s₁.account
  plain₂ : Plain c₂ s₂.account
  executed : s₁.executed = s₂.executed
  lastTs : s₁.trader.lastTs = s₂.trader.lastTs
  mode : s₁.trader.mode = s₂.trader.mode
  stopPrice : s₁.trader.stopPrice = s₂.trader.stopPrice
  stake : s₁.account.quoteBalance + M * s₁.account.baseBalance ≤ W * (M / m) ^ k

/-- Both accounts are long, or both are in cash; the new orders are for all they hold. -/
theorem Joint.update {m M r₁ r₂ b₁ q₁ b₂ q₂ : K} {os₁ os₂ : List (Order K)} (j : Joint m M r₁ r₂ b₁ q₁ b₂ q₂ os₁ os₂) {p : K} (h1 : m ≤ p) (h0 : 0 < m)
    (hb : 0 < b₁ ∨ 0 < q₁) (P : K) :
    (q₁ ≤ b₁ * p ∧ q₂ ≤ b₂ * p ∧ Joint m M r₁ r₂ b₁ q₁ b₂ q₂ [sellOrder b₁ P] [sellOrder b₂ P]) ∨
    (¬ q₁ ≤ b₁ * p ∧ ¬ q₂ ≤ b₂ * p ∧ Joint m M r₁ r₂ b₁ q₁ b₂ q₂ [buyOrder q₁ P] [buyOrder q₂ P]) := by
  have same : 0 ≤ b₁ → 0 ≤ q₁ → b₁ = b₂ → q₁ = q₂ → _ := fun (hb0 : 0 ≤ b₁) (hq0 : 0 ≤ q₁) e f =>
    show (q₁ ≤ b₁ * p ∧ q₂ ≤ b₂ * p ∧ Joint m M r₁ r₂ b₁ q₁ b₂ q₂ [sellOrder b₁ P] [sellOrder b₂ P]) ∨
      (¬ q₁ ≤ b₁ * p ∧ ¬ q₂ ≤ b₂ * p ∧ Joint m M r₁ r₂ b₁ q₁ b₂ q₂ [buyOrder q₁ P] [buyOrder q₂ P]) by
      subst e f
      by_cases h : q₁ ≤ b₁ * p
      · refine .inl ⟨h, h, .sameSell _ _ _ ?_ hq0⟩
        rcases hb with hb | hb
        · exact hb
        · by_contra hc
          have : b₁ = 0 := le_antisymm (not_lt.mp hc) hb0
          rw [this, zero_mul] at h
          linarith
      · refine .inr ⟨h, h, .sameBuy _ _ _ hb0 ?_⟩
        push Not at h
        exact lt_of_le_of_lt (mul_nonneg hb0 (by linarith)) h
  have cash : b₁ = 0 → b₂ = 0 → 0 < q₂ → q₂ ≤ q₁ → _ := fun e f (hq : 0 < q₂) (hqq : q₂ ≤ q₁) =>
    show (q₁ ≤ b₁ * p ∧ q₂ ≤ b₂ * p ∧ Joint m M r₁ r₂ b₁ q₁ b₂ q₂ [sellOrder b₁ P] [sellOrder b₂ P]) ∨
      (¬ q₁ ≤ b₁ * p ∧ ¬ q₂ ≤ b₂ * p ∧ Joint m M r₁ r₂ b₁ q₁ b₂ q₂ [buyOrder q₁ P] [buyOrder q₂ P]) by
      subst e f
      refine .inr ⟨by rw [zero_mul]; linarith, by rw [zero_mul]; linarith, .cashBuy _ _ _ hq hqq⟩
  have coins : Coins m M r₁ r₂ b₁ q₁ b₂ q₂ → _ := fun hC =>
    show (q₁ ≤ b₁ * p ∧ q₂ ≤ b₂ * p ∧ Joint m M r₁ r₂ b₁ q₁ b₂ q₂ [sellOrder b₁ P] [sellOrder b₂ P]) ∨
      (¬ q₁ ≤ b₁ * p ∧ ¬ q₂ ≤ b₂ * p ∧ Joint m M r₁ r₂ b₁ q₁ b₂ q₂ [buyOrder q₁ P] [buyOrder q₂ P]) from
      .inl ⟨hC.mode₁.trans (mul_le_mul_of_nonneg_left h1 hC.base₁.le), hC.mode₂.trans (mul_le_mul_of_nonneg_left h1 hC.base₂.le), .coinsSell _ _ _ _ _ hC⟩
  cases j with
  | start _ _ hb hq => exact same hb hq rfl rfl
  | sameSell _ _ _ hb hq => exact same hb.le hq rfl rfl
  | sameBuy _ _ _ hb hq => exact same hb hq.le rfl rfl
  | cashBuy _ _ _ h h' => exact cash rfl rfl h h'
  | cashSell _ _ _ _ _ h h' => exact cash rfl rfl h h'
  | coinsSell _ _ _ _ _ h => exact coins h
  | coinsBuy _ _ _ _ _ _ _ h => exact coins h

theorem nextStop_congr (cfg : StopConfig K) {s₁ s₂ : StopState K} {t : OhlcTick K} {b₁ q₁ b₂ q₂ : K} (h1 : s₁.lastTs = s₂.lastTs) (h2 : s₁.mode = s₂.mode)
    (h3 : s₁.stopPrice = s₂.stopPrice) (hm : q₁ ≤ b₁ * t.close ↔ q₂ ≤ b₂ * t.close) :
    stopMode t.close b₁ q₁ = stopMode t.close b₂ q₂ ∧ nextStop cfg s₁ t b₁ q₁ = nextStop cfg s₂ t b₂ q₂ := by
  have e : stopMode t.close b₁ q₁ = stopMode t.close b₂ q₂ := by simp [stopMode, hm]
  refine ⟨e, ?_⟩
  simp only [nextStop, e, h1, h2, h3, ex_le, ex_mul, hm]

theorem step_related {m M W : K} {c₁ c₂ : AccountConfig K} (S : Setting m M c₁ c₂) (fmt₁ fmt₂ : Format K) (cfg : StopConfig K) {k : ℕ}
    (hcap : W * (M / m) ^ k ≤ m * FloatOps.maxFinite) {side₁ side₂ : Option (SideInput K)} {fast₁ fast₂ log₁ log₂ : Bool} {t : OhlcTick K} (ht : Within m M t)
    {s₁ s₂ w₁ w₂ : ExecState K (StopState K)} (R : Related m M W c₁ c₂ k s₁ s₂)
    (e₁ : (tickStep c₁ side₁ (stopTrader fmt₁ cfg) fast₁ log₁ s₁ t).out = .ok w₁) (e₂ : (tickStep c₂ side₂ (stopTrader fmt₂ cfg) fast₂ log₂ s₂ t).out = .ok w₂) :
    Related m M W c₁ c₂ (k + 1) w₁ w₂ := by
  have split : ∀ {c : AccountConfig K} {side : Option (SideInput K)} {fmt : Format K} {fast log : Bool} {s w : ExecState K (StopState K)},
      (tickStep c side (stopTrader fmt cfg) fast log s t).out = .ok w → ∃ r, (execOrders log c t s.orders s.account s.executed).out = .ok r ∧
        w.account = r.1 ∧ w.executed = r.2 ∧
        ((active t = false ∧ w.orders = s.orders ∧ w.trader = s.trader) ∨
          (active t = true ∧ ∃ sg, stopUpdate cfg s.trader t sg r.1.baseBalance r.1.quoteBalance = .ok (w.trader, w.orders))) := by
    intro c side fmt fast log s w h
    rw [tickStep_eq] at h
    cases hsg : sideStep side t.ts s.signals s.prevIndex with
    | error e => rw [hsg] at h; cases h
    | ok sg =>
      rw [hsg] at h
      dsimp only at h
      cases hx : (execOrders log c t s.orders s.account s.executed).out with
      | error e => rw [hx] at h; cases h
      | ok r =>
        rw [hx] at h
        dsimp only at h
        refine ⟨r, rfl, ?_⟩
        split at h
        · rename_i ha
          rw [traderStep_eq] at h
          dsimp only at h
          cases hu : stopUpdate cfg s.trader t sg.1 r.1.baseBalance r.1.quoteBalance with
          | error e => rw [hu] at h; cases h
          | ok u =>
            rw [hu] at h
            obtain ⟨v1, -, -, v4, v5, v6⟩ := volPart_ok h
            refine ⟨v1, v5, .inr ⟨ha, sg.1, ?_⟩⟩
            rw [v4, v6]
            exact hu
        · rename_i ha
          cases h
          exact ⟨rfl, rfl, .inl ⟨by simpa using ha, rfl, rfl⟩⟩
  obtain ⟨x₁, h₁, a₁, n₁, u₁⟩ := split e₁
  obtain ⟨x₂, h₂, a₂, n₂, u₂⟩ := split e₂
  rw [← R.executed] at h₂
  obtain ⟨j, p₁, p₂, hn, st⟩ := exec_round S ht R.joint R.plain₁ R.plain₂ (R.stake.trans hcap) h₁ h₂
  have hk : 0 ≤ M / m := div_nonneg (by linarith [S.pos, S.le]) S.pos.le
  have stake : x₁.1.quoteBalance + M * x₁.1.baseBalance ≤ W * (M / m) ^ (k + 1) := by
    rw [pow_succ, ← mul_assoc]
    exact st.trans (mul_le_mul_of_nonneg_right R.stake hk)
  rcases u₁ with ⟨ha, o₁, t₁⟩ | ⟨ha, sg₁, u₁⟩ <;> rcases u₂ with ⟨ha', o₂, t₂⟩ | ⟨ha', sg₂, u₂⟩
  · exact ⟨by rw [a₁, a₂, o₁, o₂]; exact j, by rw [a₁]; exact p₁, by rw [a₂]; exact p₂, by rw [n₁, n₂, hn], by rw [t₁, t₂]; exact R.lastTs,
      by rw [t₁, t₂]; exact R.mode, by rw [t₁, t₂]; exact R.stopPrice, by rw [a₁]; exact stake⟩
  · rw [ha] at ha'; cases ha'
  · rw [ha] at ha'; cases ha'
  · obtain ⟨-, -, hb, t₁, o₁⟩ := stopUpdate_ok (sg := sg₁) u₁
    obtain ⟨-, -, -, t₂, o₂⟩ := stopUpdate_ok (sg := sg₂) u₂
    have hcl : m ≤ t.close := ht.low.trans ht.close.1
    have hm : (x₁.1.quoteBalance ≤ x₁.1.baseBalance * t.close ↔ x₂.1.quoteBalance ≤ x₂.1.baseBalance * t.close) ∧
        Joint m M c₁.stopFee.relativeFee c₂.stopFee.relativeFee x₁.1.baseBalance x₁.1.quoteBalance x₂.1.baseBalance x₂.1.quoteBalance w₁.orders w₂.orders := by
      have hb' : 0 < x₁.1.baseBalance ∨ 0 < x₁.1.quoteBalance := by simpa using hb
      rcases j.update hcl S.pos hb' (nextStop cfg s₁.trader t x₁.1.baseBalance x₁.1.quoteBalance) with ⟨g₁, g₂, j'⟩ | ⟨g₁, g₂, j'⟩
      · have hi : (x₁.1.quoteBalance ≤ x₁.1.baseBalance * t.close ↔ x₂.1.quoteBalance ≤ x₂.1.baseBalance * t.close) := ⟨fun _ => g₂, fun _ => g₁⟩
        refine ⟨hi, ?_⟩
        have en := (nextStop_congr cfg R.lastTs R.mode R.stopPrice hi).2
        rw [o₁, o₂, ← en, if_pos (by simpa using g₁), if_pos (by simpa using g₂)]
        exact j'
      · have hi : (x₁.1.quoteBalance ≤ x₁.1.baseBalance * t.close ↔ x₂.1.quoteBalance ≤ x₂.1.baseBalance * t.close) := ⟨fun h => absurd h g₁, fun h => absurd h g₂⟩
        refine ⟨hi, ?_⟩
        have en := (nextStop_congr cfg R.lastTs R.mode R.stopPrice hi).2
        rw [o₁, o₂, ← en, if_neg (by simpa using g₁), if_neg (by simpa using g₂)]
        exact j'
    obtain ⟨em, en⟩ := nextStop_congr cfg R.lastTs R.mode R.stopPrice hm.1
    exact ⟨by rw [a₁, a₂]; exact hm.2, by rw [a₁]; exact p₁, by rw [a₂]; exact p₂, by rw [n₁, n₂, hn], by rw [t₁, t₂],
      by rw [t₁, t₂]; exact em, by rw [t₁, t₂]; exact en, by rw [a₁]; exact stake⟩

theorem loop_related {m M W : K} {c₁ c₂ : AccountConfig K} (S : Setting m M c₁ c₂) (hW : 0 ≤ W) (fmt₁ fmt₂ : Format K) (cfg : StopConfig K)
    {side₁ side₂ : Option (SideInput K)} {fast₁ fast₂ log₁ log₂ : Bool} : ∀ (ticks : List (OhlcTick K)) (k : ℕ) (s₁ s₂ : ExecState K (StopState K)),
    (∀ t ∈ ticks, Within m M t) → W * (M / m) ^ (k + ticks.length) ≤ m * FloatOps.maxFinite → Related m M W c₁ c₂ k s₁ s₂ → ∀ w₁ w₂,
    (ticks.foldlM (tickStep c₁ side₁ (stopTrader fmt₁ cfg) fast₁ log₁) s₁).out = .ok w₁ →
    (ticks.foldlM (tickStep c₂ side₂ (stopTrader fmt₂ cfg) fast₂ log₂) s₂).out = .ok w₂ → Related m M W c₁ c₂ (k + ticks.length) w₁ w₂
  | [], k, s₁, s₂, _, _, R, w₁, w₂, h₁, h₂ => by
    rw [List.foldlM_nil] at h₁ h₂
    cases h₁; cases h₂
    exact R
  | t :: ticks, k, s₁, s₂, ht, hcap, R, w₁, w₂, h₁, h₂ => by
    rw [List.foldlM_cons, Run.bind_eq] at h₁ h₂
    have hk1 : 1 ≤ M / m := by rw [le_div_iff₀ S.pos]; linarith [S.le]
    have hk : W * (M / m) ^ k ≤ m * FloatOps.maxFinite := by
      refine le_trans (mul_le_mul_of_nonneg_left (pow_le_pow_right₀ hk1 (by omega)) hW) hcap
    cases x₁ : (tickStep c₁ side₁ (stopTrader fmt₁ cfg) fast₁ log₁ s₁ t).out with
    | error e => rw [Run.andThen_error x₁] at h₁; cases h₁
    | ok u₁ =>
      cases x₂ : (tickStep c₂ side₂ (stopTrader fmt₂ cfg) fast₂ log₂ s₂ t).out with
      | error e => rw [Run.andThen_error x₂] at h₂; cases h₂
      | ok u₂ =>
        rw [Run.andThen_ok x₁] at h₁
        rw [Run.andThen_ok x₂] at h₂
        have R' := step_related S fmt₁ fmt₂ cfg hk (ht t (by simp)) R x₁ x₂
        have := loop_related S hW fmt₁ fmt₂ cfg ticks (k + 1) u₁ u₂ (fun t h => ht t (by simp [h]))
          (by rw [List.length_cons] at hcap; rw [show k + 1 + ticks.length = k + (ticks.length + 1) by omega]; exact hcap) R' w₁ w₂ h₁ h₂
        rw [List.length_cons, show k + (ticks.length + 1) = k + 1 + ticks.length by omega]
        exact this

/-- **C123**. Two exchanges without rounding on which a stop order costs a share of its value, the first one at most as much as the second, and is executed at
least as favourably; the same stop trader with the same start on the same ticks, with prices between `m` and `M`, and the share at most `m / (2 M)`. Both runs
execute equally many orders, and the first one ends with at least as much. (No amount leaves the range of a float.) -/
theorem C123_costs {m M : K} (hm : 0 < m) {c₁ c₂ : AccountConfig K} (h₁ : Proportional c₁) (h₂ : Proportional c₂)
    (hbase : c₁.startBase = c₂.startBase) (hquote : c₁.startQuote = c₂.startQuote) (hfee : c₁.stopFee.relativeFee ≤ c₂.stopFee.relativeFee)
    (hliq : c₂.marketLiquidity ≤ c₁.marketLiquidity) (hsmall : 2 * c₂.stopFee.relativeFee * M ≤ m) (fmt₁ fmt₂ : Format K) (cfg : StopConfig K)
    (ticks : List (OhlcTick K)) (ht : ∀ t ∈ ticks, Within m M t)
    (hcap : (c₁.startQuote + M * c₁.startBase) * (M / m) ^ ticks.length ≤ m * FloatOps.maxFinite)
    (side₁ side₂ : Option (SideInput K)) (fast₁ fast₂ log₁ log₂ : Bool) {r₁ r₂ : ExecutionResult K}
    (e₁ : (executeTrader c₁ ticks side₁ fast₁ (stopTrader fmt₁ cfg) .init log₁).out = .ok r₁)
    (e₂ : (executeTrader c₂ ticks side₂ fast₂ (stopTrader fmt₂ cfg) .init log₂).out = .ok r₂) :
    r₂.startValue = r₁.startValue ∧ r₂.totalExecutedOrders = r₁.totalExecutedOrders ∧ r₂.endValue ≤ r₁.endValue := by
  cases ticks with
  | nil => cases e₁; cases e₂; exact ⟨rfl, rfl, le_rfl⟩
  | cons t rest =>
    have hw := ht t (by simp)
    have S : Setting m M c₁ c₂ := ⟨hm, hw.low.trans (hw.opn.1.trans (hw.opn.2.trans hw.high)), h₁, h₂, hfee, hliq, hsmall⟩
    have hM : 0 < M := lt_of_lt_of_le hm S.le
    rw [executeTrader_eq _ _ _ _ _ _ _ (by simp)] at e₁ e₂
    cases x₁ : (execLoop c₁ (t :: rest) side₁ fast₁ (stopTrader fmt₁ cfg) .init log₁).out with
    | error e => rw [x₁] at e₁; cases e₁
    | ok w₁ =>
      cases x₂ : (execLoop c₂ (t :: rest) side₂ fast₂ (stopTrader fmt₂ cfg) .init log₂).out with
      | error e => rw [x₂] at e₂; cases e₂
      | ok w₂ =>
        rw [x₁] at e₁
        rw [x₂] at e₂
        have hW : 0 ≤ c₁.startQuote + M * c₁.startBase := add_nonneg h₁.startQuote (mul_nonneg hM.le h₁.startBase)
        have R0 : Related m M (c₁.startQuote + M * c₁.startBase) c₁ c₂ 0 (execStart c₁ (stopTrader fmt₁ cfg) .init) (execStart c₂ (stopTrader fmt₂ cfg) .init) := by
          have hz : ∀ y : K, roundUnit y (0 : K) = y := fun y => by simp [roundUnit]
          refine ⟨?_, ⟨h₁.baseUnit, h₁.quoteUnit, rfl⟩, ⟨h₂.baseUnit, h₂.quoteUnit, rfl⟩, rfl, rfl, rfl, rfl, ?_⟩
          · simp only [execStart, Account.init, h₁.baseUnit, h₁.quoteUnit, h₂.baseUnit, h₂.quoteUnit, hz, ← hbase, ← hquote]
            exact .start _ _ h₁.startBase h₁.startQuote
          · simp only [execStart, Account.init, h₁.baseUnit, h₁.quoteUnit, hz, pow_zero, mul_one]
            exact le_rfl
        have R := loop_related S hW fmt₁ fmt₂ cfg (t :: rest) 0 _ _ ht (by simpa using hcap) R0 w₁ w₂ x₁ x₂
        have hl := ht _ (List.getLast_mem (by simp : t :: rest ≠ []))
        have worth := R.joint.worth (hl.low.trans hl.close.1) (hl.close.2.trans hl.high)
        cases e₁
        cases e₂
        refine ⟨?_, R.executed.symm, ?_⟩
        · simp only [execResult, hbase, hquote]
        · simpa [execResult] using worth

end loop

end
/-! ## The hypotheses are met, and needed -/

section witness
attribute [local instance] evLibm

/-- A stop order costs the share `r` of its value. -/
def share (r liquidity : ℚ) : AccountConfig ℚ := ⟨0, 100, 0, 0, ⟨0, 0, 0⟩, ⟨r, 0, 0⟩, ⟨0, 0, 0⟩, liquidity, 1⟩
def format : Format ℚ := ⟨fun _ => "", fun _ _ => ""⟩
def tenth : StopConfig ℚ := ⟨1 / 10, 1 / 10, 1 / 100, 1 / 100⟩

/-- The market rises (the trader buys), falls (it sells) and rises again. -/
def market : List (OhlcTick ℚ) := [⟨60, 10, 10, 10, 10, 1⟩, ⟨120, 10, 12, 10, 12, 1⟩, ⟨180, 12, 12, 9, 9, 1⟩, ⟨240, 9, 11, 9, 11, 0⟩, ⟨300, 11, 12, 11, 12, 1⟩]

/-- The price collapses after the purchase. -/
def collapse : List (OhlcTick ℚ) := [⟨60, 10, 10, 10, 10, 1⟩, ⟨120, 10, 12, 10, 12, 1⟩, ⟨180, 1 / 10, 1 / 10, 1 / 10, 1 / 10, 1⟩]

/-- The end of a run: the number of executed orders and the value. -/
def ending (c : AccountConfig ℚ) (ticks : List (OhlcTick ℚ)) : Option (ℕ × ℚ) :=
  ((executeTrader c ticks none true (stopTrader format tenth) .init false).out.map fun r => (r.totalExecutedOrders, r.endValue)).toOption

theorem share_ok {r liquidity : ℚ} (h : 0 ≤ r) (hl : 0 ≤ liquidity ∧ liquidity ≤ 1) : Proportional (share r liquidity) :=
  ⟨rfl, rfl, rfl, rfl, h, hl, le_rfl, by norm_num [share]⟩

theorem market_within : ∀ t ∈ market, Within 9 12 t := by
  intro t h
  simp only [market, List.mem_cons, List.not_mem_nil, or_false] at h
  rcases h with rfl | rfl | rfl | rfl | rfl <;> constructor <;> norm_num

/-- Three orders are executed, and the better terms leave more. -/
example : ending (share (1 / 100) 1) market = some (3, 577476119 / 5000000) ∧ ending (share (1 / 10) (1 / 2)) market = some (3, 88697203 / 1201750) := by decide +kernel

example {r₁ r₂ : ExecutionResult ℚ} := C123_costs (m := 9) (M := 12) (by norm_num) (c₁ := share (1 / 100) 1) (c₂ := share (1 / 10) (1 / 2)) (share_ok (by norm_num) (by norm_num))
  (share_ok (by norm_num) (by norm_num)) rfl rfl (by norm_num [share]) (by norm_num [share]) (by norm_num [share]) format format tenth market market_within
  (by simp only [share, market, ex_maxFinite, maxFiniteRat, List.length_cons, List.length_nil]; norm_num) none none true true false false (r₁ := r₁) (r₂ := r₂)

/-- **C123** (limit). The share must be small compared to the fall of the prices: of the money that is spent the share `r` is taken twice into account
(`BuyAtQuote` reserves the fee for the whole amount), so `r²` of it stays behind, safe from a collapse of the price. -/
theorem C123_collapse : ending (share 0 1) collapse = some (2, 10 / 11) ∧ ending (share (1 / 2) 1) collapse = some (2, 555 / 22) := by decide +kernel

end witness

end Verif.Props.Costs
