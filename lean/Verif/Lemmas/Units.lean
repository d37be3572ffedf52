import Verif.Spec.Units

/-!
# Lemmas for the unit of the quote currency: the account
-/

namespace Verif.Units
open Verif FloatOps Spec.Units

variable {K : Type} [Field K] [LinearOrder K] [IsStrictOrderedRing K] [FloorRing K] {c : K}

theorem div_scale (hc : 0 < c) (x u : K) : c * x / (c * u) = x / u := mul_div_mul_left x u hc.ne'

theorem floorUnit_scale (hc : 0 < c) (x u : K) : floorUnit (c * x) (c * u) = c * floorUnit x u := by
  simp only [floorUnit, ex_lt, ex_mul, ex_floor, ex_div, lit, ex_ofRat, Rat.cast_zero, decide_eq_true_eq, mul_pos_iff_of_pos_left hc, div_scale hc]
  split <;> ring

theorem ceilUnit_scale (hc : 0 < c) (x u : K) : ceilUnit (c * x) (c * u) = c * ceilUnit x u := by
  simp only [ceilUnit, ex_lt, ex_mul, ex_ceil, ex_div, lit, ex_ofRat, Rat.cast_zero, decide_eq_true_eq, mul_pos_iff_of_pos_left hc, div_scale hc]
  split <;> ring

theorem roundUnit_scale (hc : 0 < c) (x u : K) : roundUnit (c * x) (c * u) = c * roundUnit x u := by
  simp only [roundUnit, ex_lt, ex_mul, ex_round, ex_div, lit, ex_ofRat, Rat.cast_zero, decide_eq_true_eq, mul_pos_iff_of_pos_left hc, div_scale hc]
  split <;> ring

theorem lt_scale (hc : 0 < c) (x y : K) : (c * x <. c * y) = (x <. y) := by
  simp only [ex_lt, decide_eq_decide]; exact mul_lt_mul_iff_right₀ hc

theorem le_scale (hc : 0 < c) (x y : K) : (c * x <=. c * y) = (x <=. y) := by
  simp only [ex_le, decide_eq_decide]; exact mul_le_mul_iff_right₀ hc

theorem pos_scale (hc : 0 < c) (x : K) : (lit K 0 <. c * x) = (lit K 0 <. x) := by
  simp only [ex_lt, lit, ex_ofRat, Rat.cast_zero, decide_eq_decide]; exact mul_pos_iff_of_pos_left hc

theorem nonneg_scale (hc : 0 < c) (x : K) : (lit K 0 <=. c * x) = (lit K 0 <=. x) := by
  simp only [ex_le, lit, ex_ofRat, Rat.cast_zero, decide_eq_decide]; exact mul_nonneg_iff_of_pos_left hc

theorem max_scale (hc : 0 < c) (x y : K) : fmax (c * x) (c * y) = c * fmax x y := by
  simp only [ex_fmax]; exact (mul_max_of_nonneg x y hc.le).symm

theorem min_scale (hc : 0 < c) (x y : K) : fmin (c * x) (c * y) = c * fmin x y := by
  simp only [ex_fmin]; exact (mul_min_of_nonneg x y hc.le).symm

/-- What an account operation returns, in the new unit. -/
def answer (c : K) (r : Res (Bool × Account K)) : Res (Bool × Account K) := r.map fun x => (x.1, account c x.2)

theorem getFee_scale (hc : 0 < c) (a : Account K) (f : FeeConfig K) (x : K) : (account c a).getFee (fee c f) (c * x) = c * a.getFee f x := by
  have : c * f.fixedFee + c * x * f.relativeFee = c * (f.fixedFee + x * f.relativeFee) := by ring
  simp only [Account.getFee, account, fee, ex_add, ex_mul, this, max_scale hc, ceilUnit_scale hc]

theorem marketBuyPrice_scale (a : Account K) (t : OhlcTick K) : (account c a).marketBuyPrice (tick c t) = c * a.marketBuyPrice t := by
  simp only [Account.marketBuyPrice, account, tick, ex_add, ex_mul, ex_sub]; ring

theorem marketSellPrice_scale (a : Account K) (t : OhlcTick K) : (account c a).marketSellPrice (tick c t) = c * a.marketSellPrice t := by
  simp only [Account.marketSellPrice, account, tick, ex_add, ex_mul, ex_sub]; ring

theorem stopBuyPrice_scale (hc : 0 < c) (a : Account K) (t : OhlcTick K) (p : K) :
    (account c a).stopBuyPrice (tick c t) (c * p) = c * a.stopBuyPrice t p := by
  simp only [Account.stopBuyPrice, account, tick, ex_add, ex_mul, ex_sub, max_scale hc]; ring

theorem stopSellPrice_scale (hc : 0 < c) (a : Account K) (t : OhlcTick K) (p : K) :
    (account c a).stopSellPrice (tick c t) (c * p) = c * a.stopSellPrice t p := by
  simp only [Account.stopSellPrice, account, tick, ex_add, ex_mul, ex_sub, min_scale hc]; ring

theorem maxBaseAmount_scale (a : Account K) (t : OhlcTick K) : (account c a).maxBaseAmount (tick c t) = a.maxBaseAmount t := rfl

theorem buyBase_scale (hc : 0 < c) (a : Account K) (f : FeeConfig K) (b p : K) :
    (account c a).buyBase (fee c f) b (c * p) = answer c (a.buyBase f b p) := by
  have h1 : ∀ x : K, x * (c * p) = c * (x * p) := fun x => by ring
  have hg := fun x => getFee_scale hc a f x
  simp only [Account.buyBase, pos_scale hc, ex_mul, h1]
  simp only [show (account c a).baseUnit = a.baseUnit from rfl, show (account c a).quoteUnit = c * a.quoteUnit from rfl, ceilUnit_scale hc, hg,
    ex_add, ← mul_add, show (account c a).quoteBalance = c * a.quoteBalance from rfl, lt_scale hc]
  simp only [answer, assertThat, bind, Except.bind, pure, Except.pure]
  split_ifs <;> simp [Except.map, account, ← mul_sub, ← mul_add, roundUnit_scale hc]

theorem buyAtQuote_scale (hc : 0 < c) (a : Account K) (f : FeeConfig K) (q p m : K) :
    (account c a).buyAtQuote (fee c f) (c * q) (c * p) m = answer c (a.buyAtQuote f q p m) := by
  have hg := fun x => getFee_scale hc a f x
  simp only [Account.buyAtQuote, pos_scale hc, nonneg_scale hc, show (account c a).baseUnit = a.baseUnit from rfl,
    show (account c a).quoteUnit = c * a.quoteUnit from rfl, show (account c a).quoteBalance = c * a.quoteBalance from rfl,
    roundUnit_scale hc, lt_scale hc, hg, le_scale hc, ex_sub, ex_div, ← mul_sub, div_scale hc, buyBase_scale hc]
  simp only [answer, assertThat, bind, Except.bind, pure, Except.pure]
  split_ifs <;> simp [Except.map]

theorem sellBase_scale (hc : 0 < c) (a : Account K) (f : FeeConfig K) (b p : K) :
    (account c a).sellBase (fee c f) b (c * p) = answer c (a.sellBase f b p) := by
  have h1 : ∀ x : K, x * (c * p) = c * (x * p) := fun x => by ring
  have hg := fun x => getFee_scale hc a f x
  simp only [Account.sellBase, pos_scale hc, ex_mul, h1]
  simp only [show (account c a).baseUnit = a.baseUnit from rfl, show (account c a).quoteUnit = c * a.quoteUnit from rfl, floorUnit_scale hc, hg,
    ex_sub, ← mul_sub, show (account c a).baseBalance = a.baseBalance from rfl, lt_scale hc]
  simp only [answer, assertThat, bind, Except.bind, pure, Except.pure]
  split_ifs <;> simp [Except.map, account, ← mul_sub, ← mul_add, roundUnit_scale hc]

theorem sellAtQuote_scale (hc : 0 < c) (a : Account K) (f : FeeConfig K) (q p m : K) :
    (account c a).sellAtQuote (fee c f) (c * q) (c * p) m = answer c (a.sellAtQuote f q p m) := by
  have hg := fun x => getFee_scale hc a f x
  simp only [Account.sellAtQuote, pos_scale hc, nonneg_scale hc, show (account c a).baseUnit = a.baseUnit from rfl,
    show (account c a).quoteUnit = c * a.quoteUnit from rfl,
    roundUnit_scale hc, lt_scale hc, hg, ex_add, ex_div, ← mul_add, div_scale hc, sellBase_scale hc]
  simp only [answer, assertThat, bind, Except.bind, pure, Except.pure]
  split_ifs <;> simp [Except.map]

theorem isValidOrder_scale (hc : 0 < c) (o : Order K) : isValidOrder (order c o) = isValidOrder o := by
  obtain ⟨ty, sd, am, pr⟩ := o
  cases pr <;> cases am <;>
    simp [isValidOrder, order, amount, Order.getPrice, hc, lit]

theorem getPrice_scale (o : Order K) : (order c o).getPrice = c * o.getPrice := by
  obtain ⟨ty, sd, am, pr⟩ := o
  cases pr <;> simp [order, Order.getPrice, lit]

/-- `ExecuteOrder` in the new unit. -/
theorem executeOrder_scale (hc : 0 < c) (a : Account K) (cfg : AccountConfig K) (o : Order K) (t : OhlcTick K) :
    (account c a).executeOrder (config c cfg) (order c o) (tick c t) = answer c (a.executeOrder cfg o t) := by
  have hv := isValidOrder_scale hc o
  have hp := getPrice_scale (c := c) o
  have hh : (tick c t).high = c * t.high := rfl
  have hl : (tick c t).low = c * t.low := rfl
  have hm1 : (config c cfg).marketFee = fee c cfg.marketFee := rfl
  have hm2 : (config c cfg).stopFee = fee c cfg.stopFee := rfl
  have hm3 : (config c cfg).limitFee = fee c cfg.limitFee := rfl
  simp only [Account.executeOrder, hv, hp, hm1, hm2, hm3]
  obtain ⟨ty, sd, am, pr⟩ := o
  simp only [order]
  rcases ty with _ | ty <;> rcases sd with _ | sd <;> (try cases ty) <;> (try cases sd) <;> rcases am with _ | x | x <;>
    simp only [amount, Account.marketBuy, Account.marketBuyAtQuote, Account.marketSell, Account.marketSellAtQuote, Account.stopBuy,
      Account.stopBuyAtQuote, Account.stopSell, Account.stopSellAtQuote, Account.limitBuy, Account.limitBuyAtQuote, Account.limitSell,
      Account.limitSellAtQuote, marketBuyPrice_scale, marketSellPrice_scale, stopBuyPrice_scale hc, stopSellPrice_scale hc,
      maxBaseAmount_scale, buyBase_scale hc, buyAtQuote_scale hc, sellBase_scale hc, sellAtQuote_scale hc, hh, hl, lt_scale hc, pos_scale hc, nonneg_scale hc] <;>
    simp only [answer, assertThat, bind, Except.bind, pure, Except.pure] <;> split_ifs <;> simp [Except.map]

end Verif.Units
