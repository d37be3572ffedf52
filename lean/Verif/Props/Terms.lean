import Verif.Props.Settlement
import Verif.Props.Pipeline
import Mathlib.Data.Rat.Floor

/-!
# C114: better terms never make an order worse

Two exchanges with the same state of the account: one charges no more in any position of its fee schedules and executes market and stop orders at least as near to the
opening price (its market liquidity is at least as high).
-/

namespace Verif.Spec
variable {K : Type} [LE K] [Zero K]
/-- The fee schedule `f` charges no more than `g` in any of its three positions (and its relative fee is not negative). -/
structure Cheaper (f g : FeeConfig K) : Prop where
  minimum : f.minimumFee ≤ g.minimumFee
  fixed : f.fixedFee ≤ g.fixedFee
  relative : f.relativeFee ≤ g.relativeFee
  nonneg : 0 ≤ f.relativeFee

/-- The same account on an exchange with liquidity `l`. -/
def withLiquidity {K : Type} (a : Account K) (l : K) : Account K := { a with marketLiquidity := l }
end Verif.Spec

namespace Verif.Props.Terms
open FloatOps Spec

variable {K : Type} [Field K] [LinearOrder K] [IsStrictOrderedRing K] [FloorRing K]

theorem getFee_cheaper (a : Account K) {f g : FeeConfig K} (h : Cheaper f g) {q q' : K} (hq : q ≤ q') (h0 : 0 ≤ q') :
    a.getFee f q ≤ a.getFee g q' := by
  rw [getFee_eq, getFee_eq]
  refine ceilUnit_mono _ (max_le_max h.minimum ?_)
  have h1 := mul_le_mul_of_nonneg_left hq h.nonneg
  have h2 := mul_le_mul_of_nonneg_right h.relative h0
  have := h.fixed
  linarith

/-- What is left of a larger amount after the fee is not less, as long as the relative fee is at most the whole amount. -/
theorem net_mono (a : Account K) (f : FeeConfig K) (hr : f.relativeFee ≤ 1) {q q' : K} (hq : q ≤ q')
    (hm : 0 < a.quoteUnit → IsMultiple a.quoteUnit q) (hm' : 0 < a.quoteUnit → IsMultiple a.quoteUnit q') :
    q - a.getFee f q ≤ q' - a.getFee f q' := by
  have key : a.getFee f q' ≤ a.getFee f q + (q' - q) := by
    rw [getFee_eq, getFee_eq]
    have hx : max f.minimumFee (f.fixedFee + f.relativeFee * q') ≤ max f.minimumFee (f.fixedFee + f.relativeFee * q) + (q' - q) := by
      have h2 := mul_le_mul_of_nonneg_right hr (sub_nonneg.mpr hq)
      rcases le_total f.minimumFee (f.fixedFee + f.relativeFee * q') with h | h
      · rw [max_eq_right h]
        have := le_max_right f.minimumFee (f.fixedFee + f.relativeFee * q)
        nlinarith
      · rw [max_eq_left h]
        have := le_max_left f.minimumFee (f.fixedFee + f.relativeFee * q)
        linarith
    refine le_trans (ceilUnit_mono _ hx) (ceilUnit_le_of_multiple (fun hu => ?_) ?_)
    · exact (isMultiple_ceilUnit _ _ hu).add ((hm' hu).sub (hm hu))
    · have := le_ceilUnit (max f.minimumFee (f.fixedFee + f.relativeFee * q)) a.quoteUnit
      linarith
  linarith

theorem lit_one : lit K 1 = (1 : K) := by simp [lit]

/-- With better liquidity a buy order executes at a price that is positive and not higher. -/
theorem buyPrice_better {l l' : K} (hl : l ≤ l') (h1 : l' ≤ 1) (t : OhlcTick K) (h0 : 0 < t.opn) (hh : t.opn ≤ t.high) (price : K) (ty : OrderType)
    (hn : notReached t price ty .buy = false) (hp : 0 < execPrice l t price ty .buy) :
    0 < execPrice l' t price ty .buy ∧ execPrice l' t price ty .buy ≤ execPrice l t price ty .buy := by
  cases ty
  · simp only [execPrice, interp, ex_add, ex_mul, ex_sub, lit_one] at hp ⊢
    constructor <;> nlinarith
  · simp only [notReached, ex_lt, decide_eq_false_iff_not, not_lt] at hn
    simp only [execPrice, interp, ex_add, ex_mul, ex_sub, lit_one, ex_fmax] at hp ⊢
    have h2 : max price t.opn ≤ t.high := max_le hn hh
    have h3 : 0 < max price t.opn := lt_of_lt_of_le h0 (le_max_right _ _)
    constructor <;> nlinarith
  · exact ⟨hp, le_refl _⟩

/-- With better liquidity a sell order executes at a price that is not lower. -/
theorem sellPrice_better {l l' : K} (hl : l ≤ l') (t : OhlcTick K) (hh : t.low ≤ t.opn) (price : K) (ty : OrderType)
    (hn : notReached t price ty .sell = false) : execPrice l t price ty .sell ≤ execPrice l' t price ty .sell := by
  cases ty
  · simp only [execPrice, interp, ex_add, ex_mul, ex_sub, lit_one]
    nlinarith
  · simp only [notReached, ex_lt, decide_eq_false_iff_not, not_lt] at hn
    simp only [execPrice, interp, ex_add, ex_mul, ex_sub, lit_one, ex_fmin]
    have h2 : t.low ≤ min price t.opn := le_min hn hh
    nlinarith
  · exact le_refl _

/-- Buying the same amount on better terms. -/
theorem buyBase_better (a w : Account K) (l : K) {f g : FeeConfig K} (hf : Cheaper f g) (b p p' : K) (hp' : 0 < p') (hpp : p' ≤ p)
    (h : a.buyBase g b p = .ok (true, w)) :
    ∃ z, (withLiquidity a l).buyBase f b p' = .ok (true, z) ∧ z.baseBalance = w.baseBalance ∧ w.quoteBalance ≤ z.quoteBalance ∧ z.totalFee ≤ w.totalFee := by
  obtain ⟨hp, hb, h⟩ := a.buyBase_cases h
  rcases h with ⟨h, -⟩ | ⟨-, h1, q, fee, hq, hfee, h2, rfl⟩
  · cases h
  have hb : 0 ≤ b := by simpa [lit] using hb
  have h2 : q + fee ≤ a.quoteBalance := by simpa using h2
  have h1' : a.baseUnit ≤ roundUnit b a.baseUnit := by simpa using h1
  have hr0 : 0 ≤ roundUnit b a.baseUnit := roundUnit_nonneg hb
  have hle : roundUnit b a.baseUnit * p' ≤ roundUnit b a.baseUnit * p := mul_le_mul_of_nonneg_left hpp hr0
  have e3 : ceilUnit (roundUnit b a.baseUnit * p') a.quoteUnit ≤ q := by rw [hq]; exact ceilUnit_mono _ hle
  have hq0 : 0 ≤ q := by
    rw [hq]; exact le_trans (mul_nonneg hr0 (le_trans hp'.le hpp)) (le_ceilUnit _ _)
  have e4 : a.getFee f (ceilUnit (roundUnit b a.baseUnit * p') a.quoteUnit) ≤ fee := by
    rw [hfee]; exact getFee_cheaper a hf e3 hq0
  rw [Account.buyBase_eq]
  rw [if_pos (by simpa [lit] using hp'), if_pos (by simpa [lit] using hb), if_neg (by simpa [withLiquidity] using h1'), if_neg]
  · refine ⟨_, rfl, rfl, ?_, ?_⟩
    · simp only [Account.afterBuy, withLiquidity, ex_sub, ex_add, ex_mul]
      refine roundUnit_mono _ ?_
      have : (withLiquidity a l).getFee f (ceilUnit (roundUnit b a.baseUnit * p') a.quoteUnit) ≤ fee := e4
      simp only [withLiquidity] at this
      linarith
    · simp only [Account.afterBuy, withLiquidity, ex_add, ex_mul]
      refine roundUnit_mono _ ?_
      have : (withLiquidity a l).getFee f (ceilUnit (roundUnit b a.baseUnit * p') a.quoteUnit) ≤ fee := e4
      simp only [withLiquidity] at this
      linarith
  · have : (withLiquidity a l).getFee f (ceilUnit (roundUnit b a.baseUnit * p') a.quoteUnit) ≤ fee := e4
    simp only [withLiquidity] at this
    simp only [withLiquidity, ex_add, ex_mul, ex_lt, decide_eq_true_eq, not_lt]
    linarith

/-- Selling the same amount on better terms. -/
theorem sellBase_better (a w : Account K) (l : K) {f g : FeeConfig K} (hf : Cheaper f g) (hr : g.relativeFee ≤ 1) (b p p' : K) (hpp : p ≤ p')
    (h : a.sellBase g b p = .ok (true, w)) :
    ∃ z, (withLiquidity a l).sellBase f b p' = .ok (true, z) ∧ z.baseBalance = w.baseBalance ∧ w.quoteBalance ≤ z.quoteBalance ∧
      (p' = p → z.totalFee ≤ w.totalFee) := by
  obtain ⟨hp, hb, h⟩ := a.sellBase_cases h
  rcases h with ⟨h, -⟩ | ⟨-, h1, h3, q, fee, hq, hfee, h2, rfl⟩
  · cases h
  have hp : 0 < p := by simpa [lit] using hp
  have hb : 0 ≤ b := by simpa [lit] using hb
  have h2 : a.quoteUnit ≤ q - fee := by simpa using h2
  have h1' : a.baseUnit ≤ roundUnit b a.baseUnit := by simpa using h1
  have h3' : roundUnit b a.baseUnit ≤ a.baseBalance := by simpa using h3
  have hr0 : 0 ≤ roundUnit b a.baseUnit := roundUnit_nonneg hb
  have hle : roundUnit b a.baseUnit * p ≤ roundUnit b a.baseUnit * p' := mul_le_mul_of_nonneg_left hpp hr0
  generalize hq' : floorUnit (roundUnit b a.baseUnit * p') a.quoteUnit = q' at *
  have e3 : q ≤ q' := by rw [hq, ← hq']; exact floorUnit_mono _ hle
  have hq0 : 0 ≤ q := by
    rw [hq]
    refine le_floorUnit_of_multiple (fun _ => ⟨0, by simp⟩) (mul_nonneg hr0 hp.le)
  have e4 : (withLiquidity a l).getFee f q' ≤ a.getFee g q' := getFee_cheaper a hf (le_refl _) (le_trans hq0 e3)
  have e5 : q - fee ≤ q' - a.getFee g q' := by
    rw [hfee]
    exact net_mono a g hr e3 (fun hu => by rw [hq]; exact isMultiple_floorUnit _ _ hu) (fun hu => by rw [← hq']; exact isMultiple_floorUnit _ _ hu)
  rw [Account.sellBase_eq]
  rw [if_pos (by simpa [lit] using lt_of_lt_of_le hp hpp), if_pos (by simpa [lit] using hb), if_neg (by simpa [withLiquidity] using ⟨h1', h3'⟩)]
  have hqq : floorUnit (roundUnit b (withLiquidity a l).baseUnit *. p') (withLiquidity a l).quoteUnit = q' := hq'
  simp only [hqq]
  rw [if_neg]
  · refine ⟨_, rfl, rfl, ?_, fun hpe => ?_⟩
    · simp only [Account.afterSell, ex_sub, ex_add]
      refine roundUnit_mono _ ?_
      show a.quoteBalance + (q - fee) ≤ a.quoteBalance + (q' - _)
      linarith
    · have hqe : q' = q := by rw [hq, ← hq', hpe]; rfl
      simp only [Account.afterSell, ex_add]
      refine roundUnit_mono _ ?_
      show a.totalFee + _ ≤ a.totalFee + fee
      rw [hfee, ← hqe]
      linarith
  · simp only [ex_sub, ex_lt, decide_eq_true_eq, not_lt]
    show a.quoteUnit ≤ _
    linarith

/-- Spending the same amount on better terms. -/
theorem buyAtQuote_better (a w : Account K) (l : K) {f g : FeeConfig K} (hf : Cheaper f g) (hm : 0 ≤ f.minimumFee) (x p p' m : K) (hp' : 0 < p') (hpp : p' ≤ p)
    (h : a.buyAtQuote g x p m = .ok (true, w)) :
    ∃ z, (withLiquidity a l).buyAtQuote f x p' m = .ok (true, z) ∧ w.baseBalance ≤ z.baseBalance := by
  obtain ⟨hp, hx, h⟩ := a.buyAtQuote_cases h
  rcases h with ⟨h, -⟩ | ⟨q', fee, b, hq', hfee, hbd, h1, h2, h3, h4, h⟩
  · cases h
  obtain ⟨-, hb0, h⟩ := a.buyBase_cases h
  rcases h with ⟨h, -⟩ | ⟨-, h5, -, -, -, -, -, rfl⟩
  · cases h
  have hx : 0 ≤ x := by simpa [lit] using hx
  have hp : 0 < p := by simpa [lit] using hp
  have hb0 : 0 ≤ b := by simpa [lit] using hb0
  have h2 : q' ≤ a.quoteBalance := by simpa using h2
  have h1' : a.quoteUnit ≤ q' := by simpa using h1
  have h3' : fee < q' := by simpa using h3
  have h4' : a.baseUnit ≤ b := by simpa using h4
  have hq0 : 0 ≤ q' := by rw [hq']; exact roundUnit_nonneg hx
  obtain ⟨fee', hfee'⟩ : ∃ y, y = (withLiquidity a l).getFee f q' := ⟨_, rfl⟩
  have e1 : fee' ≤ fee := by rw [hfee, hfee']; exact getFee_cheaper a hf (le_refl _) hq0
  have e0 : 0 ≤ fee' := by
    rw [hfee', getFee_eq]; exact le_trans (le_trans hm (le_max_left _ _)) (le_ceilUnit _ _)
  obtain ⟨b', hb'⟩ : ∃ y, y = floorUnit (min ((q' - fee') / p') m) a.baseUnit := ⟨_, rfl⟩
  have e2 : b ≤ b' := by
    rw [hbd, hb', ex_fmin]
    refine floorUnit_mono _ (min_le_min ?_ (le_refl _))
    simp only [ex_div, ex_sub]
    rw [div_le_div_iff₀ hp hp']
    nlinarith
  have hb'r : roundUnit b' a.baseUnit = b' := roundUnit_of_multiple (fun hu => by rw [hb']; exact isMultiple_floorUnit _ _ hu)
  have hbr : roundUnit b a.baseUnit = b := roundUnit_of_multiple (fun hu => by rw [hbd]; exact isMultiple_floorUnit _ _ hu)
  have hb'p : b' * p' ≤ q' - fee' := by
    have : b' ≤ (q' - fee') / p' := by rw [hb']; exact le_trans (floorUnit_le _ _) (min_le_left _ _)
    rwa [le_div_iff₀ hp'] at this
  have hc : ceilUnit (b' * p') a.quoteUnit ≤ q' - fee' := by
    refine ceilUnit_le_of_multiple (fun hu => ?_) hb'p
    refine IsMultiple.sub (by rw [hq']; exact isMultiple_roundUnit _ _ hu) ?_
    rw [hfee']; exact isMultiple_getFee _ _ _ hu
  have hc' : (withLiquidity a l).getFee f (ceilUnit (b' * p') a.quoteUnit) ≤ fee' := by
    rw [hfee']; exact getFee_mono _ f hf.nonneg (by linarith)
  rw [Account.buyAtQuote_eq]
  have hqq : roundUnit x (withLiquidity a l).quoteUnit = q' := hq'.symm
  simp only [hqq, ← hfee']
  have hbb : floorUnit (fmin ((q' -. fee') /. p') m) (withLiquidity a l).baseUnit = b' := by rw [ex_fmin]; exact hb'.symm
  simp only [hbb]
  rw [if_pos (by simpa [lit] using hp'), if_pos (by simpa [lit] using hx), if_neg (by simpa [withLiquidity] using ⟨h1', h2⟩),
    if_neg (by simpa using lt_of_le_of_lt e1 h3'), if_neg (by simpa [withLiquidity] using le_trans h4' e2), Account.buyBase_eq]
  have hrr : roundUnit b' (withLiquidity a l).baseUnit = b' := hb'r
  simp only [hrr]
  rw [if_pos (by simpa [lit] using hp'), if_pos (by simpa [lit] using le_trans hb0 e2), if_neg (by simpa [withLiquidity] using le_trans h4' e2), if_neg]
  · refine ⟨_, rfl, ?_⟩
    simp only [Account.afterBuy, hbr, ex_add]
    refine roundUnit_mono _ ?_
    show a.baseBalance + b ≤ a.baseBalance + b'
    linarith
  · simp only [ex_add, ex_lt, decide_eq_true_eq, not_lt]
    show ceilUnit (b' * p') a.quoteUnit + (withLiquidity a l).getFee f (ceilUnit (b' * p') a.quoteUnit) ≤ a.quoteBalance
    linarith

/-- Raising the same amount on better terms: not more base currency is sold. -/
theorem sellAtQuote_better (a w : Account K) (l : K) (hg : OnGrid a) {f g : FeeConfig K} (hf : Cheaper f g) (x p p' m : K) (hpp : p ≤ p')
    (hfee0 : 0 ≤ f.minimumFee) (h : a.sellAtQuote g x p m = .ok (true, w)) :
    ∃ ok z, (withLiquidity a l).sellAtQuote f x p' m = .ok (ok, z) ∧ w.baseBalance ≤ z.baseBalance := by
  obtain ⟨hp, hx, h⟩ := a.sellAtQuote_cases h
  rcases h with ⟨h, -⟩ | ⟨q', fee, b, hq', hfee, hbd, h1, h4, h⟩
  · cases h
  obtain ⟨-, hb0, h⟩ := a.sellBase_cases h
  rcases h with ⟨h, -⟩ | ⟨-, h5, h6, -, -, -, -, -, rfl⟩
  · cases h
  have hx : 0 ≤ x := by simpa [lit] using hx
  have hp : 0 < p := by simpa [lit] using hp
  have hb0 : 0 ≤ b := by simpa [lit] using hb0
  have h1' : a.quoteUnit ≤ q' := by simpa using h1
  have h4' : a.baseUnit ≤ b := by simpa using h4
  have hp' : 0 < p' := lt_of_lt_of_le hp hpp
  have hq0 : 0 ≤ q' := by rw [hq']; exact roundUnit_nonneg hx
  obtain ⟨fee', hfee'⟩ : ∃ y, y = (withLiquidity a l).getFee f q' := ⟨_, rfl⟩
  have e1 : fee' ≤ fee := by rw [hfee, hfee']; exact getFee_cheaper a hf (le_refl _) hq0
  have e0 : 0 ≤ fee' := by
    rw [hfee', getFee_eq]; exact le_trans (le_trans hfee0 (le_max_left _ _)) (le_ceilUnit _ _)
  obtain ⟨b', hb'⟩ : ∃ y, y = floorUnit (min ((q' + fee') / p') m) a.baseUnit := ⟨_, rfl⟩
  have e2 : b' ≤ b := by
    rw [hbd, hb', ex_fmin]
    refine floorUnit_mono _ (min_le_min ?_ (le_refl _))
    simp only [ex_div, ex_add]
    rw [div_le_div_iff₀ hp' hp]
    nlinarith
  have hb'r : roundUnit b' a.baseUnit = b' := roundUnit_of_multiple (fun hu => by rw [hb']; exact isMultiple_floorUnit _ _ hu)
  have hbr : roundUnit b a.baseUnit = b := roundUnit_of_multiple (fun hu => by rw [hbd]; exact isMultiple_floorUnit _ _ hu)
  have hself : roundUnit a.baseBalance a.baseUnit = a.baseBalance := roundUnit_of_multiple hg.base
  have hw : roundUnit (a.baseBalance - b) a.baseUnit ≤ a.baseBalance := by
    have := roundUnit_mono (x := a.baseBalance - b) (y := a.baseBalance) a.baseUnit (by linarith)
    rwa [hself] at this
  have hb'0 : 0 ≤ b' := by
    have hm : 0 ≤ min ((q' + fee') / p') m := by
      refine le_min (by positivity) ?_
      have : b ≤ m := by rw [hbd, ex_fmin]; exact le_trans (floorUnit_le _ _) (min_le_right _ _)
      linarith
    rw [hb']; exact le_floorUnit_of_multiple (fun _ => ⟨0, by simp⟩) hm
  simp only [Account.afterSell, hbr, ex_sub]
  rw [Account.sellAtQuote_eq]
  have hqq : roundUnit x (withLiquidity a l).quoteUnit = q' := hq'.symm
  simp only [hqq, ← hfee']
  have hbb : floorUnit (fmin ((q' +. fee') /. p') m) (withLiquidity a l).baseUnit = b' := by rw [ex_fmin]; exact hb'.symm
  simp only [hbb]
  rw [if_pos (by simpa [lit] using hp'), if_pos (by simpa [lit] using hx), if_neg (by simpa [withLiquidity] using h1')]
  split_ifs with h7
  · exact ⟨_, _, rfl, hw⟩
  · rw [Account.sellBase_eq]
    have hrr : roundUnit b' (withLiquidity a l).baseUnit = b' := hb'r
    simp only [hrr]
    rw [if_pos (by simpa [lit] using hp'), if_pos (by simpa [lit] using hb'0)]
    split_ifs
    · exact ⟨_, _, rfl, hw⟩
    · exact ⟨_, _, rfl, hw⟩
    · refine ⟨_, _, rfl, ?_⟩
      simp only [Account.afterSell, ex_sub]
      refine roundUnit_mono _ ?_
      show a.baseBalance - b ≤ a.baseBalance - b'
      linarith

theorem ok_valid {a w : Account K} {c : AccountConfig K} {o : Order K} {t : OhlcTick K} (h : a.executeOrder c o t = .ok (true, w)) : ValidOrder o := by
  by_contra hv
  rw [Account.executeOrder_invalid a c o t hv] at h
  cases h

section orders
variable (a w : Account K) (l : K) (c c' : AccountConfig K) (o : Order K) (t : OhlcTick K) (ty : OrderType) (x : K)

/-- **C114** (buying a base amount). Whatever order to buy an amount of base currency is executed, is also executed on better terms (fees that are nowhere higher, at
least the liquidity): it buys the same amount, leaves at least as much quote currency and pays no more fees. -/
theorem C114_buy (hty : o.type = some ty) (hsd : o.side = some .buy) (ho : o.amount = .base x) (h0 : 0 < t.opn) (hh : t.opn ≤ t.high)
    (hl : a.marketLiquidity ≤ l) (hl1 : l ≤ 1) (hf : Cheaper (feeFor c' ty) (feeFor c ty)) (h : a.executeOrder c o t = .ok (true, w)) :
    ∃ z, (withLiquidity a l).executeOrder c' o t = .ok (true, z) ∧ z.baseBalance = w.baseBalance ∧ w.quoteBalance ≤ z.quoteBalance ∧
      z.totalFee ≤ w.totalFee := by
  have hv := ok_valid h
  rw [Account.executeOrder_valid a c o t hv hty hsd] at h
  rw [Account.executeOrder_valid _ c' o t hv hty hsd]
  split_ifs at h ⊢ with hn
  · cases h
  rw [ho] at h ⊢
  simp only [tradeOf] at h ⊢
  have hp : 0 < execPrice a.marketLiquidity t o.getPrice ty .buy := by simpa [lit] using (a.buyBase_cases h).1
  obtain ⟨h1, h2⟩ := buyPrice_better hl hl1 t h0 hh o.getPrice ty (by simpa using hn) hp
  exact buyBase_better a w l hf _ _ _ h1 h2 h

/-- **C114** (selling a base amount). Whatever order to sell an amount of base currency is executed, is also executed on better terms, as long as the relative fee is
at most everything: it sells the same amount and leaves at least as much quote currency.  With the same liquidity it pays no more fees (at a better price it may: a
relative fee is charged on more). -/
theorem C114_sell (hty : o.type = some ty) (hsd : o.side = some .sell) (ho : o.amount = .base x) (hh : t.low ≤ t.opn)
    (hl : a.marketLiquidity ≤ l) (hf : Cheaper (feeFor c' ty) (feeFor c ty)) (hr : (feeFor c ty).relativeFee ≤ 1)
    (h : a.executeOrder c o t = .ok (true, w)) :
    ∃ z, (withLiquidity a l).executeOrder c' o t = .ok (true, z) ∧ z.baseBalance = w.baseBalance ∧ w.quoteBalance ≤ z.quoteBalance ∧
      (l = a.marketLiquidity → z.totalFee ≤ w.totalFee) := by
  have hv := ok_valid h
  rw [Account.executeOrder_valid a c o t hv hty hsd] at h
  rw [Account.executeOrder_valid _ c' o t hv hty hsd]
  split_ifs at h ⊢ with hn
  · cases h
  rw [ho] at h ⊢
  simp only [tradeOf] at h ⊢
  have h2 := sellPrice_better hl t hh o.getPrice ty (by simpa using hn)
  obtain ⟨z, hz, h3, h4, h5⟩ := sellBase_better a w l hf hr _ _ _ h2 h
  exact ⟨z, hz, h3, h4, fun he => h5 (by rw [he])⟩

/-- **C114** (buying for a quote amount). Whatever order to spend an amount of quote currency is executed, is also executed on better terms, and buys at least as much. -/
theorem C114_buy_at_quote (hty : o.type = some ty) (hsd : o.side = some .buy) (ho : o.amount = .quote x) (h0 : 0 < t.opn) (hh : t.opn ≤ t.high)
    (hl : a.marketLiquidity ≤ l) (hl1 : l ≤ 1) (hf : Cheaper (feeFor c' ty) (feeFor c ty)) (hm : 0 ≤ (feeFor c' ty).minimumFee)
    (h : a.executeOrder c o t = .ok (true, w)) :
    ∃ z, (withLiquidity a l).executeOrder c' o t = .ok (true, z) ∧ w.baseBalance ≤ z.baseBalance := by
  have hv := ok_valid h
  rw [Account.executeOrder_valid a c o t hv hty hsd] at h
  rw [Account.executeOrder_valid _ c' o t hv hty hsd]
  split_ifs at h ⊢ with hn
  · cases h
  rw [ho] at h ⊢
  simp only [tradeOf] at h ⊢
  have hp : 0 < execPrice a.marketLiquidity t o.getPrice ty .buy := by simpa [lit] using (a.buyAtQuote_cases h).1
  obtain ⟨h1, h2⟩ := buyPrice_better hl hl1 t h0 hh o.getPrice ty (by simpa using hn) hp
  exact buyAtQuote_better a w l hf hm _ _ _ _ h1 h2 h

/-- **C114** (selling for a quote amount). On better terms an order to raise an amount of quote currency never sells more base currency, and never aborts. -/
theorem C114_sell_at_quote (hg : OnGrid a) (hty : o.type = some ty) (hsd : o.side = some .sell) (ho : o.amount = .quote x) (hh : t.low ≤ t.opn)
    (hl : a.marketLiquidity ≤ l) (hf : Cheaper (feeFor c' ty) (feeFor c ty)) (hm : 0 ≤ (feeFor c' ty).minimumFee)
    (h : a.executeOrder c o t = .ok (true, w)) :
    ∃ ok z, (withLiquidity a l).executeOrder c' o t = .ok (ok, z) ∧ w.baseBalance ≤ z.baseBalance := by
  have hv := ok_valid h
  rw [Account.executeOrder_valid a c o t hv hty hsd] at h
  rw [Account.executeOrder_valid _ c' o t hv hty hsd]
  split_ifs at h ⊢ with hn
  · cases h
  rw [ho] at h ⊢
  simp only [tradeOf] at h ⊢
  have h2 := sellPrice_better hl t hh o.getPrice ty (by simpa using hn)
  exact sellAtQuote_better a w l hg hf _ _ _ _ h2 hm h

end orders

/-! ## Limits: what can be worse on better terms -/

/-- A configuration with this fee schedule for all orders, a base unit of 1 and a quote unit of 1/100. -/
def tmCfg (fee : FeeConfig ℚ) (ratio : ℚ) : AccountConfig ℚ := ⟨0, 100, 1, 1 / 100, fee, fee, fee, 1, ratio⟩
/-- Ten coins and a hundred in quote currency. -/
def tmAccount (ratio : ℚ) : Account ℚ := ⟨10, 100, 0, 1, 1 / 100, 1, ratio⟩
/-- A tick at 10. -/
def tmTick : OhlcTick ℚ := ⟨60, 10, 10, 10, 10, 100⟩

/-- **C114** (limit: raising a quote amount). With lower fees an order that was executed can be refused: to raise 9 with a fee of 1 a whole coin is sold at 10; without
the fee less than the smallest tradable amount would do, and nothing is sold. -/
theorem C114_cheaper_but_refused :
    (tmAccount 0).executeOrder (tmCfg ⟨0, 1, 0⟩ 0) ⟨some .market, some .sell, .quote 9, none⟩ tmTick = .ok (true, ⟨9, 109, 1, 1, 1 / 100, 1, 0⟩) ∧
    (tmAccount 0).executeOrder (tmCfg ⟨0, 0, 0⟩ 0) ⟨some .market, some .sell, .quote 9, none⟩ tmTick = .ok (false, tmAccount 0) := by
  decide +kernel

/-- **C114** (limit: volume). If a larger part of the volume is tradable, a limit order that was executed can be refused: of 20 coins, 5 are affordable, 20 are not. -/
theorem C114_more_volume_but_refused :
    (tmAccount (1 / 20)).executeOrder (tmCfg ⟨0, 0, 0⟩ (1 / 20)) ⟨some .limit, some .buy, .base 20, some 10⟩ tmTick =
      .ok (true, ⟨15, 50, 0, 1, 1 / 100, 1, 1 / 20⟩) ∧
    (tmAccount 1).executeOrder (tmCfg ⟨0, 0, 0⟩ 1) ⟨some .limit, some .buy, .base 20, some 10⟩ tmTick = .ok (false, tmAccount 1) := by
  decide +kernel

section runs
attribute [local instance] evLibm

/-- **C114** (limit: whole back-tests). A back-test can end with more money where the fees are higher, since refused orders cannot lose: a rebalancing trader buys
half its money's worth of coins and loses three quarters of it; where every trade costs at least 1000 it keeps its 100. -/
theorem C114_back_test_may_gain :
    let ticks : List (OhlcTick ℚ) := [⟨60, 10, 10, 10, 10, 100⟩, ⟨120, 10, 10, 10, 10, 100⟩, ⟨180, 2, 2, 2, 2, 100⟩]
    let run := fun fee => ((executeTrader (tmCfg fee 0) ticks none true (rebalancingTrader ⟨fun _ => "", fun _ _ => ""⟩ ⟨1 / 2, 1 / 10⟩) RebalancingState.init false).out.map
      (fun r => (r.endBase, r.endQuote, r.endValue))).toOption
    run ⟨0, 0, 0⟩ = some (5, 50, 60) ∧ run ⟨0, 0, 1000⟩ = some (0, 100, 100) := by
  decide +kernel

end runs

/-! ## Non-vacuity -/

section examples

/-- A relative fee of 1% with a fixed fee of 1/10 and a minimum of 1/2, against half of it. -/
def tmDear : FeeConfig ℚ := ⟨1 / 100, 1 / 10, 1 / 2⟩
def tmCheap : FeeConfig ℚ := ⟨1 / 200, 1 / 20, 1 / 4⟩
theorem tm_cheaper : Cheaper tmCheap tmDear := ⟨by norm_num [tmCheap, tmDear], by norm_num [tmCheap, tmDear], by norm_num [tmCheap, tmDear], by norm_num [tmCheap]⟩
/-- An account at half the liquidity, and a tick with a range. -/
def tmHalf : Account ℚ := ⟨10, 100, 0, 1, 1 / 100, 1 / 2, 0⟩
def tmRange : OhlcTick ℚ := ⟨60, 10, 12, 8, 9, 100⟩

/-- Buying 5 coins: 11 each and a fee of 0.65; on better terms 10.5 each and a fee of 0.32. -/
example : tmHalf.executeOrder (tmCfg tmDear 0) ⟨some .market, some .buy, .base 5, none⟩ tmRange = .ok (true, ⟨15, 4435 / 100, 65 / 100, 1, 1 / 100, 1 / 2, 0⟩) ∧
    (withLiquidity tmHalf (3 / 4)).executeOrder (tmCfg tmCheap 0) ⟨some .market, some .buy, .base 5, none⟩ tmRange =
      .ok (true, ⟨15, 4718 / 100, 32 / 100, 1, 1 / 100, 3 / 4, 0⟩) := by decide +kernel

example := C114_buy tmHalf ⟨15, 4435 / 100, 65 / 100, 1, 1 / 100, 1 / 2, 0⟩ (3 / 4) (tmCfg tmDear 0) (tmCfg tmCheap 0) ⟨some .market, some .buy, .base 5, none⟩ tmRange .market 5 rfl rfl rfl (by decide +kernel)
  (by decide +kernel) (by decide +kernel) (by decide +kernel) tm_cheaper
  (by decide +kernel)

example := C114_sell tmHalf ⟨5, 14197 / 100, 53 / 100, 1, 1 / 100, 1 / 2, 0⟩ (3 / 4) (tmCfg tmDear 0) (tmCfg tmCheap 0) ⟨some .stop, some .sell, .base 5, some 9⟩ tmRange .stop 5 rfl rfl rfl
  (by decide +kernel) (by decide +kernel) tm_cheaper (by decide +kernel)
  (by decide +kernel)

example := C114_buy_at_quote tmHalf ⟨20, 9, 1, 1, 1 / 100, 1 / 2, 0⟩ (3 / 4) (tmCfg tmDear 0) (tmCfg tmCheap 0) ⟨some .limit, some .buy, .quote 95, some 9⟩ tmRange .limit 95 rfl rfl rfl
  (by decide +kernel) (by decide +kernel) (by decide +kernel) (by decide +kernel) tm_cheaper (by decide +kernel)
  (by decide +kernel)

example := C114_sell_at_quote tmHalf ⟨5, 14445 / 100, 55 / 100, 1, 1 / 100, 1 / 2, 0⟩ (3 / 4) (tmCfg tmDear 0) (tmCfg tmCheap 0) ⟨some .market, some .sell, .quote 45, none⟩ tmRange .market 45
  ⟨fun _ => ⟨10, by norm_num [tmHalf]⟩, fun _ => ⟨10000, by norm_num [tmHalf]⟩, fun _ => ⟨0, by norm_num [tmHalf]⟩⟩ rfl rfl rfl
  (by decide +kernel) (by decide +kernel) tm_cheaper (by decide +kernel)
  (by decide +kernel)

end examples

end Verif.Props.Terms
