import Verif.Props.Terms

/-!
# C116: splitting an order never pays

A number of orders of the same kind, executed one after another on the same tick, against one order for the sum of their amounts.
-/

namespace Verif.Spec
/-- The orders of this kind for the amounts `l`, submitted one after another, are all executed and lead from `a` to `a'`. -/
def AllExecuted {K : Type} (submit : Account K → K → Res (Bool × Account K)) : Account K → List K → Account K → Prop
  | a, [], a' => a' = a
  | a, b :: l, a' => ∃ a1, submit a b = .ok (true, a1) ∧ AllExecuted submit a1 l a'

/-- A fee schedule without rebates. -/
structure NoRebate {K : Type} [LE K] [Zero K] (f : FeeConfig K) : Prop where
  minimum : 0 ≤ f.minimumFee
  fixed : 0 ≤ f.fixedFee
  relative : 0 ≤ f.relativeFee
end Verif.Spec

namespace Verif.Props.Split
open FloatOps Spec Terms

variable {K : Type} [Field K] [LinearOrder K] [IsStrictOrderedRing K] [FloorRing K]

theorem ceilUnit_add_le (x y u : K) : ceilUnit (x + y) u ≤ ceilUnit x u + ceilUnit y u :=
  ceilUnit_le_of_multiple (fun hu => (isMultiple_ceilUnit _ _ hu).add (isMultiple_ceilUnit _ _ hu)) (add_le_add (le_ceilUnit _ _) (le_ceilUnit _ _))

theorem le_floorUnit_add (x y u : K) : floorUnit x u + floorUnit y u ≤ floorUnit (x + y) u :=
  le_floorUnit_of_multiple (fun hu => (isMultiple_floorUnit _ _ hu).add (isMultiple_floorUnit _ _ hu)) (add_le_add (floorUnit_le _ _) (floorUnit_le _ _))

theorem getFee_add_le (a : Account K) {f : FeeConfig K} (hf : NoRebate f) (x y : K) : a.getFee f (x + y) ≤ a.getFee f x + a.getFee f y := by
  rw [getFee_eq, getFee_eq, getFee_eq]
  refine le_trans (ceilUnit_mono _ ?_) (ceilUnit_add_le _ _ _)
  have h1 := le_max_left f.minimumFee (f.fixedFee + f.relativeFee * x)
  have h2 := le_max_left f.minimumFee (f.fixedFee + f.relativeFee * y)
  have h3 := le_max_right f.minimumFee (f.fixedFee + f.relativeFee * x)
  have h4 := le_max_right f.minimumFee (f.fixedFee + f.relativeFee * y)
  have := hf.minimum; have := hf.fixed
  refine max_le (by linarith) (by linarith)

/-- Two purchases against one. -/
theorem buy_two {a a1 w : Account K} (hg : OnGrid a) {f : FeeConfig K} (hf : NoRebate f) {x y p : K} (hx : 0 < a.baseUnit → IsMultiple a.baseUnit x)
    (hy : 0 < a.baseUnit → IsMultiple a.baseUnit y) (h1 : a.buyBase f x p = .ok (true, a1)) (h2 : a1.buyBase f y p = .ok (true, w)) :
    ∃ z, a.buyBase f (x + y) p = .ok (true, z) ∧ z.baseBalance = w.baseBalance ∧ w.quoteBalance ≤ z.quoteBalance ∧ z.totalFee ≤ w.totalFee := by
  obtain ⟨hp, hx0, h1⟩ := a.buyBase_cases h1
  rcases h1 with ⟨h1, -⟩ | ⟨-, hxu, q, fee, hq, hfee, hle, rfl⟩
  · cases h1
  obtain ⟨-, hy0, h2⟩ := Account.buyBase_cases _ h2
  rcases h2 with ⟨h2, -⟩ | ⟨-, hyu, q', fee', hq', hfee', hle', rfl⟩
  · cases h2
  have hp : 0 < p := by simpa [lit] using hp
  have hx0 : 0 ≤ x := by simpa [lit] using hx0
  have hy0 : 0 ≤ y := by simpa [lit] using hy0
  have rx : roundUnit x a.baseUnit = x := roundUnit_of_multiple hx
  have ry : roundUnit y a.baseUnit = y := roundUnit_of_multiple hy
  have rxy : roundUnit (x + y) a.baseUnit = x + y := roundUnit_of_multiple fun hu => (hx hu).add (hy hu)
  simp only [Account.afterBuy, rx, ry, ex_add, ex_sub, ex_mul, ex_lt, ex_le, decide_eq_true_eq, decide_eq_false_iff_not, not_lt] at hxu hyu hle hle' hq hq' ⊢
  have hqm : 0 < a.quoteUnit → IsMultiple a.quoteUnit (q + fee) := fun hu => by
    rw [hfee, hq]; exact (isMultiple_ceilUnit _ _ hu).add (isMultiple_getFee _ _ _ hu)
  have hqm' : 0 < a.quoteUnit → IsMultiple a.quoteUnit (q' + fee') := fun hu => by
    rw [hfee', hq']; exact (isMultiple_ceilUnit _ _ hu).add (isMultiple_getFee (a.afterBuy x q fee) _ _ hu)
  have e1 : roundUnit (a.baseBalance + x) a.baseUnit = a.baseBalance + x := roundUnit_of_multiple fun hu => (hg.base hu).add (hx hu)
  have e2 : roundUnit (a.quoteBalance - (q + fee)) a.quoteUnit = a.quoteBalance - (q + fee) := roundUnit_of_multiple fun hu => (hg.quote hu).sub (hqm hu)
  have e3 : roundUnit (a.totalFee + fee) a.quoteUnit = a.totalFee + fee := roundUnit_of_multiple fun hu => (hg.fee hu).add (by rw [hfee]; exact isMultiple_getFee _ _ _ hu)
  rw [e2] at hle'
  have hfee'' : fee' = a.getFee f q' := hfee'
  have hqq : ceilUnit ((x + y) * p) a.quoteUnit ≤ q + q' := by rw [add_mul, hq, hq']; exact ceilUnit_add_le _ _ _
  have hff : a.getFee f (ceilUnit ((x + y) * p) a.quoteUnit) ≤ fee + fee' :=
    le_trans (getFee_mono a f hf.relative hqq) (by rw [hfee, hfee'']; exact getFee_add_le a hf _ _)
  rw [Account.buyBase_eq, if_pos (by simpa [lit] using hp), if_pos (by simpa [lit] using add_nonneg hx0 hy0), rxy, if_neg (by simp; linarith), if_neg]
  · refine ⟨_, rfl, ?_, ?_, ?_⟩
    · simp only [Account.afterBuy, ex_add, e1, add_assoc]
    · simp only [Account.afterBuy, ex_add, ex_sub, ex_mul, e2]
      exact roundUnit_mono _ (by linarith)
    · simp only [Account.afterBuy, ex_add, ex_sub, ex_mul, e3]
      exact roundUnit_mono _ (by linarith)
  · simp only [ex_add, ex_mul, ex_lt, decide_eq_true_eq, not_lt]
    linarith

/-- Two sales against one. -/
theorem sell_two {a a1 w : Account K} (hg : OnGrid a) (hu0 : 0 ≤ a.quoteUnit) {f : FeeConfig K} (hf : NoRebate f) (hr : f.relativeFee ≤ 1) {x y p : K}
    (hx : 0 < a.baseUnit → IsMultiple a.baseUnit x)
    (hy : 0 < a.baseUnit → IsMultiple a.baseUnit y) (h1 : a.sellBase f x p = .ok (true, a1)) (h2 : a1.sellBase f y p = .ok (true, w)) :
    ∃ z, a.sellBase f (x + y) p = .ok (true, z) ∧ z.baseBalance = w.baseBalance ∧ w.quoteBalance ≤ z.quoteBalance := by
  obtain ⟨hp, hx0, h1⟩ := a.sellBase_cases h1
  rcases h1 with ⟨h1, -⟩ | ⟨-, hxu, hxb, q, fee, hq, hfee, hle, rfl⟩
  · cases h1
  obtain ⟨-, hy0, h2⟩ := Account.sellBase_cases _ h2
  rcases h2 with ⟨h2, -⟩ | ⟨-, hyu, hyb, q', fee', hq', hfee', hle', rfl⟩
  · cases h2
  have hp : 0 < p := by simpa [lit] using hp
  have hx0 : 0 ≤ x := by simpa [lit] using hx0
  have hy0 : 0 ≤ y := by simpa [lit] using hy0
  have rx : roundUnit x a.baseUnit = x := roundUnit_of_multiple hx
  have ry : roundUnit y a.baseUnit = y := roundUnit_of_multiple hy
  have rxy : roundUnit (x + y) a.baseUnit = x + y := roundUnit_of_multiple fun hu => (hx hu).add (hy hu)
  simp only [Account.afterSell, rx, ry, ex_add, ex_sub, ex_mul, ex_lt, ex_le, decide_eq_true_eq, decide_eq_false_iff_not, not_lt] at hxu hyu hxb hyb hle hle' hq hq' ⊢
  have hqm : 0 < a.quoteUnit → IsMultiple a.quoteUnit (q - fee) := fun hu => by
    rw [hfee, hq]; exact (isMultiple_floorUnit _ _ hu).sub (isMultiple_getFee _ _ _ hu)
  have e1 : roundUnit (a.baseBalance - x) a.baseUnit = a.baseBalance - x := roundUnit_of_multiple fun hu => (hg.base hu).sub (hx hu)
  have e2 : roundUnit (a.quoteBalance + (q - fee)) a.quoteUnit = a.quoteBalance + (q - fee) := roundUnit_of_multiple fun hu => (hg.quote hu).add (hqm hu)
  rw [e1] at hyb
  have hfee'' : fee' = a.getFee f q' := hfee'
  obtain ⟨s, hs⟩ : ∃ s, s = floorUnit ((x + y) * p) a.quoteUnit := ⟨_, rfl⟩
  have hqq : q + q' ≤ s := by rw [hs, add_mul, hq, hq']; exact le_floorUnit_add _ _ _
  have hnet : q - fee + (q' - fee') ≤ s - a.getFee f s := by
    have h1 := getFee_add_le a hf q q'
    rw [← hfee, ← hfee''] at h1
    have h2 := net_mono a f hr hqq (fun hu => by rw [hq, hq']; exact (isMultiple_floorUnit _ _ hu).add (isMultiple_floorUnit _ _ hu))
      (fun hu => by rw [hs]; exact isMultiple_floorUnit _ _ hu)
    linarith
  rw [Account.sellBase_eq, if_pos (by simpa [lit] using hp), if_pos (by simpa [lit] using add_nonneg hx0 hy0), rxy,
    if_neg (by simp only [Bool.or_eq_true, ex_lt, decide_eq_true_eq, not_or, not_lt]; constructor <;> linarith), if_neg]
  · refine ⟨_, rfl, ?_, ?_⟩
    · simp only [Account.afterSell, ex_sub, e1, sub_sub]
    · simp only [Account.afterSell, ex_add, ex_sub, ex_mul, e2, ← hs]
      exact roundUnit_mono _ (by linarith)
  · simp only [ex_sub, ex_mul, ex_lt, decide_eq_true_eq, not_lt, ← hs]
    linarith

section orders
variable (c : AccountConfig K) (t : OhlcTick K) (ty : OrderType) (sd : Side) (price : Option K)

/-- Submit an order of this kind for a base amount. -/
abbrev submit (a : Account K) (b : K) : Res (Bool × Account K) := a.executeOrder c ⟨some ty, some sd, .base b, price⟩ t

theorem submit_pos {a w : Account K} {b : K} (h : submit c t ty sd price a b = .ok (true, w)) : 0 < b := by
  obtain ⟨_, _, _, _, _, x, hx, h | h⟩ := ok_valid h
  · cases h; simpa [lit] using hx
  · cases h

/-- An order within the tradable volume is one call of the trading function. -/
theorem submit_iff {a w : Account K} {b : K} (hcap : ty = .limit → b ≤ a.maxBaseAmount t) :
    submit c t ty sd price a b = .ok (true, w) ↔ 0 < b ∧ (ty = .market ∨ ∃ p, price = some p ∧ 0 < p) ∧ notReached t (price.getD 0) ty sd = false ∧
      (match sd with
        | .buy => a.buyBase (feeFor c ty) b (execPrice a.marketLiquidity t (price.getD 0) ty .buy)
        | .sell => a.sellBase (feeFor c ty) b (execPrice a.marketLiquidity t (price.getD 0) ty .sell)) = .ok (true, w) := by
  have hpr : (⟨some ty, some sd, .base b, price⟩ : Order K).getPrice = price.getD 0 := by simp [Order.getPrice, lit]
  have hc : (if ty = .limit then fmin b (a.maxBaseAmount t) else b) = b := by
    split_ifs with h
    · rw [ex_fmin, min_eq_left (hcap h)]
    · rfl
  by_cases hv : ValidOrder (⟨some ty, some sd, .base b, price⟩ : Order K)
  · have hb : 0 < b ∧ (ty = .market ∨ ∃ p, price = some p ∧ 0 < p) := by
      obtain ⟨ty', sd', e1, e2, e3, x, e4, e5⟩ := hv
      cases e1; cases e2
      rcases e5 with e5 | e5
      · cases e5
        refine ⟨by simpa [lit] using e4, e3.imp id ?_⟩
        rintro ⟨p, h1, h2⟩
        exact ⟨p, h1, by simpa [lit] using h2⟩
      · cases e5
    unfold submit
    rw [Account.executeOrder_valid a c _ t hv rfl rfl, hpr]
    cases notReached t (price.getD 0) ty sd
    · simp only [Bool.false_eq_true, if_false, hb.1, hb.2, true_and]
      cases sd <;> simp only [tradeOf, hc]
    · simp
  · unfold submit
    rw [Account.executeOrder_invalid a c _ t hv]
    constructor
    · intro h; cases h
    · rintro ⟨h1, h2, -⟩
      refine absurd ⟨ty, sd, rfl, rfl, h2.imp id ?_, b, by simpa [lit] using h1, .inl rfl⟩ hv
      rintro ⟨p, e1, e2⟩
      exact ⟨p, e1, by simpa [lit] using e2⟩

/-- **C116** (one order instead of many). If orders of the same kind for the amounts `l` (whole units of base currency) are all executed one after another on the same
tick, then a single order for their sum is executed as well: it leaves the same amount of base currency and at least as much quote currency, and if it buys, it pays no
more fees.  Fee schedules without rebates; a sale needs a relative fee of at most 1; limit orders: as long as the sum is within the tradable volume. -/
theorem C116_merge (a a' : Account K) (l : List K) (hne : l ≠ []) (hg : OnGrid a) (hu : 0 ≤ a.quoteUnit)
    (hl : 0 < a.baseUnit → ∀ b ∈ l, IsMultiple a.baseUnit b) (hf : NoRebate (feeFor c ty)) (hr : sd = .sell → (feeFor c ty).relativeFee ≤ 1)
    (hcap : ty = .limit → l.sum ≤ a.maxBaseAmount t) (h : AllExecuted (submit c t ty sd price) a l a') :
    ∃ z, submit c t ty sd price a l.sum = .ok (true, z) ∧ z.baseBalance = a'.baseBalance ∧ a'.quoteBalance ≤ z.quoteBalance ∧
      (sd = .buy → z.totalFee ≤ a'.totalFee) := by
  induction l generalizing a with
  | nil => exact absurd rfl hne
  | cons b l ih =>
    obtain ⟨a1, h1, h2⟩ := h
    rcases eq_or_ne l [] with rfl | hl'
    · cases h2
      exact ⟨_, by simpa using h1, rfl, le_rfl, fun _ => le_rfl⟩
    have hg1 := C03_onGrid_step a a1 c _ t true hg h1
    obtain ⟨-, u1, u2, u3, u4⟩ := C01_executeOrder a c _ t true a1 h1
    have hmax : a1.maxBaseAmount t = a.maxBaseAmount t := by simp only [Account.maxBaseAmount, u1, u4]
    have hb := submit_pos c t ty sd price h1
    have hcap1 : ty = .limit → l.sum ≤ a1.maxBaseAmount t := fun h => by
      have := hcap h
      rw [List.sum_cons] at this
      rw [hmax]; linarith
    obtain ⟨w, w1, w2, w3, w4⟩ := ih a1 hl' hg1 (by rw [u2]; exact hu) (by rw [u1]; exact fun h b hb => hl h b (by simp [hb])) hcap1 h2
    have hs := submit_pos c t ty sd price w1
    have hcapb : ty = .limit → b ≤ a.maxBaseAmount t := fun h => by
      have := hcap h
      rw [List.sum_cons] at this
      linarith
    have hsum : 0 < a.baseUnit → IsMultiple a.baseUnit l.sum := fun hu => by
      have : ∀ l : List K, (∀ b ∈ l, IsMultiple a.baseUnit b) → IsMultiple a.baseUnit l.sum := by
        intro l
        induction l with
        | nil => intro _; exact ⟨0, by simp⟩
        | cons x l ih => intro h; rw [List.sum_cons]; exact (h x (by simp)).add (ih fun b hb => h b (by simp [hb]))
      exact this l fun b hb => hl hu b (by simp [hb])
    rw [submit_iff c t ty sd price hcapb] at h1
    rw [submit_iff c t ty sd price hcap1, u3] at w1
    rw [List.sum_cons]
    rw [List.sum_cons] at hcap
    obtain ⟨-, k2, k3, k4⟩ := h1
    obtain ⟨-, -, -, k5⟩ := w1
    cases sd with
    | buy =>
      obtain ⟨z, z1, z2, z3, z4⟩ := buy_two hg hf (fun hu => hl hu b (by simp)) hsum k4 k5
      refine ⟨z, (submit_iff c t ty .buy price hcap).mpr ⟨by linarith, k2, k3, z1⟩, by rw [z2, w2], w3.trans z3, fun h => z4.trans (w4 h)⟩
    | sell =>
      obtain ⟨z, z1, z2, z3⟩ := sell_two hg hu hf (hr rfl) (fun hu => hl hu b (by simp)) hsum k4 k5
      refine ⟨z, (submit_iff c t ty .sell price hcap).mpr ⟨by linarith, k2, k3, z1⟩, by rw [z2, w2], w3.trans z3, fun h => by cases h⟩

end orders

/-! ## Limits -/

/-- No fees and no units; half the volume of a tick is tradable. -/
def spCfg : AccountConfig ℚ := ⟨0, 0, 0, 0, ⟨0, 0, 0⟩, ⟨0, 0, 0⟩, ⟨0, 0, 0⟩, 1, 1 / 2⟩
/-- Two coins are traded, at 10. -/
def spTick : OhlcTick ℚ := ⟨60, 10, 10, 10, 10, 2⟩
/-- An account with these balances. -/
def spAccount (base quote : ℚ) : Account ℚ := ⟨base, quote, 0, 0, 0, 1, 1 / 2⟩

/-- **C116** (limit: the tradable volume is per order). The part of a tick's volume that may be traded limits every single limit order and not their sum: whatever the
number `n`, `n` orders for the whole tradable volume (one coin) are all executed on the same tick, and buy `n` coins where only two were traded in all. -/
theorem C116_volume_is_per_order (n : ℕ) : (spAccount 0 (10 * n)).maxBaseAmount spTick = 1 ∧
    AllExecuted (submit spCfg spTick .limit .buy (some 10)) (spAccount 0 (10 * n)) (List.replicate n 1) (spAccount n 0) ∧
    submit spCfg spTick .limit .buy (some 10) (spAccount 0 (10 * n)) n = (if n = 0 then .error .assertion else .ok (true, spAccount 1 (10 * n - 10))) := by
  have hmax : ∀ b q, (spAccount b q).maxBaseAmount spTick = 1 := by
    intro b q
    simp [Account.maxBaseAmount, spAccount, spTick, floorUnit, lit]
  have hone : ∀ b q x : ℚ, 10 ≤ q → 1 ≤ x → submit spCfg spTick .limit .buy (some 10) (spAccount b q) x = .ok (true, spAccount (b + 1) (q - 10)) := by
    intro b q x hq hx
    have hv : ValidOrder (⟨some .limit, some .buy, .base x, some 10⟩ : Order ℚ) :=
      ⟨.limit, .buy, rfl, rfl, .inr ⟨10, rfl, by simp [lit]⟩, x, by simp [lit]; linarith, .inl rfl⟩
    unfold submit
    rw [Account.executeOrder_valid _ _ _ _ hv rfl rfl, if_neg (by simp [notReached, spTick, Order.getPrice])]
    simp only [tradeOf, if_true, ex_fmin, hmax, min_eq_right hx]
    rw [Account.buyBase_eq]
    simp [spAccount, roundUnit, ceilUnit, Account.getFee, Account.afterBuy, lit, execPrice, Order.getPrice, feeFor, spCfg]
    rw [if_neg (by norm_num), if_neg (by linarith)]
  refine ⟨hmax _ _, ?_, ?_⟩
  · have key : ∀ (n : ℕ) (b : ℚ), AllExecuted (submit spCfg spTick .limit .buy (some 10)) (spAccount b (10 * n)) (List.replicate n 1) (spAccount (b + n) 0) := by
      intro n
      induction n with
      | zero => intro b; simp [AllExecuted]
      | succ n ih =>
        intro b
        rw [List.replicate_succ]
        refine ⟨_, hone b _ 1 (by push_cast; nlinarith [Nat.cast_nonneg (α := ℚ) n]) le_rfl, ?_⟩
        have := ih (b + 1)
        have e1 : (10 : ℚ) * (n + 1 : ℕ) - 10 = 10 * n := by push_cast; ring
        have e2 : b + (n + 1 : ℕ) = b + 1 + n := by push_cast; ring
        rw [e1, e2]; exact this
    simpa using key n 0
  · split_ifs with h
    · subst h; decide +kernel
    · have h1 : (1 : ℚ) ≤ n := by exact_mod_cast Nat.one_le_iff_ne_zero.mpr h
      rw [hone 0 _ n (by linarith) h1]
      norm_num

/-- A relative fee of 10 %, units of 1, ten coins. -/
def spUnits : AccountConfig ℚ := ⟨10, 100, 1, 1, ⟨1 / 10, 0, 0⟩, ⟨0, 0, 0⟩, ⟨0, 0, 0⟩, 1, 0⟩

/-- **C116** (limit: fees of a sale). One sale instead of two can pay more fees (3 and not 2), since it sells for more (21 and not 20): the balances come out the same. -/
theorem C116_sale_fee : 
    let t : OhlcTick ℚ := ⟨60, 109 / 10, 109 / 10, 109 / 10, 109 / 10, 5⟩
    AllExecuted (submit spUnits t .market .sell none) (Account.init spUnits) [1, 1] ⟨8, 118, 2, 1, 1, 1, 0⟩ ∧
    submit spUnits t .market .sell none (Account.init spUnits) 2 = .ok (true, ⟨8, 118, 3, 1, 1, 1, 0⟩) :=
  ⟨⟨⟨9, 109, 1, 1, 1, 1, 0⟩, by decide +kernel, ⟨8, 118, 2, 1, 1, 1, 0⟩, by decide +kernel, rfl⟩, by decide +kernel⟩

/-- **C116** (limit: whole units). Amounts that are not whole units are rounded one by one: two orders for 3/5 of a coin buy two coins, one order for 6/5 buys one. -/
theorem C116_needs_whole_units : 
    AllExecuted (submit spUnits spTick .market .buy none) (Account.init spUnits) [3 / 5, 3 / 5] ⟨12, 78, 2, 1, 1, 1, 0⟩ ∧
    submit spUnits spTick .market .buy none (Account.init spUnits) (6 / 5) = .ok (true, ⟨11, 89, 1, 1, 1, 1, 0⟩) :=
  ⟨⟨⟨11, 89, 1, 1, 1, 1, 0⟩, by decide +kernel, ⟨12, 78, 2, 1, 1, 1, 0⟩, by decide +kernel, rfl⟩, by decide +kernel⟩

/-- **C116** (limit: quote amounts). Orders to spend amounts of quote currency cannot be merged: the first leaves what it could not spend to the second.  With 100 at a
price of 30, orders to spend 50 and 70 are executed (and buy one coin and two), an order to spend 120 is refused. -/
theorem C116_quote_amounts :
    let c : AccountConfig ℚ := ⟨0, 100, 1, 1, ⟨0, 0, 0⟩, ⟨0, 0, 0⟩, ⟨0, 0, 0⟩, 1, 0⟩
    let t : OhlcTick ℚ := ⟨60, 30, 30, 30, 30, 5⟩
    let spend := fun (a : Account ℚ) x => a.executeOrder c ⟨some .market, some .buy, .quote x, none⟩ t
    AllExecuted spend (Account.init c) [50, 70] ⟨3, 10, 0, 1, 1, 1, 0⟩ ∧ spend (Account.init c) 120 = .ok (false, Account.init c) :=
  ⟨⟨⟨1, 70, 0, 1, 1, 1, 0⟩, by decide +kernel, ⟨3, 10, 0, 1, 1, 1, 0⟩, by decide +kernel, rfl⟩, by decide +kernel⟩

/-! ## Non-vacuity -/

/-- A minimum fee is paid once and not three times: 3 coins at 10, a minimum fee of 1. -/
def spMin : AccountConfig ℚ := ⟨2, 100, 1 / 10, 1 / 100, ⟨1 / 100, 0, 1⟩, ⟨1 / 100, 0, 1⟩, ⟨1 / 100, 0, 1⟩, 1, 1⟩
/-- A tick with volume. -/
def spWide : OhlcTick ℚ := ⟨60, 10, 12, 9, 11, 100⟩

theorem spMin_grid : OnGrid (Account.init spMin) :=
  ⟨fun _ => ⟨20, by norm_num [Account.init, spMin]⟩, fun _ => ⟨10000, by norm_num [Account.init, spMin]⟩, fun _ => ⟨0, by norm_num [Account.init, spMin, lit]⟩⟩

theorem spMin_norebate (ty : OrderType) : NoRebate (feeFor spMin ty) := by cases ty <;> exact ⟨by norm_num [spMin, feeFor], by norm_num [spMin, feeFor], by norm_num [spMin, feeFor]⟩

theorem spMin_three : AllExecuted (submit spMin spWide .limit .buy (some 10)) (Account.init spMin) [1, 3 / 2, 1 / 2] ⟨5, 67, 3, 1 / 10, 1 / 100, 1, 1⟩ :=
  ⟨⟨3, 89, 1, 1 / 10, 1 / 100, 1, 1⟩, by decide +kernel, ⟨9 / 2, 73, 2, 1 / 10, 1 / 100, 1, 1⟩, by decide +kernel, ⟨5, 67, 3, 1 / 10, 1 / 100, 1, 1⟩, by decide +kernel, rfl⟩

example := C116_merge spMin spWide .limit .buy (some 10) (Account.init spMin) ⟨5, 67, 3, 1 / 10, 1 / 100, 1, 1⟩ [1, 3 / 2, 1 / 2] (by simp) spMin_grid (by decide +kernel)
  (by
    intro _ b hb
    simp only [List.mem_cons, List.not_mem_nil, or_false] at hb
    rcases hb with rfl | rfl | rfl
    · exact ⟨10, by norm_num [Account.init, spMin]⟩
    · exact ⟨15, by norm_num [Account.init, spMin]⟩
    · exact ⟨5, by norm_num [Account.init, spMin]⟩)
  (spMin_norebate _) (by simp) (by decide +kernel) spMin_three

/-- The single order: two units of quote currency cheaper. -/
example : submit spMin spWide .limit .buy (some 10) (Account.init spMin) 3 = .ok (true, ⟨5, 69, 1, 1 / 10, 1 / 100, 1, 1⟩) := by decide +kernel

/-- Two sales. -/
example := C116_merge spMin spWide .stop .sell (some 10) (Account.init spMin) ⟨0, 118, 2, 1 / 10, 1 / 100, 1, 1⟩ [1, 1] (by simp) spMin_grid (by decide +kernel)
  (by
    intro _ b hb
    simp only [List.mem_cons, List.not_mem_nil, or_false, or_self] at hb
    exact hb ▸ ⟨10, by norm_num [Account.init, spMin]⟩)
  (spMin_norebate _) (fun _ => by norm_num [spMin, feeFor]) (by decide +kernel)
  ⟨⟨1, 109, 1, 1 / 10, 1 / 100, 1, 1⟩, by decide +kernel, ⟨0, 118, 2, 1 / 10, 1 / 100, 1, 1⟩, by decide +kernel, rfl⟩

end Verif.Props.Split
