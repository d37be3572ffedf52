import Verif.Props.Account
import Verif.Spec.FloatMoney

/-!
# Account properties C03-C08, C11, C14: amounts, in exact arithmetic

`K` is any linearly ordered field with a floor function (`ℚ`, `ℝ`).
-/

set_option linter.unusedSectionVars false

namespace Verif.Props
open FloatOps Spec

variable {K : Type} [Field K] [LinearOrder K] [IsStrictOrderedRing K] [FloorRing K]

/-! ## C04 -/

/-- **C04** (buy). Complete functional description of buying `b` at price `p`. -/
theorem C04_buy (a : Account K) (fc : FeeConfig K) (b p : K) (hp : 0 < p) (hb : 0 ≤ b)
    (hg : OnGrid a) :
    ∃ b' q fee, NearestTo a.baseUnit b b' ∧ CeilTo a.quoteUnit (b' * p) q ∧
      FeeOf fc a.quoteUnit q fee ∧
      a.buyBase fc b p = .ok
        (if a.baseUnit ≤ b' ∧ q + fee ≤ a.quoteBalance then
          (true, { a with
            baseBalance := a.baseBalance + b'
            quoteBalance := a.quoteBalance - (q + fee)
            totalFee := a.totalFee + fee })
        else (false, a)) := by
  refine ⟨_, _, _, roundUnit_spec b a.baseUnit, ceilUnit_spec _ _, getFee_spec a fc _, ?_⟩
  rw [Account.buyBase_eq]
  have h1 : (p >. lit K 0) = true := by simpa using hp
  have h2 : (b >=. lit K 0) = true := by simpa using hb
  simp only [h1, h2, if_true, ex_lt, ex_add, ex_mul, decide_eq_true_eq]
  set b' := roundUnit b a.baseUnit with hb'
  set q := ceilUnit (b' * p) a.quoteUnit with hq
  set fee := a.getFee fc q with hfee
  by_cases hA : b' < a.baseUnit
  · rw [if_pos hA, if_neg (fun h => absurd h.1 (not_le.mpr hA))]
  rw [if_neg hA]
  by_cases hB : a.quoteBalance < q + fee
  · rw [if_pos hB, if_neg (fun h => absurd h.2 (not_le.mpr hB))]
  rw [if_neg hB, if_pos ⟨not_lt.mp hA, not_lt.mp hB⟩]
  unfold Account.afterBuy
  simp only [ex_add, ex_sub]
  rw [roundUnit_of_multiple (x := a.baseBalance + b'),
    roundUnit_of_multiple (x := a.quoteBalance - (q + fee)),
    roundUnit_of_multiple (x := a.totalFee + fee)]
  · exact fun hu => (hg.fee hu).add (isMultiple_getFee a fc _ hu)
  · exact fun hu => (hg.quote hu).sub ((isMultiple_ceilUnit _ _ hu).add (isMultiple_getFee a fc _ hu))
  · exact fun hu => (hg.base hu).add (isMultiple_roundUnit _ _ hu)

/-- **C04** (sell). Complete functional description of selling `b` at price `p`. -/
theorem C04_sell (a : Account K) (fc : FeeConfig K) (b p : K) (hp : 0 < p) (hb : 0 ≤ b)
    (hg : OnGrid a) :
    ∃ b' q fee, NearestTo a.baseUnit b b' ∧ FloorTo a.quoteUnit (b' * p) q ∧
      FeeOf fc a.quoteUnit q fee ∧
      a.sellBase fc b p = .ok
        (if a.baseUnit ≤ b' ∧ b' ≤ a.baseBalance ∧ a.quoteUnit ≤ q - fee then
          (true, { a with
            baseBalance := a.baseBalance - b'
            quoteBalance := a.quoteBalance + (q - fee)
            totalFee := a.totalFee + fee })
        else (false, a)) := by
  refine ⟨_, _, _, roundUnit_spec b a.baseUnit, floorUnit_spec _ _, getFee_spec a fc _, ?_⟩
  rw [Account.sellBase_eq]
  have h1 : (p >. lit K 0) = true := by simpa using hp
  have h2 : (b >=. lit K 0) = true := by simpa using hb
  simp only [h1, h2, if_true, ex_lt, ex_sub, ex_mul, decide_eq_true_eq, Bool.or_eq_true]
  set b' := roundUnit b a.baseUnit with hb'
  set q := floorUnit (b' * p) a.quoteUnit with hq
  set fee := a.getFee fc q with hfee
  by_cases hA : b' < a.baseUnit ∨ a.baseBalance < b'
  · rw [if_pos hA, if_neg]
    rintro ⟨h, h', -⟩
    rcases hA with hA | hA
    · exact absurd h (not_le.mpr hA)
    · exact absurd h' (not_le.mpr hA)
  rw [if_neg hA]
  rw [not_or, not_lt, not_lt] at hA
  by_cases hB : q - fee < a.quoteUnit
  · rw [if_pos hB, if_neg (fun h => absurd h.2.2 (not_le.mpr hB))]
  rw [if_neg hB, if_pos ⟨hA.1, hA.2, not_lt.mp hB⟩]
  unfold Account.afterSell
  simp only [ex_add, ex_sub]
  rw [roundUnit_of_multiple (x := a.baseBalance - b'),
    roundUnit_of_multiple (x := a.quoteBalance + (q - fee)),
    roundUnit_of_multiple (x := a.totalFee + fee)]
  · exact fun hu => (hg.fee hu).add (isMultiple_getFee a fc _ hu)
  · exact fun hu => (hg.quote hu).add ((isMultiple_floorUnit _ _ hu).sub (isMultiple_getFee a fc _ hu))
  · exact fun hu => (hg.base hu).sub (isMultiple_roundUnit _ _ hu)

/-! ## C03 -/

private theorem afterBuy_onGrid (a : Account K) (b q fee : K) : OnGrid (a.afterBuy b q fee) :=
  ⟨fun hu => isMultiple_roundUnit _ _ hu, fun hu => isMultiple_roundUnit _ _ hu,
    fun hu => isMultiple_roundUnit _ _ hu⟩

private theorem afterSell_onGrid (a : Account K) (b q fee : K) : OnGrid (a.afterSell b q fee) :=
  ⟨fun hu => isMultiple_roundUnit _ _ hu, fun hu => isMultiple_roundUnit _ _ hu,
    fun hu => isMultiple_roundUnit _ _ hu⟩

/-- **C03**. After any executed order balances and fee counter are on the currency grid, whatever they
were before. -/
theorem C03_grid (a a' : Account K) (c : AccountConfig K) (o : Order K) (t : OhlcTick K)
    (h : a.executeOrder c o t = .ok (true, a')) :
    (0 < a.baseUnit → IsMultiple a.baseUnit a'.baseBalance) ∧
    (0 < a.quoteUnit → IsMultiple a.quoteUnit a'.quoteBalance ∧
      IsMultiple a.quoteUnit a'.totalFee) := by
  rcases a.executeOrder_ok h with ⟨h, -⟩ | ⟨-, ty, sd, b, -, -, -, ⟨-, h⟩ | ⟨-, h⟩⟩
  · cases h
  · rcases (a.buyBase_cases h).2.2 with ⟨h, -⟩ | ⟨-, h1, q, fee, -, -, h2, rfl⟩
    · cases h
    · have g := afterBuy_onGrid a (roundUnit b a.baseUnit) q fee
      exact ⟨g.base, fun hu => ⟨g.quote hu, g.fee hu⟩⟩
  · rcases (a.sellBase_cases h).2.2 with ⟨h, -⟩ | ⟨-, -, h1, q, fee, -, -, h2, rfl⟩
    · cases h
    · have g := afterSell_onGrid a (roundUnit b a.baseUnit) q fee
      exact ⟨g.base, fun hu => ⟨g.quote hu, g.fee hu⟩⟩

/-- A grid-aligned account stays grid-aligned, whether or not the order executes. -/
theorem C03_onGrid_step (a a' : Account K) (c : AccountConfig K) (o : Order K) (t : OhlcTick K)
    (ok : Bool) (hg : OnGrid a) (h : a.executeOrder c o t = .ok (ok, a')) : OnGrid a' := by
  obtain ⟨h0, h1, h2, -, -⟩ := C01_executeOrder a c o t ok a' h
  cases ok
  · rw [h0 rfl]; exact hg
  · obtain ⟨g1, g2⟩ := C03_grid a a' c o t h
    refine ⟨?_, ?_, ?_⟩
    · rw [h1]; exact g1
    · rw [h2]; exact fun hu => (g2 hu).1
    · rw [h2]; exact fun hu => (g2 hu).2

/-- C03 along any order history. -/
theorem C03_onGrid_run (c : AccountConfig K) (l : List (Order K × OhlcTick K)) :
    ∀ a a' : Account K, OnGrid a → runOrders c a l = .ok a' → OnGrid a' := by
  induction l with
  | nil => intro a a' hg h; cases h; exact hg
  | cons x l ih =>
    obtain ⟨o, t⟩ := x
    intro a a' hg h
    simp only [runOrders] at h
    cases hx : a.executeOrder c o t with
    | error e => rw [hx] at h; cases h
    | ok r =>
      rw [hx] at h
      exact ih r.2 a' (C03_onGrid_step a r.2 c o t r.1 hg (by rw [hx])) h

private theorem float_mul_int {f : Fmt} (r : ℚ) (s : Bool) (m : ℤ) :
    FloatMultiple (.fin r : Fl f) (Fl.mul (.fin r) (Fl.ofIntSigned s m)) := by
  have hz : ∀ b : Bool, FloatMultiple (.fin r : Fl f) (Fl.zero b) := by
    intro b
    cases b
    · exact .inr (.inr (.inr ⟨0, by simp [Fl.ofRat, Fl.zero]⟩))
    · exact .inr (.inr (.inl rfl))
  unfold Fl.ofIntSigned
  by_cases hm : m = 0
  · rw [if_pos hm]
    cases s
    · have : Fl.mul (.fin r : Fl f) (Fl.zero false)
          = if r * 0 = 0 then Fl.zero (Fl.signBit (.fin r : Fl f) != Fl.signBit (.fin 0 : Fl f))
            else Fl.rnd f (r * 0) := rfl
      rw [this, if_pos (mul_zero r)]; exact hz _
    · have : Fl.mul (.fin r : Fl f) (Fl.zero true)
          = if r * 0 = 0 then Fl.zero (Fl.signBit (.fin r : Fl f) != Fl.signBit (.negZero : Fl f))
            else Fl.rnd f (r * 0) := rfl
      rw [this, if_pos (mul_zero r)]; exact hz _
  · rw [if_neg hm]
    have : Fl.mul (.fin r : Fl f) (.fin (m : ℚ))
          = if r * m = 0 then Fl.zero (Fl.signBit (.fin r : Fl f) != Fl.signBit (.fin (m : ℚ) : Fl f))
            else Fl.rnd f (r * m) := rfl
    rw [this]
    split_ifs with h0
    · exact hz _
    · refine .inr (.inr (.inr ⟨m, ?_⟩))
      have h0' : ¬ ((m : ℚ) * r = 0) := by rw [mul_comm]; exact h0
      show _ = Fl.ofRat f (m * r)
      unfold Fl.ofRat
      rw [if_neg h0', mul_comm]

private theorem float_roundUnit {f : Fmt} (x u : Fl f) (hu : (lit (Fl f) 0 <. u) = true) :
    FloatMultiple u (roundUnit x u) := by
  unfold roundUnit
  rw [if_pos hu]
  generalize FloatOps.div x u = y
  change FloatMultiple u (Fl.mul u (Fl.round y))
  have hu' : (∃ s, u = .inf s) ∨ ∃ r, u = .fin r := by
    cases u with
    | nan => exact absurd hu (by show ¬ (Fl.lt (Fl.ofRat f 0) .nan = true); unfold Fl.ofRat; simp [Fl.lt])
    | negZero =>
      exact absurd hu (by show ¬ (Fl.lt (Fl.ofRat f 0) .negZero = true); unfold Fl.ofRat; simp [Fl.lt, Fl.toQ])
    | inf s => exact .inl ⟨s, rfl⟩
    | fin r => exact .inr ⟨r, rfl⟩
  rcases hu' with ⟨s, rfl⟩ | ⟨r, rfl⟩
  · have hmul : ∀ z : Fl f, Fl.mul (.inf s) z = .nan ∨ ∃ b, Fl.mul (.inf s) z = .inf b := by
      intro z
      cases z with
      | nan => exact .inl rfl
      | inf b => exact .inr ⟨_, by simp only [Fl.mul]; rw [if_neg]; cases b <;> simp⟩
      | negZero => left; simp [Fl.mul, Fl.toQ]
      | fin q =>
        simp only [Fl.mul]
        split_ifs
        · exact .inl rfl
        · exact .inr ⟨_, rfl⟩
    rcases hmul (Fl.round y) with h | ⟨b, h⟩
    · exact .inl h
    · exact .inr (.inl ⟨b, h⟩)
  · cases y with
    | nan => exact .inl rfl
    | inf s =>
      have : Fl.mul (.fin r : Fl f) (.inf s)
        = if r = 0 then .nan else .inf (Fl.signBit (.fin r : Fl f) != s) := rfl
      show FloatMultiple _ (Fl.mul (.fin r) (.inf s))
      rw [this]
      split_ifs
      · exact .inl rfl
      · exact .inr (.inl ⟨_, rfl⟩)
    | negZero => exact float_mul_int r true 0
    | fin q => exact float_mul_int r _ _

/-- **C03** for `float` (any IEEE format). -/
theorem C03_float {f : Fmt} (a a' : Account (Fl f)) (c : AccountConfig (Fl f)) (o : Order (Fl f))
    (t : OhlcTick (Fl f)) (h : a.executeOrder c o t = .ok (true, a')) :
    ((lit (Fl f) 0 <. a.baseUnit) = true → FloatMultiple a.baseUnit a'.baseBalance) ∧
    ((lit (Fl f) 0 <. a.quoteUnit) = true → FloatMultiple a.quoteUnit a'.quoteBalance ∧
      FloatMultiple a.quoteUnit a'.totalFee) := by
  rcases a.executeOrder_ok h with ⟨h, -⟩ | ⟨-, ty, sd, b, -, -, -, ⟨-, h⟩ | ⟨-, h⟩⟩
  · cases h
  · rcases (a.buyBase_cases h).2.2 with ⟨h, -⟩ | ⟨-, h1, q, fee, -, -, h2, rfl⟩
    · cases h
    · exact ⟨float_roundUnit _ _, fun hu => ⟨float_roundUnit _ _ hu, float_roundUnit _ _ hu⟩⟩
  · rcases (a.sellBase_cases h).2.2 with ⟨h, -⟩ | ⟨-, -, h1, q, fee, -, -, h2, rfl⟩
    · cases h
    · exact ⟨float_roundUnit _ _, fun hu => ⟨float_roundUnit _ _ hu, float_roundUnit _ _ hu⟩⟩

/-! ## C05 -/

private theorem buy_value (a a' : Account K) (fc : FeeConfig K) (b p : K) (hg : OnGrid a)
    (h : a.buyBase fc b p = .ok (true, a')) :
    valueAt a' p + (a'.totalFee - a.totalFee) ≤ valueAt a p ∧
      fc.minimumFee ≤ a'.totalFee - a.totalFee := by
  obtain ⟨hp, hb, -⟩ := a.buyBase_cases h
  obtain ⟨b', q, fee, -, hq, hfee, he⟩ := C04_buy a fc b p (by simpa using hp) (by simpa using hb) hg
  rw [he] at h
  split_ifs at h with hc
  swap
  · cases h
  cases h
  have : b' * p ≤ q := by
    have := ceilUnit_spec (b' * p) a.quoteUnit
    rw [hq.unique this]; exact le_ceilUnit _ _
  have h2 : fc.minimumFee ≤ fee := by
    unfold FeeOf at hfee
    rw [hfee.unique (ceilUnit_spec _ _)]
    exact le_trans (le_max_left _ _) (le_ceilUnit _ _)
  constructor
  · simp only [valueAt]; nlinarith
  · simpa using h2

private theorem sell_value (a a' : Account K) (fc : FeeConfig K) (b p : K) (hg : OnGrid a)
    (h : a.sellBase fc b p = .ok (true, a')) :
    valueAt a' p + (a'.totalFee - a.totalFee) ≤ valueAt a p ∧
      fc.minimumFee ≤ a'.totalFee - a.totalFee := by
  obtain ⟨hp, hb, -⟩ := a.sellBase_cases h
  obtain ⟨b', q, fee, -, hq, hfee, he⟩ := C04_sell a fc b p (by simpa using hp) (by simpa using hb) hg
  rw [he] at h
  split_ifs at h with hc
  swap
  · cases h
  cases h
  have : q ≤ b' * p := by
    have := floorUnit_spec (b' * p) a.quoteUnit
    rw [hq.unique this]; exact floorUnit_le _ _
  have h2 : fc.minimumFee ≤ fee := by
    unfold FeeOf at hfee
    rw [hfee.unique (ceilUnit_spec _ _)]
    exact le_trans (le_max_left _ _) (le_ceilUnit _ _)
  constructor
  · simp only [valueAt]; nlinarith
  · simpa using h2

/-- **C05**. Valued at the price the order executes at, an executed order never creates money: the value
lost is at least the fee charged (so with a non-negative minimum fee the value cannot increase). -/
theorem C05_no_free_money (a a' : Account K) (c : AccountConfig K) (o : Order K) (t : OhlcTick K)
    (ty : OrderType) (sd : Side) (hty : o.type = some ty) (hsd : o.side = some sd) (hg : OnGrid a)
    (h : a.executeOrder c o t = .ok (true, a')) :
    let p := execPrice a.marketLiquidity t o.getPrice ty sd
    valueAt a' p + (a'.totalFee - a.totalFee) ≤ valueAt a p ∧
    (0 ≤ (feeFor c ty).minimumFee → valueAt a' p ≤ valueAt a p ∧ a.totalFee ≤ a'.totalFee) := by
  intro p
  have key : valueAt a' p + (a'.totalFee - a.totalFee) ≤ valueAt a p ∧
      (feeFor c ty).minimumFee ≤ a'.totalFee - a.totalFee := by
    rcases a.executeOrder_ok h with ⟨h, -⟩ | ⟨-, ty', sd', b, h1, h2, -, hh⟩
    · cases h
    · rw [hty] at h1; cases h1
      rw [hsd] at h2; cases h2
      rcases hh with ⟨-, h⟩ | ⟨-, h⟩
      · exact buy_value a a' _ b _ hg h
      · exact sell_value a a' _ b _ hg h
  exact ⟨key.1, fun hm => ⟨by linarith [key.1, key.2], by linarith [key.2]⟩⟩

/-! ## C06, C07 -/

private theorem fee_nonneg (a : Account K) (fc : FeeConfig K) (hm : 0 ≤ fc.minimumFee) (q : K) :
    0 ≤ a.getFee fc q := by
  rw [getFee_eq]; exact le_trans hm (le_trans (le_max_left _ _) (le_ceilUnit _ _))

private theorem buyAtQuote_bound (a a' : Account K) (fc : FeeConfig K) (q p m : K) (hg : OnGrid a)
    (hm : 0 ≤ fc.minimumFee) (hr : 0 ≤ fc.relativeFee)
    (h : a.buyAtQuote fc q p m = .ok (true, a')) :
    a.quoteBalance - a'.quoteBalance ≤ roundUnit q a.quoteUnit := by
  obtain ⟨hp, -, h⟩ := a.buyAtQuote_cases h
  have hp : 0 < p := by simpa using hp
  rcases h with ⟨h, -⟩ | ⟨q', fee, b, hq', hfee, hb, -, -, -, -, h⟩
  · cases h
  obtain ⟨-, hb0, -⟩ := a.buyBase_cases h
  obtain ⟨b', q2, fee2, hb', hq2, hfee2, he⟩ := C04_buy a fc b p hp (by simpa using hb0) hg
  rw [he] at h
  split_ifs at h with hc
  swap
  · cases h
  cases h
  have hfee0 : 0 ≤ fee := hfee ▸ fee_nonneg a fc hm q'
  simp only [ex_sub, ex_div, ex_fmin] at hb
  have e1 : b' = b := by
    rw [hb'.unique (roundUnit_spec _ _) (by simpa using hb0), roundUnit_of_multiple]
    intro hu; rw [hb]; exact isMultiple_floorUnit _ _ hu
  have e2 : b * p ≤ q' - fee := by
    have h1 : b ≤ (q' - fee) / p := by
      rw [hb]; exact le_trans (floorUnit_le _ _) (min_le_left _ _)
    rwa [le_div_iff₀ hp] at h1
  have e3 : q2 ≤ q' - fee := by
    rw [hq2.unique (ceilUnit_spec _ _), e1]
    refine ceilUnit_le_of_multiple (fun hu => ?_) e2
    rw [hq', hfee]
    exact (isMultiple_roundUnit _ _ hu).sub (isMultiple_getFee a fc _ hu)
  have e4 : fee2 ≤ fee := by
    unfold FeeOf at hfee2
    rw [hfee2.unique (ceilUnit_spec _ _), ← getFee_eq, hfee]
    exact getFee_mono a fc hr (by linarith)
  show a.quoteBalance - (a.quoteBalance - (q2 + fee2)) ≤ _
  rw [← hq']; linarith

private theorem sellAtQuote_bound (a a' : Account K) (fc : FeeConfig K) (q p m : K) (hg : OnGrid a)
    (hm : 0 ≤ fc.minimumFee) (hr : 0 ≤ fc.relativeFee)
    (h : a.sellAtQuote fc q p m = .ok (true, a')) :
    a'.quoteBalance - a.quoteBalance ≤ roundUnit q a.quoteUnit := by
  obtain ⟨hp, -, h⟩ := a.sellAtQuote_cases h
  have hp : 0 < p := by simpa using hp
  rcases h with ⟨h, -⟩ | ⟨q', fee, b, hq', hfee, hb, -, -, h⟩
  · cases h
  obtain ⟨-, hb0, -⟩ := a.sellBase_cases h
  obtain ⟨b', q2, fee2, hb', hq2, hfee2, he⟩ := C04_sell a fc b p hp (by simpa using hb0) hg
  rw [he] at h
  split_ifs at h with hc
  swap
  · cases h
  cases h
  simp only [ex_add, ex_div, ex_fmin] at hb
  have e1 : b' = b := by
    rw [hb'.unique (roundUnit_spec _ _) (by simpa using hb0), roundUnit_of_multiple]
    intro hu; rw [hb]; exact isMultiple_floorUnit _ _ hu
  have e2 : b * p ≤ q' + fee := by
    have h1 : b ≤ (q' + fee) / p := by
      rw [hb]; exact le_trans (floorUnit_le _ _) (min_le_left _ _)
    rwa [le_div_iff₀ hp] at h1
  have e3 : q2 ≤ q' + fee := by
    rw [hq2.unique (floorUnit_spec _ _), e1]
    exact le_trans (floorUnit_le _ _) e2
  have e4 : fee2 = a.getFee fc q2 := by
    unfold FeeOf at hfee2
    rw [hfee2.unique (ceilUnit_spec _ _), ← getFee_eq]
  have e5 : 0 ≤ fee2 := e4 ▸ fee_nonneg a fc hm q2
  show a.quoteBalance + (q2 - fee2) - a.quoteBalance ≤ _
  rw [← hq']
  rcases le_total q2 q' with hle | hle
  · linarith
  · have : fee ≤ fee2 := by rw [e4, hfee]; exact getFee_mono a fc hr hle
    linarith

private theorem round_bounds (q u : K) :
    ∃ q', NearestTo u q q' ∧ roundUnit q u = q' ∧ (0 < u → q' ≤ q + u / 2) ∧
      ((0 < u → IsMultiple u q) → q' = q) :=
  ⟨_, roundUnit_spec q u, rfl, roundUnit_le_half q u, fun h => roundUnit_of_multiple h⟩

private theorem valid_of_ok {a : Account K} {c : AccountConfig K} {o : Order K} {t : OhlcTick K}
    {r : Bool × Account K} (h : a.executeOrder c o t = .ok r) : ValidOrder o := by
  by_contra hv
  rw [Account.executeOrder_invalid a c o t hv] at h; cases h

/-- **C06**. A successful buy order given as a quote amount `x` never spends, fee included, more than `x`
rounded to the quote unit: at most half a unit more than `x`, and at most `x` itself when `x` is a whole
number of units (or units are unused). -/
theorem C06_buy_at_quote_bound (a a' : Account K) (c : AccountConfig K) (o : Order K) (t : OhlcTick K)
    (ty : OrderType) (x : K) (hty : o.type = some ty) (hsd : o.side = some .buy)
    (ho : o.amount = .quote x) (hg : OnGrid a)
    (hm : 0 ≤ (feeFor c ty).minimumFee) (hr : 0 ≤ (feeFor c ty).relativeFee)
    (h : a.executeOrder c o t = .ok (true, a')) :
    ∃ x', NearestTo a.quoteUnit x x' ∧ a.quoteBalance - a'.quoteBalance ≤ x' ∧
      (0 < a.quoteUnit → a.quoteBalance - a'.quoteBalance ≤ x + a.quoteUnit / 2) ∧
      ((0 < a.quoteUnit → IsMultiple a.quoteUnit x) → a.quoteBalance - a'.quoteBalance ≤ x) := by
  have hv := valid_of_ok h
  obtain ⟨x', h1, h2, h3, h4⟩ := round_bounds x a.quoteUnit
  have key : a.quoteBalance - a'.quoteBalance ≤ x' := by
    rw [Account.executeOrder_valid a c o t hv hty hsd] at h
    split_ifs at h with hn
    · cases h
    rw [ho] at h
    rw [← h2]
    exact buyAtQuote_bound a a' _ x _ _ hg hm hr h
  exact ⟨x', h1, key, fun hu => le_trans key (h3 hu), fun hu => by rw [← h4 hu]; exact key⟩

/-- **C07**. A successful sell order given as a quote amount `x` never credits more than `x` rounded to
the quote unit (net of the fee). -/
theorem C07_sell_at_quote_bound (a a' : Account K) (c : AccountConfig K) (o : Order K)
    (t : OhlcTick K) (ty : OrderType) (x : K) (hty : o.type = some ty) (hsd : o.side = some .sell)
    (ho : o.amount = .quote x) (hg : OnGrid a)
    (hm : 0 ≤ (feeFor c ty).minimumFee) (hr : 0 ≤ (feeFor c ty).relativeFee)
    (h : a.executeOrder c o t = .ok (true, a')) :
    ∃ x', NearestTo a.quoteUnit x x' ∧ a'.quoteBalance - a.quoteBalance ≤ x' ∧
      (0 < a.quoteUnit → a'.quoteBalance - a.quoteBalance ≤ x + a.quoteUnit / 2) ∧
      ((0 < a.quoteUnit → IsMultiple a.quoteUnit x) → a'.quoteBalance - a.quoteBalance ≤ x) := by
  have hv := valid_of_ok h
  obtain ⟨x', h1, h2, h3, h4⟩ := round_bounds x a.quoteUnit
  have key : a'.quoteBalance - a.quoteBalance ≤ x' := by
    rw [Account.executeOrder_valid a c o t hv hty hsd] at h
    split_ifs at h with hn
    · cases h
    rw [ho] at h
    rw [← h2]
    exact sellAtQuote_bound a a' _ x _ _ hg hm hr h
  exact ⟨x', h1, key, fun hu => le_trans key (h3 hu), fun hu => by rw [← h4 hu]; exact key⟩

/-! ## C08 -/

/-- **C08** (fee formula). The fee is never below the minimum fee nor below fixed + relative fee, exceeds
the larger of the two by less than one quote unit (not at all when units are unused), is a whole number of
units, and does not decrease with the traded amount. -/
theorem C08_fee (a : Account K) (fc : FeeConfig K) (q : K) :
    let fee := a.getFee fc q
    let exactFee := max fc.minimumFee (fc.fixedFee + fc.relativeFee * q)
    fc.minimumFee ≤ fee ∧ fc.fixedFee + fc.relativeFee * q ≤ fee ∧
    (0 < a.quoteUnit → fee < exactFee + a.quoteUnit ∧ IsMultiple a.quoteUnit fee) ∧
    (a.quoteUnit ≤ 0 → fee = exactFee) ∧
    (0 ≤ fc.relativeFee → ∀ q', q ≤ q' → fee ≤ a.getFee fc q') := by
  intro fee exactFee
  have h : exactFee ≤ fee := by
    show _ ≤ a.getFee fc q
    rw [getFee_eq]; exact le_ceilUnit _ _
  refine ⟨le_trans (le_max_left _ _) h, le_trans (le_max_right _ _) h, fun hu => ⟨?_, ?_⟩, fun hu => ?_,
    fun hr q' hq => getFee_mono a fc hr hq⟩
  · show a.getFee fc q < _
    rw [getFee_eq]; exact ceilUnit_lt _ _ hu
  · exact isMultiple_getFee a fc q hu
  · show a.getFee fc q = _
    rw [getFee_eq]; exact ceilUnit_nonpos (not_lt.mpr hu)

example : (Account.init (exCfg ℚ)).getFee (exCfg ℚ).marketFee 301 = 215 / 64 := by decide +kernel

section laws
variable {F : Type} [FloatOps F] [SignLaws F]

theorem getFee_notBelow (a : Account F) (fc : FeeConfig F) (q : F)
    (h : NotBelowZero fc.minimumFee) : NotBelowZero (a.getFee fc q) := by
  unfold Account.getFee
  have h1 : NotBelowZero (fmax fc.minimumFee (fc.fixedFee +. q *. fc.relativeFee)) := by
    unfold fmax
    split
    · rename_i hlt; exact SignLaws.not_neg_of_lt _ _ h hlt
    · exact h
  unfold ceilUnit
  split
  · rename_i hu
    exact SignLaws.mul_not_neg _ _ hu (SignLaws.ceil_not_neg _ (SignLaws.div_not_neg _ _ hu h1))
  · exact h1

theorem roundUnit_notBelow' {x u : F} (h : NotBelowZero x) : NotBelowZero (roundUnit x u) := by
  unfold roundUnit
  split
  · rename_i hu
    exact SignLaws.mul_not_neg _ _ hu (SignLaws.round_not_neg _ (SignLaws.div_not_neg _ _ hu h))
  · exact h

/-- **C08** (accumulated fee, all arithmetics including IEEE floats). With non-negative minimum fees the
fee counter never compares below zero, after any order history. -/
theorem C08_total_fee_never_negative (c : AccountConfig F) (l : List (Order F × OhlcTick F))
    (hm : ∀ ty, NotBelowZero (feeFor c ty).minimumFee) :
    ∀ a a' : Account F, NotBelowZero a.totalFee → runOrders c a l = .ok a' →
      NotBelowZero a'.totalFee := by
  induction l with
  | nil => intro a a' hf h; cases h; exact hf
  | cons x l ih =>
    obtain ⟨o, t⟩ := x
    intro a a' hf h
    simp only [runOrders] at h
    cases hx : a.executeOrder c o t with
    | error e => rw [hx] at h; cases h
    | ok r =>
      obtain ⟨ok, a1⟩ := r
      rw [hx] at h
      refine ih a1 a' ?_ h
      rcases a.executeOrder_ok hx with ⟨-, rfl⟩ | ⟨-, ty, sd, b, -, -, -, ⟨-, h⟩ | ⟨-, h⟩⟩
      · exact hf
      · rcases (a.buyBase_cases h).2.2 with ⟨h, -⟩ | ⟨-, h1, q, fee, -, rfl, h2, rfl⟩
        · cases h
        · exact roundUnit_notBelow' (SignLaws.add_not_neg _ _ hf (getFee_notBelow _ _ _ (hm ty)))
      · rcases (a.sellBase_cases h).2.2 with ⟨h, -⟩ | ⟨-, -, h1, q, fee, -, rfl, h2, rfl⟩
        · cases h
        · exact roundUnit_notBelow' (SignLaws.add_not_neg _ _ hf (getFee_notBelow _ _ _ (hm ty)))

end laws

/-- **C08** (accumulated fee, exact). The fee counter never decreases along any order history. -/
theorem C08_total_fee_mono (c : AccountConfig K) (l : List (Order K × OhlcTick K))
    (hm : ∀ ty, 0 ≤ (feeFor c ty).minimumFee) :
    ∀ a a' : Account K, OnGrid a → runOrders c a l = .ok a' → a.totalFee ≤ a'.totalFee := by
  induction l with
  | nil => intro a a' _ h; cases h; exact le_refl _
  | cons x l ih =>
    obtain ⟨o, t⟩ := x
    intro a a' hg h
    simp only [runOrders] at h
    cases hx : a.executeOrder c o t with
    | error e => rw [hx] at h; cases h
    | ok r =>
      obtain ⟨ok, a1⟩ := r
      rw [hx] at h
      refine le_trans ?_ (ih a1 a' (C03_onGrid_step a a1 c o t ok hg hx) h)
      cases ok
      · rw [(C01_executeOrder a c o t false a1 hx).1 rfl]
      · obtain ⟨ty, sd, hty, hsd, -⟩ := valid_of_ok hx
        exact ((C05_no_free_money a a1 c o t ty sd hty hsd hg hx).2 (hm ty)).2

/-! ## C11 -/

private theorem buy_delta (a a' : Account K) (fc : FeeConfig K) (b p : K) (hg : OnGrid a)
    (h : a.buyBase fc b p = .ok (true, a')) :
    a'.baseBalance - a.baseBalance = roundUnit b a.baseUnit ∧ 0 ≤ b := by
  obtain ⟨hp, hb, -⟩ := a.buyBase_cases h
  have hb : 0 ≤ b := by simpa using hb
  obtain ⟨b', q, fee, hb', hq, hfee, he⟩ := C04_buy a fc b p (by simpa using hp) hb hg
  rw [he] at h
  split_ifs at h with hc
  swap
  · cases h
  cases h
  exact ⟨by simpa using hb'.unique (roundUnit_spec _ _) hb, hb⟩

private theorem sell_delta (a a' : Account K) (fc : FeeConfig K) (b p : K) (hg : OnGrid a)
    (h : a.sellBase fc b p = .ok (true, a')) :
    a.baseBalance - a'.baseBalance = roundUnit b a.baseUnit ∧ 0 ≤ b := by
  obtain ⟨hp, hb, -⟩ := a.sellBase_cases h
  have hb : 0 ≤ b := by simpa using hb
  obtain ⟨b', q, fee, hb', hq, hfee, he⟩ := C04_sell a fc b p (by simpa using hp) hb hg
  rw [he] at h
  split_ifs at h with hc
  swap
  · cases h
  cases h
  exact ⟨by simpa using hb'.unique (roundUnit_spec _ _) hb, hb⟩

private theorem buyAtQuote_delta (a a' : Account K) (fc : FeeConfig K) (q p m : K) (hg : OnGrid a)
    (h : a.buyAtQuote fc q p m = .ok (true, a')) :
    ∃ b, a'.baseBalance - a.baseBalance = roundUnit b a.baseUnit ∧ 0 ≤ b ∧ b ≤ m := by
  obtain ⟨-, -, h⟩ := a.buyAtQuote_cases h
  rcases h with ⟨h, -⟩ | ⟨q', fee, b, hq', hfee, hb, -, -, -, -, h⟩
  · cases h
  obtain ⟨h1, h2⟩ := buy_delta a a' fc b p hg h
  refine ⟨b, h1, h2, ?_⟩
  rw [hb]
  simp only [ex_fmin]
  exact le_trans (floorUnit_le _ _) (min_le_right _ _)

private theorem sellAtQuote_delta (a a' : Account K) (fc : FeeConfig K) (q p m : K) (hg : OnGrid a)
    (h : a.sellAtQuote fc q p m = .ok (true, a')) :
    ∃ b, a.baseBalance - a'.baseBalance = roundUnit b a.baseUnit ∧ 0 ≤ b ∧ b ≤ m := by
  obtain ⟨-, -, h⟩ := a.sellAtQuote_cases h
  rcases h with ⟨h, -⟩ | ⟨q', fee, b, hq', hfee, hb, -, -, h⟩
  · cases h
  obtain ⟨h1, h2⟩ := sell_delta a a' fc b p hg h
  refine ⟨b, h1, h2, ?_⟩
  rw [hb]
  simp only [ex_fmin]
  exact le_trans (floorUnit_le _ _) (min_le_right _ _)

/-- **C11**. With a positive volume ratio, an executed limit order moves at most
floor_unit(ratio * volume) base currency, and at most the requested amount rounded to the unit. -/
theorem C11_volume_cap (a a' : Account K) (c : AccountConfig K) (o : Order K) (t : OhlcTick K)
    (hty : o.type = some .limit) (hg : OnGrid a) (hr : 0 < a.maxVolumeRatio)
    (h : a.executeOrder c o t = .ok (true, a')) :
    (∃ cap, FloorTo a.baseUnit (a.maxVolumeRatio * t.volume) cap ∧
      |a'.baseBalance - a.baseBalance| ≤ cap) ∧
    (∀ x, o.amount = .base x → ∃ x', NearestTo a.baseUnit x x' ∧
      |a'.baseBalance - a.baseBalance| ≤ x') := by
  have hv := valid_of_ok h
  obtain ⟨ty, sd, hty', hsd, -, x, hx, hamt⟩ := id hv
  rw [hty] at hty'; cases hty'
  rw [Account.executeOrder_valid a c o t hv hty hsd] at h
  split_ifs at h with hn
  · cases h
  have hcap : a.maxBaseAmount t = floorUnit (a.maxVolumeRatio * t.volume) a.baseUnit := by
    unfold Account.maxBaseAmount
    rw [if_pos (by simpa using hr)]; rfl
  have hround : roundUnit (a.maxBaseAmount t) a.baseUnit = a.maxBaseAmount t :=
    roundUnit_of_multiple (fun hu => by rw [hcap]; exact isMultiple_floorUnit _ _ hu)
  -- the traded amount
  have key : ∃ b, |a'.baseBalance - a.baseBalance| = roundUnit b a.baseUnit ∧ b ≤ a.maxBaseAmount t ∧
      (∀ y, o.amount = .base y → b ≤ y) := by
    rcases hamt with hamt | hamt <;> rw [hamt] at h <;> cases sd <;>
      simp only [tradeOf, if_true, ex_fmin] at h
    · obtain ⟨h1, h2⟩ := buy_delta a a' _ _ _ hg h
      refine ⟨_, by rw [h1, abs_of_nonneg (roundUnit_nonneg h2)], min_le_right _ _, ?_⟩
      intro y hy; rw [hamt] at hy; cases hy; exact min_le_left _ _
    · obtain ⟨h1, h2⟩ := sell_delta a a' _ _ _ hg h
      refine ⟨_, by rw [abs_sub_comm, h1, abs_of_nonneg (roundUnit_nonneg h2)], min_le_right _ _, ?_⟩
      intro y hy; rw [hamt] at hy; cases hy; exact min_le_left _ _
    · obtain ⟨b, h1, h2, h3⟩ := buyAtQuote_delta a a' _ _ _ _ hg h
      refine ⟨b, by rw [h1, abs_of_nonneg (roundUnit_nonneg h2)], h3, ?_⟩
      intro y hy; rw [hamt] at hy; cases hy
    · obtain ⟨b, h1, h2, h3⟩ := sellAtQuote_delta a a' _ _ _ _ hg h
      refine ⟨b, by rw [abs_sub_comm, h1, abs_of_nonneg (roundUnit_nonneg h2)], h3, ?_⟩
      intro y hy; rw [hamt] at hy; cases hy
  obtain ⟨b, h1, h2, h3⟩ := key
  refine ⟨⟨_, floorUnit_spec _ _, ?_⟩, fun y hy => ⟨_, roundUnit_spec _ _, ?_⟩⟩
  · rw [h1, ← hcap, ← hround]; exact roundUnit_mono _ h2
  · rw [h1]; exact roundUnit_mono _ (h3 y hy)

/-- **C11**, ratio not positive: no volume cap - a triggered limit order for `x` base currency (up to the
largest float) trades as a plain buy/sell of `x`, whatever the volume of the tick. -/
theorem C11_no_cap (a : Account K) (c : AccountConfig K) (o : Order K) (t : OhlcTick K)
    (hv : ValidOrder o) (hty : o.type = some .limit) (sd : Side) (hsd : o.side = some sd) (x : K)
    (hx : o.amount = .base x) (hmax : x ≤ (maxFiniteRat : K)) (hr : a.maxVolumeRatio ≤ 0)
    (hreach : notReached t o.getPrice .limit sd = false) :
    a.executeOrder c o t =
      match sd with
      | .buy => a.buyBase c.limitFee x o.getPrice
      | .sell => a.sellBase c.limitFee x o.getPrice := by
  rw [Account.executeOrder_valid a c o t hv hty hsd, hreach, hx]
  have hcap : a.maxBaseAmount t = (maxFiniteRat : K) := by
    unfold Account.maxBaseAmount
    rw [if_neg (by simpa using hr)]; rfl
  cases sd <;> simp [tradeOf, feeFor, execPrice, hcap, hmax]

/-! ## C14 -/

/-- **C14** (buy). If buying `b` at `p` succeeds, so does buying any smaller whole number of units at any
price not higher, from an account with the same units and at least as much quote currency. -/
theorem C14_buy (a a' a2 : Account K) (fc : FeeConfig K) (b b2 p p2 : K) (hr : 0 ≤ fc.relativeFee)
    (h : a.buyBase fc b p = .ok (true, a'))
    (hbu : a2.baseUnit = a.baseUnit) (hqu : a2.quoteUnit = a.quoteUnit)
    (hq : a.quoteBalance ≤ a2.quoteBalance)
    (hb2 : b2 ≤ b) (hb0 : 0 ≤ b2) (hunit : a.baseUnit ≤ b2)
    (hmul : 0 < a.baseUnit → IsMultiple a.baseUnit b2) (hp0 : 0 < p2) (hp2 : p2 ≤ p) :
    ∃ a2', a2.buyBase fc b2 p2 = .ok (true, a2') := by
  obtain ⟨hp, hb, h⟩ := a.buyBase_cases h
  rcases h with ⟨h, -⟩ | ⟨-, h1, q, fee, hq1, hfee, h2, -⟩
  · cases h
  have h2 : q + fee ≤ a.quoteBalance := by simpa using h2
  have e1 : roundUnit b2 a2.baseUnit = b2 := by rw [hbu]; exact roundUnit_of_multiple hmul
  have e2 : b2 ≤ roundUnit b a.baseUnit := by
    have := roundUnit_mono a.baseUnit hb2
    rwa [roundUnit_of_multiple hmul] at this
  have e3 : ceilUnit (b2 * p2) a2.quoteUnit ≤ q := by
    rw [hq1, hqu]
    refine ceilUnit_mono _ ?_
    exact mul_le_mul e2 hp2 hp0.le (le_trans hb0 e2)
  have e4 : a2.getFee fc (ceilUnit (b2 * p2) a2.quoteUnit) ≤ fee := by
    have : ∀ y, a2.getFee fc y = a.getFee fc y := by intro y; rw [getFee_eq, getFee_eq, hqu]
    rw [this, hfee]
    exact getFee_mono a fc hr e3
  rw [Account.buyBase_eq]
  simp only [e1]
  rw [if_pos (by simpa using hp0), if_pos (by simpa using hb0),
    if_neg (by simpa [hbu] using hunit), if_neg]
  · exact ⟨_, rfl⟩
  · simp only [ex_add, ex_mul, ex_lt, decide_eq_true_eq, not_lt]
    linarith

/-- **C14** (sell). A sell that succeeds still succeeds, on the same terms, with more base currency and
any quote balance. -/
theorem C14_sell (a a' a2 : Account K) (fc : FeeConfig K) (b p : K)
    (h : a.sellBase fc b p = .ok (true, a'))
    (hbu : a2.baseUnit = a.baseUnit) (hqu : a2.quoteUnit = a.quoteUnit)
    (hb2 : a.baseBalance ≤ a2.baseBalance) :
    ∃ a2', a2.sellBase fc b p = .ok (true, a2') := by
  obtain ⟨hp, hb, h⟩ := a.sellBase_cases h
  rcases h with ⟨h, -⟩ | ⟨-, h1, h3, q, fee, hq1, hfee, h2, -⟩
  · cases h
  rw [Account.sellBase_eq]
  rw [if_pos hp, if_pos hb, hbu, hqu]
  have : ∀ y, a2.getFee fc y = a.getFee fc y := by intro y; rw [getFee_eq, getFee_eq, hqu]
  simp only [this]
  rw [if_neg, if_neg]
  · exact ⟨_, rfl⟩
  · rw [← hq1, ← hfee, h2]; simp
  · simp only [Bool.or_eq_true, not_or, Bool.not_eq_true]
    refine ⟨h1, ?_⟩
    simp only [ex_lt, decide_eq_false_iff_not, not_lt] at h3 ⊢
    exact le_trans h3 hb2

/-! ## Non-vacuity: the hypotheses of C03-C14 hold on a concrete account and concrete orders -/

private theorem exGrid : OnGrid (Account.init (exCfg ℚ)) where
  base _ := ⟨80, by decide +kernel⟩
  quote _ := ⟨64000, by decide +kernel⟩
  fee _ := ⟨0, by decide +kernel⟩

/-- All four orders of `exOrders` execute on the initial account (so C03-C07, C11 apply to them). -/
example : (exOrders ℚ).all (fun x =>
    match (Account.init (exCfg ℚ)).executeOrder (exCfg ℚ) x.1 x.2 with
    | .ok (true, _) => true
    | _ => false) = true := by decide +kernel

example : OnGrid (Account.init (exCfg ℚ)) := exGrid

/-- C06 needs exact arithmetic: with zero units and no fees, a binary32 market buy for
q = 12859031/16384 at price 2502511/131072 spends 12859032/16384 > q. -/
theorem C06_fails_in_binary32 :
    ∃ (a a' : Account F32) (c : AccountConfig F32) (t : OhlcTick F32) (q : ℚ),
      a.executeOrder c ⟨some .market, some .buy, .quote (.fin q), none⟩ t = .ok (true, a') ∧
      (Fl.lt (.fin q) (Fl.sub a.quoteBalance a'.quoteBalance)) = true := by
  refine ⟨⟨.fin 0, .fin 2000, .fin 0, .fin 0, .fin 0, .fin 1, .fin 0⟩,
    ⟨.fin (5388057 / 131072), .fin (2000 - 1607379 / 2048), .fin 0, .fin 0, .fin 0, .fin 1, .fin 0⟩,
    ⟨.fin 0, .fin 0, .fin 0, .fin 0, ⟨.fin 0, .fin 0, .fin 0⟩, ⟨.fin 0, .fin 0, .fin 0⟩,
      ⟨.fin 0, .fin 0, .fin 0⟩, .fin 0, .fin 0⟩,
    ⟨300, .fin (2502511 / 131072), .fin (2502511 / 131072), .fin (2502511 / 131072),
      .fin (2502511 / 131072), .fin 1⟩, 12859031 / 16384, ?_⟩
  decide +kernel

end Verif.Props
