import Verif.Spec.Fill
import Verif.Props.Settlement
import Verif.Props.Orders

/-!
# C76: an order is refused only for a documented reason, and filled as far as possible
-/

set_option linter.unusedSectionVars false

namespace Verif.Props
open FloatOps Spec

variable {K : Type} [Field K] [LinearOrder K] [IsStrictOrderedRing K] [FloorRing K]

private theorem buy_iff (a a' : Account K) (fc : FeeConfig K) {b p : K} (hp : 0 < p) (hb : 0 ≤ b) (hg : OnGrid a) :
    a.buyBase fc b p = .ok (true, a') ↔
      ∃ b', NearestTo a.baseUnit b b' ∧ a.baseUnit ≤ b' ∧ Settles a fc p .buy b' a' := by
  obtain ⟨b', q, fee, hb', hq, hfee, he⟩ := C04_buy a fc b p hp hb hg
  rw [he]
  constructor
  · intro h
    split_ifs at h with hc
    · cases h; exact ⟨b', hb', hc.1, q, fee, hq, hfee, hc.2, rfl⟩
    · cases h
  · rintro ⟨b2, h1, h2, q2, fee2, h3, h4, h5, rfl⟩
    obtain rfl := h1.unique hb' hb
    obtain rfl := h3.unique hq
    obtain rfl := CeilTo.unique h4 hfee
    rw [if_pos ⟨h2, h5⟩]

private theorem sell_iff (a a' : Account K) (fc : FeeConfig K) {b p : K} (hp : 0 < p) (hb : 0 ≤ b) (hg : OnGrid a) :
    a.sellBase fc b p = .ok (true, a') ↔
      ∃ b', NearestTo a.baseUnit b b' ∧ a.baseUnit ≤ b' ∧ Settles a fc p .sell b' a' := by
  obtain ⟨b', q, fee, hb', hq, hfee, he⟩ := C04_sell a fc b p hp hb hg
  rw [he]
  constructor
  · intro h
    split_ifs at h with hc
    · cases h; exact ⟨b', hb', hc.1, q, fee, hq, hfee, hc.2.1, hc.2.2, rfl⟩
    · cases h
  · rintro ⟨b2, h1, h2, q2, fee2, h3, h4, h5, h6, rfl⟩
    obtain rfl := h1.unique hb' hb
    obtain rfl := h3.unique hq
    obtain rfl := CeilTo.unique h4 hfee
    rw [if_pos ⟨h2, h5, h6⟩]

private theorem nearest_floor {u x b : K} (hb : 0 ≤ b) (h : FloorTo u x b) (b' : K) : NearestTo u b b' ↔ b' = b := by
  have hm : roundUnit b u = b := roundUnit_of_multiple (fun hu => by
    unfold FloorTo at h; rw [if_pos hu] at h; exact h.1.2)
  have hs := roundUnit_spec b u
  rw [hm] at hs
  exact ⟨fun h' => h'.unique hs hb, fun h' => h' ▸ hs⟩

private theorem buyAtQuote_iff (a a' : Account K) (fc : FeeConfig K) {x p m : K} (hp : 0 < p) (hx : 0 ≤ x)
    (hbu : 0 ≤ a.baseUnit) (hg : OnGrid a) :
    a.buyAtQuote fc x p m = .ok (true, a') ↔
      ∃ b, (∃ x' fee, NearestTo a.quoteUnit x x' ∧ FeeOf fc a.quoteUnit x' fee ∧ a.quoteUnit ≤ x' ∧
        x' ≤ a.quoteBalance ∧ fee < x' ∧ FloorTo a.baseUnit (min ((x' - fee) / p) m) b) ∧
        a.baseUnit ≤ b ∧ Settles a fc p .buy b a' := by
  rw [Account.buyAtQuote_eq, if_pos (by simpa using hp), if_pos (by simpa using hx)]
  have hx' := roundUnit_spec x a.quoteUnit
  have hfee := getFee_spec a fc (roundUnit x a.quoteUnit)
  have hfl := floorUnit_spec (min ((roundUnit x a.quoteUnit - a.getFee fc (roundUnit x a.quoteUnit)) / p) m) a.baseUnit
  simp only [ex_fmin, ex_div, ex_sub, ex_lt, ex_le, Bool.or_eq_true, decide_eq_true_eq]
  set x' := roundUnit x a.quoteUnit
  set fee := a.getFee fc x'
  set b := floorUnit (min ((x' - fee) / p) m) a.baseUnit
  constructor
  · intro h
    split_ifs at h with h1 h2 h3
    · cases h
    · cases h
    · cases h
    push Not at h1 h2 h3
    obtain ⟨b', e1, e2, e3⟩ := (buy_iff a a' fc hp (le_trans hbu h3) hg).mp h
    rw [nearest_floor (le_trans hbu h3) hfl] at e1
    subst e1
    exact ⟨b, ⟨x', fee, hx', hfee, h1.1, h1.2, h2, hfl⟩, e2, e3⟩
  · rintro ⟨b2, ⟨x2, fee2, g1, g2, g3, g4, g5, g6⟩, g7, g8⟩
    obtain rfl := g1.unique hx' hx
    obtain rfl := CeilTo.unique g2 hfee
    obtain rfl := g6.unique hfl
    rw [if_neg (by push Not; exact ⟨g3, g4⟩), if_neg (not_le.mpr g5), if_neg (not_lt.mpr g7)]
    exact (buy_iff a a' fc hp (le_trans hbu g7) hg).mpr
      ⟨b, (nearest_floor (le_trans hbu g7) hfl b).mpr rfl, g7, g8⟩

private theorem sellAtQuote_iff (a a' : Account K) (fc : FeeConfig K) {x p m : K} (hp : 0 < p) (hx : 0 ≤ x)
    (hbu : 0 ≤ a.baseUnit) (hg : OnGrid a) :
    a.sellAtQuote fc x p m = .ok (true, a') ↔
      ∃ b, (∃ x' fee, NearestTo a.quoteUnit x x' ∧ FeeOf fc a.quoteUnit x' fee ∧ a.quoteUnit ≤ x' ∧
        FloorTo a.baseUnit (min ((x' + fee) / p) m) b) ∧
        a.baseUnit ≤ b ∧ Settles a fc p .sell b a' := by
  rw [Account.sellAtQuote_eq, if_pos (by simpa using hp), if_pos (by simpa using hx)]
  have hx' := roundUnit_spec x a.quoteUnit
  have hfee := getFee_spec a fc (roundUnit x a.quoteUnit)
  have hfl := floorUnit_spec (min ((roundUnit x a.quoteUnit + a.getFee fc (roundUnit x a.quoteUnit)) / p) m) a.baseUnit
  simp only [ex_fmin, ex_div, ex_add, ex_lt, decide_eq_true_eq]
  set x' := roundUnit x a.quoteUnit
  set fee := a.getFee fc x'
  set b := floorUnit (min ((x' + fee) / p) m) a.baseUnit
  constructor
  · intro h
    split_ifs at h with h1 h3
    · cases h
    · cases h
    push Not at h1 h3
    obtain ⟨b', e1, e2, e3⟩ := (sell_iff a a' fc hp (le_trans hbu h3) hg).mp h
    rw [nearest_floor (le_trans hbu h3) hfl] at e1
    subst e1
    exact ⟨b, ⟨x', fee, hx', hfee, h1, hfl⟩, e2, e3⟩
  · rintro ⟨b2, ⟨x2, fee2, g1, g2, g3, g6⟩, g7, g8⟩
    obtain rfl := g1.unique hx' hx
    obtain rfl := CeilTo.unique g2 hfee
    obtain rfl := g6.unique hfl
    rw [if_neg (not_lt.mpr g3), if_neg (not_lt.mpr g7)]
    exact (sell_iff a a' fc hp (le_trans hbu g7) hg).mpr
      ⟨b, (nearest_floor (le_trans hbu g7) hfl b).mpr rfl, g7, g8⟩

private theorem cap_iff (a : Account K) (t : OhlcTick K) (cap : K) : CapOf a t .limit cap ↔ cap = a.maxBaseAmount t := by
  unfold CapOf Account.maxBaseAmount
  by_cases hr : 0 < a.maxVolumeRatio
  · rw [if_pos ⟨rfl, hr⟩, if_pos (by simpa using hr)]
    exact ⟨fun h => h.unique (floorUnit_spec _ _), fun h => h ▸ floorUnit_spec _ _⟩
  · rw [if_neg (fun h => hr h.2), if_neg (by simpa using hr)]; rfl

/-- **C76** (when an order is executed). A valid order that does not abort is executed exactly when the tick reaches its
price, the amount it wants to trade is at least one base unit, and trading that amount at the execution price is
affordable; it then trades exactly that amount. -/
theorem C76_executed_iff (a a' : Account K) (c : AccountConfig K) (o : Order K) (t : OhlcTick K) (ty : OrderType)
    (sd : Side) (hty : o.type = some ty) (hsd : o.side = some sd) (hv : ValidOrder o) (hg : OnGrid a)
    (h0 : 0 ≤ a.marketLiquidity) (h1 : a.marketLiquidity ≤ 1) (hbu : 0 ≤ a.baseUnit)
    (hl : 0 < t.low) (ho : 0 < t.opn) (hh : 0 < t.high) (hvol : 0 ≤ t.volume) :
    a.executeOrder c o t = .ok (true, a') ↔
      notReached t o.getPrice ty sd = false ∧
      ∃ b, Wanted a (feeFor c ty) t ty (execPrice a.marketLiquidity t o.getPrice ty sd) sd o.amount b ∧
        a.baseUnit ≤ b ∧ Settles a (feeFor c ty) (execPrice a.marketLiquidity t o.getPrice ty sd) sd b a' := by
  have hgp : ty = .market ∨ 0 < o.getPrice := by
    obtain ⟨ty', sd', e1, -, e3, -⟩ := id hv
    rw [hty] at e1; cases e1
    rcases e3 with h | ⟨p, hp, hpp⟩
    · exact .inl h
    · right; simpa [Order.getPrice, hp] using hpp
  have hprice := execPrice_pos a.marketLiquidity t o.getPrice ty sd h0 h1 hl ho hh hgp
  have hcap := maxBaseAmount_nonneg a t hvol
  rw [Account.executeOrder_valid a c o t hv hty hsd]
  cases hn : notReached t o.getPrice ty sd
  swap
  · simp
  simp only [Bool.false_eq_true, if_false, true_and]
  set p := execPrice a.marketLiquidity t o.getPrice ty sd with hp
  obtain ⟨-, -, -, -, -, x, hx, hamt⟩ := hv
  have hx : 0 < x := by simpa using hx
  have hcapm : ∀ cap, (CapOf a t ty cap ↔ cap = if ty = .limit then a.maxBaseAmount t else FloatOps.maxFinite) := by
    intro cap
    by_cases hlim : ty = .limit
    · rw [if_pos hlim, ← cap_iff, hlim]
    · rw [if_neg hlim]
      unfold CapOf
      rw [if_neg (fun h => hlim h.1)]; rfl
  rcases hamt with h | h <;> rw [h] <;> cases sd <;> simp only [tradeOf, Wanted]
  · rw [← hp]
    by_cases hlim : ty = .limit
    · simp only [if_pos hlim, hcapm, ex_fmin]
      rw [buy_iff a a' _ hprice (le_min hx.le hcap) hg]
      simp
    · simp only [if_neg hlim]
      exact buy_iff a a' _ hprice hx.le hg
  · rw [← hp]
    by_cases hlim : ty = .limit
    · simp only [if_pos hlim, hcapm, ex_fmin]
      rw [sell_iff a a' _ hprice (le_min hx.le hcap) hg]
      simp
    · simp only [if_neg hlim]
      exact sell_iff a a' _ hprice hx.le hg
  · rw [← hp, buyAtQuote_iff a a' _ hprice hx.le hbu hg]
    simp only [hcapm]
    refine exists_congr fun b => and_congr_left' ⟨?_, ?_⟩
    · rintro ⟨x', fee, e1, e2, e3, e4, e5, e6⟩
      exact ⟨x', fee, _, e1, e2, rfl, e3, e4, e5, e6⟩
    · rintro ⟨x', fee, _, e1, e2, rfl, e3, e4, e5, e6⟩
      exact ⟨x', fee, e1, e2, e3, e4, e5, e6⟩
  · rw [← hp, sellAtQuote_iff a a' _ hprice hx.le hbu hg]
    simp only [hcapm]
    refine exists_congr fun b => and_congr_left' ⟨?_, ?_⟩
    · rintro ⟨x', fee, e1, e2, e3, e6⟩
      exact ⟨x', fee, _, e1, e2, rfl, e3, e6⟩
    · rintro ⟨x', fee, _, e1, e2, rfl, e3, e6⟩
      exact ⟨x', fee, e1, e2, e3, e6⟩

/-- **C76** (refusals). Whenever no account `a'` satisfies that description, the order is refused and nothing changes. -/
theorem C76_refused_otherwise (a : Account K) (c : AccountConfig K) (o : Order K) (t : OhlcTick K) (ty : OrderType)
    (sd : Side) (hty : o.type = some ty) (hsd : o.side = some sd) (hv : ValidOrder o) (hg : OnGrid a)
    (h0 : 0 ≤ a.marketLiquidity) (h1 : a.marketLiquidity ≤ 1) (hbu : 0 ≤ a.baseUnit)
    (hl : 0 < t.low) (ho : 0 < t.opn) (hh : 0 < t.high) (hvol : 0 ≤ t.volume)
    (h : ∀ b a', Wanted a (feeFor c ty) t ty (execPrice a.marketLiquidity t o.getPrice ty sd) sd o.amount b →
        a.baseUnit ≤ b → Settles a (feeFor c ty) (execPrice a.marketLiquidity t o.getPrice ty sd) sd b a' →
        notReached t o.getPrice ty sd = true) :
    a.executeOrder c o t = .ok (false, a) := by
  obtain ⟨⟨ok, a'⟩, hr⟩ := (C13_accepts_iff_valid a c o t h0 h1 hbu hl ho hh hvol).mpr hv
  cases ok
  · rcases a.executeOrder_ok hr with ⟨-, h'⟩ | ⟨h', -⟩
    · rw [hr, h']
    · cases h'
  · obtain ⟨e1, b, e2, e3, e4⟩ := (C76_executed_iff a a' c o t ty sd hty hsd hv hg h0 h1 hbu hl ho hh hvol).mp hr
    rw [h b a' e2 e3 e4] at e1; cases e1

/-- **C76** (a buy for a quote amount never fails late). With non-negative fees, once the amount wanted is at least one
unit, the whole cost with its fee is covered: a triggered buy for a quote amount is executed exactly when it wants at least
one base unit. -/
theorem C76_buy_at_quote_affordable (a : Account K) (fc : FeeConfig K) (t : OhlcTick K) (ty : OrderType) (p x b : K)
    (hp : 0 < p) (hx : 0 ≤ x) (hr : 0 ≤ fc.relativeFee) (hm : 0 ≤ fc.minimumFee)
    (hw : Wanted a fc t ty p .buy (.quote x) b) : ∃ a', Settles a fc p .buy b a' := by
  obtain ⟨x', fee, cap, g1, g2, g3, g4, g5, g6, g7⟩ := hw
  refine ⟨_, _, _, ceilUnit_spec _ _, getFee_spec a fc _, ?_, rfl⟩
  have hfee : fee = a.getFee fc x' := CeilTo.unique g2 (getFee_spec a fc _)
  have hb : b ≤ (x' - fee) / p := by
    rw [g7.unique (floorUnit_spec _ _)]; exact le_trans (floorUnit_le _ _) (min_le_left _ _)
  rw [le_div_iff₀ hp] at hb
  have hq : ceilUnit (b * p) a.quoteUnit ≤ x' - fee := by
    refine ceilUnit_le_of_multiple (fun hu => ?_) hb
    have : IsMultiple a.quoteUnit x' := by
      rw [g1.unique (roundUnit_spec _ _) hx]; exact isMultiple_roundUnit _ _ hu
    rw [hfee]
    exact this.sub (isMultiple_getFee a fc _ hu)
  have hfee0 : 0 ≤ fee := by
    rw [hfee, getFee_eq]; exact le_trans hm (le_trans (le_max_left _ _) (le_ceilUnit _ _))
  have : a.getFee fc (ceilUnit (b * p) a.quoteUnit) ≤ fee := by
    rw [hfee]; exact getFee_mono a fc hr (by linarith)
  linarith

/-- **C76** (filled as far as possible). A buy for a quote amount that is not limited by the volume cap leaves less than
one base unit unbought: one more unit would cost, with the fee of the whole amount, more than the amount asked for. -/
theorem C76_buy_at_quote_maximal (a : Account K) (fc : FeeConfig K) (t : OhlcTick K) (ty : OrderType) (p x b : K)
    (hp : 0 < p) (hu : 0 < a.baseUnit) (hw : Wanted a fc t ty p .buy (.quote x) b) :
    ∃ x' fee cap, NearestTo a.quoteUnit x x' ∧ FeeOf fc a.quoteUnit x' fee ∧ CapOf a t ty cap ∧ b ≤ cap ∧
      b * p + fee ≤ x' ∧ (b + a.baseUnit ≤ cap → x' < (b + a.baseUnit) * p + fee) := by
  obtain ⟨x', fee, cap, g1, g2, g3, g4, g5, g6, g7⟩ := hw
  refine ⟨x', fee, cap, g1, g2, g3, ?_⟩
  unfold FloorTo at g7
  rw [if_pos hu] at g7
  obtain ⟨⟨h1, h2⟩, h3⟩ := g7
  have h1a := le_trans h1 (min_le_left _ _)
  rw [le_div_iff₀ hp] at h1a
  refine ⟨le_trans h1 (min_le_right _ _), by linarith, fun hcap => ?_⟩
  by_contra hc
  have hmem : b + a.baseUnit ∈ {y | y ≤ min ((x' - fee) / p) cap ∧ IsMultiple a.baseUnit y} := by
    refine ⟨le_min ?_ hcap, h2.add ⟨1, by simp⟩⟩
    rw [le_div_iff₀ hp]; linarith
  have := h3 hmem
  linarith

/-- An account with 100 quote and 3 base currency, unit 1/10, and a flat tick at price 10. -/
private abbrev flAcc : Account ℚ := ⟨3, 100, 0, 1 / 10, 1 / 10, 1, 0⟩
private abbrev flFee : FeeConfig ℚ := ⟨0, 0, 0⟩
private abbrev flCfg : AccountConfig ℚ := ⟨3, 100, 1 / 10, 1 / 10, flFee, flFee, flFee, 1, 0⟩
private abbrev flTick : OhlcTick ℚ := ⟨300, 10, 10, 10, 10, 50⟩

/-- The hypotheses hold for it; the whole quote or base balance can be traded, one unit more is refused. -/
example : OnGrid flAcc ∧
    flAcc.executeOrder flCfg ⟨some .market, some .buy, .base 10, none⟩ flTick =
      .ok (true, { flAcc with baseBalance := 13, quoteBalance := 0 }) ∧
    flAcc.executeOrder flCfg ⟨some .market, some .buy, .base (101 / 10), none⟩ flTick = .ok (false, flAcc) ∧
    flAcc.executeOrder flCfg ⟨some .market, some .buy, .quote 100, none⟩ flTick =
      .ok (true, { flAcc with baseBalance := 13, quoteBalance := 0 }) ∧
    flAcc.executeOrder flCfg ⟨some .market, some .sell, .base 3, none⟩ flTick =
      .ok (true, { flAcc with baseBalance := 0, quoteBalance := 130 }) ∧
    flAcc.executeOrder flCfg ⟨some .market, some .sell, .base (31 / 10), none⟩ flTick = .ok (false, flAcc) := by
  refine ⟨⟨fun _ => ⟨30, by norm_num⟩, fun _ => ⟨1000, by norm_num⟩, fun _ => ⟨0, by norm_num⟩⟩, ?_⟩
  decide +kernel

end Verif.Props
