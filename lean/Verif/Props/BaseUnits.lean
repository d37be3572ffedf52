import Verif.Lemmas.UnitsRun
import Verif.Spec.BaseUnits
import Verif.Props.Settlement
import Verif.Props.Evaluate

/-!
# C110: the unit of the base currency does not matter to orders
-/

set_option linter.unusedSectionVars false

namespace Verif.Props.BaseUnits
open Verif FloatOps Spec Spec.BaseUnits Verif.Units

variable {K : Type} [Field K] [LinearOrder K] [IsStrictOrderedRing K] [FloorRing K] {d : K}

/-- What an account operation returns, in the new unit. -/
def answer (d : K) (r : Res (Bool × Account K)) : Res (Bool × Account K) := r.map fun x => (x.1, account d x.2)

/-- An amount of base currency is below the largest floating-point number, in both units. -/
def Small (d x : K) : Prop := x ≤ maxFinite ∧ d * x ≤ maxFinite

/-- The amounts of base currency that the order asks for are below the largest floating-point number, in both units: the amount itself for a limit order without a volume cap, or at each
price that the order could be executed at and with each of the fees what the quote amount buys or sells. -/
def Moderate (d : K) (a : Account K) (cfg : AccountConfig K) (o : Order K) (t : OhlcTick K) : Prop :=
  match o.amount with
  | .none => True
  | .base x => o.type = some .limit → (lit K 0 <. a.maxVolumeRatio) = false → Small d x
  | .quote q => ∀ p ∈ [a.marketBuyPrice t, a.marketSellPrice t, a.stopBuyPrice t o.getPrice, a.stopSellPrice t o.getPrice, o.getPrice],
      ∀ f ∈ [cfg.marketFee, cfg.stopFee, cfg.limitFee],
        Small d ((roundUnit q a.quoteUnit - a.getFee f (roundUnit q a.quoteUnit)) / p) ∧ Small d ((roundUnit q a.quoteUnit + a.getFee f (roundUnit q a.quoteUnit)) / p)

theorem prices (hd : 0 < d) (a : Account K) (t : OhlcTick K) (p : K) :
    (account d a).marketBuyPrice (tick d t) = d⁻¹ * a.marketBuyPrice t ∧ (account d a).marketSellPrice (tick d t) = d⁻¹ * a.marketSellPrice t ∧
    (account d a).stopBuyPrice (tick d t) (d⁻¹ * p) = d⁻¹ * a.stopBuyPrice t p ∧ (account d a).stopSellPrice (tick d t) (d⁻¹ * p) = d⁻¹ * a.stopSellPrice t p := by
  have hi : 0 < d⁻¹ := inv_pos.mpr hd
  refine ⟨?_, ?_, ?_, ?_⟩ <;>
    simp only [Account.marketBuyPrice, Account.marketSellPrice, Account.stopBuyPrice, Account.stopSellPrice, account, tick, ex_add, ex_mul, ex_sub,
      max_scale hi, min_scale hi] <;> ring

theorem buyBase_base (hd : 0 < d) (a : Account K) (f : FeeConfig K) (b p : K) :
    (account d a).buyBase f (d * b) (d⁻¹ * p) = answer d (a.buyBase f b p) := by
  have h1 : ∀ x : K, d * x * (d⁻¹ * p) = x * p := fun x => by field_simp
  have hg : ∀ x, (account d a).getFee f x = a.getFee f x := fun _ => rfl
  simp only [Account.buyBase, pos_scale (inv_pos.mpr hd), nonneg_scale hd, ex_mul, show (account d a).baseUnit = d * a.baseUnit from rfl, roundUnit_scale hd, h1,
    show (account d a).quoteUnit = a.quoteUnit from rfl, hg, show (account d a).quoteBalance = a.quoteBalance from rfl, lt_scale hd]
  simp only [answer, assertThat, bind, Except.bind, pure, Except.pure]
  split_ifs <;> simp [Except.map, account, ← mul_add, roundUnit_scale hd]

theorem sellBase_base (hd : 0 < d) (a : Account K) (f : FeeConfig K) (b p : K) :
    (account d a).sellBase f (d * b) (d⁻¹ * p) = answer d (a.sellBase f b p) := by
  have h1 : ∀ x : K, d * x * (d⁻¹ * p) = x * p := fun x => by field_simp
  have hg : ∀ x, (account d a).getFee f x = a.getFee f x := fun _ => rfl
  simp only [Account.sellBase, pos_scale (inv_pos.mpr hd), nonneg_scale hd, ex_mul, show (account d a).baseUnit = d * a.baseUnit from rfl, roundUnit_scale hd, h1,
    show (account d a).quoteUnit = a.quoteUnit from rfl, hg, show (account d a).baseBalance = d * a.baseBalance from rfl, lt_scale hd]
  simp only [answer, assertThat, bind, Except.bind, pure, Except.pure]
  split_ifs <;> simp [Except.map, account, ← mul_sub, roundUnit_scale hd]

/-- The cap of an order, in both units. -/
def Cap (d x m m' : K) : Prop := fmin (d * x) m' = d * fmin x m

theorem cap_none (d : K) {x : K} (h : Small d x) : Cap d x maxFinite maxFinite := by
  simp only [Cap, ex_fmin]
  rw [min_eq_left h.1, min_eq_left h.2]

theorem cap_volume (hd : 0 < d) (a : Account K) (t : OhlcTick K) {x : K} (h : (lit K 0 <. a.maxVolumeRatio) = false → Small d x) :
    Cap d x (a.maxBaseAmount t) ((account d a).maxBaseAmount (tick d t)) := by
  by_cases hr : (lit K 0 <. a.maxVolumeRatio) = true
  · have e : (account d a).maxBaseAmount (tick d t) = d * a.maxBaseAmount t := by
      unfold Account.maxBaseAmount
      rw [if_pos hr, if_pos (by exact hr)]
      have : a.maxVolumeRatio * (d * t.volume) = d * (a.maxVolumeRatio * t.volume) := by ring
      simp only [account, tick, ex_mul, this, floorUnit_scale hd]
    unfold Cap
    rw [e, min_scale hd]
  · unfold Account.maxBaseAmount
    rw [if_neg hr, if_neg (by exact hr)]
    exact cap_none d (h (by simpa using hr))

theorem div_base (hd : 0 < d) (x p : K) : x / (d⁻¹ * p) = d * (x / p) := by field_simp

theorem buyAtQuote_base (hd : 0 < d) (a : Account K) (f : FeeConfig K) (q p m m' : K)
    (hcap : Cap d ((roundUnit q a.quoteUnit - a.getFee f (roundUnit q a.quoteUnit)) / p) m m') :
    (account d a).buyAtQuote f q (d⁻¹ * p) m' = answer d (a.buyAtQuote f q p m) := by
  have hg : ∀ x, (account d a).getFee f x = a.getFee f x := fun _ => rfl
  simp only [Account.buyAtQuote, pos_scale (inv_pos.mpr hd), show (account d a).baseUnit = d * a.baseUnit from rfl,
    show (account d a).quoteUnit = a.quoteUnit from rfl, show (account d a).quoteBalance = a.quoteBalance from rfl, hg, ex_sub, ex_div, div_base hd]
  unfold Cap at hcap
  simp only [hcap, floorUnit_scale hd, lt_scale hd, buyBase_base hd]
  simp only [answer, assertThat, bind, Except.bind, pure, Except.pure]
  split_ifs <;> simp [Except.map]

theorem sellAtQuote_base (hd : 0 < d) (a : Account K) (f : FeeConfig K) (q p m m' : K)
    (hcap : Cap d ((roundUnit q a.quoteUnit + a.getFee f (roundUnit q a.quoteUnit)) / p) m m') :
    (account d a).sellAtQuote f q (d⁻¹ * p) m' = answer d (a.sellAtQuote f q p m) := by
  have hg : ∀ x, (account d a).getFee f x = a.getFee f x := fun _ => rfl
  simp only [Account.sellAtQuote, pos_scale (inv_pos.mpr hd), show (account d a).baseUnit = d * a.baseUnit from rfl,
    show (account d a).quoteUnit = a.quoteUnit from rfl, hg, ex_add, ex_div, div_base hd]
  unfold Cap at hcap
  simp only [hcap, floorUnit_scale hd, lt_scale hd, sellBase_base hd]
  simp only [answer, assertThat, bind, Except.bind, pure, Except.pure]
  split_ifs <;> simp [Except.map]

theorem isValidOrder_base (hd : 0 < d) (o : Order K) : isValidOrder (order d o) = isValidOrder o := by
  obtain ⟨ty, sd, am, pr⟩ := o
  cases pr <;> cases am <;> simp [isValidOrder, order, amount, Order.getPrice, hd, lit]

theorem getPrice_base (o : Order K) : (order d o).getPrice = d⁻¹ * o.getPrice := by
  obtain ⟨ty, sd, am, pr⟩ := o
  cases pr <;> simp [order, Order.getPrice, lit]

/-- **C110** (orders, the unit of the base currency). The same order on the same tick, with all amounts of base currency multiplied and all prices divided by `d`: the same answer, the same
abort, and the same account, converted - if no amount of base currency reaches the largest floating-point number, which is the cap where there is no other. -/
theorem C110_base_order (hd : 0 < d) (a : Account K) (cfg : AccountConfig K) (o : Order K) (t : OhlcTick K) (hm : Moderate d a cfg o t) :
    (account d a).executeOrder (config d cfg) (order d o) (tick d t) = (a.executeOrder cfg o t).map fun r => (r.1, account d r.2) := by
  change _ = answer d _
  have hi : 0 < d⁻¹ := inv_pos.mpr hd
  have hv := isValidOrder_base hd o
  have hp := getPrice_base (d := d) o
  obtain ⟨p1, p2, p3, p4⟩ := prices hd a t o.getPrice
  have hh : (tick d t).high = d⁻¹ * t.high := rfl
  have hl : (tick d t).low = d⁻¹ * t.low := rfl
  simp only [Account.executeOrder, hv, hp, show (config d cfg).marketFee = cfg.marketFee from rfl, show (config d cfg).stopFee = cfg.stopFee from rfl,
    show (config d cfg).limitFee = cfg.limitFee from rfl]
  unfold Moderate at hm
  generalize o.getPrice = price at *
  clear hv hp
  obtain ⟨ty, sd, am, pr⟩ := o
  simp only [order] at hm ⊢
  rcases am with _ | x | q
  · rcases ty with _ | ty <;> rcases sd with _ | sd <;> (try cases ty) <;> (try cases sd) <;> simp only [amount] <;>
      simp only [answer, assertThat, bind, Except.bind] <;> split_ifs <;> simp [Except.map]
  · have hcap : ty = some .limit → fmin (d * x) ((account d a).maxBaseAmount (tick d t)) = d * fmin x (a.maxBaseAmount t) :=
      fun h => cap_volume hd a t (hm h)
    rcases ty with _ | ty <;> rcases sd with _ | sd <;> (try cases ty) <;> (try cases sd) <;> (try replace hcap := hcap rfl) <;>
      simp only [amount, Account.marketBuy, Account.marketSell, Account.stopBuy, Account.stopSell, Account.limitBuy, Account.limitSell, p1, p2, p3, p4, hh, hl,
        lt_scale hi, pos_scale hi, nonneg_scale hd, hcap, buyBase_base hd, sellBase_base hd] <;>
      simp only [answer, assertThat, bind, Except.bind, pure, Except.pure] <;> split_ifs <;> simp [Except.map]
  · simp only [List.forall_mem_cons, List.not_mem_nil, false_imp_iff, implies_true, and_true] at hm
    obtain ⟨⟨⟨mb, -⟩, -, -⟩, ⟨⟨-, ms⟩, -, -⟩, ⟨-, ⟨sb, -⟩, -⟩, ⟨-, ⟨-, ss⟩, -⟩, -, -, lb, ls⟩ := hm
    have e1 := buyAtQuote_base hd a cfg.marketFee q _ _ _ (cap_none d mb)
    have e2 := sellAtQuote_base hd a cfg.marketFee q _ _ _ (cap_none d ms)
    have e3 := buyAtQuote_base hd a cfg.stopFee q _ _ _ (cap_none d sb)
    have e4 := sellAtQuote_base hd a cfg.stopFee q _ _ _ (cap_none d ss)
    have e5 := buyAtQuote_base hd a cfg.limitFee q _ _ _ (cap_volume hd a t fun _ => lb)
    have e6 := sellAtQuote_base hd a cfg.limitFee q _ _ _ (cap_volume hd a t fun _ => ls)
    rcases ty with _ | ty <;> rcases sd with _ | sd <;> (try cases ty) <;> (try cases sd) <;>
      simp only [amount, Account.marketBuyAtQuote, Account.marketSellAtQuote, Account.stopBuyAtQuote, Account.stopSellAtQuote, Account.limitBuyAtQuote,
        Account.limitSellAtQuote, p1, p2, p3, p4, hh, hl, lt_scale hi, pos_scale hi, e1, e2, e3, e4, e5, e6] <;>
      simp only [answer, assertThat, bind, Except.bind, pure, Except.pure] <;> split_ifs <;> simp [Except.map]

/-- Every order of a history is moderate when it is its turn. -/
def AllModerate (d : K) (cfg : AccountConfig K) : Account K → List (Order K × OhlcTick K) → Prop
  | _, [] => True
  | a, (o, t) :: rest => Moderate d a cfg o t ∧ match a.executeOrder cfg o t with
    | .ok r => AllModerate d cfg r.2 rest
    | .error _ => True

/-- **C110** (order histories, the unit of the base currency). -/
theorem C110_base_orders (hd : 0 < d) (cfg : AccountConfig K) (l : List (Order K × OhlcTick K)) : ∀ a : Account K, AllModerate d cfg a l →
    runOrders (config d cfg) (account d a) (l.map fun x => (order d x.1, tick d x.2)) = (runOrders cfg a l).map (account d) := by
  induction l with
  | nil => intro a _; rfl
  | cons x l ih =>
    obtain ⟨o, t⟩ := x
    intro a hm
    obtain ⟨h1, h2⟩ := hm
    simp only [List.map_cons, runOrders, C110_base_order hd a cfg o t h1]
    cases hx : a.executeOrder cfg o t with
    | error e => rfl
    | ok r =>
      rw [hx] at h2
      exact ih r.2 h2

section trader
variable [Libm K]

/-- The state of a stop trader, with the base currency in the new unit. -/
def stopState (d : K) (s : StopState K) : StopState K :=
  { lastBase := d * s.lastBase, lastQuote := s.lastQuote, lastTs := s.lastTs, lastClose := d⁻¹ * s.lastClose, mode := s.mode, stopPrice := d⁻¹ * s.stopPrice }

/-- **C110** (stop trader, the unit of the base currency). Whatever it is shown, the stop trader decides the same in both units: the same abort, or the same order and the same state, converted.
(The rebalancing trader does not, see `C110_base_currency_matters`.) -/
theorem C110_base_stop (hd : 0 < d) (cfg : StopConfig K) (s : StopState K) (t : OhlcTick K) (sg : List K) (base quote : K) :
    stopUpdate cfg (stopState d s) (tick d t) sg (d * base) quote = (stopUpdate cfg s t sg base quote).map fun r => (stopState d r.1, r.2.map (order d)) := by
  open Simulation in
  have hc : 0 < d⁻¹ := inv_pos.mpr hd
  apply Simulation.ResRel.map_eq
  have hts : (tick d t).ts = t.ts := rfl
  have hcl : (tick d t).close = d⁻¹ * t.close := rfl
  have hl : (stopState d s).lastTs = s.lastTs := rfl
  have hm : (stopState d s).mode = s.mode := rfl
  have hsp : (stopState d s).stopPrice = d⁻¹ * s.stopPrice := rfl
  have hval : d * base * (d⁻¹ * t.close) = base * t.close := by field_simp
  have hmode : stopMode (d⁻¹ * t.close) (d * base) quote = stopMode t.close base quote := by
    simp only [stopMode, ex_mul, hval]
  have hthr (m p : K) : m * (d⁻¹ * p) = d⁻¹ * (m * p) := by ring
  simp only [stopUpdate, hts, hcl, hl, hm, hsp, hmode, pos_scale hc, pos_scale hd]
  refine Simulation.ResRel.bind (Simulation.ResRel.assert rfl) fun _ _ _ => ?_
  refine Simulation.ResRel.bind (Simulation.ResRel.assert rfl) fun _ _ _ => ?_
  refine Simulation.ResRel.bind (Simulation.ResRel.assert rfl) fun _ _ _ => ?_
  have htail (x : K) : Simulation.ResRel (fun a b => b = (stopState d a.1, a.2.map (order d)))
      (stopOrder ⟨base, quote, t.ts, t.close, stopMode t.close base quote, x⟩ >>= fun o => pure
        ((⟨base, quote, t.ts, t.close, stopMode t.close base quote, x⟩ : StopState K), [o]))
      (stopOrder ⟨d * base, quote, t.ts, d⁻¹ * t.close, stopMode t.close base quote, d⁻¹ * x⟩ >>= fun o => pure
        ((⟨d * base, quote, t.ts, d⁻¹ * t.close, stopMode t.close base quote, d⁻¹ * x⟩ : StopState K), [o])) := by
    unfold stopOrder
    dsimp only
    split
    · exact rfl
    · cases stopMode t.close base quote <;> exact rfl
  have hup : Simulation.ResRel (fun a b => b = d⁻¹ * a)
      (updateStopPrice cfg (stopMode t.close base quote) s.lastTs t.ts s.stopPrice t.close)
      (updateStopPrice cfg (stopMode t.close base quote) s.lastTs t.ts (d⁻¹ * s.stopPrice) (d⁻¹ * t.close)) := by
    unfold updateStopPrice
    simp only [ex_mul, hthr, le_scale hc, min_scale hc, max_scale hc]
    split
    · split <;> exact rfl
    · refine Simulation.ResRel.bind (Simulation.ResRel.assert rfl) fun _ _ _ => ?_
      split <;> exact rfl
  split
  · split
    · simp only [ex_mul, hthr]; exact htail _
    · refine Simulation.ResRel.bind (Simulation.ResRel.assert rfl) fun _ _ _ => ?_
      simp only [ex_mul, hthr]; exact htail _
  · refine Simulation.ResRel.bind (Simulation.ResRel.assert rfl) fun _ _ _ => ?_
    refine Simulation.ResRel.bind hup ?_
    rintro x _ rfl
    exact htail x

end trader

section examples
attribute [local instance] evLibm

instance (d x : ℚ) : Decidable (Small d x) := by unfold Small; infer_instance

instance (d : ℚ) (a : Account ℚ) (cfg : AccountConfig ℚ) (o : Order ℚ) (t : OhlcTick ℚ) : Decidable (Moderate d a cfg o t) := by
  unfold Moderate
  cases o.amount <;> infer_instance

instance allDec (d : ℚ) (cfg : AccountConfig ℚ) : ∀ (l : List (Order ℚ × OhlcTick ℚ)) (a : Account ℚ), Decidable (AllModerate d cfg a l)
  | [], _ => .isTrue trivial
  | (o, t) :: rest, a => by
    unfold AllModerate
    refine @instDecidableAnd _ _ inferInstance ?_
    split
    · exact allDec d cfg rest _
    · exact .isTrue trivial

/-- Coins and millicoins: four orders, all executed, each moving the balance. -/
example : runOrders (config 1000 (exCfg ℚ)) (account 1000 (Account.init (exCfg ℚ))) ((exOrders ℚ).map fun x => (order 1000 x.1, tick 1000 x.2)) =
    .ok ⟨1000 * (77 / 8), 67479 / 64, 293 / 64, 1000 / 8, 1 / 64, 1 / 2, 1 / 2⟩ := by
  rw [C110_base_orders (by norm_num) _ _ _ (by decide +kernel)]; decide +kernel

/-- A stop trader with two coins that sees a price of 50 - two thousand millicoins at 1/20: a stop order for all of them, at the price less the margin. -/
example : (stopUpdate (⟨1 / 10, 1 / 20, 1 / 100, 1 / 10⟩ : StopConfig ℚ) (stopState 1000 StopState.init) (tick 1000 ⟨300, 50, 50, 50, 50, 1⟩) [] (1000 * 2) 10).map (·.2) =
    .ok [⟨some .stop, some .sell, .base 2000, some (45 / 1000)⟩] := by
  rw [C110_base_stop (by norm_num)]; decide +kernel

end examples
end Verif.Props.BaseUnits
