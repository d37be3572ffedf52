import Verif.Lemmas.UnitsEvaluate
import Verif.Lemmas.Volume
import Verif.Props.BaseUnits
import Verif.Props.Volume

/-!
# C110: the unit of the base currency does not matter to evaluations
-/

set_option linter.unusedSectionVars false

namespace Verif.Props.BaseUnits
open Verif FloatOps Spec Spec.BaseUnits Verif.Units Simulation Volume

variable {K : Type} [Field K] [LinearOrder K] [IsStrictOrderedRing K] [FloorRing K] [Libm K] {d : K}

theorem same_prices (t : OhlcTick K) : SamePrices (Spec.Units.tick d⁻¹ t) (tick d t) := ⟨rfl, rfl, rfl, rfl, rfl⟩

theorem ResRel.of_map_left {α β γ : Type} {f : α → β} {S : β → γ → Prop} {x : Res α} {y : Res γ} (h : ResRel S (x.map f) y) :
    ResRel (fun a b => S (f a) b) x y := by
  cases x <;> cases y <;> exact h

/-- The volatility of the price: its windows differ in the unit of the prices and the volume. -/
def PriceVol (d : K) (v v' : Indicator K (VolState K)) : Prop := SameVol (vol d⁻¹ v) v'

theorem priceVol_update (hd : 0 < d) {v v' : Indicator K (VolState K)} (hv : PriceVol d v v') (t : OhlcTick K) :
    ResRel (PriceVol d) (Vol.update (D := K) v t (lit K 1) (lit K 0)) (Vol.update (D := K) v' (tick d t) (lit K 1) (lit K 0)) := by
  have h := volUpdate_same (D := K) hv (same_prices (d := d) t) (lit K 1) (lit K 0)
  have e := volUpdate_scale (inv_pos.mpr hd) v t (lit K 1) (lit K 0)
  rw [show d⁻¹ * lit K 0 = lit K 0 by simp [lit]] at e
  rw [e] at h
  exact ResRel.of_map_left (S := SameVol) h

/-- The balance of base currency, in the new unit. -/
def volBase (d : K) (s : VolState K) : VolState K := { s with base := d * s.base }

/-- The volatility of the account: its values do not depend on the unit. -/
def AccountVol (d : K) (v v' : Indicator K (VolState K)) : Prop := SameWindow (lastN d⁻¹ v.window) v'.window ∧ v'.state = volBase d v.state

theorem onEvent_base (hd : 0 < d) (s : VolState K) (e : TickEvent K) (x y : List (OhlcTick K)) :
    Vol.onEvent (D := K) x (volBase d s) (event d⁻¹ e) = (Vol.onEvent (D := K) y s e).map (volBase d) := by
  have hv : ∀ p, Vol.value (volBase d s) (d⁻¹ * p) = Vol.value s p := by
    intro p
    have : d * s.base * (d⁻¹ * p) = s.base * p := by field_simp
    simp only [Vol.value, volBase, ex_mul, ex_add, this]
  have e1 : (volBase d s).num = s.num := rfl
  have e2 : (volBase d s).portfolio = s.portfolio := rfl
  have e3 : (volBase d s).variance = s.variance := rfl
  have htail (l : List K) (x : K) : ResRel (fun a b => b = volBase d a)
      (Vol.logReturn (l ++ [x]) >>= fun r => pure ({ s with portfolio := l ++ [x], num := s.num + 1, variance := s.variance.add r } : VolState K))
      (Vol.logReturn (l ++ [x]) >>= fun r => pure ({ volBase d s with portfolio := l ++ [x], num := s.num + 1, variance := s.variance.add r } : VolState K)) := by
    refine ResRel.bind (R := fun a b => b = a) (ResRel.refl _ fun _ => rfl) ?_
    rintro r _ rfl
    exact rfl
  apply ResRel.map_eq
  cases e with
  | updated o n =>
    have : (Spec.Units.tick d⁻¹ n).close = d⁻¹ * n.close := rfl
    simp only [event, Vol.onEvent, Vol.onUpdated, e1, e2, e3, this, hv]
    refine ResRel.bind (ResRel.assert rfl) fun _ _ _ => ?_
    split
    · exact rfl
    · refine ResRel.bind (R := fun a b => b = a) (ResRel.refl _ fun _ => rfl) ?_
      rintro r _ rfl
      refine ResRel.bind (R := fun a b => b = a) (ResRel.refl _ fun _ => rfl) ?_
      rintro w _ rfl
      exact rfl
  | added n =>
    have h1 : (Spec.Units.tick d⁻¹ n).close = d⁻¹ * n.close := rfl
    have h2 : (Spec.Units.tick d⁻¹ n).opn = d⁻¹ * n.opn := rfl
    simp only [event, Vol.onEvent, Vol.onAdded, e1, e2, e3, h1, h2, hv]
    refine ResRel.bind (ResRel.assert rfl) fun _ _ _ => ?_
    split
    · refine ResRel.bind (ResRel.assert rfl) fun _ _ _ => ?_
      exact htail [Vol.value s n.opn] _
    · rcases s.portfolio with _ | ⟨y, rest⟩
      · exact rfl
      · exact htail rest _
  | addedRemoved o n =>
    have h1 : (Spec.Units.tick d⁻¹ n).close = d⁻¹ * n.close := rfl
    simp only [event, Vol.onEvent, Vol.onAddedRemoved, e1, e2, e3, h1, hv]
    refine ResRel.bind (ResRel.assert rfl) fun _ _ _ => ?_
    rcases s.portfolio with _ | ⟨y, rest⟩
    · exact rfl
    · exact htail rest _

theorem callbacks_base (hd : 0 < d) (es : List (TickEvent K)) : ∀ (s : VolState K) (x y : List (OhlcTick K)),
    Indicator.callbacks (Vol.onEvent (D := K)) x (volBase d s) (es.map (event d⁻¹)) = (Indicator.callbacks (Vol.onEvent (D := K)) y s es).map (volBase d) := by
  induction es with
  | nil => intro _ _ _; rfl
  | cons e es ih =>
    intro s x y
    simp only [List.map_cons, Indicator.callbacks]
    rw [onEvent_base hd s e (windowAfter x _) (windowAfter y _)]
    cases Vol.onEvent (D := K) (windowAfter y _) s _ with
    | error e => rfl
    | ok a => exact ih a _ _

theorem accountVol_update (hd : 0 < d) {v v' : Indicator K (VolState K)} (hv : AccountVol d v v') (t : OhlcTick K) (b q : K) :
    ResRel (AccountVol d) (Vol.update (D := K) v t b q) (Vol.update (D := K) v' (tick d t) (d * b) q) := by
  have h := update_same hv.1 (same_prices (d := d) t)
  rw [lastN_update_scale (inv_pos.mpr hd)] at h
  simp only [Vol.update, Indicator.update, hv.2]
  refine ResRel.bind (ResRel.of_map_left h) ?_
  rintro ⟨w, es⟩ ⟨w', es'⟩ ⟨h1, h2⟩
  dsimp only at h1 h2 ⊢
  have e : ({ volBase d v.state with base := d * b, quote := q } : VolState K) = volBase d { v.state with base := b, quote := q } := rfl
  rw [e, callbacks_same (D := K) h2 _ [] _, callbacks_base hd es _ _ v.window.ticks]
  refine ResRel.bind (ResRel.of_map rfl) ?_
  rintro a _ rfl
  exact ⟨h1, rfl⟩

/-- The answers to the orders that a trader places do not depend on the unit: they are moderate whenever the account satisfies `Inv`. -/
structure Sound (d : K) (i : EvalInputs K) (Inv : Account K → Prop) (P : Order K → Prop) : Prop where
  init : Inv (Account.init i.account)
  step : ∀ a o t b a', Inv a → a.executeOrder i.account o t = .ok (b, a') → Inv a'
  moderate : ∀ a o t, Inv a → P o → Moderate d a i.account o t
  places : ∀ s t sg base quote r, i.emitter.trader.update s t sg base quote = .ok r → ∀ o ∈ r.2, P o

theorem step_base {fast : Bool} (hd : 0 < d) {i : EvalInputs K} {Inv : Account K → Prop} {P : Order K → Prop} (hs : Sound d i Inv P)
    {st : i.emitter.trader.State → i.emitter.trader.State}
    (hupdate : ∀ s t sg base quote, i.emitter.trader.update (st s) (tick d t) sg (d * base) quote =
      (i.emitter.trader.update s t sg base quote).map fun r => (st r.1, r.2.map (order d))) :
    Step (D := K) fast i.account (config d i.account) i.side i.side i.emitter.trader i.emitter.trader (fun t t' => t' = tick d t) (fun o o' => o' = order d o ∧ P o)
      (fun a a' => a' = account d a ∧ Inv a) (fun s s' => s' = st s) (PriceVol d) (AccountVol d) where
  volume := by
    rintro t _ rfl
    have : d * t.volume = 0 ↔ t.volume = 0 := by simp [hd.ne']
    simp [tick, lit, FloatOps.beq, hd.ne']
  side := by rintro t _ rfl sg prev; rfl
  exec := by
    rintro t _ o _ a _ rfl ⟨rfl, ho⟩ ⟨rfl, ha⟩
    rw [C110_base_order hd a i.account o t (hs.moderate a o t ha ho)]
    cases hx : a.executeOrder i.account o t with
    | error e => exact rfl
    | ok r => exact ⟨rfl, rfl, hs.step a o t r.1 r.2 ha hx⟩
  update := by
    rintro t _ s _ a _ sg rfl rfl ⟨rfl, ha⟩
    have h := hupdate s t sg a.baseBalance a.quoteBalance
    change ResRel _ _ (i.emitter.trader.update (st s) (tick d t) sg (d * a.baseBalance) a.quoteBalance)
    rw [h]
    cases hx : i.emitter.trader.update s t sg a.baseBalance a.quoteBalance with
    | error e => exact rfl
    | ok r =>
      refine ⟨rfl, ?_⟩
      rw [List.forall₂_map_right_iff]
      exact List.forall₂_same.mpr fun o ho => ⟨rfl, hs.places _ _ _ _ _ r hx o ho⟩
  baseVol := by
    rintro - t _ v v' rfl hv
    exact priceVol_update hd hv t
  traderVol := by
    rintro - t _ v v' a _ rfl ⟨rfl, -⟩ hv
    exact accountVol_update hd hv t _ _

theorem execResult_base {S S' : Type} (hd : 0 < d) (cfg : AccountConfig K) (fast : Bool) (first last : OhlcTick K) (s : ExecState K S) (s' : ExecState K S')
    (ha : s'.account = account d s.account) (hn : s'.executed = s.executed) (hb : PriceVol d s.baseVol s'.baseVol) (ht : AccountVol d s.traderVol s'.traderVol) :
    execResult (D := K) (config d cfg) fast (tick d first) (tick d last) s' = result d (execResult (D := K) cfg fast first last s) := by
  have h1 (p b : K) : d⁻¹ * p * (d * b) = p * b := by field_simp
  have h3 : annualised (D := K) s'.baseVol = annualised (D := K) s.baseVol := by unfold annualised Vol.get; rw [hb.2]; rfl
  have h4 : annualised (D := K) s'.traderVol = annualised (D := K) s.traderVol := by unfold annualised Vol.get; rw [ht.2]; rfl
  simp only [execResult, ha, hn, h3, h4, config, tick, account, result, ex_add, ex_mul, h1]

/-- A back-test in the new unit. -/
theorem executeTrader_base (hd : 0 < d) {i : EvalInputs K} {Inv : Account K → Prop} {P : Order K → Prop} (hs : Sound d i Inv P)
    {st : i.emitter.trader.State → i.emitter.trader.State} (hinit : st i.emitter.init = i.emitter.init)
    (hupdate : ∀ s t sg base quote, i.emitter.trader.update (st s) (tick d t) sg (d * base) quote =
      (i.emitter.trader.update s t sg base quote).map fun r => (st r.1, r.2.map (order d))) (ticks : List (OhlcTick K)) (fast log : Bool) :
    (executeTrader (D := K) (config d i.account) (ticks.map (tick d)) i.side fast i.emitter.trader i.emitter.init log).out =
      (executeTrader (D := K) i.account ticks i.side fast i.emitter.trader i.emitter.init log).out.map (result d) := by
  apply ResRel.map_eq
  cases ticks with
  | nil => simp [executeTrader, ResRel, pure, Run.ret, ExecutionResult.default, result, lit]
  | cons first rest =>
    simp only [executeTrader, List.map_cons]
    refine RunRel.bind (R := Related (T := i.emitter.trader) (T' := i.emitter.trader) (fun o o' => o' = order d o ∧ P o) (fun a a' => a' = account d a ∧ Inv a)
      (fun s s' => s' = st s) (PriceVol d) (AccountVol d)) (RunRel.lift ?_) ?_
    · have hi : Account.init (config d i.account) = account d (Account.init i.account) := by simp [Account.init, config, account, lit]
      unfold execInit
      have hmk : (Vol.make 0 kSecondsPerDay : Res (Indicator K (VolState K))) = .ok ⟨⟨2, kSecondsPerDay, []⟩, ⟨lit K 0, lit K 0, [], 0, MeanVar.make 0⟩⟩ := by
        simp [Vol.make, LastN.make, assertThat, kSecondsPerDay, bind, Except.bind, pure, Except.pure]
      have hm1 : ResRel (PriceVol d) (Vol.make 0 kSecondsPerDay : Res (Indicator K (VolState K))) (Vol.make 0 kSecondsPerDay) := by
        rw [hmk]
        exact ⟨⟨rfl, rfl, .nil⟩, by simp [vol, volState, lit]⟩
      have hm2 : ResRel (AccountVol d) (Vol.make 0 kSecondsPerDay : Res (Indicator K (VolState K))) (Vol.make 0 kSecondsPerDay) := by
        rw [hmk]
        exact ⟨⟨rfl, rfl, .nil⟩, by simp [volBase, lit]⟩
      refine ResRel.bind hm1 fun v v' hv => ResRel.bind hm2 fun w w' hw => ?_
      exact ⟨⟨hi, hs.init⟩, rfl, rfl, List.Forall₂.nil, rfl, hinit.symm, hv, hw⟩
    · intro s s' hr
      have hl : List.Forall₂ (fun t t' => t' = tick d t) (first :: rest) (tick d first :: rest.map (tick d)) := by
        rw [← List.map_cons, List.forall₂_map_right_iff]
        exact List.forall₂_same.mpr fun _ _ => rfl
      refine RunRel.bind (ticks_rel (step_base hd hs hupdate) log hl hr) fun s s' hr => RunRel.pure ?_
      have hlast : (tick d first :: rest.map (tick d)).getLast (by simp) = tick d ((first :: rest).getLast (by simp)) := by
        simp only [← List.map_cons]
        exact List.getLast_map _
      rw [hlast]
      exact execResult_base hd i.account fast first _ s s' hr.account.1 hr.executed hr.baseVol hr.traderVol

theorem lowerBound_base (l : List (OhlcTick K)) (x : ℤ) : (lowerBound OhlcTick.ts (l.map (tick d)) x).1 = (lowerBound OhlcTick.ts l x).1 := by
  have h : recordBefore OhlcTick.ts (l.map (tick d)) x = recordBefore OhlcTick.ts l x := by
    funext k
    simp only [recordBefore, List.getElem?_map]
    cases l[k]? <;> rfl
  simp only [lowerBound, h, List.length_map]

/-- What `EvaluateTrader` is given, with the base currency in the new unit. -/
def inputs (d : K) (i : EvalInputs K) : EvalInputs K := { i with account := config d i.account, history := i.history.map (tick d) }

theorem evalRound_base (hd : 0 < d) (i : EvalInputs K) {Inv : Account K → Prop} {P : Order K → Prop} (hs : Sound d i Inv P)
    {st : i.emitter.trader.State → i.emitter.trader.State} (hinit : st i.emitter.init = i.emitter.init)
    (hupdate : ∀ s t sg base quote, i.emitter.trader.update (st s) (tick d t) sg (d * base) quote =
      (i.emitter.trader.update s t sg base quote).map fun r => (st r.1, r.2.map (order d))) (log : Bool) (offset : ℤ) (ps : List (Period K)) :
    RunRel (fun r r' => r'.1 = r.1 ∧ r'.2 = r.2.map (period d)) (evalRound (D := K) i log offset ps)
      (evalRound (D := K) (inputs d i) log offset (ps.map (period d))) := by
  unfold evalRound
  have hi : 0 < d⁻¹ := inv_pos.mpr hd
  have hsub (start stop : ℤ) : historySubset OhlcTick.ts (i.history.map (tick d)) start stop = historySubset OhlcTick.ts i.history start stop := by
    simp only [historySubset, lowerBound_base, List.length_map]
  simp only [inputs, hsub]
  refine RunRel.bind (R := fun a b => a = b) (RunRel.lift (ResRel.refl _ fun _ => rfl)) ?_
  rintro start _ rfl
  refine RunRel.bind (R := fun a b => a = b) (RunRel.lift (ResRel.refl _ fun _ => rfl)) ?_
  rintro stop _ rfl
  split
  · exact RunRel.pure ⟨rfl, rfl⟩
  · split
    · exact RunRel.pure ⟨rfl, rfl⟩
    · split
      · exact RunRel.lift rfl
      · rw [← List.map_drop, ← List.map_take]
        refine RunRel.bind (R := fun r r' => r' = result d r) (ResRel.of_map (executeTrader_base hd hs hinit hupdate _ _ _)) ?_
        rintro r _ rfl
        refine RunRel.bind (RunRel.lift (ResRel.assert rfl)) fun _ _ _ => ?_
        refine RunRel.bind (RunRel.lift (ResRel.assert ?_)) fun _ _ _ => RunRel.pure ⟨rfl, ?_⟩
        · simp only [result, pos_scale hi]
        simp only [List.map_append, List.map_cons, List.map_nil, period, result, ex_div, div_scale hi]

theorem evalLoop_base (hd : 0 < d) (i : EvalInputs K) {Inv : Account K → Prop} {P : Order K → Prop} (hs : Sound d i Inv P)
    {st : i.emitter.trader.State → i.emitter.trader.State} (hinit : st i.emitter.init = i.emitter.init)
    (hupdate : ∀ s t sg base quote, i.emitter.trader.update (st s) (tick d t) sg (d * base) quote =
      (i.emitter.trader.update s t sg base quote).map fun r => (st r.1, r.2.map (order d))) (log : Bool) (fuel : ℕ) :
    ∀ (offset : ℤ) (ps : List (Period K)), RunRel (fun r r' => r' = r.map (period d)) (evalLoop (D := K) i log fuel offset ps)
      (evalLoop (D := K) (inputs d i) log fuel offset (ps.map (period d))) := by
  induction fuel with
  | zero => intro offset ps; exact RunRel.lift rfl
  | succ n ih =>
    intro offset ps
    unfold evalLoop
    refine RunRel.bind (evalRound_base hd i hs hinit hupdate log offset ps) ?_
    rintro ⟨b, r⟩ ⟨b', r'⟩ ⟨hb, hr⟩
    dsimp only at hb hr ⊢
    subst hb hr
    split
    · exact ih _ _
    · exact RunRel.pure rfl

/-- The general form, for traders whose orders ask for moderate amounts (the unit of the base currency): a trader that decides the same when everything it sees is converted gets the same
evaluation, converted: the same periods, values, gains, fees, volatilities, numbers of orders and score; or the same abort. -/
theorem evaluate_base (hd : 0 < d) (i : EvalInputs K) {Inv : Account K → Prop} {P : Order K → Prop} (hs : Sound d i Inv P)
    {st : i.emitter.trader.State → i.emitter.trader.State} (hinit : st i.emitter.init = i.emitter.init)
    (hupdate : ∀ s t sg base quote, i.emitter.trader.update (st s) (tick d t) sg (d * base) quote =
      (i.emitter.trader.update s t sg base quote).map fun r => (st r.1, r.2.map (order d))) (log : Bool) :
    (evaluateTrader (D := K) { i with account := config d i.account, history := i.history.map (tick d) } log).out =
      (evaluateTrader (D := K) i log).out.map (evaluation d) := by
  apply ResRel.map_eq
  change ResRel _ _ (evaluateTrader (D := K) (inputs d i) log).out
  unfold evaluateTrader
  refine RunRel.bind (evalLoop_base hd i hs hinit hupdate log (2 ^ 31) 0 []) ?_
  rintro ps _ rfl
  refine RunRel.lift ?_
  unfold summarise
  rw [getGeometricAverage_scale (period d) ps (fun p => p.finalGain /. p.baseFinalGain) (fun p => p.finalGain /. p.baseFinalGain) fun _ => rfl]
  refine ResRel.bind (R := fun a b => a = b) (ResRel.refl _ fun _ => rfl) ?_
  rintro score _ rfl
  simp only [ResRel, pure, Except.pure, evaluation, inputs]
  rw [getAverage_scale_same (period d) ps (fun p => p.finalGain) (fun p => p.finalGain) fun _ => rfl,
    getAverage_scale_same (period d) ps (fun p => p.baseFinalGain) (fun p => p.baseFinalGain) fun _ => rfl,
    getAverage_scale_same (period d) ps (fun p => lit K p.result.totalExecutedOrders) (fun p => lit K p.result.totalExecutedOrders) fun _ => rfl,
    getAverage_scale_same (period d) ps (fun p => p.result.totalFee) (fun p => p.result.totalFee) fun _ => rfl]

/-- **C110** (any trader, the unit of the base currency). A trader that decides the same when everything it sees is converted, and that states the amounts of its orders in base currency (limit
orders only under a volume cap), gets the same evaluation, converted: the same periods, values, gains, fees, volatilities, numbers of orders and score; or the same abort. -/
theorem C110_base_evaluate_any (hd : 0 < d) (i : EvalInputs K) (st : i.emitter.trader.State → i.emitter.trader.State) (hinit : st i.emitter.init = i.emitter.init)
    (hupdate : ∀ s t sg base quote, i.emitter.trader.update (st s) (tick d t) sg (d * base) quote =
      (i.emitter.trader.update s t sg base quote).map fun r => (st r.1, r.2.map (order d)))
    (hbase : ∀ s t sg base quote r, i.emitter.trader.update s t sg base quote = .ok r →
      ∀ o ∈ r.2, (∀ q, o.amount ≠ .quote q) ∧ (o.type = some .limit → 0 < i.account.maxVolumeRatio)) (log : Bool) :
    (evaluateTrader (D := K) { i with account := config d i.account, history := i.history.map (tick d) } log).out =
      (evaluateTrader (D := K) i log).out.map (evaluation d) := by
  refine evaluate_base hd i (Inv := fun a => a.maxVolumeRatio = i.account.maxVolumeRatio)
    (P := fun o => (∀ q, o.amount ≠ .quote q) ∧ (o.type = some .limit → 0 < i.account.maxVolumeRatio))
    ⟨rfl, fun a o t b a' ha hx => (Volume.keeps_ratio (b := b) (a' := a') hx).trans ha, ?_, hbase⟩ hinit hupdate log
  rintro a o t ha ⟨h1, h2⟩
  unfold Moderate
  cases hm : o.amount with
  | none => trivial
  | quote q => exact absurd hm (h1 q)
  | base x =>
    intro hl hr
    rw [ha] at hr
    have := h2 hl
    simp [lit, this] at hr

section examples
attribute [local instance] evLibm

/-- A trader that buys half of what it has, and sells half of what it has, in turn. -/
def bHalf : Trader ℚ := ⟨ℕ, fun n _ _ base _ => .ok (n + 1, [⟨some .market, some (if n % 2 = 0 then .buy else .sell), .base (base / 2), none⟩]), fun _ => ""⟩
def bCfg : AccountConfig ℚ := ⟨4, 100, 1 / 8, 1 / 100, ⟨1 / 100, 1 / 2, 1⟩, ⟨1 / 100, 1 / 2, 1⟩, ⟨1 / 100, 1 / 2, 1⟩, 1, 0⟩

/-- Coins and millicoins: the same evaluation, with four executed orders and a fee of 1 for each. -/
example : ((evaluateTrader (D := ℚ) ⟨config 1000 bCfg, ⟨0, 0, 0, false⟩, evTicks.map (tick 1000), none, ⟨"t", bHalf, (0 : ℕ)⟩⟩ true).out.toOption.map
    fun r => (r.avgTotalExecutedOrders, r.avgTotalFee)) = some (4, 4) := by
  rw [C110_base_evaluate_any (d := (1000 : ℚ)) (by norm_num) ⟨bCfg, ⟨0, 0, 0, false⟩, evTicks, none, ⟨"t", bHalf, (0 : ℕ)⟩⟩ id rfl
    (fun s t sg base quote => by
      show Except.ok _ = Except.ok _
      simp only [order, amount, List.map_cons, List.map_nil, Option.map_none, id, mul_div_assoc]
      rfl)
    (fun s t sg base quote r h o ho => by
      cases h
      rw [List.mem_singleton.mp ho]
      exact ⟨fun q h => (by cases h), fun h => (by cases h)⟩)]
  decide +kernel

end examples
end Verif.Props.BaseUnits
