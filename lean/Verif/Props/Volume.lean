import Verif.Lemmas.Volume
import Verif.Props.Account
import Verif.Props.Evaluate
import Verif.Props.StopTrader
import Verif.Model.Traders

/-!
# C127: without a volume cap only the zero of the volume counts
-/

namespace Verif.Props.Volume
open Verif FloatOps Spec Simulation Verif.Volume

section general
variable {F : Type} [FloatOps F]

/-- The volume does not concern this order: it is not a limit order, or there is no volume cap. -/
def Uncapped (a : Account F) (o : Order F) : Prop := o.type ≠ some .limit ∨ (a.maxVolumeRatio >. lit F 0) = false

/-- **C127** (orders). An order that is not a limit order, or any order on an account without a volume cap, is executed alike on ticks that differ only in the volume. -/
theorem C127_order (a : Account F) (c : AccountConfig F) (o : Order F) (t t' : OhlcTick F) (h : SamePrices t t') (hu : Uncapped a o) :
    a.executeOrder c o t' = a.executeOrder c o t := by
  obtain ⟨ts, opn, high, low, close, v⟩ := t
  obtain ⟨ts', opn', high', low', close', v'⟩ := t'
  obtain ⟨h1, h2, h3, h4, h5⟩ := h
  dsimp only at h1 h2 h3 h4 h5
  subst h1 h2 h3 h4 h5
  obtain ⟨ty, sd, am, pr⟩ := o
  unfold Uncapped at hu
  rcases ty with _ | ty
  · rfl
  · cases ty
    · rcases sd with _ | sd <;> (try cases sd) <;> cases am <;> rfl
    · rcases sd with _ | sd <;> (try cases sd) <;> cases am <;> rfl
    · have hr := hu.resolve_left (by simp)
      have hm : a.maxBaseAmount ⟨ts', opn', high', low', close', v'⟩ = a.maxBaseAmount ⟨ts', opn', high', low', close', v⟩ := by
        unfold Account.maxBaseAmount
        rw [hr]
        rfl
      rcases sd with _ | sd <;> (try cases sd) <;> cases am <;>
        first
        | rfl
        | (simp only [Account.executeOrder, Account.limitBuy, Account.limitSell, Account.limitBuyAtQuote, Account.limitSellAtQuote, hm])

variable {D : Type} [FloatOps D] [Wide F D] [Libm F] [Libm D]

theorem keeps_ratio {a a' : Account F} {c : AccountConfig F} {o : Order F} {t : OhlcTick F} {b : Bool} (h : a.executeOrder c o t = .ok (b, a')) :
    a'.maxVolumeRatio = a.maxVolumeRatio := by
  exact (C01_executeOrder a c o t b a' h).2.2.2.2

/-- The trader does not look at the volume, and places no order of which the volume would limit the amount. -/
def Ignores (T : Trader F) (cfg : AccountConfig F) : Prop :=
  (∀ s t t' sg base quote, SamePrices t t' → T.update s t' sg base quote = T.update s t sg base quote) ∧
  ((cfg.maxVolumeRatio >. lit F 0) = false ∨
    ∀ s t sg base quote s' os, T.update s t sg base quote = .ok (s', os) → ∀ o ∈ os, o.type ≠ some .limit)

/-- Equal orders, of which the volume does not limit the amount. -/
def SameOrder (cfg : AccountConfig F) (o o' : Order F) : Prop := o' = o ∧ ((cfg.maxVolumeRatio >. lit F 0) = false ∨ o.type ≠ some .limit)

theorem step_same {fast : Bool} {cfg : AccountConfig F} {side : Option (SideInput F)} {T : Trader F} (hT : Ignores T cfg) :
    Step (D := D) fast cfg cfg side side T T OtherVolume (SameOrder cfg) (fun a a' => a' = a ∧ a.maxVolumeRatio = cfg.maxVolumeRatio)
      (fun s s' => s' = s) (SameVol) (SameVol) where
  volume := fun _ _ h => h.2
  side := fun t t' h sg prev => by rw [h.1.ts]
  exec := by
    rintro t t' _ o _ a h ⟨rfl, ho⟩ ⟨rfl, ha⟩
    rw [C127_order a cfg o t t' h.1 (by unfold Uncapped; rw [ha]; exact ho.symm)]
    cases hx : a.executeOrder cfg o t with
    | error e => exact rfl
    | ok r => exact ⟨rfl, rfl, (keeps_ratio (b := r.1) (a' := r.2) hx).trans ha⟩
  update := by
    rintro t t' _ s _ a sg h rfl ⟨rfl, ha⟩
    rw [hT.1 s t t' sg _ _ h.1]
    cases hx : T.update s t sg a.baseBalance a.quoteBalance with
    | error e => exact rfl
    | ok r =>
      refine ⟨rfl, List.forall₂_same.mpr fun o ho => ⟨rfl, ?_⟩⟩
      rcases hT.2 with h0 | h0
      · exact .inl h0
      · exact .inr (h0 _ _ _ _ _ r.1 r.2 hx o ho)
  baseVol := fun _ t t' v v' h hv => volUpdate_same hv h.1 _ _
  traderVol := by
    rintro - t t' v v' _ a h ⟨rfl, -⟩ hv
    exact volUpdate_same hv h.1 _ _

theorem execResult_same {S : Type} (cfg : AccountConfig F) (fast : Bool) {first first' last last' : OhlcTick F} (h1 : SamePrices first first')
    (h2 : SamePrices last last') (s s' : ExecState F S) (ha : s'.account = s.account) (hn : s'.executed = s.executed)
    (hb : SameVol s.baseVol s'.baseVol) (ht : SameVol s.traderVol s'.traderVol) :
    execResult (D := D) cfg fast first' last' s' = execResult (D := D) cfg fast first last s := by
  have h3 (v v' : Indicator F (VolState F)) (h : SameVol v v') : annualised (D := D) v' = annualised (D := D) v := by
    unfold annualised Vol.get; rw [h.2]
  simp only [execResult, ha, hn, h3 _ _ hb, h3 _ _ ht, h1.close, h2.close]

theorem last_same {l l' : List (OhlcTick F)} (h : List.Forall₂ OtherVolume l l') (hn : l ≠ []) (hn' : l' ≠ []) :
    SamePrices (l.getLast hn) (l'.getLast hn') := by
  induction h with
  | nil => exact absurd rfl hn
  | cons h1 h2 ih =>
    cases h2 with
    | nil => exact h1.1
    | cons h3 h4 => exact ih (by simp) (by simp)

/-- A back-test with other volumes. -/
theorem executeTrader_same {cfg : AccountConfig F} {side : Option (SideInput F)} {T : Trader F} (hT : Ignores T cfg) (init : T.State)
    {ticks ticks' : List (OhlcTick F)} (h : List.Forall₂ OtherVolume ticks ticks') (fast log : Bool) :
    ResRel (fun r r' => r' = r) (executeTrader (D := D) cfg ticks side fast T init log).out (executeTrader (D := D) cfg ticks' side fast T init log).out := by
  have hall := h
  cases h with
  | nil => exact ResRel.refl _ fun _ => rfl
  | @cons first first' rest rest' h1 h2 =>
    simp only [executeTrader]
    refine RunRel.bind (R := Related (T := T) (T' := T) (SameOrder cfg) (fun a a' => a' = a ∧ a.maxVolumeRatio = cfg.maxVolumeRatio) (fun s s' => s' = s)
      (SameVol) (SameVol)) (RunRel.lift ?_) ?_
    · unfold execInit
      have hm : ResRel (SameVol) (Vol.make 0 kSecondsPerDay : Res (Indicator F (VolState F))) (Vol.make 0 kSecondsPerDay) := by
        have : (Vol.make 0 kSecondsPerDay : Res (Indicator F (VolState F))) = .ok ⟨⟨2, kSecondsPerDay, []⟩, ⟨lit F 0, lit F 0, [], 0, MeanVar.make 0⟩⟩ := by
          simp [Vol.make, LastN.make, assertThat, kSecondsPerDay, bind, Except.bind, pure, Except.pure]
        rw [this]
        exact ⟨⟨rfl, rfl, .nil⟩, rfl⟩
      refine ResRel.bind hm fun v v' hv => ResRel.bind hm fun w w' hw => ?_
      exact ⟨⟨rfl, rfl⟩, rfl, rfl, List.Forall₂.nil, rfl, rfl, hv, hw⟩
    · intro s s' hs
      refine RunRel.bind (ticks_rel (step_same hT) log hall hs) fun s s' hs => RunRel.pure ?_
      exact execResult_same cfg fast h1.1 (last_same hall _ _) s s' hs.account.1 hs.executed hs.baseVol hs.traderVol

omit [Libm F] [Libm D] [Wide F D] [FloatOps D] in
theorem ts_same {l l' : List (OhlcTick F)} (h : List.Forall₂ OtherVolume l l') : l'.map OhlcTick.ts = l.map OhlcTick.ts := by
  induction h with
  | nil => rfl
  | cons h1 _ ih => simp only [List.map_cons, ih, h1.1.ts]

omit [Libm F] [Libm D] [Wide F D] [FloatOps D] in
theorem subset_same {l l' : List (OhlcTick F)} (h : List.Forall₂ OtherVolume l l') (start stop : ℤ) :
    historySubset OhlcTick.ts l' start stop = historySubset OhlcTick.ts l start stop := by
  have hb (x : ℤ) : recordBefore OhlcTick.ts l' x = recordBefore OhlcTick.ts l x := by
    funext k
    have := congrArg (fun m : List ℤ => m[k]?) (ts_same h)
    simp only [List.getElem?_map] at this
    simp only [recordBefore]
    revert this
    cases l[k]? <;> cases l'[k]? <;> simp
    intro h; rw [h]
  have hl (x : ℤ) : lowerBound OhlcTick.ts l' x = lowerBound OhlcTick.ts l x := by
    simp only [lowerBound, hb, h.length_eq]
  simp only [historySubset, hl, h.length_eq]

theorem evalRound_same (i : EvalInputs F) {history' : List (OhlcTick F)} (hh : List.Forall₂ OtherVolume i.history history')
    (hT : Ignores i.emitter.trader i.account) (log : Bool) (offset : ℤ) (ps : List (Period F)) :
    RunRel (fun r r' => r' = r) (evalRound (D := D) i log offset ps) (evalRound (D := D) { i with history := history' } log offset ps) := by
  unfold evalRound
  dsimp only
  simp only [subset_same hh]
  refine RunRel.bind (R := fun a b => b = a) (RunRel.lift (ResRel.refl _ fun _ => rfl)) ?_
  rintro start _ rfl
  refine RunRel.bind (R := fun a b => b = a) (RunRel.lift (ResRel.refl _ fun _ => rfl)) ?_
  rintro stop _ rfl
  split
  · exact RunRel.pure rfl
  · split
    · exact RunRel.pure rfl
    · split
      · exact RunRel.lift rfl
      · refine RunRel.bind (R := fun r r' => r' = r) (executeTrader_same hT _ (List.forall₂_take _ (List.forall₂_drop _ hh)) _ _) ?_
        rintro r _ rfl
        exact ResRel.refl _ fun _ => rfl

theorem evalLoop_same (i : EvalInputs F) {history' : List (OhlcTick F)} (hh : List.Forall₂ OtherVolume i.history history')
    (hT : Ignores i.emitter.trader i.account) (log : Bool) (fuel : ℕ) : ∀ (offset : ℤ) (ps : List (Period F)),
    RunRel (fun r r' => r' = r) (evalLoop (D := D) i log fuel offset ps) (evalLoop (D := D) { i with history := history' } log fuel offset ps) := by
  induction fuel with
  | zero => intro _ _; exact RunRel.lift rfl
  | succ n ih =>
    intro offset ps
    unfold evalLoop
    refine RunRel.bind (evalRound_same i hh hT log offset ps) ?_
    rintro r _ rfl
    split
    · exact ih _ _
    · exact RunRel.pure rfl

/-- **C127** (any trader). A trader that does not look at the volume is evaluated alike, or aborts alike, on two histories that differ only in the unit of the volume - in any
way that keeps ticks without volume apart from ticks with volume - if the account has no volume cap, or if the trader places no limit orders. -/
theorem C127_evaluate_any (i : EvalInputs F) (history' : List (OhlcTick F)) (hh : List.Forall₂ OtherVolume i.history history')
    (hT : Ignores i.emitter.trader i.account) (log : Bool) :
    (evaluateTrader (D := D) { i with history := history' } log).out = (evaluateTrader (D := D) i log).out := by
  have h : RunRel (fun a b => b = a) (evaluateTrader (D := D) i log) (evaluateTrader (D := D) { i with history := history' } log) := by
    unfold evaluateTrader
    refine RunRel.bind (evalLoop_same i hh hT log _ 0 []) ?_
    rintro ps _ rfl
    exact RunRel.lift (ResRel.refl _ fun _ => rfl)
  have := ResRel.map_eq (f := id) h
  rw [this]
  cases (evaluateTrader (D := D) i log).out <;> rfl

/-- **C127** (stop trader). The stop trader never notices the unit of the volume, whatever the volume cap. -/
theorem C127_stop (fmt : Format F) (cfg : StopConfig F) (acc : AccountConfig F) (ev : EvalConfig) (history history' : List (OhlcTick F))
    (hh : List.Forall₂ OtherVolume history history') (side : Option (SideInput F)) (log : Bool) :
    (evaluateTrader (D := D) ⟨acc, ev, history', side, stopEmitter fmt cfg⟩ log).out =
      (evaluateTrader (D := D) ⟨acc, ev, history, side, stopEmitter fmt cfg⟩ log).out := by
  refine C127_evaluate_any (D := D) ⟨acc, ev, history, side, stopEmitter fmt cfg⟩ history' hh ⟨?_, .inr ?_⟩ log
  · intro s t t' sg base quote h
    show stopUpdate cfg s t' sg base quote = stopUpdate cfg s t sg base quote
    simp only [stopUpdate, h.ts, h.close]
  · intro s t sg base quote s' os h o ho
    obtain ⟨-, -, -, -, rfl⟩ := Verif.Props.stopUpdate_ok (sg := sg) h
    rw [List.mem_singleton.mp ho]
    split <;> simp

/-- **C127** (rebalancing trader). The rebalancing trader does not notice the unit of the volume if the account has no volume cap. -/
theorem C127_rebalancing (fmt : Format F) (cfg : RebalancingConfig F) (acc : AccountConfig F) (hcap : (acc.maxVolumeRatio >. lit F 0) = false) (ev : EvalConfig)
    (history history' : List (OhlcTick F)) (hh : List.Forall₂ OtherVolume history history') (side : Option (SideInput F)) (log : Bool) :
    (evaluateTrader (D := D) ⟨acc, ev, history', side, rebalancingEmitter fmt cfg⟩ log).out =
      (evaluateTrader (D := D) ⟨acc, ev, history, side, rebalancingEmitter fmt cfg⟩ log).out := by
  refine C127_evaluate_any (D := D) ⟨acc, ev, history, side, rebalancingEmitter fmt cfg⟩ history' hh ⟨?_, .inl hcap⟩ log
  intro s t t' sg base quote h
  show rebalancingUpdate cfg s t' sg base quote = rebalancingUpdate cfg s t sg base quote
  simp only [rebalancingUpdate, h.ts, h.close]

end general

section examples
attribute [local instance] evLibm

def vFmt : Format ℚ := ⟨fun _ => "", fun _ _ => ""⟩
/-- A volume cap of a tenth, or none. -/
def vCfg (cap : ℚ) : AccountConfig ℚ := ⟨0, 100, 1 / 8, 1 / 100, ⟨1 / 100, 1 / 2, 1⟩, ⟨1 / 100, 1 / 2, 1⟩, ⟨1 / 100, 1 / 2, 1⟩, 1, cap⟩
/-- The example history with volumes of 5000 instead of 5. -/
def vTicks : List (OhlcTick ℚ) := evTicks.map fun t => { t with volume := 1000 * t.volume }

theorem vTicks_other : List.Forall₂ OtherVolume evTicks vTicks := by
  unfold vTicks
  rw [List.forall₂_map_right_iff]
  refine List.forall₂_same.mpr fun t ht => ⟨⟨rfl, rfl, rfl, rfl, rfl⟩, ?_⟩
  have : t.volume = 5 := by
    simp only [evTicks, List.mem_cons, List.not_mem_nil, or_false] at ht
    rcases ht with rfl | rfl | rfl | rfl | rfl <;> rfl
  simp only [this]
  decide +kernel

/-- The stop trader with a volume cap, the rebalancing trader without. -/
example := C127_stop (D := ℚ) vFmt ⟨1 / 10, 1 / 20, 1 / 100, 1 / 10⟩ (vCfg (1 / 10)) ⟨0, 0, 0, false⟩ evTicks vTicks vTicks_other none true
example : ((evaluateTrader (D := ℚ) ⟨vCfg 0, ⟨0, 0, 0, true⟩, vTicks, none, rebalancingEmitter vFmt ⟨1 / 2, 1 / 10⟩⟩ true).out.toOption.map
    fun r => (r.avgTotalExecutedOrders, r.avgTotalFee)) = some (3, 3) := by
  rw [C127_rebalancing (D := ℚ) vFmt ⟨1 / 2, 1 / 10⟩ (vCfg 0) (by decide +kernel) ⟨0, 0, 0, true⟩ evTicks vTicks vTicks_other none true]
  decide +kernel
example := C127_evaluate_any (D := ℚ) evInputs vTicks vTicks_other ⟨fun _ _ _ _ _ _ _ => rfl, .inl (by decide +kernel)⟩ false
/-- A market order on a tick with another volume, with a volume cap. -/
example : (Account.init (vCfg (1 / 10))).executeOrder (vCfg (1 / 10)) ⟨some .market, some .buy, .base 2, none⟩ ⟨60, 10, 10, 10, 10, 5000⟩ =
    (Account.init (vCfg (1 / 10))).executeOrder (vCfg (1 / 10)) ⟨some .market, some .buy, .base 2, none⟩ ⟨60, 10, 10, 10, 10, 5⟩ :=
  C127_order _ _ _ _ _ ⟨rfl, rfl, rfl, rfl, rfl⟩ (.inl (by decide))

/-- A trader that wants to buy one unit for at most 20, again and again. -/
def vLimit : Trader ℚ := ⟨ℕ, fun n _ _ _ _ => .ok (n + 1, [⟨some .limit, some .buy, .base 1, some 20⟩]), fun _ => ""⟩

/-- **C127** (the cap looks at the amount). Limit orders under a volume cap notice: with a cap of a hundredth the four orders of this trader are not executed with volumes of 5 (the cap is less
than one unit), but with volumes of 5000 they are executed. -/
theorem C127_cap_matters : ∃ (history history' : List (OhlcTick ℚ)) (cfg : AccountConfig ℚ) (T : Trader ℚ) (init : T.State),
    List.Forall₂ OtherVolume history history' ∧
    (∀ s t t' sg base quote, SamePrices t t' → T.update s t' sg base quote = T.update s t sg base quote) ∧
    ((evaluateTrader (D := ℚ) ⟨cfg, ⟨0, 0, 0, true⟩, history, none, ⟨"", T, init⟩⟩ false).out.toOption.map fun r => r.avgTotalExecutedOrders) = some 0 ∧
    ((evaluateTrader (D := ℚ) ⟨cfg, ⟨0, 0, 0, true⟩, history', none, ⟨"", T, init⟩⟩ false).out.toOption.map fun r => r.avgTotalExecutedOrders) = some 4 :=
  ⟨evTicks, vTicks, vCfg (1 / 100), vLimit, (0 : ℕ), vTicks_other, fun _ _ _ _ _ _ _ => rfl, by decide +kernel, by decide +kernel⟩

end examples
end Verif.Props.Volume
