import Verif.Lemmas.UnitsRun

/-!
# Lemmas for the unit of the quote currency: back-tests and evaluations
-/

namespace Verif.Units
open Verif FloatOps Spec.Units Simulation

variable {K : Type} [Field K] [LinearOrder K] [IsStrictOrderedRing K] [FloorRing K] [Libm K] {c : K}

/-- A trader that works in any unit, as long as the account satisfies `Inv`: its state in the new unit is `st`. -/
def Respects (c : K) (Inv : Account K → Prop) (T : Trader K) (st : T.State → T.State) : Prop :=
  ∀ s t sg a, Inv a →
    T.update (st s) (tick c t) sg a.baseBalance (c * a.quoteBalance) =
      (T.update s t sg a.baseBalance a.quoteBalance).map fun r => (st r.1, r.2.map (order c))

theorem step_scale {fast : Bool} (hc : 0 < c) {cfg : AccountConfig K} {side : Option (SideInput K)} {T : Trader K} {st : T.State → T.State}
    {Inv : Account K → Prop} (hstep : ∀ a o t b a', Inv a → a.executeOrder cfg o t = .ok (b, a') → Inv a') (hT : Respects c Inv T st) :
    Step (D := K) fast cfg (config c cfg) side side T T (fun t t' => t' = tick c t) (fun o o' => o' = order c o)
      (fun a a' => a' = account c a ∧ Inv a) (fun s s' => s' = st s) (fun v v' => v' = vol c v) (fun v v' => v' = vol c v) where
  volume := by rintro t _ rfl; rfl
  side := by rintro t _ rfl sg prev; rfl
  exec := by
    rintro t _ o _ a _ rfl rfl ⟨rfl, ha⟩
    have h := executeOrder_scale hc a cfg o t
    rw [h]
    cases hx : a.executeOrder cfg o t with
    | error e => exact rfl
    | ok r => exact ⟨rfl, rfl, hstep a o t r.1 r.2 ha hx⟩
  update := by
    rintro t _ s _ a _ sg rfl rfl ⟨rfl, ha⟩
    refine ResRel.mono (ResRel.of_map (hT s t sg a ha)) ?_
    rintro r _ rfl
    refine ⟨rfl, ?_⟩
    rw [List.forall₂_map_right_iff]
    exact List.forall₂_same.mpr fun _ _ => rfl
  baseVol := by
    rintro - t _ v _ rfl rfl
    have := volUpdate_scale hc v t (lit K 1) (lit K 0)
    rw [show c * (lit K 0) = lit K 0 by simp [lit]] at this
    exact ResRel.of_map this
  traderVol := by
    rintro - t _ v _ a _ rfl ⟨rfl, -⟩ rfl
    exact ResRel.of_map (volUpdate_scale hc v t _ _)

theorem execResult_scale {S S' : Type} (cfg : AccountConfig K) (fast : Bool) (first last : OhlcTick K) (s : ExecState K S) (s' : ExecState K S')
    (ha : s'.account = account c s.account) (hn : s'.executed = s.executed) (hb : s'.baseVol = vol c s.baseVol)
    (ht : s'.traderVol = vol c s.traderVol) :
    execResult (D := K) (config c cfg) fast (tick c first) (tick c last) s' = result c (execResult (D := K) cfg fast first last s) := by
  have h1 : c * cfg.startQuote + c * first.close * cfg.startBase = c * (cfg.startQuote + first.close * cfg.startBase) := by ring
  have h2 : c * s.account.quoteBalance + c * last.close * s.account.baseBalance = c * (s.account.quoteBalance + last.close * s.account.baseBalance) := by
    ring
  have h3 (v : Indicator K (VolState K)) : annualised (D := K) (vol c v) = annualised (D := K) v := rfl
  simp only [execResult, ha, hn, hb, ht, h3, config, tick, account, result, ex_add, ex_mul, h1, h2]

/-- A back-test in the new unit. -/
theorem executeTrader_scale (hc : 0 < c) {cfg : AccountConfig K} {side : Option (SideInput K)} {T : Trader K} {st : T.State → T.State}
    {Inv : Account K → Prop} (hstep : ∀ a o t b a', Inv a → a.executeOrder cfg o t = .ok (b, a') → Inv a') (hT : Respects c Inv T st)
    (h0 : Inv (Account.init cfg)) (init : T.State) (hinit : st init = init) (ticks : List (OhlcTick K)) (fast log : Bool) :
    (executeTrader (D := K) (config c cfg) (ticks.map (tick c)) side fast T init log).out =
      (executeTrader (D := K) cfg ticks side fast T init log).out.map (result c) := by
  apply ResRel.map_eq
  cases ticks with
  | nil => simp [executeTrader, ResRel, pure, Run.ret, ExecutionResult.default, result, lit]
  | cons first rest =>
    simp only [executeTrader, List.map_cons]
    refine RunRel.bind (R := Related (T := T) (T' := T) (fun o o' => o' = order c o) (fun a a' => a' = account c a ∧ Inv a) (fun s s' => s' = st s)
      (fun v v' => v' = vol c v) (fun v v' => v' = vol c v)) (RunRel.lift ?_) ?_
    · have hi : Account.init (config c cfg) = account c (Account.init cfg) := by simp [Account.init, config, account, lit]
      unfold execInit
      have hm : ResRel (fun v v' => v' = vol c v) (Vol.make 0 kSecondsPerDay : Res (Indicator K (VolState K))) (Vol.make 0 kSecondsPerDay) := by
        have : (Vol.make 0 kSecondsPerDay : Res (Indicator K (VolState K))) = .ok ⟨⟨2, kSecondsPerDay, []⟩, ⟨lit K 0, lit K 0, [], 0, MeanVar.make 0⟩⟩ := by
          simp [Vol.make, LastN.make, assertThat, kSecondsPerDay, bind, Except.bind, pure, Except.pure]
        rw [this]
        simp [ResRel, vol, lastN, volState, lit]
      refine ResRel.bind hm fun v v' hv => ResRel.bind hm fun w w' hw => ?_
      exact ⟨⟨hi, h0⟩, rfl, rfl, List.Forall₂.nil, rfl, hinit.symm, hv, hw⟩
    · intro s s' hs
      have hl : List.Forall₂ (fun t t' => t' = tick c t) (first :: rest) (tick c first :: rest.map (tick c)) := by
        rw [← List.map_cons, List.forall₂_map_right_iff]
        exact List.forall₂_same.mpr fun _ _ => rfl
      refine RunRel.bind (ticks_rel (step_scale hc hstep hT) log hl hs) fun s s' hs => RunRel.pure ?_
      have hlast : (tick c first :: rest.map (tick c)).getLast (by simp) = tick c ((first :: rest).getLast (by simp)) := by
        simp only [← List.map_cons]
        exact List.getLast_map _
      rw [hlast]
      exact execResult_scale cfg fast first _ s s' hs.account.1 hs.executed hs.baseVol hs.traderVol

theorem lowerBound_scale (l : List (OhlcTick K)) (x : ℤ) : (lowerBound OhlcTick.ts (l.map (tick c)) x).1 = (lowerBound OhlcTick.ts l x).1 := by
  have h : recordBefore OhlcTick.ts (l.map (tick c)) x = recordBefore OhlcTick.ts l x := by
    funext k
    simp only [recordBefore, List.getElem?_map]
    cases l[k]? <;> rfl
  simp only [lowerBound, h, List.length_map]

theorem getAverage_scale_same {α β : Type} (f : α → β) (l : List α) (s : α → K) (s' : β → K) (h : ∀ a, s' (f a) = s a) :
    getAverage (l.map f) s' = getAverage l s := by
  simp [getAverage, List.foldl_map, h]

theorem getAverage_scale {α β : Type} (f : α → β) (l : List α) (s : α → K) (s' : β → K) (h : ∀ a, s' (f a) = c * s a) :
    getAverage (l.map f) s' = c * getAverage l s := by
  have hf : ∀ (l : List α) (x : K), l.foldl (fun sum a => sum +. c * s a) (c * x) = c * l.foldl (fun sum a => sum +. s a) x := by
    intro l
    induction l with
    | nil => intro x; rfl
    | cons a l ih => intro x; simp only [List.foldl_cons, ex_add, ← mul_add]; exact ih _
  have := hf l (lit K 0)
  rw [show c * lit K 0 = lit K 0 by simp [lit]] at this
  simp only [getAverage, List.foldl_map, h, this, List.isEmpty_map, List.length_map]
  split
  · simp [lit]
  · simp only [ex_div]; ring

theorem getGeometricAverage_scale {α β : Type} (f : α → β) (l : List α) (s : α → K) (s' : β → K) (h : ∀ a, s' (f a) = s a) :
    getGeometricAverage (D := K) (l.map f) s' = getGeometricAverage (D := K) l s := by
  simp only [getGeometricAverage, List.foldl_map, h, List.isEmpty_map, List.length_map]

/-- What `EvaluateTrader` is given, in the new unit. -/
def inputs (c : K) (i : EvalInputs K) : EvalInputs K := { i with account := config c i.account, history := i.history.map (tick c) }

theorem evalRound_scale (hc : 0 < c) (i : EvalInputs K) {st : i.emitter.trader.State → i.emitter.trader.State}
    {Inv : Account K → Prop} (hstep : ∀ a o t b a', Inv a → a.executeOrder i.account o t = .ok (b, a') → Inv a') (hT : Respects c Inv i.emitter.trader st)
    (h0 : Inv (Account.init i.account)) (hinit : st i.emitter.init = i.emitter.init) (log : Bool) (offset : ℤ) (ps : List (Period K)) :
    RunRel (fun r r' => r'.1 = r.1 ∧ r'.2 = r.2.map (period c)) (evalRound (D := K) i log offset ps)
      (evalRound (D := K) (inputs c i) log offset (ps.map (period c))) := by
  unfold evalRound
  have hsub (start stop : ℤ) : historySubset OhlcTick.ts (i.history.map (tick c)) start stop = historySubset OhlcTick.ts i.history start stop := by
    simp only [historySubset, lowerBound_scale, List.length_map]
  simp only [inputs, hsub]
  refine RunRel.bind (R := fun a b => a = b) (RunRel.lift (ResRel.refl _ fun _ => rfl)) ?_
  rintro start _ rfl
  refine RunRel.bind (R := fun a b => a = b) (RunRel.lift (ResRel.refl _ fun _ => rfl)) ?_
  rintro stop _ rfl
  split
  · exact RunRel.pure ⟨rfl, rfl⟩
  · split
    · exact RunRel.pure ⟨rfl, rfl⟩
    · split
      · exact RunRel.lift rfl
      · rw [← List.map_drop, ← List.map_take]
        refine RunRel.bind (R := fun r r' => r' = result c r)
          (ResRel.of_map (executeTrader_scale hc hstep hT h0 i.emitter.init hinit _ _ _)) ?_
        rintro r _ rfl
        refine RunRel.bind (RunRel.lift (ResRel.assert (pos_scale hc _).symm)) fun _ _ _ => ?_
        refine RunRel.bind (RunRel.lift (ResRel.assert ?_)) fun _ _ _ => RunRel.pure ⟨rfl, ?_⟩
        · simp only [result, pos_scale hc]
        · simp only [List.map_append, List.map_cons, List.map_nil, period, result, ex_div, div_scale hc]

theorem evalLoop_scale (hc : 0 < c) (i : EvalInputs K) {st : i.emitter.trader.State → i.emitter.trader.State}
    {Inv : Account K → Prop} (hstep : ∀ a o t b a', Inv a → a.executeOrder i.account o t = .ok (b, a') → Inv a') (hT : Respects c Inv i.emitter.trader st)
    (h0 : Inv (Account.init i.account)) (hinit : st i.emitter.init = i.emitter.init) (log : Bool) (fuel : ℕ) :
    ∀ (offset : ℤ) (ps : List (Period K)), RunRel (fun r r' => r' = r.map (period c)) (evalLoop (D := K) i log fuel offset ps)
      (evalLoop (D := K) (inputs c i) log fuel offset (ps.map (period c))) := by
  induction fuel with
  | zero => intro offset ps; exact RunRel.lift rfl
  | succ n ih =>
    intro offset ps
    unfold evalLoop
    refine RunRel.bind (evalRound_scale hc i hstep hT h0 hinit log offset ps) ?_
    rintro ⟨b, r⟩ ⟨b', r'⟩ ⟨hb, hr⟩
    dsimp only at hb hr ⊢
    subst hb hr
    split
    · exact ih _ _
    · exact RunRel.pure rfl

/-- An evaluation in the new unit. -/
theorem evaluate_scale (hc : 0 < c) (i : EvalInputs K) {st : i.emitter.trader.State → i.emitter.trader.State}
    {Inv : Account K → Prop} (hstep : ∀ a o t b a', Inv a → a.executeOrder i.account o t = .ok (b, a') → Inv a') (hT : Respects c Inv i.emitter.trader st)
    (h0 : Inv (Account.init i.account)) (hinit : st i.emitter.init = i.emitter.init) (log : Bool) :
    (evaluateTrader (D := K) (inputs c i) log).out = (evaluateTrader (D := K) i log).out.map (evaluation c) := by
  apply ResRel.map_eq
  unfold evaluateTrader
  refine RunRel.bind (evalLoop_scale hc i hstep hT h0 hinit log (2 ^ 31) 0 []) ?_
  rintro ps _ rfl
  refine RunRel.lift ?_
  unfold summarise
  rw [getGeometricAverage_scale (period c) ps (fun p => p.finalGain /. p.baseFinalGain) (fun p => p.finalGain /. p.baseFinalGain) fun _ => rfl]
  refine ResRel.bind (R := fun a b => a = b) (ResRel.refl _ fun _ => rfl) ?_
  rintro score _ rfl
  simp only [ResRel, pure, Except.pure, evaluation, inputs]
  rw [getAverage_scale_same (period c) ps (fun p => p.finalGain) (fun p => p.finalGain) fun _ => rfl,
    getAverage_scale_same (period c) ps (fun p => p.baseFinalGain) (fun p => p.baseFinalGain) fun _ => rfl,
    getAverage_scale_same (period c) ps (fun p => lit K p.result.totalExecutedOrders) (fun p => lit K p.result.totalExecutedOrders) fun _ => rfl,
    getAverage_scale (period c) ps (fun p => p.result.totalFee) (fun p => p.result.totalFee) fun _ => rfl]

end Verif.Units
