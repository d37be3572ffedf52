import Verif.Lemmas.Locality
import Verif.Lemmas.Simulation
import Verif.Props.Evaluate
import Verif.Props.Logger
import Verif.Model.Traders

/-!
# C126: a side input reaches a trader only through its signals
-/

namespace Verif.Props.Deaf
set_option linter.unusedSectionVars false
open Verif FloatOps Spec Simulation Verif.Props Verif.Logger

section general
variable {F D : Type} [FloatOps F] [FloatOps D] [Wide F D] [Libm F] [Libm D]

/-- What happened, without the signals passed to the trader. -/
def unsignalled : Event F → Event F
  | .update t _ base quote r => .update t [] base quote r
  | e => e

/-- A trader that does not listen: whatever the signals, it emits the same orders and goes on in the same state. -/
def Indifferent (T : Trader F) : Prop := ∀ s t sg sg' base quote, T.update s t sg base quote = T.update s t sg' base quote

/-- Two runs with the same outcome up to `R` and the same calls up to the signals. -/
def Same {α β : Type} (R : α → β → Prop) (x : Run (Event F) α) (y : Run (Event F) β) : Prop :=
  x.trace.map unsignalled = y.trace.map unsignalled ∧ ResRel R x.out y.out

theorem Same.bind {α β γ δ : Type} {R : α → β → Prop} {S : γ → δ → Prop} {x : Run (Event F) α} {y : Run (Event F) β} {f : α → Run (Event F) γ}
    {g : β → Run (Event F) δ} (h : Same R x y) (hf : ∀ a b, R a b → Same S (f a) (g b)) : Same S (x >>= f) (y >>= g) := by
  obtain ⟨ht, h⟩ := h
  unfold Same
  rw [Run.bind_eq, Run.bind_eq]
  cases hx : x.out with
  | error e =>
    cases hy : y.out with
    | error e' => rw [Run.andThen_error hx, Run.andThen_error hy]; rw [hx, hy] at h; exact ⟨ht, h⟩
    | ok b => rw [hx, hy] at h; exact h.elim
  | ok a =>
    cases hy : y.out with
    | error e' => rw [hx, hy] at h; exact h.elim
    | ok b =>
      rw [Run.andThen_ok hx, Run.andThen_ok hy]
      rw [hx, hy] at h
      obtain ⟨h1, h2⟩ := hf a b h
      exact ⟨by simp only [List.map_append, ht, h1], h2⟩

theorem Same.refl {α : Type} (x : Run (Event F) α) : Same (fun a b => a = b) x x := ⟨rfl, ResRel.refl _ fun _ => rfl⟩

theorem Same.pure {α β : Type} {R : α → β → Prop} {a : α} {b : β} (h : R a b) : Same (F := F) R (Pure.pure a) (Pure.pure b) := ⟨rfl, h⟩

theorem Same.ok {α β : Type} {R : α → β → Prop} {a : α} {b : β} (h : R a b) : Same (F := F) R (Run.lift (.ok a)) (Run.lift (.ok b)) := ⟨rfl, h⟩

/-- Two states of a back-test that differ at most in what the side input has said. -/
structure Alike {S : Type} (s s' : ExecState F S) : Prop where
  account : s.account = s'.account
  orders : s.orders = s'.orders
  executed : s.executed = s'.executed
  trader : s.trader = s'.trader
  baseVol : s.baseVol = s'.baseVol
  traderVol : s.traderVol = s'.traderVol

/-- The position in a side input fits to the time. -/
def Fits {S : Type} (recs : Option (List (SideInputRecord F))) (now : ℤ) (s : ExecState F S) : Prop :=
  s.prevIndex < (known recs now).length ∧ (s.prevIndex < 0 → s.signals = [])

theorem traderStep_same {T : Trader F} (hT : Indifferent T) (fast log : Bool) (t : OhlcTick F) {s s' : ExecState F T.State} (h : Alike s s') :
    Same (fun r r' => Alike r r' ∧ r.signals = s.signals ∧ r.prevIndex = s.prevIndex ∧ r'.signals = s'.signals ∧ r'.prevIndex = s'.prevIndex)
      (traderStep T fast log t s) (traderStep T fast log t s') := by
  obtain ⟨h1, h2, h3, h4, h5, h6⟩ := h
  unfold traderStep
  rw [h1, h4]
  refine Same.bind (R := fun a b => a = b) ?_ ?_
  · rw [hT s'.trader t s.signals s'.signals]
    exact ⟨rfl, ResRel.refl _ fun _ => rfl⟩
  · rintro r _ rfl
    refine Same.bind (Same.refl _) fun _ _ _ => ?_
    dsimp only
    rw [h5, h6]
    split
    · exact Same.pure ⟨⟨rfl, rfl, h3, rfl, rfl, rfl⟩, rfl, rfl, rfl, rfl⟩
    · refine Same.bind (Same.refl _) ?_
      rintro bv _ rfl
      refine Same.bind (Same.refl _) ?_
      rintro tv _ rfl
      exact Same.pure ⟨⟨rfl, rfl, h3, rfl, rfl, rfl⟩, rfl, rfl, rfl, rfl⟩

theorem tickStep_same {recs recs' : Option (List (SideInputRecord F))} {side side' : Option (SideInput F)} (hs : SideOf recs side)
    (hs' : SideOf recs' side') {T : Trader F} (hT : Indifferent T) (c : AccountConfig F) (fast log : Bool) {now : ℤ} (t : OhlcTick F) (hle : now ≤ t.ts)
    {s s' : ExecState F T.State} (h : Alike s s') (hf : Fits recs now s) (hf' : Fits recs' now s') :
    Same (fun r r' => Alike r r' ∧ Fits recs t.ts r ∧ Fits recs' t.ts r') (tickStep (D := D) c side T fast log s t)
      (tickStep (D := D) c side' T fast log s' t) := by
  obtain ⟨p, e, hp, hp0⟩ := sideStep_forward hs hle hf.1 hf.2
  obtain ⟨q, e', hq, hq0⟩ := sideStep_forward hs' hle hf'.1 hf'.2
  obtain ⟨h1, h2, h3, h4, h5, h6⟩ := h
  unfold tickStep
  rw [e, e']
  refine Same.bind (R := fun x y => x = (signalsAt recs t.ts, p) ∧ y = (signalsAt recs' t.ts, q)) (Same.ok ⟨rfl, rfl⟩) ?_
  rintro _ _ ⟨rfl, rfl⟩
  dsimp only
  rw [h1, h2, h3]
  refine Same.bind (Same.refl _) fun _ _ _ => ?_
  refine Same.bind (Same.refl _) ?_
  rintro r _ rfl
  split
  · exact Same.pure ⟨⟨rfl, rfl, rfl, h4, h5, h6⟩, ⟨hp, hp0⟩, ⟨hq, hq0⟩⟩
  · have := traderStep_same hT fast log t
      (s := { s with signals := signalsAt recs t.ts, prevIndex := p, account := r.1, executed := r.2 })
      (s' := { s' with signals := signalsAt recs' t.ts, prevIndex := q, account := r.1, executed := r.2 }) ⟨rfl, h2, rfl, h4, h5, h6⟩
    refine ⟨?_, this.2.mono ?_⟩
    · have e := this.1
      simp only [h2] at e
      exact e
    · rintro x y ⟨a, b1, b2, b3, b4⟩
      dsimp only at b1 b2 b3 b4
      refine ⟨a, ⟨?_, ?_⟩, ⟨?_, ?_⟩⟩
      · rw [b2]; exact hp
      · rw [b2, b1]; exact hp0
      · rw [b4]; exact hq
      · rw [b4, b3]; exact hq0

theorem ticks_same {recs recs' : Option (List (SideInputRecord F))} {side side' : Option (SideInput F)} (hs : SideOf recs side)
    (hs' : SideOf recs' side') {T : Trader F} (hT : Indifferent T) (c : AccountConfig F) (fast log : Bool) (ticks : List (OhlcTick F)) :
    ∀ (now : ℤ) {s s' : ExecState F T.State}, SortedBy OhlcTick.ts ticks → (∀ t ∈ ticks, now ≤ t.ts) → Alike s s' → Fits recs now s →
    Fits recs' now s' → Same Alike (ticks.foldlM (tickStep (D := D) c side T fast log) s) (ticks.foldlM (tickStep (D := D) c side' T fast log) s') := by
  induction ticks with
  | nil => intro now s s' _ _ h _ _; exact Same.pure h
  | cons t rest ih =>
    intro now s s' hsort hnow h hf hf'
    rw [List.foldlM_cons, List.foldlM_cons]
    refine Same.bind (tickStep_same hs hs' hT c fast log t (hnow t (by simp)) h hf hf') ?_
    rintro x y ⟨a, b, b'⟩
    exact ih t.ts (List.pairwise_cons.mp hsort).2 (List.pairwise_cons.mp hsort).1 a b b'

theorem execResult_same {S : Type} (c : AccountConfig F) (fast : Bool) (a b : OhlcTick F) {s s' : ExecState F S} (h : Alike s s') :
    execResult (D := D) c fast a b s = execResult (D := D) c fast a b s' := by
  obtain ⟨h1, -, h3, -, h5, h6⟩ := h
  simp only [execResult, h1, h3, h5, h6]

theorem executeTrader_same {recs recs' : Option (List (SideInputRecord F))} {side side' : Option (SideInput F)} (hs : SideOf recs side)
    (hs' : SideOf recs' side') {T : Trader F} (hT : Indifferent T) (c : AccountConfig F) (fast log : Bool) (ticks : List (OhlcTick F))
    (hsort : SortedBy OhlcTick.ts ticks) (init : T.State) :
    Same (fun a b => a = b) (executeTrader (D := D) c ticks side fast T init log) (executeTrader (D := D) c ticks side' fast T init log) := by
  cases ticks with
  | nil => exact Same.refl _
  | cons first rest =>
    unfold executeTrader
    cases hi : (execInit c T init : Res (ExecState F T.State)) with
    | error e => exact ⟨rfl, rfl⟩
    | ok s =>
      have hs0 : s.signals = [] ∧ s.prevIndex = -1 := by
        unfold execInit at hi
        cases hv : (Vol.make 0 kSecondsPerDay : Res (Indicator F (VolState F))) with
        | error e => rw [hv] at hi; cases hi
        | ok v => rw [hv] at hi; cases hi; exact ⟨rfl, rfl⟩
      refine Same.bind (R := fun x y => x = s ∧ y = s) (Same.ok ⟨rfl, rfl⟩) ?_
      rintro _ _ ⟨rfl, rfl⟩
      refine Same.bind (ticks_same hs hs' hT c fast log (first :: rest) first.ts hsort ?_ ⟨rfl, rfl, rfl, rfl, rfl, rfl⟩ ?_ ?_) ?_
      · intro t ht
        rcases List.mem_cons.mp ht with rfl | ht
        · exact le_refl _
        · exact (List.pairwise_cons.mp hsort).1 t ht
      · exact ⟨by rw [hs0.2]; omega, fun _ => hs0.1⟩
      · exact ⟨by rw [hs0.2]; omega, fun _ => hs0.1⟩
      · intro x y h
        exact Same.pure (execResult_same c fast _ _ h)

theorem evalRound_same {recs recs' : Option (List (SideInputRecord F))} (i : EvalInputs F) {side' : Option (SideInput F)} (hs : SideOf recs i.side)
    (hs' : SideOf recs' side') (hT : Indifferent i.emitter.trader) (hsort : SortedBy OhlcTick.ts i.history) (log : Bool) (offset : ℤ)
    (ps : List (Period F)) :
    Same (fun a b => a = b) (evalRound (D := D) i log offset ps) (evalRound (D := D) { i with side := side' } log offset ps) := by
  unfold evalRound
  refine Same.bind (Same.refl _) ?_
  rintro start _ rfl
  refine Same.bind (Same.refl _) ?_
  rintro stop _ rfl
  split
  · exact Same.refl _
  · dsimp only
    split
    · exact Same.refl _
    · split
      · exact Same.refl _
      · refine Same.bind (executeTrader_same hs hs' hT _ _ _ _ ?_ _) ?_
        · exact (hsort.sublist (List.drop_sublist _ _)).sublist (List.take_sublist _ _)
        · rintro r _ rfl
          exact Same.refl _

theorem evalLoop_same {recs recs' : Option (List (SideInputRecord F))} (i : EvalInputs F) {side' : Option (SideInput F)} (hs : SideOf recs i.side)
    (hs' : SideOf recs' side') (hT : Indifferent i.emitter.trader) (hsort : SortedBy OhlcTick.ts i.history) (log : Bool) (fuel : ℕ) :
    ∀ (offset : ℤ) (ps : List (Period F)),
      Same (fun a b => a = b) (evalLoop (D := D) i log fuel offset ps) (evalLoop (D := D) { i with side := side' } log fuel offset ps) := by
  induction fuel with
  | zero => intro _ _; exact Same.refl _
  | succ n ih =>
    intro offset ps
    unfold evalLoop
    refine Same.bind (evalRound_same i hs hs' hT hsort log offset ps) ?_
    rintro r _ rfl
    split
    · exact ih _ _
    · exact Same.refl _

theorem after_unsignalled (fmt : Format F) (trace : List (Event F)) : ∀ l : CsvLogger, l.after fmt (trace.map unsignalled) = l.after fmt trace := by
  induction trace with
  | nil => intro l; rfl
  | cons e trace ih =>
    intro l
    have : l.hear fmt (unsignalled e) = l.hear fmt e := by cases e <;> rfl
    simp only [CsvLogger.after, List.map_cons, List.foldl_cons, this] at ih ⊢
    exact ih _

/-- **C126**. A trader that does not listen to signals is evaluated alike with any side input and with none: the same result or the same abort, the same
calls up to the signals, and so the same logs. -/
theorem C126_indifferent {recs recs' : Option (List (SideInputRecord F))} (i : EvalInputs F) (side' : Option (SideInput F)) (hs : SideOf recs i.side)
    (hs' : SideOf recs' side') (hT : Indifferent i.emitter.trader) (hsort : SortedBy OhlcTick.ts i.history) (log : Bool) :
    (evaluateTrader (D := D) { i with side := side' } log).out = (evaluateTrader (D := D) i log).out ∧
    (evaluateTrader (D := D) { i with side := side' } log).trace.map unsignalled = (evaluateTrader (D := D) i log).trace.map unsignalled ∧
    ∀ (fmt : Format F) (l : CsvLogger), l.after fmt (evaluateTrader (D := D) { i with side := side' } log).trace =
      l.after fmt (evaluateTrader (D := D) i log).trace := by
  have h : Same (fun a b => a = b) (evaluateTrader (D := D) i log) (evaluateTrader (D := D) { i with side := side' } log) := by
    unfold evaluateTrader
    refine Same.bind (evalLoop_same i hs hs' hT hsort log _ 0 []) ?_
    rintro ps _ rfl
    exact Same.refl _
  refine ⟨?_, h.1.symm, fun fmt l => ?_⟩
  · have := h.2
    revert this
    cases (evaluateTrader (D := D) i log).out <;> cases (evaluateTrader (D := D) { i with side := side' } log).out <;>
      simp_all [ResRel]
  · rw [← after_unsignalled fmt _ l, ← h.1, after_unsignalled]

/-- **C126** (built-in traders). Neither the rebalancing nor the stop trader listens: a side input changes nothing. -/
theorem C126_built_in {recs : Option (List (SideInputRecord F))} (fmt : Format F) (b : BuiltIn F) (acc : AccountConfig F) (cfg : EvalConfig)
    (history : List (OhlcTick F)) (side : Option (SideInput F)) (hs : SideOf recs side) (hsort : SortedBy OhlcTick.ts history) (log : Bool) :
    (evaluateTrader (D := D) ⟨acc, cfg, history, side, b.emitter fmt⟩ log).out = (evaluateTrader (D := D) ⟨acc, cfg, history, none, b.emitter fmt⟩ log).out ∧
    ∀ l : CsvLogger, l.after fmt (evaluateTrader (D := D) ⟨acc, cfg, history, side, b.emitter fmt⟩ log).trace =
      l.after fmt (evaluateTrader (D := D) ⟨acc, cfg, history, none, b.emitter fmt⟩ log).trace := by
  have hT : Indifferent (b.emitter fmt).trader := by cases b <;> exact fun _ _ _ _ _ _ => rfl
  obtain ⟨h1, -, h2⟩ := C126_indifferent (D := D) ⟨acc, cfg, history, none, b.emitter fmt⟩ side .none hs hT hsort log
  exact ⟨h1, h2 fmt⟩

end general

section examples
attribute [local instance] evLibm

def dRecs : List (SideInputRecord ℚ) := [⟨1577836900, [3]⟩, ⟨1583150000, [4]⟩]
def dSide : SideInput ℚ := ⟨1, [1577836900, 1583150000], [3, 4]⟩

theorem dSide_of : SideOf (some dRecs) (some dSide) := .some _ _ (by rfl)

def dFmt : Format ℚ := ⟨fun _ => "", fun _ _ => ""⟩
def dCfg : AccountConfig ℚ := ⟨0, 100, 1 / 8, 1 / 100, ⟨1 / 100, 1 / 2, 1⟩, ⟨1 / 100, 1 / 2, 1⟩, ⟨1 / 100, 1 / 2, 1⟩, 1, 0⟩

/-- Both built-in traders on the example history, with the signal 3 from January on and 4 from March on; the rebalancing trader executes three orders. -/
example := C126_built_in (D := ℚ) dFmt (.stop ⟨1 / 10, 1 / 20, 1 / 100, 1 / 10⟩) dCfg ⟨0, 0, 0, true⟩ evTicks (some dSide) dSide_of
  (by unfold SortedBy evTicks; decide +kernel) true
example : ((evaluateTrader (D := ℚ) ⟨dCfg, ⟨0, 0, 0, true⟩, evTicks, some dSide, BuiltIn.emitter dFmt (.rebalancing ⟨1 / 2, 1 / 10⟩)⟩ true).out.toOption.map
    fun r => (r.avgTotalExecutedOrders, r.avgTotalFee)) = some (3, 3) := by
  rw [(C126_built_in (D := ℚ) dFmt (.rebalancing ⟨1 / 2, 1 / 10⟩) dCfg ⟨0, 0, 0, true⟩ evTicks (some dSide) dSide_of
    (by unfold SortedBy evTicks; decide +kernel) true).1]
  decide +kernel

/-- The trader `btTrader` does not listen either. -/
example := C126_indifferent (D := ℚ) (recs := none) evInputs (some dSide) .none dSide_of (fun _ _ _ _ _ _ => rfl)
  (by unfold SortedBy evInputs evTicks; decide +kernel) false

/-- A trader that listens: it buys one unit at the first signal. -/
def dListener : Trader ℚ := ⟨Bool, fun done _ sg _ _ => .ok (done || !sg.isEmpty, if !done && !sg.isEmpty then [⟨some .market, some .buy, .base 1, none⟩] else []),
  fun _ => ""⟩

/-- **C126** (the condition is needed). A trader that listens is evaluated differently with a side input. -/
theorem C126_listener : ∃ (i : EvalInputs ℚ) (side : SideInput ℚ), i.side = none ∧ SideOf (some dRecs) (some side) ∧ SortedBy OhlcTick.ts i.history ∧
    ((evaluateTrader (D := ℚ) i false).out.toOption.map fun r => r.avgTotalExecutedOrders) = some 0 ∧
    ((evaluateTrader (D := ℚ) { i with side := some side } false).out.toOption.map fun r => r.avgTotalExecutedOrders) = some 1 :=
  ⟨⟨btCfg, ⟨0, 0, 0, true⟩, evTicks, none, ⟨"l", dListener, false⟩⟩, dSide, rfl, dSide_of, by unfold SortedBy evTicks; decide +kernel,
    by decide +kernel, by decide +kernel⟩

end examples
end Verif.Props.Deaf
