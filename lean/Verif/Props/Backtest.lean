import Verif.Lemmas.ExecTick
import Verif.Props.Volatility
import Mathlib.Data.Rat.Floor

/-!
# C28-C34: back-tests (`ExecuteTrader`)

All theorems are for an arbitrary trader (a deterministic state machine, possibly aborting), any `FloatOps` arithmetic
and any history.
-/

set_option linter.unusedSectionVars false

namespace Verif.Props
open FloatOps Spec

section general
variable {F D : Type} [FloatOps F] [FloatOps D] [Wide F D] [Libm F] [Libm D]

/-- The state before the first tick. -/
def execStart (c : AccountConfig F) (T : Trader F) (init : T.State) : ExecState F T.State :=
  ⟨Account.init c, [], -1, [], 0, init,
    ⟨⟨2, kSecondsPerDay, []⟩, ⟨lit F 0, lit F 0, [], 0, MeanVar.make 0⟩⟩,
    ⟨⟨2, kSecondsPerDay, []⟩, ⟨lit F 0, lit F 0, [], 0, MeanVar.make 0⟩⟩⟩

theorem execInit_eq (c : AccountConfig F) (T : Trader F) (init : T.State) :
    execInit c T init = .ok (execStart c T init) := by
  unfold execInit
  rw [vol_make 0 kSecondsPerDay (by decide)]
  rfl

/-- The loop of `ExecuteTrader`. -/
def execLoop (c : AccountConfig F) (ticks : List (OhlcTick F)) (side : Option (SideInput F))
    (fast : Bool) (T : Trader F) (init : T.State) (log : Bool) : Run (Event F) (ExecState F T.State) :=
  ticks.foldlM (tickStep c side T fast log) (execStart c T init)

theorem executeTrader_eq (c : AccountConfig F) (ticks : List (OhlcTick F)) (side : Option (SideInput F))
    (fast : Bool) (T : Trader F) (init : T.State) (log : Bool) (h : ticks ≠ []) :
    executeTrader c ticks side fast T init log =
      ⟨(execLoop c ticks side fast T init log).trace, (execLoop c ticks side fast T init log).out.map
        (execResult c fast (ticks.head h) (ticks.getLast h))⟩ := by
  cases ticks with
  | nil => exact absurd rfl h
  | cons first rest =>
    unfold executeTrader execLoop
    simp only [Run.bind_eq, execInit_eq, List.head_cons]
    rw [Run.andThen_ok (x := Run.lift (Except.ok (execStart c T init))) rfl]
    cases hx : (List.foldlM (tickStep c side T fast log) (execStart c T init) (first :: rest)).out with
    | error e => rw [Run.andThen_error hx]; rfl
    | ok s => rw [Run.andThen_ok hx]; simp [Run.lift, Run.pure_eq, Run.ret, Except.map]

theorem executeTrader_trace (c : AccountConfig F) (ticks : List (OhlcTick F)) (side : Option (SideInput F))
    (fast : Bool) (T : Trader F) (init : T.State) (log : Bool) :
    (executeTrader c ticks side fast T init log).trace = (execLoop c ticks side fast T init log).trace := by
  cases ticks with
  | nil => rfl
  | cons a l => rw [executeTrader_eq _ _ _ _ _ _ _ (by simp)]

theorem executeTrader_error (c : AccountConfig F) (ticks : List (OhlcTick F)) (side : Option (SideInput F))
    (fast : Bool) (T : Trader F) (init : T.State) (log : Bool) (e : Fault) :
    (executeTrader c ticks side fast T init log).out = .error e ↔
      (execLoop c ticks side fast T init log).out = .error e := by
  cases ticks with
  | nil => constructor <;> intro h <;> cases h
  | cons a l =>
    rw [executeTrader_eq _ _ _ _ _ _ _ (by simp)]
    cases (execLoop c (a :: l) side fast T init log).out <;> simp [Except.map]

theorem execInv_start (c : AccountConfig F) (T : Trader F) (init : T.State)
    (recs : Option (List (SideInputRecord F))) : ExecInv c T init recs [] (execStart c T init) where
  account := rfl
  orders := rfl
  trader := rfl
  executed := rfl
  index := by simp only [execStart]; omega
  signals := fun _ => rfl
  noSide := fun _ => by simp [execStart]

/-- The loop keeps the invariant, makes good calls only, and consists of one good round per tick. -/
theorem execLoop_spec {recs : Option (List (SideInputRecord F))} {side : Option (SideInput F)}
    (hside : SideOf recs side) (c : AccountConfig F) (ticks : List (OhlcTick F)) (fast : Bool) (T : Trader F)
    (init : T.State) (log : Bool) :
    AllAt (GoodCall c T init recs) [] (execLoop c ticks side fast T init log).trace ∧
    ∀ s, (execLoop c ticks side fast T init log).out = .ok s →
      ExecInv c T init recs (execLoop c ticks side fast T init log).trace s ∧
      ∃ segs : List (List (Event F)), segs.length = ticks.length ∧
        (execLoop c ticks side fast T init log).trace = segs.flatten ∧
        ∀ (i : ℕ) (h1 : i < segs.length) (h2 : i < ticks.length),
          GoodRound log (segs.take i).flatten segs[i] ticks[i] := by
  unfold execLoop
  refine foldlM_induct (tickStep c side T fast log) (execStart c T init)
    (fun l tr s => ExecInv c T init recs tr s ∧ ∃ segs : List (List (Event F)), segs.length = l.length ∧
        tr = segs.flatten ∧ ∀ (i : ℕ) (h1 : i < segs.length) (h2 : i < l.length),
          GoodRound log (segs.take i).flatten segs[i] l[i])
    (fun _ tr => AllAt (GoodCall c T init recs) [] tr) ?_ trivial ?_ ?_ ticks
  · exact ⟨execInv_start c T init recs, [], rfl, rfl, fun i h => by simp at h⟩
  · rintro l t tr s ⟨hinv, segs, hlen, hflat, hgood⟩ hq
    obtain ⟨h1, h2⟩ := tickStep_spec hside fast log hinv t
    refine ⟨?_, fun s' hs' => ?_⟩
    · rw [AllAt_append]; exact ⟨hq, by simpa using h1⟩
    · obtain ⟨g1, g2⟩ := h2 s' hs'
      refine ⟨g1, segs ++ [(tickStep c side T fast log s t).trace], by simp [hlen], by simp [hflat], ?_⟩
      intro i hi1 hi2
      rw [List.length_append, List.length_singleton] at hi1 hi2
      by_cases hi : i < segs.length
      · have := hgood i hi (by omega)
        rw [List.take_append_of_le_length (by omega), List.getElem_append_left hi,
          List.getElem_append_left (by omega)]
        exact this
      · have hi' : i = segs.length := by omega
        have hi'' : i = l.length := by omega
        rw [List.getElem_append_right (by omega), List.getElem_append_right (by omega)]
        simp only [hi', List.take_left', Nat.sub_self, List.getElem_singleton]
        rw [← hflat]
        exact g2
  · intro l t tr hq; exact hq

/-! ## C28 -/

theorem execLoop_prefix (c : AccountConfig F) (past future : List (OhlcTick F)) (side : Option (SideInput F))
    (fast : Bool) (T : Trader F) (init : T.State) (log : Bool) :
    execLoop c (past ++ future) side fast T init log = (execLoop c past side fast T init log).andThen
      (fun s => future.foldlM (tickStep c side T fast log) s) := by
  unfold execLoop; rw [foldlM_app]

theorem execLoop_side {recs₁ recs₂ : Option (List (SideInputRecord F))} {side₁ side₂ : Option (SideInput F)}
    (h₁ : SideOf recs₁ side₁) (h₂ : SideOf recs₂ side₂) (now : ℤ) (hk : known recs₁ now = known recs₂ now)
    (c : AccountConfig F) (ticks : List (OhlcTick F)) (hnow : ∀ t ∈ ticks, t.ts ≤ now) (fast : Bool) (T : Trader F)
    (init : T.State) (log : Bool) :
    execLoop c ticks side₁ fast T init log = execLoop c ticks side₂ fast T init log := by
  induction ticks using List.reverseRecOn with
  | nil => rfl
  | append_singleton l t ih =>
    rw [execLoop_prefix, execLoop_prefix, ← ih (fun x hx => hnow x (by simp [hx]))]
    cases hx : (execLoop c l side₁ fast T init log).out with
    | error e => rw [Run.andThen_error hx, Run.andThen_error hx]
    | ok s =>
      rw [Run.andThen_ok hx, Run.andThen_ok hx]
      have i1 := ((execLoop_spec h₁ c l fast T init log).2 s hx).1
      have hx2 := hx
      rw [ih (fun x hx => hnow x (by simp [hx]))] at hx2
      have i2 := ((execLoop_spec h₂ c l fast T init log).2 s hx2).1
      have hs : ∀ t : OhlcTick F, t.ts ≤ now → tickStep c side₁ T fast log s t = tickStep c side₂ T fast log s t := by
        intro t ht
        rw [tickStep_eq, tickStep_eq, sideStep_eq h₁ _ _ _ i1.index i1.noSide,
          sideStep_eq h₂ _ _ _ i2.index i2.noSide, known_of_known recs₁ ht, known_of_known recs₂ ht, hk]
      simp only [List.foldlM_cons, List.foldlM_nil, bind_pure]
      rw [hs t (hnow t (by simp))]

/-- **C28**. No look-ahead.  Take a history `past`, continue it in any way (`future`) and replace the side input by any
other one that agrees on the records up to the time `now` of the last tick of `past`.  Then everything that happened
during `past` - every order execution and its outcome, every trader update, every emitted order, every log row - is
exactly what it was; and if `past` already aborted, the continued run is the same aborted run. -/
theorem C28_no_lookahead {recs₁ recs₂ : Option (List (SideInputRecord F))} {side₁ side₂ : Option (SideInput F)}
    (h₁ : SideOf recs₁ side₁) (h₂ : SideOf recs₂ side₂) (now : ℤ) (hk : known recs₁ now = known recs₂ now)
    (c : AccountConfig F) (past future : List (OhlcTick F)) (hnow : ∀ t ∈ past, t.ts ≤ now) (fast : Bool)
    (T : Trader F) (init : T.State) (log : Bool) :
    (executeTrader c past side₁ fast T init log).trace <+:
        (executeTrader c (past ++ future) side₂ fast T init log).trace ∧
    ∀ e, (executeTrader c past side₁ fast T init log).out = .error e →
      (executeTrader c (past ++ future) side₂ fast T init log).out = .error e ∧
      (executeTrader c (past ++ future) side₂ fast T init log).trace =
        (executeTrader c past side₁ fast T init log).trace := by
  simp only [executeTrader_trace, executeTrader_error, execLoop_prefix,
    execLoop_side h₁ h₂ now hk c past hnow fast T init log]
  cases hx : (execLoop c past side₂ fast T init log).out with
  | error e => rw [Run.andThen_error hx]; simp
  | ok s => rw [Run.andThen_ok hx]; simp

/-! ## C29 -/

/-- **C29**. The calls of a completed run split into one group per tick; in the group of a tick exactly the orders
emitted by the latest earlier update are tried, on that tick, before the trader is updated; the trader is updated on
that tick exactly if its volume is not zero.  (See `Spec.GoodRound`.) -/
theorem C29_rounds {recs : Option (List (SideInputRecord F))} {side : Option (SideInput F)} (hside : SideOf recs side)
    (c : AccountConfig F) (ticks : List (OhlcTick F)) (fast : Bool) (T : Trader F) (init : T.State) (log : Bool)
    {r : ExecutionResult F} (hr : (executeTrader c ticks side fast T init log).out = .ok r) :
    ∃ segs : List (List (Event F)), segs.length = ticks.length ∧
      (executeTrader c ticks side fast T init log).trace = segs.flatten ∧
      ∀ (i : ℕ) (h1 : i < segs.length) (h2 : i < ticks.length),
        GoodRound log (segs.take i).flatten segs[i] ticks[i] := by
  cases ht : (execLoop c ticks side fast T init log).out with
  | error e => rw [(executeTrader_error ..).mpr ht] at hr; cases hr
  | ok s =>
    rw [executeTrader_trace]
    exact ((execLoop_spec hside c ticks fast T init log).2 s ht).2

/-- Sums over groups. -/
theorem flatten_proj {E α β : Type} {g : List E → List β} (hg0 : g [] = []) (hg : ∀ x y, g (x ++ y) = g x ++ g y)
    (f : α → List β) (segs : List (List E)) (l : List α) (hlen : segs.length = l.length)
    (h : ∀ (i : ℕ) (h1 : i < segs.length) (h2 : i < l.length), g segs[i] = f l[i]) :
    g segs.flatten = (l.map f).flatten := by
  induction segs generalizing l with
  | nil => cases l with
    | nil => simpa using hg0
    | cons a l => simp at hlen
  | cons x xs ih =>
    cases l with
    | nil => simp at hlen
    | cons a l =>
      rw [List.flatten_cons, hg, List.map_cons, List.flatten_cons]
      have h0 := h 0 (by simp) (by simp)
      simp only [List.getElem_cons_zero] at h0
      rw [h0, ih l (by simpa using hlen) (fun i h1 h2 => h (i + 1) (by simpa using h1) (by simpa using h2))]

/-- **C29**. The trader sees exactly the ticks of non-zero volume, in order. -/
theorem C29_active_ticks {recs : Option (List (SideInputRecord F))} {side : Option (SideInput F)}
    (hside : SideOf recs side) (c : AccountConfig F) (ticks : List (OhlcTick F)) (fast : Bool) (T : Trader F)
    (init : T.State) (log : Bool) {r : ExecutionResult F}
    (hr : (executeTrader c ticks side fast T init log).out = .ok r) :
    (updates (executeTrader c ticks side fast T init log).trace).map (·.1) = ticks.filter active := by
  obtain ⟨segs, hlen, hflat, hg⟩ := C29_rounds hside c ticks fast T init log hr
  rw [hflat]
  rw [flatten_proj (g := fun x => (updates x).map (·.1)) rfl (fun x y => by simp [updates_append])
    (fun t => if active t then [t] else []) segs ticks hlen (fun i h1 h2 => (hg i h1 h2).updates)]
  clear * -
  induction ticks with
  | nil => rfl
  | cons a l ih =>
    rw [List.map_cons, List.flatten_cons, List.filter_cons, ih]
    split <;> simp

/-! ## C30 -/

/-- **C30**. At every update, even in a run that later aborts, the trader receives the signals of the latest side-input
record not after the tick followed by the age of the record, or an empty vector if there is none. -/
theorem C30_signals {recs : Option (List (SideInputRecord F))} {side : Option (SideInput F)}
    (hside : SideOf recs side) (c : AccountConfig F) (ticks : List (OhlcTick F)) (fast : Bool) (T : Trader F)
    (init : T.State) (log : Bool) :
    ∀ u ∈ updates (executeTrader c ticks side fast T init log).trace, u.2.1 = signalsAt recs u.1.ts := by
  intro u hu
  rw [executeTrader_trace] at hu
  have h := (execLoop_spec hside c ticks fast T init log).1
  rw [allAt_iff] at h
  unfold updates at hu
  rw [List.mem_filterMap] at hu
  obtain ⟨e, he, hue⟩ := hu
  obtain ⟨b, a, hba⟩ := List.append_of_mem he
  split at hue
  · next t sg b' q r =>
    cases hue
    exact (h b _ a hba).2 t sg b' q r rfl
  · cases hue

/-! ## C31 -/

theorem fold_sim {E α σ : Type} (p : E → Bool) (f g : σ → α → Run E σ)
    (h : ∀ s t, (f s t).out = (g s t).out ∧ (f s t).trace.filter p = (g s t).trace) (s0 : σ) (l : List α) :
    (l.foldlM f s0).out = (l.foldlM g s0).out ∧ (l.foldlM f s0).trace.filter p = (l.foldlM g s0).trace := by
  induction l using List.reverseRecOn with
  | nil => exact ⟨rfl, rfl⟩
  | append_singleton l t ih =>
    rw [foldlM_concat, foldlM_concat]
    cases hx : (l.foldlM f s0).out with
    | error e =>
      rw [Run.andThen_error hx, Run.andThen_error (ih.1.symm.trans hx)]
      exact ⟨rfl, ih.2⟩
    | ok s =>
      rw [Run.andThen_ok hx, Run.andThen_ok (ih.1.symm.trans hx)]
      refine ⟨(h s t).1, ?_⟩
      rw [List.filter_append, ih.2, (h s t).2]

theorem execOrders_log (c : AccountConfig F) (t : OhlcTick F) (os : List (Order F)) (a : Account F) (n : ℕ) :
    (execOrders true c t os a n).out = (execOrders false c t os a n).out ∧
    (execOrders true c t os a n).trace.filter notLogged = (execOrders false c t os a n).trace := by
  induction os generalizing a n with
  | nil => exact ⟨rfl, rfl⟩
  | cons o rest ih =>
    rw [execOrders_cons, execOrders_cons]
    match a.executeOrder c o t with
    | .error e => exact ⟨rfl, rfl⟩
    | .ok (true, a') =>
      refine ⟨(ih a' (n + 1)).1, ?_⟩
      rw [List.filter_append, (ih a' (n + 1)).2]
      rfl
    | .ok (false, a') =>
      refine ⟨(ih a' n).1, ?_⟩
      rw [List.filter_append, (ih a' n).2]
      rfl

theorem tickStep_log (c : AccountConfig F) (side : Option (SideInput F)) (T : Trader F) (fast : Bool)
    (s : ExecState F T.State) (t : OhlcTick F) :
    (tickStep c side T fast true s t).out = (tickStep c side T fast false s t).out ∧
    (tickStep c side T fast true s t).trace.filter notLogged = (tickStep c side T fast false s t).trace := by
  rw [tickStep_eq, tickStep_eq]
  obtain ⟨h1, h2⟩ := execOrders_log c t s.orders s.account s.executed
  cases sideStep side t.ts s.signals s.prevIndex with
  | error e => exact ⟨rfl, rfl⟩
  | ok sg =>
    dsimp only
    rw [h1]
    cases (execOrders false c t s.orders s.account s.executed).out with
    | error e =>
      refine ⟨rfl, ?_⟩
      dsimp only
      rw [List.filter_append, h2]; rfl
    | ok r =>
      dsimp only
      split
      · rw [traderStep_eq, traderStep_eq]
        dsimp only
        cases T.update s.trader t sg.1 r.1.baseBalance r.1.quoteBalance with
        | error e =>
          refine ⟨rfl, ?_⟩
          dsimp only
          rw [List.filter_append, List.filter_append, h2]; rfl
        | ok u =>
          refine ⟨rfl, ?_⟩
          dsimp only
          rw [List.filter_append, List.filter_append, h2]; rfl
      · refine ⟨rfl, ?_⟩
        dsimp only
        rw [List.filter_append, h2]; rfl

/-- **C31** (logging). Attaching a logger changes nothing but the calls of the logger: same outcome (result or abort),
same order executions, same updates. -/
theorem C31_logger (c : AccountConfig F) (ticks : List (OhlcTick F)) (side : Option (SideInput F)) (fast : Bool)
    (T : Trader F) (init : T.State) :
    (executeTrader c ticks side fast T init true).out = (executeTrader c ticks side fast T init false).out ∧
    (executeTrader c ticks side fast T init true).trace.filter notLogged =
      (executeTrader c ticks side fast T init false).trace ∧
    (∀ e ∈ (executeTrader c ticks side fast T init false).trace, notLogged e = true) := by
  obtain ⟨h1, h2⟩ := fold_sim notLogged (tickStep c side T fast true) (tickStep c side T fast false)
    (tickStep_log c side T fast) (execStart c T init) ticks
  refine ⟨?_, ?_, ?_⟩
  · cases ticks with
    | nil => rfl
    | cons a l =>
      rw [executeTrader_eq _ _ _ _ _ _ _ (by simp), executeTrader_eq _ _ _ _ _ _ _ (by simp)]
      dsimp only
      unfold execLoop; rw [h1]
  · rw [executeTrader_trace, executeTrader_trace]; exact h2
  · intro e he
    rw [executeTrader_trace] at he
    unfold execLoop at he
    rw [← h2] at he
    exact (List.mem_filter.mp he).2

/-- Two states that differ in the volatility indicators only. -/
def SameButVol {S : Type} (s s' : ExecState F S) : Prop :=
  ∃ b t, s' = { s with baseVol := b, traderVol := t }

theorem tickStep_fast (c : AccountConfig F) (side : Option (SideInput F)) (T : Trader F) (log : Bool)
    (s s' : ExecState F T.State) (h : SameButVol s s') (t : OhlcTick F) :
    (tickStep c side T false log s t).trace = (tickStep c side T true log s' t).trace ∧
    (∀ r, (tickStep c side T false log s t).out = .ok r →
      ∃ r', (tickStep c side T true log s' t).out = .ok r' ∧ SameButVol r r') := by
  obtain ⟨bv, tv, rfl⟩ := h
  rw [tickStep_eq, tickStep_eq]
  dsimp only
  cases sideStep side t.ts s.signals s.prevIndex with
  | error e => exact ⟨rfl, fun r h => (by cases h)⟩
  | ok sg =>
    dsimp only
    cases (execOrders log c t s.orders s.account s.executed).out with
    | error e => exact ⟨rfl, fun r h => (by cases h)⟩
    | ok r =>
      dsimp only
      split
      · rw [traderStep_eq, traderStep_eq]
        dsimp only
        cases T.update s.trader t sg.1 r.1.baseBalance r.1.quoteBalance with
        | error e => exact ⟨rfl, fun r h => (by cases h)⟩
        | ok u =>
          refine ⟨rfl, fun x hx => ?_⟩
          dsimp only at hx ⊢
          refine ⟨_, rfl, bv, tv, ?_⟩
          obtain ⟨v1, v2, v3, v4, v5, v6⟩ := volPart_ok hx
          cases x
          simp only at v1 v2 v3 v4 v5 v6
          subst v1 v2 v3 v4 v5 v6
          rfl
      · refine ⟨rfl, fun x hx => ⟨_, rfl, bv, tv, ?_⟩⟩
        cases hx; rfl

theorem execLoop_fast (c : AccountConfig F) (ticks : List (OhlcTick F)) (side : Option (SideInput F)) (T : Trader F)
    (init : T.State) (log : Bool) :
    (execLoop c ticks side false T init log).trace <+: (execLoop c ticks side true T init log).trace ∧
    (∀ s, (execLoop c ticks side false T init log).out = .ok s →
      (execLoop c ticks side false T init log).trace = (execLoop c ticks side true T init log).trace ∧
      ∃ s', (execLoop c ticks side true T init log).out = .ok s' ∧ SameButVol s s') := by
  induction ticks using List.reverseRecOn with
  | nil => exact ⟨List.prefix_refl _, fun s hs => ⟨rfl, _, hs, _, _, rfl⟩⟩
  | append_singleton l t ih =>
    rw [execLoop_prefix, execLoop_prefix]
    simp only [List.foldlM_cons, List.foldlM_nil, bind_pure]
    cases hx : (execLoop c l side false T init log).out with
    | error e =>
      rw [Run.andThen_error hx]
      refine ⟨?_, fun s hs => (by cases hs)⟩
      cases hy : (execLoop c l side true T init log).out with
      | error e => rw [Run.andThen_error hy]; exact ih.1
      | ok s => rw [Run.andThen_ok hy]; exact ih.1.trans (List.prefix_append _ _)
    | ok s =>
      obtain ⟨htr, s', hs', hsame⟩ := ih.2 s hx
      obtain ⟨g1, g2⟩ := tickStep_fast c side T log s s' hsame t
      rw [Run.andThen_ok hx, Run.andThen_ok hs', htr, g1]
      exact ⟨List.prefix_refl _, fun r hr => ⟨rfl, g2 r hr⟩⟩

/-- **C31** (fast evaluation). If the full evaluation returns a result, the fast one makes exactly the same calls and
returns the same result except that the two volatilities are unset (0).  In any case the calls of the full evaluation
are the first calls of the fast one. -/
theorem C31_fast_eval (c : AccountConfig F) (ticks : List (OhlcTick F)) (side : Option (SideInput F)) (T : Trader F)
    (init : T.State) (log : Bool) :
    (executeTrader c ticks side false T init log).trace <+: (executeTrader c ticks side true T init log).trace ∧
    ∀ r, (executeTrader c ticks side false T init log).out = .ok r →
      (executeTrader c ticks side true T init log).trace = (executeTrader c ticks side false T init log).trace ∧
      (executeTrader c ticks side true T init log).out =
        .ok { r with baseVolatility := lit F 0, traderVolatility := lit F 0 } := by
  obtain ⟨h1, h2⟩ := execLoop_fast c ticks side T init log
  refine ⟨by rw [executeTrader_trace, executeTrader_trace]; exact h1, fun r hr => ?_⟩
  cases ticks with
  | nil => cases hr; exact ⟨rfl, rfl⟩
  | cons a l =>
    rw [executeTrader_eq _ _ _ _ _ _ _ (by simp)] at hr ⊢
    rw [executeTrader_eq _ _ _ _ _ _ _ (by simp)]
    dsimp only at hr ⊢
    cases hx : (execLoop c (a :: l) side false T init log).out with
    | error e => rw [hx] at hr; cases hr
    | ok s =>
      rw [hx] at hr
      obtain ⟨htr, s', hs', bv, tv, rfl⟩ := h2 s hx
      refine ⟨htr.symm, ?_⟩
      rw [hs']
      cases hr
      simp [Except.map, execResult]

/-- The inputs of the two volatility indicators: the updates of the run, with a constant portfolio of one base unit for
the baseline, and with the trader's balances for the trader. -/
def baselineInputs (trace : List (Event F)) : List (OhlcTick F × F × F) :=
  (updates trace).map (fun u => (u.1, lit F 1, lit F 0))

/-- See `baselineInputs`. -/
def traderInputs (trace : List (Event F)) : List (OhlcTick F × F × F) :=
  (updates trace).map (fun u => (u.1, u.2.2.1, u.2.2.2))

theorem volAfter_snoc (ws P : ℤ) (inputs : List (OhlcTick F × F × F)) (x : OhlcTick F × F × F)
    {v : Indicator F (VolState F)} (h : volAfter ws P inputs = .ok v) :
    volAfter ws P (inputs ++ [x]) = Vol.update v x.1 x.2.1 x.2.2 := by
  unfold volAfter at h ⊢
  cases hm : (Vol.make ws P : Res (Indicator F (VolState F))) with
  | error e => rw [hm] at h; cases h
  | ok v0 =>
    rw [hm] at h
    simp only [bind, Except.bind] at h ⊢
    rw [List.foldlM_append, h]
    simp only [bind, Except.bind, List.foldlM_cons, List.foldlM_nil, pure, Except.pure]
    cases Vol.update v x.1 x.2.1 x.2.2 <;> rfl

/-- The volatility indicators after the loop. -/
def ExecVolInv (tr : List (Event F)) {S : Type} (s : ExecState F S) : Prop :=
  volAfter 0 kSecondsPerDay (baselineInputs tr) = .ok s.baseVol ∧
  volAfter 0 kSecondsPerDay (traderInputs tr) = .ok s.traderVol

theorem tickStep_vol (c : AccountConfig F) (side : Option (SideInput F)) (T : Trader F) (log : Bool)
    (s : ExecState F T.State) (t : OhlcTick F) (tr : List (Event F)) (h : ExecVolInv tr s) :
    (∀ s', (tickStep c side T false log s t).out = .ok s' →
      ExecVolInv (tr ++ (tickStep c side T false log s t).trace) s') ∧
    (Feedable ((updates tr).map (·.1) ++ [t]) → ∀ s0, SameButVol s s0 → ∀ s0',
      (tickStep c side T true log s0 t).out = .ok s0' → ∃ s', (tickStep c side T false log s t).out = .ok s') := by
  obtain ⟨hv1, hv2⟩ := h
  have keep : ∀ x : List (Event F), updates x = [] → ExecVolInv (tr ++ x) s := by
    intro x hx
    unfold ExecVolInv baselineInputs traderInputs
    rw [updates_append, hx, List.append_nil]
    exact ⟨hv1, hv2⟩
  have row0 : updates (if log then [Event.tickRow t s.account] else []) = [] := by cases log <;> rfl
  have x0 : updates (execOrders log c t s.orders s.account s.executed).trace = [] := by
    have := (execOrders_spec T s.trader log c t s.orders s.account s.executed
      [.exec t ⟨none, none, .none, none⟩ (.ok (true, s.account))] (by simp [accountAfter])).2.1
    exact (execOrders_proj this).1
  constructor
  · intro s' hs'
    rw [tickStep_eq] at hs' ⊢
    cases hsg : sideStep side t.ts s.signals s.prevIndex with
    | error e => rw [hsg] at hs'; cases hs'
    | ok sg =>
      rw [hsg] at hs'
      dsimp only at hs' ⊢
      cases hX : (execOrders log c t s.orders s.account s.executed).out with
      | error e => rw [hX] at hs'; cases hs'
      | ok r =>
        rw [hX] at hs'
        dsimp only at hs' ⊢
        by_cases hact : active t = true
        · rw [if_pos hact] at hs' ⊢
          rw [traderStep_eq] at hs' ⊢
          dsimp only at hs' ⊢
          cases hu : T.update s.trader t sg.1 r.1.baseBalance r.1.quoteBalance with
          | error e => rw [hu] at hs'; cases hs'
          | ok u =>
            rw [hu] at hs'
            dsimp only at hs' ⊢
            have hupd : updates (tr ++ ((if log then [Event.tickRow t s.account] else []) ++
                (execOrders log c t s.orders s.account s.executed).trace ++
                (Event.update t sg.1 r.1.baseBalance r.1.quoteBalance (.ok u.2) ::
                (if log then [.traderRow (T.internalState u.1)] else [])))) =
                updates tr ++ [(t, sg.1, r.1.baseBalance, r.1.quoteBalance)] := by
              rw [updates_append, updates_append, updates_append, row0, x0]
              cases log <;> rfl
            unfold ExecVolInv baselineInputs traderInputs
            rw [hupd, List.map_append, List.map_append, List.map_singleton, List.map_singleton]
            show volAfter 0 kSecondsPerDay (baselineInputs tr ++ [(t, lit F 1, lit F 0)]) = _ ∧
              volAfter 0 kSecondsPerDay (traderInputs tr ++ [(t, r.1.baseBalance, r.1.quoteBalance)]) = _
            rw [volAfter_snoc _ _ _ _ hv1, volAfter_snoc _ _ _ _ hv2]
            unfold volPart at hs'
            simp only [Bool.false_eq_true, if_false] at hs'
            cases hb : Vol.update s.baseVol t (lit F 1) (lit F 0) with
            | error e => rw [hb] at hs'; cases hs'
            | ok bv =>
              rw [hb] at hs'
              simp only [bind, Except.bind] at hs'
              cases ht : Vol.update s.traderVol t r.1.baseBalance r.1.quoteBalance with
              | error e => rw [ht] at hs'; cases hs'
              | ok tv =>
                rw [ht] at hs'
                simp only [pure, Except.pure] at hs'
                cases hs'
                exact ⟨rfl, rfl⟩
        · rw [if_neg hact] at hs' ⊢
          cases hs'
          have := keep ((if log then [Event.tickRow t s.account] else []) ++
            (execOrders log c t s.orders s.account s.executed).trace) (by rw [updates_append, row0, x0]; rfl)
          exact this
  · rintro hfeed s0 ⟨bv0, tv0, rfl⟩ s0' hs0'
    rw [tickStep_eq] at hs0' ⊢
    dsimp only at hs0'
    cases hsg : sideStep side t.ts s.signals s.prevIndex with
    | error e => rw [hsg] at hs0'; cases hs0'
    | ok sg =>
      rw [hsg] at hs0'
      dsimp only at hs0' ⊢
      cases hX : (execOrders log c t s.orders s.account s.executed).out with
      | error e => rw [hX] at hs0'; cases hs0'
      | ok r =>
        rw [hX] at hs0'
        dsimp only at hs0' ⊢
        by_cases hact : active t = true
        · rw [if_pos hact] at hs0' ⊢
          rw [traderStep_eq] at hs0' ⊢
          dsimp only at hs0' ⊢
          cases hu : T.update s.trader t sg.1 r.1.baseBalance r.1.quoteBalance with
          | error e => rw [hu] at hs0'; cases hs0'
          | ok u =>
            dsimp only
            unfold volPart
            simp only [Bool.false_eq_true, if_false]
            obtain ⟨w1, e1, _⟩ := C50_returns 0 kSecondsPerDay (by decide)
              (baselineInputs tr ++ [(t, lit F 1, lit F 0)]) (by
                unfold baselineInputs; rw [List.map_append, List.map_map]; exact hfeed)
            obtain ⟨w2, e2, _⟩ := C50_returns 0 kSecondsPerDay (by decide)
              (traderInputs tr ++ [(t, r.1.baseBalance, r.1.quoteBalance)]) (by
                unfold traderInputs; rw [List.map_append, List.map_map]; exact hfeed)
            rw [volAfter_snoc _ _ _ _ hv1] at e1
            rw [volAfter_snoc _ _ _ _ hv2] at e2
            dsimp only at e1 e2
            rw [e1, e2]
            simp [bind, Except.bind, pure, Except.pure]
        · rw [if_neg hact]; exact ⟨_, rfl⟩

theorem execLoop_vol {recs : Option (List (SideInputRecord F))} {side : Option (SideInput F)}
    (hside : SideOf recs side) (c : AccountConfig F) (ticks : List (OhlcTick F)) (T : Trader F)
    (init : T.State) (log : Bool) :
    (∀ s, (execLoop c ticks side false T init log).out = .ok s →
      ExecVolInv (execLoop c ticks side false T init log).trace s) ∧
    (Feedable ticks → ∀ s0, (execLoop c ticks side true T init log).out = .ok s0 →
      ∃ s, (execLoop c ticks side false T init log).out = .ok s) := by
  induction ticks using List.reverseRecOn with
  | nil =>
    refine ⟨fun s hs => ?_, fun _ s0 h => ⟨_, rfl⟩⟩
    cases hs
    unfold ExecVolInv baselineInputs traderInputs volAfter
    constructor <;> (show (do List.foldlM _ (← (Vol.make 0 kSecondsPerDay : Res (Indicator F (VolState F)))) []) = _) <;>
      rw [vol_make 0 kSecondsPerDay (by decide)] <;> rfl
  | append_singleton l t ih =>
    constructor
    · intro s hs
      rw [execLoop_prefix] at hs ⊢
      simp only [List.foldlM_cons, List.foldlM_nil, bind_pure] at hs ⊢
      cases hx : (execLoop c l side false T init log).out with
      | error e => rw [Run.andThen_error hx] at hs; cases hs
      | ok s1 =>
        rw [Run.andThen_ok hx] at hs ⊢
        exact (tickStep_vol c side T log s1 t _ (ih.1 s1 hx)).1 s hs
    · intro hfeed s0 hs0
      have hfl : Feedable l := ⟨(List.pairwise_append.mp hfeed.1).1, fun x hx => hfeed.2 x (by simp [hx])⟩
      rw [execLoop_prefix] at hs0 ⊢
      simp only [List.foldlM_cons, List.foldlM_nil, bind_pure] at hs0 ⊢
      cases hx : (execLoop c l side true T init log).out with
      | error e => rw [Run.andThen_error hx] at hs0; cases hs0
      | ok s1' =>
        rw [Run.andThen_ok hx] at hs0
        obtain ⟨s1, hs1⟩ := ih.2 hfl s1' hx
        obtain ⟨_, s1'', h1, h2⟩ := (execLoop_fast c l side T init log).2 s1 hs1
        rw [hx] at h1; cases h1
        rw [Run.andThen_ok hs1]
        refine (tickStep_vol c side T log s1 t _ (ih.1 s1 hs1)).2 ?_ s1' h2 s0 hs0
        -- the ticks fed to the indicators so far are a subsequence of the history
        obtain ⟨_, segs, hlen, hflat, hg⟩ := (execLoop_spec hside c l false T init log).2 s1 hs1
        have hsub : (updates (execLoop c l side false T init log).trace).map (·.1) = l.filter active := by
          have hr : (executeTrader c l side false T init log).out.isOk = true := by
            cases l with
            | nil => rfl
            | cons a l => rw [executeTrader_eq _ _ _ _ _ _ _ (by simp), hs1]; rfl
          cases hres : (executeTrader c l side false T init log).out with
          | error e => rw [hres] at hr; cases hr
          | ok r =>
            have := C29_active_ticks hside c l false T init log hres
            rwa [executeTrader_trace] at this
        rw [hsub]
        have hss : (l.filter active ++ [t]).Sublist (l ++ [t]) := List.Sublist.append List.filter_sublist (List.Sublist.refl _)
        exact ⟨hfeed.1.sublist hss, fun x hx => hfeed.2 x (hss.subset hx)⟩

/-- **C31** (fast evaluation, converse). On a history sorted by time (non-negative timestamps) computing volatilities
never makes a back-test abort: if the fast evaluation succeeds so does the full one. -/
theorem C31_volatility_never_aborts {recs : Option (List (SideInputRecord F))} {side : Option (SideInput F)}
    (hside : SideOf recs side) (c : AccountConfig F) (ticks : List (OhlcTick F)) (hl : Feedable ticks) (T : Trader F)
    (init : T.State) (log : Bool) (r : ExecutionResult F)
    (hr : (executeTrader c ticks side true T init log).out = .ok r) :
    ∃ r', (executeTrader c ticks side false T init log).out = .ok r' := by
  cases ticks with
  | nil => exact ⟨_, rfl⟩
  | cons a l =>
    rw [executeTrader_eq _ _ _ _ _ _ _ (by simp)] at hr ⊢
    dsimp only at hr ⊢
    cases hx : (execLoop c (a :: l) side true T init log).out with
    | error e => rw [hx] at hr; cases hr
    | ok s0 =>
      obtain ⟨s, hs⟩ := (execLoop_vol hside c (a :: l) T init log).2 hl s0 hx
      rw [hs]; exact ⟨_, rfl⟩

/-- **C31** (the calls). On ticks in order of time with timestamps that are not negative, the fast and the full evaluation
make exactly the same calls, and one returns a result if and only if the other does: even a run that aborts aborts after the
same calls. -/
theorem C31_same_calls {recs : Option (List (SideInputRecord F))} {side : Option (SideInput F)}
    (hside : SideOf recs side) (c : AccountConfig F) (ticks : List (OhlcTick F)) (hl : Feedable ticks) (T : Trader F)
    (init : T.State) (log : Bool) :
    (executeTrader c ticks side false T init log).trace = (executeTrader c ticks side true T init log).trace ∧
    ((∃ r, (executeTrader c ticks side false T init log).out = .ok r) ↔
      ∃ r, (executeTrader c ticks side true T init log).out = .ok r) := by
  refine ⟨?_, fun ⟨r, hr⟩ => ⟨_, ((C31_fast_eval c ticks side T init log).2 r hr).2⟩,
    fun ⟨r, hr⟩ => C31_volatility_never_aborts hside c ticks hl T init log r hr⟩
  rw [executeTrader_trace, executeTrader_trace]
  induction ticks using List.reverseRecOn with
  | nil => rfl
  | append_singleton l t ih =>
    have hfl : Feedable l := ⟨(List.pairwise_append.mp hl.1).1, fun x hx => hl.2 x (by simp [hx])⟩
    rw [execLoop_prefix, execLoop_prefix]
    simp only [List.foldlM_cons, List.foldlM_nil, bind_pure]
    cases hx : (execLoop c l side false T init log).out with
    | error e =>
      rw [Run.andThen_error hx]
      cases hy : (execLoop c l side true T init log).out with
      | error e => rw [Run.andThen_error hy]; exact ih hfl
      | ok s =>
        obtain ⟨s', hs'⟩ := (execLoop_vol hside c l T init log).2 hfl s hy
        rw [hx] at hs'; cases hs'
    | ok s =>
      obtain ⟨htr, s', hs', hsame⟩ := (execLoop_fast c l side T init log).2 s hx
      obtain ⟨g1, g2⟩ := tickStep_fast c side T log s s' hsame t
      rw [Run.andThen_ok hx, Run.andThen_ok hs', htr, g1]

/-! ## C32 -/

/-- **C32**. Every call of a run - even one that aborts later - is faithful (see `Spec.FaithfulCall`): the accounts in
the exchange log are the account at that moment, rows directly follow what they report, and so on. -/
theorem C32_story {recs : Option (List (SideInputRecord F))} {side : Option (SideInput F)}
    (hside : SideOf recs side) (c : AccountConfig F) (ticks : List (OhlcTick F)) (fast : Bool) (T : Trader F)
    (init : T.State) (log : Bool) :
    Everywhere (FaithfulCall c T init) (executeTrader c ticks side fast T init log).trace := by
  rw [executeTrader_trace]
  have h := (execLoop_spec hside c ticks fast T init log).1
  rw [allAt_iff] at h
  intro b e a hb
  exact (h b e a hb).1

/-- **C32**. With a logger attached, the exchange log of a completed run has exactly one row per tick, in order, and one
row per executed order, in order; the trader log has one row per tick of non-zero volume; and the reported number of
executed orders is the number of such rows. -/
theorem C32_rows {recs : Option (List (SideInputRecord F))} {side : Option (SideInput F)}
    (hside : SideOf recs side) (c : AccountConfig F) (ticks : List (OhlcTick F)) (fast : Bool) (T : Trader F)
    (init : T.State) {r : ExecutionResult F} (hr : (executeTrader c ticks side fast T init true).out = .ok r) :
    let trace := (executeTrader c ticks side fast T init true).trace
    (tickRows trace).map (·.1) = ticks ∧ orderRows trace = executions trace ∧
    (traderRows trace).length = (ticks.filter active).length ∧
    r.totalExecutedOrders = (orderRows trace).length := by
  intro trace
  obtain ⟨segs, hlen, hflat, hg⟩ := C29_rounds hside c ticks fast T init true hr
  have hupd := C29_active_ticks hside c ticks fast T init true hr
  have hc2 : ∀ segs : List (List (Event F)), (∀ x ∈ segs, orderRows x = executions x) →
      orderRows segs.flatten = executions segs.flatten := by
    intro segs h
    induction segs with
    | nil => rfl
    | cons x xs ih =>
      rw [List.flatten_cons, orderRows_append, executions_append, h x (by simp), ih (fun y hy => h y (by simp [hy]))]
  have h2 : orderRows trace = executions trace := by
    show orderRows (executeTrader c ticks side fast T init true).trace =
      executions (executeTrader c ticks side fast T init true).trace
    rw [hflat]
    apply hc2
    intro x hx
    obtain ⟨i, hi, rfl⟩ := List.mem_iff_getElem.mp hx
    exact (hg i hi (by omega)).rows rfl
  refine ⟨?_, h2, ?_, ?_⟩
  · show (tickRows (executeTrader c ticks side fast T init true).trace).map (·.1) = ticks
    rw [hflat, flatten_proj (g := fun x => (tickRows x).map (·.1)) rfl (fun x y => by simp [tickRows_append])
      (fun t => [t]) segs ticks hlen (fun i h1 h2 => by have := (hg i h1 h2).tickRows; simpa using this)]
    clear * -
    induction ticks with
    | nil => rfl
    | cons a l ih => simp [ih]
  · have hc : ∀ segs : List (List (Event F)), (∀ x ∈ segs, (traderRows x).length = (updates x).length) →
        (traderRows segs.flatten).length = (updates segs.flatten).length := by
      intro segs h
      induction segs with
      | nil => rfl
      | cons x xs ih =>
        rw [List.flatten_cons, traderRows_append, updates_append, List.length_append, List.length_append,
          h x (by simp), ih (fun y hy => h y (by simp [hy]))]
    show (traderRows (executeTrader c ticks side fast T init true).trace).length = _
    rw [← hupd, List.length_map, hflat]
    apply hc
    intro x hx
    obtain ⟨i, hi, rfl⟩ := List.mem_iff_getElem.mp hx
    have := (hg i hi (by omega)).traderRows
    simpa using this
  · rw [h2]
    cases ticks with
    | nil => cases hr; rfl
    | cons a l =>
      show _ = (executions (executeTrader c (a :: l) side fast T init true).trace).length
      rw [executeTrader_eq _ _ _ _ _ _ _ (by simp)] at hr ⊢
      dsimp only at hr ⊢
      cases hx : (execLoop c (a :: l) side fast T init true).out with
      | error e => rw [hx] at hr; cases hr
      | ok s =>
        rw [hx] at hr; cases hr
        exact ((execLoop_spec hside c (a :: l) fast T init true).2 s hx).1.executed

/-! ## C33 -/

/-- **C33**. The result on a non-empty history: configured start balances, the balances and the fee of the account left
by the last order execution, first and last close, values `quote + price * base`, the number of successful order
executions, and (unless fast) the annualised volatilities of the baseline and of the trader over the ticks of non-zero
volume. -/
theorem C33_result {recs : Option (List (SideInputRecord F))} {side : Option (SideInput F)}
    (hside : SideOf recs side) (c : AccountConfig F) (ticks : List (OhlcTick F)) (hne : ticks ≠ []) (fast : Bool)
    (T : Trader F) (init : T.State) (log : Bool) {r : ExecutionResult F}
    (hr : (executeTrader c ticks side fast T init log).out = .ok r) :
    let trace := (executeTrader c ticks side fast T init log).trace
    let final := accountAfter c trace
    r.startBase = c.startBase ∧ r.startQuote = c.startQuote ∧
    r.endBase = final.baseBalance ∧ r.endQuote = final.quoteBalance ∧ r.totalFee = final.totalFee ∧
    r.startPrice = (ticks.head hne).close ∧ r.endPrice = (ticks.getLast hne).close ∧
    r.startValue = r.startQuote +. r.startPrice *. r.startBase ∧
    r.endValue = r.endQuote +. r.endPrice *. r.endBase ∧
    r.totalExecutedOrders = (executions trace).length ∧
    (fast = true → r.baseVolatility = lit F 0 ∧ r.traderVolatility = lit F 0) ∧
    (fast = false → ∃ b t, volAfter 0 kSecondsPerDay (baselineInputs trace) = .ok b ∧
      volAfter 0 kSecondsPerDay (traderInputs trace) = .ok t ∧
      r.baseVolatility = Wide.narrow (Wide.widen (Vol.get b) *. Libm.sqrt (lit D 365)) ∧
      r.traderVolatility = Wide.narrow (Wide.widen (Vol.get t) *. Libm.sqrt (lit D 365))) := by
  intro trace final
  have htr : trace = (execLoop c ticks side fast T init log).trace := executeTrader_trace ..
  rw [executeTrader_eq _ _ _ _ _ _ _ hne] at hr
  dsimp only at hr
  cases hx : (execLoop c ticks side fast T init log).out with
  | error e => rw [hx] at hr; cases hr
  | ok s =>
    rw [hx] at hr; cases hr
    have hinv := ((execLoop_spec hside c ticks fast T init log).2 s hx).1
    have hacc : final = s.account := by rw [hinv.account, ← htr]
    rw [hacc]
    refine ⟨rfl, rfl, rfl, rfl, rfl, rfl, rfl, rfl, rfl, ?_, ?_, ?_⟩
    · rw [htr]; exact hinv.executed
    · rintro rfl; exact ⟨rfl, rfl⟩
    · rintro rfl
      obtain ⟨v1, v2⟩ := (execLoop_vol hside c ticks T init log).1 s hx
      rw [htr]
      exact ⟨_, _, v1, v2, rfl, rfl⟩

/-- **C33**. An empty history gives the default result, without any call. -/
theorem C33_empty (c : AccountConfig F) (side : Option (SideInput F)) (fast : Bool) (T : Trader F) (init : T.State)
    (log : Bool) :
    executeTrader c [] side fast T init log =
      ⟨[], .ok ⟨lit F 0, lit F 0, lit F 0, lit F 0, lit F 0, lit F 0, lit F 0, lit F 0, 0, lit F 0, lit F 0, lit F 0⟩⟩ :=
  rfl

/-! ## C34 -/

/-- A trader that never emits an order. -/
def Idle (T : Trader F) : Prop := ∀ s t sg b q r, T.update s t sg b q = .ok r → r.2 = []

/-- **C34**. A trader that never emits an order ends with its starting balances, no fees and no executed orders. -/
theorem C34_idle {recs : Option (List (SideInputRecord F))} {side : Option (SideInput F)}
    (hside : SideOf recs side) (c : AccountConfig F) (ticks : List (OhlcTick F)) (hne : ticks ≠ []) (fast : Bool)
    (T : Trader F) (hT : Idle T) (init : T.State) (log : Bool) {r : ExecutionResult F}
    (hr : (executeTrader c ticks side fast T init log).out = .ok r) :
    attempts (executeTrader c ticks side fast T init log).trace = [] ∧
    r.endBase = c.startBase ∧ r.endQuote = c.startQuote ∧ r.totalFee = lit F 0 ∧ r.totalExecutedOrders = 0 := by
  -- nothing is ever executed
  have key : ∀ tr : List (Event F), AllAt (GoodCall c T init recs) [] tr → standingAfter tr = [] := by
    intro tr h
    induction tr using List.reverseRecOn with
    | nil => rfl
    | append_singleton l e ih =>
      rw [AllAt_append] at h
      have ih := ih h.1
      have he := h.2.1.1
      cases e with
      | exec t o r => simpa using ih
      | tickRow t a => simpa using ih
      | orderRow t a o => simpa using ih
      | traderRow s => simpa using ih
      | update t sg b q res =>
        obtain ⟨_, _, hres⟩ := he
        cases res with
        | error e => unfold standingAfter at ih ⊢; rw [List.foldl_append]; simpa using ih
        | ok os =>
          rw [standingAfter_update]
          cases hu : T.update (traderAfter T init ([] ++ l)) t sg b q with
          | error e => rw [hu] at hres; cases hres
          | ok u => rw [hu] at hres; cases hres; exact hT _ _ _ _ _ _ hu
  obtain ⟨segs, hlen, hflat, hg⟩ := C29_rounds hside c ticks fast T init log hr
  have hall := (execLoop_spec hside c ticks fast T init log).1
  rw [← executeTrader_trace] at hall
  have hatt : ∀ i ≤ segs.length, attempts (segs.take i).flatten = [] := by
    intro i hi
    induction i with
    | zero => rfl
    | succ i ih =>
      rw [List.take_succ_eq_append_getElem (by omega), List.flatten_append, attempts_append, ih (by omega)]
      have h := (hg i (by omega) (by omega)).attempts
      have hpre : AllAt (GoodCall c T init recs) [] (segs.take i).flatten := by
        rw [hflat, ← List.take_append_drop i segs, List.flatten_append, AllAt_append] at hall
        exact hall.1
      rw [key _ hpre] at h
      simp [h]
  have hnone : attempts (executeTrader c ticks side fast T init log).trace = [] := by
    have := hatt segs.length (le_refl _)
    rw [List.take_length] at this
    rw [hflat]; exact this
  have hacc : ∀ tr : List (Event F), attempts tr = [] → accountAfter c tr = Account.init c ∧ executions tr = [] := by
    intro tr h
    induction tr using List.reverseRecOn with
    | nil => exact ⟨rfl, rfl⟩
    | append_singleton l e ih =>
      rw [attempts_append, List.append_eq_nil_iff] at h
      obtain ⟨i1, i2⟩ := ih h.1
      cases e with
      | exec t o r => simp [attempts] at h
      | tickRow t a => exact ⟨by simpa using i1, by rw [executions_append, i2]; rfl⟩
      | orderRow t a o => exact ⟨by simpa using i1, by rw [executions_append, i2]; rfl⟩
      | traderRow s => exact ⟨by simpa using i1, by rw [executions_append, i2]; rfl⟩
      | update t sg b q res => exact ⟨by simpa using i1, by rw [executions_append, i2]; rfl⟩
  obtain ⟨a1, a2⟩ := hacc _ hnone
  obtain ⟨_, _, r3, r4, r5, _, _, _, _, r10, _⟩ := C33_result hside c ticks hne fast T init log hr
  refine ⟨hnone, ?_, ?_, ?_, ?_⟩
  · rw [r3, a1]; rfl
  · rw [r4, a1]; rfl
  · rw [r5, a1]; rfl
  · rw [r10, a2]; rfl

end general

/-! ## Non-vacuity: a concrete run over the rationals -/

section examples

/-- Any libm will do for the examples: they are fast evaluations or do not look at the volatilities. -/
local instance btLibm : Libm ℚ := ⟨id, id, id, fun x _ => x⟩

/-- Account with 100 quote currency, no fees, no units, perfect liquidity. -/
def btCfg : AccountConfig ℚ := ⟨0, 100, 0, 0, ⟨0, 0, 0⟩, ⟨0, 0, 0⟩, ⟨0, 0, 0⟩, 1, 0⟩

/-- A trader that emits one market order "buy 1" at its first update only. -/
def btTrader : Trader ℚ where
  State := ℕ
  update n _ _ _ _ := .ok (n + 1, if n = 0 then [⟨some .market, some .buy, .base 1, none⟩] else [])
  internalState n := toString n

/-- One active tick, two zero-volume ticks, one active tick. -/
def btTicks : List (OhlcTick ℚ) :=
  [⟨60, 10, 10, 10, 10, 5⟩, ⟨120, 10, 10, 10, 10, 0⟩, ⟨180, 10, 10, 10, 10, 0⟩, ⟨240, 10, 10, 10, 10, 5⟩]

/-- Two side-input records. -/
def btSide : List (SideInputRecord ℚ) := [⟨100, [7]⟩, ⟨200, [8]⟩]

/-- **C29** (a consequence worth knowing). A market order emitted once is executed again on every following
zero-volume tick: here an order to buy 1 is executed three times, on both zero-volume ticks and on the next active
one. -/
theorem C29_repeated_execution :
    ((executeTrader btCfg btTicks none true btTrader (0 : ℕ) false).out.map
      (fun r => (r.totalExecutedOrders, r.endBase))).toOption = some (3, 3) := by decide +kernel

/-- The trader of the example is updated on the two active ticks and receives the latest record with its age. -/
example : ∃ s, SideInput.make btSide = .ok s ∧
    (updates (executeTrader btCfg btTicks (some s) true btTrader (0 : ℕ) true).trace).map
      (fun u => (u.1.ts, u.2.1)) = [(60, []), (240, [8, 40])] := by
  refine ⟨⟨1, [100, 200], [7, 8]⟩, by rfl, by decide +kernel⟩

/-- The full evaluation of the example succeeds too. -/
example : (executeTrader btCfg btTicks none false btTrader (0 : ℕ) true).out.isOk = true := by decide +kernel

/-- The exchange log of the example: one row per tick and three executions. -/
example : (tickRows (executeTrader btCfg btTicks none true btTrader (0 : ℕ) true).trace).length = 4 ∧
    (orderRows (executeTrader btCfg btTicks none true btTrader (0 : ℕ) true).trace).length = 3 ∧
    traderRows (executeTrader btCfg btTicks none true btTrader (0 : ℕ) true).trace = ["1", "2"] := by
  decide +kernel

/-- Two different side inputs that agree up to time 150. -/
example : known (some btSide) 150 = known (some [(⟨100, [7]⟩ : SideInputRecord ℚ), ⟨170, [9]⟩]) 150 := by decide +kernel

/-- The example history can be fed to the volatility indicators. -/
example : Feedable btTicks := by
  unfold Feedable Spec.SortedBy btTicks
  constructor
  · decide +kernel
  · decide +kernel

/-- A trader that never trades. -/
def btIdle : Trader ℚ := ⟨ℕ, fun n _ _ _ _ => .ok (n + 1, []), fun n => toString n⟩

example : Idle btIdle ∧ (executeTrader btCfg btTicks none true btIdle (0 : ℕ) false).out.isOk = true := by
  refine ⟨?_, by decide +kernel⟩
  intro s t sg b q r h
  cases h; rfl

end examples
end Verif.Props
