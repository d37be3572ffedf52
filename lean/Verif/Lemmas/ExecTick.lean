import Verif.Lemmas.ExecSide

/-! # One round of the back-test loop -/

set_option linter.unusedSectionVars false

namespace Verif
open FloatOps Spec

variable {F D : Type} [FloatOps F] [FloatOps D] [Wide F D] [Libm F]

/-- The volatility part of a round. -/
def volPart {S : Type} (fast : Bool) (t : OhlcTick F) (s : ExecState F S) : Res (ExecState F S) :=
  if fast then .ok s
  else do
    let bv ← Vol.update s.baseVol t (lit F 1) (lit F 0)
    let tv ← Vol.update s.traderVol t s.account.baseBalance s.account.quoteBalance
    return { s with baseVol := bv, traderVol := tv }

theorem volPart_ok {S : Type} {fast : Bool} {t : OhlcTick F} {s s' : ExecState F S} (h : volPart fast t s = .ok s') :
    s'.account = s.account ∧ s'.signals = s.signals ∧ s'.prevIndex = s.prevIndex ∧ s'.orders = s.orders ∧
      s'.executed = s.executed ∧ s'.trader = s.trader := by
  unfold volPart at h
  split at h
  · cases h; simp
  · cases h1 : Vol.update s.baseVol t (lit F 1) (lit F 0) with
    | error e => rw [h1] at h; cases h
    | ok bv =>
      rw [h1] at h
      simp only [bind, Except.bind, pure, Except.pure] at h
      split at h
      · cases h
      · cases h; simp

theorem traderStep_eq (T : Trader F) (fast log : Bool) (t : OhlcTick F) (s : ExecState F T.State) :
    traderStep T fast log t s =
      match T.update s.trader t s.signals s.account.baseBalance s.account.quoteBalance with
      | .error e => ⟨[.update t s.signals s.account.baseBalance s.account.quoteBalance (.error e)], .error e⟩
      | .ok u => ⟨.update t s.signals s.account.baseBalance s.account.quoteBalance (.ok u.2) ::
          (if log then [.traderRow (T.internalState u.1)] else []),
          volPart fast t { s with trader := u.1, orders := u.2 }⟩ := by
  unfold traderStep volPart
  simp only [Run.bind_eq]
  generalize T.update s.trader t s.signals s.account.baseBalance s.account.quoteBalance = u
  cases u with
  | error e => rfl
  | ok u =>
    cases log <;> cases fast <;>
      simp only [Run.call, Run.andThen, Run.emitIf, Run.emit, Run.ret, Run.lift, Except.map, Bool.false_eq_true,
        if_true, if_false, Run.pure_eq, List.append_nil, List.cons_append, List.nil_append]
    all_goals
      cases Vol.update s.baseVol t (lit F 1) (lit F 0) with
      | error e => rfl
      | ok bv =>
        simp only [bind, Except.bind, pure, Except.pure]
        cases Vol.update s.traderVol t s.account.baseBalance s.account.quoteBalance with
        | error e => rfl
        | ok tv => rfl

theorem tickStep_eq (c : AccountConfig F) (side : Option (SideInput F)) (T : Trader F) (fast log : Bool)
    (s : ExecState F T.State) (t : OhlcTick F) :
    tickStep c side T fast log s t =
      match sideStep side t.ts s.signals s.prevIndex with
      | .error e => ⟨[], .error e⟩
      | .ok sg =>
        match (execOrders log c t s.orders s.account s.executed).out with
        | .error e => ⟨(if log then [.tickRow t s.account] else []) ++
            (execOrders log c t s.orders s.account s.executed).trace, .error e⟩
        | .ok r =>
          if active t then
            ⟨(if log then [.tickRow t s.account] else []) ++
              (execOrders log c t s.orders s.account s.executed).trace ++
              (traderStep T fast log t { s with signals := sg.1, prevIndex := sg.2, account := r.1, executed := r.2 }).trace,
              (traderStep T fast log t { s with signals := sg.1, prevIndex := sg.2, account := r.1, executed := r.2 }).out⟩
          else ⟨(if log then [.tickRow t s.account] else []) ++
              (execOrders log c t s.orders s.account s.executed).trace,
              .ok { s with signals := sg.1, prevIndex := sg.2, account := r.1, executed := r.2 }⟩ := by
  unfold tickStep
  simp only [Run.bind_eq]
  cases sideStep side t.ts s.signals s.prevIndex with
  | error e => rfl
  | ok sg =>
    simp only [Run.lift, Run.andThen]
    cases hx : (execOrders log c t s.orders s.account s.executed).out with
    | error e => cases log <;> simp [Run.emitIf, Run.emit, Run.ret]
    | ok r =>
      unfold active
      cases log <;> cases hb : FloatOps.beq t.volume (lit F 0) <;>
        simp [Run.emitIf, Run.emit, Run.ret, Run.pure_eq]

/-- What the local variables of `ExecuteTrader` are, in terms of the calls made so far. -/
structure ExecInv (c : AccountConfig F) (T : Trader F) (init : T.State) (recs : Option (List (SideInputRecord F)))
    (tr : List (Event F)) (s : ExecState F T.State) : Prop where
  account : s.account = accountAfter c tr
  orders : s.orders = standingAfter tr
  trader : s.trader = traderAfter T init tr
  executed : s.executed = (executions tr).length
  index : s.prevIndex < (recs.getD []).length
  signals : s.prevIndex < 0 → s.signals = []
  noSide : recs = none → s.prevIndex < 0

/-- The specification of a single call, including the signals of an update. -/
def GoodCall (c : AccountConfig F) (T : Trader F) (init : T.State) (recs : Option (List (SideInputRecord F)))
    (before : List (Event F)) (e : Event F) : Prop :=
  FaithfulCall c T init before e ∧ ∀ t sg b q r, e = .update t sg b q r → sg = signalsAt recs t.ts

theorem execOrders_proj {log : Bool} {t : OhlcTick F} {x : List (Event F)}
    (h : ∀ e ∈ x, (∃ o r, e = .exec t o r) ∨ (log = true ∧ ∃ a' o, e = .orderRow t a' o)) :
    updates x = [] ∧ tickRows x = [] ∧ traderRows x = [] ∧ (log = false → orderRows x = []) := by
  refine ⟨?_, ?_, ?_, fun hl => ?_⟩
  all_goals
    simp only [updates, tickRows, traderRows, orderRows]
    rw [List.filterMap_eq_nil_iff]
    intro e he
    rcases h e he with ⟨o, r, rfl⟩ | ⟨h1, a', o, rfl⟩
    all_goals first | rfl | (subst h1; cases hl)

theorem executions_append (x y : List (Event F)) : executions (x ++ y) = executions x ++ executions y :=
  List.filterMap_append
theorem attempts_append (x y : List (Event F)) : attempts (x ++ y) = attempts x ++ attempts y :=
  List.filterMap_append
theorem updates_append (x y : List (Event F)) : updates (x ++ y) = updates x ++ updates y :=
  List.filterMap_append
theorem tickRows_append (x y : List (Event F)) : tickRows (x ++ y) = tickRows x ++ tickRows y :=
  List.filterMap_append
theorem orderRows_append (x y : List (Event F)) : orderRows (x ++ y) = orderRows x ++ orderRows y :=
  List.filterMap_append
theorem traderRows_append (x y : List (Event F)) : traderRows (x ++ y) = traderRows x ++ traderRows y :=
  List.filterMap_append

/-- One round keeps the invariant and makes good calls only, even if it faults. -/
theorem tickStep_spec {c : AccountConfig F} {T : Trader F} {init : T.State}
    {recs : Option (List (SideInputRecord F))} {side : Option (SideInput F)} (hside : SideOf recs side)
    (fast log : Bool) {tr : List (Event F)} {s : ExecState F T.State} (hinv : ExecInv c T init recs tr s)
    (t : OhlcTick F) :
    AllAt (GoodCall c T init recs) tr (tickStep c side T fast log s t).trace ∧
    ∀ s', (tickStep c side T fast log s t).out = .ok s' →
      ExecInv c T init recs (tr ++ (tickStep c side T fast log s t).trace) s' ∧
      GoodRound log tr (tickStep c side T fast log s t).trace t := by
  rw [tickStep_eq, sideStep_eq hside _ _ _ hinv.index hinv.noSide]
  cases hsg : sideSpec (known recs t.ts) t.ts s.signals s.prevIndex with
  | error e => exact ⟨trivial, fun s' h => (by cases h)⟩
  | ok sg =>
    obtain ⟨q1, q2, q3, q4⟩ := sideSpec_ok hsg hinv.signals
    have hkl := known_mono_length recs t.ts
    -- the tick row
    set row : List (Event F) := if log then [.tickRow t s.account] else [] with hrow
    have row_all : AllAt (GoodCall c T init recs) tr row := by
      rw [hrow]; cases log
      · exact trivial
      · exact ⟨⟨hinv.account, fun _ _ _ _ _ h => by cases h⟩, trivial⟩
    have row_acc : accountAfter c (tr ++ row) = accountAfter c tr := by
      rw [hrow]; cases log <;> simp
    have row_st : standingAfter (tr ++ row) = standingAfter tr := by
      rw [hrow]; cases log <;> simp
    have row_tr : traderAfter T init (tr ++ row) = traderAfter T init tr := by
      rw [hrow]; cases log <;> simp
    have row_proj : executions row = [] ∧ attempts row = [] ∧ updates row = [] ∧ orderRows row = [] ∧
        traderRows row = [] ∧ (tickRows row).map (·.1) = if log then [t] else [] := by
      rw [hrow]; cases log <;> simp [executions, attempts, updates, orderRows, traderRows, tickRows]
    have row_first : log = true → ∃ a, row = [.tickRow t a] := by
      intro hl; rw [hrow, hl]; exact ⟨_, rfl⟩
    clear_value row
    obtain ⟨p1, p2, p3, p4, p5⟩ := execOrders_spec T init log c t s.orders s.account s.executed (tr ++ row)
      (by rw [row_acc]; exact hinv.account)
    obtain ⟨x1, x2, x3, x4⟩ := execOrders_proj p2
    set X := execOrders log c t s.orders s.account s.executed with hX
    clear_value X
    have X_all : AllAt (GoodCall c T init recs) (tr ++ row) X.trace := by
      rw [allAt_iff] at p1 ⊢
      intro b e a hb
      refine ⟨p1 b e a hb, ?_⟩
      rintro t' sg' b' q' r' rfl
      rcases p2 (.update t' sg' b' q' r') (by rw [hb]; simp) with ⟨o, r, h⟩ | ⟨_, a', o, h⟩ <;> cases h
    cases hout : X.out with
    | error e =>
      refine ⟨?_, fun s' h => by cases h⟩
      rw [AllAt_append]; exact ⟨row_all, X_all⟩
    | ok r =>
      obtain ⟨g1, g2, g3, g4⟩ := p5 r hout
      dsimp only
      by_cases hact : active t = true
      · rw [if_pos hact, traderStep_eq]
        dsimp only
        -- the update
        have htrader : s.trader = traderAfter T init (tr ++ row ++ X.trace) := by rw [p4, row_tr]; exact hinv.trader
        have hacc : r.1 = accountAfter c (tr ++ row ++ X.trace) := g1
        have upd_all : ∀ res, res = (T.update s.trader t sg.1 r.1.baseBalance r.1.quoteBalance).map (·.2) →
            GoodCall c T init recs (tr ++ row ++ X.trace)
              (.update t sg.1 r.1.baseBalance r.1.quoteBalance res) := by
          intro res hres
          refine ⟨⟨by rw [hacc], by rw [hacc], by rw [← htrader]; exact hres⟩, ?_⟩
          intro t' sg' b' q' r' he
          injection he with e1 e2 _ _ _
          subst e1; subst e2
          rw [q1]; rfl
        cases hu : T.update s.trader t sg.1 r.1.baseBalance r.1.quoteBalance with
        | error e =>
          refine ⟨?_, fun s' h => by cases h⟩
          rw [AllAt_append, AllAt_append]
          refine ⟨⟨row_all, X_all⟩, ?_, trivial⟩
          rw [← List.append_assoc]
          exact upd_all _ (by rw [hu]; rfl)
        | ok u =>
          dsimp only
          set urow : List (Event F) := if log then [.traderRow (T.internalState u.1)] else [] with hurow
          have htr' : traderAfter T init
              (tr ++ row ++ X.trace ++ [.update t sg.1 r.1.baseBalance r.1.quoteBalance (.ok u.2)]) = u.1 :=
            traderAfter_update T init _ _ _ _ _ _ u (by rw [← htrader]; exact hu)
          refine ⟨?_, ?_⟩
          · rw [AllAt_append, AllAt_append]
            refine ⟨⟨row_all, X_all⟩, ?_, ?_⟩
            · rw [← List.append_assoc]
              exact upd_all _ (by rw [hu]; rfl)
            · rw [hurow]
              cases log
              · exact trivial
              · refine ⟨⟨⟨?_, t, sg.1, r.1.baseBalance, r.1.quoteBalance, u.2, ?_⟩,
                  fun _ _ _ _ _ h => by cases h⟩, trivial⟩
                · rw [← List.append_assoc, htr']
                · simp
          · intro s' hs'
            obtain ⟨v1, v2, v3, v4, v5, v6⟩ := volPart_ok hs'
            have eq1 : tr ++ (row ++ X.trace ++ (Event.update t sg.1 r.1.baseBalance r.1.quoteBalance (.ok u.2) :: urow))
                = tr ++ row ++ X.trace ++ [.update t sg.1 r.1.baseBalance r.1.quoteBalance (.ok u.2)] ++ urow := by
              simp
            have u_proj : executions urow = [] ∧ attempts urow = [] ∧ updates urow = [] ∧ orderRows urow = [] ∧
                tickRows urow = [] ∧ (traderRows urow).length = if log then 1 else 0 := by
              rw [hurow]; cases log <;> simp [executions, attempts, updates, orderRows, traderRows, tickRows]
            have u_keep : ∀ pre, accountAfter c (pre ++ urow) = accountAfter c pre ∧
                standingAfter (pre ++ urow) = standingAfter pre ∧
                traderAfter T init (pre ++ urow) = traderAfter T init pre := by
              intro pre; rw [hurow]; cases log <;> simp
            clear_value urow
            have single : ∀ (e : Event F) (l : List (Event F)), e :: l = [e] ++ l := fun _ _ => rfl
            refine ⟨⟨?_, ?_, ?_, ?_, ?_, ?_, ?_⟩, ⟨?_, ?_, ?_, ?_, ?_, ?_, ?_, ?_⟩⟩
            · rw [eq1, (u_keep _).1, accountAfter_update, v1]; exact hacc
            · rw [eq1, (u_keep _).2.1, standingAfter_update, v4]
            · rw [eq1, (u_keep _).2.2, htr', v6]
            · rw [v5, eq1, executions_append, executions_append, executions_append, executions_append, u_proj.1,
                row_proj.1]
              dsimp only
              rw [g2, hinv.executed]
              simp [executions]
            · rw [v3]; dsimp only; omega
            · intro h; rw [v2]; rw [v3] at h; exact q3 h
            · intro h; rw [v3]; exact q4 (by rw [h]; rfl)
            · rw [single, attempts_append, attempts_append, attempts_append, row_proj.2.1, g3, u_proj.2.1,
                ← hinv.orders]
              simp [attempts]
            · rw [single, updates_append, updates_append, updates_append, row_proj.2.2.1, x1, u_proj.2.2.1, if_pos hact]
              simp [updates]
            · refine ⟨row ++ X.trace, _, rfl, ?_, ?_⟩
              · rw [updates_append, row_proj.2.2.1, x1]; rfl
              · rw [single, attempts_append, u_proj.2.1]; simp [attempts]
            · intro hl
              rw [single, orderRows_append, orderRows_append, orderRows_append, executions_append,
                executions_append, executions_append, row_proj.2.2.2.1, row_proj.1, u_proj.1, u_proj.2.2.2.1, g4 hl]
              simp [orderRows, executions]
            · rw [single, tickRows_append, tickRows_append, tickRows_append, x2, u_proj.2.2.2.2.1]
              simpa [tickRows] using row_proj.2.2.2.2.2
            · intro hl
              obtain ⟨a, ha⟩ := row_first hl
              exact ⟨a, _, by rw [ha]; rfl⟩
            · rw [single, traderRows_append, traderRows_append, traderRows_append, updates_append, updates_append,
                updates_append, row_proj.2.2.2.2.1, x3, row_proj.2.2.1, x1, u_proj.2.2.1]
              simp [traderRows, updates]
              simpa [traderRows] using u_proj.2.2.2.2.2
            · intro hl
              rw [single, orderRows_append, orderRows_append, orderRows_append, row_proj.2.2.2.1, x4 hl,
                u_proj.2.2.2.1]
              simp [orderRows]
      · rw [if_neg hact]
        dsimp only
        refine ⟨?_, ?_⟩
        · rw [AllAt_append]; exact ⟨row_all, X_all⟩
        · intro s' hs'
          cases hs'
          refine ⟨⟨?_, ?_, ?_, ?_, ?_, ?_, ?_⟩, ⟨?_, ?_, ?_, ?_, ?_, ?_, ?_, ?_⟩⟩
          · rw [← List.append_assoc]; exact g1
          · rw [← List.append_assoc, p3, row_st]; exact hinv.orders
          · rw [← List.append_assoc, p4, row_tr]; exact hinv.trader
          · rw [executions_append, executions_append, row_proj.1]
            dsimp only
            rw [g2, hinv.executed]
            simp
          · dsimp only; omega
          · exact q3
          · intro h; exact q4 (by rw [h]; rfl)
          · rw [attempts_append, row_proj.2.1, g3, ← hinv.orders]; rfl
          · rw [updates_append, row_proj.2.2.1, x1, if_neg hact]; rfl
          · exact ⟨row ++ X.trace, [], by simp, by rw [updates_append, row_proj.2.2.1, x1]; rfl, rfl⟩
          · intro hl
            rw [orderRows_append, executions_append, row_proj.2.2.2.1, row_proj.1, g4 hl]
          · rw [tickRows_append, x2]; simpa using row_proj.2.2.2.2.2
          · intro hl
            obtain ⟨a, ha⟩ := row_first hl
            exact ⟨a, _, by rw [ha]; rfl⟩
          · rw [traderRows_append, updates_append, row_proj.2.2.2.2.1, x3, row_proj.2.2.1, x1]; simp
          · intro hl
            rw [orderRows_append, row_proj.2.2.2.1, x4 hl]; rfl

end Verif
