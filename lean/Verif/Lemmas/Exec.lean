import Verif.Spec.Exec
import Mathlib.Data.List.Induction

/-! # Lemmas about the back-test loop -/

set_option linter.unusedSectionVars false

namespace Verif
open FloatOps Spec

section positions
variable {E : Type}

/-- Recursive form of `Everywhere`, relative to events already performed. -/
def AllAt (P : List E → E → Prop) : List E → List E → Prop
  | _, [] => True
  | pre, e :: es => P pre e ∧ AllAt P (pre ++ [e]) es

theorem AllAt_append {P : List E → E → Prop} (pre x y : List E) :
    AllAt P pre (x ++ y) ↔ AllAt P pre x ∧ AllAt P (pre ++ x) y := by
  induction x generalizing pre with
  | nil => simp [AllAt]
  | cons e es ih => simp [AllAt, ih, and_assoc]

theorem allAt_iff {P : List E → E → Prop} (pre l : List E) :
    AllAt P pre l ↔ ∀ b e a, l = b ++ e :: a → P (pre ++ b) e := by
  induction l generalizing pre with
  | nil => simp [AllAt]
  | cons x xs ih =>
    simp only [AllAt, ih]
    constructor
    · rintro ⟨h1, h2⟩ b e a h
      cases b with
      | nil => simp only [List.nil_append, List.cons.injEq] at h; obtain ⟨rfl, _⟩ := h; simpa using h1
      | cons b0 bs =>
        simp only [List.cons_append, List.cons.injEq] at h
        obtain ⟨rfl, h⟩ := h
        simpa using h2 bs e a h
    · intro h
      refine ⟨by simpa using h [] x xs rfl, fun b e a hb => ?_⟩
      have := h (x :: b) e a (by rw [hb]; rfl)
      simpa using this

theorem everywhere_iff {P : List E → E → Prop} (l : List E) : Everywhere P l ↔ AllAt P [] l := by
  rw [allAt_iff]; simp [Everywhere]

end positions

section fold
variable {E α σ : Type}

/-- Trace and outcome of a loop, one more round at the end. -/
theorem foldlM_concat (f : σ → α → Run E σ) (s : σ) (l : List α) (t : α) :
    (l ++ [t]).foldlM f s = (l.foldlM f s).andThen (fun s => f s t) := by
  rw [List.foldlM_append]
  simp only [List.foldlM_cons, List.foldlM_nil, bind_pure]
  rfl

theorem foldlM_app (f : σ → α → Run E σ) (s : σ) (l r : List α) :
    (l ++ r).foldlM f s = (l.foldlM f s).andThen (fun s => r.foldlM f s) := by
  rw [List.foldlM_append]; rfl

/-- Induction over the rounds of a loop: `Inv` holds of the rounds done, their trace and the state after each
completed round; `Q` holds of the trace of the whole, even if a round faults. -/
theorem foldlM_induct (f : σ → α → Run E σ) (s0 : σ) (Inv : List α → List E → σ → Prop) (Q : List α → List E → Prop)
    (h0 : Inv [] [] s0) (hQ0 : Q [] [])
    (hstep : ∀ l t tr s, Inv l tr s → Q l tr → Q (l ++ [t]) (tr ++ (f s t).trace) ∧
      ∀ s', (f s t).out = .ok s' → Inv (l ++ [t]) (tr ++ (f s t).trace) s')
    (hfault : ∀ l t tr, Q l tr → Q (l ++ [t]) tr) (l : List α) :
    Q l (l.foldlM f s0).trace ∧ ∀ s, (l.foldlM f s0).out = .ok s → Inv l (l.foldlM f s0).trace s := by
  induction l using List.reverseRecOn with
  | nil =>
    refine ⟨hQ0, fun s hs => ?_⟩
    rw [List.foldlM_nil] at hs ⊢
    rw [← Except.ok.inj hs]; exact h0
  | append_singleton l t ih =>
    obtain ⟨ih1, ih2⟩ := ih
    rw [foldlM_concat]
    cases hx : (l.foldlM f s0).out with
    | error e =>
      rw [Run.andThen_error hx]
      exact ⟨hfault l t _ ih1, fun s hs => by cases hs⟩
    | ok s =>
      rw [Run.andThen_ok hx]
      exact hstep l t _ s (ih2 s hx) ih1

end fold

section exec
variable {F D : Type} [FloatOps F] [FloatOps D] [Wide F D]

@[simp] theorem accountAfter_exec (c : AccountConfig F) (pre : List (Event F)) (t : OhlcTick F) (o : Order F)
    (r : Bool × Account F) : accountAfter c (pre ++ [.exec t o (.ok r)]) = r.2 := by
  simp [accountAfter]

@[simp] theorem accountAfter_execErr (c : AccountConfig F) (pre : List (Event F)) (t : OhlcTick F) (o : Order F)
    (e : Fault) : accountAfter c (pre ++ [.exec t o (.error e)]) = accountAfter c pre := by
  simp [accountAfter]

@[simp] theorem accountAfter_update (c : AccountConfig F) (pre : List (Event F)) (t : OhlcTick F) (sg : List F)
    (b q : F) (r : Res (List (Order F))) :
    accountAfter c (pre ++ [.update t sg b q r]) = accountAfter c pre := by
  simp [accountAfter]

@[simp] theorem accountAfter_tickRow (c : AccountConfig F) (pre : List (Event F)) (t : OhlcTick F) (a : Account F) :
    accountAfter c (pre ++ [.tickRow t a]) = accountAfter c pre := by simp [accountAfter]

@[simp] theorem accountAfter_orderRow (c : AccountConfig F) (pre : List (Event F)) (t : OhlcTick F) (a : Account F)
    (o : Order F) : accountAfter c (pre ++ [.orderRow t a o]) = accountAfter c pre := by simp [accountAfter]

@[simp] theorem accountAfter_traderRow (c : AccountConfig F) (pre : List (Event F)) (s : String) :
    accountAfter c (pre ++ [.traderRow s]) = accountAfter c pre := by simp [accountAfter]

@[simp] theorem standingAfter_exec (pre : List (Event F)) (t : OhlcTick F) (o : Order F) (r) :
    standingAfter (pre ++ [.exec t o r]) = standingAfter pre := by simp [standingAfter]

@[simp] theorem standingAfter_update (pre : List (Event F)) (t : OhlcTick F) (sg : List F) (b q : F) (os) :
    standingAfter (pre ++ [.update t sg b q (.ok os)]) = os := by simp [standingAfter]

@[simp] theorem standingAfter_tickRow (pre : List (Event F)) (t : OhlcTick F) (a : Account F) :
    standingAfter (pre ++ [.tickRow t a]) = standingAfter pre := by simp [standingAfter]

@[simp] theorem standingAfter_orderRow (pre : List (Event F)) (t : OhlcTick F) (a : Account F) (o : Order F) :
    standingAfter (pre ++ [.orderRow t a o]) = standingAfter pre := by simp [standingAfter]

@[simp] theorem standingAfter_traderRow (pre : List (Event F)) (s : String) :
    standingAfter (pre ++ [.traderRow s]) = standingAfter pre := by simp [standingAfter]

variable (T : Trader F) (init : T.State)

@[simp] theorem traderAfter_exec (pre : List (Event F)) (t : OhlcTick F) (o : Order F) (r) :
    traderAfter T init (pre ++ [.exec t o r]) = traderAfter T init pre := by simp [traderAfter]

theorem traderAfter_update (pre : List (Event F)) (t : OhlcTick F) (sg : List F) (b q : F) (r) (u)
    (h : T.update (traderAfter T init pre) t sg b q = .ok u) :
    traderAfter T init (pre ++ [.update t sg b q r]) = u.1 := by
  unfold traderAfter at h ⊢
  rw [List.foldl_append, List.foldl_cons, List.foldl_nil]
  simp only [h]

@[simp] theorem traderAfter_tickRow (pre : List (Event F)) (t : OhlcTick F) (a : Account F) :
    traderAfter T init (pre ++ [.tickRow t a]) = traderAfter T init pre := by simp [traderAfter]

@[simp] theorem traderAfter_orderRow (pre : List (Event F)) (t : OhlcTick F) (a : Account F) (o : Order F) :
    traderAfter T init (pre ++ [.orderRow t a o]) = traderAfter T init pre := by simp [traderAfter]

@[simp] theorem traderAfter_traderRow (pre : List (Event F)) (s : String) :
    traderAfter T init (pre ++ [.traderRow s]) = traderAfter T init pre := by simp [traderAfter]

/-- The trace of `execOrders`, in closed form for one order. -/
theorem execOrders_cons (log : Bool) (c : AccountConfig F) (t : OhlcTick F) (o : Order F) (rest : List (Order F))
    (a : Account F) (n : ℕ) :
    execOrders log c t (o :: rest) a n =
      match a.executeOrder c o t with
      | .error e => ⟨[.exec t o (.error e)], .error e⟩
      | .ok (true, a') =>
        ⟨(.exec t o (.ok (true, a')) :: (if log then [.orderRow t a' o] else [])) ++
            (execOrders log c t rest a' (n + 1)).trace, (execOrders log c t rest a' (n + 1)).out⟩
      | .ok (false, a') =>
        ⟨[.exec t o (.ok (false, a'))] ++ (execOrders log c t rest a' n).trace, (execOrders log c t rest a' n).out⟩ := by
  conv_lhs => unfold execOrders
  simp only [Run.bind_eq]
  generalize a.executeOrder c o t = r
  match r with
  | .error e => rfl
  | .ok (false, a') => simp [Run.call, Run.andThen]
  | .ok (true, a') => cases log <;> simp [Run.call, Run.andThen, Run.emitIf, Run.emit, Run.ret]

/-- Execution of the standing orders: faithful calls, one attempt per order in order, one row per success. -/
theorem execOrders_spec (log : Bool) (c : AccountConfig F) (t : OhlcTick F) (os : List (Order F)) (a : Account F)
    (n : ℕ) (pre : List (Event F)) (ha : a = accountAfter c pre) :
    AllAt (FaithfulCall c T init) pre (execOrders log c t os a n).trace ∧
    (∀ e ∈ (execOrders log c t os a n).trace,
      (∃ o r, e = .exec t o r) ∨ (log = true ∧ ∃ a' o, e = .orderRow t a' o)) ∧
    standingAfter (pre ++ (execOrders log c t os a n).trace) = standingAfter pre ∧
    traderAfter T init (pre ++ (execOrders log c t os a n).trace) = traderAfter T init pre ∧
    ∀ r, (execOrders log c t os a n).out = .ok r →
      r.1 = accountAfter c (pre ++ (execOrders log c t os a n).trace) ∧
      r.2 = n + (executions (execOrders log c t os a n).trace).length ∧
      attempts (execOrders log c t os a n).trace = os.map (fun o => (t, o)) ∧
      (log = true → orderRows (execOrders log c t os a n).trace = executions (execOrders log c t os a n).trace) := by
  induction os generalizing a n pre with
  | nil =>
    simp only [execOrders, Run.pure_eq, Run.ret, AllAt, List.append_nil, true_and, Except.ok.injEq]
    refine ⟨by simp, ?_⟩
    rintro r rfl
    exact ⟨ha, by simp [executions], by simp [attempts], by simp [orderRows, executions]⟩
  | cons o rest ih =>
    rw [execOrders_cons]
    cases he : a.executeOrder c o t with
    | error e =>
      refine ⟨⟨?_, trivial⟩, by simp, by simp, by simp, fun r hr => (by cases hr)⟩
      simp only [FaithfulCall]
      rw [← ha, he]
    | ok p =>
      obtain ⟨b, a'⟩ := p
      cases b with
      | false =>
        obtain ⟨h1, h2, h3, h4, h5⟩ := ih a' n (pre ++ [.exec t o (.ok (false, a'))]) (by simp)
        dsimp only
        refine ⟨⟨?_, ?_⟩, ?_, ?_, ?_, ?_⟩
        · simp only [FaithfulCall]; rw [← ha, he]
        · exact h1
        · intro e hmem
          rcases List.mem_append.mp hmem with hm | hm
          · exact Or.inl ⟨o, _, by simpa using hm⟩
          · exact h2 e hm
        · rw [← List.append_assoc, h3]; simp
        · rw [← List.append_assoc, h4]; simp
        · intro r hr
          obtain ⟨g1, g2, g3, g4⟩ := h5 r hr
          refine ⟨by rw [← List.append_assoc]; exact g1, ?_, ?_, fun hl => ?_⟩
          · rw [g2]; simp [executions]
          · simp only [attempts] at g3 ⊢; simp [g3]
          · have := g4 hl
            simp only [orderRows, executions] at this ⊢
            simp [this]
      | true =>
        dsimp only
        cases log with
        | false =>
          obtain ⟨h1, h2, h3, h4, h5⟩ := ih a' (n + 1) (pre ++ [.exec t o (.ok (true, a'))]) (by simp)
          rw [if_neg (by simp)]
          refine ⟨⟨?_, ?_⟩, ?_, ?_, ?_, ?_⟩
          · simp only [FaithfulCall]; rw [← ha, he]
          · exact h1
          · intro e hmem
            rcases List.mem_append.mp hmem with hm | hm
            · exact Or.inl ⟨o, _, by simpa using hm⟩
            · exact h2 e hm
          · rw [← List.append_assoc, h3]; simp
          · rw [← List.append_assoc, h4]; simp
          · intro r hr
            obtain ⟨g1, g2, g3, g4⟩ := h5 r hr
            refine ⟨by rw [← List.append_assoc]; exact g1, ?_, ?_, fun hl => (by cases hl)⟩
            · rw [g2]; simp [executions]; omega
            · simp only [attempts] at g3 ⊢; simp [g3]
        | true =>
          obtain ⟨h1, h2, h3, h4, h5⟩ :=
            ih a' (n + 1) ((pre ++ [.exec t o (.ok (true, a'))]) ++ [.orderRow t a' o])
              (by rw [accountAfter_orderRow, accountAfter_exec])
          rw [if_pos rfl]
          have hass : ∀ x : List (Event F), pre ++ ([.exec t o (.ok (true, a')), .orderRow t a' o] ++ x) =
              pre ++ [.exec t o (.ok (true, a'))] ++ [.orderRow t a' o] ++ x := by intro x; simp
          refine ⟨⟨?_, ?_, ?_⟩, ?_, ?_, ?_, ?_⟩
          · simp only [FaithfulCall]; rw [← ha, he]
          · simp [FaithfulCall]
          · exact h1
          · intro e hmem
            rcases List.mem_append.mp hmem with hm | hm
            · rw [List.mem_cons, List.mem_singleton] at hm
              rcases hm with rfl | rfl
              · exact Or.inl ⟨o, _, rfl⟩
              · exact Or.inr ⟨rfl, _, _, rfl⟩
            · exact h2 e hm
          · rw [hass, h3, standingAfter_orderRow, standingAfter_exec]
          · rw [hass, h4, traderAfter_orderRow, traderAfter_exec]
          · intro r hr
            obtain ⟨g1, g2, g3, g4⟩ := h5 r hr
            refine ⟨by rw [hass]; exact g1, ?_, ?_, fun hl => ?_⟩
            · rw [g2]; simp [executions]; omega
            · simp only [attempts] at g3 ⊢; simp [g3]
            · have := g4 hl
              simp only [orderRows, executions] at this ⊢
              simp [this]

end exec
end Verif
