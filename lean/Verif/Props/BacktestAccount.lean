import Verif.Props.Score
import Verif.Props.Account

/-!
# C74: the account of a back-test is an order history, so all account properties carry over
-/

set_option linter.unusedSectionVars false

namespace Verif.Props
open FloatOps Spec Time

section general
variable {F D : Type} [FloatOps F] [FloatOps D] [Wide F D] [Libm F] [Libm D]

/-- No call of `ExecuteOrder` in the trace aborted. -/
def NoAbortedExec (tr : List (Event F)) : Prop := ∀ t o e, Event.exec t o (.error e) ∉ tr

/-- A computation that returns has no aborted call of `ExecuteOrder` in its trace. -/
def CleanRun {α : Type} (x : Run (Event F) α) : Prop := ∀ a, x.out = .ok a → NoAbortedExec x.trace

theorem clean_andThen {α β : Type} {x : Run (Event F) α} {f : α → Run (Event F) β} (hx : CleanRun x)
    (hf : ∀ a, CleanRun (f a)) : CleanRun (x.andThen f) := by
  intro b hb
  cases h : x.out with
  | error e => rw [Run.andThen_error h] at hb; cases hb
  | ok a =>
    rw [Run.andThen_ok h] at hb ⊢
    intro t o e hm
    rcases List.mem_append.mp hm with hm | hm
    · exact hx a h t o e hm
    · exact hf a b hb t o e hm

theorem clean_silent {α : Type} {x : Run (Event F) α} (h : x.trace = []) : CleanRun x := by
  intro a _ t o e hm
  rw [h] at hm; cases hm

theorem clean_emitIf (b : Bool) (ev : Event F) (h : ∀ t o e, ev ≠ .exec t o (.error e)) :
    CleanRun (Run.emitIf b ev) := by
  intro a _ t o e hm
  cases b
  · cases hm
  · exact h t o e (List.mem_singleton.mp hm).symm

theorem clean_execOrders (log : Bool) (c : AccountConfig F) (t : OhlcTick F) (os : List (Order F)) (a : Account F)
    (n : ℕ) : CleanRun (execOrders log c t os a n) := by
  induction os generalizing a n with
  | nil => exact clean_silent rfl
  | cons o os ih =>
    unfold execOrders
    simp only [Run.bind_eq]
    apply clean_andThen
    · intro r hr t' o' e hm
      rw [show (Run.call (Event.exec t o) (a.executeOrder c o t)).out = a.executeOrder c o t from rfl] at hr
      rw [show (Run.call (Event.exec t o) (a.executeOrder c o t)).trace = [.exec t o (a.executeOrder c o t)] from rfl,
        hr] at hm
      have := List.mem_singleton.mp hm
      cases this
    · intro r
      split
      · exact clean_andThen (clean_emitIf _ _ (by intro _ _ _ h; cases h)) (fun _ => ih _ _)
      · exact ih _ _

theorem clean_tickStep (c : AccountConfig F) (side : Option (SideInput F)) (T : Trader F) (fast log : Bool)
    (s : ExecState F T.State) (t : OhlcTick F) : CleanRun (tickStep c side T fast log s t) := by
  unfold tickStep
  simp only [Run.bind_eq]
  refine clean_andThen (clean_silent rfl) (fun sg => ?_)
  refine clean_andThen (clean_emitIf _ _ (by intro _ _ _ h; cases h)) (fun _ => ?_)
  refine clean_andThen (clean_execOrders _ _ _ _ _ _) (fun r => ?_)
  split
  · exact clean_silent rfl
  · unfold traderStep
    simp only [Run.bind_eq]
    refine clean_andThen ?_ (fun r => ?_)
    · intro r _ t' o' e hm
      have := List.mem_singleton.mp hm
      cases this
    · refine clean_andThen (clean_emitIf _ _ (by intro _ _ _ h; cases h)) (fun _ => ?_)
      split
      · exact clean_silent rfl
      · refine clean_andThen (clean_silent rfl) (fun _ => clean_andThen (clean_silent rfl) (fun _ => clean_silent rfl))

theorem clean_execLoop (c : AccountConfig F) (ticks : List (OhlcTick F)) (side : Option (SideInput F))
    (fast : Bool) (T : Trader F) (init : T.State) (log : Bool) : CleanRun (execLoop c ticks side fast T init log) := by
  unfold execLoop
  generalize execStart c T init = s
  induction ticks generalizing s with
  | nil => exact clean_silent rfl
  | cons t ticks ih =>
    rw [List.foldlM_cons]
    exact clean_andThen (clean_tickStep _ _ _ _ _ _ _) (fun s => ih s)

theorem runOrders_snoc (c : AccountConfig F) (l : List (Order F × OhlcTick F)) (o : Order F) (t : OhlcTick F)
    (a : Account F) :
    runOrders c a (l ++ [(o, t)]) = (runOrders c a l).bind (fun a' => (a'.executeOrder c o t).map (·.2)) := by
  induction l generalizing a with
  | nil =>
    simp only [List.nil_append, runOrders]
    show _ = (a.executeOrder c o t).map (·.2)
    cases a.executeOrder c o t <;> rfl
  | cons x l ih =>
    obtain ⟨o', t'⟩ := x
    simp only [List.cons_append, runOrders]
    cases h : a.executeOrder c o' t' with
    | error e => rfl
    | ok r => exact ih r.2

/-- **C74**. In a back-test, at every moment at which no order execution has aborted, the account is exactly the one
obtained from the configured account by executing, one after the other, the orders attempted so far on the ticks they
were attempted on. -/
theorem C74_account_is_order_history {recs : Option (List (SideInputRecord F))} {side : Option (SideInput F)}
    (hside : SideOf recs side) (c : AccountConfig F) (ticks : List (OhlcTick F)) (fast : Bool) (T : Trader F)
    (init : T.State) (log : Bool) (before after : List (Event F))
    (htr : (executeTrader c ticks side fast T init log).trace = before ++ after)
    (hok : ∀ t o e, Event.exec t o (.error e) ∉ before) :
    runOrders c (Account.init c) ((attempts before).map (fun x => (x.2, x.1))) = .ok (accountAfter c before) := by
  have hstory := C32_story hside c ticks fast T init log
  rw [htr] at hstory
  clear htr
  induction before using List.reverseRecOn generalizing after with
  | nil => rfl
  | append_singleton l ev ih =>
    have ih := ih (ev :: after) (fun t o e h => hok t o e (by simp [h])) (by simpa using hstory)
    have hev := hstory l ev after (by simp)
    cases ev with
    | exec t o r =>
      rw [show attempts (l ++ [Event.exec t o r]) = attempts l ++ [(t, o)] by simp [attempts], List.map_append]
      simp only [List.map_cons, List.map_nil]
      rw [runOrders_snoc, ih]
      have hev : r = (accountAfter c l).executeOrder c o t := hev
      cases r with
      | error e => exact absurd (by simp) (hok t o e)
      | ok x =>
        rw [accountAfter_exec]
        show (Account.executeOrder (accountAfter c l) c o t).map (·.2) = _
        rw [← hev]; rfl
    | update t sg b q r =>
      rw [accountAfter_update]; simpa [attempts] using ih
    | tickRow t a => rw [accountAfter_tickRow]; simpa [attempts] using ih
    | orderRow t a o => rw [accountAfter_orderRow]; simpa [attempts] using ih
    | traderRow s => rw [accountAfter_traderRow]; simpa [attempts] using ih

/-- **C74** (completed runs). The final balances and fee of a completed back-test are those of the order history it
attempted; in particular the properties C01-C14 of order histories hold for it. -/
theorem C74_final {recs : Option (List (SideInputRecord F))} {side : Option (SideInput F)}
    (hside : SideOf recs side) (c : AccountConfig F) (ticks : List (OhlcTick F)) (hne : ticks ≠ []) (fast : Bool)
    (T : Trader F) (init : T.State) (log : Bool) {r : ExecutionResult F}
    (hr : (executeTrader c ticks side fast T init log).out = .ok r) :
    ∃ a, runOrders c (Account.init c)
        ((attempts (executeTrader c ticks side fast T init log).trace).map (fun x => (x.2, x.1))) = .ok a ∧
      r.endBase = a.baseBalance ∧ r.endQuote = a.quoteBalance ∧ r.totalFee = a.totalFee := by
  have hclean : NoAbortedExec (executeTrader c ticks side fast T init log).trace := by
    rw [executeTrader_trace]
    rw [executeTrader_eq _ _ _ _ _ _ _ hne] at hr
    dsimp only at hr
    cases hx : (execLoop c ticks side fast T init log).out with
    | error e => rw [hx] at hr; cases hr
    | ok s => exact clean_execLoop _ _ _ _ _ _ _ s hx
  obtain ⟨_, _, h3, h4, h5, _⟩ := C33_result hside c ticks hne fast T init log hr
  exact ⟨_, C74_account_is_order_history hside c ticks fast T init log _ [] (by simp) hclean, h3, h4, h5⟩

/-- **C74** (balances). No back-test ends with a negative balance, for exact and for binary32 arithmetic, whatever the
trader does. -/
theorem C74_balances_never_negative [SignLaws F] {recs : Option (List (SideInputRecord F))}
    {side : Option (SideInput F)}
    (hside : SideOf recs side) (c : AccountConfig F) (ticks : List (OhlcTick F)) (hne : ticks ≠ []) (fast : Bool)
    (T : Trader F) (init : T.State) (log : Bool) {r : ExecutionResult F}
    (hr : (executeTrader c ticks side fast T init log).out = .ok r)
    (hu : (lit F 0 <=. c.baseUnit) = true) (hq : (lit F 0 <=. c.quoteUnit) = true)
    (hb : NotBelowZero c.startBase) (hqb : NotBelowZero c.startQuote) :
    NotBelowZero r.endBase ∧ NotBelowZero r.endQuote := by
  obtain ⟨a, ha, h1, h2, _⟩ := C74_final hside c ticks hne fast T init log hr
  rw [h1, h2]
  exact C02_balances_never_negative c _ _ _ hu hq hb hqb ha

end general

/-- **C74** (values, exact arithmetic). With non-negative units and starting balances, every reported period of an
evaluation has non-negative end value and gain, so that the summary of an evaluation never aborts: an evaluation over
`m > 0` months in which every back-test with ticks goes well returns a result. -/
theorem C74_evaluation_returns {K : Type} [Field K] [LinearOrder K] [IsStrictOrderedRing K] [FloorRing K] [Libm K]
    {recs : Option (List (SideInputRecord K))} (i : EvalInputs K)
    (hside : SideOf recs i.side) (hs : SortedBy OhlcTick.ts i.history) (hm : 0 < i.cfg.months)
    (hsm : SmallMonths i.cfg.months) (hlen : i.cfg.stop - i.cfg.start ≤ 28 * 86400 * (2 ^ 31 - 14)) (log : Bool)
    (hu : 0 ≤ i.account.baseUnit) (hq : 0 ≤ i.account.quoteUnit) (hb : 0 ≤ i.account.startBase)
    (hqb : 0 ≤ i.account.startQuote)
    (hgood : ∀ k, windowStop i.cfg k ≤ i.cfg.stop →
      windowTicks i.history (windowStart i.cfg k) (windowStop i.cfg k) ≠ [] →
      ∃ p, IsPeriod i (windowStart i.cfg k) (windowStop i.cfg k) p) :
    ∃ r, (evaluateTrader i log).out = .ok r ∧ (∀ p ∈ r.periods, 0 ≤ p.result.endValue ∧ 0 ≤ p.finalGain) := by
  have hval : ∀ p a b, IsPeriod i a b p → windowTicks i.history a b ≠ [] → 0 ≤ p.result.endValue := by
    intro p a b hP hne
    have h1 := C74_balances_never_negative hside _ _ hne _ _ _ _ hP.result (by simpa [lit] using hu)
      (by simpa [lit] using hq) (by simpa [NotBelowZero, lit] using hb) (by simpa [NotBelowZero, lit] using hqb)
    obtain ⟨_, _, _, _, _, _, _, _, r9, _⟩ := C33_result hside _ _ hne _ _ _ _ hP.result
    have h3 := hP.endPrice
    simp only [ex_lt, lit, ex_ofRat, Rat.cast_zero, decide_eq_true_eq, NotBelowZero, decide_eq_false_iff_not,
      not_lt] at h1 h3
    rw [r9]
    simp only [ex_add, ex_mul]
    have := h1.1; have := h1.2
    positivity
  obtain ⟨n, hK, h⟩ := C36_terminates i hs hm hsm hlen log
  rcases h with ⟨k, e, hk, hbusy, hf, _⟩ | ⟨ps, h1, h2⟩
  · exfalso
    obtain ⟨p, hp⟩ := hgood k ((hK k).mp hk) hbusy
    rcases hf with hf | ⟨r, hr, _, hn⟩
    · rw [hp.result] at hf; cases hf
    · rw [hp.result] at hr; cases hr
      exact hn ⟨hp.startValue, hp.startPrice, hp.endPrice⟩
  · have hmem : ∀ p ∈ ps, ∃ a b, IsPeriod i a b p ∧ windowTicks i.history a b ≠ [] := by
      generalize hks : (List.range n).filter
        (fun k => !(windowTicks i.history (windowStart i.cfg k) (windowStop i.cfg k)).isEmpty) = ks at h1
      have hne : ∀ k ∈ ks, windowTicks i.history (windowStart i.cfg k) (windowStop i.cfg k) ≠ [] := by
        intro k hk he
        rw [← hks, List.mem_filter, he] at hk
        simp at hk
      clear hks h2
      induction h1 with
      | nil => intro p hp; cases hp
      | cons h _ ih =>
        intro p hp
        rcases List.mem_cons.mp hp with rfl | hp
        · exact ⟨_, _, h, hne _ (by simp)⟩
        · exact ih (fun k hk => hne k (by simp [hk])) p hp
    obtain ⟨r, hr, hps⟩ := C36_summary_exact i ps (fun p hp => by
      obtain ⟨a, b, hP, hne⟩ := hmem p hp
      exact ⟨a, b, hP, hval p a b hP hne⟩)
    refine ⟨r, by rw [h2, hr], fun p hp => ?_⟩
    rw [hps] at hp
    obtain ⟨a, b, hP, hne⟩ := hmem p hp
    have hv := hval p a b hP hne
    refine ⟨hv, ?_⟩
    rw [hP.finalGain]
    have := hP.startValue
    simp only [ex_lt, lit, ex_ofRat, Rat.cast_zero, decide_eq_true_eq] at this
    exact div_nonneg hv this.le

/-! ## Non-vacuity -/

section examples
attribute [local instance] evLibm

/-- The example evaluation (windows of one month, two of them with ticks) meets the hypotheses. -/
example : ∃ r, (evaluateTrader evInputs true).out = .ok r := by
  obtain ⟨r, hr, _⟩ := C74_evaluation_returns evInputs .none (by unfold SortedBy evInputs evTicks; decide +kernel)
    (by decide) (by unfold SmallMonths; decide) (by decide) true (by decide +kernel) (by decide +kernel)
    (by decide +kernel) (by decide +kernel) (fun k hk hne => by
      have hk := (evWindows k).mpr hk
      have : k = 0 ∨ k = 1 ∨ k = 2 := by omega
      rcases this with rfl | rfl | rfl
      · refine ⟨evPeriods[0], ?_⟩
        constructor <;> decide +kernel
      · exact absurd (by decide +kernel) hne
      · refine ⟨evPeriods[1], ?_⟩
        constructor <;> decide +kernel)
  exact ⟨r, hr⟩

/-- The example run attempts three orders (one order, kept over two zero-volume ticks). -/
example : (attempts (executeTrader btCfg btTicks none true btTrader (0 : ℕ) false).trace).length = 3 := by
  decide +kernel

end examples
end Verif.Props
