import Verif.Props.Score
import Verif.Props.BacktestAccount

/-!
# C125: the score ranks traders by their compounded gain
-/

namespace Verif.Props.Ranking
open Verif FloatOps Spec Verif.Props

section general
variable {F D : Type} [FloatOps F] [FloatOps D] [Wide F D] [Libm F] [Libm D]

/-- The executions of two evaluations in one period: the same ticks, and sane values. -/
structure SamePeriod (i j : EvalInputs F) (p q : Period F) : Prop where
  start : p.start = q.start
  stop : p.stop = q.stop
  runs : ∃ ticks log₁ log₂, ticks ≠ [] ∧ (executeTrader (D := D) i.account ticks i.side i.cfg.fast i.emitter.trader i.emitter.init log₁).out = .ok p.result ∧
    (executeTrader (D := D) j.account ticks j.side j.cfg.fast j.emitter.trader j.emitter.init log₂).out = .ok q.result
  values : (p.result.startValue >. lit F 0) = true ∧ (q.result.startValue >. lit F 0) = true
  prices : (p.result.startPrice >. lit F 0) = true ∧ (p.result.endPrice >. lit F 0) = true
  startPrice : p.result.startPrice = q.result.startPrice
  endPrice : p.result.endPrice = q.result.endPrice
  gains : p.finalGain = p.result.endValue /. p.result.startValue ∧ q.finalGain = q.result.endValue /. q.result.startValue
  baseGains : p.baseFinalGain = p.result.endPrice /. p.result.startPrice ∧ q.baseFinalGain = p.baseFinalGain

theorem prices_of_run {c : AccountConfig F} {ticks : List (OhlcTick F)} (hne : ticks ≠ []) {side : Option (SideInput F)} {fast : Bool} {T : Trader F}
    {init : T.State} {log : Bool} {r : ExecutionResult F} (h : (executeTrader (D := D) c ticks side fast T init log).out = .ok r) :
    r.startPrice = (ticks.head hne).close ∧ r.endPrice = (ticks.getLast hne).close := by
  rw [executeTrader_eq _ _ _ _ _ _ _ hne] at h
  dsimp only at h
  cases hx : (execLoop c ticks side fast T init log).out with
  | error e => rw [hx] at h; cases h
  | ok s => rw [hx] at h; cases h; exact ⟨rfl, rfl⟩

theorem andThen_out {E α β : Type} {x : Run E α} {f : α → Run E β} {b : β} (h : (x >>= f).out = .ok b) :
    ∃ a, x.out = .ok a ∧ (f a).out = .ok b := by
  rw [Run.bind_eq] at h
  cases hx : x.out with
  | error e => rw [Run.andThen_error hx] at h; cases h
  | ok a => rw [Run.andThen_ok hx] at h; exact ⟨a, rfl, h⟩

theorem assert_out {E : Type} {b : Bool} {u : Unit} (h : (Run.lift (E := E) (assertThat b)).out = .ok u) : b = true := by
  cases b with
  | true => rfl
  | false => cases h

theorem subset_ne {l : List (OhlcTick F)} {a b : ℕ} (ha : a < b) (hb : b ≤ l.length) : (l.drop a).take (b - a) ≠ [] := by
  intro e
  have := congrArg List.length e
  simp at this
  omega

theorem partition_le (p : ℕ → Bool) (len : ℕ) : ∀ first, (partitionLoop p first len).1 ≤ first + len := by
  induction len using Nat.strong_induction_on with
  | _ len ih =>
    intro first
    rcases Nat.eq_zero_or_pos len with rfl | h
    · rw [partitionLoop_zero]; exact le_rfl
    · cases hp : p (first + len / 2) with
      | true =>
        rw [partitionLoop_true p first len h.ne' hp]
        have := ih (len - len / 2 - 1) (by omega) (first + len / 2 + 1)
        simp only
        omega
      | false =>
        rw [partitionLoop_false p first len h.ne' hp]
        have := ih (len / 2) (by omega) first
        simp only
        omega

theorem subset_le (l : List (OhlcTick F)) (a b : ℤ) : (historySubset OhlcTick.ts l a b).2 ≤ l.length := by
  unfold historySubset lowerBound
  dsimp only
  split
  · simpa using partition_le (recordBefore OhlcTick.ts l b) l.length 0
  · exact le_rfl

/-- One round of the loop for two evaluations. -/
theorem round_same {i j : EvalInputs F} (hc : i.cfg = j.cfg) (hh : i.history = j.history) {log₁ log₂ : Bool} {o : ℤ} {ps qs : List (Period F)}
    (hp : List.Forall₂ (SamePeriod (D := D) i j) ps qs) {x y : Bool × List (Period F)}
    (hx : (evalRound (D := D) i log₁ o ps).out = .ok x) (hy : (evalRound (D := D) j log₂ o qs).out = .ok y) :
    x.1 = y.1 ∧ List.Forall₂ (SamePeriod (D := D) i j) x.2 y.2 := by
  unfold evalRound at hx hy
  rw [← hc, ← hh] at hy
  obtain ⟨a, ha, hx⟩ := andThen_out hx
  obtain ⟨a', ha', hy⟩ := andThen_out hy
  have e : a = a' := by have := ha.symm.trans ha'; cases this; rfl
  subst e
  obtain ⟨b, hb, hx⟩ := andThen_out hx
  obtain ⟨b', hb', hy⟩ := andThen_out hy
  have e : b = b' := by have := hb.symm.trans hb'; cases this; rfl
  subst e
  split at hx
  · rename_i hgt
    rw [if_pos hgt] at hy
    cases hx; cases hy
    exact ⟨rfl, hp⟩
  rename_i hgt
  rw [if_neg hgt] at hy
  dsimp only at hx hy
  split at hx
  · rename_i heq
    rw [if_pos heq] at hy
    cases hx; cases hy
    exact ⟨rfl, hp⟩
  rename_i heq
  rw [if_neg heq] at hy
  split at hx
  · cases hx
  rename_i hlt
  rw [if_neg hlt] at hy
  obtain ⟨r, hr, hx⟩ := andThen_out hx
  obtain ⟨r', hr', hy⟩ := andThen_out hy
  obtain ⟨_, h1, hx⟩ := andThen_out hx
  obtain ⟨_, h1', hy⟩ := andThen_out hy
  obtain ⟨_, h2, hx⟩ := andThen_out hx
  obtain ⟨_, h2', hy⟩ := andThen_out hy
  cases hx; cases hy
  have hne := subset_ne (l := i.history) (show (historySubset OhlcTick.ts i.history a b).1 < (historySubset OhlcTick.ts i.history a b).2 by omega)
    (subset_le _ _ _)
  obtain ⟨p1, p2⟩ := prices_of_run hne hr
  obtain ⟨q1, q2⟩ := prices_of_run hne hr'
  have h2 := assert_out h2
  rw [Bool.and_eq_true] at h2
  refine ⟨rfl, List.rel_append hp (.cons ⟨rfl, rfl, ⟨_, log₁, log₂, hne, hr, ?_⟩, ⟨assert_out h1, assert_out h1'⟩, h2, ?_, ?_, ⟨rfl, rfl⟩, rfl, ?_⟩ .nil)⟩
  · rw [← hc]; exact hr'
  · exact p1.trans q1.symm
  · exact p2.trans q2.symm
  · show r'.endPrice /. r'.startPrice = r.endPrice /. r.startPrice
    rw [p1, p2, q1, q2]

theorem loop_same {i j : EvalInputs F} (hc : i.cfg = j.cfg) (hh : i.history = j.history) {log₁ log₂ : Bool} (n : ℕ) :
    ∀ {o : ℤ} {ps qs ps' qs' : List (Period F)}, List.Forall₂ (SamePeriod (D := D) i j) ps qs →
    (evalLoop (D := D) i log₁ n o ps).out = .ok ps' → (evalLoop (D := D) j log₂ n o qs).out = .ok qs' →
    List.Forall₂ (SamePeriod (D := D) i j) ps' qs' := by
  induction n with
  | zero => intro o ps qs ps' qs' _ hx; cases hx
  | succ n ih =>
    intro o ps qs ps' qs' hp hx hy
    unfold evalLoop at hx hy
    obtain ⟨x, h1, hx⟩ := andThen_out hx
    obtain ⟨y, h2, hy⟩ := andThen_out hy
    obtain ⟨he, hq⟩ := round_same hc hh hp h1 h2
    rw [← he] at hy
    split at hx
    · rename_i ht
      rw [if_pos ht] at hy
      exact ih hq hx hy
    · rename_i ht
      rw [if_neg ht] at hy
      cases hx; cases hy
      exact hq

/-- **C125** (comparable). Two evaluations over the same history with the same evaluation configuration, of any two traders, with any two accounts: the same
periods in the same order, and in each of them the same first and last price and the same gain of the benchmark; so the same average benchmark. -/
theorem C125_same_periods {i j : EvalInputs F} (hc : i.cfg = j.cfg) (hh : i.history = j.history) (log₁ log₂ : Bool) {r s : EvaluationResult F}
    (hr : (evaluateTrader (D := D) i log₁).out = .ok r) (hs : (evaluateTrader (D := D) j log₂).out = .ok s) :
    List.Forall₂ (SamePeriod (D := D) i j) r.periods s.periods ∧ r.avgBaseGain = s.avgBaseGain := by
  rw [evaluateTrader_out] at hr hs
  cases h1 : (evalLoop (D := D) i log₁ (2 ^ 31) 0 []).out with
  | error e => rw [h1] at hr; cases hr
  | ok ps =>
    cases h2 : (evalLoop (D := D) j log₂ (2 ^ 31) 0 []).out with
    | error e => rw [h2] at hs; cases hs
    | ok qs =>
      rw [h1] at hr
      rw [h2] at hs
      have h := loop_same hc hh (2 ^ 31) .nil h1 h2
      have e1 := (summarise_fields i (show summarise i ps = .ok r from hr)).2.2.2
      have e2 := (summarise_fields j (show summarise j qs = .ok s from hs)).2.2.2
      rw [e1, e2]
      refine ⟨h, ?_⟩
      have a1 : r.avgBaseGain = getAverage ps (fun p => p.baseFinalGain) := by
        have hr : summarise (D := D) i ps = .ok r := hr
        unfold summarise at hr
        simp only [bind, Except.bind, pure, Except.pure] at hr
        split at hr
        · cases hr
        · cases hr; rfl
      have a2 : s.avgBaseGain = getAverage qs (fun p => p.baseFinalGain) := by
        have hs : summarise (D := D) j qs = .ok s := hs
        unfold summarise at hs
        simp only [bind, Except.bind, pure, Except.pure] at hs
        split at hs
        · cases hs
        · cases hs; rfl
      have e : ps.map (fun p => p.baseFinalGain) = qs.map (fun p => p.baseFinalGain) := by
        clear e1 e2 a1 a2 h1 h2 hr hs
        induction h with
        | nil => rfl
        | cons h _ ih => rw [List.map_cons, List.map_cons, ih, h.baseGains.2]
      have g : ∀ l : List (Period F), getAverage l (fun p => p.baseFinalGain) = getAverage (l.map fun p => p.baseFinalGain) id := by
        intro l
        cases l with
        | nil => rfl
        | cons x l => simp only [getAverage, List.map_cons, List.isEmpty_cons, List.length_cons, List.length_map, List.foldl_cons, List.foldl_map, id]
      rw [a1, a2, g, g, e]

end general

/-! ## The ranking, in exact arithmetic -/

section real

/-- Non-negative units and starting balances. -/
structure Solvent (c : AccountConfig ℝ) : Prop where
  baseUnit : 0 ≤ c.baseUnit
  quoteUnit : 0 ≤ c.quoteUnit
  startBase : 0 ≤ c.startBase
  startQuote : 0 ≤ c.startQuote

theorem gain_nonneg {recs : Option (List (SideInputRecord ℝ))} {c : AccountConfig ℝ} (hc : Solvent c) {ticks : List (OhlcTick ℝ)} (hne : ticks ≠ [])
    {side : Option (SideInput ℝ)} (hside : SideOf recs side) {fast : Bool} {T : Trader ℝ} {init : T.State} {log : Bool} {r : ExecutionResult ℝ}
    (h : (executeTrader c ticks side fast T init log).out = .ok r) (hv : 0 < r.startValue) (hp : 0 < r.endPrice) : 0 ≤ r.endValue / r.startValue := by
  have h1 := C74_balances_never_negative hside _ _ hne _ _ _ _ h (by simpa [lit] using hc.baseUnit)
    (by simpa [lit] using hc.quoteUnit) (by simpa [NotBelowZero, lit] using hc.startBase) (by simpa [NotBelowZero, lit] using hc.startQuote)
  obtain ⟨_, _, _, _, _, _, _, _, r9, _⟩ := C33_result hside _ _ hne _ _ _ _ h
  simp only [ex_lt, lit, ex_ofRat, Rat.cast_zero, NotBelowZero, decide_eq_false_iff_not, not_lt] at h1
  rw [r9, ex_add, ex_mul]
  exact div_nonneg (add_nonneg h1.2 (mul_nonneg hp.le h1.1)) hv.le

/-- In every period the gains are not negative, and the benchmarks agree and are positive. -/
theorem periods_sane {recs₁ recs₂ : Option (List (SideInputRecord ℝ))} {i j : EvalInputs ℝ} (ci : Solvent i.account) (cj : Solvent j.account)
    (si : SideOf recs₁ i.side) (sj : SideOf recs₂ j.side) {ps qs : List (Period ℝ)} (h : List.Forall₂ (SamePeriod (D := ℝ) i j) ps qs) :
    List.Forall₂ (fun p q : Period ℝ => 0 ≤ p.finalGain ∧ 0 ≤ q.finalGain ∧ 0 < p.baseFinalGain ∧ q.baseFinalGain = p.baseFinalGain) ps qs := by
  refine h.imp fun p q h => ?_
  obtain ⟨ticks, l1, l2, hne, r1, r2⟩ := h.runs
  have v := h.values
  have pr := h.prices
  simp only [ex_lt, lit, ex_ofRat, Rat.cast_zero, decide_eq_true_eq] at v pr
  refine ⟨?_, ?_, ?_, h.baseGains.2⟩
  · rw [h.gains.1]
    exact gain_nonneg ci hne si r1 v.1 pr.2
  · rw [h.gains.2]
    exact gain_nonneg cj hne sj r2 v.2 (h.endPrice ▸ pr.2)
  · rw [h.baseGains.1]
    exact div_pos pr.2 pr.1

/-- The compounded gain of an evaluation: the product of the gains of its periods. -/
noncomputable def compounded (r : EvaluationResult ℝ) : ℝ := (r.periods.map fun p => p.finalGain).prod

theorem products {ps qs : List (Period ℝ)}
    (h : List.Forall₂ (fun p q : Period ℝ => 0 ≤ p.finalGain ∧ 0 ≤ q.finalGain ∧ 0 < p.baseFinalGain ∧ q.baseFinalGain = p.baseFinalGain) ps qs) :
    ∃ B : ℝ, 0 < B ∧ (ps.map fun p => p.finalGain / p.baseFinalGain).prod = (ps.map fun p => p.finalGain).prod / B ∧
      (qs.map fun p => p.finalGain / p.baseFinalGain).prod = (qs.map fun p => p.finalGain).prod / B ∧
      0 ≤ (ps.map fun p => p.finalGain).prod ∧ 0 ≤ (qs.map fun p => p.finalGain).prod := by
  induction h with
  | nil => exact ⟨1, one_pos, by simp⟩
  | cons h _ ih =>
    obtain ⟨B, hB, e1, e2, n1, n2⟩ := ih
    obtain ⟨a, b, c, d⟩ := h
    refine ⟨_, mul_pos c hB, ?_, ?_, ?_, ?_⟩
    · rw [List.map_cons, List.map_cons, List.prod_cons, List.prod_cons, e1, div_mul_div_comm]
    · rw [List.map_cons, List.map_cons, List.prod_cons, List.prod_cons, e2, d, div_mul_div_comm]
    · rw [List.map_cons, List.prod_cons]; exact mul_nonneg a n1
    · rw [List.map_cons, List.prod_cons]; exact mul_nonneg b n2

/-- **C125** (ranking). The trader with the higher score is the one with the higher compounded gain, whatever the benchmark did. -/
theorem C125_ranking {recs₁ recs₂ : Option (List (SideInputRecord ℝ))} {i j : EvalInputs ℝ} (hc : i.cfg = j.cfg) (hh : i.history = j.history)
    (ci : Solvent i.account) (cj : Solvent j.account) (si : SideOf recs₁ i.side) (sj : SideOf recs₂ j.side) (log₁ log₂ : Bool)
    {r s : EvaluationResult ℝ} (hr : (evaluateTrader i log₁).out = .ok r) (hs : (evaluateTrader j log₂).out = .ok s) (hne : r.periods ≠ []) :
    (r.score ≤ s.score ↔ compounded r ≤ compounded s) ∧ (r.score < s.score ↔ compounded r < compounded s) ∧
    (0 < s.score → r.score / s.score = (compounded r / compounded s) ^ (1 / (r.periods.length : ℝ))) := by
  obtain ⟨h, -⟩ := C125_same_periods hc hh log₁ log₂ hr hs
  have hne' : s.periods ≠ [] := by
    intro e
    rw [e] at h
    cases hp : r.periods with
    | nil => exact hne hp
    | cons p ps => rw [hp] at h; cases h
  obtain ⟨B, hB, e1, e2, n1, n2⟩ := products (periods_sane ci cj si sj h)
  have m1 := (C38_means i log₁ hr hne).1
  have m2 := (C38_means j log₂ hs hne').1
  have hn : 0 < 1 / (r.periods.length : ℝ) := by
    have : (0 : ℝ) < r.periods.length := by exact_mod_cast List.length_pos_of_ne_nil hne
    positivity
  rw [e1] at m1
  rw [e2, ← h.length_eq] at m2
  rw [m1, m2]
  have d1 := div_nonneg n1 hB.le
  have d2 := div_nonneg n2 hB.le
  refine ⟨?_, ?_, fun hpos => ?_⟩
  · rw [Real.rpow_le_rpow_iff d1 d2 hn, div_le_div_iff_of_pos_right hB]; rfl
  · rw [Real.rpow_lt_rpow_iff d1 d2 hn, div_lt_div_iff_of_pos_right hB]; rfl
  · rw [← Real.div_rpow d1 d2, div_div_div_cancel_right₀ hB.ne']; rfl

/-- **C125** (dominance). A trader that gains at least as much as another one in every period has at least its score and its average gain. -/
theorem C125_dominance {recs₁ recs₂ : Option (List (SideInputRecord ℝ))} {i j : EvalInputs ℝ} (hc : i.cfg = j.cfg) (hh : i.history = j.history)
    (ci : Solvent i.account) (cj : Solvent j.account) (si : SideOf recs₁ i.side) (sj : SideOf recs₂ j.side) (log₁ log₂ : Bool)
    {r s : EvaluationResult ℝ} (hr : (evaluateTrader i log₁).out = .ok r) (hs : (evaluateTrader j log₂).out = .ok s) (hne : r.periods ≠ [])
    (hle : List.Forall₂ (fun p q : Period ℝ => p.finalGain ≤ q.finalGain) r.periods s.periods) : r.score ≤ s.score ∧ r.avgGain ≤ s.avgGain := by
  obtain ⟨h, -⟩ := C125_same_periods hc hh log₁ log₂ hr hs
  have hsane := periods_sane ci cj si sj h
  have hne' : s.periods ≠ [] := by
    intro e
    rw [e] at h
    cases hp : r.periods with
    | nil => exact hne hp
    | cons p ps => rw [hp] at h; cases h
  constructor
  · rw [(C125_ranking hc hh ci cj si sj log₁ log₂ hr hs hne).1]
    unfold compounded
    generalize r.periods = ps at hsane hle
    generalize s.periods = qs at hsane hle
    clear h hne hne'
    suffices hx : 0 ≤ (ps.map fun p => p.finalGain).prod ∧ (ps.map fun p => p.finalGain).prod ≤ (qs.map fun p => p.finalGain).prod from hx.2
    induction hsane with
    | nil => simp
    | cons h _ ih =>
      cases hle with
      | cons g gs =>
        obtain ⟨a, b⟩ := ih gs
        rw [List.map_cons, List.map_cons, List.prod_cons, List.prod_cons]
        exact ⟨mul_nonneg h.1 a, mul_le_mul g b a h.2.1⟩
  · rw [(C38_means i log₁ hr hne).2.1, (C38_means j log₂ hs hne').2.1, h.length_eq]
    refine div_le_div_of_nonneg_right ?_ (Nat.cast_nonneg _)
    refine List.Forall₂.sum_le_sum ?_
    rw [List.forall₂_map_left_iff, List.forall₂_map_right_iff]
    exact hle

end real

/-! ## Example: of two traders that never trade, one holds coins and the other one money, while the price rises from 10 to 12 -/

section examples

noncomputable def hold (b q : ℝ) : AccountConfig ℝ := ⟨b, q, 0, 0, ⟨0, 0, 0⟩, ⟨0, 0, 0⟩, ⟨0, 0, 0⟩, 1, 0⟩
def rising : List (OhlcTick ℝ) := [⟨60, 10, 10, 10, 10, 5⟩, ⟨120, 10, 12, 10, 12, 5⟩]
noncomputable def holding (b q : ℝ) : EvalInputs ℝ := ⟨hold b q, ⟨0, 0, 0, true⟩, rising, none, ⟨"idle", scIdle, ()⟩⟩
noncomputable def held (b q : ℝ) : Period ℝ := ⟨0, 0, ⟨b, q, b, q, 10, 12, q + 10 * b, q + 12 * b, 0, 0, 0, 0⟩, (q + 12 * b) / (q + 10 * b), 12 / 10⟩

theorem hold_step (b q : ℝ) (s : ExecState ℝ Unit) (t : OhlcTick ℝ) (ht : t.volume ≠ 0) (ho : s.orders = []) :
    (tickStep (hold b q) none scIdle true false s t).out = .ok s := by
  have hu : ∀ t sg b q, scIdle.update () t sg b q = .ok ((), []) := fun _ _ _ _ => rfl
  cases s
  simp only at ho
  subst ho
  simp [tickStep, sideStep, execOrders, traderStep, Run.bind_eq, Run.pure_eq, Run.andThen, Run.lift, Run.ret,
    Run.emitIf, Run.call, lit, ht, scIdle]

theorem hold_run (b q : ℝ) : (executeTrader (hold b q) rising none true scIdle () false).out =
    .ok ⟨b, q, b, q, 10, 12, q + 10 * b, q + 12 * b, 0, 0, 0, 0⟩ := by
  rw [executeTrader_eq _ _ _ _ _ _ _ (by simp [rising])]
  have h1 := hold_step b q (execStart (hold b q) scIdle ()) ⟨60, 10, 10, 10, 10, 5⟩ (by norm_num) rfl
  have h2 := hold_step b q (execStart (hold b q) scIdle ()) ⟨120, 10, 12, 10, 12, 5⟩ (by norm_num) rfl
  have h3 : (execLoop (hold b q) rising none true scIdle () false).out = .ok (execStart (hold b q) scIdle ()) := by
    unfold execLoop rising
    simp only [List.foldlM_cons, List.foldlM_nil, Run.bind_eq]
    rw [Run.andThen_ok h1, Run.andThen_ok h2]
    rfl
  rw [h3]
  norm_num [Except.map, execResult, execStart, Account.init, hold, lit, rising, roundUnit]

theorem holding_returns {b q : ℝ} (hb : 0 ≤ b) (hq : 0 ≤ q) (h : 0 < q + 10 * b) :
    ∃ r, (evaluateTrader (holding b q) true).out = .ok r ∧ r.periods = [held b q] := by
  have hs : SortedBy OhlcTick.ts (holding b q).history := by unfold SortedBy holding rising; simp
  have hne : windowTicks (holding b q).history (holding b q).cfg.start (holding b q).cfg.stop = rising := by
    simp [windowTicks, holding, InWindow, rising]
  have hp : IsPeriod (holding b q) (holding b q).cfg.start (holding b q).cfg.stop (held b q) := by
    constructor
    · rfl
    · rfl
    · rw [hne]; exact hold_run b q
    all_goals simp [lit, held, h]
  have hout := (C36_single (holding b q) hs rfl (by rw [hne]; simp [rising]) true).2.1 _ hp
  rw [hout]
  obtain ⟨r, hr, hps⟩ := C36_summary_exact (holding b q) [held b q] (by
    intro p hp'
    rw [List.mem_singleton] at hp'
    subst hp'
    refine ⟨_, _, hp, ?_⟩
    show 0 ≤ q + 12 * b
    linarith)
  exact ⟨r, hr, hps⟩

theorem hold_solvent {b q : ℝ} (hb : 0 ≤ b) (hq : 0 ≤ q) : Solvent (holding b q).account := ⟨le_rfl, le_rfl, hb, hq⟩

/-- Both evaluations return; the coins gain 1.2 and the money 1, so that the coins score 1.2 times as much. -/
example : ∃ r s, (evaluateTrader (holding 2 0) true).out = .ok r ∧ (evaluateTrader (holding 0 50) true).out = .ok s ∧
    s.score < r.score ∧ s.score ≤ r.score ∧ s.avgGain ≤ r.avgGain ∧ s.avgBaseGain = r.avgBaseGain := by
  obtain ⟨r, hr, pr⟩ := holding_returns (b := 2) (q := 0) (by norm_num) le_rfl (by norm_num)
  obtain ⟨s, hs, ps⟩ := holding_returns (b := 0) (q := 50) le_rfl (by norm_num) (by norm_num)
  have ne : s.periods ≠ [] := by rw [ps]; simp
  refine ⟨r, s, hr, hs, ?_, ?_, ?_, (C125_same_periods (i := holding 0 50) (j := holding 2 0) rfl rfl true true hs hr).2⟩
  · rw [(C125_ranking (i := holding 0 50) (j := holding 2 0) rfl rfl (hold_solvent le_rfl (by norm_num)) (hold_solvent (by norm_num) le_rfl) .none .none true true hs hr ne).2.1]
    norm_num [compounded, pr, ps, held]
  all_goals
    have := C125_dominance (i := holding 0 50) (j := holding 2 0) rfl rfl (hold_solvent le_rfl (by norm_num)) (hold_solvent (by norm_num) le_rfl) .none .none true true hs hr ne
      (by rw [pr, ps]; exact .cons (by norm_num [held]) .nil)
  · exact this.1
  · exact this.2

end examples
end Verif.Props.Ranking
