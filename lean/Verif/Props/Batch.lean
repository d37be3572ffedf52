import Verif.Props.Evaluate

/-!
# C37: a batch equals the sequence of its evaluations, whatever the schedule
-/

set_option linter.unusedSectionVars false

namespace Verif.Props
open FloatOps Spec Time

section
variable {F D : Type} [FloatOps F] [FloatOps D] [Wide F D] [Libm F] [Libm D]

/-- What a task will produce if run alone from now on. -/
def taskOutcome (i : EvalInputs F) : Task F → Res (EvaluationResult F)
  | .finished r => .ok r
  | .running fuel offset ps => (evalLoop i false fuel offset ps).out.bind (summarise i)

/-- How many more steps a task makes before it is over. -/
def taskFuel : Task F → ℕ
  | .finished _ => 0
  | .running fuel _ _ => fuel + 1

theorem step_outcome (i : EvalInputs F) (t : Task F) :
    (∀ t', Task.step i t = .ok t' → taskOutcome i t' = taskOutcome i t ∧ taskFuel t' ≤ taskFuel t - 1) ∧
    (∀ e, Task.step i t = .error e → taskOutcome i t = .error e) := by
  cases t with
  | finished r =>
    refine ⟨fun t' h => ?_, fun e h => (by cases h)⟩
    cases h
    exact ⟨rfl, le_refl _⟩
  | running fuel offset ps =>
    cases fuel with
    | zero =>
      refine ⟨fun t' h => (by cases h), fun e h => ?_⟩
      cases h; rfl
    | succ fuel =>
      have hout : taskOutcome i (.running (fuel + 1) offset ps) =
          ((evalRound i false offset ps).andThen (fun r =>
            if r.1 then evalLoop i false fuel (offset + 1) r.2 else Run.ret r.2)).out.bind (summarise i) := rfl
      rw [hout]
      simp only [Task.step]
      cases hr : (evalRound i false offset ps).out with
      | error e =>
        rw [Run.andThen_error hr]
        refine ⟨fun t' h => (by cases h), fun e' h => ?_⟩
        cases h; rfl
      | ok x =>
        obtain ⟨b, qs⟩ := x
        rw [Run.andThen_ok hr]
        cases b with
        | true =>
          refine ⟨fun t' h => ?_, fun e' h => (by cases h)⟩
          cases h
          exact ⟨rfl, by simp [taskFuel]⟩
        | false =>
          dsimp only
          cases hs : summarise i qs with
          | error e =>
            refine ⟨fun t' h => (by cases h), fun e' h => ?_⟩
            cases h; exact hs
          | ok r =>
            refine ⟨fun t' h => ?_, fun e' h => (by cases h)⟩
            cases h
            exact ⟨hs.symm, by simp [taskFuel]⟩

theorem start_outcome (i : EvalInputs F) :
    taskOutcome i (.running (2 ^ 31) 0 []) = (evaluateTrader i false).out := (evaluateTrader_out i false).symm

theorem forall₂_get {α β : Type*} {R : α → β → Prop} {l : List α} {m : List β} (h : List.Forall₂ R l m) {k : ℕ} {a : α}
    {b : β} (ha : l[k]? = some a) (hb : m[k]? = some b) : R a b := by
  induction h generalizing k with
  | nil => simp at ha
  | cons h _ ih =>
    cases k with
    | zero => simp at ha hb; subst ha hb; exact h
    | succ k => exact ih (by simpa using ha) (by simpa using hb)

theorem forall₂_set {α β : Type*} {R : α → β → Prop} {l : List α} {m : List β} (h : List.Forall₂ R l m) {k : ℕ} {a : α}
    (ha : l[k]? = some a) {b : β} (hb : R a b) : List.Forall₂ R l (m.set k b) := by
  induction h generalizing k with
  | nil => simp at ha
  | cons h hs ih =>
    cases k with
    | zero => simp at ha; subst ha; exact .cons hb hs
    | succ k => exact .cons h (ih (by simpa using ha))

/-- Running tasks does not change what they will produce. -/
theorem batch_outcomes (inputs : List (EvalInputs F)) (schedule : List ℕ) (tasks : List (Task F))
    (h : List.Forall₂ (fun i t => taskOutcome i t = (evaluateTrader i false).out) inputs tasks) :
    (∀ tasks', batchRun inputs schedule tasks = .ok tasks' →
      List.Forall₂ (fun i t => taskOutcome i t = (evaluateTrader i false).out) inputs tasks') ∧
    (∀ e, batchRun inputs schedule tasks = .error e → ∃ i ∈ inputs, (evaluateTrader i false).out = .error e) := by
  induction schedule generalizing tasks with
  | nil =>
    refine ⟨fun t' h' => ?_, fun e h' => (by cases h')⟩
    cases h'; exact h
  | cons k schedule ih =>
    unfold batchRun
    cases hi : inputs[k]? with
    | none => exact ih tasks h
    | some i =>
      cases ht : tasks[k]? with
      | none => exact ih tasks h
      | some t =>
        simp only [bind, Except.bind]
        have hit := forall₂_get h hi ht
        have hso := step_outcome i t
        cases hs : Task.step i t with
        | error e =>
          refine ⟨fun t' h' => (by cases h'), fun e' h' => ?_⟩
          cases h'
          exact ⟨i, List.mem_of_getElem? hi, by rw [← hit]; exact hso.2 e hs⟩
        | ok t' =>
          exact ih _ (forall₂_set h hi ((hso.1 t' hs).1.trans hit))

theorem batchStart_ok (inputs : List (EvalInputs F)) :
    List.Forall₂ (fun i t => taskOutcome i t = (evaluateTrader i false).out) inputs (batchStart inputs) := by
  unfold batchStart
  induction inputs with
  | nil => exact .nil
  | cons i inputs ih => exact .cons (start_outcome i) ih

/-- **C37**. Whatever the interleaving of the tasks: once all of them are finished, the results collected are, in the
order of the emitters, exactly what `EvaluateTrader` without logger returns for each emitter alone. -/
theorem C37_batch (inputs : List (EvalInputs F)) (schedule : List ℕ) {tasks : List (Task F)}
    {rs : List (EvaluationResult F)} (h : batchRun inputs schedule (batchStart inputs) = .ok tasks)
    (hr : batchResults tasks = some rs) :
    List.Forall₂ (fun i r => (evaluateTrader i false).out = .ok r) inputs rs := by
  have h2 := (batch_outcomes inputs schedule _ (batchStart_ok inputs)).1 tasks h
  clear h
  induction h2 generalizing rs with
  | nil => cases hr; exact .nil
  | cons h1 h2 ih =>
    rename_i i t is ts
    cases t with
    | running f o ps => cases hr
    | finished r =>
      simp only [batchResults, Option.map_eq_some_iff] at hr
      obtain ⟨rs', hrs, rfl⟩ := hr
      exact .cons h1.symm (ih hrs)

/-- **C37** (aborts). The batch faults only with the fault of some emitter's evaluation; and if some emitter's evaluation
faults, no schedule lets all tasks finish. -/
theorem C37_abort (inputs : List (EvalInputs F)) (schedule : List ℕ) :
    (∀ e, batchRun inputs schedule (batchStart inputs) = .error e →
      ∃ i ∈ inputs, (evaluateTrader i false).out = .error e) ∧
    (∀ i e, i ∈ inputs → (evaluateTrader i false).out = .error e → ∀ tasks rs,
      batchRun inputs schedule (batchStart inputs) = .ok tasks → batchResults tasks ≠ some rs) := by
  refine ⟨(batch_outcomes inputs schedule _ (batchStart_ok inputs)).2, ?_⟩
  intro i e hi he tasks rs h hr
  have := C37_batch inputs schedule h hr
  clear h hr
  induction this with
  | nil => cases hi
  | cons h1 _ ih =>
    rcases List.mem_cons.mp hi with rfl | hi
    · rw [he] at h1; cases h1
    · exact ih hi

/-- A schedule that gives task `k` enough steps leaves it finished. -/
theorem batch_fuel (inputs : List (EvalInputs F)) (schedule : List ℕ) (tasks tasks' : List (Task F))
    (h : batchRun inputs schedule tasks = .ok tasks') (k : ℕ) (hk : k < inputs.length) :
    tasks'.length = tasks.length ∧
    ∀ t, tasks[k]? = some t → ∃ t', tasks'[k]? = some t' ∧ taskFuel t' ≤ taskFuel t - schedule.count k := by
  induction schedule generalizing tasks with
  | nil =>
    cases h
    exact ⟨rfl, fun t ht => ⟨t, ht, by simp⟩⟩
  | cons j schedule ih =>
    unfold batchRun at h
    cases hi : inputs[j]? with
    | none =>
      rw [hi] at h
      obtain ⟨h1, h2⟩ := ih tasks h
      have : j ≠ k := by
        rintro rfl
        rw [List.getElem?_eq_none_iff] at hi
        omega
      refine ⟨h1, fun t ht => ?_⟩
      rw [List.count_cons_of_ne this]
      exact h2 t ht
    | some i =>
      cases ht : tasks[j]? with
      | none =>
        rw [hi, ht] at h
        obtain ⟨h1, h2⟩ := ih tasks h
        refine ⟨h1, fun t htk => ?_⟩
        have : j ≠ k := by rintro rfl; rw [htk] at ht; cases ht
        rw [List.count_cons_of_ne this]
        exact h2 t htk
      | some tj =>
        rw [hi, ht] at h
        simp only [bind, Except.bind] at h
        cases hs : Task.step i tj with
        | error e => rw [hs] at h; cases h
        | ok tj' =>
          rw [hs] at h
          obtain ⟨h1, h2⟩ := ih _ h
          refine ⟨by rw [h1, List.length_set], fun t htk => ?_⟩
          by_cases hjk : j = k
          · subst hjk
            rw [ht] at htk; cases htk
            have hlt : j < tasks.length := by
              by_contra hc
              rw [List.getElem?_eq_none (by omega)] at ht; cases ht
            obtain ⟨t', a, b⟩ := h2 tj' (by rw [List.getElem?_set_self hlt])
            refine ⟨t', a, ?_⟩
            have := ((step_outcome i tj).1 tj' hs).2
            rw [List.count_cons_self]
            omega
          · rw [List.count_cons_of_ne hjk]
            exact h2 t (by rw [List.getElem?_set_ne hjk]; exact htk)

theorem batchResults_some (tasks : List (Task F)) (h : ∀ (k : ℕ) (t : Task F), tasks[k]? = some t → taskFuel t = 0) :
    ∃ rs, batchResults tasks = some rs := by
  induction tasks with
  | nil => exact ⟨[], rfl⟩
  | cons t ts ih =>
    have h0 := h 0 t rfl
    cases t with
    | running f o ps => simp [taskFuel] at h0
    | finished r =>
      obtain ⟨rs, hrs⟩ := ih (fun k t hk => h (k + 1) t (by simpa using hk))
      exact ⟨r :: rs, by simp [batchResults, hrs]⟩

/-- **C37** (completion). Under every schedule that gives each task enough steps, the batch returns if and only if every
emitter's evaluation returns. -/
theorem C37_completes (inputs : List (EvalInputs F)) (schedule : List ℕ)
    (hfair : ∀ k < inputs.length, 2 ^ 31 + 1 ≤ schedule.count k) :
    (∃ tasks rs, batchRun inputs schedule (batchStart inputs) = .ok tasks ∧ batchResults tasks = some rs) ↔
    ∀ i ∈ inputs, ∃ r, (evaluateTrader i false).out = .ok r := by
  constructor
  · rintro ⟨tasks, rs, h, hr⟩ i hi
    cases he : (evaluateTrader i false).out with
    | ok r => exact ⟨r, rfl⟩
    | error e => exact absurd hr ((C37_abort inputs schedule).2 i e hi he tasks rs h)
  · intro hall
    cases h : batchRun inputs schedule (batchStart inputs) with
    | error e =>
      obtain ⟨i, hi, he⟩ := (C37_abort inputs schedule).1 e h
      obtain ⟨r, hr⟩ := hall i hi
      rw [hr] at he; cases he
    | ok tasks =>
      obtain ⟨rs, hrs⟩ := batchResults_some tasks (fun k t ht => by
        have hlen : (batchStart inputs).length = inputs.length := by simp [batchStart]
        have hk' : k < tasks.length := by
          by_contra hc
          rw [List.getElem?_eq_none (by omega)] at ht; cases ht
        by_cases hk : k < inputs.length
        · obtain ⟨_, h2⟩ := batch_fuel inputs schedule _ _ h k hk
          obtain ⟨t', ht', hf⟩ := h2 (.running (2 ^ 31) 0 []) (by simp [batchStart, hk])
          rw [ht] at ht'
          cases ht'
          have := hfair k hk
          rw [show taskFuel (.running (2 ^ 31) 0 [] : Task F) = 2 ^ 31 + 1 from rfl] at hf
          omega
        · exfalso
          rcases Nat.eq_zero_or_pos inputs.length with h0 | h0
          · have : inputs = [] := List.length_eq_zero_iff.mp h0
            subst this
            have : tasks = [] := by
              clear ht hk' hk hall hfair hlen
              revert h
              generalize hT : batchStart ([] : List (EvalInputs F)) = T
              have hT' : T = [] := by rw [← hT]; rfl
              subst hT'
              clear hT
              induction schedule with
              | nil => intro h; cases h; rfl
              | cons j js ih => intro h; exact ih h
            subst this
            simp at hk'
          · have := (batch_fuel inputs schedule _ _ h 0 h0).1
            omega)
      exact ⟨tasks, rs, rfl, hrs⟩

/-- **C37** (determinism). Two complete runs of a batch under different schedules give the same results. -/
theorem C37_deterministic (inputs : List (EvalInputs F)) (s₁ s₂ : List ℕ) {t₁ t₂ : List (Task F)}
    {r₁ r₂ : List (EvaluationResult F)} (h₁ : batchRun inputs s₁ (batchStart inputs) = .ok t₁)
    (h₂ : batchRun inputs s₂ (batchStart inputs) = .ok t₂) (hr₁ : batchResults t₁ = some r₁)
    (hr₂ : batchResults t₂ = some r₂) : r₁ = r₂ := by
  have a := C37_batch inputs s₁ h₁ hr₁
  have b := C37_batch inputs s₂ h₂ hr₂
  clear h₁ h₂ hr₁ hr₂
  induction a generalizing r₂ with
  | nil => cases b; rfl
  | cons h _ ih =>
    cases b with
    | cons h' b =>
      rw [h] at h'
      cases h'
      rw [ih b]

end

/-! ## Non-vacuity -/

section examples

attribute [local instance] evLibm

theorem enough_steps (N : ℕ) : ∃ s : List ℕ, ∀ k < 2, N ≤ s.count k :=
  ⟨List.replicate N 0 ++ List.replicate N 1, fun k hk => by
    have hk' : k = 0 ∨ k = 1 := by omega
    rcases hk' with rfl | rfl <;> simp [List.count_append, List.count_replicate]⟩

/-- A fair schedule for two tasks exists, and both evaluations of the example batch return: so the batch completes. -/
example : ∃ schedule tasks rs, batchRun [evInputs, evInputs] schedule (batchStart [evInputs, evInputs]) = .ok tasks ∧
    batchResults tasks = some rs := by
  obtain ⟨schedule, hfair⟩ := enough_steps (2 ^ 31 + 1)
  refine ⟨schedule, ?_⟩
  rw [C37_completes [evInputs, evInputs] schedule hfair]
  have : ∃ r, (evaluateTrader evInputs false).out = .ok r := by
    rw [evOut false]
    rcases C36_summary evInputs evPeriods with ⟨r, hr, _⟩ | ⟨_, h⟩
    · exact ⟨r, hr⟩
    · exfalso; revert h; decide +kernel
  intro i hi
  simp only [List.mem_cons, List.not_mem_nil, or_false, or_self] at hi
  subst hi; exact this

end examples
end Verif.Props
