import Verif.Props.TraderMain
import Verif.Num.IEEELemmas

/-!
# C83: a batch in the program trader.cc
-/

set_option linter.unusedSectionVars false

namespace Verif.Props
open Verif Verif.Spec Verif.TraderMain FloatOps

section generic
variable {F D : Type} [FloatOps F] [FloatOps D] [Wide F D] [Libm F] [Libm D]

omit [FloatOps F] in
theorem forall₂_of_forall {α β : Type} {P : α → β → Prop} {l : List α} (h : ∀ a ∈ l, ∃ b, P a b) : ∃ m, List.Forall₂ P l m := by
  induction l with
  | nil => exact ⟨[], .nil⟩
  | cons a l ih =>
    obtain ⟨b, hb⟩ := h a (by simp)
    obtain ⟨m, hm⟩ := ih (fun b hb => h b (by simp [hb]))
    exact ⟨b :: m, .cons hb hm⟩

/-- The check of the model is the requirement. -/
theorem sortable_iff (l : List (EvaluationResult F)) : sortable l = true ↔ Rankable l := by
  unfold sortable better
  simp only [List.all_eq_true, Bool.and_eq_true, Bool.not_eq_true', Bool.or_eq_true]
  constructor
  · intro h
    refine ⟨fun a ha => (h a ha).1, fun a ha b hb c hc h1 h2 => ?_, fun a ha b hb c hc h1 h2 => ?_⟩
    · have := ((h c hc).2 b hb a ha).1
      simpa [h1, h2] using this
    · have := ((h a ha).2 b hb c hc).2
      simpa [h1.1, h1.2, h2.1, h2.2, and_comm] using this
  · intro h a ha
    refine ⟨h.irrefl a ha, fun b hb c hc => ⟨?_, ?_⟩⟩
    · have := h.trans c hc b hb a ha
      cases h1 : (b.score <. a.score) <;> cases h2 : (c.score <. b.score) <;> simp_all
    · have := h.tied a ha b hb c hc
      cases h1 : (b.score <. a.score) <;> cases h2 : (c.score <. b.score) <;> cases h3 : (a.score <. b.score) <;>
        cases h4 : (b.score <. c.score) <;> simp_all

/-- What the batch works on. -/
private def task (env : Env F) (fl : Flags D) (start stop : ℤ) (ticks : List (OhlcTick F)) (side : Option (SideInput F))
    (b : BuiltIn F) : EvalInputs F :=
  ⟨accountConfig fl, ⟨start, stop, fl.months, true⟩, ticks, side, b.emitter env.fmt⟩

private theorem main_batch {env : Env F} {fl : Flags D} {w : Files} {start stop : ℤ} {ticks : List (OhlcTick F)}
    {recs : Option (List (SideInputRecord F))} {side : Option (SideInput F)} (hl : Loads env fl w start stop ticks recs)
    (hside : SideOf recs side) (hb : fl.evaluateBatch = true) :
    ∃ pre, main env fl w =
      match getBatchOfTraders fl.trader with
      | .error e => ⟨w, pre ++ [[], "Batch evaluation:".toList], .fault e, []⟩
      | .ok batch =>
        match batchRun (batch.map (task env fl start stop ticks side)) env.schedule
            (batchStart (batch.map (task env fl start stop ticks side))) with
        | .error e => ⟨w, pre ++ [[], "Batch evaluation:".toList], .fault e, []⟩
        | .ok tasks => match batchResults tasks with
          | none => ⟨w, pre ++ [[], "Batch evaluation:".toList], .running, []⟩
          | some rs =>
            if sortable rs then
              ⟨w, pre ++ [[], "Batch evaluation:".toList] ++ printBatchEvalResults env.fmt (env.sort rs) 20 ++
                lastLines (env.seconds 2), .success, []⟩
            else ⟨w, pre ++ [[], "Batch evaluation:".toList], .fault .undefinedBehaviour, []⟩ := by
  obtain ⟨pre, hm⟩ := trader_main_loaded hl hside
  refine ⟨pre, ?_⟩
  rw [hm]
  unfold evaluate
  rw [if_pos hb]
  rfl

private theorem batch_alone {env : Env F} {fl : Flags D} {start stop : ℤ} {ticks : List (OhlcTick F)}
    {side : Option (SideInput F)} {batch : List (BuiltIn F)} {schedule : List ℕ} {tasks : List (Task F)}
    {rs : List (EvaluationResult F)}
    (hr : batchRun (batch.map (task env fl start stop ticks side)) schedule
        (batchStart (batch.map (task env fl start stop ticks side))) = .ok tasks) (hres : batchResults tasks = some rs) :
    List.Forall₂ (fun b r => (evaluateTrader
      ⟨accountConfig fl, ⟨start, stop, fl.months, true⟩, ticks, side, BuiltIn.emitter env.fmt b⟩ false).out = .ok r) batch rs := by
  have := C37_batch _ _ hr hres
  rwa [List.forall₂_map_left_iff] at this

/-- **C83** (result). If the program succeeds in batch mode, then every trader of the batch was evaluated on the ticks and
side inputs of the period, in the fast mode and without logs, exactly as alone; and after the heading exactly the (up to) 20
best of the results are printed, the best first, one line with name and score for each. -/
theorem C83_success (env : Env F) (hsort : SortsByScore env.sort) (fl : Flags D) (w : Files) (start stop : ℤ)
    (ticks : List (OhlcTick F)) (recs : Option (List (SideInputRecord F))) (side : Option (SideInput F))
    (hl : Loads env fl w start stop ticks recs) (hside : SideOf recs side) (hb : fl.evaluateBatch = true)
    (hok : (main env fl w).exit = .success) :
    ∃ (batch : List (BuiltIn F)) (rs ranked : List (EvaluationResult F)) (pre : List Text), getBatchOfTraders fl.trader = .ok batch ∧
      List.Forall₂ (fun b r => (evaluateTrader
        ⟨accountConfig fl, ⟨start, stop, fl.months, true⟩, ticks, side, BuiltIn.emitter env.fmt b⟩ false).out = .ok r) batch rs ∧
      ranked.Perm rs ∧ ranked.Pairwise (fun a b => (a.score <. b.score) = false) ∧
      (main env fl w).lines = pre ++ "Batch evaluation:".toList :: (ranked.take 20).map (scoreReport env.fmt) ++
        [[], "Evaluated in ".toList ++ env.seconds 2 ++ " seconds".toList] := by
  obtain ⟨pre, hm⟩ := main_batch (env := env) hl hside hb
  cases hg : (getBatchOfTraders fl.trader : Res (List (BuiltIn F))) with
  | error e => rw [hg] at hm; dsimp only at hm; rw [hm] at hok; cases hok
  | ok batch =>
    rw [hg] at hm
    dsimp only at hm
    cases hr : batchRun (batch.map (task env fl start stop ticks side)) env.schedule
        (batchStart (batch.map (task env fl start stop ticks side))) with
    | error e => rw [hr] at hm; dsimp only at hm; rw [hm] at hok; cases hok
    | ok tasks =>
      rw [hr] at hm
      dsimp only at hm
      cases hres : batchResults tasks with
      | none => rw [hres] at hm; dsimp only at hm; rw [hm] at hok; cases hok
      | some rs =>
        rw [hres] at hm
        dsimp only at hm
        by_cases hs : sortable rs = true
        · rw [if_pos hs] at hm
          obtain ⟨h1, h2⟩ := hsort rs ((sortable_iff rs).mp hs)
          refine ⟨batch, rs, env.sort rs, pre ++ [[]], rfl, batch_alone hr hres, h1, h2, ?_⟩
          rw [hm]
          dsimp only
          unfold printBatchEvalResults
          have : (env.sort rs).take (min 20 (env.sort rs).length) = (env.sort rs).take 20 := by
            rw [List.take_eq_take_iff]; omega
          rw [this]
          have hrep : (fun r : EvaluationResult F => r.name.toList ++ ": ".toList ++ (env.fmt.fixed 5 r.score).toList) =
              scoreReport env.fmt := rfl
          rw [hrep]
          simp only [List.append_assoc, List.cons_append, List.nil_append, lastLines]
        · rw [if_neg hs] at hm; rw [hm] at hok; cases hok

/-- **C83** (faults). In batch mode the program aborts only if there is no batch of that name, or the evaluation of one of
its traders aborts, or all evaluations return and their scores cannot be ranked. -/
theorem C83_fault (env : Env F) (fl : Flags D) (w : Files) (start stop : ℤ) (ticks : List (OhlcTick F))
    (recs : Option (List (SideInputRecord F))) (side : Option (SideInput F)) (hl : Loads env fl w start stop ticks recs)
    (hside : SideOf recs side) (hb : fl.evaluateBatch = true) (e : Fault) (hok : (main env fl w).exit = .fault e) :
    (getBatchOfTraders fl.trader : Res (List (BuiltIn F))) = .error e ∨
    ∃ batch, getBatchOfTraders fl.trader = .ok batch ∧
      ((∃ b ∈ batch, (evaluateTrader
        ⟨accountConfig fl, ⟨start, stop, fl.months, true⟩, ticks, side, BuiltIn.emitter env.fmt b⟩ false).out = .error e) ∨
      ∃ rs, List.Forall₂ (fun b r => (evaluateTrader
        ⟨accountConfig fl, ⟨start, stop, fl.months, true⟩, ticks, side, BuiltIn.emitter env.fmt b⟩ false).out = .ok r) batch rs ∧
        ¬ Rankable rs ∧ e = .undefinedBehaviour) := by
  obtain ⟨pre, hm⟩ := main_batch (env := env) hl hside hb
  cases hg : (getBatchOfTraders fl.trader : Res (List (BuiltIn F))) with
  | error e' => rw [hg] at hm; dsimp only at hm; rw [hm] at hok; cases hok; exact .inl rfl
  | ok batch =>
    refine .inr ⟨batch, rfl, ?_⟩
    rw [hg] at hm
    dsimp only at hm
    cases hr : batchRun (batch.map (task env fl start stop ticks side)) env.schedule
        (batchStart (batch.map (task env fl start stop ticks side))) with
    | error e' =>
      rw [hr] at hm; dsimp only at hm; rw [hm] at hok; cases hok
      obtain ⟨i, hi, he⟩ := (C37_abort _ _).1 _ hr
      obtain ⟨b, hbm, rfl⟩ := List.mem_map.mp hi
      exact .inl ⟨b, hbm, he⟩
    | ok tasks =>
      rw [hr] at hm
      dsimp only at hm
      cases hres : batchResults tasks with
      | none => rw [hres] at hm; dsimp only at hm; rw [hm] at hok; cases hok
      | some rs =>
        rw [hres] at hm
        dsimp only at hm
        by_cases hs : sortable rs = true
        · rw [if_pos hs] at hm; rw [hm] at hok; cases hok
        · rw [if_neg hs] at hm; rw [hm] at hok; cases hok
          exact .inr ⟨rs, batch_alone hr hres, fun h => hs ((sortable_iff rs).mpr h), rfl⟩

/-- **C83** (completion). However the threads are scheduled, if each task gets to run, the program succeeds if and only if
the evaluation of every trader of the batch returns and the scores can be ranked. -/
theorem C83_completes (env : Env F) (fl : Flags D) (w : Files) (start stop : ℤ) (ticks : List (OhlcTick F))
    (recs : Option (List (SideInputRecord F))) (side : Option (SideInput F)) (hl : Loads env fl w start stop ticks recs)
    (hside : SideOf recs side) (hb : fl.evaluateBatch = true) (batch : List (BuiltIn F))
    (hg : getBatchOfTraders fl.trader = .ok batch) (hfair : ∀ k < batch.length, 2 ^ 31 + 1 ≤ env.schedule.count k) :
    (main env fl w).exit = .success ↔
    ∃ rs, List.Forall₂ (fun b r => (evaluateTrader
        ⟨accountConfig fl, ⟨start, stop, fl.months, true⟩, ticks, side, BuiltIn.emitter env.fmt b⟩ false).out = .ok r) batch rs ∧
      Rankable rs := by
  obtain ⟨pre, hm⟩ := main_batch (env := env) hl hside hb
  rw [hg] at hm
  dsimp only at hm
  have hc := C37_completes (batch.map (task env fl start stop ticks side)) env.schedule (by simpa using hfair)
  constructor
  · intro hok
    cases hr : batchRun (batch.map (task env fl start stop ticks side)) env.schedule
        (batchStart (batch.map (task env fl start stop ticks side))) with
    | error e' => rw [hr] at hm; dsimp only at hm; rw [hm] at hok; cases hok
    | ok tasks =>
      rw [hr] at hm
      dsimp only at hm
      cases hres : batchResults tasks with
      | none => rw [hres] at hm; dsimp only at hm; rw [hm] at hok; cases hok
      | some rs =>
        rw [hres] at hm
        dsimp only at hm
        by_cases hs : sortable rs = true
        · exact ⟨rs, batch_alone hr hres, (sortable_iff rs).mp hs⟩
        · rw [if_neg hs] at hm; rw [hm] at hok; cases hok
  · rintro ⟨rs, h1, h2⟩
    obtain ⟨tasks, rs', hr, hres⟩ := hc.mpr (by
      intro i hi
      obtain ⟨b, hbm, rfl⟩ := List.mem_map.mp hi
      obtain ⟨k, hk, rfl⟩ := List.getElem_of_mem hbm
      have hk' : k < rs.length := by rw [← h1.length_eq]; exact hk
      exact ⟨rs[k], h1.get hk hk'⟩)
    have e : rs' = rs := by
      have h3 := batch_alone hr hres
      clear hm hc hfair hg h2 hr hres
      induction h1 generalizing rs' with
      | nil => cases h3; rfl
      | cons h _ ih =>
        cases h3 with
        | cons h' h3 =>
          have h' := h'.symm.trans h
          cases h'
          rw [ih _ h3]
    subst e
    rw [hr] at hm
    dsimp only at hm
    rw [hres] at hm
    dsimp only at hm
    rw [if_pos ((sortable_iff _).mpr h2)] at hm
    rw [hm]

/-- **C83** (determinism). What a successful batch prints does not depend on how the threads were scheduled. -/
theorem C83_deterministic (env : Env F) (schedule : List ℕ) (fl : Flags D) (w : Files) (start stop : ℤ)
    (ticks : List (OhlcTick F)) (recs : Option (List (SideInputRecord F))) (side : Option (SideInput F))
    (hl : Loads env fl w start stop ticks recs) (hside : SideOf recs side) (hb : fl.evaluateBatch = true)
    (h1 : (main env fl w).exit = .success) (h2 : (main { env with schedule := schedule } fl w).exit = .success) :
    main { env with schedule := schedule } fl w = main env fl w := by
  obtain ⟨pre, hm⟩ := trader_main_schedule hl hside
  have e1 := hm env.schedule
  have e2 := hm schedule
  change main env fl w = _ at e1
  unfold evaluate runBatch at e1 e2
  rw [if_pos hb] at e1 e2
  dsimp only at e1 e2
  cases hg : (getBatchOfTraders fl.trader : Res (List (BuiltIn F))) with
  | error e => rw [hg] at e1; dsimp only at e1; rw [e1] at h1; cases h1
  | ok batch =>
    rw [hg] at e1 e2
    dsimp only at e1 e2
    split at e1
    · rw [e1] at h1; cases h1
    · rename_i t1 hr1
      split at e2
      · rw [e2] at h2; cases h2
      · rename_i t2 hr2
        split at e1
        · rw [e1] at h1; cases h1
        · rename_i rs1 hres1
          split at e2
          · rw [e2] at h2; cases h2
          · rename_i rs2 hres2
            have := C37_deterministic _ _ _ hr1 hr2 hres1 hres2
            subst this
            rw [e1, e2]

end generic

/-- **C83** (exact arithmetic). Scores that are ordinary numbers can always be ranked. -/
theorem C83_rankable_exact {K : Type} [Field K] [LinearOrder K] [IsStrictOrderedRing K] [FloorRing K]
    (l : List (EvaluationResult K)) : Rankable l := by
  refine ⟨?_, ?_, ?_⟩
  · intro a _; simp
  · intro a _ b _ c _; simp only [ex_lt, decide_eq_true_eq]; exact lt_trans
  · intro a _ b _ c _
    simp only [ex_lt, decide_eq_false_iff_not, not_lt]
    rintro ⟨h1, h2⟩ ⟨h3, h4⟩
    exact ⟨h3.trans h1, h2.trans h4⟩

section binary32

private theorem fl_irrefl {f : Fmt} (a : Fl f) : Fl.lt a a = false := by
  cases a <;> simp [Fl.lt]

private theorem fl_trans {f : Fmt} (a b c : Fl f) (h1 : Fl.lt a b = true) (h2 : Fl.lt b c = true) : Fl.lt a c = true := by
  rcases a with _ | (_ | _) | _ | a <;> rcases b with _ | (_ | _) | _ | b <;> rcases c with _ | (_ | _) | _ | c <;>
    simp_all <;> linarith

private theorem fl_tied {f : Fmt} (a b c : Fl f) (hb : b ≠ .nan) (h1 : Fl.lt a b = false ∧ Fl.lt b a = false)
    (h2 : Fl.lt b c = false ∧ Fl.lt c b = false) : Fl.lt a c = false ∧ Fl.lt c a = false := by
  rcases a with _ | (_ | _) | _ | a <;> rcases b with _ | (_ | _) | _ | b <;> rcases c with _ | (_ | _) | _ | c <;>
    simp_all <;> constructor <;> linarith

/-- **C83** (binary32). Scores can be ranked as long as none of them is a NaN, and (with a NaN among them) only if all others
are equal. -/
theorem C83_rankable_f32 (l : List (EvaluationResult F32)) :
    Rankable l ↔ (∀ r ∈ l, r.score ≠ .nan) ∨ (∀ a ∈ l, ∀ b ∈ l, (a.score <. b.score) = false) := by
  constructor
  · intro h
    by_cases hn : ∀ r ∈ l, r.score ≠ .nan
    · exact .inl hn
    · push Not at hn
      obtain ⟨r, hr, hn⟩ := hn
      right
      intro a ha b hb
      refine (h.tied a ha r hr b hb ?_ ?_).1
      · rw [hn]; constructor
        · cases a.score <;> rfl
        · rfl
      · rw [hn]; constructor
        · rfl
        · cases b.score <;> rfl
  · intro h
    refine ⟨fun a _ => fl_irrefl _, fun a _ b _ c _ => fl_trans _ _ _, fun a ha b hb c hc h1 h2 => ?_⟩
    rcases h with h | h
    · exact fl_tied _ _ _ (h b hb) h1 h2
    · exact ⟨h a ha c hc, h c hc a ha⟩

/-- What the C standard says about `pow` for arguments that are not negative. -/
def PowIsNumber [Libm F64] : Prop :=
  ∀ x y : F64, (lit F64 0 <=. x) = true → (lit F64 0 <=. y) = true → Libm.pow x y ≠ .nan

private theorem ofRat_number {f : Fmt} (q : ℚ) : Fl.ofRat f q ≠ .nan := by
  unfold Fl.ofRat Fl.rnd
  split
  · simp
  · dsimp only; split
    · simp
    · split
      · split <;> simp
      · simp

private theorem le_zero_of {f : Fmt} {a : Fl f} (h : Fl.NotNeg a) (hn : a ≠ .nan) : Fl.le (.fin 0) a = true := by
  rcases a with _ | (_ | _) | _ | a
  · exact absurd rfl hn
  · rfl
  · simp at h
  · simp [Fl.le, Fl.beq, Fl.toQ]
  · have h : 0 ≤ a := by simpa using h
    unfold Fl.le
    rcases lt_or_eq_of_le h with h | rfl
    · simp [h]
    · simp [Fl.beq]

private theorem inverse_number (n : ℕ) : (lit F64 0 <=. lit F64 1 /. lit F64 n) = true := by
  have h1 : (lit F64 1 : F64) = .fin 1 := by decide +kernel
  have h0 : (lit F64 0 : F64) = .fin 0 := rfl
  rw [h1, h0]
  change Fl.le (.fin 0) (Fl.div (.fin 1) (Fl.ofRat binary64 n)) = true
  have hn := Fl.ofRat_notNeg (f := binary64) (x := (n : ℚ)) (by positivity)
  have hnn := ofRat_number (f := binary64) n
  have hz : Fl.ofRat binary64 (n : ℚ) ≠ .negZero := by
    unfold Fl.ofRat Fl.rnd
    split
    · simp
    · dsimp only; split
      · simp
      · split
        · rw [if_neg (by have : (0 : ℚ) ≤ n := by positivity
                         linarith)]; simp
        · simp
  generalize Fl.ofRat binary64 (n : ℚ) = d at *
  rcases d with _ | (_ | _) | _ | d
  · exact absurd rfl hnn
  · decide
  · simp at hn
  · exact absurd rfl hz
  · have hd : 0 ≤ d := by simpa using hn
    rw [Fl.div_fin_fin]
    split
    · split
      · rename_i h; norm_num at h
      · rw [show decide ((1 : ℚ) < 0) = false by decide, decide_eq_false (not_lt.mpr hd)]; rfl
    · split
      · rename_i h; norm_num at h
      · have h' : 0 ≤ 1 / d := by positivity
        refine le_zero_of (Fl.rnd_notNeg h') ?_
        have := ofRat_number (f := binary64) (1 / d)
        unfold Fl.ofRat at this
        split at this
        · rename_i h1 h2 h3
          have : d = 0 := by simpa using h3
          exact absurd this h1
        · exact this

/-- **C83** (binary32, scores). If `pow` is as the C standard says, an evaluation that returns has a score that is not a NaN:
the assertion on the product of the ratios sees to it. -/
theorem C83_score_f32 [Libm F32] [Libm F64] (hpow : PowIsNumber) (i : EvalInputs F32) (log : Bool) (r : EvaluationResult F32)
    (h : (evaluateTrader i log).out = .ok r) : r.score ≠ .nan := by
  rw [evaluateTrader_out] at h
  cases hl : (evalLoop i log (2 ^ 31) 0 []).out with
  | error e => rw [hl] at h; cases h
  | ok ps =>
    rw [hl] at h
    replace h : summarise i ps = .ok r := h
    unfold summarise at h
    cases hg : getGeometricAverage ps (fun p => p.finalGain /. p.baseFinalGain) with
    | error e => rw [hg] at h; cases h
    | ok score =>
      rw [hg] at h
      have h := Except.ok.inj h
      rw [← h]
      dsimp only
      unfold getGeometricAverage at hg
      split at hg
      · rw [← Except.ok.inj hg]; decide
      · obtain ⟨ha, hg⟩ := assertThat_bind_ok hg
        rw [← Except.ok.inj hg]
        have := hpow _ _ ha (inverse_number ps.length)
        change Fl.cvt _ ≠ Fl.nan
        revert this
        generalize Libm.pow (F := F64) _ _ = x
        intro hx
        cases x with
        | nan => exact absurd rfl hx
        | inf s => simp [Fl.cvt]
        | negZero => simp [Fl.cvt]
        | fin q => exact ofRat_number q

/-- **C83** (binary32, completion). So in `float` arithmetic a fairly scheduled batch completes if and only if the evaluation
of each of its traders returns. -/
theorem C83_completes_f32 [Libm F32] [Libm F64] (hpow : PowIsNumber) (env : Env F32) (fl : Flags F64) (w : Files)
    (start stop : ℤ) (ticks : List (OhlcTick F32)) (recs : Option (List (SideInputRecord F32))) (side : Option (SideInput F32))
    (hl : Loads env fl w start stop ticks recs) (hside : SideOf recs side) (hb : fl.evaluateBatch = true)
    (batch : List (BuiltIn F32)) (hg : getBatchOfTraders fl.trader = .ok batch)
    (hfair : ∀ k < batch.length, 2 ^ 31 + 1 ≤ env.schedule.count k) :
    (main env fl w).exit = .success ↔ ∀ b ∈ batch, ∃ r, (evaluateTrader
      ⟨accountConfig fl, ⟨start, stop, fl.months, true⟩, ticks, side, BuiltIn.emitter env.fmt b⟩ false).out = .ok r := by
  rw [C83_completes env fl w start stop ticks recs side hl hside hb batch hg hfair]
  constructor
  · rintro ⟨rs, h1, -⟩ b hbm
    obtain ⟨k, hk, rfl⟩ := List.getElem_of_mem hbm
    have hk' : k < rs.length := by rw [← h1.length_eq]; exact hk
    exact ⟨rs[k], h1.get hk hk'⟩
  · intro h
    obtain ⟨rs, h1⟩ := forall₂_of_forall h
    refine ⟨rs, h1, (C83_rankable_f32 rs).mpr (.inl ?_)⟩
    intro r hr
    obtain ⟨k, hk, rfl⟩ := List.getElem_of_mem hr
    have hk' : k < batch.length := by rw [h1.length_eq]; exact hk
    exact C83_score_f32 hpow _ false _ (h1.get hk' hk)

end binary32
end Verif.Props
