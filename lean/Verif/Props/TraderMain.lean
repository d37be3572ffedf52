import Verif.Spec.TraderMain
import Verif.Props.Factory
import Verif.Props.Logger
import Verif.Props.TraderLog
import Verif.Props.ConvertMain
import Verif.Props.SideInput

/-!
# C82-C84: the program trader.cc
-/

set_option linter.unusedSectionVars false

namespace Verif.Props
open Verif Verif.Spec Verif.TraderMain FloatOps

section generic
variable {F D : Type} [FloatOps F] [FloatOps D] [Wide F D] [Libm F] [Libm D]

/-! ### Reading -/

private theorem readFile_holds {M : Type} {codec : Codec M} {files : Files} {name : Text} :
    (∃ l, Holds codec files name l) ↔
      (Proto.readFile codec (fun (ms : List M) m => (ms ++ [m], some ReaderSignal.kContinue)) [] (files name)).2 = .ok := by
  unfold Holds Proto.readFile Proto.readVector
  cases files name with
  | none => simp
  | some bytes =>
    simp only [Option.some.injEq, exists_eq_left']
    constructor
    · rintro ⟨l, h⟩; rw [h]
    · intro h; exact ⟨_, Prod.ext rfl h⟩

theorem trader_readHistory_none {M : Type} {codec : Codec M} {ts : M → ℤ} {start stop : ℤ} {files : Files} {name : Text}
    (h : ¬ ∃ l, Holds codec files name l) :
    readHistory codec ts start stop (files name) =
      .error (if files name = none then .cannotOpen else .cannotParse) := by
  rw [readFile_holds] at h
  unfold readHistory
  cases hf : files name with
  | none => rfl
  | some bytes =>
    rw [hf] at h
    generalize Proto.readFile codec _ _ (some bytes) = r at h
    obtain ⟨l, s⟩ := r
    cases s <;> first | rfl | exact absurd rfl h

theorem trader_readHistory_all {M : Type} {codec : Codec M} {ts : M → ℤ} {start stop : ℤ} {files : Files} {name : Text}
    {all : List M} (ho : 0 < stop → start ≤ stop) (h : Holds codec files name all) (hs : SortedBy ts all) :
    readHistory codec ts start stop (files name) =
      .ok (all.length, .ok (all.filter (fun m => decide (InWindow start stop (ts m))))) := by
  obtain ⟨bytes, hb, hv⟩ := h
  rw [hb]
  unfold readHistory Proto.readFile
  dsimp only
  unfold Proto.readVector at hv
  rw [hv]
  dsimp only
  rw [C15_subset_copy ts all hs start stop (by rintro ⟨h0, r, -, h1, h2⟩; have := ho h0; omega)]

theorem trader_readHistory_some {M : Type} {codec : Codec M} {ts : M → ℤ} {start stop : ℤ} {files : Files} {name : Text}
    {l : List M} (ho : 0 < stop → start ≤ stop) (h : HoldsPeriod codec ts files name start stop l) :
    ∃ n, readHistory codec ts start stop (files name) = .ok (n, .ok l) := by
  obtain ⟨all, h1, h2, rfl⟩ := h
  exact ⟨_, trader_readHistory_all ho h1 h2⟩

theorem trader_main_reads {env : Env F} {fl : Flags D} {w : Files} {start stop : ℤ} (hp : TraderPeriod fl start stop) :
    ∃ i j lines, i.toUnixSeconds = start ∧ j.toUnixSeconds = stop ∧ main env fl w = readInputs env fl i j w lines := by
  obtain ⟨h1, h2⟩ := hp
  obtain ⟨i, hi, rfl⟩ := Option.map_eq_some_iff.mp h1
  obtain ⟨j, hj, rfl⟩ := Option.map_eq_some_iff.mp h2
  have : ∃ lines, main env fl w = readInputs env fl i j w lines := by
    unfold main
    rw [hi, hj]
    exact ⟨_, rfl⟩
  obtain ⟨lines, h⟩ := this
  exact ⟨i, j, lines, rfl, rfl, h⟩

/-- What remains once everything has been read (which does not depend on how threads will be scheduled). -/
theorem trader_main_schedule {env : Env F} {fl : Flags D} {w : Files} {start stop : ℤ} {ticks : List (OhlcTick F)}
    {recs : Option (List (SideInputRecord F))} {side : Option (SideInput F)} (hl : Loads env fl w start stop ticks recs)
    (hside : SideOf recs side) :
    ∃ lines, ∀ schedule, main { env with schedule := schedule } fl w =
      evaluate { env with schedule := schedule } fl ⟨start, stop, fl.months, false⟩ ticks side w lines := by
  obtain ⟨h1, h2⟩ := hl.period
  obtain ⟨i, hi, rfl⟩ := Option.map_eq_some_iff.mp h1
  obtain ⟨j, hj, rfl⟩ := Option.map_eq_some_iff.mp h2
  unfold main
  rw [hi, hj]
  dsimp only
  unfold readInputs
  dsimp only
  obtain ⟨n1, hn1⟩ := trader_readHistory_some hl.order hl.ticks
  rw [hn1]
  dsimp only
  rcases hl.side with ⟨h1, rfl⟩ | ⟨h1, l, rfl, h2⟩
  · cases hside
    have h1 : fl.inputSide.isEmpty = true := by simp [h1]
    simp only [h1, if_true]
    exact ⟨_, fun _ => rfl⟩
  · cases hside with
    | some l s h =>
      have h1 : fl.inputSide.isEmpty = false := by simpa using h1
      simp only [h1, Bool.false_eq_true, if_false]
      obtain ⟨n2, hn2⟩ := trader_readHistory_some hl.order h2
      rw [hn2]
      dsimp only
      rw [h]
      exact ⟨_, fun _ => rfl⟩

theorem trader_main_loaded {env : Env F} {fl : Flags D} {w : Files} {start stop : ℤ} {ticks : List (OhlcTick F)}
    {recs : Option (List (SideInputRecord F))} {side : Option (SideInput F)} (hl : Loads env fl w start stop ticks recs)
    (hside : SideOf recs side) :
    ∃ lines, main env fl w = evaluate env fl ⟨start, stop, fl.months, false⟩ ticks side w lines := by
  obtain ⟨lines, h⟩ := trader_main_schedule hl hside
  exact ⟨lines, h env.schedule⟩

/-- **C82** (input errors). If a time is not valid, the OHLC file cannot be read to its end, or a side history is named and
cannot be read to its end, the program does not succeed and leaves all files as they are; in the first two cases it ends
with `EXIT_FAILURE`. -/
theorem C82_failure (env : Env F) (fl : Flags D) (w : Files) :
    ((¬ ∃ start stop, TraderPeriod fl start stop) ∨ (¬ ∃ l, Holds env.ohlcCodec w fl.inputOhlc l) →
      (main env fl w).exit = .failure ∧ (main env fl w).files = w) ∧
    (fl.inputSide ≠ [] → (¬ ∃ l, Holds env.sideCodec w fl.inputSide l) →
      (main env fl w).exit ≠ .success ∧ (main env fl w).files = w) ∧
    (∀ start stop ticks, TraderPeriod fl start stop → (0 < stop → start ≤ stop) →
      HoldsPeriod env.ohlcCodec OhlcTick.ts w fl.inputOhlc start stop ticks → fl.inputSide ≠ [] →
      (¬ ∃ l, Holds env.sideCodec w fl.inputSide l) → (main env fl w).exit = .failure) := by
  by_cases hp : ∃ start stop, TraderPeriod fl start stop
  · obtain ⟨start, stop, hp⟩ := hp
    obtain ⟨i, j, pre, rfl, rfl, hm⟩ := trader_main_reads (env := env) (w := w) hp
    rw [hm]
    refine ⟨?_, ?_, ?_⟩
    · rintro (h | h)
      · exact absurd ⟨_, _, hp⟩ h
      · unfold readInputs
        dsimp only
        rw [trader_readHistory_none h]
        exact ⟨rfl, rfl⟩
    · intro h1 h2
      unfold readInputs
      dsimp only
      split
      · exact ⟨by simp, rfl⟩
      · exact ⟨by simp, rfl⟩
      · rw [if_neg (by simpa using h1), trader_readHistory_none h2]
        exact ⟨by simp, rfl⟩
    · intro start stop ticks hp' ho ht h1 h2
      have e1 : start = i.toUnixSeconds := Option.some.inj (hp'.1.symm.trans hp.1)
      have e2 : stop = j.toUnixSeconds := Option.some.inj (hp'.2.symm.trans hp.2)
      subst e1 e2
      unfold readInputs
      dsimp only
      obtain ⟨n1, hn1⟩ := trader_readHistory_some ho ht
      rw [hn1]
      dsimp only
      rw [if_neg (by simpa using h1), trader_readHistory_none h2]
  · have : ∃ lines err, main env fl w = ⟨w, lines, .failure, err⟩ := by
      unfold main
      dsimp only
      cases h1 : Time.parseTime fl.startTime with
      | none => exact ⟨_, _, rfl⟩
      | some i =>
        cases h2 : Time.parseTime fl.endTime with
        | none => exact ⟨_, _, rfl⟩
        | some j => exact absurd ⟨i.toUnixSeconds, j.toUnixSeconds, by simp [TraderPeriod, h1, h2]⟩ hp
    obtain ⟨lines, err, h⟩ := this
    rw [h]
    exact ⟨fun _ => ⟨rfl, rfl⟩, fun _ _ => ⟨by simp, rfl⟩, fun _ _ _ _ _ _ _ _ => rfl⟩

/-- **C82** (unusable side inputs). If the side history has no records in the period, or records with different numbers of
signals, or timestamps that are not positive and strictly increasing, the program aborts before it has changed any file. -/
theorem C82_side_refused (env : Env F) (fl : Flags D) (w : Files) (start stop : ℤ) (ticks : List (OhlcTick F))
    (l : List (SideInputRecord F)) (hl : Loads env fl w start stop ticks (some l)) (hv : ¬ (l ≠ [] ∧ ValidSideHistory l)) :
    (∃ e, (main env fl w).exit = .fault e) ∧ (main env fl w).files = w := by
  obtain ⟨i, j, pre, rfl, rfl, hm⟩ := trader_main_reads (env := env) (w := w) hl.period
  rw [hm]
  unfold readInputs
  dsimp only
  obtain ⟨n1, hn1⟩ := trader_readHistory_some hl.order hl.ticks
  rw [hn1]
  dsimp only
  rcases hl.side with ⟨h1, h2⟩ | ⟨h1, l', h2, h3⟩
  · cases h2
  · cases h2
    obtain ⟨n2, hn2⟩ := trader_readHistory_some hl.order h3
    rw [if_neg (by simpa using h1), hn2]
    dsimp only
    obtain ⟨c1, -, c3⟩ := C27_construct l
    by_cases hn : l = []
    · rw [c1 hn]; exact ⟨⟨_, rfl⟩, rfl⟩
    · rw [c3 hn (fun h => hv ⟨hn, h⟩)]; exact ⟨⟨_, rfl⟩, rfl⟩

/-! ### Files -/

private theorem write_other {w : Files} {name n : Text} {bytes : List UInt8} (h : n ≠ name) : w.write name bytes n = w n := by
  unfold Files.write; rw [if_neg h]

private theorem openLog_frame {canWrite : Text → Bool} {months : ℤ} {name : Text} {w : Files} {n : Text}
    (h : n ≠ name ∨ n = []) : (openLogFile canWrite months name w).1 n = w n := by
  unfold openLogFile
  split
  · rfl
  · split
    · rfl
    · split
      · refine write_other ?_
        rintro rfl
        rcases h with h | h
        · exact h rfl
        · subst h; simp at *
      · rfl

private theorem openLog_none {canWrite : Text → Bool} {months : ℤ} {name : Text} {w : Files} {s : Option Text}
    (h : (openLogFile canWrite months name w).2 = .ok s) : (name = [] ∧ s = none) ∨ (name ≠ [] ∧ s = some []) := by
  unfold openLogFile at h
  split at h
  · rename_i hn
    cases h
    exact .inl ⟨by simpa using hn, rfl⟩
  · rename_i hn
    split at h
    · cases h
    · split at h
      · cases h
        exact .inr ⟨by simpa using hn, rfl⟩
      · cases h

private theorem writeLog_frame {w : Files} {name n : Text} {s : Option Text} (h : n ≠ name ∨ s = none) :
    writeLog w name s n = w n := by
  unfold writeLog
  rcases h with h | rfl
  · cases s with
    | none => rfl
    | some s => exact write_other h
  · rfl

private theorem after_none {fmt : Format F} {l : Logger.CsvLogger} {trace : List (Event F)} :
    (l.exchange = none → (l.after fmt trace).exchange = none) ∧ (l.trader = none → (l.after fmt trace).trader = none) := by
  obtain ⟨ex, tr⟩ := l
  constructor
  · rintro rfl; exact (C70_missing_stream fmt none tr trace).1
  · rintro rfl; exact (C70_missing_stream fmt ex none trace).2.1

/-- **C82** (frame). The program changes no files but the two logs it was asked for; a batch changes no files at all. -/
theorem C82_frame (env : Env F) (fl : Flags D) (w : Files) (n : Text)
    (h : fl.evaluateBatch = true ∨ n = [] ∨ n ≠ fl.outputExchangeLog ∧ n ≠ fl.outputTraderLog) :
    (main env fl w).files n = w n := by
  have key : ∀ cfg ticks side lines, (evaluate env fl cfg ticks side w lines).files n = w n := by
    intro cfg ticks side lines
    unfold evaluate
    split
    · unfold runBatch
      dsimp only
      split
      · rfl
      · split
        · rfl
        · split
          · rfl
          · split <;> rfl
    · rename_i hb
      have h' : n = [] ∨ n ≠ fl.outputExchangeLog ∧ n ≠ fl.outputTraderLog := h.resolve_left hb
      have h1 : n ≠ fl.outputExchangeLog ∨ n = [] := h'.elim .inr (fun h => .inl h.1)
      have h2 : n ≠ fl.outputTraderLog ∨ n = [] := h'.elim .inr (fun h => .inl h.2)
      unfold runSingle
      dsimp only
      split
      · rfl
      · split
        · rename_i w1 u hw
          rw [← openLog_frame (canWrite := env.canWrite) (months := fl.months) (w := w) h1, hw]
        · rename_i w1 ex hw1
          have e1 := openLog_frame (canWrite := env.canWrite) (months := fl.months) (w := w) h1
          rw [hw1] at e1
          dsimp only at e1
          have s1 := openLog_none (congrArg Prod.snd hw1)
          split
          · rename_i w2 u hw
            rw [← e1, ← openLog_frame (canWrite := env.canWrite) (months := fl.months) (w := w1) h2, hw]
          · rename_i w2 tr hw2
            have e2 := openLog_frame (canWrite := env.canWrite) (months := fl.months) (w := w1) h2
            rw [hw2] at e2
            dsimp only at e2
            have s2 := openLog_none (congrArg Prod.snd hw2)
            have fr : ∀ log : Logger.CsvLogger, (ex = none → log.exchange = none) → (tr = none → log.trader = none) →
                writeLogs fl w2 log n = w n := by
              intro log l1 l2
              unfold writeLogs
              rw [writeLog_frame, writeLog_frame, e2, e1]
              · rcases h1 with h1 | rfl
                · exact .inl h1
                · rcases s1 with ⟨_, s1⟩ | ⟨s1, _⟩
                  · exact .inr (l1 s1)
                  · exact .inl s1.symm
              · rcases h2 with h2 | rfl
                · exact .inl h2
                · rcases s2 with ⟨_, s2⟩ | ⟨s2, _⟩
                  · exact .inr (l2 s2)
                  · exact .inl s2.symm
            split
            · refine fr _ (fun hn => ?_) (fun hn => ?_)
              · simp only [Option.map_eq_none_iff]
                exact (after_none (l := ⟨ex, tr⟩)).1 hn
              · simp only [Option.map_eq_none_iff]
                exact (after_none (l := ⟨ex, tr⟩)).2 hn
            · exact fr _ (after_none (l := ⟨ex, tr⟩)).1 (after_none (l := ⟨ex, tr⟩)).2
  unfold main
  dsimp only
  split
  · rfl
  · split
    · rfl
    · unfold readInputs
      dsimp only
      split
      · rfl
      · rfl
      · split
        · exact key _ _ _ _
        · split
          · rfl
          · rfl
          · split
            · rfl
            · exact key _ _ _ _

/-! ### One trader -/

/-- The stream behind a name: none, or an empty one. -/
def streamOf (name : Text) : Option Text := if name = [] then none else some []

theorem trader_openLog_ok {canWrite : Text → Bool} {months : ℤ} {name : Text} (w : Files)
    (h : name ≠ [] → months ≤ 0 ∧ canWrite name = true) :
    openLogFile canWrite months name w = (writeLog w name (streamOf name), .ok (streamOf name)) := by
  unfold openLogFile streamOf
  by_cases hn : name = []
  · subst hn; rfl
  · obtain ⟨h1, h2⟩ := h hn
    rw [if_neg (by simpa using hn), if_neg (by omega), if_pos h2, if_neg hn]
    rfl

theorem trader_main_single {env : Env F} {fl : Flags D} {w : Files} {start stop : ℤ} {ticks : List (OhlcTick F)}
    {recs : Option (List (SideInputRecord F))} {side : Option (SideInput F)} (hl : Loads env fl w start stop ticks recs)
    (hside : SideOf recs side) (hb : fl.evaluateBatch = false) {b : BuiltIn F} (hn : getTrader fl.trader = .ok b)
    (ho : LogsOpen env fl) :
    ∃ lines, main env fl w =
      let run := evaluateTrader ⟨accountConfig fl, ⟨start, stop, fl.months, false⟩, ticks, side, b.emitter env.fmt⟩ true
      let log := (Logger.CsvLogger.mk (streamOf fl.outputExchangeLog) (streamOf fl.outputTraderLog)).after env.fmt run.trace
      let w := writeLog (writeLog w fl.outputExchangeLog (streamOf fl.outputExchangeLog)) fl.outputTraderLog
        (streamOf fl.outputTraderLog)
      match run.out with
      | .error e =>
        ⟨writeLogs fl w ⟨log.exchange.map (fun s => s.take (env.flushed s)), log.trader.map (fun s => s.take (env.flushed s))⟩,
          lines, .fault e, []⟩
      | .ok r =>
        ⟨writeLogs fl w log, lines ++ printTraderEvalResult env.fmt r ++ lastLines (env.seconds 2), .success, []⟩ := by
  obtain ⟨pre, hm⟩ := trader_main_loaded hl hside
  rw [hm]
  unfold evaluate
  rw [if_neg (by simp [hb])]
  unfold runSingle
  dsimp only
  rw [hn]
  dsimp only
  rw [trader_openLog_ok w (ho _ (.inl rfl))]
  dsimp only
  rw [trader_openLog_ok _ (ho _ (.inr rfl))]
  exact ⟨_, rfl⟩

theorem trader_after_map {fmt : Format F} {trace : List (Event F)} (ex tr : Text) :
    ((Logger.CsvLogger.mk (streamOf ex) (streamOf tr)).after fmt trace).exchange =
      (if ex = [] then none else ((Logger.CsvLogger.mk (some []) (some [])).after fmt trace).exchange) ∧
    ((Logger.CsvLogger.mk (streamOf ex) (streamOf tr)).after fmt trace).trader =
      (if tr = [] then none else ((Logger.CsvLogger.mk (some []) (some [])).after fmt trace).trader) := by
  rw [(after_eq fmt _ trace).1, (after_eq fmt _ trace).1, (after_eq fmt _ trace).2, (after_eq fmt _ trace).2]
  unfold streamOf
  constructor
  · split <;> rfl
  · dsimp only
    by_cases h : tr = [] <;> simp [h]

private theorem periodLine_eq (fmt : Format F) (p : Period F) : periodLine fmt p = periodReport fmt p := by
  unfold periodLine periodReport padLeft; rfl

/-- **C82** (one trader). Once the histories are read and the logs opened, the program does what `EvaluateTrader` does with
the ticks and side inputs of the period and the trader named: it succeeds if and only if that returns (otherwise it stops
with the same fault); it then prints one line per period of the result; and the log files hold exactly what the logger was
told, or, after a fault, the beginning of it. -/
theorem C82_single (env : Env F) (fl : Flags D) (w : Files) (start stop : ℤ) (ticks : List (OhlcTick F))
    (recs : Option (List (SideInputRecord F))) (side : Option (SideInput F)) (hl : Loads env fl w start stop ticks recs)
    (hside : SideOf recs side) (hb : fl.evaluateBatch = false) (b : BuiltIn F) (hn : getTrader fl.trader = .ok b)
    (ho : LogsOpen env fl) :
    ∃ run log, run = evaluateTrader ⟨accountConfig fl, ⟨start, stop, fl.months, false⟩, ticks, side, b.emitter env.fmt⟩ true ∧
      log = (Logger.CsvLogger.mk (some []) (some [])).after env.fmt run.trace ∧
      (∀ e, run.out = .error e → (main env fl w).exit = .fault e ∧
        (fl.outputExchangeLog ≠ [] → fl.outputExchangeLog ≠ fl.outputTraderLog → ∃ ex n, log.exchange = some ex ∧
          (main env fl w).files fl.outputExchangeLog = some (textBytes (ex.take n))) ∧
        (fl.outputTraderLog ≠ [] → ∃ tr n, log.trader = some tr ∧
          (main env fl w).files fl.outputTraderLog = some (textBytes (tr.take n)))) ∧
      (∀ r, run.out = .ok r → (main env fl w).exit = .success ∧
        (∃ header, '[' ∉ header ∧ header :: r.periods.map (periodReport env.fmt) <:+: (main env fl w).lines) ∧
        (fl.outputExchangeLog ≠ [] → fl.outputExchangeLog ≠ fl.outputTraderLog → ∃ ex, log.exchange = some ex ∧
          (main env fl w).files fl.outputExchangeLog = some (textBytes ex)) ∧
        (fl.outputTraderLog ≠ [] → ∃ tr, log.trader = some tr ∧
          (main env fl w).files fl.outputTraderLog = some (textBytes tr))) := by
  obtain ⟨pre, hm⟩ := trader_main_single hl hside hb hn ho
  refine ⟨_, _, rfl, rfl, ?_, ?_⟩
  all_goals
    dsimp only at hm
    set run := evaluateTrader ⟨accountConfig fl, ⟨start, stop, fl.months, false⟩, ticks, side, b.emitter env.fmt⟩ true with hrun
    obtain ⟨m1, m2⟩ := trader_after_map (fmt := env.fmt) (trace := run.trace) fl.outputExchangeLog fl.outputTraderLog
    obtain ⟨ex, e1⟩ : ∃ ex, ((Logger.CsvLogger.mk (some []) (some [])).after env.fmt run.trace).exchange = some ex :=
      ⟨_, (after_eq env.fmt (Logger.CsvLogger.mk (some []) (some [])) run.trace).1⟩
    obtain ⟨tr, e2⟩ : ∃ tr, ((Logger.CsvLogger.mk (some []) (some [])).after env.fmt run.trace).trader = some tr :=
      ⟨_, (after_eq env.fmt (Logger.CsvLogger.mk (some []) (some [])) run.trace).2⟩
  · intro e he
    rw [he] at hm
    dsimp only at hm
    rw [m1, m2] at hm
    rw [hm]
    refine ⟨rfl, fun h1 h2 => ⟨ex, env.flushed ex, e1, ?_⟩, fun h1 => ⟨tr, env.flushed tr, e2, ?_⟩⟩
    · unfold writeLogs
      dsimp only
      rw [writeLog_frame (.inl h2), if_neg h1, e1]
      simp only [Option.map_some, writeLog, Files.write, if_true]
    · unfold writeLogs
      dsimp only
      rw [if_neg h1, e2]
      simp only [Option.map_some, writeLog, Files.write, if_true]
  · intro r he
    rw [he] at hm
    dsimp only at hm
    rw [hm]
    refine ⟨rfl, ⟨?_, ?_, ⟨pre, lastLines (env.seconds 2), ?_⟩⟩, fun h1 h2 => ⟨_, e1, ?_⟩, fun h1 => ⟨_, e2, ?_⟩⟩
    · exact "------------------ period ------------------    trader & base gain    score    t&b volatility".toList
    · decide
    · dsimp only
      unfold printTraderEvalResult
      rw [List.map_congr_left (fun p _ => (periodLine_eq env.fmt p).symm)]
      rfl
    · unfold writeLogs
      rw [m1, m2]
      dsimp only
      rw [writeLog_frame (.inl h2), if_neg h1, e1]
      simp only [writeLog, Files.write, if_true]
    · unfold writeLogs
      rw [m1, m2]
      dsimp only
      rw [if_neg h1, e2]
      simp only [writeLog, Files.write, if_true]

/-- **C82** (refused logs). If a log is asked for that cannot be opened, or periods of several months are to be evaluated,
the program ends with `EXIT_FAILURE` without evaluating anything; the most that happens to the files is that the exchange log
is emptied. -/
theorem C82_logs_refused (env : Env F) (fl : Flags D) (w : Files) (start stop : ℤ) (ticks : List (OhlcTick F))
    (recs : Option (List (SideInputRecord F))) (side : Option (SideInput F)) (hl : Loads env fl w start stop ticks recs)
    (hside : SideOf recs side) (hb : fl.evaluateBatch = false) (b : BuiltIn F) (hn : getTrader fl.trader = .ok b)
    (ho : ¬ LogsOpen env fl) :
    (main env fl w).exit = .failure ∧
    (∀ n, n ≠ fl.outputExchangeLog → (main env fl w).files n = w n) ∧
    ((main env fl w).files fl.outputExchangeLog = w fl.outputExchangeLog ∨
      (main env fl w).files fl.outputExchangeLog = some []) := by
  obtain ⟨pre, hm⟩ := trader_main_loaded hl hside
  rw [hm]
  unfold evaluate
  rw [if_neg (by simp [hb])]
  unfold runSingle
  dsimp only
  rw [hn]
  dsimp only
  have hfail : ∀ name w, ¬ (name ≠ [] → fl.months ≤ 0 ∧ env.canWrite name = true) →
      ∃ m, openLogFile env.canWrite fl.months name w = (w, .error m) := by
    intro name w h
    unfold openLogFile
    push Not at h
    obtain ⟨h1, h2⟩ := h
    rw [if_neg (by simpa using h1)]
    split
    · exact ⟨_, rfl⟩
    · rw [if_neg (h2 (by omega))]
      exact ⟨_, rfl⟩
  by_cases h1 : fl.outputExchangeLog ≠ [] → fl.months ≤ 0 ∧ env.canWrite fl.outputExchangeLog = true
  · have h2 : ¬ (fl.outputTraderLog ≠ [] → fl.months ≤ 0 ∧ env.canWrite fl.outputTraderLog = true) := by
      intro h2
      apply ho
      rintro name (rfl | rfl)
      · exact h1
      · exact h2
    rw [trader_openLog_ok w h1]
    dsimp only
    obtain ⟨m, hm⟩ := hfail _ (writeLog w fl.outputExchangeLog (streamOf fl.outputExchangeLog)) h2
    rw [hm]
    dsimp only
    refine ⟨rfl, fun n hne => writeLog_frame (.inl hne), ?_⟩
    unfold streamOf
    split
    · exact .inl rfl
    · right; simp [writeLog, Files.write, textBytes]
  · obtain ⟨m, hm⟩ := hfail _ w h1
    rw [hm]
    exact ⟨rfl, fun _ _ => rfl, .inl rfl⟩

private theorem builtIn_rows {fmt : Format F} (hf : PlainFormat fmt) {recs : Option (List (SideInputRecord F))}
    {side : Option (SideInput F)} (hside : SideOf recs side) (b : BuiltIn F) (c : AccountConfig F) (ticks : List (OhlcTick F))
    (fast log : Bool) (row : String)
    (h : row ∈ traderRows (executeTrader c ticks side fast (b.emitter fmt).trader (b.emitter fmt).init log).trace) :
    '\n' ∉ row.toList := by
  have key : ∀ trace : List (Event F), row ∈ traderRows trace → ∃ before after, trace = before ++ .traderRow row :: after := by
    intro trace h
    unfold traderRows at h
    obtain ⟨e, he, h'⟩ := List.mem_filterMap.mp h
    obtain ⟨before, after, h''⟩ := List.append_of_mem he
    refine ⟨before, after, h''.trans ?_⟩
    cases e with
    | traderRow s => cases h'; rfl
    | _ => cases h'
  obtain ⟨before, after, h⟩ := key _ h
  cases b with
  | rebalancing cfg =>
    obtain ⟨_, _, _, _, _, _, _, h⟩ := C75_rebalancing_rows hf hside cfg c ticks fast log _ before after row h
    exact h
  | stop cfg =>
    obtain ⟨_, _, _, _, _, _, _, _, _, h⟩ := C75_stop_rows hf hside cfg c ticks fast log _ before after row h
    exact h

private theorem window_again {M : Type} {codec : Codec M} {ts : M → ℤ} {files : Files} {name : Text} {start stop : ℤ} {l : List M}
    (h : HoldsPeriod codec ts files name start stop l) :
    SortedBy ts l ∧ l.filter (fun m => decide (InWindow start stop (ts m))) = l := by
  obtain ⟨all, -, hs, rfl⟩ := h
  exact ⟨hs.sublist List.filter_sublist, by rw [List.filter_filter]; simp⟩

/-- **C82** (the whole period). With `--evaluation_period_months=0`, a successful run has back-tested the trader once, on all
ticks of the period: it prints the single line of this period; the exchange log has a line for every tick and every executed
order, the trader log a line for every tick with volume. -/
theorem C82_single_whole (env : Env F) (hf : PlainFormat env.fmt) (fl : Flags D) (w : Files) (start stop : ℤ)
    (ticks : List (OhlcTick F)) (recs : Option (List (SideInputRecord F))) (side : Option (SideInput F))
    (hl : Loads env fl w start stop ticks recs) (hside : SideOf recs side) (hb : fl.evaluateBatch = false) (b : BuiltIn F)
    (hn : getTrader fl.trader = .ok b) (ho : LogsOpen env fl) (hm : fl.months = 0)
    (hok : (main env fl w).exit = .success) :
    ∃ p, IsPeriod ⟨accountConfig fl, ⟨start, stop, 0, false⟩, ticks, side, b.emitter env.fmt⟩ start stop p ∧
      (executeTrader (accountConfig fl) ticks side false (b.emitter env.fmt).trader (b.emitter env.fmt).init false).out
        = .ok p.result ∧
      (∃ header, '[' ∉ header ∧ [header, periodReport env.fmt p] <:+: (main env fl w).lines) ∧
      (fl.outputExchangeLog ≠ [] → fl.outputExchangeLog ≠ fl.outputTraderLog → ∃ text,
        (main env fl w).files fl.outputExchangeLog = some (textBytes text) ∧
        (Convert.linesOf text).length = ticks.length + p.result.totalExecutedOrders) ∧
      (fl.outputTraderLog ≠ [] → ∃ text, (main env fl w).files fl.outputTraderLog = some (textBytes text) ∧
        (Convert.linesOf text).length = (ticks.filter active).length) := by
  obtain ⟨run, log, hrun, hlog, hbad, hgood⟩ := C82_single env fl w start stop ticks recs side hl hside hb b hn ho
  obtain ⟨hs, hwin⟩ := window_again hl.ticks
  rw [hm] at hrun
  cases ht : run.out with
  | error e => rw [(hbad e ht).1] at hok; cases hok
  | ok r =>
    obtain ⟨-, ⟨header, hh, hlines⟩, hex, htr⟩ := hgood r ht
    have hne : windowTicks ticks start stop ≠ [] := by
      intro he
      exact C36_never_returns ⟨accountConfig fl, ⟨start, stop, 0, false⟩, ticks, side, b.emitter env.fmt⟩
        (.inr ⟨rfl, hs, he⟩) true r (by rw [← hrun, ht])
    obtain ⟨h1, -, -, h4⟩ := C36_single ⟨accountConfig fl, ⟨start, stop, 0, false⟩, ticks, side, b.emitter env.fmt⟩ hs rfl hne true
    obtain ⟨p, hp, hr⟩ := h1 r (by rw [← hrun, ht])
    have hwin' : windowTicks ticks start stop = ticks := hwin
    have hres := hp.result
    dsimp only at hres h4
    rw [hwin'] at hres h4
    rw [← hrun] at h4
    refine ⟨p, hp, hres, ⟨header, hh, by rw [hr] at hlines; exact hlines⟩, fun h1 h2 => ?_, fun h1 => ?_⟩
    · obtain ⟨text, e1, e2⟩ := hex h1 h2
      refine ⟨text, e2, ?_⟩
      obtain ⟨text', e3, e4⟩ := C70_number_of_lines hf hside (accountConfig fl) ticks false (b.emitter env.fmt).trader
        (b.emitter env.fmt).init (r := p.result) (by rw [(C31_logger _ _ _ _ _ _).1]; exact hres) (some [])
      rw [← h4, ← hlog, e1] at e3
      rw [Option.some.inj e3]
      exact e4
    · obtain ⟨text, e1, e2⟩ := htr h1
      refine ⟨text, e2, ?_⟩
      obtain ⟨text', e3, -, e4⟩ := C75_number_of_lines env.fmt hside (accountConfig fl) ticks false (b.emitter env.fmt).trader
        (b.emitter env.fmt).init (fun row h => builtIn_rows hf hside b _ _ _ _ row h) (r := p.result)
        (by rw [(C31_logger _ _ _ _ _ _).1]; exact hres) (some []) []
      rw [← h4, ← hlog, e1, List.nil_append] at e3
      rw [Option.some.inj e3]
      exact e4

/-- **C82** (nothing to evaluate). If the period contains no ticks and is to be evaluated as a whole, or the number of months
is negative, the program never succeeds: it does not even return (or aborts before that). -/
theorem C82_nothing_selected (env : Env F) (fl : Flags D) (w : Files) (start stop : ℤ) (ticks : List (OhlcTick F))
    (recs : Option (List (SideInputRecord F))) (side : Option (SideInput F)) (hl : Loads env fl w start stop ticks recs)
    (hside : SideOf recs side) (hb : fl.evaluateBatch = false) (b : BuiltIn F) (hn : getTrader fl.trader = .ok b)
    (ho : LogsOpen env fl) (h : fl.months < 0 ∨ fl.months = 0 ∧ ticks = []) : ∃ e, (main env fl w).exit = .fault e := by
  obtain ⟨run, log, hrun, hlog, hbad, hgood⟩ := C82_single env fl w start stop ticks recs side hl hside hb b hn ho
  obtain ⟨hs, hwin⟩ := window_again hl.ticks
  cases ht : run.out with
  | error e => exact ⟨e, (hbad e ht).1⟩
  | ok r =>
    refine absurd (by rw [← hrun, ht]) (C36_never_returns
      ⟨accountConfig fl, ⟨start, stop, fl.months, false⟩, ticks, side, b.emitter env.fmt⟩ ?_ true r)
    rcases h with h | ⟨h1, h2⟩
    · exact .inl h
    · refine .inr ⟨h1, hs, ?_⟩
      subst h2; rfl

end generic
end Verif.Props
