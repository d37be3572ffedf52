import Verif.Spec.Console
import Verif.Props.TraderClean
import Verif.Props.SideCsv

/-!
# C99: what the programs print
-/

set_option linter.unusedSectionVars false
set_option linter.unusedSimpArgs false

namespace Verif.Props
open Verif Verif.Spec FloatOps

section convert
open Verif.Convert
variable {F : Type} [FloatOps F] [Libm F]

/-- The two lines on the period. -/
private theorem periodLines_eq {fl : Flags F} {a b : Time.Instant} (ha : Time.parseTime fl.startTime = some a)
    (hb : Time.parseTime fl.endTime = some b) : periodLines fl = ["Selected time period:".toList, periodText a b] := by
  unfold periodLines
  rw [ha, hb]
  rfl

private theorem selects {fl : Flags F} {a b : Time.Instant} (ha : Time.parseTime fl.startTime = some a)
    (hb : Time.parseTime fl.endTime = some b) : Selects fl a.toUnixSeconds b.toUnixSeconds :=
  ⟨by rw [ha]; rfl, by rw [hb]; rfl⟩

/-- **C99** (convert.cc, times). A time that cannot be parsed is named, and nothing else is printed. -/
theorem C99_convert_times (env : Env F) (fl : Flags F) (w : Files) :
    (Time.parseTime fl.startTime = none →
      main env fl w = ⟨w, [], .failure, ["Cannot parse datetime: ".toList ++ fl.startTime]⟩) ∧
    (Time.parseTime fl.startTime ≠ none → Time.parseTime fl.endTime = none →
      main env fl w = ⟨w, [], .failure, ["Cannot parse datetime: ".toList ++ fl.endTime]⟩) := by
  unfold main
  constructor
  · intro h; rw [h]; rfl
  · intro h1 h2
    obtain ⟨a, ha⟩ := Option.ne_none_iff_exists'.mp h1
    rw [ha, h2]; rfl

/-- **C99** (convert.cc, input flags). Unless exactly one input file is named, what is wrong is said: two files with prices,
two files with ticks, no file at all, or files of different kinds. -/
theorem C99_convert_flags (env : Env F) (fl : Flags F) (w : Files) (a b : Time.Instant)
    (ha : Time.parseTime fl.startTime = some a) (hb : Time.parseTime fl.endTime = some b) (h1 : ¬ OneInput fl) :
    ∃ message : String, main env fl w = ⟨w, ["Selected time period:".toList, periodText a b], .failure, [message.toList]⟩ ∧
      (fl.inputPriceCsv ≠ [] ∧ fl.inputPriceProto ≠ [] ∧ message = "Cannot have two input price history files" ∨
      ¬ (fl.inputPriceCsv ≠ [] ∧ fl.inputPriceProto ≠ []) ∧ fl.inputOhlcCsv ≠ [] ∧ fl.inputOhlcProto ≠ [] ∧
        message = "Cannot have two input OHLC history files" ∨
      fl.inputPriceCsv = [] ∧ fl.inputPriceProto = [] ∧ fl.inputOhlcCsv = [] ∧ fl.inputOhlcProto = [] ∧ fl.inputSideCsv = [] ∧
        message = "Input history file not specified" ∨
      ¬ (fl.inputPriceCsv ≠ [] ∧ fl.inputPriceProto ≠ []) ∧ ¬ (fl.inputOhlcCsv ≠ [] ∧ fl.inputOhlcProto ≠ []) ∧
        ((fl.inputPriceCsv ≠ [] ∨ fl.inputPriceProto ≠ []) ∧ (fl.inputOhlcCsv ≠ [] ∨ fl.inputOhlcProto ≠ []) ∨
          (fl.inputPriceCsv ≠ [] ∨ fl.inputPriceProto ≠ []) ∧ fl.inputSideCsv ≠ [] ∨
          (fl.inputOhlcCsv ≠ [] ∨ fl.inputOhlcProto ≠ []) ∧ fl.inputSideCsv ≠ []) ∧
        message = "Cannot read more than one input history file") := by
  have hm : ∀ message, checkInputs fl = some message →
      main env fl w = ⟨w, ["Selected time period:".toList, periodText a b], .failure, [message]⟩ := by
    intro message h
    unfold main
    rw [ha, hb]
    dsimp only
    rw [h]
    rfl
  have e1 : fl.inputPriceCsv = [] ∨ fl.inputPriceCsv.isEmpty = false ∧ fl.inputPriceCsv ≠ [] := by
    rcases fl.inputPriceCsv <;> simp
  have e2 : fl.inputPriceProto = [] ∨ fl.inputPriceProto.isEmpty = false ∧ fl.inputPriceProto ≠ [] := by
    rcases fl.inputPriceProto <;> simp
  have e3 : fl.inputOhlcCsv = [] ∨ fl.inputOhlcCsv.isEmpty = false ∧ fl.inputOhlcCsv ≠ [] := by
    rcases fl.inputOhlcCsv <;> simp
  have e4 : fl.inputOhlcProto = [] ∨ fl.inputOhlcProto.isEmpty = false ∧ fl.inputOhlcProto ≠ [] := by
    rcases fl.inputOhlcProto <;> simp
  have e5 : fl.inputSideCsv = [] ∨ fl.inputSideCsv.isEmpty = false ∧ fl.inputSideCsv ≠ [] := by
    rcases fl.inputSideCsv <;> simp
  by_cases hp : fl.inputPriceCsv ≠ [] ∧ fl.inputPriceProto ≠ []
  · refine ⟨_, hm _ ?_, .inl ⟨hp.1, hp.2, rfl⟩⟩
    unfold checkInputs
    simp [hp.1, hp.2]
  by_cases ho : fl.inputOhlcCsv ≠ [] ∧ fl.inputOhlcProto ≠ []
  · refine ⟨_, hm _ ?_, .inr (.inl ⟨hp, ho.1, ho.2, rfl⟩)⟩
    unfold checkInputs
    rcases e1 with e1 | ⟨-, e1⟩ <;> rcases e2 with e2 | ⟨-, e2⟩ <;> simp_all
  by_cases hz : fl.inputPriceCsv = [] ∧ fl.inputPriceProto = [] ∧ fl.inputOhlcCsv = [] ∧ fl.inputOhlcProto = [] ∧
      fl.inputSideCsv = []
  · obtain ⟨z1, z2, z3, z4, z5⟩ := hz
    refine ⟨_, hm _ ?_, .inr (.inr (.inl ⟨z1, z2, z3, z4, z5, rfl⟩))⟩
    unfold checkInputs
    simp [z1, z2, z3, z4, z5]
  · have hmore : (fl.inputPriceCsv ≠ [] ∨ fl.inputPriceProto ≠ []) ∧ (fl.inputOhlcCsv ≠ [] ∨ fl.inputOhlcProto ≠ []) ∨
          (fl.inputPriceCsv ≠ [] ∨ fl.inputPriceProto ≠ []) ∧ fl.inputSideCsv ≠ [] ∨
          (fl.inputOhlcCsv ≠ [] ∨ fl.inputOhlcProto ≠ []) ∧ fl.inputSideCsv ≠ [] := by
      unfold OneInput at h1
      rcases e1 with e1 | ⟨-, e1⟩ <;> rcases e2 with e2 | ⟨-, e2⟩ <;> rcases e3 with e3 | ⟨-, e3⟩ <;>
        rcases e4 with e4 | ⟨-, e4⟩ <;> rcases e5 with e5 | ⟨-, e5⟩ <;> simp_all
    refine ⟨_, hm _ ?_, .inr (.inr (.inr ⟨hp, ho, hmore, rfl⟩))⟩
    unfold checkInputs
    rcases e1 with e1 | ⟨-, e1⟩ <;> rcases e2 with e2 | ⟨-, e2⟩ <;> rcases e3 with e3 | ⟨-, e3⟩ <;>
      rcases e4 with e4 | ⟨-, e4⟩ <;> rcases e5 with e5 | ⟨-, e5⟩ <;> simp_all

/-! ### Reading -/

private theorem csv_row {R : Type} {ts : R → ℤ} {scan : Text → R → R} {check : R → Option Complaint} {start stop : ℤ} {row : ℕ}
    {prev : ℤ} {cur : R} {lines : List Text} {e : LoadError} (h : csvLoop ts scan check start stop row prev cur lines = .error e) :
    ∃ i what line, e = .record (row + i + 1) what ∧ lines[i]? = some line := by
  rw [csvLoop_eq] at h
  obtain ⟨i, r, what, he, hi, -⟩ := recordLoop_error _ _ _ _ _ _ _ h
  have hlt : i < lines.length := by
    rw [← csvValues_length scan cur lines]
    exact (List.getElem?_eq_some_iff.mp hi).1
  exact ⟨i, what, lines[i], he, List.getElem?_eq_getElem hlt⟩

private theorem side_row {sc : Scanner F} {start stop : ℤ} {row : ℕ} {prev : ℤ} {num : ℕ} {lines : List Text} {e : LoadError}
    (h : sideLoop sc start stop row prev num lines = .error e) :
    ∃ i what line, e = .record (row + i + 1) what ∧ lines[i]? = some line := by
  induction lines generalizing row prev num with
  | nil => cases h
  | cons line lines ih =>
    unfold sideLoop at h
    dsimp only at h
    have hrec : ∀ {prev num}, sideLoop sc start stop (row + 1) prev num lines = .error e →
        ∃ i what line', e = .record (row + i + 1) what ∧ (line :: lines)[i]? = some line' := by
      intro prev num h
      obtain ⟨i, what, line', h1, h2⟩ := ih h
      exact ⟨i + 1, what, line', by rw [h1]; congr 1; omega, by simpa using h2⟩
    split at h
    · cases h; exact ⟨0, _, line, rfl, rfl⟩
    · rename_i t tail heq
      split at h
      · exact hrec h
      · split at h
        · cases h
        · split at h
          · cases h; exact ⟨0, _, line, rfl, rfl⟩
          · generalize (if num = 0 then (streamFloats sc tail.length tail).length else num) = num' at h
            split at h
            · cases h; exact ⟨0, _, line, rfl, rfl⟩
            · cases hl : sideLoop sc start stop (row + 1) t num' lines with
              | ok l => rw [hl] at h; cases h
              | error e' =>
                rw [hl] at h
                cases h
                exact hrec hl

private theorem csvMessage_eq {fmt : Format F} {name : Text} {prices : String} {view : Text → Text} {text : Text} {i : ℕ}
    {what : Complaint} {line : Text} (h : (linesOf text)[i]? = some line) :
    csvMessage fmt name prices.toList view (some text) (.record (i + 1) what) =
      [csvComplaint fmt prices what (i + 1) (view line)] := by
  unfold csvMessage csvComplaint
  simp only [Option.map_some, Option.getD_some, Nat.add_sub_cancel, List.getD_eq_getElem?_getD, h]
  cases what <;> rfl

private theorem textFile_none {w : Files} {name : Text} : textFile (w name) = none ↔ w name = none := by
  unfold textFile; simp

/-- **C99** (convert.cc, a CSV file with prices). If the file cannot be opened, this is said; if it cannot be loaded, the
message gives the number and the text of the line at which reading failed, and the reason (for which C65 applies). -/
theorem C99_price_csv_error (env : Env F) (fl : Flags F) (w : Files) (a b : Time.Instant)
    (ha : Time.parseTime fl.startTime = some a) (hb : Time.parseTime fl.endTime = some b) (h1 : OneInput fl)
    (hn : fl.inputPriceCsv ≠ []) (e : LoadError)
    (h : readPriceCsv env.scanner a.toUnixSeconds b.toUnixSeconds (textFile (w fl.inputPriceCsv)) = .error e) :
    ∃ message, main env fl w = ⟨w, ["Selected time period:".toList, periodText a b,
        "Reading price history from CSV file: ".toList ++ fl.inputPriceCsv], .failure, [message]⟩ ∧
      (w fl.inputPriceCsv = none ∧ e = .cannotOpen ∧ message = "Cannot open the file: ".toList ++ fl.inputPriceCsv ∨
      ∃ text i what line, textFile (w fl.inputPriceCsv) = some text ∧ e = .record (i + 1) what ∧
        (linesOf text)[i]? = some line ∧ message = csvComplaint env.fmt "Invalid price" what (i + 1) line) := by
  have hl : ∀ m, csvMessage env.fmt fl.inputPriceCsv "Invalid price".toList id (textFile (w fl.inputPriceCsv)) e = [m] →
      main env fl w = ⟨w, ["Selected time period:".toList, periodText a b,
        "Reading price history from CSV file: ".toList ++ fl.inputPriceCsv], .failure, [m]⟩ := by
    intro m hm
    have hld : loadPrice env fl w a.toUnixSeconds b.toUnixSeconds =
        (["Reading price history from CSV file: ".toList ++ fl.inputPriceCsv], .error [m]) := by
      unfold loadPrice
      rw [if_pos (by simpa using hn), h, ← hm]
      rfl
    rw [(convert_error (selects ha hb) h1).1 (by rw [hld]), hld, periodLines_eq ha hb]
    rfl
  unfold readPriceCsv at h
  cases ht : textFile (w fl.inputPriceCsv) with
  | none =>
    rw [ht] at h hl
    cases h
    exact ⟨_, hl _ rfl, .inl ⟨textFile_none.mp ht, rfl, rfl⟩⟩
  | some text =>
    rw [ht] at h hl
    obtain ⟨i, what, line, he, hi⟩ := csv_row h
    rw [Nat.zero_add] at he
    subst he
    exact ⟨_, hl _ (csvMessage_eq hi), .inr ⟨text, i, what, line, rfl, rfl, hi, rfl⟩⟩

/-- **C99** (convert.cc, a CSV file with ticks). -/
theorem C99_ohlc_csv_error (env : Env F) (fl : Flags F) (w : Files) (a b : Time.Instant)
    (ha : Time.parseTime fl.startTime = some a) (hb : Time.parseTime fl.endTime = some b) (h1 : OneInput fl)
    (hn : fl.inputOhlcCsv ≠ []) (e : LoadError)
    (h : readOhlcCsv env.scanner a.toUnixSeconds b.toUnixSeconds (textFile (w fl.inputOhlcCsv)) = .error e) :
    ∃ message, main env fl w = ⟨w, ["Selected time period:".toList, periodText a b,
        "Reading OHLC history from CSV file: ".toList ++ fl.inputOhlcCsv], .failure, [message]⟩ ∧
      (w fl.inputOhlcCsv = none ∧ e = .cannotOpen ∧ message = "Cannot open the file: ".toList ++ fl.inputOhlcCsv ∨
      ∃ text i what line, textFile (w fl.inputOhlcCsv) = some text ∧ e = .record (i + 1) what ∧
        (linesOf text)[i]? = some line ∧ message = csvComplaint env.fmt "Invalid OHLC prices" what (i + 1) line) := by
  have hcases := oneInput_cases h1
  have hp : fl.inputPriceCsv = [] ∧ fl.inputPriceProto = [] := by tauto
  have hl : ∀ m, csvMessage env.fmt fl.inputOhlcCsv "Invalid OHLC prices".toList id (textFile (w fl.inputOhlcCsv)) e = [m] →
      main env fl w = ⟨w, ["Selected time period:".toList, periodText a b,
        "Reading OHLC history from CSV file: ".toList ++ fl.inputOhlcCsv], .failure, [m]⟩ := by
    intro m hm
    have hld0 : loadPrice env fl w a.toUnixSeconds b.toUnixSeconds = ([], .ok []) := by
      unfold loadPrice; simp [hp]
    have hld : loadOhlc env fl w a.toUnixSeconds b.toUnixSeconds =
        (["Reading OHLC history from CSV file: ".toList ++ fl.inputOhlcCsv], .error [m]) := by
      unfold loadOhlc
      rw [if_pos (by simpa using hn), h, ← hm]
      rfl
    rw [(convert_error (selects ha hb) h1).2.1 (by rw [hld0]) (by rw [hld]), hld0, hld, periodLines_eq ha hb]
    rfl
  unfold readOhlcCsv at h
  cases ht : textFile (w fl.inputOhlcCsv) with
  | none =>
    rw [ht] at h hl
    cases h
    exact ⟨_, hl _ rfl, .inl ⟨textFile_none.mp ht, rfl, rfl⟩⟩
  | some text =>
    rw [ht] at h hl
    obtain ⟨i, what, line, he, hi⟩ := csv_row h
    rw [Nat.zero_add] at he
    subst he
    exact ⟨_, hl _ (csvMessage_eq hi), .inr ⟨text, i, what, line, rfl, rfl, hi, rfl⟩⟩

/-- **C99** (convert.cc, a CSV file with side inputs). The line is printed with blanks in place of its commas. -/
theorem C99_side_csv_error (env : Env F) (fl : Flags F) (w : Files) (a b : Time.Instant)
    (ha : Time.parseTime fl.startTime = some a) (hb : Time.parseTime fl.endTime = some b) (h1 : OneInput fl)
    (hn : fl.inputSideCsv ≠ []) (e : LoadError)
    (h : readSideCsv env.scanner a.toUnixSeconds b.toUnixSeconds (textFile (w fl.inputSideCsv)) = .error e) :
    ∃ message, main env fl w = ⟨w, ["Selected time period:".toList, periodText a b,
        "Reading side history from CSV file: ".toList ++ fl.inputSideCsv], .failure, [message]⟩ ∧
      (w fl.inputSideCsv = none ∧ e = .cannotOpen ∧ message = "Cannot open the file: ".toList ++ fl.inputSideCsv ∨
      ∃ text i what line, textFile (w fl.inputSideCsv) = some text ∧ e = .record (i + 1) what ∧
        (linesOf text)[i]? = some line ∧
        message = csvComplaint env.fmt "" what (i + 1) (line.map (fun c => if c = ',' then ' ' else c))) := by
  have hcases := oneInput_cases h1
  have hp : fl.inputPriceCsv = [] ∧ fl.inputPriceProto = [] ∧ fl.inputOhlcCsv = [] ∧ fl.inputOhlcProto = [] := by tauto
  have hl : ∀ m, csvMessage env.fmt fl.inputSideCsv [] (fun line => line.map (fun c => if c = ',' then ' ' else c))
        (textFile (w fl.inputSideCsv)) e = [m] →
      main env fl w = ⟨w, ["Selected time period:".toList, periodText a b,
        "Reading side history from CSV file: ".toList ++ fl.inputSideCsv], .failure, [m]⟩ := by
    intro m hm
    have hld0 : loadPrice env fl w a.toUnixSeconds b.toUnixSeconds = ([], .ok []) := by
      unfold loadPrice; simp [hp]
    have hld1 : loadOhlc env fl w a.toUnixSeconds b.toUnixSeconds = ([], .ok []) := by
      unfold loadOhlc; simp [hp]
    have hld : loadSide env fl w a.toUnixSeconds b.toUnixSeconds =
        (["Reading side history from CSV file: ".toList ++ fl.inputSideCsv], .error [m]) := by
      unfold loadSide
      rw [if_pos (by simpa using hn), h, ← hm]
      rfl
    rw [(convert_error (selects ha hb) h1).2.2 (by rw [hld0]) (by rw [hld1]) (by rw [hld]), hld0, hld1, hld,
      periodLines_eq ha hb]
    rfl
  unfold readSideCsv at h
  cases ht : textFile (w fl.inputSideCsv) with
  | none =>
    rw [ht] at h hl
    cases h
    exact ⟨_, hl _ rfl, .inl ⟨textFile_none.mp ht, rfl, rfl⟩⟩
  | some text =>
    rw [ht] at h hl
    obtain ⟨i, what, line, he, hi⟩ := side_row h
    rw [Nat.zero_add] at he
    subst he
    exact ⟨_, hl _ (csvMessage_eq (prices := "") hi), .inr ⟨text, i, what, line, rfl, rfl, hi, rfl⟩⟩

/-! ### Messages -/

private theorem output_message {M : Type} {canWrite : Text → Bool} {codec : Codec M} {debug : M → List Text} {l : List M}
    {name : Text} {w w' : Files} {st : Status} (h : output canWrite codec l name w = (w', st)) (hst : st ≠ .ok) :
    name ≠ [] ∧ (canWrite name = false ∧ outputMessage canWrite codec debug l name =
        ["Cannot open the input file: ".toList ++ name] ∨
      canWrite name = true ∧ ∃ m ∈ l, ¬ Writable codec m ∧
        outputMessage canWrite codec debug l name = "Cannot serialize the message:".toList :: debug m) := by
  unfold output writeHistory at h
  split at h
  · rename_i hc
    have hname : name ≠ [] := by
      rintro rfl; simp at hc
    refine ⟨hname, ?_⟩
    unfold outputMessage
    split at h
    · rename_i hw
      rw [if_pos hw]
      refine .inr ⟨hw, ?_⟩
      have hx : (Proto.writeMessages codec l []).2 ≠ .ok := by
        have := congrArg Prod.snd h
        dsimp only at this
        rw [this]; exact hst
      cases hf : l.find? (fun m => (Proto.serializeDelimited codec m).isNone) with
      | none =>
        exfalso
        apply hx
        have hall : ∀ m ∈ l, Writable codec m := by
          intro m hm
          by_contra hw'
          have := List.find?_eq_none.mp hf m hm
          rw [(serialize_eq codec m).2 hw'] at this
          simp at this
        rw [(C62_write codec l []).1 hall]
      | some m =>
        refine ⟨m, List.mem_of_find?_eq_some hf, ?_, rfl⟩
        intro hw'
        have := List.find?_some hf
        rw [(serialize_eq codec m).1 hw'] at this
        simp at this
    · rename_i hw
      rw [if_neg hw]
      exact .inl ⟨by simpa using hw, rfl⟩
  · cases h; exact absurd rfl hst

private theorem load_message {env : Env F} {fl : Flags F} {w : Files} {start stop : ℤ} :
    (∀ m, (loadPrice env fl w start stop).2 = .error m → m ≠ []) ∧ (∀ m, (loadOhlc env fl w start stop).2 = .error m → m ≠ []) ∧
    (∀ m, (loadSide env fl w start stop).2 = .error m → m ≠ []) := by
  have hc : ∀ (name prices : Text) view file e, csvMessage env.fmt name prices view file e ≠ [] := by
    intro name prices view file e
    unfold csvMessage; split <;> exact List.cons_ne_nil _ _
  have hp : ∀ {R : Type} (name prices : Text) (debug : R → List Text) e, protoMessage env.fmt name prices debug e ≠ [] := by
    intro R name prices debug e
    unfold protoMessage; split <;> exact List.cons_ne_nil _ _
  have hl : ∀ {R E : Type} (o n : Text) (what : String) (msg : E → List Text) (r : Except E (List R)) m, (∀ e, msg e ≠ []) →
      (load env o n what msg r).2 = .error m → m ≠ [] := by
    intro R E o n what msg r m hmsg h
    cases r with
    | error e => unfold load at h; cases h; exact hmsg e
    | ok l => unfold load at h; cases h
  refine ⟨fun m h => ?_, fun m h => ?_, fun m h => ?_⟩
  · unfold loadPrice at h
    split at h
    · exact hl _ _ _ _ _ _ (hc _ _ _ _) h
    · split at h
      · exact hl _ _ _ _ _ _ (hp _ _ _) h
      · cases h
  · unfold loadOhlc at h
    split at h
    · exact hl _ _ _ _ _ _ (hc _ _ _ _) h
    · split at h
      · exact hl _ _ _ _ _ _ (hp _ _ _) h
      · cases h
  · unfold loadSide at h
    split at h
    · exact hl _ _ _ _ _ _ (hc _ _ _ _) h
    · cases h

private theorem writeOutputs_message {env : Env F} {fl : Flags F} {price : List (PriceRecord F)} {ohlc : List (OhlcTick F)}
    {side : List (SideInputRecord F)} {w : Files} {lines : List Text} :
    (writeOutputs env fl price ohlc side w lines).exit = .success ∧ (writeOutputs env fl price ohlc side w lines).err = [] ∨
    (writeOutputs env fl price ohlc side w lines).exit = .failure ∧
      ∃ name ∈ [fl.outputPrice, fl.outputOhlc, fl.outputSide], name ≠ [] ∧
        (env.canWrite name = false ∧ (writeOutputs env fl price ohlc side w lines).err =
            ["Cannot open the input file: ".toList ++ name] ∨
          env.canWrite name = true ∧ ∃ message : List Text,
            ((∃ r ∈ price, ¬ Writable env.priceCodec r ∧ message = env.debugPrice r) ∨
              (∃ t ∈ ohlc, ¬ Writable env.ohlcCodec t ∧ message = env.debugOhlc t) ∨
              ∃ r ∈ side, ¬ Writable env.sideCodec r ∧ message = env.debugSide r) ∧
            (writeOutputs env fl price ohlc side w lines).err = "Cannot serialize the message:".toList :: message) := by
  unfold writeOutputs
  dsimp only
  split
  · split
    · split
      · exact .inl ⟨rfl, rfl⟩
      · rename_i w3 st hst heq
        refine .inr ⟨rfl, fl.outputSide, by simp, ?_⟩
        obtain ⟨h1, h2⟩ := output_message (debug := env.debugSide) heq hst
        refine ⟨h1, ?_⟩
        rcases h2 with h2 | ⟨h2, m, h3, h4, h5⟩
        · exact .inl h2
        · exact .inr ⟨h2, _, .inr (.inr ⟨m, h3, h4, rfl⟩), h5⟩
    · rename_i w3 st hst heq
      refine .inr ⟨rfl, fl.outputOhlc, by simp, ?_⟩
      obtain ⟨h1, h2⟩ := output_message (debug := env.debugOhlc) heq hst
      refine ⟨h1, ?_⟩
      rcases h2 with h2 | ⟨h2, m, h3, h4, h5⟩
      · exact .inl h2
      · exact .inr ⟨h2, _, .inr (.inl ⟨m, h3, h4, rfl⟩), h5⟩
  · rename_i w3 st hst heq
    refine .inr ⟨rfl, fl.outputPrice, by simp, ?_⟩
    obtain ⟨h1, h2⟩ := output_message (debug := env.debugPrice) heq hst
    refine ⟨h1, ?_⟩
    rcases h2 with h2 | ⟨h2, m, h3, h4, h5⟩
    · exact .inl h2
    · exact .inr ⟨h2, _, .inl ⟨m, h3, h4, rfl⟩, h5⟩

/-- **C99** (convert.cc, messages). The program writes to standard error if and only if it ends with `EXIT_FAILURE`. -/
theorem C99_convert_messages (env : Env F) (fl : Flags F) (w : Files) :
    (main env fl w).exit = .failure ↔ (main env fl w).err ≠ [] := by
  have key : ∀ price ohlc side lines, (writeOutputs env fl price ohlc side w lines).exit = .failure ↔
      (writeOutputs env fl price ohlc side w lines).err ≠ [] := by
    intro price ohlc side lines
    rcases writeOutputs_message (env := env) (fl := fl) (price := price) (ohlc := ohlc) (side := side) (w := w) (lines := lines)
      with ⟨h1, h2⟩ | ⟨h1, name, -, -, h2⟩
    · rw [h1, h2]; simp
    · rw [h1]
      rcases h2 with ⟨-, h2⟩ | ⟨-, m, -, h2⟩ <;> rw [h2] <;> exact ⟨fun _ => List.cons_ne_nil _ _, fun _ => rfl⟩
  have m := fun start stop => load_message (env := env) (fl := fl) (w := w) (start := start) (stop := stop)
  unfold main
  split
  · exact ⟨fun _ => List.cons_ne_nil _ _, fun _ => rfl⟩
  · split
    · exact ⟨fun _ => List.cons_ne_nil _ _, fun _ => rfl⟩
    · dsimp only
      split
      · exact ⟨fun _ => List.cons_ne_nil _ _, fun _ => rfl⟩
      · split
        · rename_i heq
          have := (m _ _).1 _ (congrArg Prod.snd heq)
          exact ⟨fun _ => this, fun _ => rfl⟩
        · split
          · rename_i heq
            have := (m _ _).2.1 _ (congrArg Prod.snd heq)
            exact ⟨fun _ => this, fun _ => rfl⟩
          · split
            · rename_i heq
              have := (m _ _).2.2 _ (congrArg Prod.snd heq)
              exact ⟨fun _ => this, fun _ => rfl⟩
            · unfold convertAndWrite
              dsimp only
              split
              · split
                · simp
                · exact key _ _ _ _
              · exact key _ _ _ _

private theorem convert_silent {env : Env F} {fl : Flags F} {w : Files} (h : (main env fl w).exit = .success) :
    (main env fl w).err = [] := by
  by_contra hne
  rw [(C99_convert_messages env fl w).mpr hne] at h
  cases h

private theorem proto_cases {R : Type} {codec : Codec R} {ts : R → ℤ} {check : R → Option Complaint} {start stop : ℤ}
    {file : Option (List UInt8)} {e : LoadError} {about : Option R}
    (h : readHistoryProto codec ts check start stop file = .error (e, about)) :
    (file = none ∧ e = .cannotOpen ∧ about = none) ∨ (file ≠ none ∧ e = .cannotParse ∧ about = none) ∨
      ∃ n what m, e = .record n what ∧ about = some m := by
  rcases readHistoryProto_error (good := fun r => check r = none) (fun _ => Iff.rfl) h with
    ⟨h1, h2, h3⟩ | ⟨bytes, hf, h⟩
  · exact .inl ⟨h3, h1, h2⟩
  · rcases h with ⟨h1, h2, -⟩ | ⟨i, m, what, -, h2, h3, -⟩
    · exact .inr (.inl ⟨by simp [hf], h1, h2⟩)
    · exact .inr (.inr ⟨_, what, m, h3, h2⟩)

private theorem protoMessage_eq {R : Type} {fmt : Format F} {name : Text} {prices : String} {debug : R → List Text} {n : ℕ}
    {what : Complaint} {m : R} :
    protoMessage fmt name prices.toList debug (.record n what, some m) = protoComplaint fmt prices what n (debug m) := by
  unfold protoMessage protoComplaint
  cases what <;> rfl

/-- **C99** (convert.cc, a proto file with prices). If the file cannot be opened, or goes on with something that is not a
message, this is said; otherwise the message is about a record, which it prints after its number (see C65 for its meaning). -/
theorem C99_price_proto_error (env : Env F) (fl : Flags F) (w : Files) (a b : Time.Instant)
    (ha : Time.parseTime fl.startTime = some a) (hb : Time.parseTime fl.endTime = some b) (h1 : OneInput fl)
    (hn : fl.inputPriceProto ≠ []) (e : LoadError) (about : Option (PriceRecord F))
    (h : readPriceProto env.priceCodec a.toUnixSeconds b.toUnixSeconds (w fl.inputPriceProto) = .error (e, about)) :
    ∃ messages, main env fl w = ⟨w, ["Selected time period:".toList, periodText a b,
        "Reading history from delimited proto file: ".toList ++ fl.inputPriceProto], .failure, messages⟩ ∧
      (w fl.inputPriceProto = none ∧ messages = ["Cannot open the input file: ".toList ++ fl.inputPriceProto] ∨
      w fl.inputPriceProto ≠ none ∧ e = .cannotParse ∧ messages = ["Cannot parse the input stream".toList] ∨
      ∃ n what r, e = .record n what ∧ about = some r ∧
        messages = protoComplaint env.fmt "Invalid price" what n (env.debugPrice r)) := by
  have hcases := oneInput_cases h1
  have hp : fl.inputPriceCsv = [] := by tauto
  have hl : main env fl w = ⟨w, ["Selected time period:".toList, periodText a b,
        "Reading history from delimited proto file: ".toList ++ fl.inputPriceProto], .failure,
        protoMessage env.fmt fl.inputPriceProto "Invalid price".toList env.debugPrice (e, about)⟩ := by
    have hld : loadPrice env fl w a.toUnixSeconds b.toUnixSeconds =
        (["Reading history from delimited proto file: ".toList ++ fl.inputPriceProto],
          .error (protoMessage env.fmt fl.inputPriceProto "Invalid price".toList env.debugPrice (e, about))) := by
      unfold loadPrice
      rw [if_neg (by simp [hp]), if_pos (by simpa using hn), h]
      rfl
    rw [(convert_error (selects ha hb) h1).1 (by rw [hld]), hld, periodLines_eq ha hb]
    rfl
  refine ⟨_, hl, ?_⟩
  rcases proto_cases h with ⟨c1, rfl, rfl⟩ | ⟨c1, rfl, rfl⟩ | ⟨n, what, m, rfl, rfl⟩
  · exact .inl ⟨c1, rfl⟩
  · exact .inr (.inl ⟨c1, rfl, rfl⟩)
  · exact .inr (.inr ⟨n, what, m, rfl, rfl, protoMessage_eq⟩)

/-- **C99** (convert.cc, a proto file with ticks). -/
theorem C99_ohlc_proto_error (env : Env F) (fl : Flags F) (w : Files) (a b : Time.Instant)
    (ha : Time.parseTime fl.startTime = some a) (hb : Time.parseTime fl.endTime = some b) (h1 : OneInput fl)
    (hn : fl.inputOhlcProto ≠ []) (e : LoadError) (about : Option (OhlcTick F))
    (h : readOhlcProto env.ohlcCodec a.toUnixSeconds b.toUnixSeconds (w fl.inputOhlcProto) = .error (e, about)) :
    ∃ messages, main env fl w = ⟨w, ["Selected time period:".toList, periodText a b,
        "Reading history from delimited proto file: ".toList ++ fl.inputOhlcProto], .failure, messages⟩ ∧
      (w fl.inputOhlcProto = none ∧ messages = ["Cannot open the input file: ".toList ++ fl.inputOhlcProto] ∨
      w fl.inputOhlcProto ≠ none ∧ e = .cannotParse ∧ messages = ["Cannot parse the input stream".toList] ∨
      ∃ n what t, e = .record n what ∧ about = some t ∧
        messages = protoComplaint env.fmt "Invalid OHLC prices" what n (env.debugOhlc t)) := by
  have hcases := oneInput_cases h1
  have hp : fl.inputPriceCsv = [] ∧ fl.inputPriceProto = [] ∧ fl.inputOhlcCsv = [] := by tauto
  have hl : main env fl w = ⟨w, ["Selected time period:".toList, periodText a b,
        "Reading history from delimited proto file: ".toList ++ fl.inputOhlcProto], .failure,
        protoMessage env.fmt fl.inputOhlcProto "Invalid OHLC prices".toList env.debugOhlc (e, about)⟩ := by
    have hld0 : loadPrice env fl w a.toUnixSeconds b.toUnixSeconds = ([], .ok []) := by
      unfold loadPrice; simp [hp]
    have hld : loadOhlc env fl w a.toUnixSeconds b.toUnixSeconds =
        (["Reading history from delimited proto file: ".toList ++ fl.inputOhlcProto],
          .error (protoMessage env.fmt fl.inputOhlcProto "Invalid OHLC prices".toList env.debugOhlc (e, about))) := by
      unfold loadOhlc
      rw [if_neg (by simp [hp]), if_pos (by simpa using hn), h]
      rfl
    rw [(convert_error (selects ha hb) h1).2.1 (by rw [hld0]) (by rw [hld]), hld0, hld, periodLines_eq ha hb]
    rfl
  refine ⟨_, hl, ?_⟩
  rcases proto_cases h with ⟨c1, rfl, rfl⟩ | ⟨c1, rfl, rfl⟩ | ⟨n, what, m, rfl, rfl⟩
  · exact .inl ⟨c1, rfl⟩
  · exact .inr (.inl ⟨c1, rfl, rfl⟩)
  · exact .inr (.inr ⟨n, what, m, rfl, rfl, protoMessage_eq⟩)

/-! ### Success -/

private theorem loadedLine_eq {env : Env F} {n : ℕ} {what : String} :
    loadedLine env n what = loadedText env.fmt n what (env.seconds 0) := by
  unfold loadedLine loadedText
  simp only [String.toList_append, List.append_assoc]

private theorem outputLines_eq {M : Type} {env : Env F} {k : ℕ} {l : List M} {name : Text} :
    outputLines env k l name = writtenText env.fmt l name (env.seconds k) := by
  unfold outputLines writtenText
  by_cases h1 : l = []
  · simp [h1]
  · by_cases h2 : name = []
    · simp [h2]
    · simp [h1, h2]

private theorem writeOutputs_success {env : Env F} {fl : Flags F} {price : List (PriceRecord F)} {ohlc : List (OhlcTick F)}
    {side : List (SideInputRecord F)} {w : Files} {lines : List Text}
    (h : (writeOutputs env fl price ohlc side w lines).exit = .success) :
    (writeOutputs env fl price ohlc side w lines).lines = lines ++ writtenText env.fmt price fl.outputPrice (env.seconds 1) ++
      writtenText env.fmt ohlc fl.outputOhlc (env.seconds 2) ++ writtenText env.fmt side fl.outputSide (env.seconds 3) := by
  unfold writeOutputs at h ⊢
  simp only [outputLines_eq] at h ⊢
  split at h
  · split at h
    · split at h
      · simp_all
      · cases h
    · cases h
  · cases h

private theorem written_nil {M : Type} {fmt : Format F} {name s : Text} : writtenText fmt ([] : List M) name s = [] := by
  unfold writtenText; simp

/-- **C99** (convert.cc, prices). When prices have been converted, standard output reads, in this order and nothing else: the
period, the file read and the number of records loaded, the gaps, the report on the conversion if there was one, and for each
file written its name and the number of records in it. -/
theorem C99_convert_prices (env : Env F) (fl : Flags F) (w : Files) (a b : Time.Instant)
    (ha : Time.parseTime fl.startTime = some a) (hb : Time.parseTime fl.endTime = some b) (h1 : OneInput fl)
    (l : List (PriceRecord F)) (reading : Text)
    (hin : fl.inputPriceCsv ≠ [] ∧
        readPriceCsv env.scanner a.toUnixSeconds b.toUnixSeconds (textFile (w fl.inputPriceCsv)) = .ok l ∧
        reading = "Reading price history from CSV file: ".toList ++ fl.inputPriceCsv ∨
      fl.inputPriceProto ≠ [] ∧ readPriceProto env.priceCodec a.toUnixSeconds b.toUnixSeconds (w fl.inputPriceProto) = .ok l ∧
        reading = "Reading history from delimited proto file: ".toList ++ fl.inputPriceProto)
    (hok : (main env fl w).exit = .success) :
    ∃ report ticks,
      (l = [] ∨ fl.outputOhlc = [] → report = [] ∧ ticks = []) ∧
      (l ≠ [] → fl.outputOhlc ≠ [] →
        convertPriceHistory env.fmt fl.maxDeviation fl.samplingRate fl.lastNOutliers l = .ok (report, ticks)) ∧
      (main env fl w).lines =
        ["Selected time period:".toList, periodText a b, reading, loadedText env.fmt l.length "records" (env.seconds 0)] ++
        (if l = [] then [] else ("Top ".toList ++ (env.fmt.int fl.topNGaps).toList ++ " gaps:".toList) ::
          printPriceHistoryGaps env.fmt l (toSize fl.topNGaps)) ++
        report ++ writtenText env.fmt l fl.outputPrice (env.seconds 1) ++
        writtenText env.fmt ticks fl.outputOhlc (env.seconds 2) ∧
      (main env fl w).err = [] := by
  have hcases := oneInput_cases h1
  have hp : fl.inputOhlcCsv = [] ∧ fl.inputOhlcProto = [] ∧ fl.inputSideCsv = [] := by tauto
  have hld1 : loadOhlc env fl w a.toUnixSeconds b.toUnixSeconds = ([], .ok []) := by
    unfold loadOhlc; simp [hp]
  have hld2 : loadSide env fl w a.toUnixSeconds b.toUnixSeconds = ([], .ok []) := by
    unfold loadSide; simp [hp]
  have hld : loadPrice env fl w a.toUnixSeconds b.toUnixSeconds =
      ([reading, loadedText env.fmt l.length "records" (env.seconds 0)], .ok l) := by
    unfold loadPrice
    rcases hin with ⟨c1, c2, rfl⟩ | ⟨c1, c2, rfl⟩
    · rw [if_pos (by simpa using c1), c2]
      simp only [load, loadedLine_eq]
    · rw [if_neg (by have : fl.inputPriceCsv = [] := by tauto
                     simp [this]), if_pos (by simpa using c1), c2]
      simp only [load, loadedLine_eq]
  have hm := convert_ok (selects ha hb) h1 (env := env) (w := w) (price := l) (ohlc := []) (side := [])
    (by rw [hld]) (by rw [hld1]) (by rw [hld2])
  rw [hld, hld1, hld2, periodLines_eq ha hb] at hm
  have herr : (main env fl w).err = [] := convert_silent hok
  have hout : ∀ {m : Outcome}, main env fl w = m → m.exit = .success := fun h => h ▸ hok
  unfold convertAndWrite at hm
  dsimp only at hm
  by_cases hl : l = []
  · subst hl
    refine ⟨[], [], fun _ => ⟨rfl, rfl⟩, fun h => absurd rfl h, ?_, herr⟩
    simp only [List.isEmpty_nil, Bool.not_true, Bool.false_and, Bool.false_eq_true, if_false, if_true] at hm
    rw [hm, writeOutputs_success (hout hm)]
    simp only [written_nil, List.append_nil, if_true]
    rfl
  · have hl' : l.isEmpty = false := by simpa using hl
    by_cases ho : fl.outputOhlc = []
    · refine ⟨[], [], fun _ => ⟨rfl, rfl⟩, fun _ h => absurd ho h, ?_, herr⟩
      simp only [hl', ho, List.isEmpty_nil, Bool.not_true, Bool.and_false, Bool.false_eq_true, if_false] at hm
      rw [hm, writeOutputs_success (hout hm)]
      simp only [written_nil, List.append_nil, hl, if_false]
      rfl
    · have ho' : fl.outputOhlc.isEmpty = false := by simpa using ho
      simp only [hl', ho', List.isEmpty_nil, Bool.not_false, Bool.and_true, Bool.true_and, Bool.false_eq_true, if_true,
        if_false] at hm
      cases hc : convertPriceHistory env.fmt fl.maxDeviation fl.samplingRate fl.lastNOutliers l with
      | error e =>
        rw [hc] at hm
        have := hout hm
        cases this
      | ok r =>
        obtain ⟨report, ticks⟩ := r
        rw [hc] at hm
        dsimp only at hm
        refine ⟨report, ticks, fun h => by tauto, fun _ _ => rfl, ?_, herr⟩
        rw [hm, writeOutputs_success (hout hm)]
        simp only [written_nil, List.append_nil, hl, if_false]
        rfl

/-- **C99** (convert.cc, the report on a conversion). The number of outliers is the number of positions left out (C20, C21), the
last of them are shown with five records before and behind (C79), the number of records resampled is the number of the
others, and the number of ticks is the number of ticks written. -/
theorem C99_conversion (fmt : Format F) (maxDev : F) (rate lastN : ℤ) (l : List (PriceRecord F)) (report : List Text)
    (ticks : List (OhlcTick F)) (h : convertPriceHistory fmt maxDev rate lastN l = .ok (report, ticks)) :
    ∃ kept outliers context, removeOutliers maxDev l = (kept, outliers) ∧ kept = keepOutside l outliers ∧
      (∀ i ∈ outliers, i < l.length) ∧ outliers.Pairwise (· < ·) ∧ resample rate kept = .ok ticks ∧
      printOutliersWithContext fmt l outliers 5 5 (toSize lastN) = .ok context ∧
      report = conversionText fmt l.length outliers.length ticks.length lastN context := by
  obtain ⟨h1, h2, h3, -, h5⟩ := C20_partition maxDev l
  unfold convertPriceHistory at h
  dsimp only at h
  cases hp : printOutliersWithContext fmt l (removeOutliers maxDev l).2 5 5 (toSize lastN) with
  | error e => rw [hp] at h; cases h
  | ok context =>
    rw [hp] at h
    simp only [bind, Except.bind, pure, Except.pure] at h
    by_cases hz : rate = 0 ∧ (removeOutliers maxDev l).1 ≠ []
    · rw [if_pos hz] at h; cases h
    · rw [if_neg hz] at h
      cases hr : resample rate (removeOutliers maxDev l).1 with
      | error e => rw [hr] at h; cases h
      | ok ticks' =>
        rw [hr] at h
        obtain ⟨hrep, rfl⟩ := Prod.mk.inj (Except.ok.inj h)
        refine ⟨(removeOutliers maxDev l).1, (removeOutliers maxDev l).2, context, rfl, h3, h2, h1, hr, hp, ?_⟩
        rw [← hrep]
        unfold conversionText
        have : ((l.length : ℤ) - ((removeOutliers maxDev l).2.length : ℤ)) = ((removeOutliers maxDev l).1.length : ℤ) := by omega
        rw [this]

/-- **C99** (convert.cc, ticks). When ticks have been read and written, standard output reads: the period, the file read and
the number of ticks loaded, and the file written. -/
theorem C99_convert_ticks (env : Env F) (fl : Flags F) (w : Files) (a b : Time.Instant)
    (ha : Time.parseTime fl.startTime = some a) (hb : Time.parseTime fl.endTime = some b) (h1 : OneInput fl)
    (l : List (OhlcTick F)) (reading : Text) (what : String)
    (hin : fl.inputOhlcCsv ≠ [] ∧ readOhlcCsv env.scanner a.toUnixSeconds b.toUnixSeconds (textFile (w fl.inputOhlcCsv)) = .ok l ∧
        reading = "Reading OHLC history from CSV file: ".toList ++ fl.inputOhlcCsv ∧ what = "OHLC ticks" ∨
      fl.inputOhlcProto ≠ [] ∧ readOhlcProto env.ohlcCodec a.toUnixSeconds b.toUnixSeconds (w fl.inputOhlcProto) = .ok l ∧
        reading = "Reading history from delimited proto file: ".toList ++ fl.inputOhlcProto ∧ what = "records")
    (hok : (main env fl w).exit = .success) :
    (main env fl w).lines =
        ["Selected time period:".toList, periodText a b, reading, loadedText env.fmt l.length what (env.seconds 0)] ++
        writtenText env.fmt l fl.outputOhlc (env.seconds 2) ∧
      (main env fl w).err = [] := by
  have hcases := oneInput_cases h1
  have hp : fl.inputPriceCsv = [] ∧ fl.inputPriceProto = [] ∧ fl.inputSideCsv = [] := by tauto
  have hld1 : loadPrice env fl w a.toUnixSeconds b.toUnixSeconds = ([], .ok []) := by
    unfold loadPrice; simp [hp]
  have hld2 : loadSide env fl w a.toUnixSeconds b.toUnixSeconds = ([], .ok []) := by
    unfold loadSide; simp [hp]
  have hld : loadOhlc env fl w a.toUnixSeconds b.toUnixSeconds =
      ([reading, loadedText env.fmt l.length what (env.seconds 0)], .ok l) := by
    unfold loadOhlc
    rcases hin with ⟨c1, c2, rfl, rfl⟩ | ⟨c1, c2, rfl, rfl⟩
    · rw [if_pos (by simpa using c1), c2]
      simp only [load, loadedLine_eq]
    · rw [if_neg (by have : fl.inputOhlcCsv = [] := by tauto
                     simp [this]), if_pos (by simpa using c1), c2]
      simp only [load, loadedLine_eq]
  have hm := convert_ok (selects ha hb) h1 (env := env) (w := w) (price := []) (ohlc := l) (side := [])
    (by rw [hld1]) (by rw [hld]) (by rw [hld2])
  rw [hld, hld1, hld2, periodLines_eq ha hb] at hm
  refine ⟨?_, convert_silent hok⟩
  have hout : ∀ {m : Outcome}, main env fl w = m → m.exit = .success := fun h => h ▸ hok
  unfold convertAndWrite at hm
  dsimp only at hm
  simp only [List.isEmpty_nil, Bool.not_true, Bool.false_and, Bool.false_eq_true, if_false, if_true] at hm
  rw [hm, writeOutputs_success (hout hm)]
  simp only [written_nil, List.append_nil]
  rfl

/-- **C99** (convert.cc, side inputs). When side inputs have been converted, standard output reads: the period, the file read
and the number of records loaded, and the file written. -/
theorem C99_convert_side (env : Env F) (fl : Flags F) (w : Files) (a b : Time.Instant)
    (ha : Time.parseTime fl.startTime = some a) (hb : Time.parseTime fl.endTime = some b) (h1 : OneInput fl)
    (l : List (SideInputRecord F)) (hne : fl.inputSideCsv ≠ [])
    (hin : readSideCsv env.scanner a.toUnixSeconds b.toUnixSeconds (textFile (w fl.inputSideCsv)) = .ok l)
    (hok : (main env fl w).exit = .success) :
    (main env fl w).lines =
        ["Selected time period:".toList, periodText a b, "Reading side history from CSV file: ".toList ++ fl.inputSideCsv,
          loadedText env.fmt l.length "records" (env.seconds 0)] ++
        writtenText env.fmt l fl.outputSide (env.seconds 3) ∧
      (main env fl w).err = [] := by
  have hcases := oneInput_cases h1
  have hp : fl.inputPriceCsv = [] ∧ fl.inputPriceProto = [] ∧ fl.inputOhlcCsv = [] ∧ fl.inputOhlcProto = [] := by tauto
  have hld1 : loadPrice env fl w a.toUnixSeconds b.toUnixSeconds = ([], .ok []) := by
    unfold loadPrice; simp [hp]
  have hld2 : loadOhlc env fl w a.toUnixSeconds b.toUnixSeconds = ([], .ok []) := by
    unfold loadOhlc; simp [hp]
  have hld : loadSide env fl w a.toUnixSeconds b.toUnixSeconds =
      (["Reading side history from CSV file: ".toList ++ fl.inputSideCsv,
        loadedText env.fmt l.length "records" (env.seconds 0)], .ok l) := by
    unfold loadSide
    rw [if_pos (by simpa using hne), hin]
    simp only [load, loadedLine_eq]
  have hm := convert_ok (selects ha hb) h1 (env := env) (w := w) (price := []) (ohlc := []) (side := l)
    (by rw [hld1]) (by rw [hld2]) (by rw [hld])
  rw [hld, hld1, hld2, periodLines_eq ha hb] at hm
  refine ⟨?_, convert_silent hok⟩
  have hout : ∀ {m : Outcome}, main env fl w = m → m.exit = .success := fun h => h ▸ hok
  unfold convertAndWrite at hm
  dsimp only at hm
  simp only [List.isEmpty_nil, Bool.not_true, Bool.false_and, Bool.false_eq_true, if_false, if_true] at hm
  rw [hm, writeOutputs_success (hout hm)]
  simp only [written_nil, List.append_nil]
  rfl

/-- **C99** (convert.cc, outputs). If the input has been read (`price`, `ohlc` and `side` are what has been read) and yet the
program ends with `EXIT_FAILURE`, then the message names an output file that cannot be opened, or shows a record that cannot
be serialised: a record that has been read, or a tick made of the prices. -/
theorem C99_convert_unwritten (env : Env F) (fl : Flags F) (w : Files)
    (price : List (PriceRecord F)) (ohlc : List (OhlcTick F)) (side : List (SideInputRecord F))
    (hr : ReadsPrices env fl w price ∧ ohlc = [] ∧ side = [] ∨ ReadsTicks env fl w ohlc ∧ price = [] ∧ side = [] ∨
      ReadsSide env fl w side ∧ price = [] ∧ ohlc = [])
    (hfail : (main env fl w).exit = .failure) :
    ∃ name ∈ [fl.outputPrice, fl.outputOhlc, fl.outputSide], name ≠ [] ∧
      (env.canWrite name = false ∧ (main env fl w).err = ["Cannot open the input file: ".toList ++ name] ∨
        env.canWrite name = true ∧ ∃ message : List Text,
          ((∃ r ∈ price, ¬ Writable env.priceCodec r ∧ message = env.debugPrice r) ∨
            (∃ t, (t ∈ ohlc ∨ ∃ report ticks,
                convertPriceHistory env.fmt fl.maxDeviation fl.samplingRate fl.lastNOutliers price = .ok (report, ticks) ∧
                  t ∈ ticks) ∧ ¬ Writable env.ohlcCodec t ∧ message = env.debugOhlc t) ∨
            ∃ r ∈ side, ¬ Writable env.sideCodec r ∧ message = env.debugSide r) ∧
          (main env fl w).err = "Cannot serialize the message:".toList :: message) := by
  have hm : ∃ lines, main env fl w = convertAndWrite env fl price ohlc side w lines := by
    rcases hr with ⟨h, rfl, rfl⟩ | ⟨h, rfl, rfl⟩ | ⟨h, rfl, rfl⟩
    · exact reads_prices_unique h
    · exact reads_ticks_unique h
    · exact reads_side_unique h
  obtain ⟨lines, hm⟩ := hm
  have key : ∀ ticks lines', main env fl w = writeOutputs env fl price ticks side w lines' →
      (∀ t ∈ ticks, t ∈ ohlc ∨ ∃ report ticks,
        convertPriceHistory env.fmt fl.maxDeviation fl.samplingRate fl.lastNOutliers price = .ok (report, ticks) ∧ t ∈ ticks) →
      ∃ name ∈ [fl.outputPrice, fl.outputOhlc, fl.outputSide], name ≠ [] ∧
      (env.canWrite name = false ∧ (main env fl w).err = ["Cannot open the input file: ".toList ++ name] ∨
        env.canWrite name = true ∧ ∃ message : List Text,
          ((∃ r ∈ price, ¬ Writable env.priceCodec r ∧ message = env.debugPrice r) ∨
            (∃ t, (t ∈ ohlc ∨ ∃ report ticks,
                convertPriceHistory env.fmt fl.maxDeviation fl.samplingRate fl.lastNOutliers price = .ok (report, ticks) ∧
                  t ∈ ticks) ∧ ¬ Writable env.ohlcCodec t ∧ message = env.debugOhlc t) ∨
            ∃ r ∈ side, ¬ Writable env.sideCodec r ∧ message = env.debugSide r) ∧
          (main env fl w).err = "Cannot serialize the message:".toList :: message) := by
    intro ticks lines' h ht
    rw [h] at hfail ⊢
    rcases writeOutputs_message (env := env) (fl := fl) (price := price) (ohlc := ticks) (side := side) (w := w)
      (lines := lines') with ⟨h1, -⟩ | ⟨-, name, hn, hne, h2⟩
    · rw [hfail] at h1; cases h1
    · refine ⟨name, hn, hne, ?_⟩
      rcases h2 with h2 | ⟨h2, message, h3, h4⟩
      · exact .inl h2
      · refine .inr ⟨h2, message, ?_, h4⟩
        rcases h3 with h3 | ⟨t, h3, h5⟩ | h3
        · exact .inl h3
        · exact .inr (.inl ⟨t, ht t h3, h5⟩)
        · exact .inr (.inr h3)
  unfold convertAndWrite at hm
  dsimp only at hm
  split at hm
  · cases hc : convertPriceHistory env.fmt fl.maxDeviation fl.samplingRate fl.lastNOutliers price with
    | error e => rw [hc] at hm; rw [hm] at hfail; cases hfail
    | ok r =>
      obtain ⟨report, ticks⟩ := r
      rw [hc] at hm
      rw [hc] at key
      exact key _ _ hm (fun t ht => .inr ⟨report, ticks, rfl, ht⟩)
  · exact key _ _ hm (fun t ht => .inl ht)

end convert

section trader
open Verif.TraderMain
variable {F D : Type} [FloatOps F] [FloatOps D] [Wide F D] [Libm F] [Libm D]

/-- **C99** (trader.cc, times). A time that cannot be parsed is named, after the account has been printed. -/
theorem C99_trader_times (env : Env F) (fl : Flags D) (w : Files) :
    (Time.parseTime fl.startTime = none →
      main env fl w = ⟨w, "Trader AccountConfig:".toList :: env.debugAccount (accountConfig fl), .failure,
        ["Cannot parse datetime: ".toList ++ fl.startTime]⟩) ∧
    (Time.parseTime fl.startTime ≠ none → Time.parseTime fl.endTime = none →
      main env fl w = ⟨w, "Trader AccountConfig:".toList :: env.debugAccount (accountConfig fl), .failure,
        ["Cannot parse datetime: ".toList ++ fl.endTime]⟩) := by
  unfold main
  constructor
  · intro h; rw [h]; rfl
  · intro h1 h2
    obtain ⟨a, ha⟩ := Option.ne_none_iff_exists'.mp h1
    rw [ha, h2]; rfl

private theorem main_read {env : Env F} {fl : Flags D} {w : Files} {a b : Time.Instant}
    (ha : Time.parseTime fl.startTime = some a) (hb : Time.parseTime fl.endTime = some b) :
    main env fl w = readInputs env fl a b w (openingText env fl a b) := by
  unfold main
  rw [ha, hb]
  rfl

private theorem readText_eq (fmt : Format F) (what : String) (name seconds : Text) (n m : ℕ) (a b : Time.Instant) :
    readText fmt what name n m seconds a b =
      [("Reading " ++ what ++ " history from: ").toList ++ name, TraderMain.loadedLine fmt n seconds, selectedLine fmt m a b] := by
  unfold readText loadedText TraderMain.loadedLine selectedLine periodText
  have e1 : "- ".toList ++ ("Loaded ".toList ++ (fmt.int n).toList ++ (" " ++ "records" ++ " in ").toList ++ seconds ++
      " seconds".toList) = "- Loaded ".toList ++ (fmt.int n).toList ++ " records in ".toList ++ seconds ++ " seconds".toList := by
    have h1 : "- Loaded ".toList = "- ".toList ++ "Loaded ".toList := rfl
    have h2 : (" " ++ "records" ++ " in ").toList = " records in ".toList := rfl
    rw [h1, h2]
    simp only [List.append_assoc]
  have e2 : "- Selected ".toList ++ (fmt.int m).toList ++ " records within the time period: ".toList ++
      ("[".toList ++ Time.formatTimeUTC a ++ " - ".toList ++ Time.formatTimeUTC b ++ ")".toList) =
      "- Selected ".toList ++ (fmt.int m).toList ++ " records within the time period: [".toList ++ Time.formatTimeUTC a ++
        " - ".toList ++ Time.formatTimeUTC b ++ ")".toList := by
    have h1 : " records within the time period: [".toList = " records within the time period: ".toList ++ "[".toList := rfl
    rw [h1]
    simp only [List.append_assoc]
  rw [e1, e2]

/-- What remains once everything has been read. -/
private theorem main_exact {env : Env F} {fl : Flags D} {w : Files} {a b : Time.Instant} {ticks : List (OhlcTick F)}
    {side : Option (SideInput F)} {printed : List Text} (h : ReadsAll env fl w a b ticks side printed) :
    main env fl w = evaluate env fl ⟨a.toUnixSeconds, b.toUnixSeconds, fl.months, false⟩ ticks side w printed := by
  obtain ⟨ha, hb, ho, all, more, hh, hs, rfl, hside, rfl⟩ := h
  rw [main_read ha hb]
  unfold readInputs
  dsimp only
  rw [trader_readHistory_all ho hh hs]
  dsimp only
  cases hside with
  | none h =>
    have h' : fl.inputSide.isEmpty = true := by simp [h]
    rw [if_pos h', readText_eq]
    simp only [List.append_nil, List.append_assoc]
    rfl
  | some h all' recs hh' hs' hr side hm =>
    have h' : fl.inputSide.isEmpty = false := by simpa using h
    rw [if_neg (by simp [h']), readText_eq, readText_eq]
    rw [trader_readHistory_all ho hh' hs', ← hr]
    dsimp only
    rw [hm]
    simp only [List.append_assoc]
    rfl

/-- **C99** (trader.cc, unreadable files). If a history cannot be read, the message says whether the file cannot be opened
or cannot be parsed, and the last line printed names the file. -/
theorem C99_trader_unreadable (env : Env F) (fl : Flags D) (w : Files) (a b : Time.Instant)
    (ha : Time.parseTime fl.startTime = some a) (hb : Time.parseTime fl.endTime = some b) :
    ((¬ ∃ all, Holds env.ohlcCodec w fl.inputOhlc all) →
      main env fl w = ⟨w, openingText env fl a b ++ ["Reading OHLC history from: ".toList ++ fl.inputOhlc], .failure,
        [if w fl.inputOhlc = none then "Cannot open the input file: ".toList ++ fl.inputOhlc
          else "Cannot parse the input stream".toList]⟩) ∧
    (∀ all ticks, Holds env.ohlcCodec w fl.inputOhlc all → SortedBy OhlcTick.ts all →
      (0 < b.toUnixSeconds → a.toUnixSeconds ≤ b.toUnixSeconds) →
      ticks = all.filter (fun t => decide (InWindow a.toUnixSeconds b.toUnixSeconds t.ts)) → fl.inputSide ≠ [] →
      (¬ ∃ all, Holds env.sideCodec w fl.inputSide all) →
      main env fl w = ⟨w, openingText env fl a b ++
        readText env.fmt "OHLC" fl.inputOhlc all.length ticks.length (env.seconds 0) a b ++
          ["Reading side history from: ".toList ++ fl.inputSide], .failure,
        [if w fl.inputSide = none then "Cannot open the input file: ".toList ++ fl.inputSide
          else "Cannot parse the input stream".toList]⟩) := by
  have hmsg : ∀ name, readMessage name (if w name = none then .cannotOpen else .cannotParse) =
      [if w name = none then "Cannot open the input file: ".toList ++ name else "Cannot parse the input stream".toList] := by
    intro name
    by_cases hn : w name = none
    · rw [if_pos hn, if_pos hn]; rfl
    · rw [if_neg hn, if_neg hn]; rfl
  rw [main_read ha hb]
  constructor
  · intro h
    unfold readInputs
    dsimp only
    rw [trader_readHistory_none h]
    dsimp only
    rw [hmsg]
  · intro all ticks hh hs ho ht hne h
    unfold readInputs
    dsimp only
    rw [trader_readHistory_all ho hh hs, ← ht]
    dsimp only
    have h' : fl.inputSide.isEmpty = false := by simpa using hne
    rw [if_neg (by simp [h']), trader_readHistory_none h, readText_eq]
    have hap : openingText env fl a b ++ ["Reading OHLC history from: ".toList ++ fl.inputOhlc] ++
        [TraderMain.loadedLine env.fmt all.length (env.seconds 0), selectedLine env.fmt ticks.length a b] =
        openingText env fl a b ++ [("Reading " ++ "OHLC" ++ " history from: ").toList ++ fl.inputOhlc,
          TraderMain.loadedLine env.fmt all.length (env.seconds 0), selectedLine env.fmt ticks.length a b] := by
      simp only [List.append_assoc]
      rfl
    rw [hap]
    dsimp only
    rw [hmsg]

/-- **C99** (trader.cc, messages). The program writes to standard error if and only if it ends with `EXIT_FAILURE`. -/
theorem C99_trader_messages (env : Env F) (fl : Flags D) (w : Files) :
    (main env fl w).exit = .failure ↔ (main env fl w).err ≠ [] := by
  have fail : ∀ (w : Files) lines (m : List Text), m ≠ [] →
      ((⟨w, lines, .failure, m⟩ : Outcome).exit = .failure ↔ (⟨w, lines, .failure, m⟩ : Outcome).err ≠ []) :=
    fun w lines m h => ⟨fun _ => h, fun _ => rfl⟩
  have quiet : ∀ (w : Files) lines x, x ≠ .failure →
      ((⟨w, lines, x, []⟩ : Outcome).exit = .failure ↔ (⟨w, lines, x, []⟩ : Outcome).err ≠ []) :=
    fun w lines x h => ⟨fun h' => absurd h' h, fun h' => absurd rfl h'⟩
  have key : ∀ cfg ticks side w lines, (evaluate env fl cfg ticks side w lines).exit = .failure ↔
      (evaluate env fl cfg ticks side w lines).err ≠ [] := by
    intro cfg ticks side w lines
    unfold evaluate
    split
    · unfold runBatch
      dsimp only
      split
      · exact quiet _ _ _ (by simp)
      · split
        · exact quiet _ _ _ (by simp)
        · split
          · exact quiet _ _ _ (by simp)
          · split <;> exact quiet _ _ _ (by simp)
    · unfold runSingle
      dsimp only
      split
      · exact quiet _ _ _ (by simp)
      · split
        · exact fail _ _ _ (List.cons_ne_nil _ _)
        · split
          · exact fail _ _ _ (List.cons_ne_nil _ _)
          · split <;> exact quiet _ _ _ (by simp)
  have hr : ∀ name e, readMessage name e ≠ [] := by
    intro name e; unfold readMessage; split <;> exact List.cons_ne_nil _ _
  unfold main
  dsimp only
  split
  · exact fail _ _ _ (List.cons_ne_nil _ _)
  · split
    · exact fail _ _ _ (List.cons_ne_nil _ _)
    · unfold readInputs
      dsimp only
      split
      · exact fail _ _ _ (hr _ _)
      · exact quiet _ _ _ (by simp)
      · split
        · exact key _ _ _ _ _
        · split
          · exact fail _ _ _ (hr _ _)
          · exact quiet _ _ _ (by simp)
          · split
            · exact quiet _ _ _ (by simp)
            · exact key _ _ _ _ _

/-- **C99** (trader.cc, logs). If a log is asked for although several periods are to be evaluated, or it cannot be opened,
the message says so; the exchange log is looked at first. -/
theorem C99_trader_logs (env : Env F) (fl : Flags D) (w : Files) (a b : Time.Instant) (ticks : List (OhlcTick F))
    (side : Option (SideInput F)) (printed : List Text) (h : ReadsAll env fl w a b ticks side printed)
    (hb : fl.evaluateBatch = false) (t : BuiltIn F) (hn : getTrader fl.trader = .ok t) (ho : ¬ LogsOpen env fl) :
    (main env fl w).lines = printed ++ [[], (t.emitter env.fmt).name.toList ++ " evaluation:".toList] ∧
    (main env fl w).exit = .failure ∧
    (0 < fl.months → (main env fl w).err = ["Logging disabled when evaluating multiple periods".toList]) ∧
    (fl.months ≤ 0 → ∃ name, (main env fl w).err = ["Cannot open the file: ".toList ++ name] ∧ name ≠ [] ∧
      env.canWrite name = false ∧
      (name = fl.outputExchangeLog ∨
        name = fl.outputTraderLog ∧ (fl.outputExchangeLog = [] ∨ env.canWrite fl.outputExchangeLog = true))) := by
  have key : ∀ name w, ¬ (name ≠ [] → fl.months ≤ 0 ∧ env.canWrite name = true) →
      ∃ m, openLogFile env.canWrite fl.months name w = (w, .error m) ∧
        (0 < fl.months → m = "Logging disabled when evaluating multiple periods".toList) ∧
        (fl.months ≤ 0 → m = "Cannot open the file: ".toList ++ name ∧ name ≠ [] ∧ env.canWrite name = false) := by
    intro name w h
    push Not at h
    obtain ⟨h1, h2⟩ := h
    unfold openLogFile
    rw [if_neg (by simpa using h1)]
    by_cases hm : 0 < fl.months
    · rw [if_pos hm]
      exact ⟨_, rfl, fun _ => rfl, fun h => absurd hm (by omega)⟩
    · have hw : env.canWrite name = false := by simpa using h2 (by omega)
      rw [if_neg hm, hw]
      exact ⟨_, rfl, fun h => absurd h hm, fun _ => ⟨rfl, h1, rfl⟩⟩
  rw [main_exact h]
  unfold evaluate
  rw [if_neg (by simp [hb])]
  unfold runSingle
  rw [hn]
  dsimp only
  by_cases h1 : fl.outputExchangeLog ≠ [] → fl.months ≤ 0 ∧ env.canWrite fl.outputExchangeLog = true
  · have h2 : ¬ (fl.outputTraderLog ≠ [] → fl.months ≤ 0 ∧ env.canWrite fl.outputTraderLog = true) := by
      intro h2
      apply ho
      rintro name (rfl | rfl) hne
      · exact h1 hne
      · exact h2 hne
    rw [trader_openLog_ok w h1]
    dsimp only
    obtain ⟨m, hm, hm1, hm2⟩ := key fl.outputTraderLog (writeLog w fl.outputExchangeLog (streamOf fl.outputExchangeLog)) h2
    rw [hm]
    refine ⟨rfl, rfl, fun hp => by rw [hm1 hp], fun hp => ?_⟩
    obtain ⟨q1, q2, q3⟩ := hm2 hp
    refine ⟨fl.outputTraderLog, by rw [q1], q2, q3, .inr ⟨rfl, ?_⟩⟩
    by_cases he : fl.outputExchangeLog = []
    · exact .inl he
    · exact .inr (h1 he).2
  · obtain ⟨m, hm, hm1, hm2⟩ := key fl.outputExchangeLog w h1
    rw [hm]
    refine ⟨rfl, rfl, fun hp => by rw [hm1 hp], fun hp => ?_⟩
    obtain ⟨q1, q2, q3⟩ := hm2 hp
    exact ⟨fl.outputExchangeLog, by rw [q1], q2, q3, .inl rfl⟩

/-- **C99** (trader.cc, one trader). A run that succeeds prints, in this order and nothing else: the account, the period, the
configuration of the evaluation, what has been read, the name of the trader, one line for each period of the result of
`EvaluateTrader`, and the time taken. -/
theorem C99_trader_single (env : Env F) (fl : Flags D) (w : Files) (a b : Time.Instant) (ticks : List (OhlcTick F))
    (side : Option (SideInput F)) (printed : List Text) (h : ReadsAll env fl w a b ticks side printed)
    (hb : fl.evaluateBatch = false) (hok : (main env fl w).exit = .success) :
    ∃ (t : BuiltIn F) (r : EvaluationResult F), getTrader fl.trader = .ok t ∧
      (evaluateTrader ⟨accountConfig fl, ⟨a.toUnixSeconds, b.toUnixSeconds, fl.months, false⟩, ticks, side,
        t.emitter env.fmt⟩ true).out = .ok r ∧
      (main env fl w).lines = printed ++ [[], (t.emitter env.fmt).name.toList ++ " evaluation:".toList,
          "------------------ period ------------------".toList ++ "    trader & base gain    score    t&b volatility".toList] ++
        r.periods.map (periodReport env.fmt) ++ evaluatedText (env.seconds 2) ∧
      (main env fl w).err = [] := by
  rw [main_exact h] at hok ⊢
  unfold evaluate at hok ⊢
  rw [if_neg (by simp [hb])] at hok ⊢
  unfold runSingle at hok ⊢
  cases hg : (getTrader fl.trader : Res (BuiltIn F)) with
  | error e => rw [hg] at hok; cases hok
  | ok t =>
    rw [hg] at hok
    dsimp only at hok ⊢
    refine ⟨t, ?_⟩
    generalize openLogFile env.canWrite fl.months fl.outputExchangeLog w = o1 at hok ⊢
    obtain ⟨w1, ex⟩ := o1
    cases ex with
    | error m => cases hok
    | ok ex =>
      dsimp only at hok ⊢
      generalize openLogFile env.canWrite fl.months fl.outputTraderLog w1 = o2 at hok ⊢
      obtain ⟨w2, tr⟩ := o2
      cases tr with
      | error m => cases hok
      | ok tr =>
        dsimp only at hok ⊢
        cases he : (evaluateTrader ⟨accountConfig fl, ⟨a.toUnixSeconds, b.toUnixSeconds, fl.months, false⟩, ticks, side,
            t.emitter env.fmt⟩ true).out with
        | error e => rw [he] at hok; cases hok
        | ok r =>
          refine ⟨r, rfl, rfl, ?_, rfl⟩
          dsimp only
          unfold printTraderEvalResult
          have hp : (fun p => periodLine env.fmt p) = periodReport env.fmt := by
            funext p
            unfold periodLine periodReport padLeft
            rfl
          change printed ++ _ ++ (_ :: r.periods.map (fun p => periodLine env.fmt p)) ++ _ = _
          rw [hp]
          simp only [List.append_assoc, List.cons_append, List.nil_append]
          rfl

/-- **C99** (trader.cc, batch). A run that succeeds prints, in this order and nothing else: the account, the period, the
configuration of the evaluation, what has been read, names and scores of the (up to) 20 best traders, the best first, and the
time taken. -/
theorem C99_trader_batch (env : Env F) (hsort : SortsByScore env.sort) (fl : Flags D) (w : Files) (a b : Time.Instant)
    (ticks : List (OhlcTick F)) (side : Option (SideInput F)) (printed : List Text)
    (h : ReadsAll env fl w a b ticks side printed) (hb : fl.evaluateBatch = true) (hok : (main env fl w).exit = .success) :
    ∃ (batch : List (BuiltIn F)) (rs ranked : List (EvaluationResult F)), getBatchOfTraders fl.trader = .ok batch ∧
      List.Forall₂ (fun t r => (evaluateTrader ⟨accountConfig fl, ⟨a.toUnixSeconds, b.toUnixSeconds, fl.months, true⟩, ticks,
        side, BuiltIn.emitter env.fmt t⟩ false).out = .ok r) batch rs ∧
      ranked.Perm rs ∧ ranked.Pairwise (fun a b => (a.score <. b.score) = false) ∧
      (main env fl w).lines = printed ++ [[], "Batch evaluation:".toList] ++ (ranked.take 20).map (scoreReport env.fmt) ++
        evaluatedText (env.seconds 2) ∧
      (main env fl w).err = [] := by
  rw [main_exact h] at hok ⊢
  unfold evaluate at hok ⊢
  rw [if_pos hb] at hok ⊢
  unfold runBatch at hok ⊢
  dsimp only at hok ⊢
  cases hg : (getBatchOfTraders fl.trader : Res (List (BuiltIn F))) with
  | error e => rw [hg] at hok; cases hok
  | ok batch =>
    rw [hg] at hok
    dsimp only at hok ⊢
    set inputs : List (EvalInputs F) := batch.map (fun t => ⟨accountConfig fl, ⟨a.toUnixSeconds, b.toUnixSeconds, fl.months, true⟩,
      ticks, side, t.emitter env.fmt⟩) with hin
    cases hr : batchRun inputs env.schedule (batchStart inputs) with
    | error e => rw [hr] at hok; cases hok
    | ok tasks =>
      rw [hr] at hok
      dsimp only at hok ⊢
      cases hres : batchResults tasks with
      | none => rw [hres] at hok; cases hok
      | some rs =>
        rw [hres] at hok
        dsimp only at hok ⊢
        by_cases hs : sortable rs = true
        · rw [if_pos hs]
          obtain ⟨h1, h2⟩ := hsort rs ((sortable_iff rs).mp hs)
          refine ⟨batch, rs, env.sort rs, rfl, ?_, h1, h2, ?_, rfl⟩
          · have := C37_batch _ _ hr hres
            rwa [hin, List.forall₂_map_left_iff] at this
          · dsimp only
            unfold printBatchEvalResults
            have : (env.sort rs).take (min 20 (env.sort rs).length) = (env.sort rs).take 20 := by
              rw [List.take_eq_take_iff]; omega
            rw [this]
            rfl
        · rw [if_neg hs] at hok; cases hok

/-- Whenever the histories are as `Loads` says and the side inputs can be used, everything is read. -/
theorem reads_all {env : Env F} {fl : Flags D} {w : Files} {start stop : ℤ} {ticks : List (OhlcTick F)}
    {recs : Option (List (SideInputRecord F))} {side : Option (SideInput F)} (hl : Loads env fl w start stop ticks recs)
    (hside : SideOf recs side) : ∃ a b printed, ReadsAll env fl w a b ticks side printed := by
  obtain ⟨⟨h1, h2⟩, ho, ⟨all, h3, h4, h5⟩, h6⟩ := hl
  obtain ⟨a, ha, rfl⟩ := Option.map_eq_some_iff.mp h1
  obtain ⟨b, hb, rfl⟩ := Option.map_eq_some_iff.mp h2
  rcases h6 with ⟨h6, rfl⟩ | ⟨h6, l, rfl, all', h7, h8, h9⟩
  · cases hside
    exact ⟨a, b, _, ha, hb, ho, all, _, h3, h4, h5, .none h6, rfl⟩
  · cases hside with
    | some l s hm => exact ⟨a, b, _, ha, hb, ho, all, _, h3, h4, h5, .some h6 all' l h7 h8 h9 s hm, rfl⟩

end trader

/-! ### Non-vacuity -/

section examples
attribute [local instance] evLibm

private theorem tm_start : Time.parseTime tmConvertFlags.startTime = some (.sec 0) := by decide +kernel
private theorem tm_end : Time.parseTime tmConvertFlags.endTime = some (.sec 86400) := by decide +kernel
private theorem tm_one : OneInput tmConvertFlags := by unfold OneInput; decide

/-- Two trades are converted: what is printed, ... -/
example : ∃ report, (Convert.main tmConvertEnv tmConvertFlags tmFiles).lines =
    ["Selected time period:".toList, periodText (.sec 0) (.sec 86400),
      "Reading price history from CSV file: ".toList ++ "in.csv".toList, loadedText tmConvertEnv.fmt 2 "records" "0.001".toList,
      "Top ".toList ++ "0".toList ++ " gaps:".toList] ++ report ++
    writtenText tmConvertEnv.fmt tmTicks "ohlc".toList "0.001".toList := by
  have hticks : ∀ t ∈ tmTicks, Storable tmConvertEnv.ohlcCodec t := by
    intro t ht
    simp only [tmTicks, List.mem_cons, List.not_mem_nil, or_false] at ht
    subst ht
    exact ⟨by unfold Writable; decide +kernel, by decide +kernel⟩
  obtain ⟨lines, ticks, h1, h2, -⟩ := C80_prices tmConvertEnv tmConvertFlags tmFiles tmPrices tm_reads (by simp) (by decide) (by
      intro r hr
      simp only [tmPrices, List.mem_cons, List.not_mem_nil, or_false] at hr
      rcases hr with rfl | rfl
      · exact ⟨by unfold Writable; decide +kernel, by decide +kernel⟩
      · exact ⟨by unfold Writable; decide +kernel, by decide +kernel⟩)
  obtain ⟨lines', h3⟩ := tm_converted
  have : (lines, ticks) = (lines', tmTicks) := Except.ok.inj (h1.symm.trans h3)
  obtain ⟨rfl, rfl⟩ := Prod.mk.inj this
  obtain ⟨report, ticks, -, h4, h5, -⟩ := C99_convert_prices tmConvertEnv tmConvertFlags tmFiles _ _ tm_start tm_end tm_one tmPrices
    _ (.inl ⟨by decide, by decide +kernel, rfl⟩) (h2 hticks ⟨fun _ => rfl, fun _ => rfl⟩).1
  have : (report, ticks) = (lines, tmTicks) := Except.ok.inj ((h4 (by simp) (by decide)).symm.trans h3)
  obtain ⟨rfl, rfl⟩ := Prod.mk.inj this
  rw [if_neg (by simp)] at h5
  refine ⟨Convert.printPriceHistoryGaps tmConvertEnv.fmt tmPrices (toSize tmConvertFlags.topNGaps) ++ report, ?_⟩
  rw [h5]
  have hw : writtenText tmConvertEnv.fmt tmPrices tmConvertFlags.outputPrice (tmConvertEnv.seconds 1) = [] := rfl
  rw [hw]
  simp only [List.append_assoc, List.cons_append, List.nil_append, List.append_nil]
  rfl

/-- ... the report on the conversion, ... -/
example : ∃ report context, Convert.convertPriceHistory tmConvertEnv.fmt tmConvertFlags.maxDeviation tmConvertFlags.samplingRate
      tmConvertFlags.lastNOutliers tmPrices = .ok (report, tmTicks) ∧
    report = conversionText tmConvertEnv.fmt 2 0 1 tmConvertFlags.lastNOutliers context := by
  obtain ⟨report, h⟩ := tm_converted
  obtain ⟨kept, outliers, context, h1, -, -, -, -, -, h2⟩ := C99_conversion _ _ _ _ _ _ _ h
  have : outliers = [] := by
    have h3 : (removeOutliers 10 tmPrices).2 = [] := by decide +kernel
    rw [h1] at h3; exact h3
  subst this
  exact ⟨report, context, h, h2⟩

/-- ... and what would be printed if the price of the second were negative, ... -/
example : ∃ message, Convert.main tmConvertEnv tmConvertFlags
      (fun _ => some ("301,2,1\n310,-3,1\n".toList.map (fun c => UInt8.ofNat c.toNat))) =
    ⟨fun _ => some ("301,2,1\n310,-3,1\n".toList.map (fun c => UInt8.ofNat c.toNat)),
      ["Selected time period:".toList, periodText (.sec 0) (.sec 86400),
      "Reading price history from CSV file: ".toList ++ "in.csv".toList], .failure, [message]⟩ ∧
    message = csvComplaint tmConvertEnv.fmt "Invalid price" .price 2 "310,-3,1".toList := by
  have h : Convert.readPriceCsv tmConvertEnv.scanner (Time.Instant.sec 0).toUnixSeconds (Time.Instant.sec 86400).toUnixSeconds
      (textFile (some ("301,2,1\n310,-3,1\n".toList.map (fun c => UInt8.ofNat c.toNat)))) = .error (.record 2 .price) := by
    decide +kernel
  obtain ⟨message, h1, h2⟩ := C99_price_csv_error tmConvertEnv tmConvertFlags
    (fun _ => some ("301,2,1\n310,-3,1\n".toList.map (fun c => UInt8.ofNat c.toNat))) _ _ tm_start tm_end tm_one (by decide) _ h
  refine ⟨message, h1, ?_⟩
  rcases h2 with ⟨h2, -⟩ | ⟨text, i, what, line, ht, he, hl, hm⟩
  · cases h2
  · cases he
    have ht' : text = "301,2,1\n310,-3,1\n".toList := by
      have := Option.some.inj ht
      rw [← this]; decide +kernel
    subst ht'
    have : (Convert.linesOf "301,2,1\n310,-3,1\n".toList)[1]? = some "310,-3,1".toList := by decide +kernel
    rw [this] at hl
    cases hl
    exact hm

/-- ... and if there were no file. -/
example := C99_price_csv_error tmConvertEnv tmConvertFlags (fun _ => none) _ _ tm_start tm_end tm_one (by decide) .cannotOpen rfl

/-- An output file that cannot be opened. -/
example : (Convert.main { tmConvertEnv with canWrite := fun _ => false } tmConvertFlags tmFiles).err =
    ["Cannot open the input file: ".toList ++ "ohlc".toList] := by
  have hr : ReadsPrices { tmConvertEnv with canWrite := fun _ => false } tmConvertFlags tmFiles tmPrices := tm_reads
  obtain ⟨lines, ticks, h1, -, -, h2, -⟩ := C80_prices { tmConvertEnv with canWrite := fun _ => false } tmConvertFlags tmFiles tmPrices
    hr (by simp) (by decide) (by
      intro r hr
      simp only [tmPrices, List.mem_cons, List.not_mem_nil, or_false] at hr
      rcases hr with rfl | rfl
      · exact ⟨by unfold Writable; decide +kernel, by decide +kernel⟩
      · exact ⟨by unfold Writable; decide +kernel, by decide +kernel⟩)
  obtain ⟨name, hn, hne, h3⟩ := C99_convert_unwritten { tmConvertEnv with canWrite := fun _ => false } tmConvertFlags tmFiles tmPrices [] []
    (.inl ⟨hr, rfl, rfl⟩) (h2 (by decide) rfl).1
  rcases h3 with ⟨-, h3⟩ | ⟨h3, -⟩
  · rw [h3]
    simp only [List.mem_cons, List.not_mem_nil, or_false] at hn
    rcases hn with rfl | rfl | rfl
    · exact absurd rfl hne
    · rfl
    · exact absurd rfl hne
  · cases h3

/-- Two input files. -/
example := C99_convert_flags tmConvertEnv { tmConvertFlags with inputSideCsv := "side".toList } tmFiles _ _ tm_start tm_end
  (by unfold OneInput; decide)

/-- The trader: one trader, ... -/
example : ∃ a b printed t, ∃ r : EvaluationResult ℚ,
    ReadsAll (tmEnv []) (tmFlags false) (Convert.main tmConvertEnv tmConvertFlags tmFiles).files a b tmTicks none printed ∧
    (TraderMain.main (tmEnv []) (tmFlags false) (Convert.main tmConvertEnv tmConvertFlags tmFiles).files).lines =
      printed ++ [[], (BuiltIn.emitter (tmEnv []).fmt t).name.toList ++ " evaluation:".toList,
        "------------------ period ------------------".toList ++ "    trader & base gain    score    t&b volatility".toList] ++
      r.periods.map (periodReport (tmEnv []).fmt) ++ evaluatedText "0.001".toList := by
  obtain ⟨h1, h2⟩ := tm_both [] false (by simp)
  obtain ⟨a, b, printed, h3⟩ := reads_all h1 .none
  obtain ⟨t, r, -, -, h4, -⟩ := C99_trader_single _ _ _ _ _ _ _ _ h3 rfl h2
  exact ⟨a, b, printed, t, r, h3, h4⟩

/-- ... and a batch, ... -/
example : ∃ schedule a b printed, ∃ ranked : List (EvaluationResult ℚ), ranked.length = 144 ∧
    ReadsAll (tmEnv schedule) (tmFlags true) (Convert.main tmConvertEnv tmConvertFlags tmFiles).files a b tmTicks none printed ∧
    (TraderMain.main (tmEnv schedule) (tmFlags true) (Convert.main tmConvertEnv tmConvertFlags tmFiles).files).lines =
      printed ++ [[], "Batch evaluation:".toList] ++ (ranked.take 20).map (scoreReport (tmEnv schedule).fmt) ++
        evaluatedText "0.001".toList := by
  obtain ⟨s, hs⟩ := fair_schedule 144 (2 ^ 31 + 1)
  obtain ⟨h1, h2⟩ := tm_both s true (fun _ => hs)
  obtain ⟨a, b, printed, h3⟩ := reads_all h1 .none
  obtain ⟨batch, rs, ranked, hb, hall, hperm, -, h4, -⟩ := C99_trader_batch _ tm_sorts _ _ _ _ _ _ _ h3 rfl h2
  refine ⟨s, a, b, printed, ranked, ?_, h3, h4⟩
  rw [hperm.length_eq, ← hall.length_eq]
  obtain ⟨l, hl, hlen, -⟩ := (C72_names (F := ℚ) "stop").2.2.2.2.2
  rw [show batch = l from Except.ok.inj (hb.symm.trans hl), hlen]

/-- ... times and files that are not there, ... -/
example : (TraderMain.main (tmEnv []) { tmFlags false with startTime := "yesterday".toList } tmFiles).err =
    ["Cannot parse datetime: yesterday".toList] := by
  rw [(C99_trader_times (tmEnv []) { tmFlags false with startTime := "yesterday".toList } tmFiles).1 (by decide +kernel)]
  decide

example : (TraderMain.main (tmEnv []) (tmFlags false) tmFiles).err = ["Cannot open the input file: ohlc".toList] := by
  rw [(C99_trader_unreadable (tmEnv []) (tmFlags false) tmFiles _ _ tm_start tm_end).1 (by
    rintro ⟨all, bytes, h, -⟩
    have : tmFiles (tmFlags false).inputOhlc = none := by decide
    rw [this] at h; cases h)]
  decide

/-- ... and logs that are not allowed. -/
example : (TraderMain.main (tmEnv []) { tmFlags false with months := 1 } (Convert.main tmConvertEnv tmConvertFlags tmFiles).files).err =
    ["Logging disabled when evaluating multiple periods".toList] := by
  obtain ⟨h1, -⟩ := tm_both [] false (by simp)
  have h1 : Loads (tmEnv []) { tmFlags false with months := 1 } (Convert.main tmConvertEnv tmConvertFlags tmFiles).files 0 86400 tmTicks none :=
    ⟨h1.period, h1.order, h1.ticks, h1.side⟩
  obtain ⟨a, b, printed, h3⟩ := reads_all h1 .none
  exact (C99_trader_logs _ _ _ _ _ _ _ _ h3 rfl _ rfl (by
    intro h
    have := (h _ (.inl rfl) (by decide)).1
    exact absurd this (by decide))).2.2.1 (by decide)

end examples
end Verif.Props
