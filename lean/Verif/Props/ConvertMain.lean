import Verif.Spec.ConvertMain
import Verif.Props.Pipeline
import Mathlib.Data.List.TakeWhile

/-!
# C80: the program convert.cc
-/

set_option linter.unusedSectionVars false
set_option linter.unusedSimpArgs false

namespace Verif.Props
open Verif Verif.Spec Verif.Convert FloatOps

variable {F : Type} [FloatOps F] [Libm F]

theorem checkInputs_none (fl : Flags F) : checkInputs fl = none ↔ OneInput fl := by
  unfold checkInputs OneInput
  rcases fl.inputPriceCsv with _ | _ <;> rcases fl.inputPriceProto with _ | _ <;> rcases fl.inputOhlcCsv with _ | _ <;>
    rcases fl.inputOhlcProto with _ | _ <;> rcases fl.inputSideCsv with _ | _ <;> simp

theorem oneInput_cases {fl : Flags F} (h : OneInput fl) :
    (fl.inputPriceCsv ≠ [] ∧ fl.inputPriceProto = [] ∧ fl.inputOhlcCsv = [] ∧ fl.inputOhlcProto = [] ∧ fl.inputSideCsv = []) ∨
    (fl.inputPriceCsv = [] ∧ fl.inputPriceProto ≠ [] ∧ fl.inputOhlcCsv = [] ∧ fl.inputOhlcProto = [] ∧ fl.inputSideCsv = []) ∨
    (fl.inputPriceCsv = [] ∧ fl.inputPriceProto = [] ∧ fl.inputOhlcCsv ≠ [] ∧ fl.inputOhlcProto = [] ∧ fl.inputSideCsv = []) ∨
    (fl.inputPriceCsv = [] ∧ fl.inputPriceProto = [] ∧ fl.inputOhlcCsv = [] ∧ fl.inputOhlcProto ≠ [] ∧ fl.inputSideCsv = []) ∨
    (fl.inputPriceCsv = [] ∧ fl.inputPriceProto = [] ∧ fl.inputOhlcCsv = [] ∧ fl.inputOhlcProto = [] ∧
      fl.inputSideCsv ≠ []) := by
  unfold OneInput at h
  revert h
  rcases fl.inputPriceCsv with _ | _ <;> rcases fl.inputPriceProto with _ | _ <;> rcases fl.inputOhlcCsv with _ | _ <;>
    rcases fl.inputOhlcProto with _ | _ <;> rcases fl.inputSideCsv with _ | _ <;> simp

/-- The two lines about the period. -/
def periodLines (fl : Flags F) : List Text :=
  match Time.parseTime fl.startTime, Time.parseTime fl.endTime with
  | some a, some b => ["Selected time period:".toList,
    "[".toList ++ Time.formatTimeUTC a ++ " - ".toList ++ Time.formatTimeUTC b ++ ")".toList]
  | _, _ => []

theorem convert_ok {env : Env F} {fl : Flags F} {w : Files} {start stop : ℤ} (hp : Selects fl start stop) (h1 : OneInput fl)
    {price : List (PriceRecord F)} {ohlc : List (OhlcTick F)} {side : List (SideInputRecord F)}
    (e1 : (loadPrice env fl w start stop).2 = .ok price) (e2 : (loadOhlc env fl w start stop).2 = .ok ohlc)
    (e3 : (loadSide env fl w start stop).2 = .ok side) :
    main env fl w = convertAndWrite env fl price ohlc side w (periodLines fl ++ (loadPrice env fl w start stop).1 ++
      (loadOhlc env fl w start stop).1 ++ (loadSide env fl w start stop).1) := by
  obtain ⟨ha, hb⟩ := hp
  obtain ⟨a, ha', rfl⟩ := Option.map_eq_some_iff.mp ha
  obtain ⟨b, hb', rfl⟩ := Option.map_eq_some_iff.mp hb
  unfold main periodLines
  rw [ha', hb']
  dsimp only
  rw [(checkInputs_none fl).mpr h1]
  dsimp only
  generalize loadPrice env fl w a.toUnixSeconds b.toUnixSeconds = lp at *
  generalize loadOhlc env fl w a.toUnixSeconds b.toUnixSeconds = lo at *
  generalize loadSide env fl w a.toUnixSeconds b.toUnixSeconds = ls at *
  obtain ⟨l1, r1⟩ := lp
  obtain ⟨l2, r2⟩ := lo
  obtain ⟨l3, r3⟩ := ls
  dsimp only at e1 e2 e3
  subst e1 e2 e3
  rfl

theorem convert_error {env : Env F} {fl : Flags F} {w : Files} {start stop : ℤ} (hp : Selects fl start stop)
    (h1 : OneInput fl) :
    (∀ {m}, (loadPrice env fl w start stop).2 = .error m →
      main env fl w = ⟨w, periodLines fl ++ (loadPrice env fl w start stop).1, .failure, m⟩) ∧
    (∀ {price m}, (loadPrice env fl w start stop).2 = .ok price → (loadOhlc env fl w start stop).2 = .error m →
      main env fl w = ⟨w, periodLines fl ++ (loadPrice env fl w start stop).1 ++ (loadOhlc env fl w start stop).1, .failure,
        m⟩) ∧
    (∀ {price ohlc m}, (loadPrice env fl w start stop).2 = .ok price → (loadOhlc env fl w start stop).2 = .ok ohlc →
      (loadSide env fl w start stop).2 = .error m →
      main env fl w = ⟨w, periodLines fl ++ (loadPrice env fl w start stop).1 ++ (loadOhlc env fl w start stop).1 ++
        (loadSide env fl w start stop).1, .failure, m⟩) := by
  obtain ⟨ha, hb⟩ := hp
  obtain ⟨a, ha', rfl⟩ := Option.map_eq_some_iff.mp ha
  obtain ⟨b, hb', rfl⟩ := Option.map_eq_some_iff.mp hb
  unfold main periodLines
  rw [ha', hb']
  dsimp only
  rw [(checkInputs_none fl).mpr h1]
  dsimp only
  generalize loadPrice env fl w a.toUnixSeconds b.toUnixSeconds = lp at *
  generalize loadOhlc env fl w a.toUnixSeconds b.toUnixSeconds = lo at *
  generalize loadSide env fl w a.toUnixSeconds b.toUnixSeconds = ls at *
  obtain ⟨l1, r1⟩ := lp
  obtain ⟨l2, r2⟩ := lo
  obtain ⟨l3, r3⟩ := ls
  dsimp only
  refine ⟨fun e1 => ?_, fun e1 e2 => ?_, fun e1 e2 e3 => ?_⟩
  · subst e1; rfl
  · subst e1 e2; rfl
  · subst e1 e2 e3; rfl

/-- What remains of `main` when exactly one file is read. -/
private theorem main_cases (env : Env F) (fl : Flags F) (w : Files) :
    (∃ l lines, ReadsPrices env fl w l ∧ main env fl w = convertAndWrite env fl l [] [] w lines) ∨
    (∃ l lines, ReadsTicks env fl w l ∧ main env fl w = convertAndWrite env fl [] l [] w lines) ∨
    (∃ l lines, ReadsSide env fl w l ∧ main env fl w = convertAndWrite env fl [] [] l w lines) ∨
    ((¬ ∃ l, ReadsPrices env fl w l) ∧ (¬ ∃ l, ReadsTicks env fl w l) ∧ (¬ ∃ l, ReadsSide env fl w l) ∧
      (main env fl w).files = w ∧ (main env fl w).exit = .failure) := by
  by_cases hp : ∃ start stop, Selects fl start stop
  · obtain ⟨start, stop, hp⟩ := hp
    have huniq : ∀ a b, Selects fl a b → a = start ∧ b = stop := by
      intro a b h
      have h1 := hp.1.symm.trans h.1
      have h2 := hp.2.symm.trans h.2
      exact ⟨(Option.some.inj h1).symm, (Option.some.inj h2).symm⟩
    by_cases h1 : OneInput fl
    · rcases oneInput_cases h1 with ⟨c1, c2, c3, c4, c5⟩ | ⟨c1, c2, c3, c4, c5⟩ | ⟨c1, c2, c3, c4, c5⟩ |
        ⟨c1, c2, c3, c4, c5⟩ | ⟨c1, c2, c3, c4, c5⟩
      · cases hl : readPriceCsv env.scanner start stop (textFile (w fl.inputPriceCsv)) with
        | ok l =>
          refine .inl ⟨l, _, ⟨h1, start, stop, hp, .inl ⟨c1, hl⟩⟩, convert_ok hp h1 ?_ ?_ ?_⟩ <;>
            simp [loadPrice, loadOhlc, loadSide, load, c1, c3, c4, c5, hl]
        | error e =>
          refine .inr (.inr (.inr ⟨?_, ?_, ?_, ?_⟩))
          · rintro ⟨l, -, a, b, hab, h⟩
            obtain ⟨rfl, rfl⟩ := huniq a b hab
            rcases h with ⟨-, h⟩ | ⟨h, -⟩
            · rw [hl] at h; cases h
            · exact h c2
          · rintro ⟨l, -, a, b, hab, h⟩
            rcases h with ⟨h, -⟩ | ⟨h, -⟩
            · exact h c3
            · exact h c4
          · rintro ⟨l, -, a, b, hab, h, -⟩; exact h c5
          · obtain ⟨m, e1⟩ : ∃ m, (loadPrice env fl w start stop).2 = .error m := by
              simp [loadPrice, loadOhlc, loadSide, load, c1, c3, c4, c5, hl]
            rw [(convert_error hp h1).1 e1]; exact ⟨rfl, rfl⟩
      · cases hl : readPriceProto env.priceCodec start stop (w fl.inputPriceProto) with
        | ok l =>
          refine .inl ⟨l, _, ⟨h1, start, stop, hp, .inr ⟨c2, hl⟩⟩, convert_ok hp h1 ?_ ?_ ?_⟩ <;>
            simp [loadPrice, loadOhlc, loadSide, load, c1, c2, c3, c4, c5, hl]
        | error e =>
          refine .inr (.inr (.inr ⟨?_, ?_, ?_, ?_⟩))
          · rintro ⟨l, -, a, b, hab, h⟩
            obtain ⟨rfl, rfl⟩ := huniq a b hab
            rcases h with ⟨h, -⟩ | ⟨-, h⟩
            · exact h c1
            · rw [hl] at h; cases h
          · rintro ⟨l, -, a, b, hab, h⟩
            rcases h with ⟨h, -⟩ | ⟨h, -⟩
            · exact h c3
            · exact h c4
          · rintro ⟨l, -, a, b, hab, h, -⟩; exact h c5
          · obtain ⟨m, e1⟩ : ∃ m, (loadPrice env fl w start stop).2 = .error m := by
              simp [loadPrice, loadOhlc, loadSide, load, c1, c2, c3, c4, c5, hl]
            rw [(convert_error hp h1).1 e1]; exact ⟨rfl, rfl⟩
      · cases hl : readOhlcCsv env.scanner start stop (textFile (w fl.inputOhlcCsv)) with
        | ok l =>
          refine .inr (.inl ⟨l, _, ⟨h1, start, stop, hp, .inl ⟨c3, hl⟩⟩, convert_ok hp h1 ?_ ?_ ?_⟩) <;>
            simp [loadPrice, loadOhlc, loadSide, load, c1, c2, c3, c5, hl]
        | error e =>
          refine .inr (.inr (.inr ⟨?_, ?_, ?_, ?_⟩))
          · rintro ⟨l, -, a, b, hab, h⟩
            rcases h with ⟨h, -⟩ | ⟨h, -⟩
            · exact h c1
            · exact h c2
          · rintro ⟨l, -, a, b, hab, h⟩
            obtain ⟨rfl, rfl⟩ := huniq a b hab
            rcases h with ⟨-, h⟩ | ⟨h, -⟩
            · rw [hl] at h; cases h
            · exact h c4
          · rintro ⟨l, -, a, b, hab, h, -⟩; exact h c5
          · have e1 : (loadPrice env fl w start stop).2 = .ok [] := by
              simp [loadPrice, loadOhlc, loadSide, load, c1, c2, c3, c5, hl]
            obtain ⟨m, e2⟩ : ∃ m, (loadOhlc env fl w start stop).2 = .error m := by
              simp [loadPrice, loadOhlc, loadSide, load, c1, c2, c3, c5, hl]
            rw [(convert_error hp h1).2.1 e1 e2]; exact ⟨rfl, rfl⟩
      · cases hl : readOhlcProto env.ohlcCodec start stop (w fl.inputOhlcProto) with
        | ok l =>
          refine .inr (.inl ⟨l, _, ⟨h1, start, stop, hp, .inr ⟨c4, hl⟩⟩, convert_ok hp h1 ?_ ?_ ?_⟩) <;>
            simp [loadPrice, loadOhlc, loadSide, load, c1, c2, c3, c4, c5, hl]
        | error e =>
          refine .inr (.inr (.inr ⟨?_, ?_, ?_, ?_⟩))
          · rintro ⟨l, -, a, b, hab, h⟩
            rcases h with ⟨h, -⟩ | ⟨h, -⟩
            · exact h c1
            · exact h c2
          · rintro ⟨l, -, a, b, hab, h⟩
            obtain ⟨rfl, rfl⟩ := huniq a b hab
            rcases h with ⟨h, -⟩ | ⟨-, h⟩
            · exact h c3
            · rw [hl] at h; cases h
          · rintro ⟨l, -, a, b, hab, h, -⟩; exact h c5
          · have e1 : (loadPrice env fl w start stop).2 = .ok [] := by
              simp [loadPrice, loadOhlc, loadSide, load, c1, c2, c3, c4, c5, hl]
            obtain ⟨m, e2⟩ : ∃ m, (loadOhlc env fl w start stop).2 = .error m := by
              simp [loadPrice, loadOhlc, loadSide, load, c1, c2, c3, c4, c5, hl]
            rw [(convert_error hp h1).2.1 e1 e2]; exact ⟨rfl, rfl⟩
      · cases hl : readSideCsv env.scanner start stop (textFile (w fl.inputSideCsv)) with
        | ok l =>
          refine .inr (.inr (.inl ⟨l, _, ⟨h1, start, stop, hp, c5, hl⟩, convert_ok hp h1 ?_ ?_ ?_⟩)) <;>
            simp [loadPrice, loadOhlc, loadSide, load, c1, c2, c3, c4, c5, hl]
        | error e =>
          refine .inr (.inr (.inr ⟨?_, ?_, ?_, ?_⟩))
          · rintro ⟨l, -, a, b, hab, h⟩
            rcases h with ⟨h, -⟩ | ⟨h, -⟩
            · exact h c1
            · exact h c2
          · rintro ⟨l, -, a, b, hab, h⟩
            rcases h with ⟨h, -⟩ | ⟨h, -⟩
            · exact h c3
            · exact h c4
          · rintro ⟨l, -, a, b, hab, h, hl'⟩
            obtain ⟨rfl, rfl⟩ := huniq a b hab
            rw [hl] at hl'; cases hl'
          · have e1 : (loadPrice env fl w start stop).2 = .ok [] := by
              simp [loadPrice, loadOhlc, loadSide, load, c1, c2, c3, c4, c5, hl]
            have e2 : (loadOhlc env fl w start stop).2 = .ok [] := by
              simp [loadPrice, loadOhlc, loadSide, load, c1, c2, c3, c4, c5, hl]
            obtain ⟨m, e3⟩ : ∃ m, (loadSide env fl w start stop).2 = .error m := by
              simp [loadPrice, loadOhlc, loadSide, load, c1, c2, c3, c4, c5, hl]
            rw [(convert_error hp h1).2.2 e1 e2 e3]; exact ⟨rfl, rfl⟩
    · refine .inr (.inr (.inr ⟨fun ⟨l, h, _⟩ => h1 h, fun ⟨l, h, _⟩ => h1 h, fun ⟨l, h, _⟩ => h1 h, ?_⟩))
      obtain ⟨ha, hb⟩ := hp
      obtain ⟨a, ha', rfl⟩ := Option.map_eq_some_iff.mp ha
      obtain ⟨b, hb', rfl⟩ := Option.map_eq_some_iff.mp hb
      unfold main
      rw [ha', hb']
      dsimp only
      cases hc : checkInputs fl with
      | none => exact absurd ((checkInputs_none fl).mp hc) h1
      | some m => exact ⟨rfl, rfl⟩
  · refine .inr (.inr (.inr ⟨fun ⟨l, _, a, b, h, _⟩ => hp ⟨a, b, h⟩, fun ⟨l, _, a, b, h, _⟩ => hp ⟨a, b, h⟩,
      fun ⟨l, _, a, b, h, _⟩ => hp ⟨a, b, h⟩, ?_⟩))
    unfold main
    cases ha : Time.parseTime fl.startTime with
    | none => exact ⟨rfl, rfl⟩
    | some a =>
      dsimp only
      cases hb : Time.parseTime fl.endTime with
      | none => exact ⟨rfl, rfl⟩
      | some b => exact absurd ⟨a.toUnixSeconds, b.toUnixSeconds, by rw [ha]; rfl, by rw [hb]; rfl⟩ hp

/-- **C80** (failure). Unless both times can be parsed, exactly one input file is named, and that file is read without an
error, the program ends with `EXIT_FAILURE` and touches no file. -/
theorem C80_failure (env : Env F) (fl : Flags F) (w : Files) (h1 : ¬ ∃ l, ReadsPrices env fl w l)
    (h2 : ¬ ∃ l, ReadsTicks env fl w l) (h3 : ¬ ∃ l, ReadsSide env fl w l) :
    (main env fl w).exit = .failure ∧ (main env fl w).files = w := by
  rcases main_cases env fl w with ⟨l, _, h, _⟩ | ⟨l, _, h, _⟩ | ⟨l, _, h, _⟩ | ⟨-, -, -, h, h'⟩
  · exact absurd ⟨l, h⟩ h1
  · exact absurd ⟨l, h⟩ h2
  · exact absurd ⟨l, h⟩ h3
  · exact ⟨h', h⟩

/-! ### What is written -/

private theorem output_none {M : Type} (canWrite : Text → Bool) (codec : Codec M) {l : List M} {name : Text} (w : Files)
    (h : l = [] ∨ name = []) : output canWrite codec l name w = (w, .ok) := by
  unfold output
  rcases h with rfl | rfl <;> simp

private theorem output_unwritable {M : Type} {canWrite : Text → Bool} (codec : Codec M) {l : List M} {name : Text} (w : Files)
    (h : l ≠ []) (h' : name ≠ []) (hc : canWrite name = false) :
    output canWrite codec l name w = (w, .invalidArgument) := by
  unfold output writeHistory
  simp [h, h', hc]

private theorem output_written {M : Type} {canWrite : Text → Bool} {codec : Codec M} {l : List M} {name : Text} (w : Files)
    (h : l ≠ []) (h' : name ≠ []) (hc : canWrite name = true) (hs : ∀ m ∈ l, Storable codec m) :
    output canWrite codec l name w = (w.write name (fileOf codec l), .ok) := by
  unfold output writeHistory
  simp only [hc, if_true]
  simp [h, h', (C62_write codec l []).1 (fun m hm => (hs m hm).writable)]

private theorem holds_written {M : Type} {codec : Codec M} {l : List M} (hs : ∀ m ∈ l, Storable codec m) (name : Text)
    (w : Files) : Holds codec (w.write name (fileOf codec l)) name l := by
  refine ⟨fileOf codec l, by simp [Files.write], ?_⟩
  have := C62_round_trip l hs []
  simpa [fileOf] using this

private theorem output_frame {M : Type} (canWrite : Text → Bool) (codec : Codec M) (l : List M) (name : Text) (w : Files)
    (n : Text) (hn : n ≠ name ∨ n = [] ∨ l = []) : (output canWrite codec l name w).1 n = w n := by
  unfold output writeHistory
  split
  · rename_i h
    split
    · simp only [Files.write]
      rw [if_neg]
      rintro rfl
      rcases hn with hn | hn | hn
      · exact hn rfl
      · simp [hn] at h
      · simp [hn] at h
    · rfl
  · rfl

private theorem writeOutputs_frame (env : Env F) (fl : Flags F) (price : List (PriceRecord F)) (ohlc : List (OhlcTick F))
    (side : List (SideInputRecord F)) (w : Files) (lines : List Text) (n : Text)
    (h1 : n ≠ fl.outputPrice ∨ n = [] ∨ price = []) (h2 : n ≠ fl.outputOhlc ∨ n = [] ∨ ohlc = [])
    (h3 : n ≠ fl.outputSide ∨ n = [] ∨ side = []) : (writeOutputs env fl price ohlc side w lines).files n = w n := by
  unfold writeOutputs
  dsimp only
  have f1 := output_frame env.canWrite env.priceCodec price fl.outputPrice w n h1
  split
  · rename_i w1 e1
    rw [e1] at f1
    have f2 := output_frame env.canWrite env.ohlcCodec ohlc fl.outputOhlc w1 n h2
    split
    · rename_i w2 e2
      rw [e2] at f2
      have f3 := output_frame env.canWrite env.sideCodec side fl.outputSide w2 n h3
      split
      · rename_i w3 e3
        rw [e3] at f3
        exact f3.trans (f2.trans f1)
      · rename_i w3 _ _ e3
        rw [e3] at f3
        exact f3.trans (f2.trans f1)
    · rename_i w2 _ _ e2
      rw [e2] at f2
      exact f2.trans f1
  · rename_i w1 _ _ e1
    rw [e1] at f1
    exact f1

private theorem writeOutputs_lines (env : Env F) (fl : Flags F) (price : List (PriceRecord F)) (ohlc : List (OhlcTick F))
    (side : List (SideInputRecord F)) (w : Files) (lines : List Text) :
    lines <+: (writeOutputs env fl price ohlc side w lines).lines := by
  unfold writeOutputs
  dsimp only
  split
  · split
    · split
      · simp only [List.append_assoc]; exact List.prefix_append _ _
      · simp only [List.append_assoc]; exact List.prefix_append _ _
    · simp only [List.append_assoc]; exact List.prefix_append _ _
  · exact List.prefix_append _ _

theorem reads_prices_unique {env : Env F} {fl : Flags F} {w : Files} {l : List (PriceRecord F)}
    (h : ReadsPrices env fl w l) : ∃ lines, main env fl w = convertAndWrite env fl l [] [] w lines := by
  obtain ⟨h1, start, stop, hp, h⟩ := h
  refine ⟨_, convert_ok hp h1 ?_ ?_ ?_⟩ <;> rcases oneInput_cases h1 with ⟨c1, c2, c3, c4, c5⟩ | ⟨c1, c2, c3, c4, c5⟩ | ⟨c1, c2, c3, c4, c5⟩ |
    ⟨c1, c2, c3, c4, c5⟩ | ⟨c1, c2, c3, c4, c5⟩ <;> rcases h with ⟨h, h'⟩ | ⟨h, h'⟩ <;>
      first | contradiction | simp [loadPrice, loadOhlc, loadSide, load, c1, c2, c3, c4, c5, h']

theorem reads_ticks_unique {env : Env F} {fl : Flags F} {w : Files} {l : List (OhlcTick F)}
    (h : ReadsTicks env fl w l) : ∃ lines, main env fl w = convertAndWrite env fl [] l [] w lines := by
  obtain ⟨h1, start, stop, hp, h⟩ := h
  refine ⟨_, convert_ok hp h1 ?_ ?_ ?_⟩ <;> rcases oneInput_cases h1 with ⟨c1, c2, c3, c4, c5⟩ | ⟨c1, c2, c3, c4, c5⟩ | ⟨c1, c2, c3, c4, c5⟩ |
    ⟨c1, c2, c3, c4, c5⟩ | ⟨c1, c2, c3, c4, c5⟩ <;> rcases h with ⟨h, h'⟩ | ⟨h, h'⟩ <;>
      first | contradiction | simp [loadPrice, loadOhlc, loadSide, load, c1, c2, c3, c4, c5, h']

theorem reads_side_unique {env : Env F} {fl : Flags F} {w : Files} {l : List (SideInputRecord F)}
    (h : ReadsSide env fl w l) : ∃ lines, main env fl w = convertAndWrite env fl [] [] l w lines := by
  obtain ⟨h1, start, stop, hp, h, h'⟩ := h
  refine ⟨_, convert_ok hp h1 ?_ ?_ ?_⟩ <;> rcases oneInput_cases h1 with ⟨c1, c2, c3, c4, c5⟩ | ⟨c1, c2, c3, c4, c5⟩ | ⟨c1, c2, c3, c4, c5⟩ |
    ⟨c1, c2, c3, c4, c5⟩ | ⟨c1, c2, c3, c4, c5⟩ <;>
      first | contradiction | simp [loadPrice, loadOhlc, loadSide, load, c1, c2, c3, c4, c5, h']

theorem reads_prices_loadable {env : Env F} {fl : Flags F} {w : Files} {l : List (PriceRecord F)}
    (h : ReadsPrices env fl w l) : ∃ start stop, Loadable PriceRecord.ts GoodPrice start stop l := by
  obtain ⟨h1, start, stop, hp, ⟨-, h⟩ | ⟨-, h⟩⟩ := h
  · exact ⟨start, stop, C65_price_csv env.scanner start stop _ l h⟩
  · cases hf : w fl.inputPriceProto with
    | none => rw [hf] at h; cases h
    | some bytes => rw [hf] at h; exact ⟨start, stop, (C65_price_proto env.priceCodec start stop bytes l h).2⟩

/-- **C80** (the input stays). Whatever happens, only the files named by the output flags can change; and of these only the
ones for prices and ticks, if prices are read, only the one for ticks, if ticks are read, and only the one for side inputs,
if side inputs are read. -/
theorem C80_frame (env : Env F) (fl : Flags F) (w : Files) (n : Text)
    (h : n = [] ∨ (n ≠ fl.outputPrice ∧ n ≠ fl.outputOhlc ∧ n ≠ fl.outputSide) ∨
      ((∃ l, ReadsPrices env fl w l) ∧ n ≠ fl.outputPrice ∧ n ≠ fl.outputOhlc) ∨
      ((∃ l, ReadsTicks env fl w l) ∧ n ≠ fl.outputOhlc) ∨
      ((∃ l, ReadsSide env fl w l) ∧ n ≠ fl.outputSide)) :
    (main env fl w).files n = w n := by
  have key : ∀ price ohlc side lines, (n ≠ fl.outputPrice ∨ n = [] ∨ price = []) →
      (n ≠ fl.outputOhlc ∨ n = [] ∨ (ohlc = [] ∧ price = [])) → (n ≠ fl.outputSide ∨ n = [] ∨ side = []) →
      (convertAndWrite env fl price ohlc side w lines).files n = w n := by
    intro price ohlc side lines h1 h2 h3
    unfold convertAndWrite
    dsimp only
    split
    · rename_i hc
      split
      · rfl
      · refine writeOutputs_frame env fl _ _ _ w _ n h1 ?_ h3
        rcases h2 with h2 | h2 | ⟨-, h2⟩
        · exact .inl h2
        · exact .inr (.inl h2)
        · simp [h2] at hc
    · exact writeOutputs_frame env fl _ _ _ w _ n h1 (h2.imp_right (fun h => h.imp_right (fun h => h.1))) h3
  rcases h with h | ⟨h1, h2, h3⟩ | ⟨⟨l, hl⟩, h1, h2⟩ | ⟨⟨l, hl⟩, h2⟩ | ⟨⟨l, hl⟩, h3⟩
  · rcases main_cases env fl w with ⟨l, lines, -, hm⟩ | ⟨l, lines, -, hm⟩ | ⟨l, lines, -, hm⟩ | ⟨-, -, -, hm, -⟩
    · rw [hm]; exact key _ _ _ _ (.inr (.inl h)) (.inr (.inl h)) (.inr (.inl h))
    · rw [hm]; exact key _ _ _ _ (.inr (.inl h)) (.inr (.inl h)) (.inr (.inl h))
    · rw [hm]; exact key _ _ _ _ (.inr (.inl h)) (.inr (.inl h)) (.inr (.inl h))
    · rw [hm]
  · rcases main_cases env fl w with ⟨l, lines, -, hm⟩ | ⟨l, lines, -, hm⟩ | ⟨l, lines, -, hm⟩ | ⟨-, -, -, hm, -⟩
    · rw [hm]; exact key _ _ _ _ (.inl h1) (.inl h2) (.inl h3)
    · rw [hm]; exact key _ _ _ _ (.inl h1) (.inl h2) (.inl h3)
    · rw [hm]; exact key _ _ _ _ (.inl h1) (.inl h2) (.inl h3)
    · rw [hm]
  · obtain ⟨lines, hm⟩ := reads_prices_unique hl
    rw [hm]; exact key _ _ _ _ (.inl h1) (.inl h2) (.inr (.inr rfl))
  · obtain ⟨lines, hm⟩ := reads_ticks_unique hl
    rw [hm]; exact key _ _ _ _ (.inr (.inr rfl)) (.inl h2) (.inr (.inr rfl))
  · obtain ⟨lines, hm⟩ := reads_side_unique hl
    rw [hm]; exact key _ _ _ _ (.inr (.inr rfl)) (.inr (.inr ⟨rfl, rfl⟩)) (.inl h3)

/-- **C80** (nothing selected). If the file is read but holds nothing in the period, the program succeeds without writing
anything: outputs of an earlier run stay. -/
theorem C80_empty (env : Env F) (fl : Flags F) (w : Files)
    (h : ReadsPrices env fl w [] ∨ ReadsTicks env fl w [] ∨ ReadsSide env fl w []) :
    (main env fl w).exit = .success ∧ (main env fl w).files = w := by
  have key : ∀ lines, (convertAndWrite env fl [] [] [] w lines).exit = .success ∧
      (convertAndWrite env fl [] [] [] w lines).files = w := by
    intro lines
    unfold convertAndWrite writeOutputs
    simp [output_none]
  rcases h with h | h | h
  · obtain ⟨lines, hm⟩ := reads_prices_unique h; rw [hm]; exact key lines
  · obtain ⟨lines, hm⟩ := reads_ticks_unique h; rw [hm]; exact key lines
  · obtain ⟨lines, hm⟩ := reads_side_unique h; rw [hm]; exact key lines

/-- **C80** (prices). If prices are read and the sampling rate is positive, the program succeeds if and only if the named
output files can be opened (otherwise it ends with `EXIT_FAILURE`), and then these hold the prices read, and their
conversion to ticks; if both names are the same, the ticks.  The report names the gaps. -/
theorem C80_prices (env : Env F) (fl : Flags F) (w : Files) (l : List (PriceRecord F)) (hr : ReadsPrices env fl w l)
    (hne : l ≠ []) (hrate : 0 < fl.samplingRate) (hs : ∀ r ∈ l, Storable env.priceCodec r) :
    ∃ lines ticks, convertPriceHistory env.fmt fl.maxDeviation fl.samplingRate fl.lastNOutliers l = .ok (lines, ticks) ∧
      ((∀ t ∈ ticks, Storable env.ohlcCodec t) →
        (fl.outputPrice ≠ [] → env.canWrite fl.outputPrice = true) ∧
          (fl.outputOhlc ≠ [] → env.canWrite fl.outputOhlc = true) →
        (main env fl w).exit = .success ∧
        (fl.outputPrice ≠ [] → fl.outputPrice ≠ fl.outputOhlc → Holds env.priceCodec (main env fl w).files fl.outputPrice l) ∧
        (fl.outputOhlc ≠ [] → Holds env.ohlcCodec (main env fl w).files fl.outputOhlc ticks)) ∧
      (fl.outputPrice ≠ [] → env.canWrite fl.outputPrice = false →
        (main env fl w).exit = .failure ∧ (main env fl w).files = w) ∧
      (fl.outputOhlc ≠ [] → env.canWrite fl.outputOhlc = false →
        (main env fl w).exit = .failure ∧ (main env fl w).files fl.outputOhlc = w fl.outputOhlc) ∧
      (fl.outputOhlc ≠ [] → lines <:+: (main env fl w).lines) ∧
      (0 ≤ fl.topNGaps → fl.topNGaps < 2 ^ 31 →
        printPriceHistoryGaps env.fmt l fl.topNGaps.toNat <:+: (main env fl w).lines) := by
  obtain ⟨start, stop, hl⟩ := reads_prices_loadable hr
  obtain ⟨lines, ticks, hconv, hticks, -⟩ :=
    C69_conversion env.fmt fl.maxDeviation fl.samplingRate hrate fl.lastNOutliers start stop l hl
  have htn := hticks hne
  obtain ⟨pre, hm⟩ := reads_prices_unique hr
  have hside : ∀ w, output env.canWrite env.sideCodec ([] : List (SideInputRecord F)) fl.outputSide w = (w, .ok) :=
    fun w => output_none _ _ w (.inl rfl)
  have hgaps : 0 ≤ fl.topNGaps → fl.topNGaps < 2 ^ 31 → toSize fl.topNGaps = fl.topNGaps.toNat := by
    intro h1 h2
    unfold toSize
    rw [Int.emod_eq_of_lt h1 (by omega)]
  -- what remains of the program
  have hmain : ∃ gl, ∃ head,
      gl = pre ++ head :: printPriceHistoryGaps env.fmt l (toSize fl.topNGaps) ∧
      main env fl w = if fl.outputOhlc ≠ [] then writeOutputs env fl l ticks [] w (gl ++ lines)
      else writeOutputs env fl l [] [] w gl := by
    refine ⟨_, "Top ".toList ++ (env.fmt.int fl.topNGaps).toList ++ " gaps:".toList, rfl, ?_⟩
    rw [hm]
    unfold convertAndWrite
    dsimp only
    by_cases ho : fl.outputOhlc = []
    · simp [ho, hne]
    · simp [ho, hne, hconv]
  obtain ⟨gl, head, hgl, hmain⟩ := hmain
  have hgl' : printPriceHistoryGaps env.fmt l (toSize fl.topNGaps) <:+: gl :=
    ⟨pre ++ [head], [], by rw [hgl]; simp⟩
  refine ⟨lines, ticks, hconv, ?_, ?_, ?_, ?_, ?_⟩
  · rintro hst ⟨hwp, hwo⟩
    have hw1 : ∃ w1, output env.canWrite env.priceCodec l fl.outputPrice w = (w1, .ok) ∧
        (fl.outputPrice ≠ [] → Holds env.priceCodec w1 fl.outputPrice l) := by
      by_cases hp : fl.outputPrice = []
      · exact ⟨w, output_none _ _ w (.inr hp), fun h => absurd hp h⟩
      · exact ⟨_, output_written w hne hp (hwp hp) hs, fun _ => holds_written hs _ w⟩
    obtain ⟨w1, hw1, hh1⟩ := hw1
    by_cases ho : fl.outputOhlc = []
    · have hx : (writeOutputs env fl l [] [] w gl).files = w1 ∧ (writeOutputs env fl l [] [] w gl).exit = .success := by
        unfold writeOutputs
        dsimp only
        rw [hw1]
        dsimp only
        rw [output_none _ _ w1 (.inl rfl)]
        dsimp only
        rw [hside]
        exact ⟨rfl, rfl⟩
      rw [hmain, if_neg (by simp [ho]), hx.1, hx.2]
      exact ⟨rfl, fun h _ => hh1 h, fun h => absurd ho h⟩
    · have hx : (writeOutputs env fl l ticks [] w (gl ++ lines)).files =
            w1.write fl.outputOhlc (fileOf env.ohlcCodec ticks) ∧
          (writeOutputs env fl l ticks [] w (gl ++ lines)).exit = .success := by
        unfold writeOutputs
        dsimp only
        rw [hw1]
        dsimp only
        rw [output_written w1 htn ho (hwo ho) hst]
        dsimp only
        rw [hside]
        exact ⟨rfl, rfl⟩
      rw [hmain, if_pos ho, hx.1, hx.2]
      refine ⟨rfl, fun h h' => ?_, fun _ => holds_written hst _ w1⟩
      obtain ⟨bytes, hb, hv⟩ := hh1 h
      refine ⟨bytes, ?_, hv⟩
      simp only [Files.write]
      rw [if_neg h', hb]
  · intro hp hc
    have hx : ∀ t k, (writeOutputs env fl l t [] w k).files = w ∧ (writeOutputs env fl l t [] w k).exit = .failure := by
      intro t k
      unfold writeOutputs
      dsimp only
      rw [output_unwritable _ w hne hp hc]
      exact ⟨rfl, rfl⟩
    rw [hmain]
    split <;> simp [hx]
  · intro ho hc
    have hx : (writeOutputs env fl l ticks [] w (gl ++ lines)).exit = .failure ∧
        (writeOutputs env fl l ticks [] w (gl ++ lines)).files fl.outputOhlc = w fl.outputOhlc := by
      by_cases hp : fl.outputPrice = [] ∨ env.canWrite fl.outputPrice = true
      · have hw1 : ∃ w1, output env.canWrite env.priceCodec l fl.outputPrice w = (w1, .ok) ∧
            w1 fl.outputOhlc = w fl.outputOhlc := by
          by_cases hp' : fl.outputPrice = []
          · exact ⟨w, output_none _ _ w (.inr hp'), rfl⟩
          · refine ⟨_, output_written w hne hp' (hp.resolve_left hp') hs, ?_⟩
            simp only [Files.write]
            rw [if_neg]
            intro e
            rw [e] at hc
            rw [hc] at hp
            rcases hp with hp | hp
            · exact hp' hp
            · cases hp
        obtain ⟨w1, hw1, hk⟩ := hw1
        unfold writeOutputs
        dsimp only
        rw [hw1]
        dsimp only
        rw [output_unwritable _ w1 htn ho hc]
        exact ⟨rfl, hk⟩
      · push Not at hp
        unfold writeOutputs
        dsimp only
        rw [output_unwritable _ w hne hp.1 (by simpa using hp.2)]
        exact ⟨rfl, rfl⟩
    rw [hmain, if_pos ho]
    exact hx
  · intro ho
    rw [hmain, if_pos ho]
    exact (List.suffix_append _ _).isInfix.trans (writeOutputs_lines env fl _ _ _ w _).isInfix
  · intro h1 h2
    rw [hgaps h1 h2] at hgl'
    rw [hmain]
    split
    · exact (hgl'.trans (List.prefix_append _ _).isInfix).trans (writeOutputs_lines env fl _ _ _ w _).isInfix
    · exact hgl'.trans (writeOutputs_lines env fl _ _ _ w _).isInfix

/-- **C80** (ticks). If ticks are read, they are what is written. -/
theorem C80_ticks (env : Env F) (fl : Flags F) (w : Files) (l : List (OhlcTick F)) (hr : ReadsTicks env fl w l)
    (hne : l ≠ []) (hs : ∀ t ∈ l, Storable env.ohlcCodec t) :
    (fl.outputOhlc = [] → (main env fl w).exit = .success) ∧
    (fl.outputOhlc ≠ [] → env.canWrite fl.outputOhlc = true →
      (main env fl w).exit = .success ∧ Holds env.ohlcCodec (main env fl w).files fl.outputOhlc l) ∧
    (fl.outputOhlc ≠ [] → env.canWrite fl.outputOhlc = false →
      (main env fl w).exit = .failure ∧ (main env fl w).files = w) := by
  obtain ⟨pre, hm⟩ := reads_ticks_unique hr
  have hx : main env fl w = writeOutputs env fl [] l [] w pre := by
    rw [hm]; unfold convertAndWrite; simp
  have hx' : ((writeOutputs env fl [] l [] w pre).files, (writeOutputs env fl [] l [] w pre).exit) =
      match output env.canWrite env.ohlcCodec l fl.outputOhlc w with
      | (w, .ok) => (w, .success)
      | (w, _) => (w, .failure) := by
    unfold writeOutputs
    dsimp only
    rw [output_none _ _ w (.inl rfl)]
    dsimp only
    rcases output env.canWrite env.ohlcCodec l fl.outputOhlc w with ⟨w1, st⟩
    cases st
    · dsimp only
      rw [output_none _ _ w1 (.inl rfl)]
    · rfl
    · rfl
  rw [hx]
  refine ⟨fun h => ?_, fun h hc => ?_, fun h hc => ?_⟩
  · rw [output_none _ _ w (.inr h)] at hx'
    exact (Prod.ext_iff.mp hx').2
  · rw [output_written w hne h hc hs] at hx'
    obtain ⟨e1, e2⟩ := Prod.mk.inj hx'
    rw [e1]
    exact ⟨e2, holds_written hs _ w⟩
  · rw [output_unwritable _ w hne h hc] at hx'
    exact ⟨(Prod.ext_iff.mp hx').2, (Prod.ext_iff.mp hx').1⟩

/-- **C80** (side inputs). If side inputs are read, they are what is written. -/
theorem C80_side (env : Env F) (fl : Flags F) (w : Files) (l : List (SideInputRecord F)) (hr : ReadsSide env fl w l)
    (hne : l ≠ []) (hs : ∀ t ∈ l, Storable env.sideCodec t) :
    (fl.outputSide = [] → (main env fl w).exit = .success) ∧
    (fl.outputSide ≠ [] → env.canWrite fl.outputSide = true →
      (main env fl w).exit = .success ∧ Holds env.sideCodec (main env fl w).files fl.outputSide l) ∧
    (fl.outputSide ≠ [] → env.canWrite fl.outputSide = false →
      (main env fl w).exit = .failure ∧ (main env fl w).files = w) := by
  obtain ⟨pre, hm⟩ := reads_side_unique hr
  have hx : main env fl w = writeOutputs env fl [] [] l w pre := by
    rw [hm]; unfold convertAndWrite; simp
  have hx' : ((writeOutputs env fl [] [] l w pre).files, (writeOutputs env fl [] [] l w pre).exit) =
      match output env.canWrite env.sideCodec l fl.outputSide w with
      | (w, .ok) => (w, .success)
      | (w, _) => (w, .failure) := by
    unfold writeOutputs
    dsimp only
    rw [output_none _ _ w (.inl rfl)]
    dsimp only
    rw [output_none _ _ w (.inl rfl)]
    dsimp only
    rcases output env.canWrite env.sideCodec l fl.outputSide w with ⟨w1, st⟩
    cases st <;> rfl
  rw [hx]
  refine ⟨fun h => ?_, fun h hc => ?_, fun h hc => ?_⟩
  · rw [output_none _ _ w (.inr h)] at hx'
    exact (Prod.ext_iff.mp hx').2
  · rw [output_written w hne h hc hs] at hx'
    obtain ⟨e1, e2⟩ := Prod.mk.inj hx'
    rw [e1]
    exact ⟨e2, holds_written hs _ w⟩
  · rw [output_unwritable _ w hne h hc] at hx'
    exact ⟨(Prod.ext_iff.mp hx').2, (Prod.ext_iff.mp hx').1⟩

/-- **C80** (again). Prices written by one run are read back by a run over the same period as exactly these prices. -/
theorem C80_again (env : Env F) (fl fl' : Flags F) (w w' : Files) (l : List (PriceRecord F)) (hr : ReadsPrices env fl w l)
    (hs : ∀ r ∈ l, Storable env.priceCodec r) (name : Text) (hw : w' name = some (fileOf env.priceCodec l))
    (hname : name ≠ []) (h1 : OneInput fl') (hin : fl'.inputPriceProto = name)
    (ht : fl'.startTime = fl.startTime ∧ fl'.endTime = fl.endTime) : ReadsPrices env fl' w' l := by
  obtain ⟨h1', start, stop, hp, h⟩ := hr
  have hl : Loadable PriceRecord.ts GoodPrice start stop l ∧ l = periodOf PriceRecord.ts start stop l := by
    have hl : Loadable PriceRecord.ts GoodPrice start stop l := by
      rcases h with ⟨-, h⟩ | ⟨-, h⟩
      · exact C65_price_csv env.scanner start stop _ l h
      · cases hf : w fl.inputPriceProto with
        | none => rw [hf] at h; cases h
        | some bytes => rw [hf] at h; exact (C65_price_proto env.priceCodec start stop bytes l h).2
    refine ⟨hl, ?_⟩
    unfold periodOf
    have e1 : l.filter (fun r => decide (start ≤ 0 ∨ start ≤ r.ts)) = l := by
      rw [List.filter_eq_self]
      intro r hr
      have := hl.window r hr
      simp only [decide_eq_true_eq]
      by_cases h0 : 0 < start
      · exact .inr (this.1 h0)
      · exact .inl (by omega)
    rw [e1]
    refine (List.takeWhile_eq_self_iff.mpr ?_).symm
    intro r hr
    have := hl.window r hr
    simp only [decide_eq_true_eq]
    by_cases h0 : 0 < stop
    · exact .inr (this.2 h0)
    · exact .inl (by omega)
  refine ⟨h1, start, stop, ?_, .inr ⟨by rw [hin]; exact hname, ?_⟩⟩
  · unfold Selects at hp ⊢
    rw [ht.1, ht.2]; exact hp
  · rw [hin, hw]
    exact (C65_price_proto_exact start stop l l hs).mpr ⟨hl.2, hl.1⟩

end Verif.Props
