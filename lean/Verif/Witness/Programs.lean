import Verif.Props.ConvertMain
import Verif.Props.TraderMain
import Verif.Props.TraderBatch
import Verif.Props.TraderClean
import Verif.Props.Console
import Verif.Props.Logger
import Verif.Props.Backtest

/-!
# Witnesses: the theorems about the two programs (C70, C80, C82, C83, C99), each applied to concrete data
-/

namespace Verif.Witness.Prog
open FloatOps Spec Props _root_.Verif.Convert

attribute [local instance] evLibm

theorem start_time : Time.parseTime tmConvertFlags.startTime = some (.sec 0) := by decide +kernel
theorem end_time : Time.parseTime tmConvertFlags.endTime = some (.sec 86400) := by decide +kernel

abbrev asFile (s : String) : List UInt8 := s.toList.map (fun c => UInt8.ofNat c.toNat)

/-! ### convert.cc: ticks and side inputs -/

/-- Two ticks. -/
abbrev ticks : List (OhlcTick ℚ) := [⟨300, 2, 3, 2, 3, 2⟩, ⟨600, 3, 4, 1, 2, 0⟩]
abbrev records : List (SideInputRecord ℚ) := [⟨100, [7]⟩, ⟨200, [8]⟩]

/-- Four files: trades, ticks, side inputs, and an empty one. -/
def files : Files := fun name =>
  if name = "ticks.csv".toList then some (asFile "300,2,3,2,3,2\n600,3,4,1,2,0\n")
  else if name = "side.csv".toList then some (asFile "100,7\n200,8\n")
  else if name = "empty.csv".toList then some []
  else if name = "bad.csv".toList then some (asFile "310,3,1\n301,2,1\n")
  else tmFiles name

def env : Env ℚ := { tmConvertEnv with ohlcCodec := tableCodec ticks, sideCodec := tableCodec records }

def none' : Flags ℚ := { tmConvertFlags with inputPriceCsv := [], outputOhlc := [] }
def tickFlags : Flags ℚ := { none' with inputOhlcCsv := "ticks.csv".toList, outputOhlc := "ohlc".toList }
def sideFlags : Flags ℚ := { none' with inputSideCsv := "side.csv".toList, outputSide := "side".toList }

theorem one_ticks : OneInput tickFlags := by unfold OneInput; decide
theorem one_side : OneInput sideFlags := by unfold OneInput; decide

theorem reads_ticks : ReadsTicks env tickFlags files ticks :=
  ⟨one_ticks, 0, 86400, ⟨by decide +kernel, by decide +kernel⟩, .inl ⟨by decide, by decide +kernel⟩⟩

theorem reads_side : ReadsSide env sideFlags files records :=
  ⟨one_side, 0, 86400, ⟨by decide +kernel, by decide +kernel⟩, by decide, by decide +kernel⟩

theorem storable_ticks : ∀ t ∈ ticks, Storable env.ohlcCodec t := by
  intro t ht
  simp only [List.mem_cons, List.not_mem_nil, or_false] at ht
  rcases ht with rfl | rfl <;> exact ⟨by unfold Writable; decide +kernel, by decide +kernel⟩

theorem storable_records : ∀ t ∈ records, Storable env.sideCodec t := by
  intro t ht
  simp only [List.mem_cons, List.not_mem_nil, or_false] at ht
  rcases ht with rfl | rfl <;> exact ⟨by unfold Writable; decide +kernel, by decide +kernel⟩

theorem storable_prices : ∀ r ∈ tmPrices, Storable env.priceCodec r := by
  intro t ht
  simp only [List.mem_cons, List.not_mem_nil, or_false] at ht
  rcases ht with rfl | rfl <;> exact ⟨by unfold Writable; decide +kernel, by decide +kernel⟩

/-- The ticks are written to the file, in order. -/
example : (main env tickFlags files).exit = .success ∧ Holds env.ohlcCodec (main env tickFlags files).files "ohlc".toList ticks :=
  (C80_ticks env tickFlags files ticks reads_ticks (by simp) storable_ticks).2.1 (by decide) rfl

/-- So are the side inputs; ... -/
example : (main env sideFlags files).exit = .success ∧ Holds env.sideCodec (main env sideFlags files).files "side".toList records :=
  (C80_side env sideFlags files records reads_side (by simp) storable_records).2.1 (by decide) rfl

/-- ... and if the output cannot be written, the program fails and changes nothing. -/
example : (main { env with canWrite := fun _ => false } sideFlags files).exit = .failure ∧
    (main { env with canWrite := fun _ => false } sideFlags files).files = files :=
  (C80_side { env with canWrite := fun _ => false } sideFlags files records reads_side (by simp) storable_records).2.2 (by decide) rfl

/-- An empty file: success, with nothing written. -/
example : (main env { sideFlags with inputSideCsv := "empty.csv".toList } files).exit = .success ∧
    (main env { sideFlags with inputSideCsv := "empty.csv".toList } files).files = files :=
  C80_empty env _ files (.inr (.inr ⟨by unfold OneInput; decide, 0, 86400, ⟨by decide +kernel, by decide +kernel⟩, by decide,
    by decide +kernel⟩))

/-- Trades out of order: failure, with nothing written. -/
example : (main env { tmConvertFlags with inputPriceCsv := "bad.csv".toList } files).exit = .failure ∧
    (main env { tmConvertFlags with inputPriceCsv := "bad.csv".toList } files).files = files := by
  refine C80_failure env _ files ?_ ?_ ?_
  · rintro ⟨l, -, start, stop, ⟨h1, h2⟩, ⟨-, h⟩ | ⟨h, -⟩⟩
    · have e1 : some start = some 0 := h1.symm.trans (by decide +kernel)
      have e2 : some stop = some 86400 := h2.symm.trans (by decide +kernel)
      cases e1; cases e2
      have : readPriceCsv env.scanner 0 86400 (textFile (files "bad.csv".toList)) = .error (.record 2 .timestamp) := by decide +kernel
      have := h.symm.trans this
      cases this
    · exact h rfl
  · rintro ⟨l, -, start, stop, -, ⟨h, -⟩ | ⟨h, -⟩⟩ <;> exact h rfl
  · rintro ⟨l, -, start, stop, -, h, -⟩
    exact h rfl

/-- A file the program was not asked to write is left alone, even with another input. -/
example : (main env tickFlags files).files "in.csv".toList = files "in.csv".toList :=
  C80_frame env tickFlags files _ (.inr (.inl ⟨by decide, by decide, by decide⟩))

/-- Ticks read: `--output_price_history_delimited_proto_file` is not written even if named. -/
example : (main env { tickFlags with outputPrice := "prices".toList } files).files "prices".toList = files "prices".toList :=
  C80_frame env { tickFlags with outputPrice := "prices".toList } files _ (.inr (.inr (.inr (.inl ⟨⟨ticks,
    by unfold OneInput; decide, 0, 86400, ⟨by decide +kernel, by decide +kernel⟩, .inl ⟨by decide, by decide +kernel⟩⟩, by decide⟩))))

/-- What was written from the CSV file can be read back by a second run. -/
example : ReadsPrices env { none' with inputPriceProto := "prices".toList }
    (fun name => if name = "prices".toList then some (fileOf env.priceCodec tmPrices) else none) tmPrices :=
  C80_again env tmConvertFlags _ tmFiles _ tmPrices tm_reads storable_prices "prices".toList (if_pos rfl) (by decide)
    (by unfold OneInput; decide) rfl ⟨rfl, rfl⟩

/-! ### convert.cc: the console -/

example := C99_ohlc_csv_error env tickFlags (fun _ => none) _ _ start_time end_time one_ticks (by decide) .cannotOpen rfl
example := C99_side_csv_error env sideFlags (fun _ => none) _ _ start_time end_time one_side (by decide) .cannotOpen rfl

/-- A file cut off in the middle of a message, and one that is not there. -/
def protoFiles : Files := fun name =>
  if name = "cut".toList then some [2, 0] else none

def priceProto (name : String) : Flags ℚ := { none' with inputPriceProto := name.toList }
def ohlcProto (name : String) : Flags ℚ := { none' with inputOhlcProto := name.toList }

example := C99_price_proto_error env (priceProto "gone") protoFiles _ _ start_time end_time (by unfold OneInput; decide) (by decide)
  .cannotOpen none rfl
example : (main env (priceProto "cut") protoFiles).exit = .failure := by
  obtain ⟨e, about, h⟩ : ∃ e about, readPriceProto env.priceCodec (Time.Instant.sec 0).toUnixSeconds
      (Time.Instant.sec 86400).toUnixSeconds (protoFiles (priceProto "cut").inputPriceProto) = .error (e, about) :=
    ⟨.cannotParse, none, by decide +kernel⟩
  obtain ⟨messages, h1, -⟩ := C99_price_proto_error env (priceProto "cut") protoFiles _ _ start_time end_time
    (by unfold OneInput; decide) (by decide) e about h
  rw [h1]
example := C99_ohlc_proto_error env (ohlcProto "gone") protoFiles _ _ start_time end_time (by unfold OneInput; decide) (by decide)
  .cannotOpen none rfl

theorem ticks_success : (main env tickFlags files).exit = .success :=
  ((C80_ticks env tickFlags files ticks reads_ticks (by simp) storable_ticks).2.1 (by decide) rfl).1
theorem side_success : (main env sideFlags files).exit = .success :=
  ((C80_side env sideFlags files records reads_side (by simp) storable_records).2.1 (by decide) rfl).1

example := C99_convert_ticks env tickFlags files _ _ start_time end_time one_ticks ticks _ _
  (.inl ⟨by decide, by decide +kernel, rfl, rfl⟩) ticks_success
example := C99_convert_side env sideFlags files _ _ start_time end_time one_side records (by decide) (by decide +kernel) side_success

/-! ### trader.cc -/

/-- The files after the conversion of the two trades. -/
abbrev after : Files := (main tmConvertEnv tmConvertFlags tmFiles).files

theorem loads (schedule : List ℕ) (batch : Bool) : Loads (tmEnv schedule) (tmFlags batch) after 0 86400 tmTicks none := by
  obtain ⟨h, -⟩ := tm_both [] false (by simp)
  exact ⟨h.period, h.order, h.ticks, h.side⟩

theorem single_ok : (TraderMain.main (tmEnv []) (tmFlags false) after).exit = .success := (tm_both [] false (by simp)).2

example := C82_frame (tmEnv []) (tmFlags false) after "ohlc".toList (.inr (.inr ⟨by decide, by decide⟩))
example := C82_frame (tmEnv []) (tmFlags true) after "ex.csv".toList (.inl rfl)
example := C82_single (tmEnv []) (tmFlags false) after 0 86400 tmTicks none none (loads _ _) .none rfl _ rfl (tm_logs _ _)

/-- The logs cannot be opened. -/
example : (TraderMain.main { tmEnv [] with canWrite := fun _ => false } (tmFlags false) after).exit = .failure := by
  have hl : Loads { tmEnv [] with canWrite := fun _ => false } (tmFlags false) after 0 86400 tmTicks none :=
    let h := loads [] false; ⟨h.period, h.order, h.ticks, h.side⟩
  refine (C82_logs_refused { tmEnv [] with canWrite := fun _ => false } (tmFlags false) after 0 86400 tmTicks none none hl .none rfl
    _ rfl ?_).1
  intro h
  exact absurd (h "ex.csv".toList (.inl rfl) (by decide)).2 (by decide)

/-- A negative number of months. -/
example := C82_nothing_selected (tmEnv []) { tmFlags false with months := -1 } after 0 86400 tmTicks none none
  (let h := loads [] false; ⟨h.period, h.order, h.ticks, h.side⟩) .none rfl _ rfl (fun _ _ _ => ⟨by decide, rfl⟩) (.inl (by decide))

/-- An empty file of side inputs: the program aborts, and no file changes. -/
abbrev withSide : Files := fun name => if name = "side".toList then some [] else after name

example : (∃ e, (TraderMain.main (tmEnv []) { tmFlags false with inputSide := "side".toList } withSide).exit = .fault e) ∧
    (TraderMain.main (tmEnv []) { tmFlags false with inputSide := "side".toList } withSide).files = withSide := by
  refine C82_side_refused (tmEnv []) { tmFlags false with inputSide := "side".toList } withSide 0 86400 tmTicks [] ?_ (by simp)
  have h := loads [] false
  refine ⟨h.period, h.order, ?_, .inr ⟨by decide, [], rfl, [], ⟨[], if_pos rfl, rfl⟩, ?_, rfl⟩⟩
  · obtain ⟨all, ⟨bytes, h1, h2⟩, h3, h4⟩ := h.ticks
    exact ⟨all, ⟨bytes, (if_neg (by decide)).trans h1, h2⟩, h3, h4⟩
  · exact List.Pairwise.nil

/-- A batch. -/
example : ∃ schedule, (TraderMain.main (tmEnv schedule) (tmFlags true) after).exit = .success ∧
    (∃ (batch : List (BuiltIn ℚ)) (rs : List (EvaluationResult ℚ)), getBatchOfTraders "stop" = .ok batch ∧
      List.Forall₂ (fun b r => (evaluateTrader ⟨TraderMain.accountConfig (tmFlags true), ⟨0, 86400, 0, true⟩, tmTicks, none,
        BuiltIn.emitter (tmEnv schedule).fmt b⟩ false).out = .ok r) batch rs) ∧
    ∀ other, (TraderMain.main (tmEnv other) (tmFlags true) after).exit = .success →
      TraderMain.main (tmEnv other) (tmFlags true) after = TraderMain.main (tmEnv schedule) (tmFlags true) after := by
  obtain ⟨s, hs⟩ := fair_schedule 144 (2 ^ 31 + 1)
  have hok := (tm_both s true (fun _ => hs)).2
  refine ⟨s, hok, ?_, fun other ho => ?_⟩
  · obtain ⟨batch, rs, -, -, h1, h2, -⟩ := C83_success (tmEnv s) tm_sorts (tmFlags true) after 0 86400 tmTicks none none (loads _ _)
      .none rfl hok
    exact ⟨batch, rs, h1, h2⟩
  · exact C83_deterministic (tmEnv s) other (tmFlags true) after 0 86400 tmTicks none none (loads _ _) .none rfl hok ho

/-- The fair schedules of `C83_completes` exist, and its other hypotheses hold. -/
example : ∃ schedule, ∃ batch : List (BuiltIn ℚ), (TraderMain.main (tmEnv schedule) (tmFlags true) after).exit = .success ↔
    ∃ rs, List.Forall₂ (fun b r => (evaluateTrader ⟨TraderMain.accountConfig (tmFlags true), ⟨0, 86400, 0, true⟩, tmTicks, none,
        BuiltIn.emitter (tmEnv schedule).fmt b⟩ false).out = .ok r) batch rs ∧ Rankable rs := by
  obtain ⟨batch, hg⟩ : ∃ batch, (getBatchOfTraders "stop" : Res (List (BuiltIn ℚ))) = .ok batch := ⟨_, rfl⟩
  obtain ⟨s, hs⟩ := fair_schedule batch.length (2 ^ 31 + 1)
  exact ⟨s, batch, C83_completes (tmEnv s) (tmFlags true) after 0 86400 tmTicks none none (loads _ _) .none rfl batch hg hs⟩

/-- A batch of traders nobody knows: the program aborts, because there is no such batch. -/
example : ∃ e, (TraderMain.main (tmEnv []) { tmFlags true with trader := "nobody" } after).exit = .fault e ∧
    ((getBatchOfTraders "nobody" : Res (List (BuiltIn ℚ))) = .error e) := by
  have hl : Loads (tmEnv []) { tmFlags true with trader := "nobody" } after 0 86400 tmTicks none :=
    let h := loads [] true; ⟨h.period, h.order, h.ticks, h.side⟩
  obtain ⟨lines, hm⟩ := trader_main_schedule hl .none
  have hm := hm []
  have he : ∃ e, (TraderMain.main (tmEnv []) { tmFlags true with trader := "nobody" } after).exit = .fault e := ⟨_, by
    change TraderMain.main (tmEnv []) { tmFlags true with trader := "nobody" } after = _ at hm
    rw [hm]; rfl⟩
  obtain ⟨e, he⟩ := he
  rcases C83_fault (tmEnv []) _ after 0 86400 tmTicks none none hl .none rfl e he with h | ⟨batch, h, -⟩
  · exact ⟨e, he, h⟩
  · cases h

/-! ### The logger -/

abbrev fmt : Format ℚ := ⟨fun _ => "0", fun _ _ => "1"⟩
theorem fmt_plain : PlainFormat fmt :=
  ⟨fun x => show ∀ c ∈ "0".toList, c ≠ ',' ∧ c ≠ '\n' by decide, fun n x => show ∀ c ∈ "1".toList, c ≠ ',' ∧ c ≠ '\n' by decide⟩

abbrev btOut := (executeTrader btCfg btTicks none false btTrader (0 : ℕ) true)

example := C70_exchange_log fmt_plain (some []) "left over\n".toList btOut.trace
example : ∃ r text, btOut.out = .ok r ∧ ((Logger.CsvLogger.mk (some []) none).after fmt btOut.trace).exchange = some text ∧
    (linesOf text).length = btTicks.length + r.totalExecutedOrders := by
  have : btOut.out.isOk = true := by decide +kernel
  cases h : btOut.out with
  | error e => rw [h] at this; cases this
  | ok r =>
    obtain ⟨text, h1, h2⟩ := C70_number_of_lines fmt_plain .none btCfg btTicks false btTrader (0 : ℕ) h none
    exact ⟨r, text, rfl, h1, h2⟩

end Verif.Witness.Prog
