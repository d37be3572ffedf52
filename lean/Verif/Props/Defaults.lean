import Verif.Props.FloatPipeline

/-!
# C100: the programs with the default values of their flags
-/

set_option linter.unusedSectionVars false

namespace Verif.Props
open FloatOps Spec
open Fl (toQ IsFin)

/-- `convert --input_price_history_csv_file=<input> --output_ohlc_history_delimited_proto_file=<output>`. -/
abbrev convertCommand {F D : Type} [FloatOps F] [FloatOps D] [Wide F D] (input output : Text) : Convert.Flags F :=
  { Convert.defaultFlags with inputPriceCsv := input, outputOhlc := output }

/-- `trader --input_ohlc_history_delimited_proto_file=<input> --trader=<name> --evaluate_batch=<batch>`. -/
abbrev traderCommand {D : Type} [FloatOps D] (input : Text) (name : String) (batch : Bool) : TraderMain.Flags D :=
  { TraderMain.defaultFlags with inputOhlc := input, trader := name, evaluateBatch := batch }

section general
variable {F D : Type} [FloatOps F] [FloatOps D] [Wide F D]

private theorem start_default : (Time.parseTime "2017-01-01".toList).map Time.Instant.toUnixSeconds = some 1483228800 := by
  decide +kernel

private theorem stop_default : (Time.parseTime "2021-01-01".toList).map Time.Instant.toUnixSeconds = some 1609459200 := by
  decide +kernel

/-- **C100** (the period). The default period of both programs is from the beginning of 2017 to the beginning of 2021 (UTC). -/
theorem C100_period (input output : Text) (name : String) (batch : Bool) :
    Selects (convertCommand input output : Convert.Flags F) 1483228800 1609459200 ∧
    TraderPeriod (traderCommand input name batch : TraderMain.Flags D) 1483228800 1609459200 ∧
    Time.formatTimeUTC (.sec 1483228800) = "2017-01-01 00:00:00".toList ∧
    Time.formatTimeUTC (.sec 1609459200) = "2021-01-01 00:00:00".toList :=
  ⟨⟨start_default, stop_default⟩, ⟨start_default, stop_default⟩, by decide +kernel, by decide +kernel⟩

private theorem default_reads (cenv : Convert.Env F) (w : Files) (input output : Text) (hi : input ≠ []) (l : List (PriceRecord F))
    (hr : Convert.readPriceCsv cenv.scanner 1483228800 1609459200 (textFile (w input)) = .ok l) :
    ReadsPrices cenv (convertCommand input output) w l := by
  refine ⟨?_, 1483228800, 1609459200, ⟨start_default, stop_default⟩, .inl ⟨hi, hr⟩⟩
  unfold OneInput
  simp [Convert.defaultFlags, hi]

/-- All ticks of the conversion lie in the default period. -/
private theorem default_window [Libm F] (fmt : Format F) (maxDev : F) (lastN : ℤ) (l : List (PriceRecord F))
    (hl : Loadable PriceRecord.ts GoodPrice 1483228800 1609459200 l) (lines : List Text) (ticks : List (OhlcTick F))
    (h : Convert.convertPriceHistory fmt maxDev 300 lastN l = .ok (lines, ticks)) :
    (l ≠ [] → ticks ≠ []) ∧ ∀ t ∈ ticks, InWindow 1483228800 1609459200 t.ts := by
  obtain ⟨lines', ticks', h', h1, h2, h3, -⟩ := C69_conversion fmt maxDev 300 (by decide) lastN _ _ l hl
  obtain ⟨rfl, rfl⟩ := Prod.mk.inj (Except.ok.inj (h.symm.trans h'))
  refine ⟨h1, fun t ht => ?_⟩
  obtain ⟨-, -, r, hr, hle⟩ := h2 t ht
  have hw := hl.window r hr
  have hlo := h3 4944096 (fun r hr => by have := hl.window r hr; unfold InWindow at this; omega) t ht
  unfold InWindow at hw ⊢
  omega

private theorem filter_all {ticks : List (OhlcTick F)} (h : ∀ t ∈ ticks, InWindow 1483228800 1609459200 t.ts) :
    ticks.filter (fun t => decide (InWindow 1483228800 1609459200 t.ts)) = ticks :=
  List.filter_eq_self.mpr (fun t ht => by simpa using h t ht)

end general

section exact
variable {K : Type} [Field K] [LinearOrder K] [IsStrictOrderedRing K] [FloorRing K] [Libm K]

/-- **C100** (exact arithmetic). Take any CSV file of prices that `convert` loads and that has at least one price between 2017 and
2021.  With all other flags at their defaults, `convert` writes its conversion to five-minute ticks, `trader` loads all of these
ticks, and both programs succeed: for either trader, and for either batch. -/
theorem C100_defaults (cenv : Convert.Env K) (w : Files) (input output : Text) (hi : input ≠ []) (ho : output ≠ [])
    (l : List (PriceRecord K))
    (hr : Convert.readPriceCsv cenv.scanner 1483228800 1609459200 (textFile (w input)) = .ok l) (hne : l ≠ [])
    (hst : ∀ r ∈ l, Storable cenv.priceCodec r) (hw : cenv.canWrite output = true)
    (env : TraderMain.Env K) (hcodec : env.ohlcCodec = cenv.ohlcCodec) (name : String) (hname : name = "rebalancing" ∨ name = "stop")
    (batch : Bool) (hfair : batch = true → ∀ k < 144, 2 ^ 31 + 1 ≤ env.schedule.count k) :
    ∃ lines ticks, Convert.convertPriceHistory cenv.fmt (1 / 20) 300 20 l = .ok (lines, ticks) ∧
      ((∀ t ∈ ticks, Storable cenv.ohlcCodec t) →
        (Convert.main cenv (convertCommand input output) w).exit = .success ∧
        Loads env (traderCommand output name batch : TraderMain.Flags K) (Convert.main cenv (convertCommand input output) w).files 1483228800 1609459200
          ticks none ∧
        (TraderMain.main env (traderCommand output name batch : TraderMain.Flags K) (Convert.main cenv (convertCommand input output) w).files).exit
          = .success) := by
  have hread := default_reads cenv w input output hi l hr
  have hload := C65_price_csv cenv.scanner _ _ _ l hr
  have hdev : (convertCommand input output : Convert.Flags K).maxDeviation = 1 / 20 := by
    show ((5 / 100 : ℚ) : K) = _
    norm_num
  obtain ⟨lines, ticks, h1, h2⟩ := C84_both_programs cenv (convertCommand input output) w l hread hne (by
      show (0 : ℤ) < 300; decide) (fun r hr => by
      have := hload.window r hr; unfold InWindow at this; show (300 : ℤ) ≤ _; omega) hst hw ho rfl env hcodec
    (traderCommand output name batch) 1483228800 1609459200 rfl rfl ⟨start_default, stop_default⟩ (by decide) (by
      constructor <;> norm_num [TraderMain.defaultFlags, lit, ex_ofRat]) hname (by
      cases batch
      · exact .inl ⟨rfl, fun n hn hne => by rcases hn with rfl | rfl <;> exact absurd rfl hne⟩
      · exact .inr ⟨rfl, hfair rfl⟩)
  rw [hdev] at h1
  refine ⟨lines, ticks, h1, fun hs => ?_⟩
  obtain ⟨h3, h4, h5⟩ := h2 hs
  obtain ⟨hn, hwin⟩ := default_window cenv.fmt _ 20 l hload lines ticks h1
  rw [filter_all hwin] at h4 h5
  exact ⟨h3, h4, h5 (.inr ⟨rfl, hn hne⟩)⟩

end exact

section float
variable [Libm F32] [Libm F64]

/-- The defaults of the flags are reasonable in `float`. -/
theorem defaultFlags_sane (input : Text) (name : String) (batch : Bool) : SaneFlags32 (traderCommand input name batch) := by
  have h1 : (Wide.narrow (lit F64 1 : F64) : F32) = .fin 1 := by decide +kernel
  have h0 : (Wide.narrow (lit F64 0 : F64) : F32) = .fin 0 := by decide +kernel
  have h2 : (Wide.narrow (lit F64 (1 / 2) : F64) : F32) = .fin (1 / 2) := by decide +kernel
  constructor
  · change Holding (Wide.narrow (lit F64 1 : F64)); rw [h1]
    exact ⟨trivial, .inr (by dsimp only [toQ]; norm_num), by dsimp only [toQ]; norm_num⟩
  · change Holding (Wide.narrow (lit F64 0 : F64)); rw [h0]
    exact ⟨trivial, .inl rfl, by dsimp only [toQ]; norm_num⟩
  · left; change 0 < (Wide.narrow (lit F64 1 : F64) : F32).toQ; rw [h1]; dsimp only [toQ]; norm_num
  · change Between 0 1 (Wide.narrow (lit F64 (1 / 2) : F64)); rw [h2]
    exact ⟨trivial, by dsimp only [toQ]; norm_num, by dsimp only [toQ]; norm_num⟩

/-- **C100** (`float`). The same in `float` arithmetic with the encoding of protobuf, for prices between 2^-40 and 2^40: `convert`
succeeds, `trader` loads all ticks of the conversion, and succeeds too, unless an executed order left a balance above 2^80 (starting
with one unit of base currency). -/
theorem C100_defaults_f32 (hpow : PowIsNumber) (cenv : Convert.Env F32) (hcp : cenv.priceCodec = Wire.priceCodec)
    (hco : cenv.ohlcCodec = Wire.ohlcCodec) (hsc : FloatScanner cenv.scanner) (w : Files) (input output : Text) (hi : input ≠ [])
    (ho : output ≠ []) (l : List (PriceRecord F32))
    (hr : Convert.readPriceCsv cenv.scanner 1483228800 1609459200 (textFile (w input)) = .ok l) (hne : l ≠ [])
    (hclean : CleanPrices32 l) (hw : cenv.canWrite output = true)
    (env : TraderMain.Env F32) (hcodec : env.ohlcCodec = Wire.ohlcCodec) (name : String) (hname : name = "rebalancing" ∨ name = "stop")
    (batch : Bool) (hfair : batch = true → ∀ k < 144, 2 ^ 31 + 1 ≤ env.schedule.count k) :
    ∃ lines ticks, Convert.convertPriceHistory cenv.fmt (Wide.narrow (lit F64 (5 / 100))) 300 20 l = .ok (lines, ticks) ∧
      (Convert.main cenv (convertCommand input output) w).exit = .success ∧
      Loads env (traderCommand output name batch : TraderMain.Flags F64) (Convert.main cenv (convertCommand input output) w).files 1483228800 1609459200
        ticks none ∧
      ((TraderMain.main env (traderCommand output name batch : TraderMain.Flags F64) (Convert.main cenv (convertCommand input output) w).files).exit
          = .success ∨
        ∃ b, (getTrader name = .ok b ∨ ∃ all, getBatchOfTraders name = .ok all ∧ b ∈ all) ∧
          WindowOutgrown (programInputs env (traderCommand output name batch) 1483228800 1609459200 batch ticks none b)
            1483228800 1609459200) := by
  have hread := default_reads cenv w input output hi l hr
  have hload := C65_price_csv cenv.scanner _ _ _ l hr
  obtain ⟨lines, ticks, h1, h2, h3, h4⟩ := C93_both_programs hpow cenv hcp hco hsc (convertCommand input output) w l hread hne hclean
    (by show (0 : ℤ) < 300; decide) (fun r hr => by
      have := hload.window r hr; unfold InWindow at this; show (300 : ℤ) ≤ _; omega) (Ne.symm ho) (fun h => absurd rfl h) hw ho
    env hcodec (traderCommand output name batch) 1483228800 1609459200 rfl rfl ⟨start_default, stop_default⟩ (by decide)
    (defaultFlags_sane output name batch) hname (by
      cases batch
      · exact .inl ⟨rfl, fun n hn hne => by rcases hn with rfl | rfl <;> exact absurd rfl hne⟩
      · exact .inr ⟨rfl, hfair rfl⟩)
  obtain ⟨hn, hwin⟩ := default_window cenv.fmt _ 20 l hload lines ticks h1
  rw [filter_all hwin] at h3 h4
  refine ⟨lines, ticks, h1, h2, h3, ?_⟩
  obtain ⟨t, ht⟩ := List.exists_mem_of_ne_nil _ (hn hne)
  rcases h4 (.inr ⟨rfl, t, ht, hwin t ht⟩) with h | ⟨b, hb, a, c, hwd, h | ⟨h, -⟩⟩
  · exact .inl h
  · refine .inr ⟨b, hb, ?_⟩
    cases hwd with
    | whole _ => exact h
    | month _ h0 _ => exact absurd h0 (by show ¬ (0 : ℤ) < 0; decide)
  · exact absurd h (by show ¬ (0 : ℤ) < 0; decide)

/-- Three prices of 2017: both commands, with the formats of abseil and protobuf. -/
example (hpow : PowIsNumber) (sort : List (EvaluationResult F32) → List (EvaluationResult F32)) :
    let env : TraderMain.Env F32 := ⟨Logger.abslFormat binary32, Wire.ohlcCodec, Wire.sideCodec, fun _ => true, fun _ => 0, sort, [],
      fun _ => [], fun _ => [], fun _ => []⟩
    let files := (Convert.main wireEnv (convertCommand "in.csv".toList "ohlc".toList) wireFiles).files
    ∃ ticks : List (OhlcTick F32), Loads env (traderCommand "ohlc".toList "stop" false : TraderMain.Flags F64) files
        1483228800 1609459200 ticks none ∧
      ((TraderMain.main env (traderCommand "ohlc".toList "stop" false : TraderMain.Flags F64) files).exit = .success ∨
        ∃ b, WindowOutgrown (programInputs env (traderCommand "ohlc".toList "stop" false) 1483228800 1609459200 false ticks none b)
          1483228800 1609459200) := by
  intro env files
  obtain ⟨lines, ticks, -, -, h1, h2⟩ := C100_defaults_f32 hpow wireEnv rfl rfl decimal_float wireFiles "in.csv".toList "ohlc".toList
    (by decide) (by decide) wirePrices (by decide +kernel) (by simp [wirePrices]) wirePrices_clean rfl env rfl "stop" (.inr rfl) false
    (fun h => absurd h (by decide))
  exact ⟨ticks, h1, h2.imp id (fun ⟨b, _, hb⟩ => ⟨b, hb⟩)⟩

end float
end Verif.Props
