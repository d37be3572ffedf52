import Verif.Props.TraderBatch
import Verif.Props.Pipeline
import Verif.Props.Wire
import Verif.Props.Printing

/-!
# C84: the programs on clean data
-/

set_option linter.unusedSectionVars false

namespace Verif.Props
open Verif Verif.Spec FloatOps

section exact
variable {K : Type} [Field K] [LinearOrder K] [IsStrictOrderedRing K] [FloorRing K] [Libm K]

/-- **C84** (account). Reasonable flags are exactly those which make a usable account. -/
theorem C84_account (fl : TraderMain.Flags K) : CleanAccount (TraderMain.accountConfig fl : AccountConfig K) ↔ SaneFlags fl := by
  have h1 : (0 : K) < 1 / 100000 := by positivity
  have h2 : (0 : K) < 1 / 100 := by positivity
  constructor
  · rintro ⟨a, b, c, -, -, d⟩
    exact ⟨a, b, c, d⟩
  · rintro ⟨a, b, c, d⟩
    refine ⟨a, b, c, ?_, ?_, d⟩
    · simp only [TraderMain.accountConfig, lit, ex_ofRat]; norm_num
    · simp only [TraderMain.accountConfig, lit, ex_ofRat]; norm_num

/-- **C82** (the account). The balances the program starts with, the liquidity and the share of the volume are those of the
flags; the base unit is 0.00001, the quote unit 0.01; and whatever the type of an order, the fee for trading an amount `q` of quote
currency is the smallest whole number of cents which is at least 0.5% of `q`. -/
theorem C82_account (fl : TraderMain.Flags K) :
    let c : AccountConfig K := TraderMain.accountConfig fl
    c.startBase = fl.startBase ∧ c.startQuote = fl.startQuote ∧ c.marketLiquidity = fl.marketLiquidity ∧
    c.maxVolumeRatio = fl.maxVolumeRatio ∧ c.baseUnit = 1 / 100000 ∧ c.quoteUnit = 1 / 100 ∧
    ∀ (ty : OrderType) (q fee : K), 0 ≤ q →
      (FeeOf (feeFor c ty) c.quoteUnit q fee ↔ IsLeast {y | q / 200 ≤ y ∧ ∃ cents : ℤ, y = cents / 100} fee) := by
  intro c
  have hq : c.quoteUnit = 1 / 100 := by
    simp only [c, TraderMain.accountConfig, lit, ex_ofRat]; norm_num
  refine ⟨rfl, rfl, rfl, rfl, ?_, hq, fun ty q fee h => ?_⟩
  · simp only [c, TraderMain.accountConfig, lit, ex_ofRat]; norm_num
  have hf : ∀ ty, feeFor c ty = ⟨1 / 200, 0, 0⟩ := by
    intro ty
    cases ty <;> simp only [c, feeFor, TraderMain.accountConfig, lit, ex_ofRat] <;> norm_num
  have hm : max (0 : K) (0 + 1 / 200 * q) = q / 200 := by
    rw [max_eq_right (by positivity)]; ring
  unfold FeeOf CeilTo IsMultiple
  rw [hf, hq, if_pos (by positivity)]
  simp only [hm, mul_one_div]

/-- For 301 units of quote currency that is 1.51. -/
example [Libm ℚ] (fl : TraderMain.Flags ℚ) :
    FeeOf (feeFor (TraderMain.accountConfig fl) .limit) (TraderMain.accountConfig fl : AccountConfig ℚ).quoteUnit 301 (151 / 100) := by
  refine ((C82_account fl).2.2.2.2.2.2 .limit 301 (151 / 100) (by norm_num)).mpr
    ⟨⟨by norm_num, 151, by norm_num⟩, ?_⟩
  rintro y ⟨h, n, rfl⟩
  have : (150 : ℚ) < n := by linarith
  have h2 : (150 : ℤ) < n := by exact_mod_cast this
  have h3 : ((151 : ℤ) : ℚ) ≤ n := by exact_mod_cast h2
  push_cast at h3; linarith

/-- Reasonable side inputs, if any. -/
private theorem side_exists {recs : Option (List (SideInputRecord K))}
    (h : ∀ l, recs = some l → l ≠ [] ∧ ValidSideHistory l) : ∃ side, SideOf recs side := by
  cases recs with
  | none => exact ⟨_, .none⟩
  | some l =>
    obtain ⟨h1, h2⟩ := h l rfl
    obtain ⟨s, hs⟩ := (C27_construct l).2.1 h1 h2
    exact ⟨_, .some l s hs⟩

private theorem evaluable {fl : TraderMain.Flags K} {w : Files} {env : TraderMain.Env K} {start stop : ℤ} {ticks : List (OhlcTick K)}
    {recs : Option (List (SideInputRecord K))} (hl : Loads env fl w start stop ticks recs) (h : Evaluable fl start stop ticks) :
    (0 < fl.months ∧ fl.months < 2 ^ 31 - 12 ∧ stop - start ≤ 28 * 86400 * (2 ^ 31 - 14)) ∨
      (fl.months = 0 ∧ ∃ t ∈ ticks, InWindow start stop t.ts) := by
  rcases h with h | ⟨h1, h2⟩
  · exact .inl h
  · refine .inr ⟨h1, ?_⟩
    obtain ⟨t, ht⟩ := List.exists_mem_of_ne_nil _ h2
    obtain ⟨all, -, -, rfl⟩ := hl.ticks
    exact ⟨t, ht, by simpa using (List.mem_filter.mp ht).2⟩

/-- **C84** (one trader). On a clean history (and valid side inputs, if any), with reasonable flags, the program succeeds: no
assertion can fail and nothing is undefined. -/
theorem C84_single (env : TraderMain.Env K) (fl : TraderMain.Flags K) (w : Files) (start stop : ℤ) (ticks : List (OhlcTick K))
    (recs : Option (List (SideInputRecord K))) (hl : Loads env fl w start stop ticks recs) (hc : Spec.CleanHistory ticks)
    (hs : ∀ l, recs = some l → l ≠ [] ∧ ValidSideHistory l) (hf : SaneFlags fl) (he : Evaluable fl start stop ticks)
    (hname : fl.trader = "rebalancing" ∨ fl.trader = "stop") (hb : fl.evaluateBatch = false) (ho : LogsOpen env fl) :
    (TraderMain.main env fl w).exit = .success := by
  obtain ⟨side, hside⟩ := side_exists hs
  obtain ⟨b, hn⟩ := (C72_names (F := K) fl.trader).1.mpr hname
  obtain ⟨run, log, hrun, -, hbad, hgood⟩ := C82_single env fl w start stop ticks recs side hl hside hb b hn ho
  obtain ⟨r, hr⟩ := C59_evaluation_never_aborts (recs := recs) (fmt := env.fmt)
    (i := ⟨TraderMain.accountConfig fl, ⟨start, stop, fl.months, false⟩, ticks, side, b.emitter env.fmt⟩)
    ⟨hside, ⟨b, (C72_parameters_clean fl.trader).1 b hn, rfl⟩, (C84_account fl).mpr hf, hc⟩ (evaluable hl he) true
  exact (hgood r (by rw [hrun]; exact hr)).1

/-- **C84** (batch). The same for a batch, under every schedule in which each task gets to run. -/
theorem C84_batch (env : TraderMain.Env K) (fl : TraderMain.Flags K) (w : Files) (start stop : ℤ) (ticks : List (OhlcTick K))
    (recs : Option (List (SideInputRecord K))) (hl : Loads env fl w start stop ticks recs) (hc : Spec.CleanHistory ticks)
    (hs : ∀ l, recs = some l → l ≠ [] ∧ ValidSideHistory l) (hf : SaneFlags fl) (he : Evaluable fl start stop ticks)
    (hname : fl.trader = "rebalancing" ∨ fl.trader = "stop") (hb : fl.evaluateBatch = true)
    (hfair : ∀ k < 144, 2 ^ 31 + 1 ≤ env.schedule.count k) :
    (TraderMain.main env fl w).exit = .success := by
  obtain ⟨side, hside⟩ := side_exists hs
  obtain ⟨batch, hg, hlen⟩ : ∃ batch : List (BuiltIn K), getBatchOfTraders fl.trader = .ok batch ∧ batch.length ≤ 144 := by
    obtain ⟨-, -, -, -, ⟨l1, a1, a2, -⟩, ⟨l2, b1, b2, -⟩⟩ := C72_names (F := K) fl.trader
    rcases hname with h | h <;> rw [h]
    · exact ⟨l1, a1, by omega⟩
    · exact ⟨l2, b1, by omega⟩
  rw [C83_completes env fl w start stop ticks recs side hl hside hb batch hg (fun k hk => hfair k (by omega))]
  have : ∀ b ∈ batch, ∃ r, (evaluateTrader
      ⟨TraderMain.accountConfig fl, ⟨start, stop, fl.months, true⟩, ticks, side, BuiltIn.emitter env.fmt b⟩ false).out = .ok r := by
    intro b hbm
    exact C59_evaluation_never_aborts (recs := recs) (fmt := env.fmt)
      (i := ⟨TraderMain.accountConfig fl, ⟨start, stop, fl.months, true⟩, ticks, side, b.emitter env.fmt⟩)
      ⟨hside, ⟨b, (C72_parameters_clean fl.trader).2 batch hg b hbm, rfl⟩, (C84_account fl).mpr hf, hc⟩ (evaluable hl he) false
  obtain ⟨rs, hrs⟩ := forall₂_of_forall this
  exact ⟨rs, hrs, C83_rankable_exact _⟩

/-- **C84** (both programs). Convert a file of prices with convert.cc; then evaluate a trader with trader.cc on the file of
ticks written.  If the prices are not older than one sampling period after 1970, the flags are reasonable and there is
something to evaluate, both programs succeed; the trader is evaluated on exactly the ticks of the conversion that lie in the
period asked for. -/
theorem C84_both_programs (cenv : Convert.Env K) (cfl : Convert.Flags K) (w : Files) (l : List (PriceRecord K))
    (hr : ReadsPrices cenv cfl w l) (hne : l ≠ []) (hrate : 0 < cfl.samplingRate) (hold : ∀ r ∈ l, cfl.samplingRate ≤ r.ts)
    (hst : ∀ r ∈ l, Storable cenv.priceCodec r) (hw : cenv.canWrite cfl.outputOhlc = true) (hout : cfl.outputOhlc ≠ [])
    (hp : cfl.outputPrice = [])
    (env : TraderMain.Env K) (hcodec : env.ohlcCodec = cenv.ohlcCodec) (fl : TraderMain.Flags K) (start stop : ℤ)
    (hin : fl.inputOhlc = cfl.outputOhlc) (hnoside : fl.inputSide = []) (hper : TraderPeriod fl start stop)
    (hord : 0 < stop → start ≤ stop) (hf : SaneFlags fl) (hname : fl.trader = "rebalancing" ∨ fl.trader = "stop")
    (hmode : fl.evaluateBatch = false ∧ LogsOpen env fl ∨
      fl.evaluateBatch = true ∧ ∀ k < 144, 2 ^ 31 + 1 ≤ env.schedule.count k) :
    ∃ lines ticks, Convert.convertPriceHistory cenv.fmt cfl.maxDeviation cfl.samplingRate cfl.lastNOutliers l = .ok (lines, ticks) ∧
      ((∀ t ∈ ticks, Storable cenv.ohlcCodec t) →
        (Convert.main cenv cfl w).exit = .success ∧
        Loads env fl (Convert.main cenv cfl w).files start stop
          (ticks.filter (fun t => decide (InWindow start stop t.ts))) none ∧
        (Evaluable fl start stop (ticks.filter (fun t => decide (InWindow start stop t.ts))) →
          (TraderMain.main env fl (Convert.main cenv cfl w).files).exit = .success)) := by
  obtain ⟨lines, ticks, hconv, hok, -⟩ := C80_prices cenv cfl w l hr hne hrate hst
  refine ⟨lines, ticks, hconv, fun hts => ?_⟩
  obtain ⟨h1, -, h3⟩ := hok hts ⟨fun h => absurd hp h, fun _ => hw⟩
  obtain ⟨cstart, cstop, hload⟩ := reads_prices_loadable hr
  obtain ⟨-, hclean⟩ := C69_clean cenv.fmt cfl.maxDeviation cfl.samplingRate hrate cfl.lastNOutliers cstart cstop l hload lines ticks hconv
  have hclean := hclean hold
  have hload' : Loads env fl (Convert.main cenv cfl w).files start stop
      (ticks.filter (fun t => decide (InWindow start stop t.ts))) none := by
    refine ⟨hper, hord, ⟨ticks, ?_, hclean.sorted, rfl⟩, .inl ⟨hnoside, rfl⟩⟩
    rw [hcodec, hin]
    exact h3 hout
  refine ⟨h1, hload', fun he => ?_⟩
  rcases hmode with ⟨hb, ho⟩ | ⟨hb, hfair⟩
  · exact C84_single env fl _ start stop _ none hload' (clean_filter hclean _) (by simp) hf he hname hb ho
  · exact C84_batch env fl _ start stop _ none hload' (clean_filter hclean _) (by simp) hf he hname hb hfair

end exact

/-! ### Non-vacuity -/

section examples

/-- A serialisation that knows the messages of a list. -/
def tableCodec {M : Type} [DecidableEq M] (l : List M) : Codec M where
  encode m := [UInt8.ofNat (l.idxOf m)]
  decode b := match b with | [k] => l[k.toNat]? | _ => none

abbrev tmPrices : List (PriceRecord ℚ) := [⟨301, 2, 1⟩, ⟨310, 3, 1⟩]
abbrev tmTicks : List (OhlcTick ℚ) := [⟨300, 2, 3, 2, 3, 2⟩]

/-- A file system with one CSV file: two trades. -/
def tmFiles : Files := fun name =>
  if name = "in.csv".toList then some ("301,2,1\n310,3,1\n".toList.map (fun c => UInt8.ofNat c.toNat)) else none

def tmConvertEnv : Convert.Env ℚ :=
  ⟨⟨fun _ => "0", fun _ _ => "1"⟩, decimalScanner, tableCodec tmPrices, tableCodec tmTicks, tableCodec [], fun _ => true,
    fun _ => [], fun _ => [], fun _ => [], fun _ => "0.001".toList⟩

def tmConvertFlags : Convert.Flags ℚ where
  inputPriceCsv := "in.csv".toList
  inputPriceProto := []
  outputPrice := []
  inputOhlcCsv := []
  inputOhlcProto := []
  outputOhlc := "ohlc".toList
  inputSideCsv := []
  outputSide := []
  startTime := "1970-01-01".toList
  endTime := "1970-01-02".toList
  maxDeviation := 10
  samplingRate := 300
  topNGaps := 10
  lastNOutliers := 20

theorem tm_reads : ReadsPrices tmConvertEnv tmConvertFlags tmFiles tmPrices := by
  refine ⟨by unfold OneInput; decide, 0, 86400, ⟨by decide +kernel, by decide +kernel⟩, .inl ⟨by decide, ?_⟩⟩
  decide +kernel

/-- Results sorted by merging. -/
def tmSort (l : List (EvaluationResult ℚ)) : List (EvaluationResult ℚ) := l.mergeSort (fun a b => decide (b.score ≤ a.score))

theorem tm_sorts : SortsByScore tmSort := by
  intro l _
  refine ⟨List.mergeSort_perm _ _, ?_⟩
  have := List.pairwise_mergeSort (le := fun a b : EvaluationResult ℚ => decide (b.score ≤ a.score))
    (by intro a b c; simp only [decide_eq_true_eq]; exact fun h1 h2 => h2.trans h1)
    (by intro a b; simp only [Bool.or_eq_true, decide_eq_true_eq]; exact le_total _ _) l
  refine this.imp ?_
  intro a b h
  simpa using h

theorem fair_schedule (n N : ℕ) : ∃ s : List ℕ, ∀ k < n, N ≤ s.count k := by
  refine ⟨(List.range n).flatMap (fun k => List.replicate N k), fun k hk => ?_⟩
  have h1 : List.Sublist (List.replicate N k) ((List.range n).flatMap (fun k => List.replicate N k)) := by
    rw [List.flatMap]
    exact List.sublist_flatten_of_mem (List.mem_map.mpr ⟨k, List.mem_range.mpr hk, rfl⟩)
  have := h1.count_le k
  rwa [List.count_replicate_self] at this

def tmEnv (schedule : List ℕ) : TraderMain.Env ℚ :=
  ⟨⟨fun _ => "0", fun _ _ => "1"⟩, tableCodec tmTicks, tableCodec [], fun _ => true, fun _ => 7, tmSort, schedule,
    fun _ => [], fun _ => [], fun _ => "0.001".toList⟩

def tmFlags (batch : Bool) : TraderMain.Flags ℚ where
  inputOhlc := "ohlc".toList
  inputSide := []
  outputExchangeLog := "ex.csv".toList
  outputTraderLog := "tr.csv".toList
  trader := "stop"
  startTime := "1970-01-01".toList
  endTime := "1970-01-02".toList
  months := 0
  startBase := 10
  startQuote := 0
  marketLiquidity := 1 / 2
  maxVolumeRatio := 1 / 2
  evaluateBatch := batch

attribute [local instance] evLibm

theorem tm_logs (schedule : List ℕ) (batch : Bool) : LogsOpen (tmEnv schedule) (tmFlags batch) :=
  fun _ _ _ => ⟨le_refl _, rfl⟩

theorem tm_sane (batch : Bool) : SaneFlags (tmFlags batch) := by
  constructor <;> norm_num [tmFlags]

theorem tm_period (batch : Bool) : TraderPeriod (tmFlags batch) 0 86400 := by
  constructor
  · change (Time.parseTime "1970-01-01".toList).map Time.Instant.toUnixSeconds = some 0; decide +kernel
  · change (Time.parseTime "1970-01-02".toList).map Time.Instant.toUnixSeconds = some 86400; decide +kernel

theorem tm_converted : ∃ lines, Convert.convertPriceHistory tmConvertEnv.fmt 10 300 20 tmPrices = .ok (lines, tmTicks) := by
  rw [convert_iff _ _ _ (by decide)]
  have h1 : (removeOutliers (10 : ℚ) tmPrices).1 = tmPrices := by decide +kernel
  rw [h1]
  have e1 : (300 * Int.tdiv 301 300 : ℤ) = 300 := by decide
  have e2 : (300 * Int.tdiv 310 300 : ℤ) = 300 := by decide
  have h2 : fillGaps 300 300 ([⟨300, 2, 2, 2, 2, 1⟩] : List (OhlcTick ℚ)) = [⟨300, 2, 2, 2, 2, 1⟩] := by
    rw [fillGaps]; simp
  unfold resample
  simp only [List.foldlM_cons, List.foldlM_nil, resampleStep, fillGaps, e1, e2, bind, Except.bind, h2]
  decide +kernel

/-- Both programs, one after the other: what the trader finds is the one tick of the conversion; and both succeed, with one
trader or with the batch of 144 traders. -/
theorem tm_both (schedule : List ℕ) (batch : Bool) (hfair : batch = true → ∀ k < 144, 2 ^ 31 + 1 ≤ schedule.count k) :
    Loads (tmEnv schedule) (tmFlags batch) (Convert.main tmConvertEnv tmConvertFlags tmFiles).files 0 86400 tmTicks none ∧
    (TraderMain.main (tmEnv schedule) (tmFlags batch) (Convert.main tmConvertEnv tmConvertFlags tmFiles).files).exit = .success := by
  obtain ⟨lines, ticks, h1, h2⟩ := C84_both_programs tmConvertEnv tmConvertFlags tmFiles tmPrices tm_reads (by simp) (by decide)
    (by decide) (by
      intro r hr
      simp only [tmPrices, List.mem_cons, List.not_mem_nil, or_false] at hr
      rcases hr with rfl | rfl
      · exact ⟨by unfold Writable; decide +kernel, by decide +kernel⟩
      · exact ⟨by unfold Writable; decide +kernel, by decide +kernel⟩) rfl (by decide) rfl
    (tmEnv schedule) rfl (tmFlags batch) 0 86400 rfl rfl (tm_period batch) (by omega) (tm_sane batch) (.inr rfl) (by
      cases batch with
      | false => exact .inl ⟨rfl, tm_logs _ _⟩
      | true => exact .inr ⟨rfl, hfair rfl⟩)
  obtain ⟨lines', h3⟩ := tm_converted
  have : (lines, ticks) = (lines', tmTicks) := Except.ok.inj (h1.symm.trans h3)
  obtain ⟨rfl, rfl⟩ := Prod.mk.inj this
  obtain ⟨-, h4, h5⟩ := h2 (by
    intro t ht
    simp only [tmTicks, List.mem_cons, List.not_mem_nil, or_false] at ht
    subst ht
    exact ⟨by unfold Writable; decide +kernel, by decide +kernel⟩)
  have h6 : tmTicks.filter (fun t => decide (InWindow 0 86400 t.ts)) = tmTicks := by decide +kernel
  rw [h6] at h4 h5
  exact ⟨h4, h5 (.inr ⟨rfl, by simp⟩)⟩

/-- The whole-period theorem applies to the first, ... -/
example : ∃ ex tr : Text,
    (TraderMain.main (tmEnv []) (tmFlags false) (Convert.main tmConvertEnv tmConvertFlags tmFiles).files).files "ex.csv".toList =
      some (TraderMain.textBytes ex) ∧ 1 ≤ (Convert.linesOf ex).length ∧
    (TraderMain.main (tmEnv []) (tmFlags false) (Convert.main tmConvertEnv tmConvertFlags tmFiles).files).files "tr.csv".toList =
      some (TraderMain.textBytes tr) ∧ (Convert.linesOf tr).length = 1 := by
  obtain ⟨h1, h2⟩ := tm_both [] false (by simp)
  have hf : PlainFormat (tmEnv []).fmt :=
    ⟨fun x => show ∀ c ∈ "0".toList, c ≠ ',' ∧ c ≠ '\n' by decide, fun n x => show ∀ c ∈ "1".toList, c ≠ ',' ∧ c ≠ '\n' by decide⟩
  obtain ⟨p, -, -, -, h3, h4⟩ := C82_single_whole (tmEnv []) hf (tmFlags false) _ 0 86400 tmTicks none none
    h1 .none rfl _ rfl (tm_logs _ _) rfl h2
  obtain ⟨ex, h5, h6⟩ := h3 (by decide) (by decide)
  obtain ⟨tr, h7, h8⟩ := h4 (by decide)
  exact ⟨ex, tr, h5, by rw [h6]; simp, h7, h8⟩

/-- ... and the theorems on batches to the second. -/
example : ∃ schedule, SortsByScore (tmEnv schedule).sort ∧
    Loads (tmEnv schedule) (tmFlags true) (Convert.main tmConvertEnv tmConvertFlags tmFiles).files 0 86400 tmTicks none ∧
    (TraderMain.main (tmEnv schedule) (tmFlags true) (Convert.main tmConvertEnv tmConvertFlags tmFiles).files).exit = .success := by
  obtain ⟨s, hs⟩ := fair_schedule 144 (2 ^ 31 + 1)
  obtain ⟨h1, h2⟩ := tm_both s true (fun _ => hs)
  exact ⟨s, tm_sorts, h1, h2⟩

/-- **C82** (the account in `float`). The constants of the program's account are the `float`s nearest to 0.00001, 0.01 and 0.005;
there are no fixed or minimum fees, and the flags, of type `double`, are rounded to `float`. -/
theorem C82_account_f32 (fl : TraderMain.Flags F64) :
    let c : AccountConfig F32 := TraderMain.accountConfig fl
    c.startBase = Wide.narrow fl.startBase ∧ c.startQuote = Wide.narrow fl.startQuote ∧
    c.marketLiquidity = Wide.narrow fl.marketLiquidity ∧ c.maxVolumeRatio = Wide.narrow fl.maxVolumeRatio ∧
    c.baseUnit = .fin (10995116 / 2 ^ 40) ∧ c.quoteUnit = .fin (5368709 / 2 ^ 29) ∧
    ∀ ty : OrderType, feeFor c ty = ⟨.fin (5368709 / 2 ^ 30), .fin 0, .fin 0⟩ := by
  intro c
  refine ⟨rfl, rfl, rfl, rfl, ?_, ?_, fun ty => ?_⟩
  · show lit F32 (1 / 100000) = _; decide +kernel
  · show lit F32 (1 / 100) = _; decide +kernel
  · have h : (⟨lit F32 (5 / 1000), lit F32 0, lit F32 0⟩ : FeeConfig F32) = ⟨.fin (5368709 / 2 ^ 30), .fin 0, .fin 0⟩ := by
      congr 1 <;> decide +kernel
    cases ty <;> exact h

/-- In `float` arithmetic, with the encodings of protobuf and the printing of abseil: what convert.cc has written is what
trader.cc loads. -/
example [Libm F32] [Libm F64] (sort : List (EvaluationResult F32) → List (EvaluationResult F32)) :
    ∃ ticks, Loads (D := F64) ⟨Logger.abslFormat binary32, Wire.ohlcCodec, Wire.sideCodec, fun _ => true, fun _ => 0, sort, [],
        fun _ => [], fun _ => [], fun _ => []⟩
      ⟨"ohlc".toList, [], [], [], "stop", "2017-01-01".toList, "2017-01-02".toList, 6, .fin 1, .fin 0, .fin 1, .fin 1, false⟩
      (Convert.main wireEnv wireFlags wireFiles).files 1483228800 1483315200 ticks none := by
  obtain ⟨lines, ticks, h1, h2, h3, h4⟩ := C81_program wireEnv rfl rfl decimal_float wireFlags wireFiles wirePrices wire_reads
    (by simp [wirePrices]) (by decide) (by decide) (fun _ => rfl) (fun _ => rfl)
  obtain ⟨start, stop, hl⟩ := reads_prices_loadable wire_reads
  obtain ⟨lines', ticks', h5, -, -, -, h6⟩ := C69_conversion wireEnv.fmt (.fin (1 / 8)) 60 (by decide) 20 start stop wirePrices hl
  have : (lines, ticks) = (lines', ticks') := Except.ok.inj (h1.symm.trans h5)
  obtain ⟨rfl, rfl⟩ := Prod.mk.inj this
  refine ⟨_, ⟨?_, ?_⟩, by omega, ⟨ticks, h4 (by decide), h6.imp (fun h => h.le), rfl⟩, .inl ⟨rfl, rfl⟩⟩
  · change (Time.parseTime "2017-01-01".toList).map Time.Instant.toUnixSeconds = some 1483228800; decide +kernel
  · change (Time.parseTime "2017-01-02".toList).map Time.Instant.toUnixSeconds = some 1483315200; decide +kernel

/-- A `pow` as the C standard wants it. -/
example : ∃ inst : Libm F64, @PowIsNumber inst := ⟨⟨id, id, id, fun _ _ => .fin 1⟩, fun _ _ _ _ => show (Fl.fin 1 : F64) ≠ .nan by simp⟩

/-- Scores that cannot be ranked: 1 and 2 are both tied with a NaN, but not with each other. -/
example (r : EvaluationResult F32) :
    ¬ Rankable [{ r with score := .nan }, { r with score := .fin 1 }, { r with score := .fin 2 }] := by
  rw [C83_rankable_f32]
  rintro (h | h)
  · exact h { r with score := .nan } (by simp) rfl
  · have := h { r with score := .fin 1 } (by simp) { r with score := .fin 2 } (by simp)
    change Fl.lt (.fin 1) (.fin 2) = false at this
    simp at this

end examples
end Verif.Props
