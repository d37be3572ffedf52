import Verif.Props.SideCsv
import Verif.Props.Resample
import Verif.Props.Outliers
import Verif.Props.HistorySubset
import Verif.Props.Robust
import Verif.Props.Report

/-!
# C69: from a price file to a back-test
-/

set_option linter.unusedSectionVars false

namespace Verif.Props
open Verif Verif.Spec Verif.Convert FloatOps

section general
variable {F : Type} [FloatOps F] [Libm F]

/-- Converting is resampling what is left after the removal of outliers. -/
theorem convert_eq (fmt : Format F) (maxDev : F) (rate : ℤ) (hrate : rate ≠ 0) (lastN : ℤ) (l : List (PriceRecord F)) :
    (convertPriceHistory fmt maxDev rate lastN l).map Prod.snd = resample rate (removeOutliers maxDev l).1 := by
  unfold convertPriceHistory
  dsimp only
  obtain ⟨recs, h, -⟩ := C79_outliers fmt l (removeOutliers maxDev l).2 (C20_partition maxDev l).2.1 5 5 (toSize lastN)
  rw [h]
  simp only [bind, Except.bind, pure, Except.pure]
  rw [if_neg (fun h => hrate h.1)]
  cases resample rate (removeOutliers maxDev l).1 <;> rfl

theorem convert_iff (fmt : Format F) (maxDev : F) (rate : ℤ) (hrate : rate ≠ 0) (lastN : ℤ) (l : List (PriceRecord F))
    (ticks : List (OhlcTick F)) :
    (∃ lines, convertPriceHistory fmt maxDev rate lastN l = .ok (lines, ticks)) ↔
      resample rate (removeOutliers maxDev l).1 = .ok ticks := by
  rw [← convert_eq fmt maxDev rate hrate lastN l]
  cases convertPriceHistory fmt maxDev rate lastN l with
  | error e => simp [Except.map]
  | ok r =>
    obtain ⟨x, y⟩ := r
    simp [Except.map]

/-- **C69** (conversion, any arithmetic). A price history that was loaded is converted without an abort, for every maximal
deviation; the ticks have strictly increasing timestamps that are non-negative multiples of the sampling rate. -/
theorem C69_conversion (fmt : Format F) (maxDev : F) (rate : ℤ) (hrate : 0 < rate) (lastN : ℤ) (start stop : ℤ) (l : List (PriceRecord F))
    (hl : Loadable PriceRecord.ts GoodPrice start stop l) :
    ∃ lines ticks, convertPriceHistory fmt maxDev rate lastN l = .ok (lines, ticks) ∧
      (l ≠ [] → ticks ≠ []) ∧
      (∀ t ∈ ticks, 0 ≤ t.ts ∧ rate ∣ t.ts ∧ ∃ r ∈ l, t.ts ≤ r.ts) ∧
      (∀ m, (∀ r ∈ l, rate * m ≤ r.ts) → ∀ t ∈ ticks, rate * m ≤ t.ts) ∧
      ticks.Pairwise (fun a b => a.ts < b.ts) := by
  rw [exists_comm]
  suffices h : ∃ ticks, resample rate (removeOutliers maxDev l).1 = .ok ticks ∧
      (l ≠ [] → ticks ≠ []) ∧
      (∀ t ∈ ticks, 0 ≤ t.ts ∧ rate ∣ t.ts ∧ ∃ r ∈ l, t.ts ≤ r.ts) ∧
      (∀ m, (∀ r ∈ l, rate * m ≤ r.ts) → ∀ t ∈ ticks, rate * m ≤ t.ts) ∧
      ticks.Pairwise (fun a b => a.ts < b.ts) by
    obtain ⟨ticks, h1, h2⟩ := h
    obtain ⟨lines, h3⟩ := (convert_iff fmt maxDev rate (by omega) lastN l ticks).mpr h1
    exact ⟨ticks, lines, h3, h2⟩
  obtain ⟨-, -, hkeep, hsub, -⟩ := C20_partition maxDev l
  have hfirst : l ≠ [] → (removeOutliers maxDev l).1 ≠ [] := by
    intro hne
    cases l with
    | nil => exact absurd rfl hne
    | cons r rest =>
      have hg := hl.each r (by simp)
      have hbad : r.bad = false := by unfold PriceRecord.bad; rw [hg.price, hg.volume]; rfl
      unfold removeOutliers removeOutliersFrom
      rw [if_neg (by simp [hbad])]
      simp
  cases hc : (removeOutliers maxDev l).1 with
  | nil =>
    refine ⟨[], C17_empty rate, fun hne => absurd hc (hfirst hne), by simp, by simp, List.Pairwise.nil⟩
  | cons first rest =>
    rw [hc] at hsub
    have hs : SortedBy PriceRecord.ts (first :: rest) := hl.sorted.sublist hsub
    obtain ⟨ticks, ho, h⟩ := C17_grid rate hrate first rest hs (fun r hr => (hl.positive r (hsub.subset hr)).le)
    dsimp only at h
    obtain ⟨hlen, hts⟩ := h
    have hfpos : 0 ≤ first.ts / rate := Int.ediv_nonneg (hl.positive first (hsub.subset (by simp))).le hrate.le
    refine ⟨ticks, ho, ?_, ?_, ?_, ?_⟩
    · rintro - rfl
      simp only [List.length_nil] at hlen
      have hle : first.ts ≤ ((first :: rest).getLast (by simp)).ts := by
        rcases List.mem_cons.mp (List.getLast_mem (l := first :: rest) (by simp)) with h | h
        · rw [h]
        · exact (List.pairwise_cons.mp hs).1 _ h
      have := Int.ediv_le_ediv hrate hle
      omega
    · intro t ht
      obtain ⟨i, hi, rfl⟩ := List.getElem_of_mem ht
      rw [hts i hi]
      refine ⟨by positivity, Dvd.intro _ rfl, (first :: rest).getLast (by simp), hsub.subset (List.getLast_mem _), ?_⟩
      have h1 : first.ts / rate + i ≤ ((first :: rest).getLast (by simp)).ts / rate := by omega
      calc rate * (first.ts / rate + i) ≤ rate * (((first :: rest).getLast (by simp)).ts / rate) :=
            mul_le_mul_of_nonneg_left h1 hrate.le
        _ ≤ _ := Int.mul_ediv_self_le (by omega)
    · intro m hm t ht
      obtain ⟨i, hi, rfl⟩ := List.getElem_of_mem ht
      rw [hts i hi]
      have h1 : m ≤ first.ts / rate := by
        rw [Int.le_ediv_iff_mul_le hrate]
        have := hm first (hsub.subset (by simp))
        linarith [mul_comm rate m]
      exact mul_le_mul_of_nonneg_left (by omega) hrate.le
    · rw [List.pairwise_iff_getElem]
      intro i j hi hj hij
      rw [hts i hi, hts j hj]
      exact mul_lt_mul_of_pos_left (by omega) hrate

end general

section exact
variable {K : Type} [Field K] [LinearOrder K] [IsStrictOrderedRing K] [FloorRing K] [Libm K]

theorem goodPrice_exact {r : PriceRecord K} (h : GoodPrice r) : 0 < r.price ∧ 0 ≤ r.volume := by
  have h1 := h.price
  have h2 := h.volume
  simp only [ex_le, ex_lt, lit, ex_ofRat, Rat.cast_zero, decide_eq_false_iff_not, not_le, not_lt] at h1 h2
  exact ⟨h1, h2⟩

/-- **C69** (conversion, exact arithmetic). Every tick of the converted history is well-formed, and if the prices do not
start within the first sampling period after 1970, the history is fit for a back-test. -/
theorem C69_clean (fmt : Format K) (maxDev : K) (rate : ℤ) (hrate : 0 < rate) (lastN : ℤ) (start stop : ℤ) (l : List (PriceRecord K))
    (hl : Loadable PriceRecord.ts GoodPrice start stop l) (lines : List Text) (ticks : List (OhlcTick K))
    (h : convertPriceHistory fmt maxDev rate lastN l = .ok (lines, ticks)) :
    (∀ t ∈ ticks, WellFormedTick t) ∧ ((∀ r ∈ l, rate ≤ r.ts) → Spec.CleanHistory ticks) := by
  obtain ⟨lines', ticks', h', -, -, hm, hlt⟩ := C69_conversion fmt maxDev rate hrate lastN start stop l hl
  rw [h] at h'
  obtain ⟨rfl, rfl⟩ := Prod.mk.inj (Except.ok.inj h')
  obtain ⟨-, -, -, hsub, -⟩ := C20_partition maxDev l
  have hwf : ∀ t ∈ ticks, WellFormedTick t := by
    intro t ht
    replace h := (convert_iff fmt maxDev rate (by omega) lastN l ticks).mp ⟨lines, h⟩
    exact C19_well_formed rate hrate _ (hl.sorted.sublist hsub) (fun r hr => (hl.positive r (hsub.subset hr)).le)
      (fun r hr => (goodPrice_exact (hl.each r (hsub.subset hr))).1)
      (fun r hr => (goodPrice_exact (hl.each r (hsub.subset hr))).2) ticks h t ht
  refine ⟨hwf, fun hr => ⟨fun t ht => ?_, hlt.imp (fun h => h.le), hlt.sublist List.filter_sublist⟩⟩
  obtain ⟨a, b, c, d, e, f⟩ := hwf t ht
  have := hm 1 (by simpa using hr) t ht
  exact ⟨by omega, by linarith, by linarith, a, by linarith, f⟩

/-- Reading a written history back in trader.cc. -/
theorem readHistory_written {M : Type} {codec : Codec M} {ts : M → ℤ} (start stop : ℤ) (rs : List M)
    (hw : ∀ r ∈ rs, Storable codec r) (hs : SortedBy ts rs) (hwin : ¬ InvertedWithRecord ts rs start stop) :
    readHistory codec ts start stop (some (fileOf codec rs)) =
      .ok (rs.length, .ok (rs.filter (fun r => decide (InWindow start stop (ts r))))) := by
  unfold readHistory Proto.readFile
  dsimp only
  have h : Proto.readMessages codec (fun (ms : List M) m => (ms ++ [m], some ReaderSignal.kContinue)) []
      (fileOf codec rs) = (rs, .ok) := by
    have := C62_round_trip rs hw []
    rw [List.nil_append] at this
    exact this
  rw [h]
  dsimp only
  rw [C15_subset_copy ts rs hs start stop hwin]

/-- **C69** (end to end). Take any price file that convert.cc loads with a start time of at least one sampling period, and
convert it.  Then the conversion does not abort; what is written is read back by trader.cc as exactly the ticks inside the
requested window; and evaluating a built-in trader on them, month by month or as a whole, returns a result. -/
theorem C69_end_to_end {codec : Codec (OhlcTick K)} (sc : Scanner K)
    (start stop : ℤ) (file : Option Text) (l : List (PriceRecord K)) (hload : readPriceCsv sc start stop file = .ok l)
    (maxDev : K) (rate : ℤ) (hrate : 0 < rate) (hstart : rate ≤ start) (lastN : ℤ) (start' stop' : ℤ) (hwin : start' ≤ stop')
    (fmt : Format K) (b : BuiltIn K) (hb : CleanParameters b) (c : AccountConfig K) (hca : CleanAccount c) (log fast : Bool) :
    ∃ lines ticks, convertPriceHistory fmt maxDev rate lastN l = .ok (lines, ticks) ∧ ((∀ t ∈ ticks, Storable codec t) → ∃ history,
      readHistory codec OhlcTick.ts start' stop' (some (fileOf codec ticks)) = .ok (ticks.length, .ok history) ∧
      history = ticks.filter (fun t => decide (InWindow start' stop' t.ts)) ∧
      (∃ r, (executeTrader c history none fast (b.emitter fmt).trader (b.emitter fmt).init log).out = .ok r) ∧
      ∀ months : ℤ, (0 < months ∧ months < 2 ^ 31 - 12 ∧ stop' - start' ≤ 28 * 86400 * (2 ^ 31 - 14) ∨
          months = 0 ∧ history ≠ []) →
        ∃ r, (evaluateTrader ⟨c, ⟨start', stop', months, fast⟩, history, none, b.emitter fmt⟩ log).out = .ok r) := by
  have hl := C65_price_csv sc start stop file l hload
  obtain ⟨lines, ticks, ht, -, -, -, hlt⟩ := C69_conversion fmt maxDev rate hrate lastN start stop l hl
  have hclean := (C69_clean fmt maxDev rate hrate lastN start stop l hl lines ticks ht).2 (fun r hr => by
    have := (hl.window r hr).1 (by omega); omega)
  refine ⟨lines, ticks, ht, fun hwr => ⟨_, readHistory_written start' stop' ticks hwr (hlt.imp (fun h => h.le)) ?_, rfl, ?_, ?_⟩⟩
  · rintro ⟨-, t, -, h1, h2⟩; omega
  · exact C59_execution_never_aborts .none fmt b hb c hca _ (clean_filter hclean _) fast log
  · intro months hm
    refine C59_evaluation_never_aborts (recs := none) (fmt := fmt) ⟨.none, ⟨b, hb, rfl⟩, hca, clean_filter hclean _⟩ ?_ log
    rcases hm with hm | ⟨hm, hne⟩
    · exact Or.inl hm
    · refine Or.inr ⟨hm, ?_⟩
      obtain ⟨t, ht⟩ := List.exists_mem_of_ne_nil _ hne
      exact ⟨t, ht, by simpa using (List.mem_filter.mp ht).2⟩

end exact

/-! ### Non-vacuity and limits -/

section examples

/-- Four trades, one of them a spike. -/
def pipeText : Text := "300,100.5,2.0\n310,100.0,1.0\n700,900.0,1.0\n920,101.0,0.5\n".toList

attribute [local instance] evLibm in
/-- What is loaded from it, and what becomes of it: a tick for each period of 300 seconds, the one in the middle flat. -/
example : readPriceCsv (decimalScanner (F := ℚ)) 300 0 (some pipeText) =
    .ok [⟨300, 201 / 2, 2⟩, ⟨310, 100, 1⟩, ⟨700, 900, 1⟩, ⟨920, 101, 1 / 2⟩] := by decide +kernel

attribute [local instance] evLibm in
example : (removeOutliers (1 / 20 : ℚ) [⟨300, 201 / 2, 2⟩, ⟨310, 100, 1⟩, ⟨700, 900, 1⟩, ⟨920, 101, 1 / 2⟩]) =
    ([⟨300, 201 / 2, 2⟩, ⟨310, 100, 1⟩, ⟨920, 101, 1 / 2⟩], [2]) := by decide +kernel

/-- **C69** (why the start time matters). Prices within the first sampling period after 1970 give a tick at time 0, on which
every built-in trader aborts. -/
theorem C69_zero_timestamp [Libm ℚ] (fmt : Format ℚ) (b : BuiltIn ℚ) (c : AccountConfig ℚ) (fast log : Bool)
    (maxDev : ℚ) (r : ExecutionResult ℚ) :
    ∃ lines ticks, convertPriceHistory fmt maxDev 300 0 [⟨1, 1, 1⟩] = .ok (lines, ticks) ∧
      (executeTrader c ticks none fast (b.emitter fmt).trader (b.emitter fmt).init log).out ≠ .ok r := by
  rw [exists_comm]
  simp only [exists_and_right]
  refine ⟨[⟨0, 1, 1, 1, 1, 1⟩], ?_, ?_⟩
  · have h1 : (removeOutliers maxDev ([⟨1, 1, 1⟩] : List (PriceRecord ℚ))).1 = [⟨1, 1, 1⟩] := by
      unfold removeOutliers removeOutliersFrom
      rw [if_neg (by decide +kernel)]
      rfl
    rw [convert_iff _ _ _ (by decide), h1]
    unfold resample
    simp only [List.foldlM_cons, List.foldlM_nil, resampleStep, fillGaps]
    rfl
  · intro h
    rw [executeTrader_eq _ _ _ _ _ _ _ (by simp)] at h
    dsimp only at h
    obtain ⟨last, hl, h0⟩ := builtIn_punctual fmt b
    cases hs : (execLoop c [⟨0, 1, 1, 1, 1, 1⟩] none fast (b.emitter fmt).trader (b.emitter fmt).init log).out with
    | error e => rw [hs] at h; cases h
    | ok s =>
      have := punctual_loop hl fast log _ _ s hs
      have h1 := this.2 ⟨0, 1, 1, 1, 1, 1⟩ (by rw [List.filter_cons_of_pos (by decide +kernel)]; exact List.mem_cons_self ..)
      have h2 : last (b.emitter fmt).init < 0 := h1
      omega

end examples
end Verif.Props
