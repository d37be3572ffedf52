import Verif.Props.FloatEvaluate
import Verif.Props.TraderClean

/-!
# C19, C69, C93: resampled ticks in binary32, and both programs
-/

set_option linter.unusedSectionVars false

namespace Verif.Props
open FloatOps Spec FloatNN
open Fl (toQ IsFin)

section general
variable {F : Type} [FloatOps F]

private theorem foldl_pick (g : F → F → F) (hg : ∀ a b, g a b = a ∨ g a b = b) (l : List F) (a : F) :
    l.foldl g a = a ∨ l.foldl g a ∈ l := by
  induction l generalizing a with
  | nil => exact .inl rfl
  | cons b l ih =>
    rw [List.foldl_cons]
    rcases ih (g a b) with h | h
    · rw [h]
      rcases hg a b with h' | h' <;> rw [h']
      · exact .inl rfl
      · exact .inr (by simp)
    · exact .inr (by simp [h])

/-- **C19** (no invented prices, any arithmetic). Open, high, low and close of every resampled tick are prices of records of
the input, none of them later than the period of the tick. -/
theorem C19_no_invented_prices (rate : ℤ) (hrate : 0 < rate) (l : List (PriceRecord F))
    (hs : SortedBy PriceRecord.ts l) (h0 : ∀ r ∈ l, 0 ≤ r.ts) (out : List (OhlcTick F))
    (ho : resample rate l = .ok out) (x : OhlcTick F) (hx : x ∈ out) (p : F)
    (hp : p = x.opn ∨ p = x.high ∨ p = x.low ∨ p = x.close) : ∃ r ∈ l, r.price = p ∧ r.ts < x.ts + rate := by
  obtain ⟨h1, h2⟩ := C18_meaning rate hrate l hs h0 out ho x hx
  cases hrec : recordsIn rate x.ts l with
  | nil =>
    obtain ⟨prev, hprev, a, b, c, d, -⟩ := h2 hrec
    have hm := List.mem_filter.mp (List.mem_of_getLast? hprev)
    have ht : prev.ts < x.ts := by simpa using hm.2
    refine ⟨prev, hm.1, ?_, by omega⟩
    rcases hp with rfl | rfl | rfl | rfl
    · exact a.symm
    · exact b.symm
    · exact c.symm
    · exact d.symm
  | cons g gs =>
    have key : ∀ r ∈ g :: gs, r ∈ l ∧ r.ts < x.ts + rate := by
      intro r hr
      rw [← hrec] at hr
      have hm := List.mem_filter.mp hr
      have := of_decide_eq_true hm.2
      exact ⟨hm.1, this.2⟩
    have pick : ∀ q, q = g.price ∨ q ∈ gs.map (·.price) → ∃ r ∈ l, r.price = q ∧ r.ts < x.ts + rate := by
      rintro q (rfl | hq)
      · exact ⟨g, (key g (by simp)).1, rfl, (key g (by simp)).2⟩
      · obtain ⟨r, hr, rfl⟩ := List.mem_map.mp hq
        exact ⟨r, (key r (by simp [hr])).1, rfl, (key r (by simp [hr])).2⟩
    obtain ⟨a, d, b, c, -⟩ := h1 g gs hrec
    rcases hp with rfl | rfl | rfl | rfl
    · rw [a]; exact pick _ (.inl rfl)
    · rw [b]; exact pick _ (foldl_pick _ (fun u v => by unfold fmax; split <;> simp) _ _)
    · rw [c]; exact pick _ (foldl_pick _ (fun u v => by unfold fmin; split <;> simp) _ _)
    · rw [d]
      have := key _ (List.getLast_mem (l := g :: gs) (by simp))
      exact ⟨_, this.1, rfl, this.2⟩

end general

section binary
variable {f : Fmt}

private theorem le_of_Le {a b : Fl f} (h : Fl.Le a b) : (a <=. b) = true := by
  obtain ⟨h1, h2, h3⟩ := h
  change Fl.le a b = true
  cases a <;> cases b <;> simp_all [Fl.le, Fl.beq, Fl.lt]
  · rename_i s t; revert h3; cases s <;> cases t <;> decide
  · rename_i b; rcases lt_or_eq_of_le h3 with h | h
    · exact .inl h
    · exact .inr h
  · rename_i a; rcases lt_or_eq_of_le h3 with h | h
    · exact .inl h
    · exact .inr h
  · rename_i a b; rcases lt_or_eq_of_le h3 with h | h
    · exact .inl h
    · exact .inr h

private theorem fmax_bound {a b : Fl f} (ha : a ≠ .nan) (hb : b ≠ .nan) :
    fmax a b ≠ .nan ∧ Fl.Le a (fmax a b) ∧ Fl.Le b (fmax a b) := by
  unfold fmax
  split
  · rename_i h
    change Fl.lt a b = true at h
    exact ⟨hb, ⟨ha, hb, by cases a <;> cases b <;> simp_all [Fl.lt] <;> linarith⟩, Fl.Le.refl hb⟩
  · rename_i h
    change ¬ Fl.lt a b = true at h
    exact ⟨ha, Fl.Le.refl ha, ⟨hb, ha, by simpa using h⟩⟩

private theorem fmin_bound {a b : Fl f} (ha : a ≠ .nan) (hb : b ≠ .nan) :
    fmin a b ≠ .nan ∧ Fl.Le (fmin a b) a ∧ Fl.Le (fmin a b) b := by
  unfold fmin
  split
  · rename_i h
    change Fl.lt b a = true at h
    exact ⟨hb, ⟨hb, ha, by cases a <;> cases b <;> simp_all [Fl.lt] <;> linarith⟩, Fl.Le.refl hb⟩
  · rename_i h
    change ¬ Fl.lt b a = true at h
    exact ⟨ha, Fl.Le.refl ha, ⟨ha, hb, by simpa using h⟩⟩

private theorem foldl_max_bound (l : List (Fl f)) (a : Fl f) (ha : a ≠ .nan) (hl : ∀ b ∈ l, b ≠ .nan) :
    Fl.Le a (l.foldl fmax a) ∧ ∀ b ∈ l, Fl.Le b (l.foldl fmax a) := by
  induction l generalizing a with
  | nil => exact ⟨Fl.Le.refl ha, by simp⟩
  | cons b l ih =>
    rw [List.foldl_cons]
    obtain ⟨h1, h2, h3⟩ := fmax_bound ha (hl b (by simp))
    obtain ⟨i1, i2⟩ := ih (fmax a b) h1 (fun c hc => hl c (by simp [hc]))
    refine ⟨h2.trans i1, ?_⟩
    intro c hc
    rcases List.mem_cons.mp hc with rfl | hc
    · exact h3.trans i1
    · exact i2 c hc

private theorem foldl_min_bound (l : List (Fl f)) (a : Fl f) (ha : a ≠ .nan) (hl : ∀ b ∈ l, b ≠ .nan) :
    Fl.Le (l.foldl fmin a) a ∧ ∀ b ∈ l, Fl.Le (l.foldl fmin a) b := by
  induction l generalizing a with
  | nil => exact ⟨Fl.Le.refl ha, by simp⟩
  | cons b l ih =>
    rw [List.foldl_cons]
    obtain ⟨h1, h2, h3⟩ := fmin_bound ha (hl b (by simp))
    obtain ⟨i1, i2⟩ := ih (fmin a b) h1 (fun c hc => hl c (by simp [hc]))
    refine ⟨i1.trans h2, ?_⟩
    intro c hc
    rcases List.mem_cons.mp hc with rfl | hc
    · exact i1.trans h3
    · exact i2 c hc

/-- **C18** (float). In every binary format, for prices that are numbers (not NaN): high and low of a tick whose period contains
records are prices of records of the period, and every price of the period is between them. -/
theorem C18_float (rate : ℤ) (hrate : 0 < rate) (l : List (PriceRecord (Fl f))) (hs : SortedBy PriceRecord.ts l)
    (h0 : ∀ r ∈ l, 0 ≤ r.ts) (hn : ∀ r ∈ l, r.price ≠ .nan) (out : List (OhlcTick (Fl f)))
    (ho : resample rate l = .ok out) (x : OhlcTick (Fl f)) (hx : x ∈ out) (hne : recordsIn rate x.ts l ≠ []) :
    (∃ r ∈ recordsIn rate x.ts l, x.high = r.price) ∧ (∃ r ∈ recordsIn rate x.ts l, x.low = r.price) ∧
    ∀ r ∈ recordsIn rate x.ts l, (x.low <=. r.price) = true ∧ (r.price <=. x.high) = true := by
  obtain ⟨h1, -⟩ := C18_meaning rate hrate l hs h0 out ho x hx
  obtain ⟨g, gs, hg⟩ := List.exists_cons_of_ne_nil hne
  obtain ⟨-, -, hh, hl, -⟩ := h1 g gs hg
  have hin : ∀ r ∈ g :: gs, r.price ≠ .nan := fun r hr => hn r (by
    rw [← hg] at hr
    exact (List.mem_filter.mp hr).1)
  have hgs : ∀ b ∈ gs.map (·.price), b ≠ .nan := by
    intro b hb
    obtain ⟨r, hr, rfl⟩ := List.mem_map.mp hb
    exact hin r (by simp [hr])
  obtain ⟨m1, m2⟩ := foldl_max_bound (gs.map (·.price)) g.price (hin g (by simp)) hgs
  obtain ⟨n1, n2⟩ := foldl_min_bound (gs.map (·.price)) g.price (hin g (by simp)) hgs
  have pick : ∀ v : Fl f, (v = g.price ∨ v ∈ gs.map (·.price)) → ∃ r ∈ g :: gs, v = r.price := by
    intro v hv
    rcases hv with rfl | hv
    · exact ⟨g, by simp, rfl⟩
    · obtain ⟨r, hr, rfl⟩ := List.mem_map.mp hv
      exact ⟨r, by simp [hr], rfl⟩
  rw [hg, hh, hl]
  refine ⟨pick _ (foldl_pick _ (fun u v => by unfold fmax; split <;> simp) _ _),
    pick _ (foldl_pick _ (fun u v => by unfold fmin; split <;> simp) _ _), ?_⟩
  intro r hr
  rcases List.mem_cons.mp hr with rfl | hr
  · exact ⟨le_of_Le n1, le_of_Le m1⟩
  · exact ⟨le_of_Le (n2 _ (List.mem_map_of_mem hr)), le_of_Le (m2 _ (List.mem_map_of_mem hr))⟩

private theorem foldl_add_geZero (l : List (Fl f)) (a : Fl f) (ha : GeZero a) (hl : ∀ b ∈ l, GeZero b) :
    GeZero (l.foldl FloatOps.add a) := by
  induction l generalizing a with
  | nil => exact ha
  | cons b l ih =>
    rw [List.foldl_cons]
    exact ih _ (geZero_add ha (hl b (by simp))) (fun c hc => hl c (by simp [hc]))

private theorem pos_not_nan {a : Fl f} (h : (lit (Fl f) 0 <. a) = true) : a ≠ .nan := by
  rintro rfl
  change Fl.lt (.fin 0) .nan = true at h
  simp at h

/-- **C19** (float). In every binary format: from records with positive prices (not NaN) and volumes that are not negative
(not NaN), every resampled tick satisfies `0 < low ≤ open, close ≤ high` and its volume is not negative and not NaN
(though the sum of the volumes may be rounded, or overflow to infinity). -/
theorem C19_well_formed_float (rate : ℤ) (hrate : 0 < rate) (l : List (PriceRecord (Fl f)))
    (hs : SortedBy PriceRecord.ts l) (h0 : ∀ r ∈ l, 0 ≤ r.ts)
    (hp : ∀ r ∈ l, (lit (Fl f) 0 <. r.price) = true) (hv : ∀ r ∈ l, (lit (Fl f) 0 <=. r.volume) = true)
    (out : List (OhlcTick (Fl f))) (ho : resample rate l = .ok out) (x : OhlcTick (Fl f)) (hx : x ∈ out) :
    (lit (Fl f) 0 <. x.low) = true ∧ (x.low <=. x.opn) = true ∧ (x.low <=. x.close) = true ∧
      (x.opn <=. x.high) = true ∧ (x.close <=. x.high) = true ∧ (lit (Fl f) 0 <=. x.volume) = true := by
  have hlow : (lit (Fl f) 0 <. x.low) = true := by
    obtain ⟨r, hr, e, -⟩ := C19_no_invented_prices rate hrate l hs h0 out ho x hx x.low (.inr (.inr (.inl rfl)))
    rw [← e]; exact hp r hr
  refine ⟨hlow, ?_⟩
  obtain ⟨h1, h2⟩ := C18_meaning rate hrate l hs h0 out ho x hx
  cases hrec : recordsIn rate x.ts l with
  | nil =>
    obtain ⟨prev, hprev, a, b, c, d, e⟩ := h2 hrec
    have hm := (List.mem_filter.mp (List.mem_of_getLast? hprev)).1
    have hn := le_of_Le (Fl.Le.refl (pos_not_nan (hp prev hm)))
    rw [a, b, c, d, e]
    refine ⟨hn, hn, hn, hn, ?_⟩
    rw [litZero]
    exact le_of_Le (Fl.Le.refl (by simp))
  | cons g gs =>
    have key : ∀ r ∈ g :: gs, r ∈ l := by
      intro r hr
      rw [← hrec] at hr
      exact (List.mem_filter.mp hr).1
    have hgn : g.price ≠ .nan := pos_not_nan (hp g (key g (by simp)))
    have hgsn : ∀ q ∈ gs.map (·.price), q ≠ Fl.nan := by
      intro q hq
      obtain ⟨r, hr, rfl⟩ := List.mem_map.mp hq
      exact pos_not_nan (hp r (key r (by simp [hr])))
    obtain ⟨a, d, b, c, v⟩ := h1 g gs hrec
    obtain ⟨m1, m2⟩ := foldl_max_bound _ _ hgn hgsn
    obtain ⟨n1, n2⟩ := foldl_min_bound _ _ hgn hgsn
    have hlast : (g :: gs).getLast (by simp) = g ∨ (g :: gs).getLast (by simp) ∈ gs :=
      List.mem_cons.mp (List.getLast_mem (l := g :: gs) (by simp))
    rw [a, b, c, d, v]
    refine ⟨le_of_Le n1, ?_, le_of_Le m1, ?_, ?_⟩
    · rcases hlast with h | h
      · rw [h]; exact le_of_Le n1
      · exact le_of_Le (n2 _ (List.mem_map_of_mem h))
    · rcases hlast with h | h
      · rw [h]; exact le_of_Le m1
      · exact le_of_Le (m2 _ (List.mem_map_of_mem h))
    · have := foldl_add_geZero (gs.map (·.volume)) g.volume (hv g (key g (by simp))) (by
        intro q hq
        obtain ⟨r, hr, rfl⟩ := List.mem_map.mp hq
        exact hv r (key r (by simp [hr])))
      exact this

end binary

section programs

/-- **C69** (conversion, binary32). A loaded price history with usable prices is converted to a history that is fit for a
back-test, if the prices do not start within the first sampling period after 1970. -/
theorem C69_clean_f32 [Libm F32] (fmt : Format F32) (maxDev : F32) (rate : ℤ) (hrate : 0 < rate) (lastN : ℤ) (start stop : ℤ)
    (l : List (PriceRecord F32)) (hl : Loadable PriceRecord.ts GoodPrice start stop l) (hc : CleanPrices32 l)
    (hold : ∀ r ∈ l, rate ≤ r.ts) (lines : List Text) (ticks : List (OhlcTick F32))
    (h : Convert.convertPriceHistory fmt maxDev rate lastN l = .ok (lines, ticks)) : CleanHistory32 ticks := by
  obtain ⟨lines', ticks', h', -, -, hm, hlt⟩ := C69_conversion fmt maxDev rate hrate lastN start stop l hl
  rw [h] at h'
  obtain ⟨rfl, rfl⟩ := Prod.mk.inj (Except.ok.inj h')
  obtain ⟨-, -, -, hsub, -⟩ := C20_partition maxDev l
  have h2 := (convert_iff fmt maxDev rate (by omega) lastN l ticks).mp ⟨lines, h⟩
  have hs := hl.sorted.sublist hsub
  have h0 : ∀ r ∈ (removeOutliers maxDev l).1, 0 ≤ r.ts := fun r hr => (hl.positive r (hsub.subset hr)).le
  have price : ∀ x ∈ ticks, ∀ p, p = x.opn ∨ p = x.high ∨ p = x.low ∨ p = x.close → Between (1 / 2 ^ 40) (2 ^ 40) p := by
    intro x hx p hp
    obtain ⟨r, hr, rfl, -⟩ := C19_no_invented_prices rate hrate _ hs h0 ticks h2 x hx p hp
    exact (hc r (hsub.subset hr)).1
  refine ⟨fun t ht => ⟨?_, ⟨?_, ?_, ?_, ?_⟩, ?_⟩, hlt.imp (fun h => h.le), hlt.sublist List.filter_sublist⟩
  · have := hm 1 (by simpa using hold) t ht
    omega
  · exact price t ht _ (.inl rfl)
  · exact price t ht _ (.inr (.inl rfl))
  · exact price t ht _ (.inr (.inr (.inl rfl)))
  · have hv := (C19_well_formed_float rate hrate _ hs h0
      (fun r hr => pos_of_fin (hc r (hsub.subset hr)).1.1 (lt_of_lt_of_le (by norm_num) (hc r (hsub.subset hr)).1.2.1))
      (fun r hr => (hc r (hsub.subset hr)).2) ticks h2 t ht).2.2.2.2.2
    exact (geZero_iff.mp hv).2
  · exact price t ht _ (.inr (.inr (.inr rfl)))

variable [Libm F32] [Libm F64]

/-- **C93** (both programs). In binary32 and with the encoding of protobuf: convert a file of prices between 2^-40 and 2^40
with convert.cc, then evaluate a trader, or a batch, with trader.cc on the file of ticks written.  Both programs succeed,
unless (as in `C93_single`, `C93_batch`) a balance outgrew 2^80 or a ratio of gains left the range of `float`. -/
theorem C93_both_programs (hpow : PowIsNumber) (cenv : Convert.Env F32) (hcp : cenv.priceCodec = Wire.priceCodec)
    (hco : cenv.ohlcCodec = Wire.ohlcCodec) (hsc : FloatScanner cenv.scanner) (cfl : Convert.Flags F32) (w : Files)
    (l : List (PriceRecord F32))
    (hr : ReadsPrices cenv cfl w l) (hne : l ≠ []) (hclean : CleanPrices32 l) (hrate : 0 < cfl.samplingRate)
    (hold : ∀ r ∈ l, cfl.samplingRate ≤ r.ts) (hdiff : cfl.outputPrice ≠ cfl.outputOhlc)
    (hwp : cfl.outputPrice ≠ [] → cenv.canWrite cfl.outputPrice = true)
    (hw : cenv.canWrite cfl.outputOhlc = true) (hout : cfl.outputOhlc ≠ [])
    (env : TraderMain.Env F32) (hcodec : env.ohlcCodec = Wire.ohlcCodec) (fl : TraderMain.Flags F64) (start stop : ℤ)
    (hin : fl.inputOhlc = cfl.outputOhlc) (hnoside : fl.inputSide = []) (hper : TraderPeriod fl start stop)
    (hord : 0 < stop → start ≤ stop) (hf : SaneFlags32 fl) (hname : fl.trader = "rebalancing" ∨ fl.trader = "stop")
    (hmode : fl.evaluateBatch = false ∧ LogsOpen env fl ∨
      fl.evaluateBatch = true ∧ ∀ k < 144, 2 ^ 31 + 1 ≤ env.schedule.count k) :
    ∃ lines ticks, Convert.convertPriceHistory cenv.fmt cfl.maxDeviation cfl.samplingRate cfl.lastNOutliers l = .ok (lines, ticks) ∧
      (Convert.main cenv cfl w).exit = .success ∧
      Loads env fl (Convert.main cenv cfl w).files start stop
        (ticks.filter (fun t => decide (InWindow start stop t.ts))) none ∧
      (Evaluable32 ⟨start, stop, fl.months, fl.evaluateBatch⟩ (ticks.filter (fun t => decide (InWindow start stop t.ts))) →
        (TraderMain.main env fl (Convert.main cenv cfl w).files).exit = .success ∨
        ∃ b, (getTrader fl.trader = .ok b ∨ ∃ batch, getBatchOfTraders fl.trader = .ok batch ∧ b ∈ batch) ∧
          Excused (programInputs env fl start stop fl.evaluateBatch
            (ticks.filter (fun t => decide (InWindow start stop t.ts))) none b)) := by
  obtain ⟨lines, ticks, hconv, h1, -, h3⟩ := C81_program cenv hcp hco hsc cfl w l hr hne hrate hdiff hwp (fun _ => hw)
  refine ⟨lines, ticks, hconv, h1, ?_⟩
  obtain ⟨cstart, cstop, hload⟩ := reads_prices_loadable hr
  have hh := C69_clean_f32 cenv.fmt cfl.maxDeviation cfl.samplingRate hrate cfl.lastNOutliers cstart cstop l hload hclean
    hold lines ticks hconv
  have hload' : Loads env fl (Convert.main cenv cfl w).files start stop
      (ticks.filter (fun t => decide (InWindow start stop t.ts))) none := by
    refine ⟨hper, hord, ⟨ticks, ?_, hh.sorted, rfl⟩, .inl ⟨hnoside, rfl⟩⟩
    rw [hcodec, hin]
    exact h3 hout
  refine ⟨hload', fun he => ?_⟩
  rcases hmode with ⟨hb, ho⟩ | ⟨hb, hfair⟩ <;> rw [hb] at he ⊢
  · obtain ⟨side, b, hsd, hn, h⟩ := C93_single env fl _ start stop _ none hload' (clean_filter32 hh _) (by simp) hf he hname hb ho
    cases hsd
    exact h.imp id (fun h => ⟨b, .inl hn, h⟩)
  · obtain ⟨side, batch, hsd, hn, h⟩ := C93_batch hpow env fl _ start stop _ none hload' (clean_filter32 hh _) (by simp) hf he hname hb hfair
    cases hsd
    exact h.imp id (fun ⟨b, hbm, h⟩ => ⟨b, .inr ⟨batch, hn, hbm⟩, h⟩)

end programs

section examples

theorem wirePrices_clean : CleanPrices32 wirePrices := by
  intro r hr
  simp only [wirePrices, List.mem_cons, List.not_mem_nil, or_false] at hr
  rcases hr with rfl | rfl | rfl
  · exact ⟨⟨trivial, by dsimp only [toQ]; norm_num, by dsimp only [toQ]; norm_num⟩, by decide +kernel⟩
  · exact ⟨⟨FloatNN.ofRat_fin (by rw [abs_of_nonneg (by norm_num)]; norm_num), by decide +kernel, by decide +kernel⟩, by decide +kernel⟩
  · exact ⟨⟨trivial, by dsimp only [toQ]; norm_num, by dsimp only [toQ]; norm_num⟩, by decide +kernel⟩

/-- Three prices, one of them not exact in binary32. -/
example : ∃ out, resample 60 wirePrices = .ok out ∧ ∀ x ∈ out, (lit F32 0 <. x.low) = true ∧ (x.low <=. x.close) = true := by
  have hs : SortedBy PriceRecord.ts wirePrices := by unfold SortedBy wirePrices; decide +kernel
  have h0 : ∀ r ∈ wirePrices, 0 ≤ r.ts := by decide +kernel
  obtain ⟨out, ho, -⟩ := C17_grid 60 (by decide) _ _ hs h0
  refine ⟨out, ho, fun x hx => ?_⟩
  have := C19_well_formed_float 60 (by decide) wirePrices hs h0 (by decide +kernel) (by decide +kernel) out ho x hx
  exact ⟨this.1, this.2.2.1⟩

/-- The flags of trader.cc for the evaluation of the converted prices. -/
def wireTraderFlags (batch : Bool) : TraderMain.Flags F64 :=
  ⟨"ohlc".toList, [], [], [], "stop", "2017-01-01".toList, "2017-01-02".toList, 0, .fin 1, .fin 0, .fin 1, .fin 1, batch⟩

theorem wireTraderFlags_sane (batch : Bool) : SaneFlags32 (wireTraderFlags batch) := by
  have h1 : (Wide.narrow (.fin 1 : F64) : F32) = .fin 1 := by decide +kernel
  have h0 : (Wide.narrow (.fin 0 : F64) : F32) = .fin 0 := by decide +kernel
  constructor
  · change Holding (Wide.narrow (.fin 1 : F64)); rw [h1]
    exact ⟨trivial, .inr (by dsimp only [toQ]; norm_num), by dsimp only [toQ]; norm_num⟩
  · change Holding (Wide.narrow (.fin 0 : F64)); rw [h0]
    exact ⟨trivial, .inl rfl, by dsimp only [toQ]; norm_num⟩
  · left; change 0 < (Wide.narrow (.fin 1 : F64) : F32).toQ; rw [h1]; dsimp only [toQ]; norm_num
  · change Between 0 1 (Wide.narrow (.fin 1 : F64)); rw [h1]
    exact ⟨trivial, by dsimp only [toQ]; norm_num, by dsimp only [toQ]; norm_num⟩

/-- The theorem on both programs applies to a file of three prices. -/
example (l32 : Libm F32) (l64 : Libm F64) (hpow : PowIsNumber) (sort : List (EvaluationResult F32) → List (EvaluationResult F32)) :
    ∃ ticks, Loads (D := F64) ⟨Logger.abslFormat binary32, Wire.ohlcCodec, Wire.sideCodec, fun _ => true, fun _ => 0, sort, [], fun _ => [], fun _ => [], fun _ => []⟩
      (wireTraderFlags false) (Convert.main wireEnv wireFlags wireFiles).files 1483228800 1483315200 ticks none ∧
    (Evaluable32 ⟨1483228800, 1483315200, 0, false⟩ ticks →
      (TraderMain.main ⟨Logger.abslFormat binary32, Wire.ohlcCodec, Wire.sideCodec, fun _ => true, fun _ => 0, sort, [], fun _ => [], fun _ => [], fun _ => []⟩
        (wireTraderFlags false) (Convert.main wireEnv wireFlags wireFiles).files).exit = .success ∨
      ∃ b, Excused (programInputs ⟨Logger.abslFormat binary32, Wire.ohlcCodec, Wire.sideCodec, fun _ => true, fun _ => 0, sort, [], fun _ => [], fun _ => [], fun _ => []⟩
        (wireTraderFlags false) 1483228800 1483315200 false ticks none b)) := by
  obtain ⟨lines, ticks, -, -, h1, h2⟩ := C93_both_programs hpow wireEnv rfl rfl decimal_float wireFlags wireFiles wirePrices
    wire_reads (by simp [wirePrices]) wirePrices_clean (by decide) (by decide +kernel) (by decide) (fun _ => rfl) rfl (by decide)
    ⟨Logger.abslFormat binary32, Wire.ohlcCodec, Wire.sideCodec, fun _ => true, fun _ => 0, sort, [], fun _ => [], fun _ => [], fun _ => []⟩ rfl (wireTraderFlags false)
    1483228800 1483315200 rfl rfl ⟨by
      change (Time.parseTime "2017-01-01".toList).map Time.Instant.toUnixSeconds = some 1483228800; decide +kernel, by
      change (Time.parseTime "2017-01-02".toList).map Time.Instant.toUnixSeconds = some 1483315200; decide +kernel⟩ (by omega)
    (wireTraderFlags_sane false) (.inr rfl) (.inl ⟨rfl, fun _ _ _ => ⟨le_refl _, rfl⟩⟩)
  exact ⟨_, h1, fun h => (h2 h).imp id (fun ⟨b, _, hb⟩ => ⟨b, hb⟩)⟩

end examples
end Verif.Props
