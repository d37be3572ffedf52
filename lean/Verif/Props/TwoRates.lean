import Verif.Props.FloatPipeline
import Verif.Lemmas.Granularity
import Verif.Props.GranularityIndicators

/-!
# C128: two sampling rates
-/

set_option linter.unusedSectionVars false

namespace Verif.Props.TwoRates
open Verif FloatOps Spec Verif.Props

section general
variable {F : Type} [FloatOps F]

/-- The ticks of the period `[s, s + P)`. -/
def Within (P s : ℤ) (fine : List (OhlcTick F)) : List (OhlcTick F) := fine.filter fun y => decide (s ≤ y.ts ∧ y.ts < s + P)

/-- The ticks of the period `[s, s + P)` in whose own period (of length `Q`) there are records: all ticks of the period that are not there to fill a gap. -/
def Real (Q P s : ℤ) (l : List (PriceRecord F)) (fine : List (OhlcTick F)) : List (OhlcTick F) :=
  (Within P s fine).filter fun y => !(recordsIn Q y.ts l).isEmpty

theorem filter_or {l : List (PriceRecord F)} (hs : SortedBy PriceRecord.ts l) (p q : PriceRecord F → Bool)
    (h : ∀ a ∈ l, ∀ b ∈ l, p a = true → q b = true → a.ts < b.ts) : l.filter (fun r => p r || q r) = l.filter p ++ l.filter q := by
  induction l with
  | nil => rfl
  | cons r l ih =>
    obtain ⟨h1, h2⟩ := List.pairwise_cons.mp hs
    have ih := ih h2 fun a ha b hb => h a (by simp [ha]) b (by simp [hb])
    by_cases hp : p r = true
    · have hq : q r ≠ true := fun hq => absurd (h r (by simp) r (by simp) hp hq) (lt_irrefl _)
      simp [List.filter_cons, hp, hq, ih]
    · by_cases hq : q r = true
      · have : l.filter p = [] := by
          rw [List.filter_eq_nil_iff]
          intro a ha hpa
          have := h a (by simp [ha]) r (by simp) hpa hq
          have := h1 a ha
          omega
        simp [List.filter_cons, hp, hq, ih, this]
      · simp [List.filter_cons, hp, hq, ih]

/-- The records of several periods, one after the other. -/
theorem flatMap_records {Q : ℤ} {l : List (PriceRecord F)} (hs : SortedBy PriceRecord.ts l) :
    ∀ ys : List (OhlcTick F), ys.Pairwise (fun a b => a.ts + Q ≤ b.ts) →
      l.filter (fun r => ys.any fun y => decide (y.ts ≤ r.ts ∧ r.ts < y.ts + Q)) = ys.flatMap fun y => recordsIn Q y.ts l
  | [], _ => by simp
  | y :: ys, h => by
    obtain ⟨h1, h2⟩ := List.pairwise_cons.mp h
    simp only [List.any_cons, List.flatMap_cons]
    rw [filter_or hs, flatMap_records hs ys h2]
    · rfl
    · intro a _ b _ ha hb
      obtain ⟨z, hz, hb⟩ := List.any_eq_true.mp hb
      have := h1 z hz
      simp only [decide_eq_true_eq] at ha hb
      omega

variable {P Q : ℤ} {l : List (PriceRecord F)} {fine coarse : List (OhlcTick F)}

theorem fine_mul (hQ : 0 < Q) (hs : SortedBy PriceRecord.ts l) (h0 : ∀ r ∈ l, 0 ≤ r.ts) (hf : resample Q l = .ok fine) {y : OhlcTick F}
    (hy : y ∈ fine) : ∃ k, y.ts = Q * k := (resample_mem hQ hs h0 hf hy).2

theorem fine_steps (hQ : 0 < Q) (hs : SortedBy PriceRecord.ts l) (h0 : ∀ r ∈ l, 0 ≤ r.ts) (hf : resample Q l = .ok fine) :
    fine.Pairwise (fun a b => a.ts + Q ≤ b.ts) := by
  have hm : ∀ y ∈ fine, ∃ k, y.ts = Q * k := fun y hy => fine_mul hQ hs h0 hf hy
  rw [resample_eq hQ l hs h0] at hf
  have hp := aggregate_strict hQ (l.map tickOf)
  rw [Except.ok.inj hf] at hp
  refine List.Pairwise.imp_of_mem ?_ hp
  intro a b ha hb hlt
  obtain ⟨i, hi⟩ := hm a ha
  obtain ⟨j, hj⟩ := hm b hb
  rw [hi, hj] at hlt ⊢
  have : i < j := lt_of_mul_lt_mul_left hlt hQ.le
  nlinarith

/-- The period of every record has its tick. -/
theorem fine_covers (hQ : 0 < Q) (hs : SortedBy PriceRecord.ts l) (h0 : ∀ r ∈ l, 0 ≤ r.ts) (hf : resample Q l = .ok fine) {t : ℤ}
    (ht : ∃ a ∈ l, ∃ b ∈ l, a.ts ≤ t ∧ t ≤ b.ts) : ∃ y ∈ fine, y.ts = periodStart Q t := by
  obtain ⟨a, ha, b, hb, hat, htb⟩ := ht
  cases l with
  | nil => cases ha
  | cons first rest =>
    obtain ⟨out, ho, hlen, hts⟩ := C17_grid Q hQ first rest hs h0
    obtain rfl : out = fine := Except.ok.inj (ho.symm.trans hf)
    have e1 : first.ts ≤ a.ts := by
      rcases List.mem_cons.mp ha with rfl | h
      · exact le_rfl
      · exact (List.pairwise_cons.mp hs).1 _ h
    have e2 := Spec.SortedBy.le_getLast hs (by simp) b hb
    have d1 := Int.ediv_le_ediv hQ (e1.trans hat)
    have d2 := Int.ediv_le_ediv hQ (htb.trans e2)
    have hi : (t / Q - first.ts / Q).toNat < out.length := by omega
    refine ⟨_, List.getElem_mem hi, ?_⟩
    rw [hts _ hi]
    unfold periodStart
    congr 1
    omega

/-- The records of a coarse period are those of its fine periods, one after the other. -/
theorem records_split (hQ : 0 < Q) (hP : 0 < P) (hd : Q ∣ P) (hs : SortedBy PriceRecord.ts l) (h0 : ∀ r ∈ l, 0 ≤ r.ts)
    (hf : resample Q l = .ok fine) {s : ℤ} (hk : ∃ k, s = P * k) :
    recordsIn P s l = (Real Q P s l fine).flatMap fun y => recordsIn Q y.ts l := by
  have hm : ∀ y ∈ fine, ∃ k, y.ts = Q * k := fun y hy => fine_mul hQ hs h0 hf hy
  have h1 : recordsIn P s l = (Within P s fine).flatMap fun y => recordsIn Q y.ts l := by
    rw [← flatMap_records hs (Within P s fine) ((fine_steps hQ hs h0 hf).sublist List.filter_sublist)]
    refine List.filter_congr fun r hr => ?_
    rw [Bool.eq_iff_iff, decide_eq_true_eq, List.any_eq_true]
    obtain ⟨k, hk⟩ := hk
    obtain ⟨c, hc⟩ := hd
    constructor
    · intro h
      obtain ⟨y, hy, hyt⟩ := fine_covers hQ hs h0 hf ⟨r, hr, r, hr, le_rfl, le_rfl⟩
      have b1 := periodStart_le hQ r.ts
      have b2 := lt_periodStart_add hQ r.ts
      refine ⟨y, List.mem_filter.mpr ⟨hy, ?_⟩, ?_⟩
      · rw [decide_eq_true_eq, hyt]
        refine ⟨?_, by omega⟩
        unfold periodStart at b2 ⊢
        have : c * k ≤ r.ts / Q := by
          rw [Int.le_ediv_iff_mul_le hQ]
          calc c * k * Q = s := by rw [hk, hc]; ring
            _ ≤ r.ts := h.1
        calc s = Q * (c * k) := by rw [hk, hc]; ring
          _ ≤ Q * (r.ts / Q) := mul_le_mul_of_nonneg_left this hQ.le
      · rw [decide_eq_true_eq, hyt]; omega
    · rintro ⟨y, hy, hr⟩
      obtain ⟨hy, hin⟩ := List.mem_filter.mp hy
      rw [decide_eq_true_eq] at hin hr
      obtain ⟨j, hj⟩ := hm y hy
      refine ⟨by omega, ?_⟩
      have : y.ts + Q ≤ s + P := by
        have e : s + P = Q * (c * (k + 1)) := by rw [hk, hc]; ring
        have h3 := hin.2
        rw [hj, e] at h3
        have : j < c * (k + 1) := lt_of_mul_lt_mul_left h3 hQ.le
        rw [hj, e]
        nlinarith
      omega
  rw [h1]
  unfold Real
  generalize Within P s fine = w
  induction w with
  | nil => rfl
  | cons y w ih =>
    rw [List.flatMap_cons, ih, List.filter_cons]
    cases hrec : recordsIn Q y.ts l with
    | nil => simp
    | cons a as => simp [hrec]

theorem real_mem {s : ℤ} {y : OhlcTick F} (h : y ∈ Real Q P s l fine) : y ∈ fine ∧ s ≤ y.ts ∧ y.ts < s + P ∧ recordsIn Q y.ts l ≠ [] := by
  obtain ⟨h1, h2⟩ := List.mem_filter.mp h
  obtain ⟨h3, h4⟩ := List.mem_filter.mp h1
  rw [decide_eq_true_eq] at h4
  refine ⟨h3, h4.1, h4.2, ?_⟩
  intro e; rw [e] at h2; simp at h2

/-- **C128** (open and close). Resample a history at two rates, one of which divides the other. In a coarse period that has records, the coarse tick opens where the
first fine tick of the period opens, and closes where the last one closes, if fine ticks that merely fill a gap are left out. -/
theorem C128_open_close (hQ : 0 < Q) (hP : 0 < P) (hd : Q ∣ P) (hs : SortedBy PriceRecord.ts l) (h0 : ∀ r ∈ l, 0 ≤ r.ts)
    (hf : resample Q l = .ok fine) (hc : resample P l = .ok coarse) (x : OhlcTick F) (hx : x ∈ coarse) (hne : recordsIn P x.ts l ≠ []) :
    ∃ h : Real Q P x.ts l fine ≠ [], x.opn = ((Real Q P x.ts l fine).head h).opn ∧ x.close = ((Real Q P x.ts l fine).getLast h).close := by
  have hsplit := records_split (P := P) hQ hP hd hs h0 hf (fine_mul hP hs h0 hc hx)
  have hr : Real Q P x.ts l fine ≠ [] := by
    intro e; rw [e] at hsplit; exact hne hsplit
  refine ⟨hr, ?_, ?_⟩
  · obtain ⟨y, ys, e⟩ := List.exists_cons_of_ne_nil hr
    have hy : y ∈ Real Q P x.ts l fine := by rw [e]; simp
    obtain ⟨hyf, -, -, hyne⟩ := real_mem hy
    obtain ⟨g, gs, eg⟩ := List.exists_cons_of_ne_nil hyne
    rw [e, List.flatMap_cons, eg, List.cons_append] at hsplit
    simp only [e, List.head_cons]
    rw [((C18_meaning Q hQ l hs h0 fine hf y hyf).1 g gs eg).1, ((C18_meaning P hP l hs h0 coarse hc x hx).1 _ _ hsplit).1]
  · have hy := List.getLast_mem hr
    obtain ⟨hyf, -, -, hyne⟩ := real_mem hy
    have e := List.dropLast_append_getLast hr
    generalize (Real Q P x.ts l fine).getLast hr = y at *
    rw [← e, List.flatMap_append, List.flatMap_singleton] at hsplit
    obtain ⟨g, gs, eg⟩ := List.exists_cons_of_ne_nil hyne
    obtain ⟨g', gs', eg'⟩ := List.exists_cons_of_ne_nil hne
    rw [((C18_meaning Q hQ l hs h0 fine hf y hyf).1 g gs eg).2.1, ((C18_meaning P hP l hs h0 coarse hc x hx).1 g' gs' eg').2.1]
    congr 1
    have h1 : (recordsIn P x.ts l).getLast? = (g' :: gs').getLast? := by rw [eg']
    rw [hsplit, List.getLast?_append_of_ne_nil _ hyne, eg, List.getLast?_eq_some_getLast (by simp), List.getLast?_eq_some_getLast (by simp)] at h1
    exact (Option.some.inj h1).symm

/-- **C128** (empty periods). If a coarse period has no records, then all fine ticks in it are the coarse tick, at other times. -/
theorem C128_empty (hQ : 0 < Q) (hP : 0 < P) (hd : Q ∣ P) (hs : SortedBy PriceRecord.ts l) (h0 : ∀ r ∈ l, 0 ≤ r.ts)
    (hf : resample Q l = .ok fine) (hc : resample P l = .ok coarse) (x : OhlcTick F) (hx : x ∈ coarse) (hne : recordsIn P x.ts l = [])
    (y : OhlcTick F) (hy : y ∈ Within P x.ts fine) : { y with ts := x.ts } = x := by
  have hsplit := records_split (P := P) hQ hP hd hs h0 hf (fine_mul hP hs h0 hc hx)
  obtain ⟨hyf, hin⟩ := List.mem_filter.mp hy
  rw [decide_eq_true_eq] at hin
  have hye : recordsIn Q y.ts l = [] := by
    by_contra h
    have : y ∈ Real Q P x.ts l fine := List.mem_filter.mpr ⟨hy, by cases e : recordsIn Q y.ts l <;> simp_all⟩
    rw [hne] at hsplit
    exact h (List.flatMap_eq_nil_iff.mp hsplit.symm y this)
  obtain ⟨p, hp, a1, a2, a3, a4, a5⟩ := (C18_meaning P hP l hs h0 coarse hc x hx).2 hne
  obtain ⟨q, hq, b1, b2, b3, b4, b5⟩ := (C18_meaning Q hQ l hs h0 fine hf y hyf).2 hye
  have e : l.filter (fun r => decide (r.ts < y.ts)) = l.filter (fun r => decide (r.ts < x.ts)) := by
    refine List.filter_congr fun r hr => ?_
    rw [decide_eq_decide]
    constructor
    · intro h
      by_contra h'
      have : r ∈ recordsIn P x.ts l := List.mem_filter.mpr ⟨hr, by rw [decide_eq_true_eq]; omega⟩
      rw [hne] at this
      cases this
    · intro h; omega
  rw [e, hp] at hq
  obtain rfl := Option.some.inj hq
  obtain ⟨ts, opn, high, low, close, v⟩ := x
  obtain ⟨ts', opn', high', low', close', v'⟩ := y
  simp only at a1 a2 a3 a4 a5 b1 b2 b3 b4 b5 ⊢
  simp [a1, a2, a3, a4, a5, b1, b2, b3, b4, b5]

theorem within_ne (hQ : 0 < Q) (hP : 0 < P) (hd : Q ∣ P) (hs : SortedBy PriceRecord.ts l) (h0 : ∀ r ∈ l, 0 ≤ r.ts)
    (hf : resample Q l = .ok fine) (hc : resample P l = .ok coarse) (x : OhlcTick F) (hx : x ∈ coarse) : Within P x.ts fine ≠ [] := by
  by_cases hne : recordsIn P x.ts l = []
  · obtain ⟨p, hp, -⟩ := (C18_meaning P hP l hs h0 coarse hc x hx).2 hne
    obtain ⟨hpl, hpt⟩ := List.mem_filter.mp (List.mem_of_getLast? hp)
    rw [decide_eq_true_eq] at hpt
    have hlast : ∃ b ∈ l, x.ts ≤ b.ts := by
      cases l with
      | nil => cases hpl
      | cons first rest =>
        obtain ⟨out, ho, hlen, hts⟩ := C17_grid P hP first rest hs h0
        obtain rfl : out = coarse := Except.ok.inj (ho.symm.trans hc)
        obtain ⟨i, hi, rfl⟩ := List.getElem_of_mem hx
        refine ⟨_, List.getLast_mem (by simp), ?_⟩
        rw [hts i hi]
        have h1 : first.ts / P + i ≤ ((first :: rest).getLast (by simp)).ts / P := by omega
        have h2 := mul_le_mul_of_nonneg_left h1 hP.le
        have h3 := periodStart_le hP ((first :: rest).getLast (by simp)).ts
        unfold periodStart at h3
        omega
    obtain ⟨b, hb, hbt⟩ := hlast
    obtain ⟨y, hy, hyt⟩ := fine_covers hQ hs h0 hf ⟨p, hpl, b, hb, hpt.le, hbt⟩
    have e : periodStart Q x.ts = x.ts := by
      obtain ⟨k, hk⟩ := fine_mul hP hs h0 hc hx
      obtain ⟨c, hc'⟩ := hd
      unfold periodStart
      rw [hk, hc', mul_assoc, Int.mul_ediv_cancel_left _ hQ.ne']
    rw [e] at hyt
    exact List.ne_nil_of_mem (List.mem_filter.mpr ⟨hy, by rw [decide_eq_true_eq]; omega⟩)
  · obtain ⟨hr, -⟩ := C128_open_close hQ hP hd hs h0 hf hc x hx hne
    intro e
    unfold Real at hr
    rw [e] at hr
    exact hr rfl

/-- **C128** (closes). The coarse tick closes where the last fine tick of its period closes, whether or not that tick merely fills a gap. -/
theorem C128_close (hQ : 0 < Q) (hP : 0 < P) (hd : Q ∣ P) (hs : SortedBy PriceRecord.ts l) (h0 : ∀ r ∈ l, 0 ≤ r.ts)
    (hf : resample Q l = .ok fine) (hc : resample P l = .ok coarse) (x : OhlcTick F) (hx : x ∈ coarse) :
    (Within P x.ts fine).getLast?.map OhlcTick.close = some x.close := by
  have hw := within_ne hQ hP hd hs h0 hf hc x hx
  have hk := fine_mul hP hs h0 hc hx
  have hsm : SortedBy OhlcTick.ts (l.map tickOf) := List.pairwise_map.mpr hs
  rw [resample_eq hQ l hs h0] at hf
  rw [resample_eq hP l hs h0] at hc
  have hcl := aggregate_aggregate_closes hQ hP hd (l.map tickOf) hsm
  rw [Except.ok.inj hf, Except.ok.inj hc] at hcl
  have hm : (x.ts, x.close) ∈ (aggregate P fine).map fun t => (t.ts, t.close) := by
    rw [hcl]; exact List.mem_map.mpr ⟨x, hx, rfl⟩
  obtain ⟨z, hz, hzx⟩ := List.mem_map.mp hm
  obtain ⟨h1, h2⟩ := Prod.mk.inj hzx
  have hfne : fine ≠ [] := by intro e; rw [e] at hw; exact hw rfl
  rw [aggregate_eq hfne, List.mem_map] at hz
  obtain ⟨i, -, rfl⟩ := hz
  rw [aggTick_ts] at h1
  rw [h1] at h2
  have hin : ticksIn P x.ts fine = Within P x.ts fine := by
    refine List.filter_congr fun y _ => ?_
    rw [decide_eq_decide]
    exact period_iff hP hk
  unfold aggTick at h2
  rw [hin] at h2
  obtain ⟨g, gs, e⟩ := List.exists_cons_of_ne_nil hw
  rw [e] at h2 ⊢
  rw [← h2, List.getLast?_eq_some_getLast (by simp)]
  rfl

theorem feedable_records (hs : SortedBy PriceRecord.ts l) (h0 : ∀ r ∈ l, 0 ≤ r.ts) : Feedable (l.map tickOf) :=
  ⟨List.pairwise_map.mpr hs, fun t ht => by
    obtain ⟨r, hr, rfl⟩ := List.mem_map.mp ht
    exact h0 r hr⟩

/-- **C128** (indicators). Convert a history at two rates, neither of which need divide the other, and feed both outputs to an indicator whose period is a multiple of both:
the exponential average, the MACD and the RSI end up with the same value, whatever the gaps. -/
theorem C128_indicators (R : ℤ) (hQ : 0 < Q) (hP : 0 < P) (hR : 0 < R) (hQR : Q ∣ R) (hPR : P ∣ R) (hs : SortedBy PriceRecord.ts l)
    (h0 : ∀ r ∈ l, 0 ≤ r.ts) (hf : resample Q l = .ok fine) (hc : resample P l = .ok coarse) :
    (∀ (smoothing : F) (length : ℤ), (emaIndAfter smoothing length R fine).map EmaInd.get = (emaIndAfter smoothing length R coarse).map EmaInd.get) ∧
    (∀ fast slow signal : ℤ, (macdAfter fast slow signal R fine).map (fun s => (Macd.series s.state, Macd.signal s.state, Macd.divergence s.state)) =
      (macdAfter fast slow signal R coarse).map (fun s => (Macd.series s.state, Macd.signal s.state, Macd.divergence s.state))) ∧
    (∀ N : ℤ, (rsiAfter N R fine).map (fun s => Rsi.get s.state) = (rsiAfter N R coarse).map (fun s => Rsi.get s.state)) := by
  have hl := feedable_records hs h0
  rw [resample_eq hQ l hs h0] at hf
  rw [resample_eq hP l hs h0] at hc
  rw [← Except.ok.inj hf, ← Except.ok.inj hc]
  obtain ⟨a1, a2, a3⟩ := C51_close_based Q R hQ hR hQR _ hl
  obtain ⟨b1, b2, b3⟩ := C51_close_based P R hP hR hPR _ hl
  exact ⟨fun x n => (a1 x n).trans (b1 x n).symm, fun x y z => (a2 x y z).trans (b2 x y z).symm, fun n => (a3 n).trans (b3 n).symm⟩

end general

section exact
variable {K : Type} [Field K] [LinearOrder K] [IsStrictOrderedRing K] [FloorRing K]
variable {P Q : ℤ} {l : List (PriceRecord K)} {fine coarse : List (OhlcTick K)}

/-- **C128** (high, low and volume, exact arithmetic). The coarse tick of a period that has records reaches up to the highest high and down to the lowest low of the fine
ticks of the period that do not merely fill a gap. -/
theorem C128_range (hQ : 0 < Q) (hP : 0 < P) (hd : Q ∣ P) (hs : SortedBy PriceRecord.ts l) (h0 : ∀ r ∈ l, 0 ≤ r.ts)
    (hf : resample Q l = .ok fine) (hc : resample P l = .ok coarse) (x : OhlcTick K) (hx : x ∈ coarse) (hne : recordsIn P x.ts l ≠ []) :
    (∃ y ∈ Real Q P x.ts l fine, x.high = y.high) ∧ (∃ y ∈ Real Q P x.ts l fine, x.low = y.low) ∧
    ∀ y ∈ Real Q P x.ts l fine, y.high ≤ x.high ∧ x.low ≤ y.low := by
  have hsplit := records_split (P := P) hQ hP hd hs h0 hf (fine_mul hP hs h0 hc hx)
  obtain ⟨⟨a, ha, hah⟩, hhi, ⟨b, hb, hbl⟩, hlo, -⟩ := C18_exact P hP l hs h0 coarse hc x hx hne
  have hall : ∀ y ∈ Real Q P x.ts l fine, y.high ≤ x.high ∧ x.low ≤ y.low := by
    intro y hy
    obtain ⟨hyf, -, -, hyne⟩ := real_mem hy
    obtain ⟨⟨c, hc', hch⟩, -, ⟨d, hd', hdl⟩, -, -⟩ := C18_exact Q hQ l hs h0 fine hf y hyf hyne
    rw [hch, hdl]
    exact ⟨hhi c (by rw [hsplit]; exact List.mem_flatMap.mpr ⟨y, hy, hc'⟩), hlo d (by rw [hsplit]; exact List.mem_flatMap.mpr ⟨y, hy, hd'⟩)⟩
  refine ⟨?_, ?_, hall⟩
  · rw [hsplit] at ha
    obtain ⟨y, hy, hay⟩ := List.mem_flatMap.mp ha
    obtain ⟨hyf, -, -, hyne⟩ := real_mem hy
    obtain ⟨-, h2, -, -, -⟩ := C18_exact Q hQ l hs h0 fine hf y hyf hyne
    exact ⟨y, hy, le_antisymm (hah ▸ h2 a hay) (hall y hy).1⟩
  · rw [hsplit] at hb
    obtain ⟨y, hy, hby⟩ := List.mem_flatMap.mp hb
    obtain ⟨hyf, -, -, hyne⟩ := real_mem hy
    obtain ⟨-, -, -, h2, -⟩ := C18_exact Q hQ l hs h0 fine hf y hyf hyne
    exact ⟨y, hy, le_antisymm (hall y hy).2 (hbl ▸ h2 b hby)⟩

theorem volume_of (hQ : 0 < Q) (hs : SortedBy PriceRecord.ts l) (h0 : ∀ r ∈ l, 0 ≤ r.ts) (hf : resample Q l = .ok fine) {y : OhlcTick K} (hy : y ∈ fine) :
    y.volume = ((recordsIn Q y.ts l).map (·.volume)).sum := by
  by_cases h : recordsIn Q y.ts l = []
  · obtain ⟨-, -, -, -, -, -, hv⟩ := (C18_meaning Q hQ l hs h0 fine hf y hy).2 h
    rw [h, hv]
    simp [FloatOps.lit]
  · exact (C18_exact Q hQ l hs h0 fine hf y hy h).2.2.2.2

/-- **C128** (volume, exact arithmetic). The volume of a coarse tick is the total volume of the fine ticks in its period. -/
theorem C128_volume (hQ : 0 < Q) (hP : 0 < P) (hd : Q ∣ P) (hs : SortedBy PriceRecord.ts l) (h0 : ∀ r ∈ l, 0 ≤ r.ts)
    (hf : resample Q l = .ok fine) (hc : resample P l = .ok coarse) (x : OhlcTick K) (hx : x ∈ coarse) :
    x.volume = ((Within P x.ts fine).map (·.volume)).sum := by
  have hsplit := records_split (P := P) hQ hP hd hs h0 hf (fine_mul hP hs h0 hc hx)
  rw [volume_of hP hs h0 hc hx, hsplit, List.map_flatMap]
  unfold Real
  have hv : ∀ y ∈ Within P x.ts fine, y.volume = ((recordsIn Q y.ts l).map (·.volume)).sum := fun y hy =>
    volume_of hQ hs h0 hf (List.mem_filter.mp hy).1
  revert hv
  generalize Within P x.ts fine = w
  intro hv
  induction w with
  | nil => rfl
  | cons y w ih =>
    have h1 := hv y (by simp)
    have ih := ih fun z hz => hv z (by simp [hz])
    rw [List.map_cons, List.sum_cons, ← ih, h1, List.filter_cons]
    cases hrec : recordsIn Q y.ts l with
    | nil => simp
    | cons a as =>
      simp only [List.isEmpty_cons, Bool.not_false, if_true, List.flatMap_cons, List.sum_append, hrec]

/-- **C128** (the fine file is enough). If all records have a positive volume, the ticks that do not merely fill a gap are those with a positive volume. -/
theorem C128_real_iff_volume (hQ : 0 < Q) (hs : SortedBy PriceRecord.ts l) (h0 : ∀ r ∈ l, 0 ≤ r.ts) (hv : ∀ r ∈ l, 0 < r.volume)
    (hf : resample Q l = .ok fine) (s : ℤ) : Real Q P s l fine = (Within P s fine).filter fun y => decide (0 < y.volume) := by
  refine List.filter_congr fun y hy => ?_
  rw [volume_of hQ hs h0 hf (List.mem_filter.mp hy).1]
  cases hrec : recordsIn Q y.ts l with
  | nil => simp
  | cons a as =>
    have hp : ∀ r ∈ a :: as, 0 < r.volume := fun r hr => hv r (List.mem_filter.mp (hrec ▸ hr : r ∈ recordsIn Q y.ts l)).1
    have h1 : 0 ≤ (as.map (·.volume)).sum := List.sum_nonneg (by
      intro v hv
      obtain ⟨r, hr, rfl⟩ := List.mem_map.mp hv
      exact (hp r (by simp [hr])).le)
    have h2 := hp a (by simp)
    have : 0 < a.volume + (as.map (·.volume)).sum := by linarith
    simpa using this

/-- **C128** (simple average, exact arithmetic). -/
theorem C128_sma (R n : ℤ) (hn : 0 < n) (hQ : 0 < Q) (hP : 0 < P) (hR : 0 < R) (hQR : Q ∣ R) (hPR : P ∣ R) (hs : SortedBy PriceRecord.ts l)
    (h0 : ∀ r ∈ l, 0 ≤ r.ts) (hf : resample Q l = .ok fine) (hc : resample P l = .ok coarse) :
    (smaAfter n R fine).map Sma.get = (smaAfter n R coarse).map Sma.get := by
  have hl := feedable_records hs h0
  rw [resample_eq hQ l hs h0] at hf
  rw [resample_eq hP l hs h0] at hc
  rw [← Except.ok.inj hf, ← Except.ok.inj hc]
  exact (C51_sma Q R n hQ hR hn hQR _ hl).trans (C51_sma P R n hP hR hn hPR _ hl).symm

end exact

section binary
variable {f : Fmt} {P Q : ℤ} {l : List (PriceRecord (Fl f))} {fine coarse : List (OhlcTick (Fl f))}

/-- **C128** (high and low, binary formats). The same in every binary format, if the prices are numbers. -/
theorem C128_range_float (hQ : 0 < Q) (hP : 0 < P) (hd : Q ∣ P) (hs : SortedBy PriceRecord.ts l) (h0 : ∀ r ∈ l, 0 ≤ r.ts)
    (hn : ∀ r ∈ l, r.price ≠ .nan) (hf : resample Q l = .ok fine) (hc : resample P l = .ok coarse) (x : OhlcTick (Fl f)) (hx : x ∈ coarse)
    (hne : recordsIn P x.ts l ≠ []) :
    (∃ y ∈ Real Q P x.ts l fine, (x.high <=. y.high) = true) ∧ (∃ y ∈ Real Q P x.ts l fine, (y.low <=. x.low) = true) ∧
    ∀ y ∈ Real Q P x.ts l fine, (y.high <=. x.high) = true ∧ (x.low <=. y.low) = true := by
  have hsplit := records_split (P := P) hQ hP hd hs h0 hf (fine_mul hP hs h0 hc hx)
  obtain ⟨⟨a, ha, hah⟩, ⟨b, hb, hbl⟩, hall⟩ := C18_float P hP l hs h0 hn coarse hc x hx hne
  refine ⟨?_, ?_, ?_⟩
  · rw [hsplit] at ha
    obtain ⟨y, hy, hay⟩ := List.mem_flatMap.mp ha
    obtain ⟨hyf, -, -, hyne⟩ := real_mem hy
    exact ⟨y, hy, hah ▸ ((C18_float Q hQ l hs h0 hn fine hf y hyf hyne).2.2 a hay).2⟩
  · rw [hsplit] at hb
    obtain ⟨y, hy, hby⟩ := List.mem_flatMap.mp hb
    obtain ⟨hyf, -, -, hyne⟩ := real_mem hy
    exact ⟨y, hy, hbl ▸ ((C18_float Q hQ l hs h0 hn fine hf y hyf hyne).2.2 b hby).1⟩
  · intro y hy
    obtain ⟨hyf, -, -, hyne⟩ := real_mem hy
    obtain ⟨⟨c, hc', hch⟩, ⟨d, hd', hdl⟩, -⟩ := C18_float Q hQ l hs h0 hn fine hf y hyf hyne
    rw [hch, hdl]
    exact ⟨(hall c (by rw [hsplit]; exact List.mem_flatMap.mpr ⟨y, hy, hc'⟩)).2, (hall d (by rw [hsplit]; exact List.mem_flatMap.mpr ⟨y, hy, hd'⟩)).1⟩

end binary

section conversion
variable {F : Type} [FloatOps F] [Libm F]

/-- **C128** (conversion). Converting a loaded price history at two rates gives the two resampled histories of one and the same list of kept records - sorted, with times that
are not negative - so that all of the above applies to the two outputs. -/
theorem C128_conversion (fmt : Format F) (maxDev : F) (Q P lastN lastN' : ℤ) (hQ : 0 < Q) (hP : 0 < P) (l : List (PriceRecord F))
    (hs : SortedBy PriceRecord.ts l) (h0 : ∀ r ∈ l, 0 ≤ r.ts) {lines lines' : List Text} {fine coarse : List (OhlcTick F)}
    (h1 : Convert.convertPriceHistory fmt maxDev Q lastN l = .ok (lines, fine))
    (h2 : Convert.convertPriceHistory fmt maxDev P lastN' l = .ok (lines', coarse)) :
    ∃ kept : List (PriceRecord F), kept.Sublist l ∧ SortedBy PriceRecord.ts kept ∧ (∀ r ∈ kept, 0 ≤ r.ts) ∧
      resample Q kept = .ok fine ∧ resample P kept = .ok coarse := by
  obtain ⟨-, -, -, hsub, -⟩ := C20_partition maxDev l
  exact ⟨_, hsub, hs.sublist hsub, fun r hr => h0 r (hsub.subset hr), (convert_iff fmt maxDev Q (by omega) lastN l fine).mp ⟨_, h1⟩,
    (convert_iff fmt maxDev P (by omega) lastN' l coarse).mp ⟨_, h2⟩⟩

end conversion

section examples

/-- Records with a gap: nothing between 100 and 250. -/
def trRecords : List (PriceRecord ℚ) := [⟨10, 5, 1⟩, ⟨70, 7, 2⟩, ⟨100, 6, 1⟩, ⟨250, 3, 4⟩, ⟨280, 4, 1⟩]
def trFine : List (OhlcTick ℚ) := [⟨0, 5, 5, 5, 5, 1⟩, ⟨60, 7, 7, 6, 6, 3⟩, ⟨120, 6, 6, 6, 6, 0⟩, ⟨180, 6, 6, 6, 6, 0⟩, ⟨240, 3, 4, 3, 4, 5⟩]
def trCoarse : List (OhlcTick ℚ) := [⟨0, 5, 7, 5, 6, 4⟩, ⟨180, 3, 4, 3, 4, 5⟩]

theorem trFine_ok : resample 60 trRecords = .ok trFine := by decide +kernel
theorem trCoarse_ok : resample 180 trRecords = .ok trCoarse := by decide +kernel
theorem tr_sorted : SortedBy PriceRecord.ts trRecords ∧ ∀ r ∈ trRecords, 0 ≤ r.ts := by unfold SortedBy; decide +kernel

example := C128_open_close (F := ℚ) (Q := 60) (P := 180) (by norm_num) (by norm_num) ⟨3, rfl⟩ tr_sorted.1 tr_sorted.2 trFine_ok trCoarse_ok
  ⟨180, 3, 4, 3, 4, 5⟩ (by decide +kernel) (by decide +kernel)
example := C128_range (Q := 60) (P := 180) (by norm_num) (by norm_num) ⟨3, rfl⟩ tr_sorted.1 tr_sorted.2 trFine_ok trCoarse_ok
  ⟨180, 3, 4, 3, 4, 5⟩ (by decide +kernel) (by decide +kernel)
example := C128_volume (Q := 60) (P := 180) (by norm_num) (by norm_num) ⟨3, rfl⟩ tr_sorted.1 tr_sorted.2 trFine_ok trCoarse_ok
  ⟨0, 5, 7, 5, 6, 4⟩ (by decide +kernel)
example := C128_close (F := ℚ) (Q := 60) (P := 180) (by norm_num) (by norm_num) ⟨3, rfl⟩ tr_sorted.1 tr_sorted.2 trFine_ok trCoarse_ok
  ⟨0, 5, 7, 5, 6, 4⟩ (by decide +kernel)
/-- Rates of one and three minutes, indicators of period six minutes or three. -/
example := C128_indicators (F := ℚ) (Q := 60) (P := 180) 360 (by norm_num) (by norm_num) (by norm_num) ⟨6, rfl⟩ ⟨2, rfl⟩ tr_sorted.1 tr_sorted.2 trFine_ok trCoarse_ok
example : (smaAfter 2 180 trFine).map Sma.get = .ok 5 ∧ (smaAfter 2 180 trCoarse).map Sma.get = .ok 5 := by
  rw [C128_sma (Q := 60) (P := 180) 180 2 (by norm_num) (by norm_num) (by norm_num) (by norm_num) ⟨3, rfl⟩ ⟨1, rfl⟩ tr_sorted.1 tr_sorted.2 trFine_ok trCoarse_ok]
  decide +kernel
example := C128_real_iff_volume (P := 180) (Q := 60) (by norm_num) tr_sorted.1 tr_sorted.2 (by decide +kernel) trFine_ok 180

/-- **C128** (the exception is needed). Ticks that merely fill a gap can be the first of a period and lie outside the range of its prices: here the fine period starts with
the flat tick at 6, while the coarse tick opens at 3 and never gets above 4. -/
theorem C128_gaps_matter : ∃ (l : List (PriceRecord ℚ)) (fine coarse : List (OhlcTick ℚ)), SortedBy PriceRecord.ts l ∧ (∀ r ∈ l, 0 ≤ r.ts) ∧
    resample 60 l = .ok fine ∧ resample 180 l = .ok coarse ∧
    ∃ x ∈ coarse, ∃ y ∈ fine, (Within 180 x.ts fine).head? = some y ∧ y.opn ≠ x.opn ∧ x.high < y.high :=
  ⟨trRecords, trFine, trCoarse, tr_sorted.1, tr_sorted.2, trFine_ok, trCoarse_ok, ⟨180, 3, 4, 3, 4, 5⟩, by decide +kernel, ⟨180, 6, 6, 6, 6, 0⟩,
    by decide +kernel, by decide +kernel, by decide +kernel, by decide +kernel⟩

/-- A coarse period without records. -/
def trSparse : List (PriceRecord ℚ) := [⟨10, 5, 1⟩, ⟨250, 3, 4⟩]
example := C128_empty (F := ℚ) (Q := 60) (P := 120) (l := trSparse)
  (fine := [⟨0, 5, 5, 5, 5, 1⟩, ⟨60, 5, 5, 5, 5, 0⟩, ⟨120, 5, 5, 5, 5, 0⟩, ⟨180, 5, 5, 5, 5, 0⟩, ⟨240, 3, 3, 3, 3, 4⟩])
  (coarse := [⟨0, 5, 5, 5, 5, 1⟩, ⟨120, 5, 5, 5, 5, 0⟩, ⟨240, 3, 3, 3, 3, 4⟩]) (by norm_num) (by norm_num) ⟨2, rfl⟩
  (by unfold SortedBy; decide +kernel) (by decide +kernel) (by decide +kernel) (by decide +kernel) ⟨120, 5, 5, 5, 5, 0⟩ (by decide +kernel)
  (by decide +kernel) ⟨180, 5, 5, 5, 5, 0⟩ (by decide +kernel)

/-- The same in binary32. -/
def trRecords32 : List (PriceRecord F32) := [⟨10, .fin 5, .fin 1⟩, ⟨70, .fin 7, .fin 2⟩, ⟨100, .fin 6, .fin 1⟩, ⟨250, .fin 3, .fin 4⟩]
example := C128_range_float (Q := 60) (P := 120) (l := trRecords32)
  (fine := [⟨0, .fin 5, .fin 5, .fin 5, .fin 5, .fin 1⟩, ⟨60, .fin 7, .fin 7, .fin 6, .fin 6, .fin 3⟩, ⟨120, .fin 6, .fin 6, .fin 6, .fin 6, .fin 0⟩,
    ⟨180, .fin 6, .fin 6, .fin 6, .fin 6, .fin 0⟩, ⟨240, .fin 3, .fin 3, .fin 3, .fin 3, .fin 4⟩])
  (coarse := [⟨0, .fin 5, .fin 7, .fin 5, .fin 6, .fin 4⟩, ⟨120, .fin 6, .fin 6, .fin 6, .fin 6, .fin 0⟩, ⟨240, .fin 3, .fin 3, .fin 3, .fin 3, .fin 4⟩])
  (by norm_num) (by norm_num) ⟨2, rfl⟩ (by unfold SortedBy; decide +kernel) (by decide +kernel) (by decide +kernel) (by decide +kernel) (by decide +kernel)
  ⟨0, .fin 5, .fin 7, .fin 5, .fin 6, .fin 4⟩ (by decide +kernel) (by decide +kernel)

attribute [local instance] evLibm in
/-- Both conversions of these records succeed. -/
example (fmt : Format ℚ) : ∃ lines lines', Convert.convertPriceHistory fmt 10 60 0 trRecords = .ok (lines, trFine) ∧
    Convert.convertPriceHistory fmt 10 180 0 trRecords = .ok (lines', trCoarse) := by
  have h : (removeOutliers 10 trRecords).1 = trRecords := by decide +kernel
  obtain ⟨lines, h1⟩ := (convert_iff fmt 10 60 (by decide) 0 trRecords trFine).mpr (by rw [h]; exact trFine_ok)
  obtain ⟨lines', h2⟩ := (convert_iff fmt 10 180 (by decide) 0 trRecords trCoarse).mpr (by rw [h]; exact trCoarse_ok)
  obtain ⟨-, -⟩ := C128_conversion fmt 10 60 180 0 0 (by norm_num) (by norm_num) trRecords tr_sorted.1 tr_sorted.2 h1 h2
  exact ⟨lines, lines', h1, h2⟩

end examples
end Verif.Props.TwoRates
