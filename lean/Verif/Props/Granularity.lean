import Verif.Lemmas.Granularity
import Verif.Props.LastN

/-!
# C51: granularity of the input

`aggregate Q l` is what `Resample`/pre-aggregation to period `Q` gives (C18, C39).
-/

namespace Verif.Props
open Spec FloatOps

/-- **C51** (closes, for every arithmetic). If the indicator period is a multiple of `Q`, feeding the ticks or
their pre-aggregation to period `Q` gives windows with the same timestamps and the same closes; so the
close-based indicators (SMA, EMA, MACD, RSI, volatility) end up with the same window. -/
theorem C51_closes {F : Type} [FloatOps F] (n Q P : ℤ) (hn : 0 < n) (hQ : 0 < Q) (hP : 0 < P) (hd : Q ∣ P)
    (l : List (OhlcTick F)) (hs : SortedBy OhlcTick.ts l) (h0 : ∀ t ∈ l, 0 ≤ t.ts) :
    ∃ s1 e1 s2 e2, lastNAfter n P l = .ok (s1, e1) ∧ lastNAfter n P (aggregate Q l) = .ok (s2, e2) ∧
      s1.ticks.map (fun t => (t.ts, t.close)) = s2.ticks.map (fun t => (t.ts, t.close)) := by
  obtain ⟨s1, e1, h1, t1⟩ := C39_last_n_periods n P hn hP l hs h0
  have h0' : ∀ t ∈ aggregate Q l, 0 ≤ t.ts := by
    intro t ht
    by_cases hne : l = []
    · subst hne; simp [aggregate] at ht
    · rw [aggregate_eq hne, List.mem_map] at ht
      obtain ⟨i, _, rfl⟩ := ht
      rw [aggTick_ts]
      have : 0 ≤ (l.head hne).ts := h0 _ (List.head_mem hne)
      unfold periodStart
      have : 0 ≤ (l.head hne).ts / Q := Int.ediv_nonneg this hQ.le
      positivity
  obtain ⟨s2, e2, h2, t2⟩ := C39_last_n_periods n P hn hP _ (aggregate_sorted hQ l) h0'
  refine ⟨s1, e1, s2, e2, h1, h2, ?_⟩
  have h := aggregate_aggregate_closes hQ hP hd l hs
  have hlen := congrArg List.length h
  simp only [List.length_map] at hlen
  rw [t1, t2, List.map_drop, List.map_drop, h, hlen]

/-- **C51** (whole ticks, exact arithmetic). If no period of length `Q` is empty, the windows are identical, so
every indicator agrees. -/
theorem C51_ticks {K : Type} [Field K] [LinearOrder K] [IsStrictOrderedRing K] [FloorRing K]
    (Q P : ℤ) (hQ : 0 < Q) (hP : 0 < P) (hd : Q ∣ P)
    (l : List (OhlcTick K)) (hs : SortedBy OhlcTick.ts l) (hg : NoGap Q l) :
    aggregate P (aggregate Q l) = aggregate P l := aggregate_aggregate hQ hP hd l hs hg

/-- **C51**, the limit of the claim: when a coarse period *starts* with an empty fine period, the flat tick that
fills it becomes the coarse period's open (and can become its high or low). -/
theorem C51_fails_with_gaps : ∃ (l : List (OhlcTick ℚ)), SortedBy OhlcTick.ts l ∧ (∀ t ∈ l, 0 ≤ t.ts) ∧
    aggregate 120 (aggregate 60 l) ≠ aggregate 120 l :=
  ⟨[⟨0, 1, 1, 1, 1, 1⟩, ⟨190, 5, 5, 5, 5, 1⟩], by unfold SortedBy; decide +kernel, by decide +kernel,
    by decide +kernel⟩

example : NoGap 60 ([⟨0, 1, 1, 1, 1, 1⟩, ⟨30, 2, 2, 2, 2, 1⟩, ⟨70, 5, 5, 5, 5, 1⟩, ⟨150, 6, 6, 6, 6, 1⟩] :
    List (OhlcTick ℚ)) := by unfold NoGap; decide +kernel

end Verif.Props
