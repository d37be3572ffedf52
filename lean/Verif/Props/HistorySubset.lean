import Verif.Lemmas.Search

/-!
# C15, C16: HistorySubset / HistorySubsetCopy

`ts` is the timestamp accessor of the record type (the C++ template parameter).
-/

namespace Verif.Props
open Spec

variable {α : Type} (ts : α → ℤ)

/-- A record lies in the gap of an inverted window `stop < start`. -/
def InvertedWithRecord (l : List α) (start stop : ℤ) : Prop :=
  0 < stop ∧ ∃ r ∈ l, stop ≤ ts r ∧ ts r < start

/-- **C15**. On a sorted history `HistorySubsetCopy` returns exactly the records of the window, in their
original order (the excluded case is C16). -/
theorem C15_subset_copy (l : List α) (hs : SortedBy ts l) (start stop : ℤ)
    (hw : ¬ InvertedWithRecord ts l start stop) :
    historySubsetCopy ts l start stop = .ok (l.filter (fun r => decide (InWindow start stop (ts r)))) := by
  obtain ⟨a1, a2, a3⟩ := historySubset_fst hs start stop
  obtain ⟨b1, b2, b3⟩ := historySubset_snd hs start stop
  unfold historySubsetCopy
  set s := historySubset ts l start stop
  simp only
  have hle : s.1 ≤ s.2 := by
    by_contra hlt
    rw [not_le] at hlt
    obtain ⟨h1, h2⟩ := a2 s.2 (by omega) hlt
    obtain ⟨h3, h4⟩ := b3 s.2 (by omega) (le_refl _)
    exact hw ⟨h3, _, List.getElem_mem _, h4, h2⟩
  have hf : l.filter (fun r => decide (InWindow start stop (ts r))) = (l.drop s.1).take (s.2 - s.1) := by
    have e : (fun r => decide (InWindow start stop (ts r))) =
        fun r => decide (0 < start → start ≤ ts r) && decide (0 < stop → ts r < stop) := by
      funext r; rw [Bool.eq_iff_iff]; simp only [Bool.and_eq_true, decide_eq_true_eq]; rfl
    rw [e, ← List.filter_filter,
      filter_eq_take l (fun r => decide (0 < stop → ts r < stop)) s.2]
    · rw [filter_eq_drop (l.take s.2) (fun r => decide (0 < start → start ≤ ts r)) s.1]
      · rw [List.drop_take]
      · intro i h hi
        simp only [List.length_take] at h
        obtain ⟨h1, h2⟩ := a2 i (by omega) hi
        simp only [List.getElem_take, decide_eq_false_iff_not]
        intro h3
        have := h3 h1; omega
      · intro i h hi
        simp only [List.length_take] at h
        simp only [List.getElem_take, decide_eq_true_eq]
        exact a3 i (by omega) hi
    · intro i h hi
      simp only [decide_eq_true_eq]
      exact b2 i h hi
    · intro i h hi
      obtain ⟨h1, h2⟩ := b3 i h hi
      simp only [decide_eq_false_iff_not]
      intro h3
      have := h3 h1; omega
  by_cases h0 : (s.2 : ℤ) - s.1 = 0
  · rw [if_pos h0, hf]
    have : s.2 - s.1 = 0 := by omega
    rw [this, List.take_zero]
  · rw [if_neg h0, if_neg (by omega), hf]

/-- **C15** (iterators). `HistorySubset` itself delimits the same records. -/
theorem C15_subset_range (l : List α) (hs : SortedBy ts l) (start stop : ℤ) :
    let s := historySubset ts l start stop
    s.1 ≤ l.length ∧ s.2 ≤ l.length ∧
    ∀ i (h : i < l.length), (s.1 ≤ i ∧ i < s.2) ↔ InWindow start stop (ts l[i]) := by
  intro s
  obtain ⟨a1, a2, a3⟩ := historySubset_fst hs start stop
  obtain ⟨b1, b2, b3⟩ := historySubset_snd hs start stop
  refine ⟨a1, b1, fun i h => ⟨fun ⟨h1, h2⟩ => ⟨a3 i h h1, b2 i h h2⟩, fun ⟨h1, h2⟩ => ⟨?_, ?_⟩⟩⟩
  · by_contra hc
    obtain ⟨h3, h4⟩ := a2 i h (not_le.mp hc)
    have := h1 h3; omega
  · by_contra hc
    obtain ⟨h3, h4⟩ := b3 i h (not_lt.mp hc)
    have := h2 h3; omega

/-- **C15** (complexity and memory safety). For *any* history - sorted or not - a bound lookup inspects
only existing records, and at most log2(n) + 1 of them. -/
theorem C15_probes (l : List α) (t : ℤ) :
    (∀ i ∈ (lowerBound ts l t).2, i < l.length) ∧
    (lowerBound ts l t).2.length ≤ Nat.log 2 l.length + 1 := by
  obtain ⟨h1, h2, h3⟩ := partitionLoop_probes
    (recordBefore ts l t) l.length 0
  refine ⟨fun i hi => by have := (h1 i hi).2; omega, ?_⟩
  by_cases h : l.length = 0
  · have := h2 h
    unfold lowerBound
    omega
  · exact h3 h

/-- **C16**. `HistorySubsetCopy` fails to return exactly when the window is inverted around an existing
record (it then asks for a negative number of elements); it never returns a truncated result. -/
theorem C16_inverted_window (l : List α) (hs : SortedBy ts l) (start stop : ℤ) :
    (historySubsetCopy ts l start stop = .error .outOfRange ↔ InvertedWithRecord ts l start stop) ∧
    ((historySubset ts l start stop).2 < (historySubset ts l start stop).1 ↔
      InvertedWithRecord ts l start stop) := by
  obtain ⟨a1, a2, a3⟩ := historySubset_fst hs start stop
  obtain ⟨b1, b2, b3⟩ := historySubset_snd hs start stop
  have key : (historySubset ts l start stop).2 < (historySubset ts l start stop).1 ↔
      InvertedWithRecord ts l start stop := by
    constructor
    · intro hlt
      obtain ⟨h1, h2⟩ := a2 (historySubset ts l start stop).2 (by omega) hlt
      obtain ⟨h3, h4⟩ := b3 (historySubset ts l start stop).2 (by omega) (le_refl _)
      exact ⟨h3, _, List.getElem_mem _, h4, h2⟩
    · rintro ⟨h0, r, hr, h1, h2⟩
      obtain ⟨i, hi, rfl⟩ := List.getElem_of_mem hr
      by_contra hc
      have hstart : 0 < start := by omega
      by_cases hlt : i < (historySubset ts l start stop).2
      · have := b2 i hi hlt h0; omega
      · have := a3 i hi (by omega) hstart; omega
  refine ⟨?_, key⟩
  rw [← key]
  unfold historySubsetCopy
  constructor
  · intro h
    simp only at h
    split_ifs at h with h1 h2
    omega
  · intro h
    simp only
    rw [if_neg (by omega), if_pos (by omega)]

/-- **C15** (a window of a window). A subset of a subset holds exactly the records in both windows; in particular, selecting the same window again
changes nothing. -/
theorem C15_compose (l m n : List α) (hs : SortedBy ts l) (a b c d : ℤ) (h1 : historySubsetCopy ts l a b = .ok m)
    (h2 : historySubsetCopy ts m c d = .ok n) :
    n = l.filter (fun r => decide (InWindow a b (ts r) ∧ InWindow c d (ts r))) ∧ historySubsetCopy ts m a b = .ok m := by
  have key : ∀ (l m : List α) (a b : ℤ), SortedBy ts l → historySubsetCopy ts l a b = .ok m →
      m = l.filter (fun r => decide (InWindow a b (ts r))) := by
    intro l m a b hs h
    have hn : ¬ InvertedWithRecord ts l a b := by
      intro hc
      rw [(C16_inverted_window ts l hs a b).1.mpr hc] at h; cases h
    rw [C15_subset_copy ts l hs a b hn] at h
    exact (Except.ok.inj h).symm
  have e1 := key l m a b hs h1
  have hsm : SortedBy ts m := by rw [e1]; exact hs.sublist List.filter_sublist
  refine ⟨?_, ?_⟩
  · rw [key m n c d hsm h2, e1, List.filter_filter]
    apply List.filter_congr
    intro r _
    rw [Bool.eq_iff_iff]
    simp [and_comm]
  · rw [C15_subset_copy ts m hsm a b]
    · congr 1
      rw [e1, List.filter_filter]; simp
    · rintro ⟨h0, r, hr, h3, h4⟩
      rw [e1] at hr
      obtain ⟨h5, h6⟩ := of_decide_eq_true (List.mem_filter.mp hr).2
      have := h6 h0
      omega

example := C15_compose id [10, 20, 20, 30, 40] [20, 20, 30] [30] (by unfold SortedBy; decide) 15 40 25 0 (by decide +kernel) (by decide +kernel)

/-- Concrete cases: an ordinary window, and an inverted one. -/
example : SortedBy id [10, 20, 20, 30, 40] ∧
    historySubsetCopy id [10, 20, 20, 30, 40] 15 40 = .ok [20, 20, 30] ∧
    historySubsetCopy id [10, 20, 20, 30, 40] 0 20 = .ok [10] ∧
    historySubsetCopy id [10, 20, 20, 30, 40] 30 15 = .error .outOfRange := by
  refine ⟨by unfold SortedBy; decide, ?_, ?_, ?_⟩
  · rw [C15_subset_copy id _ (by unfold SortedBy; decide) _ _ (by unfold InvertedWithRecord; decide)]; decide
  · rw [C15_subset_copy id _ (by unfold SortedBy; decide) _ _ (by unfold InvertedWithRecord; decide)]; decide
  · rw [(C16_inverted_window id _ (by unfold SortedBy; decide) _ _).1]
    unfold InvertedWithRecord; decide

end Verif.Props
