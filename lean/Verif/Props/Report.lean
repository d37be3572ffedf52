import Verif.Spec.Report
import Verif.Props.Outliers
import Verif.Props.Gaps
import Verif.Props.Printing

/-!
# C79: the reports of convert.cc
-/

namespace Verif.Props
open Verif Verif.Spec Verif.Convert FloatOps

variable {F : Type}

private theorem recordLine_eq (fmt : Format F) (b : Bool) (r : PriceRecord F) : recordLine fmt b r = recordReport fmt b r := by
  unfold recordLine recordReport
  cases b <;> simp

private theorem outlierLoop_ok (fmt : Format F) (l : List (PriceRecord F)) (m : IndexMap) (prev : ℕ) (keys : List ℕ)
    (hk : keys.Pairwise (· < ·)) (hp : ∀ i ∈ keys, prev < i ∨ prev = 0) (hl : ∀ i ∈ keys, i < l.length) :
    ∃ recs : List (ℕ × Text), recs.map Prod.fst = keys ∧
      (∀ p ∈ recs, ∃ r, l[p.1]? = some r ∧ p.2 = recordReport fmt ((m p.1).getD false) r) ∧
      outlierLoop fmt l m prev keys = .ok ((match recs with
        | [] => []
        | (i, _) :: _ => if i = prev + 1 ∨ prev = 0 then [] else ["   ...".toList]) ++ withDots recs) := by
  induction keys generalizing prev with
  | nil => exact ⟨[], rfl, by simp, rfl⟩
  | cons i keys ih =>
    have hi := hl i (by simp)
    obtain ⟨recs, h1, h2, h3⟩ := ih i (List.pairwise_cons.mp hk).2
      (fun j hj => .inl ((List.pairwise_cons.mp hk).1 j hj)) (fun j hj => hl j (by simp [hj]))
    refine ⟨(i, recordReport fmt ((m i).getD false) l[i]) :: recs, by simp [h1], ?_, ?_⟩
    · intro p hp
      rcases List.mem_cons.mp hp with rfl | hp
      · exact ⟨l[i], by simp, rfl⟩
      · exact h2 p hp
    · unfold outlierLoop
      rw [List.getElem?_eq_getElem hi]
      dsimp only
      rw [h3]
      simp only [bind, Except.bind, pure, Except.pure]
      have hc : (if prev > 0 ∧ i > prev + 1 then ["   ...".toList] else ([] : List Text)) =
          if i = prev + 1 ∨ prev = 0 then [] else ["   ...".toList] := by
        have := hp i (by simp)
        split_ifs <;> first | rfl | omega
      rw [hc, recordLine_eq]
      congr 2
      cases recs with
      | nil => rfl
      | cons q recs => rfl

private theorem foldl_max_ge (l : List ℕ) (a : ℕ) : a ≤ l.foldl max a ∧ ∀ i ∈ l, i ≤ l.foldl max a := by
  induction l generalizing a with
  | nil => simp
  | cons x l ih =>
    obtain ⟨h1, h2⟩ := ih (max a x)
    refine ⟨le_trans (le_max_left _ _) h1, fun i hi => ?_⟩
    rcases List.mem_cons.mp hi with rfl | hi
    · exact le_trans (le_max_right _ _) h1
    · exact h2 i hi

/-- **C79** (outliers). For outliers that are positions of the history, the report does not abort.  It has one line for each
of the last `lastN` outliers (all, if `lastN` is 0) and for each record at most `left` positions before or `right` behind
one of them, in order, each once, the outliers and only they marked; left out stretches are shown by dots (except directly
behind the first record). -/
theorem C79_outliers (fmt : Format F) (l : List (PriceRecord F)) (outliers : List ℕ) (h : ∀ i ∈ outliers, i < l.length)
    (left right lastN : ℕ) :
    ∃ recs : List (ℕ × Text), printOutliersWithContext fmt l outliers left right lastN = .ok (withDots recs) ∧
      (recs.map Prod.fst).Pairwise (· < ·) ∧
      (∀ i, i ∈ recs.map Prod.fst ↔
        i < l.length ∧ ∃ j ∈ selectedOutliers outliers lastN, i = j ∨ j ≤ i + left ∧ i ≤ j + right) ∧
      (∀ p ∈ recs, ∃ r, l[p.1]? = some r ∧ p.2 = recordReport fmt (decide (p.1 ∈ selectedOutliers outliers lastN)) r) := by
  have hsel : ∀ j ∈ selectedOutliers outliers lastN, j ∈ outliers := by
    intro j hj
    unfold selectedOutliers at hj
    split at hj
    · exact hj
    · exact List.mem_of_mem_drop hj
  set m := getOutlierIndicesWithContext outliers l.length left right lastN with hm
  have hc := fun i => C23_context outliers l.length left right lastN i
  simp only [← hm] at hc
  set keys := mapKeys m (l.length + (outliers.foldl max 0 + 1)) with hkeys
  have hmem : ∀ i, i ∈ keys ↔
      i < l.length ∧ ∃ j ∈ selectedOutliers outliers lastN, i = j ∨ j ≤ i + left ∧ i ≤ j + right := by
    intro i
    rw [hkeys, mapKeys, List.mem_filter, List.mem_range]
    constructor
    · rintro ⟨-, hs⟩
      cases hmi : m i with
      | none => rw [hmi] at hs; cases hs
      | some b =>
        cases b with
        | true =>
          have := (hc i).1.mp hmi
          exact ⟨h i (hsel i this), i, this, .inl rfl⟩
        | false =>
          obtain ⟨-, h2, j, h3, h4⟩ := (hc i).2.mp hmi
          exact ⟨h2, j, h3, .inr h4⟩
    · rintro ⟨hi, j, hj, hij⟩
      refine ⟨by omega, ?_⟩
      by_cases hin : i ∈ selectedOutliers outliers lastN
      · rw [(hc i).1.mpr hin]; rfl
      · rcases hij with rfl | hij
        · exact absurd hj hin
        · rw [(hc i).2.mpr ⟨hin, hi, j, hj, hij⟩]; rfl
  have hsorted : keys.Pairwise (· < ·) := List.Pairwise.filter _ List.pairwise_lt_range
  obtain ⟨recs, h1, h2, h3⟩ := outlierLoop_ok fmt l m 0 keys hsorted (fun _ _ => .inr rfl) (fun i hi => ((hmem i).mp hi).1)
  refine ⟨recs, ?_, by rw [h1]; exact hsorted, by rw [h1]; exact hmem, ?_⟩
  · unfold printOutliersWithContext
    dsimp only
    rw [← hm, ← hkeys, h3]
    cases recs with
    | nil => rfl
    | cons q recs => simp
  · intro p hp
    obtain ⟨r, hr, e⟩ := h2 p hp
    refine ⟨r, hr, ?_⟩
    rw [e]
    congr 1
    by_cases hin : p.1 ∈ selectedOutliers outliers lastN
    · rw [(hc p.1).1.mpr hin]; simp [hin]
    · cases hmi : m p.1 with
      | none => simp [hin]
      | some b =>
        cases b with
        | true => exact absurd ((hc p.1).1.mp hmi) hin
        | false => simp [hin]

/-- **C79** (gaps). The report of a price history has one line for each of its `topN` largest gaps, in chronological order:
both ends, and the duration as hours, minutes and seconds. -/
theorem C79_gaps (fmt : Format F) (first : PriceRecord F) (rest : List (PriceRecord F)) (topN : ℕ) (hn : 0 < topN) :
    ∃ gaps : List (ℤ × ℤ), printPriceHistoryGaps fmt (first :: rest) topN = gaps.map (fun g => gapReport fmt g.1 g.2) ∧
      Chronological gaps ∧ IsTopN topN (allGaps first rest 0 0) gaps := by
  refine ⟨_, ?_, C24_top_n first rest 0 0 topN hn⟩
  unfold printPriceHistoryGaps
  refine List.map_congr_left fun g _ => ?_
  unfold gapLine gapReport
  simp

private theorem no_gaps (t : ℤ) (ts : List ℤ) : (gapLoop 0 t [] ts).2 = [] := by
  induction ts generalizing t with
  | nil => rfl
  | cons a ts ih =>
    unfold gapLoop
    have : gapPushBounded 0 [] (t, a) = [] := by
      simp [gapPushBounded, gapPop, gapTop]
    rw [this]
    exact ih a

/-- **C79** (odd numbers in the flags). The numbers of `--top_n_gaps` and `--last_n_outliers` are converted to an unsigned type: a
negative number stands for all gaps, and all outliers.  With `--top_n_gaps=0` no gap is printed. -/
theorem C79_flags (fmt : Format F) (first : PriceRecord F) (rest : List (PriceRecord F)) (hr : rest.length < 2 ^ 63)
    (outliers : List ℕ) (ho : outliers.length < 2 ^ 63) (n : ℤ) (h1 : -2 ^ 31 ≤ n) (h2 : n < 2 ^ 31) :
    (0 ≤ n → (toSize n : ℤ) = n) ∧
    (n < 0 → selectedOutliers outliers (toSize n) = outliers) ∧
    (n < 0 → ∃ gaps : List (ℤ × ℤ), printPriceHistoryGaps fmt (first :: rest) (toSize n) =
      gaps.map (fun g => gapReport fmt g.1 g.2) ∧ Chronological gaps ∧ gaps.Perm (allGaps first rest 0 0)) ∧
    (n = 0 → printPriceHistoryGaps fmt (first :: rest) (toSize n) = []) := by
  have hbig : n < 0 → 2 ^ 63 ≤ toSize n := by
    intro h; unfold toSize; omega
  refine ⟨fun h => by unfold toSize; omega, fun h => ?_, fun h => ?_, fun h => ?_⟩
  · have := hbig h
    unfold selectedOutliers
    rw [if_neg (by omega), show outliers.length - toSize n = 0 by omega, List.drop_zero]
  · obtain ⟨gaps, g1, g2, dropped, g3, g4, -⟩ := C79_gaps fmt first rest (toSize n) (by have := hbig h; omega)
    refine ⟨gaps, g1, g2, ?_⟩
    have hl : (allGaps first rest 0 0).length = rest.length := by
      simp [allGaps]
    have : dropped = [] := by
      have h3 := g3.length_eq
      rw [List.length_append] at h3
      have := hbig h
      exact List.eq_nil_of_length_eq_zero (by omega)
    rwa [this, List.append_nil] at g3
  · subst h
    have : toSize 0 = 0 := by decide
    unfold printPriceHistoryGaps getPriceHistoryGaps
    rw [this]
    simp [no_gaps]

example : toSize (-1) = 2 ^ 64 - 1 ∧ toSize 50 = 50 := by decide

/-- A history of twelve records. -/
private def repHistory : List (PriceRecord ℚ) := (List.range 12).map (fun i => ⟨i + 1, 1, 1⟩)

/-- Outliers at positions 1, 9 and 10, with one record of context: the dots stand for positions 3 to 7. -/
example : (printOutliersWithContext (⟨fun _ => "", fun _ _ => ""⟩ : Format ℚ) repHistory [1, 9, 10] 1 1 0).toOption.map
    (fun ls => ls.map (fun t => t.take 4)) = some (["    ", " x  ", "    ", "   .", "    ", " x  ", " x  ", "    "].map
      String.toList) := by decide +kernel

/-- Outliers at positions 0 and 9, without context: no dots behind position 0. -/
example : (printOutliersWithContext (⟨fun _ => "", fun _ _ => ""⟩ : Format ℚ) repHistory [0, 9] 0 0 0).toOption.map
    (fun ls => ls.map (fun t => t.take 4)) = some ([" x  ", " x  "].map String.toList) := by decide +kernel

/-- The report of two gaps. -/
example : printPriceHistoryGaps (⟨fun _ => "", fun _ _ => ""⟩ : Format ℚ) [⟨60, 1, 1⟩, ⟨120, 1, 1⟩, ⟨7320, 1, 1⟩] 1 =
    [" [1970-01-01 00:02:00] -  [1970-01-01 02:02:00]: 2:00:00".toList] := by decide +kernel

end Verif.Props
