import Verif.Lemmas.Gaps

/-!
# C24: GetPriceHistoryGaps
-/

namespace Verif.Props

variable {F : Type}

/-- All gaps of a (non-empty) history: the leading one if `start` is given, those between consecutive records,
the trailing one if `stop` is given. -/
def allGaps (first : PriceRecord F) (rest : List (PriceRecord F)) (start stop : ℤ) : List HistoryGap :=
  (if 0 < start then [(start, first.ts)] else []) ++
  List.zip ((first :: rest).map (·.ts)) (rest.map (·.ts)) ++
  (if 0 < stop then [(((first :: rest).getLast (by simp)).ts, stop)] else [])

/-- Length of a gap. -/
def gapLength (g : HistoryGap) : ℤ := g.2 - g.1

/-- Chronological (lexicographic) order of gaps. -/
def Chronological (l : List HistoryGap) : Prop :=
  l.Pairwise (fun a b => a.1 < b.1 ∨ (a.1 = b.1 ∧ a.2 ≤ b.2))

/-- `chosen` is the selection of the `n` best gaps of `all`: longer gaps first, among equally long ones the
earlier. -/
def IsTopN (n : ℕ) (all chosen : List HistoryGap) : Prop :=
  ∃ dropped, (chosen ++ dropped).Perm all ∧ chosen.length = min n all.length ∧
    ∀ x ∈ chosen, ∀ y ∈ dropped, gapLength y < gapLength x ∨ (gapLength y = gapLength x ∧ x.1 ≤ y.1)

theorem consecutive_eq_zip (t : ℤ) (ts : List ℤ) : consecutiveGaps t ts = List.zip (t :: ts) ts := by
  induction ts generalizing t with
  | nil => rfl
  | cons a ts ih => simp [consecutiveGaps, ih]

/-- **C24**. For `top_n ≥ 1` the result is, in chronological order, exactly the `top_n` longest gaps (all of them
if there are fewer), ties broken towards the earlier gap. -/
theorem C24_top_n (first : PriceRecord F) (rest : List (PriceRecord F)) (start stop : ℤ) (n : ℕ) (hn : 0 < n) :
    let out := getPriceHistoryGaps (first :: rest) start stop n
    Chronological out ∧ IsTopN n (allGaps first rest start stop) out := by
  intro out
  have h0 : QueueInv n (if start > 0 then [(start, first.ts)] else [])
      (if 0 < start then [(start, first.ts)] else []) := by
    refine ⟨[], by simp, ?_, by simp⟩
    split <;> simp; omega
  obtain ⟨g1, g2⟩ := gapLoop_inv (rest.map (·.ts)) first.ts _ _ h0
  have hlast : (first.ts :: rest.map (·.ts)).getLast (by simp) = ((first :: rest).getLast (by simp)).ts := by
    have : first.ts :: rest.map (·.ts) = (first :: rest).map (·.ts) := rfl
    simp only [this, List.getLast_map]
  -- the final queue
  have hq : ∃ q, QueueInv n q (allGaps first rest start stop) ∧ out = q.insertionSort (fun a b => gapLe a b = true) := by
    unfold allGaps
    rw [consecutive_eq_zip] at g2
    by_cases hs : 0 < stop
    · refine ⟨gapPushBounded n (gapLoop n first.ts (if start > 0 then [(start, first.ts)] else [])
        (rest.map (·.ts))).2 ((gapLoop n first.ts (if start > 0 then [(start, first.ts)] else [])
        (rest.map (·.ts))).1, stop), ?_, ?_⟩
      · have := g2.push ((gapLoop n first.ts (if start > 0 then [(start, first.ts)] else [])
          (rest.map (·.ts))).1, stop)
        rw [if_pos hs, ← hlast, ← g1]
        exact this
      · show getPriceHistoryGaps (first :: rest) start stop n = _
        unfold getPriceHistoryGaps
        simp only [gt_iff_lt, hs, if_true]
    · refine ⟨(gapLoop n first.ts (if start > 0 then [(start, first.ts)] else [])
        (rest.map (·.ts))).2, ?_, ?_⟩
      · rw [if_neg hs, List.append_nil]
        exact g2
      · show getPriceHistoryGaps (first :: rest) start stop n = _
        unfold getPriceHistoryGaps
        simp only [gt_iff_lt, hs, if_false]
  obtain ⟨q, ⟨dropped, q1, q2, q3⟩, ho⟩ := hq
  rw [ho]
  refine ⟨?_, dropped, ?_, ?_, ?_⟩
  · haveI : Std.Total (fun a b => gapLe a b = true) := ⟨fun a b => by
      have := gapLe_total a b; simpa using this⟩
    have : IsTrans HistoryGap (fun a b => gapLe a b = true) := ⟨gapLe_trans⟩
    have := List.pairwise_insertionSort (fun a b => gapLe a b = true) q
    refine this.imp ?_
    intro a b h
    unfold gapLe at h
    simpa [Bool.or_eq_true, Bool.and_eq_true] using h
  · exact ((List.perm_insertionSort (fun a b => gapLe a b = true) q).append_right dropped).trans q1
  · rw [List.length_insertionSort, q2]
  · intro x hx y hy
    exact q3 x ((List.perm_insertionSort (fun a b => gapLe a b = true) q).mem_iff.mp hx) y hy

/-- **C24**, `top_n = 0`: nothing is returned unless a positive start bound is given; then it behaves like
`top_n = 1` and returns the longest gap. -/
theorem C24_zero (first : PriceRecord F) (rest : List (PriceRecord F)) (start stop : ℤ) :
    (start ≤ 0 → getPriceHistoryGaps (first :: rest) start stop 0 = []) ∧
    (0 < start → getPriceHistoryGaps (first :: rest) start stop 0 =
      getPriceHistoryGaps (first :: rest) start stop 1) := by
  constructor
  · intro hs
    unfold getPriceHistoryGaps
    simp only [gt_iff_lt, show ¬ 0 < start by omega, if_false, gapLoop_zero_nil]
    by_cases h : 0 < stop
    · simp only [h, if_true]
      have e : ∀ g, gapPushBounded 0 [] g = [] :=
        fun g => List.eq_nil_of_length_eq_zero (gapPushBounded_length_zero [] g)
      rw [e]; rfl
    · simp only [h, if_false]; rfl
  · intro hs
    unfold getPriceHistoryGaps
    simp only [gt_iff_lt, hs, if_true]
    obtain ⟨h1, h2⟩ := gapLoop_zero_one (rest.map (·.ts)) first.ts (start, first.ts)
    rw [← h1]
    obtain ⟨g, hg⟩ := List.length_eq_one_iff.mp h2
    rw [hg]
    by_cases h : 0 < stop
    · simp only [h, if_true, gapPushBounded_zero_one]
    · simp only [h, if_false]

/-- **C24**, empty history. -/
theorem C24_empty (start stop : ℤ) (n : ℕ) : getPriceHistoryGaps ([] : List (PriceRecord F)) start stop n = [] := rfl

/-! Non-vacuity: a tie, resolved towards the earlier gap. -/

example : getPriceHistoryGaps ([⟨10, 1, 1⟩, ⟨20, 1, 1⟩, ⟨25, 1, 1⟩, ⟨35, 1, 1⟩] : List (PriceRecord ℤ)) 5 0 2 =
    [(10, 20), (25, 35)] := by decide +kernel
example : getPriceHistoryGaps ([⟨10, 1, 1⟩, ⟨20, 1, 1⟩, ⟨25, 1, 1⟩, ⟨35, 1, 1⟩] : List (PriceRecord ℤ)) 5 0 1 =
    [(10, 20)] := by decide +kernel
example : getPriceHistoryGaps ([⟨10, 1, 1⟩] : List (PriceRecord ℤ)) 5 0 0 = [(5, 10)] := by decide +kernel

end Verif.Props
