import Verif.Props.Indicators

/-!
# C41: the simple moving average; C42: bounds of the exponential moving average
-/

set_option linter.unusedSectionVars false

namespace Verif.Props
open Spec FloatOps

variable {K : Type} [Field K] [LinearOrder K] [IsStrictOrderedRing K] [FloorRing K]

theorem reverse_take {α : Type} (n : ℕ) (l : List α) : (l.reverse.take n).reverse = lastN n l := by
  unfold lastN; rw [List.take_reverse, List.reverse_reverse]

/-- **C41**. After feeding any sorted history, `GetSimpleMovingAverage` is the arithmetic mean of the closes of the
last `n` ticks of the aggregated history (of all of them while there are fewer), 0 if there are none, and
`GetNumOhlcTicks` is their number. -/
theorem C41_sma (n period : ℤ) (hn : 0 < n) (hP : 0 < period) (l : List (OhlcTick K)) (hl : Feedable l) :
    ∃ s, smaAfter n period l = .ok s ∧
      Sma.get s = mean (lastN n.toNat ((aggregate period l).map (·.close))) ∧
      (l = [] → Sma.get s = 0) ∧
      Sma.numTicks s = min n.toNat (aggregate period l).length := by
  have hn' : 0 < n.toNat := by omega
  obtain ⟨s, h1, h2⟩ := Indicator.run_inv (F := K) (n := n.toNat) (P := period) hn' hP Sma.onEvent
    (fun full s => s = ((full.take n.toNat).map (·.close)).sum)
    (fun full e full' s h hs => by
      subst hs
      obtain ⟨m, hm⟩ : ∃ m, n.toNat = m + 1 := ⟨n.toNat - 1, by omega⟩
      rw [hm] at h ⊢
      cases h with
      | added _ x h =>
        refine ⟨_, rfl, ?_⟩
        rw [List.take_of_length_le (l := full) (by omega), List.take_of_length_le (l := x :: full) (by simp; omega)]
        simp [add_comm]
      | addedRemoved _ r x h hr =>
        refine ⟨_, rfl, ?_⟩
        have : full.take (m + 1) = full.take m ++ [r] := by
          have hlt : m < full.length := by omega
          rw [List.take_succ_eq_append_getElem hlt] at hr ⊢
          rw [List.getLast?_concat] at hr
          rw [Option.some.inj hr]
        rw [this]
        simp
        ring
      | updated rest old new ho =>
        refine ⟨_, rfl, ?_⟩
        simp
        ring)
    (lit K 0) (by simp) l hl.1 hl.2
  have hget : (aggregate period l).reverse.take n.toNat = (lastN n.toNat (aggregate period l)).reverse := by
    rw [← reverse_take, List.reverse_reverse]
  have hlen : ((aggregate period l).reverse.take n.toNat).length = min n.toNat (aggregate period l).length := by
    rw [List.length_take, List.length_reverse]
  refine ⟨⟨⟨n.toNat, period, (aggregate period l).reverse.take n.toNat⟩, s⟩, ?_, ?_, ?_, ?_⟩
  · simp only [smaAfter, indAfter, Sma.make, lastN_make n period hn hP, bind, Except.bind, pure, Except.pure]
    exact h1
  · have e : ∀ f : OhlcTick K → K, lastN n.toNat ((aggregate period l).map f) =
        (lastN n.toNat (aggregate period l)).map f := by
      intro f; unfold lastN; rw [List.length_map, List.map_drop]
    rw [e]
    unfold Sma.get Sma.numTicks LastN.ticks mean
    simp only [List.length_reverse, h2, hget, List.map_reverse, List.sum_reverse, List.length_map]
    split
    · rename_i h0
      rw [h0]; simp
    · simp
  · intro h0
    subst h0
    simp [Sma.get, Sma.numTicks, LastN.ticks, aggregate]
  · unfold Sma.numTicks LastN.ticks
    rw [List.length_reverse]; exact hlen

theorem ema_between (w lo hi : K) (h0 : 0 ≤ w) (h1 : w ≤ 1) (cs : List K) (hne : cs ≠ [])
    (h : ∀ c ∈ cs, lo ≤ c ∧ c ≤ hi) : lo ≤ ema w cs ∧ ema w cs ≤ hi := by
  induction cs using List.reverseRecOn with
  | nil => exact absurd rfl hne
  | append_singleton cs c ih =>
    have hc := h c (by simp)
    rw [ema_snoc]
    split
    · exact hc
    · rename_i hcs
      have := ih hcs (fun x hx => h x (by simp [hx]))
      simp only [ex_ofRat, ex_add, ex_sub, ex_mul, Rat.cast_one]
      constructor <;> nlinarith

/-- **C42** (bounds). In exact arithmetic, with a weight `smoothing / (1 + length)` between 0 and 1, the average lies
between any two bounds of the closes of the aggregated history, in particular between the smallest and the largest
close. -/
theorem C42_bounds (smoothing : K) (length period : ℤ) (hP : 0 < period) (l : List (OhlcTick K)) (hl : Feedable l)
    (hne : l ≠ []) (h0 : 0 ≤ smoothing / (1 + length)) (h1 : smoothing / (1 + length) ≤ 1) (lo hi : K)
    (h : ∀ t ∈ aggregate period l, lo ≤ t.close ∧ t.close ≤ hi) :
    ∃ s, emaIndAfter smoothing length period l = .ok s ∧ lo ≤ EmaInd.get s ∧ EmaInd.get s ≤ hi := by
  obtain ⟨s, a, b, _⟩ := C42_ema smoothing length period hP l hl
  refine ⟨s, a, ?_⟩
  rw [b]
  have := ema_between (smoothing / (1 + length)) lo hi h0 h1 ((aggregate period l).map (·.close))
    (by
      intro h0
      rw [List.map_eq_nil_iff, aggregate_eq hne, List.map_eq_nil_iff] at h0
      simp at h0)
    (by
      intro c hc
      obtain ⟨t, ht, rfl⟩ := List.mem_map.mp hc
      exact h t ht)
  simpa using this

/-! Non-vacuity. -/

/-- Sample ticks: two in the first period of 10 seconds, none in the second, one in the third. -/
def indTicks : List (OhlcTick ℚ) := [⟨100, 10, 12, 9, 11, 1⟩, ⟨105, 11, 14, 10, 13, 2⟩, ⟨121, 12, 12, 7, 8, 3⟩]

example : Feedable indTicks ∧ indTicks ≠ [] := by unfold Feedable SortedBy; decide +kernel
example : aggregate 10 indTicks =
    [⟨100, 10, 14, 9, 13, 3⟩, ⟨110, 13, 13, 13, 13, 0⟩, ⟨120, 12, 12, 7, 8, 3⟩] := by decide +kernel
example : (smaAfter 2 10 indTicks).map Sma.get = .ok (21 / 2) := by decide +kernel
example : (emaIndAfter 2 3 10 indTicks).map EmaInd.get = .ok (21 / 2) := by decide +kernel
example : (0 : ℚ) ≤ 2 / (1 + (3 : ℤ)) ∧ (2 : ℚ) / (1 + (3 : ℤ)) ≤ 1 ∧
    ∀ t ∈ aggregate 10 indTicks, (8 : ℚ) ≤ t.close ∧ t.close ≤ 13 := by decide +kernel
example : (macdAfter 1 3 3 10 indTicks).map (fun s => (Macd.series s.state, Macd.signal s.state)) =
    .ok (-5 / 2, -5 / 4) := by decide +kernel

end Verif.Props
