import Verif.Spec.History
import Mathlib.Data.Nat.Log

/-! Binary search lemmas. -/

namespace Verif
open Spec

theorem partitionLoop_zero (p : ℕ → Bool) (first : ℕ) : partitionLoop p first 0 = (first, []) := by
  unfold partitionLoop; rfl

theorem partitionLoop_true (p : ℕ → Bool) (first len : ℕ) (h : len ≠ 0) (hp : p (first + len / 2) = true) :
    partitionLoop p first len =
      ((partitionLoop p (first + len / 2 + 1) (len - len / 2 - 1)).1,
        (first + len / 2) :: (partitionLoop p (first + len / 2 + 1) (len - len / 2 - 1)).2) := by
  rw [partitionLoop]; simp [h, hp]

theorem partitionLoop_false (p : ℕ → Bool) (first len : ℕ) (h : len ≠ 0)
    (hp : p (first + len / 2) = false) :
    partitionLoop p first len =
      ((partitionLoop p first (len / 2)).1, (first + len / 2) :: (partitionLoop p first (len / 2)).2) := by
  rw [partitionLoop]; simp [h, hp]

theorem partitionLoop_spec (p : ℕ → Bool) (len : ℕ) : ∀ first,
    (∀ i j, first ≤ i → i ≤ j → j < first + len → p j = true → p i = true) →
    first ≤ (partitionLoop p first len).1 ∧ (partitionLoop p first len).1 ≤ first + len ∧
    (∀ i, first ≤ i → i < (partitionLoop p first len).1 → p i = true) ∧
    (∀ i, (partitionLoop p first len).1 ≤ i → i < first + len → p i = false) := by
  induction len using Nat.strong_induction_on with
  | _ len ih =>
    intro first hm
    by_cases h : len = 0
    · subst h
      rw [partitionLoop_zero]
      exact ⟨le_refl _, by simp, fun i h1 h2 => by omega, fun i h1 h2 => by omega⟩
    cases hp : p (first + len / 2) with
    | true =>
      rw [partitionLoop_true p first len h hp]
      obtain ⟨h1, h2, h3, h4⟩ := ih (len - len / 2 - 1) (by omega) (first + len / 2 + 1)
        (fun i j a b c d => hm i j (by omega) b (by omega) d)
      refine ⟨by omega, by omega, fun i a b => ?_, fun i a b => h4 i a (by omega)⟩
      by_cases hi : first + len / 2 + 1 ≤ i
      · exact h3 i hi b
      · exact hm i (first + len / 2) a (by omega) (by omega) hp
    | false =>
      rw [partitionLoop_false p first len h hp]
      obtain ⟨h1, h2, h3, h4⟩ := ih (len / 2) (by omega) first
        (fun i j a b c d => hm i j a b (by omega) d)
      refine ⟨h1, by simp only; omega, h3, fun i a b => ?_⟩
      by_cases hi : i < first + len / 2
      · exact h4 i a hi
      · cases hpi : p i with
        | false => rfl
        | true => rw [hm (first + len / 2) i (by omega) (by omega) b hpi] at hp; cases hp

theorem partitionLoop_probes (p : ℕ → Bool) (len : ℕ) : ∀ first,
    (∀ i ∈ (partitionLoop p first len).2, first ≤ i ∧ i < first + len) ∧
    (len = 0 → (partitionLoop p first len).2.length = 0) ∧
    (len ≠ 0 → (partitionLoop p first len).2.length ≤ Nat.log 2 len + 1) := by
  induction len using Nat.strong_induction_on with
  | _ len ih =>
    intro first
    by_cases h : len = 0
    · subst h; rw [partitionLoop_zero]; simp
    have hlog : len / 2 ≠ 0 → Nat.log 2 (len / 2) + 1 = Nat.log 2 len := by
      intro h2
      rw [Nat.log_of_one_lt_of_le (by omega) (by omega : 2 ≤ len)]
    cases hp : p (first + len / 2) with
    | true =>
      rw [partitionLoop_true p first len h hp]
      obtain ⟨h1, h2, h3⟩ := ih (len - len / 2 - 1) (by omega) (first + len / 2 + 1)
      refine ⟨fun i hi => ?_, fun h' => absurd h' h, fun _ => ?_⟩
      · rcases List.mem_cons.mp hi with rfl | hi
        · omega
        · have := h1 i hi; omega
      · simp only [List.length_cons]
        by_cases hz : len - len / 2 - 1 = 0
        · rw [h2 hz]; omega
        · have a := h3 hz
          have b : Nat.log 2 (len - len / 2 - 1) ≤ Nat.log 2 (len / 2) := Nat.log_mono_right (by omega)
          have := hlog (by omega)
          omega
    | false =>
      rw [partitionLoop_false p first len h hp]
      obtain ⟨h1, h2, h3⟩ := ih (len / 2) (by omega) first
      refine ⟨fun i hi => ?_, fun h' => absurd h' h, fun _ => ?_⟩
      · rcases List.mem_cons.mp hi with rfl | hi
        · omega
        · have := h1 i hi; omega
      · simp only [List.length_cons]
        by_cases hz : len / 2 = 0
        · rw [h2 hz]; omega
        · have a := h3 hz
          have := hlog hz
          omega

variable {α : Type} {ts : α → ℤ} {l : List α}

theorem SortedBy.le_of_le (hs : SortedBy ts l) {i j : ℕ} (hij : i ≤ j) (hj : j < l.length) :
    ts (l[i]'(by omega)) ≤ ts l[j] := by
  rcases Nat.lt_or_eq_of_le hij with h | h
  · exact List.pairwise_iff_getElem.mp hs i j (by omega) hj h
  · subst h; exact le_refl _

/-- `lowerBound` is the partition point of a sorted history. -/
theorem lowerBound_spec (hs : SortedBy ts l) (t : ℤ) :
    (lowerBound ts l t).1 ≤ l.length ∧
    (∀ i (h : i < l.length), i < (lowerBound ts l t).1 → ts l[i] < t) ∧
    (∀ i (h : i < l.length), (lowerBound ts l t).1 ≤ i → t ≤ ts l[i]) := by
  unfold lowerBound
  have := partitionLoop_spec
    (recordBefore ts l t) l.length 0
    (by
      intro i j _ hij hj h
      simp only [Nat.zero_add] at hj
      have hi : i < l.length := by omega
      simp only [recordBefore, List.getElem?_eq_getElem hj, List.getElem?_eq_getElem hi, decide_eq_true_eq] at h ⊢
      exact lt_of_le_of_lt (SortedBy.le_of_le hs hij hj) h)
  obtain ⟨-, h2, h3, h4⟩ := this
  refine ⟨by simpa using h2, fun i h hi => ?_, fun i h hi => ?_⟩
  · have := h3 i (by omega) hi
    simpa [recordBefore, List.getElem?_eq_getElem h] using this
  · have := h4 i hi (by omega)
    simpa [recordBefore, List.getElem?_eq_getElem h] using this

theorem filter_eq_drop (l : List α) (P : α → Bool) (k : ℕ)
    (h1 : ∀ i (h : i < l.length), i < k → P l[i] = false)
    (h2 : ∀ i (h : i < l.length), k ≤ i → P l[i] = true) : l.filter P = l.drop k := by
  conv_lhs => rw [← List.take_append_drop k l]
  rw [List.filter_append]
  have a : (l.take k).filter P = [] := by
    rw [List.filter_eq_nil_iff]
    intro x hx
    obtain ⟨i, hi, rfl⟩ := List.getElem_of_mem hx
    simp only [List.length_take] at hi
    rw [List.getElem_take, h1 i (by omega) (by omega)]; simp
  have b : (l.drop k).filter P = l.drop k := by
    rw [List.filter_eq_self]
    intro x hx
    obtain ⟨i, hi, rfl⟩ := List.getElem_of_mem hx
    simp only [List.length_drop] at hi
    rw [List.getElem_drop]
    exact h2 (k + i) (by omega) (by omega)
  rw [a, b, List.nil_append]

theorem filter_eq_take (l : List α) (P : α → Bool) (k : ℕ)
    (h1 : ∀ i (h : i < l.length), i < k → P l[i] = true)
    (h2 : ∀ i (h : i < l.length), k ≤ i → P l[i] = false) : l.filter P = l.take k := by
  conv_lhs => rw [← List.take_append_drop k l]
  rw [List.filter_append]
  have a : (l.take k).filter P = l.take k := by
    rw [List.filter_eq_self]
    intro x hx
    obtain ⟨i, hi, rfl⟩ := List.getElem_of_mem hx
    simp only [List.length_take] at hi
    rw [List.getElem_take, h1 i (by omega) (by omega)]
  have b : (l.drop k).filter P = [] := by
    rw [List.filter_eq_nil_iff]
    intro x hx
    obtain ⟨i, hi, rfl⟩ := List.getElem_of_mem hx
    simp only [List.length_drop] at hi
    rw [List.getElem_drop, h2 (k + i) (by omega) (by omega)]; simp
  rw [a, b, List.append_nil]

/-- Begin iterator. -/
theorem historySubset_fst (hs : SortedBy ts l) (start stop : ℤ) :
    (historySubset ts l start stop).1 ≤ l.length ∧
    (∀ i (h : i < l.length), i < (historySubset ts l start stop).1 → 0 < start ∧ ts l[i] < start) ∧
    (∀ i (h : i < l.length), (historySubset ts l start stop).1 ≤ i → 0 < start → start ≤ ts l[i]) := by
  unfold historySubset
  by_cases h : start > 0
  · simp only [if_pos h]
    obtain ⟨a, b, c⟩ := lowerBound_spec hs start
    exact ⟨a, fun i hi hlt => ⟨h, b i hi hlt⟩, fun i hi hle _ => c i hi hle⟩
  · simp only [if_neg h]
    exact ⟨by omega, fun i _ hlt => by omega, fun i _ _ h' => absurd h' h⟩

/-- End iterator. -/
theorem historySubset_snd (hs : SortedBy ts l) (start stop : ℤ) :
    (historySubset ts l start stop).2 ≤ l.length ∧
    (∀ i (h : i < l.length), i < (historySubset ts l start stop).2 → 0 < stop → ts l[i] < stop) ∧
    (∀ i (h : i < l.length), (historySubset ts l start stop).2 ≤ i → 0 < stop ∧ stop ≤ ts l[i]) := by
  unfold historySubset
  by_cases h : stop > 0
  · simp only [if_pos h]
    obtain ⟨a, b, c⟩ := lowerBound_spec hs stop
    exact ⟨a, fun i hi hlt _ => b i hi hlt, fun i hi hle => ⟨h, c i hi hle⟩⟩
  · simp only [if_neg h]
    exact ⟨le_refl _, fun i _ _ h' => absurd h' h, fun i hi hle => absurd hi (by omega)⟩

end Verif
