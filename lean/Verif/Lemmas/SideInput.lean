import Verif.Model.SideInput
import Verif.Lemmas.Search

/-! Lemmas about `SideInput`. -/

namespace Verif
namespace SideInput
variable {F : Type}

theorem buildLoop_ok (n : ℕ) (l : List (SideInputRecord F)) : ∀ (prev : ℤ) (s : SideInput F),
    (∀ r ∈ l, r.signals.length = n) → (prev :: l.map (·.ts)).IsChain (· < ·) →
    buildLoop n prev s l = .ok ⟨s.numSignals, s.timestamps ++ l.map (·.ts), s.data ++ l.flatMap (·.signals)⟩ := by
  induction l with
  | nil => intro prev s _ _; simp [buildLoop]
  | cons r rest ih =>
    intro prev s h1 h2
    rw [List.map_cons, List.isChain_cons_cons] at h2
    unfold buildLoop
    have e1 := h1 r (by simp)
    simp only [assertThat, e1, decide_true, if_true, h2.1, bind, Except.bind]
    rw [ih _ _ (fun x hx => h1 x (by simp [hx])) h2.2]
    simp

theorem buildLoop_error (n : ℕ) (l : List (SideInputRecord F)) : ∀ (prev : ℤ) (s : SideInput F),
    ¬ ((∀ r ∈ l, r.signals.length = n) ∧ (prev :: l.map (·.ts)).IsChain (· < ·)) →
    buildLoop n prev s l = .error .assertion := by
  induction l with
  | nil => intro prev s h; simp at h
  | cons r rest ih =>
    intro prev s h
    unfold buildLoop
    by_cases e1 : r.signals.length = n
    · by_cases e2 : prev < r.ts
      · simp only [assertThat, e1, decide_true, if_true, e2, bind, Except.bind]
        apply ih
        intro ⟨h1, h2⟩
        apply h
        refine ⟨?_, ?_⟩
        · intro x hx
          rcases List.mem_cons.mp hx with rfl | hx
          · exact e1
          · exact h1 x hx
        · rw [List.map_cons, List.isChain_cons_cons]; exact ⟨e2, h2⟩
      · simp [assertThat, e1, e2, bind, Except.bind]
    · simp [assertThat, e1, bind, Except.bind]

theorem flatMap_get {α : Type} {n : ℕ} (l : List (SideInputRecord α)) (h : ∀ r ∈ l, r.signals.length = n)
    (i : ℕ) (hi : i < l.length) (j : ℕ) (hj : j < n) :
    (l.flatMap (·.signals))[i * n + j]? = (l[i].signals)[j]? := by
  induction l generalizing i with
  | nil => simp at hi
  | cons r rest ih =>
    have hr := h r (by simp)
    rw [List.flatMap_cons]
    cases i with
    | zero =>
      rw [List.getElem?_append_left (by omega)]
      simp
    | succ i =>
      rw [List.getElem?_append_right (by rw [hr, Nat.add_mul]; omega)]
      have : (i + 1) * n + j - r.signals.length = i * n + j := by rw [hr]; rw [Nat.add_mul]; omega
      rw [this, ih (fun x hx => h x (by simp [hx])) i (by simpa using hi)]
      rfl

/-- The timestamps are sorted. -/
theorem upperBound_spec (s : SideInput F) (hs : s.timestamps.Pairwise (· < ·)) (t : ℤ) (first : ℕ)
    (hf : first ≤ s.timestamps.length) :
    first ≤ s.upperBound first t ∧ s.upperBound first t ≤ s.timestamps.length ∧
    (∀ i (h : i < s.timestamps.length), first ≤ i → i < s.upperBound first t → s.timestamps[i] ≤ t) ∧
    (∀ i (h : i < s.timestamps.length), s.upperBound first t ≤ i → t < s.timestamps[i]) := by
  have hp : ∀ i (h : i < s.timestamps.length), s.notAfter t i = decide (s.timestamps[i] ≤ t) := by
    intro i h
    unfold notAfter
    rw [List.getElem?_eq_getElem h]
    simp only
    rw [Bool.eq_iff_iff]; simp
  obtain ⟨h1, h2, h3, h4⟩ := partitionLoop_spec (s.notAfter t) (s.timestamps.length - first) first (by
    intro i j a b c d
    have hj : j < s.timestamps.length := by omega
    have hi : i < s.timestamps.length := by omega
    rw [hp j hj] at d
    rw [hp i hi]
    simp only [decide_eq_true_eq] at *
    rcases Nat.eq_or_lt_of_le b with rfl | hlt
    · exact d
    · have := List.pairwise_iff_getElem.mp hs i j hi hj hlt
      omega)
  refine ⟨h1, by unfold upperBound; omega, ?_, ?_⟩
  · intro i h hfi hi
    have := h3 i hfi hi
    rw [hp i h] at this
    simpa using this
  · intro i h hi
    have := h4 i hi (by omega)
    rw [hp i h] at this
    simpa using this

end SideInput
end Verif
