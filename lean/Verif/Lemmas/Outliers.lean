import Verif.Spec.Outliers

/-! Lemmas about `RemoveOutliers`. -/

set_option linter.unusedSectionVars false

namespace Verif
open FloatOps Spec

section
variable {F : Type} [FloatOps F] [Libm F]

theorem usable_eq (r : PriceRecord F) : usable r = !r.bad := by
  unfold usable PriceRecord.bad; simp

theorem lookahead_eq (up down : Bool) (midUp midDown : F) (budget : ℕ) (l : List (PriceRecord F)) :
    lookaheadPersistent up down midUp midDown budget l =
      ((l.filter usable).take budget).countP
        (fun x => (up && x.price >. midUp) || (down && x.price <. midDown)) := by
  fun_induction lookaheadPersistent up down midUp midDown budget l with
  | case1 => simp
  | case2 => simp
  | case3 budget r rest hbad ih =>
    rw [List.filter_cons_of_neg (by simp [usable_eq, hbad]), ih]
  | case4 budget r rest hbad ih =>
    rw [List.filter_cons_of_pos (by simp [usable_eq, hbad]), List.take_succ_cons, List.countP_cons, ih]
    exact Nat.add_comm _ _

theorem isOutlier_eq (maxDev : F) (p r : PriceRecord F) (rest : List (PriceRecord F)) :
    isOutlier maxDev p r rest = isolatedJump maxDev p r rest := by
  unfold isOutlier isolatedJump
  simp only [lookahead_eq]
  have e1 : (r.price >. (p.price *. jumpFactor maxDev (r.ts - p.ts))) = jumpsUp maxDev p r := rfl
  have e2 : (r.price <. (p.price /. jumpFactor maxDev (r.ts - p.ts))) = jumpsDown maxDev p r := rfl
  rw [e1, e2]
  by_cases h : (jumpsUp maxDev p r || jumpsDown maxDev p r) = true
  · rw [if_pos h, h, Bool.true_and]; rfl
  · rw [if_neg h]
    simp only [Bool.not_eq_true] at h
    rw [h, Bool.false_and]

/-- Indices are increasing and in range; the kept records are the others. -/
theorem removeFrom_partition (maxDev : F) (l : List (PriceRecord F)) : ∀ (idx : ℕ) (prev : Option (PriceRecord F)),
    (removeOutliersFrom maxDev idx prev l).2.Pairwise (· < ·) ∧
    (∀ i ∈ (removeOutliersFrom maxDev idx prev l).2, idx ≤ i ∧ i < idx + l.length) ∧
    (removeOutliersFrom maxDev idx prev l).1 =
      ((l.zipIdx idx).filter (fun p => decide (p.2 ∉ (removeOutliersFrom maxDev idx prev l).2))).map Prod.fst := by
  induction l with
  | nil => intro idx prev; simp [removeOutliersFrom]
  | cons r rest ih =>
    intro idx prev
    -- dropping the head
    have hdrop : ∀ prev', removeOutliersFrom maxDev idx prev (r :: rest) =
          ((removeOutliersFrom maxDev (idx + 1) prev' rest).1,
            idx :: (removeOutliersFrom maxDev (idx + 1) prev' rest).2) →
        (removeOutliersFrom maxDev idx prev (r :: rest)).2.Pairwise (· < ·) ∧
        (∀ i ∈ (removeOutliersFrom maxDev idx prev (r :: rest)).2, idx ≤ i ∧ i < idx + (r :: rest).length) ∧
        (removeOutliersFrom maxDev idx prev (r :: rest)).1 =
          (((r :: rest).zipIdx idx).filter
            (fun p => decide (p.2 ∉ (removeOutliersFrom maxDev idx prev (r :: rest)).2))).map Prod.fst := by
      intro prev' h
      obtain ⟨i1, i2, i3⟩ := ih (idx + 1) prev'
      rw [h]
      refine ⟨?_, ?_, ?_⟩
      · rw [List.pairwise_cons]
        exact ⟨fun i hi => by have := i2 i hi; omega, i1⟩
      · intro i hi
        rcases List.mem_cons.mp hi with rfl | hi
        · simp only [List.length_cons]; omega
        · have := i2 i hi; simp only [List.length_cons]; omega
      · simp only
        rw [i3, List.zipIdx_cons, List.filter_cons_of_neg (by simp)]
        congr 1
        apply List.filter_congr
        intro p hp
        have hge : idx + 1 ≤ p.2 := (List.mem_zipIdx hp).1
        rw [decide_eq_decide]
        have hne : p.2 ≠ idx := by omega
        simp [hne]
    have hkeep : ∀ prev', removeOutliersFrom maxDev idx prev (r :: rest) =
          (r :: (removeOutliersFrom maxDev (idx + 1) prev' rest).1,
            (removeOutliersFrom maxDev (idx + 1) prev' rest).2) →
        (removeOutliersFrom maxDev idx prev (r :: rest)).2.Pairwise (· < ·) ∧
        (∀ i ∈ (removeOutliersFrom maxDev idx prev (r :: rest)).2, idx ≤ i ∧ i < idx + (r :: rest).length) ∧
        (removeOutliersFrom maxDev idx prev (r :: rest)).1 =
          (((r :: rest).zipIdx idx).filter
            (fun p => decide (p.2 ∉ (removeOutliersFrom maxDev idx prev (r :: rest)).2))).map Prod.fst := by
      intro prev' h
      obtain ⟨i1, i2, i3⟩ := ih (idx + 1) prev'
      rw [h]
      refine ⟨i1, ?_, ?_⟩
      · intro i hi
        have := i2 i hi; simp only [List.length_cons]; omega
      · simp only
        have hni : idx ∉ (removeOutliersFrom maxDev (idx + 1) prev' rest).2 := by
          intro hc; have := i2 idx hc; omega
        rw [List.zipIdx_cons, List.filter_cons_of_pos (by simpa using hni), List.map_cons]
        exact congrArg _ i3
    cases hb : r.bad with
    | true =>
      apply hdrop prev
      rw [removeOutliersFrom.eq_def]; simp only [hb, if_true]
    | false =>
      cases prev with
      | none =>
        apply hkeep (some r)
        rw [removeOutliersFrom]; simp only [hb]; rfl
      | some p =>
        cases ho : isOutlier maxDev p r rest with
        | true =>
          apply hdrop (some p)
          rw [removeOutliersFrom]; simp only [hb, ho, if_true]; rfl
        | false =>
          apply hkeep (some r)
          rw [removeOutliersFrom]; simp only [hb, ho]; rfl

theorem take_zipIdx {α : Type} (l : List α) (j k : ℕ) : (l.zipIdx k).take j = (l.take j).zipIdx k := by
  induction l generalizing j k with
  | nil => simp
  | cons a l ih => cases j with
    | zero => simp
    | succ j => simp [List.zipIdx_cons, ih]

/-- Kept records among the first `j`. -/
def keptAmong (l : List (PriceRecord F)) (idx : ℕ) (out : List ℕ) (j : ℕ) : List (PriceRecord F) :=
  (((l.zipIdx idx).take j).filter (fun p => decide (p.2 ∉ out))).map Prod.fst

theorem keptAmong_shift (l : List (PriceRecord F)) (idx : ℕ) (out : List ℕ) (j : ℕ) :
    keptAmong l (idx + 1) (idx :: out) j = keptAmong l (idx + 1) out j := by
  unfold keptAmong
  congr 1
  apply List.filter_congr
  intro p hp
  have hge : idx + 1 ≤ p.2 := (List.mem_zipIdx (List.mem_of_mem_take hp)).1
  rw [decide_eq_decide]
  have hne : p.2 ≠ idx := by omega
  simp [hne]

/-- Why a position is reported. -/
theorem removeFrom_reason (maxDev : F) (l : List (PriceRecord F)) : ∀ (idx : ℕ) (prev : Option (PriceRecord F))
    (j : ℕ) (hj : j < l.length),
    (idx + j ∈ (removeOutliersFrom maxDev idx prev l).2 ↔
      (l[j].bad = true ∨
        ∃ ref, ((keptAmong l idx (removeOutliersFrom maxDev idx prev l).2 j).getLast?).or prev = some ref ∧
          isolatedJump maxDev ref l[j] (l.drop (j + 1)) = true)) := by
  induction l with
  | nil => intro idx prev j hj; simp at hj
  | cons r rest ih =>
    intro idx prev j hj
    have hdrop : ∀ (prev' : Option (PriceRecord F)), prev' = prev →
        removeOutliersFrom maxDev idx prev (r :: rest) =
          ((removeOutliersFrom maxDev (idx + 1) prev' rest).1,
            idx :: (removeOutliersFrom maxDev (idx + 1) prev' rest).2) →
        (r.bad = true ∨ ∃ ref, prev = some ref ∧ isolatedJump maxDev ref r rest = true) →
        (idx + j ∈ (removeOutliersFrom maxDev idx prev (r :: rest)).2 ↔
          ((r :: rest)[j].bad = true ∨
            ∃ ref, ((keptAmong (r :: rest) idx (removeOutliersFrom maxDev idx prev (r :: rest)).2 j).getLast?).or
              prev = some ref ∧ isolatedJump maxDev ref (r :: rest)[j] ((r :: rest).drop (j + 1)) = true)) := by
      rintro prev' rfl h hwhy
      rw [h]
      cases j with
      | zero =>
        simp only [Nat.add_zero, List.mem_cons, true_or, true_iff, List.getElem_cons_zero, keptAmong,
          List.take_zero, List.filter_nil, List.map_nil, List.getLast?_nil, Option.none_or,
          Nat.zero_add, List.drop_succ_cons, List.drop_zero]
        exact hwhy
      | succ j =>
        have hj' : j < rest.length := by simpa using hj
        have I := ih (idx + 1) prev' j hj'
        have e : keptAmong (r :: rest) idx (idx :: (removeOutliersFrom maxDev (idx + 1) prev' rest).2) (j + 1) =
            keptAmong rest (idx + 1) (removeOutliersFrom maxDev (idx + 1) prev' rest).2 j := by
          rw [← keptAmong_shift]
          unfold keptAmong
          rw [List.zipIdx_cons, List.take_succ_cons, List.filter_cons_of_neg (by simp)]
        simp only [e, List.getElem_cons_succ, List.drop_succ_cons]
        rw [← I]
        simp only [List.mem_cons]
        have : idx + (j + 1) = idx + 1 + j := by omega
        rw [this]
        constructor
        · rintro (h | h)
          · omega
          · exact h
        · exact Or.inr
    have hkeep : removeOutliersFrom maxDev idx prev (r :: rest) =
          (r :: (removeOutliersFrom maxDev (idx + 1) (some r) rest).1,
            (removeOutliersFrom maxDev (idx + 1) (some r) rest).2) →
        ¬ (r.bad = true ∨ ∃ ref, prev = some ref ∧ isolatedJump maxDev ref r rest = true) →
        (idx + j ∈ (removeOutliersFrom maxDev idx prev (r :: rest)).2 ↔
          ((r :: rest)[j].bad = true ∨
            ∃ ref, ((keptAmong (r :: rest) idx (removeOutliersFrom maxDev idx prev (r :: rest)).2 j).getLast?).or
              prev = some ref ∧ isolatedJump maxDev ref (r :: rest)[j] ((r :: rest).drop (j + 1)) = true)) := by
      intro h hwhy
      obtain ⟨_, i2, _⟩ := removeFrom_partition maxDev rest (idx + 1) (some r)
      have hni : idx ∉ (removeOutliersFrom maxDev (idx + 1) (some r) rest).2 := by
        intro hc; have := i2 idx hc; omega
      rw [h]
      cases j with
      | zero =>
        simp only [Nat.add_zero, List.getElem_cons_zero, keptAmong,
          List.take_zero, List.filter_nil, List.map_nil, List.getLast?_nil, Option.none_or,
          Nat.zero_add, List.drop_succ_cons, List.drop_zero]
        exact ⟨fun h => absurd h hni, fun h => absurd h hwhy⟩
      | succ j =>
        have hj' : j < rest.length := by simpa using hj
        have I := ih (idx + 1) (some r) j hj'
        have e : keptAmong (r :: rest) idx (removeOutliersFrom maxDev (idx + 1) (some r) rest).2 (j + 1) =
            r :: keptAmong rest (idx + 1) (removeOutliersFrom maxDev (idx + 1) (some r) rest).2 j := by
          unfold keptAmong
          rw [List.zipIdx_cons, List.take_succ_cons, List.filter_cons_of_pos (by simpa using hni), List.map_cons]
        have e2 : ∀ (m : List (PriceRecord F)), ((r :: m).getLast?).or prev = (m.getLast?).or (some r) := by
          intro m
          cases m with
          | nil => simp
          | cons a m => simp [List.getLast?_eq_some_getLast]
        simp only [e, e2, List.getElem_cons_succ, List.drop_succ_cons]
        rw [← I]
        have : idx + (j + 1) = idx + 1 + j := by omega
        rw [this]
    cases hb : r.bad with
    | true =>
      apply hdrop prev rfl
      · rw [removeOutliersFrom.eq_def]; simp only [hb, if_true]
      · exact Or.inl hb
    | false =>
      cases prev with
      | none =>
        apply hkeep
        · rw [removeOutliersFrom]; simp only [hb]; rfl
        · rintro (h | ⟨ref, h, _⟩)
          · simp [hb] at h
          · cases h
      | some p =>
        cases ho : isOutlier maxDev p r rest with
        | true =>
          apply hdrop (some p) rfl
          · rw [removeOutliersFrom]; simp only [hb, ho, if_true]; rfl
          · exact Or.inr ⟨p, rfl, by rw [← isOutlier_eq]; exact ho⟩
        | false =>
          apply hkeep
          · rw [removeOutliersFrom]; simp only [hb, ho]; rfl
          · rintro (h | ⟨ref, h, h'⟩)
            · simp [hb] at h
            · cases h; rw [← isOutlier_eq, ho] at h'; cases h'

end

theorem touchRange_eq (m : IndexMap) (a n i : ℕ) :
    touchRange m a n i = if a ≤ i ∧ i < a + n then some ((m i).getD false) else m i := by
  induction n with
  | zero => simp [touchRange]
  | succ n ih =>
    simp only [touchRange, ih]
    by_cases h : i = a + n
    · subst h; simp
    · by_cases h2 : a ≤ i ∧ i < a + n
      · have h3 : a ≤ i ∧ i < a + (n + 1) := by omega
        simp [h, h2, h3]
      · have h3 : ¬ (a ≤ i ∧ i < a + (n + 1)) := by omega
        simp [h, h2, h3]

theorem contextStep_eq (size left right : ℕ) (m : IndexMap) (j i : ℕ) :
    contextStep size left right m j i =
      if i = j then some true
      else if j ≤ i + left ∧ i ≤ j + right ∧ i < size then some ((m i).getD false) else m i := by
  unfold contextStep
  simp only [touchRange_eq]
  by_cases h : i = j
  · simp [h]
  · simp only [h, if_false]
    congr 1
    apply propext
    split <;> omega

end Verif
