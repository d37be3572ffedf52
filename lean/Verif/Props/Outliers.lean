import Verif.Lemmas.Outliers
import Verif.Num.Exact
import Mathlib.Data.Rat.Floor
import Verif.Num.IEEE
import Mathlib.Tactic.IntervalCases

/-!
# C20-C23: RemoveOutliers, GetOutlierIndicesWithContext

All for every arithmetic (in particular binary32 with NaN and infinities) and every `sqrt`.
-/

set_option linter.unusedSectionVars false

namespace Verif.Props
open Spec FloatOps

section general
variable {F : Type} [FloatOps F] [Libm F]

/-- **C20**. The reported indices are strictly increasing and in range, the result is exactly the records at
the other positions, in order (so it is a subsequence), and nothing is counted twice. -/
theorem C20_partition (maxDev : F) (l : List (PriceRecord F)) :
    let out := removeOutliers maxDev l
    out.2.Pairwise (· < ·) ∧ (∀ i ∈ out.2, i < l.length) ∧ out.1 = keepOutside l out.2 ∧
    out.1.Sublist l ∧ out.1.length + out.2.length = l.length := by
  intro out
  obtain ⟨h1, h2, h3⟩ := removeFrom_partition maxDev l 0 none
  refine ⟨h1, fun i hi => by have := h2 i hi; omega, h3, ?_, ?_⟩
  · have : out.1 = _ := h3
    rw [this]
    have hsub := (List.filter_sublist (p := fun p : PriceRecord F × ℕ =>
      decide (p.2 ∉ (removeOutliersFrom maxDev 0 none l).2)) (l := l.zipIdx 0)).map Prod.fst
    rwa [List.zipIdx_map_fst] at hsub
  · have key : ∀ (l : List (PriceRecord F)) (idx : ℕ) (prev : Option (PriceRecord F)),
        (removeOutliersFrom maxDev idx prev l).1.length + (removeOutliersFrom maxDev idx prev l).2.length =
          l.length := by
      intro l
      induction l with
      | nil => intro idx prev; rfl
      | cons r rest ih =>
        intro idx prev
        rw [removeOutliersFrom.eq_def]
        simp only
        split
        · have := ih (idx + 1) prev; simp only [List.length_cons]; omega
        · cases prev with
          | none => have := ih (idx + 1) (some r); simp only [List.length_cons]; omega
          | some p =>
            simp only
            split
            · have := ih (idx + 1) (some p); simp only [List.length_cons]; omega
            · have := ih (idx + 1) (some r); simp only [List.length_cons]; omega
    exact key l 0 none

/-- **C21**. Position `j` is dropped exactly when its record is unusable, or some record before it was kept and,
relative to the last of these, the record is an isolated jump: outside the allowed band and confirmed by fewer
than 3 of the next 10 usable records. -/
theorem C21_reason (maxDev : F) (l : List (PriceRecord F)) (j : ℕ) (hj : j < l.length) :
    j ∈ (removeOutliers maxDev l).2 ↔
      (usable l[j] = false ∨
        ∃ ref, (keepOutside (l.take j) (removeOutliers maxDev l).2).getLast? = some ref ∧
          isolatedJump maxDev ref l[j] (l.drop (j + 1)) = true) := by
  have h := removeFrom_reason maxDev l 0 none j hj
  have e : keptAmong l 0 (removeOutliersFrom maxDev 0 none l).2 j =
      keepOutside (l.take j) (removeOutliers maxDev l).2 := by
    unfold keptAmong keepOutside removeOutliers
    rw [take_zipIdx]
  rw [e, Nat.zero_add] at h
  unfold removeOutliers at *
  rw [h, usable_eq]
  simp

/-- **C21**. Every kept record is usable. -/
theorem C21_kept_usable (maxDev : F) (l : List (PriceRecord F)) :
    ∀ r ∈ (removeOutliers maxDev l).1, usable r = true := by
  intro r hr
  obtain ⟨_, _, h3, _⟩ := C20_partition maxDev l
  rw [h3] at hr
  unfold keepOutside at hr
  obtain ⟨⟨r', j⟩, hp, rfl⟩ := List.mem_map.mp hr
  rw [List.mem_filter] at hp
  obtain ⟨hz, hn⟩ := hp
  obtain ⟨_, hj, he⟩ := List.mem_zipIdx hz
  simp only [Nat.zero_add, Nat.sub_zero] at hj he
  simp only [decide_eq_true_eq] at hn
  rw [C21_reason maxDev l j hj] at hn
  rw [not_or] at hn
  simp only [he]
  simpa using hn.1

/-- **C21**. The first usable record is always kept. -/
theorem C21_first_kept (maxDev : F) (l : List (PriceRecord F)) (j : ℕ) (hj : j < l.length)
    (hu : usable l[j] = true) (hfirst : ∀ i (h : i < j), usable (l[i]'(by omega)) = false) :
    j ∉ (removeOutliers maxDev l).2 := by
  rw [C21_reason maxDev l j hj, not_or]
  refine ⟨by simp [hu], ?_⟩
  rintro ⟨ref, hr, _⟩
  have hm := List.mem_of_getLast? hr
  unfold keepOutside at hm
  obtain ⟨⟨r', i⟩, hp, _⟩ := List.mem_map.mp hm
  rw [List.mem_filter] at hp
  obtain ⟨hz, hn⟩ := hp
  obtain ⟨_, hi, he⟩ := List.mem_zipIdx hz
  simp only [Nat.zero_add, List.length_take] at hi
  simp only [decide_eq_true_eq] at hn
  exact hn ((C21_reason maxDev l i (by omega)).mpr (Or.inl (hfirst i (by omega))))

/-- Every record is usable and within the allowed band around its predecessor. -/
def CleanHistory (maxDev : F) (l : List (PriceRecord F)) : Prop :=
  (∀ r ∈ l, usable r = true) ∧
    l.IsChain (fun a b => jumpsUp maxDev a b = false ∧ jumpsDown maxDev a b = false)

/-- **C22**. Clean data is left untouched and nothing is reported; so cleaning it again changes nothing. -/
theorem C22_clean (maxDev : F) (l : List (PriceRecord F)) (h : CleanHistory maxDev l) :
    removeOutliers maxDev l = (l, []) := by
  have key : ∀ (l : List (PriceRecord F)) (idx : ℕ) (prev : Option (PriceRecord F)),
      (∀ r ∈ l, usable r = true) →
      (prev.toList ++ l).IsChain (fun a b => jumpsUp maxDev a b = false ∧ jumpsDown maxDev a b = false) →
      removeOutliersFrom maxDev idx prev l = (l, []) := by
    intro l
    induction l with
    | nil => intro idx prev _ _; rfl
    | cons r rest ih =>
      intro idx prev hu hc
      have hur : r.bad = false := by have := hu r (by simp); rw [usable_eq] at this; simpa using this
      have hrest : removeOutliersFrom maxDev (idx + 1) (some r) rest = (rest, []) := by
        apply ih _ _ (fun x hx => hu x (by simp [hx]))
        cases prev with
        | none => exact hc
        | some p => exact (List.isChain_cons_cons.mp hc).2
      rw [removeOutliersFrom.eq_def]
      simp only [hur, hrest]
      cases prev with
      | none => rfl
      | some p =>
        have hpr := (List.isChain_cons_cons.mp hc).1
        have : isOutlier maxDev p r rest = false := by
          rw [isOutlier_eq]; unfold isolatedJump; rw [hpr.1, hpr.2]; rfl
        simp only [this]; rfl
  exact key l 0 none h.1 h.2

/-- **C22**, idempotence on clean data. -/
theorem C22_idempotent (maxDev : F) (l : List (PriceRecord F)) (h : CleanHistory maxDev l) :
    removeOutliers maxDev (removeOutliers maxDev l).1 = removeOutliers maxDev l := by
  rw [C22_clean maxDev l h]; exact C22_clean maxDev l h

/-- **C22** (cleaning again and again). Each pass either changes nothing, reporting nothing, or removes records; so at most as many passes as there are
records lead to a history that is left untouched. -/
theorem C22_stabilises (maxDev : F) (l : List (PriceRecord F)) :
    (removeOutliers maxDev l = (l, []) ∨ (removeOutliers maxDev l).1.length < l.length) ∧
    ∃ n ≤ l.length, let cleaned := (fun l => (removeOutliers maxDev l).1)^[n] l
      removeOutliers maxDev cleaned = (cleaned, []) := by
  have step : ∀ l : List (PriceRecord F), removeOutliers maxDev l = (l, []) ∨ (removeOutliers maxDev l).1.length < l.length := by
    intro l
    obtain ⟨-, -, -, hsub, hlen⟩ := C20_partition maxDev l
    by_cases h : (removeOutliers maxDev l).2 = []
    · left
      rw [h, List.length_nil, add_zero] at hlen
      exact Prod.ext (hsub.eq_of_length hlen) h
    · right
      have : 0 < (removeOutliers maxDev l).2.length := List.length_pos_iff.mpr h
      omega
  refine ⟨step l, ?_⟩
  generalize hm : l.length = m
  induction m using Nat.strong_induction_on generalizing l with
  | _ m ih =>
    rcases step l with h | h
    · exact ⟨0, Nat.zero_le _, h⟩
    · obtain ⟨n, hn, hfix⟩ := ih _ (hm ▸ h) (removeOutliers maxDev l).1 rfl
      exact ⟨n + 1, by omega, hfix⟩

/-- The records of one minute: the square root matters only at 1. -/
theorem removeFrom_sqrt (L L' : Libm F) (maxDev : F)
    (h : ∀ dt : ℤ, -5 < dt → dt < 5 → @jumpFactor F _ L maxDev dt = @jumpFactor F _ L' maxDev dt) (l : List (PriceRecord F)) :
    ∀ (idx : ℕ) (prev : Option (PriceRecord F)), (∀ r ∈ l, 60 ≤ r.ts ∧ r.ts < 65) → (∀ r ∈ prev, 60 ≤ r.ts ∧ r.ts < 65) →
      @removeOutliersFrom F _ L maxDev idx prev l = @removeOutliersFrom F _ L' maxDev idx prev l := by
  induction l with
  | nil => intros; rfl
  | cons r rest ih =>
    intro idx prev hl hp
    have hr := hl r (by simp)
    have hrest : ∀ x ∈ rest, 60 ≤ x.ts ∧ x.ts < 65 := fun x hx => hl x (by simp [hx])
    have hsome : ∀ x ∈ some r, 60 ≤ x.ts ∧ x.ts < 65 := by intro x hx; cases hx; exact hr
    cases prev with
    | none => simp only [removeOutliersFrom, ih _ none hrest hp, ih _ (some r) hrest hsome]
    | some p =>
      have hpp := hp p rfl
      have : @isOutlier F _ L maxDev p r rest = @isOutlier F _ L' maxDev p r rest := by
        unfold isOutlier; rw [h (r.ts - p.ts) (by omega) (by omega)]
      simp only [removeOutliersFrom, ih _ (some p) hrest hp, ih _ (some r) hrest hsome, this]

end general

/-- **C22** (cleaning twice is not cleaning once). A jump that only persists because of records that are themselves removed as outliers: the first pass
keeps 100 and 120, the second only 100.  In exact arithmetic and in binary32, for every square root with `sqrt(1) = 1`. -/
theorem C22_not_idempotent :
    (∀ [Libm ℚ], Libm.sqrt (1 : ℚ) = 1 →
      let l : List (PriceRecord ℚ) := [⟨60, 100, 1⟩, ⟨61, 120, 1⟩, ⟨62, 110, 1⟩, ⟨63, 110, 1⟩, ⟨64, 110, 1⟩]
      (removeOutliers (1 / 20) l).1 = [⟨60, 100, 1⟩, ⟨61, 120, 1⟩] ∧
      (removeOutliers (1 / 20) (removeOutliers (1 / 20) l).1).1 = [⟨60, 100, 1⟩]) ∧
    (∀ [Libm F32], Libm.sqrt (lit F32 1) = lit F32 1 →
      let l : List (PriceRecord F32) := [⟨60, lit F32 100, lit F32 1⟩, ⟨61, lit F32 120, lit F32 1⟩, ⟨62, lit F32 110, lit F32 1⟩,
        ⟨63, lit F32 110, lit F32 1⟩, ⟨64, lit F32 110, lit F32 1⟩]
      (removeOutliers (lit F32 (1 / 20)) l).1 = [⟨60, lit F32 100, lit F32 1⟩, ⟨61, lit F32 120, lit F32 1⟩] ∧
      (removeOutliers (lit F32 (1 / 20)) (removeOutliers (lit F32 (1 / 20)) l).1).1 = [⟨60, lit F32 100, lit F32 1⟩]) := by
  constructor
  · intro L hL
    have key := removeFrom_sqrt L ⟨id, id, id, fun a _ => a⟩ (1 / 20 : ℚ) (by
      intro dt h1 h2
      have : fmax (lit ℚ 1) (lit ℚ dt /. lit ℚ 60) = 1 := by interval_cases dt <;> decide +kernel
      simp only [jumpFactor, this, hL, id])
    dsimp only [removeOutliers]
    rw [key _ 0 none (by decide) (by simp)]
    constructor
    · decide +kernel
    · rw [key _ 0 none (by decide +kernel) (by simp)]
      decide +kernel
  · intro L hL
    have key := removeFrom_sqrt L ⟨id, id, id, fun a _ => a⟩ (lit F32 (1 / 20)) (by
      intro dt h1 h2
      have : fmax (lit F32 1) (lit F32 dt /. lit F32 60) = lit F32 1 := by interval_cases dt <;> decide +kernel
      simp only [jumpFactor, this, hL, id])
    dsimp only [removeOutliers]
    rw [key _ 0 none (by decide +kernel) (by simp)]
    constructor
    · decide +kernel
    · rw [key _ 0 none (by decide +kernel) (by simp)]
      decide +kernel

/-- The outliers whose context is requested: the last `last_n`, or all of them if `last_n = 0`. -/
def selectedOutliers (outliers : List ℕ) (lastN : ℕ) : List ℕ :=
  if lastN = 0 then outliers else outliers.drop (outliers.length - lastN)

/-- **C23**. The map holds `true` exactly at the selected outliers and `false` exactly at the other positions of
the history at most `left` before / `right` after one of them. -/
theorem C23_context (outliers : List ℕ) (size left right lastN : ℕ) (i : ℕ) :
    let m := getOutlierIndicesWithContext outliers size left right lastN
    (m i = some true ↔ i ∈ selectedOutliers outliers lastN) ∧
    (m i = some false ↔ i ∉ selectedOutliers outliers lastN ∧ i < size ∧
      ∃ j ∈ selectedOutliers outliers lastN, j ≤ i + left ∧ i ≤ j + right) := by
  intro m
  have hsel : outliers.drop (if (decide (lastN = 0) || decide (outliers.length ≤ lastN)) = true then 0
      else outliers.length - lastN) = selectedOutliers outliers lastN := by
    unfold selectedOutliers
    by_cases h0 : lastN = 0
    · simp [h0]
    · by_cases h1 : outliers.length ≤ lastN
      · have : outliers.length - lastN = 0 := by omega
        simp [h0, h1, this]
      · simp [h0, h1]
  have key : ∀ (sel : List ℕ),
      (sel.foldl (contextStep size left right) (fun _ => none) i = some true ↔ i ∈ sel) ∧
      (sel.foldl (contextStep size left right) (fun _ => none) i = some false ↔ i ∉ sel ∧ i < size ∧
        ∃ j ∈ sel, j ≤ i + left ∧ i ≤ j + right) := by
    intro sel
    induction sel using List.reverseRecOn with
    | nil => simp
    | append_singleton sel j ih =>
      rw [List.foldl_append]
      simp only [List.foldl_cons, List.foldl_nil]
      set m' := sel.foldl (contextStep size left right) (fun _ => none)
      rw [contextStep_eq]
      obtain ⟨i1, i2⟩ := ih
      by_cases hij : i = j
      · simp [hij]
      · simp only [hij, if_false, List.mem_append, List.mem_singleton, or_false]
        by_cases hr : j ≤ i + left ∧ i ≤ j + right ∧ i < size
        · simp only [hr, and_self, if_true, Option.some.injEq]
          cases hm : m' i with
          | none =>
            rw [hm] at i1 i2
            simp only [Option.getD_none, Bool.false_eq_true, false_iff, true_iff]
            have hni : i ∉ sel := fun h => by have := i1.mpr h; cases this
            exact ⟨hni, hni, trivial, j, by simp, hr.1, hr.2.1⟩
          | some b =>
            rw [hm] at i1 i2
            simp only [Option.getD_some]
            cases b with
            | true =>
              have hin := i1.mp rfl
              simp [hin]
            | false =>
              have hin := i2.mp rfl
              simp only [Bool.false_eq_true, false_iff, true_iff]
              exact ⟨hin.1, hin.1, trivial, j, by simp, hr.1, hr.2.1⟩
        · rw [if_neg hr]
          refine ⟨i1, ?_⟩
          rw [i2]
          constructor
          · rintro ⟨a, b, j', c, d⟩; exact ⟨a, b, j', Or.inl c, d⟩
          · rintro ⟨a, b, j', c | rfl, d⟩
            · exact ⟨a, b, j', c, d⟩
            · exact absurd ⟨d.1, d.2, b⟩ hr
  have := key (selectedOutliers outliers lastN)
  rw [← hsel] at this ⊢
  exact this

/-! Non-vacuity: a spike that does not persist is removed, one that persists is kept. -/

/-- A (wrong but computable) square root, only for the examples; the theorems hold for every one. -/
@[reducible] def exLibm : Libm ℚ := ⟨id, id, id, fun a _ => a⟩

attribute [local instance] exLibm

/-- One-minute records with a spike at index 1 and a bad record at index 3. -/
def exSpike : List (PriceRecord ℚ) := [⟨60, 100, 1⟩, ⟨120, 200, 1⟩, ⟨180, 101, 1⟩, ⟨240, -1, 1⟩, ⟨300, 102, 1⟩]

example : removeOutliers (1 / 20) exSpike =
    ([⟨60, 100, 1⟩, ⟨180, 101, 1⟩, ⟨300, 102, 1⟩], [1, 3]) := by decide +kernel

example : removeOutliers (1 / 20) ([⟨60, 100, 1⟩, ⟨120, 200, 1⟩, ⟨180, 201, 1⟩, ⟨240, 202, 1⟩, ⟨300, 203, 1⟩] :
    List (PriceRecord ℚ)) =
    ([⟨60, 100, 1⟩, ⟨120, 200, 1⟩, ⟨180, 201, 1⟩, ⟨240, 202, 1⟩, ⟨300, 203, 1⟩], []) := by decide +kernel

example : CleanHistory (1 / 20) ([⟨60, 100, 1⟩, ⟨120, 102, 1⟩, ⟨180, 101, 1⟩] : List (PriceRecord ℚ)) := by
  unfold CleanHistory; decide +kernel

/-- Two outliers with overlapping context, the older one not selected. -/
example : (List.range 9).map (getOutlierIndicesWithContext [1, 5, 6] 8 2 1 2) =
    [none, none, none, some false, some false, some true, some true, some false, none] := by decide +kernel

end Verif.Props
