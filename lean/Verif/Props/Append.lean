import Verif.Props.Outliers
import Verif.Props.Resample
import Verif.Props.Pipeline

/-!
# C113: new data only extends what was converted
-/

set_option linter.unusedSectionVars false

namespace Verif.Props.Append
open FloatOps Spec

section resample
variable {F : Type} [FloatOps F]

theorem fillGaps_extends (rate target : ℤ) (n : ℕ) : ∀ l : List (OhlcTick F), (target - (match l with | [] => 0 | t :: _ => t.ts)).toNat ≤ n →
    ∃ fs, fillGaps rate target l = fs ++ l := by
  induction n with
  | zero =>
    intro l hl
    cases l with
    | nil => exact ⟨[], by rw [fillGaps]; rfl⟩
    | cons last rest => exact ⟨[], by rw [fillGaps, dif_neg (by dsimp only at hl; omega)]; rfl⟩
  | succ n ih =>
    intro l hl
    cases l with
    | nil => exact ⟨[], by rw [fillGaps]; rfl⟩
    | cons last rest =>
      dsimp only at hl
      by_cases h : 0 < rate ∧ last.ts + rate < target
      · obtain ⟨fs, hfs⟩ := ih (flatTick (last.ts + rate) last.close :: last :: rest) (by simp only [flatTick]; omega)
        exact ⟨fs ++ [flatTick (last.ts + rate) last.close], by rw [fillGaps, dif_pos h, hfs]; simp⟩
      · exact ⟨[], by rw [fillGaps, dif_neg h]; rfl⟩

theorem resampleStep_extends {rate : ℤ} {last : OhlcTick F} {rest acc : List (OhlcTick F)} {r : PriceRecord F}
    (h : resampleStep rate (last :: rest) r = .ok acc) :
    ∃ new last', acc = new ++ last' :: rest ∧ last'.ts = last.ts ∧ last'.opn = last.opn ∧
      (last.ts < rate * (r.ts.tdiv rate) → last' = last ∧ new ≠ []) := by
  unfold resampleStep at h
  dsimp only at h
  obtain ⟨fs, hfs⟩ := fillGaps_extends rate (rate * (r.ts.tdiv rate)) _ (last :: rest) (le_refl _)
  rw [hfs] at h
  cases fs with
  | nil =>
    simp only [List.nil_append] at h
    split at h
    · cases h
      exact ⟨[_], last, rfl, rfl, rfl, fun _ => ⟨rfl, by simp⟩⟩
    · next hc =>
      simp only [bind, Except.bind, pure, Except.pure, assertThat] at h
      split at h
      · cases h
      · cases h
        exact ⟨[], _, rfl, rfl, rfl, fun hl => absurd hl hc⟩
  | cons f fs =>
    simp only [List.cons_append] at h
    split at h
    · cases h
      exact ⟨_ :: f :: fs, last, rfl, rfl, rfl, fun _ => ⟨rfl, by simp⟩⟩
    · simp only [bind, Except.bind, pure, Except.pure, assertThat] at h
      split at h
      · cases h
      · cases h
        exact ⟨_ :: fs, last, rfl, rfl, rfl, fun _ => ⟨rfl, by simp⟩⟩

theorem resampleLoop_extends {rate : ℤ} (more : List (PriceRecord F)) :
    ∀ {last : OhlcTick F} {rest acc : List (OhlcTick F)}, more.foldlM (resampleStep rate) (last :: rest) = .ok acc →
    ∃ new last', acc = new ++ last' :: rest ∧ last'.ts = last.ts ∧ last'.opn = last.opn ∧
      ((∀ r ∈ more.head?, last.ts < rate * (r.ts.tdiv rate)) → last' = last) := by
  induction more with
  | nil => intro last rest acc h; cases h; exact ⟨[], last, rfl, rfl, rfl, fun _ => rfl⟩
  | cons r more ih =>
    intro last rest acc h
    simp only [List.foldlM_cons, bind, Except.bind] at h
    cases h1 : resampleStep rate (last :: rest) r with
    | error e => rw [h1] at h; cases h
    | ok a =>
      rw [h1] at h
      obtain ⟨new, last', rfl, e1, e2, e3⟩ := resampleStep_extends h1
      cases new with
      | nil =>
        obtain ⟨new', last'', rfl, f1, f2, -⟩ := ih h
        refine ⟨new', last'', rfl, f1.trans e1, f2.trans e2, fun hh => ?_⟩
        exact absurd rfl (e3 (hh r rfl)).2
      | cons n new =>
        obtain ⟨new', n', rfl, f1, f2, -⟩ := ih (last := n) (rest := new ++ last' :: rest) h
        exact ⟨new' ++ n' :: new, last', by simp, e1, e2, fun hh => (e3 (hh r rfl)).1⟩

/-- **C113** (resampling). Resample a history, then the same history with more records appended: all ticks but the last one are the same, the last one
keeps its time and its opening price, and it is the same too if the first new record lies in a later period.  No assumption on the order of the
records: if the longer history can be resampled at all, so can the shorter one. -/
theorem C113_resample (rate : ℤ) (l more : List (PriceRecord F)) (out : List (OhlcTick F)) (h : resample rate (l ++ more) = .ok out) :
    ∃ old, resample rate l = .ok old ∧ old.dropLast <+: out ∧
      (∀ t ∈ old.getLast?, ∃ t', out[old.length - 1]? = some t' ∧ t'.ts = t.ts ∧ t'.opn = t.opn ∧
        ((∀ r ∈ more.head?, t.ts < rate * (r.ts.tdiv rate)) → old <+: out)) := by
  unfold resample at h ⊢
  simp only [List.foldlM_append, bind, Except.bind, pure, Except.pure] at h ⊢
  cases h1 : l.foldlM (resampleStep rate) [] with
  | error e => rw [h1] at h; cases h
  | ok acc =>
    rw [h1] at h
    dsimp only at h ⊢
    cases h2 : more.foldlM (resampleStep rate) acc with
    | error e => rw [h2] at h; cases h
    | ok acc' =>
      rw [h2] at h
      dsimp only at h
      cases h
      refine ⟨acc.reverse, rfl, ?_⟩
      cases acc with
      | nil => exact ⟨by simp, by intro t ht; cases ht⟩
      | cons last rest =>
        obtain ⟨new, last', rfl, e1, e2, e3⟩ := resampleLoop_extends more h2
        refine ⟨⟨last' :: new.reverse, by simp⟩, ?_⟩
        intro t ht
        have : t = last := by
          rw [List.getLast?_reverse] at ht
          simpa using ht.symm
        subst this
        refine ⟨last', ?_, e1, e2, fun hh => ?_⟩
        · simp [List.getElem?_append]
        · rw [e3 hh]
          exact ⟨new.reverse, by simp⟩

end resample

section outliers
variable {F : Type} [FloatOps F] [Libm F]

theorem keepOutside_congr {α : Type} {l : List α} {a b : List ℕ} (h : ∀ i < l.length, i ∈ a ↔ i ∈ b) : keepOutside l a = keepOutside l b := by
  unfold keepOutside
  congr 1
  apply List.filter_congr
  rintro ⟨x, i⟩ hx
  have hi : i < l.length := by simpa using (List.mem_zipIdx hx).2.1
  simp [h i hi]

theorem keepOutside_take {α : Type} (l : List α) (a : List ℕ) (m : ℕ) : keepOutside (l.take m) a <+: keepOutside l a := by
  unfold keepOutside
  conv_rhs => rw [← List.take_append_drop m l, List.zipIdx_append, List.filter_append, List.map_append]
  exact List.prefix_append _ _

/-- The decision on one record, given the same decisions before: with enough later records it does not change, and in any case a record that is kept
stays so. -/
theorem decision_step (maxDev : F) (l more : List (PriceRecord F)) (j : ℕ) (hj : j < l.length)
    (hprev : ∀ i < j, i ∈ (removeOutliers maxDev l).2 ↔ i ∈ (removeOutliers maxDev (l ++ more)).2) :
    (j ∈ (removeOutliers maxDev (l ++ more)).2 → j ∈ (removeOutliers maxDev l).2) ∧
    (10 ≤ ((l.drop (j + 1)).filter usable).length → j ∈ (removeOutliers maxDev l).2 → j ∈ (removeOutliers maxDev (l ++ more)).2) := by
  have hj' : j < (l ++ more).length := by simp; omega
  have hget : (l ++ more)[j] = l[j] := List.getElem_append_left hj
  have htake : (l ++ more).take j = l.take j := by rw [List.take_append_of_le_length (by omega)]
  have hkeep : keepOutside ((l ++ more).take j) (removeOutliers maxDev (l ++ more)).2 = keepOutside (l.take j) (removeOutliers maxDev l).2 := by
    rw [htake]
    refine (keepOutside_congr ?_).symm
    intro i hi
    refine hprev i ?_
    rw [List.length_take] at hi; omega
  have hdrop : (l ++ more).drop (j + 1) = l.drop (j + 1) ++ more := by rw [List.drop_append_of_le_length (by omega)]
  rw [C21_reason maxDev l j hj, C21_reason maxDev (l ++ more) j hj', hget, hkeep, hdrop]
  constructor
  · rintro (h | ⟨ref, h1, h2⟩)
    · exact Or.inl h
    · refine Or.inr ⟨ref, h1, ?_⟩
      unfold isolatedJump at h2 ⊢
      rw [Bool.and_eq_true, decide_eq_true_eq] at h2 ⊢
      refine ⟨h2.1, lt_of_le_of_lt ?_ h2.2⟩
      apply List.Sublist.countP_le
      rw [List.filter_append, List.take_append]
      exact List.sublist_append_left _ _
  · intro hm
    rintro (h | ⟨ref, h1, h2⟩)
    · exact Or.inl h
    · refine Or.inr ⟨ref, h1, ?_⟩
      unfold isolatedJump at h2 ⊢
      rwa [List.filter_append, List.take_append_of_le_length hm]

/-- **C113** (outliers). Clean a history, then the same history with more records appended. Nothing changes for the first `m` records if 10 usable
records follow them: the same ones are dropped, and the cleaned histories begin with the same records. -/
theorem C113_outliers (maxDev : F) (l more : List (PriceRecord F)) (m : ℕ) (hm : 10 ≤ ((l.drop m).filter usable).length) :
    (∀ i < m, i ∈ (removeOutliers maxDev l).2 ↔ i ∈ (removeOutliers maxDev (l ++ more)).2) ∧
    keepOutside (l.take m) (removeOutliers maxDev l).2 <+: (removeOutliers maxDev l).1 ∧
    keepOutside (l.take m) (removeOutliers maxDev l).2 <+: (removeOutliers maxDev (l ++ more)).1 := by
  have hlen : m < l.length := by
    by_contra hc
    rw [List.drop_of_length_le (by omega)] at hm
    simp at hm
  have key : ∀ j ≤ m, ∀ i < j, i ∈ (removeOutliers maxDev l).2 ↔ i ∈ (removeOutliers maxDev (l ++ more)).2 := by
    intro j
    induction j with
    | zero => intro _ i hi; omega
    | succ j ih =>
      intro hjm i hi
      rcases Nat.lt_succ_iff_lt_or_eq.mp hi with hi | rfl
      · exact ih (by omega) i hi
      · obtain ⟨d1, d2⟩ := decision_step maxDev l more i (by omega) (ih (by omega))
        refine ⟨d2 (le_trans hm ?_), d1⟩
        have : (l.drop m).Sublist (l.drop (i + 1)) := by
          rw [show m = (m - (i + 1)) + (i + 1) by omega, ← List.drop_drop]
          rw [List.drop_drop, Nat.add_comm, ← List.drop_drop]
          exact List.drop_sublist _ _
        exact (this.filter _).length_le
  have hiff := key m (le_refl m)
  refine ⟨hiff, ?_, ?_⟩
  · rw [(C20_partition maxDev l).2.2.1]
    exact keepOutside_take _ _ _
  · rw [(C20_partition maxDev (l ++ more)).2.2.1]
    have e : keepOutside (l.take m) (removeOutliers maxDev l).2 = keepOutside ((l ++ more).take m) (removeOutliers maxDev (l ++ more)).2 := by
      rw [List.take_append_of_le_length (by omega)]
      refine keepOutside_congr fun i hi => hiff i ?_
      rw [List.length_take] at hi; omega
    rw [e]
    exact keepOutside_take _ _ _

/-- **C113** (late vindication). If new records change anything among the old ones, then the first record about which the decision changes is one that was
dropped and is now kept: its jump is confirmed by the new records. -/
theorem C113_late_confirmation (maxDev : F) (l more : List (PriceRecord F)) (j : ℕ) (hj : j < l.length)
    (hprev : ∀ i < j, i ∈ (removeOutliers maxDev l).2 ↔ i ∈ (removeOutliers maxDev (l ++ more)).2)
    (hdiff : ¬ (j ∈ (removeOutliers maxDev l).2 ↔ j ∈ (removeOutliers maxDev (l ++ more)).2)) :
    j ∈ (removeOutliers maxDev l).2 ∧ j ∉ (removeOutliers maxDev (l ++ more)).2 := by
  obtain ⟨d1, -⟩ := decision_step maxDev l more j hj hprev
  tauto

/-- **C113** (the whole conversion). Convert a price history, then the same history with more records appended: the ticks agree up to the last kept
record that 10 usable records follow, without the tick of that record's own period. -/
theorem C113_conversion (fmt : Format F) (maxDev : F) (rate lastN : ℤ) (l more : List (PriceRecord F)) (m : ℕ)
    (hm : 10 ≤ ((l.drop m).filter usable).length) {lines lines' : List Text} {old new : List (OhlcTick F)}
    (h1 : Convert.convertPriceHistory fmt maxDev rate lastN l = .ok (lines, old))
    (h2 : Convert.convertPriceHistory fmt maxDev rate lastN (l ++ more) = .ok (lines', new)) :
    ∃ common, resample rate (keepOutside (l.take m) (removeOutliers maxDev l).2) = .ok common ∧
      common.dropLast <+: old ∧ common.dropLast <+: new := by
  have hres : ∀ (x : List (PriceRecord F)) (lines : List Text) (ticks : List (OhlcTick F)),
      Convert.convertPriceHistory fmt maxDev rate lastN x = .ok (lines, ticks) → resample rate (removeOutliers maxDev x).1 = .ok ticks := by
    intro x lines ticks h
    unfold Convert.convertPriceHistory at h
    simp only [bind, Except.bind, pure, Except.pure] at h
    split at h
    · cases h
    · split at h
      · cases h
      · split at h
        · cases h
        · next heq =>
          have := (Prod.mk.inj (Except.ok.inj h)).2
          rw [← this]
          exact heq
  obtain ⟨-, ⟨r1, e1⟩, ⟨r2, e2⟩⟩ := C113_outliers maxDev l more m hm
  have g1 := hres _ _ _ h1
  have g2 := hres _ _ _ h2
  rw [← e1] at g1
  rw [← e2] at g2
  obtain ⟨c1, k1, p1, -⟩ := C113_resample rate _ _ _ g1
  obtain ⟨c2, k2, p2, -⟩ := C113_resample rate _ _ _ g2
  rw [k1] at k2
  cases k2
  exact ⟨c1, k1, p1, p2⟩

end outliers

/-! ## Non-vacuity -/

section examples
attribute [local instance] evLibm

/-- Eleven quiet minutes after a spike. -/
def quiet : List (PriceRecord ℚ) := [⟨300, 100, 1⟩, ⟨360, 500, 1⟩, ⟨400, 101, 1⟩, ⟨460, 100, 1⟩, ⟨520, 100, 1⟩, ⟨580, 102, 1⟩, ⟨640, 101, 1⟩, ⟨700, 100, 1⟩,
  ⟨760, 100, 1⟩, ⟨820, 101, 1⟩, ⟨880, 101, 1⟩, ⟨940, 100, 1⟩, ⟨1000, 100, 1⟩, ⟨1060, 100, 1⟩]

/-- A later rise. -/
def risen : List (PriceRecord ℚ) := [⟨1120, 120, 1⟩, ⟨1180, 121, 1⟩, ⟨1240, 121, 1⟩, ⟨1300, 122, 1⟩]

theorem load (l : List (PriceRecord ℚ)) (h : SortedBy PriceRecord.ts l) (h' : ∀ r ∈ l, 0 < r.ts ∧ 0 < r.price ∧ 0 ≤ r.volume) :
    Loadable PriceRecord.ts GoodPrice 0 0 l :=
  ⟨fun r hr => (h' r hr).1, fun _ _ => ⟨by omega, by omega⟩, h, fun r hr => ⟨by simpa [lit] using (h' r hr).2.1, by simpa [lit] using (h' r hr).2.2⟩⟩

example (fmt : Format ℚ) : ∃ lines old lines' new common, Convert.convertPriceHistory fmt (1 / 20) 300 5 quiet = .ok (lines, old) ∧
    Convert.convertPriceHistory fmt (1 / 20) 300 5 (quiet ++ risen) = .ok (lines', new) ∧
    resample 300 (keepOutside (quiet.take 4) (removeOutliers (1 / 20) quiet).2) = .ok common ∧ common.dropLast <+: old ∧ common.dropLast <+: new := by
  obtain ⟨lines, old, h1, -⟩ := C69_conversion fmt (1 / 20 : ℚ) 300 (by decide) 5 0 0 quiet (load _ (by unfold SortedBy quiet; decide) (by unfold quiet; decide +kernel))
  obtain ⟨lines', new, h2, -⟩ := C69_conversion fmt (1 / 20 : ℚ) 300 (by decide) 5 0 0 (quiet ++ risen)
    (load _ (by unfold SortedBy quiet risen; decide) (by unfold quiet risen; decide +kernel))
  obtain ⟨common, h3, h4, h5⟩ := C113_conversion fmt (1 / 20) 300 5 quiet risen 4 (by decide +kernel) h1 h2
  exact ⟨lines, old, lines', new, common, h1, h2, h3, h4, h5⟩

/-- The spike is dropped in both. -/
example : 1 ∈ (removeOutliers (1 / 20 : ℚ) quiet).2 ∧ 1 ∈ (removeOutliers (1 / 20 : ℚ) (quiet ++ risen)).2 := by
  have h : 1 ∈ (removeOutliers (1 / 20 : ℚ) quiet).2 := by decide +kernel
  exact ⟨h, ((C113_outliers (1 / 20 : ℚ) quiet risen 4 (by decide +kernel)).1 1 (by decide)).mp h⟩

/-- The first record of a rise is dropped as long as nothing confirms it, and kept afterwards. -/
example : 14 ∈ (removeOutliers (1 / 20 : ℚ) (quiet ++ risen.take 1)).2 ∧
    14 ∉ (removeOutliers (1 / 20 : ℚ) (quiet ++ risen.take 1 ++ risen.drop 1)).2 :=
  C113_late_confirmation (1 / 20 : ℚ) (quiet ++ risen.take 1) (risen.drop 1) 14 (by decide) (by decide +kernel) (by decide +kernel)

example : ∃ old new, resample 300 (quiet.take 3) = .ok old ∧ resample 300 (quiet.take 3 ++ quiet.drop 3) = .ok new ∧ old.dropLast <+: new := by
  obtain ⟨new, h, -⟩ := C17_grid (F := ℚ) 300 (by decide) ⟨300, 100, 1⟩ quiet.tail (by unfold SortedBy quiet; decide) (by unfold quiet; decide)
  have h' : resample 300 (quiet.take 3 ++ quiet.drop 3) = .ok new := h
  obtain ⟨old, h1, h2, -⟩ := C113_resample 300 _ _ new h'
  exact ⟨old, new, h1, h', h2⟩

end examples
end Verif.Props.Append
