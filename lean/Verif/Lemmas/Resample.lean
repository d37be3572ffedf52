import Verif.Lemmas.Aggregate
import Mathlib.Algebra.BigOperators.Group.List.Basic

/-! `Resample` computes `Spec.aggregate`. -/

set_option linter.unusedSectionVars false

namespace Verif
open FloatOps Spec

section
variable {F : Type} [FloatOps F] {P : ℤ}

theorem fillGaps_head_le (hP : 0 < P) {target : ℤ} : ∀ (n : ℕ) (last : OhlcTick F) (rest : List (OhlcTick F)),
    (target - last.ts).toNat ≤ n → last.ts ≤ target →
    ∃ last' rest', fillGaps P target (last :: rest) = last' :: rest' ∧ last'.ts ≤ target := by
  intro n
  induction n with
  | zero =>
    intro last rest hn hle
    exact ⟨last, rest, fillGaps_stop (by omega), hle⟩
  | succ n ih =>
    intro last rest hn hle
    by_cases h : last.ts + P < target
    · rw [fillGaps_go hP h]
      exact ih _ _ (by simp only [flatTick]; omega) (by simp only [flatTick]; omega)
    · exact ⟨last, rest, fillGaps_stop h, hle⟩

theorem tdiv_eq_periodStart {t : ℤ} (ht : 0 ≤ t) : P * (t.tdiv P) = periodStart P t := by
  unfold periodStart; rw [Int.tdiv_eq_ediv_of_nonneg ht]

/-- The last aggregated tick belongs to the period of the last tick. -/
theorem aggregate_getLast_ts (hP : 0 < P) {l : List (OhlcTick F)} (hs : SortedBy OhlcTick.ts l)
    (hne : l ≠ []) {x : OhlcTick F} {xs : List (OhlcTick F)} (h : (aggregate P l).reverse = x :: xs) :
    x.ts = periodStart P (l.getLast hne).ts := by
  have hab := hs.head_le_getLast hne
  have q : (l.head hne).ts / P ≤ (l.getLast hne).ts / P := Int.ediv_le_ediv hP hab
  rw [aggregate_eq hne, List.range_succ, List.map_append, List.reverse_append] at h
  simp only [List.map_cons, List.map_nil, List.reverse_cons, List.reverse_nil, List.nil_append,
    List.cons_append] at h
  have hx : x = _ := (List.cons.inj h).1.symm
  rw [hx]
  have ts_agg : ∀ s, (aggTick P l s).ts = s := by
    intro s; unfold aggTick; cases ticksIn P s l <;> rfl
  rw [ts_agg]
  unfold periodStart
  have : (((l.getLast hne).ts / P - (l.head hne).ts / P).toNat : ℤ) =
    (l.getLast hne).ts / P - (l.head hne).ts / P := Int.toNat_of_nonneg (by omega)
  rw [this]; ring

theorem aggTick_ts (l : List (OhlcTick F)) (s : ℤ) : (aggTick P l s).ts = s := by
  unfold aggTick; cases ticksIn P s l <;> rfl

theorem aggregate_ne_nil {l : List (OhlcTick F)} (hne : l ≠ []) : aggregate P l ≠ [] := by
  rw [aggregate_eq hne]; simp

theorem resampleStep_eq (hP : 0 < P) (l : List (OhlcTick F)) (r : PriceRecord F)
    (hs : SortedBy OhlcTick.ts (l ++ [tickOf r])) (h0 : 0 ≤ r.ts) :
    resampleStep P (aggregate P l).reverse r = .ok (aggStep P (aggregate P l).reverse (tickOf r)) := by
  unfold resampleStep aggStep
  rw [tdiv_eq_periodStart h0]
  by_cases hne : l = []
  · subst hne; simp [aggregate, fillGaps_nil, tickOf]
  obtain ⟨x, xs, hx⟩ := List.exists_cons_of_ne_nil
    (List.reverse_ne_nil_iff.mpr (aggregate_ne_nil (P := P) hne))
  have hxt := aggregate_getLast_ts hP (List.pairwise_append.mp hs).1 hne hx
  have hle : x.ts ≤ periodStart P (tickOf r).ts := by
    rw [hxt]
    exact periodStart_mono hP ((List.pairwise_append.mp hs).2.2 _ (List.getLast_mem hne) _ (by simp))
  rw [hx]
  obtain ⟨y, ys, hy, hyle⟩ := fillGaps_head_le hP (target := periodStart P (tickOf r).ts) _ x xs
    (le_refl _) hle
  have e : (tickOf r).ts = r.ts := rfl
  rw [e] at hy hyle ⊢
  simp only [hy]
  split
  · rfl
  · rename_i hlt
    have : y.ts = periodStart P r.ts := by omega
    simp only [assertThat, this, decide_true, if_true]
    simp only [mergeTick, tickOf, bind, Except.bind, pure, Except.pure, this]

theorem resample_foldlM (hP : 0 < P) (l : List (PriceRecord F)) (hs : SortedBy PriceRecord.ts l)
    (h0 : ∀ r ∈ l, 0 ≤ r.ts) :
    l.foldlM (resampleStep P) [] = .ok ((aggregate P (l.map tickOf)).reverse) := by
  induction l using List.reverseRecOn with
  | nil => rfl
  | append_singleton l t ih =>
    rw [List.foldlM_append, ih (List.pairwise_append.mp hs).1 (fun r hr => h0 r (by simp [hr]))]
    have hs' : SortedBy OhlcTick.ts (l.map tickOf ++ [tickOf t]) := by
      have : l.map tickOf ++ [tickOf t] = (l ++ [t]).map tickOf := by simp
      rw [this]
      exact List.pairwise_map.mpr hs
    simp only [bind, Except.bind, List.foldlM_cons, List.foldlM_nil]
    rw [resampleStep_eq hP _ _ hs' (h0 t (by simp)), aggStep_aggregate hP _ _ hs']
    simp [pure, Except.pure]

theorem resample_eq (hP : 0 < P) (l : List (PriceRecord F)) (hs : SortedBy PriceRecord.ts l)
    (h0 : ∀ r ∈ l, 0 ≤ r.ts) :
    resample P l = .ok (aggregate P (l.map tickOf)) := by
  unfold resample
  rw [resample_foldlM hP l hs h0]
  simp [bind, Except.bind, pure, Except.pure]

theorem ticksIn_map_tickOf (s : ℤ) (l : List (PriceRecord F)) :
    ticksIn P s (l.map tickOf) = (l.filter (fun r => decide (periodStart P r.ts = s))).map tickOf := by
  unfold ticksIn
  rw [List.filter_map]; rfl

theorem period_iff {rate : ℤ} (hrate : 0 < rate) {s t : ℤ} (hs : ∃ k, s = rate * k) :
    periodStart rate t = s ↔ (s ≤ t ∧ t < s + rate) := by
  obtain ⟨k, rfl⟩ := hs
  constructor
  · intro h; rw [← h]; exact ⟨periodStart_le hrate t, lt_periodStart_add hrate t⟩
  · rintro ⟨h1, h2⟩
    unfold periodStart
    congr 1
    have e1 : k ≤ t / rate := by rw [Int.le_ediv_iff_mul_le hrate]; linarith
    have e2 : t / rate < k + 1 := by rw [Int.ediv_lt_iff_lt_mul hrate]; linarith
    omega

/-- Every resampled tick is the `aggTick` of its timestamp, which is a multiple of the rate. -/
theorem resample_mem {rate : ℤ} (hrate : 0 < rate) {l : List (PriceRecord F)}
    (hs : SortedBy PriceRecord.ts l) (h0 : ∀ r ∈ l, 0 ≤ r.ts) {out : List (OhlcTick F)}
    (ho : resample rate l = .ok out) {x : OhlcTick F} (hx : x ∈ out) :
    x = aggTick rate (l.map tickOf) x.ts ∧ ∃ k, x.ts = rate * k := by
  rw [resample_eq hrate l hs h0] at ho
  have ho' : aggregate rate (l.map tickOf) = out := Except.ok.inj ho
  by_cases hne : l.map (tickOf (F := F)) = []
  · rw [hne] at ho'; rw [← ho'] at hx; simp [aggregate] at hx
  · rw [aggregate_eq hne] at ho'
    rw [← ho', List.mem_map] at hx
    obtain ⟨i, _, rfl⟩ := hx
    rw [aggTick_ts]
    exact ⟨rfl, _, by unfold periodStart; rw [← mul_add]⟩

end

section
variable {K : Type} [Field K] [LinearOrder K] [IsStrictOrderedRing K] [FloorRing K]

theorem volume_aggStep (P : ℤ) (acc : List (OhlcTick K)) (t : OhlcTick K) :
    ((aggStep P acc t).map (·.volume)).sum = (acc.map (·.volume)).sum + t.volume := by
  have hfill : ∀ target (acc : List (OhlcTick K)),
      ((fillGaps P target acc).map (·.volume)).sum = (acc.map (·.volume)).sum := by
    intro target acc
    fun_induction fillGaps P target acc with
    | case1 => rfl
    | case2 last rest h ih => rw [ih]; simp [flatTick]
    | case3 => rfl
  unfold aggStep
  rw [← hfill (periodStart P t.ts) acc]
  cases fillGaps P (periodStart P t.ts) acc with
  | nil => simp
  | cons a as =>
    simp only
    split
    · simp; ring
    · simp [mergeTick]; ring

end
end Verif
