import Verif.Spec.Aggregate
import Verif.Lemmas.Account
import Verif.Model.LastN

/-! Refinement of the incremental aggregation (resampling, `LastNOhlcTicks`) to `Spec.aggregate`. -/

set_option linter.unusedSectionVars false

namespace Verif
open FloatOps Spec

section
variable {F : Type} [FloatOps F]

/-- Merge a tick into the current period. -/
def mergeTick (last t : OhlcTick F) : OhlcTick F :=
  { last with
    high := fmax last.high t.high
    low := fmin last.low t.low
    close := t.close
    volume := last.volume +. t.volume }

/-- One step of (unbounded) incremental aggregation, on the reversed output. -/
def aggStep (P : ℤ) (acc : List (OhlcTick F)) (t : OhlcTick F) : List (OhlcTick F) :=
  match fillGaps P (periodStart P t.ts) acc with
  | [] => [{ t with ts := periodStart P t.ts }]
  | last :: rest =>
    if last.ts < periodStart P t.ts then { t with ts := periodStart P t.ts } :: last :: rest
    else mergeTick last t :: rest

theorem fillGaps_nil (P target : ℤ) : fillGaps P target ([] : List (OhlcTick F)) = [] := by
  rw [fillGaps]

theorem fillGaps_stop {P target : ℤ} {last : OhlcTick F} {rest : List (OhlcTick F)}
    (h : ¬ last.ts + P < target) : fillGaps P target (last :: rest) = last :: rest := by
  rw [fillGaps, dif_neg (fun h' => h h'.2)]

theorem fillGaps_go {P target : ℤ} {last : OhlcTick F} {rest : List (OhlcTick F)} (hP : 0 < P)
    (h : last.ts + P < target) :
    fillGaps P target (last :: rest) =
      fillGaps P target (flatTick (last.ts + P) last.close :: last :: rest) := by
  rw [fillGaps, dif_pos ⟨hP, h⟩]

/-- Closed form of the gap filling. -/
theorem fillGaps_closed (P : ℤ) (hP : 0 < P) (k : ℕ) : ∀ (last : OhlcTick F) (rest : List (OhlcTick F)),
    fillGaps P (last.ts + P * (k + 1)) (last :: rest) =
      ((List.range k).map (fun (i : ℕ) => flatTick (last.ts + P * (i + 1)) last.close)).reverse ++
        last :: rest := by
  induction k with
  | zero =>
    intro last rest
    rw [fillGaps_stop (by simp)]
    simp
  | succ k ih =>
    intro last rest
    rw [fillGaps_go hP (by push_cast; nlinarith)]
    have e : last.ts + P * ((k + 1 : ℕ) + 1 : ℤ) =
        (flatTick (last.ts + P) last.close).ts + P * ((k : ℤ) + 1) := by
      simp only [flatTick]; push_cast; ring
    rw [e, ih]
    rw [List.range_succ_eq_map, List.map_cons, List.reverse_cons, List.map_map]
    simp only [List.append_assoc, List.cons_append, List.nil_append]
    congr 1
    · congr 1
      apply List.map_congr_left
      intro i _
      simp only [flatTick, Function.comp]
      congr 1
      push_cast; ring
    · congr 1
      simp only [flatTick]
      simp

theorem summary_snoc (s : ℤ) (g : OhlcTick F) (gs : List (OhlcTick F)) (t : OhlcTick F) :
    summary s g (gs ++ [t]) = mergeTick (summary s g gs) t := by
  unfold summary mergeTick
  congr 1
  · simp
  · simp
  · have : (g :: (gs ++ [t])).getLast (by simp) = t := by
      rw [List.getLast_cons (by simp)]; simp
    rw [this]
  · simp

theorem summary_single (t : OhlcTick F) (s : ℤ) : summary s t [] = { t with ts := s } := by
  unfold summary; simp

theorem ticksIn_snoc (P s : ℤ) (l : List (OhlcTick F)) (t : OhlcTick F) :
    ticksIn P s (l ++ [t]) = ticksIn P s l ++ if periodStart P t.ts = s then [t] else [] := by
  unfold ticksIn
  rw [List.filter_append]
  congr 1
  by_cases h : periodStart P t.ts = s <;> simp [h]

theorem closeBefore_snoc_ge (s : ℤ) (l : List (OhlcTick F)) (t : OhlcTick F) (h : s ≤ t.ts) :
    closeBefore s (l ++ [t]) = closeBefore s l := by
  unfold closeBefore
  rw [List.filter_append]
  have : [t].filter (fun t => decide (t.ts < s)) = [] := by simp [h]
  rw [this, List.append_nil]

theorem closeBefore_all {s : ℤ} {l : List (OhlcTick F)} (h : ∀ t ∈ l, t.ts < s) (hne : l ≠ []) :
    closeBefore s l = (l.getLast hne).close := by
  unfold closeBefore
  rw [List.filter_eq_self.mpr (fun t ht => by simpa using h t ht), List.getLast?_eq_some_getLast hne]

variable {P : ℤ}

theorem periodStart_le (hP : 0 < P) (t : ℤ) : periodStart P t ≤ t := by
  unfold periodStart; exact Int.mul_ediv_self_le hP.ne'

theorem lt_periodStart_add (hP : 0 < P) (t : ℤ) : t < periodStart P t + P := by
  unfold periodStart
  have := Int.lt_mul_ediv_self_add (x := t) hP
  linarith

theorem periodStart_mono (hP : 0 < P) {a b : ℤ} (h : a ≤ b) : periodStart P a ≤ periodStart P b := by
  unfold periodStart
  exact mul_le_mul_of_nonneg_left (Int.ediv_le_ediv hP h) hP.le

/-- Appending a later-period tick does not change the aggregated ticks before its period. -/
theorem aggTick_snoc_before (hP : 0 < P) (l : List (OhlcTick F)) (t : OhlcTick F) {s : ℤ}
    (h : s < periodStart P t.ts) : aggTick P (l ++ [t]) s = aggTick P l s := by
  unfold aggTick
  rw [ticksIn_snoc, if_neg h.ne', List.append_nil,
    closeBefore_snoc_ge s l t (le_trans h.le (periodStart_le hP _))]

/-- The aggregate of a non-empty history, spelled out. -/
theorem aggregate_eq {l : List (OhlcTick F)} (hne : l ≠ []) :
    aggregate P l = (List.range (((l.getLast hne).ts / P - (l.head hne).ts / P).toNat + 1)).map
      (fun (i : ℕ) => aggTick P l (periodStart P (l.head hne).ts + P * i)) := by
  cases l with
  | nil => exact absurd rfl hne
  | cons t rest => unfold aggregate periods; simp only [List.map_map, List.head_cons]; rfl

theorem aggregate_single (t : OhlcTick F) :
    aggregate P [t] = [{ t with ts := periodStart P t.ts }] := by
  have : ticksIn P (periodStart P t.ts) [t] = [t] := by simp [ticksIn]
  simp [aggregate, periods, aggTick, this, summary_single]

theorem Spec.SortedBy.head_le_getLast {α : Type} {ts : α → ℤ} {l : List α} (hs : SortedBy ts l)
    (hne : l ≠ []) : ts (l.head hne) ≤ ts (l.getLast hne) := by
  rw [List.head_eq_getElem, List.getLast_eq_getElem]
  rcases Nat.eq_or_lt_of_le (Nat.zero_le (l.length - 1)) with h | h
  · have e : ∀ (i : ℕ) (hi : i < l.length), i = 0 → l[i] = l[0]'(by omega) := by
      intro i hi h0; subst h0; rfl
    rw [e (l.length - 1) _ h.symm]
  · exact List.pairwise_iff_getElem.mp hs _ _ _ _ h

theorem Spec.SortedBy.le_getLast {α : Type} {ts : α → ℤ} {l : List α} (hs : SortedBy ts l)
    (hne : l ≠ []) : ∀ x ∈ l, ts x ≤ ts (l.getLast hne) := by
  intro x hx
  obtain ⟨i, hi, rfl⟩ := List.getElem_of_mem hx
  rw [List.getLast_eq_getElem]
  rcases Nat.lt_or_ge i (l.length - 1) with h | h
  · exact List.pairwise_iff_getElem.mp hs _ _ _ _ h
  · have : i = l.length - 1 := by omega
    subst this; exact le_refl _

/-- The core refinement step. -/
theorem aggStep_aggregate (hP : 0 < P) (l : List (OhlcTick F)) (t : OhlcTick F)
    (hs : SortedBy OhlcTick.ts (l ++ [t])) :
    aggStep P (aggregate P l).reverse t = (aggregate P (l ++ [t])).reverse := by
  by_cases hne : l = []
  · subst hne
    simp [aggStep, aggregate, fillGaps_nil, List.nil_append, periods, aggTick, ticksIn,
      summary_single]
  have hsl : SortedBy OhlcTick.ts l := (List.pairwise_append.mp hs).1
  have hlt : ∀ x ∈ l, x.ts ≤ t.ts := fun x hx => (List.pairwise_append.mp hs).2.2 x hx t (by simp)
  set a := (l.head hne).ts with ha
  set b := (l.getLast hne).ts with hb
  have hab : a ≤ b := hsl.head_le_getLast hne
  have hbt : b ≤ t.ts := hlt _ (List.getLast_mem hne)
  have q1 : a / P ≤ b / P := Int.ediv_le_ediv hP hab
  have q2 : b / P ≤ t.ts / P := Int.ediv_le_ediv hP hbt
  set K := (b / P - a / P).toNat with hK
  have hKz : (K : ℤ) = b / P - a / P := by omega
  have hsK : periodStart P a + P * (K : ℤ) = periodStart P b := by
    rw [hKz]; unfold periodStart; ring
  -- the aggregate before
  have e1 := aggregate_eq (P := P) hne
  rw [← ha, ← hb, ← hK] at e1
  -- the aggregate after
  have hne' : l ++ [t] ≠ [] := by simp
  have e2 := aggregate_eq (P := P) hne'
  have hh : (l ++ [t]).head hne' = l.head hne := List.head_append_of_ne_nil hne
  have hl : (l ++ [t]).getLast hne' = t := by simp
  rw [hh, hl, ← ha] at e2
  -- last tick of the aggregate before
  have hmem : ticksIn P (periodStart P b) l ≠ [] := by
    intro h
    unfold ticksIn at h
    rw [List.filter_eq_nil_iff] at h
    exact h (l.getLast hne) (List.getLast_mem hne) (by simp [← hb])
  obtain ⟨g, gs, hg⟩ := List.exists_cons_of_ne_nil hmem
  have hlastTick : aggTick P l (periodStart P b) = summary (periodStart P b) g gs := by
    unfold aggTick; rw [hg]
  have hlastClose : (summary (periodStart P b) g gs).close = (l.getLast hne).close := by
    show ((g :: gs).getLast (by simp)).close = _
    have : (g :: gs).getLast? = l.getLast? := by
      rw [← hg]
      unfold ticksIn
      conv_rhs => rw [← List.dropLast_append_getLast hne]
      conv_lhs => rw [← List.dropLast_append_getLast hne]
      rw [List.filter_append]
      have : [l.getLast hne].filter (fun t => decide (periodStart P t.ts = periodStart P b))
          = [l.getLast hne] := by simp [← hb]
      rw [this]; simp
    rw [List.getLast?_eq_some_getLast (by simp), List.getLast?_eq_some_getLast hne] at this
    rw [Option.some.inj this]
  have r1 : (aggregate P l).reverse = summary (periodStart P b) g gs ::
      ((List.range K).map (fun (i : ℕ) => aggTick P l (periodStart P a + P * i))).reverse := by
    rw [e1, List.range_succ, List.map_append, List.reverse_append]
    simp only [List.map_cons, List.map_nil, List.reverse_cons, List.reverse_nil, List.nil_append,
      List.cons_append]
    rw [hsK, hlastTick]
  have hprefix : ∀ i : ℕ, i < K → periodStart P a + P * (i : ℤ) < periodStart P b := by
    intro i hi
    rw [← hsK]
    have : P * (i : ℤ) < P * K := mul_lt_mul_of_pos_left (by exact_mod_cast hi) hP
    linarith
  have hts : (summary (periodStart P b) g gs).ts = periodStart P b := rfl
  rcases lt_or_eq_of_le q2 with hlt' | heq
  · -- later period
    obtain ⟨k, hk⟩ : ∃ k : ℕ, t.ts / P = b / P + (k + 1) := ⟨(t.ts / P - b / P - 1).toNat, by omega⟩
    have hd : periodStart P t.ts = periodStart P b + P * ((k : ℤ) + 1) := by
      unfold periodStart; rw [hk]; ring
    have hbd : periodStart P b < periodStart P t.ts := by rw [hd]; nlinarith
    unfold aggStep
    rw [r1]
    have hfill := fillGaps_closed P hP k (summary (periodStart P b) g gs)
      ((List.range K).map (fun (i : ℕ) => aggTick P l (periodStart P a + P * i))).reverse
    rw [hts, ← hd] at hfill
    rw [hfill]
    -- right-hand side
    have hK' : (t.ts / P - a / P).toNat + 1 = (K + 1) + (k + 1) := by omega
    have r2 : (aggregate P (l ++ [t])).reverse =
        { t with ts := periodStart P t.ts } ::
          (((List.range k).map (fun (i : ℕ) =>
              flatTick (periodStart P b + P * (i + 1)) (summary (periodStart P b) g gs).close)).reverse ++
            (summary (periodStart P b) g gs ::
              ((List.range K).map (fun (i : ℕ) => aggTick P l (periodStart P a + P * i))).reverse)) := by
      rw [e2, hK', List.range_add, List.map_append, List.reverse_append, List.map_map,
        List.range_succ (n := k), List.map_append, List.reverse_append]
      simp only [List.map_cons, List.map_nil, List.reverse_cons, List.reverse_nil, List.nil_append,
        List.cons_append, Function.comp]
      congr 1
      · -- the new tick
        have : periodStart P a + P * ((K + 1 + k : ℕ) : ℤ) = periodStart P t.ts := by
          rw [hd, ← hsK]; push_cast; ring
        rw [this]
        unfold aggTick
        rw [ticksIn_snoc, if_pos rfl]
        have : ticksIn P (periodStart P t.ts) l = [] := by
          unfold ticksIn
          rw [List.filter_eq_nil_iff]
          intro x hx
          have := periodStart_mono hP (hsl.le_getLast hne x hx)
          simp only [decide_eq_true_eq]
          rw [← hb] at this
          omega
        rw [this, List.nil_append]
        exact summary_single _ _
      · congr 1
        · -- the flat ticks
          congr 1
          apply List.map_congr_left
          intro i hi
          rw [List.mem_range] at hi
          have e : periodStart P a + P * ((K + 1 + i : ℕ) : ℤ) = periodStart P b + P * ((i : ℤ) + 1) := by
            rw [← hsK]; push_cast; ring
          simp only [Function.comp]
          rw [e]
          have hlt2 : periodStart P b + P * ((i : ℤ) + 1) < periodStart P t.ts := by
            rw [hd]
            have : P * ((i : ℤ) + 1) < P * (k + 1) :=
              mul_lt_mul_of_pos_left (by exact_mod_cast Nat.succ_lt_succ hi) hP
            linarith
          have hgt : periodStart P b < periodStart P b + P * ((i : ℤ) + 1) := by
            have : 0 < P * ((i : ℤ) + 1) := by positivity
            linarith
          rw [aggTick_snoc_before hP l t hlt2]
          unfold aggTick
          have hnil : ticksIn P (periodStart P b + P * ((i : ℤ) + 1)) l = [] := by
            unfold ticksIn
            rw [List.filter_eq_nil_iff]
            intro x hx
            have := periodStart_mono hP (hsl.le_getLast hne x hx)
            simp only [decide_eq_true_eq]
            rw [← hb] at this
            omega
          have hcb : closeBefore (periodStart P b + P * ((i : ℤ) + 1)) l =
              (summary (periodStart P b) g gs).close := by
            rw [closeBefore_all (fun x hx => ?_) hne, hlastClose]
            have h1 := hsl.le_getLast hne x hx
            have h2 := lt_periodStart_add hP b
            have h3 : P ≤ P * ((i : ℤ) + 1) := by nlinarith
            rw [← hb] at h1
            linarith
          rw [hnil, hcb]
          rfl
        · -- the old ticks
          rw [List.range_succ, List.map_append, List.reverse_append]
          simp only [List.map_cons, List.map_nil, List.reverse_cons, List.reverse_nil, List.nil_append,
            List.cons_append]
          rw [hsK, aggTick_snoc_before hP l t hbd, hlastTick]
          congr 2
          apply List.map_congr_left
          intro i hi
          rw [List.mem_range] at hi
          exact aggTick_snoc_before hP l t (lt_trans (hprefix i hi) hbd)
    rw [r2]
    -- the head of the filled list is before the new period
    rcases Nat.eq_zero_or_pos k with hk0 | hkpos
    · subst hk0
      simp only [List.range_zero, List.map_nil, List.reverse_nil, List.nil_append]
      rw [if_pos (by rw [hts]; exact hbd)]
    · obtain ⟨k', rfl⟩ : ∃ k', k = k' + 1 := ⟨k - 1, by omega⟩
      rw [List.range_succ, List.map_append, List.reverse_append]
      simp only [List.map_cons, List.map_nil, List.reverse_cons, List.reverse_nil, List.nil_append,
        List.cons_append]
      rw [if_pos]
      simp only [flatTick]
      rw [hd]; push_cast; nlinarith
  · -- same period
    have hd : periodStart P t.ts = periodStart P b := by unfold periodStart; rw [heq]
    have hK' : (t.ts / P - a / P).toNat = K := by rw [← heq]
    unfold aggStep
    rw [r1, hd, fillGaps_stop (by rw [hts]; linarith)]
    simp only
    rw [if_neg (by rw [hts]; exact lt_irrefl _)]
    rw [e2, hK', List.range_succ, List.map_append, List.reverse_append]
    simp only [List.map_cons, List.map_nil, List.reverse_cons, List.reverse_nil, List.nil_append,
      List.cons_append]
    rw [hsK]
    congr 1
    · unfold aggTick
      rw [ticksIn_snoc, if_pos hd, hg]
      exact (summary_snoc _ _ _ _).symm
    · congr 1
      apply List.map_congr_left
      intro i hi
      rw [List.mem_range] at hi
      exact (aggTick_snoc_before hP l t (by rw [hd]; exact hprefix i hi)).symm

/-- Incremental aggregation computes the aggregate of the whole history. -/
theorem foldl_aggStep (hP : 0 < P) (l : List (OhlcTick F)) (hs : SortedBy OhlcTick.ts l) :
    l.foldl (aggStep P) [] = (aggregate P l).reverse := by
  induction l using List.reverseRecOn with
  | nil => rfl
  | append_singleton l t ih =>
    rw [List.foldl_append, ih (List.pairwise_append.mp hs).1]
    exact aggStep_aggregate hP l t hs

end
end Verif
