import Verif.Lemmas.Resample

/-! Aggregating an aggregate (C51). -/

set_option linter.unusedSectionVars false

namespace Verif
open FloatOps Spec

section
variable {F : Type} [FloatOps F] {P Q : ℤ}

theorem filter_split {l : List (OhlcTick F)} (hs : SortedBy OhlcTick.ts l) {s e : ℤ} (hse : s ≤ e) :
    l.filter (fun t => decide (t.ts < e)) =
      l.filter (fun t => decide (t.ts < s)) ++ l.filter (fun t => decide (s ≤ t.ts ∧ t.ts < e)) := by
  induction l with
  | nil => rfl
  | cons a l ih =>
    have hs' := (List.pairwise_cons.mp hs)
    have ih := ih hs'.2
    rcases lt_or_ge a.ts s with h | h
    · rw [List.filter_cons_of_pos (by simp; omega), List.filter_cons_of_pos (by simp; omega),
        List.filter_cons_of_neg (by simp; omega), ih]; rfl
    · have hnil : l.filter (fun t => decide (t.ts < s)) = [] := by
        rw [List.filter_eq_nil_iff]; intro x hx; have := hs'.1 x hx; simp; omega
      rw [hnil, List.nil_append] at ih
      rw [List.filter_cons_of_neg (p := fun t : OhlcTick F => decide (t.ts < s)) (by simp; omega), hnil, List.nil_append]
      rcases lt_or_ge a.ts e with h' | h'
      · rw [List.filter_cons_of_pos (by simp; omega), List.filter_cons_of_pos (by simp; omega), ih]
      · rw [List.filter_cons_of_neg (by simp; omega), List.filter_cons_of_neg (by simp; omega), ih]

theorem ticksIn_eq (hP : 0 < P) (l : List (OhlcTick F)) {s : ℤ} (hk : ∃ k, s = P * k) :
    ticksIn P s l = l.filter (fun t => decide (s ≤ t.ts ∧ t.ts < s + P)) := by
  unfold ticksIn
  congr 1
  funext t
  rw [decide_eq_decide]
  exact period_iff hP hk

/-- The close of an aggregated tick is the close of the last tick before the end of its period. -/
theorem aggTick_close (hP : 0 < P) {l : List (OhlcTick F)} (hs : SortedBy OhlcTick.ts l) {s : ℤ}
    (hk : ∃ k, s = P * k) : (aggTick P l s).close = closeBefore (s + P) l := by
  have hsplit := filter_split hs (s := s) (e := s + P) (by omega)
  rw [← ticksIn_eq hP l hk] at hsplit
  unfold aggTick
  have hcb : closeBefore (s + P) l = (match (l.filter (fun t => decide (t.ts < s + P))).getLast? with
    | some t => t.close | none => lit F 0) := rfl
  rw [hcb, hsplit]
  cases h : ticksIn P s l with
  | nil => simp only [List.append_nil]; rfl
  | cons g gs =>
    rw [List.getLast?_append_of_ne_nil _ (by simp), List.getLast?_eq_some_getLast (by simp)]
    rfl

theorem periodStart_periodStart (hQ : 0 < Q) (hP : 0 < P) (hd : Q ∣ P) (t : ℤ) :
    periodStart P (periodStart Q t) = periodStart P t := by
  obtain ⟨c, rfl⟩ := hd
  have hc : 0 < c := by
    by_contra h; have : Q * c ≤ 0 := Int.mul_nonpos_of_nonneg_of_nonpos hQ.le (by omega); omega
  unfold periodStart
  congr 1
  rw [Int.mul_ediv_mul_of_pos _ _ hQ, ← Int.ediv_ediv_of_nonneg hQ.le]

theorem ediv_periodStart (hQ : 0 < Q) (hP : 0 < P) (hd : Q ∣ P) (t : ℤ) :
    periodStart Q t / P = t / P := by
  have := periodStart_periodStart hQ hP hd t
  unfold periodStart at this ⊢
  exact Int.eq_of_mul_eq_mul_left hP.ne' this

theorem aggregate_head (l : List (OhlcTick F)) (hne : l ≠ []) :
    ((aggregate Q l).head (aggregate_ne_nil hne)).ts = periodStart Q (l.head hne).ts := by
  have e := aggregate_eq (P := Q) hne
  rw [List.head_eq_getElem]
  simp only [e, List.getElem_map, List.getElem_range, aggTick_ts]
  simp

theorem aggregate_getLast (hQ : 0 < Q) {l : List (OhlcTick F)} (hs : SortedBy OhlcTick.ts l) (hne : l ≠ []) :
    ((aggregate Q l).getLast (aggregate_ne_nil hne)).ts = periodStart Q (l.getLast hne).ts := by
  have hne' := aggregate_ne_nil (P := Q) hne
  apply aggregate_getLast_ts hQ hs hne (xs := (aggregate Q l).dropLast.reverse)
  conv_lhs => rw [← List.dropLast_append_getLast hne']
  simp

theorem aggregate_sorted (hQ : 0 < Q) (l : List (OhlcTick F)) : SortedBy OhlcTick.ts (aggregate Q l) := by
  by_cases hne : l = []
  · subst hne; exact List.Pairwise.nil
  · rw [aggregate_eq hne]
    unfold SortedBy
    rw [List.pairwise_map]
    refine List.Pairwise.imp ?_ List.pairwise_lt_range
    intro a b hab
    rw [aggTick_ts, aggTick_ts]
    have : Q * (a : ℤ) ≤ Q * b := mul_le_mul_of_nonneg_left (by exact_mod_cast hab.le) hQ.le
    omega

theorem aggregate_strict (hQ : 0 < Q) (l : List (OhlcTick F)) :
    (aggregate Q l).Pairwise (fun a b => a.ts < b.ts) := by
  by_cases hne : l = []
  · subst hne; exact List.Pairwise.nil
  · rw [aggregate_eq hne]
    rw [List.pairwise_map]
    refine List.Pairwise.imp ?_ List.pairwise_lt_range
    intro a b hab
    rw [aggTick_ts, aggTick_ts]
    have : Q * (a : ℤ) < Q * b := mul_lt_mul_of_pos_left (by exact_mod_cast hab) hQ
    omega

theorem filter_range_lt (N M : ℕ) (p : ℕ → Bool) (hp : ∀ i, i < N → (p i = true ↔ i < M)) :
    (List.range N).filter p = List.range (min N M) := by
  induction N with
  | zero => simp
  | succ N ih =>
    rw [List.range_succ, List.filter_append, ih (fun i hi => hp i (by omega))]
    by_cases h : N < M
    · have : p N = true := (hp N (by omega)).mpr h
      rw [List.filter_cons_of_pos this, List.filter_nil,
        show min N M = N by omega, show min (N + 1) M = N + 1 by omega, List.range_succ]
    · have : ¬ p N = true := fun h' => h ((hp N (by omega)).mp h')
      rw [List.filter_cons_of_neg this, List.filter_nil, List.append_nil,
        show min (N + 1) M = min N M by omega]

/-- Closes before a common boundary are the same in the aggregate. -/
theorem closeBefore_aggregate (hQ : 0 < Q) {l : List (OhlcTick F)} (hs : SortedBy OhlcTick.ts l) (hne : l ≠ [])
    {e : ℤ} (hk : ∃ k, e = Q * k) (hfirst : (l.head hne).ts < e) :
    closeBefore e (aggregate Q l) = closeBefore e l := by
  obtain ⟨k, rfl⟩ := hk
  set a := (l.head hne).ts with ha
  set b := (l.getLast hne).ts with hb
  have hab : a ≤ b := hs.head_le_getLast hne
  have q1 : a / Q ≤ b / Q := Int.ediv_le_ediv hQ hab
  set N := (b / Q - a / Q).toNat + 1 with hN
  have E := aggregate_eq (P := Q) hne
  rw [← ha, ← hb, ← hN] at E
  have hka : a / Q < k := by
    rw [Int.ediv_lt_iff_lt_mul hQ]; linarith
  set M := (k - a / Q).toNat with hM
  have hMz : (M : ℤ) = k - a / Q := by omega
  have hfil : (aggregate Q l).filter (fun t => decide (t.ts < Q * k)) =
      (List.range (min N M)).map (fun (i : ℕ) => aggTick Q l (periodStart Q a + Q * i)) := by
    rw [E, List.filter_map]
    congr 1
    apply filter_range_lt
    intro i _
    simp only [Function.comp, aggTick_ts, decide_eq_true_eq]
    unfold periodStart
    rw [← mul_add, mul_lt_mul_iff_right₀ hQ]
    omega
  obtain ⟨m, hm⟩ : ∃ m, min N M = m + 1 := ⟨min N M - 1, by omega⟩
  have hmult : ∃ j, periodStart Q a + Q * (m : ℤ) = Q * j := ⟨a / Q + m, by unfold periodStart; ring⟩
  have hclose := aggTick_close hQ hs hmult
  have hL : closeBefore (Q * k) (aggregate Q l) = closeBefore (periodStart Q a + Q * (m : ℤ) + Q) l := by
    have hcb : closeBefore (Q * k) (aggregate Q l) =
      (match ((aggregate Q l).filter (fun t => decide (t.ts < Q * k))).getLast? with
        | some t => t.close | none => lit F 0) := rfl
    rw [hcb, hfil, hm, List.range_succ, List.map_append, List.map_cons, List.map_nil,
      List.getLast?_append_of_ne_nil _ (by simp)]
    simp only [List.getLast?_singleton]
    exact hclose
  rw [hL]
  rcases Nat.lt_or_ge N M with h | h
  · -- the aggregate ends before the boundary
    have hmN : m + 1 = N := by omega
    have hall : ∀ t ∈ l, t.ts < periodStart Q a + Q * (m : ℤ) + Q := by
      intro t ht
      have h1 := hs.le_getLast hne t ht
      have h2 := lt_periodStart_add hQ b
      have : periodStart Q a + Q * (m : ℤ) + Q = periodStart Q b + Q := by
        have : (m : ℤ) = b / Q - a / Q := by omega
        unfold periodStart; rw [this]; ring
      rw [← hb] at h1
      omega
    rw [closeBefore_all hall hne, closeBefore_all (fun t ht => ?_) hne]
    have h1 := hall t ht
    have : periodStart Q a + Q * (m : ℤ) + Q ≤ Q * k := by
      have : Q * (a / Q + m + 1) ≤ Q * k := mul_le_mul_of_nonneg_left (by omega) hQ.le
      unfold periodStart
      linarith
    omega
  · have : periodStart Q a + Q * (m : ℤ) + Q = Q * k := by
      have : (m : ℤ) + 1 = k - a / Q := by omega
      have h3 : k = a / Q + m + 1 := by omega
      rw [h3]; unfold periodStart; ring
    rw [this]

theorem aggregate_aggregate_closes (hQ : 0 < Q) (hP : 0 < P) (hd : Q ∣ P) (l : List (OhlcTick F))
    (hs : SortedBy OhlcTick.ts l) :
    (aggregate P (aggregate Q l)).map (fun t => (t.ts, t.close)) =
      (aggregate P l).map (fun t => (t.ts, t.close)) := by
  by_cases hne : l = []
  · subst hne; rfl
  have hne' := aggregate_ne_nil (P := Q) hne
  have hs' := aggregate_sorted hQ l
  have E1 := aggregate_eq (P := P) hne'
  have E2 := aggregate_eq (P := P) hne
  have hh := aggregate_head (Q := Q) l hne
  have hl := aggregate_getLast hQ hs hne
  rw [hh, hl, ediv_periodStart hQ hP hd, ediv_periodStart hQ hP hd, periodStart_periodStart hQ hP hd] at E1
  rw [E1, E2, List.map_map, List.map_map]
  apply List.map_congr_left
  intro i _
  simp only [Function.comp, aggTick_ts, Prod.mk.injEq, true_and]
  set a := (l.head hne).ts
  have hm : ∃ k, periodStart P a + P * (i : ℤ) = P * k := ⟨a / P + i, by unfold periodStart; ring⟩
  rw [aggTick_close hP hs' hm, aggTick_close hP hs hm]
  apply closeBefore_aggregate hQ hs hne
  · obtain ⟨c, rfl⟩ := hd
    obtain ⟨k, hk⟩ := hm
    exact ⟨c * (k + 1), by rw [hk]; ring⟩
  · have := lt_periodStart_add hP a
    have : 0 ≤ P * (i : ℤ) := by positivity
    omega

end

section exact
variable {K : Type} [Field K] [LinearOrder K] [IsStrictOrderedRing K] [FloorRing K] {P Q : ℤ}

theorem mergeTick_assoc (x y z : OhlcTick K) : mergeTick (mergeTick x y) z = mergeTick x (mergeTick y z) := by
  simp only [mergeTick, ex_fmax, ex_fmin, ex_add, max_assoc, min_assoc, add_assoc]

theorem aggregate_snoc_cases (hQ : 0 < Q) (l : List (OhlcTick K)) (hne : l ≠ []) (t : OhlcTick K)
    (hs : SortedBy OhlcTick.ts (l ++ [t])) (hg : NoGap Q (l ++ [t])) :
    ∃ init last, aggregate Q l = init ++ [last] ∧ last.ts = periodStart Q (l.getLast hne).ts ∧
      ((periodStart Q t.ts = last.ts ∧ aggregate Q (l ++ [t]) = init ++ [mergeTick last t]) ∨
       (last.ts < periodStart Q t.ts ∧
          aggregate Q (l ++ [t]) = init ++ [last, { t with ts := periodStart Q t.ts }])) := by
  have hne' := aggregate_ne_nil (P := Q) hne
  have hsl := (List.pairwise_append.mp hs).1
  refine ⟨(aggregate Q l).dropLast, (aggregate Q l).getLast hne', (List.dropLast_append_getLast hne').symm,
    aggregate_getLast hQ hsl hne, ?_⟩
  have hlt := aggregate_getLast hQ hsl hne
  set last := (aggregate Q l).getLast hne' with hlast
  have hrev : (aggregate Q l).reverse = last :: (aggregate Q l).dropLast.reverse := by
    conv_lhs => rw [← List.dropLast_append_getLast hne']
    simp [hlast]
  have step := aggStep_aggregate hQ l t hs
  have hgap : periodStart Q t.ts ≤ last.ts + Q := by
    rw [hlt]
    have := (List.isChain_append.mp hg).2.2
    exact this _ (List.getLast?_eq_some_getLast hne ▸ rfl) t (by simp)
  unfold aggStep at step
  rw [hrev, fillGaps_stop (by omega)] at step
  simp only at step
  have hle : last.ts ≤ periodStart Q t.ts := by
    rw [hlt]
    exact periodStart_mono hQ ((List.pairwise_append.mp hs).2.2 _ (List.getLast_mem hne) _ (by simp))
  split at step
  · rename_i h
    right
    refine ⟨h, ?_⟩
    have := congrArg List.reverse step
    rw [List.reverse_reverse] at this
    rw [← this]; simp
  · rename_i h
    left
    refine ⟨by omega, ?_⟩
    have := congrArg List.reverse step
    rw [List.reverse_reverse] at this
    rw [← this]; simp

theorem aggStep_retime (hQ : 0 < Q) (hP : 0 < P) (hd : Q ∣ P) (acc : List (OhlcTick K)) (t : OhlcTick K) :
    aggStep P acc { t with ts := periodStart Q t.ts } = aggStep P acc t := by
  unfold aggStep
  simp only [periodStart_periodStart hQ hP hd]
  rfl

theorem fillGaps_result (hP : 0 < P) (target : ℤ) (acc : List (OhlcTick K)) :
    ∀ x xs, fillGaps P target acc = x :: xs → ¬ x.ts + P < target := by
  intro x xs h
  fun_induction fillGaps P target acc with
  | case1 => cases h
  | case2 last rest hc ih => exact ih h
  | case3 last rest hc =>
    intro h'
    obtain ⟨rfl, rfl⟩ := List.cons.inj h
    exact hc ⟨hP, h'⟩

theorem aggStep_merge (hP : 0 < P) (acc : List (OhlcTick K)) (y t : OhlcTick K)
    (h : periodStart P t.ts = periodStart P y.ts) :
    aggStep P (aggStep P acc y) t = aggStep P acc (mergeTick y t) := by
  have e : (mergeTick y t).ts = y.ts := rfl
  conv_rhs => unfold aggStep
  rw [e]
  conv_lhs => arg 2; unfold aggStep
  have fs := fillGaps_result hP (periodStart P y.ts) acc
  cases hf : fillGaps P (periodStart P y.ts) acc with
  | nil =>
    simp only
    unfold aggStep
    rw [h, fillGaps_stop (by simp; omega)]
    simp only [lt_irrefl, if_false, mergeTick]
  | cons x xs =>
    rw [hf] at fs
    have fs := fs x xs rfl
    simp only
    split
    · rename_i hlt
      unfold aggStep
      rw [h, fillGaps_stop (by simp; omega)]
      simp only [lt_irrefl, if_false, mergeTick]
    · rename_i hlt
      unfold aggStep
      rw [h, fillGaps_stop (by simp [mergeTick]; omega)]
      have : ¬ (mergeTick x y).ts < periodStart P y.ts := hlt
      simp only [this, if_false, mergeTick_assoc]

theorem foldl_aggStep_aggregate (hQ : 0 < Q) (hP : 0 < P) (hd : Q ∣ P) (l : List (OhlcTick K))
    (hs : SortedBy OhlcTick.ts l) (hg : NoGap Q l) :
    (aggregate Q l).foldl (aggStep P) [] = l.foldl (aggStep P) [] := by
  induction l using List.reverseRecOn with
  | nil => rfl
  | append_singleton l t ih =>
    by_cases hne : l = []
    · subst hne
      rw [List.nil_append, aggregate_single]
      simp only [List.foldl_cons, List.foldl_nil]
      exact aggStep_retime hQ hP hd [] t
    have ih := ih (List.pairwise_append.mp hs).1 (List.isChain_append.mp hg).1
    obtain ⟨init, last, h1, h2, h3⟩ := aggregate_snoc_cases hQ l hne t hs hg
    rw [h1, List.foldl_append] at ih
    rw [List.foldl_append (l := l), ← ih]
    simp only [List.foldl_cons, List.foldl_nil]
    rcases h3 with ⟨h4, h5⟩ | ⟨_, h5⟩
    · rw [h5, List.foldl_append]
      simp only [List.foldl_cons, List.foldl_nil]
      rw [aggStep_merge hP]
      have := periodStart_periodStart hQ hP hd t.ts
      rw [h4] at this
      rw [← this]
    · rw [h5, List.foldl_append]
      simp only [List.foldl_cons, List.foldl_nil]
      exact aggStep_retime hQ hP hd _ t

theorem aggregate_aggregate (hQ : 0 < Q) (hP : 0 < P) (hd : Q ∣ P) (l : List (OhlcTick K))
    (hs : SortedBy OhlcTick.ts l) (hg : NoGap Q l) : aggregate P (aggregate Q l) = aggregate P l := by
  have h1 := foldl_aggStep hP l hs
  have h2 := foldl_aggStep hP _ (aggregate_sorted hQ l)
  rw [foldl_aggStep_aggregate hQ hP hd l hs hg, h1] at h2
  exact (List.reverse_injective h2).symm

end exact
end Verif
