import Verif.Props.MovingAverages
import Verif.Props.Resample

/-!
# C48: the stochastic oscillator
-/

set_option linter.unusedSectionVars false

namespace Verif.Props
open Spec FloatOps

section
variable {F : Type} [FloatOps F]

theorem minAfter_snoc (n : ℤ) (vs : List F) (x : F) :
    minAfter n (adds (vs ++ [x])) = minAfter n (adds vs) >>= fun s => s.add x := by
  unfold minAfter adds runOps
  cases (SlidingMin.make n : Res (SlidingMin F)) with
  | error e => rfl
  | ok s => simp only [bind, Except.bind, List.map_append, List.map_singleton, foldlM_snoc]

theorem maxAfter_snoc (n : ℤ) (vs : List F) (x : F) :
    maxAfter n (adds (vs ++ [x])) = maxAfter n (adds vs) >>= fun s => s.add x := by
  unfold maxAfter adds runOps
  cases (SlidingMax.make n : Res (SlidingMax F)) with
  | error e => rfl
  | ok s => simp only [bind, Except.bind, List.map_append, List.map_singleton, foldlM_snoc]

theorem minAfter_corrected (n : ℤ) (hn : 0 < n) (vs : List F) (a x : F) :
    (minAfter n (adds (vs ++ [a])) >>= fun s => s.update x) = minAfter n (adds (vs ++ [x])) := by
  have h := C43_add_then_updates (minAfter n) (C43_minimum n hn) (adds vs) a [] x
  have e1 : adds (vs ++ [x]) = adds vs ++ [.add x] := by simp [adds]
  have e2 : adds (vs ++ [a]) = adds vs ++ [.add a] := by simp [adds]
  rw [e1, ← h, e2]
  unfold minAfter runOps
  cases (SlidingMin.make n : Res (SlidingMin F)) with
  | error e => rfl
  | ok s => simp only [bind, Except.bind, List.map_nil, List.append_nil, foldlM_snoc]

theorem maxAfter_corrected (n : ℤ) (hn : 0 < n) (vs : List F) (a x : F) :
    (maxAfter n (adds (vs ++ [a])) >>= fun s => s.update x) = maxAfter n (adds (vs ++ [x])) := by
  have h := C43_add_then_updates (maxAfter n) (C43_maximum n hn) (adds vs) a [] x
  have e1 : adds (vs ++ [x]) = adds vs ++ [.add x] := by simp [adds]
  have e2 : adds (vs ++ [a]) = adds vs ++ [.add a] := by simp [adds]
  rw [e1, ← h, e2]
  unfold maxAfter runOps
  cases (SlidingMax.make n : Res (SlidingMax F)) with
  | error e => rfl
  | ok s => simp only [bind, Except.bind, List.map_nil, List.append_nil, foldlM_snoc]

variable {D : Type} [FloatOps D] [Wide F D]

/-- `StochasticOscillator` after a sequence of updates. -/
def soAfter (n period : ℤ) (l : List (OhlcTick F)) := indAfter (So.make n period) So.onEvent l

theorem meanVarAfter_snoc (n : ℤ) (vs : List F) (x : F) (s : MeanVar F) (h : meanVarAfter n (adds vs) = .ok s) :
    meanVarAfter n (adds (vs ++ [x])) = .ok (s.add x) := by
  unfold meanVarAfter adds runOps at *
  rw [List.map_append, List.map_singleton, foldlM_snoc, h]; rfl

theorem meanVarAfter_corrected (n : ℤ) (vs : List F) (a x : F) (s : MeanVar F)
    (h : meanVarAfter n (adds (vs ++ [a])) = .ok s) :
    s.update x = meanVarAfter n (adds (vs ++ [x])) := by
  have h' := C43_add_then_updates (meanVarAfter n) (C43_mean_variance n) (adds vs) a [] x
  have e1 : adds (vs ++ [x]) = adds vs ++ [.add x] := by simp [adds]
  have e2 : adds (vs ++ [a]) = adds vs ++ [.add a] := by simp [adds]
  rw [e1, ← h']
  rw [e2] at h
  unfold meanVarAfter runOps at *
  rw [foldlM_snoc, List.map_nil, List.append_nil, h]; rfl

theorem meanVarAfter_ok (n : ℤ) (vs : List F) : ∃ s, meanVarAfter n (adds vs) = .ok s := by
  induction vs using List.reverseRecOn with
  | nil => exact ⟨_, rfl⟩
  | append_singleton vs x ih => obtain ⟨s, h⟩ := ih; exact ⟨_, meanVarAfter_snoc n vs x s h⟩

end

section exact
variable {K : Type} [Field K] [LinearOrder K] [IsStrictOrderedRing K] [FloorRing K]

theorem lowest_isLeast (l : List K) (hne : l ≠ []) : IsLeast {x | x ∈ l} (lowest l) := by
  obtain ⟨x, xs, rfl⟩ := List.exists_cons_of_ne_nil hne
  show IsLeast {y | y ∈ x :: xs} (xs.foldl min x)
  induction xs using List.reverseRecOn with
  | nil => simp [IsLeast, lowerBounds]
  | append_singleton xs y ih =>
    have := ih (by simp)
    rw [List.foldl_append, List.foldl_cons, List.foldl_nil]
    constructor
    · rcases min_choice (xs.foldl min x) y with h | h
      · rw [h]
        have h1 := this.1
        simp only [Set.mem_ofPred_eq] at h1 ⊢
        rw [← List.cons_append, List.mem_append]; exact .inl h1
      · rw [h]; simp
    · intro z hz
      simp only [Set.mem_ofPred_eq] at hz
      rw [← List.cons_append, List.mem_append] at hz
      rcases hz with hz | hz
      · exact le_trans (min_le_left _ _) (this.2 hz)
      · rw [List.mem_singleton] at hz; rw [hz]; exact min_le_right _ _

theorem highest_isGreatest (l : List K) (hne : l ≠ []) : IsGreatest {x | x ∈ l} (highest l) := by
  obtain ⟨x, xs, rfl⟩ := List.exists_cons_of_ne_nil hne
  show IsGreatest {y | y ∈ x :: xs} (xs.foldl max x)
  induction xs using List.reverseRecOn with
  | nil => simp [IsGreatest, upperBounds]
  | append_singleton xs y ih =>
    have := ih (by simp)
    rw [List.foldl_append, List.foldl_cons, List.foldl_nil]
    constructor
    · rcases max_choice (xs.foldl max x) y with h | h
      · rw [h]
        have h1 := this.1
        simp only [Set.mem_ofPred_eq] at h1 ⊢
        rw [← List.cons_append, List.mem_append]; exact .inl h1
      · rw [h]; simp
    · intro z hz
      simp only [Set.mem_ofPred_eq] at hz
      rw [← List.cons_append, List.mem_append] at hz
      rcases hz with hz | hz
      · exact le_trans (this.2 hz) (le_max_left _ _)
      · rw [List.mem_singleton] at hz; rw [hz]; exact le_max_right _ _

theorem lastN_ne_nil {α : Type} {n : ℕ} (hn : 0 < n) {l : List α} (h : l ≠ []) : lastN n l ≠ [] := by
  intro h0
  have := congrArg List.length h0
  unfold lastN at this
  rw [List.length_drop, List.length_nil] at this
  have := List.length_pos_of_ne_nil h
  omega

theorem min_lowest (n : ℤ) (hn : 0 < n) (vs : List K) (hne : vs ≠ []) (s : SlidingMin K)
    (h : minAfter n (adds vs) = .ok s) : s.get = lowest (lastN n.toNat vs) := by
  obtain ⟨⟨s', a, b⟩, _⟩ := C44_extrema n hn (adds vs) vs (values_adds vs) hne
  rw [h] at a; cases a
  exact b.unique (lowest_isLeast _ (lastN_ne_nil (by omega) hne))

theorem max_highest (n : ℤ) (hn : 0 < n) (vs : List K) (hne : vs ≠ []) (s : SlidingMax K)
    (h : maxAfter n (adds vs) = .ok s) : s.get = highest (lastN n.toNat vs) := by
  obtain ⟨_, s', a, b⟩ := C44_extrema n hn (adds vs) vs (values_adds vs) hne
  rw [h] at a; cases a
  exact b.unique (highest_isGreatest _ (lastN_ne_nil (by omega) hne))

theorem mean3 (vs : List K) (s : MeanVar K) (h : meanVarAfter 3 (adds vs) = .ok s) :
    s.getMean = mean (lastN 3 vs) := by
  obtain ⟨s', a, _, b, _⟩ := C46_mean_variance 3 (by norm_num) (adds vs) vs (values_adds vs)
  rw [h] at a; cases a
  rw [b]; rfl

theorem kSeries_snoc (N : ℕ) (l : List (OhlcTick K)) (t : OhlcTick K) :
    kSeries N (l ++ [t]) = kSeries N l ++ [stochK N (l ++ [t])] := by
  unfold kSeries; rw [prefixes_snoc, List.map_append]; rfl

theorem sma3_snoc (l : List K) (x : K) : sma3 (l ++ [x]) = sma3 l ++ [mean (lastN 3 (l ++ [x]))] := by
  unfold sma3; rw [prefixes_snoc, List.map_append]; rfl

/-- The state for the aggregated ticks `l` (oldest first). -/
structure SoInv (n : ℤ) (l : List (OhlcTick K)) (s : SoState K) : Prop where
  num : s.num = l.length
  min : minAfter n (adds (l.map (·.low))) = .ok s.min
  max : maxAfter n (adds (l.map (·.high))) = .ok s.max
  k : l ≠ [] → s.k = stochK n.toNat l
  fast : meanVarAfter 3 (adds (kSeries n.toNat l)) = .ok s.dFast
  slow : meanVarAfter 3 (adds (sma3 (kSeries n.toNat l))) = .ok s.dSlow

theorem so_updateK (n : ℤ) (hn : 0 < n) (l : List (OhlcTick K)) (t : OhlcTick K) (s : SoState K)
    (h1 : s.num ≥ 1) (h2 : minAfter n (adds ((l ++ [t]).map (·.low))) = .ok s.min)
    (h3 : maxAfter n (adds ((l ++ [t]).map (·.high))) = .ok s.max) :
    So.updateK s t.close = .ok { s with k := stochK n.toNat (l ++ [t]) } := by
  have e1 := min_lowest n hn _ (by simp) s.min h2
  have e2 := max_highest n hn _ (by simp) s.max h3
  simp only [So.updateK, assertThat, h1, decide_true, if_true, bind, Except.bind, pure, Except.pure, e1, e2, stochK,
    List.getLast?_concat, ex_lt, ex_sub, ex_ofRat, decide_eq_true_eq, ex_mul, ex_div]
  push_cast
  norm_num
  split <;> rfl

theorem minAfter_ok (n : ℤ) (hn : 0 < n) (vs : List K) : ∃ s, minAfter n (adds vs) = .ok s := by
  obtain ⟨s, h, _⟩ := minAfter_safe n hn vs; exact ⟨s, h⟩

theorem maxAfter_ok (n : ℤ) (hn : 0 < n) (vs : List K) : ∃ s, maxAfter n (adds vs) = .ok s := by
  obtain ⟨s, h⟩ := minAfter_ok n hn (vs.map FloatOps.neg)
  exact ⟨⟨s⟩, by rw [maxAfter_eq n hn, h]; rfl⟩

theorem so_new (n : ℤ) (hn : 0 < n) (l : List (OhlcTick K)) (t : OhlcTick K) (s : SoState K) (h : SoInv n l s) :
    ∃ s', So.newTickAdded s t = .ok s' ∧ SoInv n (l ++ [t]) s' := by
  obtain ⟨mn, hmn⟩ := minAfter_ok n hn ((l ++ [t]).map (·.low))
  obtain ⟨mx, hmx⟩ := maxAfter_ok n hn ((l ++ [t]).map (·.high))
  have a1 : s.min.add t.low = .ok mn := by
    rw [← hmn, List.map_append, List.map_singleton, minAfter_snoc, h.min]; rfl
  have a2 : s.max.add t.high = .ok mx := by
    rw [← hmx, List.map_append, List.map_singleton, maxAfter_snoc, h.max]; rfl
  have a3 := so_updateK n hn l t { s with num := s.num + 1, min := mn, max := mx } (by simp) hmn hmx
  have f := meanVarAfter_snoc 3 _ (stochK n.toNat (l ++ [t])) _ h.fast
  have fm := mean3 _ _ f
  have g := meanVarAfter_snoc 3 _ (s.dFast.add (stochK n.toNat (l ++ [t]))).getMean _ h.slow
  refine ⟨{ num := s.num + 1, min := mn, max := mx, k := stochK n.toNat (l ++ [t]),
            dFast := s.dFast.add (stochK n.toNat (l ++ [t])),
            dSlow := s.dSlow.add (s.dFast.add (stochK n.toNat (l ++ [t]))).getMean }, ?_, ?_⟩
  · simp only [So.newTickAdded, a1, a2, bind, Except.bind, a3, pure, Except.pure]
  · refine ⟨by simp [h.num], hmn, hmx, fun _ => rfl, ?_, ?_⟩
    · rw [kSeries_snoc]; exact f
    · rw [kSeries_snoc, sma3_snoc, ← fm]; exact g

theorem so_upd (n : ℤ) (hn : 0 < n) (l : List (OhlcTick K)) (old t : OhlcTick K) (s : SoState K)
    (h : SoInv n (l ++ [old]) s) :
    ∃ s', So.lastTickUpdated s t = .ok s' ∧ SoInv n (l ++ [t]) s' := by
  obtain ⟨mn, hmn⟩ := minAfter_ok n hn ((l ++ [t]).map (·.low))
  obtain ⟨mx, hmx⟩ := maxAfter_ok n hn ((l ++ [t]).map (·.high))
  have hnum : s.num = l.length + 1 := by simpa using h.num
  have a1 : s.min.update t.low = .ok mn := by
    have h1 := h.min
    rw [List.map_append, List.map_singleton] at h1 hmn
    rw [← hmn, ← minAfter_corrected n hn _ old.low, h1]; rfl
  have a2 : s.max.update t.high = .ok mx := by
    have h1 := h.max
    rw [List.map_append, List.map_singleton] at h1 hmx
    rw [← hmx, ← maxAfter_corrected n hn _ old.high, h1]; rfl
  have a3 := so_updateK n hn l t { s with min := mn, max := mx } (by simp only; omega) hmn hmx
  have hf := h.fast
  rw [kSeries_snoc] at hf
  have hs := h.slow
  rw [kSeries_snoc, sma3_snoc] at hs
  obtain ⟨df, f⟩ := meanVarAfter_ok 3 (kSeries n.toNat l ++ [stochK n.toNat (l ++ [t])])
  have fu := meanVarAfter_corrected 3 _ _ (stochK n.toNat (l ++ [t])) _ hf
  rw [f] at fu
  have fm := mean3 _ _ f
  obtain ⟨ds, g⟩ := meanVarAfter_ok 3 (sma3 (kSeries n.toNat l) ++ [df.getMean])
  have gu := meanVarAfter_corrected 3 _ _ df.getMean _ hs
  rw [g] at gu
  refine ⟨{ num := s.num, min := mn, max := mx, k := stochK n.toNat (l ++ [t]), dFast := df, dSlow := ds }, ?_, ?_⟩
  · simp only [So.lastTickUpdated, a1, a2, bind, Except.bind, a3, fu, gu, pure, Except.pure]
  · refine ⟨by simp [hnum], hmn, hmx, fun _ => rfl, ?_, ?_⟩
    · rw [kSeries_snoc]; exact f
    · rw [kSeries_snoc, sma3_snoc, ← fm]; exact g

theorem so_state (n period : ℤ) (hn : 0 < n) (hP : 0 < period) (l : List (OhlcTick K)) (hl : Feedable l) :
    ∃ s, soAfter n period l = .ok s ∧ SoInv n (aggregate period l) s.state := by
  obtain ⟨s, h1, h2⟩ := Indicator.run_inv (n := 1) (P := period) (by norm_num) hP So.onEvent
    (fun full s => SoInv n full.reverse s)
    (fun full e full' s h hs => by
      cases h with
      | added _ x h =>
        have h0 : full = [] := List.length_eq_zero_iff.mp (by omega)
        subst h0
        have hnum := hs.num
        obtain ⟨s', a, b⟩ := so_new n hn _ x s hs
        refine ⟨s', ?_, by simpa using b⟩
        simp only [So.onEvent, assertThat, bind, Except.bind]
        rw [if_pos (by simpa using hnum), a]
      | addedRemoved _ r x h hr =>
        have hnum := hs.num
        obtain ⟨s', a, b⟩ := so_new n hn _ x s hs
        refine ⟨s', ?_, by simpa using b⟩
        simp only [So.onEvent, assertThat, bind, Except.bind]
        rw [if_pos (by rw [List.length_reverse] at hnum; simp; omega), a]
      | updated rest old new ho =>
        rw [List.reverse_cons] at hs ⊢
        have hnum := hs.num
        obtain ⟨s', a, b⟩ := so_upd n hn _ old new s hs
        refine ⟨s', ?_, b⟩
        simp only [So.onEvent, assertThat, bind, Except.bind]
        rw [if_pos (by simp at hnum; simp; omega), a])
    ⟨0, lit K 0, ⟨n.toNat, lit K 0, lit K 0, [], 0⟩, ⟨⟨n.toNat, lit K 0, lit K 0, [], 0⟩⟩, MeanVar.make 3,
      MeanVar.make 3⟩
    ⟨rfl, by simp [minAfter, minMake n hn, bind, Except.bind, adds, runOps, pure, Except.pure],
      by simp [maxAfter, maxMake n hn, bind, Except.bind, adds, runOps, pure, Except.pure], by simp, rfl, rfl⟩
    l hl.1 hl.2
  refine ⟨⟨⟨1, period, (aggregate period l).reverse.take 1⟩, s⟩, ?_, by simpa using h2⟩
  simp only [soAfter, indAfter, So.make, lastN_make 1 period (by norm_num) hP, minMake n hn, maxMake n hn, bind,
    Except.bind, pure, Except.pure]
  exact h1

theorem aggregate_ne_nil {F : Type} [FloatOps F] (P : ℤ) {l : List (OhlcTick F)} (hne : l ≠ []) :
    aggregate P l ≠ [] := by
  rw [aggregate_eq hne]; simp

/-- **C48** (meaning). After feeding any non-empty sorted history: `GetLow` / `GetHigh` are the smallest low / largest
high of the last `n` aggregated ticks; `GetK` is the documented quotient (50 if the span is below 1e-6); `GetFastD`
is the mean of the last three %K, `GetSlowD` the mean of the last three `GetFastD`. -/
theorem C48_meaning (n period : ℤ) (hn : 0 < n) (hP : 0 < period) (l : List (OhlcTick K)) (hl : Feedable l)
    (hne : l ≠ []) :
    ∃ s, soAfter n period l = .ok s ∧
      let ticks := aggregate period l
      IsLeast {x | x ∈ lastN n.toNat (ticks.map (·.low))} (So.getLow s.state) ∧
      IsGreatest {x | x ∈ lastN n.toNat (ticks.map (·.high))} (So.getHigh s.state) ∧
      s.state.k = stochK n.toNat ticks ∧
      So.getFastD s.state = mean (lastN 3 (kSeries n.toNat ticks)) ∧
      So.getSlowD s.state = mean (lastN 3 (sma3 (kSeries n.toNat ticks))) ∧
      s.state.num = ticks.length := by
  obtain ⟨s, h1, h2⟩ := so_state n period hn hP l hl
  have hag := aggregate_ne_nil period hne
  refine ⟨s, h1, ?_, ?_, h2.k hag, mean3 _ _ h2.fast, mean3 _ _ h2.slow, h2.num⟩
  · unfold So.getLow
    rw [min_lowest n hn _ (by simpa using hag) _ h2.min]
    exact lowest_isLeast _ (lastN_ne_nil (by omega) (by simpa using hag))
  · unfold So.getHigh
    rw [max_highest n hn _ (by simpa using hag) _ h2.max]
    exact highest_isGreatest _ (lastN_ne_nil (by omega) (by simpa using hag))

/-! ### Range -/

theorem fillGaps_wf (P target : ℤ) (acc : List (OhlcTick K)) (h : ∀ x ∈ acc, WellFormedTick x) :
    ∀ x ∈ fillGaps P target acc, WellFormedTick x := by
  fun_induction fillGaps P target acc with
  | case1 => simp
  | case2 last rest hc ih =>
    apply ih
    intro x hx
    rw [List.mem_cons] at hx
    rcases hx with rfl | hx
    · have := h last (by simp)
      have hc : 0 < last.close := lt_of_lt_of_le this.1 this.2.2.1
      exact ⟨hc, le_refl _, le_refl _, le_refl _, le_refl _, by show (0 : K) ≤ ((0 : ℚ) : K); simp⟩
    · exact h x hx
  | case3 => exact h

theorem aggStep_wf (P : ℤ) (acc : List (OhlcTick K)) (t : OhlcTick K) (h : ∀ x ∈ acc, WellFormedTick x)
    (ht : WellFormedTick t) : ∀ x ∈ aggStep P acc t, WellFormedTick x := by
  have hf := fillGaps_wf P (periodStart P t.ts) acc h
  unfold aggStep
  cases hg : fillGaps P (periodStart P t.ts) acc with
  | nil => intro x hx; simp at hx; subst hx; exact ht
  | cons y ys =>
    rw [hg] at hf
    simp only
    have hy := hf y (by simp)
    have hys : ∀ x ∈ ys, WellFormedTick x := fun x hx => hf x (by simp [hx])
    split
    · intro x hx
      rw [List.mem_cons] at hx
      rcases hx with rfl | hx
      · exact ht
      · exact hf x hx
    · intro x hx
      rw [List.mem_cons] at hx
      rcases hx with rfl | hx
      · obtain ⟨a1, a2, a3, a4, a5, a6⟩ := hy
        obtain ⟨b1, b2, b3, b4, b5, b6⟩ := ht
        simp only [mergeTick, WellFormedTick, ex_fmax, ex_fmin, ex_add]
        exact ⟨lt_min a1 b1, le_trans (min_le_left _ _) a2, le_trans (min_le_right _ _) b3,
          le_trans a4 (le_max_left _ _), le_trans b5 (le_max_right _ _), by positivity⟩
      · exact hys x hx

/-- Aggregating well-formed ticks gives well-formed ticks. -/
theorem aggregate_wf (P : ℤ) (hP : 0 < P) (l : List (OhlcTick K)) (hs : SortedBy OhlcTick.ts l)
    (h : ∀ t ∈ l, WellFormedTick t) : ∀ x ∈ aggregate P l, WellFormedTick x := by
  have key : ∀ (ll acc : List (OhlcTick K)), (∀ t ∈ ll, WellFormedTick t) → (∀ x ∈ acc, WellFormedTick x) →
      ∀ x ∈ ll.foldl (aggStep P) acc, WellFormedTick x := by
    intro ll
    induction ll with
    | nil => intro acc _ h; exact h
    | cons t ll ih =>
      intro acc h1 h2
      exact ih _ (fun x hx => h1 x (by simp [hx])) (aggStep_wf P acc t h2 (h1 t (by simp)))
  have := key l [] h (by simp)
  rw [foldl_aggStep hP l hs] at this
  intro x hx
  exact this x (by simpa using hx)

theorem mem_lastN_snoc {α : Type} {n : ℕ} (hn : 0 < n) (l : List α) (x : α) : x ∈ lastN n (l ++ [x]) := by
  obtain ⟨m, rfl⟩ : ∃ m, n = m + 1 := ⟨n - 1, by omega⟩
  rw [lastN_snoc]; simp

theorem stochK_range (N : ℕ) (hN : 0 < N) (l : List (OhlcTick K)) (hne : l ≠ []) (h : ∀ t ∈ l, WellFormedTick t) :
    0 ≤ stochK N l ∧ stochK N l ≤ 100 := by
  rcases l.eq_nil_or_concat with h0 | ⟨l', t, rfl⟩
  · exact absurd h0 hne
  · rw [List.concat_eq_append] at *
    have ht := h t (by simp)
    have e1 := lowest_isLeast (lastN N ((l' ++ [t]).map (·.low))) (lastN_ne_nil hN (by simp))
    have e2 := highest_isGreatest (lastN N ((l' ++ [t]).map (·.high))) (lastN_ne_nil hN (by simp))
    have m1 : lowest (lastN N ((l' ++ [t]).map (·.low))) ≤ t.low := e1.2 (by
      rw [List.map_append, List.map_singleton]; exact mem_lastN_snoc hN _ _)
    have m2 : t.high ≤ highest (lastN N ((l' ++ [t]).map (·.high))) := e2.2 (by
      rw [List.map_append, List.map_singleton]; exact mem_lastN_snoc hN _ _)
    unfold stochK
    simp only [List.getLast?_concat]
    generalize lowest (lastN N ((l' ++ [t]).map (·.low))) = lo at *
    generalize highest (lastN N ((l' ++ [t]).map (·.high))) = hi at *
    obtain ⟨_, _, c1, _, c2, _⟩ := ht
    split
    · norm_num
    · rename_i hs
      have hpos : 0 < hi - lo := by
        have : (0 : K) < 1 / 1000000 := by positivity
        push Not at hs; linarith
      constructor
      · apply div_nonneg _ hpos.le
        have : 0 ≤ t.close - lo := by linarith
        positivity
      · rw [div_le_iff₀ hpos]
        nlinarith

theorem mean_range (l : List K) (h : ∀ x ∈ l, 0 ≤ x ∧ x ≤ 100) : 0 ≤ mean l ∧ mean l ≤ 100 := by
  unfold mean
  have key : 0 ≤ l.sum ∧ l.sum ≤ 100 * l.length := by
    induction l with
    | nil => simp
    | cons a l ih =>
      have := ih (fun x hx => h x (by simp [hx]))
      have ha := h a (by simp)
      rw [List.sum_cons, List.length_cons]; push_cast
      constructor <;> linarith
  constructor
  · exact div_nonneg key.1 (by positivity)
  · rcases (Nat.cast_nonneg (α := K) l.length).lt_or_eq with h0 | h0
    · rw [div_le_iff₀ h0]; exact key.2
    · rw [← h0]; simp

theorem prefixes_mem {α : Type} {l p : List α} (h : p ∈ prefixes l) : p ≠ [] ∧ ∀ x ∈ p, x ∈ l := by
  unfold prefixes at h
  obtain ⟨i, hi, rfl⟩ := List.mem_map.mp h
  rw [List.mem_range] at hi
  refine ⟨?_, fun x hx => List.mem_of_mem_take hx⟩
  intro h0
  have := congrArg List.length h0
  rw [List.length_take, List.length_nil] at this; omega

theorem lastN_subset {α : Type} {n : ℕ} {l : List α} {x : α} (h : x ∈ lastN n l) : x ∈ l := List.mem_of_mem_drop h

/-- **C48** (range). If every tick of the history is well-formed (`0 < low ≤ open, close ≤ high`), %K and both %D lie
in [0, 100]. -/
theorem C48_range (n period : ℤ) (hn : 0 < n) (hP : 0 < period) (l : List (OhlcTick K)) (hl : Feedable l)
    (hne : l ≠ []) (hwf : ∀ t ∈ l, WellFormedTick t) :
    ∃ s, soAfter n period l = .ok s ∧ (0 ≤ s.state.k ∧ s.state.k ≤ 100) ∧
      (0 ≤ So.getFastD s.state ∧ So.getFastD s.state ≤ 100) ∧
      (0 ≤ So.getSlowD s.state ∧ So.getSlowD s.state ≤ 100) := by
  obtain ⟨s, h1, _, _, h4, h5, h6, _⟩ := C48_meaning n period hn hP l hl hne
  have hag := aggregate_wf period hP l hl.1 hwf
  have hN : 0 < n.toNat := by omega
  have hk : ∀ x ∈ kSeries n.toNat (aggregate period l), 0 ≤ x ∧ x ≤ 100 := by
    intro x hx
    obtain ⟨p, hp, rfl⟩ := List.mem_map.mp hx
    obtain ⟨a, b⟩ := prefixes_mem hp
    exact stochK_range n.toNat hN p a (fun t ht => hag t (b t ht))
  have hs : ∀ x ∈ sma3 (kSeries n.toNat (aggregate period l)), 0 ≤ x ∧ x ≤ 100 := by
    intro x hx
    obtain ⟨p, hp, rfl⟩ := List.mem_map.mp hx
    obtain ⟨_, b⟩ := prefixes_mem hp
    exact mean_range _ (fun y hy => hk y (b y (lastN_subset hy)))
  refine ⟨s, h1, ?_, ?_, ?_⟩
  · rw [h4]; exact stochK_range n.toNat hN _ (aggregate_ne_nil period hne) hag
  · rw [h5]; exact mean_range _ (fun y hy => hk y (lastN_subset hy))
  · rw [h6]; exact mean_range _ (fun y hy => hs y (lastN_subset hy))

end exact

/-! Non-vacuity. -/

example : ∀ t ∈ indTicks, WellFormedTick t := by unfold WellFormedTick; decide +kernel
example : (soAfter 2 10 indTicks).map (fun s => (So.getLow s.state, So.getHigh s.state, s.state.k,
    So.getFastD s.state, So.getSlowD s.state)) = .ok (7, 13, 50 / 3, 530 / 9, 1970 / 27) := by decide +kernel

end Verif.Props
