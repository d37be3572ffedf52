import Verif.Props.FloatRsi
import Verif.Props.Stochastic

/-!
# C89: %K of the stochastic oscillator in binary32
-/

set_option linter.unusedSectionVars false

namespace Verif.Props
open FloatOps Spec FloatMoney FloatNN FloatVal FloatEma
open Fl (toQ IsFin)

section general
variable {F D : Type} [FloatOps F] [FloatOps D] [Wide F D]

/-- %K as computed from the extrema of the window and the close. -/
def kOf (lo hi close : F) : F :=
  if hi -. lo <. lit F (1 / 10 ^ 6) then lit F 50 else lit F 100 *. (close -. lo) /. (hi -. lo)

/-- %K after the aggregated ticks `l`. -/
def kVal (n : ℤ) (l : List (OhlcTick F)) : F :=
  match minAfter n (adds (l.map (·.low))), maxAfter n (adds (l.map (·.high))), l.getLast? with
  | .ok a, .ok b, some t => kOf a.get b.get t.close
  | _, _, _ => lit F 0

/-- %K after each of the aggregated ticks. -/
def kList (n : ℤ) (l : List (OhlcTick F)) : List F := (prefixes l).map (kVal n)

/-- Fast %D after the aggregated ticks `l`. -/
def fVal (n : ℤ) (l : List (OhlcTick F)) : F :=
  match meanVarAfter 3 (adds (kList n l)) with
  | .ok s => s.getMean
  | .error _ => lit F 0

/-- Fast %D after each of the aggregated ticks. -/
def fList (n : ℤ) (l : List (OhlcTick F)) : List F := (prefixes l).map (fVal n)

theorem kList_snoc (n : ℤ) (l : List (OhlcTick F)) (t : OhlcTick F) :
    kList n (l ++ [t]) = kList n l ++ [kVal n (l ++ [t])] := by
  unfold kList; rw [prefixes_snoc, List.map_append]; rfl

theorem fList_snoc (n : ℤ) (l : List (OhlcTick F)) (t : OhlcTick F) :
    fList n (l ++ [t]) = fList n l ++ [fVal n (l ++ [t])] := by
  unfold fList; rw [prefixes_snoc, List.map_append]; rfl

/-- What is known about the state for the aggregated ticks `l` (oldest first), for all floats. -/
structure SoInvF (n : ℤ) (l : List (OhlcTick F)) (s : SoState F) : Prop where
  num : s.num = l.length
  min : minAfter n (adds (l.map (·.low))) = .ok s.min
  max : maxAfter n (adds (l.map (·.high))) = .ok s.max
  k : ∀ t, l.getLast? = some t → s.k = kOf s.min.get s.max.get t.close
  fast : meanVarAfter 3 (adds (kList n l)) = .ok s.dFast
  slow : meanVarAfter 3 (adds (fList n l)) = .ok s.dSlow

theorem soF_updateK (s : SoState F) (c : F) (h1 : s.num ≥ 1) :
    So.updateK s c = .ok { s with k := kOf s.min.get s.max.get c } := by
  simp only [So.updateK, assertThat, h1, decide_true, if_true, bind, Except.bind, pure, Except.pure, kOf]
  split <;> rfl

theorem minAfter_okF (n : ℤ) (hn : 0 < n) (vs : List F) : ∃ s, minAfter n (adds vs) = .ok s := by
  obtain ⟨s, h, _⟩ := minAfter_safe n hn vs; exact ⟨s, h⟩

theorem maxAfter_okF (n : ℤ) (hn : 0 < n) (vs : List F) : ∃ s, maxAfter n (adds vs) = .ok s := by
  obtain ⟨s, h⟩ := minAfter_okF n hn (vs.map FloatOps.neg)
  exact ⟨⟨s⟩, by rw [maxAfter_eq n hn, h]; rfl⟩

theorem soF_new (n : ℤ) (hn : 0 < n) (l : List (OhlcTick F)) (t : OhlcTick F) (s : SoState F) (h : SoInvF n l s) :
    ∃ s', So.newTickAdded s t = .ok s' ∧ SoInvF n (l ++ [t]) s' := by
  obtain ⟨mn, hmn⟩ := minAfter_okF n hn ((l ++ [t]).map (·.low))
  obtain ⟨mx, hmx⟩ := maxAfter_okF n hn ((l ++ [t]).map (·.high))
  have a1 : s.min.add t.low = .ok mn := by
    rw [← hmn, List.map_append, List.map_singleton, minAfter_snoc, h.min]; rfl
  have a2 : s.max.add t.high = .ok mx := by
    rw [← hmx, List.map_append, List.map_singleton, maxAfter_snoc, h.max]; rfl
  have a3 := soF_updateK { s with num := s.num + 1, min := mn, max := mx } t.close (by simp)
  have hk : kVal n (l ++ [t]) = kOf mn.get mx.get t.close := by
    unfold kVal; rw [hmn, hmx, List.getLast?_concat]
  have f := meanVarAfter_snoc 3 _ (kVal n (l ++ [t])) _ h.fast
  rw [← kList_snoc] at f
  have hf : fVal n (l ++ [t]) = (s.dFast.add (kVal n (l ++ [t]))).getMean := by unfold fVal; rw [f]
  have g := meanVarAfter_snoc 3 _ (fVal n (l ++ [t])) _ h.slow
  rw [← fList_snoc] at g
  rw [hf] at g
  rw [hk] at f g
  set k := kOf mn.get mx.get t.close with hk
  refine ⟨{ num := s.num + 1, min := mn, max := mx, k := k,
            dFast := s.dFast.add k, dSlow := s.dSlow.add (s.dFast.add k).getMean }, ?_, ?_⟩
  · simp only [So.newTickAdded, a1, a2, bind, Except.bind, a3, pure, Except.pure]
  · refine ⟨by simp [h.num], hmn, hmx, ?_, f, g⟩
    intro t' ht'
    rw [List.getLast?_concat] at ht'
    cases ht'
    rfl

theorem soF_upd (n : ℤ) (hn : 0 < n) (l : List (OhlcTick F)) (old t : OhlcTick F) (s : SoState F)
    (h : SoInvF n (l ++ [old]) s) :
    ∃ s', So.lastTickUpdated s t = .ok s' ∧ SoInvF n (l ++ [t]) s' := by
  obtain ⟨mn, hmn⟩ := minAfter_okF n hn ((l ++ [t]).map (·.low))
  obtain ⟨mx, hmx⟩ := maxAfter_okF n hn ((l ++ [t]).map (·.high))
  have hnum : s.num = l.length + 1 := by simpa using h.num
  have a1 : s.min.update t.low = .ok mn := by
    have h1 := h.min
    rw [List.map_append, List.map_singleton] at h1 hmn
    rw [← hmn, ← minAfter_corrected n hn _ old.low, h1]; rfl
  have a2 : s.max.update t.high = .ok mx := by
    have h1 := h.max
    rw [List.map_append, List.map_singleton] at h1 hmx
    rw [← hmx, ← maxAfter_corrected n hn _ old.high, h1]; rfl
  have a3 := soF_updateK { s with min := mn, max := mx } t.close (by simp only; omega)
  have hk : kVal n (l ++ [t]) = kOf mn.get mx.get t.close := by
    unfold kVal; rw [hmn, hmx, List.getLast?_concat]
  obtain ⟨df, f⟩ := meanVarAfter_ok 3 (kList n (l ++ [t]))
  have hf : fVal n (l ++ [t]) = df.getMean := by unfold fVal; rw [f]
  obtain ⟨ds, g⟩ := meanVarAfter_ok 3 (fList n (l ++ [t]))
  have v2 := h.fast
  have w2 := h.slow
  rw [kList_snoc] at v2
  rw [fList_snoc] at w2
  have fu := meanVarAfter_corrected 3 _ _ (kVal n (l ++ [t])) _ v2
  rw [← kList_snoc, f] at fu
  have gu := meanVarAfter_corrected 3 _ _ (fVal n (l ++ [t])) _ w2
  rw [← fList_snoc, g, hf] at gu
  rw [hk] at fu
  set k := kOf mn.get mx.get t.close with hk
  refine ⟨{ num := s.num, min := mn, max := mx, k := k, dFast := df, dSlow := ds }, ?_, ?_⟩
  · simp only [So.lastTickUpdated, a1, a2, bind, Except.bind, a3, fu, gu, pure, Except.pure]
  · refine ⟨by simp [hnum], hmn, hmx, ?_, f, g⟩
    intro t' ht'
    rw [List.getLast?_concat] at ht'
    cases ht'
    rfl

theorem soF_state (n period : ℤ) (hn : 0 < n) (hP : 0 < period) (l : List (OhlcTick F)) (hl : Feedable l) :
    ∃ s, soAfter n period l = .ok s ∧ SoInvF n (aggregate period l) s.state := by
  obtain ⟨s, h1, h2⟩ := Indicator.run_inv (n := 1) (P := period) (by norm_num) hP So.onEvent
    (fun full s => SoInvF n full.reverse s)
    (fun full e full' s h hs => by
      cases h with
      | added _ x h =>
        have h0 : full = [] := List.length_eq_zero_iff.mp (by omega)
        subst h0
        have hnum := hs.num
        obtain ⟨s', a, b⟩ := soF_new n hn _ x s hs
        refine ⟨s', ?_, by simpa using b⟩
        simp only [So.onEvent, assertThat, bind, Except.bind]
        rw [if_pos (by simpa using hnum), a]
      | addedRemoved _ r x h hr =>
        have hnum := hs.num
        obtain ⟨s', a, b⟩ := soF_new n hn _ x s hs
        refine ⟨s', ?_, by simpa using b⟩
        simp only [So.onEvent, assertThat, bind, Except.bind]
        rw [if_pos (by rw [List.length_reverse] at hnum; simp; omega), a]
      | updated rest old new ho =>
        rw [List.reverse_cons] at hs ⊢
        have hnum := hs.num
        obtain ⟨s', a, b⟩ := soF_upd n hn _ old new s hs
        refine ⟨s', ?_, b⟩
        simp only [So.onEvent, assertThat, bind, Except.bind]
        rw [if_pos (by simp at hnum; simp; omega), a])
    ⟨0, lit F 0, ⟨n.toNat, lit F 0, lit F 0, [], 0⟩, ⟨⟨n.toNat, lit F 0, lit F 0, [], 0⟩⟩, MeanVar.make 3,
      MeanVar.make 3⟩
    ⟨rfl, by simp [minAfter, minMake n hn, bind, Except.bind, adds, runOps, pure, Except.pure],
      by simp [maxAfter, maxMake n hn, bind, Except.bind, adds, runOps, pure, Except.pure], by simp,
      rfl, rfl⟩
    l hl.1 hl.2
  refine ⟨⟨⟨1, period, (aggregate period l).reverse.take 1⟩, s⟩, ?_, by simpa using h2⟩
  simp only [soAfter, indAfter, So.make, lastN_make 1 period (by norm_num) hP, minMake n hn, maxMake n hn, bind,
    Except.bind, pure, Except.pure]
  exact h1

end general

theorem kept_range (M : ℚ) : Kept (F := F32) (fun t => (IsFin t.low ∧ |toQ t.low| ≤ M) ∧
    (IsFin t.high ∧ |toQ t.high| ≤ M) ∧ IsFin t.close ∧ toQ t.low ≤ toQ t.close ∧ toQ t.close ≤ toQ t.high) where
  move := fun _ _ h => h
  flat := fun t _ h => by
    have hc : |toQ t.close| ≤ M := by
      have h1 := abs_le.mp h.1.2
      have h2 := abs_le.mp h.2.1.2
      rw [abs_le]; constructor <;> linarith [h.2.2.2.1, h.2.2.2.2]
    exact ⟨⟨h.2.2.1, hc⟩, ⟨h.2.2.1, hc⟩, h.2.2.1, le_refl _, le_refl _⟩
  merge := fun a b ha hb => by
    have hmax : (fmax a.high b.high = a.high ∨ fmax a.high b.high = b.high) ∧ toQ b.high ≤ toQ (fmax a.high b.high) := by
      unfold fmax
      by_cases h : (a.high <. b.high) = true
      · rw [if_pos h]; exact ⟨.inr rfl, le_refl _⟩
      · rw [if_neg h]; refine ⟨.inl rfl, ?_⟩
        rw [Bool.not_eq_true] at h
        exact (Fl.lt_eq_false_iff ha.2.1.1 hb.2.1.1).mp h
    have hmin : (fmin a.low b.low = a.low ∨ fmin a.low b.low = b.low) ∧ toQ (fmin a.low b.low) ≤ toQ b.low := by
      unfold fmin
      by_cases h : (b.low <. a.low) = true
      · rw [if_pos h]; exact ⟨.inr rfl, le_refl _⟩
      · rw [if_neg h]; refine ⟨.inl rfl, ?_⟩
        rw [Bool.not_eq_true] at h
        exact (Fl.lt_eq_false_iff hb.1.1 ha.1.1).mp h
    refine ⟨?_, ?_, hb.2.2.1, hmin.2.trans hb.2.2.2.1, hb.2.2.2.2.trans hmax.2⟩
    · show IsFin (fmin a.low b.low) ∧ |toQ (fmin a.low b.low)| ≤ M
      rcases hmin.1 with h | h <;> rw [h]
      exacts [ha.1, hb.1]
    · show IsFin (fmax a.high b.high) ∧ |toQ (fmax a.high b.high)| ≤ M
      rcases hmax.1 with h | h <;> rw [h]
      exacts [ha.2.1, hb.2.1]

theorem kOf_range {lo hi c : F32} (hlo : IsFin lo) (hhi : IsFin hi) (hc : IsFin c) (h1 : toQ lo ≤ toQ c)
    (h2 : toQ c ≤ toQ hi) (h3 : |toQ lo| ≤ 2 ^ 100) (h4 : |toQ hi| ≤ 2 ^ 100) :
    IsFin (kOf lo hi c) ∧ 0 ≤ toQ (kOf lo hi c) ∧ toQ (kOf lo hi c) ≤ 100 + 1 / 2 ^ 17 := by
  unfold kOf
  have e50 : lit F32 50 = .fin 50 := by decide +kernel
  have e100 : lit F32 100 = .fin 100 := by decide +kernel
  have hcf : IsFin (lit F32 (1 / 10 ^ 6)) := ofRat_fin (x := 1 / 10 ^ 6) (by norm_num)
  have hc1 : (1 : ℚ) / 2 ^ 20 ≤ toQ (lit F32 (1 / 10 ^ 6)) := by decide +kernel
  by_cases hsp : (hi -. lo <. lit F32 (1 / 10 ^ 6)) = true
  · rw [if_pos hsp, e50]
    refine ⟨trivial, ?_, ?_⟩ <;> (show (_ : ℚ) ≤ _; norm_num [toQ])
  rw [if_neg hsp, Bool.not_eq_true] at *
  have b3 := abs_le.mp h3
  have b4 := abs_le.mp h4
  have p101 : rndQ binary32 (2 ^ 101) = 2 ^ 101 := by decide +kernel
  have ph : rndQ binary32 (100 + 1 / 2 ^ 17) = 100 + 1 / 2 ^ 17 := by decide +kernel
  have hs : |toQ hi - toQ lo| ≤ 2 ^ 127 := by rw [abs_of_nonneg (by linarith)]; norm_num at *; linarith
  have hp : |toQ c - toQ lo| ≤ 2 ^ 127 := by rw [abs_of_nonneg (by linarith)]; norm_num at *; linarith
  obtain ⟨s1, -⟩ := sub_fin hhi hlo hs
  obtain ⟨p1, -⟩ := sub_fin hc hlo hp
  have s2 := sub_val hhi hlo hs
  have p2 := sub_val hc hlo hp
  have s3 : toQ (hi -. lo) ≤ 2 ^ 101 := by
    rw [s2]; refine (rndQ_between rndQ_zero p101 (by linarith) ?_).2; norm_num at *; linarith
  have p0 : 0 ≤ toQ (c -. lo) := by rw [p2]; exact rndQ_nonneg (by linarith)
  have ps : toQ (c -. lo) ≤ toQ (hi -. lo) := by rw [p2, s2]; exact rndQ_le (by linarith)
  have sp := (Fl.lt_eq_false_iff s1 hcf).mp hsp
  have ss : (1 : ℚ) / 2 ^ 20 ≤ toQ (hi -. lo) := hc1.trans sp
  generalize hi -. lo = S at *
  generalize c -. lo = P at *
  have e100' : toQ (lit F32 100) = 100 := by rw [e100]; rfl
  have f100 : IsFin (lit F32 100) := by rw [e100]; trivial
  have hm : |toQ (lit F32 100) * toQ P| ≤ 2 ^ 127 := by
    rw [e100', abs_of_nonneg (by linarith)]; norm_num at *; linarith
  obtain ⟨m1, m3⟩ := mul_fin f100 p1 hm
  have m2 := mul_val f100 p1 hm
  rw [e100'] at m2 m3
  rw [abs_of_nonneg (by linarith : (0 : ℚ) ≤ 100 * toQ P)] at m3
  have m0 : 0 ≤ toQ (lit F32 100 *. P) := by rw [m2]; exact rndQ_nonneg (by linarith)
  generalize lit F32 100 *. P = Q at *
  have spos : 0 < toQ S := lt_of_lt_of_le (by norm_num) ss
  have ht := tiny_le
  have hqle : toQ Q / toQ S ≤ 100 + 1 / 2 ^ 17 := by
    rw [div_le_iff₀ spos]
    have := (abs_le.mp m3).2
    norm_num at *; linarith
  have hq0 : 0 ≤ toQ Q / toQ S := by positivity
  have hq : |toQ Q / toQ S| ≤ 2 ^ 127 := by
    rw [abs_of_nonneg hq0]; exact hqle.trans (by norm_num)
  obtain ⟨d1, -⟩ := div_fin m1 s1 spos.ne' hq
  have d2 := div_val m1 s1 spos.ne' hq
  obtain ⟨d3, d4⟩ := rndQ_between rndQ_zero ph hq0 hqle
  rw [← d2] at d3 d4
  exact ⟨d1, d3, d4⟩

/-- **C89** (%K). In binary32, for ticks with finite prices of absolute value at most 2^100 and the close between low
and high: `GetLow` and `GetHigh` are among the lows and highs of the last `n` aggregated ticks and bound them, and
`GetK` is a finite number between 0 and 100 + 2^-17. -/
theorem C89_stochastic (n period : ℤ) (hn : 0 < n) (hP : 0 < period) (l : List (OhlcTick F32)) (hl : Feedable l)
    (hne : l ≠ []) (hr : RangesWithin (2 ^ 100) l) :
    ∃ s, soAfter n period l = .ok s ∧
      So.getLow s.state ∈ lastN n.toNat ((aggregate period l).map (·.low)) ∧
      (∀ t ∈ lastN n.toNat (aggregate period l), toQ (So.getLow s.state) ≤ toQ t.low) ∧
      So.getHigh s.state ∈ lastN n.toNat ((aggregate period l).map (·.high)) ∧
      (∀ t ∈ lastN n.toNat (aggregate period l), toQ t.high ≤ toQ (So.getHigh s.state)) ∧
      IsFin s.state.k ∧ 0 ≤ toQ s.state.k ∧ toQ s.state.k ≤ 100 + 1 / 2 ^ 17 := by
  obtain ⟨s, h1, h2⟩ := soF_state n period hn hP l hl
  have hag : RangesWithin (2 ^ 100) (aggregate period l) := aggregate_kept (kept_range _) hP l hl.1 hl.2 hr
  have hagne := aggregate_ne_nil period hne
  have e : ∀ f : OhlcTick F32 → F32, lastN n.toNat ((aggregate period l).map f) = (lastN n.toNat (aggregate period l)).map f := by
    intro f; unfold lastN; rw [List.length_map, List.map_drop]
  have hsub : ∀ t ∈ lastN n.toNat (aggregate period l), t ∈ aggregate period l := fun t ht => List.mem_of_mem_drop ht
  have hnan : ∀ {x : F32}, IsFin x → x ≠ .nan := by rintro x hx rfl; exact hx
  obtain ⟨⟨mn, a1, a2, a3⟩, -⟩ := C44_extrema_ieee n hn _ _ (values_adds ((aggregate period l).map (·.low)))
    (by simpa using hagne) (by
      intro x hx; obtain ⟨t, ht, rfl⟩ := List.mem_map.mp hx; exact hnan (hag t ht).1.1)
  obtain ⟨-, mx, b1, b2, b3⟩ := C44_extrema_ieee n hn _ _ (values_adds ((aggregate period l).map (·.high)))
    (by simpa using hagne) (by
      intro x hx; obtain ⟨t, ht, rfl⟩ := List.mem_map.mp hx; exact hnan (hag t ht).2.1.1)
  rw [h2.min] at a1
  rw [h2.max] at b1
  obtain rfl := Except.ok.inj a1
  obtain rfl := Except.ok.inj b1
  have lowOk : IsFin s.state.min.get ∧ |toQ s.state.min.get| ≤ 2 ^ 100 := by
    rw [e] at a2
    obtain ⟨t, ht, h⟩ := List.mem_map.mp a2
    rw [← h]; exact (hag t (hsub t ht)).1
  have highOk : IsFin s.state.max.get ∧ |toQ s.state.max.get| ≤ 2 ^ 100 := by
    rw [e] at b2
    obtain ⟨t, ht, h⟩ := List.mem_map.mp b2
    rw [← h]; exact (hag t (hsub t ht)).2.1
  have low : ∀ t ∈ lastN n.toNat (aggregate period l), toQ s.state.min.get ≤ toQ t.low := by
    intro t ht
    have := a3 t.low (by rw [e]; exact List.mem_map_of_mem ht)
    exact (Fl.lt_eq_false_iff (hag t (hsub t ht)).1.1 lowOk.1).mp this
  have high : ∀ t ∈ lastN n.toNat (aggregate period l), toQ t.high ≤ toQ s.state.max.get := by
    intro t ht
    have := b3 t.high (by rw [e]; exact List.mem_map_of_mem ht)
    exact (Fl.lt_eq_false_iff highOk.1 (hag t (hsub t ht)).2.1.1).mp this
  refine ⟨s, h1, a2, low, b2, high, ?_⟩
  obtain ⟨l', t, hlt⟩ : ∃ l' t, aggregate period l = l' ++ [t] := by
    rcases List.eq_nil_or_concat (aggregate period l) with h0 | ⟨a, b, h0⟩
    · exact absurd h0 hagne
    · exact ⟨a, b, by rw [h0, List.concat_eq_append]⟩
  have hlast : t ∈ lastN n.toNat (aggregate period l) := by
    rw [hlt]
    obtain ⟨m, hm⟩ : ∃ m, n.toNat = m + 1 := ⟨n.toNat - 1, by omega⟩
    rw [hm, lastN_snoc]; simp
  have ht := hag t (hsub t hlast)
  rw [h2.k t (by rw [hlt, List.getLast?_concat])]
  exact kOf_range lowOk.1 highOk.1 ht.2.2.1 ((low t hlast).trans ht.2.2.2.1) (ht.2.2.2.2.trans (high t hlast)) lowOk.2 highOk.2

/-! ### %K can exceed 100 -/

/-- A tick from 1 to 2.31 that closes at its high. -/
def overTick : List (OhlcTick F32) :=
  [⟨100, lit F32 1, lit F32 (231 / 100), lit F32 1, lit F32 (231 / 100), lit F32 1⟩]

theorem overTick_ok : Feedable overTick ∧ overTick ≠ [] ∧ RangesWithin (2 ^ 100) overTick := by
  refine ⟨by unfold Feedable SortedBy; decide +kernel, by decide +kernel, ?_⟩
  intro t ht
  simp only [overTick, List.mem_cons, List.not_mem_nil, or_false] at ht
  subst ht
  exact ⟨⟨ofRat_fin (x := 1) (by norm_num), by decide +kernel⟩, ⟨ofRat_fin (x := 231 / 100) (by norm_num), by decide +kernel⟩,
    ofRat_fin (x := 231 / 100) (by norm_num), by decide +kernel, by decide +kernel⟩

/-- **C89** (%K, sharp). The bound is attained: a close at the high can give a %K above 100. -/
theorem C89_stochastic_over : RangesWithin (2 ^ 100) overTick ∧
    ∃ s, soAfter 14 60 overTick = .ok s ∧ toQ s.state.k = 100 + 1 / 2 ^ 17 := by
  refine ⟨overTick_ok.2.2, ?_⟩
  have h : (soAfter 14 60 overTick).map (fun s => toQ s.state.k) = .ok (100 + 1 / 2 ^ 17) := by decide +kernel
  cases hs : soAfter 14 60 overTick with
  | error e => rw [hs] at h; cases h
  | ok s => rw [hs] at h; exact ⟨s, rfl, Except.ok.inj h⟩

end Verif.Props
