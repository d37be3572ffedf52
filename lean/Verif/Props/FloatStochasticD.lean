import Verif.Props.FloatStochastic
import Verif.Props.FloatVariance

/-!
# C97: %D of the stochastic oscillator in binary32
-/

set_option linter.unusedSectionVars false

namespace Verif.Props
open FloatOps Spec FloatMoney FloatNN FloatVal FloatEma
open Fl (toQ IsFin)

section general
variable {F D : Type} [FloatOps F] [FloatOps D] [Wide F D]

/-- The starts of consecutive periods. -/
def Consecutive (P : ℤ) (l : List (OhlcTick F)) : Prop :=
  (∀ t ∈ l, periodStart P t.ts = t.ts) ∧ l.IsChain (fun a b => b.ts = a.ts + P)

theorem consecutive_sorted {P : ℤ} (hP : 0 < P) {l : List (OhlcTick F)} (h : Consecutive P l) :
    SortedBy OhlcTick.ts l := by
  unfold SortedBy
  refine List.IsChain.pairwise (R := fun a b : OhlcTick F => a.ts ≤ b.ts) ?_ 
  exact h.2.imp (fun a b e => by omega)

/-- Ticks at the starts of consecutive periods are their own aggregation. -/
theorem aggregate_consecutive {P : ℤ} (hP : 0 < P) (l : List (OhlcTick F)) (h : Consecutive P l) : aggregate P l = l := by
  have hs := consecutive_sorted hP h
  rw [← List.reverse_inj, ← foldl_aggStep hP l hs]
  induction l using List.reverseRecOn with
  | nil => rfl
  | append_singleton l t ih =>
    have hl : Consecutive P l := ⟨fun x hx => h.1 x (by simp [hx]), (List.isChain_append.mp h.2).1⟩
    rw [List.foldl_append, ih hl (consecutive_sorted hP hl), List.foldl_cons, List.foldl_nil, List.reverse_append]
    have ht := h.1 t (by simp)
    unfold aggStep
    rw [ht]
    rcases l.eq_nil_or_concat with rfl | ⟨l', a, rfl⟩
    · rw [List.reverse_nil, fillGaps_nil]; rfl
    · rw [List.concat_eq_append] at *
      have hab : t.ts = a.ts + P := (List.isChain_append.mp h.2).2.2 a (by simp) t (by simp)
      rw [List.reverse_append]
      simp only [List.reverse_cons, List.reverse_nil, List.nil_append, List.cons_append]
      rw [fillGaps_stop (by omega)]
      simp only
      rw [if_pos (by omega)]

theorem aggregate_is_consecutive {P : ℤ} (hP : 0 < P) (l : List (OhlcTick F)) : Consecutive P (aggregate P l) := by
  by_cases hne : l = []
  · subst hne; exact ⟨by simp [aggregate], by simp [aggregate]⟩
  · rw [aggregate_eq hne]
    constructor
    · intro t ht
      obtain ⟨i, _, rfl⟩ := List.mem_map.mp ht
      rw [aggTick_ts]
      unfold periodStart
      rw [← mul_add, Int.mul_ediv_cancel_left _ hP.ne']
    · rw [List.isChain_map]
      rw [List.isChain_iff_getElem]
      intro i hi
      simp only [List.getElem_range, aggTick_ts]
      push_cast; ring

theorem consecutive_take {P : ℤ} {l : List (OhlcTick F)} (h : Consecutive P l) (i : ℕ) : Consecutive P (l.take i) :=
  ⟨fun t ht => h.1 t (List.mem_of_mem_take ht), h.2.take i⟩

theorem prefixes_getElem? {α : Type} (l : List α) (i : ℕ) (hi : i < l.length) : (prefixes l)[i]? = some (l.take (i + 1)) := by
  unfold prefixes
  rw [List.getElem?_map, List.getElem?_range hi]; rfl

end general

/-- **C97**. In binary32, for ticks with finite prices of absolute value at most 2^100 and the close between low and
high, and fewer than 2^20 aggregated ticks: let `ks` and `fs` be what `GetK` and `GetFastD` return after each aggregated
tick. `GetFastD` is finite and within `(N+1)·101/2^21` of the mean of the last three elements of `ks`, and `GetSlowD` is
finite and within `(N+1)·152/2^21` of the mean of the last three elements of `fs`, where `N` is the number of
aggregated ticks. -/
theorem C97_stochastic_d (n period : ℤ) (hn : 0 < n) (hP : 0 < period) (l : List (OhlcTick F32)) (hl : Feedable l)
    (hr : RangesWithin (2 ^ 100) l) (hlen : (aggregate period l).length < 2 ^ 20) :
    ∃ ks fs : List F32, ks.length = (aggregate period l).length ∧ fs.length = (aggregate period l).length ∧
      (∀ i < (aggregate period l).length, ∃ p, soAfter n period ((aggregate period l).take (i + 1)) = .ok p ∧
        ks[i]? = some p.state.k ∧ fs[i]? = some (So.getFastD p.state)) ∧
      ∃ s, soAfter n period l = .ok s ∧
        IsFin (So.getFastD s.state) ∧
        |toQ (So.getFastD s.state) - mean (lastN 3 (ks.map toQ))| ≤
          (((aggregate period l).length + 1 : ℕ) : ℚ) * (101 / 2 ^ 21) ∧
        IsFin (So.getSlowD s.state) ∧
        |toQ (So.getSlowD s.state) - mean (lastN 3 (fs.map toQ))| ≤
          (((aggregate period l).length + 1 : ℕ) : ℚ) * (152 / 2 ^ 21) := by
  have hag : RangesWithin (2 ^ 100) (aggregate period l) := aggregate_kept (kept_range _) hP l hl.1 hl.2 hr
  have hcon := aggregate_is_consecutive hP l
  have hnn : ∀ t ∈ aggregate period l, 0 ≤ t.ts := by
    by_cases hne : l = []
    · subst hne; simp [aggregate]
    · rw [aggregate_eq hne]
      intro t ht
      obtain ⟨i, _, rfl⟩ := List.mem_map.mp ht
      rw [aggTick_ts]
      have h0 := hl.2 _ (List.head_mem hne)
      unfold periodStart
      have := Int.ediv_nonneg h0 hP.le
      positivity
  obtain ⟨s, h1, h2⟩ := soF_state n period hn hP l hl
  generalize aggregate period l = A at *
  -- the states after the prefixes
  have hpre : ∀ i < A.length, ∃ p, soAfter n period (A.take (i + 1)) = .ok p ∧
      p.state.k = kVal n (A.take (i + 1)) ∧ So.getFastD p.state = fVal n (A.take (i + 1)) ∧
      IsFin (kVal n (A.take (i + 1))) ∧ 0 ≤ toQ (kVal n (A.take (i + 1))) ∧
      toQ (kVal n (A.take (i + 1))) ≤ 100 + 1 / 2 ^ 17 := by
    intro i hi
    have hct := consecutive_take hcon (i + 1)
    have hf : Feedable (A.take (i + 1)) :=
      ⟨consecutive_sorted hP hct, fun t ht => hnn t (List.mem_of_mem_take ht)⟩
    have hne : A.take (i + 1) ≠ [] := by
      intro h0
      have := congrArg List.length h0
      rw [List.length_take, List.length_nil] at this
      omega
    obtain ⟨p, p1, -, -, -, -, p2, p3, p4⟩ := C89_stochastic n period hn hP _ hf hne
      (fun t ht => hag t (List.mem_of_mem_take ht))
    obtain ⟨p', q1, q2⟩ := soF_state n period hn hP _ hf
    rw [p1] at q1
    obtain rfl := Except.ok.inj q1
    rw [aggregate_consecutive hP _ hct] at q2
    have hk : p.state.k = kVal n (A.take (i + 1)) := by
      have ht := List.getLast?_eq_some_getLast hne
      generalize (A.take (i + 1)).getLast hne = t at ht
      rw [q2.k t ht]
      unfold kVal
      rw [q2.min, q2.max, ht]
    refine ⟨p, p1, hk, ?_, ?_⟩
    · unfold fVal; rw [q2.fast]; rfl
    · rw [← hk]; exact ⟨p2, p3, p4⟩
  have hkm : ∀ x ∈ kList n A, IsFin x ∧ |toQ x| ≤ 101 := by
    intro x hx
    unfold kList prefixes at hx
    obtain ⟨q, hq, rfl⟩ := List.mem_map.mp hx
    obtain ⟨i, hi, rfl⟩ := List.mem_map.mp hq
    obtain ⟨p, -, -, -, a, b, c⟩ := hpre i (List.mem_range.mp hi)
    refine ⟨a, ?_⟩
    rw [abs_of_nonneg b]; exact c.trans (by norm_num)
  have hklen : ∀ B : List (OhlcTick F32), (kList n B).length = B.length := by
    intro B; simp [kList, prefixes]
  have hflen : (fList n A).length = A.length := by simp [fList, prefixes]
  -- fast %D of a list of %K values
  have hfast : ∀ vs : List F32, (∀ x ∈ vs, IsFin x ∧ |toQ x| ≤ 101) → vs.length ≤ A.length → ∀ d : MeanVar F32,
      meanVarAfter 3 (adds vs) = .ok d → IsFin d.getMean ∧
      |toQ d.getMean - mean (lastN 3 (vs.map toQ))| ≤ ((A.length + 1 : ℕ) : ℚ) * (101 / 2 ^ 21) := by
    intro vs hvs hvl d hd
    obtain ⟨d', e1, e2, -, e3, -⟩ := C96_mean_variance 3 (by norm_num) 101 (by norm_num) (by norm_num) (adds vs) vs
      (values_adds vs) hvs (by omega)
    rw [hd] at e1
    obtain rfl := Except.ok.inj e1
    refine ⟨e2, e3.trans ?_⟩
    gcongr
  have hmean : ∀ vs : List F32, (∀ x ∈ vs, IsFin x ∧ |toQ x| ≤ 101) → |mean (lastN 3 (vs.map toQ))| ≤ 101 := by
    intro vs hvs
    have e : lastN 3 (vs.map toQ) = (lastN 3 vs).map toQ := by unfold lastN; rw [List.length_map, List.map_drop]
    rw [e]
    have hsub : ∀ x ∈ lastN 3 vs, Within 101 x := fun x hx => hvs x (List.mem_of_mem_drop hx)
    have := sum_within _ hsub
    unfold mean
    rw [List.length_map]
    rcases Nat.eq_zero_or_pos (lastN 3 vs).length with h0 | h0
    · rw [h0]; norm_num
    · have h0' : (0 : ℚ) < (lastN 3 vs).length := by exact_mod_cast h0
      rw [abs_div, abs_of_pos h0', div_le_iff₀ h0', mul_comm]; exact this
  have hN : ((A.length + 1 : ℕ) : ℚ) * (101 / 2 ^ 21) ≤ 51 := by
    have : ((A.length + 1 : ℕ) : ℚ) ≤ 2 ^ 20 := by exact_mod_cast (by omega : A.length + 1 ≤ 2 ^ 20)
    calc ((A.length + 1 : ℕ) : ℚ) * (101 / 2 ^ 21) ≤ 2 ^ 20 * (101 / 2 ^ 21) := by gcongr
      _ ≤ 51 := by norm_num
  have hfm : ∀ x ∈ fList n A, IsFin x ∧ |toQ x| ≤ 152 := by
    intro x hx
    unfold fList prefixes at hx
    obtain ⟨q, hq, rfl⟩ := List.mem_map.mp hx
    obtain ⟨i, hi, rfl⟩ := List.mem_map.mp hq
    have hsub : ∀ x ∈ kList n (A.take (i + 1)), IsFin x ∧ |toQ x| ≤ 101 := by
      intro x hx
      refine hkm x ?_
      unfold kList prefixes at hx ⊢
      obtain ⟨q, hq, rfl⟩ := List.mem_map.mp hx
      obtain ⟨j, hj, rfl⟩ := List.mem_map.mp hq
      rw [List.mem_range, List.length_take] at hj
      refine List.mem_map.mpr ⟨_, List.mem_map.mpr ⟨j, List.mem_range.mpr (by omega), rfl⟩, ?_⟩
      rw [List.take_take, show min (j + 1) (i + 1) = j + 1 by omega]
    obtain ⟨d, hd⟩ := meanVarAfter_ok 3 (kList n (A.take (i + 1)))
    obtain ⟨e1, e2⟩ := hfast _ hsub (by rw [hklen, List.length_take]; omega) d hd
    have e3 := hmean _ hsub
    have e : fVal n (A.take (i + 1)) = d.getMean := by unfold fVal; rw [hd]
    rw [e]
    refine ⟨e1, ?_⟩
    have := (abs_add_bound e2).1
    linarith
  refine ⟨kList n A, fList n A, hklen A, hflen, ?_, s, h1, ?_⟩
  · intro i hi
    obtain ⟨p, p1, p2, p3, -⟩ := hpre i hi
    refine ⟨p, p1, ?_, ?_⟩
    · unfold kList; rw [List.getElem?_map, prefixes_getElem? A i hi, p2]; rfl
    · unfold fList; rw [List.getElem?_map, prefixes_getElem? A i hi, p3]; rfl
  · obtain ⟨a1, a2⟩ := hfast _ hkm (by rw [hklen]) _ h2.fast
    obtain ⟨d, e1, e2, -, e3, -⟩ := C96_mean_variance 3 (by norm_num) 152 (by norm_num) (by norm_num) _ _
      (values_adds (fList n A)) hfm (by omega)
    rw [h2.slow] at e1
    obtain rfl := Except.ok.inj e1
    rw [hflen] at e3
    exact ⟨a1, a2, e2, e3⟩

/-! ### The hypotheses can be met -/

/-- Four ticks in three periods, one of them empty. -/
def soDTicks : List (OhlcTick F32) :=
  [⟨100, lit F32 1, lit F32 3, lit F32 1, lit F32 2, lit F32 1⟩,
   ⟨130, lit F32 2, lit F32 5, lit F32 2, lit F32 4, lit F32 1⟩,
   ⟨200, lit F32 4, lit F32 6, lit F32 3, lit F32 3, lit F32 1⟩,
   ⟨310, lit F32 3, lit F32 7, lit F32 3, lit F32 7, lit F32 1⟩]

theorem soDTicks_ok : Feedable soDTicks ∧ RangesWithin (2 ^ 100) soDTicks ∧ (aggregate 60 soDTicks).length = 5 := by
  refine ⟨by unfold Feedable SortedBy; decide +kernel, ?_, by decide +kernel⟩
  intro t ht
  simp only [soDTicks, List.mem_cons, List.not_mem_nil, or_false] at ht
  have f : ∀ q : ℚ, |q| ≤ 10 → IsFin (lit F32 q) := fun q h => ofRat_fin (h.trans (by norm_num))
  rcases ht with rfl | rfl | rfl | rfl <;>
    exact ⟨⟨f _ (by norm_num), by decide +kernel⟩, ⟨f _ (by norm_num), by decide +kernel⟩, f _ (by norm_num),
      by decide +kernel, by decide +kernel⟩

/-- The theorem applies to this history. -/
example := C97_stochastic_d 14 60 (by norm_num) (by norm_num) soDTicks soDTicks_ok.1 soDTicks_ok.2.1
  (by rw [soDTicks_ok.2.2]; norm_num)

end Verif.Props
