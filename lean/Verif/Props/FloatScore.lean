import Verif.Spec.FloatScore
import Verif.Lemmas.FloatScore
import Verif.Props.FloatEma
import Verif.Props.Score
import Verif.Props.FloatEvaluate

/-!
# C103: reported gains, averages and scores are accurate in float arithmetic
-/

set_option linter.unusedSectionVars false

namespace Verif.Props
open FloatOps Spec FloatMoney FloatNN FloatWide FloatScore
open Fl (toQ IsFin)

section
variable [Libm F32] [Libm F64]

/-! ### Gains -/

private theorem gain_rel {i : EvalInputs F32} {recs : Option (List (SideInputRecord F32))} (hside : SideOf recs i.side)
    {a b : ℤ} {p : Period F32} (hP : IsPeriod i a b p) (hne : windowTicks i.history a b ≠ []) (hm : Modest p) :
    IsFin p.finalGain ∧ Rel (54 / 10 / 16777216) (toQ p.finalGain) (exactGain p) := by
  obtain ⟨-, -, -, -, -, -, -, r8, r9, -⟩ := C33_result hside _ _ hne _ _ _ _ hP.result
  obtain ⟨s1, s2⟩ := value_rel hm.startQuote.1 hm.startPrice.1 hm.startBase.1 hm.startQuote.2.1 hm.startQuote.2.2
    (le_trans (by positivity) hm.startPrice.2.1) hm.startPrice.2.2 hm.startBase.2.1 hm.startBase.2.2 hm.startWorth
  obtain ⟨e1, e2⟩ := value_rel hm.endQuote.1 hm.endPrice.1 hm.endBase.1 hm.endQuote.2.1 hm.endQuote.2.2
    (le_trans (by positivity) hm.endPrice.2.1) hm.endPrice.2.2 hm.endBase.2.1 hm.endBase.2.2 hm.endWorth
  rw [← r8] at s1 s2
  rw [← r9] at e1 e2
  rw [hP.finalGain]
  exact quot_rel (c := 4201 / 1000 / 16777216) e1 s1 e2 s2 (le_trans (by positivity) hm.endWorth)
    (lt_of_lt_of_le (by positivity) hm.startWorth)
    (by norm_num) (by norm_num) (by norm_num) (by norm_num) (by norm_num) (by norm_num)
    (le_trans (by norm_num) hm.gain.1) (le_trans hm.gain.2 (by norm_num)) (by norm_num) (by norm_num)

private theorem exactBaseGain_bounds {p : Period F32} (hm : Modest p) :
    1 / 2 ^ 80 ≤ exactBaseGain p ∧ exactBaseGain p ≤ 2 ^ 80 := by
  have h1 := hm.startPrice.2
  have h2 := hm.endPrice.2
  have h3 : 0 < toQ p.result.startPrice := lt_of_lt_of_le (by positivity) h1.1
  unfold exactBaseGain
  constructor
  · rw [le_div_iff₀ h3]
    norm_num at *
    linarith
  · rw [div_le_iff₀ h3]
    norm_num at *
    linarith

private theorem base_rel {i : EvalInputs F32} {a b : ℤ} {p : Period F32} (hP : IsPeriod i a b p) (hm : Modest p) :
    IsFin p.baseFinalGain ∧ Rel (11 / 10 / 16777216) (toQ p.baseFinalGain) (exactBaseGain p) := by
  have h3 : 0 < toQ p.result.startPrice := lt_of_lt_of_le (by positivity) hm.startPrice.2.1
  obtain ⟨b1, b2⟩ := exactBaseGain_bounds hm
  have h0 : 0 < exactBaseGain p := lt_of_lt_of_le (by positivity) b1
  rw [hP.baseFinalGain]
  obtain ⟨d1, d2⟩ := div_fin hm.endPrice.1 hm.startPrice.1 h3.ne' (by
    change |exactBaseGain p| ≤ _
    rw [abs_of_pos h0]
    exact b2.trans (by norm_num))
  exact ⟨d1, rel_round d2 (le_trans (by norm_num) b1)⟩

/-- **C103** (gains). The reported gain of a period is within 2^-21 (relatively) of the ratio of what the account was worth
at the end and at the start, computed exactly from the reported balances and prices; the reported baseline gain is within
2^-23 of the exact ratio of the prices. -/
theorem C103_gains {recs : Option (List (SideInputRecord F32))} (i : EvalInputs F32) (hside : SideOf recs i.side)
    (hs : SortedBy OhlcTick.ts i.history) (log : Bool) {r : EvaluationResult F32} (h : (evaluateTrader i log).out = .ok r) :
    ∀ p ∈ r.periods, Modest p →
      IsFin p.finalGain ∧ |toQ p.finalGain - exactGain p| ≤ exactGain p / 2 ^ 21 ∧
      IsFin p.baseFinalGain ∧ |toQ p.baseFinalGain - exactBaseGain p| ≤ exactBaseGain p / 2 ^ 23 := by
  intro p hp hm
  obtain ⟨a, b, hP, hne⟩ := periods_are i hs log h p hp
  obtain ⟨g1, g2⟩ := gain_rel hside hP hne hm
  obtain ⟨b1, b2⟩ := base_rel hP hm
  have h1 : 0 ≤ exactGain p := le_trans (by positivity) hm.gain.1
  have h2 : 0 ≤ exactBaseGain p := le_trans (by positivity) (exactBaseGain_bounds hm).1
  refine ⟨g1, g2.abs.trans ?_, b1, b2.abs.trans ?_⟩
  · norm_num; linarith
  · norm_num; linarith

/-! ### Averages -/

private theorem sum_err {α : Type} (l : List α) (f : α → F32) :
    ∀ (k : ℕ) (S : F32) (s : ℚ), k + l.length ≤ 2 ^ 20 → IsFin S → 0 ≤ s → s ≤ k * 2 ^ 101 →
      |toQ S - s| ≤ 2 * k * (s / 16777216 + tinyQ) → (∀ x ∈ l, Between 0 (2 ^ 101) (f x)) →
      IsFin (l.foldl (fun s x => s +. f x) S) ∧ 0 ≤ s + (l.map (fun x => toQ (f x))).sum ∧
      s + (l.map (fun x => toQ (f x))).sum ≤ (k + l.length) * 2 ^ 101 ∧
      |toQ (l.foldl (fun s x => s +. f x) S) - (s + (l.map (fun x => toQ (f x))).sum)| ≤
        2 * (k + l.length) * ((s + (l.map (fun x => toQ (f x))).sum) / 16777216 + tinyQ) := by
  induction l with
  | nil =>
    intro k S s _ hS h0 hs he _
    simpa using ⟨hS, h0, hs, he⟩
  | cons x l ih =>
    intro k S s hk hS h0 hs he hall
    obtain ⟨x1, x2, x3⟩ := hall x (by simp)
    have ht0 := tinyQ_pos
    have ht1 : tinyQ ≤ 1 := by unfold tinyQ; norm_num
    rw [List.length_cons] at hk
    have hkq : (k : ℚ) ≤ 2 ^ 20 := by exact_mod_cast (by omega : k ≤ 2 ^ 20)
    have hk0 : (0 : ℚ) ≤ k := Nat.cast_nonneg k
    have hs' : s ≤ 2 ^ 20 * 2 ^ 101 := hs.trans (by gcongr)
    have hA : 0 ≤ s / 16777216 + tinyQ := by positivity
    have he1 : |toQ S - s| ≤ 2 * 2 ^ 20 * (s / 16777216 + tinyQ) := he.trans (by gcongr)
    have hb := abs_le.mp he1
    have hsx : |toQ S + toQ (f x)| ≤ 2 ^ 127 := by
      rw [abs_le]; norm_num at *; constructor <;> linarith
    obtain ⟨a1, a2⟩ := add_fin hS x1 hsx
    have hnew : |toQ (S +. f x) - (s + toQ (f x))| ≤ 2 * ((k + 1 : ℕ) : ℚ) * ((s + toQ (f x)) / 16777216 + tinyQ) := by
      have e1 : |toQ (S +. f x) - (s + toQ (f x))| ≤ |toQ (S +. f x) - (toQ S + toQ (f x))| + |toQ S - s| := by
        rw [show toQ (S +. f x) - (s + toQ (f x)) = (toQ (S +. f x) - (toQ S + toQ (f x))) + (toQ S - s) by ring]
        exact abs_add_le _ _
      have e2 : |toQ S + toQ (f x)| ≤ (s + toQ (f x)) + |toQ S - s| := by
        rw [show toQ S + toQ (f x) = (s + toQ (f x)) + (toQ S - s) by ring]
        exact (abs_add_le _ _).trans (by rw [abs_of_nonneg (add_nonneg h0 x2)])
      have e3 : 2 * (k : ℚ) * (s / 16777216 + tinyQ) ≤ 2 * k * ((s + toQ (f x)) / 16777216 + tinyQ) := by
        gcongr; linarith
      have e4 : |toQ S - s| ≤ 2 * 2 ^ 20 * ((s + toQ (f x)) / 16777216 + tinyQ) :=
        he1.trans (by gcongr; linarith)
      have e5 := he.trans e3
      push_cast
      rw [show 2 * ((k : ℚ) + 1) * ((s + toQ (f x)) / 16777216 + tinyQ) = 2 * k * ((s + toQ (f x)) / 16777216 + tinyQ) +
        2 * ((s + toQ (f x)) / 16777216 + tinyQ) by ring]
      have e6 := add_nonneg h0 x2
      generalize 2 * (k : ℚ) * ((s + toQ (f x)) / 16777216 + tinyQ) = K at *
      clear hb e3 he he1 ih hs hs' hsx
      generalize s + toQ (f x) = T at *
      norm_num at *
      linarith
    have hs2 : s + toQ (f x) ≤ ((k + 1 : ℕ) : ℚ) * 2 ^ 101 := by push_cast; linarith
    have := ih (k + 1) (S +. f x) (s + toQ (f x)) (by omega) a1 (add_nonneg h0 x2) hs2 hnew
      (fun y hy => hall y (by simp [hy]))
    rw [List.foldl_cons, List.map_cons, List.sum_cons, List.length_cons]
    rw [← add_assoc]
    push_cast at this ⊢
    rw [show (k : ℚ) + (l.length + 1) = k + 1 + l.length by ring]
    exact this

private theorem avg_err {α : Type} (l : List α) (hl : l ≠ []) (hn : l.length ≤ 2 ^ 20) (f : α → F32)
    (hf : ∀ x ∈ l, Between 0 (2 ^ 101) (f x)) :
    IsFin (getAverage l f) ∧ |toQ (getAverage l f) - (l.map (fun x => toQ (f x))).sum / l.length| ≤
      (l.map (fun x => toQ (f x))).sum / l.length * l.length / 2 ^ 22 + 1 / 2 ^ 148 := by
  have hn0 : (0 : ℚ) < l.length := by exact_mod_cast List.length_pos_iff.mpr hl
  have hn1 : (1 : ℚ) ≤ l.length := by exact_mod_cast List.length_pos_iff.mpr hl
  have hnq : (l.length : ℚ) ≤ 2 ^ 20 := by exact_mod_cast hn
  obtain ⟨s1, s2, s3, s4⟩ := sum_err l f 0 (lit F32 0) 0 (by omega) trivial le_rfl (by norm_num)
    (by change |(0 : ℚ) - 0| ≤ _; norm_num) hf
  have ht0 := tinyQ_pos
  have ht : 4 * tinyQ = 1 / 2 ^ 148 := by unfold tinyQ; norm_num
  simp only [zero_add, Nat.cast_zero] at s2 s3 s4
  obtain ⟨n1, n2⟩ := lit_int (n := (l.length : ℤ)) (by
    rw [abs_of_nonneg (by positivity)]
    have : ((l.length : ℤ)) ≤ 2 ^ 20 := by exact_mod_cast hn
    exact lt_of_le_of_lt this (by norm_num))
  push_cast at n1 n2
  unfold getAverage
  rw [if_neg (by simpa using hl)]
  generalize l.foldl (fun s x => s +. f x) (lit F32 0) = S at *
  generalize (l.map (fun x => toQ (f x))).sum = s at *
  generalize hN : (l.length : ℚ) = n at *
  have q1 : |toQ S / n - s / n| ≤ 2 * n * (s / n / 16777216) + 2 * tinyQ := by
    rw [← sub_div, abs_div, abs_of_pos hn0, div_le_iff₀ hn0]
    refine s4.trans (le_of_eq ?_)
    field_simp
  have hmean : s / n ≤ 2 ^ 101 := by rw [div_le_iff₀ hn0]; linarith
  have hm0 : 0 ≤ s / n := div_nonneg s2 hn0.le
  have q2 : 2 * n * (s / n / 16777216) ≤ 2 * 2 ^ 20 * (s / n / 16777216) := by gcongr
  have q3 : |toQ S / n| ≤ s / n + |toQ S / n - s / n| := by
    rw [show toQ S / n = s / n + (toQ S / n - s / n) by ring]
    refine (abs_add_le _ _).trans ?_
    rw [abs_of_nonneg hm0]
    simp
  have q4 : 1 * (s / n) ≤ n * (s / n) := mul_le_mul_of_nonneg_right hn1 hm0
  have ht1 : tinyQ ≤ 1 := by unfold tinyQ; norm_num
  obtain ⟨d1, d2⟩ := div_fin s1 n1 (by rw [n2]; exact hn0.ne') (by
    rw [n2]
    refine q3.trans ?_
    norm_num at *
    linarith)
  refine ⟨d1, ?_⟩
  rw [n2] at d2
  have e1 : |toQ (S /. lit F32 n) - s / n| ≤ |toQ (S /. lit F32 n) - toQ S / n| + |toQ S / n - s / n| := by
    rw [show toQ (S /. lit F32 n) - s / n = (toQ (S /. lit F32 n) - toQ S / n) + (toQ S / n - s / n) by ring]
    exact abs_add_le _ _
  rw [← ht]
  rw [show 2 * n * (s / n / 16777216) = n * (s / n) * (2 / 16777216) by ring] at q1 q2
  rw [show s / n * n / 2 ^ 22 = n * (s / n) * (4 / 16777216) by ring]
  generalize n * (s / n) = NM at *
  generalize s / n = M at *
  clear s4 s3 s2
  norm_num at *
  linarith

private theorem map_sum_close {α : Type} (l : List α) (f g : α → ℚ) (η : ℚ) (h : ∀ x ∈ l, |f x - g x| ≤ η * g x) :
    |(l.map f).sum - (l.map g).sum| ≤ η * (l.map g).sum := by
  induction l with
  | nil => simp
  | cons x l ih =>
    have h1 := h x (by simp)
    have h2 := ih (fun y hy => h y (by simp [hy]))
    simp only [List.map_cons, List.sum_cons]
    rw [show f x + (l.map f).sum - (g x + (l.map g).sum) = (f x - g x) + ((l.map f).sum - (l.map g).sum) by ring, mul_add]
    exact (abs_add_le _ _).trans (add_le_add h1 h2)

private theorem summary_is {i : EvalInputs F32} {log : Bool} {r : EvaluationResult F32} (h : (evaluateTrader i log).out = .ok r) :
    getGeometricAverage r.periods (fun p => p.finalGain /. p.baseFinalGain) = .ok r.score ∧
    r.avgGain = getAverage r.periods (fun p => p.finalGain) ∧
    r.avgBaseGain = getAverage r.periods (fun p => p.baseFinalGain) ∧
    r.avgTotalExecutedOrders = getAverage r.periods (fun p => lit F32 p.result.totalExecutedOrders) ∧
    r.avgTotalFee = getAverage r.periods (fun p => p.result.totalFee) := by
  rw [evaluateTrader_out] at h
  cases hl : (evalLoop i log (2 ^ 31) 0 []).out with
  | error e => rw [hl] at h; cases h
  | ok ps =>
    rw [hl] at h
    have h : summarise i ps = .ok r := h
    have hps := (summarise_fields i h).2.2.2
    rw [hps]
    unfold summarise at h
    simp only [bind, Except.bind, pure, Except.pure] at h
    cases hg : getGeometricAverage ps (fun p => p.finalGain /. p.baseFinalGain) with
    | error e => rw [hg] at h; cases h
    | ok x =>
      rw [hg] at h
      cases h
      exact ⟨rfl, rfl, rfl, rfl, rfl⟩

private theorem mean_exact {l : List (Period F32)} (hl : l ≠ []) (hn : l.length ≤ 2 ^ 20) (f : Period F32 → F32) (g : Period F32 → ℚ)
    (η c : ℚ) (hη : 0 ≤ η) (hc : η * 2 ^ 22 + 2 ^ 20 * η ≤ c) (hf : ∀ p ∈ l, IsFin (f p) ∧ Rel η (toQ (f p)) (g p))
    (hη1 : η ≤ 1) (hg : ∀ p ∈ l, 0 ≤ g p ∧ g p ≤ 2 ^ 100) :
    IsFin (getAverage l f) ∧ |toQ (getAverage l f) - periodMean l g| ≤ periodMean l g * (l.length + c) / 2 ^ 22 + 1 / 2 ^ 148 := by
  have hn0 : (0 : ℚ) < l.length := by exact_mod_cast List.length_pos_iff.mpr hl
  have hnq : (l.length : ℚ) ≤ 2 ^ 20 := by exact_mod_cast hn
  have hb : ∀ p ∈ l, Between 0 (2 ^ 101) (f p) := by
    intro p hp
    obtain ⟨a, b, c⟩ := hf p hp
    obtain ⟨d, e⟩ := hg p hp
    refine ⟨a, le_trans (mul_nonneg (by linarith) d) b, c.trans ?_⟩
    calc (1 + η) * g p ≤ (1 + 1) * 2 ^ 100 := by gcongr
      _ = 2 ^ 101 := by norm_num
  obtain ⟨a1, a2⟩ := avg_err l hl hn f hb
  refine ⟨a1, ?_⟩
  have hsum := map_sum_close l (fun p => toQ (f p)) g η (fun p hp => (hf p hp).2.abs)
  have hg0 : 0 ≤ (l.map g).sum := List.sum_nonneg (by
    intro x hx
    obtain ⟨p, hp, rfl⟩ := List.mem_map.mp hx
    exact (hg p hp).1)
  unfold periodMean
  generalize (l.map (fun p => toQ (f p))).sum = s at *
  generalize (l.map g).sum = S at *
  generalize hN : (l.length : ℚ) = n at *
  have h1 : |s / n - S / n| ≤ η * (S / n) := by
    rw [← sub_div, abs_div, abs_of_pos hn0, div_le_iff₀ hn0]
    refine hsum.trans (le_of_eq ?_)
    field_simp
  have hM : 0 ≤ S / n := div_nonneg hg0 hn0.le
  have h2 : s / n ≤ (1 + η) * (S / n) := by linarith [(abs_le.mp h1).2]
  have h3 : s / n * n / 2 ^ 22 ≤ (1 + η) * (S / n) * n / 2 ^ 22 := by gcongr
  have h4 : |toQ (getAverage l f) - S / n| ≤ |toQ (getAverage l f) - s / n| + |s / n - S / n| := by
    rw [show toQ (getAverage l f) - S / n = (toQ (getAverage l f) - s / n) + (s / n - S / n) by ring]
    exact abs_add_le _ _
  have h5 : (S / n) * (η * 2 ^ 22 + n * η) ≤ (S / n) * c := by
    apply mul_le_mul_of_nonneg_left _ hM
    refine le_trans ?_ hc
    gcongr
  have h6 : (1 + η) * (S / n) * n / 2 ^ 22 + η * (S / n) = (S / n * n + S / n * (η * 2 ^ 22 + n * η)) / 2 ^ 22 := by ring
  have h7 : S / n * (n + c) / 2 ^ 22 = (S / n * n + S / n * c) / 2 ^ 22 := by ring
  rw [h7]
  have h8 : (S / n * n + S / n * (η * 2 ^ 22 + n * η)) / 2 ^ 22 ≤ (S / n * n + S / n * c) / 2 ^ 22 := by
    apply div_le_div_of_nonneg_right _ (by positivity)
    linarith
  linarith

/-- **C103** (averages). Over `n` periods (at most 2^20) the reported average gain and average baseline gain are within a
relative (n + 2) 2^-22 of the means of the exact gains, and the average fee and the average number of executed orders are
within n 2^-22 of the means of the reported values (up to 2^-148 for underflow). -/
theorem C103_averages {recs : Option (List (SideInputRecord F32))} (i : EvalInputs F32) (hside : SideOf recs i.side)
    (hs : SortedBy OhlcTick.ts i.history) (log : Bool) {r : EvaluationResult F32} (h : (evaluateTrader i log).out = .ok r)
    (hne : r.periods ≠ []) (hn : r.periods.length ≤ 2 ^ 20) :
    ((∀ p ∈ r.periods, Modest p) →
      IsFin r.avgGain ∧ |toQ r.avgGain - periodMean r.periods exactGain| ≤
        periodMean r.periods exactGain * (r.periods.length + 2) / 2 ^ 22 + 1 / 2 ^ 148 ∧
      IsFin r.avgBaseGain ∧ |toQ r.avgBaseGain - periodMean r.periods exactBaseGain| ≤
        periodMean r.periods exactBaseGain * (r.periods.length + 1) / 2 ^ 22 + 1 / 2 ^ 148) ∧
    ((∀ p ∈ r.periods, Between 0 (2 ^ 100) p.result.totalFee) →
      IsFin r.avgTotalFee ∧ |toQ r.avgTotalFee - periodMean r.periods (fun p => toQ p.result.totalFee)| ≤
        periodMean r.periods (fun p => toQ p.result.totalFee) * r.periods.length / 2 ^ 22 + 1 / 2 ^ 148) ∧
    ((∀ p ∈ r.periods, p.result.totalExecutedOrders < 2 ^ 24) →
      IsFin r.avgTotalExecutedOrders ∧
      |toQ r.avgTotalExecutedOrders - periodMean r.periods (fun p => p.result.totalExecutedOrders)| ≤
        periodMean r.periods (fun p => p.result.totalExecutedOrders) * r.periods.length / 2 ^ 22 + 1 / 2 ^ 148) := by
  obtain ⟨-, e1, e2, e3, e4⟩ := summary_is h
  have hall := periods_are i hs log h
  rw [e1, e2, e3, e4]
  refine ⟨fun hm => ?_, fun hf => ?_, fun ho => ?_⟩
  · have g := mean_exact hne hn (fun p => p.finalGain) exactGain (54 / 10 / 16777216) 2 (by norm_num) (by norm_num)
      (fun p hp => by
        obtain ⟨a, b, hP, hw⟩ := hall p hp
        exact gain_rel hside hP hw (hm p hp)) (by norm_num)
      (fun p hp => ⟨le_trans (by positivity) (hm p hp).gain.1, (hm p hp).gain.2⟩)
    have b := mean_exact hne hn (fun p => p.baseFinalGain) exactBaseGain (11 / 10 / 16777216) 1 (by norm_num) (by norm_num)
      (fun p hp => by
        obtain ⟨a, b, hP, hw⟩ := hall p hp
        exact base_rel hP (hm p hp)) (by norm_num)
      (fun p hp => ⟨le_trans (by positivity) (exactBaseGain_bounds (hm p hp)).1,
        (exactBaseGain_bounds (hm p hp)).2.trans (by norm_num)⟩)
    exact ⟨g.1, g.2, b.1, b.2⟩
  · exact avg_err r.periods hne hn (fun p => p.result.totalFee)
      (fun p hp => ⟨(hf p hp).1, (hf p hp).2.1, (hf p hp).2.2.trans (by norm_num)⟩)
  · have hx : ∀ p ∈ r.periods, IsFin (lit F32 p.result.totalExecutedOrders) ∧
        toQ (lit F32 p.result.totalExecutedOrders) = p.result.totalExecutedOrders := by
      intro p hp
      have := lit_int (n := (p.result.totalExecutedOrders : ℤ)) (by
        rw [abs_of_nonneg (by positivity)]; exact_mod_cast ho p hp)
      push_cast at this
      exact this
    have := avg_err r.periods hne hn (fun p => lit F32 p.result.totalExecutedOrders) (fun p hp => by
      obtain ⟨a, b⟩ := hx p hp
      refine ⟨a, by rw [b]; positivity, ?_⟩
      rw [b]
      have : (p.result.totalExecutedOrders : ℚ) < 2 ^ 24 := by exact_mod_cast ho p hp
      exact this.le.trans (by norm_num))
    rw [show r.periods.map (fun p => toQ (lit F32 (p.result.totalExecutedOrders : ℚ))) =
      r.periods.map (fun p => (p.result.totalExecutedOrders : ℚ)) from List.map_congr_left (fun p hp => (hx p hp).2)] at this
    exact this

/-! ### Score -/

private theorem pow_near {k : ℕ} (hk : k ≤ 1000) :
    (1 / 2 : ℚ) ≤ (1 - 8 / 16777216) ^ k ∧ (1 + 8 / 16777216 : ℚ) ^ k ≤ 2 := by
  have hk' : (k : ℚ) ≤ 1000 := by exact_mod_cast hk
  have h1 : (1 / 2 : ℚ) ≤ (1 - 8 / 16777216) ^ k := by
    have := one_add_mul_le_pow (a := (-(8 / 16777216) : ℚ)) (by norm_num) k
    rw [← sub_eq_add_neg] at this
    refine le_trans ?_ this
    norm_num
    linarith
  refine ⟨h1, ?_⟩
  have h2 : (1 + 8 / 16777216 : ℚ) ^ k * (1 - 8 / 16777216) ^ k ≤ 1 := by
    rw [← mul_pow]
    exact pow_le_one₀ (by norm_num) (by norm_num)
  have h3 : (0 : ℚ) ≤ (1 + 8 / 16777216) ^ k := by positivity
  nlinarith

/-- The product of the ratios in binary64. -/
private theorem prod_err {α : Type} (l : List α) (f : α → F32) (g : α → ℚ) (m : ℕ) (hm : m ≤ 100) (hm0 : 0 < m) :
    ∀ (k : ℕ) (P : F64) (Q : ℚ), (k + l.length) * m ≤ 900 → IsFin P → (1 / 2 ^ m) ^ k ≤ Q → Q ≤ (2 ^ m) ^ k →
      (1 - 8 / 16777216) ^ k * Q ≤ toQ P → toQ P ≤ (1 + 8 / 16777216) ^ k * Q →
      (∀ x ∈ l, IsFin (f x) ∧ Rel (77 / 10 / 16777216) (toQ (f x)) (g x) ∧ 1 / 2 ^ m ≤ g x ∧ g x ≤ 2 ^ m) →
      IsFin (l.foldl (fun s x => s *. Wide.widen (f x)) P) ∧
      (1 / 2 ^ m) ^ (k + l.length) ≤ Q * (l.map g).prod ∧ Q * (l.map g).prod ≤ (2 ^ m) ^ (k + l.length) ∧
      (1 - 8 / 16777216) ^ (k + l.length) * (Q * (l.map g).prod) ≤ toQ (l.foldl (fun s x => s *. Wide.widen (f x)) P) ∧
      toQ (l.foldl (fun s x => s *. Wide.widen (f x)) P) ≤ (1 + 8 / 16777216) ^ (k + l.length) * (Q * (l.map g).prod) := by
  induction l with
  | nil =>
    intro k P Q _ hP q1 q2 p1 p2 _
    simpa using ⟨hP, by simpa using q1, q2, p1, p2⟩
  | cons x l ih =>
    intro k P Q hk hP q1 q2 p1 p2 hall
    obtain ⟨x1, x2, x3, x4⟩ := hall x (by simp)
    rw [List.length_cons] at hk
    have hk9 : (k + 1) * m ≤ 900 := le_trans (Nat.mul_le_mul_right m (by omega)) hk
    have hk1 : k + 1 ≤ 900 := le_trans (Nat.le_mul_of_pos_right _ hm0) hk9
    have hQ0 : 0 < Q := lt_of_lt_of_le (by positivity) q1
    have hg0 : 0 < g x := lt_of_lt_of_le (by positivity) x3
    have q1' : (1 / 2 ^ m : ℚ) ^ (k + 1) ≤ Q * g x := by rw [pow_succ]; gcongr
    have q2' : Q * g x ≤ (2 ^ m : ℚ) ^ (k + 1) := by rw [pow_succ]; gcongr
    have hgm : g x ≤ 2 ^ 100 := x4.trans (pow_le_pow_right₀ (by norm_num) hm)
    have hgl : 1 / 2 ^ 100 ≤ g x := le_trans (by
      apply one_div_le_one_div_of_le (by positivity)
      exact pow_le_pow_right₀ (by norm_num) hm) x3
    -- the widened factor
    have hfx0 : 0 < toQ (f x) := lt_of_lt_of_le (mul_pos (by norm_num) hg0) x2.1
    have hfx1 : toQ (f x) ≤ 2 * g x := x2.2.trans (mul_le_mul_of_nonneg_right (by norm_num) hg0.le)
    have hfx2 : 1 / 2 * g x ≤ toQ (f x) := le_trans (mul_le_mul_of_nonneg_right (by norm_num) hg0.le) x2.1
    obtain ⟨w1, w2⟩ := widen_fin x1 (by rw [abs_of_pos hfx0]; norm_num at *; linarith)
    have w3 : Rel (1 / 2 ^ 45) (toQ (Wide.widen (f x) : F64)) (toQ (f x)) := by
      apply Rel.of_abs
      refine w2.trans ?_
      rw [abs_of_pos hfx0]
      norm_num at *
      linarith
    have w4 : Rel (771 / 100 / 16777216) (toQ (Wide.widen (f x) : F64)) (g x) :=
      Rel.trans w3 x2 hg0.le (by norm_num) (by norm_num) (by norm_num) (by norm_num)
    -- ranges
    obtain ⟨n1, n2⟩ := pow_near (k := k) (by omega)
    obtain ⟨n1', n2'⟩ := pow_near (k := k + 1) (by omega)
    have hB : (2 ^ m : ℚ) ^ (k + 1) ≤ 2 ^ 900 := by
      rw [← pow_mul, mul_comm]; exact pow_le_pow_right₀ (by norm_num) hk9
    have hL : (1 / 2 ^ 900 : ℚ) ≤ (1 / 2 ^ m) ^ (k + 1) := by
      rw [div_pow, one_pow]; exact one_div_le_one_div_of_le (by positivity) hB
    have hQg0 : 0 < Q * g x := mul_pos hQ0 hg0
    generalize hw : (Wide.widen (f x) : F64) = w at *
    have hw0 : 0 < toQ w := lt_of_lt_of_le (mul_pos (by norm_num) hg0) w4.1
    have hP0 : 0 < toQ P := lt_of_lt_of_le (mul_pos (lt_of_lt_of_le (by norm_num) n1) hQ0) p1
    have hlo : (1 - 771 / 100 / 16777216) * (1 - 8 / 16777216) ^ k * (Q * g x) ≤ toQ P * toQ w := by
      calc _ = ((1 - 8 / 16777216) ^ k * Q) * ((1 - 771 / 100 / 16777216) * g x) := by ring
        _ ≤ _ := mul_le_mul p1 w4.1 (mul_nonneg (by norm_num) hg0.le) hP0.le
    have hhi : toQ P * toQ w ≤ (1 + 771 / 100 / 16777216) * (1 + 8 / 16777216) ^ k * (Q * g x) := by
      calc _ ≤ ((1 + 8 / 16777216) ^ k * Q) * ((1 + 771 / 100 / 16777216) * g x) := mul_le_mul p2 w4.2 hw0.le (le_trans hP0.le p2)
        _ = _ := by ring
    have hlo' : 1 / 4 * (Q * g x) ≤ toQ P * toQ w := by
      refine le_trans (mul_le_mul_of_nonneg_right ?_ hQg0.le) hlo
      calc (1 / 4 : ℚ) ≤ 1 / 2 * (1 / 2) := by norm_num
        _ ≤ _ := mul_le_mul (by norm_num) n1 (by norm_num) (by norm_num)
    have hhi' : toQ P * toQ w ≤ 4 * (Q * g x) := by
      refine le_trans hhi (mul_le_mul_of_nonneg_right ?_ hQg0.le)
      calc _ ≤ (2 : ℚ) * 2 := mul_le_mul (by norm_num) n2 (by positivity) (by norm_num)
        _ = 4 := by norm_num
    have hr1 : (1 : ℚ) / 2 ^ 1000 ≤ toQ P * toQ w := by
      refine le_trans ?_ hlo'
      refine le_trans ?_ (mul_le_mul_of_nonneg_left (hL.trans q1') (by norm_num))
      rw [show (1000 : ℕ) = 900 + 100 by norm_num, pow_add, ← one_div_mul_one_div, mul_comm]
      apply mul_le_mul_of_nonneg_right _ (by positivity)
      norm_num
    have hr2 : toQ P * toQ w ≤ 2 ^ 1000 := by
      refine hhi'.trans (le_trans (mul_le_mul_of_nonneg_left (q2'.trans hB) (by norm_num)) ?_)
      rw [show (1000 : ℕ) = 900 + 100 by norm_num, pow_add, mul_comm]
      apply mul_le_mul_of_nonneg_left _ (by positivity)
      norm_num
    obtain ⟨m1, m2⟩ := mul_rel64 hP w1 hr1 hr2
    have p1' : (1 - 8 / 16777216) ^ (k + 1) * (Q * g x) ≤ toQ (P *. w) := by
      refine le_trans ?_ m2.1
      refine le_trans ?_ (mul_le_mul_of_nonneg_left hlo (by norm_num))
      rw [pow_succ (1 - 8 / 16777216 : ℚ) k]
      have : (0 : ℚ) ≤ (1 - 8 / 16777216) ^ k * (Q * g x) := mul_nonneg (le_trans (by norm_num) n1) hQg0.le
      calc (1 - 8 / 16777216 : ℚ) ^ k * (1 - 8 / 16777216) * (Q * g x)
          = (1 - 8 / 16777216) * ((1 - 8 / 16777216) ^ k * (Q * g x)) := by ring
        _ ≤ ((1 - 1 / 2 ^ 52) * (1 - 771 / 100 / 16777216)) * ((1 - 8 / 16777216) ^ k * (Q * g x)) :=
            mul_le_mul_of_nonneg_right (by norm_num) this
        _ = _ := by ring
    have p2' : toQ (P *. w) ≤ (1 + 8 / 16777216) ^ (k + 1) * (Q * g x) := by
      refine le_trans m2.2 ?_
      refine le_trans (mul_le_mul_of_nonneg_left hhi (by norm_num)) ?_
      rw [pow_succ (1 + 8 / 16777216 : ℚ) k]
      have : (0 : ℚ) ≤ (1 + 8 / 16777216) ^ k * (Q * g x) := by positivity
      calc (1 + 1 / 2 ^ 52 : ℚ) * ((1 + 771 / 100 / 16777216) * (1 + 8 / 16777216) ^ k * (Q * g x))
          = ((1 + 1 / 2 ^ 52) * (1 + 771 / 100 / 16777216)) * ((1 + 8 / 16777216) ^ k * (Q * g x)) := by ring
        _ ≤ (1 + 8 / 16777216) * ((1 + 8 / 16777216) ^ k * (Q * g x)) :=
            mul_le_mul_of_nonneg_right (by norm_num) this
        _ = _ := by ring
    have := ih (k + 1) (P *. w) (Q * g x) (by rwa [show k + 1 + l.length = k + (l.length + 1) by omega]) m1 q1' q2' p1' p2'
      (fun y hy => hall y (by simp [hy]))
    rw [List.foldl_cons, List.map_cons, List.prod_cons, List.length_cons, ← mul_assoc,
      show k + (l.length + 1) = k + 1 + l.length by omega]
    rw [hw]
    exact this

private theorem castR {a b : ℚ} {x y : ℝ} (h : a ≤ b) (ha : (a : ℝ) = x) (hb : (b : ℝ) = y) : x ≤ y := by
  rw [← ha, ← hb]; exact Rat.cast_le.mpr h

private theorem ratio_rel {i : EvalInputs F32} {recs : Option (List (SideInputRecord F32))} (hside : SideOf recs i.side)
    {a b : ℤ} {p : Period F32} (hP : IsPeriod i a b p) (hne : windowTicks i.history a b ≠ []) (hm : Modest p)
    (h1 : 1 / 2 ^ 100 ≤ exactRatio p) (h2 : exactRatio p ≤ 2 ^ 100) :
    IsFin (p.finalGain /. p.baseFinalGain) ∧
      Rel (77 / 10 / 16777216) (toQ (p.finalGain /. p.baseFinalGain)) (exactRatio p) := by
  obtain ⟨g1, g2⟩ := gain_rel hside hP hne hm
  obtain ⟨b1, b2⟩ := base_rel hP hm
  exact quot_rel (c := 651 / 100 / 16777216) g1 b1 g2 b2 (le_trans (by positivity) hm.gain.1)
    (lt_of_lt_of_le (by positivity) (exactBaseGain_bounds hm).1) (by norm_num) (by norm_num) (by norm_num) (by norm_num)
    (by norm_num) (by norm_num) (le_trans (by norm_num) h1) (le_trans h2 (by norm_num)) (by norm_num) (by norm_num)

/-- The `n`-th root keeps the relative error of the factors. -/
private theorem root_rel {A Q η : ℝ} {n : ℕ} (hn : n ≠ 0) (hη0 : 0 ≤ η) (hη1 : η ≤ 1) (hQ : 0 < Q)
    (h1 : (1 - η) ^ n * Q ≤ A) (h2 : A ≤ (1 + η) ^ n * Q) :
    Rel η (A ^ (1 / (n : ℝ))) (Q ^ (1 / (n : ℝ))) := by
  have hn' : (0 : ℝ) ≤ 1 / (n : ℝ) := by positivity
  have key : ∀ y : ℝ, 0 ≤ y → (y ^ n * Q) ^ (1 / (n : ℝ)) = y * Q ^ (1 / (n : ℝ)) := by
    intro y hy
    rw [Real.mul_rpow (pow_nonneg hy _) hQ.le, one_div, Real.pow_rpow_inv_natCast hy hn]
  have h0 : 0 ≤ (1 - η) ^ n * Q := mul_nonneg (pow_nonneg (by linarith) _) hQ.le
  constructor
  · rw [← key _ (by linarith)]
    exact Real.rpow_le_rpow h0 h1 hn'
  · rw [← key _ (by linarith)]
    exact Real.rpow_le_rpow (h0.trans h1) h2 hn'

/-- A tiny change of the exponent hardly matters. -/
private theorem exponent_rel {A y z : ℝ} (hA1 : 1 / 2 ^ 1000 ≤ A) (hA2 : A ≤ 2 ^ 1000) (hyz : |y - z| ≤ 1 / 2 ^ 49) :
    Rel (1 / 2 ^ 38) (A ^ y) (A ^ z) := by
  have hA0 : 0 < A := lt_of_lt_of_le (by positivity) hA1
  have hlog2 : Real.log 2 ≤ 1 := by
    have := Real.log_le_sub_one_of_pos (show (0 : ℝ) < 2 by norm_num)
    linarith
  have hlog0 : 0 ≤ Real.log 2 := Real.log_nonneg (by norm_num)
  have hl : |Real.log A| ≤ 1000 := by
    rw [abs_le]
    constructor
    · have := Real.log_le_log (by positivity) hA1
      rw [one_div, Real.log_inv, Real.log_pow] at this
      push_cast at this
      linarith
    · have := Real.log_le_log hA0 hA2
      rw [Real.log_pow] at this
      push_cast at this
      linarith
  have e : A ^ y = A ^ (y - z) * A ^ z := by rw [← Real.rpow_add hA0]; ring_nf
  have hz : 0 < A ^ z := Real.rpow_pos_of_pos hA0 _
  have hd : |Real.log A * (y - z)| ≤ 1 / 2 ^ 39 := by
    rw [abs_mul]
    calc |Real.log A| * |y - z| ≤ 1000 * (1 / 2 ^ 49) := by gcongr
      _ ≤ _ := by norm_num
  have hb := abs_le.mp hd
  rw [e, Real.rpow_def_of_pos hA0 (y - z)]
  generalize Real.log A * (y - z) = d at *
  have l := Real.add_one_le_exp d
  have u := Real.add_one_le_exp (-d)
  rw [Real.exp_neg] at u
  have hE := Real.exp_pos d
  have hu : Real.exp d ≤ 1 + 1 / 2 ^ 38 := by
    have h1 : (-d + 1) * Real.exp d ≤ 1 := by
      calc (-d + 1) * Real.exp d ≤ (Real.exp d)⁻¹ * Real.exp d := by gcongr
        _ = 1 := inv_mul_cancel₀ hE.ne'
    have h2 : (1 - 1 / 2 ^ 39) * Real.exp d ≤ 1 := by
      refine le_trans ?_ h1
      gcongr
      linarith
    norm_num at h2 ⊢
    linarith
  constructor
  · exact mul_le_mul_of_nonneg_right (by norm_num at *; linarith) hz.le
  · exact mul_le_mul_of_nonneg_right hu hz.le

/-- **C103** (score). If over `n` periods the exact ratios of account growth to price growth are between 2^-m and 2^m, with
`n * m` at most 900, the score is within a relative 2^-20 of the geometric mean of the exact ratios. -/
theorem C103_score {recs : Option (List (SideInputRecord F32))} (hpow : AccuratePow) (i : EvalInputs F32)
    (hside : SideOf recs i.side) (hs : SortedBy OhlcTick.ts i.history) (log : Bool) {r : EvaluationResult F32}
    (h : (evaluateTrader i log).out = .ok r) (hne : r.periods ≠ []) (hm : ∀ p ∈ r.periods, Modest p) (m : ℕ) (hm0 : 0 < m)
    (hm1 : m ≤ 100) (hn : r.periods.length * m ≤ 900)
    (hr : ∀ p ∈ r.periods, 1 / 2 ^ m ≤ exactRatio p ∧ exactRatio p ≤ 2 ^ m) :
    IsFin r.score ∧ |realOf r.score - geometricMean r.periods| ≤ geometricMean r.periods / 2 ^ 20 := by
  have hall := periods_are i hs log h
  obtain ⟨e, -⟩ := summary_is h
  have hlen : r.periods.length ≠ 0 := fun h => hne (List.length_eq_zero_iff.mp h)
  have hn9 : r.periods.length ≤ 900 := le_trans (Nat.le_mul_of_pos_right _ hm0) hn
  have hprod := prod_err r.periods (fun p => p.finalGain /. p.baseFinalGain) exactRatio m hm1 hm0 0 (lit F64 1) 1
    (by rwa [zero_add]) (lit_int64 (n := 1) (by norm_num)).1 (by norm_num) (by norm_num)
    (by have := (lit_int64 (n := 1) (by norm_num)).2; push_cast at this; rw [this]; norm_num)
    (by have := (lit_int64 (n := 1) (by norm_num)).2; push_cast at this; rw [this]; norm_num)
    (fun p hp => by
      obtain ⟨a, b, hP, hw⟩ := hall p hp
      obtain ⟨r1, r2⟩ := hr p hp
      obtain ⟨x1, x2⟩ := ratio_rel hside hP hw (hm p hp)
        (le_trans (one_div_le_one_div_of_le (by positivity) (pow_le_pow_right₀ (by norm_num) hm1)) r1)
        (r2.trans (pow_le_pow_right₀ (by norm_num) hm1))
      exact ⟨x1, x2, r1, r2⟩)
  simp only [zero_add, one_mul] at hprod
  unfold getGeometricAverage at e
  rw [if_neg (by simpa using hne)] at e
  simp only [bind, Except.bind, pure, Except.pure] at e
  generalize r.periods.foldl (fun s p => s *. Wide.widen (p.finalGain /. p.baseFinalGain)) (lit F64 1) = P at *
  obtain ⟨f1, q1, q2, p1, p2⟩ := hprod
  have hscore : r.score = Wide.narrow (Libm.pow P (lit F64 1 /. lit F64 r.periods.length)) := by
    cases ha : assertThat (P >=. lit F64 0) with
    | error x => rw [ha] at e; cases e
    | ok u => rw [ha] at e; exact (Except.ok.inj e).symm
  -- ranges
  obtain ⟨n1, n2⟩ := pow_near (k := r.periods.length) (by omega)
  have hB : ((2 : ℚ) ^ m) ^ r.periods.length ≤ 2 ^ 900 := by
    rw [← pow_mul, mul_comm]; exact pow_le_pow_right₀ (by norm_num) hn
  have hL : (1 / 2 ^ 900 : ℚ) ≤ (1 / 2 ^ m) ^ r.periods.length := by
    rw [div_pow, one_pow]; exact one_div_le_one_div_of_le (by positivity) hB
  have hgm : geometricMean r.periods = (((r.periods.map exactRatio).prod : ℚ) : ℝ) ^ (1 / (r.periods.length : ℝ)) := by
    have e : (((r.periods.map exactRatio).prod : ℚ) : ℝ) = (r.periods.map (fun p => (exactRatio p : ℝ))).prod := by
      rw [Rat.cast_list_prod, List.map_map]
      rfl
    rw [e]
    rfl
  have hgb := geomean_bounds (r.periods.map (fun p => (exactRatio p : ℝ))) (by simpa using hne) (lo := 1 / 2 ^ 100)
    (hi := 2 ^ 100) (by positivity) (by
      intro x hx
      obtain ⟨p, hp, rfl⟩ := List.mem_map.mp hx
      obtain ⟨r1, r2⟩ := hr p hp
      have r1' := le_trans (one_div_le_one_div_of_le (by positivity) (pow_le_pow_right₀ (by norm_num) hm1)) r1
      have r2' := r2.trans (pow_le_pow_right₀ (by norm_num) hm1)
      constructor
      · exact castR r1' (by push_cast; rfl) rfl
      · exact castR r2' rfl (by push_cast; rfl))
  rw [List.length_map] at hgb
  change 1 / 2 ^ 100 ≤ geometricMean r.periods ∧ geometricMean r.periods ≤ 2 ^ 100 at hgb
  rw [hscore]
  generalize (r.periods.map exactRatio).prod = Q at *
  generalize r.periods.length = n at *
  have hQ0 : 0 < Q := lt_of_lt_of_le (by positivity) (hL.trans q1)
  have hPlo : (1 : ℚ) / 2 ^ 1000 ≤ toQ P := by
    refine le_trans ?_ p1
    refine le_trans ?_ (mul_le_mul n1 (hL.trans q1) (by positivity) (le_trans (by norm_num) n1))
    rw [show (1000 : ℕ) = 900 + 100 by norm_num, pow_add, ← one_div_mul_one_div, mul_comm]
    exact mul_le_mul_of_nonneg_right (by norm_num) (by positivity)
  have hPhi : toQ P ≤ 2 ^ 1000 := by
    refine p2.trans (le_trans (mul_le_mul n2 (q2.trans hB) hQ0.le (by norm_num)) ?_)
    rw [show (1000 : ℕ) = 900 + 100 by norm_num, pow_add, mul_comm]
    exact mul_le_mul_of_nonneg_left (by norm_num) (by positivity)
  have hnq : (1 : ℚ) ≤ n := by exact_mod_cast Nat.one_le_iff_ne_zero.mpr hlen
  have hnq9 : (n : ℚ) ≤ 900 := by exact_mod_cast hn9
  have hn0 : (0 : ℚ) < n := by linarith
  -- the exponent
  have hexp : IsFin (lit F64 1 /. lit F64 (n : ℚ)) ∧ |toQ (lit F64 1 /. lit F64 (n : ℚ)) - 1 / n| ≤ 1 / 2 ^ 49 := by
    obtain ⟨a1, a2⟩ := lit_int64 (n := 1) (by norm_num)
    obtain ⟨b1, b2⟩ := lit_int64 (n := (n : ℤ)) (by
      rw [abs_of_nonneg (by positivity)]
      exact lt_of_le_of_lt (show (n : ℤ) ≤ 900 by exact_mod_cast hn9) (by norm_num))
    push_cast at a1 a2 b1 b2
    have hle : 1 / (n : ℚ) ≤ 1 := by rw [div_le_one hn0]; exact hnq
    have hge : 0 ≤ 1 / (n : ℚ) := by positivity
    obtain ⟨d1, d2⟩ := div_fin64 a1 b1 (by rw [b2]; exact hn0.ne') (by
      rw [a2, b2, abs_of_nonneg hge]; exact hle.trans (by norm_num))
    refine ⟨d1, ?_⟩
    rw [a2, b2, abs_of_nonneg hge] at d2
    generalize 1 / (n : ℚ) = N at *
    refine d2.trans ?_
    norm_num at *
    linarith
  generalize lit F64 1 /. lit F64 (n : ℚ) = Y at *
  obtain ⟨y1, y2⟩ := hexp
  have y3 := abs_le.mp y2
  have hinv1 : 1 / (n : ℚ) ≤ 1 := by rw [div_le_one hn0]; exact hnq
  have hinv2 : 1 / 900 ≤ 1 / (n : ℚ) := one_div_le_one_div_of_le hn0 hnq9
  obtain ⟨w1, w2⟩ := hpow P Y f1 hPlo hPhi y1 (by norm_num at *; linarith) (by norm_num at *; linarith)
  generalize Libm.pow P Y = W at *
  -- chain of relative errors
  have c1 : Rel (8 / 16777216 : ℝ) ((toQ P : ℝ) ^ (1 / (n : ℝ))) (geometricMean r.periods) := by
    rw [hgm]
    refine root_rel hlen (by norm_num) (by norm_num) (by exact_mod_cast hQ0) ?_ ?_
    · exact castR p1 (by push_cast; rfl) rfl
    · exact castR p2 rfl (by push_cast; rfl)
  have c2 : Rel (1 / 2 ^ 38 : ℝ) ((toQ P : ℝ) ^ (toQ Y : ℝ)) ((toQ P : ℝ) ^ (1 / (n : ℝ))) := by
    refine exponent_rel (castR hPlo (by push_cast; rfl) rfl) (castR hPhi rfl (by push_cast; rfl)) ?_
    exact castR y2 (by push_cast; rfl) (by push_cast; rfl)
  have c3 : Rel (1 / 2 ^ 40 : ℝ) (toQ W : ℝ) ((toQ P : ℝ) ^ (toQ Y : ℝ)) :=
    Rel.of_abs (w2.trans (le_of_eq (by ring)))
  have hG0 : 0 < geometricMean r.periods := lt_of_lt_of_le (by positivity) hgb.1
  have hP0 : (0 : ℝ) < (toQ P : ℝ) := by exact_mod_cast lt_of_lt_of_le (by positivity) hPlo
  have c4 : Rel (9 / 16777216 : ℝ) (toQ W : ℝ) (geometricMean r.periods) := by
    have t1 := Rel.trans (c := 1 / 2 ^ 37) c3 c2 (Real.rpow_pos_of_pos hP0 _).le (by norm_num) (by norm_num) (by norm_num)
      (by norm_num)
    exact Rel.trans t1 c1 hG0.le (by norm_num) (by norm_num) (by norm_num) (by norm_num)
  have hWlo : (1 / 2 ^ 120 : ℚ) ≤ toQ W := by
    have : (1 / 2 ^ 120 : ℝ) ≤ (toQ W : ℝ) := by
      refine le_trans ?_ c4.1
      refine le_trans ?_ (mul_le_mul_of_nonneg_left hgb.1 (by norm_num))
      norm_num
    exact Rat.cast_le.mp (le_trans (le_of_eq (by push_cast; rfl)) this)
  have hWhi : toQ W ≤ 2 ^ 120 := by
    have : (toQ W : ℝ) ≤ 2 ^ 120 := by
      refine le_trans c4.2 ?_
      refine le_trans (mul_le_mul_of_nonneg_left hgb.2 (by norm_num)) ?_
      norm_num
    exact Rat.cast_le.mp (le_trans this (le_of_eq (by push_cast; rfl)))
  have hW0 : 0 < toQ W := lt_of_lt_of_le (by positivity) hWlo
  obtain ⟨o1, o2⟩ := narrow_fin w1 (by rw [abs_of_pos hW0]; exact hWhi.trans (by norm_num))
  refine ⟨o1, ?_⟩
  have c5q := rel_round o2 hWlo
  have c5 : Rel (11 / 10 / 16777216 : ℝ) (realOf (Wide.narrow W)) (toQ W : ℝ) := by
    unfold realOf
    exact ⟨castR c5q.1 (by push_cast; rfl) rfl, castR c5q.2 rfl (by push_cast; rfl)⟩
  have c6 : Rel (1 / 2 ^ 20 : ℝ) (realOf (Wide.narrow W)) (geometricMean r.periods) :=
    Rel.trans c5 c4 hG0.le (by norm_num) (by norm_num) (by norm_num) (by norm_num)
  exact c6.abs.trans (le_of_eq (by ring))

end

/-! ### Non-vacuity -/

section examples

private theorem powNear (y : ℝ) (hy : 0 < y) : ∃ q : ℚ, |(q : ℝ) - y| ≤ y / 2 ^ 40 := by
  have h0 : 0 < y / 2 ^ 40 := by positivity
  obtain ⟨q, h1, h2⟩ := exists_rat_btwn (show y - y / 2 ^ 40 < y by linarith)
  exact ⟨q, by rw [abs_le]; constructor <;> linarith⟩

open Classical in
/-- Some accurate `pow`. -/
@[instance_reducible] noncomputable def accPow : Libm F64 :=
  ⟨id, id, id, fun x y => if h : 0 < toQ x then
    .fin (powNear ((toQ x : ℝ) ^ (toQ y : ℝ)) (Real.rpow_pos_of_pos (by exact_mod_cast h) _)).choose else x⟩

theorem accPow_accurate : @AccuratePow accPow := by
  let _ := accPow
  intro x y _ h _ _ _ _
  have h0 : 0 < toQ x := lt_of_lt_of_le (by positivity) h
  have hp : (0 : ℝ) < (toQ x : ℝ) ^ (toQ y : ℝ) := Real.rpow_pos_of_pos (by exact_mod_cast h0) _
  have e : (Libm.pow x y : F64) = .fin (powNear _ hp).choose := dif_pos h0
  rw [e]
  exact ⟨trivial, (powNear _ hp).choose_spec⟩

attribute [local instance] fr32 accPow

/-- The evaluation of `fr32Ticks` as a whole. -/
noncomputable def accInputs : EvalInputs F32 :=
  ⟨fr32Account, ⟨1514764800, 1517443200, 0, true⟩, fr32Ticks, none,
    BuiltIn.emitter ⟨fun _ => "", fun _ _ => ""⟩ (.rebalancing ⟨.fin (11 / 16), .fin (1 / 16)⟩)⟩

/-- Its only period: two orders were executed, the account fell from 205 to about 172.5 and the price from 105 to 85. -/
noncomputable def accPeriod : Period F32 :=
  ⟨1514764800, 1517443200, ⟨.fin 1, .fin 100, .fin (733 / 512), .fin (3255 / 64), .fin 105, .fin 85, .fin 205, .fin (88345 / 512), 2,
    .fin (97 / 128), .fin 0, .fin 0⟩, .fin (88345 / 512) /. .fin 205, .fin 85 /. .fin 105⟩

theorem accPeriod_modest : Modest accPeriod := by
  refine ⟨⟨trivial, ?_, ?_⟩, ⟨trivial, ?_, ?_⟩, ⟨trivial, ?_, ?_⟩, ⟨trivial, ?_, ?_⟩, ⟨trivial, ?_, ?_⟩, ⟨trivial, ?_, ?_⟩, ?_, ?_, ?_, ?_⟩ <;>
  (simp only [accPeriod, startWorth, endWorth, exactGain, toQ]; norm_num)

/-- The evaluation returns with this period, which satisfies the hypotheses of `C103_gains`, `C103_averages` and
`C103_score` (with `m` = 1). -/
example : SideOf none accInputs.side ∧ SortedBy OhlcTick.ts accInputs.history ∧ ∃ r, (evaluateTrader accInputs false).out = .ok r ∧
    r.periods = [accPeriod] ∧ Modest accPeriod ∧ Between 0 (2 ^ 100) accPeriod.result.totalFee ∧
    1 / 2 ^ 1 ≤ exactRatio accPeriod ∧ exactRatio accPeriod ≤ 2 ^ 1 ∧ AccuratePow := by
  have hs : SortedBy OhlcTick.ts accInputs.history := fr32Ticks_clean.sorted
  have hw : windowTicks accInputs.history accInputs.cfg.start accInputs.cfg.stop = fr32Ticks := by
    change windowTicks fr32Ticks 1514764800 1517443200 = fr32Ticks
    decide +kernel
  have hex : (executeTrader fr32Account fr32Ticks none true
    (rebalancingTrader ⟨fun _ => "", fun _ _ => ""⟩ ⟨.fin (11 / 16), .fin (1 / 16)⟩) RebalancingState.init false).out =
      .ok accPeriod.result := by
    decide +kernel
  have hP : IsPeriod accInputs accInputs.cfg.start accInputs.cfg.stop accPeriod := by
    refine ⟨rfl, rfl, ?_, by decide +kernel, by decide +kernel, by decide +kernel, rfl, rfl⟩
    rw [hw]
    exact hex
  have hout := (C36_single accInputs hs rfl (by rw [hw]; exact List.cons_ne_nil _ _) false).2.1 _ hP
  refine ⟨.none, hs, ?_⟩
  rcases C36_summary accInputs [accPeriod] with ⟨r, h1, h2⟩ | ⟨-, h⟩
  · refine ⟨r, hout.trans h1, h2, accPeriod_modest, ⟨trivial, ?_, ?_⟩, ?_, ?_, accPow_accurate⟩ <;>
    (simp only [accPeriod, startWorth, endWorth, exactGain, exactRatio, exactBaseGain, toQ]; norm_num)
  · exact absurd h (by decide +kernel)

end examples
end Verif.Props
