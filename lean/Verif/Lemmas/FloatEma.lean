import Verif.Lemmas.FloatNN
import Verif.Lemmas.FloatVal
import Verif.Spec.Indicators

/-!
# Rounding errors of exponential averages in binary32
-/

namespace Verif.FloatEma
open FloatOps FloatMoney FloatNN
open Fl (toQ IsFin)

theorem tiny_le : tinyQ ≤ 1 / 2 ^ 149 := by unfold tinyQ; norm_num

theorem lit1 : (lit F32 1) = .fin 1 := by decide +kernel

/-- One step of an exponential average: the error of the previous average shrinks, a rounding error is added. -/
theorem ema_step {w x e : F32} {M E q : ℚ} (hw : IsFin w) (hw0 : 0 ≤ toQ w) (hw1 : toQ w ≤ 1) (hx : IsFin x)
    (hxM : |toQ x| ≤ M) (hM : M ≤ 2 ^ 100) (he : IsFin e) (hq : |q| ≤ M) (hE : |toQ e - q| ≤ E)
    (hEM : E ≤ M / 2 + 1 / 2 ^ 110) :
    IsFin (w *. x +. (lit F32 1 -. w) *. e) ∧
    |toQ (w *. x +. (lit F32 1 -. w) *. e) - (toQ w * toQ x + (1 - toQ w) * q)| ≤
      (1 - toQ w) * E + (M / 2 ^ 20 + 1 / 2 ^ 130) := by
  have hM0 : 0 ≤ M := le_trans (abs_nonneg _) hxM
  have ht := tiny_le
  have ht0 := tinyQ_pos
  have hE0 : 0 ≤ E := le_trans (abs_nonneg _) hE
  have hB : |toQ e| ≤ 3 / 2 * M + 1 / 2 ^ 110 := by
    have : toQ e = (toQ e - q) + q := by ring
    rw [this]
    calc _ ≤ |toQ e - q| + |q| := abs_add_le _ _
      _ ≤ _ := by linarith
  have hwx : |toQ w * toQ x| ≤ M := by
    rw [abs_mul, abs_of_nonneg hw0]
    nlinarith [abs_nonneg (toQ x)]
  obtain ⟨f1, e1⟩ := mul_fin hw hx (hwx.trans (hM.trans (by norm_num)))
  have h1w : |toQ (lit F32 1) - toQ w| ≤ 1 := by
    rw [lit1]; show |1 - toQ w| ≤ 1; rw [abs_le]; constructor <;> linarith
  obtain ⟨f2, e2⟩ := sub_fin (x := lit F32 1) (y := w) (by rw [lit1]; trivial) hw (h1w.trans (by norm_num))
  have e1' : toQ (lit F32 1) = 1 := by rw [lit1]; rfl
  rw [e1'] at e2
  rw [e1', ] at h1w
  set a := w *. x with ha
  set v := lit F32 1 -. w with hv
  have hva : |toQ v| ≤ 2 := by
    have := (abs_add_bound e2).1
    linarith
  have hvd : |toQ v - (1 - toQ w)| ≤ 1 / 2 ^ 24 + tinyQ := by linarith
  have hve : |toQ v * toQ e| ≤ 3 * M + 1 / 2 ^ 109 := by
    rw [abs_mul]
    nlinarith [abs_nonneg (toQ v), abs_nonneg (toQ e)]
  obtain ⟨f3, e3⟩ := mul_fin f2 he (hve.trans (by norm_num at hM ⊢; linarith))
  set b := v *. e with hb
  have hab : |toQ a| ≤ M + (M / 16777216 + tinyQ) := by
    have := (abs_add_bound e1).1; linarith
  have hve2 : |toQ v * toQ e - (1 - toQ w) * toQ e| ≤ (1 / 2 ^ 24 + tinyQ) * (3 / 2 * M + 1 / 2 ^ 110) := by
    rw [← sub_mul, abs_mul]
    exact mul_le_mul hvd hB (abs_nonneg _) (by positivity)
  have h1we : |(1 - toQ w) * toQ e| ≤ 3 / 2 * M + 1 / 2 ^ 110 := by
    rw [abs_mul]
    nlinarith [abs_nonneg (toQ e), abs_nonneg (1 - toQ w)]
  have hMt : tinyQ * M ≤ M / 2 ^ 100 := by
    have : tinyQ ≤ 1 / 2 ^ 100 := ht.trans (by norm_num)
    nlinarith
  have hbb : |toQ b| ≤ 3 * M + 1 / 2 ^ 109 + ((3 * M + 1 / 2 ^ 109) / 16777216 + tinyQ) := by
    have := (abs_add_bound e3).1; linarith
  have hsum : |toQ a + toQ b| ≤ 5 * M + 1 / 2 ^ 108 := by
    refine (abs_add_le _ _).trans ?_
    norm_num at *; linarith
  obtain ⟨f4, e4⟩ := add_fin f1 f3 (hsum.trans (by norm_num at hM ⊢; linarith))
  refine ⟨f4, ?_⟩
  have hcon : |(1 - toQ w) * toQ e - (1 - toQ w) * q| ≤ (1 - toQ w) * E := by
    rw [← mul_sub, abs_mul, abs_of_nonneg (by linarith : (0 : ℚ) ≤ 1 - toQ w)]
    exact mul_le_mul_of_nonneg_left hE (by linarith)
  generalize toQ (a +. b) = r at *
  generalize toQ a = a' at *
  generalize toQ b = b' at *
  generalize toQ v * toQ e = ve at *
  generalize (1 - toQ w) * toQ e = we at *
  generalize toQ w * toQ x = wx at *
  generalize (1 - toQ w) * q = wq at *
  generalize (1 - toQ w) * E = wE at *
  have k2 : (1 / 2 ^ 24 + tinyQ) * (3 / 2 * M + 1 / 2 ^ 110) ≤ 2 * M / 2 ^ 24 + 1 / 2 ^ 133 := by
    have : (1 / 2 ^ 24 + tinyQ) * (3 / 2 * M + 1 / 2 ^ 110) = (3 / 2 * M) / 2 ^ 24 + 1 / 2 ^ 134 + 3 / 2 * (tinyQ * M) + tinyQ / 2 ^ 110 := by
      ring
    rw [this]
    have : M / 2 ^ 100 ≤ M / 2 ^ 26 := by gcongr <;> norm_num
    norm_num at *; linarith
  have k3 : |r - (wx + wq)| ≤ |r - (a' + b')| + |a' - wx| + |b' - ve| + |ve - we| + |we - wq| := by
    have : r - (wx + wq) = (r - (a' + b')) + (a' - wx) + (b' - ve) + (ve - we) + (we - wq) := by ring
    rw [this]
    refine (abs_add_le _ _).trans ?_
    gcongr
    refine (abs_add_le _ _).trans ?_
    gcongr
    refine (abs_add_le _ _).trans ?_
    gcongr
    exact abs_add_le _ _
  refine k3.trans ?_
  norm_num at *
  linarith

/-- The bound on the error of an average with weights not below `w`. -/
def emaErr (M w : ℚ) : ℚ := (M / 2 ^ 20 + 1 / 2 ^ 130) / w

theorem emaErr_le {M w : ℚ} (hM : 0 ≤ M) (hw : 1 / 2 ^ 19 ≤ w) : emaErr M w ≤ M / 2 + 1 / 2 ^ 110 := by
  unfold emaErr
  rw [div_le_iff₀ (lt_of_lt_of_le (by norm_num) hw)]
  have : (M / 2 + 1 / 2 ^ 110) * (1 / 2 ^ 19) ≤ (M / 2 + 1 / 2 ^ 110) * w := by gcongr
  refine le_trans ?_ this
  norm_num
  linarith

theorem emaErr_nonneg {M w : ℚ} (hM : 0 ≤ M) (hw : 1 / 2 ^ 19 ≤ w) : 0 ≤ emaErr M w := by
  unfold emaErr
  have : 0 < w := lt_of_lt_of_le (by norm_num) hw
  positivity

/-- One step with a weight not below `W` keeps the bound. -/
theorem ema_step_close {w x e : F32} {M W q : ℚ} (hw : IsFin w) (hW : 1 / 2 ^ 19 ≤ W) (hwW : W ≤ toQ w) (hw1 : toQ w ≤ 1)
    (hx : IsFin x) (hxM : |toQ x| ≤ M) (hM : M ≤ 2 ^ 100) (he : IsFin e) (hq : |q| ≤ M) (hE : |toQ e - q| ≤ emaErr M W) :
    IsFin (w *. x +. (lit F32 1 -. w) *. e) ∧
    |toQ (w *. x +. (lit F32 1 -. w) *. e) - (toQ w * toQ x + (1 - toQ w) * q)| ≤ emaErr M W ∧
    |toQ w * toQ x + (1 - toQ w) * q| ≤ M := by
  have hM0 : 0 ≤ M := le_trans (abs_nonneg _) hxM
  have hW0 : 0 < W := lt_of_lt_of_le (by norm_num) hW
  have hw0 : 0 ≤ toQ w := hW0.le.trans hwW
  obtain ⟨h1, h2⟩ := ema_step hw hw0 hw1 hx hxM hM he hq hE (emaErr_le hM0 hW)
  refine ⟨h1, h2.trans ?_, ?_⟩
  · have hE0 := emaErr_nonneg hM0 hW
    have e1 : emaErr M W * W = M / 2 ^ 20 + 1 / 2 ^ 130 := by unfold emaErr; field_simp
    rw [← e1]
    nlinarith
  · rw [abs_le] at hxM hq ⊢
    constructor <;> nlinarith

theorem ema_snoc {F : Type} [FloatOps F] (w : F) (xs : List F) (x : F) : Spec.ema w (xs ++ [x]) =
    if xs = [] then x else w *. x +. (lit F 1 -. w) *. Spec.ema w xs := by
  cases xs with
  | nil => rfl
  | cons y ys => simp [Spec.ema, List.foldl_append]

/-- The exponential average in binary32 stays close to the exact one, however many values it is given. -/
theorem ema_close {w : F32} {M : ℚ} (hw : IsFin w) (hw0 : 1 / 2 ^ 19 ≤ toQ w) (hw1 : toQ w ≤ 1) (hM : M ≤ 2 ^ 100)
    (hM0 : 0 ≤ M) (xs : List F32) (hx : ∀ x ∈ xs, IsFin x ∧ |toQ x| ≤ M) :
    IsFin (Spec.ema w xs) ∧ |toQ (Spec.ema w xs) - Spec.ema (toQ w) (xs.map toQ)| ≤ emaErr M (toQ w) ∧
    |Spec.ema (toQ w) (xs.map toQ)| ≤ M := by
  induction xs using List.reverseRecOn with
  | nil =>
    have e : (lit ℚ 0) = (0 : ℚ) := by simp [ex_ofRat]
    refine ⟨by show IsFin (lit F32 0); rw [lit0]; trivial, ?_, ?_⟩
    · show |toQ (lit F32 0) - lit ℚ 0| ≤ _
      rw [lit0, e]
      show |(0 : ℚ) - 0| ≤ _
      simpa using emaErr_nonneg hM0 hw0
    · show |lit ℚ 0| ≤ M
      rw [e]; simpa using hM0
  | append_singleton xs x ih =>
    obtain ⟨i1, i2, i3⟩ := ih (fun y hy => hx y (by simp [hy]))
    obtain ⟨x1, x2⟩ := hx x (by simp)
    rw [List.map_append, List.map_singleton, ema_snoc, ema_snoc]
    by_cases h0 : xs = []
    · subst h0
      simp only [List.map_nil, if_true]
      exact ⟨x1, by simpa using emaErr_nonneg hM0 hw0, x2⟩
    · rw [if_neg h0, if_neg (by simpa using h0)]
      have := ema_step_close hw hw0 le_rfl hw1 x1 x2 hM i1 i3 i2
      simpa [ex_add, ex_mul, ex_sub, ex_ofRat] using this

end Verif.FloatEma
