import Verif.Lemmas.FloatVal
import Verif.Spec.FloatEvaluate
import Mathlib.Algebra.Order.Field.Power

/-!
# Values, gains and their product in binary32 / binary64
-/

namespace Verif.FloatEvaluate
open FloatOps FloatMoney FloatNN FloatVal Spec
open Fl (toQ IsFin)

/-- The value of holdings at a price. -/
theorem value_between {p b q : F32} (hp : Between (1 / 2 ^ 40) (2 ^ 40) p) (hb : Holding b) (hq : Holding q)
    (h : 0 < toQ b ∨ 0 < toQ q) : Between (1 / 2 ^ 101) (2 ^ 121) (q +. p *. b) := by
  obtain ⟨pf, p1, p2⟩ := hp
  obtain ⟨bf, b1, b2⟩ := hb
  obtain ⟨qf, q1, q2⟩ := hq
  have b0 : 0 ≤ toQ b := by rcases b1 with h | h; · exact h.ge
                            · exact le_trans (by norm_num) h
  have q0 : 0 ≤ toQ q := by rcases q1 with h | h; · exact h.ge
                            · exact le_trans (by norm_num) h
  have p0 : 0 ≤ toQ p := le_trans (by norm_num) p1
  have m0 : 0 ≤ toQ p * toQ b := mul_nonneg p0 b0
  have m2 : toQ p * toQ b ≤ 2 ^ 120 := by
    have := mul_le_mul p2 b2 b0 (by norm_num)
    exact this.trans (by norm_num)
  have mabs : |toQ p * toQ b| ≤ 2 ^ 127 := by rw [abs_of_nonneg m0]; exact m2.trans (by norm_num)
  have mf := (mul_fin pf bf mabs).1
  have mv := mul_val pf bf mabs
  have r120 : rndQ binary32 (2 ^ 120) = 2 ^ 120 := by decide +kernel
  have r101 : rndQ binary32 (1 / 2 ^ 101) = 1 / 2 ^ 101 := by decide +kernel
  have r121 : rndQ binary32 (2 ^ 121) = 2 ^ 121 := by decide +kernel
  obtain ⟨v1, v2⟩ := rndQ_between rndQ_zero r120 m0 m2
  rw [← mv] at v1 v2
  have s0 : 0 ≤ toQ q + toQ (p *. b) := add_nonneg q0 v1
  have s2 : toQ q + toQ (p *. b) ≤ 2 ^ 121 := by
    have : (2 : ℚ) ^ 80 ≤ 2 ^ 120 := by norm_num
    have : (2 : ℚ) ^ 121 = 2 ^ 120 + 2 ^ 120 := by norm_num
    linarith
  have sabs : |toQ q + toQ (p *. b)| ≤ 2 ^ 127 := by rw [abs_of_nonneg s0]; exact s2.trans (by norm_num)
  have s1 : 1 / 2 ^ 101 ≤ toQ q + toQ (p *. b) := by
    rcases h with h | h
    · have hb' : 1 / 2 ^ 61 ≤ toQ b := b1.resolve_left h.ne'
      have : (1 : ℚ) / 2 ^ 101 ≤ toQ p * toQ b := by
        have := mul_le_mul p1 hb' (by norm_num) p0
        exact le_trans (by norm_num) this
      have := (rndQ_between r101 r120 this m2).1
      rw [← mv] at this
      linarith
    · have hq' : 1 / 2 ^ 61 ≤ toQ q := q1.resolve_left h.ne'
      have : (1 : ℚ) / 2 ^ 101 ≤ 1 / 2 ^ 61 := by norm_num
      linarith
  refine ⟨(add_fin qf mf sabs).1, ?_⟩
  rw [add_val qf mf sabs]
  exact rndQ_between r101 r121 s1 s2

/-- A positive rounded number is not below the smallest positive one. -/
theorem rndQ_min {x : ℚ} (h : 0 < rndQ binary32 x) : 1 / 2 ^ 149 ≤ rndQ binary32 x := by
  unfold rndQ at h ⊢
  have hu : 0 < ulp binary32 x := ulp_pos _ _
  have hn : 0 < rne (x / ulp binary32 x) := by
    by_contra hc
    push Not at hc
    have : (rne (x / ulp binary32 x) : ℚ) ≤ 0 := by exact_mod_cast hc
    have := mul_nonpos_of_nonpos_of_nonneg this hu.le
    linarith
  have h1 : (1 : ℚ) ≤ rne (x / ulp binary32 x) := by exact_mod_cast hn
  have h2 : (1 : ℚ) / 2 ^ 149 ≤ ulp binary32 x := by
    have e : (1 : ℚ) / 2 ^ 149 = (2 : ℚ) ^ (-149 : ℤ) := by rw [zpow_neg, one_div]; norm_cast
    rw [e]
    exact zpow_le_zpow_right₀ (by norm_num) (le_max_right _ _)
  calc (1 : ℚ) / 2 ^ 149 ≤ 1 * ulp binary32 x := by rwa [one_mul]
    _ ≤ _ := mul_le_mul_of_nonneg_right h1 hu.le

theorem rnd_range {x : ℚ} (hf : IsFin (Fl.rnd binary32 x)) (h0 : 0 < toQ (Fl.rnd binary32 x)) :
    1 / 2 ^ 149 ≤ toQ (Fl.rnd binary32 x) ∧ toQ (Fl.rnd binary32 x) ≤ 2 ^ 128 := by
  unfold Fl.rnd at hf h0 ⊢
  dsimp only at hf h0 ⊢
  split_ifs at hf h0 ⊢ with h1 h2 h3
  · exact hf.elim
  · exact absurd h0 (lt_irrefl _)
  · exact absurd h0 (lt_irrefl _)
  · change 0 < rndQ binary32 x at h0
    refine ⟨rndQ_min h0, ?_⟩
    have h4 : |rndQ binary32 x| < (2 : ℚ) ^ (128 : ℤ) := not_le.mp h1
    rw [abs_of_pos h0] at h4
    exact h4.le.trans (by norm_cast)

/-- A quotient that is finite and positive is in the range of the format. -/
theorem div_range {a b : F32} (hf : IsFin (Fl.div a b)) (h0 : 0 < toQ (Fl.div a b)) :
    1 / 2 ^ 149 ≤ toQ (Fl.div a b) ∧ toQ (Fl.div a b) ≤ 2 ^ 128 := by
  have key : ∀ a b : F32, (∃ s, Fl.div a b = Fl.zero s) ∨ Fl.div a b = .nan ∨ (∃ s, Fl.div a b = .inf s) ∨
      ∃ x, Fl.div a b = Fl.rnd binary32 x := by
    intro a b
    cases a with
    | nan => exact .inr (.inl (by simp))
    | inf s => cases b with
      | nan => exact .inr (.inl (by simp))
      | inf t => exact .inr (.inl (by simp))
      | negZero => exact .inr (.inr (.inl ⟨_, Fl.div_inf_nz _⟩))
      | fin b => exact .inr (.inr (.inl ⟨_, Fl.div_inf_fin _ _⟩))
    | negZero => cases b with
      | nan => exact .inr (.inl (by simp))
      | inf t => exact .inl ⟨_, Fl.div_nz_inf _⟩
      | negZero => exact .inr (.inl (by simp))
      | fin b =>
        rw [Fl.div_nz_fin]
        split
        · exact .inr (.inl rfl)
        · exact .inl ⟨_, rfl⟩
    | fin a => cases b with
      | nan => exact .inr (.inl (by simp))
      | inf t => exact .inl ⟨_, Fl.div_fin_inf _ _⟩
      | negZero =>
        rw [Fl.div_fin_nz]
        split
        · exact .inr (.inl rfl)
        · exact .inr (.inr (.inl ⟨_, rfl⟩))
      | fin b =>
        rw [Fl.div_fin_fin]
        split
        · split
          · exact .inr (.inl rfl)
          · exact .inr (.inr (.inl ⟨_, rfl⟩))
        · split
          · exact .inl ⟨_, rfl⟩
          · exact .inr (.inr (.inr ⟨_, rfl⟩))
  rcases key a b with ⟨s, h⟩ | h | ⟨s, h⟩ | ⟨x, h⟩ <;> rw [h] at hf h0 ⊢
  · rw [Fl.toQ_zero] at h0; exact absurd h0 (lt_irrefl _)
  · exact hf.elim
  · exact hf.elim
  · exact rnd_range hf h0

/-- Widening does not change the sign. -/
theorem widen_geZero {x : F32} (h : GeZero x) : GeZero (Wide.widen x : F64) := by
  rw [geZero_iff] at h ⊢
  obtain ⟨h1, h2⟩ := h
  change (Fl.cvt x : F64) ≠ .nan ∧ Fl.NotNeg (Fl.cvt x : F64)
  cases x with
  | nan => exact absurd rfl h1
  | inf s => exact ⟨by simp [Fl.cvt], by simpa [Fl.cvt] using h2⟩
  | negZero => exact ⟨by simp [Fl.cvt], by simp [Fl.cvt]⟩
  | fin q => exact ⟨Fl.ofRat_ne_nan q, Fl.ofRat_notNeg (by simpa using h2)⟩

/-- Widening keeps positive numbers of the range of `float` positive and finite. -/
theorem widen_pos {x : F32} (hf : IsFin x) (h1 : 1 / 2 ^ 149 ≤ toQ x) (h2 : toQ x ≤ 2 ^ 128) :
    IsFin (Wide.widen x : F64) ∧ 0 < toQ (Wide.widen x : F64) := by
  change IsFin (Fl.cvt x : F64) ∧ 0 < toQ (Fl.cvt x : F64)
  cases x with
  | nan => exact hf.elim
  | inf s => exact hf.elim
  | negZero => change (1 : ℚ) / 2 ^ 149 ≤ 0 at h1; norm_num at h1
  | fin q =>
    change 1 / 2 ^ 149 ≤ q at h1
    change q ≤ 2 ^ 128 at h2
    change IsFin (Fl.ofRat binary64 q) ∧ 0 < toQ (Fl.ofRat binary64 q)
    have a1 : (1 : ℚ) / 2 ^ 149 ≤ rndQ binary64 q := by
      have e : rndQ binary64 (1 / 2 ^ 149) = 1 / 2 ^ 149 := by decide +kernel
      rw [← e]; exact Fl.rndQ_mono (by decide) h1
    have a2 : rndQ binary64 q ≤ 2 ^ 128 := by
      have e : rndQ binary64 (2 ^ 128) = 2 ^ 128 := by decide +kernel
      rw [← e]; exact Fl.rndQ_mono (by decide) h2
    have a0 : 0 < rndQ binary64 q := lt_of_lt_of_le (by norm_num) a1
    have q0 : q ≠ 0 := (lt_of_lt_of_le (by norm_num) h1).ne'
    have hlt : ¬ (2 : ℚ) ^ (1024 : ℤ) ≤ |rndQ binary64 q| := by
      rw [abs_of_pos a0, not_le]
      refine lt_of_le_of_lt a2 ?_
      rw [show (2 : ℚ) ^ 128 = (2 : ℚ) ^ (128 : ℤ) by norm_cast]
      exact zpow_lt_zpow_right₀ (by norm_num) (by norm_num)
    unfold Fl.ofRat Fl.rnd
    dsimp only
    rw [if_neg q0]
    erw [if_neg hlt]
    rw [if_neg a0.ne']
    exact ⟨trivial, a0⟩

/-- The product of finite positive ratios never is a NaN, even if it overflows or underflows. -/
theorem product_geZero {α : Type} (g : α → F32) (l : List α)
    (h : ∀ x ∈ l, IsFin (g x) ∧ 1 / 2 ^ 149 ≤ toQ (g x) ∧ toQ (g x) ≤ 2 ^ 128) (m : F64) (hm : GeZero m) :
    GeZero (l.foldl (fun mul x => mul *. Wide.widen (g x)) m) := by
  induction l generalizing m with
  | nil => exact hm
  | cons a l ih =>
    rw [List.foldl_cons]
    refine ih (fun x hx => h x (by simp [hx])) _ ?_
    obtain ⟨h1, h2, h3⟩ := h a (by simp)
    obtain ⟨w1, w2⟩ := widen_pos h1 h2 h3
    exact geZero_mul' w1 w2 hm

end Verif.FloatEvaluate
