import Verif.Lemmas.FloatNN

/-!
# The value of a binary32 operation

Without overflow it is the rounding of the exact result, which is monotone.
-/

namespace Verif.FloatVal
open FloatOps FloatMoney FloatNN
open Fl (toQ IsFin)

theorem rndQ_zero : rndQ binary32 0 = 0 := by unfold rndQ; rw [zero_div, show (rne 0) = 0 by simp [rne]]; simp

theorem rnd_val {x : ℚ} (h : |x| ≤ 2 ^ 127) : toQ (Fl.rnd binary32 x) = rndQ binary32 x := by
  have hf := rnd_fin h
  unfold Fl.rnd at hf ⊢
  dsimp only at hf ⊢
  split_ifs at hf ⊢ with h1 h2 h3
  · exact hf.elim
  · rw [h2]; rfl
  · rw [h2]; rfl
  · rfl

theorem ofRat_val {x : ℚ} (h : |x| ≤ 2 ^ 127) : toQ (Fl.ofRat binary32 x) = rndQ binary32 x := by
  unfold Fl.ofRat
  split
  · rename_i h0; subst h0; rw [rndQ_zero]; rfl
  · exact rnd_val h

theorem add_val {x y : F32} (hx : IsFin x) (hy : IsFin y) (h : |toQ x + toQ y| ≤ 2 ^ 127) :
    toQ (x +. y) = rndQ binary32 (toQ x + toQ y) := by
  show toQ (Fl.add x y) = _
  cases x <;> cases y <;>
    first | exact hx.elim | exact hy.elim | exact ofRat_val h | (show (0 : ℚ) = rndQ binary32 (0 + 0); rw [add_zero, rndQ_zero])

theorem sub_val {x y : F32} (hx : IsFin x) (hy : IsFin y) (h : |toQ x - toQ y| ≤ 2 ^ 127) :
    toQ (x -. y) = rndQ binary32 (toQ x - toQ y) := by
  have := add_val (x := x) (y := Fl.neg y) hx (Fl.isFin_neg.mpr hy) (by rwa [Fl.toQ_neg, ← sub_eq_add_neg])
  rw [Fl.toQ_neg, ← sub_eq_add_neg] at this
  exact this

theorem mul_val {x y : F32} (hx : IsFin x) (hy : IsFin y) (h : |toQ x * toQ y| ≤ 2 ^ 127) :
    toQ (x *. y) = rndQ binary32 (toQ x * toQ y) := by
  show toQ (Fl.mul x y) = _
  rw [Fl.mul_num hx hy]
  split
  · rename_i h0; rw [h0, rndQ_zero]; exact Fl.toQ_zero _
  · exact rnd_val h

theorem div_val {x y : F32} (hx : IsFin x) (hy : IsFin y) (h0 : toQ y ≠ 0) (h : |toQ x / toQ y| ≤ 2 ^ 127) :
    toQ (x /. y) = rndQ binary32 (toQ x / toQ y) := by
  show toQ (Fl.div x y) = _
  cases y with
  | nan => exact hy.elim
  | inf s => exact hy.elim
  | negZero => exact absurd rfl h0
  | fin b =>
    change b ≠ 0 at h0
    cases x with
    | nan => exact hx.elim
    | inf s => exact hx.elim
    | negZero =>
      rw [Fl.div_nz_fin, if_neg h0]
      show toQ (Fl.zero _) = rndQ binary32 (0 / b)
      rw [zero_div, rndQ_zero]; exact Fl.toQ_zero _
    | fin a =>
      rw [Fl.div_fin_fin, if_neg h0]
      split
      · rename_i ha
        subst ha
        show toQ (Fl.zero _) = rndQ binary32 (0 / b)
        rw [zero_div, rndQ_zero]; exact Fl.toQ_zero _
      · exact rnd_val h

theorem rndQ_le {x y : ℚ} (h : x ≤ y) : rndQ binary32 x ≤ rndQ binary32 y := Fl.rndQ_mono (by decide) h

/-- Rounding does not cross a number that is its own rounding. -/
theorem rndQ_between {x lo hi : ℚ} (hlo : rndQ binary32 lo = lo) (hhi : rndQ binary32 hi = hi) (h1 : lo ≤ x) (h2 : x ≤ hi) :
    lo ≤ rndQ binary32 x ∧ rndQ binary32 x ≤ hi :=
  ⟨hlo ▸ rndQ_le h1, hhi ▸ rndQ_le h2⟩

theorem rndQ_nonneg {x : ℚ} (h : 0 ≤ x) : 0 ≤ rndQ binary32 x := by
  have := rndQ_le h
  rwa [rndQ_zero] at this

theorem rndQ_one : rndQ binary32 1 = 1 := by decide +kernel
theorem rndQ_hundred : rndQ binary32 100 = 100 := by decide +kernel

/-- Integers below 2^24 are their own rounding. -/
theorem rndQ_int {n : ℤ} (h : |n| < 2 ^ 24) : rndQ binary32 n = n := by
  by_cases h0 : n = 0
  · subst h0; simpa using rndQ_zero
  have hlog : Int.log 2 |(n : ℚ)| < 24 := by
    have hpos : 0 < |(n : ℚ)| := abs_pos.mpr (by exact_mod_cast h0)
    have hlow := Int.zpow_log_le_self (b := 2) (by norm_num) hpos
    push_cast at hlow
    by_contra hc
    push Not at hc
    have h1 : (2 : ℚ) ^ (24 : ℤ) ≤ (2 : ℚ) ^ Int.log 2 |(n : ℚ)| := zpow_le_zpow_right₀ (by norm_num) hc
    have h2 : |(n : ℚ)| < 2 ^ 24 := by exact_mod_cast h
    have h3 : (2 : ℚ) ^ (24 : ℤ) = 2 ^ 24 := by norm_cast
    rw [h3] at h1
    linarith
  unfold rndQ
  have hu : ulp binary32 n = (2 : ℚ) ^ (max (Int.log 2 |(n : ℚ)| - 23) (-149)) := rfl
  obtain ⟨k, hk⟩ : ∃ k : ℕ, max (Int.log 2 |(n : ℚ)| - 23) (-149) = -(k : ℤ) :=
    ⟨(-(max (Int.log 2 |(n : ℚ)| - 23) (-149))).toNat, by omega⟩
  rw [hu, hk, zpow_neg, zpow_natCast, div_inv_eq_mul]
  have e : (n : ℚ) * 2 ^ k = ((n * 2 ^ k : ℤ) : ℚ) := by push_cast; ring
  rw [e, Fl.rne_int]
  push_cast
  field_simp

theorem le_iff {f : Fmt} {a b : Fl f} (ha : IsFin a) (hb : IsFin b) : Fl.le a b = true ↔ toQ a ≤ toQ b := by
  have h1 := Fl.lt_iff ha hb
  rw [Fl.le, Bool.or_eq_true, h1, le_iff_lt_or_eq]
  cases a <;> cases b <;> first | exact ha.elim | exact hb.elim | skip
  · exact ⟨fun _ => .inr rfl, fun _ => .inr rfl⟩
  all_goals exact or_congr Iff.rfl decide_eq_true_iff

end Verif.FloatVal
