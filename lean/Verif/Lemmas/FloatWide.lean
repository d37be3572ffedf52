import Verif.Lemmas.FloatNN
import Verif.Lemmas.FloatEma
import Verif.Model.IndicatorUtil

/-!
# Conversions between binary32 and binary64, and the binary64 arithmetic of the variance helper
-/

namespace Verif.FloatWide
open FloatOps FloatMoney FloatNN
open Fl (toQ IsFin)

theorem err64 (x : ℚ) : Fl.errBound binary64 x ≤ |x| / 2 ^ 50 + 1 / 2 ^ 200 := by
  unfold Fl.errBound
  have h1 : (2 : ℚ) ^ (-((53 : ℕ) : ℤ)) ≤ 1 / 2 ^ 50 := by
    rw [zpow_neg, zpow_natCast, one_div]; gcongr <;> norm_num
  have h2 : (2 : ℚ) ^ ((-1074 : ℤ) - 1) ≤ 1 / 2 ^ 200 := by
    rw [show ((-1074 : ℤ) - 1) = -((1075 : ℕ) : ℤ) by norm_num, zpow_neg, zpow_natCast, one_div]
    gcongr <;> norm_num
  have := abs_nonneg x
  have h3 := mul_le_mul_of_nonneg_right h1 this
  rw [div_eq_mul_one_div |x|, mul_comm |x|]
  exact add_le_add h3 h2

theorem rnd_fin64 {x : ℚ} (h : |x| ≤ 2 ^ 200) : IsFin (Fl.rnd binary64 x) := by
  have hlt : |rndQ binary64 x| < (2 : ℚ) ^ (1024 : ℤ) := by
    have e1 : (2 : ℚ) ^ (210 : ℕ) ≤ (2 : ℚ) ^ (1024 : ℤ) := by
      rw [show (1024 : ℤ) = ((1024 : ℕ) : ℤ) by norm_num, zpow_natCast]
      gcongr <;> norm_num
    refine lt_of_lt_of_le ?_ e1
    by_cases hx : x = 0
    · subst hx
      have e : rndQ binary64 0 = 0 := le_antisymm (rndQ_nonpos le_rfl) (rndQ_nonneg le_rfl)
      rw [e, abs_zero]; norm_num
    · have h2 := (Fl.rndQ_err (f := binary64) hx).trans (err64 x)
      have h3 := (abs_add_bound h2).1
      norm_num at h h3 ⊢
      linarith
  unfold Fl.rnd
  dsimp only
  rw [if_neg (not_le.mpr hlt)]
  split_ifs <;> trivial

theorem ofRat_fin64 {x : ℚ} (h : |x| ≤ 2 ^ 200) : IsFin (Fl.ofRat binary64 x) := by
  unfold Fl.ofRat
  split
  · trivial
  · exact rnd_fin64 h

theorem widen_fin {x : F32} (hx : IsFin x) (h : |toQ x| ≤ 2 ^ 200) :
    IsFin (Wide.widen x : F64) ∧ |toQ (Wide.widen x : F64) - toQ x| ≤ |toQ x| / 2 ^ 50 + 1 / 2 ^ 200 := by
  cases x with
  | nan => exact hx.elim
  | inf s => exact hx.elim
  | negZero =>
    refine ⟨trivial, ?_⟩
    change |(0 : ℚ) - 0| ≤ |(0 : ℚ)| / 2 ^ 50 + 1 / 2 ^ 200
    norm_num
  | fin q =>
    have hf : IsFin (Fl.ofRat binary64 q) := ofRat_fin64 h
    exact ⟨hf, (Fl.ofRat_err hf).trans (err64 q)⟩

theorem narrow_fin {y : F64} (hy : IsFin y) (h : |toQ y| ≤ 2 ^ 127) :
    IsFin (Wide.narrow y : F32) ∧ |toQ (Wide.narrow y : F32) - toQ y| ≤ |toQ y| / 16777216 + tinyQ := by
  have ht := tinyQ_pos
  cases y with
  | nan => exact hy.elim
  | inf s => exact hy.elim
  | negZero =>
    refine ⟨trivial, ?_⟩
    change |(0 : ℚ) - 0| ≤ |(0 : ℚ)| / 16777216 + tinyQ
    norm_num; exact ht.le
  | fin q =>
    have hf : IsFin (Fl.ofRat binary32 q) := ofRat_fin h
    have := Fl.ofRat_err hf
    rw [err32] at this
    exact ⟨hf, this⟩

theorem add_fin64 {x y : F64} (hx : IsFin x) (hy : IsFin y) (h : |toQ x + toQ y| ≤ 2 ^ 200) :
    IsFin (x +. y) ∧ |toQ (x +. y) - (toQ x + toQ y)| ≤ |toQ x + toQ y| / 2 ^ 50 + 1 / 2 ^ 200 := by
  have hf : IsFin (x +. y) := by
    show IsFin (Fl.add x y)
    cases x <;> cases y <;> first | exact hx.elim | exact hy.elim | exact ofRat_fin64 h | trivial
  exact ⟨hf, ((Fl.add_err (a := x) (b := y) hf).2.2).trans (err64 _)⟩

theorem sub_fin64 {x y : F64} (hx : IsFin x) (hy : IsFin y) (h : |toQ x - toQ y| ≤ 2 ^ 200) :
    IsFin (x -. y) ∧ |toQ (x -. y) - (toQ x - toQ y)| ≤ |toQ x - toQ y| / 2 ^ 50 + 1 / 2 ^ 200 := by
  have := add_fin64 (x := x) (y := Fl.neg y) hx (Fl.isFin_neg.mpr hy) (by rwa [Fl.toQ_neg, ← sub_eq_add_neg])
  rw [Fl.toQ_neg, ← sub_eq_add_neg] at this
  exact this

theorem mul_fin64 {x y : F64} (hx : IsFin x) (hy : IsFin y) (h : |toQ x * toQ y| ≤ 2 ^ 200) :
    IsFin (x *. y) ∧ |toQ (x *. y) - toQ x * toQ y| ≤ |toQ x * toQ y| / 2 ^ 50 + 1 / 2 ^ 200 := by
  have hf : IsFin (x *. y) := by
    show IsFin (Fl.mul x y)
    rw [Fl.mul_num hx hy]
    split
    · exact Fl.isFin_zero _
    · exact rnd_fin64 h
  exact ⟨hf, ((Fl.mul_err (a := x) (b := y) hf).2.2).trans (err64 _)⟩

theorem div_fin64 {x y : F64} (hx : IsFin x) (hy : IsFin y) (h0 : toQ y ≠ 0) (h : |toQ x / toQ y| ≤ 2 ^ 200) :
    IsFin (x /. y) ∧ |toQ (x /. y) - toQ x / toQ y| ≤ |toQ x / toQ y| / 2 ^ 50 + 1 / 2 ^ 200 := by
  have hf : IsFin (x /. y) := by
    show IsFin (Fl.div x y)
    cases y with
    | nan => exact hy.elim
    | inf s => exact hy.elim
    | negZero => exact absurd rfl h0
    | fin b =>
      change b ≠ 0 at h0
      cases x with
      | nan => exact hx.elim
      | inf s => exact hx.elim
      | negZero => rw [Fl.div_nz_fin, if_neg h0]; exact Fl.isFin_zero _
      | fin a =>
        rw [Fl.div_fin_fin, if_neg h0]
        split
        · exact Fl.isFin_zero _
        · exact rnd_fin64 h
  exact ⟨hf, ((Fl.div_err (a := x) hy hf).2.2).trans (err64 _)⟩

/-- Integers below 2^53 are their own rounding in binary64. -/
theorem rndQ_int64 {n : ℤ} (h : |n| < 2 ^ 53) : rndQ binary64 n = n := by
  by_cases h0 : n = 0
  · subst h0
    have e : rndQ binary64 0 = 0 := le_antisymm (rndQ_nonpos le_rfl) (rndQ_nonneg le_rfl)
    simpa using e
  have hlog : Int.log 2 |(n : ℚ)| < 53 := by
    have hpos : 0 < |(n : ℚ)| := abs_pos.mpr (by exact_mod_cast h0)
    have hlow := Int.zpow_log_le_self (b := 2) (by norm_num) hpos
    push_cast at hlow
    by_contra hc
    push Not at hc
    have h1 : (2 : ℚ) ^ (53 : ℤ) ≤ (2 : ℚ) ^ Int.log 2 |(n : ℚ)| := zpow_le_zpow_right₀ (by norm_num) hc
    have h2 : |(n : ℚ)| < 2 ^ 53 := by exact_mod_cast h
    have h3 : (2 : ℚ) ^ (53 : ℤ) = 2 ^ 53 := by norm_cast
    rw [h3] at h1
    linarith
  unfold rndQ
  have hu : ulp binary64 n = (2 : ℚ) ^ (max (Int.log 2 |(n : ℚ)| - 52) (-1074)) := rfl
  obtain ⟨k, hk⟩ : ∃ k : ℕ, max (Int.log 2 |(n : ℚ)| - 52) (-1074) = -(k : ℤ) :=
    ⟨(-(max (Int.log 2 |(n : ℚ)| - 52) (-1074))).toNat, by omega⟩
  rw [hu, hk, zpow_neg, zpow_natCast, div_inv_eq_mul]
  have e : (n : ℚ) * 2 ^ k = ((n * 2 ^ k : ℤ) : ℚ) := by push_cast; ring
  rw [e, Fl.rne_int]
  push_cast
  field_simp

/-- Integers below 2^53 are binary64 numbers. -/
theorem lit_int64 {n : ℤ} (h : |n| < 2 ^ 53) : IsFin (lit F64 n) ∧ toQ (lit F64 n) = n := by
  have h1 : |((n : ℤ) : ℚ)| ≤ 2 ^ 200 := by
    have : |(n : ℚ)| < 2 ^ 53 := by exact_mod_cast h
    exact this.le.trans (by norm_num)
  have hf : IsFin (Fl.ofRat binary64 n) := ofRat_fin64 h1
  refine ⟨hf, ?_⟩
  show toQ (Fl.ofRat binary64 n) = n
  by_cases h0 : (n : ℚ) = 0
  · rw [h0]; rfl
  unfold Fl.ofRat at hf ⊢
  rw [if_neg h0] at hf ⊢
  unfold Fl.rnd at hf ⊢
  dsimp only at hf ⊢
  rw [rndQ_int64 h] at hf ⊢
  split_ifs at hf ⊢
  all_goals first | exact hf.elim | rfl

/-- `std::pow(x, 2)` of a binary32 number. -/
theorem sq_fin {x : F32} {B : ℚ} (hx : IsFin x) (hB : |toQ x| ≤ B) (h1 : 1 / 2 ^ 50 ≤ B) (h2 : B ≤ 2 ^ 60) :
    IsFin (sq x : F64) ∧ |toQ (sq x : F64) - toQ x ^ 2| ≤ B ^ 2 / 2 ^ 45 := by
  have hB0 : 0 < B := lt_of_lt_of_le (by positivity) h1
  obtain ⟨w1, w2⟩ := widen_fin hx (hB.trans (h2.trans (by norm_num)))
  have w3 : |toQ (Wide.widen x : F64) - toQ x| ≤ B / 2 ^ 49 := by
    norm_num at *; linarith
  have w4 := (abs_add_bound w3).1
  have hXB := hB
  unfold sq
  generalize (Wide.widen x : F64) = w at *
  generalize toQ x = X at *
  have w5 : |toQ w| ≤ 2 * B := by norm_num at *; linarith
  have hBB : B * B ≤ 2 ^ 60 * 2 ^ 60 := by gcongr
  have hBl : 1 / 2 ^ 50 * (1 / 2 ^ 50) ≤ B * B := by gcongr
  have hww : |toQ w * toQ w| ≤ 4 * (B * B) := by
    rw [abs_mul]
    calc |toQ w| * |toQ w| ≤ (2 * B) * (2 * B) := by gcongr
      _ = _ := by ring
  obtain ⟨p1, p2⟩ := mul_fin64 w1 w1 (hww.trans (by norm_num at *; linarith))
  refine ⟨p1, ?_⟩
  have d : |toQ w * toQ w - X ^ 2| ≤ (B / 2 ^ 49) * (3 * B) := by
    rw [show toQ w * toQ w - X ^ 2 = (toQ w - X) * (toQ w + X) by ring, abs_mul]
    have : |toQ w + X| ≤ 3 * B := (abs_add_le _ _).trans (by linarith)
    gcongr
  have e : toQ (w *. w) - X ^ 2 = (toQ (w *. w) - toQ w * toQ w) + (toQ w * toQ w - X ^ 2) := by ring
  rw [e]
  refine (abs_add_le _ _).trans ?_
  have d' : (B / 2 ^ 49) * (3 * B) = 3 * (B * B) / 2 ^ 49 := by ring
  rw [d'] at d
  rw [show B ^ 2 = B * B by ring]
  generalize B * B = Q at *
  norm_num at *
  linarith

/-- `window_sum_2_ += x * x`, given that all the quantities involved are at most `Y`. -/
theorem addSq_fin {s x : F32} {B Y : ℚ} (hs : IsFin s) (hx : IsFin x) (hB : |toQ x| ≤ B) (h1 : 1 / 2 ^ 50 ≤ B)
    (h2 : B ≤ 2 ^ 60) (hBY : B ^ 2 ≤ Y) (hY : Y ≤ 2 ^ 120) (hsY : |toQ s| ≤ Y) (hr : |toQ s + toQ x ^ 2| ≤ Y) :
    IsFin (MeanVar.addSq s x) ∧ |toQ (MeanVar.addSq s x) - (toQ s + toQ x ^ 2)| ≤ Y / 2 ^ 23 := by
  have ht := FloatEma.tiny_le
  have ht0 := tinyQ_pos
  have hYl : 1 / 2 ^ 100 ≤ Y := by
    refine le_trans ?_ hBY
    calc (1 : ℚ) / 2 ^ 100 = (1 / 2 ^ 50) ^ 2 := by norm_num
      _ ≤ B ^ 2 := by gcongr
  obtain ⟨q1, q2⟩ := sq_fin hx hB h1 h2
  obtain ⟨w1, w2⟩ := widen_fin hs (hsY.trans (hY.trans (by norm_num)))
  unfold MeanVar.addSq
  generalize (sq x : F64) = q at *
  generalize (Wide.widen s : F64) = w at *
  generalize toQ x ^ 2 = X at *
  generalize toQ s = S at *
  generalize B ^ 2 = BB at *
  have d1 : |(toQ w + toQ q) - (S + X)| ≤ Y / 2 ^ 44 := by
    rw [show (toQ w + toQ q) - (S + X) = (toQ w - S) + (toQ q - X) by ring]
    refine (abs_add_le _ _).trans ?_
    norm_num at *; linarith
  have d2 := (abs_add_bound d1).1
  have d3 : |toQ w + toQ q| ≤ 2 * Y := by norm_num at *; linarith
  obtain ⟨a1, a2⟩ := add_fin64 w1 q1 (d3.trans (by norm_num at *; linarith))
  have d4 := (abs_add_bound a2).1
  have d5 : |toQ (w +. q)| ≤ 2 * Y := by norm_num at *; linarith
  have d6 : |toQ (w +. q)| ≤ Y + Y / 2 ^ 40 := by norm_num at *; linarith
  obtain ⟨n1, n2⟩ := narrow_fin a1 (d5.trans (by norm_num at *; linarith))
  refine ⟨n1, ?_⟩
  generalize (w +. q) = r at *
  rw [show toQ (Wide.narrow r : F32) - (S + X) =
    (toQ (Wide.narrow r : F32) - toQ r) + ((toQ r - (toQ w + toQ q)) + ((toQ w + toQ q) - (S + X))) by ring]
  refine (abs_add_le _ _).trans ?_
  have := (abs_add_le (toQ r - (toQ w + toQ q)) ((toQ w + toQ q) - (S + X)))
  norm_num at *
  linarith

/-- `window_sum_2_ -= x * x`, given that all the quantities involved are at most `Y`. -/
theorem subSq_fin {s x : F32} {B Y : ℚ} (hs : IsFin s) (hx : IsFin x) (hB : |toQ x| ≤ B) (h1 : 1 / 2 ^ 50 ≤ B)
    (h2 : B ≤ 2 ^ 60) (hBY : B ^ 2 ≤ Y) (hY : Y ≤ 2 ^ 120) (hsY : |toQ s| ≤ Y) (hr : |toQ s - toQ x ^ 2| ≤ Y) :
    IsFin (MeanVar.subSq s x) ∧ |toQ (MeanVar.subSq s x) - (toQ s - toQ x ^ 2)| ≤ Y / 2 ^ 23 := by
  have ht := FloatEma.tiny_le
  have ht0 := tinyQ_pos
  have hYl : 1 / 2 ^ 100 ≤ Y := by
    refine le_trans ?_ hBY
    calc (1 : ℚ) / 2 ^ 100 = (1 / 2 ^ 50) ^ 2 := by norm_num
      _ ≤ B ^ 2 := by gcongr
  obtain ⟨q1, q2⟩ := sq_fin hx hB h1 h2
  obtain ⟨w1, w2⟩ := widen_fin hs (hsY.trans (hY.trans (by norm_num)))
  unfold MeanVar.subSq
  generalize (sq x : F64) = q at *
  generalize (Wide.widen s : F64) = w at *
  generalize toQ x ^ 2 = X at *
  generalize toQ s = S at *
  generalize B ^ 2 = BB at *
  have d1 : |(toQ w - toQ q) - (S - X)| ≤ Y / 2 ^ 44 := by
    rw [show (toQ w - toQ q) - (S - X) = (toQ w - S) - (toQ q - X) by ring]
    refine (abs_sub _ _).trans ?_
    norm_num at *; linarith
  have d2 := (abs_add_bound d1).1
  have d3 : |toQ w - toQ q| ≤ 2 * Y := by norm_num at *; linarith
  obtain ⟨a1, a2⟩ := sub_fin64 w1 q1 (d3.trans (by norm_num at *; linarith))
  have d4 := (abs_add_bound a2).1
  have d5 : |toQ (w -. q)| ≤ 2 * Y := by norm_num at *; linarith
  have d6 : |toQ (w -. q)| ≤ Y + Y / 2 ^ 40 := by norm_num at *; linarith
  obtain ⟨n1, n2⟩ := narrow_fin a1 (d5.trans (by norm_num at *; linarith))
  refine ⟨n1, ?_⟩
  generalize (w -. q) = r at *
  rw [show toQ (Wide.narrow r : F32) - (S - X) =
    (toQ (Wide.narrow r : F32) - toQ r) + ((toQ r - (toQ w - toQ q)) + ((toQ w - toQ q) - (S - X))) by ring]
  refine (abs_add_le _ _).trans ?_
  have := (abs_add_le (toQ r - (toQ w - toQ q)) ((toQ w - toQ q) - (S - X)))
  norm_num at *
  linarith

end Verif.FloatWide
