import Verif.Spec.Wire
import Verif.Props.Proto
import Verif.Props.ConvertMain

/-!
# C81: the messages on the wire
-/

namespace Verif.Props
open Verif Verif.Spec Verif.Wire Verif.Convert

/-! ### `float` -/

private theorem ofBits_sub (s : Bool) (n : ℕ) (hn : n < 2 ^ 23) (h0 : n ≠ 0) :
    ofBits ((if s then 2 ^ 31 else 0) + n) = .fin ((if s then -1 else 1) * (n * (2 : ℚ) ^ (-149 : ℤ))) := by
  unfold ofBits
  have e1 : decide (((if s then 2 ^ 31 else 0) + n) / 2 ^ 31 % 2 = 1) = s := by
    cases s <;> simp <;> omega
  have e2 : ((if s then 2 ^ 31 else 0) + n) / 2 ^ 23 % 2 ^ 8 = 0 := by
    cases s <;> simp <;> omega
  have e3 : ((if s then 2 ^ 31 else 0) + n) % 2 ^ 23 = n := by
    cases s <;> simp <;> omega
  dsimp only
  rw [e1, e2, e3]
  simp [h0]

private theorem ofBits_norm (s : Bool) (e n : ℕ) (hn : n < 2 ^ 23) (h0 : e ≠ 0) (he : e < 255) :
    ofBits ((if s then 2 ^ 31 else 0) + e * 2 ^ 23 + n) =
      .fin ((if s then -1 else 1) * (((2 ^ 23 + n : ℕ) : ℚ) * (2 : ℚ) ^ ((e : ℤ) - 150))) := by
  unfold ofBits
  have e1 : decide (((if s then 2 ^ 31 else 0) + e * 2 ^ 23 + n) / 2 ^ 31 % 2 = 1) = s := by
    cases s <;> simp <;> omega
  have e2 : ((if s then 2 ^ 31 else 0) + e * 2 ^ 23 + n) / 2 ^ 23 % 2 ^ 8 = e := by
    cases s <;> simp <;> omega
  have e3 : ((if s then 2 ^ 31 else 0) + e * 2 ^ 23 + n) % 2 ^ 23 = n := by
    cases s <;> simp <;> omega
  dsimp only
  rw [e1, e2, e3]
  rw [if_neg (by omega), if_neg h0]

private theorem sign_abs (q : ℚ) : (if decide (q < 0) then (-1 : ℚ) else 1) * |q| = q := by
  by_cases h : q < 0
  · simp [h, abs_of_neg h]
  · simp [h, abs_of_nonneg (not_lt.mp h)]

/-- What `bits` does with a representable number. -/
private theorem bits_fin {q : ℚ} (h0 : q ≠ 0) (h : (Fl.fin q : F32).Repr) :
    (∃ n : ℕ, n < 2 ^ 23 ∧ n ≠ 0 ∧ |q| = n * (2 : ℚ) ^ (-149 : ℤ) ∧
      bits (.fin q) = (if decide (q < 0) then 2 ^ 31 else 0) + n) ∨
    (∃ e n : ℕ, n < 2 ^ 23 ∧ e ≠ 0 ∧ e < 255 ∧ |q| = ((2 ^ 23 + n : ℕ) : ℚ) * (2 : ℚ) ^ ((e : ℤ) - 150) ∧
      bits (.fin q) = (if decide (q < 0) then 2 ^ 31 else 0) + e * 2 ^ 23 + n) := by
  obtain ⟨m, e, hm, he1, he2, hq⟩ := h
  simp only at hm he1 he2
  have hm0 : m ≠ 0 := by rintro rfl; simp at hq; exact h0 hq
  have habs : |q| = (m.natAbs : ℚ) * (2 : ℚ) ^ e := by
    rw [hq, abs_mul, abs_of_pos (zpow_pos (by norm_num : (0 : ℚ) < 2) e), Nat.cast_natAbs, Int.cast_abs]
  have hmn : m.natAbs < 2 ^ 24 := by rw [Int.abs_eq_natAbs] at hm; omega
  have hm1 : m.natAbs ≠ 0 := by omega
  have hapos : 0 < |q| := abs_pos.mpr h0
  by_cases hsub : |q| < (2 : ℚ) ^ (-126 : ℤ)
  · left
    obtain ⟨d, hd⟩ : ∃ d : ℕ, e + 149 = d := ⟨(e + 149).toNat, by omega⟩
    have hval : |q| * 2 ^ 149 = ((m.natAbs * 2 ^ d : ℕ) : ℚ) := by
      rw [habs, mul_assoc]
      have : (2 : ℚ) ^ e * 2 ^ 149 = 2 ^ d := by
        rw [← zpow_natCast, ← zpow_natCast, ← zpow_add₀ (by norm_num), ← hd]; rfl
      rw [this]; push_cast; rfl
    have hback : |q| = ((m.natAbs * 2 ^ d : ℕ) : ℚ) * (2 : ℚ) ^ (-149 : ℤ) := by
      rw [← hval, mul_assoc, ← zpow_natCast, ← zpow_add₀ (by norm_num)]; norm_num
    refine ⟨m.natAbs * 2 ^ d, ?_, ?_, hback, ?_⟩
    · have : ((m.natAbs * 2 ^ d : ℕ) : ℚ) < ((2 ^ 23 : ℕ) : ℚ) := by
        rw [← hval]
        calc |q| * 2 ^ 149 < (2 : ℚ) ^ (-126 : ℤ) * 2 ^ 149 := mul_lt_mul_of_pos_right hsub (by positivity)
          _ = ((2 ^ 23 : ℕ) : ℚ) := by
            rw [← zpow_natCast, ← zpow_add₀ (by norm_num)]; norm_num
      exact_mod_cast this
    · exact Nat.mul_ne_zero hm1 (by positivity)
    · unfold bits
      dsimp only
      rw [if_pos hsub, hval, Int.floor_natCast, Int.toNat_natCast]
      simp
  · right
    set k := Int.log 2 |q| with hk
    have hlow := Int.zpow_log_le_self (b := 2) (by norm_num) hapos
    have hhigh := Int.lt_zpow_succ_log_self (b := 2) (by norm_num) |q|
    rw [← hk] at hlow hhigh
    push_cast at hlow hhigh
    have hk1 : -126 ≤ k := by
      have := (zpow_lt_zpow_iff_right₀ (by norm_num : (1 : ℚ) < 2)).mp (lt_of_le_of_lt (not_lt.mp hsub) hhigh)
      omega
    have hkm : k < 24 + e := by
      apply (zpow_lt_zpow_iff_right₀ (by norm_num : (1 : ℚ) < 2)).mp
      refine lt_of_le_of_lt hlow ?_
      rw [habs, zpow_add₀ (by norm_num)]
      refine mul_lt_mul_of_pos_right ?_ (zpow_pos (by norm_num) _)
      have : ((m.natAbs : ℕ) : ℚ) < ((2 ^ 24 : ℕ) : ℚ) := by exact_mod_cast hmn
      refine this.trans_le (le_of_eq ?_)
      norm_num
    obtain ⟨d, hd⟩ : ∃ d : ℕ, e - (k - 23) = d := ⟨(e - (k - 23)).toNat, by omega⟩
    have hval : |q| / (2 : ℚ) ^ (k - 23) = ((m.natAbs * 2 ^ d : ℕ) : ℚ) := by
      rw [habs, mul_div_assoc, ← zpow_sub₀ (by norm_num), hd]
      push_cast; rw [zpow_natCast]
    set N := m.natAbs * 2 ^ d with hN
    have hppos : (0 : ℚ) < (2 : ℚ) ^ (k - 23) := zpow_pos (by norm_num) _
    have hback : |q| = (N : ℚ) * (2 : ℚ) ^ (k - 23) := by
      rw [← hval, div_mul_cancel₀ _ hppos.ne']
    have hN1 : 2 ^ 23 ≤ N := by
      have : ((2 ^ 23 : ℕ) : ℚ) ≤ (N : ℚ) := by
        rw [← hval, le_div_iff₀ hppos]
        refine le_trans (le_of_eq ?_) hlow
        rw [show ((2 ^ 23 : ℕ) : ℚ) = (2 : ℚ) ^ (23 : ℤ) by norm_num, ← zpow_add₀ (by norm_num)]
        congr 1; omega
      exact_mod_cast this
    have hN2 : N < 2 ^ 24 := by
      have : (N : ℚ) < ((2 ^ 24 : ℕ) : ℚ) := by
        rw [← hval, div_lt_iff₀ hppos]
        refine lt_of_lt_of_le hhigh (le_of_eq ?_)
        rw [show ((2 ^ 24 : ℕ) : ℚ) = (2 : ℚ) ^ (24 : ℤ) by norm_num, ← zpow_add₀ (by norm_num)]
        congr 1; omega
      exact_mod_cast this
    have hk2 : k ≤ 127 := by omega
    refine ⟨(k + 127).toNat, N - 2 ^ 23, by omega, by omega, by omega, ?_, ?_⟩
    · rw [show 2 ^ 23 + (N - 2 ^ 23) = N by omega, hback]
      congr 2
      omega
    · unfold bits
      dsimp only
      rw [if_neg hsub, ← hk, hval, Int.floor_natCast, Int.toNat_natCast]
      simp

/-- **C81** (`float`). Writing a `float` as four bytes and reading these gives the same `float`, bit by bit: every finite
value, both zeros, both infinities, and a NaN as a NaN. -/
theorem C81_float (x : F32) (h : x.Repr) : ofBits (bits x) = x ∧ bits x < 2 ^ 32 := by
  cases x with
  | nan => decide +kernel
  | inf s => cases s <;> decide +kernel
  | negZero => decide +kernel
  | fin q =>
    by_cases h0 : q = 0
    · subst h0; decide +kernel
    · rcases bits_fin h0 h with ⟨n, hn, hn0, hq, hb⟩ | ⟨e, n, hn, he0, he, hq, hb⟩
      · rw [hb, ofBits_sub _ n hn hn0, ← hq, sign_abs]
        refine ⟨rfl, ?_⟩
        split <;> omega
      · rw [hb, ofBits_norm _ e n hn he0 he, ← hq, sign_abs]
        refine ⟨rfl, ?_⟩
        split <;> omega

private theorem bits_sub (s : Bool) (n : ℕ) (hn : n < 2 ^ 23) (h0 : n ≠ 0) :
    bits (.fin ((if s then -1 else 1) * (n * (2 : ℚ) ^ (-149 : ℤ)))) = (if s then 2 ^ 31 else 0) + n := by
  have hpos : (0 : ℚ) < n * (2 : ℚ) ^ (-149 : ℤ) :=
    mul_pos (by exact_mod_cast Nat.pos_of_ne_zero h0) (zpow_pos (by norm_num) _)
  have habs : |(if s then (-1 : ℚ) else 1) * (n * (2 : ℚ) ^ (-149 : ℤ))| = n * (2 : ℚ) ^ (-149 : ℤ) := by
    cases s
    · simp only [Bool.false_eq_true, if_false, one_mul]; exact abs_of_pos hpos
    · simp only [if_true, neg_mul, one_mul, abs_neg]; exact abs_of_pos hpos
  have hneg : ((if s then (-1 : ℚ) else 1) * (n * (2 : ℚ) ^ (-149 : ℤ)) < 0) ↔ s = true := by
    cases s
    · simp only [Bool.false_eq_true, if_false, one_mul, iff_false, not_lt]; exact hpos.le
    · simp only [if_true, neg_mul, one_mul, iff_true]; linarith
  have hlt : n * (2 : ℚ) ^ (-149 : ℤ) < (2 : ℚ) ^ (-126 : ℤ) := by
    have : (n : ℚ) < (2 : ℚ) ^ (23 : ℤ) := by
      have : (n : ℚ) < ((2 ^ 23 : ℕ) : ℚ) := by exact_mod_cast hn
      refine this.trans_le (le_of_eq (by norm_num))
    calc n * (2 : ℚ) ^ (-149 : ℤ) < (2 : ℚ) ^ (23 : ℤ) * (2 : ℚ) ^ (-149 : ℤ) :=
          mul_lt_mul_of_pos_right this (zpow_pos (by norm_num) _)
      _ = _ := by rw [← zpow_add₀ (by norm_num)]; norm_num
  have hval : n * (2 : ℚ) ^ (-149 : ℤ) * 2 ^ 149 = (n : ℚ) := by
    rw [mul_assoc, ← zpow_natCast, ← zpow_add₀ (by norm_num)]; norm_num
  unfold bits
  dsimp only
  rw [habs, if_pos hlt, hval, Int.floor_natCast, Int.toNat_natCast]
  congr 1
  exact if_congr hneg rfl rfl

private theorem bits_norm (s : Bool) (e n : ℕ) (hn : n < 2 ^ 23) (h0 : e ≠ 0) :
    bits (.fin ((if s then -1 else 1) * (((2 ^ 23 + n : ℕ) : ℚ) * (2 : ℚ) ^ ((e : ℤ) - 150)))) =
      (if s then 2 ^ 31 else 0) + e * 2 ^ 23 + n := by
  set a := ((2 ^ 23 + n : ℕ) : ℚ) * (2 : ℚ) ^ ((e : ℤ) - 150) with ha
  have hpp : (0 : ℚ) < (2 : ℚ) ^ ((e : ℤ) - 150) := zpow_pos (by norm_num) _
  have hpos : 0 < a := mul_pos (by exact_mod_cast (show 0 < 2 ^ 23 + n by omega)) hpp
  have habs : |(if s then (-1 : ℚ) else 1) * a| = a := by
    cases s
    · simp only [Bool.false_eq_true, if_false, one_mul]; exact abs_of_pos hpos
    · simp only [if_true, neg_mul, one_mul, abs_neg]; exact abs_of_pos hpos
  have hneg : ((if s then (-1 : ℚ) else 1) * a < 0) ↔ s = true := by
    cases s
    · simp only [Bool.false_eq_true, if_false, one_mul, iff_false, not_lt]; exact hpos.le
    · simp only [if_true, neg_mul, one_mul, iff_true]; linarith
  have hlow : (2 : ℚ) ^ ((e : ℤ) - 127) ≤ a := by
    have h1 : ((2 ^ 23 : ℕ) : ℚ) ≤ ((2 ^ 23 + n : ℕ) : ℚ) := by exact_mod_cast Nat.le_add_right _ _
    calc (2 : ℚ) ^ ((e : ℤ) - 127) = ((2 ^ 23 : ℕ) : ℚ) * (2 : ℚ) ^ ((e : ℤ) - 150) := by
          rw [show ((2 ^ 23 : ℕ) : ℚ) = (2 : ℚ) ^ (23 : ℤ) by norm_num, ← zpow_add₀ (by norm_num)]
          congr 1; omega
      _ ≤ a := mul_le_mul_of_nonneg_right h1 hpp.le
  have hhigh : a < (2 : ℚ) ^ ((e : ℤ) - 127 + 1) := by
    have h1 : ((2 ^ 23 + n : ℕ) : ℚ) < ((2 ^ 24 : ℕ) : ℚ) := by
      exact_mod_cast (show 2 ^ 23 + n < 2 ^ 24 by omega)
    calc a < ((2 ^ 24 : ℕ) : ℚ) * (2 : ℚ) ^ ((e : ℤ) - 150) := mul_lt_mul_of_pos_right h1 hpp
      _ = _ := by
        rw [show ((2 ^ 24 : ℕ) : ℚ) = (2 : ℚ) ^ (24 : ℤ) by norm_num, ← zpow_add₀ (by norm_num)]
        congr 1; omega
  have hlog : Int.log 2 a = (e : ℤ) - 127 := by
    have h1 : (e : ℤ) - 127 ≤ Int.log 2 a := (Int.zpow_le_iff_le_log (by norm_num) hpos).mp (by push_cast; exact hlow)
    have h2 : Int.log 2 a < (e : ℤ) - 127 + 1 := (Int.lt_zpow_iff_log_lt (by norm_num) hpos).mp (by push_cast; exact hhigh)
    omega
  have hnsub : ¬ a < (2 : ℚ) ^ (-126 : ℤ) := by
    refine not_lt.mpr (le_trans (zpow_le_zpow_right₀ (by norm_num) ?_) hlow)
    omega
  have hval : a / (2 : ℚ) ^ ((e : ℤ) - 127 - 23) = ((2 ^ 23 + n : ℕ) : ℚ) := by
    rw [show (e : ℤ) - 127 - 23 = (e : ℤ) - 150 by omega, ha, mul_div_assoc, div_self hpp.ne', mul_one]
  unfold bits
  dsimp only
  rw [habs, if_neg hnsub, hlog, hval, Int.floor_natCast, Int.toNat_natCast]
  have e1 : ((e : ℤ) - 127 + 127).toNat = e := by omega
  have e2 : 2 ^ 23 + n - 2 ^ 23 = n := Nat.add_sub_cancel_left ..
  have e3 : (if (if s then (-1 : ℚ) else 1) * a < 0 then 2 ^ 31 else 0) = if s then 2 ^ 31 else 0 := if_congr hneg rfl rfl
  rw [e1, e2, e3]

/-- **C81** (`float`, the other way). Whatever four bytes are read, the result is a `float`; and unless it is a NaN, it is
written as the same four bytes. -/
theorem C81_bits (n : ℕ) (hn : n < 2 ^ 32) : (ofBits n).Repr ∧ (ofBits n ≠ .nan → bits (ofBits n) = n) := by
  obtain ⟨s, e, m, he, hm, rfl⟩ : ∃ (s : Bool) (e m : ℕ), e < 2 ^ 8 ∧ m < 2 ^ 23 ∧
      n = (if s then 2 ^ 31 else 0) + e * 2 ^ 23 + m := by
    refine ⟨decide (n / 2 ^ 31 = 1), n / 2 ^ 23 % 2 ^ 8, n % 2 ^ 23, by omega, by omega, ?_⟩
    by_cases h : n / 2 ^ 31 = 1
    · rw [decide_eq_true h, if_pos rfl]; omega
    · rw [decide_eq_false h, if_neg (by decide)]; omega
  by_cases he0 : e = 0
  · subst he0
    rw [Nat.zero_mul, Nat.add_zero]
    by_cases hm0 : m = 0
    · subst hm0
      cases s
      · exact ⟨Fl.repr_zero (by decide), fun _ => by decide +kernel⟩
      · exact ⟨trivial, fun _ => by decide +kernel⟩
    · rw [ofBits_sub s m hm hm0]
      refine ⟨⟨(if s then -1 else 1) * m, -149, ?_, by decide, by decide, ?_⟩, fun _ => bits_sub s m hm hm0⟩
      · cases s <;> simp [abs_of_nonneg] <;> omega
      · cases s <;> simp
  · by_cases he1 : e = 255
    · subst he1
      by_cases hm0 : m = 0
      · subst hm0
        cases s
        · exact ⟨trivial, fun _ => by decide +kernel⟩
        · exact ⟨trivial, fun _ => by decide +kernel⟩
      · have hnan : ofBits ((if s then 2 ^ 31 else 0) + 255 * 2 ^ 23 + m) = .nan := by
          unfold ofBits
          have e2 : ((if s then 2 ^ 31 else 0) + 255 * 2 ^ 23 + m) / 2 ^ 23 % 2 ^ 8 = 255 := by
            cases s <;> simp <;> omega
          have e3 : ((if s then 2 ^ 31 else 0) + 255 * 2 ^ 23 + m) % 2 ^ 23 = m := by
            cases s <;> simp <;> omega
          dsimp only
          rw [e2, e3, if_pos rfl, if_neg hm0]
        rw [hnan]
        exact ⟨trivial, fun h => absurd rfl h⟩
    · rw [ofBits_norm s e m hm he0 (by omega)]
      refine ⟨⟨(if s then -1 else 1) * (2 ^ 23 + m : ℕ), (e : ℤ) - 150, ?_, ?_, ?_, ?_⟩,
        fun _ => bits_norm s e m hm he0⟩
      · cases s
        · simp only [Bool.false_eq_true, if_false, one_mul, Nat.abs_cast]; push_cast; omega
        · simp only [if_true, neg_mul, one_mul, abs_neg, Nat.abs_cast]; push_cast; omega
      · show (-149 : ℤ) ≤ _; omega
      · show _ + (24 : ℤ) ≤ 128; omega
      · cases s
        · simp
        · simp; ring

/-! ### Integers and fields -/

private theorem toNat_ofNat {n : ℕ} (h : n < 256) : (UInt8.ofNat n).toNat = n := by
  simp [Nat.mod_eq_of_lt h]

private theorem fixed32 {n : ℕ} (h : n < 2 ^ 32) (rest : List UInt8) :
    readFixed32 (writeFixed32 n ++ rest) = some (n, rest) := by
  unfold writeFixed32 readFixed32
  simp only [List.cons_append, List.nil_append]
  rw [toNat_ofNat (by omega), toNat_ofNat (by omega), toNat_ofNat (by omega), toNat_ofNat (by omega)]
  congr 2
  omega

/-- **C81** (timestamps). Every 64-bit timestamp, negative ones included, is read as it was written. -/
theorem C81_int64 (t : ℤ) (h : IsInt64 t) (rest : List UInt8) : readInt64 (writeInt64 t ++ rest) = some (t, rest) := by
  unfold readInt64 writeInt64
  rw [varint_read 9 _ 0 0 10 rest (by unfold IsInt64 at h; omega) (by norm_num)]
  unfold IsInt64 at h
  simp only [Option.map_some, Nat.mul_zero, pow_zero, Nat.mul_one, Nat.zero_add, Option.some.injEq, Prod.mk.injEq, and_true]
  split <;> omega

private theorem readTag_small {n : ℕ} (h : n < 128) (rest : List UInt8) :
    readTag (UInt8.ofNat n :: rest) = some (n, rest) := by
  unfold readTag Proto.readVarintLoop
  dsimp only
  rw [toNat_ofNat (by omega), if_pos h]
  simp
  omega

private theorem varint_length (fuel n : ℕ) : (Proto.varintLoop fuel n).length ≤ fuel + 1 := by
  induction fuel generalizing n with
  | zero => simp [Proto.varintLoop]
  | succ fuel ih =>
    unfold Proto.varintLoop
    split
    · simp
    · have := ih (n / 128); simp; omega

section
variable {M : Type} {handle : M → ℕ → List UInt8 → Option (Option (M × List UInt8))}

/-- The number of rounds does not matter, as long as there is one for every byte. -/
private theorem parseLoop_cons {fuel : ℕ} {m : M} {n : ℕ} {rest : List UInt8} (hn : n < 128) :
    parseLoop handle (fuel + 1) m (UInt8.ofNat n :: rest) =
      match handle m n rest with
      | some none => none
      | some (some (m, rest)) => parseLoop handle fuel m rest
      | none =>
        if n = 0 ∨ n % 8 = 4 then none
        else match skipField n rest with
          | none => none
          | some rest => parseLoop handle fuel m rest := by
  conv_lhs => unfold parseLoop
  rw [readTag_small hn]
  rfl

private theorem parse_int64 {number : ℕ} (hn : number < 16) (set : M → ℤ → M)
    (hh : ∀ m rest, handle m (number * 8) rest = onInt64 (set m) rest) (fuel : ℕ) (m : M) (t : ℤ) (ht : IsInt64 t)
    (rest : List UInt8) :
    parseLoop handle (fuel + 1) m (int64Field number t ++ rest) = parseLoop handle fuel (set m t) rest := by
  unfold int64Field
  rw [List.cons_append, parseLoop_cons (by omega), hh]
  unfold onInt64
  rw [C81_int64 t ht]
  rfl

private theorem parse_float {number : ℕ} (hn : number < 15) (set : M → F32 → M)
    (hh : ∀ m rest, handle m (number * 8 + 5) rest = onFloat (set m) rest) (fuel : ℕ) (m : M) (x : F32) (hx : x.Repr)
    (rest : List UInt8) :
    parseLoop handle (fuel + 1) m (floatField number x ++ rest) = parseLoop handle fuel (set m x) rest := by
  unfold floatField
  rw [List.cons_append, parseLoop_cons (by omega), hh]
  unfold onFloat
  rw [fixed32 (C81_float x hx).2]
  dsimp only [Option.map_some]
  rw [(C81_float x hx).1]

end

private theorem int64Field_length (number : ℕ) (t : ℤ) : 1 ≤ (int64Field number t).length ∧ (int64Field number t).length ≤ 11 := by
  unfold int64Field writeInt64
  have := varint_length 9 (t % 2 ^ 64).toNat
  simp only [List.length_cons]
  omega

private theorem floatField_length (number : ℕ) (x : F32) : (floatField number x).length = 5 := rfl

private theorem parse_price (fuel : ℕ) (m r : PriceRecord F32) (h : MachinePrice r) (rest : List UInt8) :
    parseLoop handlePrice (fuel + 3) m (encodePrice r ++ rest) = parseLoop handlePrice fuel r rest := by
  unfold encodePrice
  rw [List.append_assoc, List.append_assoc, parse_int64 (by omega) (fun r t => { r with ts := t }) (fun _ _ => rfl) _ _ _ h.ts,
    parse_float (by omega) (fun r x => { r with price := x }) (fun _ _ => rfl) _ _ _ h.price,
    parse_float (by omega) (fun r x => { r with volume := x }) (fun _ _ => rfl) _ _ _ h.volume]

private theorem parse_ohlc (fuel : ℕ) (m t : OhlcTick F32) (h : MachineTick t) (rest : List UInt8) :
    parseLoop handleOhlc (fuel + 6) m (encodeOhlc t ++ rest) = parseLoop handleOhlc fuel t rest := by
  unfold encodeOhlc
  simp only [List.append_assoc]
  rw [parse_int64 (by omega) (fun r t => { r with ts := t }) (fun _ _ => rfl) _ _ _ h.ts,
    parse_float (by omega) (fun r x => { r with opn := x }) (fun _ _ => rfl) _ _ _ h.opn,
    parse_float (by omega) (fun r x => { r with high := x }) (fun _ _ => rfl) _ _ _ h.high,
    parse_float (by omega) (fun r x => { r with low := x }) (fun _ _ => rfl) _ _ _ h.low,
    parse_float (by omega) (fun r x => { r with close := x }) (fun _ _ => rfl) _ _ _ h.close,
    parse_float (by omega) (fun r x => { r with volume := x }) (fun _ _ => rfl) _ _ _ h.volume]

private theorem parse_signals (fuel : ℕ) (m : SideInputRecord F32) (xs : List F32) (h : ∀ x ∈ xs, x.Repr) (rest : List UInt8) :
    parseLoop handleSide (fuel + xs.length) m (xs.flatMap (floatField 2) ++ rest) =
      parseLoop handleSide fuel { m with signals := m.signals ++ xs } rest := by
  induction xs generalizing m with
  | nil => simp
  | cons x xs ih =>
    rw [List.flatMap_cons, List.append_assoc, List.length_cons, ← Nat.add_assoc,
      parse_float (by omega) (fun (r : SideInputRecord F32) x => { r with signals := r.signals ++ [x] }) (fun _ _ => rfl) _ _ _
        (h x (by simp)), ih _ (fun y hy => h y (by simp [hy]))]
    simp

private theorem parse_side (fuel : ℕ) (m r : SideInputRecord F32) (h : MachineSide r) (rest : List UInt8) :
    parseLoop handleSide (fuel + r.signals.length + 1) m (encodeSide r ++ rest) =
      parseLoop handleSide fuel ⟨r.ts, m.signals ++ r.signals⟩ rest := by
  unfold encodeSide
  rw [List.append_assoc, parse_int64 (by omega) (fun (r : SideInputRecord F32) t => { r with ts := t }) (fun _ _ => rfl) _ _ _
    h.ts, parse_signals _ _ _ h.signals]

private theorem parseLoop_nil {M : Type} {handle : M → ℕ → List UInt8 → Option (Option (M × List UInt8))} (fuel : ℕ) (m : M) :
    parseLoop handle fuel m [] = some m := by
  cases fuel <;> rfl

/-! ### Messages -/

/-- **C81** (prices). Every price record the program can hold is written with at most 21 bytes and read back unchanged. -/
theorem C81_price (r : PriceRecord F32) (h : MachinePrice r) :
    Storable priceCodec r ∧ (priceCodec.encode r).length ≤ 21 := by
  have hlen : (encodePrice r).length ≤ 21 ∧ 11 ≤ (encodePrice r).length := by
    unfold encodePrice
    have := int64Field_length 1 r.ts
    simp only [List.length_append, floatField_length]
    omega
  refine ⟨⟨?_, ?_⟩, hlen.1⟩
  · unfold Writable
    change (encodePrice r).length ≤ _
    omega
  · change parseLoop handlePrice (encodePrice r).length _ (encodePrice r) = _
    obtain ⟨f, hf⟩ : ∃ f, (encodePrice r).length = f + 3 := ⟨(encodePrice r).length - 3, by omega⟩
    have := parse_price f ⟨0, .fin 0, .fin 0⟩ r h []
    rw [List.append_nil] at this
    rw [hf, this, parseLoop_nil]

/-- **C81** (ticks). Every tick the program can hold is written with at most 36 bytes and read back unchanged. -/
theorem C81_tick (t : OhlcTick F32) (h : MachineTick t) :
    Storable ohlcCodec t ∧ (ohlcCodec.encode t).length ≤ 36 := by
  have hlen : (encodeOhlc t).length ≤ 36 ∧ 11 ≤ (encodeOhlc t).length := by
    unfold encodeOhlc
    have := int64Field_length 1 t.ts
    simp only [List.length_append, floatField_length]
    omega
  refine ⟨⟨?_, ?_⟩, hlen.1⟩
  · unfold Writable
    change (encodeOhlc t).length ≤ _
    omega
  · change parseLoop handleOhlc (encodeOhlc t).length _ (encodeOhlc t) = _
    obtain ⟨f, hf⟩ : ∃ f, (encodeOhlc t).length = f + 6 := ⟨(encodeOhlc t).length - 6, by omega⟩
    have := parse_ohlc f ⟨0, .fin 0, .fin 0, .fin 0, .fin 0, .fin 0⟩ t h []
    rw [List.append_nil] at this
    rw [hf, this, parseLoop_nil]

/-- **C81** (side inputs). A side record is written with at most 11 bytes, and 5 for each signal, and read back unchanged. -/
theorem C81_side (r : SideInputRecord F32) (h : MachineSide r) (hs : 11 + 5 * r.signals.length ≤ 2 ^ 31 - 1) :
    Storable sideCodec r ∧ (sideCodec.encode r).length ≤ 11 + 5 * r.signals.length := by
  have hsig : (r.signals.flatMap (floatField 2)).length = 5 * r.signals.length := by
    rw [List.length_flatMap]
    simp [floatField_length, Nat.mul_comm]
  have hlen : (encodeSide r).length ≤ 11 + 5 * r.signals.length ∧ r.signals.length + 1 ≤ (encodeSide r).length := by
    unfold encodeSide
    have := int64Field_length 1 r.ts
    rw [List.length_append, hsig]
    omega
  refine ⟨⟨?_, ?_⟩, hlen.1⟩
  · unfold Writable
    change (encodeSide r).length ≤ _
    omega
  · change parseLoop handleSide (encodeSide r).length _ (encodeSide r) = _
    obtain ⟨f, hf⟩ : ∃ f, (encodeSide r).length = f + r.signals.length + 1 :=
      ⟨(encodeSide r).length - (r.signals.length + 1), by omega⟩
    have := parse_side f ⟨0, []⟩ r h []
    rw [List.append_nil] at this
    rw [hf, this, parseLoop_nil]
    simp

/-! ### Everything that is read can be written -/

private theorem readInt64_range {bytes rest : List UInt8} {t : ℤ} (h : readInt64 bytes = some (t, rest)) : IsInt64 t := by
  unfold readInt64 at h
  obtain ⟨r, -, h⟩ := Option.map_eq_some_iff.mp h
  dsimp only at h
  obtain ⟨rfl, -⟩ := Prod.mk.inj h
  unfold IsInt64
  split <;> omega

private theorem readFixed32_range {bytes rest : List UInt8} {n : ℕ} (h : readFixed32 bytes = some (n, rest)) : n < 2 ^ 32 := by
  unfold readFixed32 at h
  split at h
  · rename_i a b c d rest'
    obtain ⟨rfl, -⟩ := Prod.mk.inj (Option.some.inj h)
    have := a.toNat_lt
    have := b.toNat_lt
    have := c.toNat_lt
    have := d.toNat_lt
    omega
  · cases h

private theorem parseLoop_inv {M : Type} {handle : M → ℕ → List UInt8 → Option (Option (M × List UInt8))} (P : M → Prop)
    (hh : ∀ m tag rest m' rest', P m → handle m tag rest = some (some (m', rest')) → P m') (fuel : ℕ) (m : M)
    (bytes : List UInt8) (hm : P m) (m' : M) (h : parseLoop handle fuel m bytes = some m') : P m' := by
  induction fuel generalizing m bytes with
  | zero =>
    cases bytes with
    | nil => cases h; exact hm
    | cons b bytes => cases h
  | succ fuel ih =>
    cases bytes with
    | nil => cases h; exact hm
    | cons b bytes =>
      unfold parseLoop at h
      split at h
      · cases h
      · rename_i tag rest _
        split at h
        · cases h
        · rename_i m1 rest1 hr
          exact ih m1 rest1 (hh _ _ _ _ _ hm hr) h
        · split at h
          · cases h
          · split at h
            · cases h
            · rename_i rest1 _
              exact ih m rest1 hm h

private theorem onInt64_some {M : Type} {set : ℤ → M} {rest rest' : List UInt8} {m : M}
    (h : onInt64 set rest = some (some (m, rest'))) : ∃ t, IsInt64 t ∧ m = set t := by
  unfold onInt64 at h
  obtain ⟨r, hr, h⟩ := Option.map_eq_some_iff.mp (Option.some.inj h)
  exact ⟨r.1, readInt64_range hr, (Prod.mk.inj h).1.symm⟩

private theorem onFloat_some {M : Type} {set : F32 → M} {rest rest' : List UInt8} {m : M}
    (h : onFloat set rest = some (some (m, rest'))) : ∃ x : F32, x.Repr ∧ m = set x := by
  unfold onFloat at h
  obtain ⟨r, hr, h⟩ := Option.map_eq_some_iff.mp (Option.some.inj h)
  exact ⟨_, (C81_bits _ (readFixed32_range hr)).1, (Prod.mk.inj h).1.symm⟩

private theorem zero32 : (.fin 0 : F32).Repr := Fl.repr_zero (by decide)

/-- **C81** (any bytes). Whatever bytes are parsed as a price record, it is one that the program can hold. -/
theorem C81_any_price (bytes : List UInt8) (r : PriceRecord F32) (h : priceCodec.decode bytes = some r) : MachinePrice r := by
  refine parseLoop_inv (handle := handlePrice) MachinePrice ?_ bytes.length ⟨0, .fin 0, .fin 0⟩ bytes
    ⟨by simp [IsInt64], zero32, zero32⟩ r h
  intro m tag rest m' rest' hm hh
  unfold handlePrice at hh
  split_ifs at hh
  · obtain ⟨t, ht, rfl⟩ := onInt64_some hh; exact ⟨ht, hm.price, hm.volume⟩
  · obtain ⟨x, hx, rfl⟩ := onFloat_some hh; exact ⟨hm.ts, hx, hm.volume⟩
  · obtain ⟨x, hx, rfl⟩ := onFloat_some hh; exact ⟨hm.ts, hm.price, hx⟩

/-- **C81** (any bytes). Whatever bytes are parsed as a tick, it is one that the program can hold. -/
theorem C81_any_tick (bytes : List UInt8) (t : OhlcTick F32) (h : ohlcCodec.decode bytes = some t) : MachineTick t := by
  refine parseLoop_inv (handle := handleOhlc) MachineTick ?_ bytes.length ⟨0, .fin 0, .fin 0, .fin 0, .fin 0, .fin 0⟩ bytes
    ⟨by simp [IsInt64], zero32, zero32, zero32, zero32, zero32⟩ t h
  intro m tag rest m' rest' hm hh
  unfold handleOhlc at hh
  split_ifs at hh
  · obtain ⟨t, ht, rfl⟩ := onInt64_some hh; exact ⟨ht, hm.opn, hm.high, hm.low, hm.close, hm.volume⟩
  · obtain ⟨x, hx, rfl⟩ := onFloat_some hh; exact ⟨hm.ts, hx, hm.high, hm.low, hm.close, hm.volume⟩
  · obtain ⟨x, hx, rfl⟩ := onFloat_some hh; exact ⟨hm.ts, hm.opn, hx, hm.low, hm.close, hm.volume⟩
  · obtain ⟨x, hx, rfl⟩ := onFloat_some hh; exact ⟨hm.ts, hm.opn, hm.high, hx, hm.close, hm.volume⟩
  · obtain ⟨x, hx, rfl⟩ := onFloat_some hh; exact ⟨hm.ts, hm.opn, hm.high, hm.low, hx, hm.volume⟩
  · obtain ⟨x, hx, rfl⟩ := onFloat_some hh; exact ⟨hm.ts, hm.opn, hm.high, hm.low, hm.close, hx⟩

private theorem readVector_decoded {M : Type} (codec : Codec M) (bytes : List UInt8) :
    ∀ m ∈ (Proto.readVector codec [] bytes).1, ∃ b, codec.decode b = some m := by
  induction hn : bytes.length using Nat.strong_induction_on generalizing bytes with
  | _ n ih =>
    rw [readVector_eq]
    cases hp : Proto.parseDelimited codec bytes with
    | cleanEof => simp
    | bad => simp
    | message m rest =>
      dsimp only
      rw [C64_appends]
      intro x hx
      rcases List.mem_append.mp hx with hx | hx
      · rw [List.nil_append, List.mem_singleton] at hx
        subst hx
        unfold Proto.parseDelimited at hp
        split at hp
        · split at hp <;> cases hp
        · split at hp
          · cases hp
          · split at hp
            · cases hp
            · rename_i hd
              cases hp
              exact ⟨_, hd⟩
      · exact ih rest.length (by have := parse_consumes hp; omega) rest rfl x hx

private theorem mem_periodOf {R : Type} {ts : R → ℤ} {start stop : ℤ} {rs : List R} {r : R}
    (h : r ∈ periodOf ts start stop rs) : r ∈ rs := by
  unfold periodOf at h
  exact (List.mem_filter.mp (List.takeWhile_subset _ h)).1

private theorem machine_csv {R : Type} {ts : R → ℤ} {check : R → Option Complaint} {scan : Text → R → R} (P : R → Prop)
    (hscan : ∀ line r, P r → P (scan line r)) {start stop : ℤ} {row : ℕ} {prev : ℤ} {cur : R} (hcur : P cur)
    {lines : List Text} {l : List R} (h : csvLoop ts scan check start stop row prev cur lines = .ok l) : ∀ r ∈ l, P r := by
  induction lines generalizing row prev cur l with
  | nil => cases h; simp
  | cons line lines ih =>
    unfold csvLoop at h
    dsimp only at h
    have hc := hscan line cur hcur
    split at h
    · exact ih hc h
    · split at h
      · cases h; simp
      · split at h
        · cases h
        · split at h
          · cases h
          · obtain ⟨l', hl', rfl⟩ : ∃ l', csvLoop ts scan check start stop (row + 1) (ts (scan line cur)) (scan line cur) lines =
                .ok l' ∧ scan line cur :: l' = l := by
              cases hr : csvLoop ts scan check start stop (row + 1) (ts (scan line cur)) (scan line cur) lines with
              | error e => rw [hr] at h; cases h
              | ok l' => rw [hr] at h; cases h; exact ⟨l', rfl, rfl⟩
            intro r hr
            rcases List.mem_cons.mp hr with rfl | hr
            · exact hc
            · exact ih hc hl' r hr

private theorem scanFloats_repr {sc : Scanner F32} (hsc : FloatScanner sc) (n : ℕ) (s : Text) :
    ∀ x ∈ scanFloats sc n s, x.Repr := by
  induction n generalizing s with
  | zero => simp [scanFloats]
  | succ n ih =>
    unfold scanFloats
    split
    · split
      · rename_i x rest' hx
        intro y hy
        rcases List.mem_cons.mp hy with rfl | hy
        · exact hsc.scan _ _ _ hx
        · exact ih rest' y hy
      · simp
    · simp

private theorem getD_repr {l : List F32} (h : ∀ x ∈ l, x.Repr) (i : ℕ) {d : F32} (hd : d.Repr) : (l[i]?.getD d).Repr := by
  cases hx : l[i]? with
  | none => exact hd
  | some x => exact h x (List.mem_of_getElem? hx)

private theorem scanInt_range {s rest : Text} {t : ℤ} (h : scanInt s = some (t, rest)) : IsInt64 t := by
  unfold scanInt at h
  obtain ⟨r, -, h⟩ := Option.map_eq_some_iff.mp h
  obtain ⟨rfl, -⟩ := Prod.mk.inj h
  unfold IsInt64
  omega

/-- **C81** (loaded prices). Every price that convert.cc loads, from a CSV file or from a proto file with whatever bytes, can
be stored without loss. -/
theorem C81_loaded_prices {sc : Scanner F32} (hsc : FloatScanner sc) (start stop : ℤ) (l : List (PriceRecord F32))
    (h : (∃ file, readPriceCsv sc start stop file = .ok l) ∨ ∃ file, readPriceProto priceCodec start stop file = .ok l) :
    ∀ r ∈ l, MachinePrice r ∧ Storable priceCodec r := by
  suffices hm : ∀ r ∈ l, MachinePrice r from fun r hr => ⟨hm r hr, (C81_price r (hm r hr)).1⟩
  rcases h with ⟨file, h⟩ | ⟨file, h⟩
  · cases file with
    | none => cases h
    | some text =>
      unfold readPriceCsv at h
      have hz : (FloatOps.lit F32 0).Repr := Fl.ofRat_repr (by decide) (by decide) _
      refine machine_csv MachinePrice ?_ (cur := ⟨0, FloatOps.lit F32 0, FloatOps.lit F32 0⟩)
        ⟨by simp [IsInt64], hz, hz⟩ h
      intro line r hr
      unfold scanPriceLine
      split
      · exact hr
      · rename_i t rest ht
        exact ⟨scanInt_range ht, getD_repr (scanFloats_repr hsc 2 rest) 0 hr.price,
          getD_repr (scanFloats_repr hsc 2 rest) 1 hr.volume⟩
  · cases file with
    | none => cases h
    | some bytes =>
      have := (C65_price_proto priceCodec start stop bytes l h).1
      intro r hr
      rw [this] at hr
      obtain ⟨b, hb⟩ := readVector_decoded priceCodec bytes r (mem_periodOf hr)
      exact C81_any_price b r hb

/-- **C81** (loaded ticks). The same for ticks. -/
theorem C81_loaded_ticks {sc : Scanner F32} (hsc : FloatScanner sc) (start stop : ℤ) (l : List (OhlcTick F32))
    (h : (∃ file, readOhlcCsv sc start stop file = .ok l) ∨ ∃ file, readOhlcProto ohlcCodec start stop file = .ok l) :
    ∀ t ∈ l, MachineTick t ∧ Storable ohlcCodec t := by
  suffices hm : ∀ t ∈ l, MachineTick t from fun r hr => ⟨hm r hr, (C81_tick r (hm r hr)).1⟩
  rcases h with ⟨file, h⟩ | ⟨file, h⟩
  · cases file with
    | none => cases h
    | some text =>
      unfold readOhlcCsv at h
      have hz : (FloatOps.lit F32 0).Repr := Fl.ofRat_repr (by decide) (by decide) _
      refine machine_csv MachineTick ?_ (cur := ⟨0, FloatOps.lit F32 0, FloatOps.lit F32 0, FloatOps.lit F32 0,
        FloatOps.lit F32 0, FloatOps.lit F32 0⟩) ⟨by simp [IsInt64], hz, hz, hz, hz, hz⟩ h
      intro line r hr
      unfold scanOhlcLine
      split
      · exact hr
      · rename_i t rest ht
        have hf := scanFloats_repr hsc 5 rest
        exact ⟨scanInt_range ht, getD_repr hf 0 hr.opn, getD_repr hf 1 hr.high, getD_repr hf 2 hr.low,
          getD_repr hf 3 hr.close, getD_repr hf 4 hr.volume⟩
  · cases file with
    | none => cases h
    | some bytes =>
      have := (C65_ohlc_proto ohlcCodec start stop bytes l h).1
      intro r hr
      rw [this] at hr
      obtain ⟨b, hb⟩ := readVector_decoded ohlcCodec bytes r (mem_periodOf hr)
      exact C81_any_tick b r hb

/-! ### Conversion -/

/-- All five values of a tick are `float` values. -/
private def FloatTick (t : OhlcTick F32) : Prop := t.opn.Repr ∧ t.high.Repr ∧ t.low.Repr ∧ t.close.Repr ∧ t.volume.Repr

private theorem fillGaps_float (rate target : ℤ) (acc : List (OhlcTick F32)) (h : ∀ t ∈ acc, FloatTick t) :
    ∀ t ∈ fillGaps rate target acc, FloatTick t := by
  induction acc using @fillGaps.induct F32 Fl.instFloatOps rate target with
  | case1 => unfold fillGaps; simp
  | case2 last rest hc ih =>
    unfold fillGaps
    rw [dif_pos hc]
    apply ih
    intro t ht
    rcases List.mem_cons.mp ht with rfl | ht
    · obtain ⟨-, -, -, hcl, -⟩ := h last (by simp)
      have hz : (FloatOps.lit F32 0).Repr := Fl.ofRat_repr (by decide) (by decide) _
      exact ⟨hcl, hcl, hcl, hcl, hz⟩
    · exact h t ht
  | case3 last rest hc =>
    unfold fillGaps
    rw [dif_neg hc]
    exact h

private theorem resample_float (rate : ℤ) (l : List (PriceRecord F32)) (hl : ∀ r ∈ l, MachinePrice r)
    (acc out : List (OhlcTick F32)) (hacc : ∀ t ∈ acc, FloatTick t) (h : l.foldlM (resampleStep rate) acc = .ok out) :
    ∀ t ∈ out, FloatTick t := by
  induction l generalizing acc with
  | nil =>
    have h : Except.ok acc = Except.ok out := h
    cases h; exact hacc
  | cons r l ih =>
    rw [List.foldlM_cons] at h
    cases hs : resampleStep rate acc r with
    | error e => rw [hs] at h; cases h
    | ok acc' =>
      rw [hs] at h
      refine ih (fun r hr => hl r (by simp [hr])) acc' ?_ h
      have hr := hl r (by simp)
      have hg := fillGaps_float rate (rate * (r.ts.tdiv rate)) acc hacc
      have hnew : FloatTick ⟨rate * (r.ts.tdiv rate), r.price, r.price, r.price, r.price, r.volume⟩ :=
        ⟨hr.price, hr.price, hr.price, hr.price, hr.volume⟩
      unfold resampleStep at hs
      dsimp only at hs
      split at hs
      · cases hs
        intro t ht
        rw [List.mem_singleton.mp ht]
        exact hnew
      · rename_i last rest hfill
        rw [hfill] at hg
        split at hs
        · cases hs
          intro t ht
          rcases List.mem_cons.mp ht with rfl | ht
          · exact hnew
          · exact hg t ht
        · obtain ⟨-, hs⟩ := assertThat_bind_ok hs
          cases hs
          obtain ⟨h1, h2, h3, h4, h5⟩ := hg last (by simp)
          intro t ht
          rcases List.mem_cons.mp ht with rfl | ht
          · refine ⟨h1, ?_, ?_, hr.price, Fl.add_repr (by decide) (by decide) _ _⟩
            · unfold FloatOps.fmax; dsimp only; split
              · exact hr.price
              · exact h2
            · unfold FloatOps.fmin; dsimp only; split
              · exact hr.price
              · exact h3
          · exact hg t (by simp [ht])

/-- **C81** (conversion). The ticks that prices are converted to can be stored without loss. -/
theorem C81_converted [Libm F32] (fmt : Format F32) (maxDev : F32) (rate : ℤ) (hrate : 0 < rate) (lastN start stop : ℤ)
    (l : List (PriceRecord F32)) (hl : Loadable PriceRecord.ts GoodPrice start stop l) (hm : ∀ r ∈ l, MachinePrice r)
    (lines : List Text) (ticks : List (OhlcTick F32))
    (h : convertPriceHistory fmt maxDev rate lastN l = .ok (lines, ticks)) :
    ∀ t ∈ ticks, MachineTick t ∧ Storable ohlcCodec t := by
  obtain ⟨lines', ticks', h', -, hts, -⟩ := C69_conversion fmt maxDev rate hrate lastN start stop l hl
  rw [h] at h'
  obtain ⟨rfl, rfl⟩ := Prod.mk.inj (Except.ok.inj h')
  have hr := (convert_iff fmt maxDev rate (by omega) lastN l ticks).mp ⟨lines, h⟩
  obtain ⟨-, -, -, hsub, -⟩ := C20_partition maxDev l
  suffices hmt : ∀ t ∈ ticks, MachineTick t from fun t ht => ⟨hmt t ht, (C81_tick t (hmt t ht)).1⟩
  intro t ht
  have hf : FloatTick t := by
    unfold resample at hr
    cases hfold : (removeOutliers maxDev l).1.foldlM (resampleStep rate) [] with
    | error e => rw [hfold] at hr; cases hr
    | ok acc =>
      rw [hfold] at hr
      cases hr
      exact resample_float rate _ (fun r hr => hm r (hsub.subset hr)) [] acc (by simp) hfold t (List.mem_reverse.mp ht)
  obtain ⟨h0, -, r, hrl, hle⟩ := hts t ht
  have := (hm r hrl).ts
  unfold IsInt64 at this
  exact ⟨by unfold IsInt64; omega, hf.1, hf.2.1, hf.2.2.1, hf.2.2.2.1, hf.2.2.2.2⟩

/-- **C81** (the program convert.cc, end to end, `float`). With the encoding of protobuf, whenever prices are read, with a
positive sampling rate and output files that can be opened, the program succeeds and the files hold the prices read and
their conversion, bit by bit. -/
theorem C81_program [Libm F32] (env : Env F32) (hp : env.priceCodec = priceCodec) (ho : env.ohlcCodec = ohlcCodec)
    (hsc : FloatScanner env.scanner) (fl : Flags F32) (w : Files) (l : List (PriceRecord F32)) (hr : ReadsPrices env fl w l)
    (hne : l ≠ []) (hrate : 0 < fl.samplingRate) (hdiff : fl.outputPrice ≠ fl.outputOhlc)
    (hwp : fl.outputPrice ≠ [] → env.canWrite fl.outputPrice = true)
    (hwo : fl.outputOhlc ≠ [] → env.canWrite fl.outputOhlc = true) :
    ∃ lines ticks, convertPriceHistory env.fmt fl.maxDeviation fl.samplingRate fl.lastNOutliers l = .ok (lines, ticks) ∧
      (main env fl w).exit = .success ∧
      (fl.outputPrice ≠ [] → Holds priceCodec (main env fl w).files fl.outputPrice l) ∧
      (fl.outputOhlc ≠ [] → Holds ohlcCodec (main env fl w).files fl.outputOhlc ticks) := by
  have hl : ∃ start stop, Loadable PriceRecord.ts GoodPrice start stop l ∧ ∀ r ∈ l, MachinePrice r ∧ Storable priceCodec r := by
    obtain ⟨h1, start, stop, hpe, ⟨-, h⟩ | ⟨-, h⟩⟩ := hr
    · exact ⟨start, stop, C65_price_csv env.scanner start stop _ l h, C81_loaded_prices hsc start stop l (.inl ⟨_, h⟩)⟩
    · rw [hp] at h
      refine ⟨start, stop, ?_, C81_loaded_prices hsc start stop l (.inr ⟨_, h⟩)⟩
      cases hf : w fl.inputPriceProto with
      | none => rw [hf] at h; cases h
      | some bytes => rw [hf] at h; exact (C65_price_proto _ start stop bytes l h).2
  obtain ⟨start, stop, hload, hm⟩ := hl
  obtain ⟨lines, ticks, hc, h, -⟩ := C80_prices env fl w l hr hne hrate (by rw [hp]; exact fun r hr => (hm r hr).2)
  have hst := C81_converted env.fmt fl.maxDeviation fl.samplingRate hrate fl.lastNOutliers start stop l hload
    (fun r hr => (hm r hr).1) lines ticks hc
  obtain ⟨h1, h2, h3⟩ := h (by rw [ho]; exact fun t ht => (hst t ht).2) ⟨hwp, hwo⟩
  rw [hp] at h2
  rw [ho] at h3
  exact ⟨lines, ticks, hc, h1, fun h => h2 h hdiff, h3⟩

/-! ### Non-vacuity -/

/-- 0.1f, −1.5, the smallest `float` and −0 as bits. -/
example : (bits (Fl.ofRat binary32 (1 / 10)), bits (.fin (-3 / 2)), bits (.fin (1 / 2 ^ 149)), bits .negZero) =
    (0x3dcccccd, 0xbfc00000, 1, 0x80000000) := by decide +kernel

/-- A message as it is stored: `300` is the varint `ac 02`. -/
example : priceCodec.encode ⟨300, .fin (-3 / 2), .fin 1⟩ =
    [0x08, 0xac, 0x02, 0x15, 0, 0, 0xc0, 0xbf, 0x1d, 0, 0, 0x80, 0x3f] := by decide +kernel

/-- The fields may come in another order, more than once, among unknown fields (here number 5, a string of two bytes), or not
at all. -/
example : priceCodec.decode [0x15, 0, 0, 0xc0, 0xbf, 0x2a, 2, 7, 7, 0x08, 0x01, 0x08, 0xac, 0x02] =
    some ⟨300, .fin (-3 / 2), .fin 0⟩ := by decide +kernel

/-- A message that breaks off. -/
example : priceCodec.decode [0x08, 0xac, 0x02, 0x15, 0, 0, 0xc0] = none := by decide +kernel

/-- Signals, one by one and packed. -/
example : sideCodec.encode ⟨-1, [.fin 1, .fin 2]⟩ =
      [0x08, 0xff, 0xff, 0xff, 0xff, 0xff, 0xff, 0xff, 0xff, 0xff, 0x01, 0x15, 0, 0, 0x80, 0x3f, 0x15, 0, 0, 0, 0x40] ∧
    sideCodec.decode [0x12, 8, 0, 0, 0x80, 0x3f, 0, 0, 0, 0x40] = some ⟨0, [.fin 1, .fin 2]⟩ := by decide +kernel

theorem decimal_float : FloatScanner (decimalScanner (F := F32)) := by
  have h : ∀ (s : Text) (x : F32) (rest : Text), decimalNumber s = some (x, rest) → x.Repr := by
    have hu : ∀ (neg : Bool) (s : Text) (x : F32) (rest : Text), unsignedDecimal neg s = some (x, rest) → x.Repr := by
      intro neg s x rest h
      unfold unsignedDecimal at h
      split at h
      · cases h
      · obtain ⟨rfl, -⟩ := Prod.mk.inj (Option.some.inj h)
        exact Fl.ofRat_repr (f := binary32) (by decide) (by decide) _
      · obtain ⟨rfl, -⟩ := Prod.mk.inj (Option.some.inj h)
        exact Fl.ofRat_repr (f := binary32) (by decide) (by decide) _
    intro s x rest h
    unfold decimalNumber at h
    split at h <;> exact hu _ _ _ _ h
  exact ⟨h, h⟩

/-- A file system with one CSV file. -/
def wireFiles : Files := fun name =>
  if name = "in.csv".toList then
    some ("1483228800,100.5,2\n1483228860,0.1,1\n1483229100,101,3\n".toList.map (fun c => UInt8.ofNat c.toNat))
  else none

def wireEnv : Env F32 :=
  ⟨⟨fun _ => "", fun _ _ => ""⟩, decimalScanner, priceCodec, ohlcCodec, sideCodec, fun _ => true,
    fun _ => [], fun _ => [], fun _ => [], fun _ => []⟩

def wireFlags : Flags F32 where
  inputPriceCsv := "in.csv".toList
  inputPriceProto := []
  outputPrice := "price".toList
  inputOhlcCsv := []
  inputOhlcProto := []
  outputOhlc := "ohlc".toList
  inputSideCsv := []
  outputSide := []
  startTime := "2017-01-01".toList
  endTime := "2017-01-02".toList
  maxDeviation := .fin (1 / 8)
  samplingRate := 60
  topNGaps := 10
  lastNOutliers := 20

def wirePrices : List (PriceRecord F32) :=
  [⟨1483228800, .fin (201 / 2), .fin 2⟩, ⟨1483228860, Fl.ofRat binary32 (1 / 10), .fin 1⟩, ⟨1483229100, .fin 101, .fin 3⟩]

theorem wire_reads : ReadsPrices wireEnv wireFlags wireFiles wirePrices := by
  refine ⟨by unfold OneInput; decide, 1483228800, 1483315200, ⟨by decide +kernel, by decide +kernel⟩, .inl ⟨by decide, ?_⟩⟩
  decide +kernel

/-- So the theorem on the program applies to this run. -/
example [Libm F32] : ∃ lines ticks, convertPriceHistory wireEnv.fmt (.fin (1 / 8)) 60 20 wirePrices = .ok (lines, ticks) ∧
    (main wireEnv wireFlags wireFiles).exit = .success ∧
    Holds priceCodec (main wireEnv wireFlags wireFiles).files "price".toList wirePrices ∧
    Holds ohlcCodec (main wireEnv wireFlags wireFiles).files "ohlc".toList ticks := by
  obtain ⟨lines, ticks, h1, h2, h3, h4⟩ := C81_program wireEnv rfl rfl decimal_float wireFlags wireFiles wirePrices wire_reads
    (by simp [wirePrices]) (by decide) (by decide) (fun _ => rfl) (fun _ => rfl)
  exact ⟨lines, ticks, h1, h2, h3 (by decide), h4 (by decide)⟩

/-- A wrong date: nothing happens. -/
example [Libm F32] : (main wireEnv { wireFlags with endTime := "2017-02-29".toList } wireFiles).exit = .failure := by
  unfold main
  dsimp only
  rw [show Time.parseTime "2017-02-29".toList = none from by decide +kernel]
  cases Time.parseTime wireFlags.startTime <;> rfl

end Verif.Props
