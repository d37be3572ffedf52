import Verif.Num.IEEELemmas
import Mathlib.Algebra.Order.Floor.Ring
import Mathlib.Tactic.Linarith
import Mathlib.Tactic.Ring
import Mathlib.Tactic.FieldSimp

/-!
# Representable values

`Fl.Repr` singles out the data that the format can hold; every rounded result is one of them.
-/

namespace Verif.Fl

/-- The format can hold this datum: a finite value is an integer of `p` bits times a power of two in range. -/
def Repr {f : Fmt} : Fl f → Prop
  | .fin q => ∃ m e : ℤ, |m| < 2 ^ f.p ∧ f.emin ≤ e ∧ e + f.p ≤ f.emax ∧ q = m * (2 : ℚ) ^ e
  | _ => True

variable {f : Fmt}

theorem repr_zero (h : f.emin + f.p ≤ f.emax) : Repr (.fin 0 : Fl f) := ⟨0, f.emin, by simp, le_refl _, h, by simp⟩

private theorem rne_le {y : ℚ} {n : ℤ} (h : y ≤ n) : rne y ≤ n := by
  unfold rne
  have h1 : ⌊y⌋ ≤ n := by exact_mod_cast (Int.floor_le y).trans h
  by_cases he : ⌊y⌋ = n
  · have hd : y - ⌊y⌋ = 0 := by
      have := Int.floor_le y
      rw [he] at this ⊢
      linarith
    simp only [hd]
    norm_num
    exact h1
  · dsimp only
    split_ifs <;> omega

private theorem le_rne {y : ℚ} {n : ℤ} (h : n ≤ y) : n ≤ rne y := by
  have h1 : n ≤ ⌊y⌋ := Int.le_floor.mpr h
  unfold rne
  dsimp only
  split_ifs <;> omega

/-- A rounded result is representable, unless it overflows. -/
theorem rndQ_repr (hf : f.emin + f.p ≤ f.emax) (hp : 0 < f.p) {x : ℚ} (hx : x ≠ 0) (h : |rndQ f x| < (2 : ℚ) ^ f.emax) :
    Repr (.fin (rndQ f x) : Fl f) := by
  set e := max (Int.log 2 |x| - (f.p - 1)) f.emin with he
  have hu : ulp f x = (2 : ℚ) ^ e := rfl
  have hupos : (0 : ℚ) < (2 : ℚ) ^ e := zpow_pos (by norm_num) _
  have hax : 0 < |x| := abs_pos.mpr hx
  have hlow := Int.zpow_log_le_self (b := 2) (by norm_num) hax
  have hhigh := Int.lt_zpow_succ_log_self (b := 2) (by norm_num) |x|
  push_cast at hlow hhigh
  set k := rne (x / ulp f x) with hk
  have hr : rndQ f x = k * (2 : ℚ) ^ e := rfl
  -- the quotient is below 2^p
  have hq : |x / (2 : ℚ) ^ e| ≤ (2 : ℚ) ^ f.p := by
    rw [abs_div, abs_of_pos hupos, div_le_iff₀ hupos, ← zpow_natCast, ← zpow_add₀ (by norm_num)]
    refine hhigh.le.trans (zpow_le_zpow_right₀ (by norm_num) ?_)
    omega
  rw [abs_le] at hq
  have hk1 : k ≤ 2 ^ f.p := rne_le (by rw [hu]; push_cast; exact hq.2)
  have hk2 : -2 ^ f.p ≤ k := le_rne (by rw [hu]; push_cast; exact hq.1)
  -- either the grid is the finest one, or the quotient is at least 2^(p-1)
  have hbig : e = f.emin ∨ (2 : ℤ) ^ (f.p - 1) ≤ |k| := by
    rcases le_or_gt (Int.log 2 |x| - (f.p - 1)) f.emin with hm | hm
    · left; rw [he, max_eq_right hm]
    · right
      have hem : e = Int.log 2 |x| - (f.p - 1) := by rw [he, max_eq_left hm.le]
      have hge : (2 : ℚ) ^ (f.p - 1) ≤ |x / (2 : ℚ) ^ e| := by
        rw [abs_div, abs_of_pos hupos, le_div_iff₀ hupos, ← zpow_natCast, ← zpow_add₀ (by norm_num)]
        refine le_trans (zpow_le_zpow_right₀ (by norm_num) ?_) hlow
        rw [hem]
        push_cast [Nat.cast_sub (show 1 ≤ f.p from hp)]
        omega
      rcases le_abs.mp hge with hge | hge
      · refine le_abs.mpr (.inl (le_rne ?_))
        rw [hu]; push_cast; exact hge
      · refine le_abs.mpr (.inr ?_)
        have : k ≤ -2 ^ (f.p - 1) := rne_le (by rw [hu]; push_cast; linarith)
        linarith
  have hee : f.emin ≤ e := le_max_right _ _
  rw [hr] at h ⊢
  rw [abs_mul, abs_of_pos hupos] at h
  by_cases hlt : |k| < 2 ^ f.p
  · refine ⟨k, e, hlt, hee, ?_, rfl⟩
    rcases hbig with hb | hb
    · rw [hb]; exact hf
    · have h1 : (2 : ℚ) ^ ((f.p : ℤ) - 1 + e) < (2 : ℚ) ^ f.emax := by
        refine lt_of_le_of_lt ?_ h
        rw [zpow_add₀ (by norm_num)]
        refine mul_le_mul_of_nonneg_right ?_ hupos.le
        have : ((2 : ℤ) ^ (f.p - 1) : ℚ) ≤ (|k| : ℤ) := by exact_mod_cast hb
        push_cast at this
        refine le_trans (le_of_eq ?_) this
        rw [← zpow_natCast, Nat.cast_sub hp]; rfl
      have := (zpow_lt_zpow_iff_right₀ (by norm_num : (1 : ℚ) < 2)).mp h1
      omega
  · have hkabs : |k| = 2 ^ f.p := le_antisymm (abs_le.mpr ⟨hk2, hk1⟩) (not_lt.mp hlt)
    have h1 : (2 : ℚ) ^ ((f.p : ℤ) + e) < (2 : ℚ) ^ f.emax := by
      refine lt_of_le_of_lt (le_of_eq ?_) h
      rw [zpow_add₀ (by norm_num), zpow_natCast]
      have : ((|k| : ℤ) : ℚ) = 2 ^ f.p := by rw [hkabs]; push_cast; rfl
      rw [← this]; push_cast; rfl
    have h2 := (zpow_lt_zpow_iff_right₀ (by norm_num : (1 : ℚ) < 2)).mp h1
    have hpow : (2 : ℤ) ^ f.p = 2 * 2 ^ (f.p - 1) := by
      obtain ⟨p, hp'⟩ : ∃ p, f.p = p + 1 := ⟨f.p - 1, by omega⟩
      rw [hp']; simp [pow_succ]; ring
    have hsign : k = 2 ^ f.p ∨ k = -2 ^ f.p := by
      rcases abs_choice k with hc | hc <;> omega
    have hpos : (0 : ℤ) < 2 ^ (f.p - 1) := by positivity
    rcases hsign with hs | hs
    · refine ⟨2 ^ (f.p - 1), e + 1, ?_, by omega, by omega, ?_⟩
      · rw [abs_of_pos hpos]; omega
      · rw [hs, hpow, zpow_add₀ (by norm_num)]; push_cast; ring
    · refine ⟨-2 ^ (f.p - 1), e + 1, ?_, by omega, by omega, ?_⟩
      · rw [abs_neg, abs_of_pos hpos]; omega
      · rw [hs, hpow, zpow_add₀ (by norm_num)]; push_cast; ring

theorem rnd_repr (hf : f.emin + f.p ≤ f.emax) (hp : 0 < f.p) {x : ℚ} (hx : x ≠ 0) : Repr (rnd f x) := by
  unfold rnd
  dsimp only
  split
  · trivial
  · rename_i h
    split
    · split
      · trivial
      · exact repr_zero hf
    · exact rndQ_repr hf hp hx (not_le.mp h)

theorem ofRat_repr (hf : f.emin + f.p ≤ f.emax) (hp : 0 < f.p) (x : ℚ) : Repr (ofRat f x) := by
  unfold ofRat
  split
  · exact repr_zero hf
  · rename_i h; exact rnd_repr hf hp h

/-- A sum is representable, whatever the summands are. -/
theorem add_repr (hf : f.emin + f.p ≤ f.emax) (hp : 0 < f.p) (a b : Fl f) : Repr (add a b) := by
  unfold add
  split
  · trivial
  · trivial
  · split <;> trivial
  · trivial
  · trivial
  · trivial
  · exact ofRat_repr hf hp _

end Verif.Fl
