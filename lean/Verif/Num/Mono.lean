import Verif.Num.Error

/-!
# Rounding is monotone

Correct rounding preserves `≤`; so do the four operations in each argument (where they give numbers).
-/

namespace Verif.Fl
variable {f : Fmt}

theorem rne_mono {x y : ℚ} (h : x ≤ y) : rne x ≤ rne y := by
  have hf : ⌊x⌋ ≤ ⌊y⌋ := Int.floor_le_floor h
  have hx1 := Int.floor_le x
  have hx2 := Int.lt_floor_add_one x
  have hy1 := Int.floor_le y
  have hy2 := Int.lt_floor_add_one y
  unfold rne
  dsimp only
  by_cases he : ⌊x⌋ = ⌊y⌋
  · rw [he] at hx1 hx2 ⊢
    split_ifs <;> first | omega | (exfalso; linarith)
  · have : ⌊x⌋ + 1 ≤ ⌊y⌋ := by omega
    split_ifs <;> omega

theorem rne_int (n : ℤ) : rne (n : ℚ) = n := by
  unfold rne
  simp

theorem rne_neg (y : ℚ) : rne (-y) = -rne y := by
  have h1 := Int.floor_le y
  have h2 := Int.lt_floor_add_one y
  by_cases he : y = ⌊y⌋
  · have e1 : rne y = ⌊y⌋ := by conv_lhs => rw [he]; exact rne_int _
    have e2 : -y = ((-⌊y⌋ : ℤ) : ℚ) := by push_cast; linarith
    rw [e2, rne_int, e1]
  · have hlt : (⌊y⌋ : ℚ) < y := lt_of_le_of_ne h1 (Ne.symm he)
    have hfl : ⌊-y⌋ = -⌊y⌋ - 1 := by
      rw [Int.floor_eq_iff]; push_cast; constructor <;> linarith
    unfold rne
    rw [hfl]
    push_cast
    split_ifs <;> first | omega | (exfalso; linarith)

theorem rndQ_neg (x : ℚ) : rndQ f (-x) = -rndQ f x := by
  unfold rndQ ulp
  rw [abs_neg, neg_div, rne_neg]
  push_cast
  ring

/-- Rounding does not cross a multiple of the grid spacing. -/
theorem rndQ_le_of_grid {x g : ℚ} {n : ℤ} (hg : g = n * ulp f x) (h : x ≤ g) : rndQ f x ≤ g := by
  have hu := ulp_pos f x
  have : x / ulp f x ≤ n := by rw [div_le_iff₀ hu, ← hg]; exact h
  have h2 := rne_mono this
  rw [rne_int] at h2
  unfold rndQ
  rw [hg]
  exact mul_le_mul_of_nonneg_right (by exact_mod_cast h2) hu.le

theorem grid_le_rndQ {x g : ℚ} {n : ℤ} (hg : g = n * ulp f x) (h : g ≤ x) : g ≤ rndQ f x := by
  have hu := ulp_pos f x
  have : (n : ℚ) ≤ x / ulp f x := by rw [le_div_iff₀ hu, ← hg]; exact h
  have h2 := rne_mono this
  rw [rne_int] at h2
  unfold rndQ
  rw [hg]
  exact mul_le_mul_of_nonneg_right (by exact_mod_cast h2) hu.le

theorem rndQ_mono_pos (hp : 0 < f.p) {x y : ℚ} (hx : 0 < x) (h : x ≤ y) : rndQ f x ≤ rndQ f y := by
  have hy : 0 < y := lt_of_lt_of_le hx h
  have hlog : Int.log 2 |x| ≤ Int.log 2 |y| := by
    rw [abs_of_pos hx, abs_of_pos hy]; exact Int.log_mono_right hx h
  by_cases he : ulp f x = ulp f y
  · unfold rndQ
    rw [he]
    have hu := ulp_pos f y
    exact mul_le_mul_of_nonneg_right (by exact_mod_cast rne_mono (div_le_div_of_nonneg_right h hu.le)) hu.le
  · set k := Int.log 2 |y| with hk
    have hkx : Int.log 2 |x| < k := by
      rcases lt_or_eq_of_le hlog with h | h
      · exact h
      · exact absurd (by unfold ulp; rw [h]) he
    have hmin : f.emin < k - (f.p - 1) := by
      by_contra hc
      apply he
      unfold ulp
      rw [← hk, max_eq_right (by omega), max_eq_right (by omega)]
    have hlow := Int.zpow_log_le_self (b := 2) (by norm_num) (abs_pos.mpr hy.ne')
    have hhigh := Int.lt_zpow_succ_log_self (b := 2) (by norm_num) |x|
    push_cast at hlow hhigh
    rw [← hk, abs_of_pos hy] at hlow
    rw [abs_of_pos hx] at hhigh
    have hxg : x ≤ (2 : ℚ) ^ k :=
      hhigh.le.trans (zpow_le_zpow_right₀ (by norm_num) (by rw [abs_of_pos hx] at hkx; omega))
    have two : (2 : ℚ) ≠ 0 := by norm_num
    have pow_grid : ∀ e : ℤ, e ≤ k → ∃ n : ℤ, (2 : ℚ) ^ k = n * (2 : ℚ) ^ e := by
      intro e hek
      obtain ⟨d, hd⟩ := Int.le.dest hek
      refine ⟨2 ^ d, ?_⟩
      push_cast
      rw [← zpow_natCast, ← zpow_add₀ two]
      congr 1; omega
    obtain ⟨n, hn⟩ := pow_grid (max (Int.log 2 |x| - (f.p - 1)) f.emin) (by
      rw [max_le_iff]; constructor <;> omega)
    obtain ⟨m, hm⟩ := pow_grid (max (k - (f.p - 1)) f.emin) (by
      rw [max_le_iff]; constructor <;> omega)
    exact le_trans (rndQ_le_of_grid (f := f) (n := n) hn hxg) (grid_le_rndQ (f := f) (n := m) hm hlow)

theorem rndQ_mono (hp : 0 < f.p) {x y : ℚ} (h : x ≤ y) : rndQ f x ≤ rndQ f y := by
  rcases lt_trichotomy x 0 with hx | rfl | hx
  · rcases le_or_gt 0 y with hy | hy
    · exact (rndQ_nonpos hx.le).trans (rndQ_nonneg hy)
    · have := rndQ_mono_pos (f := f) hp (x := -y) (y := -x) (by linarith) (by linarith)
      rw [rndQ_neg, rndQ_neg] at this
      linarith
  · have e : rndQ f 0 = 0 := le_antisymm (rndQ_nonpos (le_refl _)) (rndQ_nonneg (le_refl _))
    rw [e]; exact rndQ_nonneg h
  · exact rndQ_mono_pos hp hx h

theorem rnd_toQ_mono (hp : 0 < f.p) {x y : ℚ} (hx : IsFin (rnd f x)) (hy : IsFin (rnd f y)) (h : x ≤ y) :
    toQ (rnd f x) ≤ toQ (rnd f y) := by
  have e : ∀ z, IsFin (rnd f z) → toQ (rnd f z) = rndQ f z := by
    intro z hz
    unfold rnd at hz ⊢
    dsimp only at hz ⊢
    by_cases h1 : (2 : ℚ) ^ f.emax ≤ |rndQ f z|
    · rw [if_pos h1] at hz; exact hz.elim
    · rw [if_neg h1]
      by_cases h2 : rndQ f z = 0
      · rw [if_pos h2, h2]; split <;> rfl
      · rw [if_neg h2]; rfl
  rw [e x hx, e y hy]
  exact rndQ_mono hp h

theorem rndQ_sign_pos {x : ℚ} (h : 0 < rndQ f x) : 0 < x := by
  by_contra hc
  exact absurd (rndQ_nonpos (f := f) (not_lt.mp hc)) (not_le.mpr h)

theorem rndQ_sign_neg {x : ℚ} (h : rndQ f x < 0) : x < 0 := by
  by_contra hc
  exact absurd (rndQ_nonneg (f := f) (not_lt.mp hc)) (not_le.mpr h)

/-- Rounding keeps the order, overflow included. -/
theorem rnd_mono (hp : 0 < f.p) {x y : ℚ} (h : x ≤ y) : lt (rnd f y) (rnd f x) = false := by
  have hm := rndQ_mono (f := f) hp h
  have hP : (0 : ℚ) < (2 : ℚ) ^ f.emax := by positivity
  unfold rnd
  dsimp only
  by_cases hy : (2 : ℚ) ^ f.emax ≤ |rndQ f y|
  · rw [if_pos hy]
    by_cases hy0 : y < 0
    · -- y overflows to -inf, so does x
      have hry : rndQ f y ≤ 0 := rndQ_nonpos hy0.le
      rw [abs_of_nonpos hry] at hy
      have hx : (2 : ℚ) ^ f.emax ≤ |rndQ f x| := by
        rw [abs_of_nonpos (hm.trans hry)]; linarith
      rw [if_pos hx]
      have : x < 0 := lt_of_le_of_lt h hy0
      simp [this, hy0]
    · simp only [hy0, decide_false]
      split_ifs <;> simp
  · rw [if_neg hy]
    by_cases hx : (2 : ℚ) ^ f.emax ≤ |rndQ f x|
    · rw [if_pos hx]
      have hx0 : x < 0 := by
        by_contra hc
        have hrx : 0 ≤ rndQ f x := rndQ_nonneg (not_lt.mp hc)
        rw [abs_of_nonneg hrx] at hx
        exact hy (le_trans (le_trans hx hm) (le_abs_self _))
      simp only [hx0, decide_true]
      split_ifs <;> simp
    · rw [if_neg hx]
      split_ifs <;> simp_all

theorem zero_lt_eq (s t : Bool) : lt (zero s : Fl f) (zero t) = false := by
  cases s <;> cases t <;> simp [zero]

theorem lt_zero_zero_rnd {x : ℚ} (s : Bool) (h : 0 ≤ x) : lt (rnd f x) (zero s : Fl f) = false := by
  have := rnd_notNeg (f := f) h
  unfold NotNeg at this
  cases s
  · exact this
  · revert this; unfold zero; cases rnd f x <;> simp

theorem rnd_lt_zero {x : ℚ} (s : Bool) (h : x ≤ 0) : lt (zero s : Fl f) (rnd f x) = false := by
  have hr := rndQ_nonpos (f := f) h
  unfold rnd
  dsimp only
  by_cases h1 : (2 : ℚ) ^ f.emax ≤ |rndQ f x|
  · rw [if_pos h1]
    have hP : (0 : ℚ) < (2 : ℚ) ^ f.emax := by positivity
    have : x < 0 := by
      rcases lt_or_eq_of_le h with h | h
      · exact h
      · exfalso
        rw [h] at hr h1
        have h0 : rndQ f 0 = 0 := le_antisymm (rndQ_nonpos le_rfl) (rndQ_nonneg le_rfl)
        rw [h0] at h1; simp at h1; linarith
    simp only [this, decide_true]
    cases s <;> simp [zero]
  · rw [if_neg h1]
    split_ifs <;> cases s <;> simp [zero] <;> linarith

theorem rnd_ne_nan (x : ℚ) : rnd f x ≠ nan := by
  unfold rnd; dsimp only; split_ifs <;> simp

theorem ofRat_ne_nan (x : ℚ) : ofRat f x ≠ nan := by
  unfold ofRat; split_ifs
  · simp
  · exact rnd_ne_nan x

theorem zero_ne_nan (s : Bool) : (zero s : Fl f) ≠ nan := by cases s <;> simp [zero]

theorem ofRat_mono (hp : 0 < f.p) {x y : ℚ} (h : x ≤ y) : lt (ofRat f y) (ofRat f x) = false := by
  unfold ofRat
  split_ifs with h1 h2 h2
  · simp
  · exact rnd_lt_zero false (by rw [h1] at h; exact h)
  · exact lt_zero_zero_rnd false (by rw [h2] at h; exact h)
  · exact rnd_mono hp h

/-- `a ≤ b` between data that are not NaN. -/
def Le (a b : Fl f) : Prop := a ≠ nan ∧ b ≠ nan ∧ lt b a = false

theorem Le.of_fin {a b : Fl f} (ha : IsFin a) (hb : IsFin b) (h : toQ a ≤ toQ b) : Le a b :=
  ⟨by rintro rfl; exact ha, by rintro rfl; exact hb, (lt_eq_false_iff hb ha).mpr h⟩

theorem Le.toQ_le {a b : Fl f} (ha : IsFin a) (hb : IsFin b) (h : Le a b) : toQ a ≤ toQ b :=
  (lt_eq_false_iff hb ha).mp h.2.2

theorem Le.add_left (hp : 0 < f.p) {a b c : Fl f} (ha : IsFin a) (h : Le b c) : Le (add a b) (add a c) := by
  obtain ⟨hb, hc, h⟩ := h
  have key : ∀ x y z : ℚ, y ≤ z → Le (ofRat f (x + y)) (ofRat f (x + z)) := fun x y z h =>
    ⟨ofRat_ne_nan _, ofRat_ne_nan _, ofRat_mono hp (by linarith)⟩
  have nz : ∀ z : ℚ, 0 ≤ z → Le (negZero : Fl f) (ofRat f z) := fun z h =>
    ⟨by simp, ofRat_ne_nan _, by
      have := ofRat_mono (f := f) hp h
      revert this
      rw [show ofRat f 0 = fin 0 by simp [ofRat]]
      cases ofRat f z <;> simp⟩
  have nz' : ∀ z : ℚ, z ≤ 0 → Le (ofRat f z) (negZero : Fl f) := fun z h =>
    ⟨ofRat_ne_nan _, by simp, by
      have := ofRat_mono (f := f) hp h
      revert this
      rw [show ofRat f 0 = fin 0 by simp [ofRat]]
      cases ofRat f z <;> simp⟩
  cases a with
  | nan => exact ha.elim
  | inf s => exact ha.elim
  | negZero =>
    cases b with
    | nan => exact absurd rfl hb
    | inf s =>
      cases c with
      | nan => exact absurd rfl hc
      | inf t => exact ⟨by simp, by simp, by simpa using h⟩
      | negZero => exact ⟨by simp, by simp, by simpa using h⟩
      | fin z =>
        rw [add_nz_inf, add_nz_fin]
        have hs : s = true := by simpa using h
        refine ⟨by simp, ofRat_ne_nan _, ?_⟩
        rw [hs]; cases ofRat f (0 + z) <;> simp
    | negZero =>
      cases c with
      | nan => exact absurd rfl hc
      | inf t => exact ⟨by simp, by simp, by simpa using h⟩
      | negZero => exact ⟨by simp, by simp, by simp⟩
      | fin z =>
        rw [add_nz_nz, add_nz_fin]
        exact nz _ (by simpa using h)
    | fin y =>
      cases c with
      | nan => exact absurd rfl hc
      | inf t =>
        have ht : t = false := by simpa using h
        rw [add_nz_inf, add_nz_fin, ht]
        exact ⟨ofRat_ne_nan _, by simp, by cases ofRat f (0 + y) <;> simp⟩
      | negZero =>
        rw [add_nz_nz, add_nz_fin]
        exact nz' _ (by simpa using h)
      | fin z => exact key 0 y z (by simpa using h)
  | fin x =>
    cases b with
    | nan => exact absurd rfl hb
    | inf s =>
      cases c with
      | nan => exact absurd rfl hc
      | inf t => exact ⟨by simp, by simp, by simpa using h⟩
      | negZero =>
        rw [add_fin_inf, add_fin_nz]
        have hs : s = true := by simpa using h
        refine ⟨by simp, ofRat_ne_nan _, ?_⟩
        rw [hs]; cases ofRat f (x + 0) <;> simp
      | fin z =>
        rw [add_fin_inf, add_fin_fin]
        have hs : s = true := by simpa using h
        refine ⟨by simp, ofRat_ne_nan _, ?_⟩
        rw [hs]; cases ofRat f (x + z) <;> simp
    | negZero =>
      cases c with
      | nan => exact absurd rfl hc
      | inf t =>
        have ht : t = false := by simpa using h
        rw [add_fin_inf, add_fin_nz, ht]
        exact ⟨ofRat_ne_nan _, by simp, by cases ofRat f (x + 0) <;> simp⟩
      | negZero => exact ⟨ofRat_ne_nan _, ofRat_ne_nan _, ofRat_mono hp le_rfl⟩
      | fin z => exact key x 0 z (by simpa using h)
    | fin y =>
      cases c with
      | nan => exact absurd rfl hc
      | inf t =>
        have ht : t = false := by simpa using h
        rw [add_fin_inf, add_fin_fin, ht]
        exact ⟨ofRat_ne_nan _, by simp, by cases ofRat f (x + y) <;> simp⟩
      | negZero => exact key x y 0 (by simpa using h)
      | fin z => exact key x y z (by simpa using h)

/-- The product of two numbers in terms of their values. -/
theorem mul_num {a b : Fl f} (ha : IsFin a) (hb : IsFin b) :
    mul a b = if toQ a * toQ b = 0 then zero (a.signBit != b.signBit) else rnd f (toQ a * toQ b) := by
  cases a <;> cases b <;> first | exact ha.elim | exact hb.elim | rfl

theorem Le.mul_right (hp : 0 < f.p) {a b c : Fl f} (ha : IsFin a) (hb : IsFin b) (hc : IsFin c)
    (hc0 : 0 ≤ toQ c) (h : toQ a ≤ toQ b) : Le (mul a c) (mul b c) := by
  have h' := mul_le_mul_of_nonneg_right h hc0
  rw [mul_num ha hc, mul_num hb hc]
  split_ifs with h1 h2 h2
  · exact ⟨zero_ne_nan _, zero_ne_nan _, zero_lt_eq _ _⟩
  · exact ⟨zero_ne_nan _, rnd_ne_nan _, lt_zero_zero_rnd _ (by linarith)⟩
  · exact ⟨rnd_ne_nan _, zero_ne_nan _, rnd_lt_zero _ (by linarith)⟩
  · exact ⟨rnd_ne_nan _, rnd_ne_nan _, rnd_mono hp h'⟩

/-- Multiplying by a positive number. -/
theorem Le.mul_left (hp : 0 < f.p) {u a b : Fl f} (hu : IsFin u) (hu0 : 0 < toQ u) (h : Le a b) :
    Le (mul u a) (mul u b) := by
  obtain ⟨q, rfl⟩ : ∃ q, u = fin q := by
    cases u with
    | fin q => exact ⟨q, rfl⟩
    | negZero => simp [toQ] at hu0
    | nan => exact hu.elim
    | inf s => exact hu.elim
  change 0 < q at hu0
  have hne : q ≠ 0 := hu0.ne'
  have hsgn : decide (q < 0) = false := by simp; linarith
  have hinf : ∀ t, mul (fin q : Fl f) (inf t) = inf t := by
    intro t; rw [mul_fin_inf, if_neg hne, hsgn]; cases t <;> rfl
  have nn : ∀ x : Fl f, IsFin x → mul (fin q) x ≠ nan := by
    intro x hx; rw [mul_num (a := fin q) trivial hx]; split_ifs
    · exact zero_ne_nan _
    · exact rnd_ne_nan _
  obtain ⟨ha, hb, h⟩ := h
  have top : ∀ x : Fl f, lt (inf false) x = false := by intro x; cases x <;> simp
  have bot : ∀ x : Fl f, x ≠ nan → lt x (inf true) = false := by intro x; cases x <;> simp
  by_cases fa : IsFin a
  · by_cases fb : IsFin b
    · have hle := (lt_eq_false_iff fb fa).mp h
      have h' := mul_le_mul_of_nonneg_left hle hu0.le
      rw [mul_num (a := fin q) trivial fa, mul_num (a := fin q) trivial fb]
      change Le (if q * toQ a = 0 then _ else rnd f (q * toQ a)) (if q * toQ b = 0 then _ else rnd f (q * toQ b))
      split_ifs with h1 h2 h2
      · exact ⟨zero_ne_nan _, zero_ne_nan _, zero_lt_eq _ _⟩
      · exact ⟨zero_ne_nan _, rnd_ne_nan _, lt_zero_zero_rnd _ (by linarith)⟩
      · exact ⟨rnd_ne_nan _, zero_ne_nan _, rnd_lt_zero _ (by linarith)⟩
      · exact ⟨rnd_ne_nan _, rnd_ne_nan _, rnd_mono hp h'⟩
    · cases b with
      | nan => exact absurd rfl hb
      | fin _ => exact absurd trivial fb
      | negZero => exact absurd trivial fb
      | inf t =>
        rw [hinf]
        have ht : t = false := by cases a <;> simp_all [IsFin]
        rw [ht]
        exact ⟨nn a fa, by simp, top _⟩
  · cases a with
    | nan => exact absurd rfl ha
    | fin _ => exact absurd trivial fa
    | negZero => exact absurd trivial fa
    | inf s =>
      rw [hinf]
      cases s with
      | true =>
        have : mul (fin q) b ≠ nan := by
          cases b with
          | nan => exact absurd rfl hb
          | inf t => rw [hinf]; simp
          | fin _ => exact nn _ trivial
          | negZero => exact nn _ trivial
        exact ⟨by simp, this, bot _ this⟩
      | false =>
        have : b = inf false := by cases b <;> simp_all
        rw [this, hinf]
        exact ⟨by simp, by simp, by simp⟩

/-- Dividing by a positive number. -/
theorem Le.div_right (hp : 0 < f.p) {u a b : Fl f} (hu : IsFin u) (hu0 : 0 < toQ u) (h : Le a b) :
    Le (div a u) (div b u) := by
  obtain ⟨q, rfl⟩ : ∃ q, u = fin q := by
    cases u with
    | fin q => exact ⟨q, rfl⟩
    | negZero => simp [toQ] at hu0
    | nan => exact hu.elim
    | inf s => exact hu.elim
  change 0 < q at hu0
  have hne : q ≠ 0 := hu0.ne'
  have hsgn : decide (q < 0) = false := by simp; linarith
  have hinf : ∀ t, div (inf t : Fl f) (fin q) = inf t := by
    intro t; rw [div_inf_fin, hsgn]; cases t <;> rfl
  have num : ∀ x : Fl f, IsFin x →
      div x (fin q) = if toQ x = 0 then zero (x.signBit != decide (q < 0)) else rnd f (toQ x / q) := by
    intro x hx
    cases x with
    | nan => exact hx.elim
    | inf _ => exact hx.elim
    | negZero => rw [div_nz_fin, if_neg hne]; simp [toQ, signBit]
    | fin z => rw [div_fin_fin, if_neg hne]; rfl
  have nn : ∀ x : Fl f, IsFin x → div x (fin q) ≠ nan := by
    intro x hx; rw [num x hx]; split_ifs
    · exact zero_ne_nan _
    · exact rnd_ne_nan _
  obtain ⟨ha, hb, h⟩ := h
  have top : ∀ x : Fl f, lt (inf false) x = false := by intro x; cases x <;> simp
  have bot : ∀ x : Fl f, x ≠ nan → lt x (inf true) = false := by intro x; cases x <;> simp
  by_cases fa : IsFin a
  · by_cases fb : IsFin b
    · have hle := (lt_eq_false_iff fb fa).mp h
      have h' := div_le_div_of_nonneg_right hle hu0.le
      rw [num a fa, num b fb]
      split_ifs with h1 h2 h2
      · exact ⟨zero_ne_nan _, zero_ne_nan _, zero_lt_eq _ _⟩
      · rw [h1] at h'
        exact ⟨zero_ne_nan _, rnd_ne_nan _, lt_zero_zero_rnd _ (by simpa using h')⟩
      · rw [h2] at h'
        exact ⟨rnd_ne_nan _, zero_ne_nan _, rnd_lt_zero _ (by simpa using h')⟩
      · exact ⟨rnd_ne_nan _, rnd_ne_nan _, rnd_mono hp h'⟩
    · cases b with
      | nan => exact absurd rfl hb
      | fin _ => exact absurd trivial fb
      | negZero => exact absurd trivial fb
      | inf t =>
        rw [hinf]
        have ht : t = false := by cases a <;> simp_all [IsFin]
        rw [ht]
        exact ⟨nn a fa, by simp, top _⟩
  · cases a with
    | nan => exact absurd rfl ha
    | fin _ => exact absurd trivial fa
    | negZero => exact absurd trivial fa
    | inf s =>
      rw [hinf]
      cases s with
      | true =>
        have : div b (fin q) ≠ nan := by
          cases b with
          | nan => exact absurd rfl hb
          | inf t => rw [hinf]; simp
          | fin _ => exact nn _ trivial
          | negZero => exact nn _ trivial
        exact ⟨by simp, this, bot _ this⟩
      | false =>
        have : b = inf false := by cases b <;> simp_all
        rw [this, hinf]
        exact ⟨by simp, by simp, by simp⟩

theorem ofIntSigned_le {s t : Bool} {m n : ℤ} (h : m ≤ n) : Le (ofIntSigned s m : Fl f) (ofIntSigned t n) :=
  Le.of_fin (isFin_ofIntSigned _ _) (isFin_ofIntSigned _ _) (by
    rw [toQ_ofIntSigned, toQ_ofIntSigned]; exact_mod_cast h)

theorem Le.ceil {a b : Fl f} (h : Le a b) : Le (ceil a) (ceil b) := by
  obtain ⟨ha, hb, h⟩ := h
  have fc : ∀ x : Fl f, IsFin x → IsFin (Fl.ceil x) := by
    intro x hx; cases x <;> first | exact hx.elim | exact isFin_ofIntSigned _ _ | trivial
  cases a with
  | nan => exact absurd rfl ha
  | inf s =>
    cases b with
    | nan => exact absurd rfl hb
    | inf t => exact ⟨ha, hb, h⟩
    | negZero => exact ⟨ha, hb, h⟩
    | fin z =>
      have hs : s = true := by simpa using h
      rw [hs]
      refine ⟨by simp [Fl.ceil], ?_, ?_⟩
      · intro hc; have := fc (fin z) trivial; rw [hc] at this; exact this
      · have := fc (fin z) trivial
        revert this
        show _ → lt (Fl.ceil (fin z)) (inf true) = false
        cases Fl.ceil (fin z) <;> simp [IsFin]
  | negZero =>
    cases b with
    | nan => exact absurd rfl hb
    | inf t => exact ⟨ha, hb, h⟩
    | negZero => exact ⟨ha, hb, h⟩
    | fin z =>
      have h0 := (lt_eq_false_iff (a := (fin z : Fl f)) (b := negZero) trivial trivial).mp h
      refine Le.of_fin (fc negZero trivial) (fc (fin z) trivial) ?_
      rw [(ceil_spec (fc negZero trivial)).2, (ceil_spec (fc (fin z) trivial)).2]
      exact_mod_cast Int.ceil_le_ceil h0
  | fin y =>
    cases b with
    | nan => exact absurd rfl hb
    | inf t =>
      have ht : t = false := by simpa using h
      rw [ht]
      refine ⟨?_, by simp [Fl.ceil], ?_⟩
      · intro hc; have := fc (fin y) trivial; rw [hc] at this; exact this
      · show lt (inf false) _ = false
        cases Fl.ceil (fin y) <;> simp
    | negZero =>
      have h0 := (lt_eq_false_iff (a := (negZero : Fl f)) (b := fin y) trivial trivial).mp h
      refine Le.of_fin (fc (fin y) trivial) (fc negZero trivial) ?_
      rw [(ceil_spec (fc (fin y) trivial)).2, (ceil_spec (fc negZero trivial)).2]
      exact_mod_cast Int.ceil_le_ceil h0
    | fin z =>
      have h0 := (lt_eq_false_iff (a := (fin z : Fl f)) (b := fin y) trivial trivial).mp h
      exact ofIntSigned_le (Int.ceil_le_ceil h0)

theorem Le.refl {a : Fl f} (h : a ≠ nan) : Le a a := ⟨h, h, by cases a <;> simp_all⟩

theorem Le.trans {a b c : Fl f} (h : Le a b) (h' : Le b c) : Le a c := by
  obtain ⟨ha, hb, h⟩ := h
  obtain ⟨-, hc, h'⟩ := h'
  refine ⟨ha, hc, ?_⟩
  cases a <;> cases b <;> cases c <;> simp_all <;> linarith

end Verif.Fl
