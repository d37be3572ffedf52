import Verif.Props.FloatMoney
import Verif.Num.Mono

/-!
# C08 and C86 in binary32: monotone fees, orders given as a quote amount
-/

namespace Verif.Props
open FloatOps Spec FloatMoney
open Fl (toQ IsFin)

theorem fmax_le {f : Fmt} {m x y : Fl f} (hm : m ≠ .nan) (h : Fl.Le x y) : Fl.Le (fmax m x) (fmax m y) := by
  unfold fmax
  change Fl.Le (if Fl.lt m x = true then x else m) (if Fl.lt m y = true then y else m)
  obtain ⟨hx, hy, hxy⟩ := h
  split_ifs with h1 h2 h2
  · exact ⟨hx, hy, hxy⟩
  · refine ⟨hx, hm, ?_⟩
    exfalso
    cases m <;> cases x <;> cases y <;> simp_all <;> linarith
  · refine ⟨hm, hy, ?_⟩
    cases m <;> cases y <;> simp_all <;> linarith
  · exact Fl.Le.refl hm

/-- **C08** in every IEEE format: with a relative fee that is not negative, the fee does not decrease with the
traded amount - not even by a rounding error. -/
theorem C08_fee_mono_float {f : Fmt} (hp : 0 < f.p) (a : Account (Fl f)) (fc : FeeConfig (Fl f)) (q q' : Fl f)
    (hr : IsFin fc.relativeFee) (hr0 : 0 ≤ toQ fc.relativeFee) (hf : IsFin fc.fixedFee)
    (hm : fc.minimumFee ≠ .nan) (hu : IsFin a.quoteUnit) (hq : IsFin q) (hq' : IsFin q') (h : toQ q ≤ toQ q') :
    Fl.Le (a.getFee fc q) (a.getFee fc q') := by
  have h1 : Fl.Le (fmax fc.minimumFee (fc.fixedFee +. q *. fc.relativeFee))
      (fmax fc.minimumFee (fc.fixedFee +. q' *. fc.relativeFee)) :=
    fmax_le hm (Fl.Le.add_left hp hf (Fl.Le.mul_right hp hq hq' hr hr0 h))
  unfold Account.getFee ceilUnit
  by_cases hc : (a.quoteUnit >. lit (Fl f) 0) = true
  · simp only [hc, if_true]
    have hpos : 0 < toQ a.quoteUnit := by
      have e : (lit (Fl f) 0) = .fin 0 := by show Fl.ofRat f 0 = .fin 0; simp [Fl.ofRat]
      rw [e] at hc
      exact (Fl.lt_iff (a := (.fin 0 : Fl f)) trivial hu).mp hc
    exact Fl.Le.mul_left hp hu hpos (Fl.Le.ceil (Fl.Le.div_right hp hu hpos h1))
  · simp only [hc]
    exact h1

/-! ### Overflow -/

theorem rnd_lt_top {f : Fmt} {x : ℚ} (h : IsFin (Fl.rnd f x)) (he : 0 < (2 : ℚ) ^ f.emax) :
    |toQ (Fl.rnd f x)| < (2 : ℚ) ^ f.emax := by
  unfold Fl.rnd at h ⊢
  dsimp only at h ⊢
  by_cases h1 : (2 : ℚ) ^ f.emax ≤ |rndQ f x|
  · rw [if_pos h1] at h; exact h.elim
  · rw [if_neg h1]
    split_ifs
    · simpa [toQ] using he
    · simpa [toQ] using he
    · exact not_le.mp h1

theorem mul_lt_top {a b : F32} (h : IsFin (a *. b)) : |toQ (a *. b)| < 2 ^ 128 := by
  obtain ⟨ha, hb, -⟩ := Fl.mul_err (a := a) (b := b) h
  change IsFin (Fl.mul a b) at h
  change |toQ (Fl.mul a b)| < 2 ^ 128
  rw [Fl.mul_num ha hb] at h ⊢
  split_ifs at h ⊢ with h0
  · rw [Fl.toQ_zero]; norm_num
  · have := rnd_lt_top h (by positivity)
    simpa using this

/-- A sum, difference or quotient that overflows upwards was of the order of the largest float. -/
theorem overflow_big {x : ℚ} (h : Fl.rnd binary32 x = .inf false) : (2 : ℚ) ^ 128 ≤ x + x / 2 ^ 22 := by
  by_cases hx0 : x < 0
  · exfalso
    unfold Fl.rnd at h
    dsimp only at h
    split_ifs at h
    simp [hx0] at h
  · have hx : 0 ≤ x := not_lt.mp hx0
    have h1 : (2 : ℚ) ^ (128 : ℤ) ≤ |rndQ binary32 x| := by
      by_contra hc
      unfold Fl.rnd at h
      dsimp only at h
      rw [if_neg hc] at h
      split_ifs at h
    have hne : x ≠ 0 := by
      rintro rfl
      have e : rndQ binary32 0 = 0 := le_antisymm (rndQ_nonpos le_rfl) (rndQ_nonneg le_rfl)
      rw [e] at h1
      simp at h1
      norm_num at h1
    have h2 := Fl.rndQ_err (f := binary32) hne
    rw [err32, abs_of_nonneg hx] at h2
    rw [abs_of_nonneg (rndQ_nonneg hx)] at h1
    have h3 := (abs_le.mp h2).2
    have h4 : tinyQ ≤ 1 := by unfold tinyQ; norm_num
    have e1 : (2 : ℚ) ^ (128 : ℤ) = 2 ^ 128 := by norm_cast
    rw [e1] at h1
    norm_num at h1 ⊢
    linarith

/-- `A` is the rounded value of `s ≥ 0`, possibly overflowed. -/
def Rounds (s : ℚ) (A : F32) : Prop :=
  (IsFin A ∧ |toQ A - s| ≤ s / 16777216 + tinyQ) ∨ (A = .inf false ∧ (2 : ℚ) ^ 128 ≤ s + s / 2 ^ 22)

theorem rounds_ofRat {s : ℚ} (hs : 0 ≤ s) : Rounds s (Fl.ofRat binary32 s) := by
  by_cases hf : IsFin (Fl.ofRat binary32 s)
  · left
    refine ⟨hf, ?_⟩
    have := Fl.ofRat_err hf
    rwa [err32, abs_of_nonneg hs] at this
  · right
    unfold Fl.ofRat at hf ⊢
    by_cases h0 : s = 0
    · rw [if_pos h0] at hf; exact absurd trivial hf
    · rw [if_neg h0] at hf ⊢
      have hpos : 0 < s := lt_of_le_of_ne hs (Ne.symm h0)
      have : Fl.rnd binary32 s = .inf false := by
        unfold Fl.rnd at hf ⊢
        dsimp only at hf ⊢
        by_cases h1 : (2 : ℚ) ^ (128 : ℤ) ≤ |rndQ binary32 s|
        · rw [if_pos h1]; simp; linarith
        · exfalso
          apply hf
          rw [if_neg h1]
          split_ifs <;> trivial
      exact ⟨this, overflow_big this⟩

/-- Sum and difference of numbers. -/
theorem rounds_add {x y : F32} (hx : IsFin x) (hy : IsFin y) (h : 0 ≤ toQ x + toQ y) :
    Rounds (toQ x + toQ y) (x +. y) := by
  show Rounds _ (Fl.add x y)
  cases x with
  | nan => exact hx.elim
  | inf s => exact hx.elim
  | negZero =>
    cases y with
    | nan => exact hy.elim
    | inf s => exact hy.elim
    | negZero =>
      left
      exact ⟨trivial, by simp [toQ]; exact tinyQ_pos.le⟩
    | fin z => exact rounds_ofRat h
  | fin q =>
    cases y with
    | nan => exact hy.elim
    | inf s => exact hy.elim
    | negZero => exact rounds_ofRat h
    | fin z => exact rounds_ofRat h

theorem rounds_sub {x y : F32} (hx : IsFin x) (hy : IsFin y) (h : 0 ≤ toQ x - toQ y) :
    Rounds (toQ x - toQ y) (x -. y) := by
  have := rounds_add (x := x) (y := Fl.neg y) hx (Fl.isFin_neg.mpr hy) (by rw [Fl.toQ_neg]; linarith)
  rw [Fl.toQ_neg, ← sub_eq_add_neg] at this
  exact this

theorem floorUnit_upper {u x : F32} (h : IsFin (floorUnit x u)) :
    IsFin x ∧ toQ (floorUnit x u) ≤ toQ x + 3 * |toQ x| / 16777216 + tinyQ * (1 + 2 * |toQ u|) ∧
    NearGrid u (floorUnit x u) (2 * |toQ (floorUnit x u)| / 16777216 + 2 * tinyQ) := by
  have ht := tinyQ_pos
  unfold floorUnit at h ⊢
  by_cases hu : (lit F32 0 <. u) = true
  swap
  · rw [if_neg (by simpa using hu)] at h ⊢
    have : 0 ≤ |toQ u| := abs_nonneg _
    have : 0 ≤ |toQ x| := abs_nonneg _
    have : 0 ≤ tinyQ * (1 + 2 * |toQ u|) := by positivity
    exact ⟨h, by linarith, fun hh => absurd hh hu⟩
  rw [if_pos hu] at h ⊢
  obtain ⟨hfu, hfr, -⟩ := Fl.mul_err (a := u) (b := FloatOps.floor (x /. u)) h
  obtain ⟨hfd, hn⟩ := Fl.floor_spec (x := x /. u) hfr
  obtain ⟨-, -, hp1, hp2⟩ := prodErr (u := u) (n := FloatOps.floor (x /. u)) hn h
  have hgrid : NearGrid u (u *. FloatOps.floor (x /. u))
      (2 * |toQ (u *. FloatOps.floor (x /. u))| / 16777216 + 2 * tinyQ) := fun _ => ⟨_, hp2⟩
  obtain ⟨hfx, -, hd⟩ := Fl.div_err (a := x) hfu hfd
  change |toQ (x /. u) - _| ≤ _ at hd
  have hup := unit_pos hfu hu
  rw [err32] at hd
  have hc1 := Int.floor_le (toQ (x /. u))
  generalize ⌊toQ (x /. u)⌋ = n at *
  generalize toQ (u *. FloatOps.floor (x /. u)) = R at *
  generalize toQ (x /. u) = y at *
  generalize toQ x = X at *
  generalize toQ u = U at *
  rw [abs_div, abs_of_pos hup] at hd
  have h6 : |U| = U := abs_of_pos hup
  rw [h6]
  obtain ⟨-, hd2⟩ := abs_le.mp hd
  have k2 : n * U ≤ X + |X| / 16777216 + tinyQ * U := by
    have : n * U ≤ (X / U + (|X| / U / 16777216 + tinyQ)) * U :=
      mul_le_mul_of_nonneg_right (by linarith) hup.le
    have e : (X / U + (|X| / U / 16777216 + tinyQ)) * U = X + |X| / 16777216 + tinyQ * U := by
      field_simp
      ring
    linarith
  have h7 : 0 ≤ tinyQ * U := by positivity
  have h9 := neg_abs_le X
  have h10 := le_abs_self X
  obtain ⟨-, hp4⟩ := abs_le.mp hp1
  have h8 : tinyQ * (1 + 2 * U) = tinyQ + 2 * (tinyQ * U) := by ring
  refine ⟨hfx, ?_, hgrid⟩
  by_cases hs : 0 ≤ (n : ℚ) * U
  · rw [abs_of_nonneg hs] at hp4
    linarith
  · rw [abs_of_neg (not_le.mp hs)] at hp4
    linarith

/-- The base amount bought or sold for a quote amount `s` is worth at most `s`, up to rounding. -/
theorem quote_cap {A p m bu : F32} {s : ℚ} (hs : 0 ≤ s) (hA : Rounds s A) (hp : IsFin p) (hp0 : 0 < toQ p)
    (hmt : IsFin m → toQ m < 2 ^ 128) (hbu : 0 ≤ toQ bu)
    (hb0 : 0 ≤ toQ (floorUnit (fmin (A /. p) m) bu))
    (hfb : IsFin (roundUnit (floorUnit (fmin (A /. p) m) bu) bu))
    (hM : IsFin (roundUnit (floorUnit (fmin (A /. p) m) bu) bu *. p)) :
    toQ (roundUnit (floorUnit (fmin (A /. p) m) bu) bu *. p) ≤
      s + 24 * s / 16777216 + 16 * (tinyQ + tinyQ * toQ p + tinyQ * (toQ p * toQ bu)) := by
  have ht := tinyQ_pos
  have g1 : 0 ≤ tinyQ * toQ p := by positivity
  have g2 : 0 ≤ tinyQ * (toQ p * toQ bu) := by positivity
  rcases hA with ⟨hfA, hA⟩ | ⟨-, hbig⟩
  swap
  · have := mul_lt_top hM
    have h1 := le_abs_self (toQ (roundUnit (floorUnit (fmin (A /. p) m) bu) bu *. p))
    norm_num at this hbig
    linarith
  have hff := fin_of_round hfb
  obtain ⟨hfw, hw, hgw⟩ := floorUnit_upper hff
  obtain ⟨-, hr, -⟩ := roundUnit_close (by positivity) hgw hfb
  obtain ⟨-, -, eM⟩ := Fl.mul_err (a := roundUnit (floorUnit (fmin (A /. p) m) bu) bu) (b := p) hM
  change |toQ (roundUnit (floorUnit (fmin (A /. p) m) bu) bu *. p) - _| ≤ _ at eM
  rw [err32] at eM
  have hwp : toQ (fmin (A /. p) m) * toQ p ≤ s + 6 * s / 16777216 + 2 * tinyQ + tinyQ * toQ p := by
    have hAs := (abs_le.mp hA).2
    have hle : ∀ z : ℚ, |z - toQ A / toQ p| ≤ |toQ A / toQ p| / 16777216 + tinyQ →
        z * toQ p ≤ s + 6 * s / 16777216 + 2 * tinyQ + tinyQ * toQ p := by
      intro z hz
      have hz2 := (abs_le.mp hz).2
      rw [abs_div, abs_of_pos hp0] at hz2
      have h1 : z * toQ p ≤ (toQ A / toQ p + (|toQ A| / toQ p / 16777216 + tinyQ)) * toQ p :=
        mul_le_mul_of_nonneg_right (by linarith) hp0.le
      have e : (toQ A / toQ p + (|toQ A| / toQ p / 16777216 + tinyQ)) * toQ p =
          toQ A + |toQ A| / 16777216 + tinyQ * toQ p := by
        field_simp
        ring
      rw [e] at h1
      have h2 : |toQ A| ≤ s + s / 16777216 + tinyQ := by
        have := (abs_add_bound hA).1
        rw [abs_of_nonneg hs] at this
        linarith
      linarith
    unfold fmin at hfw ⊢
    by_cases hc : (m <. (A /. p)) = true
    · rw [if_pos hc] at hfw ⊢
      by_cases hfz : IsFin (A /. p)
      · obtain ⟨-, -, hz⟩ := Fl.div_err (a := A) hp hfz
        rw [err32] at hz
        have hlt := (Fl.lt_iff (a := m) (b := A /. p) hfw hfz).mp hc
        exact le_trans (mul_le_mul_of_nonneg_right hlt.le hp0.le) (hle _ hz)
      · -- the quotient overflowed
        have hmlt := hmt hfw
        have hov : (2 : ℚ) ^ 128 ≤ toQ A / toQ p + toQ A / toQ p / 2 ^ 22 := by
          have hpn : ∃ q, p = .fin q := by
            cases p with
            | fin q => exact ⟨q, rfl⟩
            | negZero => simp [toQ] at hp0
            | nan => exact hp.elim
            | inf s => exact hp.elim
          obtain ⟨pq, rfl⟩ := hpn
          change 0 < pq at hp0
          change ¬ IsFin (Fl.div A (.fin pq)) at hfz
          change (Fl.lt m (Fl.div A (.fin pq))) = true at hc
          cases A with
          | nan => exact hfA.elim
          | inf s => exact hfA.elim
          | negZero =>
            exfalso; apply hfz
            rw [Fl.div_nz_fin, if_neg hp0.ne']; exact Fl.isFin_zero _
          | fin z =>
            rw [Fl.div_fin_fin, if_neg hp0.ne'] at hfz hc
            by_cases hz0 : z = 0
            · rw [if_pos hz0] at hfz; exact absurd (Fl.isFin_zero _) hfz
            · rw [if_neg hz0] at hfz hc
              have : Fl.rnd binary32 (z / pq) = .inf false := by
                have hnn := Fl.rnd_ne_nan (f := binary32) (z / pq)
                cases hr : Fl.rnd binary32 (z / pq) with
                | nan => exact absurd hr hnn
                | fin _ => rw [hr] at hfz; exact absurd trivial hfz
                | negZero => rw [hr] at hfz; exact absurd trivial hfz
                | inf s =>
                  rw [hr] at hc
                  cases s
                  · rfl
                  · cases m <;> simp_all [IsFin]
              exact overflow_big this
        have h1 : toQ m * toQ p ≤ (toQ A / toQ p + toQ A / toQ p / 2 ^ 22) * toQ p :=
          mul_le_mul_of_nonneg_right (by linarith) hp0.le
        have e : (toQ A / toQ p + toQ A / toQ p / 2 ^ 22) * toQ p = toQ A + toQ A / 2 ^ 22 := by
          field_simp
        rw [e] at h1
        norm_num at h1
        have hA0 : toQ A ≤ s + s / 16777216 + tinyQ := by linarith
        linarith
    · rw [if_neg hc] at hfw ⊢
      obtain ⟨-, -, hz⟩ := Fl.div_err (a := A) hp hfw
      rw [err32] at hz
      exact hle _ hz
  generalize toQ (roundUnit (floorUnit (fmin (A /. p) m) bu) bu *. p) = M at *
  generalize toQ (roundUnit (floorUnit (fmin (A /. p) m) bu) bu) = R at *
  generalize toQ (floorUnit (fmin (A /. p) m) bu) = b at *
  generalize toQ (fmin (A /. p) m) = w at *
  rw [abs_of_nonneg hb0, abs_of_nonneg hbu] at hr
  rw [abs_of_nonneg hbu] at hw
  have hR := (abs_le.mp hr).2
  have hRp := mul_le_mul_of_nonneg_right hR hp0.le
  have hwp' := mul_le_mul_of_nonneg_right hw hp0.le
  have e1 : (R - b) * toQ p = R * toQ p - b * toQ p := by ring
  have e2 : (4 * (2 * b / 16777216 + 2 * tinyQ) + 4 * b / 16777216 + tinyQ * (1 + 4 * toQ bu)) * toQ p =
      12 * (b * toQ p) / 16777216 + 9 * (tinyQ * toQ p) + 4 * (tinyQ * (toQ p * toQ bu)) := by ring
  rw [e1, e2] at hRp
  have e3 : (w + 3 * |w| / 16777216 + tinyQ * (1 + 2 * toQ bu)) * toQ p =
      w * toQ p + 3 * |w * toQ p| / 16777216 + tinyQ * toQ p + 2 * (tinyQ * (toQ p * toQ bu)) := by
    rw [abs_mul, abs_of_pos hp0]; ring
  rw [e3] at hwp'
  have hM2 := (abs_le.mp eM).2
  have hbp : 0 ≤ b * toQ p := mul_nonneg hb0 hp0.le
  generalize b * toQ p = bp at *
  generalize R * toQ p = Rp at *
  generalize w * toQ p = wp at *
  generalize tinyQ * (toQ p * toQ bu) = t2 at *
  generalize tinyQ * toQ p = t1 at *
  have hwa : wp + 3 * |wp| / 16777216 ≤ s + 10 * s / 16777216 + 3 * tinyQ + 2 * t1 := by
    rcases abs_cases wp with ⟨h, h'⟩ | ⟨h, h'⟩ <;> rw [h] <;> linarith
  have hMa : M ≤ Rp + |Rp| / 16777216 + tinyQ := by linarith
  rcases abs_cases Rp with ⟨h, h'⟩ | ⟨h, h'⟩ <;> rw [h] at hMa <;> linarith

/-- Rounding an amount to the unit moves it by at most half a unit, up to rounding errors. -/
theorem roundUnit_half {u x : F32} (hx0 : 0 ≤ toQ x) (h : IsFin (roundUnit x u)) :
    IsFin x ∧ |toQ (roundUnit x u) - toQ x| ≤ 33 / 64 * |toQ u| + 3 * toQ x / 16777216 + tinyQ * (1 + 2 * |toQ u|) := by
  have ht := tinyQ_pos
  unfold roundUnit at h ⊢
  by_cases hu : (lit F32 0 <. u) = true
  swap
  · rw [if_neg (by simpa using hu)] at h ⊢
    have : 0 ≤ |toQ u| := abs_nonneg _
    have : 0 ≤ tinyQ * (1 + 2 * |toQ u|) := by positivity
    refine ⟨h, ?_⟩
    rw [sub_self, abs_zero]; linarith
  rw [if_pos hu] at h ⊢
  obtain ⟨hfu, hfr, -⟩ := Fl.mul_err (a := u) (b := FloatOps.round (x /. u)) h
  obtain ⟨hfd, n, hn, hr⟩ := Fl.round_spec (x := x /. u) hfr
  obtain ⟨-, -, hp1, hp2⟩ := prodErr (u := u) (n := FloatOps.round (x /. u)) hn h
  obtain ⟨hfx, -, hd⟩ := Fl.div_err (a := x) hfu hfd
  change |toQ (x /. u) - _| ≤ _ at hd
  refine ⟨hfx, ?_⟩
  have hup := unit_pos hfu hu
  rw [err32] at hd
  generalize toQ (u *. FloatOps.round (x /. u)) = R at *
  generalize toQ (x /. u) = y at *
  generalize toQ x = X at *
  generalize toQ u = U at *
  have h6 : |U| = U := abs_of_pos hup
  rw [h6]
  rw [abs_of_nonneg (div_nonneg hx0 hup.le)] at hd
  have h7 : 0 ≤ tinyQ * U := by positivity
  have k : |n * U - X| ≤ U / 2 + X / 16777216 + tinyQ * U := by
    have h1 : |(n : ℚ) - X / U| ≤ 1 / 2 + (X / U / 16777216 + tinyQ) := by
      have := abs_add_le ((n : ℚ) - y) (y - X / U)
      have e : (n : ℚ) - y + (y - X / U) = n - X / U := by ring
      rw [e] at this
      linarith
    have h2 := mul_le_mul_of_nonneg_right h1 hup.le
    have e1 : |(n : ℚ) - X / U| * U = |n * U - X| := by
      rw [← h6, ← abs_mul, h6]; congr 1; field_simp
    have e2 : (1 / 2 + (X / U / 16777216 + tinyQ)) * U = U / 2 + X / 16777216 + tinyQ * U := by
      field_simp
      ring
    rw [e1, e2] at h2
    exact h2
  have k2 := (abs_add_bound k).1
  rw [abs_of_nonneg hx0] at k2
  have := abs_add_le (R - n * U) (n * U - X)
  have e : R - n * U + (n * U - X) = R - X := by ring
  rw [e] at this
  linarith

theorem rounds_mul {x y : F32} (hx : IsFin x) (hy : IsFin y) (h : 0 ≤ toQ x * toQ y) :
    Rounds (toQ x * toQ y) (x *. y) := by
  show Rounds _ (Fl.mul x y)
  rw [Fl.mul_num hx hy]
  split_ifs with h0
  · left
    rw [h0, Fl.toQ_zero]
    exact ⟨Fl.isFin_zero _, by simpa using tinyQ_pos.le⟩
  · have := rounds_ofRat h
    unfold Fl.ofRat at this
    rwa [if_neg h0] at this

theorem mul_fl_nonneg {x y : F32} (hx : IsFin x) (hy : IsFin y) (h : 0 ≤ toQ x * toQ y)
    (hf : IsFin (x *. y)) : 0 ≤ toQ (x *. y) := by
  refine notBelow_toQ hf ?_
  unfold NotBelowZero
  rw [lit0]
  show Fl.lt (Fl.mul x y) (.fin 0) = false
  rw [Fl.mul_num hx hy]
  split_ifs with h0
  · exact Fl.zero_lt_eq _ false
  · exact Fl.rnd_notNeg h

/-- The shape of a fee: the larger of minimum fee and fixed plus relative fee, rounded up. -/
theorem fee_shape (a : Account F32) (fc : FeeConfig F32) (q : F32) (hm : NotBelowZero fc.minimumFee)
    (hff : IsFin fc.fixedFee) (hf0 : 0 ≤ toQ fc.fixedFee) (hfr : IsFin fc.relativeFee)
    (hr0 : 0 ≤ toQ fc.relativeFee) (hq : IsFin q) (hq0 : 0 ≤ toQ q) (h : IsFin (a.getFee fc q)) :
    ∃ W : ℚ, 0 ≤ W ∧ toQ fc.minimumFee ≤ W ∧
      toQ fc.fixedFee + toQ q * toQ fc.relativeFee ≤ W + 4 * W / 16777216 + 4 * tinyQ ∧
      (W = toQ fc.minimumFee ∨
        W ≤ toQ fc.fixedFee + toQ q * toQ fc.relativeFee +
          3 * (toQ fc.fixedFee + toQ q * toQ fc.relativeFee) / 16777216 + 3 * tinyQ) ∧
      W - 3 * W / 16777216 - tinyQ * (1 + 2 * |toQ a.quoteUnit|) ≤ toQ (a.getFee fc q) ∧
      toQ (a.getFee fc q) ≤ W + 3 * W / 16777216 + 17 / 16 * |toQ a.quoteUnit| +
        tinyQ * (1 + 2 * |toQ a.quoteUnit|) := by
  have ht := tinyQ_pos
  have hqr : 0 ≤ toQ q * toQ fc.relativeFee := mul_nonneg hq0 hr0
  unfold Account.getFee at h ⊢
  have hfW : IsFin (fmax fc.minimumFee (fc.fixedFee +. q *. fc.relativeFee)) := by
    revert h
    generalize fmax fc.minimumFee (fc.fixedFee +. q *. fc.relativeFee) = w
    intro h
    unfold ceilUnit at h
    split at h
    · obtain ⟨hfu, hfr, -⟩ := Fl.mul_err (a := a.quoteUnit) (b := FloatOps.ceil (w /. a.quoteUnit)) h
      exact (Fl.div_err (a := w) hfu (Fl.ceil_spec (x := w /. a.quoteUnit) hfr).1).1
    · exact h
  have hm' : 0 ≤ toQ fc.minimumFee := by
    cases hmm : fc.minimumFee with
    | nan => simp [toQ]
    | inf s => simp [toQ]
    | negZero => simp [toQ]
    | fin z =>
      have := notBelow_toQ (x := fc.minimumFee) (by rw [hmm]; trivial) hm
      rwa [hmm] at this
  have key : 0 ≤ toQ (fmax fc.minimumFee (fc.fixedFee +. q *. fc.relativeFee)) ∧
      toQ fc.minimumFee ≤ toQ (fmax fc.minimumFee (fc.fixedFee +. q *. fc.relativeFee)) ∧
      (toQ fc.fixedFee + toQ q * toQ fc.relativeFee ≤
        toQ (fmax fc.minimumFee (fc.fixedFee +. q *. fc.relativeFee)) +
        4 * toQ (fmax fc.minimumFee (fc.fixedFee +. q *. fc.relativeFee)) / 16777216 + 4 * tinyQ) ∧
      (toQ (fmax fc.minimumFee (fc.fixedFee +. q *. fc.relativeFee)) = toQ fc.minimumFee ∨
        toQ (fmax fc.minimumFee (fc.fixedFee +. q *. fc.relativeFee)) ≤
          toQ fc.fixedFee + toQ q * toQ fc.relativeFee +
          3 * (toQ fc.fixedFee + toQ q * toQ fc.relativeFee) / 16777216 + 3 * tinyQ) := by
    have hmul := rounds_mul hq hfr hqr
    have hPn := mul_fl_nonneg hq hfr hqr
    generalize (q *. fc.relativeFee) = P at *
    have hsum : Rounds (toQ fc.fixedFee + toQ P) (fc.fixedFee +. P) ∧ IsFin P ∧
        |toQ P - toQ q * toQ fc.relativeFee| ≤ toQ q * toQ fc.relativeFee / 16777216 + tinyQ ∧ 0 ≤ toQ P := by
      rcases hmul with ⟨h1, h2⟩ | ⟨h1, -⟩
      · have hP0 := hPn h1
        exact ⟨rounds_add hff h1 (by linarith), h1, h2, hP0⟩
      · exfalso
        rw [h1] at hfW
        have : (fc.fixedFee +. (.inf false : F32)) = .inf false := by
          show Fl.add fc.fixedFee (.inf false) = _
          cases hx : fc.fixedFee <;> rw [hx] at hff <;> first | exact hff.elim | rfl
        rw [this] at hfW
        unfold fmax at hfW
        change IsFin (if Fl.lt fc.minimumFee (.inf false) = true then _ else _) at hfW
        split at hfW
        · exact hfW
        · cases hx : fc.minimumFee <;> simp_all [IsFin]
    obtain ⟨hsum, hPf, hPe, hP0⟩ := hsum
    generalize (fc.fixedFee +. P) = Y at *
    rcases hsum with ⟨hY, hYe⟩ | ⟨rfl, -⟩
    swap
    · exfalso
      unfold fmax at hfW
      change IsFin (if Fl.lt fc.minimumFee (.inf false) = true then _ else _) at hfW
      split at hfW
      · exact hfW
      · cases hx : fc.minimumFee <;> simp_all [IsFin]
    obtain ⟨p1, p2⟩ := abs_le.mp hPe
    obtain ⟨y1, y2⟩ := abs_le.mp hYe
    unfold fmax at hfW ⊢
    by_cases hc : (fc.minimumFee <. Y) = true
    · rw [if_pos hc] at hfW ⊢
      have hmy : toQ fc.minimumFee ≤ toQ Y := by
        cases hx : fc.minimumFee with
        | nan => rw [hx] at hc; change Fl.lt .nan Y = true at hc; simp at hc
        | inf s =>
          rw [hx] at hc hm
          change Fl.lt (.inf s) Y = true at hc
          unfold NotBelowZero at hm
          rw [lit0] at hm
          change Fl.lt (.inf s) (.fin 0) = false at hm
          cases s <;> cases Y <;> simp_all
        | negZero => exact ((Fl.lt_iff (a := (.negZero : F32)) trivial hY).mp (by rw [hx] at hc; exact hc)).le
        | fin z => exact ((Fl.lt_iff (a := (.fin z : F32)) trivial hY).mp (by rw [hx] at hc; exact hc)).le
      generalize toQ q * toQ fc.relativeFee = qr at *
      generalize toQ P = P' at *
      refine ⟨by linarith, hmy, by linarith, .inr (by linarith)⟩
    · rw [if_neg hc] at hfW ⊢
      have hmy : toQ Y ≤ toQ fc.minimumFee :=
        (Fl.lt_eq_false_iff (a := fc.minimumFee) (b := Y) hfW hY).mp (Bool.not_eq_true _ ▸ hc)
      generalize toQ q * toQ fc.relativeFee = qr at *
      generalize toQ P = P' at *
      refine ⟨hm', le_rfl, by linarith, .inl rfl⟩
  obtain ⟨k0, k1, k2, k3⟩ := key
  obtain ⟨-, c1, c2, -⟩ := ceilUnit_close (u := a.quoteUnit) k0 h
  exact ⟨_, k0, k1, k2, k3, c1, c2⟩

theorem floorUnit_fin {u x : F32} (h : IsFin (floorUnit x u)) : IsFin x := (floorUnit_upper h).1

/-- If the amount computed from `A / p` is a number, then `A` is not NaN. -/
theorem quotient_ne_nan {A p m : F32} (h : IsFin (fmin (A /. p) m)) : A ≠ .nan := by
  rintro rfl
  have e : ((.nan : F32) /. p) = .nan := by
    show Fl.div .nan p = .nan
    cases p <;> rfl
  rw [e] at h
  unfold fmin at h
  change IsFin (if Fl.lt m .nan = true then _ else _) at h
  cases m <;> simp [IsFin] at h

theorem maxBase_lt_top (a : Account F32) (t : OhlcTick F32) (ty : OrderType) :
    IsFin (if ty = .limit then a.maxBaseAmount t else FloatOps.maxFinite) →
    toQ (if ty = .limit then a.maxBaseAmount t else FloatOps.maxFinite) < 2 ^ 128 := by
  have hmax : toQ (FloatOps.maxFinite : F32) < 2 ^ 128 := by decide +kernel
  split_ifs with h
  swap
  · exact fun _ => hmax
  intro hf
  unfold Account.maxBaseAmount at hf ⊢
  split_ifs at hf ⊢ with h1
  swap
  · exact hmax
  unfold floorUnit at hf ⊢
  split_ifs at hf ⊢ with h2
  · exact lt_of_le_of_lt (le_abs_self _) (mul_lt_top hf)
  · exact lt_of_le_of_lt (le_abs_self _) (mul_lt_top hf)

/-- A value that is not NaN, not below zero and not above a number is a number. -/
theorem fin_of_bounded {x y : F32} (hx : IsFin x) (h0 : NotBelowZero y) (hn : y ≠ .nan)
    (h : (x <. y) = false) : IsFin y := by
  unfold NotBelowZero at h0
  rw [lit0] at h0
  change Fl.lt y (.fin 0) = false at h0
  change Fl.lt x y = false at h
  cases y with
  | fin z => trivial
  | negZero => trivial
  | nan => exact absurd rfl hn
  | inf s =>
    cases s
    · cases x with
      | fin z => simp at h
      | negZero => exact absurd h (by decide)
      | nan => exact hx.elim
      | inf s => exact hx.elim
    · simp at h0

/-- `BuyAtQuote` in binary32. -/
theorem buyAtQuote_float (a a' : Account F32) (fc : FeeConfig F32) (x p m : F32) (hg : FloatOnGrid a)
    (hu : SaneUnits a) (hn : Numbers a) (hd : NoDebt a) (hn' : Numbers a')
    (hm : NotBelowZero fc.minimumFee) (hff : IsFin fc.fixedFee) (hf0 : 0 ≤ toQ fc.fixedFee)
    (hfr : IsFin fc.relativeFee) (hr0 : 0 ≤ toQ fc.relativeFee) (hr1 : toQ fc.relativeFee ≤ 1)
    (hmt : IsFin m → toQ m < 2 ^ 128)
    (h : a.buyAtQuote fc x p m = .ok (true, a')) :
    toQ a.quoteBalance - toQ a'.quoteBalance ≤
      toQ x + 4 * toQ a.quoteUnit + toQ a.quoteBalance / 2 ^ 17 + underflow a (toQ p) := by
  obtain ⟨-, hx0, h⟩ := a.buyAtQuote_cases h
  rcases h with ⟨h, -⟩ | ⟨x', fee, b, hx', hfee, hb, -, hbal, hlef, -, h⟩
  · cases h
  obtain ⟨-, hb0, -⟩ := a.buyBase_cases h
  obtain ⟨hfb, hp, hp0, hfM, q, fee2, hq, hfee2, hM0, hfq, hffee2, hq0, hfee20, hsp⟩ :=
    buy_spent a a' fc b p hg hu hn hd hn' hm h
  have ht := tinyQ_pos
  have hfbb := fin_of_round hfb
  have hb0' : 0 ≤ toQ b := notBelow_toQ hfbb (SignLaws.not_lt_of_le _ _ hb0)
  have hA : (x' -. fee) ≠ .nan := quotient_ne_nan (p := p) (m := m) (floorUnit_fin (u := a.baseUnit) (hb ▸ hfbb))
  -- the rounded amount and the estimated fee are numbers
  have hxn : NotBelowZero x' := hx' ▸ roundUnit_notBelow' (SignLaws.not_lt_of_le _ _ hx0)
  have hfn : NotBelowZero fee := hfee ▸ getFee_notBelow a fc x' hm
  have hxfin : IsFin x' := fin_of_bounded hn.quote hxn (fun hc => hA (by rw [hc]; rfl)) hbal
  have hffin : IsFin fee := by
    refine fin_of_bounded hxfin hfn (fun hc => hA (by rw [hc]; show Fl.sub x' .nan = _; cases x' <;> rfl)) ?_
    by_contra hc
    rw [Bool.not_eq_false] at hc
    have := SignLaws.le_of_lt (F := F32) _ _ hc
    change Fl.le x' fee = false at hlef
    change Fl.le x' fee = true at this
    rw [this] at hlef; cases hlef
  have hx'0 := notBelow_toQ hxfin hxn
  have hfee0 := notBelow_toQ hffin hfn
  have hxf : IsFin x := fin_of_round (hx' ▸ hxfin)
  have hX0 : 0 ≤ toQ x := notBelow_toQ hxf (SignLaws.not_lt_of_le _ _ hx0)
  have hxr := (roundUnit_half (u := a.quoteUnit) hX0 (hx' ▸ hxfin)).2
  rw [← hx'] at hxr
  have hxQ : toQ x' ≤ toQ a.quoteBalance :=
    (Fl.lt_eq_false_iff (a := a.quoteBalance) (b := x') hn.quote hxfin).mp hbal
  have hs : 0 ≤ toQ x' - toQ fee := by
    by_contra hc
    push Not at hc
    have : Fl.le x' fee = true := by
      have h1 := (Fl.lt_iff (a := x') (b := fee) hxfin hffin).mpr (by linarith)
      exact SignLaws.le_of_lt (F := F32) _ _ h1
    change Fl.le x' fee = false at hlef
    rw [this] at hlef; cases hlef
  have hcap := quote_cap (m := m) (bu := a.baseUnit) hs (rounds_sub hxfin hffin hs) hp hp0 hmt hu.base.2
    (hb ▸ hb0') (hb ▸ hfb) (hb ▸ hfM)
  rw [← hb] at hcap
  obtain ⟨-, -, hqu, -⟩ := ceilUnit_close (u := a.quoteUnit) hM0 (hq ▸ hfq)
  rw [← hq] at hqu
  obtain ⟨W1, w10, w1m, w1l, -, f1, -⟩ := fee_shape a fc x' hm hff hf0 hfr hr0 hxfin hx'0 (hfee ▸ hffin)
  obtain ⟨W2, w20, -, -, w2u, -, f2⟩ := fee_shape a fc q hm hff hf0 hfr hr0 hfq hq0 (hfee2 ▸ hffee2)
  rw [← hfee] at f1
  rw [← hfee2] at f2
  have hmono : toQ q ≤ toQ x' → toQ fee2 ≤ toQ fee := fun hle => by
    rw [hfee2] at hffee2 ⊢
    rw [hfee] at hffin ⊢
    have hmn : fc.minimumFee ≠ .nan := by
      intro hnan
      unfold Account.getFee at hffin
      rw [hnan] at hffin
      have : fmax (.nan : F32) (fc.fixedFee +. x' *. fc.relativeFee) = .nan := by
        unfold fmax
        generalize (fc.fixedFee +. x' *. fc.relativeFee) = y
        change (if Fl.lt .nan y = true then _ else _) = _
        cases y <;> simp
      rw [this] at hffin
      unfold ceilUnit at hffin
      split at hffin
      · obtain ⟨hfu, hfr', -⟩ := Fl.mul_err (a := a.quoteUnit) (b := FloatOps.ceil ((.nan : F32) /. a.quoteUnit)) hffin
        exact (Fl.div_err (a := .nan) hfu (Fl.ceil_spec (x := (.nan : F32) /. a.quoteUnit) hfr').1).1
      · exact hffin
    exact Fl.Le.toQ_le hffee2 hffin
      (C08_fee_mono_float (by decide) a fc q x' hfr hr0 hff hmn hu.quote.1 hfq hxfin hle)
  have hrel : toQ x' ≤ toQ q → toQ q * toQ fc.relativeFee ≤ toQ x' * toQ fc.relativeFee + (toQ q - toQ x') := by
    intro hle
    have := mul_le_mul_of_nonneg_left hr1 (sub_nonneg.mpr hle)
    have e : (toQ q - toQ x') * toQ fc.relativeFee = toQ q * toQ fc.relativeFee - toQ x' * toQ fc.relativeFee := by
      ring
    rw [e] at this
    linarith
  have hxrel : 0 ≤ toQ x' * toQ fc.relativeFee := mul_nonneg hx'0 hr0
  have uq := hu.quote.2
  have ub := hu.base.2
  rw [abs_of_nonneg uq] at hxr hqu f1 f2
  unfold underflow
  generalize toQ (roundUnit b a.baseUnit *. p) = M at *
  generalize toQ q * toQ fc.relativeFee = qr at *
  generalize toQ x' * toQ fc.relativeFee = xr at *
  generalize toQ x' = X' at *
  generalize toQ fee = e1 at *
  generalize toQ fee2 = e2 at *
  generalize toQ q = q' at *
  generalize toQ x = X at *
  generalize toQ a.quoteBalance = Q at *
  generalize toQ a'.quoteBalance = Q' at *
  generalize toQ fc.minimumFee = mf at *
  generalize toQ fc.fixedFee = ff at *
  have hH : (1 : ℚ) / 2 ^ 140 = 1024 * tinyQ := by unfold tinyQ; norm_num
  have hun : (1 + toQ p) * (1 + toQ a.baseUnit + toQ a.quoteUnit) / 2 ^ 140 =
      1024 * (tinyQ + tinyQ * toQ a.baseUnit + tinyQ * toQ a.quoteUnit + tinyQ * toQ p +
        tinyQ * (toQ p * toQ a.baseUnit) + tinyQ * (toQ p * toQ a.quoteUnit)) := by
    rw [div_eq_mul_one_div, hH]; ring
  rw [hun]
  have g1 : 0 ≤ tinyQ * toQ a.baseUnit := by positivity
  have g2 : 0 ≤ tinyQ * toQ a.quoteUnit := by positivity
  have g3 : 0 ≤ tinyQ * toQ p := by positivity
  have g4 : 0 ≤ tinyQ * (toQ p * toQ a.baseUnit) := by positivity
  have g5 : 0 ≤ tinyQ * (toQ p * toQ a.quoteUnit) := by positivity
  have e3 : tinyQ * (1 + 2 * toQ a.quoteUnit) = tinyQ + 2 * (tinyQ * toQ a.quoteUnit) := by ring
  rw [e3] at hxr hqu f1 f2
  generalize tinyQ * (toQ p * toQ a.baseUnit) = t4 at *
  generalize tinyQ * (toQ p * toQ a.quoteUnit) = t5 at *
  generalize tinyQ * toQ a.quoteUnit = t2 at *
  generalize tinyQ * toQ p = t3 at *
  generalize tinyQ * toQ a.baseUnit = t1 at *
  generalize toQ a.quoteUnit = U at *
  obtain ⟨x1, x2⟩ := abs_le.mp hxr
  norm_num at *
  rcases le_total q' X' with hle | hle
  · have := hmono hle
    linarith
  · have := hrel hle
    rcases w2u with rfl | w2u <;> linarith

/-- `SellAtQuote` in binary32. -/
theorem sellAtQuote_float (a a' : Account F32) (fc : FeeConfig F32) (x p m : F32) (hg : FloatOnGrid a)
    (hu : SaneUnits a) (hn : Numbers a) (hd : NoDebt a) (hn' : Numbers a')
    (hm : NotBelowZero fc.minimumFee) (hff : IsFin fc.fixedFee)
    (hfr : IsFin fc.relativeFee) (hr0 : 0 ≤ toQ fc.relativeFee)
    (hmt : IsFin m → toQ m < 2 ^ 128) (hxfin : IsFin (roundUnit x a.quoteUnit))
    (h : a.sellAtQuote fc x p m = .ok (true, a')) :
    toQ a'.quoteBalance - toQ a.quoteBalance ≤
      toQ x + 33 / 64 * toQ a.quoteUnit + worth a (toQ p) / 2 ^ 17 + underflow a (toQ p) := by
  obtain ⟨-, hx0, h⟩ := a.sellAtQuote_cases h
  rcases h with ⟨h, -⟩ | ⟨x', fee, b, hx', hfee, hb, -, -, h⟩
  · cases h
  obtain ⟨-, hb0, -⟩ := a.sellBase_cases h
  obtain ⟨hfb, hp, hp0, hfM, q, fee2, hq, hfee2, hM0, hMw, hfq, hffee2, hq0, hfee20, hfq2, hqM, hcr⟩ :=
    sell_credited a a' fc b p hg hu hn hd hn' hm h
  rw [← hx'] at hxfin
  have ht := tinyQ_pos
  have hfbb := fin_of_round hfb
  have hb0' : 0 ≤ toQ b := notBelow_toQ hfbb (SignLaws.not_lt_of_le _ _ hb0)
  have hxn : NotBelowZero x' := hx' ▸ roundUnit_notBelow' (SignLaws.not_lt_of_le _ _ hx0)
  have hfn : NotBelowZero fee := hfee ▸ getFee_notBelow a fc x' hm
  have hx'0 := notBelow_toQ hxfin hxn
  have hxf : IsFin x := fin_of_round (hx' ▸ hxfin)
  have hX0 : 0 ≤ toQ x := notBelow_toQ hxf (SignLaws.not_lt_of_le _ _ hx0)
  have hxr := (roundUnit_half (u := a.quoteUnit) hX0 (hx' ▸ hxfin)).2
  rw [← hx'] at hxr
  have hw0 : 0 ≤ worth a (toQ p) := add_nonneg (mul_nonneg hd.base hp0.le) hd.quote
  have hmn : fc.minimumFee ≠ .nan := by
    intro hnan
    rw [hfee2] at hffee2
    unfold Account.getFee at hffee2
    rw [hnan] at hffee2
    have : fmax (.nan : F32) (fc.fixedFee +. q *. fc.relativeFee) = .nan := by
      unfold fmax
      generalize (fc.fixedFee +. q *. fc.relativeFee) = y
      change (if Fl.lt .nan y = true then _ else _) = _
      cases y <;> simp
    rw [this] at hffee2
    unfold ceilUnit at hffee2
    split at hffee2
    · obtain ⟨hfu, hfr', -⟩ := Fl.mul_err (a := a.quoteUnit) (b := FloatOps.ceil ((.nan : F32) /. a.quoteUnit)) hffee2
      exact (Fl.div_err (a := .nan) hfu (Fl.ceil_spec (x := (.nan : F32) /. a.quoteUnit) hfr').1).1
    · exact hffee2
  have hgt : toQ x' ≤ toQ q → IsFin fee ∧ toQ fee ≤ toQ fee2 ∧ 0 ≤ toQ fee ∧
      toQ (roundUnit b a.baseUnit *. p) ≤ toQ x' + toQ fee + 24 * (toQ x' + toQ fee) / 16777216 +
        16 * (tinyQ + tinyQ * toQ p + tinyQ * (toQ p * toQ a.baseUnit)) := by
    intro hle
    have hL := C08_fee_mono_float (by decide) a fc x' q hfr hr0 hff hmn hu.quote.1 hxfin hfq hle
    rw [← hfee, ← hfee2] at hL
    have hffin := fin_of_bounded hffee2 hfn hL.1 hL.2.2
    have hfee0 := notBelow_toQ hffin hfn
    refine ⟨hffin, hL.toQ_le hffin hffee2, hfee0, ?_⟩
    have hs : 0 ≤ toQ x' + toQ fee := by linarith
    have hcap := quote_cap (m := m) (bu := a.baseUnit) hs (rounds_add hxfin hffin hs) hp hp0 hmt hu.base.2
      (hb ▸ hb0') (hb ▸ hfb) (hb ▸ hfM)
    rw [← hb] at hcap
    exact hcap
  have uq := hu.quote.2
  have ub := hu.base.2
  rw [abs_of_nonneg uq] at hxr
  unfold underflow
  generalize worth a (toQ p) = w at *
  generalize toQ (roundUnit b a.baseUnit *. p) = M at *
  generalize toQ x' = X' at *
  generalize toQ fee = e1 at *
  generalize toQ fee2 = e2 at *
  generalize toQ q = q' at *
  generalize toQ x = X at *
  generalize toQ a.quoteBalance = Q at *
  generalize toQ a'.quoteBalance = Q' at *
  have hH : (1 : ℚ) / 2 ^ 140 = 1024 * tinyQ := by unfold tinyQ; norm_num
  have hun : (1 + toQ p) * (1 + toQ a.baseUnit + toQ a.quoteUnit) / 2 ^ 140 =
      1024 * (tinyQ + tinyQ * toQ a.baseUnit + tinyQ * toQ a.quoteUnit + tinyQ * toQ p +
        tinyQ * (toQ p * toQ a.baseUnit) + tinyQ * (toQ p * toQ a.quoteUnit)) := by
    rw [div_eq_mul_one_div, hH]; ring
  rw [hun]
  have g1 : 0 ≤ tinyQ * toQ a.baseUnit := by positivity
  have g2 : 0 ≤ tinyQ * toQ a.quoteUnit := by positivity
  have g3 : 0 ≤ tinyQ * toQ p := by positivity
  have g4 : 0 ≤ tinyQ * (toQ p * toQ a.baseUnit) := by positivity
  have g5 : 0 ≤ tinyQ * (toQ p * toQ a.quoteUnit) := by positivity
  have e3 : tinyQ * (1 + 2 * toQ a.quoteUnit) = tinyQ + 2 * (tinyQ * toQ a.quoteUnit) := by ring
  rw [e3] at hxr hqM
  generalize tinyQ * (toQ p * toQ a.baseUnit) = t4 at *
  generalize tinyQ * (toQ p * toQ a.quoteUnit) = t5 at *
  generalize tinyQ * toQ a.quoteUnit = t2 at *
  generalize tinyQ * toQ p = t3 at *
  generalize tinyQ * toQ a.baseUnit = t1 at *
  generalize toQ a.quoteUnit = U at *
  obtain ⟨x1, x2⟩ := abs_le.mp hxr
  norm_num at hcr hqM hfq2 hMw hgt x1 x2 ⊢
  rcases le_total q' X' with hle | hle
  · rcases le_total X (2 * w) with hw | hw <;> linarith
  · obtain ⟨-, k1, k2, k3⟩ := hgt hle
    rcases le_total X (2 * w) with hw | hw <;> linarith

/-- **C86** (buy orders given as a quote amount, in binary32). Whatever the rounding errors, a buy order for
`x` costs, fee included, at most `x` plus four quote units plus a 2^-17 part of the quote balance (plus what
underflow can do). -/
theorem C86_buy_at_quote_float (a a' : Account F32) (c : AccountConfig F32) (o : Order F32) (t : OhlcTick F32)
    (ty : OrderType) (x : F32) (hty : o.type = some ty) (hsd : o.side = some .buy) (ho : o.amount = .quote x)
    (hg : FloatOnGrid a) (hu : SaneUnits a) (hn : Numbers a) (hd : NoDebt a) (hn' : Numbers a')
    (hm : NotBelowZero (feeFor c ty).minimumFee)
    (hff : IsFin (feeFor c ty).fixedFee) (hf0 : 0 ≤ toQ (feeFor c ty).fixedFee)
    (hfr : IsFin (feeFor c ty).relativeFee) (hr0 : 0 ≤ toQ (feeFor c ty).relativeFee)
    (hr1 : toQ (feeFor c ty).relativeFee ≤ 1)
    (h : a.executeOrder c o t = .ok (true, a')) :
    toQ a.quoteBalance - toQ a'.quoteBalance ≤ toQ x + 4 * toQ a.quoteUnit + toQ a.quoteBalance / 2 ^ 17 +
      underflow a (toQ (execPrice a.marketLiquidity t o.getPrice ty .buy)) := by
  have hv : ValidOrder o := by
    by_contra hv
    rw [Account.executeOrder_invalid a c o t hv] at h; cases h
  rw [Account.executeOrder_valid a c o t hv hty hsd] at h
  split_ifs at h with hr
  · cases h
  rw [ho] at h
  exact buyAtQuote_float a a' _ x _ _ hg hu hn hd hn' hm hff hf0 hfr hr0 hr1 (maxBase_lt_top a t ty) h

/-- **C86** (sell orders given as a quote amount, in binary32). A sell order for `x` credits, after the fee,
at most `x` plus a little more than half a quote unit plus a 2^-17 part of the account's worth (plus what
underflow can do).  The amount must be expressible in quote units without overflow. -/
theorem C86_sell_at_quote_float (a a' : Account F32) (c : AccountConfig F32) (o : Order F32) (t : OhlcTick F32)
    (ty : OrderType) (x : F32) (hty : o.type = some ty) (hsd : o.side = some .sell) (ho : o.amount = .quote x)
    (hg : FloatOnGrid a) (hu : SaneUnits a) (hn : Numbers a) (hd : NoDebt a) (hn' : Numbers a')
    (hm : NotBelowZero (feeFor c ty).minimumFee)
    (hff : IsFin (feeFor c ty).fixedFee)
    (hfr : IsFin (feeFor c ty).relativeFee) (hr0 : 0 ≤ toQ (feeFor c ty).relativeFee)
    (hx : IsFin (roundUnit x a.quoteUnit))
    (h : a.executeOrder c o t = .ok (true, a')) :
    toQ a'.quoteBalance - toQ a.quoteBalance ≤ toQ x + 33 / 64 * toQ a.quoteUnit +
      worth a (toQ (execPrice a.marketLiquidity t o.getPrice ty .sell)) / 2 ^ 17 +
      underflow a (toQ (execPrice a.marketLiquidity t o.getPrice ty .sell)) := by
  have hv : ValidOrder o := by
    by_contra hv
    rw [Account.executeOrder_invalid a c o t hv] at h; cases h
  rw [Account.executeOrder_valid a c o t hv hty hsd] at h
  split_ifs at h with hr
  · cases h
  rw [ho] at h
  exact sellAtQuote_float a a' _ x _ _ hg hu hn hd hn' hm hff hfr hr0 (maxBase_lt_top a t ty) hx h

/-! ### Non-vacuity -/

/-- The hypotheses of the two theorems hold for the limit buy for 400 and the stop sell for 100 of `exOrders`
(which execute, see `Props/FloatMoney.lean`), and the conclusions bound what they cost and credit. -/
example (a' : Account F32) (hn : Numbers a')
    (h : fmAcc.executeOrder (exCfg F32) ⟨some .limit, some .buy, .quote (lit F32 400), some (lit F32 41)⟩ (exTick F32) =
      .ok (true, a')) :
    toQ fmAcc.quoteBalance - toQ a'.quoteBalance < 404 := by
    have := C86_buy_at_quote_float fmAcc a' (exCfg F32) _ _ .limit _ rfl rfl rfl fmAcc_grid fmAcc_units
      fmAcc_numbers fmAcc_noDebt hn (by unfold NotBelowZero; decide +kernel) (by decide +kernel) (by decide +kernel)
      (by decide +kernel) (by decide +kernel) (by decide +kernel) h
    exact lt_of_le_of_lt this (by decide +kernel)

example (a' : Account F32) (hn : Numbers a')
    (h : fmAcc.executeOrder (exCfg F32) ⟨some .stop, some .sell, .quote (lit F32 100), some (lit F32 45)⟩ (exTick F32) =
      .ok (true, a')) :
    toQ a'.quoteBalance - toQ fmAcc.quoteBalance < 101 := by
    have := C86_sell_at_quote_float fmAcc a' (exCfg F32) _ _ .stop _ rfl rfl rfl fmAcc_grid fmAcc_units
      fmAcc_numbers fmAcc_noDebt hn (by unfold NotBelowZero; decide +kernel) (by decide +kernel)
      (by decide +kernel) (by decide +kernel) (by decide +kernel) h
    exact lt_of_le_of_lt this (by decide +kernel)

/-- A relative fee of 1/8 on 100 and on 101. -/
example : Fl.Le (fmAcc.getFee ⟨lit F32 (1/8), lit F32 0, lit F32 0⟩ (lit F32 100))
    (fmAcc.getFee ⟨lit F32 (1/8), lit F32 0, lit F32 0⟩ (lit F32 101)) :=
  C08_fee_mono_float (by decide) fmAcc _ _ _ (by decide +kernel) (by decide +kernel) (by decide +kernel)
    (by decide +kernel) (by decide +kernel) (by decide +kernel) (by decide +kernel) (by decide +kernel)

end Verif.Props
