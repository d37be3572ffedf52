import Verif.Props.Settlement
import Verif.Lemmas.FloatMoney

/-!
# C85: money in binary32

C04-C05 are statements about exact arithmetic.  Here the stored `float` balances themselves are added up
exactly (as rational numbers), and the rounding of the code is bounded.
-/

namespace Verif.Props
open FloatOps Spec FloatMoney
open Fl (toQ IsFin)

theorem nearGrid_of_near {u x : F32} (h : (lit F32 0 <. u) = true → NearMultiple u x) :
    NearGrid u x (4 * |toQ x| / 16777216 + 4 * tinyQ) := by
  intro hu
  obtain ⟨n, hn⟩ := h hu
  refine ⟨n, ?_⟩
  have e : (1 : ℚ) / 2 ^ 148 = 4 * tinyQ := by unfold tinyQ; norm_num
  rw [e] at hn
  norm_num at hn ⊢
  exact hn

/-- A correctly rounded multiple is near the grid. -/
theorem near_of_multiple {u x : F32} (h : FloatMultiple u x) : NearMultiple u x := by
  rcases h with rfl | ⟨s, rfl⟩ | rfl | ⟨n, rfl⟩
  · exact ⟨0, by simp [toQ]⟩
  · exact ⟨0, by simp [toQ]⟩
  · exact ⟨0, by simp [toQ]⟩
  · by_cases hx : IsFin (Fl.ofRat binary32 (n * toQ u))
    swap
    · refine ⟨0, ?_⟩
      have : toQ (Fl.ofRat binary32 (n * toQ u)) = 0 := by
        cases hc : Fl.ofRat binary32 (n * toQ u) <;> rw [hc] at hx <;> first | rfl | exact absurd trivial hx
      rw [this]; norm_num
    refine ⟨n, ?_⟩
    have ht := tinyQ_pos
    have e : (1 : ℚ) / 2 ^ 148 = 4 * tinyQ := by unfold tinyQ; norm_num
    have h1 := Fl.ofRat_err hx
    rw [err32] at h1
    have h2 := (abs_add_bound h1).2
    have := abs_nonneg (toQ (Fl.ofRat binary32 (n * toQ u)))
    rw [e]
    norm_num
    linarith

/-- Storing `x + y` or `x - y` (a sum or difference `s` with exact value `S`) rounded to the unit. -/
theorem stored {u s : F32} {S ex ey : ℚ} (hs : |toQ s - S| ≤ |S| / 16777216 + tinyQ)
    (hex : 0 ≤ ex) (hey : 0 ≤ ey)
    (hg : (lit F32 0 <. u) = true → ∃ N : ℤ, |S - N * toQ u| ≤ ex + ey)
    (h : IsFin (roundUnit s u)) :
    |toQ (roundUnit s u) - S| ≤ 4 * (ex + ey) + 10 * |S| / 16777216 + 10 * (tinyQ * (1 + |toQ u|)) := by
  have ht := tinyQ_pos
  have hS := abs_nonneg S
  have hng : NearGrid u s (|S| / 16777216 + tinyQ + (ex + ey)) := by
    intro hu
    obtain ⟨N, hN⟩ := hg hu
    refine ⟨N, ?_⟩
    have := abs_add_le (toQ s - S) (S - N * toQ u)
    have e : toQ s - S + (S - N * toQ u) = toQ s - N * toQ u := by ring
    rw [e] at this
    linarith
  obtain ⟨-, h1, -⟩ := roundUnit_close (by positivity) hng h
  have h2 := (abs_add_bound hs).1
  have h3 := abs_add_le (toQ (roundUnit s u) - toQ s) (toQ s - S)
  have e : toQ (roundUnit s u) - toQ s + (toQ s - S) = toQ (roundUnit s u) - S := by ring
  rw [e] at h3
  have h4 : 0 ≤ tinyQ * |toQ u| := by positivity
  have h5 : tinyQ * (1 + 4 * |toQ u|) = tinyQ + 4 * (tinyQ * |toQ u|) := by ring
  have h6 : tinyQ * (1 + |toQ u|) = tinyQ + tinyQ * |toQ u| := by ring
  rw [h5] at h1
  rw [h6]
  linarith

theorem grid_add {u : ℚ} {X Y ex ey : ℚ} (hx : ∃ N : ℤ, |X - N * u| ≤ ex) (hy : ∃ N : ℤ, |Y - N * u| ≤ ey) :
    ∃ N : ℤ, |X + Y - N * u| ≤ ex + ey := by
  obtain ⟨n, hn⟩ := hx
  obtain ⟨m, hm⟩ := hy
  refine ⟨n + m, ?_⟩
  have := abs_add_le (X - n * u) (Y - m * u)
  have e : X - n * u + (Y - m * u) = X + Y - ((n + m : ℤ) : ℚ) * u := by push_cast; ring
  rw [e] at this
  linarith

theorem grid_sub {u : ℚ} {X Y ex ey : ℚ} (hx : ∃ N : ℤ, |X - N * u| ≤ ex) (hy : ∃ N : ℤ, |Y - N * u| ≤ ey) :
    ∃ N : ℤ, |X - Y - N * u| ≤ ex + ey := by
  obtain ⟨m, hm⟩ := hy
  have := grid_add hx (Y := -Y) (ey := ey) ⟨-m, by
    have : -Y - ((-m : ℤ) : ℚ) * u = -(Y - m * u) := by push_cast; ring
    rw [this, abs_neg]; exact hm⟩
  simpa [sub_eq_add_neg] using this

theorem notBelow_toQ {x : F32} (hf : IsFin x) (h : NotBelowZero x) : 0 ≤ toQ x := by
  unfold NotBelowZero at h
  rw [lit0] at h
  exact (Fl.lt_eq_false_iff (b := .fin 0) hf trivial).mp h

theorem getFee_grid (a : Account F32) (fc : FeeConfig F32) (q : F32) (h : IsFin (a.getFee fc q)) :
    NearGrid a.quoteUnit (a.getFee fc q) (2 * |toQ (a.getFee fc q)| / 16777216 + 2 * tinyQ) := by
  unfold Account.getFee at h ⊢
  generalize fmax fc.minimumFee (fc.fixedFee +. q *. fc.relativeFee) = x at *
  unfold ceilUnit at h ⊢
  intro hu
  rw [if_pos hu] at h ⊢
  obtain ⟨hfu, hfr, -⟩ := Fl.mul_err (a := a.quoteUnit) (b := FloatOps.ceil (x /. a.quoteUnit)) h
  obtain ⟨hfd, hn⟩ := Fl.ceil_spec (x := x /. a.quoteUnit) hfr
  obtain ⟨-, -, hp1, hp2⟩ := prodErr (u := a.quoteUnit) (n := FloatOps.ceil (x /. a.quoteUnit)) hn h
  exact ⟨_, hp2⟩

theorem fin_of_round {x u : F32} (hx : IsFin (roundUnit x u)) : IsFin x := by
  unfold roundUnit at hx
  split at hx
  · obtain ⟨hfu, hfr, -⟩ := Fl.mul_err (a := u) (b := FloatOps.round (x /. u)) hx
    exact (Fl.div_err (a := x) hfu (Fl.round_spec (x := x /. u) hfr).1).1
  · exact hx

theorem round_grid {x u : F32} (fb : IsFin (roundUnit x u)) :
    NearGrid u (roundUnit x u) (2 * |toQ (roundUnit x u)| / 16777216 + 2 * tinyQ) := by
  intro hu1
  unfold roundUnit at fb ⊢
  rw [if_pos hu1] at fb ⊢
  obtain ⟨hfu, hfr, -⟩ := Fl.mul_err (a := u) (b := FloatOps.round (x /. u)) fb
  obtain ⟨-, n, hn, -⟩ := Fl.round_spec (x := x /. u) hfr
  exact ⟨n, (prodErr (u := u) (n := FloatOps.round (x /. u)) hn fb).2.2.2⟩

theorem mul_notBelow {p b : F32} (hp0 : (p >. lit F32 0) = true) (hb : NotBelowZero b) (fm : IsFin (b *. p)) :
    0 ≤ toQ (b *. p) := by
  refine notBelow_toQ fm ?_
  have := SignLaws.mul_not_neg p b hp0 hb
  have e : FloatOps.mul p b = FloatOps.mul b p := by
    obtain ⟨fb, fp, -⟩ := Fl.mul_err (a := b) (b := p) fm
    show Fl.mul p b = Fl.mul b p
    cases p <;> cases b <;> simp_all [Fl.mul, mul_comm, IsFin, Bool.xor_comm]
  rw [e] at this
  exact this

/-- What a buy does to the stored numbers, in binary32. -/
theorem buy_float (a a' : Account F32) (fc : FeeConfig F32) (b p : F32) (hg : FloatOnGrid a)
    (hu : SaneUnits a) (hn : Numbers a) (hd : NoDebt a) (hn' : Numbers a')
    (hm : NotBelowZero fc.minimumFee) (h : a.buyBase fc b p = .ok (true, a')) :
    IsFin p ∧ 0 < toQ p ∧
    worth a' (toQ p) ≤ worth a (toQ p) + worth a (toQ p) / 2 ^ 17 + underflow a (toQ p) ∧
    worth a' (toQ p) + (toQ a'.totalFee - toQ a.totalFee) ≤
      worth a (toQ p) + (worth a (toQ p) + toQ a.totalFee) / 2 ^ 17 + underflow a (toQ p) := by
  obtain ⟨hp0, hb0, hc⟩ := a.buyBase_cases h
  rcases hc with ⟨h, -⟩ | ⟨-, h1, q, fee, hq, hfee, h2, rfl⟩
  · cases h
  have ht := tinyQ_pos
  generalize hbr : roundUnit b a.baseUnit = b' at *
  obtain ⟨hB, hQ, hT⟩ := hn'
  simp only [Account.afterBuy] at hB hQ hT
  simp only [worth, Account.afterBuy]
  -- finiteness of everything on the way
  have hgB : NearGrid a.baseUnit a.baseBalance _ := nearGrid_of_near hg.base
  have hgQ : NearGrid a.quoteUnit a.quoteBalance _ := nearGrid_of_near hg.quote
  have hgT : NearGrid a.quoteUnit a.totalFee _ := nearGrid_of_near hg.fee
  obtain ⟨-, fb, eB⟩ := Fl.add_err (a := a.baseBalance) (b := b') (fin_of_round hB)
  obtain ⟨-, fs, eQ⟩ := Fl.sub_err (a := a.quoteBalance) (b := q +. fee) (fin_of_round hQ)
  obtain ⟨-, ffee, eT⟩ := Fl.add_err (a := a.totalFee) (b := fee) (fin_of_round hT)
  obtain ⟨fq, -, eS⟩ := Fl.add_err (a := q) (b := fee) fs
  have fee0 : 0 ≤ toQ fee := notBelow_toQ ffee (by rw [hfee]; exact getFee_notBelow a fc q hm)
  have nb : NotBelowZero b' := by
    rw [← hbr]
    exact roundUnit_notBelow' (SignLaws.not_lt_of_le _ _ hb0)
  have b0 : 0 ≤ toQ b' := notBelow_toQ fb nb
  have hgb : NearGrid a.baseUnit b' (2 * |toQ b'| / 16777216 + 2 * tinyQ) := by
    rw [← hbr] at fb ⊢; exact round_grid fb
  have hgf : NearGrid a.quoteUnit fee (2 * |toQ fee| / 16777216 + 2 * tinyQ) := by
    rw [hfee] at ffee ⊢; exact getFee_grid a fc q ffee
  have fm : IsFin (b' *. p) := by
    rw [hq] at fq
    unfold ceilUnit at fq
    split at fq
    · obtain ⟨hfu, hfr, -⟩ := Fl.mul_err (a := a.quoteUnit) (b := FloatOps.ceil ((b' *. p) /. a.quoteUnit)) fq
      exact (Fl.div_err (a := b' *. p) hfu (Fl.ceil_spec (x := (b' *. p) /. a.quoteUnit) hfr).1).1
    · exact fq
  obtain ⟨-, fp, eM⟩ := Fl.mul_err (a := b') (b := p) fm
  change |toQ (b' *. p) - _| ≤ _ at eM
  have p0 : 0 < toQ p := unit_pos fp hp0
  have bp0 : 0 ≤ toQ b' * toQ p := mul_nonneg b0 p0.le
  have m0 : 0 ≤ toQ (b' *. p) := mul_notBelow hp0 nb fm
  obtain ⟨-, hq1, -, hgq⟩ := ceilUnit_close (u := a.quoteUnit) m0 (by rw [← hq]; exact fq)
  rw [← hq] at hq1 hgq
  have hle : toQ (q +. fee) ≤ toQ a.quoteBalance :=
    (Fl.lt_eq_false_iff (a := a.quoteBalance) (b := q +. fee) hn.quote fs).mp h2
  rw [err32] at eB eQ eT eS eM
  change |toQ (a.baseBalance +. b') - _| ≤ _ at eB
  change |toQ (a.quoteBalance -. (q +. fee)) - _| ≤ _ at eQ
  change |toQ (a.totalFee +. fee) - _| ≤ _ at eT
  change |toQ (q +. fee) - _| ≤ _ at eS
  have q0' : 0 ≤ toQ q := by
    refine notBelow_toQ fq ?_
    rw [hq]
    unfold ceilUnit
    have hm0 : NotBelowZero (b' *. p) := by
      unfold NotBelowZero
      rw [lit0]
      exact (Fl.lt_eq_false_iff (b := .fin 0) fm trivial).mpr m0
    split
    · rename_i hu
      exact SignLaws.mul_not_neg _ _ hu (SignLaws.ceil_not_neg _ (SignLaws.div_not_neg _ _ hu hm0))
    · exact hm0
  have hgS : NearGrid a.quoteUnit (q +. fee) (3 * (toQ q + toQ fee) / 16777216 + 5 * tinyQ) := by
    intro hu1
    obtain ⟨N, hN⟩ := grid_add (hgq hu1) (hgf hu1)
    refine ⟨N, ?_⟩
    have := abs_add_le (toQ (q +. fee) - (toQ q + toQ fee)) (toQ q + toQ fee - N * toQ a.quoteUnit)
    have e : toQ (q +. fee) - (toQ q + toQ fee) + (toQ q + toQ fee - N * toQ a.quoteUnit) =
      toQ (q +. fee) - N * toQ a.quoteUnit := by ring
    rw [e] at this
    rw [abs_of_nonneg q0', abs_of_nonneg fee0] at hN
    rw [abs_of_nonneg (add_nonneg q0' fee0)] at eS
    linarith
  have sB := stored (u := a.baseUnit) eB (ex := 4 * |toQ a.baseBalance| / 16777216 + 4 * tinyQ)
    (ey := 2 * |toQ b'| / 16777216 + 2 * tinyQ) (by positivity) (by positivity)
    (fun h => grid_add (hgB h) (hgb h)) hB
  have sQ := stored (u := a.quoteUnit) eQ (ex := 4 * |toQ a.quoteBalance| / 16777216 + 4 * tinyQ)
    (ey := 3 * (toQ q + toQ fee) / 16777216 + 5 * tinyQ) (by positivity) (by positivity)
    (fun h => grid_sub (hgQ h) (hgS h)) hQ
  have sT := stored (u := a.quoteUnit) eT (ex := 4 * |toQ a.totalFee| / 16777216 + 4 * tinyQ)
    (ey := 2 * |toQ fee| / 16777216 + 2 * tinyQ) (by positivity) (by positivity)
    (fun h => grid_add (hgT h) (hgf h)) hT
  have dB := hd.base; have dQ := hd.quote; have dT := hd.fee
  have ub := hu.base.2; have uq := hu.quote.2
  unfold underflow
  rw [abs_of_nonneg dB, abs_of_nonneg b0, abs_of_nonneg (add_nonneg dB b0), abs_of_nonneg ub] at sB
  rw [abs_of_nonneg dQ, abs_of_nonneg (sub_nonneg.mpr hle), abs_of_nonneg uq] at sQ
  rw [abs_of_nonneg dT, abs_of_nonneg fee0, abs_of_nonneg (add_nonneg dT fee0), abs_of_nonneg uq] at sT
  rw [abs_of_nonneg (add_nonneg q0' fee0)] at eS
  rw [abs_of_nonneg bp0] at eM
  rw [abs_of_nonneg uq] at hq1
  generalize toQ (roundUnit (a.baseBalance +. b') a.baseUnit) = B' at *
  generalize toQ (roundUnit (a.quoteBalance -. (q +. fee)) a.quoteUnit) = Q' at *
  generalize toQ (roundUnit (a.totalFee +. fee) a.quoteUnit) = T' at *
  generalize toQ (q +. fee) = S at *
  generalize toQ (b' *. p) = M at *
  generalize toQ b' = bb at *
  generalize toQ p = P at *
  generalize toQ a.baseBalance = B at *
  generalize toQ a.quoteBalance = Q at *
  generalize toQ a.totalFee = T at *
  generalize toQ a.baseUnit = Ub at *
  generalize toQ a.quoteUnit = Uq at *
  generalize toQ q = q' at *
  generalize toQ fee = e at *
  refine ⟨fp, p0, ?_⟩
  have kB := mul_le_mul_of_nonneg_right (abs_le.mp sB).2 p0.le
  have kQ := (abs_le.mp sQ).2
  have kT := (abs_le.mp sT).2
  have kS := (abs_le.mp eS).1
  have kM := (abs_le.mp eM).1
  have hBP : 0 ≤ B * P := mul_nonneg dB p0.le
  -- underflow terms
  have hH : (1 : ℚ) / 2 ^ 140 = 1024 * tinyQ := by unfold tinyQ; norm_num
  have hun : (1 + P) * (1 + Ub + Uq) / 2 ^ 140 =
      1024 * (tinyQ + tinyQ * Ub + tinyQ * Uq + tinyQ * P + tinyQ * (P * Ub) + tinyQ * (P * Uq)) := by
    rw [div_eq_mul_one_div, hH]; ring
  rw [hun]
  have g1 : 0 ≤ tinyQ * Ub := by positivity
  have g2 : 0 ≤ tinyQ * Uq := by positivity
  have g3 : 0 ≤ tinyQ * P := by positivity
  have g4 : 0 ≤ tinyQ * (P * Ub) := by positivity
  have g5 : 0 ≤ tinyQ * (P * Uq) := by positivity
  have kB' : B' * P ≤ B * P + bb * P + (26 * (B * P) + 18 * (bb * P)) / 16777216 + 34 * (tinyQ * P) + 10 * (tinyQ * (P * Ub)) := by
    have e1 : (B' - (B + bb)) * P = B' * P - (B * P + bb * P) := by ring
    have e2 : (4 * (4 * B / 16777216 + 4 * tinyQ + (2 * bb / 16777216 + 2 * tinyQ)) + 10 * (B + bb) / 16777216 +
        10 * (tinyQ * (1 + Ub))) * P = (26 * (B * P) + 18 * (bb * P)) / 16777216 + 34 * (tinyQ * P) + 10 * (tinyQ * (P * Ub)) := by ring
    rw [e1, e2] at kB
    linarith
  generalize B * P = BP at *
  generalize bb * P = bP at *
  generalize tinyQ * (P * Ub) = t4 at *
  generalize tinyQ * (P * Uq) = t5 at *
  have e3 : tinyQ * (1 + 2 * Uq) = tinyQ + 2 * (tinyQ * Uq) := by ring
  have e4 : tinyQ * (1 + Uq) = tinyQ + tinyQ * Uq := by ring
  rw [e3] at hq1
  rw [e4] at kQ kT
  generalize tinyQ * Uq = t2 at *
  generalize tinyQ * P = t3 at *
  generalize tinyQ * Ub = t1 at *
  norm_num
  constructor <;> linarith

/-- What a sell does to the stored numbers, in binary32. -/
theorem sell_float (a a' : Account F32) (fc : FeeConfig F32) (b p : F32) (hg : FloatOnGrid a)
    (hu : SaneUnits a) (hn : Numbers a) (hd : NoDebt a) (hn' : Numbers a')
    (hm : NotBelowZero fc.minimumFee) (h : a.sellBase fc b p = .ok (true, a')) :
    IsFin p ∧ 0 < toQ p ∧
    worth a' (toQ p) ≤ worth a (toQ p) + worth a (toQ p) / 2 ^ 17 + underflow a (toQ p) ∧
    worth a' (toQ p) + (toQ a'.totalFee - toQ a.totalFee) ≤
      worth a (toQ p) + (worth a (toQ p) + toQ a.totalFee) / 2 ^ 17 + underflow a (toQ p) := by
  obtain ⟨hp0, hb0, hc⟩ := a.sellBase_cases h
  rcases hc with ⟨h, -⟩ | ⟨-, -, h1, q, fee, hq, hfee, h2, rfl⟩
  · cases h
  have ht := tinyQ_pos
  generalize hbr : roundUnit b a.baseUnit = b' at *
  obtain ⟨hB, hQ, hT⟩ := hn'
  simp only [Account.afterSell] at hB hQ hT
  simp only [worth, Account.afterSell]
  -- finiteness of everything on the way
  have hgB : NearGrid a.baseUnit a.baseBalance _ := nearGrid_of_near hg.base
  have hgQ : NearGrid a.quoteUnit a.quoteBalance _ := nearGrid_of_near hg.quote
  have hgT : NearGrid a.quoteUnit a.totalFee _ := nearGrid_of_near hg.fee
  obtain ⟨-, fb, eB⟩ := Fl.sub_err (a := a.baseBalance) (b := b') (fin_of_round hB)
  obtain ⟨-, fs, eQ⟩ := Fl.add_err (a := a.quoteBalance) (b := q -. fee) (fin_of_round hQ)
  obtain ⟨-, ffee, eT⟩ := Fl.add_err (a := a.totalFee) (b := fee) (fin_of_round hT)
  obtain ⟨fq, -, eS⟩ := Fl.sub_err (a := q) (b := fee) fs
  have fee0 : 0 ≤ toQ fee := notBelow_toQ ffee (by rw [hfee]; exact getFee_notBelow a fc q hm)
  have nb : NotBelowZero b' := by
    rw [← hbr]
    exact roundUnit_notBelow' (SignLaws.not_lt_of_le _ _ hb0)
  have b0 : 0 ≤ toQ b' := notBelow_toQ fb nb
  have hgb : NearGrid a.baseUnit b' (2 * |toQ b'| / 16777216 + 2 * tinyQ) := by
    rw [← hbr] at fb ⊢; exact round_grid fb
  have hgf : NearGrid a.quoteUnit fee (2 * |toQ fee| / 16777216 + 2 * tinyQ) := by
    rw [hfee] at ffee ⊢; exact getFee_grid a fc q ffee
  have fm : IsFin (b' *. p) := by
    rw [hq] at fq
    unfold floorUnit at fq
    split at fq
    · obtain ⟨hfu, hfr, -⟩ := Fl.mul_err (a := a.quoteUnit) (b := FloatOps.floor ((b' *. p) /. a.quoteUnit)) fq
      exact (Fl.div_err (a := b' *. p) hfu (Fl.floor_spec (x := (b' *. p) /. a.quoteUnit) hfr).1).1
    · exact fq
  obtain ⟨-, fp, eM⟩ := Fl.mul_err (a := b') (b := p) fm
  change |toQ (b' *. p) - _| ≤ _ at eM
  have p0 : 0 < toQ p := unit_pos fp hp0
  have bp0 : 0 ≤ toQ b' * toQ p := mul_nonneg b0 p0.le
  have m0 : 0 ≤ toQ (b' *. p) := mul_notBelow hp0 nb fm
  obtain ⟨-, hq1, -, hgq⟩ := floorUnit_close (u := a.quoteUnit) m0 (by rw [← hq]; exact fq)
  rw [← hq] at hq1 hgq
  have hbB : toQ b' ≤ toQ a.baseBalance :=
    (Fl.lt_eq_false_iff (a := a.baseBalance) (b := b') hn.base fb).mp h1
  have hs0 : toQ a.quoteUnit ≤ toQ (q -. fee) :=
    (Fl.lt_eq_false_iff (a := q -. fee) (b := a.quoteUnit) fs hu.quote.1).mp h2
  rw [err32] at eB eQ eT eS eM
  change |toQ (a.baseBalance -. b') - _| ≤ _ at eB
  change |toQ (a.quoteBalance +. (q -. fee)) - _| ≤ _ at eQ
  change |toQ (a.totalFee +. fee) - _| ≤ _ at eT
  change |toQ (q -. fee) - _| ≤ _ at eS
  have q0' : 0 ≤ toQ q := by
    refine notBelow_toQ fq ?_
    rw [hq]
    unfold floorUnit
    have hm0 : NotBelowZero (b' *. p) := by
      unfold NotBelowZero
      rw [lit0]
      exact (Fl.lt_eq_false_iff (b := .fin 0) fm trivial).mpr m0
    split
    · rename_i hu
      exact SignLaws.mul_not_neg _ _ hu (SignLaws.floor_not_neg _ (SignLaws.div_not_neg _ _ hu hm0))
    · exact hm0
  have hqe : |toQ q - toQ fee| ≤ toQ q + toQ fee := by
    rw [abs_le]; constructor <;> linarith
  have hgS : NearGrid a.quoteUnit (q -. fee) (3 * (toQ q + toQ fee) / 16777216 + 5 * tinyQ) := by
    intro hu1
    obtain ⟨N, hN⟩ := grid_sub (hgq hu1) (hgf hu1)
    refine ⟨N, ?_⟩
    have := abs_add_le (toQ (q -. fee) - (toQ q - toQ fee)) (toQ q - toQ fee - N * toQ a.quoteUnit)
    have e : toQ (q -. fee) - (toQ q - toQ fee) + (toQ q - toQ fee - N * toQ a.quoteUnit) =
      toQ (q -. fee) - N * toQ a.quoteUnit := by ring
    rw [e] at this
    rw [abs_of_nonneg q0', abs_of_nonneg fee0] at hN
    linarith
  have sB := stored (u := a.baseUnit) eB (ex := 4 * |toQ a.baseBalance| / 16777216 + 4 * tinyQ)
    (ey := 2 * |toQ b'| / 16777216 + 2 * tinyQ) (by positivity) (by positivity)
    (fun h => grid_sub (hgB h) (hgb h)) hB
  have sQ := stored (u := a.quoteUnit) eQ (ex := 4 * |toQ a.quoteBalance| / 16777216 + 4 * tinyQ)
    (ey := 3 * (toQ q + toQ fee) / 16777216 + 5 * tinyQ) (by positivity) (by positivity)
    (fun h => grid_add (hgQ h) (hgS h)) hQ
  have sT := stored (u := a.quoteUnit) eT (ex := 4 * |toQ a.totalFee| / 16777216 + 4 * tinyQ)
    (ey := 2 * |toQ fee| / 16777216 + 2 * tinyQ) (by positivity) (by positivity)
    (fun h => grid_add (hgT h) (hgf h)) hT
  have dB := hd.base; have dQ := hd.quote; have dT := hd.fee
  have ub := hu.base.2; have uq := hu.quote.2
  unfold underflow
  rw [abs_of_nonneg dB, abs_of_nonneg b0, abs_of_nonneg (sub_nonneg.mpr hbB), abs_of_nonneg ub] at sB
  rw [abs_of_nonneg dQ, abs_of_nonneg (add_nonneg dQ (uq.trans hs0)), abs_of_nonneg uq] at sQ
  rw [abs_of_nonneg dT, abs_of_nonneg fee0, abs_of_nonneg (add_nonneg dT fee0), abs_of_nonneg uq] at sT
  have eS := le_trans eS (add_le_add_left (div_le_div_of_nonneg_right hqe (by norm_num : (0 : ℚ) ≤ 16777216)) tinyQ)
  rw [abs_of_nonneg bp0] at eM
  rw [abs_of_nonneg uq] at hq1
  generalize toQ (roundUnit (a.baseBalance -. b') a.baseUnit) = B' at *
  generalize toQ (roundUnit (a.quoteBalance +. (q -. fee)) a.quoteUnit) = Q' at *
  generalize toQ (roundUnit (a.totalFee +. fee) a.quoteUnit) = T' at *
  generalize toQ (q -. fee) = S at *
  generalize toQ (b' *. p) = M at *
  generalize toQ b' = bb at *
  generalize toQ p = P at *
  generalize toQ a.baseBalance = B at *
  generalize toQ a.quoteBalance = Q at *
  generalize toQ a.totalFee = T at *
  generalize toQ a.baseUnit = Ub at *
  generalize toQ a.quoteUnit = Uq at *
  generalize toQ q = q' at *
  generalize toQ fee = e at *
  refine ⟨fp, p0, ?_⟩
  have kB := mul_le_mul_of_nonneg_right (abs_le.mp sB).2 p0.le
  have kQ := (abs_le.mp sQ).2
  have kT := (abs_le.mp sT).2
  have kS := (abs_le.mp eS).2
  have kS1 := (abs_le.mp eS).1
  have kM := (abs_le.mp eM).2
  have hBP : 0 ≤ B * P := mul_nonneg dB p0.le
  -- underflow terms
  have hH : (1 : ℚ) / 2 ^ 140 = 1024 * tinyQ := by unfold tinyQ; norm_num
  have hun : (1 + P) * (1 + Ub + Uq) / 2 ^ 140 =
      1024 * (tinyQ + tinyQ * Ub + tinyQ * Uq + tinyQ * P + tinyQ * (P * Ub) + tinyQ * (P * Uq)) := by
    rw [div_eq_mul_one_div, hH]; ring
  rw [hun]
  have g1 : 0 ≤ tinyQ * Ub := by positivity
  have g2 : 0 ≤ tinyQ * Uq := by positivity
  have g3 : 0 ≤ tinyQ * P := by positivity
  have g4 : 0 ≤ tinyQ * (P * Ub) := by positivity
  have g5 : 0 ≤ tinyQ * (P * Uq) := by positivity
  have hbP : bb * P ≤ B * P := mul_le_mul_of_nonneg_right hbB p0.le
  have kB' : B' * P ≤ B * P - bb * P + (26 * (B * P) - 2 * (bb * P)) / 16777216 + 34 * (tinyQ * P) + 10 * (tinyQ * (P * Ub)) := by
    have e1 : (B' - (B - bb)) * P = B' * P - (B * P - bb * P) := by ring
    have e2 : (4 * (4 * B / 16777216 + 4 * tinyQ + (2 * bb / 16777216 + 2 * tinyQ)) + 10 * (B - bb) / 16777216 +
        10 * (tinyQ * (1 + Ub))) * P = (26 * (B * P) - 2 * (bb * P)) / 16777216 + 34 * (tinyQ * P) + 10 * (tinyQ * (P * Ub)) := by ring
    rw [e1, e2] at kB
    linarith
  generalize B * P = BP at *
  generalize bb * P = bP at *
  generalize tinyQ * (P * Ub) = t4 at *
  generalize tinyQ * (P * Uq) = t5 at *
  have e3 : tinyQ * (1 + 2 * Uq) = tinyQ + 2 * (tinyQ * Uq) := by ring
  have e4 : tinyQ * (1 + Uq) = tinyQ + tinyQ * Uq := by ring
  rw [e3] at hq1
  rw [e4] at kQ kT
  generalize tinyQ * Uq = t2 at *
  generalize tinyQ * P = t3 at *
  generalize tinyQ * Ub = t1 at *
  norm_num
  constructor <;> linarith

/-- What a buy takes from the quote balance, in binary32. -/
theorem buy_spent (a a' : Account F32) (fc : FeeConfig F32) (b p : F32) (hg : FloatOnGrid a)
    (hu : SaneUnits a) (hn : Numbers a) (hd : NoDebt a) (hn' : Numbers a')
    (hm : NotBelowZero fc.minimumFee) (h : a.buyBase fc b p = .ok (true, a')) :
    IsFin (roundUnit b a.baseUnit) ∧ IsFin p ∧ 0 < toQ p ∧ IsFin (roundUnit b a.baseUnit *. p) ∧
    ∃ q fee, q = ceilUnit (roundUnit b a.baseUnit *. p) a.quoteUnit ∧ fee = a.getFee fc q ∧
      0 ≤ toQ (roundUnit b a.baseUnit *. p) ∧
      IsFin q ∧ IsFin fee ∧ 0 ≤ toQ q ∧ 0 ≤ toQ fee ∧
      toQ a.quoteBalance - toQ a'.quoteBalance ≤
        toQ q + toQ fee + 40 * toQ a.quoteBalance / 16777216 + 64 * (tinyQ + tinyQ * toQ a.quoteUnit) := by
  obtain ⟨hp0, hb0, hc⟩ := a.buyBase_cases h
  rcases hc with ⟨h, -⟩ | ⟨-, h1, q, fee, hq, hfee, h2, rfl⟩
  · cases h
  have ht := tinyQ_pos
  generalize hbr : roundUnit b a.baseUnit = b' at *
  obtain ⟨hB, hQ, hT⟩ := hn'
  simp only [Account.afterBuy] at hB hQ hT
  simp only [Account.afterBuy]
  -- finiteness of everything on the way
  have hgQ : NearGrid a.quoteUnit a.quoteBalance _ := nearGrid_of_near hg.quote
  obtain ⟨-, fb, eB⟩ := Fl.add_err (a := a.baseBalance) (b := b') (fin_of_round hB)
  obtain ⟨-, fs, eQ⟩ := Fl.sub_err (a := a.quoteBalance) (b := q +. fee) (fin_of_round hQ)
  obtain ⟨-, ffee, eT⟩ := Fl.add_err (a := a.totalFee) (b := fee) (fin_of_round hT)
  obtain ⟨fq, -, eS⟩ := Fl.add_err (a := q) (b := fee) fs
  have fee0 : 0 ≤ toQ fee := notBelow_toQ ffee (by rw [hfee]; exact getFee_notBelow a fc q hm)
  have nb : NotBelowZero b' := by
    rw [← hbr]
    exact roundUnit_notBelow' (SignLaws.not_lt_of_le _ _ hb0)
  have b0 : 0 ≤ toQ b' := notBelow_toQ fb nb
  have hgb : NearGrid a.baseUnit b' (2 * |toQ b'| / 16777216 + 2 * tinyQ) := by
    rw [← hbr] at fb ⊢; exact round_grid fb
  have hgf : NearGrid a.quoteUnit fee (2 * |toQ fee| / 16777216 + 2 * tinyQ) := by
    rw [hfee] at ffee ⊢; exact getFee_grid a fc q ffee
  have fm : IsFin (b' *. p) := by
    rw [hq] at fq
    unfold ceilUnit at fq
    split at fq
    · obtain ⟨hfu, hfr, -⟩ := Fl.mul_err (a := a.quoteUnit) (b := FloatOps.ceil ((b' *. p) /. a.quoteUnit)) fq
      exact (Fl.div_err (a := b' *. p) hfu (Fl.ceil_spec (x := (b' *. p) /. a.quoteUnit) hfr).1).1
    · exact fq
  obtain ⟨-, fp, eM⟩ := Fl.mul_err (a := b') (b := p) fm
  change |toQ (b' *. p) - _| ≤ _ at eM
  have p0 : 0 < toQ p := unit_pos fp hp0
  have bp0 : 0 ≤ toQ b' * toQ p := mul_nonneg b0 p0.le
  have m0 : 0 ≤ toQ (b' *. p) := mul_notBelow hp0 nb fm
  obtain ⟨-, hq1, -, hgq⟩ := ceilUnit_close (u := a.quoteUnit) m0 (by rw [← hq]; exact fq)
  rw [← hq] at hq1 hgq
  have hle : toQ (q +. fee) ≤ toQ a.quoteBalance :=
    (Fl.lt_eq_false_iff (a := a.quoteBalance) (b := q +. fee) hn.quote fs).mp h2
  rw [err32] at eB eQ eT eS eM
  change |toQ (a.baseBalance +. b') - _| ≤ _ at eB
  change |toQ (a.quoteBalance -. (q +. fee)) - _| ≤ _ at eQ
  change |toQ (a.totalFee +. fee) - _| ≤ _ at eT
  change |toQ (q +. fee) - _| ≤ _ at eS
  have q0' : 0 ≤ toQ q := by
    refine notBelow_toQ fq ?_
    rw [hq]
    unfold ceilUnit
    have hm0 : NotBelowZero (b' *. p) := by
      unfold NotBelowZero
      rw [lit0]
      exact (Fl.lt_eq_false_iff (b := .fin 0) fm trivial).mpr m0
    split
    · rename_i hu
      exact SignLaws.mul_not_neg _ _ hu (SignLaws.ceil_not_neg _ (SignLaws.div_not_neg _ _ hu hm0))
    · exact hm0
  have hgS : NearGrid a.quoteUnit (q +. fee) (3 * (toQ q + toQ fee) / 16777216 + 5 * tinyQ) := by
    intro hu1
    obtain ⟨N, hN⟩ := grid_add (hgq hu1) (hgf hu1)
    refine ⟨N, ?_⟩
    have := abs_add_le (toQ (q +. fee) - (toQ q + toQ fee)) (toQ q + toQ fee - N * toQ a.quoteUnit)
    have e : toQ (q +. fee) - (toQ q + toQ fee) + (toQ q + toQ fee - N * toQ a.quoteUnit) =
      toQ (q +. fee) - N * toQ a.quoteUnit := by ring
    rw [e] at this
    rw [abs_of_nonneg q0', abs_of_nonneg fee0] at hN
    rw [abs_of_nonneg (add_nonneg q0' fee0)] at eS
    linarith
  have sQ := stored (u := a.quoteUnit) eQ (ex := 4 * |toQ a.quoteBalance| / 16777216 + 4 * tinyQ)
    (ey := 3 * (toQ q + toQ fee) / 16777216 + 5 * tinyQ) (by positivity) (by positivity)
    (fun h => grid_sub (hgQ h) (hgS h)) hQ
  have dQ := hd.quote
  have uq := hu.quote.2
  rw [abs_of_nonneg dQ, abs_of_nonneg (sub_nonneg.mpr hle), abs_of_nonneg uq] at sQ
  rw [abs_of_nonneg (add_nonneg q0' fee0)] at eS
  refine ⟨fb, fp, p0, fm, q, fee, hq, hfee, m0, fq, ffee, q0', fee0, ?_⟩
  have kQ := (abs_le.mp sQ).1
  have kS := (abs_le.mp eS).1
  have kS2 := (abs_le.mp eS).2
  have e4 : tinyQ * (1 + toQ a.quoteUnit) = tinyQ + tinyQ * toQ a.quoteUnit := by ring
  rw [e4] at kQ
  have g2 : 0 ≤ tinyQ * toQ a.quoteUnit := by positivity
  linarith

/-- What a sell adds to the quote balance, in binary32. -/
theorem sell_credited (a a' : Account F32) (fc : FeeConfig F32) (b p : F32) (hg : FloatOnGrid a)
    (hu : SaneUnits a) (hn : Numbers a) (hd : NoDebt a) (hn' : Numbers a')
    (hm : NotBelowZero fc.minimumFee) (h : a.sellBase fc b p = .ok (true, a')) :
    IsFin (roundUnit b a.baseUnit) ∧ IsFin p ∧ 0 < toQ p ∧ IsFin (roundUnit b a.baseUnit *. p) ∧
    ∃ q fee, q = floorUnit (roundUnit b a.baseUnit *. p) a.quoteUnit ∧ fee = a.getFee fc q ∧
      0 ≤ toQ (roundUnit b a.baseUnit *. p) ∧
      toQ (roundUnit b a.baseUnit *. p) ≤ worth a (toQ p) + worth a (toQ p) / 16777216 + tinyQ ∧
      IsFin q ∧ IsFin fee ∧ 0 ≤ toQ q ∧ 0 ≤ toQ fee ∧ toQ fee ≤ toQ q + 3 * toQ q / 16777216 + 2 * tinyQ ∧
      toQ q ≤ toQ (roundUnit b a.baseUnit *. p) + 3 * toQ (roundUnit b a.baseUnit *. p) / 16777216 +
        tinyQ * (1 + 2 * toQ a.quoteUnit) ∧
      toQ a'.quoteBalance - toQ a.quoteBalance ≤
        toQ q - toQ fee + 64 * worth a (toQ p) / 16777216 + 128 * (tinyQ + tinyQ * toQ a.quoteUnit) := by
  obtain ⟨hp0, hb0, hc⟩ := a.sellBase_cases h
  rcases hc with ⟨h, -⟩ | ⟨-, -, h1, q, fee, hq, hfee, h2, rfl⟩
  · cases h
  have ht := tinyQ_pos
  generalize hbr : roundUnit b a.baseUnit = b' at *
  obtain ⟨hB, hQ, hT⟩ := hn'
  simp only [Account.afterSell] at hB hQ hT
  simp only [Account.afterSell]
  -- finiteness of everything on the way
  have hgQ : NearGrid a.quoteUnit a.quoteBalance _ := nearGrid_of_near hg.quote
  obtain ⟨-, fb, eB⟩ := Fl.sub_err (a := a.baseBalance) (b := b') (fin_of_round hB)
  obtain ⟨-, fs, eQ⟩ := Fl.add_err (a := a.quoteBalance) (b := q -. fee) (fin_of_round hQ)
  obtain ⟨-, ffee, eT⟩ := Fl.add_err (a := a.totalFee) (b := fee) (fin_of_round hT)
  obtain ⟨fq, -, eS⟩ := Fl.sub_err (a := q) (b := fee) fs
  have fee0 : 0 ≤ toQ fee := notBelow_toQ ffee (by rw [hfee]; exact getFee_notBelow a fc q hm)
  have nb : NotBelowZero b' := by
    rw [← hbr]
    exact roundUnit_notBelow' (SignLaws.not_lt_of_le _ _ hb0)
  have b0 : 0 ≤ toQ b' := notBelow_toQ fb nb
  have hgb : NearGrid a.baseUnit b' (2 * |toQ b'| / 16777216 + 2 * tinyQ) := by
    rw [← hbr] at fb ⊢; exact round_grid fb
  have hgf : NearGrid a.quoteUnit fee (2 * |toQ fee| / 16777216 + 2 * tinyQ) := by
    rw [hfee] at ffee ⊢; exact getFee_grid a fc q ffee
  have fm : IsFin (b' *. p) := by
    rw [hq] at fq
    unfold floorUnit at fq
    split at fq
    · obtain ⟨hfu, hfr, -⟩ := Fl.mul_err (a := a.quoteUnit) (b := FloatOps.floor ((b' *. p) /. a.quoteUnit)) fq
      exact (Fl.div_err (a := b' *. p) hfu (Fl.floor_spec (x := (b' *. p) /. a.quoteUnit) hfr).1).1
    · exact fq
  obtain ⟨-, fp, eM⟩ := Fl.mul_err (a := b') (b := p) fm
  change |toQ (b' *. p) - _| ≤ _ at eM
  have p0 : 0 < toQ p := unit_pos fp hp0
  have bp0 : 0 ≤ toQ b' * toQ p := mul_nonneg b0 p0.le
  have m0 : 0 ≤ toQ (b' *. p) := mul_notBelow hp0 nb fm
  obtain ⟨-, hq1, -, hgq⟩ := floorUnit_close (u := a.quoteUnit) m0 (by rw [← hq]; exact fq)
  rw [← hq] at hq1 hgq
  have hbB : toQ b' ≤ toQ a.baseBalance :=
    (Fl.lt_eq_false_iff (a := a.baseBalance) (b := b') hn.base fb).mp h1
  have hs0 : toQ a.quoteUnit ≤ toQ (q -. fee) :=
    (Fl.lt_eq_false_iff (a := q -. fee) (b := a.quoteUnit) fs hu.quote.1).mp h2
  rw [err32] at eB eQ eT eS eM
  change |toQ (a.baseBalance -. b') - _| ≤ _ at eB
  change |toQ (a.quoteBalance +. (q -. fee)) - _| ≤ _ at eQ
  change |toQ (a.totalFee +. fee) - _| ≤ _ at eT
  change |toQ (q -. fee) - _| ≤ _ at eS
  have q0' : 0 ≤ toQ q := by
    refine notBelow_toQ fq ?_
    rw [hq]
    unfold floorUnit
    have hm0 : NotBelowZero (b' *. p) := by
      unfold NotBelowZero
      rw [lit0]
      exact (Fl.lt_eq_false_iff (b := .fin 0) fm trivial).mpr m0
    split
    · rename_i hu
      exact SignLaws.mul_not_neg _ _ hu (SignLaws.floor_not_neg _ (SignLaws.div_not_neg _ _ hu hm0))
    · exact hm0
  have hqe : |toQ q - toQ fee| ≤ toQ q + toQ fee := by
    rw [abs_le]; constructor <;> linarith
  have hgS : NearGrid a.quoteUnit (q -. fee) (3 * (toQ q + toQ fee) / 16777216 + 5 * tinyQ) := by
    intro hu1
    obtain ⟨N, hN⟩ := grid_sub (hgq hu1) (hgf hu1)
    refine ⟨N, ?_⟩
    have := abs_add_le (toQ (q -. fee) - (toQ q - toQ fee)) (toQ q - toQ fee - N * toQ a.quoteUnit)
    have e : toQ (q -. fee) - (toQ q - toQ fee) + (toQ q - toQ fee - N * toQ a.quoteUnit) =
      toQ (q -. fee) - N * toQ a.quoteUnit := by ring
    rw [e] at this
    rw [abs_of_nonneg q0', abs_of_nonneg fee0] at hN
    linarith
  have sQ := stored (u := a.quoteUnit) eQ (ex := 4 * |toQ a.quoteBalance| / 16777216 + 4 * tinyQ)
    (ey := 3 * (toQ q + toQ fee) / 16777216 + 5 * tinyQ) (by positivity) (by positivity)
    (fun h => grid_add (hgQ h) (hgS h)) hQ
  have dQ := hd.quote; have dB := hd.base
  have uq := hu.quote.2
  rw [abs_of_nonneg dQ, abs_of_nonneg (add_nonneg dQ (uq.trans hs0)), abs_of_nonneg uq] at sQ
  have eS := le_trans eS (add_le_add_left (div_le_div_of_nonneg_right hqe (by norm_num : (0 : ℚ) ≤ 16777216)) tinyQ)
  have kQ := (abs_le.mp sQ).2
  have kS := (abs_le.mp eS).1
  have kS2 := (abs_le.mp eS).2
  have e4 : tinyQ * (1 + toQ a.quoteUnit) = tinyQ + tinyQ * toQ a.quoteUnit := by ring
  have e5 : tinyQ * (1 + 2 * toQ a.quoteUnit) = tinyQ + 2 * (tinyQ * toQ a.quoteUnit) := by ring
  rw [e4] at kQ
  have g2 : 0 ≤ tinyQ * toQ a.quoteUnit := by positivity
  rw [abs_of_nonneg bp0] at eM
  rw [abs_of_nonneg uq] at hq1
  have kM := (abs_le.mp eM).2
  have hbP : toQ b' * toQ p ≤ toQ a.baseBalance * toQ p := mul_le_mul_of_nonneg_right hbB p0.le
  unfold worth
  refine ⟨fb, fp, p0, fm, q, fee, hq, hfee, m0, ?_, fq, ffee, q0', fee0, ?_, hq1, ?_⟩
  · linarith
  · linarith
  · rw [e5] at hq1
    linarith

/-- **C85** (the grid is kept). Whatever an order does, the stored balances stay correctly rounded multiples
of the units: the assumption `FloatOnGrid` of `C85_no_free_money` holds along every order history. -/
theorem C85_grid_kept (c : AccountConfig F32) (l : List (Order F32 × OhlcTick F32)) :
    ∀ a a' : Account F32, FloatOnGrid a → runOrders c a l = .ok a' → FloatOnGrid a' := by
  induction l with
  | nil => intro a a' hg h; cases h; exact hg
  | cons x l ih =>
    obtain ⟨o, t⟩ := x
    intro a a' hg h
    simp only [runOrders] at h
    cases hx : a.executeOrder c o t with
    | error e => rw [hx] at h; cases h
    | ok r =>
      rw [hx] at h
      refine ih r.2 a' ?_ h
      obtain ⟨h0, h1, h2, -, -⟩ := C01_executeOrder a c o t r.1 r.2 (by rw [hx])
      cases hr : r.1
      · rw [h0 hr]; exact hg
      · obtain ⟨g1, g2⟩ := C03_float a r.2 c o t (by rw [hx, ← hr])
        refine ⟨?_, ?_, ?_⟩
        · rw [h1]; exact fun hu => near_of_multiple (g1 hu)
        · rw [h2]; exact fun hu => near_of_multiple (g2 hu).1
        · rw [h2]; exact fun hu => near_of_multiple (g2 hu).2

/-- **C85**. In binary32 an executed order can create money only by rounding: valued at the price it executes
at, the account is worth at most 2^-17 (eight millionths) more than before, and this is still so when the
fee that was booked is added to what is left. -/
theorem C85_no_free_money (a a' : Account F32) (c : AccountConfig F32) (o : Order F32) (t : OhlcTick F32)
    (ty : OrderType) (sd : Side) (hty : o.type = some ty) (hsd : o.side = some sd)
    (hg : FloatOnGrid a) (hu : SaneUnits a) (hn : Numbers a) (hd : NoDebt a) (hn' : Numbers a')
    (hm : NotBelowZero (feeFor c ty).minimumFee)
    (h : a.executeOrder c o t = .ok (true, a')) :
    let p := execPrice a.marketLiquidity t o.getPrice ty sd
    IsFin p ∧ 0 < toQ p ∧
    worth a' (toQ p) ≤ worth a (toQ p) + worth a (toQ p) / 2 ^ 17 + underflow a (toQ p) ∧
    worth a' (toQ p) + (toQ a'.totalFee - toQ a.totalFee) ≤
      worth a (toQ p) + (worth a (toQ p) + toQ a.totalFee) / 2 ^ 17 + underflow a (toQ p) := by
  rcases a.executeOrder_ok h with ⟨h, -⟩ | ⟨-, ty', sd', b, hty', hsd', -, h⟩
  · cases h
  cases hty.symm.trans hty'
  cases hsd.symm.trans hsd'
  rcases h with ⟨-, h⟩ | ⟨-, h⟩
  · exact buy_float a a' _ b _ hg hu hn hd hn' hm h
  · exact sell_float a a' _ b _ hg hu hn hd hn' hm h

/-- **C85** (decimal units). If a start balance is the `float` nearest to `n` times `d` and the unit the `float`
nearest to `d` - whatever the base of the number system they were written in - then the balance is on the
grid.  (The unit must not be absurdly small.) -/
theorem C85_decimal_start (d : ℚ) (n : ℤ) (hd : 1 / 2 ^ 100 ≤ d)
    (hu : IsFin (Fl.ofRat binary32 d)) (hx : IsFin (Fl.ofRat binary32 (n * d))) :
    NearMultiple (Fl.ofRat binary32 d) (Fl.ofRat binary32 (n * d)) := by
  have h1 := Fl.ofRat_err hu
  have h2 := Fl.ofRat_err hx
  rw [err32] at h1 h2
  refine ⟨n, ?_⟩
  have ht := tinyQ_pos
  have e : (1 : ℚ) / 2 ^ 148 = 4 * tinyQ := by unfold tinyQ; norm_num
  rw [e]
  have hd0 : 0 < d := lt_of_lt_of_le (by norm_num) hd
  have htd : tinyQ ≤ d / 2 ^ 50 := by
    have e : tinyQ = 1 / 2 ^ 100 / 2 ^ 50 := by unfold tinyQ; norm_num
    rw [e]
    exact div_le_div_of_nonneg_right hd (by norm_num)
  have hn : |n * toQ (Fl.ofRat binary32 d) - n * d| ≤ |n * d| / 16777216 + |n * d| / 2 ^ 50 := by
    rw [← mul_sub, abs_mul]
    calc |(n : ℚ)| * |toQ (Fl.ofRat binary32 d) - d| ≤ |(n : ℚ)| * (|d| / 16777216 + d / 2 ^ 50) :=
          mul_le_mul_of_nonneg_left (by linarith) (abs_nonneg _)
      _ = _ := by rw [abs_mul, abs_of_pos hd0]; ring
  have h3 := (abs_add_bound h2).2
  have := abs_add_le (toQ (Fl.ofRat binary32 (n * d)) - n * d) (n * d - n * toQ (Fl.ofRat binary32 d))
  have e2 : toQ (Fl.ofRat binary32 (n * d)) - n * d + (n * d - n * toQ (Fl.ofRat binary32 d)) =
      toQ (Fl.ofRat binary32 (n * d)) - n * toQ (Fl.ofRat binary32 d) := by ring
  rw [e2, abs_sub_comm (n * d : ℚ)] at this
  have := abs_nonneg (n * d : ℚ)
  generalize |(n : ℚ) * d| = nd at *
  generalize |toQ (Fl.ofRat binary32 (n * d))| = X at *
  norm_num at *
  linarith

/-- **C85** (reachable states). The assumptions of the theorems about money in binary32 hold along every
order history, as long as the balances are numbers. -/
theorem C85_reachable (c : AccountConfig F32) (l : List (Order F32 × OhlcTick F32)) (a : Account F32)
    (hg : FloatOnGrid (Account.init c)) (hu : SaneUnits (Account.init c))
    (hb : NotBelowZero c.startBase) (hq : NotBelowZero c.startQuote)
    (hm : ∀ ty, NotBelowZero (feeFor c ty).minimumFee)
    (h : runOrders c (Account.init c) l = .ok a) (hn : Numbers a) :
    FloatOnGrid a ∧ SaneUnits a ∧ NoDebt a := by
  have hle : ∀ u : F32, IsFin u → 0 ≤ toQ u → (lit F32 0 <=. u) = true := by
    intro u hf h0
    rw [lit0]
    show Fl.le (.fin 0) u = true
    cases u with
    | fin z => simpa [Fl.le] using lt_or_eq_of_le (show (0 : ℚ) ≤ z from h0)
    | negZero => rfl
    | nan => exact hf.elim
    | inf s => exact hf.elim
  obtain ⟨h1, h2⟩ := C02_binary32 c l a (hle _ hu.base.1 hu.base.2) (hle _ hu.quote.1 hu.quote.2) hb hq h
  have h3 : NotBelowZero a.totalFee := C08_total_fee_never_negative c l hm (Account.init c) a
    (by unfold NotBelowZero; show Fl.lt _ _ = false; simp [Account.init, lit0]) h
  refine ⟨C85_grid_kept c l _ a hg h, ?_, ⟨notBelow_toQ hn.base h1, notBelow_toQ hn.quote h2, notBelow_toQ hn.fee h3⟩⟩
  have hunit : ∀ (l : List (Order F32 × OhlcTick F32)) (a a' : Account F32), runOrders c a l = .ok a' →
      a'.baseUnit = a.baseUnit ∧ a'.quoteUnit = a.quoteUnit := by
    intro l
    induction l with
    | nil => intro a a' h; cases h; exact ⟨rfl, rfl⟩
    | cons x l ih =>
      obtain ⟨o, t⟩ := x
      intro a a' h
      simp only [runOrders] at h
      cases hx : a.executeOrder c o t with
      | error e => rw [hx] at h; cases h
      | ok r =>
        rw [hx] at h
        obtain ⟨-, h1, h2, -, -⟩ := C01_executeOrder a c o t r.1 r.2 (by rw [hx])
        obtain ⟨g1, g2⟩ := ih r.2 a' h
        exact ⟨g1.trans h1, g2.trans h2⟩
  obtain ⟨g1, g2⟩ := hunit l _ a h
  exact ⟨g1 ▸ hu.base, g2 ▸ hu.quote⟩

/-! ### Non-vacuity -/

/-- The account of the examples, in binary32. -/
def fmAcc : Account F32 := Account.init (exCfg F32)

theorem fmAcc_grid : FloatOnGrid fmAcc where
  base _ := ⟨80, by decide +kernel⟩
  quote _ := ⟨64000, by decide +kernel⟩
  fee _ := ⟨0, by decide +kernel⟩

theorem fmAcc_units : SaneUnits fmAcc := ⟨by decide +kernel, by decide +kernel⟩
theorem fmAcc_numbers : Numbers fmAcc := ⟨by decide +kernel, by decide +kernel, by decide +kernel⟩
theorem fmAcc_noDebt : NoDebt fmAcc := ⟨by decide +kernel, by decide +kernel, by decide +kernel⟩

/-- A market buy, a stop sell and a limit order all execute, with finite balances after. -/
example : ∀ x ∈ exOrders F32, ∃ a', fmAcc.executeOrder (exCfg F32) x.1 x.2 = .ok (true, a') ∧ Numbers a' := by
  intro x hx
  refine ⟨match fmAcc.executeOrder (exCfg F32) x.1 x.2 with | .ok (_, y) => y | _ => fmAcc, ?_, ?_, ?_, ?_⟩ <;>
  · revert x
    decide +kernel

/-- `C85_reachable` on the run of the four example orders; `C85_decimal_start` on 0.3 in units of 0.1. -/
example : ∃ a, runOrders (exCfg F32) (Account.init (exCfg F32)) (exOrders F32) = .ok a ∧
    FloatOnGrid a ∧ SaneUnits a ∧ NoDebt a := by
  refine ⟨match runOrders (exCfg F32) (Account.init (exCfg F32)) (exOrders F32) with | .ok y => y | _ => fmAcc,
    by decide +kernel, ?_⟩
  exact C85_reachable (exCfg F32) (exOrders F32) _ fmAcc_grid fmAcc_units (by unfold NotBelowZero; decide +kernel)
    (by unfold NotBelowZero; decide +kernel)
    (by intro ty; cases ty <;> (unfold NotBelowZero; decide +kernel)) (by decide +kernel)
    ⟨by decide +kernel, by decide +kernel, by decide +kernel⟩

example : NearMultiple (Fl.ofRat binary32 (1 / 10)) (Fl.ofRat binary32 (3 * (1 / 10))) :=
  C85_decimal_start (1 / 10) 3 (by norm_num) (by decide +kernel) (by decide +kernel)

/-- The bound of the theorem on the first of them: it lost money (the fee), as it should. -/
example (a' : Account F32) (o : Order F32) (t : OhlcTick F32) (hx : (exOrders F32).head? = some (o, t))
    (h : fmAcc.executeOrder (exCfg F32) o t = .ok (true, a')) (hn : Numbers a') :
    ∃ p : ℚ, 0 < p ∧ worth a' p ≤ worth fmAcc p + worth fmAcc p / 2 ^ 17 + underflow fmAcc p := by
  obtain ⟨rfl, rfl⟩ : o = (exOrders F32)[0].1 ∧ t = (exOrders F32)[0].2 := by
    cases hx; exact ⟨rfl, rfl⟩
  obtain ⟨-, h0, h1, -⟩ := C85_no_free_money fmAcc a' (exCfg F32) _ _ .market .buy rfl rfl fmAcc_grid fmAcc_units
    fmAcc_numbers fmAcc_noDebt hn (by unfold NotBelowZero; decide +kernel) h
  exact ⟨_, h0, h1⟩

end Verif.Props
