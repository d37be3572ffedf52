import Verif.Props.FloatRobustTraders

/-!
# C94: the rebalancing trader in binary32
-/

set_option linter.unusedVariables false

namespace Verif.Props
open FloatOps Spec FloatMoney FloatNN
open Fl (toQ IsFin)

private theorem scale_err {a b e V T : ℚ} (hV : 0 < V) (h : |a - b| ≤ e / 16777216 + T) :
    |a / V - b / V| ≤ e / V / 16777216 + T / V := by
  rw [← sub_div, abs_div, abs_of_pos hV, div_le_iff₀ hV]
  refine h.trans (le_of_eq ?_)
  field_simp

section core
variable {s y B P β c D α t : ℚ}

private theorem core_value (hs0 : 0 ≤ s) (hy0 : 0 ≤ y) (hsy : s + y = 1) (ht0 : 0 ≤ t) (ht1 : t ≤ 1 / 1000000000)
    (hB : |B - s| ≤ s / 16777216 + t) (hP : |P - (B + y)| ≤ (B + y) / 16777216 + t) :
    |P - 1| ≤ 3 / 16777216 := by
  rw [abs_le] at *
  constructor <;> linarith [hB.1, hB.2, hP.1, hP.2]

private theorem core_share (hs0 : 0 ≤ s) (hs1 : s ≤ 1) (ht0 : 0 ≤ t) (ht1 : t ≤ 1 / 1000000000)
    (hB : |B - s| ≤ s / 16777216 + t) (hP : |P - 1| ≤ 3 / 16777216) (hB0 : 0 ≤ B)
    (hβ : |β - B / P| ≤ B / P / 16777216 + t) : |β - s| ≤ 7 / 16777216 := by
  have hP0 : 0 < P := by have := (abs_le.mp hP).1; linarith
  have hr : B / P * P = B := div_mul_cancel₀ _ hP0.ne'
  have hr0 : 0 ≤ B / P := div_nonneg hB0 hP0.le
  generalize B / P = r at *
  rw [abs_le] at *
  have hr1 : r ≤ 1 + 1 / 1000 := by
    by_contra hh
    push Not at hh
    nlinarith [hP.1, hB.2]
  have h1 : r * P ≤ r + r * (3 / 16777216) := by nlinarith [hP.2]
  have h2 : r - r * (3 / 16777216) ≤ r * P := by nlinarith [hP.1]
  have h3 : r * (3 / 16777216) ≤ 31 / 10 / 16777216 := by nlinarith
  constructor <;> linarith [hB.1, hB.2, hβ.1, hβ.2]

private theorem core_target (hα0 : 0 ≤ α) (hα1 : α ≤ 1) (ht0 : 0 ≤ t) (ht1 : t ≤ 1 / 1000000000)
    (hP : |P - 1| ≤ 3 / 16777216) (hc : |c - (1 - α)| ≤ (1 - α) / 16777216 + t) (hc0 : 0 ≤ c)
    (hD : |D - c * P| ≤ c * P / 16777216 + t) : |D - (1 - α)| ≤ 6 / 16777216 := by
  rw [abs_le] at *
  have hc1 : c ≤ 1 + 1 / 1000 := by linarith [hc.2]
  have h1 : c * P ≤ c + c * (3 / 16777216) := by nlinarith [hP.2]
  have h2 : c - c * (3 / 16777216) ≤ c * P := by nlinarith [hP.1]
  have h3 : c * (3 / 16777216) ≤ 31 / 10 / 16777216 := by nlinarith
  constructor <;> linarith [hc.1, hc.2, hD.1, hD.2]

private theorem core_amount {X z d : ℚ} (hd : |d - (1 - α)| ≤ 6 / 16777216) (hy0 : 0 ≤ y) (hy1 : y ≤ 1) (hα0 : 0 ≤ α)
    (hα1 : α ≤ 1) (ht0 : 0 ≤ t) (ht1 : t ≤ 1 / 1000000000) (hX : |X - (d - y)| ≤ |d - y| / 16777216 + t)
    (hz : |z - X| ≤ |X| / 16777216 + t) : |z - (1 - α - y)| ≤ 9 / 16777216 := by
  have h1 : |d - y| ≤ 1 + 1 / 1000 := by
    rw [abs_le] at hd ⊢
    constructor <;> linarith [hd.1, hd.2]
  have h2 : |X| ≤ 1 + 1 / 100 := by
    rw [abs_le] at hX h1 ⊢
    have := hX.1
    have := hX.2
    have h3 : |d - y| ≤ 1 + 1 / 1000 := abs_le.mpr h1
    constructor <;> linarith [h1.1, h1.2]
  generalize |d - y| = m at *
  generalize |X| = n at *
  rw [abs_le] at *
  constructor <;> linarith [hd.1, hd.2, hX.1, hX.2, hz.1, hz.2]

end core

private theorem band_edge {α ε e u T : ℚ} (hα0 : 0 ≤ α) (hα1 : α ≤ 1) (he0 : 0 ≤ ε) (he1 : ε ≤ 2) (hT0 : 0 ≤ T)
    (hT1 : T ≤ 1 / 1000000000) (he : |e - ε| ≤ ε / 16777216 + T)
    (hu : |u - α * e| ≤ α * e / 16777216 + T) : |u - α * ε| ≤ 5 / 16777216 := by
  rw [abs_le] at *
  have h1 : α * e ≤ α * ε + 21 / 10 / 16777216 := by
    have : e ≤ ε + 21 / 10 / 16777216 := by linarith [he.2]
    have := mul_le_mul_of_nonneg_left this hα0
    nlinarith
  have h2 : α * ε - 21 / 10 / 16777216 ≤ α * e := by
    have : ε - 21 / 10 / 16777216 ≤ e := by linarith [he.1]
    have := mul_le_mul_of_nonneg_left this hα0
    nlinarith
  have h3 : α * ε ≤ 2 := by nlinarith
  constructor <;> linarith [hu.1, hu.2]

/-- The quantities that `Update` computes, relative to the exact portfolio value. -/
private structure Parts (cfg : RebalancingConfig F32) (p b q : F32) : Prop where
  value : 0 < toQ b * toQ p + toQ q
  share : |toQ (b *. p /. (b *. p +. q)) - allocation (toQ b) (toQ q) (toQ p)| ≤ 7 / 16777216
  finShare : IsFin (b *. p /. (b *. p +. q))
  up : |toQ (cfg.alpha *. (lit F32 1 +. cfg.epsilon)) - toQ cfg.alpha * (1 + toQ cfg.epsilon)| ≤ 5 / 16777216
  finUp : IsFin (cfg.alpha *. (lit F32 1 +. cfg.epsilon))
  down : |toQ (cfg.alpha *. (lit F32 1 -. cfg.epsilon)) - toQ cfg.alpha * (1 - toQ cfg.epsilon)| ≤ 5 / 16777216
  finDown : IsFin (cfg.alpha *. (lit F32 1 -. cfg.epsilon))
  sell : let x := ((lit F32 1 -. cfg.alpha) *. (b *. p +. q) -. q) /. p
    IsFin x ∧ |toQ x * toQ p / (toQ b * toQ p + toQ q) - (allocation (toQ b) (toQ q) (toQ p) - toQ cfg.alpha)| ≤ 9 / 16777216
  buy : let x := (q -. (lit F32 1 -. cfg.alpha) *. (b *. p +. q)) /. p
    IsFin x ∧ |toQ x * toQ p / (toQ b * toQ p + toQ q) - (toQ cfg.alpha - allocation (toQ b) (toQ q) (toQ p))| ≤ 9 / 16777216

private theorem amount_fin {X p : F32} {V : ℚ} (hX : IsFin X) (hp : Between (1 / 2 ^ 40) (2 ^ 40) p) (hV : 0 < V)
    (hVp : toQ p / 2 ^ 110 ≤ V) (hVX : |toQ X| ≤ 2 ^ 82 * toQ p + 2 ^ 82) :
    IsFin (X /. p) ∧ |toQ (X /. p) * toQ p / V - toQ X / V| ≤ |toQ X / V| / 16777216 + 1 / 1000000000 := by
  obtain ⟨fp, p0, p1⟩ := hp
  have hp0 : 0 < toQ p := lt_of_lt_of_le (by positivity) p0
  obtain ⟨f, e⟩ := div_fin hX fp hp0.ne' (by
    rw [abs_div, abs_of_pos hp0, div_le_iff₀ hp0]
    refine hVX.trans ?_
    have : (1 : ℚ) ≤ 2 ^ 40 * toQ p := by
      have := mul_le_mul_of_nonneg_left p0 (by positivity : (0 : ℚ) ≤ 2 ^ 40)
      norm_num at this ⊢
      linarith
    norm_num at this ⊢
    linarith)
  refine ⟨f, ?_⟩
  have e1 : toQ (X /. p) * toQ p / V - toQ X / V = (toQ (X /. p) - toQ X / toQ p) * (toQ p / V) := by
    field_simp
  have hpV : 0 < toQ p / V := div_pos hp0 hV
  rw [e1, abs_mul, abs_of_pos hpV]
  have e2 := mul_le_mul_of_nonneg_right e hpV.le
  refine e2.trans ?_
  rw [add_mul]
  have e3 : |toQ X / toQ p| / 16777216 * (toQ p / V) = |toQ X / V| / 16777216 := by
    rw [abs_div, abs_div, abs_of_pos hp0, abs_of_pos hV]
    field_simp
  rw [e3]
  refine add_le_add le_rfl ?_
  have h4 : toQ p / V ≤ 2 ^ 110 := by
    rw [div_le_iff₀ hV]
    have := hVp
    rw [div_le_iff₀ (by positivity)] at this
    linarith
  have := mul_le_mul_of_nonneg_left h4 tinyQ_pos.le
  refine this.trans ?_
  unfold tinyQ
  norm_num

set_option maxHeartbeats 1000000 in
private theorem parts {cfg : RebalancingConfig F32} (hα : Between 0 1 cfg.alpha) (hε : Between 0 1 cfg.epsilon) {p b q : F32}
    (hp : Between (1 / 2 ^ 40) (2 ^ 40) p) (hb : Holding b) (hq : Holding q) (hsome : 0 < toQ b ∨ 0 < toQ q) :
    Parts cfg p b q := by
  obtain ⟨fα, α0, α1⟩ := hα
  obtain ⟨fε, ε0, ε1⟩ := hε
  have hT : tinyQ = 1 / 2 ^ 150 := rfl
  have hT0 := tinyQ_pos
  have p0 : 0 < toQ p := lt_of_lt_of_le (by positivity) hp.2.1
  have b0 := holding_nonneg hb
  have q0 := holding_nonneg hq
  -- the value of the base currency
  obtain ⟨fB, B0⟩ := worth_nonneg hb hp
  have hbp0 : 0 ≤ toQ b * toQ p := mul_nonneg b0 p0.le
  have hbp1 : toQ b * toQ p ≤ 2 ^ 80 * toQ p := mul_le_mul_of_nonneg_right hb.2.2 p0.le
  have hp1 : toQ p ≤ 2 ^ 40 := hp.2.2
  have hbp2 : toQ b * toQ p ≤ 2 ^ 120 := hbp1.trans (by norm_num at *; linarith)
  have eB := (mul_fin hb.1 hp.1 (by rw [abs_of_nonneg hbp0]; exact hbp2.trans (by norm_num))).2
  rw [abs_of_nonneg hbp0] at eB
  -- the exact value of the portfolio
  set V := toQ b * toQ p + toQ q with hVdef
  have hplo := hp.2.1
  have hVlo : 1 / 2 ^ 101 ≤ V := by
    rcases hsome with h | h
    · have hb1 : 1 / 2 ^ 61 ≤ toQ b := hb.2.1.resolve_left h.ne'
      have h0 : 1 / 2 ^ 101 ≤ toQ b * toQ p := le_trans (by norm_num) (mul_le_mul hb1 hp.2.1 (by positivity) b0)
      linarith
    · have hq1 : 1 / 2 ^ 61 ≤ toQ q := hq.2.1.resolve_left h.ne'
      norm_num at *
      linarith
  have hVp : toQ p / 2 ^ 110 ≤ V := by
    rcases hsome with h | h
    · have hb1 : 1 / 2 ^ 61 ≤ toQ b := hb.2.1.resolve_left h.ne'
      have h0 : 1 / 2 ^ 61 * toQ p ≤ toQ b * toQ p := mul_le_mul_of_nonneg_right hb1 p0.le
      norm_num at *
      linarith
    · have hq1 : 1 / 2 ^ 61 ≤ toQ q := hq.2.1.resolve_left h.ne'
      norm_num at *
      linarith
  have V0 : 0 < V := lt_of_lt_of_le (by positivity) hVlo
  have hV1 : V ≤ 2 ^ 80 * toQ p + 2 ^ 80 := by have := hq.2.2; linarith
  have ht : tinyQ / V ≤ 1 / 1000000000 := by
    rw [div_le_iff₀ V0, hT]
    norm_num at *
    linarith
  have ht0 : 0 ≤ tinyQ / V := by positivity
  -- the computed one
  have hS0 : 0 ≤ toQ (b *. p) + toQ q := by linarith
  have hS1 : toQ (b *. p) + toQ q ≤ 2 ^ 122 := by
    have := hq.2.2
    have := (abs_le.mp eB).2
    norm_num at *
    linarith
  obtain ⟨fP, eP⟩ := add_fin fB hq.1 (by rw [abs_of_nonneg hS0]; exact hS1.trans (by norm_num))
  rw [abs_of_nonneg hS0] at eP
  set P := b *. p +. q with hPdef
  set s := allocation (toQ b) (toQ q) (toQ p) with hs
  have hs' : s = toQ b * toQ p / V := rfl
  have hs0 : 0 ≤ s := by rw [hs']; positivity
  have hy0 : 0 ≤ toQ q / V := by positivity
  have hsy : s + toQ q / V = 1 := by rw [hs', ← add_div, ← hVdef, div_self V0.ne']
  have nB := scale_err V0 eB
  rw [← hs'] at nB
  have hB'0 : 0 ≤ toQ (b *. p) / V := by positivity
  have nP := scale_err V0 eP
  rw [add_div] at nP
  have hP1 : |toQ P / V - 1| ≤ 3 / 16777216 := core_value hs0 hy0 hsy ht0 ht nB nP
  have hP2 : toQ P ≤ 2 * V := by
    have := (abs_le.mp hP1).2
    have h2 : toQ P / V ≤ 2 := by linarith
    rwa [div_le_iff₀ V0] at h2
  have P0 : 0 < toQ P := by
    have := (abs_le.mp hP1).1
    have h2 : 0 < toQ P / V := by linarith
    have := mul_pos h2 V0
    rwa [div_mul_cancel₀ _ V0.ne'] at this
  -- the share of the base currency
  have hr0 : 0 ≤ toQ (b *. p) / toQ P := div_nonneg B0 P0.le
  have hPlo : V / 2 ≤ toQ P := by
    have := (abs_le.mp hP1).1
    have h2 : 1 / 2 ≤ toQ P / V := by linarith
    rw [le_div_iff₀ V0] at h2
    linarith
  have hr2 : toQ (b *. p) / toQ P ≤ 4 := by
    rw [div_le_iff₀ P0]
    have h1 := (abs_le.mp eB).2
    have h3 : tinyQ ≤ V / 2 := by rw [hT]; norm_num at *; linarith
    have h4 : toQ b * toQ p ≤ V := by linarith
    linarith
  obtain ⟨fβ, eβ⟩ := div_fin fB fP P0.ne' (by rw [abs_of_nonneg hr0]; exact hr2.trans (by norm_num))
  rw [abs_of_nonneg hr0] at eβ
  have hshare : |toQ (b *. p /. P) - s| ≤ 7 / 16777216 := by
    have hmax : tinyQ ≤ 1 / 1000000000 := by rw [hT]; norm_num
    have ht' : ∃ t, tinyQ ≤ t ∧ tinyQ / V ≤ t ∧ t ≤ 1 / 1000000000 ∧ 0 ≤ t :=
      ⟨1 / 1000000000, hmax, ht, le_rfl, by norm_num⟩
    obtain ⟨t, t1, t2, t3, t4⟩ := ht'
    refine core_share (B := toQ (b *. p) / V) (P := toQ P / V) hs0 (by linarith) t4 t3 (nB.trans (by linarith)) hP1 hB'0 ?_
    rw [div_div_div_cancel_right₀ V0.ne']
    exact eβ.trans (by linarith)
  -- the target
  have hα1' : (0 : ℚ) ≤ 1 - toQ cfg.alpha := by linarith
  obtain ⟨fc, ec⟩ := sub_fin fin_one fα (by rw [toQ_one, abs_of_nonneg hα1']; norm_num; linarith)
  rw [toQ_one, abs_of_nonneg hα1'] at ec
  have c0 : 0 ≤ toQ (lit F32 1 -. cfg.alpha) := by
    refine toQ_of_geZero ?_ fc
    rw [geZero_iff]
    refine ⟨fun h => ?_, Fl.sub_notNeg (a := lit F32 1) (b := cfg.alpha) ((Fl.lt_eq_false_iff fin_one fα).mpr (by rw [toQ_one]; exact α1))⟩
    rw [h] at fc; exact fc
  have c2 : toQ (lit F32 1 -. cfg.alpha) ≤ 2 := by
    have := (abs_le.mp ec).2
    norm_num at *
    linarith
  have hcP0 : 0 ≤ toQ (lit F32 1 -. cfg.alpha) * toQ P := mul_nonneg c0 P0.le
  have hcP1 : toQ (lit F32 1 -. cfg.alpha) * toQ P ≤ 2 * (2 * V) := mul_le_mul c2 hP2 P0.le (by positivity)
  have hV2 : V ≤ 2 ^ 121 := by norm_num at *; linarith
  obtain ⟨fD, eD⟩ := mul_fin fc fP (by rw [abs_of_nonneg hcP0]; norm_num at *; linarith)
  rw [abs_of_nonneg hcP0] at eD
  have nD := scale_err V0 eD
  rw [mul_div_assoc] at nD
  have hD : |toQ ((lit F32 1 -. cfg.alpha) *. P) / V - (1 - toQ cfg.alpha)| ≤ 6 / 16777216 := by
    have hmax : tinyQ ≤ 1 / 1000000000 := by rw [hT]; norm_num
    refine core_target (t := 1 / 1000000000) α0 α1 (by norm_num) le_rfl hP1 (ec.trans (by linarith)) c0 (nD.trans (by linarith))
  set D := (lit F32 1 -. cfg.alpha) *. P with hDdef
  have hDV : |toQ D| ≤ 2 * V := by
    have h1 : |toQ D / V| ≤ 2 := by
      have := abs_le.mp hD
      rw [abs_le]
      constructor <;> linarith [this.1, this.2]
    rw [abs_div, abs_of_pos V0, div_le_iff₀ V0] at h1
    exact h1
  have hqV : toQ q ≤ V := by linarith
  have hα2 : s - toQ cfg.alpha = 1 - toQ cfg.alpha - toQ q / V := by linarith
  have hy1 : toQ q / V ≤ 1 := by linarith
  -- amounts
  have hdiff : |toQ D - toQ q| ≤ 3 * V := by
    rw [abs_le] at hDV ⊢
    constructor <;> linarith [hDV.1, hDV.2]
  have hX : ∀ X : F32, IsFin X → ∀ d : ℚ, |d| ≤ 3 * V → |toQ X - d| ≤ |d| / 16777216 + tinyQ →
      |toQ X| ≤ 2 ^ 82 * toQ p + 2 ^ 82 := by
    intro X _ d hd he
    have h1 : |toQ X| ≤ 4 * V := by
      have h2 : |toQ X| ≤ |d| + |toQ X - d| := by
        have := abs_add_le d (toQ X - d)
        rwa [add_sub_cancel] at this
      have h3 : tinyQ ≤ V / 2 := by rw [hT]; norm_num at *; linarith
      generalize |d| = dd at *
      linarith
    norm_num at *; linarith
  obtain ⟨fX, eX⟩ := sub_fin fD hq.1 (by refine hdiff.trans ?_; norm_num at *; linarith)
  obtain ⟨fY, eY⟩ := sub_fin hq.1 fD (by rw [abs_sub_comm]; refine hdiff.trans ?_; norm_num at *; linarith)
  have nX := scale_err V0 eX
  have nY := scale_err V0 eY
  have habs : ∀ d : ℚ, |d| / V = |d / V| := fun d => by rw [abs_div, abs_of_pos V0]
  rw [habs, sub_div] at nX nY
  obtain ⟨fx, ex⟩ := amount_fin fX hp V0 hVp (hX _ fX _ hdiff eX)
  obtain ⟨fy, ey⟩ := amount_fin fY hp V0 hVp (hX _ fY _ (by rw [abs_sub_comm]; exact hdiff) eY)
  -- the limits of the band
  have hup0 : (0 : ℚ) ≤ 1 + toQ cfg.epsilon := by linarith
  have hdn0 : (0 : ℚ) ≤ 1 - toQ cfg.epsilon := by linarith
  obtain ⟨fe, ee⟩ := add_fin fin_one fε (by rw [toQ_one, abs_of_nonneg hup0]; norm_num; linarith)
  rw [toQ_one, abs_of_nonneg hup0] at ee
  obtain ⟨fd, ed⟩ := sub_fin fin_one fε (by rw [toQ_one, abs_of_nonneg hdn0]; norm_num; linarith)
  rw [toQ_one, abs_of_nonneg hdn0] at ed
  have be := one_add_between (m := cfg.epsilon) ⟨fε, ε0, ε1.trans (by norm_num)⟩
  have e0 : 0 ≤ toQ (lit F32 1 +. cfg.epsilon) := le_trans (by positivity) be.2.1
  have d0 : 0 ≤ toQ (lit F32 1 -. cfg.epsilon) := by
    refine toQ_of_geZero ?_ fd
    rw [geZero_iff]
    refine ⟨fun h => ?_, Fl.sub_notNeg (a := lit F32 1) (b := cfg.epsilon) ((Fl.lt_eq_false_iff fin_one fε).mpr (by rw [toQ_one]; exact ε1))⟩
    rw [h] at fd; exact fd
  have hT1 : tinyQ ≤ 1 / 1000000000 := by rw [hT]; norm_num
  have e3 : toQ (lit F32 1 +. cfg.epsilon) ≤ 3 := by have := (abs_le.mp ee).2; linarith
  have d3 : toQ (lit F32 1 -. cfg.epsilon) ≤ 3 := by have := (abs_le.mp ed).2; linarith
  obtain ⟨fu, eu⟩ := mul_fin fα fe (by
    rw [abs_of_nonneg (mul_nonneg α0 e0)]
    exact (mul_le_mul α1 e3 e0 (by norm_num)).trans (by norm_num))
  rw [abs_of_nonneg (mul_nonneg α0 e0)] at eu
  obtain ⟨fv, ev⟩ := mul_fin fα fd (by
    rw [abs_of_nonneg (mul_nonneg α0 d0)]
    exact (mul_le_mul α1 d3 d0 (by norm_num)).trans (by norm_num))
  rw [abs_of_nonneg (mul_nonneg α0 d0)] at ev
  have hnX : tinyQ / V ≤ 1 / 1000000000 := ht
  refine ⟨V0, hshare, fβ, band_edge α0 α1 hup0 (by linarith) hT0.le hT1 ee eu, fu,
    band_edge α0 α1 hdn0 (by linarith) hT0.le hT1 ed ev, fv, ⟨fx, ?_⟩, ⟨fy, ?_⟩⟩
  · rw [hα2]
    exact core_amount (t := 1 / 1000000000) hD hy0 hy1 α0 α1 (by norm_num) le_rfl (nX.trans (by linarith)) ex
  · have e1 : toQ cfg.alpha - s = -(1 - toQ cfg.alpha - toQ q / V) := by linarith
    rw [e1]
    have k := core_amount (t := 1 / 1000000000) (X := -(toQ (q -. D) / V))
      (z := -(toQ ((q -. D) /. p) * toQ p / V)) hD hy0 hy1 α0 α1 (by norm_num) le_rfl ?_ ?_
    · rw [abs_sub_comm] at k
      convert k using 2
      ring
    · rw [show -(toQ (q -. D) / V) - (toQ D / V - toQ q / V) = -(toQ (q -. D) / V - (toQ q / V - toQ D / V)) by ring,
        abs_neg, abs_sub_comm (toQ D / V)]
      exact nY.trans (by linarith)
    · rw [show -(toQ ((q -. D) /. p) * toQ p / V) - -(toQ (q -. D) / V) =
          -(toQ ((q -. D) /. p) * toQ p / V - toQ (q -. D) / V) by ring, abs_neg, abs_neg]
      exact ey

/-- After giving away `x` units of base currency at the price at which the portfolio was valued, the value is the same and
the share of the base currency changes by the share of `x`. -/
private theorem allocation_after {b q p x : ℚ} :
    allocation (b - x) (q + x * p) p = allocation b q p - x * p / (b * p + q) := by
  unfold allocation
  rw [show (b - x) * p + (q + x * p) = b * p + q by ring, ← sub_div]
  congr 1
  ring

variable (cfg : RebalancingConfig F32) (s s' : RebalancingState F32) (t : OhlcTick F32) (sg : List F32) (base quote : F32)
  (os : List (Order F32))

/-- **C94** (when). In binary32, with `alpha` and `epsilon` between 0 and 1: if the exact share of the base currency is
2^-20 or more above the band, `Update` emits exactly one market sell order, and if it is 2^-20 or more below the band,
exactly one market buy order; inside the band, 2^-20 away from its edges, it emits no market order. -/
theorem C94_when (hα : Between 0 1 cfg.alpha) (hε : Between 0 1 cfg.epsilon)
    (hp : Between (1 / 2 ^ 40) (2 ^ 40) t.close) (hb : Holding base) (hq : Holding quote)
    (h : rebalancingUpdate cfg s t sg base quote = .ok (s', os)) :
    let share := allocation (toQ base) (toQ quote) (toQ t.close)
    (bandEdge (toQ cfg.alpha) (toQ cfg.epsilon) .sell + 1 / 2 ^ 20 ≤ share → ∃ x, os = [marketOrder .sell x]) ∧
    (share ≤ bandEdge (toQ cfg.alpha) (toQ cfg.epsilon) .buy - 1 / 2 ^ 20 → ∃ x, os = [marketOrder .buy x]) ∧
    (bandEdge (toQ cfg.alpha) (toQ cfg.epsilon) .buy + 1 / 2 ^ 20 ≤ share →
      share ≤ bandEdge (toQ cfg.alpha) (toQ cfg.epsilon) .sell - 1 / 2 ^ 20 → ∀ o ∈ os, ¬ isMarket o) := by
  obtain ⟨-, -, hsome, -, rfl⟩ := rebalancingUpdate_ok h
  have hsome' : 0 < toQ base ∨ 0 < toQ quote := by
    rcases hsome with h | h
    · exact .inl (toQ_of_pos hb.1 h)
    · exact .inr (toQ_of_pos hq.1 h)
  have k := parts hα hε hp hb hq hsome'
  have hshare := abs_le.mp k.share
  have hup := abs_le.mp k.up
  have hdown := abs_le.mp k.down
  have hα0 := hα.2.1
  have hε0 := hε.2.1
  have hαε : 0 ≤ toQ cfg.alpha * toQ cfg.epsilon := mul_nonneg hα0 hε0
  dsimp only [bandEdge]
  unfold rebalancingOrders
  dsimp only
  have sellIff : (base *. t.close /. (base *. t.close +. quote) >. cfg.alpha *. (lit F32 1 +. cfg.epsilon)) = true ↔ _ :=
    Fl.lt_iff k.finUp k.finShare
  have buyIff : (base *. t.close /. (base *. t.close +. quote) <. cfg.alpha *. (lit F32 1 -. cfg.epsilon)) = true ↔ _ :=
    Fl.lt_iff k.finShare k.finDown
  refine ⟨fun h1 => ?_, fun h1 => ?_, fun h1 h2 => ?_⟩
  · rw [if_pos (sellIff.mpr (by norm_num at h1; linarith [hshare.1, hup.2]))]
    exact ⟨_, rfl⟩
  · rw [if_neg (fun hh => by
      have := sellIff.mp hh
      norm_num at h1
      linarith [hshare.2, hup.1]), if_pos (buyIff.mpr (by norm_num at h1; linarith [hshare.2, hdown.1]))]
    exact ⟨_, rfl⟩
  · rw [if_neg (fun hh => by
      have := sellIff.mp hh
      norm_num at h2
      linarith [hshare.2, hup.1]), if_neg (fun hh => by
      have := buyIff.mp hh
      norm_num at h1
      linarith [hshare.1, hdown.2])]
    intro o ho
    split_ifs at ho <;> simp [limitOrder] at ho <;> rcases ho with rfl | rfl <;> simp [isMarket]

/-- **C94** (how much). The amount of a market order is a number, and trading exactly that much at the observed price
(without fees) brings the share of the base currency within 2^-20 of `alpha`; a sell order is for less than the base
balance if `alpha` is at least 2^-20. -/
theorem C94_target (hα : Between 0 1 cfg.alpha) (hε : Between 0 1 cfg.epsilon)
    (hp : Between (1 / 2 ^ 40) (2 ^ 40) t.close) (hb : Holding base) (hq : Holding quote)
    (h : rebalancingUpdate cfg s t sg base quote = .ok (s', os)) (x : F32) :
    (os = [marketOrder .sell x] → IsFin x ∧
      |allocation (toQ base - toQ x) (toQ quote + toQ x * toQ t.close) (toQ t.close) - toQ cfg.alpha| ≤ 1 / 2 ^ 20 ∧
      (1 / 2 ^ 20 ≤ toQ cfg.alpha → toQ x ≤ toQ base)) ∧
    (os = [marketOrder .buy x] → IsFin x ∧
      |allocation (toQ base + toQ x) (toQ quote - toQ x * toQ t.close) (toQ t.close) - toQ cfg.alpha| ≤ 1 / 2 ^ 20) := by
  obtain ⟨-, -, hsome, -, rfl⟩ := rebalancingUpdate_ok h
  have hsome' : 0 < toQ base ∨ 0 < toQ quote := by
    rcases hsome with h | h
    · exact .inl (toQ_of_pos hb.1 h)
    · exact .inr (toQ_of_pos hq.1 h)
  have k := parts hα hε hp hb hq hsome'
  have p0 : 0 < toQ t.close := lt_of_lt_of_le (by positivity) hp.2.1
  unfold rebalancingOrders
  dsimp only
  constructor
  · intro ho
    have hx : x = ((lit F32 1 -. cfg.alpha) *. (base *. t.close +. quote) -. quote) /. t.close := by
      split_ifs at ho <;> simp [limitOrder, marketOrder] at ho
      exact ho.symm
    obtain ⟨f, e⟩ := k.sell
    rw [← hx] at f e
    rw [allocation_after]
    have h1 : |allocation (toQ base) (toQ quote) (toQ t.close) -
        toQ x * toQ t.close / (toQ base * toQ t.close + toQ quote) - toQ cfg.alpha| ≤ 9 / 16777216 := by
      rw [abs_sub_comm] at e
      convert e using 2
      ring
    refine ⟨f, h1.trans (by norm_num), fun hα2 => ?_⟩
    have h2 := (abs_le.mp h1).1
    have h3 : toQ x * toQ t.close / (toQ base * toQ t.close + toQ quote) ≤
        toQ base * toQ t.close / (toQ base * toQ t.close + toQ quote) := by
      unfold allocation at h2
      norm_num at hα2
      linarith
    rw [div_le_div_iff_of_pos_right k.value] at h3
    exact le_of_mul_le_mul_right h3 p0
  · intro ho
    have hx : x = (quote -. (lit F32 1 -. cfg.alpha) *. (base *. t.close +. quote)) /. t.close := by
      split_ifs at ho <;> simp [limitOrder, marketOrder] at ho
      exact ho.symm
    obtain ⟨f, e⟩ := k.buy
    rw [← hx] at f e
    refine ⟨f, ?_⟩
    have := allocation_after (b := toQ base) (q := toQ quote) (p := toQ t.close) (x := -toQ x)
    rw [sub_neg_eq_add, neg_mul, ← sub_eq_add_neg, neg_div, sub_neg_eq_add] at this
    rw [this]
    refine le_trans (le_of_eq ?_) (e.trans (by norm_num : (9 : ℚ) / 16777216 ≤ 1 / 2 ^ 20))
    congr 1
    ring

/-! ### Non-vacuity: half base, half quote at price 3 -/

/-- The default parameters of the trader: `alpha` 50 %, `epsilon` 5 % (rounded to floats). -/
def fbCfg : RebalancingConfig F32 := ⟨lit F32 (1 / 2), lit F32 (1 / 20)⟩

/-- A tick that closes at 3. -/
def fbTick : OhlcTick F32 := ⟨60, lit F32 3, lit F32 3, lit F32 3, lit F32 3, lit F32 1⟩

example : Between 0 1 fbCfg.alpha ∧ Between 0 1 fbCfg.epsilon ∧ Between (1 / 2 ^ 40) (2 ^ 40) fbTick.close := by
  refine ⟨⟨?_, ?_⟩, ⟨?_, ?_⟩, ⟨?_, ?_⟩⟩
  all_goals first | exact ofRat_fin (by norm_num) | decide +kernel

example : Holding (lit F32 7) ∧ Holding (lit F32 4) := by
  refine ⟨⟨?_, ?_⟩, ⟨?_, ?_⟩⟩
  all_goals first | exact ofRat_fin (by norm_num) | decide +kernel

/-- 7 units worth 21 and 4 in cash: above the band, sell `17/6`. -/
example : rebalancingOrders fbCfg fbTick.close (lit F32 7) (lit F32 4) = [marketOrder .sell (.fin (11883861 / 4194304))] := by
  decide +kernel

/-- 1 unit worth 3 and 4 in cash: below the band, buy `1/6`. -/
example : bandEdge (toQ fbCfg.alpha) (toQ fbCfg.epsilon) .buy - 1 / 2 ^ 20 ≥
    allocation (toQ (lit F32 1)) (toQ (lit F32 4)) (toQ fbTick.close) := by decide +kernel

end Verif.Props
