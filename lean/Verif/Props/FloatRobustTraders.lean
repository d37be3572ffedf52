import Verif.Props.FloatRobust
import Verif.Props.StopTrader
import Verif.Props.Rebalancing

/-!
# C87 for the built-in traders
-/

set_option linter.unusedSectionVars false

namespace Verif.Props
open FloatOps Spec FloatMoney FloatNN
open Fl (toQ IsFin)

theorem toQ_one : toQ (lit F32 1) = 1 := by rw [lit_one]; rfl
theorem fin_one : IsFin (lit F32 1) := by rw [lit_one]; trivial

theorem scaled_pos {x y : F32} (hx : Between (1 / 2 ^ 25) (2 ^ 61) x) (hy : Between (1 / 2 ^ 40) (2 ^ 40) y) :
    (lit F32 0 <. x *. y) = true := by
  obtain ⟨fx, x0, x1⟩ := hx
  obtain ⟨fy, y0, y1⟩ := hy
  have hx0 : 0 < toQ x := lt_of_lt_of_le (by positivity) x0
  have h0 : 1 / 2 ^ 65 ≤ toQ x * toQ y := by
    refine le_trans ?_ (mul_le_mul x0 y0 (by positivity) hx0.le); norm_num
  have h1 : toQ x * toQ y ≤ 2 ^ 101 := by
    refine le_trans (mul_le_mul x1 y1 (le_trans (by positivity) y0) (by positivity)) (by norm_num)
  have hn : 0 ≤ toQ x * toQ y := le_trans (by positivity) h0
  obtain ⟨f, e⟩ := mul_fin fx fy (by rw [abs_of_nonneg hn]; exact h1.trans (by norm_num))
  rw [abs_of_nonneg hn] at e
  refine pos_of_fin f ?_
  have := (abs_le.mp e).1
  have hT : tinyQ = 1 / 2 ^ 150 := rfl
  norm_num at *
  linarith

theorem one_sub_between {m : F32} (h : Between 0 (1 - 1 / 2 ^ 24) m) : Between (1 / 2 ^ 25) (2 ^ 61) (lit F32 1 -. m) := by
  obtain ⟨f, m0, m1⟩ := h
  have h0 : (0 : ℚ) ≤ 1 - toQ m := by norm_num at *; linarith
  obtain ⟨f2, e2⟩ := sub_fin fin_one f (by rw [toQ_one, abs_of_nonneg h0]; norm_num; linarith)
  rw [toQ_one, abs_of_nonneg h0] at e2
  have h1 := (abs_le.mp e2).1
  have h2 := (abs_le.mp e2).2
  have hT : tinyQ = 1 / 2 ^ 150 := rfl
  refine ⟨f2, ?_, ?_⟩ <;> norm_num at * <;> linarith

theorem one_add_between {m : F32} (h : Between 0 (2 ^ 60) m) : Between (1 / 2 ^ 25) (2 ^ 61) (lit F32 1 +. m) := by
  obtain ⟨f, m0, m1⟩ := h
  have h0 : (0 : ℚ) ≤ 1 + toQ m := by linarith
  obtain ⟨f2, e2⟩ := add_fin fin_one f (by rw [toQ_one, abs_of_nonneg h0]; norm_num at *; linarith)
  rw [toQ_one, abs_of_nonneg h0] at e2
  have h1 := (abs_le.mp e2).1
  have h2 := (abs_le.mp e2).2
  have hT : tinyQ = 1 / 2 ^ 150 := rfl
  refine ⟨f2, ?_, ?_⟩ <;> norm_num at * <;> linarith

theorem pos_trans {x y : F32} (h : (lit F32 0 <. x) = true) (h' : (x <. y) = true) : (lit F32 0 <. y) = true := by
  change Fl.lt (.fin 0) x = true at h
  change Fl.lt x y = true at h'
  change Fl.lt (.fin 0) y = true
  cases x <;> cases y <;> simp_all
  · exact lt_irrefl _ (h.trans h')
  · exact h.trans h'

theorem le_toQ {x y : F32} (hx : IsFin x) (hy : IsFin y) : Fl.le x y = true ↔ toQ x ≤ toQ y := by
  rw [le_iff_lt_or_eq]
  unfold Fl.le
  cases x <;> cases y <;> simp_all [IsFin, toQ]

/-- Market value of a holding. -/
theorem worth_nonneg {b p : F32} (hb : Holding b) (hp : Between (1 / 2 ^ 40) (2 ^ 40) p) :
    IsFin (b *. p) ∧ 0 ≤ toQ (b *. p) := by
  have h0 : 0 < toQ p := lt_of_lt_of_le (by positivity) hp.2.1
  have hn : 0 ≤ toQ b * toQ p := mul_nonneg (holding_nonneg hb) h0.le
  have h1 : toQ b * toQ p ≤ 2 ^ 80 * 2 ^ 40 := mul_le_mul hb.2.2 hp.2.2 h0.le (by positivity)
  obtain ⟨f, -⟩ := mul_fin hb.1 hp.1 (by rw [abs_of_nonneg hn]; exact h1.trans (by norm_num))
  exact ⟨f, toQ_of_geZero (geZero_mul' hp.1 h0 (holding_geZero hb)) f⟩

theorem worth_zero {b p : F32} (hb : Holding b) (hp : Between (1 / 2 ^ 40) (2 ^ 40) p) (h : toQ b = 0) :
    toQ (b *. p) = 0 := by
  show toQ (Fl.mul b p) = 0
  rw [Fl.mul_num hb.1 hp.1, if_pos (by rw [h]; simp), Fl.toQ_zero]

section
variable [Libm F32]

theorem nextStop_pos32 {cfg : StopConfig F32} (hm : Between 0 (1 - 1 / 2 ^ 24) cfg.margin)
    (hmm : Between 0 (2 ^ 60) cfg.moveMargin) {s : StopState F32}
    (hs : s.mode = .none ∨ (lit F32 0 <. s.stopPrice) = true) {t : OhlcTick F32} (ht : CleanTick32 t) (base quote : F32) :
    (lit F32 0 <. nextStop cfg s t base quote) = true := by
  unfold nextStop
  dsimp only
  split_ifs with h1 h2
  · exact scaled_pos (one_sub_between hm) ht.close
  · refine scaled_pos (one_add_between ⟨hm.1, hm.2.1, hm.2.2.trans (by norm_num)⟩) ht.close
  · push Not at h1
    have hne := stopMode_ne t.close base quote
    have hs' : (lit F32 0 <. s.stopPrice) = true := by
      rcases hs with h | h
      · rw [← h1.2] at h; exact absurd h hne
      · exact h
    cases hmode : stopMode t.close base quote with
    | none => exact absurd hmode hne
    | long =>
      unfold updateStopPrice
      simp only [if_true]
      split_ifs with h3
      · dsimp only
        unfold fmax
        split
        · rename_i h4; exact pos_trans hs' h4
        · exact hs'
      · exact hs'
    | cash =>
      unfold updateStopPrice
      simp only [reduceCtorEq, if_false, decide_true, assertThat_true, bind, Except.bind, pure, Except.pure]
      have hth := scaled_pos (one_add_between hmm) ht.close
      split_ifs with h3
      · dsimp only
        unfold fmin
        split
        · unfold fmax
          split
          · rename_i h4; exact pos_trans hth h4
          · exact hth
        · exact hs'
      · exact hs'

theorem stop_safe32 (fmt : Format F32) {cfg : StopConfig F32} (hc : CleanParameters32 (.stop cfg)) :
    SafeTrader32 (stopTrader fmt cfg) .init
      (fun s l => s.lastTs ≤ l ∧ (s.mode = .none ∨ (lit F32 0 <. s.stopPrice) = true)) where
  start := ⟨le_refl _, .inl rfl⟩
  step := by
    intro s l t sg base quote hs ht hl hb hq hsome
    have hclose : 0 < toQ t.close := lt_of_lt_of_le (by positivity) ht.close.2.1
    obtain ⟨r, hr⟩ := (C56_returns_iff cfg s t sg base quote).mpr ⟨lt_of_le_of_lt hs.1 hl, pos_of_fin ht.close.1 hclose,
      hsome.imp (pos_of_fin hb.1) (pos_of_fin hq.1)⟩
    obtain ⟨s', os⟩ := r
    obtain ⟨-, -, -, h1, h2⟩ := stopUpdate_ok hr
    have hp := nextStop_pos32 hc.1 hc.2 hs.2 ht base quote
    refine ⟨s', os, hr, ?_, ?_⟩
    · subst h1; exact ⟨le_refl _, .inr hp⟩
    · intro o ho
      rw [h2, List.mem_singleton] at ho
      subst ho
      obtain ⟨fw, w0⟩ := worth_nonneg hb ht.close
      split_ifs with hlong
      · refine ⟨⟨.stop, .sell, rfl, rfl, .inr ⟨_, rfl, hp⟩, base, pos_of_fin hb.1 ?_, .inl rfl⟩, by simp⟩
        rcases (holding_nonneg hb).eq_or_lt with h0 | h0
        · exfalso
          have hw := worth_zero hb ht.close h0.symm
          rcases hsome with h | h
          · linarith
          · have := (le_toQ hq.1 fw).mp hlong
            linarith
        · exact h0
      · refine ⟨⟨.stop, .buy, rfl, rfl, .inr ⟨_, rfl, hp⟩, quote, ?_, .inr rfl⟩, by simp⟩
        have := lt_of_not_le32 (holding_geZero hq) (geZero_of_fin fw w0) (Bool.not_eq_true _ ▸ hlong)
        exact pos_of_fin hq.1 (lt_of_le_of_lt w0 ((Fl.lt_iff fw hq.1).mp this))
end

/-! ### Rebalancing -/

theorem pos_of_geZero {x : F32} (h : GeZero x) (h0 : IsFin x → 0 < toQ x) : (lit F32 0 <. x) = true := by
  rw [geZero_iff] at h
  change Fl.lt (.fin 0) x = true
  cases x <;> simp_all [IsFin, toQ]

/-- A quotient that does not underflow is positive (it may be infinite). -/
theorem div_pos32 {x y : F32} (hx : IsFin x) (hy : IsFin y) (hy0 : 0 < toQ y) (h : 1 / 2 ^ 148 ≤ toQ x / toQ y) :
    (lit F32 0 <. x /. y) = true := by
  have hd : 0 < toQ x / toQ y := lt_of_lt_of_le (by positivity) h
  have hx0 : 0 < toQ x := by
    rcases lt_or_ge 0 (toQ x) with h | h
    · exact h
    · exact absurd (div_nonpos_of_nonpos_of_nonneg h hy0.le) (not_le.mpr hd)
  refine pos_of_geZero (geZero_div hy hy0 (geZero_of_fin hx hx0.le)) (fun hf => ?_)
  have e := (Fl.div_err (a := x) hy hf).2.2
  change |toQ (x /. y) - _| ≤ _ at e
  rw [err32, abs_of_nonneg hd.le] at e
  have := (abs_le.mp e).1
  have hT : tinyQ = 1 / 2 ^ 150 := rfl
  norm_num at *
  linarith

section margins
variable {T B P q r α ε β e u c D : ℚ} (hT0 : 0 ≤ T) (hT1 : T ≤ 1 / 1000000000000) (hTP : T ≤ P / 1000000000000) (hP : 0 < P)
  (hB : B = r * P) (hr0 : 0 ≤ r) (hq : 0 ≤ q) (hsum : |P - (B + q)| ≤ (B + q) / 16777216 + T)
  (hα0 : 0 ≤ α) (hα1 : α ≤ 1) (hε0 : 0 ≤ ε) (hε1 : ε ≤ 1) (hβ : |β - r| ≤ r / 16777216 + T)
  (hc : |c - (1 - α)| ≤ (1 - α) / 16777216 + T) (hD : |D - c * P| ≤ c * P / 16777216 + T) (hc0 : 0 ≤ c)
  (hband : 1 / 65536 ≤ α * ε)
include hT0 hT1 hTP hP hB hr0 hq hsum hα0 hα1 hε0 hε1 hβ hc hD hc0 hband

theorem sell_margin (he : |e - (1 + ε)| ≤ (1 + ε) / 16777216 + T) (hu : |u - α * e| ≤ α * e / 16777216 + T)
    (h : u < β) : P / 131072 ≤ D - q ∧ 0 < r := by
  rw [abs_le] at *
  have hBq : B + q ≤ 2 * P := by linarith [hsum.1]
  have hr2 : r ≤ 2 := by
    by_contra hh
    push Not at hh
    have : 2 * P < r * P := by nlinarith
    linarith
  have k1 : α * (1 + ε) - 3 / 16777216 ≤ α * e := by
    have : 1 + ε - 3 / 16777216 ≤ e := by linarith [he.1]
    have := mul_le_mul_of_nonneg_left this hα0
    nlinarith
  have k2 : α * e ≤ 3 := by
    have h3 : e ≤ 3 := by linarith [he.2]
    nlinarith
  have k3 : α + α * ε - 7 / 16777216 ≤ u := by nlinarith [hu.1]
  have k4 : α + α * ε - 10 / 16777216 ≤ r := by linarith [hβ.1, hβ.2]
  have k5 : (1 - α) * P - 2 / 16777216 * P ≤ c * P := by
    have : 1 - α - 2 / 16777216 ≤ c := by linarith [hc.1]
    have := mul_le_mul_of_nonneg_right this hP.le
    linarith
  have k6 : c * P ≤ 2 * P := by
    have : c ≤ 2 := by linarith [hc.2]
    exact mul_le_mul_of_nonneg_right this hP.le
  have k7 : (α + α * ε - 10 / 16777216) * P ≤ r * P := mul_le_mul_of_nonneg_right k4 hP.le
  have k8 : 1 / 65536 * P ≤ α * ε * P := mul_le_mul_of_nonneg_right hband hP.le
  have : (1 - α) * P = P - α * P := by ring
  have : (α + α * ε - 10 / 16777216) * P = α * P + α * ε * P - 10 / 16777216 * P := by ring
  exact ⟨by linarith [hD.1, hsum.1, hsum.2], by linarith⟩

theorem buy_margin (he : |e - (1 - ε)| ≤ (1 - ε) / 16777216 + T) (hu : |u - α * e| ≤ α * e / 16777216 + T)
    (h : β < u) : P / 131072 ≤ q - D := by
  rw [abs_le] at *
  have hBq : B + q ≤ 2 * P := by linarith [hsum.1]
  have hr2 : r ≤ 2 := by
    by_contra hh
    push Not at hh
    have : 2 * P < r * P := by nlinarith
    linarith
  have k1 : α * e ≤ α * (1 - ε) + 3 / 16777216 := by
    have : e ≤ 1 - ε + 3 / 16777216 := by linarith [he.2]
    have := mul_le_mul_of_nonneg_left this hα0
    nlinarith
  have k2 : α * e ≤ 3 := by
    have h3 : e ≤ 3 := by linarith [he.2]
    nlinarith
  have k3 : u ≤ α - α * ε + 7 / 16777216 := by nlinarith [hu.2]
  have k4 : r ≤ α - α * ε + 10 / 16777216 := by linarith [hβ.1, hβ.2]
  have k5 : c * P ≤ (1 - α) * P + 2 / 16777216 * P := by
    have : c ≤ 1 - α + 2 / 16777216 := by linarith [hc.2]
    have := mul_le_mul_of_nonneg_right this hP.le
    linarith
  have k6 : c * P ≤ 2 * P := by
    have : c ≤ 2 := by linarith [hc.2]
    exact mul_le_mul_of_nonneg_right this hP.le
  have k7 : r * P ≤ (α - α * ε + 10 / 16777216) * P := mul_le_mul_of_nonneg_right k4 hP.le
  have k8 : 1 / 65536 * P ≤ α * ε * P := mul_le_mul_of_nonneg_right hband hP.le
  have : (1 - α) * P = P - α * P := by ring
  have : (α - α * ε + 10 / 16777216) * P = α * P - α * ε * P + 10 / 16777216 * P := by ring
  linarith [hD.2, hsum.1, hsum.2]

end margins

theorem lit_micro : IsFin (lit F32 (1 / 1000000)) ∧ 1 / 2 ^ 20 ≤ toQ (lit F32 (1 / 1000000)) := by
  constructor
  · exact ofRat_fin (by norm_num)
  · decide +kernel

theorem lit_hundred : IsFin (lit F32 100) ∧ toQ (lit F32 100) = 100 := by
  constructor
  · exact ofRat_fin (by norm_num)
  · decide +kernel

theorem fin_between {x y z : F32} (h1 : (x <. y) = true) (h2 : (y <. z) = true) : IsFin y := by
  change Fl.lt x y = true at h1
  change Fl.lt y z = true at h2
  cases x <;> cases y <;> cases z <;> simp_all [IsFin]

theorem fin_pos_of_gt {x y : F32} (hx : IsFin x) (hx0 : 0 ≤ toQ x) (hy : IsFin y) (h : (x <. y) = true) : 0 < toQ y :=
  lt_of_le_of_lt hx0 ((Fl.lt_iff hx hy).mp h)

/-- The amount of the limit orders: `base * epsilon / d` with a divisor that is not too large. -/
theorem limit_amount {b e d : F32} (hb : Between (1 / 2 ^ 20) (2 ^ 80) b) (he : Between (1 / 2 ^ 16) 1 e)
    (hd : Between (1 / 2 ^ 25) (2 ^ 61) d) : (lit F32 0 <. b *. e /. d) = true := by
  obtain ⟨fb, b0, b1⟩ := hb
  obtain ⟨fe, e0, e1⟩ := he
  obtain ⟨fd, d0, d1⟩ := hd
  have hb0 : 0 < toQ b := lt_of_lt_of_le (by positivity) b0
  have he0 : 0 < toQ e := lt_of_lt_of_le (by positivity) e0
  have hd0 : 0 < toQ d := lt_of_lt_of_le (by positivity) d0
  have h0 : 1 / 2 ^ 36 ≤ toQ b * toQ e := le_trans (by norm_num) (mul_le_mul b0 e0 (by positivity) hb0.le)
  have h1 : toQ b * toQ e ≤ 2 ^ 80 := le_trans (mul_le_mul b1 e1 he0.le (by positivity)) (by norm_num)
  have hn : 0 ≤ toQ b * toQ e := le_trans (by positivity) h0
  obtain ⟨f, er⟩ := mul_fin fb fe (by rw [abs_of_nonneg hn]; exact h1.trans (by norm_num))
  rw [abs_of_nonneg hn] at er
  have hT : tinyQ = 1 / 2 ^ 150 := rfl
  have h2 : 1 / 2 ^ 37 ≤ toQ (b *. e) := by
    have := (abs_le.mp er).1
    norm_num at *
    linarith
  refine div_pos32 f fd hd0 ?_
  rw [le_div_iff₀ hd0]
  calc 1 / 2 ^ 148 * toQ d ≤ 1 / 2 ^ 148 * 2 ^ 61 := mul_le_mul_of_nonneg_left d1 (by positivity)
    _ ≤ 1 / 2 ^ 37 := by norm_num
    _ ≤ _ := h2

theorem rebalancing_orders32 {cfg : RebalancingConfig F32} (hc : CleanParameters32 (.rebalancing cfg)) {p b q : F32}
    (hp : Between (1 / 2 ^ 40) (2 ^ 40) p) (hb : Holding b) (hq : Holding q) (hsome : 0 < toQ b ∨ 0 < toQ q) :
    ∀ o ∈ rebalancingOrders cfg p b q, GoodOrder o := by
  obtain ⟨⟨fα, α0, α1⟩, ⟨fε, ε0, ε1⟩, hband⟩ := hc
  have hT : tinyQ = 1 / 2 ^ 150 := rfl
  have p0 : 0 < toQ p := lt_of_lt_of_le (by positivity) hp.2.1
  have b0 := holding_nonneg hb
  have q0 := holding_nonneg hq
  have hεlo : 1 / 2 ^ 16 ≤ toQ cfg.epsilon := hband.trans (by nlinarith)
  have hε1 : toQ cfg.epsilon ≤ 1 := ε1.trans (by norm_num)
  -- the value of the base currency
  obtain ⟨fB, B0⟩ := worth_nonneg hb hp
  have hbp0 : 0 ≤ toQ b * toQ p := mul_nonneg b0 p0.le
  have hbp1 : toQ b * toQ p ≤ 2 ^ 120 := le_trans (mul_le_mul hb.2.2 hp.2.2 p0.le (by positivity)) (by norm_num)
  have eB := (mul_fin hb.1 hp.1 (by rw [abs_of_nonneg hbp0]; exact hbp1.trans (by norm_num))).2
  rw [abs_of_nonneg hbp0] at eB
  have hBlo : 0 < toQ b → toQ b * toQ p / 2 ≤ toQ (b *. p) ∧ 1 / 2 ^ 102 ≤ toQ (b *. p) := by
    intro h
    have hb1 : 1 / 2 ^ 61 ≤ toQ b := hb.2.1.resolve_left h.ne'
    have h0 : 1 / 2 ^ 101 ≤ toQ b * toQ p := le_trans (by norm_num) (mul_le_mul hb1 hp.2.1 (by positivity) b0)
    have := (abs_le.mp eB).1
    constructor <;> norm_num at * <;> linarith
  have hBhi : toQ (b *. p) ≤ 2 ^ 121 := by
    have := (abs_le.mp eB).2
    norm_num at *
    linarith
  have hqlo : 0 < toQ q → 1 / 2 ^ 61 ≤ toQ q := fun h => hq.2.1.resolve_left h.ne'
  -- the value of the portfolio
  have hS0 : 0 ≤ toQ (b *. p) + toQ q := by linarith
  have hS1 : toQ (b *. p) + toQ q ≤ 2 ^ 122 := by
    have := hq.2.2
    norm_num at *
    linarith
  have hSlo : 1 / 2 ^ 102 ≤ toQ (b *. p) + toQ q := by
    rcases hsome with h | h
    · have := (hBlo h).2; linarith
    · have := hqlo h; norm_num at *; linarith
  obtain ⟨fP, eP⟩ := add_fin fB hq.1 (by rw [abs_of_nonneg hS0]; exact hS1.trans (by norm_num))
  rw [abs_of_nonneg hS0] at eP
  set P := b *. p +. q with hPdef
  have hP2 : (toQ (b *. p) + toQ q) / 2 ≤ toQ P := by
    have := (abs_le.mp eP).1
    norm_num at *
    linarith
  have hPlo : 1 / 2 ^ 103 ≤ toQ P := le_trans (by norm_num at *; linarith) hP2
  have hPhi : toQ P ≤ 2 ^ 123 := by
    have := (abs_le.mp eP).2
    norm_num at *
    linarith
  have P0 : 0 < toQ P := lt_of_lt_of_le (by positivity) hPlo
  have hTP : tinyQ ≤ toQ P / 1000000000000 := by rw [hT]; norm_num at *; linarith
  have hT1 : tinyQ ≤ 1 / 1000000000000 := by rw [hT]; norm_num
  -- the share of the base currency
  have hr0 : 0 ≤ toQ (b *. p) / toQ P := div_nonneg B0 P0.le
  have hr2 : toQ (b *. p) / toQ P ≤ 2 := by rw [div_le_iff₀ P0]; linarith
  obtain ⟨fβ, eβ⟩ := div_fin fB fP P0.ne' (by rw [abs_of_nonneg hr0]; exact hr2.trans (by norm_num))
  rw [abs_of_nonneg hr0] at eβ
  have hBr : toQ (b *. p) = toQ (b *. p) / toQ P * toQ P := (div_mul_cancel₀ _ P0.ne').symm
  -- the target
  have hα1' : (0 : ℚ) ≤ 1 - toQ cfg.alpha := by linarith
  obtain ⟨fc, ec⟩ := sub_fin fin_one fα (by rw [toQ_one, abs_of_nonneg hα1']; norm_num; linarith)
  rw [toQ_one, abs_of_nonneg hα1'] at ec
  have c0 : 0 ≤ toQ (lit F32 1 -. cfg.alpha) := by
    refine toQ_of_geZero ?_ fc
    rw [geZero_iff]
    refine ⟨fun h => ?_, Fl.sub_notNeg (a := lit F32 1) (b := cfg.alpha) ((Fl.lt_eq_false_iff fin_one fα).mpr (by rw [toQ_one]; exact α1))⟩
    rw [h] at fc; exact fc
  have c2 : toQ (lit F32 1 -. cfg.alpha) ≤ 2 := by
    have := (abs_le.mp ec).2
    norm_num at *
    linarith
  have hcP0 : 0 ≤ toQ (lit F32 1 -. cfg.alpha) * toQ P := mul_nonneg c0 P0.le
  have hcP1 : toQ (lit F32 1 -. cfg.alpha) * toQ P ≤ 2 ^ 124 := le_trans (mul_le_mul c2 hPhi P0.le (by positivity)) (by norm_num)
  obtain ⟨fD, eD⟩ := mul_fin fc fP (by rw [abs_of_nonneg hcP0]; exact hcP1.trans (by norm_num))
  rw [abs_of_nonneg hcP0] at eD
  have hDhi : toQ ((lit F32 1 -. cfg.alpha) *. P) ≤ 2 ^ 125 := by
    have := (abs_le.mp eD).2
    norm_num at *
    linarith
  have hD0 : 0 ≤ toQ ((lit F32 1 -. cfg.alpha) *. P) :=
    toQ_of_geZero (geZero_mul' fP P0 (geZero_of_fin fc c0)) fD
  -- the limits of the band
  have hup0 : (0 : ℚ) ≤ 1 + toQ cfg.epsilon := by linarith
  have hdn0 : (0 : ℚ) ≤ 1 - toQ cfg.epsilon := by linarith
  obtain ⟨fe, ee⟩ := add_fin fin_one fε (by rw [toQ_one, abs_of_nonneg hup0]; norm_num; linarith)
  rw [toQ_one, abs_of_nonneg hup0] at ee
  obtain ⟨fd, ed⟩ := sub_fin fin_one fε (by rw [toQ_one, abs_of_nonneg hdn0]; norm_num; linarith)
  rw [toQ_one, abs_of_nonneg hdn0] at ed
  have be := one_add_between (m := cfg.epsilon) ⟨fε, ε0, hε1.trans (by norm_num)⟩
  have bd := one_sub_between (m := cfg.epsilon) ⟨fε, ε0, ε1.trans (by norm_num)⟩
  have e0 : 0 ≤ toQ (lit F32 1 +. cfg.epsilon) := le_trans (by positivity) be.2.1
  have d0 : 0 ≤ toQ (lit F32 1 -. cfg.epsilon) := le_trans (by positivity) bd.2.1
  have e3 : toQ (lit F32 1 +. cfg.epsilon) ≤ 3 := by
    have := (abs_le.mp ee).2
    norm_num at *
    linarith
  have d3 : toQ (lit F32 1 -. cfg.epsilon) ≤ 3 := by
    have := (abs_le.mp ed).2
    norm_num at *
    linarith
  obtain ⟨fu, eu⟩ := mul_fin fα fe (by
    rw [abs_of_nonneg (mul_nonneg α0 e0)]
    exact (mul_le_mul α1 e3 e0 (by norm_num)).trans (by norm_num))
  rw [abs_of_nonneg (mul_nonneg α0 e0)] at eu
  obtain ⟨fv, ev⟩ := mul_fin fα fd (by
    rw [abs_of_nonneg (mul_nonneg α0 d0)]
    exact (mul_le_mul α1 d3 d0 (by norm_num)).trans (by norm_num))
  rw [abs_of_nonneg (mul_nonneg α0 d0)] at ev
  intro o ho
  unfold rebalancingOrders at ho
  dsimp only at ho
  rw [← hPdef] at ho
  by_cases h1 : (b *. p /. P >. cfg.alpha *. (lit F32 1 +. cfg.epsilon)) = true
  · rw [if_pos h1, List.mem_singleton] at ho
    subst ho
    obtain ⟨hm, hr⟩ := sell_margin (tinyQ_pos.le) hT1 hTP P0 hBr hr0 q0 eP α0 α1 ε0 hε1 eβ ec eD c0
      (hband.trans' (by norm_num)) ee eu ((Fl.lt_iff fu fβ).mp h1)
    have hX0 : 0 ≤ toQ ((lit F32 1 -. cfg.alpha) *. P) - toQ q := le_trans (by positivity) hm
    obtain ⟨fX, eX⟩ := sub_fin fD hq.1 (by rw [abs_of_nonneg hX0]; norm_num at *; linarith)
    rw [abs_of_nonneg hX0] at eX
    refine ⟨⟨.market, .sell, rfl, rfl, .inl rfl, _, ?_, .inl rfl⟩, by simp [marketOrder]⟩
    have hb' : 0 < toQ b := by
      rcases b0.eq_or_lt with h | h
      · rw [worth_zero hb hp h.symm, zero_div] at hr; exact absurd hr (lt_irrefl _)
      · exact h
    refine div_pos32 fX hp.1 p0 ?_
    rw [le_div_iff₀ p0]
    have h5 : toQ P / 262144 ≤ toQ ((lit F32 1 -. cfg.alpha) *. P -. q) := by
      have := (abs_le.mp eX).1
      linarith
    have h6 := (hBlo hb').1
    have h7 : 1 / 2 ^ 61 * toQ p ≤ toQ b * toQ p := mul_le_mul_of_nonneg_right (hb.2.1.resolve_left hb'.ne') p0.le
    norm_num at *
    linarith
  rw [if_neg h1] at ho
  by_cases h2 : (b *. p /. P <. cfg.alpha *. (lit F32 1 -. cfg.epsilon)) = true
  · rw [if_pos h2, List.mem_singleton] at ho
    subst ho
    have hm := buy_margin (tinyQ_pos.le) hT1 hTP P0 hBr hr0 q0 eP α0 α1 ε0 hε1 eβ ec eD c0
      (hband.trans' (by norm_num)) ed ev ((Fl.lt_iff fβ fv).mp h2)
    have hX0 : 0 ≤ toQ q - toQ ((lit F32 1 -. cfg.alpha) *. P) := le_trans (by positivity) hm
    have hq2 := hq.2.2
    obtain ⟨fX, eX⟩ := sub_fin hq.1 fD (by rw [abs_of_nonneg hX0]; norm_num at *; linarith)
    rw [abs_of_nonneg hX0] at eX
    refine ⟨⟨.market, .buy, rfl, rfl, .inl rfl, _, ?_, .inl rfl⟩, by simp [marketOrder]⟩
    refine div_pos32 fX hp.1 p0 ?_
    rw [le_div_iff₀ p0]
    have hq' : 0 < toQ q := by
      have : 0 < toQ P / 131072 := by positivity
      linarith
    have h5 : toQ P / 262144 ≤ toQ (q -. (lit F32 1 -. cfg.alpha) *. P) := by
      have := (abs_le.mp eX).1
      linarith
    have h6 := hqlo hq'
    have h7 := hp.2.2
    norm_num at *
    linarith
  rw [if_neg h2] at ho
  by_cases h3 : (b >. lit F32 (1 / 1000000) && q >. lit F32 (1 / 1000000)) = true
  · rw [if_pos h3] at ho
    rw [Bool.and_eq_true] at h3
    have hb1 : Between (1 / 2 ^ 20) (2 ^ 80) b := by
      refine ⟨hb.1, ?_, hb.2.2⟩
      have := (Fl.lt_iff lit_micro.1 hb.1).mp h3.1
      exact lit_micro.2.trans this.le
    have hεb : Between (1 / 2 ^ 16) 1 cfg.epsilon := ⟨fε, hεlo, hε1⟩
    have h100 : IsFin (p /. lit F32 100) ∧ 0 ≤ toQ (p /. lit F32 100) := by
      have hd : 0 ≤ toQ p / 100 := by positivity
      have hp2 := hp.2.2
      obtain ⟨f, -⟩ := div_fin hp.1 lit_hundred.1 (by rw [lit_hundred.2]; norm_num)
        (by rw [lit_hundred.2, abs_of_nonneg hd]; norm_num at *; linarith)
      exact ⟨f, toQ_of_geZero (geZero_div lit_hundred.1 (by rw [lit_hundred.2]; norm_num) (geZero_of_fin hp.1 p0.le)) f⟩
    rw [List.mem_append] at ho
    rcases ho with ho | ho
    · split_ifs at ho with h4 h5
      · rw [List.mem_singleton] at ho
        subst ho
        rw [Bool.and_eq_true] at h5
        have hf := fin_between h5.1 h5.2
        have hpos := fin_pos_of_gt hp.1 p0.le hf h5.1
        exact ⟨⟨.limit, .sell, rfl, rfl, .inr ⟨_, rfl, pos_of_fin hf hpos⟩, _, limit_amount hb1 hεb be, .inl rfl⟩,
          fun _ => hf⟩
      · cases ho
      · cases ho
    · split_ifs at ho with h5
      · rw [List.mem_singleton] at ho
        subst ho
        rw [Bool.and_eq_true] at h5
        have hf := fin_between h5.2 h5.1
        have hpos := fin_pos_of_gt h100.1 h100.2 hf h5.2
        exact ⟨⟨.limit, .buy, rfl, rfl, .inr ⟨_, rfl, pos_of_fin hf hpos⟩, _, limit_amount hb1 hεb bd, .inl rfl⟩,
          fun _ => hf⟩
      · cases ho
  · rw [if_neg h3] at ho
    cases ho

theorem rebalancing_safe32 (fmt : Format F32) {cfg : RebalancingConfig F32} (hc : CleanParameters32 (.rebalancing cfg)) :
    SafeTrader32 (rebalancingTrader fmt cfg) .init (fun s l => s.lastTs ≤ l) where
  start := le_refl _
  step := by
    intro s l t sg base quote hs ht hl hb hq hsome
    have hclose : 0 < toQ t.close := lt_of_lt_of_le (by positivity) ht.close.2.1
    obtain ⟨r, hr⟩ := (C52_returns_iff cfg s t sg base quote).mpr ⟨lt_of_le_of_lt hs hl, pos_of_fin ht.close.1 hclose,
      hsome.imp (pos_of_fin hb.1) (pos_of_fin hq.1)⟩
    obtain ⟨s', os⟩ := r
    obtain ⟨-, -, -, h1, h2⟩ := rebalancingUpdate_ok hr
    refine ⟨s', os, hr, ?_, ?_⟩
    · subst h1; exact le_refl _
    · rw [h2]; exact rebalancing_orders32 hc ht.close hb hq hsome

variable [Libm F32] [Libm F64]

/-- **C87**. In binary32, a back-test of either built-in trader with sensible parameters on clean data with a clean
account returns a result with an account that is not empty, unless one of the executed orders left a balance above 2^80
(or an infinite one): no assertion fails and no call aborts.  Whatever `exp` and `log` compute; fast or not, logged or not, with any side input. -/
theorem C87_execution {recs : Option (List (SideInputRecord F32))} {side : Option (SideInput F32)}
    (hside : SideOf recs side) (fmt : Format F32) (b : BuiltIn F32) (hb : CleanParameters32 b) (c : AccountConfig F32)
    (hc : CleanAccount32 c) (ticks : List (OhlcTick F32)) (ht : CleanHistory32 ticks) (fast log : Bool) :
    (∃ r, (executeTrader c ticks side fast (b.emitter fmt).trader (b.emitter fmt).init log).out = .ok r ∧
      (ticks ≠ [] → Solvent r)) ∨
      ∃ x ∈ executions (executeTrader c ticks side fast (b.emitter fmt).trader (b.emitter fmt).init log).trace,
        Outgrown x.2.1 := by
  cases b with
  | rebalancing cfg =>
    exact C87_any_safe_trader hside c hc ticks ht (rebalancingTrader fmt cfg) .init _ (rebalancing_safe32 fmt hb) fast log
  | stop cfg =>
    exact C87_any_safe_trader hside c hc ticks ht (stopTrader fmt cfg) .init _ (stop_safe32 fmt hb) fast log

end Verif.Props
