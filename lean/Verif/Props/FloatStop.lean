import Verif.Lemmas.FloatStop
import Verif.Props.StopTrader

/-!
# C95: the daily rate of the stop trader in binary32
-/

set_option linter.unusedVariables false
set_option linter.unusedSectionVars false
set_option linter.style.haveILetI false

namespace Verif.Props
open FloatOps Spec FloatMoney FloatNN FloatVal FloatStop
open Fl (toQ IsFin)

private theorem castErr {a b e : ℚ} (h : |a - b| ≤ e / 16777216 + tinyQ) :
    |(a : ℝ) - (b : ℝ)| ≤ (e : ℝ) / 16777216 + 1 / 2 ^ 150 := by
  unfold tinyQ at h
  have h' : ((|a - b| : ℚ) : ℝ) ≤ ((e / 16777216 + 1 / 2 ^ 150 : ℚ) : ℝ) := Rat.cast_le.mpr h
  push_cast at h'
  exact h'

private theorem litInt {n : ℤ} (h : |n| < 2 ^ 24) : IsFin (lit F32 (n : ℚ)) ∧ toQ (lit F32 (n : ℚ)) = n := by
  have hq : |(n : ℚ)| ≤ 2 ^ 127 := by
    have : |(n : ℚ)| < 2 ^ 24 := by exact_mod_cast h
    exact this.le.trans (by norm_num)
  exact ⟨ofRat_fin hq, by rw [show toQ (lit F32 (n : ℚ)) = _ from ofRat_val hq, rndQ_int h]⟩

private theorem one32 : IsFin (lit F32 1) ∧ toQ (lit F32 1) = 1 := ⟨by decide +kernel, by decide +kernel⟩

section
variable [Libm F32]

/-- The factor per tick, before it is split into 1 and the increase. -/
private def tickExp (z : F32) (dt : ℤ) : F32 := Libm.exp (Libm.log z /. (lit F32 (kSecondsPerDay : ℚ) /. lit F32 (dt : ℚ)))

private theorem tickExp_err (hlib : AccurateLibm) {z : F32} {c : ℝ} (hc0 : 1 / 2 ≤ c) (hc1 : c ≤ 2) (hz : Between (1 / 2) 2 z)
    (he : |realOf z - c| ≤ |c| / 16777216 + 1 / 2 ^ 150) {dt : ℤ} (h0 : 1 ≤ dt) (h1 : dt ≤ 3600) :
    IsFin (tickExp z dt) ∧ |realOf (tickExp z dt) - c ^ ((dt : ℝ) / 86400)| ≤ 33 / 10 / 16777216 ∧
    |c ^ ((dt : ℝ) / 86400) - 1| ≤ 6 / 100 := by
  obtain ⟨fL, eL⟩ := hlib.log z hz
  obtain ⟨hz0, hz1, hz2⟩ := hz
  have rz1 : (1 : ℝ) / 2 ≤ realOf z := by
    have : ((1 / 2 : ℚ) : ℝ) ≤ (toQ z : ℝ) := Rat.cast_le.mpr hz1
    push_cast at this
    exact this
  have rz2 : realOf z ≤ 2 := by unfold realOf; exact_mod_cast hz2
  obtain ⟨l1, l2⟩ := log_err hc0 hc1 rz1 rz2 he eL
  obtain ⟨fk, ek⟩ := litInt (n := kSecondsPerDay) (by decide)
  obtain ⟨fd, ed⟩ := litInt (n := dt) (by rw [abs_lt]; constructor <;> omega)
  have hd0 : (1 : ℚ) ≤ dt := by exact_mod_cast h0
  have hd1 : (dt : ℚ) ≤ 3600 := by exact_mod_cast h1
  have hk : ((kSecondsPerDay : ℤ) : ℚ) = 86400 := by decide +kernel
  have hq : |(86400 : ℚ) / dt| ≤ 2 ^ 127 := by
    rw [abs_of_pos (by positivity), div_le_iff₀ (by linarith)]
    norm_num
    linarith
  obtain ⟨fT, eT⟩ := div_fin fk fd (by rw [ed]; linarith) (by rw [ek, ed, hk]; exact hq)
  rw [ek, ed] at eT
  unfold tickExp
  generalize (lit F32 (kSecondsPerDay : ℚ) /. lit F32 (dt : ℚ)) = T at *
  rw [hk] at eT
  have hT0 : 1 ≤ toQ T := by
    have : (24 : ℚ) ≤ 86400 / dt := by rw [le_div_iff₀ (by linarith)]; linarith
    have h2 : 0 ≤ (86400 : ℚ) / dt := by linarith
    rw [abs_of_nonneg h2] at eT
    have h3 := (abs_le.mp eT).1
    unfold tinyQ at h3
    norm_num at h3
    linarith
  have hL1 : |toQ (Libm.log z)| ≤ 1 := by
    have h3 : |realOf (Libm.log z)| ≤ 1 := by
      rw [abs_le] at l1 l2 ⊢
      constructor <;> linarith [l1.1, l1.2, l2.1, l2.2]
    unfold realOf at h3
    exact_mod_cast h3
  obtain ⟨fx, ex⟩ := div_fin fL fT (by linarith) (by
    rw [abs_div, div_le_iff₀ (abs_pos.mpr (by linarith)), abs_of_pos (show 0 < toQ T by linarith)]
    norm_num
    linarith)
  have eT' := castErr eT
  have ex' := castErr ex
  push_cast at eT' ex'
  obtain ⟨m1, m2, m3⟩ := exponent_err (c := c) (D := dt) (L := realOf (Libm.log z))
    (T := realOf T)
    (x := realOf (Libm.log z /. T)) l1 l2 (by exact_mod_cast h0) (by exact_mod_cast h1) eT' ex'
  have hb : Between (-1) 1 (Libm.log z /. T) := by
    unfold realOf at m3
    have := abs_le.mp m3
    exact ⟨fx, by exact_mod_cast this.1, by exact_mod_cast this.2⟩
  obtain ⟨fE, eE⟩ := hlib.exp _ hb
  obtain ⟨n1, n2⟩ := factor_err m1 m2 eE
  rw [Real.rpow_def_of_pos (by linarith)]
  exact ⟨fE, n1, n2⟩

private theorem realBetween {lo hi : ℚ} {x : F32} (h : Between lo hi x) : (lo : ℝ) ≤ realOf x ∧ realOf x ≤ hi := by
  unfold realOf
  exact ⟨by exact_mod_cast h.2.1, by exact_mod_cast h.2.2⟩

private theorem grow {E p : F32} {K : ℝ} (fE : IsFin E) (eE : |realOf E - K| ≤ 33 / 10 / 16777216) (hK : |K - 1| ≤ 6 / 100)
    (hp : Between (1 / 2 ^ 100) (2 ^ 100) p) :
    (IsFin ((lit F32 1 +. (E -. lit F32 1)) *. p) ∧
      |realOf ((lit F32 1 +. (E -. lit F32 1)) *. p) - K * realOf p| ≤ K * realOf p / 2 ^ 21) ∧
    (IsFin ((lit F32 1 -. (lit F32 1 -. E)) *. p) ∧
      |realOf ((lit F32 1 -. (lit F32 1 -. E)) *. p) - K * realOf p| ≤ K * realOf p / 2 ^ 21) := by
  obtain ⟨f1, e1⟩ := one32
  obtain ⟨rp1, rp2⟩ := realBetween hp
  obtain ⟨fp, hp1, hp2⟩ := hp
  push_cast at rp1 rp2
  have hE2 : |toQ E| ≤ 2 := by
    have : |realOf E| ≤ 2 := by
      rw [abs_le] at *
      constructor <;> linarith [eE.1, eE.2, hK.1, hK.2]
    unfold realOf at this
    exact_mod_cast this
  have hb := abs_le.mp hE2
  have hpa : |toQ p| ≤ 2 ^ 100 := by
    rw [abs_le]; constructor
    · have : (0 : ℚ) ≤ 1 / 2 ^ 100 := by positivity
      linarith
    · exact hp2
  have big : ∀ x : ℚ, |x| ≤ 8 → |x| ≤ 2 ^ 127 := fun x h => h.trans (by norm_num)
  have hprod : ∀ g : ℚ, |g| ≤ 8 → |g * toQ p| ≤ 2 ^ 127 := by
    intro g hg
    rw [abs_mul]
    refine (mul_le_mul hg hpa (abs_nonneg _) (by norm_num)).trans (by norm_num)
  have ht1 : tinyQ ≤ 1 := by unfold tinyQ; norm_num
  constructor
  · obtain ⟨fS, eS⟩ := sub_fin fE f1 (big _ (by rw [e1, abs_le]; constructor <;> linarith))
    rw [e1] at eS
    have hS : |toQ (E -. lit F32 1)| ≤ 5 := by
      have : |toQ E - 1| ≤ 3 := by rw [abs_le]; constructor <;> linarith
      rw [abs_le] at eS this ⊢
      norm_num at eS
      constructor <;> linarith [eS.1, eS.2, this.1, this.2, ((abs_le.mpr this))]
    have hSb := abs_le.mp hS
    obtain ⟨fG, eG⟩ := add_fin f1 fS (big _ (by rw [e1, abs_le]; constructor <;> linarith))
    rw [e1] at eG
    have hG : |toQ (lit F32 1 +. (E -. lit F32 1))| ≤ 8 := by
      have : |1 + toQ (E -. lit F32 1)| ≤ 6 := by rw [abs_le]; constructor <;> linarith
      generalize toQ (lit F32 1 +. (E -. lit F32 1)) = G at *
      generalize 1 + toQ (E -. lit F32 1) = H at *
      rw [abs_le] at eG ⊢
      have h2 := abs_le.mp this
      norm_num at eG
      constructor <;> linarith [eG.1, eG.2]
    obtain ⟨fR, eR⟩ := mul_fin fG fp (hprod _ hG)
    refine ⟨fR, ?_⟩
    have a1 := castErr eS
    have a2 := castErr eG
    have a3 := castErr eR
    push_cast at a1 a2 a3
    exact (price_err eE hK a1 a2 rp1 a3).1
  · obtain ⟨fS, eS⟩ := sub_fin f1 fE (big _ (by rw [e1, abs_le]; constructor <;> linarith))
    rw [e1] at eS
    have hS : |toQ (lit F32 1 -. E)| ≤ 5 := by
      have : |1 - toQ E| ≤ 3 := by rw [abs_le]; constructor <;> linarith
      rw [abs_le] at eS this ⊢
      norm_num at eS
      constructor <;> linarith [eS.1, eS.2, this.1, this.2, ((abs_le.mpr this))]
    have hSb := abs_le.mp hS
    obtain ⟨fG, eG⟩ := sub_fin f1 fS (big _ (by rw [e1, abs_le]; constructor <;> linarith))
    rw [e1] at eG
    have hG : |toQ (lit F32 1 -. (lit F32 1 -. E))| ≤ 8 := by
      have : |1 - toQ (lit F32 1 -. E)| ≤ 6 := by rw [abs_le]; constructor <;> linarith
      generalize toQ (lit F32 1 -. (lit F32 1 -. E)) = G at *
      generalize 1 - toQ (lit F32 1 -. E) = H at *
      rw [abs_le] at eG ⊢
      have h2 := abs_le.mp this
      norm_num at eG
      constructor <;> linarith [eG.1, eG.2]
    obtain ⟨fR, eR⟩ := mul_fin fG fp (hprod _ hG)
    refine ⟨fR, ?_⟩
    have a1 := castErr eS
    have a2 := castErr eG
    have a3 := castErr eR
    push_cast at a1 a2 a3
    refine (price_err (S := -(toQ (lit F32 1 -. E) : ℝ)) eE hK ?_ ?_ rp1 a3).1
    · rw [show realOf E - 1 = -(1 - realOf E) by ring, abs_neg, ← abs_neg,
        show -(-(toQ (lit F32 1 -. E) : ℝ) - -(1 - realOf E)) = (toQ (lit F32 1 -. E) : ℝ) - (1 - realOf E) by ring]
      exact a1
    · rw [← sub_eq_add_neg]
      exact a2

/-! ### One update -/

private theorem max32 {x y : F32} (hx : IsFin x) (hy : IsFin y) : IsFin (fmax x y) ∧ toQ (fmax x y) = max (toQ x) (toQ y) := by
  unfold fmax
  split
  · rename_i h; exact ⟨hy, (max_eq_right ((Fl.lt_iff hx hy).mp h).le).symm⟩
  · rename_i h
    exact ⟨hx, (max_eq_left ((Fl.lt_eq_false_iff hx hy).mp (Bool.eq_false_iff.mpr h))).symm⟩

private theorem min32 {x y : F32} (hx : IsFin x) (hy : IsFin y) : IsFin (fmin x y) ∧ toQ (fmin x y) = min (toQ x) (toQ y) := by
  unfold fmin
  split
  · rename_i h; exact ⟨hy, (min_eq_right ((Fl.lt_iff hy hx).mp h).le).symm⟩
  · rename_i h
    exact ⟨hx, (min_eq_left ((Fl.lt_eq_false_iff hy hx).mp (Bool.eq_false_iff.mpr h))).symm⟩

variable {cfg : StopConfig F32} {s : StopState F32} {t : OhlcTick F32} {base quote : F32}

private theorem nextStop_long (hm : s.mode = .long) (h2 : t.ts < s.lastTs + 3600) (hl : stopMode t.close base quote = .long) :
    nextStop cfg s t base quote =
      if (s.stopPrice <=. (lit F32 1 -. cfg.moveMargin) *. t.close) = true then
        fmax s.stopPrice (fmin ((lit F32 1 -. cfg.moveMargin) *. t.close)
          ((lit F32 1 +. (tickExp (lit F32 1 +. cfg.increasePerDay) (t.ts - s.lastTs) -. lit F32 1)) *. s.stopPrice))
      else s.stopPrice := by
  unfold nextStop updateStopPrice tickExp
  dsimp only
  rw [hl, hm, if_neg (by push Not; exact ⟨h2, rfl⟩)]
  simp only [if_true]
  rw [min_eq_right (show t.ts - s.lastTs ≤ kSecondsPerDay by have : kSecondsPerDay = 86400 := rfl; omega)]
  by_cases h : (s.stopPrice <=. (lit F32 1 -. cfg.moveMargin) *. t.close) = true
  · rw [if_pos h, if_pos h]
  · rw [if_neg h, if_neg h]

private theorem nextStop_cash (hm : s.mode = .cash) (h2 : t.ts < s.lastTs + 3600) (hl : stopMode t.close base quote = .cash) :
    nextStop cfg s t base quote =
      if (s.stopPrice >=. (lit F32 1 +. cfg.moveMargin) *. t.close) = true then
        fmin s.stopPrice (fmax ((lit F32 1 +. cfg.moveMargin) *. t.close)
          ((lit F32 1 -. (lit F32 1 -. tickExp (lit F32 1 -. cfg.decreasePerDay) (t.ts - s.lastTs))) *. s.stopPrice))
      else s.stopPrice := by
  unfold nextStop updateStopPrice tickExp
  dsimp only
  rw [hl, hm, if_neg (by push Not; exact ⟨h2, rfl⟩)]
  simp only [reduceCtorEq, if_false, decide_true, assertThat_true, bind, Except.bind, pure, Except.pure]
  rw [min_eq_right (show t.ts - s.lastTs ≤ kSecondsPerDay by have : kSecondsPerDay = 86400 := rfl; omega)]
  by_cases h : (s.stopPrice >=. (lit F32 1 +. cfg.moveMargin) *. t.close) = true
  · rw [if_pos h, if_pos h]
  · rw [if_neg h, if_neg h]

/-- The move threshold is a number of moderate size. -/
private theorem threshold {m p : F32} (hm : Between 0 (2 ^ 50) m) (hp : Between (1 / 2 ^ 40) (2 ^ 40) p) :
    (IsFin ((lit F32 1 -. m) *. p) ∧ toQ ((lit F32 1 -. m) *. p) ≤ 2 ^ 100) ∧
    Between (1 / 2 ^ 100) (2 ^ 100) ((lit F32 1 +. m) *. p) := by
  obtain ⟨f1, e1⟩ := one32
  obtain ⟨fm, m0, m1⟩ := hm
  obtain ⟨fp, p0, p1⟩ := hp
  have pp : (0 : ℚ) < toQ p := lt_of_lt_of_le (by positivity) p0
  have hb : ∀ c : ℚ, |c| ≤ 2 ^ 52 → |c * toQ p| ≤ 2 ^ 92 := by
    intro c hc
    rw [abs_mul, abs_of_pos pp]
    exact (mul_le_mul hc p1 pp.le (by positivity)).trans (by norm_num)
  have ht : tinyQ ≤ 1 / 2 ^ 100 := by unfold tinyQ; norm_num
  have ht0 := tinyQ_pos
  constructor
  · have h1 : |1 - toQ m| ≤ 2 ^ 51 := by
      rw [abs_le]; norm_num at m1 ⊢; constructor <;> linarith
    obtain ⟨fc, ec⟩ := sub_fin f1 fm (by rw [e1]; exact h1.trans (by norm_num))
    rw [e1] at ec
    have h2 : |toQ (lit F32 1 -. m)| ≤ 2 ^ 52 := by
      generalize toQ (lit F32 1 -. m) = c at *
      generalize 1 - toQ m = d at *
      have hd := abs_le.mp h1
      rw [abs_le] at ec ⊢
      norm_num at ec h1 hd ht ⊢
      constructor <;> linarith [ec.1, ec.2]
    have h3 := hb _ h2
    obtain ⟨fr, er⟩ := mul_fin fc fp (h3.trans (by norm_num))
    refine ⟨fr, ?_⟩
    generalize toQ (lit F32 1 -. m) * toQ p = d at *
    have hd := abs_le.mp h3
    rw [abs_le] at er
    norm_num at er h3 hd ht ⊢
    linarith [er.2]
  · have h1 : |1 + toQ m| ≤ 2 ^ 51 := by
      rw [abs_le]; norm_num at m1 ⊢; constructor <;> linarith
    obtain ⟨fc, ec⟩ := add_fin f1 fm (by rw [e1]; exact h1.trans (by norm_num))
    rw [e1] at ec
    have h2 : |toQ (lit F32 1 +. m)| ≤ 2 ^ 52 ∧ 1 / 2 ≤ toQ (lit F32 1 +. m) := by
      rw [abs_of_nonneg (show 0 ≤ 1 + toQ m by linarith)] at ec h1
      generalize toQ (lit F32 1 +. m) = c at *
      rw [abs_le] at ec
      rw [abs_le]
      norm_num at ec h1 m1 ht ⊢
      refine ⟨⟨?_, ?_⟩, ?_⟩ <;> linarith [ec.1, ec.2]
    have h3 := hb _ h2.1
    have h4 : (1 : ℚ) / 2 ^ 41 ≤ toQ (lit F32 1 +. m) * toQ p := by
      refine le_trans (by norm_num) (mul_le_mul h2.2 p0 (by positivity) (by linarith [h2.2]))
    obtain ⟨fr, er⟩ := mul_fin fc fp (h3.trans (by norm_num))
    refine ⟨fr, ?_, ?_⟩
    all_goals
      generalize toQ (lit F32 1 +. m) * toQ p = d at *
      have hd := abs_le.mp h3
      rw [abs_of_nonneg (le_trans (by positivity) h4)] at er
      rw [abs_le] at er
      norm_num at er h3 h4 hd ht ⊢
      linarith [er.1, er.2]

/-- 1 + rate or 1 - rate, rounded. -/
private theorem rateFactor {r : F32} :
    (Between 0 1 r → Between (1 / 2) 2 (lit F32 1 +. r) ∧
      |realOf (lit F32 1 +. r) - (1 + realOf r)| ≤ |1 + realOf r| / 16777216 + 1 / 2 ^ 150) ∧
    (Between 0 (1 / 2) r → Between (1 / 2) 2 (lit F32 1 -. r) ∧
      |realOf (lit F32 1 -. r) - (1 - realOf r)| ≤ |1 - realOf r| / 16777216 + 1 / 2 ^ 150) := by
  obtain ⟨f1, e1⟩ := one32
  constructor
  · rintro ⟨fr, r0, r1⟩
    have hb : |toQ (lit F32 1) + toQ r| ≤ 2 ^ 127 := by
      rw [e1, abs_of_nonneg (by linarith)]; norm_num; linarith
    obtain ⟨fz, ez⟩ := add_fin f1 fr hb
    have hv := add_val f1 fr hb
    rw [e1] at ez hv
    refine ⟨⟨fz, ?_, ?_⟩, ?_⟩
    · rw [hv]
      exact (rndQ_between (lo := 1 / 2) (hi := 2) (by decide +kernel) (by decide +kernel) (by linarith) (by linarith)).1
    · rw [hv]
      exact (rndQ_between (lo := 1 / 2) (hi := 2) (by decide +kernel) (by decide +kernel) (by linarith) (by linarith)).2
    · have := castErr ez
      push_cast at this
      exact this
  · rintro ⟨fr, r0, r1⟩
    have hb : |toQ (lit F32 1) - toQ r| ≤ 2 ^ 127 := by
      rw [e1, abs_of_nonneg (by linarith)]; norm_num; linarith
    obtain ⟨fz, ez⟩ := sub_fin f1 fr hb
    have hv := sub_val f1 fr hb
    rw [e1] at ez hv
    refine ⟨⟨fz, ?_, ?_⟩, ?_⟩
    · rw [hv]
      exact (rndQ_between (lo := 1 / 2) (hi := 2) (by decide +kernel) (by decide +kernel) (by linarith) (by linarith)).1
    · rw [hv]
      exact (rndQ_between (lo := 1 / 2) (hi := 2) (by decide +kernel) (by decide +kernel) (by linarith) (by linarith)).2
    · have := castErr ez
      push_cast at this
      exact this

private theorem step_sell (hlib : AccurateLibm) (hr : Between 0 1 cfg.increasePerDay) (hmm : Between 0 (2 ^ 50) cfg.moveMargin)
    (hc : Between (1 / 2 ^ 40) (2 ^ 40) t.close) (hp : Between (1 / 2 ^ 100) (2 ^ 100) s.stopPrice)
    (hm : s.mode = .long) (h1 : s.lastTs < t.ts) (h2 : t.ts < s.lastTs + 3600) (hl : stopMode t.close base quote = .long) :
    Between (1 / 2 ^ 100) (2 ^ 100) (nextStop cfg s t base quote) ∧
    toQ s.stopPrice ≤ toQ (nextStop cfg s t base quote) ∧
    realOf (nextStop cfg s t base quote) ≤
      realOf s.stopPrice * compound (realOf cfg.increasePerDay) s.lastTs t.ts * (1 + 1 / 2 ^ 21) ∧
    (realOf s.stopPrice * compound (realOf cfg.increasePerDay) s.lastTs t.ts * (1 - 1 / 2 ^ 21) ≤
        realOf (nextStop cfg s t base quote) ∨
      toQ ((lit F32 1 -. cfg.moveMargin) *. t.close) ≤ toQ (nextStop cfg s t base quote)) := by
  obtain ⟨⟨fthr, ethr⟩, -⟩ := threshold hmm hc
  obtain ⟨hz, ez⟩ := rateFactor.1 hr
  obtain ⟨rr0, rr1⟩ := realBetween hr
  push_cast at rr0 rr1
  obtain ⟨fE, eE, eK⟩ := tickExp_err hlib (c := 1 + realOf cfg.increasePerDay) (by linarith) (by linarith) hz ez
    (dt := t.ts - s.lastTs) (by omega) (by omega)
  obtain ⟨fR, eR⟩ := (grow fE eE eK hp).1
  change |_ - compound (realOf cfg.increasePerDay) s.lastTs t.ts * _| ≤
    compound (realOf cfg.increasePerDay) s.lastTs t.ts * _ / _ at eR
  have hK1 := one_le_compound (r := realOf cfg.increasePerDay) rr0 h1.le
  have hp0 : 0 < realOf s.stopPrice := by
    refine lt_of_lt_of_le ?_ (realBetween hp).1
    push_cast; positivity
  rw [nextStop_long hm h2 hl]
  generalize (lit F32 1 -. cfg.moveMargin) *. t.close = thr at *
  generalize (lit F32 1 +. (tickExp (lit F32 1 +. cfg.increasePerDay) (t.ts - s.lastTs) -. lit F32 1)) *. s.stopPrice = R at *
  generalize compound (realOf cfg.increasePerDay) s.lastTs t.ts = K at *
  generalize s.stopPrice = p at *
  have hpK : realOf p ≤ realOf p * K * (1 + 1 / 2 ^ 21) := by
    have : realOf p ≤ realOf p * K := by nlinarith
    have h3 : 0 ≤ realOf p * K := by nlinarith
    norm_num
    linarith
  have hRu : realOf R ≤ realOf p * K * (1 + 1 / 2 ^ 21) := by
    have := (abs_le.mp eR).2
    norm_num at this ⊢
    linarith
  have hRl : realOf p * K * (1 - 1 / 2 ^ 21) ≤ realOf R := by
    have := (abs_le.mp eR).1
    norm_num at this ⊢
    linarith
  by_cases h : (p <=. thr) = true
  · rw [if_pos h]
    have hle : toQ p ≤ toQ thr := (le_iff hp.1 fthr).mp h
    obtain ⟨f3, e3⟩ := min32 fthr fR
    obtain ⟨f4, e4⟩ := max32 hp.1 f3
    rw [e3] at e4
    refine ⟨⟨f4, ?_, ?_⟩, ?_, ?_, ?_⟩
    · rw [e4]; exact hp.2.1.trans (le_max_left _ _)
    · rw [e4]; exact max_le hp.2.2 ((min_le_left _ _).trans ethr)
    · rw [e4]; exact le_max_left _ _
    · unfold realOf at hpK hRu ⊢
      rw [e4]
      push_cast
      exact max_le hpK ((min_le_right _ _).trans hRu)
    · rw [e4]
      rcases le_total (toQ thr) (toQ R) with h5 | h5
      · right; rw [min_eq_left h5]; exact le_max_right _ _
      · left
        refine hRl.trans ?_
        unfold realOf
        rw [e4, min_eq_right h5]
        push_cast
        exact le_max_right _ _
  · rw [if_neg h]
    refine ⟨hp, le_rfl, hpK, .inr ?_⟩
    by_contra h5
    push Not at h5
    exact h ((le_iff hp.1 fthr).mpr h5.le)

private theorem step_buy (hlib : AccurateLibm) (hr : Between 0 (1 / 2) cfg.decreasePerDay) (hmm : Between 0 (2 ^ 50) cfg.moveMargin)
    (hc : Between (1 / 2 ^ 40) (2 ^ 40) t.close) (hp : Between (1 / 2 ^ 100) (2 ^ 100) s.stopPrice)
    (hm : s.mode = .cash) (h1 : s.lastTs < t.ts) (h2 : t.ts < s.lastTs + 3600) (hl : stopMode t.close base quote = .cash) :
    Between (1 / 2 ^ 100) (2 ^ 100) (nextStop cfg s t base quote) ∧
    toQ (nextStop cfg s t base quote) ≤ toQ s.stopPrice ∧
    realOf s.stopPrice * compound (-realOf cfg.decreasePerDay) s.lastTs t.ts * (1 - 1 / 2 ^ 21) ≤
      realOf (nextStop cfg s t base quote) ∧
    (realOf (nextStop cfg s t base quote) ≤
        realOf s.stopPrice * compound (-realOf cfg.decreasePerDay) s.lastTs t.ts * (1 + 1 / 2 ^ 21) ∨
      toQ (nextStop cfg s t base quote) ≤ toQ ((lit F32 1 +. cfg.moveMargin) *. t.close)) := by
  obtain ⟨-, fthr, ethr0, ethr1⟩ := threshold hmm hc
  obtain ⟨hz, ez⟩ := rateFactor.2 hr
  obtain ⟨rr0, rr1⟩ := realBetween hr
  push_cast at rr0 rr1
  obtain ⟨fE, eE, eK⟩ := tickExp_err hlib (c := 1 - realOf cfg.decreasePerDay) (by linarith) (by linarith) hz ez
    (dt := t.ts - s.lastTs) (by omega) (by omega)
  obtain ⟨fR, eR⟩ := (grow fE eE eK hp).2
  rw [sub_eq_add_neg (1 : ℝ)] at eR
  change |_ - compound (-realOf cfg.decreasePerDay) s.lastTs t.ts * _| ≤
    compound (-realOf cfg.decreasePerDay) s.lastTs t.ts * _ / _ at eR
  have hK1 := compound_le_one (r := -realOf cfg.decreasePerDay) (by linarith) (by linarith) h1.le
  have hK0 := compound_pos (r := -realOf cfg.decreasePerDay) (by linarith) s.lastTs t.ts
  have hp0 : 0 < realOf s.stopPrice := by
    refine lt_of_lt_of_le ?_ (realBetween hp).1
    push_cast; positivity
  rw [nextStop_cash hm h2 hl]
  generalize (lit F32 1 +. cfg.moveMargin) *. t.close = thr at *
  generalize (lit F32 1 -. (lit F32 1 -. tickExp (lit F32 1 -. cfg.decreasePerDay) (t.ts - s.lastTs))) *. s.stopPrice = R at *
  generalize compound (-realOf cfg.decreasePerDay) s.lastTs t.ts = K at *
  generalize s.stopPrice = p at *
  have hpK : realOf p * K * (1 - 1 / 2 ^ 21) ≤ realOf p := by
    have : realOf p * K ≤ realOf p := by nlinarith
    have h3 : 0 ≤ realOf p * K := by positivity
    norm_num
    linarith
  have hRu : realOf R ≤ realOf p * K * (1 + 1 / 2 ^ 21) := by
    have := (abs_le.mp eR).2
    norm_num at this ⊢
    linarith
  have hRl : realOf p * K * (1 - 1 / 2 ^ 21) ≤ realOf R := by
    have := (abs_le.mp eR).1
    norm_num at this ⊢
    linarith
  by_cases h : (p >=. thr) = true
  · rw [if_pos h]
    have hle : toQ thr ≤ toQ p := (le_iff fthr hp.1).mp h
    obtain ⟨f3, e3⟩ := max32 fthr fR
    obtain ⟨f4, e4⟩ := min32 hp.1 f3
    rw [e3] at e4
    refine ⟨⟨f4, ?_, ?_⟩, ?_, ?_, ?_⟩
    · rw [e4]; exact le_min hp.2.1 (ethr0.trans (le_max_left _ _))
    · rw [e4]; exact (min_le_left _ _).trans hp.2.2
    · rw [e4]; exact min_le_left _ _
    · unfold realOf at hpK hRl ⊢
      rw [e4]
      push_cast
      exact le_min hpK (hRl.trans (le_max_right _ _))
    · rw [e4]
      rcases le_total (toQ R) (toQ thr) with h5 | h5
      · right; rw [max_eq_left h5]; exact min_le_right _ _
      · left
        refine le_trans ?_ hRu
        unfold realOf
        rw [e4, max_eq_right h5]
        push_cast
        exact min_le_right _ _
  · rw [if_neg h]
    refine ⟨hp, le_rfl, hpK, .inr ?_⟩
    by_contra h5
    push Not at h5
    exact h ((le_iff fthr hp.1).mpr h5.le)

/-- **C95** (the daily rate in binary32). With an accurate `expf` and `logf`, over any run without reset the stop price
of a selling trader grows at most by the daily rate compounded over the elapsed time, up to a relative error of 2^-21 per
update; and it grows that much (up to the same error) if the last stop price is below the move threshold of every tick.
Likewise for a buying trader, whose stop price falls. -/
theorem C95_rate (hlib : AccurateLibm) (cfg : StopConfig F32) (inputs : List (UpdateInput F32)) (t₀ t₁ : ℤ) (p₀ p₁ : F32)
    (hmm : Between 0 (2 ^ 50) cfg.moveMargin) (hclose : ∀ i ∈ inputs, Between (1 / 2 ^ 40) (2 ^ 40) i.tick.close)
    (hp : Between (1 / 2 ^ 100) (2 ^ 100) p₀) :
    (Between 0 1 cfg.increasePerDay → SteadyRun cfg .sell inputs t₀ p₀ t₁ p₁ →
      let exact := realOf p₀ * (1 + realOf cfg.increasePerDay) ^ (((t₁ - t₀ : ℤ) : ℝ) / 86400)
      realOf p₁ ≤ exact * (1 + 1 / 2 ^ 21) ^ (inputs.length - 1) ∧
      ((∀ i ∈ inputs.tail, toQ p₁ < toQ ((lit F32 1 -. cfg.moveMargin) *. i.tick.close)) →
        exact * (1 - 1 / 2 ^ 21) ^ (inputs.length - 1) ≤ realOf p₁)) ∧
    (Between 0 (1 / 2) cfg.decreasePerDay → SteadyRun cfg .buy inputs t₀ p₀ t₁ p₁ →
      let exact := realOf p₀ * (1 - realOf cfg.decreasePerDay) ^ (((t₁ - t₀ : ℤ) : ℝ) / 86400)
      exact * (1 - 1 / 2 ^ 21) ^ (inputs.length - 1) ≤ realOf p₁ ∧
      ((∀ i ∈ inputs.tail, toQ ((lit F32 1 +. cfg.moveMargin) *. i.tick.close) < toQ p₁) →
        realOf p₁ ≤ exact * (1 + 1 / 2 ^ 21) ^ (inputs.length - 1))) := by
  constructor
  · intro hr hrun
    obtain ⟨rr0, rr1⟩ := realBetween hr
    push_cast at rr0 rr1
    obtain ⟨hb, hup, hlow⟩ := steady_induct_counted
      (fun n t p => Between (1 / 2 ^ 100) (2 ^ 100) p ∧
        realOf p ≤ realOf p₀ * compound (realOf cfg.increasePerDay) t₀ t * (1 + 1 / 2 ^ 21) ^ n ∧
        (realOf p₀ * compound (realOf cfg.increasePerDay) t₀ t * (1 - 1 / 2 ^ 21) ^ n ≤ realOf p ∨
          ∃ i ∈ inputs.tail, toQ ((lit F32 1 -. cfg.moveMargin) *. i.tick.close) ≤ toQ p))
      inputs t₀ t₁ p₀ p₁ hrun ⟨hp, by simp [compound_self], .inl (by simp [compound_self])⟩ (by
        intro n s i hi h1 h2 h3 h4 ⟨h5, h6, h7⟩
        obtain ⟨k1, k2, k3, k4⟩ := step_sell hlib hr hmm (hclose i (List.mem_of_mem_tail hi)) h5 h3 h1 h2 h4
        have hc := one_le_compound (r := realOf cfg.increasePerDay) rr0 h1.le
        have htr := compound_trans (r := realOf cfg.increasePerDay) (by linarith) t₀ s.lastTs i.tick.ts
        refine ⟨k1, ?_, ?_⟩
        · rw [← htr, pow_succ]
          refine k3.trans ?_
          have := mul_le_mul_of_nonneg_right h6 (show 0 ≤ compound (realOf cfg.increasePerDay) s.lastTs i.tick.ts * (1 + 1 / 2 ^ 21) by positivity)
          nlinarith [this]
        · rcases h7 with h7 | ⟨j, hj, h7⟩
          · rcases k4 with k4 | k4
            · left
              rw [← htr, pow_succ]
              refine le_trans ?_ k4
              have := mul_le_mul_of_nonneg_right h7 (show 0 ≤ compound (realOf cfg.increasePerDay) s.lastTs i.tick.ts * (1 - 1 / 2 ^ 21) from
                mul_nonneg (by linarith) (by norm_num))
              nlinarith [this]
            · exact .inr ⟨i, hi, k4⟩
          · exact .inr ⟨j, hj, h7.trans k2⟩)
    refine ⟨hup, fun hfree => ?_⟩
    rcases hlow with h | ⟨i, hi, h⟩
    · exact h
    · exact absurd h (not_le.mpr (hfree i hi))
  · intro hr hrun
    obtain ⟨rr0, rr1⟩ := realBetween hr
    push_cast at rr0 rr1
    obtain ⟨hb, hlow, hup⟩ := steady_induct_counted
      (fun n t p => Between (1 / 2 ^ 100) (2 ^ 100) p ∧
        realOf p₀ * compound (-realOf cfg.decreasePerDay) t₀ t * (1 - 1 / 2 ^ 21) ^ n ≤ realOf p ∧
        (realOf p ≤ realOf p₀ * compound (-realOf cfg.decreasePerDay) t₀ t * (1 + 1 / 2 ^ 21) ^ n ∨
          ∃ i ∈ inputs.tail, toQ p ≤ toQ ((lit F32 1 +. cfg.moveMargin) *. i.tick.close)))
      inputs t₀ t₁ p₀ p₁ hrun ⟨hp, by simp [compound_self], .inl (by simp [compound_self])⟩ (by
        intro n s i hi h1 h2 h3 h4 ⟨h5, h6, h7⟩
        obtain ⟨k1, k2, k3, k4⟩ := step_buy hlib hr hmm (hclose i (List.mem_of_mem_tail hi)) h5 h3 h1 h2 h4
        have hc := compound_pos (r := -realOf cfg.decreasePerDay) (by linarith) s.lastTs i.tick.ts
        have htr := compound_trans (r := -realOf cfg.decreasePerDay) (by linarith) t₀ s.lastTs i.tick.ts
        refine ⟨k1, ?_, ?_⟩
        · rw [← htr, pow_succ]
          refine le_trans ?_ k3
          have := mul_le_mul_of_nonneg_right h6 (show 0 ≤ compound (-realOf cfg.decreasePerDay) s.lastTs i.tick.ts * (1 - 1 / 2 ^ 21) from
            mul_nonneg hc.le (by norm_num))
          nlinarith [this]
        · rcases h7 with h7 | ⟨j, hj, h7⟩
          · rcases k4 with k4 | k4
            · left
              rw [← htr, pow_succ]
              refine k4.trans ?_
              have := mul_le_mul_of_nonneg_right h7 (show 0 ≤ compound (-realOf cfg.decreasePerDay) s.lastTs i.tick.ts * (1 + 1 / 2 ^ 21) by positivity)
              nlinarith [this]
            · exact .inr ⟨i, hi, k4⟩
          · exact .inr ⟨j, hj, k2.trans h7⟩)
    unfold compound at hlow hup
    rw [← sub_eq_add_neg] at hlow hup
    refine ⟨hlow, fun hfree => ?_⟩
    rcases hup with h | ⟨i, hi, h⟩
    · exact h
    · exact absurd h (not_le.mpr (hfree i hi))

/-! ### Stalling -/

private theorem tickExp_stall (hlib : RoundedLibm) {z : F32} {dt : ℤ} (h0 : 1 ≤ dt) (h1 : dt ≤ 3600)
    (h : (Between 1 (101 / 100) z ∧ (toQ z - 1) * dt ≤ 86400 * (3 / 2 ^ 26)) ∨
      (Between (99 / 100) 1 z ∧ (1 - toQ z) * dt ≤ 86400 * (3 / 2 ^ 27))) :
    IsFin (tickExp z dt) ∧ toQ (tickExp z dt) = 1 := by
  obtain ⟨fk, ek⟩ := litInt (n := kSecondsPerDay) (by decide)
  obtain ⟨fd, ed⟩ := litInt (n := dt) (by rw [abs_lt]; constructor <;> omega)
  have hd0 : (1 : ℚ) ≤ dt := by exact_mod_cast h0
  have hd1 : (dt : ℚ) ≤ 3600 := by exact_mod_cast h1
  have hk : ((kSecondsPerDay : ℤ) : ℚ) = 86400 := by decide +kernel
  have hq : |(86400 : ℚ) / dt| ≤ 2 ^ 127 := by
    rw [abs_of_pos (by positivity), div_le_iff₀ (by linarith)]
    norm_num
    linarith
  obtain ⟨fT, eT⟩ := div_fin fk fd (by rw [ed]; linarith) (by rw [ek, ed, hk]; exact hq)
  rw [ek, ed] at eT
  unfold tickExp
  generalize (lit F32 (kSecondsPerDay : ℚ) /. lit F32 (dt : ℚ)) = T at *
  rw [hk] at eT
  have hT : 86400 / (dt : ℚ) * (1 - 1 / 1000) ≤ toQ T := by
    have h2 : (24 : ℚ) ≤ 86400 / dt := by rw [le_div_iff₀ (by linarith)]; linarith
    rw [abs_of_nonneg (show (0 : ℚ) ≤ 86400 / dt by linarith)] at eT
    have h3 := (abs_le.mp eT).1
    unfold tinyQ at h3
    norm_num at h3 ⊢
    linarith
  have hTd : 86400 * (999 / 1000) ≤ toQ T * dt := by
    have := mul_le_mul_of_nonneg_right hT (show (0 : ℚ) ≤ dt by linarith)
    have h3 : 86400 / (dt : ℚ) * (1 - 1 / 1000) * dt = 86400 * (999 / 1000) := by field_simp; norm_num
    linarith
  have hT0 : 0 < toQ T := by
    by_contra hh
    have : toQ T * dt ≤ 0 := mul_nonpos_of_nonpos_of_nonneg (not_lt.mp hh) (by linarith)
    linarith
  have key : ∀ L : ℚ, (L = 0 ∨ 0 ≤ toQ T) → ∀ b : ℚ, 0 ≤ L → L * dt ≤ 86400 * b → L / toQ T ≤ b * (1002 / 1000) := by
    intro L _ b hL hb
    rw [div_le_iff₀ hT0]
    have hb0 : 0 ≤ b := by nlinarith [mul_nonneg hL (show (0 : ℚ) ≤ dt by linarith)]
    have h5 : L * dt ≤ b * (1002 / 1000) * toQ T * dt := by nlinarith
    exact le_of_mul_le_mul_right h5 (by linarith)
  have fin : ∀ L : F32, IsFin L → ∀ lo hi : ℚ, -(1 / 2) ≤ lo → hi ≤ 1 / 2 → rndQ binary32 lo = lo → rndQ binary32 hi = hi →
      lo ≤ toQ L / toQ T → toQ L / toQ T ≤ hi → Between lo hi (L /. T) := by
    intro L fL lo hi h2 h3 h4 h5 h6 h7
    have hb : |toQ L / toQ T| ≤ 2 ^ 127 := by
      have : |toQ L / toQ T| ≤ 1 := by rw [abs_le]; constructor <;> linarith
      exact this.trans (by norm_num)
    refine ⟨(div_fin fL fT hT0.ne' hb).1, ?_, ?_⟩
    · rw [div_val fL fT hT0.ne' hb]
      exact (rndQ_between h4 h5 h6 h7).1
    · rw [div_val fL fT hT0.ne' hb]
      exact (rndQ_between h4 h5 h6 h7).2
  apply hlib.exp
  rcases h with ⟨hz, hb⟩ | ⟨hz, hb⟩
  · obtain ⟨fL, l0, l1⟩ := hlib.log_up z hz
    have h3 := key (toQ (Libm.log z)) (.inr hT0.le) (3 / 2 ^ 26) l0 (by nlinarith)
    have := fin (Libm.log z) fL 0 (97 / 128 / 2 ^ 24) (by norm_num) (by norm_num) (by decide +kernel) (by decide +kernel)
      (div_nonneg l0 hT0.le) (h3.trans (by norm_num))
    exact ⟨this.1, le_trans (by norm_num) this.2.1, this.2.2.trans (by norm_num)⟩
  · obtain ⟨fL, l0, l1⟩ := hlib.log_down z hz
    have h3 := key (-toQ (Libm.log z)) (.inr hT0.le) (51 / 50 * (3 / 2 ^ 27)) (by linarith) (by nlinarith)
    have := fin (Libm.log z) fL (-(99 / 128) / 2 ^ 25) 0 (by norm_num) (by norm_num) (by decide +kernel) (by decide +kernel)
      (by rw [neg_div] at h3; norm_num at h3 ⊢; linarith) (div_nonpos_of_nonpos_of_nonneg l1 hT0.le)
    exact ⟨this.1, le_trans (by norm_num) this.2.1, this.2.2.trans (by norm_num)⟩

private theorem rate_small {r : F32} {dt : ℤ} (h0 : 1 ≤ dt) :
    (Between 0 1 r → toQ r * dt ≤ 86400 / 2 ^ 26 → Between 1 (101 / 100) (lit F32 1 +. r) ∧
      (toQ (lit F32 1 +. r) - 1) * dt ≤ 86400 * (3 / 2 ^ 26)) ∧
    (Between 0 1 r → toQ r * dt ≤ 86400 / 2 ^ 27 → Between (99 / 100) 1 (lit F32 1 -. r) ∧
      (1 - toQ (lit F32 1 -. r)) * dt ≤ 86400 * (3 / 2 ^ 27)) := by
  obtain ⟨f1, e1⟩ := one32
  have hd0 : (1 : ℚ) ≤ dt := by exact_mod_cast h0
  constructor
  · rintro ⟨fr, r0, r1⟩ hs
    have hr2 : toQ r ≤ 86400 / 2 ^ 26 := by nlinarith
    have hb : |toQ (lit F32 1) + toQ r| ≤ 2 ^ 127 := by
      rw [e1, abs_of_nonneg (by linarith)]; norm_num; linarith
    obtain ⟨fz, ez⟩ := add_fin f1 fr hb
    have hv := add_val f1 fr hb
    rw [e1] at ez hv
    have hge : 1 ≤ toQ (lit F32 1 +. r) := by
      rw [hv]
      have := rndQ_le (x := 1) (y := 1 + toQ r) (by linarith)
      rwa [rndQ_one] at this
    have h3 : toQ (lit F32 1 +. r) - 1 ≤ 3 * toQ r := by
      by_cases ht : toQ r ≤ 1 / 2 ^ 24
      · have := rndQ_le (x := 1 + toQ r) (y := 1 + 1 / 2 ^ 24) (by linarith)
        rw [show rndQ binary32 (1 + 1 / 2 ^ 24) = 1 by decide +kernel, ← hv] at this
        linarith
      · push Not at ht
        rw [abs_of_nonneg (show 0 ≤ 1 + toQ r by linarith)] at ez
        have := (abs_le.mp ez).2
        unfold tinyQ at this
        norm_num at this ht ⊢
        linarith
    refine ⟨⟨fz, hge, ?_⟩, by nlinarith⟩
    norm_num at hr2 ⊢
    linarith
  · rintro ⟨fr, r0, r1⟩ hs
    have hr2 : toQ r ≤ 86400 / 2 ^ 27 := by nlinarith
    have hb : |toQ (lit F32 1) - toQ r| ≤ 2 ^ 127 := by
      rw [e1, abs_of_nonneg (by linarith)]; norm_num; linarith
    obtain ⟨fz, ez⟩ := sub_fin f1 fr hb
    have hv := sub_val f1 fr hb
    rw [e1] at ez hv
    have hge : toQ (lit F32 1 -. r) ≤ 1 := by
      rw [hv]
      have := rndQ_le (x := 1 - toQ r) (y := 1) (by linarith)
      rwa [rndQ_one] at this
    have h3 : 1 - toQ (lit F32 1 -. r) ≤ 3 * toQ r := by
      by_cases ht : toQ r ≤ 1 / 2 ^ 25
      · have := rndQ_le (x := 1 - 1 / 2 ^ 25) (y := 1 - toQ r) (by linarith)
        rw [show rndQ binary32 (1 - 1 / 2 ^ 25) = 1 by decide +kernel, ← hv] at this
        linarith
      · push Not at ht
        rw [abs_of_nonneg (show 0 ≤ 1 - toQ r by linarith)] at ez
        have := (abs_le.mp ez).1
        unfold tinyQ at this
        norm_num at this ht ⊢
        linarith
    refine ⟨⟨fz, ?_, hge⟩, by nlinarith⟩
    norm_num at hr2 ⊢
    linarith

/-- **C95** (stalling). With `expf` and `logf` rounded as usual, a small daily rate has no effect at all when the trader is
updated often: if the rate times the days between two updates is at most 2^-26 (selling) or 2^-27 (buying), the update
leaves the stop price as it is, however far the market is away. (`p₁` is any float: a number that rounds to itself.) -/
theorem C95_stall (hlib : RoundedLibm) (cfg : StopConfig F32) (t₁ t₂ : OhlcTick F32) (p₁ p₂ : F32)
    (hp : IsFin p₁) (hrep : rndQ binary32 (toQ p₁) = toQ p₁) (hbig : |toQ p₁| ≤ 2 ^ 127)
    (hmm : Between 0 (2 ^ 50) cfg.moveMargin) (hc : Between (1 / 2 ^ 40) (2 ^ 40) t₂.close) (hgap : t₂.ts < t₁.ts + 3600) :
    (Between 0 1 cfg.increasePerDay → TwoUpdates cfg t₁ t₂ .sell .sell p₁ p₂ →
      toQ cfg.increasePerDay * ((t₂.ts - t₁.ts : ℤ) / 86400) ≤ 1 / 2 ^ 26 → IsFin p₂ ∧ toQ p₂ = toQ p₁) ∧
    (Between 0 1 cfg.decreasePerDay → TwoUpdates cfg t₁ t₂ .buy .buy p₁ p₂ →
      toQ cfg.decreasePerDay * ((t₂.ts - t₁.ts : ℤ) / 86400) ≤ 1 / 2 ^ 27 → IsFin p₂ ∧ toQ p₂ = toQ p₁) := by
  obtain ⟨f1, e1⟩ := one32
  have r1 : rndQ binary32 1 = 1 := rndQ_one
  have r0 : rndQ binary32 0 = 0 := rndQ_zero
  have b0 : |(0 : ℚ)| ≤ 2 ^ 127 := by norm_num
  have b1 : |(1 : ℚ)| ≤ 2 ^ 127 := by norm_num
  constructor
  · rintro hr ⟨s, s₁, s₂, sg₁, sg₂, b₁, q₁, b₂, q₂, o₁, o₂, h1, h2, d1, d2, e1', e2'⟩ hsmall
    obtain ⟨a1, a2, -, -, a5, -⟩ := stopOrder_of_mode h1 d1 e1'
    obtain ⟨-, -, c3, c4, c5, -⟩ := stopOrder_of_mode h2 d2 e2'
    obtain ⟨hts, -⟩ := stopUpdate_ok h2
    rw [a1] at hts
    have hm : stopMode t₂.close b₂ q₂ = .long := by rw [← c4]; exact (c5 rfl).1
    obtain ⟨⟨fthr, -⟩, -⟩ := threshold hmm hc
    obtain ⟨hz, hzs⟩ := (rate_small (r := cfg.increasePerDay) (dt := t₂.ts - t₁.ts) (by omega)).1 hr (by
      rw [← mul_div_assoc, div_le_iff₀ (by norm_num)] at hsmall
      refine hsmall.trans (by norm_num))
    obtain ⟨fE, eE⟩ := tickExp_stall hlib (z := lit F32 1 +. cfg.increasePerDay) (dt := t₂.ts - t₁.ts) (by omega) (by omega) (.inl ⟨hz, hzs⟩)
    rw [c3, nextStop_long (a5 rfl).1 (by rw [a1]; exact hgap) hm, a1, a2]
    have z1 : toQ (tickExp (lit F32 1 +. cfg.increasePerDay) (t₂.ts - t₁.ts)) - toQ (lit F32 1) = 0 := by rw [eE, e1]; norm_num
    have z2 := sub_val fE f1 (by rw [z1]; exact b0)
    have z3 := (sub_fin fE f1 (by rw [z1]; exact b0)).1
    rw [z1, r0] at z2
    have z4 := add_val f1 z3 (by rw [z2, e1, add_zero]; exact b1)
    have z5 := (add_fin f1 z3 (by rw [z2, e1, add_zero]; exact b1)).1
    rw [z2, e1, add_zero, r1] at z4
    have z6 := mul_val z5 hp (by rw [z4, one_mul]; exact hbig)
    have z7 := (mul_fin z5 hp (by rw [z4, one_mul]; exact hbig)).1
    rw [z4, one_mul, hrep] at z6
    split_ifs with hle
    · obtain ⟨f3, e3⟩ := min32 fthr z7
      obtain ⟨f4, e4⟩ := max32 hp f3
      refine ⟨f4, ?_⟩
      rw [e4, e3, z6]
      exact max_eq_left (min_le_right _ _)
    · exact ⟨hp, rfl⟩
  · rintro hr ⟨s, s₁, s₂, sg₁, sg₂, b₁, q₁, b₂, q₂, o₁, o₂, h1, h2, d1, d2, e1', e2'⟩ hsmall
    obtain ⟨a1, a2, -, -, -, a5⟩ := stopOrder_of_mode h1 d1 e1'
    obtain ⟨-, -, c3, c4, -, c5⟩ := stopOrder_of_mode h2 d2 e2'
    obtain ⟨hts, -⟩ := stopUpdate_ok h2
    rw [a1] at hts
    have hm : stopMode t₂.close b₂ q₂ = .cash := by rw [← c4]; exact (c5 rfl).1
    obtain ⟨-, fthr, -⟩ := threshold hmm hc
    obtain ⟨hz, hzs⟩ := (rate_small (r := cfg.decreasePerDay) (dt := t₂.ts - t₁.ts) (by omega)).2 hr (by
      rw [← mul_div_assoc, div_le_iff₀ (by norm_num)] at hsmall
      refine hsmall.trans (by norm_num))
    obtain ⟨fE, eE⟩ := tickExp_stall hlib (z := lit F32 1 -. cfg.decreasePerDay) (dt := t₂.ts - t₁.ts) (by omega) (by omega) (.inr ⟨hz, hzs⟩)
    rw [c3, nextStop_cash (a5 rfl).1 (by rw [a1]; exact hgap) hm, a1, a2]
    have z1 : toQ (lit F32 1) - toQ (tickExp (lit F32 1 -. cfg.decreasePerDay) (t₂.ts - t₁.ts)) = 0 := by rw [eE, e1]; norm_num
    have z2 := sub_val f1 fE (by rw [z1]; exact b0)
    have z3 := (sub_fin f1 fE (by rw [z1]; exact b0)).1
    rw [z1, r0] at z2
    have z4 := sub_val f1 z3 (by rw [z2, e1, sub_zero]; exact b1)
    have z5 := (sub_fin f1 z3 (by rw [z2, e1, sub_zero]; exact b1)).1
    rw [z2, e1, sub_zero, r1] at z4
    have z6 := mul_val z5 hp (by rw [z4, one_mul]; exact hbig)
    have z7 := (mul_fin z5 hp (by rw [z4, one_mul]; exact hbig)).1
    rw [z4, one_mul, hrep] at z6
    split_ifs with hle
    · obtain ⟨f3, e3⟩ := max32 fthr z7
      obtain ⟨f4, e4⟩ := min32 hp f3
      refine ⟨f4, ?_⟩
      rw [e4, e3, z6]
      exact min_eq_left (le_max_right _ _)
    · exact ⟨hp, rfl⟩

end
/-! ### Non-vacuity -/

private theorem near (y : ℝ) : ∃ q : ℚ, |(q : ℝ) - y| ≤ |y| / 2 ^ 23 := by
  by_cases h : y = 0
  · exact ⟨0, by simp [h]⟩
  · obtain ⟨q, h1, h2⟩ := exists_rat_btwn (show y - |y| / 2 ^ 23 < y by have := abs_pos.mpr h; linarith [show 0 < |y| / 2 ^ 23 by positivity])
    exact ⟨q, by rw [abs_le]; constructor <;> linarith [show 0 < |y| / 2 ^ 23 by have := abs_pos.mpr h; positivity]⟩

/-- Some accurate `expf` and `logf`. -/
@[instance_reducible] noncomputable def accLibm : Libm F32 :=
  ⟨id, fun x => .fin (near (Real.exp (realOf x))).choose, fun x => .fin (near (Real.log (realOf x))).choose, fun x _ => x⟩

theorem accLibm_accurate : @AccurateLibm accLibm := by
  letI := accLibm
  refine ⟨fun x _ => ⟨trivial, ?_⟩, fun x _ => ⟨trivial, ?_⟩⟩
  · exact (near (Real.log (realOf x))).choose_spec
  · have := (near (Real.exp (realOf x))).choose_spec
    exact this.trans (le_of_eq (by rw [abs_of_pos (Real.exp_pos _)]))

/-- Margin 10%, move margin 5%, rates of 1% and 10% per day. -/
abbrev sfCfg : StopConfig F32 := ⟨lit F32 (1 / 10), lit F32 (1 / 20), lit F32 (1 / 100), lit F32 (1 / 10)⟩

/-- Margin 10%, move margin 5%, rates of 0.1% and 0.05% per day. -/
abbrev sfSlow : StopConfig F32 := ⟨lit F32 (1 / 10), lit F32 (1 / 20), lit F32 (1 / 1000), lit F32 (1 / 2000)⟩

/-- A tick of constant price. -/
abbrev sfTick (ts : ℤ) (p : ℚ) : OhlcTick F32 := ⟨ts, lit F32 p, lit F32 p, lit F32 p, lit F32 p, lit F32 1⟩

/-- A steady run of two updates, five minutes apart, on a market that jumps from 100 to 200, satisfies all hypotheses of
`C95_rate`. -/
example : letI := accLibm
    ∃ p₀ p₁ : F32, SteadyRun sfCfg .sell [⟨sfTick 300 100, [], lit F32 1, lit F32 0⟩, ⟨sfTick 600 200, [], lit F32 1, lit F32 0⟩] 300 p₀ 600 p₁ ∧
      Between (1 / 2 ^ 100) (2 ^ 100) p₀ ∧ Between 0 (2 ^ 50) sfCfg.moveMargin ∧ Between 0 1 sfCfg.increasePerDay ∧
      Between (1 / 2 ^ 40) (2 ^ 40) (sfTick 600 200).close := by
  letI := accLibm
  obtain ⟨⟨s1, os1⟩, h1⟩ := (C56_returns_iff sfCfg StopState.init (sfTick 300 100) [] (lit F32 1) (lit F32 0)).mpr
    ⟨by decide, by decide +kernel, by decide +kernel⟩
  obtain ⟨-, -, -, es1, eo1⟩ := stopUpdate_ok h1
  obtain ⟨⟨s2, os2⟩, h2⟩ := (C56_returns_iff sfCfg s1 (sfTick 600 200) [] (lit F32 1) (lit F32 0)).mpr
    ⟨by rw [es1]; decide, by decide +kernel, by decide +kernel⟩
  obtain ⟨-, -, -, es2, eo2⟩ := stopUpdate_ok h2
  have l1 : (lit F32 0 <=. lit F32 1 *. (sfTick 300 100).close) = true := by decide +kernel
  have l2 : (lit F32 0 <=. lit F32 1 *. (sfTick 600 200).close) = true := by decide +kernel
  rw [if_pos l1] at eo1
  rw [if_pos l2] at eo2
  have p1 : nextStop sfCfg StopState.init (sfTick 300 100) (lit F32 1) (lit F32 0) = resetPrice sfCfg (sfTick 300 100).close .sell :=
    C57_first sfCfg (sfTick 300 100) [] (lit F32 1) (lit F32 0) s1 _ .sell _ (by rw [h1, eo1]) rfl rfl
  refine ⟨resetPrice sfCfg (sfTick 300 100).close .sell, nextStop sfCfg s1 (sfTick 600 200) (lit F32 1) (lit F32 0), ?_, ?_, ?_, ?_, ?_⟩
  rotate_left
  · unfold Between resetPrice; decide +kernel
  · unfold Between; decide +kernel
  · unfold Between; decide +kernel
  · unfold Between; decide +kernel
  · refine ⟨⟨⟨fun _ => "", fun _ _ => ""⟩, StopState.init, s2, [os1, os2],
      ⟨some .stop, some .sell, .base (lit F32 1), some (resetPrice sfCfg (sfTick 300 100).close .sell)⟩,
      ⟨some .stop, some .sell, .base (lit F32 1), some (nextStop sfCfg s1 (sfTick 600 200) (lit F32 1) (lit F32 0))⟩,
      ?_, ?_, ?_, ?_, rfl, rfl⟩, ?_, rfl, rfl⟩
    rotate_left 2
    · rw [eo1, p1]; rfl
    · rw [eo2]; rfl
    · simp [sfTick]
    · unfold feed
      rw [show (stopTrader ⟨fun _ => "", fun _ _ => ""⟩ sfCfg).update StopState.init (sfTick 300 100) [] (lit F32 1) (lit F32 0) = _ from h1]
      simp only [bind, Except.bind]
      unfold feed
      rw [show (stopTrader ⟨fun _ => "", fun _ _ => ""⟩ sfCfg).update s1 (sfTick 600 200) [] (lit F32 1) (lit F32 0) = _ from h2]
      rfl
    · rw [eo1, eo2]; simp

/-- `exp x = 1`, `log y = y - 1`: the right values near 0 and 1. -/
@[instance_reducible] def tinyLibm : Libm F32 := ⟨id, fun _ => lit F32 1, fun x => .fin (toQ x - 1), fun x _ => x⟩

theorem tinyLibm_rounded : @RoundedLibm tinyLibm := by
  letI := tinyLibm
  refine ⟨fun x _ => one32, fun y h => ⟨trivial, ?_, le_rfl⟩, fun y h => ⟨trivial, ?_, ?_⟩⟩
  · exact sub_nonneg.mpr h.2.1
  · show 51 / 50 * (toQ y - 1) ≤ toQ y - 1
    have := h.2.2
    linarith
  · exact sub_nonpos.mpr h.2.2

section
attribute [local instance] tinyLibm

/-- 0.1% per day and updates every second: the stop price of a selling trader stays at 90 although the market is at 200. -/
example : TwoUpdates sfSlow (sfTick 300 100) (sfTick 301 200) .sell .sell (lit F32 90) (lit F32 90) ∧
    toQ sfSlow.increasePerDay * ((301 - 300 : ℤ) / 86400) ≤ 1 / 2 ^ 26 ∧ rndQ binary32 (toQ (lit F32 90)) = toQ (lit F32 90) ∧
    Between 0 1 sfSlow.increasePerDay := by
  refine ⟨⟨⟨.init, ⟨lit F32 1, lit F32 0, 300, lit F32 100, .long, lit F32 90⟩, ⟨lit F32 1, lit F32 0, 301, lit F32 200, .long, lit F32 90⟩,
    [], [], lit F32 1, lit F32 0, lit F32 1, lit F32 0,
    ⟨some .stop, some .sell, .base (lit F32 1), some (lit F32 90)⟩, ⟨some .stop, some .sell, .base (lit F32 1), some (lit F32 90)⟩,
    by decide +kernel, by decide +kernel, rfl, rfl, rfl, rfl⟩⟩, by decide +kernel, by decide +kernel, ?_⟩
  unfold Between; decide +kernel

end
end Verif.Props
