import Verif.Props.FloatStochastic
import Mathlib.Data.Rat.Floor

/-!
# C101: how far RSI and %K are from their exact values in binary32
-/

namespace Verif.Props
open FloatOps Spec FloatMoney FloatNN FloatVal FloatEma
open Fl (toQ IsFin)

/-! ### Moves -/

/-- A move in binary32 (`x`) and the exact one (`y`). -/
structure MoveClose (x : F32) (y : ℚ) : Prop where
  fin : IsFin x
  nonneg : 0 ≤ toQ x
  nonneg' : 0 ≤ y
  close : |toQ x - y| ≤ y / 16777216 + tinyQ

private theorem move_zero : MoveClose (lit F32 0) 0 := by
  rw [lit0]
  refine ⟨trivial, le_refl _, le_refl _, ?_⟩
  show |(0 : ℚ) - 0| ≤ _
  have := tinyQ_pos
  simpa using this.le

private theorem move_sub {a b : F32} (ha : IsFin a ∧ |toQ a| ≤ 2 ^ 97) (hb : IsFin b ∧ |toQ b| ≤ 2 ^ 97) (h : toQ b ≤ toQ a) :
    MoveClose (a -. b) (toQ a - toQ b) := by
  have h3 : |toQ a - toQ b| ≤ 2 ^ 127 := (abs_sub _ _).trans (by have := ha.2; have := hb.2; norm_num at *; linarith)
  obtain ⟨f, e⟩ := sub_fin ha.1 hb.1 h3
  rw [abs_of_nonneg (sub_nonneg.mpr h)] at e
  exact ⟨f, by rw [sub_val ha.1 hb.1 h3]; exact rndQ_nonneg (by linarith), by linarith, e⟩

private theorem moves_close {r c : F32} (hr : IsFin r ∧ |toQ r| ≤ 2 ^ 97) (hc : IsFin c ∧ |toQ c| ≤ 2 ^ 97) :
    MoveClose (if c >=. r then c -. r else lit F32 0) (if toQ c >=. toQ r then toQ c -. toQ r else lit ℚ 0) ∧
    MoveClose (if c >=. r then lit F32 0 else r -. c) (if toQ c >=. toQ r then lit ℚ 0 else toQ r -. toQ c) := by
  have hle : (c >=. r) = true ↔ toQ r ≤ toQ c := le_iff hr.1 hc.1
  have e0 : lit ℚ 0 = 0 := by simp [ex_ofRat]
  by_cases h : toQ r ≤ toQ c
  · rw [if_pos (hle.mpr h), if_pos (hle.mpr h), if_pos (by simpa using h), if_pos (by simpa using h), e0]
    exact ⟨move_sub hc hr h, move_zero⟩
  · rw [if_neg (mt hle.mp h), if_neg (mt hle.mp h), if_neg (by simpa using h), if_neg (by simpa using h), e0]
    push Not at h
    exact ⟨move_zero, move_sub hr hc h.le⟩

private theorem refPrice_exact (l : List (OhlcTick F32)) (t : OhlcTick F32) :
    refPrice (l.map exactTick) (exactTick t) = toQ (refPrice l t) := by
  unfold refPrice
  rw [List.getLast?_map]
  cases l.getLast? <;> rfl

private theorem forall₂_snoc {α β : Type} {R : α → β → Prop} {l : List α} {m : List β} {a : α} {b : β} (h : List.Forall₂ R l m) (hab : R a b) :
    List.Forall₂ R (l ++ [a]) (m ++ [b]) := by
  induction h with
  | nil => exact .cons hab .nil
  | cons h _ ih => exact .cons h ih

private theorem upDown_close (l : List (OhlcTick F32)) (h : PricesWithin (2 ^ 97) l) :
    List.Forall₂ MoveClose (upMoves l) (upMoves (l.map exactTick)) ∧
    List.Forall₂ MoveClose (downMoves l) (downMoves (l.map exactTick)) := by
  induction l using List.reverseRecOn with
  | nil => exact ⟨.nil, .nil⟩
  | append_singleton l t ih =>
    obtain ⟨i1, i2⟩ := ih (fun x hx => h x (by simp [hx]))
    have ht := h t (by simp)
    have hr : IsFin (refPrice l t) ∧ |toQ (refPrice l t)| ≤ 2 ^ 97 := by
      unfold refPrice
      split
      · rename_i p hp
        exact (h p (by simp [List.mem_of_getLast? hp])).2
      · exact ht.1
    obtain ⟨m1, m2⟩ := moves_close hr ht.2
    rw [List.map_append, List.map_singleton, upMoves_snoc, upMoves_snoc, downMoves_snoc, downMoves_snoc, refPrice_exact]
    exact ⟨forall₂_snoc i1 m1, forall₂_snoc i2 m2⟩

/-! ### Averages -/

/-- The bound on the error of an average of moves up to `B` over `N` periods. -/
def mmaErr (N : ℤ) (B : ℚ) : ℚ := N * (B / 2 ^ 19 + 1 / 2 ^ 129)

/-- Weights of the modified moving average, with their errors. -/
private theorem mmaWeight_close {m : ℤ} (h1 : 1 ≤ m) (h2 : m ≤ 2 ^ 17) :
    IsFin (lit F32 1 /. lit F32 m) ∧ 0 ≤ toQ (lit F32 1 /. lit F32 m) ∧ toQ (lit F32 1 /. lit F32 m) ≤ 1 ∧
    |toQ (lit F32 1 /. lit F32 m) - 1 / m| ≤ 1 / m / 2 ^ 23 := by
  obtain ⟨w1, w2, w3⟩ := mmaWeight h1 (h2.trans (by norm_num))
  refine ⟨w1, le_trans (by norm_num) w2, w3, ?_⟩
  obtain ⟨a1, a2⟩ := lit_int (n := m) (by rw [abs_of_nonneg (by omega)]; omega)
  have hq1 : (1 : ℚ) ≤ m := by exact_mod_cast h1
  have hq2 : (m : ℚ) ≤ 2 ^ 17 := by exact_mod_cast h2
  have hx1 : (1 : ℚ) / 2 ^ 17 ≤ 1 / m := by
    rw [div_le_div_iff₀ (by positivity) (by linarith)]; norm_num at hq2 ⊢; linarith
  have hx2 : (1 : ℚ) / m ≤ 1 := by rw [div_le_one (by linarith)]; linarith
  have e1 : toQ (lit F32 1) = 1 := by rw [lit1]; rfl
  obtain ⟨-, c⟩ := div_fin (x := lit F32 1) (y := lit F32 m) (by rw [lit1]; trivial) a1 (by rw [a2]; linarith) (by
    rw [e1, a2, abs_of_nonneg (le_trans (by norm_num) hx1)]; exact hx2.trans (by norm_num))
  rw [e1, a2, abs_of_nonneg (le_trans (by norm_num) hx1 : (0 : ℚ) ≤ 1 / m)] at c
  refine c.trans ?_
  have ht := tiny_le
  generalize (1 : ℚ) / m = q at *
  norm_num at *
  linarith

private theorem abs_diff_le {x q A : ℚ} (hx0 : 0 ≤ x) (hxA : x ≤ A) (hq0 : 0 ≤ q) (hqA : q ≤ A) : |x - q| ≤ A := by
  rw [abs_le]; constructor <;> linarith

/-- The modified moving average in binary32 stays close to the exact one, however many values it is given. -/
private theorem mma_close {N : ℤ} (h1 : 1 ≤ N) (h2 : N ≤ 2 ^ 17) {B : ℚ} (hB0 : 0 ≤ B) (hB : B ≤ 2 ^ 98) (xs : List F32) (ys : List ℚ)
    (h : List.Forall₂ MoveClose xs ys) (hy : ∀ y ∈ ys, y ≤ B) :
    IsFin (mma N xs) ∧ |toQ (mma N xs) - mma N ys| ≤ mmaErr N B ∧ 0 ≤ mma N ys ∧ mma N ys ≤ B := by
  have hN : (1 : ℚ) ≤ N := by exact_mod_cast h1
  have hN2 : (N : ℚ) ≤ 2 ^ 17 := by exact_mod_cast h2
  have hE0 : 0 ≤ mmaErr N B := by unfold mmaErr; positivity
  have ht := tiny_le
  have ht0 := tinyQ_pos
  induction xs using List.reverseRecOn generalizing ys with
  | nil =>
    cases h
    have e : mma N ([] : List F32) = lit F32 0 := rfl
    have e' : mma N ([] : List ℚ) = 0 := by show lit ℚ 0 = 0; simp [ex_ofRat]
    rw [e, e', lit0]
    refine ⟨trivial, ?_, le_refl _, hB0⟩
    show |(0 : ℚ) - 0| ≤ _
    simpa using hE0
  | append_singleton xs x ih =>
    rcases List.eq_nil_or_concat ys with rfl | ⟨ys, y, rfl⟩
    · have := h.length_eq; simp at this
    rw [List.concat_eq_append] at *
    have hlen : xs.length = ys.length := by have := h.length_eq; simpa using this
    have hxs : List.Forall₂ MoveClose xs ys ∧ MoveClose x y := by
      have a := List.forall₂_take xs.length h
      have b := List.forall₂_drop xs.length h
      rw [List.take_left, hlen, List.take_left] at a
      rw [List.drop_left, hlen, List.drop_left] at b
      refine ⟨a, ?_⟩
      cases b; assumption
    obtain ⟨hf, hxy⟩ := hxs
    obtain ⟨i1, i2, i3, i4⟩ := ih ys hf (fun y hy' => hy y (by simp [hy']))
    have hyB := hy y (by simp)
    have hmax : toQ x ≤ 17 / 16 * B + 1 / 2 ^ 140 := by
      have := hxy.close; rw [abs_le] at this
      norm_num at *; linarith [this.2]
    rw [mma_snoc, mma_snoc, ← hlen]
    by_cases h0 : xs.length = 0
    · rw [if_pos h0, if_pos h0]
      refine ⟨hxy.fin, hxy.close.trans ?_, hxy.nonneg', hyB⟩
      unfold mmaErr
      have : 1 * (B / 2 ^ 19 + 1 / 2 ^ 129) ≤ N * (B / 2 ^ 19 + 1 / 2 ^ 129) := by gcongr
      refine le_trans ?_ this
      have := hxy.nonneg'
      norm_num at *; linarith
    · rw [if_neg h0, if_neg h0]
      have hm1 : 1 ≤ min ((xs.length + 1 : ℕ) : ℤ) N := by rw [le_min_iff]; exact ⟨by push_cast; omega, h1⟩
      have hm2 : min ((xs.length + 1 : ℕ) : ℤ) N ≤ N := min_le_right _ _
      generalize min ((xs.length + 1 : ℕ) : ℤ) N = m at *
      obtain ⟨w1, w2, w3, w4⟩ := mmaWeight_close hm1 (hm2.trans h2)
      generalize lit F32 1 /. lit F32 m = w at *
      have hmq : (1 : ℚ) ≤ m := by exact_mod_cast hm1
      have hmN : (m : ℚ) ≤ N := by exact_mod_cast hm2
      have hmi : (1 : ℚ) / N ≤ 1 / m := by gcongr
      have hm1' : (1 : ℚ) / m ≤ 1 := by rw [div_le_one (by linarith)]; exact hmq
      have hm0' : (0 : ℚ) < 1 / m := by positivity
      have hxy2 := hxy.close
      have hy0 := hxy.nonneg'
      have hx0 := hxy.nonneg
      set A : ℚ := 17 / 16 * B + 1 / 2 ^ 140 with hA
      have hA0 : 0 ≤ A := by positivity
      obtain ⟨s1, s2⟩ := FloatEma.ema_step (M := A) (E := mmaErr N B) w1 w2 w3 hxy.fin (by rw [abs_of_nonneg hx0]; exact hmax)
        (by norm_num at *; linarith) i1 (by rw [abs_of_nonneg i3]; norm_num at *; linarith) i2 (by
          unfold mmaErr
          have : (N : ℚ) * (B / 2 ^ 19 + 1 / 2 ^ 129) ≤ 2 ^ 17 * (B / 2 ^ 19 + 1 / 2 ^ 129) := by gcongr
          refine this.trans ?_
          norm_num at *; linarith)
      refine ⟨s1, ?_, ?_⟩
      · simp only [ex_ofRat, ex_add, ex_sub, ex_mul, ex_div, Rat.cast_one, Rat.cast_intCast]
        generalize toQ (w *. x +. (lit F32 1 -. w) *. mma N xs) = r at *
        generalize mma N ys = q at *
        generalize toQ w = v at *
        generalize toQ x = x' at *
        have hd : |(v - 1 / m) * (x' - q)| ≤ 1 / m / 2 ^ 23 * A := by
          rw [abs_mul]
          exact mul_le_mul w4 (abs_diff_le hx0 hmax i3 (by norm_num at *; linarith)) (abs_nonneg _) (by positivity)
        have hd2 : |1 / (m : ℚ) * (x' - y)| ≤ 1 / m * (B / 16777216 + tinyQ) := by
          rw [abs_mul, abs_of_pos hm0']
          exact mul_le_mul_of_nonneg_left (hxy2.trans (by norm_num; linarith)) hm0'.le
        have e : r - (1 / (m : ℚ) * y + (1 - 1 / m) * q) = (r - (v * x' + (1 - v) * q)) + ((v - 1 / m) * (x' - q)) + 1 / m * (x' - y) := by
          ring
        rw [e]
        refine (abs_add_le _ _).trans ((add_le_add_left (abs_add_le _ _) _).trans ?_)
        -- the weight is large enough
        have hw : (1 - 1 / 2 ^ 23) * (1 / N) ≤ v := by
          have := (abs_le.mp w4).1
          have h3 : (1 - 1 / 2 ^ 23) * (1 / (N : ℚ)) ≤ (1 - 1 / 2 ^ 23) * (1 / m) := by gcongr
          refine h3.trans ?_
          generalize (1 : ℚ) / m = z at *
          norm_num at *; linarith
        have hvE : (1 - 1 / 2 ^ 23) * (B / 2 ^ 19 + 1 / 2 ^ 129) ≤ v * mmaErr N B := by
          have h3 : (1 - 1 / 2 ^ 23) * (1 / N) * mmaErr N B ≤ v * mmaErr N B := by gcongr
          have h4 : (1 - 1 / 2 ^ 23) * (1 / N) * mmaErr N B = (1 - 1 / 2 ^ 23) * (B / 2 ^ 19 + 1 / 2 ^ 129) := by
            unfold mmaErr; field_simp
          rw [← h4]; exact h3
        have hz1 : 1 / (m : ℚ) / 2 ^ 23 * A ≤ A / 2 ^ 23 := by
          have : 1 / (m : ℚ) * (A / 2 ^ 23) ≤ 1 * (A / 2 ^ 23) := by gcongr
          calc _ = 1 / (m : ℚ) * (A / 2 ^ 23) := by ring
            _ ≤ _ := this
            _ = _ := one_mul _
        have hz2 : 1 / (m : ℚ) * (B / 16777216 + tinyQ) ≤ B / 16777216 + tinyQ := by
          have : 1 / (m : ℚ) * (B / 16777216 + tinyQ) ≤ 1 * (B / 16777216 + tinyQ) := by gcongr
          simpa using this
        have e2 : (1 - v) * mmaErr N B = mmaErr N B - v * mmaErr N B := by ring
        rw [e2] at s2
        generalize |r - (v * x' + (1 - v) * q)| = t1 at *
        generalize |(v - 1 / m) * (x' - q)| = t2 at *
        generalize |1 / (m : ℚ) * (x' - y)| = t3 at *
        generalize v * mmaErr N B = t4 at *
        generalize mmaErr N B = t5 at *
        generalize 1 / (m : ℚ) / 2 ^ 23 * A = t6 at *
        generalize 1 / (m : ℚ) * (B / 16777216 + tinyQ) = t7 at *
        clear_value A
        norm_num at *
        linarith
      · simp only [ex_ofRat, ex_add, ex_sub, ex_mul, ex_div, Rat.cast_one, Rat.cast_intCast]
        generalize mma N ys = q at *
        generalize (1 : ℚ) / m = z at *
        constructor
        · have : 0 ≤ 1 - z := by linarith
          positivity
        · nlinarith

/-- **C101** (averages). In binary32, over 1 to 2^17 periods, both averages of the relative strength index are within
`N·(B/2^19 + 2^-129)` of the exact averages, where `B` bounds the moves - however long the history. -/
theorem C101_averages (N period : ℤ) (h1 : 1 ≤ N) (h2 : N ≤ 2 ^ 17) (hP : 0 < period) (l : List (OhlcTick F32))
    (hl : Feedable l) (hp : PricesWithin (2 ^ 97) l) (B : ℚ) (hB0 : 0 ≤ B) (hB : B ≤ 2 ^ 98) (hm : MovesWithin B period l) :
    ∃ s, rsiAfter N period l = .ok s ∧ IsFin s.state.up.current ∧ IsFin s.state.down.current ∧
      |toQ s.state.up.current - exactUp N period l| ≤ N * (B / 2 ^ 19 + 1 / 2 ^ 129) ∧
      |toQ s.state.down.current - exactDown N period l| ≤ N * (B / 2 ^ 19 + 1 / 2 ^ 129) := by
  obtain ⟨s, a1, a2, a3, -⟩ := C47_formula N period hP l hl
  have hag : PricesWithin (2 ^ 97) (aggregate period l) :=
    aggregate_kept (kept_openClose (fun c => IsFin c ∧ |toQ c| ≤ 2 ^ 97)) hP l hl.1 hl.2 hp
  obtain ⟨u, d⟩ := upDown_close (aggregate period l) hag
  obtain ⟨u1, u2, -⟩ := mma_close h1 h2 hB0 hB _ _ u hm.1
  obtain ⟨d1, d2, -⟩ := mma_close h1 h2 hB0 hB _ _ d hm.2
  rw [← a2] at u1 u2
  rw [← a3] at d1 d2
  exact ⟨s, a1, u1, d1, u2, d2⟩

/-! ### The index -/

/-- The formula in binary32 is accurate to 2^-12, unless both averages are tiny. -/
private theorem rsi_value (s : RsiState F32) (hu : IsFin s.up.current) (hu0 : 0 ≤ toQ s.up.current)
    (hu1 : toQ s.up.current ≤ 2 ^ 110) (hd : IsFin s.down.current) (hd0 : 0 ≤ toQ s.down.current)
    (hs : 1 / 2 ^ 18 ≤ toQ s.up.current + toQ s.down.current) :
    |toQ (Rsi.get s) - 100 * toQ s.up.current / (toQ s.up.current + toQ s.down.current)| ≤ 1 / 2 ^ 12 := by
  unfold Rsi.get
  generalize s.up.current = u at *
  generalize s.down.current = d at *
  dsimp only
  have hc : IsFin (lit F32 (1 / 10 ^ 6)) := ofRat_fin (x := 1 / 10 ^ 6) (by norm_num)
  have hc1 : (1 : ℚ) / 2 ^ 20 ≤ toQ (lit F32 (1 / 10 ^ 6)) := by decide +kernel
  have hc2 : toQ (lit F32 (1 / 10 ^ 6)) ≤ 11 / 10 ^ 7 := by decide +kernel
  have e100 : lit F32 100 = .fin 100 := by decide +kernel
  generalize lit F32 (1 / 10 ^ 6) = c at *
  have ht := tiny_le
  have ht0 := tinyQ_pos
  by_cases h1 : (u <. c && d <. c) = true
  · exfalso
    rw [Bool.and_eq_true] at h1
    have a := (Fl.lt_iff hu hc).mp h1.1
    have b := (Fl.lt_iff hd hc).mp h1.2
    norm_num at *; linarith
  rw [if_neg h1]
  have huc : |toQ u * toQ c| ≤ 2 ^ 127 := by
    rw [abs_of_nonneg (mul_nonneg hu0 (le_trans (by norm_num) hc1))]; norm_num at hu1 hc2 ⊢; nlinarith
  obtain ⟨m1, m2⟩ := mul_fin hu hc huc
  rw [abs_of_nonneg (mul_nonneg hu0 (le_trans (by norm_num) hc1) : (0 : ℚ) ≤ toQ u * toQ c)] at m2
  have hsum : 0 < toQ u + toQ d := lt_of_lt_of_le (by norm_num) hs
  have e100' : toQ (lit F32 100) = 100 := by rw [e100]; rfl
  by_cases h2 : (d <. u *. c) = true
  · rw [if_pos h2, e100']
    have a := (Fl.lt_iff hd m1).mp h2
    have hcu : toQ u * toQ c ≤ toQ u * (11 / 10 ^ 7) := mul_le_mul_of_nonneg_left hc2 hu0
    have hdu : toQ d ≤ toQ u * (12 / 10 ^ 7) + 1 / 2 ^ 148 := by
      have := (abs_le.mp m2).2
      norm_num at *; linarith
    have e : 100 - 100 * toQ u / (toQ u + toQ d) = 100 * toQ d / (toQ u + toQ d) := by field_simp; ring
    rw [e, abs_of_nonneg (by positivity), div_le_iff₀ hsum]
    norm_num at *; linarith
  rw [if_neg h2]
  have h2' : toQ (u *. c) ≤ toQ d := by
    rw [Bool.not_eq_true] at h2
    exact (Fl.lt_eq_false_iff hd m1).mp h2
  have hdpos : 0 < toQ d ∧ toQ u ≤ 2 ^ 22 * toQ d := by
    rw [abs_le] at m2
    have hcc : 1 / 2 ^ 20 * toQ u ≤ toQ u * toQ c := by nlinarith
    by_cases hcu : 1 / 2 ^ 20 ≤ toQ u
    · norm_num at *
      constructor <;> linarith
    · push Not at hcu
      norm_num at *
      constructor <;> linarith
  obtain ⟨hdp, hud⟩ := hdpos
  have hq0 : 0 ≤ toQ u / toQ d := div_nonneg hu0 hd0
  have hq1 : toQ u / toQ d ≤ 2 ^ 22 := by rw [div_le_iff₀ hdp]; exact hud
  have hq : |toQ u / toQ d| ≤ 2 ^ 127 := by rw [abs_of_nonneg hq0]; exact hq1.trans (by norm_num)
  have e : 100 * toQ u / (toQ u + toQ d) = 100 - 100 / (1 + toQ u / toQ d) := by field_simp; ring
  rw [e]
  obtain ⟨d1, d2⟩ := div_fin hu hd hdp.ne' hq
  rw [abs_of_nonneg hq0] at d2
  have d3 : 0 ≤ toQ (u /. d) := by rw [div_val hu hd hdp.ne' hq]; exact rndQ_nonneg hq0
  generalize toQ u / toQ d = q at *
  have e1' : toQ (lit F32 1) = 1 := by rw [lit1]; rfl
  have f0 : IsFin (lit F32 1) := by rw [lit1]; trivial
  have d4 : toQ (u /. d) ≤ 2 ^ 23 := by
    have := (abs_le.mp d2).2; norm_num at *; linarith
  have hs' : |toQ (lit F32 1) + toQ (u /. d)| ≤ 2 ^ 127 := by
    rw [e1', abs_of_nonneg (by linarith)]; norm_num at d4 ⊢; linarith
  obtain ⟨s1, s2⟩ := add_fin f0 d1 hs'
  have s3 := add_val f0 d1 hs'
  rw [e1'] at s2 s3
  rw [abs_of_nonneg (by linarith : (0 : ℚ) ≤ 1 + toQ (u /. d))] at s2
  have p24 : rndQ binary32 (2 ^ 24) = 2 ^ 24 := by decide +kernel
  obtain ⟨s4, -⟩ := rndQ_between (x := 1 + toQ (u /. d)) rndQ_one p24 (by linarith) (by norm_num at d4 ⊢; linarith)
  rw [← s3] at s4
  generalize lit F32 1 +. u /. d = v at *
  have hv : |toQ v - (1 + q)| ≤ (1 + q) * (3 / 2 ^ 24) := by
    rw [abs_le] at d2 s2 ⊢
    constructor <;> (norm_num at *; linarith)
  have f100 : IsFin (lit F32 100) := by rw [e100]; trivial
  have hr0 : 0 ≤ 100 / toQ v := by positivity
  have hr1 : 100 / toQ v ≤ 100 := by rw [div_le_iff₀ (by linarith)]; linarith
  have hr : |toQ (lit F32 100) / toQ v| ≤ 2 ^ 127 := by
    rw [e100', abs_of_nonneg hr0]; exact hr1.trans (by norm_num)
  obtain ⟨r1, r2⟩ := div_fin f100 s1 (by linarith) hr
  rw [e100', abs_of_nonneg hr0] at r2
  have hdiff : |100 / toQ v - 100 / (1 + q)| ≤ 300 / 2 ^ 24 := by
    have h1q : 0 < 1 + q := by linarith
    have hv0 : 0 < toQ v := by linarith
    have e : 100 / toQ v - 100 / (1 + q) = 100 * ((1 + q) - toQ v) / (toQ v * (1 + q)) := by field_simp
    rw [e, abs_div, abs_mul, abs_of_pos (mul_pos hv0 h1q), div_le_iff₀ (mul_pos hv0 h1q), abs_sub_comm]
    have h100 : |(100 : ℚ)| = 100 := by norm_num
    rw [h100]
    have h3 : (1 + q) * 1 ≤ (1 + q) * toQ v := mul_le_mul_of_nonneg_left s4 h1q.le
    rw [mul_comm (toQ v)]
    generalize (1 + q) * toQ v = z at *
    generalize |toQ v - (1 + q)| = z' at *
    norm_num at *; linarith
  have hz : |toQ (lit F32 100) - toQ (lit F32 100 /. v)| ≤ 101 := by
    rw [e100']
    rw [abs_le] at r2 ⊢
    constructor <;> (norm_num at *; linarith)
  obtain ⟨z1, z2⟩ := sub_fin f100 r1 (hz.trans (by norm_num))
  rw [e100'] at z2 hz
  have hfin : ∀ a b c d : ℚ, a - (100 - d) = (a - (100 - b)) + (-(b - c)) + (-(c - d)) := by intros; ring
  rw [hfin _ (toQ (lit F32 100 /. v)) (100 / toQ v) (100 / (1 + q))]
  refine (abs_add_le _ _).trans ((add_le_add_left (abs_add_le _ _) _).trans ?_)
  rw [abs_neg, abs_neg]
  generalize |toQ (lit F32 100 /. v) - 100 / toQ v| = y1 at *
  generalize |100 / toQ v - 100 / (1 + q)| = y2 at *
  generalize |100 - toQ (lit F32 100 /. v)| = y3 at *
  generalize |_ - (100 - toQ (lit F32 100 /. v))| = y4 at *
  norm_num at *
  linarith

/-- The quotient depends on the averages in a controlled way. -/
private theorem share_close {u d U D E : ℚ} (hU : 0 ≤ U) (hD : 0 ≤ D) (hu : |u - U| ≤ E) (hd : |d - D| ≤ E)
    (h : 0 < U + D - 2 * E) : |100 * u / (u + d) - 100 * U / (U + D)| ≤ 100 * E / (U + D - 2 * E) := by
  have hE : 0 ≤ E := le_trans (abs_nonneg _) hu
  have hu' := abs_le.mp hu
  have hd' := abs_le.mp hd
  have hS : 0 < U + D := by linarith
  have hs : U + D - 2 * E ≤ u + d := by linarith
  have hs0 : 0 < u + d := by linarith
  have e : 100 * u / (u + d) - 100 * U / (U + D) = 100 * ((u - U) * D - (d - D) * U) / ((u + d) * (U + D)) := by
    field_simp; ring
  have hn : |(u - U) * D - (d - D) * U| ≤ E * (U + D) := by
    refine (abs_sub _ _).trans ?_
    rw [abs_mul, abs_mul, abs_of_nonneg hU, abs_of_nonneg hD]
    nlinarith
  have h100 : |(100 : ℚ)| = 100 := by norm_num
  rw [e, abs_div, abs_mul, abs_of_pos (mul_pos hs0 hS), h100]
  calc _ ≤ 100 * (E * (U + D)) / ((u + d) * (U + D)) := by gcongr
    _ = 100 * E / (u + d) := by field_simp
    _ ≤ _ := by gcongr

/-- **C101** (index). If the exact averages `U`, `D` are not both negligible, `GetRelativeStrengthIndex` differs from the
documented value `100 U / (U + D)` (that is, `100 - 100 / (1 + U/D)`) by at most `100 E / (U + D - 2E) + 2^-12`, where `E` is the
error of the averages. -/
theorem C101_rsi (N period : ℤ) (h1 : 1 ≤ N) (h2 : N ≤ 2 ^ 17) (hP : 0 < period) (l : List (OhlcTick F32))
    (hl : Feedable l) (hp : PricesWithin (2 ^ 97) l) (B : ℚ) (hB0 : 0 ≤ B) (hB : B ≤ 2 ^ 98) (hm : MovesWithin B period l)
    (E : ℚ) (hE : E = N * (B / 2 ^ 19 + 1 / 2 ^ 129)) (hs : 1 / 2 ^ 18 + 2 * E ≤ exactUp N period l + exactDown N period l) :
    ∃ s, rsiAfter N period l = .ok s ∧ IsFin (Rsi.get s.state) ∧
      |toQ (Rsi.get s.state) - 100 * exactUp N period l / (exactUp N period l + exactDown N period l)| ≤
        100 * E / (exactUp N period l + exactDown N period l - 2 * E) + 1 / 2 ^ 12 := by
  obtain ⟨s, a1, -, -, a4, a5⟩ := C101_averages N period h1 h2 hP l hl hp B hB0 hB hm
  obtain ⟨s', b1, b2, b3, b4, b5, b6, -⟩ := C89_rsi N period h1 (h2.trans (by norm_num)) hP l hl hp
  obtain rfl := Except.ok.inj (a1.symm.trans b1)
  refine ⟨s, a1, b6, ?_⟩
  rw [← hE] at a4 a5
  have hag : PricesWithin (2 ^ 97) (aggregate period l) :=
    aggregate_kept (kept_openClose (fun c => IsFin c ∧ |toQ c| ≤ 2 ^ 97)) hP l hl.1 hl.2 hp
  obtain ⟨u, d⟩ := upDown_close (aggregate period l) hag
  obtain ⟨-, -, u3, u4⟩ := mma_close h1 h2 hB0 hB _ _ u hm.1
  obtain ⟨-, -, d3, d4⟩ := mma_close h1 h2 hB0 hB _ _ d hm.2
  change 0 ≤ exactUp N period l at u3
  change exactUp N period l ≤ B at u4
  change 0 ≤ exactDown N period l at d3
  have hEB : E ≤ B / 4 + 1 / 2 ^ 112 := by
    have hN2 : (N : ℚ) ≤ 2 ^ 17 := by exact_mod_cast h2
    have : (N : ℚ) * (B / 2 ^ 19 + 1 / 2 ^ 129) ≤ 2 ^ 17 * (B / 2 ^ 19 + 1 / 2 ^ 129) := by gcongr
    rw [hE]; refine this.trans ?_
    norm_num; linarith
  have ha4 := abs_le.mp a4
  have ha5 := abs_le.mp a5
  have hval := rsi_value s.state b2 b3 (by norm_num at *; linarith) b4 b5 (by linarith)
  have hsh := share_close u3 d3 a4 a5 (by norm_num at *; linarith)
  have hfin : ∀ a b c : ℚ, a - c = (a - b) + (b - c) := by intros; ring
  rw [hfin _ (100 * toQ s.state.up.current / (toQ s.state.up.current + toQ s.state.down.current))]
  refine (abs_add_le _ _).trans ?_
  linarith

/-! ### %K -/

private theorem k_value {lo hi c : F32} (hlo : IsFin lo ∧ |toQ lo| ≤ 2 ^ 100) (hhi : IsFin hi ∧ |toQ hi| ≤ 2 ^ 100) (hc : IsFin c)
    (h1 : toQ lo ≤ toQ c) (h2 : toQ c ≤ toQ hi) (hs : 1 / 2 ^ 19 ≤ toQ hi - toQ lo) :
    |toQ (kOf lo hi c) - 100 * (toQ c - toQ lo) / (toQ hi - toQ lo)| ≤ 1 / 2 ^ 14 := by
  have ht := tiny_le
  have ht0 := tinyQ_pos
  have hlo' := abs_le.mp hlo.2
  have hhi' := abs_le.mp hhi.2
  obtain ⟨a1, a2⟩ := sub_fin hhi.1 hlo.1 (by rw [abs_of_nonneg (by linarith)]; norm_num at *; linarith)
  obtain ⟨b1, b2⟩ := sub_fin hc hlo.1 (by rw [abs_of_nonneg (by linarith)]; norm_num at *; linarith)
  rw [abs_of_nonneg (by linarith : (0 : ℚ) ≤ toQ hi - toQ lo)] at a2
  rw [abs_of_nonneg (by linarith : (0 : ℚ) ≤ toQ c - toQ lo)] at b2
  have hcF : IsFin (lit F32 (1 / 10 ^ 6)) := ofRat_fin (x := 1 / 10 ^ 6) (by norm_num)
  have hc2 : toQ (lit F32 (1 / 10 ^ 6)) ≤ 11 / 10 ^ 7 := by decide +kernel
  have e100 : lit F32 100 = .fin 100 := by decide +kernel
  have e100' : toQ (lit F32 100) = 100 := by rw [e100]; rfl
  have f100 : IsFin (lit F32 100) := by rw [e100]; trivial
  have hdlo : 0 ≤ toQ c - toQ lo := by linarith
  have hdhi : toQ c - toQ lo ≤ toQ hi - toQ lo := by linarith
  have hS2 : toQ hi - toQ lo ≤ 2 ^ 101 := by norm_num at *; linarith
  have ha2 := abs_le.mp a2
  unfold kOf
  rw [if_neg (by
    intro h
    have := (Fl.lt_iff a1 hcF).mp h
    norm_num at *; linarith)]
  generalize hi -. lo = S at *
  generalize c -. lo = x at *
  generalize toQ hi - toQ lo = S' at *
  generalize toQ c - toQ lo = x' at *
  have hb2 := abs_le.mp b2
  have hS0 : 0 < S' := lt_of_lt_of_le (by norm_num) hs
  have hSp : 0 < toQ S := by norm_num at *; linarith
  have hx101 : |toQ (lit F32 100) * toQ x| ≤ 2 ^ 127 := by
    rw [e100', abs_le]; constructor <;> (norm_num at *; linarith)
  obtain ⟨m1, m2⟩ := mul_fin f100 b1 hx101
  rw [e100'] at m2
  generalize lit F32 100 *. x = y at *
  have hy : |toQ y - 100 * x'| ≤ 202 / 2 ^ 24 * S' := by
    have hax : |100 * toQ x| ≤ 101 * S' := by
      rw [abs_le]; constructor <;> (norm_num at *; linarith)
    have m3 := abs_le.mp m2
    generalize |100 * toQ x| = ax at *
    rw [abs_le]; constructor <;> (norm_num at *; linarith)
  have hyS : |toQ y - 100 * x' / S' * toQ S| ≤ 304 / 2 ^ 24 * S' := by
    have hK : 0 ≤ 100 * x' / S' ∧ 100 * x' / S' ≤ 100 := by
      refine ⟨by positivity, ?_⟩
      rw [div_le_iff₀ hS0]; linarith
    have e : toQ y - 100 * x' / S' * toQ S = (toQ y - 100 * x') + 100 * x' / S' * (S' - toQ S) := by field_simp; ring
    rw [e]
    refine (abs_add_le _ _).trans ?_
    rw [abs_mul, abs_of_nonneg hK.1, abs_sub_comm S']
    have : 100 * x' / S' * |toQ S - S'| ≤ 100 * |toQ S - S'| := mul_le_mul_of_nonneg_right hK.2 (abs_nonneg _)
    generalize |toQ S - S'| = z at *
    generalize |toQ y - 100 * x'| = z' at *
    norm_num at *; linarith
  have hquot : |toQ y / toQ S - 100 * x' / S'| ≤ 305 / 2 ^ 24 := by
    have e : toQ y / toQ S - 100 * x' / S' = (toQ y - 100 * x' / S' * toQ S) / toQ S := by field_simp
    rw [e, abs_div, abs_of_pos hSp, div_le_iff₀ hSp]
    refine hyS.trans ?_
    norm_num at *; linarith
  have hK100 : |100 * x' / S'| ≤ 100 := by
    rw [abs_of_nonneg (by positivity), div_le_iff₀ hS0]; linarith
  have hq101 : |toQ y / toQ S| ≤ 101 := by
    have := abs_le.mp hquot
    have := abs_le.mp hK100
    rw [abs_le]; constructor <;> (norm_num at *; linarith)
  obtain ⟨-, d2⟩ := div_fin m1 a1 hSp.ne' (hq101.trans (by norm_num))
  have e : ∀ a b c : ℚ, a - c = (a - b) + (b - c) := by intros; ring
  rw [e _ (toQ y / toQ S)]
  refine (abs_add_le _ _).trans ?_
  generalize |toQ y / toQ S - 100 * x' / S'| = z1 at *
  generalize |toQ y / toQ S| = z2 at *
  generalize |_ - toQ y / toQ S| = z3 at *
  norm_num at *
  linarith

/-- **C101** (%K). If the range of the window is at least 2^-19, `GetK` differs by at most 2^-14 from the documented value
`100 (close - low) / (high - low)`, for the smallest low and the largest high of the last `n` aggregated ticks. -/
theorem C101_k (n period : ℤ) (hn : 0 < n) (hP : 0 < period) (l : List (OhlcTick F32)) (hl : Feedable l) (hr : RangesWithin (2 ^ 100) l)
    (t : OhlcTick F32) (ht : (aggregate period l).getLast? = some t) (lo hi : ℚ)
    (hlo : IsLeast {x | ∃ t ∈ lastN n.toNat (aggregate period l), x = toQ t.low} lo)
    (hhi : IsGreatest {x | ∃ t ∈ lastN n.toNat (aggregate period l), x = toQ t.high} hi) (hs : 1 / 2 ^ 19 ≤ hi - lo) :
    ∃ s, soAfter n period l = .ok s ∧ |toQ s.state.k - 100 * (toQ t.close - lo) / (hi - lo)| ≤ 1 / 2 ^ 14 := by
  have hne : l ≠ [] := by rintro rfl; simp [aggregate] at ht
  obtain ⟨s, h1, h2⟩ := soF_state n period hn hP l hl
  obtain ⟨s', h1', b1, b2, b3, b4, -⟩ := C89_stochastic n period hn hP l hl hne hr
  obtain rfl := Except.ok.inj (h1.symm.trans h1')
  have hag : RangesWithin (2 ^ 100) (aggregate period l) := aggregate_kept (kept_range _) hP l hl.1 hl.2 hr
  have e : ∀ f : OhlcTick F32 → F32, lastN n.toNat ((aggregate period l).map f) = (lastN n.toNat (aggregate period l)).map f := by
    intro f; unfold lastN; rw [List.length_map, List.map_drop]
  have hsub : ∀ t ∈ lastN n.toNat (aggregate period l), t ∈ aggregate period l := fun t ht => List.mem_of_mem_drop ht
  rw [e] at b1 b3
  obtain ⟨tl, htl, hl'⟩ := List.mem_map.mp b1
  obtain ⟨th, hth, hh'⟩ := List.mem_map.mp b3
  have hlast : t ∈ lastN n.toNat (aggregate period l) := by
    unfold lastN
    have hlen : 0 < (aggregate period l).length := List.length_pos_of_ne_nil (by intro h; rw [h] at ht; simp at ht)
    have : ((aggregate period l).drop ((aggregate period l).length - n.toNat)).getLast? = some t := by
      rw [List.getLast?_drop, if_neg (by omega)]; exact ht
    exact List.mem_of_getLast? this
  have elo : toQ (So.getLow s.state) = lo := by
    apply le_antisymm
    · obtain ⟨t', ht', h'⟩ := hlo.1
      rw [h']; exact b2 t' ht'
    · exact hlo.2 ⟨tl, htl, by rw [← hl']⟩
  have ehi : toQ (So.getHigh s.state) = hi := by
    apply le_antisymm
    · exact hhi.2 ⟨th, hth, by rw [← hh']⟩
    · obtain ⟨t', ht', h'⟩ := hhi.1
      rw [h']; exact b4 t' ht'
  have htr := hag t (hsub t hlast)
  refine ⟨s, h1, ?_⟩
  rw [h2.k t ht, ← elo, ← ehi]
  refine k_value ?_ ?_ htr.2.2.1 ((b2 t hlast).trans htr.2.2.2.1) (htr.2.2.2.2.trans (b4 t hlast)) (by rw [← elo, ← ehi] at hs; exact hs)
  · have := (hag tl (hsub tl htl)).1
    change IsFin (So.getLow s.state) ∧ |toQ (So.getLow s.state)| ≤ 2 ^ 100
    rw [← hl']; exact this
  · have := (hag th (hsub th hth)).2.1
    change IsFin (So.getHigh s.state) ∧ |toQ (So.getHigh s.state)| ≤ 2 ^ 100
    rw [← hh']; exact this

/-! Non-vacuity: moves up, down and up (the prices are rounded to binary32). -/

example : MovesWithin 3 10 flRsiTicks ∧
    1 / 2 ^ 18 + 2 * ((2 : ℤ) * ((3 : ℚ) / 2 ^ 19 + 1 / 2 ^ 129)) ≤ exactUp 2 10 flRsiTicks + exactDown 2 10 flRsiTicks ∧
    0 < exactDown 2 10 flRsiTicks := by unfold MovesWithin; decide +kernel

/-- For the tick of `C89_stochastic_over`, which closes at its high, %K is 100 up to 2^-14. -/
example : ∃ s, soAfter 14 60 overTick = .ok s ∧ |toQ s.state.k - 100| ≤ 1 / 2 ^ 14 := by
  obtain ⟨t, ht, h⟩ : ∃ t : OhlcTick F32, aggregate 60 overTick = [t] ∧ toQ t.low = 1 ∧ toQ t.high = toQ t.close ∧
      1 / 2 ^ 19 ≤ toQ t.high - 1 := by
    cases h : aggregate 60 overTick with
    | nil => exact absurd h (by decide +kernel)
    | cons t rest =>
      have h1 : (aggregate 60 overTick).map (fun t => (toQ t.low, toQ t.high == toQ t.close, decide (1 / 2 ^ 19 ≤ toQ t.high - 1))) =
        [(1, true, true)] := by decide +kernel
      rw [h, List.map_cons] at h1
      obtain ⟨h2, h3⟩ := List.cons.inj h1
      rw [List.map_eq_nil_iff] at h3
      subst h3
      simp only [Prod.mk.injEq, beq_iff_eq, decide_eq_true_eq] at h2
      exact ⟨t, rfl, h2⟩
  have hlast : lastN (14 : ℤ).toNat (aggregate 60 overTick) = [t] := by rw [ht]; rfl
  obtain ⟨s, h1, h2⟩ := C101_k 14 60 (by decide) (by decide) overTick overTick_ok.1 overTick_ok.2.2 t (by rw [ht]; rfl) 1 (toQ t.high)
    (by rw [hlast]; exact ⟨⟨t, by simp, h.1.symm⟩, by rintro x ⟨t', ht', rfl⟩; simp at ht'; subst ht'; exact h.1.ge⟩)
    (by rw [hlast]; exact ⟨⟨t, by simp, rfl⟩, by rintro x ⟨t', ht', rfl⟩; simp at ht'; subst ht'; exact le_refl _⟩) h.2.2
  refine ⟨s, h1, ?_⟩
  rw [← h.2.1, mul_div_assoc, div_self (by have := h.2.2; norm_num at this ⊢; intro h0; rw [h0] at this; norm_num at this), mul_one] at h2
  exact h2

end Verif.Props
