import Verif.Props.FloatEma
import Verif.Props.Rsi

/-!
# C89: the relative strength index in binary32
-/

namespace Verif.Props
open FloatOps Spec FloatMoney FloatNN FloatVal FloatEma
open Fl (toQ IsFin)

theorem kept_openClose (Q : F32 → Prop) : Kept (F := F32) (fun t => Q t.opn ∧ Q t.close) where
  move := fun _ _ h => h
  flat := fun _ _ h => ⟨h.2, h.2⟩
  merge := fun _ _ h h' => ⟨h.1, h'.2⟩

/-- The weights of the modified moving average. -/
theorem mmaWeight {m : ℤ} (h1 : 1 ≤ m) (h2 : m ≤ 2 ^ 18) :
    IsFin (lit F32 1 /. lit F32 m) ∧ 1 / 2 ^ 19 ≤ toQ (lit F32 1 /. lit F32 m) ∧ toQ (lit F32 1 /. lit F32 m) ≤ 1 := by
  obtain ⟨a1, a2⟩ := lit_int (n := m) (by rw [abs_of_nonneg (by omega)]; omega)
  have hq1 : (1 : ℚ) ≤ m := by exact_mod_cast h1
  have hq2 : (m : ℚ) ≤ 2 ^ 18 := by exact_mod_cast h2
  have hx1 : (1 : ℚ) / 2 ^ 19 ≤ 1 / m := by
    rw [div_le_div_iff₀ (by positivity) (by linarith)]; norm_num at hq2 ⊢; linarith
  have hx2 : (1 : ℚ) / m ≤ 1 := by rw [div_le_one (by linarith)]; linarith
  have h0 : toQ (lit F32 m) ≠ 0 := by rw [a2]; linarith
  have hdv : |toQ (lit F32 1) / toQ (lit F32 m)| ≤ 2 ^ 127 := by
    rw [lit1, a2]; show |1 / (m : ℚ)| ≤ _
    rw [abs_of_nonneg (le_trans (by norm_num) hx1)]; exact hx2.trans (by norm_num)
  obtain ⟨c1, -⟩ := div_fin (x := lit F32 1) (y := lit F32 m) (by rw [lit1]; trivial) a1 h0 hdv
  have c2 := div_val (x := lit F32 1) (y := lit F32 m) (by rw [lit1]; trivial) a1 h0 hdv
  rw [a2, lit1] at c2
  rw [lit1] at c1 ⊢
  have hb := rndQ_between rndQ_two_zpow19 rndQ_one hx1 hx2
  refine ⟨c1, ?_, ?_⟩
  · rw [c2]; exact hb.1
  · rw [c2]; exact hb.2

/-- One step of an average of numbers that are not negative. -/
theorem ema_step_nonneg {w x e : F32} (hw : IsFin w) (hw0 : 0 ≤ toQ w) (hw1 : toQ w ≤ 1) (hx : IsFin x)
    (hx0 : 0 ≤ toQ x) (he : IsFin e) (he0 : 0 ≤ toQ e) {M : ℚ} (hM : M ≤ 2 ^ 110) (hxM : toQ x ≤ M) (heM : toQ e ≤ M) :
    0 ≤ toQ (w *. x +. (lit F32 1 -. w) *. e) := by
  have e1' : toQ (lit F32 1) = 1 := by rw [lit1]; rfl
  have f0 : IsFin (lit F32 1) := by rw [lit1]; trivial
  have hwx0 : 0 ≤ toQ w * toQ x := mul_nonneg hw0 hx0
  have hwx : |toQ w * toQ x| ≤ 2 ^ 127 := by
    rw [abs_of_nonneg hwx0]; norm_num at hM ⊢; nlinarith
  obtain ⟨f1, -⟩ := mul_fin hw hx hwx
  have v1 := mul_val hw hx hwx
  have h1w : |toQ (lit F32 1) - toQ w| ≤ 2 ^ 127 := by
    rw [e1', abs_of_nonneg (by linarith)]; norm_num; linarith
  obtain ⟨f2, b2⟩ := sub_fin f0 hw h1w
  have v2 := sub_val f0 hw h1w
  rw [e1'] at v2 b2
  have hv0 : 0 ≤ toQ (lit F32 1 -. w) := by rw [v2]; exact rndQ_nonneg (by linarith)
  have hv1 : toQ (lit F32 1 -. w) ≤ 1 := by
    rw [v2]; exact (rndQ_between rndQ_zero rndQ_one (by linarith) (by linarith)).2
  have hve0 := mul_nonneg hv0 he0
  have hve : |toQ (lit F32 1 -. w) * toQ e| ≤ 2 ^ 127 := by
    rw [abs_of_nonneg hve0]; norm_num at hM ⊢; nlinarith
  obtain ⟨f3, -⟩ := mul_fin f2 he hve
  have v3 := mul_val f2 he hve
  have r1 : 0 ≤ toQ (w *. x) := by rw [v1]; exact rndQ_nonneg hwx0
  have r3 : 0 ≤ toQ ((lit F32 1 -. w) *. e) := by rw [v3]; exact rndQ_nonneg hve0
  have p110 : rndQ binary32 (2 ^ 110) = 2 ^ 110 := by decide +kernel
  have u1 : toQ (w *. x) ≤ 2 ^ 110 := by
    rw [v1]; exact (rndQ_between rndQ_zero p110 hwx0 (by nlinarith)).2
  have u3 : toQ ((lit F32 1 -. w) *. e) ≤ 2 ^ 110 := by
    rw [v3]; exact (rndQ_between rndQ_zero p110 hve0 (by nlinarith)).2
  rw [add_val f1 f3 (by rw [abs_of_nonneg (add_nonneg r1 r3)]; norm_num at u1 u3 ⊢; linarith)]
  exact rndQ_nonneg (add_nonneg r1 r3)

/-- The modified moving average in binary32 of numbers between 0 and `M`. -/
theorem mma_float {N : ℤ} (h1 : 1 ≤ N) (h2 : N ≤ 2 ^ 18) {M : ℚ} (hM0 : 0 ≤ M) (hM : M ≤ 2 ^ 100) (xs : List F32)
    (hx : ∀ x ∈ xs, IsFin x ∧ 0 ≤ toQ x ∧ toQ x ≤ M) :
    IsFin (mma N xs) ∧ 0 ≤ toQ (mma N xs) ∧ ∃ q, |q| ≤ M ∧ |toQ (mma N xs) - q| ≤ emaErr M (1 / 2 ^ 19) := by
  induction xs using List.reverseRecOn with
  | nil =>
    have e : mma N ([] : List F32) = lit F32 0 := rfl
    rw [e, lit0]
    refine ⟨trivial, le_refl _, 0, by simpa using hM0, ?_⟩
    show |(0 : ℚ) - 0| ≤ _
    simpa using emaErr_nonneg hM0 le_rfl
  | append_singleton xs x ih =>
    obtain ⟨i1, i2, q, i3, i4⟩ := ih (fun y hy => hx y (by simp [hy]))
    obtain ⟨x1, x2, x3⟩ := hx x (by simp)
    rw [mma_snoc]
    by_cases h0 : xs.length = 0
    · rw [if_pos h0]
      refine ⟨x1, x2, toQ x, by rw [abs_of_nonneg x2]; exact x3, ?_⟩
      rw [sub_self, abs_zero]; exact emaErr_nonneg hM0 le_rfl
    · rw [if_neg h0]
      have hm1 : 1 ≤ min ((xs.length + 1 : ℕ) : ℤ) N := by rw [le_min_iff]; exact ⟨by push_cast; omega, h1⟩
      have hm2 : min ((xs.length + 1 : ℕ) : ℤ) N ≤ 2 ^ 18 := (min_le_right _ _).trans h2
      obtain ⟨w1, w2, w3⟩ := mmaWeight hm1 hm2
      generalize lit F32 1 /. lit F32 (min ((xs.length + 1 : ℕ) : ℤ) N : ℤ) = w at *
      have hxa : |toQ x| ≤ M := by rw [abs_of_nonneg x2]; exact x3
      obtain ⟨a, b, c⟩ := ema_step_close (W := 1 / 2 ^ 19) w1 le_rfl w2 w3 x1 hxa hM i1 i3 i4
      refine ⟨a, ?_, _, c, b⟩
      have hb : toQ (mma N xs) ≤ 2 ^ 110 := by
        have h5 := (abs_add_bound i4).1
        have h6 := emaErr_le hM0 (le_refl (1 / 2 ^ 19 : ℚ))
        rw [abs_of_nonneg i2] at h5
        norm_num at *; linarith
      exact ema_step_nonneg w1 (le_trans (by norm_num) w2) w3 x1 x2 i1 i2 (M := 2 ^ 110) le_rfl
        (by norm_num at hM ⊢; linarith) hb

theorem moves_float {M : ℚ} (hM0 : 0 ≤ M) (hM : M ≤ 2 ^ 100) (r c : F32) (hr : IsFin r ∧ |toQ r| ≤ M) (hc : IsFin c ∧ |toQ c| ≤ M) :
    (IsFin (if c >=. r then c -. r else lit F32 0) ∧ 0 ≤ toQ (if c >=. r then c -. r else lit F32 0) ∧
      toQ (if c >=. r then c -. r else lit F32 0) ≤ 4 * M + 1 / 2 ^ 140) ∧
    (IsFin (if c >=. r then lit F32 0 else r -. c) ∧ 0 ≤ toQ (if c >=. r then lit F32 0 else r -. c) ∧
      toQ (if c >=. r then lit F32 0 else r -. c) ≤ 4 * M + 1 / 2 ^ 140) := by
  have ht := tiny_le
  have zero : IsFin (lit F32 0) ∧ 0 ≤ toQ (lit F32 0) ∧ toQ (lit F32 0) ≤ 4 * M + 1 / 2 ^ 140 := by
    rw [lit0]; refine ⟨trivial, le_refl _, ?_⟩; show (0 : ℚ) ≤ _; positivity
  have diff : ∀ a b : F32, IsFin a ∧ |toQ a| ≤ M → IsFin b ∧ |toQ b| ≤ M → toQ b ≤ toQ a →
      IsFin (a -. b) ∧ 0 ≤ toQ (a -. b) ∧ toQ (a -. b) ≤ 4 * M + 1 / 2 ^ 140 := by
    intro a b ha hb hab
    have h2 : |toQ a - toQ b| ≤ 2 * M := (abs_sub _ _).trans (by linarith [ha.2, hb.2])
    have h3 : |toQ a - toQ b| ≤ 2 ^ 127 := h2.trans (by norm_num at hM ⊢; linarith)
    obtain ⟨f, e⟩ := sub_fin ha.1 hb.1 h3
    refine ⟨f, by rw [sub_val ha.1 hb.1 h3]; exact rndQ_nonneg (by linarith), ?_⟩
    have h4 := (abs_add_bound e).1
    have h5 := le_abs_self (toQ (a -. b))
    norm_num at *; linarith
  have hle : (c >=. r) = true ↔ toQ r ≤ toQ c := le_iff hr.1 hc.1
  by_cases h : (c >=. r) = true
  · rw [if_pos h, if_pos h]
    exact ⟨diff c r hc hr (hle.mp h), zero⟩
  · rw [if_neg h, if_neg h]
    refine ⟨zero, diff r c hr hc ?_⟩
    have := mt hle.mpr h
    linarith

theorem upDown_float {M : ℚ} (hM0 : 0 ≤ M) (hM : M ≤ 2 ^ 100) (l : List (OhlcTick F32)) (h : PricesWithin M l) :
    (∀ x ∈ upMoves l, IsFin x ∧ 0 ≤ toQ x ∧ toQ x ≤ 4 * M + 1 / 2 ^ 140) ∧
    (∀ x ∈ downMoves l, IsFin x ∧ 0 ≤ toQ x ∧ toQ x ≤ 4 * M + 1 / 2 ^ 140) := by
  induction l using List.reverseRecOn with
  | nil => simp [upMoves, downMoves, referencePrices]
  | append_singleton l t ih =>
    obtain ⟨i1, i2⟩ := ih (fun x hx => h x (by simp [hx]))
    have ht := h t (by simp)
    have hr : IsFin (refPrice l t) ∧ |toQ (refPrice l t)| ≤ M := by
      unfold refPrice
      split
      · rename_i p hp
        exact (h p (by simp [List.mem_of_getLast? hp])).2
      · exact ht.1
    obtain ⟨m1, m2⟩ := moves_float hM0 hM (refPrice l t) t.close hr ht.2
    constructor
    · intro x hx
      rw [upMoves_snoc, List.mem_append, List.mem_singleton] at hx
      rcases hx with hx | rfl
      · exact i1 x hx
      · exact m1
    · intro x hx
      rw [downMoves_snoc, List.mem_append, List.mem_singleton] at hx
      rcases hx with hx | rfl
      · exact i2 x hx
      · exact m2

/-- The formula stays in the range, for averages that are not negative and not huge. -/
theorem rsi_float_range (s : RsiState F32) (hu : IsFin s.up.current) (hu0 : 0 ≤ toQ s.up.current)
    (hu1 : toQ s.up.current ≤ 2 ^ 110) (hd : IsFin s.down.current) (hd0 : 0 ≤ toQ s.down.current) :
    IsFin (Rsi.get s) ∧ 0 ≤ toQ (Rsi.get s) ∧ toQ (Rsi.get s) ≤ 100 := by
  unfold Rsi.get
  generalize s.up.current = u at *
  generalize s.down.current = d at *
  dsimp only
  have hc : IsFin (lit F32 (1 / 10 ^ 6)) := ofRat_fin (x := 1 / 10 ^ 6) (by norm_num)
  have hc1 : (1 : ℚ) / 2 ^ 20 ≤ toQ (lit F32 (1 / 10 ^ 6)) := by decide +kernel
  have hc2 : toQ (lit F32 (1 / 10 ^ 6)) ≤ 1 / 2 ^ 19 := by decide +kernel
  have e50 : lit F32 50 = .fin 50 := by decide +kernel
  have e100 : lit F32 100 = .fin 100 := by decide +kernel
  generalize lit F32 (1 / 10 ^ 6) = c at *
  have ht := tiny_le
  have ht0 := tinyQ_pos
  by_cases h1 : (u <. c && d <. c) = true
  · rw [if_pos h1, e50]
    refine ⟨trivial, ?_, ?_⟩ <;> (show (_ : ℚ) ≤ _; norm_num [toQ])
  rw [if_neg h1]
  by_cases h2 : (d <. u *. c) = true
  · rw [if_pos h2, e100]
    refine ⟨trivial, ?_, ?_⟩ <;> (show (_ : ℚ) ≤ _; norm_num [toQ])
  rw [if_neg h2]
  have huc : |toQ u * toQ c| ≤ 2 ^ 127 := by
    rw [abs_of_nonneg (mul_nonneg hu0 (le_trans (by norm_num) hc1))]; norm_num at hu1 hc2 ⊢; nlinarith
  obtain ⟨m1, m2⟩ := mul_fin hu hc huc
  rw [abs_of_nonneg (mul_nonneg hu0 (le_trans (by norm_num) hc1) : (0 : ℚ) ≤ toQ u * toQ c)] at m2
  have h2' : toQ (u *. c) ≤ toQ d := by
    rw [Bool.not_eq_true] at h2
    exact (Fl.lt_eq_false_iff hd m1).mp h2
  have h1' : toQ c ≤ toQ u ∨ toQ c ≤ toQ d := by
    rw [Bool.and_eq_true, not_and_or, Bool.not_eq_true, Bool.not_eq_true] at h1
    rcases h1 with h | h
    · exact .inl ((Fl.lt_eq_false_iff hu hc).mp h)
    · exact .inr ((Fl.lt_eq_false_iff hd hc).mp h)
  have hdpos : 0 < toQ d ∧ toQ u ≤ 2 ^ 22 * toQ d := by
    rw [abs_le] at m2
    by_cases hcu : toQ c ≤ toQ u
    · have hcc : 1 / 2 ^ 20 * toQ u ≤ toQ u * toQ c := by nlinarith
      norm_num at *
      constructor <;> linarith
    · have hcd : toQ c ≤ toQ d := h1'.resolve_left hcu
      push Not at hcu
      norm_num at *
      constructor <;> linarith
  obtain ⟨hdp, hud⟩ := hdpos
  have hq0 : 0 ≤ toQ u / toQ d := div_nonneg hu0 hd0
  have hq1 : toQ u / toQ d ≤ 2 ^ 22 := by rw [div_le_iff₀ hdp]; exact hud
  have hq : |toQ u / toQ d| ≤ 2 ^ 127 := by rw [abs_of_nonneg hq0]; exact hq1.trans (by norm_num)
  obtain ⟨d1, -⟩ := div_fin hu hd hdp.ne' hq
  have d2 := div_val hu hd hdp.ne' hq
  have p22 : rndQ binary32 (2 ^ 22) = 2 ^ 22 := by decide +kernel
  have p23 : rndQ binary32 (2 ^ 23) = 2 ^ 23 := by decide +kernel
  obtain ⟨d3, d4⟩ := rndQ_between rndQ_zero p22 hq0 hq1
  rw [← d2] at d3 d4
  have e1' : toQ (lit F32 1) = 1 := by rw [lit1]; rfl
  have f0 : IsFin (lit F32 1) := by rw [lit1]; trivial
  have hs : |toQ (lit F32 1) + toQ (u /. d)| ≤ 2 ^ 127 := by
    rw [e1', abs_of_nonneg (by linarith)]; norm_num at d4 ⊢; linarith
  obtain ⟨s1, -⟩ := add_fin f0 d1 hs
  have s2 := add_val f0 d1 hs
  rw [e1'] at s2
  obtain ⟨s3, -⟩ := rndQ_between (x := 1 + toQ (u /. d)) rndQ_one p23 (by linarith) (by norm_num at d4 ⊢; linarith)
  rw [← s2] at s3
  generalize lit F32 1 +. u /. d = v at *
  have e100' : toQ (lit F32 100) = 100 := by rw [e100]; rfl
  have f100 : IsFin (lit F32 100) := by rw [e100]; trivial
  have hr0 : 0 ≤ 100 / toQ v := by positivity
  have hr1 : 100 / toQ v ≤ 100 := by rw [div_le_iff₀ (by linarith)]; linarith
  have hr : |toQ (lit F32 100) / toQ v| ≤ 2 ^ 127 := by
    rw [e100', abs_of_nonneg hr0]; exact hr1.trans (by norm_num)
  obtain ⟨r1, -⟩ := div_fin f100 s1 (by linarith) hr
  have r2 := div_val f100 s1 (by linarith) hr
  rw [e100'] at r2
  obtain ⟨r3, r4⟩ := rndQ_between rndQ_zero rndQ_hundred hr0 hr1
  rw [← r2] at r3 r4
  have hz : |toQ (lit F32 100) - toQ (lit F32 100 /. v)| ≤ 2 ^ 127 := by
    rw [e100', abs_of_nonneg (by linarith)]; norm_num; linarith
  obtain ⟨z1, -⟩ := sub_fin f100 r1 hz
  have z2 := sub_val f100 r1 hz
  rw [e100'] at z2
  obtain ⟨z3, z4⟩ := rndQ_between (x := 100 - toQ (lit F32 100 /. v)) rndQ_zero rndQ_hundred (by linarith) (by linarith)
  rw [← z2] at z3 z4
  exact ⟨z1, z3, z4⟩

/-- **C89**. In binary32, with between 1 and 2^18 periods and opens and closes that are finite and of absolute value
at most 2^97, `GetRelativeStrengthIndex` is a finite number in [0, 100] - exactly, whatever the rounding errors - and
neither average is negative. -/
theorem C89_rsi (N period : ℤ) (h1 : 1 ≤ N) (h2 : N ≤ 2 ^ 18) (hP : 0 < period) (l : List (OhlcTick F32))
    (hl : Feedable l) (hp : PricesWithin (2 ^ 97) l) :
    ∃ s, rsiAfter N period l = .ok s ∧
      IsFin s.state.up.current ∧ 0 ≤ toQ s.state.up.current ∧
      IsFin s.state.down.current ∧ 0 ≤ toQ s.state.down.current ∧
      IsFin (Rsi.get s.state) ∧ 0 ≤ toQ (Rsi.get s.state) ∧ toQ (Rsi.get s.state) ≤ 100 := by
  obtain ⟨s, a1, a2, a3, -⟩ := C47_formula N period hP l hl
  have hag : PricesWithin (2 ^ 97) (aggregate period l) :=
    aggregate_kept (kept_openClose (fun c => IsFin c ∧ |toQ c| ≤ 2 ^ 97)) hP l hl.1 hl.2 hp
  obtain ⟨u, d⟩ := upDown_float (by positivity) (by norm_num) (aggregate period l) hag
  obtain ⟨u1, u2, q, u3, u4⟩ := mma_float h1 h2 (M := 4 * 2 ^ 97 + 1 / 2 ^ 140) (by positivity) (by norm_num) _ u
  obtain ⟨d1, d2, -⟩ := mma_float h1 h2 (M := 4 * 2 ^ 97 + 1 / 2 ^ 140) (by positivity) (by norm_num) _ d
  have hub : toQ (mma N (upMoves (aggregate period l))) ≤ 2 ^ 110 := by
    have h5 := (abs_add_bound u4).1
    have h6 := emaErr_le (M := 4 * 2 ^ 97 + 1 / 2 ^ 140) (by positivity) (le_refl (1 / 2 ^ 19 : ℚ))
    rw [abs_of_nonneg u2] at h5
    refine h5.trans ((add_le_add u3 h6).trans ?_)
    norm_num
  rw [← a2] at u1 u2 hub
  rw [← a3] at d1 d2
  exact ⟨s, a1, u1, u2, d1, d2, rsi_float_range s.state u1 u2 hub d1 d2⟩

/-! Non-vacuity. -/

/-- Ticks whose moves and averages are rounded. -/
def flRsiTicks : List (OhlcTick F32) :=
  [⟨100, lit F32 (1 / 10), lit F32 1, lit F32 (1 / 20), lit F32 (7 / 10), lit F32 0⟩,
   ⟨110, lit F32 1, lit F32 2, lit F32 (1 / 4), lit F32 (1 / 3), lit F32 0⟩,
   ⟨120, lit F32 1, lit F32 3, lit F32 1, lit F32 (16 / 5), lit F32 7⟩]

example : Feedable flRsiTicks ∧ PricesWithin (2 ^ 97) flRsiTicks := by
  refine ⟨by unfold Feedable SortedBy; decide +kernel, ?_⟩
  intro t ht
  simp only [flRsiTicks, List.mem_cons, List.not_mem_nil, or_false] at ht
  rcases ht with rfl | rfl | rfl
  · exact ⟨⟨ofRat_fin (x := 1 / 10) (by norm_num), by decide +kernel⟩, ofRat_fin (x := 7 / 10) (by norm_num), by decide +kernel⟩
  · exact ⟨⟨ofRat_fin (x := 1) (by norm_num), by decide +kernel⟩, ofRat_fin (x := 1 / 3) (by norm_num), by decide +kernel⟩
  · exact ⟨⟨ofRat_fin (x := 1) (by norm_num), by decide +kernel⟩, ofRat_fin (x := 16 / 5) (by norm_num), by decide +kernel⟩
example : (rsiAfter 2 10 flRsiTicks).map (fun s => toQ (Rsi.get s.state)) = .ok (12389891 / 131072) := by decide +kernel

end Verif.Props
