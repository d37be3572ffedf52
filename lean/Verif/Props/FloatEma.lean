import Verif.Props.MovingAverages
import Verif.Lemmas.FloatEma
import Verif.Spec.FloatIndicators
import Verif.Lemmas.IndicatorsCounted
import Verif.Props.FloatMoney

/-!
# C90: exponential moving averages and MACD in binary32
-/

namespace Verif.Props
open FloatOps Spec FloatMoney FloatNN FloatVal FloatEma
open Fl (toQ IsFin)

theorem kept_close (Q : F32 → Prop) : Kept (F := F32) (fun t => Q t.close) where
  move := fun _ _ h => h
  flat := fun _ _ h => h
  merge := fun _ _ _ h => h

theorem closesWithin_aggregate {M : ℚ} {P : ℤ} (hP : 0 < P) {l : List (OhlcTick F32)} (hl : Feedable l)
    (h : ClosesWithin M l) : ClosesWithin M (aggregate P l) :=
  aggregate_kept (kept_close (fun c => IsFin c ∧ |toQ c| ≤ M)) hP l hl.1 hl.2 h

/-- **C90**. In binary32, with a weight of at least 2^-19, `GetExponentialMovingAverage` is a finite number that
differs from the exact exponential average of the closes by at most `(M/2^20 + 1/2^130) / weight`, where `M` bounds
the closes - however long the history: rounding errors do not pile up. -/
theorem C90_ema (smoothing : F32) (length period : ℤ) (hP : 0 < period) (l : List (OhlcTick F32)) (hl : Feedable l)
    (w : F32) (hw : w = smoothing /. (lit F32 1 +. lit F32 length)) (hwf : IsFin w) (hw0 : 1 / 2 ^ 19 ≤ toQ w)
    (hw1 : toQ w ≤ 1) (M : ℚ) (hM0 : 0 ≤ M) (hM : M ≤ 2 ^ 100) (hc : ClosesWithin M l) :
    ∃ s, emaIndAfter smoothing length period l = .ok s ∧ IsFin (EmaInd.get s) ∧
      |toQ (EmaInd.get s) - ema (toQ w) (exactCloses period l)| ≤ (M / 2 ^ 20 + 1 / 2 ^ 130) / toQ w := by
  obtain ⟨s, h1, h2, -⟩ := C42_ema smoothing length period hP l hl
  have hag := closesWithin_aggregate hP hl hc
  obtain ⟨a, b, -⟩ := ema_close hwf hw0 hw1 hM hM0 ((aggregate period l).map (·.close)) (by
    intro x hx
    obtain ⟨t, ht, rfl⟩ := List.mem_map.mp hx
    exact hag t ht)
  rw [List.map_map] at b
  rw [← hw] at h2
  refine ⟨s, h1, by rw [h2]; exact a, ?_⟩
  rw [h2]
  exact b

/-- **C90** (range). So it lies between any two bounds of the closes, up to that error. -/
theorem C90_ema_range (smoothing : F32) (length period : ℤ) (hP : 0 < period) (l : List (OhlcTick F32))
    (hl : Feedable l) (hne : l ≠ []) (w : F32) (hw : w = smoothing /. (lit F32 1 +. lit F32 length)) (hwf : IsFin w)
    (hw0 : 1 / 2 ^ 19 ≤ toQ w) (hw1 : toQ w ≤ 1) (M : ℚ) (hM0 : 0 ≤ M) (hM : M ≤ 2 ^ 100) (hc : ClosesWithin M l)
    (lo hi : ℚ) (h : ∀ t ∈ l, lo ≤ toQ t.close ∧ toQ t.close ≤ hi) :
    ∃ s, emaIndAfter smoothing length period l = .ok s ∧ IsFin (EmaInd.get s) ∧
      lo - (M / 2 ^ 20 + 1 / 2 ^ 130) / toQ w ≤ toQ (EmaInd.get s) ∧
      toQ (EmaInd.get s) ≤ hi + (M / 2 ^ 20 + 1 / 2 ^ 130) / toQ w := by
  obtain ⟨s, h1, h2, h3⟩ := C90_ema smoothing length period hP l hl w hw hwf hw0 hw1 M hM0 hM hc
  refine ⟨s, h1, h2, ?_⟩
  have hag := aggregate_kept (kept_close (fun c => lo ≤ toQ c ∧ toQ c ≤ hi)) hP l hl.1 hl.2 h
  have hb := ema_between (toQ w) lo hi (le_trans (by norm_num) hw0) hw1 (exactCloses period l)
    (by
      intro h0
      unfold exactCloses at h0
      rw [List.map_eq_nil_iff, aggregate_eq hne, List.map_eq_nil_iff] at h0
      simp at h0)
    (by
      intro c hc
      obtain ⟨t, ht, rfl⟩ := List.mem_map.mp hc
      exact hag t ht)
  rw [abs_le] at h3
  constructor <;> linarith

theorem rndQ_two_zpow19 : rndQ binary32 (1 / 2 ^ 19) = 1 / 2 ^ 19 := by decide +kernel

/-- Integers below 2^24 are binary32 numbers. -/
theorem lit_int {n : ℤ} (h : |n| < 2 ^ 24) : IsFin (lit F32 n) ∧ toQ (lit F32 n) = n := by
  have h1 : |((n : ℤ) : ℚ)| ≤ 2 ^ 127 := by
    have : |(n : ℚ)| < 2 ^ 24 := by exact_mod_cast h
    exact this.le.trans (by norm_num)
  refine ⟨ofRat_fin h1, ?_⟩
  show toQ (Fl.ofRat binary32 n) = n
  rw [ofRat_val h1]
  exact rndQ_int h

/-- **C90** (weights). The usual weights `2 / (1 + length)` satisfy the conditions for lengths up to 2^19, and are the
exact ones up to a relative error of 2^-23. -/
theorem C90_weight (length : ℤ) (h1 : 1 ≤ length) (h2 : length ≤ 2 ^ 19) :
    IsFin (lit F32 2 /. (lit F32 1 +. lit F32 length)) ∧
    1 / 2 ^ 19 ≤ toQ (lit F32 2 /. (lit F32 1 +. lit F32 length)) ∧
    toQ (lit F32 2 /. (lit F32 1 +. lit F32 length)) ≤ 1 ∧
    |toQ (lit F32 2 /. (lit F32 1 +. lit F32 length)) - 2 / (1 + length)| ≤ 2 / (1 + length) / 2 ^ 23 := by
  obtain ⟨a1, a2⟩ := lit_int (n := length) (by rw [abs_of_nonneg (by omega)]; omega)
  have e2 : lit F32 2 = .fin 2 := by decide +kernel
  have hq1 : (1 : ℚ) ≤ length := by exact_mod_cast h1
  have hq2 : (length : ℚ) ≤ 2 ^ 19 := by exact_mod_cast h2
  have hs : |toQ (lit F32 1) + toQ (lit F32 length)| ≤ 2 ^ 127 := by
    rw [lit1, a2]; show |(1 : ℚ) + length| ≤ _
    rw [abs_of_nonneg (by linarith)]; norm_num at hq2 ⊢; linarith
  obtain ⟨b1, -⟩ := add_fin (x := lit F32 1) (y := lit F32 length) (by rw [lit1]; trivial) a1 hs
  have b2 := add_val (x := lit F32 1) (y := lit F32 length) (by rw [lit1]; trivial) a1 hs
  rw [lit1, a2] at b2
  change toQ _ = rndQ binary32 (1 + (length : ℚ)) at b2
  have e3 : (1 : ℚ) + length = ((1 + length : ℤ) : ℚ) := by push_cast; ring
  rw [e3, rndQ_int (by rw [abs_of_nonneg (by omega)]; omega), ← e3] at b2
  have e4 : (Fl.fin 1 : F32) = lit F32 1 := lit1.symm
  rw [e4] at b2
  generalize lit F32 1 +. lit F32 length = d at *
  have hd0 : toQ d ≠ 0 := by rw [b2]; linarith
  have hx1 : (1 : ℚ) / 2 ^ 19 ≤ 2 / (1 + length) := by
    rw [div_le_div_iff₀ (by positivity) (by linarith)]; norm_num at hq2 ⊢; linarith
  have hx2 : (2 : ℚ) / (1 + length) ≤ 1 := by rw [div_le_one (by linarith)]; linarith
  have hdv : |toQ (lit F32 2) / toQ d| ≤ 2 ^ 127 := by
    rw [e2, b2]; show |2 / (1 + (length : ℚ))| ≤ _
    rw [abs_of_nonneg (le_trans (by norm_num) hx1)]; exact hx2.trans (by norm_num)
  obtain ⟨c1, c3⟩ := div_fin (x := lit F32 2) (y := d) (by rw [e2]; trivial) b1 hd0 hdv
  have c2 := div_val (x := lit F32 2) (y := d) (by rw [e2]; trivial) b1 hd0 hdv
  refine ⟨c1, ?_⟩
  have hb := rndQ_between rndQ_two_zpow19 rndQ_one hx1 hx2
  refine ⟨?_, ?_, ?_⟩
  · rw [c2, e2, b2]; exact hb.1
  · rw [c2, e2, b2]; exact hb.2
  · rw [e2, b2] at c3
    change |toQ (Fl.fin 2 /. d) - 2 / (1 + (length : ℚ))| ≤ |2 / (1 + (length : ℚ))| / 16777216 + tinyQ at c3
    rw [abs_of_nonneg (le_trans (by norm_num) hx1 : (0 : ℚ) ≤ 2 / (1 + (length : ℚ)))] at c3
    rw [e2]
    have ht := tiny_le
    generalize (2 : ℚ) / (1 + (length : ℚ)) = q at *
    norm_num at *
    linarith

/-! ### MACD -/

/-- Exponential averages of lists that differ by at most `D` differ by at most `D`. -/
theorem ema_lipschitz (w D : ℚ) (h0 : 0 ≤ w) (h1 : w ≤ 1) (hD : 0 ≤ D) (n : ℕ) (x y : ℕ → ℚ)
    (h : ∀ i < n, |x i - y i| ≤ D) :
    |ema w ((List.range n).map x) - ema w ((List.range n).map y)| ≤ D := by
  induction n with
  | zero => simpa [ema] using hD
  | succ n ih =>
    have hi := ih (fun i hi => h i (by omega))
    have hn := h n (by omega)
    rw [List.range_succ, List.map_append, List.map_append, List.map_singleton, List.map_singleton, Props.ema_snoc, Props.ema_snoc]
    by_cases hz : n = 0
    · subst hz
      simpa using hn
    · rw [if_neg (by simpa using hz), if_neg (by simpa using hz)]
      simp only [ex_ofRat, ex_add, ex_sub, ex_mul, Rat.cast_one]
      generalize ema w _ = p at *
      generalize ema w _ = q at *
      rw [abs_le] at *
      constructor <;> nlinarith

theorem macd_term {wf ws : F32} (hf : IsFin wf) (hf0 : 1 / 2 ^ 19 ≤ toQ wf) (hf1 : toQ wf ≤ 1) (hs : IsFin ws)
    (hs0 : 1 / 2 ^ 19 ≤ toQ ws) (hs1 : toQ ws ≤ 1) {M : ℚ} (hM0 : 0 ≤ M) (hM : M ≤ 2 ^ 100) (xs : List F32)
    (hx : ∀ x ∈ xs, IsFin x ∧ |toQ x| ≤ M) :
    IsFin (ema wf xs -. ema ws xs) ∧
    |toQ (ema wf xs -. ema ws xs) - (ema (toQ wf) (xs.map toQ) - ema (toQ ws) (xs.map toQ))| ≤
      macdErr M (toQ wf) (toQ ws) ∧
    |toQ (ema wf xs -. ema ws xs)| ≤ 4 * M + 1 / 2 ^ 100 := by
  obtain ⟨a1, a2, a3⟩ := ema_close hf hf0 hf1 hM hM0 xs hx
  obtain ⟨b1, b2, b3⟩ := ema_close hs hs0 hs1 hM hM0 xs hx
  have a4 := emaErr_le hM0 hf0
  have b4 := emaErr_le hM0 hs0
  have ht := tiny_le
  have hA := (abs_add_bound a2).1
  have hB := (abs_add_bound b2).1
  have hd : |toQ (ema wf xs) - toQ (ema ws xs)| ≤ 3 * M + 1 / 2 ^ 109 := by
    refine (abs_sub _ _).trans ?_
    linarith
  obtain ⟨c1, c2⟩ := sub_fin a1 b1 (hd.trans (by norm_num at hM ⊢; linarith))
  have hC := (abs_add_bound c2).1
  refine ⟨c1, ?_, ?_⟩
  · unfold macdErr
    unfold emaErr at *
    generalize toQ (ema wf xs -. ema ws xs) = r at *
    generalize toQ (ema wf xs) = p at *
    generalize toQ (ema ws xs) = q at *
    generalize ema (toQ wf) _ = p' at *
    generalize ema (toQ ws) _ = q' at *
    have e : r - (p' - q') = (r - (p - q)) + ((p - p') - (q - q')) := by ring
    rw [e]
    refine (abs_add_le _ _).trans ?_
    have h1 : |(p - p') - (q - q')| ≤ |p - p'| + |q - q'| := abs_sub _ _
    generalize (M / 2 ^ 20 + 1 / 2 ^ 130) / toQ wf = ef at *
    generalize (M / 2 ^ 20 + 1 / 2 ^ 130) / toQ ws = es at *
    norm_num at *
    linarith
  · norm_num at *
    linarith

theorem map_range_getElem {α β : Type} (l : List α) (f : List α → β) :
    (prefixes l).map f = (List.range l.length).map (fun i => f (l.take (i + 1))) := by
  unfold prefixes; rw [List.map_map]; rfl

/-- **C90** (MACD). In binary32, with lengths between 1 and 2^19 and closes of absolute value at most `M`, the MACD
series, the signal and the divergence are finite numbers, within a bound of their exact values that does not depend
on the length of the history. -/
theorem C90_macd (fast slow signal period : ℤ) (hf1 : 1 ≤ fast) (hf2 : fast ≤ 2 ^ 19) (hs1 : 1 ≤ slow)
    (hs2 : slow ≤ 2 ^ 19) (hg1 : 1 ≤ signal) (hg2 : signal ≤ 2 ^ 19) (hP : 0 < period) (l : List (OhlcTick F32))
    (hl : Feedable l) (M : ℚ) (hM0 : 0 ≤ M) (hM : M ≤ 2 ^ 97) (hc : ClosesWithin M l) :
    ∃ s, macdAfter fast slow signal period l = .ok s ∧
      let weight : ℤ → ℚ := fun n => toQ (lit F32 2 /. (lit F32 1 +. lit F32 n))
      let exactSeries := macdSeries (weight fast) (weight slow) (exactCloses period l)
      let bound := macdErr M (weight fast) (weight slow)
      let bound' := bound + ((4 * M + 1 / 2 ^ 100) / 2 ^ 20 + 1 / 2 ^ 130) / weight signal
      IsFin (Macd.series s.state) ∧ IsFin (Macd.signal s.state) ∧ IsFin (Macd.divergence s.state) ∧
      |toQ (Macd.series s.state) -
        (ema (weight fast) (exactCloses period l) - ema (weight slow) (exactCloses period l))| ≤ bound ∧
      |toQ (Macd.signal s.state) - ema (weight signal) exactSeries| ≤ bound' ∧
      |toQ (Macd.divergence s.state) - (toQ (Macd.series s.state) - toQ (Macd.signal s.state))| ≤
        M / 2 ^ 20 + 1 / 2 ^ 110 := by
  obtain ⟨s, h1, -, -, h4, h5, h6, -⟩ := C49_macd fast slow signal period hP l hl
  obtain ⟨wf1, wf2, wf3, -⟩ := C90_weight fast hf1 hf2
  obtain ⟨ws1, ws2, ws3, -⟩ := C90_weight slow hs1 hs2
  obtain ⟨wg1, wg2, wg3, -⟩ := C90_weight signal hg1 hg2
  have hag := closesWithin_aggregate hP hl hc
  have hM100 : M ≤ 2 ^ 100 := hM.trans (by norm_num)
  refine ⟨s, h1, ?_⟩
  dsimp only at h4 h5 ⊢
  generalize lit F32 2 /. (lit F32 1 +. lit F32 fast) = wf at *
  generalize lit F32 2 /. (lit F32 1 +. lit F32 slow) = ws at *
  generalize lit F32 2 /. (lit F32 1 +. lit F32 signal) = wg at *
  set cs := (aggregate period l).map (·.close) with hcs
  have hcs' : ∀ x ∈ cs, IsFin x ∧ |toQ x| ≤ M := by
    intro x hx
    obtain ⟨t, ht, rfl⟩ := List.mem_map.mp hx
    exact hag t ht
  have hex : exactCloses period l = cs.map toQ := by rw [hcs, List.map_map]; rfl
  obtain ⟨a1, a2, a3⟩ := macd_term wf1 wf2 wf3 ws1 ws2 ws3 hM0 hM100 cs hcs'
  rw [← h4] at a1 a2 a3
  -- the signal
  have hterm := fun i => macd_term wf1 wf2 wf3 ws1 ws2 ws3 hM0 hM100 (cs.take (i + 1))
    (fun x hx => hcs' x (List.mem_of_mem_take hx))
  have hser : ∀ x ∈ macdSeries wf ws cs, IsFin x ∧ |toQ x| ≤ 4 * M + 1 / 2 ^ 100 := by
    intro x hx
    unfold macdSeries at hx
    rw [map_range_getElem] at hx
    obtain ⟨i, -, rfl⟩ := List.mem_map.mp hx
    exact ⟨(hterm i).1, (hterm i).2.2⟩
  obtain ⟨b1, b2, b3⟩ := ema_close wg1 wg2 wg3 (M := 4 * M + 1 / 2 ^ 100) (by norm_num at hM ⊢; linarith) (by positivity)
    (macdSeries wf ws cs) hser
  have hlip := ema_lipschitz (toQ wg) (macdErr M (toQ wf) (toQ ws)) (le_trans (by norm_num) wg2) wg3
    (le_trans (abs_nonneg _) a2) cs.length
    (fun i => toQ (ema wf (cs.take (i + 1)) -. ema ws (cs.take (i + 1))))
    (fun i => ema (toQ wf) ((cs.take (i + 1)).map toQ) - ema (toQ ws) ((cs.take (i + 1)).map toQ))
    (fun i _ => (hterm i).2.1)
  have e1 : (macdSeries wf ws cs).map toQ =
      (List.range cs.length).map (fun i => toQ (ema wf (cs.take (i + 1)) -. ema ws (cs.take (i + 1)))) := by
    unfold macdSeries; rw [map_range_getElem, List.map_map]; rfl
  have e2 : macdSeries (toQ wf) (toQ ws) (exactCloses period l) = (List.range cs.length).map
      (fun i => ema (toQ wf) ((cs.take (i + 1)).map toQ) - ema (toQ ws) ((cs.take (i + 1)).map toQ)) := by
    unfold macdSeries; rw [map_range_getElem, hex, List.length_map]
    apply List.map_congr_left
    intro i _
    rw [← List.map_take]; rfl
  rw [← e1, ← e2] at hlip
  rw [← h5] at b1 b2
  have b4 := emaErr_le (M := 4 * M + 1 / 2 ^ 100) (by positivity) wg2
  have hsig : |toQ (Macd.signal s.state)| ≤ 6 * M + 1 / 2 ^ 98 := by
    have := (abs_add_bound b2).1
    norm_num at *; linarith
  have hdiff : |toQ (Macd.series s.state) - toQ (Macd.signal s.state)| ≤ 10 * M + 1 / 2 ^ 97 := by
    refine (abs_sub _ _).trans ?_
    norm_num at *; linarith
  obtain ⟨d1, d2⟩ := sub_fin a1 b1 (hdiff.trans (by norm_num at hM ⊢; linarith))
  rw [← h6] at d1 d2
  refine ⟨a1, b1, d1, by rw [hex]; exact a2, ?_, ?_⟩
  · have : ∀ a b c x y : ℚ, |a - b| ≤ x → |b - c| ≤ y → |a - c| ≤ y + x := by
      intro a b c x y h h'
      have e : a - c = (a - b) + (b - c) := by ring
      rw [e]; exact (abs_add_le _ _).trans (by linarith)
    exact this _ _ _ _ _ b2 hlip
  · have ht := tiny_le
    norm_num at *; linarith

/-! Non-vacuity: the sample history, in binary32. -/

/-- Ticks with closes 1/10 (rounded), 0.5 and 3. -/
def flEmaTicks : List (OhlcTick F32) :=
  [⟨100, lit F32 1, lit F32 1, lit F32 (1 / 20), lit F32 (1 / 10), lit F32 0⟩,
   ⟨105, lit F32 1, lit F32 2, lit F32 (1 / 4), lit F32 (1 / 2), lit F32 0⟩,
   ⟨120, lit F32 1, lit F32 3, lit F32 1, lit F32 3, lit F32 7⟩]

example : Feedable flEmaTicks ∧ flEmaTicks ≠ [] := by unfold Feedable SortedBy; decide +kernel
theorem flEma_closes : ClosesWithin 3 flEmaTicks := by
  intro t ht
  simp only [flEmaTicks, List.mem_cons, List.not_mem_nil, or_false] at ht
  rcases ht with rfl | rfl | rfl
  · exact ⟨ofRat_fin (x := 1 / 10) (by norm_num), by decide +kernel⟩
  · exact ⟨ofRat_fin (x := 1 / 2) (by norm_num), by decide +kernel⟩
  · exact ⟨ofRat_fin (x := 3) (by norm_num), by decide +kernel⟩
example : exactCloses 10 flEmaTicks = [1 / 2, 1 / 2, 3] := by decide +kernel
/-- With smoothing 1.3 the weight is rounded, and the average is not the exact one for that weight. -/
example : (emaIndAfter (lit F32 (13 / 10)) 3 10 flEmaTicks).map (fun s => toQ (EmaInd.get s)) = .ok (21 / 16) ∧
    ema (5452595 / 16777216) (exactCloses 10 flEmaTicks) = 44040191 / 33554432 := by decide +kernel

end Verif.Props
