import Verif.Props.FloatEma

/-!
# C91: the simple moving average in binary32
-/

namespace Verif.Props
open FloatOps Spec FloatMoney FloatNN FloatVal FloatEma
open Fl (toQ IsFin)

/-- The exact sum of the closes of the newest `n` ticks (newest first). -/
def closeSum (n : ℕ) (full : List (OhlcTick F32)) : ℚ := ((full.take n).map (fun t => toQ t.close)).sum

theorem closeSum_le {M : ℚ} (n : ℕ) (full : List (OhlcTick F32)) (h : ∀ t ∈ full, IsFin t.close ∧ |toQ t.close| ≤ M) :
    |closeSum n full| ≤ ((full.take n).length : ℚ) * M := by
  unfold closeSum
  have : ∀ l : List (OhlcTick F32), (∀ t ∈ l, |toQ t.close| ≤ M) → |(l.map (fun t => toQ t.close)).sum| ≤ (l.length : ℚ) * M := by
    intro l
    induction l with
    | nil => intro _; simp
    | cons a l ih =>
      intro h
      rw [List.map_cons, List.sum_cons, List.length_cons]
      push_cast
      have h1 := h a (by simp)
      have h2 := ih (fun t ht => h t (by simp [ht]))
      refine (abs_add_le _ _).trans ?_
      linarith
  exact this _ (fun t ht => (h t (List.mem_of_mem_take ht)).2)

/-- Adding one more number to a running sum. -/
theorem sum_step {s x : F32} {S D X C M : ℚ} {k : ℕ} (m : ℚ) (hm : 1 ≤ m) (hs : IsFin s) (hx : IsFin x)
    (hE : |toQ s - S| ≤ k * (m * M / 2 ^ 21 + 1 / 2 ^ 140)) (hk : k ≤ 2 ^ 20) (hM0 : 0 ≤ M) (hC : C = m * M)
    (hCb : C ≤ 2 ^ 100) (hS : |S| ≤ C) (hX : |toQ x - X| ≤ D) (hD : D ≤ 2 * M / 2 ^ 24 + tinyQ) (hX' : |X| ≤ 2 * M) :
    IsFin (s +. x) ∧ |toQ (s +. x) - (S + X)| ≤ ((k + 1 : ℕ) : ℚ) * (m * M / 2 ^ 21 + 1 / 2 ^ 140) := by
  have ht := tiny_le
  have ht0 := tinyQ_pos
  have hkq : (k : ℚ) ≤ 2 ^ 20 := by exact_mod_cast hk
  have hk0 : (0 : ℚ) ≤ k := Nat.cast_nonneg k
  have hMC : M ≤ C := by rw [hC]; nlinarith
  rw [← hC] at hE ⊢
  set ε := C / 2 ^ 21 + 1 / 2 ^ 140 with hε
  have hε0 : 0 ≤ ε := by have : 0 ≤ C := hM0.trans hMC; positivity
  have hkε : k * ε ≤ C / 2 + 1 / 2 ^ 120 := by
    calc k * ε ≤ 2 ^ 20 * ε := by gcongr
      _ = C / 2 + 1 / 2 ^ 120 := by rw [hε]; ring
  have h1 := (abs_add_bound hE).1
  have h2 := (abs_add_bound hX).1
  have h3 : |toQ s + toQ x| ≤ 4 * C + 1 / 2 ^ 118 := by
    refine (abs_add_le _ _).trans ?_
    norm_num at *; linarith
  have h3' : |toQ s + toQ x| ≤ C + C / 2 + 2 * M + 2 * M / 2 ^ 24 + 1 / 2 ^ 119 := by
    refine (abs_add_le _ _).trans ?_
    norm_num at *; linarith
  obtain ⟨f1, e1⟩ := add_fin hs hx (h3.trans (by norm_num at hCb ⊢; linarith))
  refine ⟨f1, ?_⟩
  have e : toQ (s +. x) - (S + X) = (toQ (s +. x) - (toQ s + toQ x)) + ((toQ s - S) + (toQ x - X)) := by ring
  rw [e]
  have h4 : |(toQ s - S) + (toQ x - X)| ≤ k * ε + D := (abs_add_le _ _).trans (by linarith)
  refine (abs_add_le _ _).trans ?_
  push_cast
  have : ((k : ℚ) + 1) * ε = k * ε + ε := by ring
  rw [this]
  have hε' : ε = C / 2 ^ 21 + 1 / 2 ^ 140 := hε
  clear_value ε
  generalize (k : ℚ) * ε = ke at *
  norm_num at *
  linarith

/-- The state of the running sum after `k` callbacks. -/
def SmaClose (n : ℕ) (M : ℚ) (k : ℕ) (full : List (OhlcTick F32)) (s : F32) : Prop :=
  k ≤ 2 ^ 20 → full.length ≤ k ∧ IsFin s ∧
    |toQ s - closeSum n full| ≤ k * (((full.take n).length : ℚ) * M / 2 ^ 21 + 1 / 2 ^ 140)

theorem sma_step {n : ℕ} (hn : 0 < n) {M : ℚ} (hM0 : 0 ≤ M) (hM : M ≤ 2 ^ 79) (k : ℕ) (full : List (OhlcTick F32))
    (e : TickEvent F32) (full' : List (OhlcTick F32)) (s : F32) (h : EvStep n full e full')
    (hf : ∀ x ∈ full, IsFin x.close ∧ |toQ x.close| ≤ M) (hx : IsFin e.newTick.close ∧ |toQ e.newTick.close| ≤ M)
    (hI : SmaClose n M k full s) :
    ∃ s', Sma.onEvent (full'.take n).reverse s e = .ok s' ∧ SmaClose n M (k + 1) full' s' := by
  obtain ⟨m, rfl⟩ : ∃ m, n = m + 1 := ⟨n - 1, by omega⟩
  have hdiff : ∀ a b : OhlcTick F32, IsFin a.close ∧ |toQ a.close| ≤ M → IsFin b.close ∧ |toQ b.close| ≤ M →
      IsFin (a.close -. b.close) ∧ |toQ (a.close -. b.close) - (toQ a.close - toQ b.close)| ≤ 2 * M / 2 ^ 24 + tinyQ ∧
      |toQ a.close - toQ b.close| ≤ 2 * M := by
    intro a b ha hb
    have h2 : |toQ a.close - toQ b.close| ≤ 2 * M := (abs_sub _ _).trans (by linarith [ha.2, hb.2])
    obtain ⟨c1, c2⟩ := sub_fin ha.1 hb.1 (h2.trans (by norm_num at hM ⊢; linarith))
    refine ⟨c1, ?_, h2⟩
    norm_num at *; linarith
  have key : ∀ (x : F32) (X : ℚ), IsFin x → |toQ x - X| ≤ 2 * M / 2 ^ 24 + tinyQ → |X| ≤ 2 * M →
      full'.length ≤ full.length + 1 → 0 < full'.length → (full.take (m + 1)).length ≤ (full'.take (m + 1)).length →
      closeSum (m + 1) full' = closeSum (m + 1) full + X → SmaClose (m + 1) M (k + 1) full' (s +. x) := by
    intro x X h1 h2 h3 h4 h6 h7 h8 hk
    obtain ⟨i1, i2, i3⟩ := hI (by omega)
    have hpos : (1 : ℕ) ≤ (full'.take (m + 1)).length := by rw [List.length_take]; omega
    have hle : ((full.take (m + 1)).length : ℚ) ≤ ((full'.take (m + 1)).length : ℚ) := by exact_mod_cast h7
    have hlen : (full'.take (m + 1)).length ≤ 2 ^ 20 := by
      rw [List.length_take]; omega
    have hb : ((full'.take (m + 1)).length : ℚ) * M ≤ 2 ^ 100 := by
      have : ((full'.take (m + 1)).length : ℚ) ≤ 2 ^ 20 := by exact_mod_cast hlen
      calc ((full'.take (m + 1)).length : ℚ) * M ≤ 2 ^ 20 * 2 ^ 79 := by gcongr
        _ ≤ _ := by norm_num
    have hS := closeSum_le (m + 1) full hf
    obtain ⟨a, b⟩ := sum_step (M := M) ((full'.take (m + 1)).length : ℚ) (by exact_mod_cast hpos) i2 h1
      (i3.trans (by gcongr)) (by omega) hM0 rfl hb (hS.trans (by gcongr)) h2 le_rfl h3
    refine ⟨by omega, a, ?_⟩
    rw [h8]
    exact b
  have ht0 := tinyQ_pos
  cases h with
  | added _ x h =>
    refine ⟨_, rfl, key x.close (toQ x.close) hx.1 (by rw [sub_self, abs_zero]; positivity) (hx.2.trans (by linarith))
      (by simp) (by simp) (by simp only [List.length_take, List.length_cons]; omega) ?_⟩
    unfold closeSum
    rw [List.take_of_length_le (l := full) (by omega), List.take_of_length_le (l := x :: full) (by simp; omega)]
    simp [add_comm]
  | addedRemoved _ r x h hr =>
    have hrm : r ∈ full := List.mem_of_mem_take (List.mem_of_getLast? hr)
    obtain ⟨d1, d2, d3⟩ := hdiff x r hx (hf r hrm)
    refine ⟨_, rfl, key _ _ d1 d2 d3 (by simp) (by simp) (by simp only [List.length_take, List.length_cons]; omega) ?_⟩
    have : full.take (m + 1) = full.take m ++ [r] := by
      have hlt : m < full.length := by omega
      rw [List.take_succ_eq_append_getElem hlt] at hr ⊢
      rw [List.getLast?_concat] at hr
      rw [Option.some.inj hr]
    unfold closeSum
    rw [this]
    simp
    ring
  | updated rest old new ho =>
    obtain ⟨d1, d2, d3⟩ := hdiff new old hx (hf old (by simp))
    refine ⟨_, rfl, key _ _ d1 d2 d3 (by simp) (by simp) (by simp) ?_⟩
    unfold closeSum
    simp
    ring

/-- **C91**. In binary32, as long as the history and its aggregation together have at most 2^20 ticks, whose closes
are of absolute value at most `M`, `GetSimpleMovingAverage` is a finite number and differs from the mean of the closes
of the last `n` aggregated ticks by at most `M/2^21 + 2^-140` per tick seen. -/
theorem C91_sma (n period : ℤ) (hn : 0 < n) (hP : 0 < period) (l : List (OhlcTick F32)) (hl : Feedable l) (M : ℚ)
    (hM0 : 0 ≤ M) (hM : M ≤ 2 ^ 79) (hc : ClosesWithin M l) (hlen : l.length + (aggregate period l).length ≤ 2 ^ 20) :
    ∃ s, smaAfter n period l = .ok s ∧ IsFin (Sma.get s) ∧
      |toQ (Sma.get s) - mean (lastN n.toNat (exactCloses period l))| ≤
        ((l.length + (aggregate period l).length + 1 : ℕ) : ℚ) * (M / 2 ^ 21 + 1 / 2 ^ 140) := by
  have hn' : 0 < n.toNat := by omega
  obtain ⟨s, k, h1, h2, hk, hag⟩ := Indicator.run_inv_counted (n := n.toNat) (P := period) hn' hP Sma.onEvent
    (fun t => IsFin t.close ∧ |toQ t.close| ≤ M) (kept_close (fun c => IsFin c ∧ |toQ c| ≤ M)) (SmaClose n.toNat M)
    (fun k full e full' s => sma_step hn' hM0 hM k full e full' s)
    (lit F32 0) (by
      intro _
      rw [lit0]
      exact ⟨by simp, trivial, by simp [closeSum, toQ]⟩) l hl.1 hl.2 hc
  obtain ⟨i1, i2, i3⟩ := h2 (by omega)
  refine ⟨⟨⟨n.toNat, period, (aggregate period l).reverse.take n.toNat⟩, s⟩, ?_, ?_⟩
  · simp only [smaAfter, indAfter, Sma.make, lastN_make n period hn hP, bind, Except.bind, pure, Except.pure]
    exact h1
  · have e1 : lastN n.toNat (exactCloses period l) = ((aggregate period l).reverse.take n.toNat).reverse.map (fun t => toQ t.close) := by
      rw [reverse_take]; unfold exactCloses lastN; rw [List.length_map, List.map_drop]
    have e2 : (lastN n.toNat (exactCloses period l)).sum = closeSum n.toNat (aggregate period l).reverse := by
      rw [e1, List.map_reverse, List.sum_reverse]; rfl
    have e3 : (lastN n.toNat (exactCloses period l)).length = ((aggregate period l).reverse.take n.toNat).length := by
      rw [e1]; simp
    have hS := closeSum_le n.toNat (aggregate period l).reverse (fun t ht => hag t (by simpa using ht))
    have hmean : mean (lastN n.toNat (exactCloses period l)) =
        closeSum n.toNat (aggregate period l).reverse / (((aggregate period l).reverse.take n.toNat).length : ℚ) := by
      unfold mean; rw [e2, e3]
    rw [hmean]
    unfold Sma.get Sma.numTicks LastN.ticks
    simp only [List.length_reverse]
    set m := ((aggregate period l).reverse.take n.toNat).length with hm
    have hmk : m ≤ 2 ^ 20 := by rw [hm, List.length_take]; omega
    generalize hCS : closeSum n.toNat (aggregate period l).reverse = S at *
    by_cases hm0 : m = 0
    · rw [if_pos hm0, lit0, hm0]
      refine ⟨trivial, ?_⟩
      show |(0 : ℚ) - S / ((0 : ℕ) : ℚ)| ≤ _
      rw [Nat.cast_zero, div_zero, sub_zero, abs_zero]
      positivity
    · rw [if_neg hm0]
      obtain ⟨c1, c2⟩ := lit_int (n := (m : ℤ)) (by rw [abs_of_nonneg (by omega)]; omega)
      have c3 : (lit F32 (m : ℚ)) = lit F32 ((m : ℤ) : ℚ) := by norm_cast
      rw [← c3] at c1 c2
      change toQ (lit F32 (m : ℚ)) = ((m : ℤ) : ℚ) at c2
      have c4 : ((m : ℤ) : ℚ) = (m : ℚ) := by norm_cast
      rw [c4] at c2
      have hmq : (1 : ℚ) ≤ m := by exact_mod_cast Nat.one_le_iff_ne_zero.mpr hm0
      have hkq : (k : ℚ) ≤ 2 ^ 20 := by exact_mod_cast (by omega : k ≤ 2 ^ 20)
      have hq1 : |toQ s / m - S / m| ≤ k * (M / 2 ^ 21 + 1 / 2 ^ 140) := by
        rw [← sub_div, abs_div, abs_of_pos (by linarith : (0 : ℚ) < m), div_le_iff₀ (by linarith)]
        refine i3.trans ?_
        rw [mul_assoc]
        gcongr
        have : (1 : ℚ) / 2 ^ 140 ≤ 1 / 2 ^ 140 * m := by nlinarith
        calc (m : ℚ) * M / 2 ^ 21 + 1 / 2 ^ 140 ≤ m * M / 2 ^ 21 + 1 / 2 ^ 140 * m := by linarith
          _ = _ := by ring
      have hq2 : |S / m| ≤ M := by
        rw [abs_div, abs_of_pos (by linarith : (0 : ℚ) < m), div_le_iff₀ (by linarith)]
        linarith
      have hke : (k : ℚ) * (M / 2 ^ 21 + 1 / 2 ^ 140) ≤ M / 2 + 1 / 2 ^ 120 := by
        calc (k : ℚ) * (M / 2 ^ 21 + 1 / 2 ^ 140) ≤ 2 ^ 20 * (M / 2 ^ 21 + 1 / 2 ^ 140) := by gcongr
          _ = _ := by ring
      have hq3 : |toQ s / m| ≤ 3 / 2 * M + 1 / 2 ^ 120 := by
        have := (abs_add_bound hq1).1; linarith
      obtain ⟨g1, g2⟩ := div_fin (x := s) (y := lit F32 (m : ℚ)) i2 c1 (by rw [c2]; linarith)
        (by rw [c2]; exact hq3.trans (by norm_num at hM ⊢; linarith))
      refine ⟨g1, ?_⟩
      rw [c2] at g2
      have ht := tiny_le
      have hk1 : ((k : ℚ) + 1) * (M / 2 ^ 21 + 1 / 2 ^ 140) ≤
          ((l.length + (aggregate period l).length + 1 : ℕ) : ℚ) * (M / 2 ^ 21 + 1 / 2 ^ 140) := by
        gcongr
        push_cast
        have : (k : ℚ) ≤ l.length + (aggregate period l).length := by exact_mod_cast hk
        linarith
      refine le_trans ?_ hk1
      have e : toQ (s /. lit F32 (m : ℚ)) - S / m = (toQ (s /. lit F32 (m : ℚ)) - toQ s / m) + (toQ s / m - S / m) := by ring
      rw [e, add_mul, one_mul]
      refine (abs_add_le _ _).trans ?_
      generalize (k : ℚ) * (M / 2 ^ 21 + 1 / 2 ^ 140) = ke at *
      norm_num at *
      linarith

/-! ### A large close distorts the average forever -/

/-- One tick a second: the first close is 2^25, all others are 1. -/
def spike (k : ℕ) : List (OhlcTick F32) :=
  ⟨0, lit F32 (2 ^ 25), lit F32 (2 ^ 25), lit F32 (2 ^ 25), lit F32 (2 ^ 25), lit F32 0⟩ ::
    (List.range k).map (fun i : ℕ => ⟨(i : ℤ) + 1, lit F32 1, lit F32 1, lit F32 1, lit F32 1, lit F32 0⟩)

deriving instance DecidableEq for LastN
deriving instance DecidableEq for Indicator

/-- The tick of second `i`, for `i > 0`. -/
def oneTick (i : ℤ) : OhlcTick F32 := ⟨i, lit F32 1, lit F32 1, lit F32 1, lit F32 1, lit F32 0⟩

theorem spike_step (i : ℤ) :
    Indicator.update Sma.onEvent ⟨⟨2, 1, [oneTick (i + 1), oneTick i]⟩, lit F32 0⟩ (oneTick (i + 2)) =
      .ok ⟨⟨2, 1, [oneTick (i + 2), oneTick (i + 1)]⟩, lit F32 0⟩ := by
  have h0 : lit F32 0 +. (lit F32 1 -. lit F32 1) = lit F32 0 := by decide +kernel
  have h1 : LastN.update ⟨2, 1, [oneTick (i + 1), oneTick i]⟩ (oneTick (i + 2)) =
      .ok (⟨2, 1, [oneTick (i + 2), oneTick (i + 1)]⟩, [.addedRemoved (oneTick i) (oneTick (i + 2))]) := by
    unfold LastN.update LastN.backfill
    dsimp only
    rw [LastN.fill]
    rw [dif_neg (by simp [oneTick]; omega)]
    dsimp only
    rw [if_pos (by simp [oneTick])]
    simp [LastN.pushBack, oneTick]
  unfold Indicator.update
  rw [h1]
  simp only [bind, Except.bind, pure, Except.pure, Indicator.callbacks, Sma.onEvent]
  rw [show (oneTick (i + 2)).close = lit F32 1 from rfl, show (oneTick i).close = lit F32 1 from rfl, h0]

theorem spike_state (k : ℕ) : smaAfter 2 1 (spike (k + 2)) =
    .ok ⟨⟨2, 1, [oneTick ((k : ℤ) + 2), oneTick ((k : ℤ) + 1)]⟩, lit F32 0⟩ := by
  induction k with
  | zero => decide +kernel
  | succ k ih =>
    have e : spike (k + 1 + 2) = spike (k + 2) ++ [oneTick (((k : ℤ) + 1) + 2)] := by
      unfold spike
      rw [List.range_succ (n := k + 2), List.map_append, List.cons_append]
      congr 2
    rw [e]
    unfold smaAfter indAfter at ih ⊢
    simp only [Sma.make, lastN_make 2 1 (by norm_num) (by norm_num), bind, Except.bind, pure, Except.pure] at ih ⊢
    unfold Indicator.run at ih ⊢
    rw [List.foldlM_append, ih]
    simp only [bind, Except.bind, List.foldlM_cons, List.foldlM_nil, pure, Except.pure]
    have := spike_step ((k : ℤ) + 1)
    rw [show (k : ℤ) + 1 + 1 = (k : ℤ) + 2 by ring] at this
    rw [this]
    push_cast
    rw [show (k : ℤ) + 1 + 1 = (k : ℤ) + 2 by ring]

/-- **C91** (no recovery). A close that has long left the window can distort the average for ever: after a close of
2^25 followed by `k` closes of 1, the average of the last two closes is 0 instead of 1, for every `k ≥ 2`. -/
theorem C91_never_recovers (k : ℕ) (hk : 2 ≤ k) : Feedable (spike k) ∧
    ∃ s, smaAfter 2 1 (spike k) = .ok s ∧ toQ (Sma.get s) = 0 ∧
      (∀ t ∈ (s.window.ticks), toQ t.close = 1) ∧ Sma.numTicks s = 2 := by
  obtain ⟨k, rfl⟩ : ∃ j, k = j + 2 := ⟨k - 2, by omega⟩
  refine ⟨⟨?_, ?_⟩, _, spike_state k, ?_, ?_, ?_⟩
  · unfold SortedBy spike
    rw [List.pairwise_cons]
    constructor
    · intro t ht
      obtain ⟨i, -, rfl⟩ := List.mem_map.mp ht
      show (0 : ℤ) ≤ i + 1; omega
    · rw [List.pairwise_map]
      refine List.Pairwise.imp ?_ (List.pairwise_lt_range)
      intro a b hab
      show (a : ℤ) + 1 ≤ b + 1
      omega
  · intro t ht
    rcases List.mem_cons.mp ht with rfl | ht
    · exact le_refl 0
    · obtain ⟨i, -, rfl⟩ := List.mem_map.mp ht
      show (0 : ℤ) ≤ i + 1; omega
  · show toQ (if [oneTick _, oneTick _].reverse.length = 0 then lit F32 0 else lit F32 0 /. lit F32 ([oneTick ((k : ℤ) + 2), oneTick ((k : ℤ) + 1)].reverse.length : ℚ)) = 0
    simp only [List.length_reverse, List.length_cons, List.length_nil]
    decide +kernel
  · intro t ht
    simp [LastN.ticks] at ht
    rcases ht with rfl | rfl <;> (show toQ (lit F32 1) = 1; decide +kernel)
  · rfl

/-! Non-vacuity of `C91_sma`. -/

example : flEmaTicks.length + (aggregate 10 flEmaTicks).length ≤ 2 ^ 20 := by decide +kernel
example : (smaAfter 3 10 flEmaTicks).map (fun s => toQ (Sma.get s)) = .ok (11184811 / 8388608) ∧
    mean (lastN 3 (exactCloses 10 flEmaTicks)) = 4 / 3 := by decide +kernel

end Verif.Props
