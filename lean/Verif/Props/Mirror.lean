import Verif.Props.UnitsIndicators

/-!
# C124: the indicators in a shifted market, in an upside-down market, and in a market that is higher throughout
-/

namespace Verif.Props.Mirror
open Verif FloatOps Spec Verif.Props.Units

section
variable {K : Type} [Field K] [LinearOrder K] [IsStrictOrderedRing K] [FloorRing K]

/-- All prices `b` higher. -/
def shifted (b : K) (t : OhlcTick K) : OhlcTick K := ⟨t.ts, b + t.opn, b + t.high, b + t.low, b + t.close, t.volume⟩

/-- The market upside down: a price `p` becomes `b - p`, the highest price becomes the lowest one and vice versa. -/
def upsideDown (b : K) (t : OhlcTick K) : OhlcTick K := ⟨t.ts, b - t.opn, b - t.low, b - t.high, b - t.close, t.volume⟩

/-! ## Aggregation commutes with both -/

/-- A change of ticks that changes the closes by `f` and commutes with summaries. -/
structure Acts (g : OhlcTick K → OhlcTick K) (f : K → K) : Prop where
  ts : ∀ t, (g t).ts = t.ts
  close : ∀ t, (g t).close = f t.close
  opn : ∀ t, (g t).opn = f t.opn
  summary : ∀ s x xs, summary s (g x) (xs.map g) = g (summary s x xs)
  flat : ∀ s c, g ⟨s, c, c, c, c, lit K 0⟩ = ⟨s, f c, f c, f c, f c, lit K 0⟩

variable {g : OhlcTick K → OhlcTick K} {f : K → K}

theorem filter_acts (h : Acts g f) (p : ℤ → Bool) (l : List (OhlcTick K)) :
    (l.map g).filter (fun t => p t.ts) = (l.filter fun t => p t.ts).map g := by
  rw [List.filter_map]
  congr 1
  refine List.filter_congr fun t _ => ?_
  simp [h.ts]

/-- In the periods from the first tick on, an empty period has a tick before it. -/
theorem aggTick_acts (h : Acts g f) {P : ℤ} (hP : 0 < P) (t : OhlcTick K) (l : List (OhlcTick K)) (i : ℕ) :
    aggTick P ((t :: l).map g) (periodStart P t.ts + P * i) = g (aggTick P (t :: l) (periodStart P t.ts + P * i)) := by
  unfold aggTick ticksIn
  rw [filter_acts h (fun x => decide (periodStart P x = periodStart P t.ts + P * i))]
  cases hc : (t :: l).filter fun u => decide (periodStart P u.ts = periodStart P t.ts + P * i) with
  | cons x xs => exact h.summary _ x xs
  | nil =>
    have h1 : ¬ periodStart P t.ts = periodStart P t.ts + P * i := by
      intro e
      have : t ∈ (t :: l).filter fun u => decide (periodStart P u.ts = periodStart P t.ts + P * i) := List.mem_filter.2 ⟨by simp, by simpa using e⟩
      rw [hc] at this
      cases this
    have h2 : t.ts < periodStart P t.ts + P * i := by
      have hi : (1 : ℤ) ≤ i := by
        rcases Nat.eq_zero_or_pos i with rfl | hi
        · simp at h1
        · exact_mod_cast hi
      have := Int.lt_mul_ediv_self_add hP (x := t.ts)
      unfold periodStart
      nlinarith
    have h3 : closeBefore (periodStart P t.ts + P * i) ((t :: l).map g) = f (closeBefore (periodStart P t.ts + P * i) (t :: l)) := by
      unfold closeBefore
      rw [filter_acts h (fun x => decide (x < periodStart P t.ts + P * i)), List.getLast?_map]
      cases hl : ((t :: l).filter fun u => decide (u.ts < periodStart P t.ts + P * i)).getLast? with
      | none =>
        rw [List.getLast?_eq_none_iff, List.filter_eq_nil_iff] at hl
        have := hl t (by simp)
        simp [h2] at this
      | some u => exact h.close u
    simp only [List.map_nil, h3, h.flat]

theorem aggregate_acts (h : Acts g f) {P : ℤ} (hP : 0 < P) (l : List (OhlcTick K)) : aggregate P (l.map g) = (aggregate P l).map g := by
  cases l with
  | nil => rfl
  | cons t l =>
    have hl : ((g t :: l.map g).getLast (by simp)).ts = ((t :: l).getLast (by simp)).ts := by
      simp only [← List.map_cons, List.getLast_map, h.ts]
    unfold aggregate
    simp only [List.map_cons, hl, h.ts, periods, List.map_map]
    refine List.map_congr_left fun i _ => ?_
    exact aggTick_acts h hP t l i

theorem feedable_acts (h : Acts g f) {l : List (OhlcTick K)} (hl : Feedable l) : Feedable (l.map g) := by
  refine ⟨?_, ?_⟩
  · have := hl.1
    unfold SortedBy at this ⊢
    rw [List.pairwise_map]
    simpa only [h.ts] using this
  · intro t ht
    obtain ⟨u, hu, rfl⟩ := List.mem_map.1 ht
    rw [h.ts]
    exact hl.2 u hu

theorem foldl_comm {op op' : K → K → K} (f : K → K) (h : ∀ x y, op' (f x) (f y) = f (op x y)) (l : List K) :
    ∀ x : K, (l.map f).foldl op' (f x) = f (l.foldl op x) := by
  induction l with
  | nil => intro x; rfl
  | cons y l ih => intro x; simp only [List.map_cons, List.foldl_cons, h, ih]

theorem shifted_acts (b : K) : Acts (shifted b) (b + ·) := by
  refine ⟨fun _ => rfl, fun _ => rfl, fun _ => rfl, fun s x xs => ?_, fun _ _ => rfl⟩
  have hcl : ((shifted b x :: xs.map (shifted b)).getLast (by simp)).close = b + ((x :: xs).getLast (by simp)).close := by
    have : (shifted b x :: xs.map (shifted b)).getLast (by simp) = shifted b ((x :: xs).getLast (by simp)) := by
      simp only [← List.map_cons, List.getLast_map]
    rw [this]; rfl
  have hh : (xs.map (shifted b)).map (·.high) = (xs.map (·.high)).map (b + ·) := by simp [shifted]
  have hl : (xs.map (shifted b)).map (·.low) = (xs.map (·.low)).map (b + ·) := by simp [shifted]
  have hv : (xs.map (shifted b)).map (·.volume) = xs.map (·.volume) := by simp [shifted]
  have e1 := foldl_comm (op := fmax) (op' := fmax) (b + ·) (fun x y => by simp only [ex_fmax]; exact max_add_add_left b x y) (xs.map (·.high)) x.high
  have e2 := foldl_comm (op := fmin) (op' := fmin) (b + ·) (fun x y => by simp only [ex_fmin]; exact min_add_add_left b x y) (xs.map (·.low)) x.low
  unfold summary
  rw [hh, hl, hv, hcl]
  simp only [show (shifted b x).high = b + x.high from rfl, show (shifted b x).low = b + x.low from rfl, e1, e2]
  rfl

theorem upsideDown_acts (b : K) : Acts (upsideDown b) (b - ·) := by
  refine ⟨fun _ => rfl, fun _ => rfl, fun _ => rfl, fun s x xs => ?_, fun _ _ => rfl⟩
  have hcl : ((upsideDown b x :: xs.map (upsideDown b)).getLast (by simp)).close = b - ((x :: xs).getLast (by simp)).close := by
    have : (upsideDown b x :: xs.map (upsideDown b)).getLast (by simp) = upsideDown b ((x :: xs).getLast (by simp)) := by
      simp only [← List.map_cons, List.getLast_map]
    rw [this]; rfl
  have hh : (xs.map (upsideDown b)).map (·.high) = (xs.map (·.low)).map (b - ·) := by simp [upsideDown]
  have hl : (xs.map (upsideDown b)).map (·.low) = (xs.map (·.high)).map (b - ·) := by simp [upsideDown]
  have hv : (xs.map (upsideDown b)).map (·.volume) = xs.map (·.volume) := by simp [upsideDown]
  have e1 := foldl_comm (op := fmin) (op' := fmax) (b - ·) (fun x y => by simp only [ex_fmax, ex_fmin]; exact max_sub_sub_left b x y) (xs.map (·.low)) x.low
  have e2 := foldl_comm (op := fmax) (op' := fmin) (b - ·) (fun x y => by simp only [ex_fmax, ex_fmin]; exact min_sub_sub_left b x y) (xs.map (·.high)) x.high
  unfold summary
  rw [hh, hl, hv, hcl]
  simp only [show (upsideDown b x).high = b - x.low from rfl, show (upsideDown b x).low = b - x.high from rfl, e1, e2]
  rfl

/-! ## Moving averages -/

theorem mean_affine (a b : K) (l : List K) (hl : l ≠ []) : mean (l.map fun x => b + a * x) = b + a * mean l := by
  have hn : (l.length : K) ≠ 0 := by exact_mod_cast (List.length_pos_of_ne_nil hl).ne'
  have hs : (l.map fun x => b + a * x).sum = l.length * b + a * l.sum := by
    clear hn hl
    induction l with
    | nil => simp
    | cons x l ih => simp only [List.map_cons, List.sum_cons, ih, List.length_cons]; push_cast; ring
  unfold mean
  rw [hs, List.length_map]
  field_simp

theorem ema_affine (a b w : K) (l : List K) (hl : l ≠ []) : ema w (l.map fun x => b + a * x) = b + a * ema w l := by
  unfold ema
  cases l with
  | nil => exact absurd rfl hl
  | cons x l =>
    simp only [List.map_cons]
    clear hl
    induction l generalizing x with
    | nil => rfl
    | cons y l ih =>
      simp only [List.map_cons, List.foldl_cons]
      rw [← ih]
      congr 1
      simp only [ex_mul, ex_add, ex_sub, show (lit K 1 : K) = 1 by simp [lit]]; ring

theorem prefixes_ne {α : Type} {l p : List α} (h : p ∈ prefixes l) : p ≠ [] := by
  unfold prefixes at h
  obtain ⟨i, hi, rfl⟩ := List.mem_map.1 h
  rw [List.mem_range] at hi
  cases l with
  | nil => simp at hi
  | cons => simp

theorem macdSeries_affine (a b u v : K) (l : List K) : macdSeries u v (l.map fun x => b + a * x) = (macdSeries u v l).map (a * ·) := by
  unfold macdSeries
  rw [prefixes_map, List.map_map, List.map_map]
  refine List.map_congr_left fun p hp => ?_
  simp only [Function.comp, ema_affine a b _ p (prefixes_ne hp), ex_sub]; ring

theorem closes_acts (h : Acts g f) (l : List (OhlcTick K)) : (l.map g).map (·.close) = (l.map (·.close)).map f := by
  simp [h.close]

theorem averages (a b : K) (h : Acts g (fun x => b + a * x)) (P : ℤ) (hP : 0 < P) (l : List (OhlcTick K)) (hl : Feedable l) (hne : l ≠ []) :
    (∀ n : ℤ, 0 < n → (smaAfter n P (l.map g)).map Sma.get = (smaAfter n P l).map fun s => b + a * Sma.get s) ∧
    (∀ (smoothing : K) (length : ℤ), (emaIndAfter smoothing length P (l.map g)).map EmaInd.get =
      (emaIndAfter smoothing length P l).map fun s => b + a * EmaInd.get s) ∧
    (∀ fast slow signal : ℤ, (macdAfter fast slow signal P (l.map g)).map
        (fun s => (Macd.series s.state, Macd.signal s.state, Macd.divergence s.state)) =
      (macdAfter fast slow signal P l).map
        fun s => (a * Macd.series s.state, a * Macd.signal s.state, a * Macd.divergence s.state)) := by
  have hl' := feedable_acts h hl
  have hag : (aggregate P l).map (·.close) ≠ [] := by simpa using aggregate_ne_nil P hne
  refine ⟨fun n hn => ?_, fun sm len => ?_, fun f sl sg => ?_⟩
  · obtain ⟨s, h1, h2, -⟩ := C41_sma n P hn hP l hl
    obtain ⟨s', h1', h2', -⟩ := C41_sma n P hn hP _ hl'
    have hw : Spec.lastN n.toNat ((aggregate P l).map (·.close)) ≠ [] := by
      have := List.length_pos_of_ne_nil hag
      have hn' : 0 < n.toNat := by omega
      intro e
      have := congrArg List.length e
      simp only [Spec.lastN, List.length_drop, List.length_nil] at this
      omega
    rw [lastN_map] at hw
    rw [h1, h1']
    simp only [Except.map, h2, h2', aggregate_acts h hP, closes_acts h, lastN_map, mean_affine a b _ hw]
  · obtain ⟨s, h1, h2, -⟩ := C42_ema sm len P hP l hl
    obtain ⟨s', h1', h2', -⟩ := C42_ema sm len P hP _ hl'
    rw [h1, h1']
    simp only [Except.map, h2, h2', aggregate_acts h hP, closes_acts h, ema_affine a b _ _ hag]
  · obtain ⟨s, h1, -, -, h4, h5, h6, -⟩ := C49_macd f sl sg P hP l hl
    obtain ⟨s', h1', -, -, h4', h5', h6', -⟩ := C49_macd f sl sg P hP _ hl'
    rw [h1, h1']
    simp only [Except.map, h4, h4', h5, h5', h6, h6', aggregate_acts h hP, closes_acts h, ema_affine a b _ _ hag, macdSeries_affine, ex_sub]
    simp only [ema_scale, ← mul_sub, add_sub_add_left_eq_sub]

/-! ## Relative strength -/

theorem referencePrices_acts (h : Acts g f) (l : List (OhlcTick K)) : referencePrices (l.map g) = (referencePrices l).map f := by
  cases l with
  | nil => rfl
  | cons t l =>
    show _ :: _ = _ :: _
    rw [h.opn]
    congr 1
    have : (g t :: l.map g).dropLast = (t :: l).dropLast.map g := by rw [← List.map_cons, List.map_dropLast]
    rw [this, closes_acts h]

theorem moves_shifted (b : K) (l : List (OhlcTick K)) :
    upMoves (l.map (shifted b)) = upMoves l ∧ downMoves (l.map (shifted b)) = downMoves l := by
  unfold upMoves downMoves
  rw [referencePrices_acts (shifted_acts b), closes_acts (shifted_acts b), List.zipWith_map, List.zipWith_map]
  constructor <;> congr 1 <;> funext r c <;> simp

theorem moves_upsideDown (b : K) (l : List (OhlcTick K)) :
    upMoves (l.map (upsideDown b)) = downMoves l ∧ downMoves (l.map (upsideDown b)) = upMoves l := by
  unfold upMoves downMoves
  rw [referencePrices_acts (upsideDown_acts b), closes_acts (upsideDown_acts b), List.zipWith_map, List.zipWith_map]
  have h0 : (lit K 0 : K) = 0 := by simp [lit]
  constructor <;> congr 1 <;> funext r c <;> simp only [ex_le, ex_sub, h0, decide_eq_true_eq, sub_sub_sub_cancel_left, sub_le_sub_iff_left] <;>
    split <;> split <;> linarith

/-- **C124** (relative strength, shift). Only differences of prices count. -/
theorem C124_rsi_shift (b : K) (N P : ℤ) (hP : 0 < P) (l : List (OhlcTick K)) (hl : Feedable l) :
    (rsiAfter N P (l.map (shifted b))).map (fun s => Rsi.get s.state) = (rsiAfter N P l).map fun s => Rsi.get s.state := by
  obtain ⟨s, h1, hu, hd, -, h2⟩ := C47_formula N P hP l hl
  obtain ⟨s', h1', -, -, -, h2'⟩ := C47_formula N P hP _ (feedable_acts (shifted_acts b) hl)
  rw [h1, h1']
  simp only [Except.map, h2, h2', aggregate_acts (shifted_acts b) hP, moves_shifted]

/-- **C124** (relative strength, upside down). The averages of the upward and of the downward moves are exchanged. The two indices add up to 100, unless one
average is a millionth of the other one or less: then the larger index is 100 and the smaller one at most 0.0001. -/
theorem C124_rsi_mirror (b : K) (N P : ℤ) (hN : 1 ≤ N) (hP : 0 < P) (l : List (OhlcTick K)) (hl : Feedable l) :
    ∃ s s', rsiAfter N P l = .ok s ∧ rsiAfter N P (l.map (upsideDown b)) = .ok s' ∧
      s'.state.up.current = s.state.down.current ∧ s'.state.down.current = s.state.up.current ∧
      (s.state.up.current / 10 ^ 6 ≤ s.state.down.current → s.state.down.current / 10 ^ 6 ≤ s.state.up.current → Rsi.get s.state + Rsi.get s'.state = 100) ∧
      100 ≤ Rsi.get s.state + Rsi.get s'.state ∧ Rsi.get s.state + Rsi.get s'.state ≤ 100 + 1 / 10 ^ 4 := by
  obtain ⟨s, h1, hu, hd, -, h2⟩ := C47_formula N P hP l hl
  obtain ⟨s', h1', hu', hd', -, h2'⟩ := C47_formula N P hP _ (feedable_acts (upsideDown_acts b) hl)
  rw [aggregate_acts (upsideDown_acts b) hP, (moves_upsideDown b _).1] at hu'
  rw [aggregate_acts (upsideDown_acts b) hP, (moves_upsideDown b _).2] at hd'
  rw [aggregate_acts (upsideDown_acts b) hP, (moves_upsideDown b _).1, (moves_upsideDown b _).2] at h2'
  refine ⟨s, s', h1, h1', hu'.trans hd.symm, hd'.trans hu.symm, ?_⟩
  rw [hu, hd, h2, h2']
  have u0 := mma_nonneg N hN _ (upMoves_nonneg (aggregate P l))
  have d0 := mma_nonneg N hN _ (downMoves_nonneg (aggregate P l))
  generalize mma N (upMoves (aggregate P l)) = u at u0
  generalize mma N (downMoves (aggregate P l)) = d at d0
  have e1 : (lit K (1 / 10 ^ 6) : K) = 1 / 10 ^ 6 := by simp [lit]
  have e2 : (lit K 50 : K) = 50 := by simp [lit]
  have e3 : (lit K 100 : K) = 100 := by simp [lit]
  have e4 : (lit K 1 : K) = 1 := by simp [lit]
  simp only [e1, e2, e3, e4, ex_lt, ex_sub, ex_add, ex_div, ex_mul, Bool.and_eq_true, decide_eq_true_eq]
  by_cases hs : u < 1 / 10 ^ 6 ∧ d < 1 / 10 ^ 6
  · rw [if_pos hs, if_pos hs.symm]; norm_num
  · have hs' : ¬ (d < 1 / 10 ^ 6 ∧ u < 1 / 10 ^ 6) := fun h => hs h.symm
    rw [if_neg hs, if_neg hs']
    have hpos : 1 / 10 ^ 6 ≤ u ∨ 1 / 10 ^ 6 ≤ d := by
      by_contra hc
      push Not at hc
      exact hs hc
    have share : ∀ x y : K, 0 ≤ x → 0 < y → 100 - 100 / (1 + x / y) = 100 * x / (x + y) := by
      intro x y hx hy
      have : x + y ≠ 0 := by positivity
      have : 1 + x / y ≠ 0 := by positivity
      field_simp
      ring
    have small : ∀ x y : K, 0 ≤ x → 0 < y → x < y * (1 / 10 ^ 6) → 0 ≤ 100 * x / (x + y) ∧ 100 * x / (x + y) ≤ 1 / 10 ^ 4 := by
      intro x y hx hy hxy
      refine ⟨by positivity, ?_⟩
      rw [div_le_iff₀ (by positivity)]
      norm_num at hxy ⊢
      linarith
    by_cases ha : d < u * (1 / 10 ^ 6)
    · have hup : 0 < u := by
        by_contra hc
        have : u = 0 := le_antisymm (not_lt.1 hc) u0
        rw [this] at ha; norm_num at ha; linarith
      have hb : ¬ u < d * (1 / 10 ^ 6) := by intro hb; norm_num at ha hb; linarith
      rw [if_pos ha, if_neg hb, share d u d0 hup]
      obtain ⟨k1, k2⟩ := small d u d0 hup ha
      refine ⟨fun h _ => ?_, by linarith, by linarith⟩
      norm_num at ha h
      linarith
    · rw [if_neg ha]
      by_cases hb : u < d * (1 / 10 ^ 6)
      · have hdp : 0 < d := by
          by_contra hc
          have : d = 0 := le_antisymm (not_lt.1 hc) d0
          rw [this] at hb; norm_num at hb; linarith
        rw [if_pos hb, share u d u0 hdp]
        obtain ⟨k1, k2⟩ := small u d u0 hdp hb
        refine ⟨fun _ h => ?_, by linarith, by linarith⟩
        norm_num at hb h
        linarith
      · rw [if_neg hb]
        have h6 : (0 : K) < 1 / 10 ^ 6 := by positivity
        have hup : 0 < u ∧ 0 < d := by
          norm_num at ha hb hpos
          rcases hpos with h | h <;> constructor <;> linarith
        rw [share u d u0 hup.2, share d u d0 hup.1]
        have hsum : 100 * u / (u + d) + 100 * d / (d + u) = 100 := by
          have : u + d ≠ 0 := by linarith [hup.1, hup.2]
          rw [add_comm d u]
          field_simp
        rw [hsum]
        norm_num

/-! ## The stochastic oscillator -/

theorem lowest_map_shift (b : K) (l : List K) (hl : l ≠ []) : lowest (l.map (b + ·)) = b + lowest l := by
  cases l with
  | nil => exact absurd rfl hl
  | cons x l => exact foldl_comm (b + ·) (fun x y => min_add_add_left b x y) l x
theorem highest_map_shift (b : K) (l : List K) (hl : l ≠ []) : highest (l.map (b + ·)) = b + highest l := by
  cases l with
  | nil => exact absurd rfl hl
  | cons x l => exact foldl_comm (b + ·) (fun x y => max_add_add_left b x y) l x
theorem lowest_map_mirror (b : K) (l : List K) (hl : l ≠ []) : lowest (l.map (b - ·)) = b - highest l := by
  cases l with
  | nil => exact absurd rfl hl
  | cons x l => exact foldl_comm (b - ·) (fun x y => min_sub_sub_left b x y) l x
theorem highest_map_mirror (b : K) (l : List K) (hl : l ≠ []) : highest (l.map (b - ·)) = b - lowest l := by
  cases l with
  | nil => exact absurd rfl hl
  | cons x l => exact foldl_comm (b - ·) (fun x y => max_sub_sub_left b x y) l x

theorem lastN_ne {α : Type} {n : ℕ} (hn : 0 < n) {l : List α} (hl : l ≠ []) : Spec.lastN n l ≠ [] := by
  have := List.length_pos_of_ne_nil hl
  intro e
  have := congrArg List.length e
  simp only [Spec.lastN, List.length_drop, List.length_nil] at this
  omega

theorem stochK_shifted (b : K) {n : ℕ} (hn : 0 < n) (l : List (OhlcTick K)) (hl : l ≠ []) : stochK n (l.map (shifted b)) = stochK n l := by
  have hh : (l.map (shifted b)).map (·.high) = (l.map (·.high)).map (b + ·) := by simp [shifted]
  have hlo : (l.map (shifted b)).map (·.low) = (l.map (·.low)).map (b + ·) := by simp [shifted]
  obtain ⟨t, ht⟩ : ∃ t, l.getLast? = some t := ⟨l.getLast hl, List.getLast?_eq_some_getLast hl⟩
  unfold stochK
  simp only [hh, hlo, List.getLast?_map, ht, Option.map_some]
  rw [lastN_map (b + ·), lastN_map (b + ·), lowest_map_shift b _ (lastN_ne hn (by simpa using hl)), highest_map_shift b _ (lastN_ne hn (by simpa using hl))]
  simp only [shifted, add_sub_add_left_eq_sub]

theorem stochK_upsideDown (b : K) {n : ℕ} (hn : 0 < n) (l : List (OhlcTick K)) (hl : l ≠ []) :
    stochK n (l.map (upsideDown b)) = 100 + -1 * stochK n l := by
  have hh : (l.map (upsideDown b)).map (·.high) = (l.map (·.low)).map (b - ·) := by simp [upsideDown]
  have hlo : (l.map (upsideDown b)).map (·.low) = (l.map (·.high)).map (b - ·) := by simp [upsideDown]
  obtain ⟨t, ht⟩ : ∃ t, l.getLast? = some t := ⟨l.getLast hl, List.getLast?_eq_some_getLast hl⟩
  unfold stochK
  simp only [hh, hlo, List.getLast?_map, ht, Option.map_some]
  rw [lastN_map (b - ·), lastN_map (b - ·), lowest_map_mirror b _ (lastN_ne hn (by simpa using hl)), highest_map_mirror b _ (lastN_ne hn (by simpa using hl))]
  simp only [upsideDown, sub_sub_sub_cancel_left]
  generalize highest (Spec.lastN n (l.map (·.high))) = H
  generalize lowest (Spec.lastN n (l.map (·.low))) = L
  by_cases h : H - L < 1 / 1000000
  · rw [if_pos h, if_pos h]; norm_num
  · rw [if_neg h, if_neg h]
    have : 0 < H - L := by
      norm_num at h
      have : (0 : K) < 1 / 1000000 := by norm_num
      linarith
    have h0 : H - L ≠ 0 := this.ne'
    field_simp
    ring

theorem kSeries_mirror (b : K) {n : ℕ} (hn : 0 < n) (l : List (OhlcTick K)) : kSeries n (l.map (upsideDown b)) = (kSeries n l).map fun x => 100 + -1 * x := by
  unfold kSeries
  rw [prefixes_map, List.map_map, List.map_map]
  exact List.map_congr_left fun p hp => stochK_upsideDown b hn p (prefixes_ne hp)

theorem sma3_affine (a b : K) (l : List K) : sma3 (l.map fun x => b + a * x) = (sma3 l).map fun x => b + a * x := by
  unfold sma3
  rw [prefixes_map, List.map_map, List.map_map]
  refine List.map_congr_left fun p hp => ?_
  simp only [Function.comp]
  rw [lastN_map, mean_affine a b _ (lastN_ne (by norm_num) (prefixes_ne hp))]

theorem prefixes_ne_nil {α : Type} {l : List α} (hl : l ≠ []) : prefixes l ≠ [] := by
  intro e
  have := congrArg List.length e
  simp only [prefixes, List.length_map, List.length_range, List.length_nil] at this
  exact hl (List.eq_nil_of_length_eq_zero this)

/-- **C124** (stochastic oscillator, shift). -/
theorem C124_stochastic_shift (b : K) (n P : ℤ) (hn : 0 < n) (hP : 0 < P) (l : List (OhlcTick K)) (hl : Feedable l) (hne : l ≠ []) :
    (soAfter n P (l.map (shifted b))).map (fun s => (s.state.k, So.getFastD s.state, So.getSlowD s.state)) =
      (soAfter n P l).map fun s => (s.state.k, So.getFastD s.state, So.getSlowD s.state) := by
  obtain ⟨s, h1, -, -, h4, h5, h6, -⟩ := C48_meaning n P hn hP l hl hne
  obtain ⟨s', h1', -, -, h4', h5', h6', -⟩ := C48_meaning n P hn hP _ (feedable_acts (shifted_acts b) hl) (by simpa using hne)
  have hn' : 0 < n.toNat := by omega
  have hk : kSeries n.toNat (aggregate P (l.map (shifted b))) = kSeries n.toNat (aggregate P l) := by
    unfold kSeries
    rw [aggregate_acts (shifted_acts b) hP, prefixes_map, List.map_map]
    exact List.map_congr_left fun p hp => stochK_shifted b hn' p (prefixes_ne hp)
  rw [h1, h1']
  simp only [Except.map, h4, h4', h5, h5', h6, h6', hk]
  rw [aggregate_acts (shifted_acts b) hP, stochK_shifted b hn' _ (aggregate_ne_nil P hne)]

/-- **C124** (stochastic oscillator, upside down). %K and both %D are reflected at 50. -/
theorem C124_stochastic_mirror (b : K) (n P : ℤ) (hn : 0 < n) (hP : 0 < P) (l : List (OhlcTick K)) (hl : Feedable l) (hne : l ≠ []) :
    (soAfter n P (l.map (upsideDown b))).map (fun s => (s.state.k, So.getFastD s.state, So.getSlowD s.state)) =
      (soAfter n P l).map fun s => (100 - s.state.k, 100 - So.getFastD s.state, 100 - So.getSlowD s.state) := by
  obtain ⟨s, h1, -, -, h4, h5, h6, -⟩ := C48_meaning n P hn hP l hl hne
  obtain ⟨s', h1', -, -, h4', h5', h6', -⟩ := C48_meaning n P hn hP _ (feedable_acts (upsideDown_acts b) hl) (by simpa using hne)
  have hn' : 0 < n.toNat := by omega
  have hag := aggregate_ne_nil P hne
  have hks : kSeries n.toNat (aggregate P l) ≠ [] := by simpa [kSeries] using prefixes_ne_nil hag
  have hsm : sma3 (kSeries n.toNat (aggregate P l)) ≠ [] := by simpa [sma3] using prefixes_ne_nil hks
  rw [h1, h1']
  simp only [Except.map, h4, h4', h5, h5', h6, h6', aggregate_acts (upsideDown_acts b) hP, kSeries_mirror b hn', sma3_affine]
  rw [lastN_map, lastN_map, mean_affine _ _ _ (lastN_ne (by norm_num) hks), mean_affine _ _ _ (lastN_ne (by norm_num) hsm), stochK_upsideDown b hn' _ hag]
  simp only [neg_one_mul, ← sub_eq_add_neg]

/-- **C124** (moving averages, shift). The simple and the exponential average move with the prices; the MACD series, its signal and the divergence stay. -/
theorem C124_averages_shift (b : K) (P : ℤ) (hP : 0 < P) (l : List (OhlcTick K)) (hl : Feedable l) (hne : l ≠ []) :
    (∀ n : ℤ, 0 < n → (smaAfter n P (l.map (shifted b))).map Sma.get = (smaAfter n P l).map (b + Sma.get ·)) ∧
    (∀ (smoothing : K) (length : ℤ), (emaIndAfter smoothing length P (l.map (shifted b))).map EmaInd.get =
      (emaIndAfter smoothing length P l).map (b + EmaInd.get ·)) ∧
    (∀ fast slow signal : ℤ, (macdAfter fast slow signal P (l.map (shifted b))).map
        (fun s => (Macd.series s.state, Macd.signal s.state, Macd.divergence s.state)) =
      (macdAfter fast slow signal P l).map fun s => (Macd.series s.state, Macd.signal s.state, Macd.divergence s.state)) := by
  have h : Acts (shifted b) (fun x => b + 1 * x) := by simpa only [one_mul] using shifted_acts b
  simpa only [one_mul] using averages 1 b h P hP l hl hne

/-- **C124** (moving averages, upside down). The averages are reflected like the prices, and the MACD series, its signal and the divergence change their sign. -/
theorem C124_averages_mirror (b : K) (P : ℤ) (hP : 0 < P) (l : List (OhlcTick K)) (hl : Feedable l) (hne : l ≠ []) :
    (∀ n : ℤ, 0 < n → (smaAfter n P (l.map (upsideDown b))).map Sma.get = (smaAfter n P l).map (b - Sma.get ·)) ∧
    (∀ (smoothing : K) (length : ℤ), (emaIndAfter smoothing length P (l.map (upsideDown b))).map EmaInd.get =
      (emaIndAfter smoothing length P l).map (b - EmaInd.get ·)) ∧
    (∀ fast slow signal : ℤ, (macdAfter fast slow signal P (l.map (upsideDown b))).map
        (fun s => (Macd.series s.state, Macd.signal s.state, Macd.divergence s.state)) =
      (macdAfter fast slow signal P l).map fun s => (-Macd.series s.state, -Macd.signal s.state, -Macd.divergence s.state)) := by
  have h : Acts (upsideDown b) (fun x => b + -1 * x) := by simpa only [neg_one_mul, ← sub_eq_add_neg] using upsideDown_acts b
  simpa only [neg_one_mul, ← sub_eq_add_neg] using averages (-1) b h P hP l hl hne

/-! ## A market that is higher throughout -/

/-- At the same time and with prices at most as high. -/
structure Below (t u : OhlcTick K) : Prop where
  ts : t.ts = u.ts
  opn : t.opn ≤ u.opn
  high : t.high ≤ u.high
  low : t.low ≤ u.low
  close : t.close ≤ u.close

theorem foldl_le {op : K → K → K} (hop : ∀ a b c d, a ≤ b → c ≤ d → op a c ≤ op b d) {l m : List K} (h : List.Forall₂ (· ≤ ·) l m) :
    ∀ {x y : K}, x ≤ y → l.foldl op x ≤ m.foldl op y := by
  induction h with
  | nil => exact id
  | cons h _ ih => intro x y hxy; exact ih (hop _ _ _ _ hxy h)

theorem below_map {l m : List (OhlcTick K)} (h : List.Forall₂ Below l m) (p : OhlcTick K → K) (hp : ∀ t u, Below t u → p t ≤ p u) :
    List.Forall₂ (· ≤ ·) (l.map p) (m.map p) := by
  rw [List.forall₂_map_left_iff, List.forall₂_map_right_iff]
  exact h.imp hp

theorem below_filter {l m : List (OhlcTick K)} (h : List.Forall₂ Below l m) (p : ℤ → Bool) :
    List.Forall₂ Below (l.filter fun t => p t.ts) (m.filter fun t => p t.ts) := by
  induction h with
  | nil => exact .nil
  | cons h _ ih =>
    rw [List.filter_cons, List.filter_cons, h.ts]
    split
    · exact .cons h ih
    · exact ih

theorem below_getLast {l m : List (OhlcTick K)} (h : List.Forall₂ Below l m) :
    (l.getLast? = none ∧ m.getLast? = none) ∨ ∃ t u, l.getLast? = some t ∧ m.getLast? = some u ∧ Below t u := by
  rw [← List.head?_reverse, ← List.head?_reverse]
  have h' := List.forall₂_reverse_iff.2 h
  generalize l.reverse = a at h'
  generalize m.reverse = b at h'
  cases h' with
  | nil => exact .inl ⟨rfl, rfl⟩
  | cons h _ => exact .inr ⟨_, _, rfl, rfl, h⟩

theorem below_aggTick {P : ℤ} {l m : List (OhlcTick K)} (h : List.Forall₂ Below l m) (s : ℤ) : Below (aggTick P l s) (aggTick P m s) := by
  have hc : closeBefore s l ≤ closeBefore s m := by
    unfold closeBefore
    rcases below_getLast (below_filter h fun x => decide (x < s)) with ⟨a, b⟩ | ⟨t, u, a, b, c⟩
    · rw [a, b]
    · rw [a, b]; exact c.close
  unfold aggTick ticksIn
  have hf := below_filter h fun x => decide (periodStart P x = s)
  generalize l.filter (fun t => decide (periodStart P t.ts = s)) = a at hf
  generalize m.filter (fun t => decide (periodStart P t.ts = s)) = b at hf
  cases hf with
  | nil => exact ⟨rfl, hc, hc, hc, hc⟩
  | cons hx hxs =>
    refine ⟨rfl, hx.opn, ?_, ?_, ?_⟩
    · exact foldl_le (fun a b c d h1 h2 => by simp only [ex_fmax]; exact max_le_max h1 h2) (below_map hxs (·.high) fun _ _ h => h.high) hx.high
    · exact foldl_le (fun a b c d h1 h2 => by simp only [ex_fmin]; exact min_le_min h1 h2) (below_map hxs (·.low) fun _ _ h => h.low) hx.low
    · rcases below_getLast (List.Forall₂.cons hx hxs) with ⟨a, -⟩ | ⟨t, u, a, b, c⟩
      · simp at a
      · rw [List.getLast?_eq_some_getLast (by simp)] at a b
        cases a; cases b
        exact c.close

theorem below_aggregate (P : ℤ) {l m : List (OhlcTick K)} (h : List.Forall₂ Below l m) : List.Forall₂ Below (aggregate P l) (aggregate P m) := by
  cases h with
  | nil => exact .nil
  | cons hx hxs =>
    have hl : ∀ {x y : OhlcTick K} {xs ys : List (OhlcTick K)}, Below x y → List.Forall₂ Below xs ys →
        ((x :: xs).getLast (by simp)).ts = ((y :: ys).getLast (by simp)).ts := by
      intro x y xs ys hx hxs
      rcases below_getLast (List.Forall₂.cons hx hxs) with ⟨a, -⟩ | ⟨t, u, a, b, c⟩
      · simp at a
      · rw [List.getLast?_eq_some_getLast (by simp)] at a b
        cases a; cases b
        exact c.ts
    unfold aggregate
    simp only [hx.ts, hl hx hxs]
    rw [List.forall₂_map_left_iff, List.forall₂_map_right_iff, List.forall₂_same]
    exact fun s _ => below_aggTick (.cons hx hxs) s

theorem below_feedable {l m : List (OhlcTick K)} (h : List.Forall₂ Below l m) (hl : Feedable l) : Feedable m := by
  have e : l.map (·.ts) = m.map (·.ts) := by
    induction h with
    | nil => rfl
    | cons h hs ih =>
      simp only [List.map_cons, h.ts]
      rw [ih ⟨(List.pairwise_cons.1 hl.1).2, fun t ht => hl.2 t (by simp [ht])⟩]
  refine ⟨?_, ?_⟩
  · have := hl.1
    unfold SortedBy at this ⊢
    rw [← List.pairwise_map (f := OhlcTick.ts) (R := fun a b => a ≤ b)] at this ⊢
    rw [← e]; exact this
  · intro t ht
    have : t.ts ∈ l.map (·.ts) := by rw [e]; exact List.mem_map_of_mem ht
    obtain ⟨u, hu, h2⟩ := List.mem_map.1 this
    rw [← h2]; exact hl.2 u hu

theorem le_lastN {l m : List K} (h : List.Forall₂ (· ≤ ·) l m) (n : ℕ) : List.Forall₂ (· ≤ ·) (Spec.lastN n l) (Spec.lastN n m) := by
  unfold Spec.lastN
  rw [h.length_eq]
  exact List.forall₂_drop _ h

theorem mean_le {l m : List K} (h : List.Forall₂ (· ≤ ·) l m) : mean l ≤ mean m := by
  unfold mean
  rw [h.length_eq]
  exact div_le_div_of_nonneg_right h.sum_le_sum (Nat.cast_nonneg _)

theorem ema_le {w : K} (h0 : 0 ≤ w) (h1 : w ≤ 1) {l m : List K} (h : List.Forall₂ (· ≤ ·) l m) : ema w l ≤ ema w m := by
  have e1 : (lit K 1 : K) = 1 := by simp [lit]
  cases h with
  | nil => exact le_rfl
  | cons hx hxs =>
    refine foldl_le (fun a b c d hab hcd => ?_) hxs hx
    simp only [ex_mul, ex_add, ex_sub, e1]
    have := mul_le_mul_of_nonneg_left hcd h0
    have := mul_le_mul_of_nonneg_left hab (sub_nonneg.2 h1)
    linarith

theorem exists_below {l m : List K} (h : List.Forall₂ (· ≤ ·) l m) : (∀ y ∈ m, ∃ x ∈ l, x ≤ y) ∧ (∀ x ∈ l, ∃ y ∈ m, x ≤ y) := by
  induction h with
  | nil => simp
  | cons h _ ih =>
    constructor
    · intro y hy
      rcases List.mem_cons.1 hy with rfl | hy
      · exact ⟨_, by simp, h⟩
      · obtain ⟨x, hx, hxy⟩ := ih.1 y hy; exact ⟨x, by simp [hx], hxy⟩
    · intro x hx
      rcases List.mem_cons.1 hx with rfl | hx
      · exact ⟨_, by simp, h⟩
      · obtain ⟨y, hy, hxy⟩ := ih.2 x hx; exact ⟨y, by simp [hy], hxy⟩

/-- **C124** (dominance). In a market whose prices are nowhere lower the simple average, the exponential average (with a weight between 0 and 1) and the lowest low
and the highest high of the stochastic oscillator are not lower. -/
theorem C124_dominance (P : ℤ) (hP : 0 < P) {l m : List (OhlcTick K)} (h : List.Forall₂ Below l m) (hl : Feedable l) (hne : l ≠ []) :
    (∀ n : ℤ, 0 < n → ∃ s s', smaAfter n P l = .ok s ∧ smaAfter n P m = .ok s' ∧ Sma.get s ≤ Sma.get s') ∧
    (∀ (smoothing : K) (length : ℤ), 0 ≤ smoothing / (1 + length) → smoothing / (1 + length) ≤ 1 →
      ∃ s s', emaIndAfter smoothing length P l = .ok s ∧ emaIndAfter smoothing length P m = .ok s' ∧ EmaInd.get s ≤ EmaInd.get s') ∧
    (∀ n : ℤ, 0 < n → ∃ s s', soAfter n P l = .ok s ∧ soAfter n P m = .ok s' ∧
      So.getLow s.state ≤ So.getLow s'.state ∧ So.getHigh s.state ≤ So.getHigh s'.state) := by
  have hm := below_feedable h hl
  have hme : m ≠ [] := by rintro rfl; cases h; exact hne rfl
  have ha := below_aggregate P h
  refine ⟨fun n hn => ?_, fun sm len h0 h1 => ?_, fun n hn => ?_⟩
  · obtain ⟨s, h1, h2, -⟩ := C41_sma n P hn hP l hl
    obtain ⟨s', h1', h2', -⟩ := C41_sma n P hn hP m hm
    refine ⟨s, s', h1, h1', ?_⟩
    rw [h2, h2']
    exact mean_le (le_lastN (below_map ha (·.close) fun _ _ h => h.close) _)
  · obtain ⟨s, g1, g2, -⟩ := C42_ema sm len P hP l hl
    obtain ⟨s', g1', g2', -⟩ := C42_ema sm len P hP m hm
    refine ⟨s, s', g1, g1', ?_⟩
    have e : (sm /. (lit K 1 +. lit K (len : ℚ)) : K) = sm / (1 + len) := by simp [lit]
    rw [g2, g2', e]
    exact ema_le h0 h1 (below_map ha (·.close) fun _ _ h => h.close)
  · obtain ⟨s, h1, lo, hi, -⟩ := C48_meaning n P hn hP l hl hne
    obtain ⟨s', h1', lo', hi', -⟩ := C48_meaning n P hn hP m hm hme
    refine ⟨s, s', h1, h1', ?_, ?_⟩
    · obtain ⟨x, hx, hxy⟩ := (exists_below (le_lastN (below_map ha (·.low) fun _ _ h => h.low) _)).1 _ lo'.1
      exact (lo.2 hx).trans hxy
    · obtain ⟨y, hy, hxy⟩ := (exists_below (le_lastN (below_map ha (·.high) fun _ _ h => h.high) _)).2 _ hi.1
      exact hxy.trans (hi'.2 hy)

end

/-! ## Examples: the market `uTicks` (closes 10, 12 and 6), 5 higher, and upside down at 20 -/

section examples

example := C124_averages_shift (5 : ℚ) 300 (by norm_num) uTicks uFeed (by decide)
example := C124_averages_mirror (20 : ℚ) 300 (by norm_num) uTicks uFeed (by decide)
example := C124_rsi_shift (5 : ℚ) 2 300 (by norm_num) uTicks uFeed
example := C124_rsi_mirror (20 : ℚ) 2 300 (by norm_num) (by norm_num) uTicks uFeed
example := C124_stochastic_shift (5 : ℚ) 2 300 (by norm_num) (by norm_num) uTicks uFeed (by decide)
example := C124_stochastic_mirror (20 : ℚ) 2 300 (by norm_num) (by norm_num) uTicks uFeed (by decide)

/-- The index is 7.69 in the market that falls from 12 to 6, and 92.31 in the market upside down, that rises from 8 to 14. -/
example : ((rsiAfter 2 300 uTicks).map fun s => Rsi.get s.state).toOption = some (100 / 13) ∧
    ((rsiAfter 2 300 (uTicks.map (upsideDown 20))).map fun s => Rsi.get s.state).toOption = some (1200 / 13) := by decide +kernel

/-- A market that is higher throughout. -/
def higher : List (OhlcTick ℚ) := [⟨60, 10, 13, 9, 12, 1⟩, ⟨300, 12, 12, 10, 12, 1⟩, ⟨960, 12, 14, 7, 7, 3⟩]

example := C124_dominance 300 (by norm_num) (l := uTicks) (m := higher)
  (.cons ⟨rfl, by norm_num, by norm_num, by norm_num, by norm_num⟩ (.cons ⟨rfl, by norm_num, by norm_num, by norm_num, by norm_num⟩
    (.cons ⟨rfl, by norm_num, by norm_num, by norm_num, by norm_num⟩ .nil))) uFeed (by decide)

/-- **C124** (limit). Not every indicator respects the order: the market that is higher throughout can have the lower relative strength and the lower %K, as the
moves are what counts: here it falls to 9 where the other one rises to 8. -/
theorem C124_not_every_indicator :
    let l : List (OhlcTick ℚ) := [⟨0, 6, 8, 6, 6, 1⟩, ⟨300, 6, 8, 6, 8, 1⟩]
    let m : List (OhlcTick ℚ) := [⟨0, 10, 12, 9, 12, 1⟩, ⟨300, 12, 12, 9, 9, 1⟩]
    List.Forall₂ Below l m ∧
    ((rsiAfter 2 300 l).map fun s => Rsi.get s.state).toOption = some 100 ∧ ((rsiAfter 2 300 m).map fun s => Rsi.get s.state).toOption = some 40 ∧
    ((soAfter 2 300 l).map fun s => s.state.k).toOption = some 100 ∧ ((soAfter 2 300 m).map fun s => s.state.k).toOption = some 0 := by
  refine ⟨.cons ⟨rfl, by norm_num, by norm_num, by norm_num, by norm_num⟩ (.cons ⟨rfl, by norm_num, by norm_num, by norm_num, by norm_num⟩ .nil), ?_, ?_, ?_, ?_⟩ <;>
    decide +kernel

end examples
end Verif.Props.Mirror
