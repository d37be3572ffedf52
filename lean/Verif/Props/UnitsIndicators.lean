import Verif.Lemmas.UnitsRun
import Verif.Props.MovingAverages
import Verif.Props.Rsi
import Verif.Props.Stochastic
import Verif.Props.Volatility
import Verif.Props.Evaluate

/-!
# C110: the indicators in another unit of the quote currency
-/

namespace Verif.Props.Units
open Verif FloatOps Spec Spec.Units Verif.Units

section
variable {K : Type} [Field K] [LinearOrder K] [IsStrictOrderedRing K] [FloorRing K] {c : K}

theorem foldl_fmax_scale (hc : 0 < c) (l : List K) : ∀ x : K, (l.map (c * ·)).foldl fmax (c * x) = c * l.foldl fmax x := by
  induction l with
  | nil => intro x; rfl
  | cons y l ih => intro x; simp only [List.map_cons, List.foldl_cons, max_scale hc, ih]

theorem foldl_fmin_scale (hc : 0 < c) (l : List K) : ∀ x : K, (l.map (c * ·)).foldl fmin (c * x) = c * l.foldl fmin x := by
  induction l with
  | nil => intro x; rfl
  | cons y l ih => intro x; simp only [List.map_cons, List.foldl_cons, min_scale hc, ih]

theorem summary_scale (hc : 0 < c) (s : ℤ) (g : OhlcTick K) (gs : List (OhlcTick K)) :
    summary s (tick c g) (gs.map (tick c)) = tick c (summary s g gs) := by
  have hm : (gs.map (tick c)).map (·.high) = (gs.map (·.high)).map (c * ·) := by simp [tick]
  have hl : (gs.map (tick c)).map (·.low) = (gs.map (·.low)).map (c * ·) := by simp [tick]
  have hv : (gs.map (tick c)).map (·.volume) = gs.map (·.volume) := by simp [tick]
  have hcl : ((tick c g :: gs.map (tick c)).getLast (by simp)).close = c * ((g :: gs).getLast (by simp)).close := by
    have : (tick c g :: gs.map (tick c)).getLast (by simp) = tick c ((g :: gs).getLast (by simp)) := by
      simp only [← List.map_cons, List.getLast_map]
    rw [this]; rfl
  unfold summary
  rw [hm, hl, hv, hcl]
  simp only [show (tick c g).high = c * g.high from rfl, show (tick c g).low = c * g.low from rfl, foldl_fmax_scale hc, foldl_fmin_scale hc]
  rfl

theorem filter_tick (p : ℤ → Bool) (l : List (OhlcTick K)) :
    (l.map (tick c)).filter (fun t => p t.ts) = (l.filter fun t => p t.ts).map (tick c) := by
  rw [List.filter_map]; rfl

theorem closeBefore_scale (s : ℤ) (l : List (OhlcTick K)) : closeBefore s (l.map (tick c)) = c * closeBefore s l := by
  unfold closeBefore
  rw [filter_tick (fun x => decide (x < s)), List.getLast?_map]
  cases (l.filter fun t => decide (t.ts < s)).getLast? with
  | none => simp [lit]
  | some t => rfl

theorem aggTick_scale (hc : 0 < c) (P : ℤ) (l : List (OhlcTick K)) (s : ℤ) : aggTick P (l.map (tick c)) s = tick c (aggTick P l s) := by
  unfold aggTick ticksIn
  rw [filter_tick (fun x => decide (periodStart P x = s)), closeBefore_scale]
  cases l.filter fun t => decide (periodStart P t.ts = s) with
  | nil => rfl
  | cons g gs => exact summary_scale hc s g gs

theorem aggregate_scale (hc : 0 < c) (P : ℤ) (l : List (OhlcTick K)) : aggregate P (l.map (tick c)) = (aggregate P l).map (tick c) := by
  unfold aggregate
  cases l with
  | nil => rfl
  | cons t rest =>
    have hl : ((tick c t :: rest.map (tick c)).getLast (by simp)).ts = ((t :: rest).getLast (by simp)).ts := by
      simp only [← List.map_cons, List.getLast_map]; rfl
    simp only [List.map_cons, hl, List.map_map]
    refine List.map_congr_left fun s _ => ?_
    exact aggTick_scale hc P (t :: rest) s

theorem feedable_scale {l : List (OhlcTick K)} (h : Feedable l) : Feedable (l.map (tick c)) := by
  refine ⟨?_, ?_⟩
  · have := h.1
    unfold SortedBy at this ⊢
    rw [List.pairwise_map]; exact this
  · intro t ht
    obtain ⟨u, hu, rfl⟩ := List.mem_map.1 ht
    exact h.2 u hu

theorem closes_scale (l : List (OhlcTick K)) : (l.map (tick c)).map (·.close) = (l.map (·.close)).map (c * ·) := by simp [tick]

theorem lastN_map {α β : Type} (f : α → β) (n : ℕ) (l : List α) : Spec.lastN n (l.map f) = (Spec.lastN n l).map f := by
  simp [Spec.lastN, List.map_drop]

theorem mean_scale (l : List K) : mean (l.map (c * ·)) = c * mean l := by
  unfold mean
  rw [List.sum_map_mul_left, List.length_map, mul_div_assoc]
  simp

theorem ema_scale (w : K) (l : List K) : ema w (l.map (c * ·)) = c * ema w l := by
  unfold ema
  cases l with
  | nil => simp [lit]
  | cons x l =>
    simp only [List.map_cons]
    induction l generalizing x with
    | nil => rfl
    | cons y l ih =>
      simp only [List.map_cons, List.foldl_cons]
      rw [← ih]
      congr 1
      simp only [ex_mul, ex_add, ex_sub]; ring

theorem prefixes_map {α β : Type} (f : α → β) (l : List α) : prefixes (l.map f) = (prefixes l).map (List.map f) := by
  simp [prefixes, List.map_take]

theorem macdSeries_scale (a b : K) (l : List K) : macdSeries a b (l.map (c * ·)) = (macdSeries a b l).map (c * ·) := by
  unfold macdSeries
  rw [prefixes_map, List.map_map, List.map_map]
  refine List.map_congr_left fun p _ => ?_
  simp only [Function.comp, ema_scale, ex_sub]; ring

/-- **C110** (moving averages). The simple and the exponential moving average are prices: they are converted. -/
theorem C110_moving_averages (c : K) (hc : 0 < c) (P : ℤ) (hP : 0 < P) (l : List (OhlcTick K)) (hl : Feedable l) :
    (∀ n : ℤ, 0 < n → (smaAfter n P (l.map (tick c))).map Sma.get = (smaAfter n P l).map (c * Sma.get ·)) ∧
    (∀ (smoothing : K) (length : ℤ), (emaIndAfter smoothing length P (l.map (tick c))).map EmaInd.get =
      (emaIndAfter smoothing length P l).map (c * EmaInd.get ·)) ∧
    (∀ fast slow signal : ℤ, (macdAfter fast slow signal P (l.map (tick c))).map
        (fun s => (Macd.series s.state, Macd.signal s.state, Macd.divergence s.state)) =
      (macdAfter fast slow signal P l).map
        fun s => (c * Macd.series s.state, c * Macd.signal s.state, c * Macd.divergence s.state)) := by
  have hl' := feedable_scale (c := c) hl
  refine ⟨fun n hn => ?_, fun sm len => ?_, fun f sl sg => ?_⟩
  · obtain ⟨s, h1, h2, -⟩ := C41_sma n P hn hP l hl
    obtain ⟨s', h1', h2', -⟩ := C41_sma n P hn hP _ hl'
    rw [h1, h1']
    simp only [Except.map, h2, h2', aggregate_scale hc, closes_scale, lastN_map, mean_scale]
  · obtain ⟨s, h1, h2, -⟩ := C42_ema sm len P hP l hl
    obtain ⟨s', h1', h2', -⟩ := C42_ema sm len P hP _ hl'
    rw [h1, h1']
    simp only [Except.map, h2, h2', aggregate_scale hc, closes_scale, ema_scale]
  · obtain ⟨s, h1, -, -, h4, h5, h6, -⟩ := C49_macd f sl sg P hP l hl
    obtain ⟨s', h1', -, -, h4', h5', h6', -⟩ := C49_macd f sl sg P hP _ hl'
    rw [h1, h1']
    simp only [Except.map, h4, h4', h5, h5', h6, h6', aggregate_scale hc, closes_scale, ema_scale, macdSeries_scale, ex_sub]
    simp only [← mul_sub]

theorem referencePrices_scale (l : List (OhlcTick K)) : referencePrices (l.map (tick c)) = (referencePrices l).map (c * ·) := by
  cases l with
  | nil => rfl
  | cons t l =>
    show _ :: _ = _ :: _
    congr 1
    have : (tick c t :: l.map (tick c)).dropLast = (t :: l).dropLast.map (tick c) := by
      rw [← List.map_cons, List.map_dropLast]
    rw [this, closes_scale]

theorem moves_scale (hc : 0 < c) (l : List (OhlcTick K)) :
    upMoves (l.map (tick c)) = (upMoves l).map (c * ·) ∧ downMoves (l.map (tick c)) = (downMoves l).map (c * ·) := by
  unfold upMoves downMoves
  rw [referencePrices_scale, closes_scale]
  generalize referencePrices l = r
  generalize l.map (·.close) = x
  constructor
  · rw [List.zipWith_map, List.map_zipWith]
    congr 1
    funext a b
    simp only [le_scale hc, ex_sub]
    split <;> simp [lit, mul_sub]
  · rw [List.zipWith_map, List.map_zipWith]
    congr 1
    funext a b
    simp only [le_scale hc, ex_sub]
    split <;> simp [lit, mul_sub]

theorem mma_scale (N : ℤ) (l : List K) : mma N (l.map (c * ·)) = c * mma N l := by
  unfold mma
  suffices h : ∀ (l : List K) (k : ℕ) (x : K), (l.map (c * ·)).foldl (fun (p : ℕ × K) x =>
      let w : K := lit K 1 /. lit K (min ((p.1 + 1 : ℕ) : ℤ) N : ℤ)
      (p.1 + 1, if p.1 = 0 then x else w *. x +. (lit K 1 -. w) *. p.2)) (k, c * x) =
      (fun q : ℕ × K => (q.1, c * q.2)) (l.foldl (fun (p : ℕ × K) x =>
      let w : K := lit K 1 /. lit K (min ((p.1 + 1 : ℕ) : ℤ) N : ℤ)
      (p.1 + 1, if p.1 = 0 then x else w *. x +. (lit K 1 -. w) *. p.2)) (k, x)) by
    have h0 := h l 0 (lit K 0)
    rw [show (c * lit K 0 : K) = lit K 0 by simp [lit]] at h0
    rw [h0]
  intro l
  induction l with
  | nil => intro k x; rfl
  | cons y l ih =>
    intro k x
    rw [List.map_cons, List.foldl_cons, List.foldl_cons, ← ih]
    congr 2
    dsimp only
    split
    · rfl
    · simp only [ex_mul, ex_add, ex_sub]; ring

/-- **C110** (RSI). The index compares the averages of the moves with the absolute bound 1e-6 (indicators/relative_strength_index.cc); the two units give the
same index unless both averages are below the bound in exactly one of them. -/
theorem C110_rsi (c : K) (hc : 0 < c) (N P : ℤ) (hP : 0 < P) (l : List (OhlcTick K)) (hl : Feedable l)
    (h : ∀ s, rsiAfter N P l = .ok s → ((s.state.up.current < 1 / 1000000 ∧ s.state.down.current < 1 / 1000000) ↔
      (c * s.state.up.current < 1 / 1000000 ∧ c * s.state.down.current < 1 / 1000000))) :
    (rsiAfter N P (l.map (tick c))).map (fun s => Rsi.get s.state) = (rsiAfter N P l).map fun s => Rsi.get s.state := by
  obtain ⟨s, h1, hu, hd, -, h2⟩ := C47_formula N P hP l hl
  obtain ⟨s', h1', -, -, -, h2'⟩ := C47_formula N P hP _ (feedable_scale (c := c) hl)
  have h := h s h1
  rw [hu, hd] at h
  rw [h1, h1']
  simp only [Except.map, h2, h2', aggregate_scale hc, moves_scale hc, mma_scale]
  generalize mma N (upMoves (aggregate P l)) = u at h
  generalize mma N (downMoves (aggregate P l)) = d at h
  have e : (lit K (1 / 10 ^ 6) : K) = 1 / 1000000 := by simp [lit]; norm_num
  have h3 : (c * u <. (lit K (1 / 10 ^ 6) : K) && c * d <. (lit K (1 / 10 ^ 6) : K)) = (u <. (lit K (1 / 10 ^ 6) : K) && d <. (lit K (1 / 10 ^ 6) : K)) := by
    rw [e]; simp only [ex_lt, ← Bool.decide_and]; exact decide_eq_decide.2 h.symm
  rw [h3]
  simp only [ex_mul, mul_assoc c, lt_scale hc, ex_div, div_scale hc]

/-- **C110** (volatility). For every sequence of updates, whatever the logarithm and the square root: the same volatility, or the same abort. -/
theorem C110_volatility [Libm K] (c : K) (hc : 0 < c) (windowSize period : ℤ) (inputs : List (OhlcTick K × K × K)) :
    (volAfter windowSize period (inputs.map fun i => (tick c i.1, i.2.1, c * i.2.2))).map Vol.get = (volAfter windowSize period inputs).map Vol.get := by
  have hrun : ∀ v : Indicator K (VolState K),
      (inputs.map fun i => (tick c i.1, i.2.1, c * i.2.2)).foldlM (fun v i => Vol.update v i.1 i.2.1 i.2.2) (vol c v) =
        (inputs.foldlM (fun v i => Vol.update v i.1 i.2.1 i.2.2) v).map (vol c) := by
    induction inputs with
    | nil => intro v; rfl
    | cons i l ih =>
      intro v
      simp only [List.map_cons, List.foldlM_cons, volUpdate_scale hc]
      cases Vol.update v i.1 i.2.1 i.2.2 with
      | error e => rfl
      | ok v' => exact ih v'
  unfold volAfter
  simp only [Vol.make, LastN.make, assertThat]
  split
  · split
    · have h0 := hrun ⟨⟨(2 : ℤ).toNat, period, []⟩, ⟨lit K 0, lit K 0, [], 0, MeanVar.make windowSize⟩⟩
      simp only [vol, Verif.Units.lastN, volState, List.map_nil, show (c * lit K 0 : K) = lit K 0 by simp [lit]] at h0
      simp only [bind, Except.bind, pure, Except.pure] at h0 ⊢
      rw [h0]
      cases List.foldlM (fun v i => Vol.update v i.1 i.2.1 i.2.2)
        (⟨⟨(2 : ℤ).toNat, period, []⟩, ⟨lit K 0, lit K 0, [], 0, MeanVar.make windowSize⟩⟩ : Indicator K (VolState K)) inputs <;> rfl
    · rfl
  · rfl

theorem lowest_scale (hc : 0 < c) (l : List K) : lowest (l.map (c * ·)) = c * lowest l := by
  cases l with
  | nil => simp [lowest]
  | cons x l =>
    have hf : (fmin : K → K → K) = min := by funext a b; exact ex_fmin a b
    have := foldl_fmin_scale hc l x
    rw [hf] at this
    exact this

theorem highest_scale (hc : 0 < c) (l : List K) : highest (l.map (c * ·)) = c * highest l := by
  cases l with
  | nil => simp [highest]
  | cons x l =>
    have hf : (fmax : K → K → K) = max := by funext a b; exact ex_fmax a b
    have := foldl_fmax_scale hc l x
    rw [hf] at this
    exact this

/-- Highest high minus lowest low of the last `n` ticks. -/
def span (n : ℕ) (l : List (OhlcTick K)) : K :=
  highest (Spec.lastN n (l.map (·.high))) - lowest (Spec.lastN n (l.map (·.low)))

theorem stochK_scale (hc : 0 < c) (n : ℕ) (l : List (OhlcTick K)) (h : span n l < 1 / 1000000 ↔ c * span n l < 1 / 1000000) :
    stochK n (l.map (tick c)) = stochK n l := by
  have hm : (l.map (tick c)).map (·.high) = (l.map (·.high)).map (c * ·) := by simp [tick]
  have hlo : (l.map (tick c)).map (·.low) = (l.map (·.low)).map (c * ·) := by simp [tick]
  unfold stochK
  unfold span at h
  simp only
  rw [hm, hlo, lastN_map (c * ·), lastN_map (c * ·), lowest_scale hc, highest_scale hc, List.getLast?_map, ← mul_sub]
  have htail (x : K) : (if c * (highest (Spec.lastN n (l.map (·.high))) - lowest (Spec.lastN n (l.map (·.low)))) < 1 / 1000000 then (50 : K)
      else 100 * (c * x - c * lowest (Spec.lastN n (l.map (·.low)))) / (c * (highest (Spec.lastN n (l.map (·.high))) - lowest (Spec.lastN n (l.map (·.low)))))) =
    if highest (Spec.lastN n (l.map (·.high))) - lowest (Spec.lastN n (l.map (·.low))) < 1 / 1000000 then (50 : K)
      else 100 * (x - lowest (Spec.lastN n (l.map (·.low)))) / (highest (Spec.lastN n (l.map (·.high))) - lowest (Spec.lastN n (l.map (·.low)))) := by
    rw [← mul_sub, mul_left_comm, div_scale hc]
    by_cases hs : highest (Spec.lastN n (l.map (·.high))) - lowest (Spec.lastN n (l.map (·.low))) < 1 / 1000000
    · rw [if_pos hs, if_pos (h.1 hs)]
    · rw [if_neg hs, if_neg (fun h' => hs (h.2 h'))]
  cases l.getLast? with
  | none => have := htail 0; rw [mul_zero] at this; exact this
  | some t => exact htail t.close

/-- **C110** (stochastic oscillator). %K and both %D are the same in both units, provided that for no tick the span of the last `n` ticks falls below the
absolute bound 1e-6 (indicators/stochastic_oscillator.cc) in exactly one of them. -/
theorem C110_stochastic (c : K) (hc : 0 < c) (n P : ℤ) (hn : 0 < n) (hP : 0 < P) (l : List (OhlcTick K)) (hl : Feedable l) (hne : l ≠ [])
    (h : ∀ p ∈ prefixes (aggregate P l), (span n.toNat p < 1 / 1000000 ↔ c * span n.toNat p < 1 / 1000000)) :
    (soAfter n P (l.map (tick c))).map (fun s => (s.state.k, So.getFastD s.state, So.getSlowD s.state)) =
      (soAfter n P l).map fun s => (s.state.k, So.getFastD s.state, So.getSlowD s.state) := by
  obtain ⟨s, h1, -, -, h4, h5, h6, -⟩ := C48_meaning n P hn hP l hl hne
  obtain ⟨s', h1', -, -, h4', h5', h6', -⟩ := C48_meaning n P hn hP _ (feedable_scale (c := c) hl) (by simpa using hne)
  have hk : kSeries n.toNat (aggregate P (l.map (tick c))) = kSeries n.toNat (aggregate P l) := by
    unfold kSeries
    rw [aggregate_scale hc, prefixes_map, List.map_map]
    exact List.map_congr_left fun p hp => stochK_scale hc _ p (h p hp)
  have hagg : aggregate P l ≠ [] := by
    unfold aggregate
    cases l with
    | nil => exact absurd rfl hne
    | cons t r => simp [periods]
  have hlast : stochK n.toNat (aggregate P (l.map (tick c))) = stochK n.toNat (aggregate P l) := by
    rw [aggregate_scale hc]
    refine stochK_scale hc _ _ (h _ ?_)
    unfold prefixes
    have hpos := List.length_pos_of_ne_nil hagg
    exact List.mem_map.2 ⟨(aggregate P l).length - 1, by rw [List.mem_range]; omega, by rw [Nat.sub_add_cancel hpos, List.take_length]⟩
  rw [h1, h1']
  simp only [Except.map, h4, h4', h5, h5', h6, h6', hk, hlast]

end

/-! ### Examples -/

section examples

/-- One, five and sixteen minutes after the start: closes 10, 12 and 6. -/
def uTicks : List (OhlcTick ℚ) := [⟨60, 10, 11, 9, 10, 1⟩, ⟨300, 10, 12, 10, 12, 1⟩, ⟨960, 12, 12, 6, 6, 1⟩]

theorem uFeed : Feedable uTicks := by unfold Feedable SortedBy uTicks; decide +kernel

example := C110_moving_averages (100 : ℚ) (by norm_num) 300 (by norm_num) uTicks uFeed

/-- In dollars and in cents the RSI is the same. -/
example := C110_rsi (100 : ℚ) (by norm_num) 2 300 (by norm_num) uTicks uFeed (by
  intro s hs
  obtain ⟨s', h1, hu, hd, -⟩ := C47_formula 2 300 (by norm_num) uTicks uFeed
  rw [hs] at h1
  cases h1
  rw [hu, hd, show mma 2 (upMoves (aggregate 300 uTicks)) = (1 / 4 : ℚ) by decide +kernel]
  norm_num)

example := C110_stochastic (100 : ℚ) (by norm_num) 2 300 (by norm_num) (by norm_num) uTicks uFeed (by decide) (by decide +kernel)

/-- **C110** (the bound of the RSI is absolute). A currency whose moves are millionths: the index is 50 whatever the direction; in units of a millionth it is not. -/
theorem C110_rsi_threshold : ∃ (l : List (OhlcTick ℚ)) (c : ℚ), Feedable l ∧ 0 < c ∧
    (rsiAfter 2 300 l).map (fun s => Rsi.get s.state) = .ok 50 ∧ (rsiAfter 2 300 (l.map (tick c))).map (fun s => Rsi.get s.state) = .ok 100 := by
  refine ⟨[⟨0, 1 / 10 ^ 7, 2 / 10 ^ 7, 1 / 10 ^ 7, 2 / 10 ^ 7, 1⟩, ⟨300, 2 / 10 ^ 7, 4 / 10 ^ 7, 2 / 10 ^ 7, 4 / 10 ^ 7, 1⟩], 10 ^ 7, ?_, by norm_num, ?_, ?_⟩
  · unfold Feedable SortedBy; decide +kernel
  · decide +kernel
  · decide +kernel

attribute [local instance] evLibm in
example := C110_volatility (100 : ℚ) (by norm_num) 2 300 (uTicks.map fun t => (t, (1 : ℚ), (100 : ℚ)))

end examples
end Verif.Props.Units
