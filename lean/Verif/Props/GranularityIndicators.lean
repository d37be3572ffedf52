import Verif.Props.Granularity
import Verif.Props.Rsi
import Verif.Props.Stochastic

/-!
# C51 for the indicator values
-/

set_option linter.unusedSectionVars false

namespace Verif.Props
open Spec FloatOps

section general
variable {F : Type} [FloatOps F]

theorem feedable_aggregate (Q : ℤ) (hQ : 0 < Q) (l : List (OhlcTick F)) (hl : Feedable l) :
    Feedable (aggregate Q l) := by
  refine ⟨aggregate_sorted hQ l, ?_⟩
  intro t ht
  by_cases hne : l = []
  · subst hne; simp [aggregate] at ht
  · rw [aggregate_eq hne, List.mem_map] at ht
    obtain ⟨i, _, rfl⟩ := ht
    rw [aggTick_ts]
    have : 0 ≤ (l.head hne).ts := hl.2 _ (List.head_mem hne)
    unfold periodStart
    have : 0 ≤ (l.head hne).ts / Q := Int.ediv_nonneg this hQ.le
    positivity

theorem closes_eq (Q P : ℤ) (hQ : 0 < Q) (hP : 0 < P) (hd : Q ∣ P) (l : List (OhlcTick F)) (hl : Feedable l) :
    (aggregate P (aggregate Q l)).map (·.close) = (aggregate P l).map (·.close) := by
  have h := aggregate_aggregate_closes hQ hP hd l hl.1
  have := congrArg (List.map (fun p : ℤ × F => p.2)) h
  simpa [Function.comp_def] using this

theorem aggregate_head_opn (Q : ℤ) (l : List (OhlcTick F)) (t : OhlcTick F) (ts : List (OhlcTick F))
    (h : l = t :: ts) : ∃ y ys, aggregate Q l = y :: ys ∧ y.opn = t.opn := by
  subst h
  have h0 : (t :: ts) ≠ [] := by simp
  rw [aggregate_eq h0, List.range_succ_eq_map, List.map_cons]
  refine ⟨_, _, rfl, ?_⟩
  simp only [List.head_cons, Nat.cast_zero, mul_zero, add_zero]
  unfold aggTick
  have : ticksIn Q (periodStart Q t.ts) (t :: ts) = t :: ticksIn Q (periodStart Q t.ts) ts := by
    simp [ticksIn]
  rw [this]; rfl

theorem referencePrices_congr (a b : List (OhlcTick F)) (hc : a.map (·.close) = b.map (·.close))
    (ho : a.head?.map (·.opn) = b.head?.map (·.opn)) : referencePrices a = referencePrices b := by
  cases a with
  | nil =>
    cases b with
    | nil => rfl
    | cons y ys => simp at hc
  | cons x xs =>
    cases b with
    | nil => simp at hc
    | cons y ys =>
      simp only [List.head?_cons, Option.map_some, Option.some.injEq] at ho
      dsimp only [referencePrices]
      rw [ho, List.map_dropLast, List.map_dropLast, hc]

/-- **C51** (EMA, MACD and RSI values, for every arithmetic and even with empty periods). Feeding the ticks, or
their pre-aggregation to a period `Q` that divides the indicator period `P`, gives the same value. -/
theorem C51_close_based (Q P : ℤ) (hQ : 0 < Q) (hP : 0 < P) (hd : Q ∣ P) (l : List (OhlcTick F)) (hl : Feedable l) :
    (∀ (smoothing : F) (length : ℤ), (emaIndAfter smoothing length P (aggregate Q l)).map EmaInd.get =
      (emaIndAfter smoothing length P l).map EmaInd.get) ∧
    (∀ fast slow signal : ℤ, (macdAfter fast slow signal P (aggregate Q l)).map (fun s =>
        (Macd.series s.state, Macd.signal s.state, Macd.divergence s.state)) =
      (macdAfter fast slow signal P l).map (fun s =>
        (Macd.series s.state, Macd.signal s.state, Macd.divergence s.state))) ∧
    (∀ N : ℤ, (rsiAfter N P (aggregate Q l)).map (fun s => Rsi.get s.state) =
      (rsiAfter N P l).map (fun s => Rsi.get s.state)) := by
  have hl' := feedable_aggregate Q hQ l hl
  have hc := closes_eq Q P hQ hP hd l hl
  refine ⟨?_, ?_, ?_⟩
  · intro smoothing length
    obtain ⟨s, h1, h2, _⟩ := C42_ema smoothing length P hP l hl
    obtain ⟨s', h1', h2', _⟩ := C42_ema smoothing length P hP _ hl'
    rw [h1, h1']
    simp only [Except.map, h2, h2', hc]
  · intro fast slow signal
    obtain ⟨s, h1, _, _, h2, h3, h4, _⟩ := C49_macd fast slow signal P hP l hl
    obtain ⟨s', h1', _, _, h2', h3', h4', _⟩ := C49_macd fast slow signal P hP _ hl'
    rw [h1, h1']
    simp only [Except.map, h2, h2', h3, h3', h4, h4', hc]
  · intro N
    obtain ⟨s, h1, _, _, _, h2⟩ := C47_formula N P hP l hl
    obtain ⟨s', h1', _, _, _, h2'⟩ := C47_formula N P hP _ hl'
    have ho : (aggregate P (aggregate Q l)).head?.map (·.opn) = (aggregate P l).head?.map (·.opn) := by
      cases hcase : l with
      | nil => rfl
      | cons t ts =>
        obtain ⟨y, ys, e, f⟩ := aggregate_head_opn Q (t :: ts) t ts rfl
        obtain ⟨z, zs, e', f'⟩ := aggregate_head_opn P _ y ys e
        obtain ⟨w, ws, e'', f''⟩ := aggregate_head_opn P (t :: ts) t ts rfl
        rw [e', e'']
        simp [f', f, f'']
    have hr := referencePrices_congr _ _ hc ho
    have hu : upMoves (aggregate P (aggregate Q l)) = upMoves (aggregate P l) := by unfold upMoves; rw [hr, hc]
    have hdn : downMoves (aggregate P (aggregate Q l)) = downMoves (aggregate P l) := by
      unfold downMoves; rw [hr, hc]
    rw [h1, h1']
    simp only [Except.map, h2, h2', hu, hdn]

end general

section exact
variable {K : Type} [Field K] [LinearOrder K] [IsStrictOrderedRing K] [FloorRing K]

/-- **C51** (SMA value, exact arithmetic, even with empty periods). -/
theorem C51_sma (Q P n : ℤ) (hQ : 0 < Q) (hP : 0 < P) (hn : 0 < n) (hd : Q ∣ P) (l : List (OhlcTick K))
    (hl : Feedable l) : (smaAfter n P (aggregate Q l)).map Sma.get = (smaAfter n P l).map Sma.get := by
  obtain ⟨s, h1, h2, _⟩ := C41_sma n P hn hP l hl
  obtain ⟨s', h1', h2', _⟩ := C41_sma n P hn hP _ (feedable_aggregate Q hQ l hl)
  rw [h1, h1']
  simp only [Except.map, h2, h2', closes_eq Q P hQ hP hd l hl]

/-- **C51** (stochastic oscillator, exact arithmetic, no empty period). -/
theorem C51_stochastic (Q P n : ℤ) (hQ : 0 < Q) (hP : 0 < P) (hn : 0 < n) (hd : Q ∣ P) (l : List (OhlcTick K))
    (hl : Feedable l) (hg : NoGap Q l) (hne : l ≠ []) :
    (soAfter n P (aggregate Q l)).map (fun s => (s.state.k, So.getFastD s.state, So.getSlowD s.state)) =
      (soAfter n P l).map (fun s => (s.state.k, So.getFastD s.state, So.getSlowD s.state)) := by
  obtain ⟨s, h1, _, _, h2, h3, h4, _⟩ := C48_meaning n P hn hP l hl hne
  obtain ⟨s', h1', _, _, h2', h3', h4', _⟩ := C48_meaning n P hn hP _ (feedable_aggregate Q hQ l hl)
    (aggregate_ne_nil Q hne)
  have hc := C51_ticks Q P hQ hP hd l hl.1 hg
  rw [h1, h1']
  simp only [Except.map, h2, h2', h3, h3', h4, h4', hc]

end exact

/-! Non-vacuity: a history in several 5-second periods, indicators of period 10. -/

example : NoGap 5 ([⟨100, 10, 12, 9, 11, 1⟩, ⟨105, 11, 14, 10, 13, 2⟩, ⟨110, 12, 12, 7, 8, 3⟩] : List (OhlcTick ℚ)) := by
  unfold NoGap; decide +kernel
example : (smaAfter 2 10 (aggregate 5 indTicks)).map Sma.get = .ok (21 / 2) := by decide +kernel

end Verif.Props
