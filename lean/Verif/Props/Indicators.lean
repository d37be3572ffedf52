import Verif.Lemmas.Indicators
import Verif.Props.Window
import Verif.Spec.Indicators

/-!
# C41, C42, C47-C49: the indicators compute their textbook definitions on the aggregated history
-/

set_option linter.unusedSectionVars false

namespace Verif.Props
open Spec FloatOps

theorem prefixes_snoc {α : Type} (l : List α) (x : α) : prefixes (l ++ [x]) = prefixes l ++ [l ++ [x]] := by
  unfold prefixes
  rw [List.length_append, List.length_singleton, List.range_succ, List.map_append, List.map_singleton]
  congr 1
  · apply List.map_congr_left
    intro i hi
    rw [List.mem_range] at hi
    rw [List.take_append_of_le_length (by omega)]
  · rw [List.take_of_length_le (by simp)]

section general
variable {F : Type} [FloatOps F]

/-- A sorted history with non-negative timestamps. -/
def Feedable (l : List (OhlcTick F)) : Prop := SortedBy OhlcTick.ts l ∧ ∀ t ∈ l, 0 ≤ t.ts

/-- An indicator after its constructor and a sequence of updates. -/
def indAfter {σ : Type} (make : Res (Indicator F σ)) (onEvent : List (OhlcTick F) → σ → TickEvent F → Res σ)
    (l : List (OhlcTick F)) : Res (Indicator F σ) := do Indicator.run onEvent (← make) l

/-- `SimpleMovingAverage` after a sequence of updates. -/
def smaAfter (n period : ℤ) (l : List (OhlcTick F)) := indAfter (Sma.make n period) Sma.onEvent l
/-- `ExponentialMovingAverage` after a sequence of updates. -/
def emaIndAfter (smoothing : F) (length period : ℤ) (l : List (OhlcTick F)) :=
  indAfter (EmaInd.make smoothing length period) EmaInd.onEvent l
/-- `MovingAverageConvergenceDivergence` after a sequence of updates. -/
def macdAfter (fast slow signal period : ℤ) (l : List (OhlcTick F)) :=
  indAfter (Macd.make fast slow signal period) Macd.onEvent l
/-- `RelativeStrengthIndex` after a sequence of updates. -/
def rsiAfter (n period : ℤ) (l : List (OhlcTick F)) := indAfter (Rsi.make n period) Rsi.onEvent l

theorem lastN_make (n P : ℤ) (hn : 0 < n) (hP : 0 < P) :
    (LastN.make n P : Res (LastN F)) = .ok ⟨n.toNat, P, []⟩ := by
  simp [LastN.make, assertThat, hn, hP, bind, Except.bind, pure, Except.pure]

/-- The exponential average helper after adding values with weights. -/
def emaOf (l : List (F × F)) : Ema F :=
  l.foldl (fun s p => ⟨if s.num = 0 then p.1 else p.2 *. p.1 +. (lit F 1 -. p.2) *. s.current, s.current, s.num + 1⟩)
    Ema.make

theorem emaOf_snoc (l : List (F × F)) (p : F × F) : emaOf (l ++ [p]) =
    ⟨if (emaOf l).num = 0 then p.1 else p.2 *. p.1 +. (lit F 1 -. p.2) *. (emaOf l).current, (emaOf l).current,
      (emaOf l).num + 1⟩ := by
  unfold emaOf; rw [List.foldl_append]; rfl

theorem emaOf_num (l : List (F × F)) : (emaOf l).num = l.length := by
  induction l using List.reverseRecOn with
  | nil => rfl
  | append_singleton l p ih => rw [emaOf_snoc, ih]; simp

theorem emaOf_add (l : List (F × F)) (x w : F) : (emaOf l).add x w = .ok (emaOf (l ++ [(x, w)])) := by
  rw [Ema.add_ok, emaOf_snoc]

theorem emaOf_update (l : List (F × F)) (a : F × F) (b w : F) :
    (emaOf (l ++ [a])).update b w = .ok (emaOf (l ++ [(b, w)])) := by
  have h := Ema.add_update (emaOf l) a.1 b a.2 w
  rw [emaOf_add, emaOf_add] at h
  simpa [bind, Except.bind] using h

theorem ema_snoc (w : F) (l : List F) (x : F) :
    ema w (l ++ [x]) = if l = [] then x else w *. x +. (lit F 1 -. w) *. ema w l := by
  cases l with
  | nil => rfl
  | cons a l => simp [ema]

theorem emaOf_const (w : F) (l : List F) : (emaOf (l.map (fun x => (x, w)))).current = ema w l := by
  induction l using List.reverseRecOn with
  | nil => rfl
  | append_singleton l x ih =>
    rw [List.map_append, List.map_singleton, emaOf_snoc, ema_snoc, ← ih, emaOf_num]
    simp

/-! ## C42 -/

theorem ema_step (w : F) (full : List (OhlcTick F)) (e : TickEvent F) (full' : List (OhlcTick F)) (s : EmaState F)
    (h : EvStep 1 full e full')
    (hs : s = ⟨w, emaOf ((full.reverse.map (·.close)).map (fun x => (x, w)))⟩) :
    ∃ s', EmaInd.onEvent (full'.take 1).reverse s e = .ok s' ∧
      s' = ⟨w, emaOf ((full'.reverse.map (·.close)).map (fun x => (x, w)))⟩ := by
  subst hs
  cases h with
  | added _ x h =>
    have hf : full = [] := List.length_eq_zero_iff.mp (by omega)
    subst hf
    refine ⟨_, ?_, rfl⟩
    simp only [EmaInd.onEvent, assertThat, emaOf_num, bind, Except.bind, pure, Except.pure]
    simp only [List.reverse_nil, List.map_nil, List.length_nil, decide_true, if_true, emaOf_add]
    simp
  | addedRemoved _ r x h hr =>
    refine ⟨_, ?_, rfl⟩
    simp only [EmaInd.onEvent, assertThat, emaOf_num, bind, Except.bind, pure, Except.pure]
    rw [if_pos (by simpa using h)]
    simp only [emaOf_add]
    simp
  | updated rest old new ho =>
    refine ⟨_, ?_, rfl⟩
    simp only [EmaInd.onEvent, assertThat, emaOf_num, bind, Except.bind, pure, Except.pure]
    rw [if_pos (by simp)]
    simp only [List.reverse_cons, List.map_append, List.map_singleton, emaOf_update]

/-- **C42**, for all floats: after feeding any sorted history, `GetExponentialMovingAverage` is the exponential
average (weight `smoothing / (1 + length)`) of the closes of the aggregated history, and `GetNumOhlcTicks` their
number. -/
theorem C42_ema (smoothing : F) (length period : ℤ) (hP : 0 < period) (l : List (OhlcTick F)) (hl : Feedable l) :
    ∃ s, emaIndAfter smoothing length period l = .ok s ∧
      EmaInd.get s = ema (smoothing /. (lit F 1 +. lit F length)) ((aggregate period l).map (·.close)) ∧
      EmaInd.numTicks s = (aggregate period l).length := by
  set w := smoothing /. (lit F 1 +. lit F length) with hw
  obtain ⟨s, h1, h2⟩ := Indicator.run_inv (n := 1) (P := period) Nat.one_pos hP EmaInd.onEvent
    (fun full s => s = ⟨w, emaOf ((full.reverse.map (·.close)).map (fun x => (x, w)))⟩)
    (fun full e full' s => ema_step w full e full' s) ⟨w, Ema.make⟩ rfl l hl.1 hl.2
  refine ⟨⟨⟨1, period, (aggregate period l).reverse.take 1⟩, s⟩, ?_, ?_, ?_⟩
  · simp only [emaIndAfter, indAfter, EmaInd.make, lastN_make 1 period (by norm_num) hP, bind, Except.bind, pure,
      Except.pure]
    exact h1
  · simp only [EmaInd.get, h2, List.reverse_reverse, emaOf_const]
  · simp only [EmaInd.numTicks, h2, List.reverse_reverse, emaOf_num, List.length_map]

/-! ## C49 -/

/-- The MACD state for the closes `cs`. -/
def macdOf (wf ws wg : F) (cs : List F) : MacdState F where
  num := cs.length
  fastWeight := wf
  slowWeight := ws
  signalWeight := wg
  fast := emaOf (cs.map (fun x => (x, wf)))
  slow := emaOf (cs.map (fun x => (x, ws)))
  signal := emaOf ((macdSeries wf ws cs).map (fun x => (x, wg)))

theorem macdSeries_snoc (wf ws : F) (cs : List F) (c : F) :
    macdSeries wf ws (cs ++ [c]) = macdSeries wf ws cs ++ [ema wf (cs ++ [c]) -. ema ws (cs ++ [c])] := by
  unfold macdSeries; rw [prefixes_snoc]; simp

theorem macd_new (wf ws wg : F) (cs : List F) (t : OhlcTick F) :
    Macd.newTickAdded (macdOf wf ws wg cs) t = .ok (macdOf wf ws wg (cs ++ [t.close])) := by
  simp only [Macd.newTickAdded, macdOf, emaOf_add, bind, Except.bind, pure, Except.pure, Macd.series]
  simp only [List.map_append, List.map_singleton, macdSeries_snoc, List.length_append, List.length_singleton]
  have h1 := emaOf_const wf (cs ++ [t.close])
  have h2 := emaOf_const ws (cs ++ [t.close])
  rw [List.map_append, List.map_singleton] at h1 h2
  rw [h1, h2]

theorem macd_upd (wf ws wg : F) (cs : List F) (c : F) (t : OhlcTick F) :
    Macd.lastTickUpdated (macdOf wf ws wg (cs ++ [c])) t = .ok (macdOf wf ws wg (cs ++ [t.close])) := by
  simp only [Macd.lastTickUpdated, macdOf, List.map_append, List.map_singleton, macdSeries_snoc, emaOf_update, bind,
    Except.bind, pure, Except.pure, Macd.series]
  simp only [List.length_append, List.length_singleton]
  have h1 := emaOf_const wf (cs ++ [t.close])
  have h2 := emaOf_const ws (cs ++ [t.close])
  rw [List.map_append, List.map_singleton] at h1 h2
  rw [h1, h2]

/-- **C49**, for all floats: fast, slow and signal are the exponential averages (weights `2 / (1 + length)`) of the
closes resp. of the series of their differences; series, divergence and tick count are as documented. -/
theorem C49_macd (fast slow signal period : ℤ) (hP : 0 < period) (l : List (OhlcTick F)) (hl : Feedable l) :
    ∃ s, macdAfter fast slow signal period l = .ok s ∧
      let weight : ℤ → F := fun n => lit F 2 /. (lit F 1 +. lit F n)
      let closes := (aggregate period l).map (·.close)
      s.state.fast.current = ema (weight fast) closes ∧
      s.state.slow.current = ema (weight slow) closes ∧
      Macd.series s.state = ema (weight fast) closes -. ema (weight slow) closes ∧
      Macd.signal s.state = ema (weight signal) (macdSeries (weight fast) (weight slow) closes) ∧
      Macd.divergence s.state = Macd.series s.state -. Macd.signal s.state ∧
      s.state.num = (aggregate period l).length := by
  set wf : F := lit F 2 /. (lit F 1 +. lit F fast) with hwf
  set ws : F := lit F 2 /. (lit F 1 +. lit F slow) with hws
  set wg : F := lit F 2 /. (lit F 1 +. lit F signal) with hwg
  obtain ⟨s, h1, h2⟩ := Indicator.run_inv (n := 1) (P := period) Nat.one_pos hP Macd.onEvent
    (fun full s => s = macdOf wf ws wg (full.reverse.map (·.close)))
    (fun full e full' s h hs => by
      subst hs
      cases h with
      | added _ x h =>
        have hf : full = [] := List.length_eq_zero_iff.mp (by omega)
        subst hf
        refine ⟨_, ?_, rfl⟩
        have := macd_new wf ws wg [] x
        simp only [Macd.onEvent, assertThat, bind, Except.bind]
        rw [if_pos (by simp [macdOf])]
        simpa using this
      | addedRemoved _ r x h hr =>
        refine ⟨_, ?_, rfl⟩
        simp only [Macd.onEvent, assertThat, bind, Except.bind]
        rw [if_pos (by simpa [macdOf] using h)]
        simp [macd_new]
      | updated rest old new ho =>
        refine ⟨_, ?_, rfl⟩
        simp only [Macd.onEvent, assertThat, bind, Except.bind]
        rw [if_pos (by simp [macdOf])]
        simp [macd_upd])
    (macdOf wf ws wg []) rfl l hl.1 hl.2
  refine ⟨⟨⟨1, period, (aggregate period l).reverse.take 1⟩, s⟩, ?_, ?_⟩
  · simp only [macdAfter, indAfter, Macd.make, lastN_make 1 period (by norm_num) hP, bind, Except.bind, pure,
      Except.pure]
    exact h1
  · rw [List.reverse_reverse] at h2
    subst h2
    refine ⟨emaOf_const _ _, emaOf_const _ _, ?_, emaOf_const _ _, rfl, by simp [macdOf]⟩
    simp only [Macd.series, macdOf, emaOf_const]
    rfl

end general

end Verif.Props
