import Verif.Model.LastN
import Verif.Model.IndicatorUtil

/-!
# The indicators: indicators/*.cc

Each indicator owns a `LastNOhlcTicks` and registers three callbacks.  An indicator is modelled by a state `σ`
holding everything but the tick window, and a function `onEvent` giving the effect of one callback.  The callbacks
of `RelativeStrengthIndex` also read the tick window; they receive `deque`, the window at the time of the call
(the window after the event, indicators/last_n_ohlc_ticks.cc 64-83).
-/

namespace Verif
open FloatOps

variable {F D : Type} [FloatOps F] [FloatOps D] [Wide F D]

/-- The tick window (oldest first) right after the change reported by a callback.
(`GetLastNOhlcTicks`, indicators/last_n_ohlc_ticks.cc 24-26, as called from a callback.) -/
def windowAfter (deque : List (OhlcTick F)) : TickEvent F → List (OhlcTick F)
  | .added x => deque ++ [x]
  | .addedRemoved _ x => deque.tail ++ [x]
  | .updated _ x => deque.dropLast ++ [x]

/-- An indicator: its tick window and its own state.  (indicators/last_n_ohlc_ticks.h 65-68 and the members of the indicator.) -/
structure Indicator (F σ : Type) where
  window : LastN F
  state : σ

namespace Indicator
variable {σ : Type}

/-- The callbacks made by one `LastNOhlcTicks::Update`, in order.  (indicators/last_n_ohlc_ticks.cc 28-84.) -/
def callbacks (onEvent : List (OhlcTick F) → σ → TickEvent F → Res σ) :
    List (OhlcTick F) → σ → List (TickEvent F) → Res σ
  | _, s, [] => .ok s
  | deque, s, e :: es => do
    let s ← onEvent (windowAfter deque e) s e
    callbacks onEvent (windowAfter deque e) s es

/-- `Update(ohlc_tick)` of every indicator: indicators/simple_moving_average.cc 36-38, indicators/exponential_moving_average.cc 42-44,
indicators/moving_average_convergence_divergence.cc 61-63, indicators/relative_strength_index.cc 57-59, indicators/stochastic_oscillator.cc 51-53. -/
def update (onEvent : List (OhlcTick F) → σ → TickEvent F → Res σ) (ind : Indicator F σ) (t : OhlcTick F) :
    Res (Indicator F σ) := do
  let (w, events) ← ind.window.update t
  let s ← callbacks onEvent ind.window.ticks ind.state events
  return ⟨w, s⟩

end Indicator

/-- indicators/simple_moving_average.h 41-44: `sum_close_price_`. -/
abbrev SmaState (F : Type) := F

namespace Sma

/-- indicators/simple_moving_average.cc 10-21, the three callbacks. -/
def onEvent (_ : List (OhlcTick F)) (sum : SmaState F) : TickEvent F → Res (SmaState F)
  | .updated old new => .ok (sum +. (new.close -. old.close))
  | .added new => .ok (sum +. new.close)
  | .addedRemoved removed new => .ok (sum +. (new.close -. removed.close))

/-- indicators/simple_moving_average.cc 7-9. -/
def make (numTicks period : ℤ) : Res (Indicator F (SmaState F)) := return ⟨← LastN.make numTicks period, lit F 0⟩

/-- indicators/simple_moving_average.cc 32-34 `GetNumOhlcTicks`. -/
def numTicks (s : Indicator F (SmaState F)) : ℕ := s.window.ticks.length

/-- indicators/simple_moving_average.cc 24-30 `GetSimpleMovingAverage`. -/
def get (s : Indicator F (SmaState F)) : F :=
  if numTicks s = 0 then lit F 0 else s.state /. lit F (numTicks s : ℚ)

end Sma

/-- indicators/exponential_moving_average.h 41-47. -/
structure EmaState (F : Type) where
  weight : F
  helper : Ema F

namespace EmaInd

/-- indicators/exponential_moving_average.cc 12-31, the three callbacks. -/
def onEvent (_ : List (OhlcTick F)) (s : EmaState F) : TickEvent F → Res (EmaState F)
  | .updated _ new => do
    assertThat (decide (s.helper.num ≥ 1))
    return { s with helper := ← s.helper.update new.close s.weight }
  | .added new => do
    assertThat (decide (s.helper.num = 0))
    return { s with helper := ← s.helper.add new.close s.weight }
  | .addedRemoved _ new => do
    assertThat (decide (s.helper.num ≥ 1))
    return { s with helper := ← s.helper.add new.close s.weight }

/-- indicators/exponential_moving_average.cc 7-11. -/
def make (smoothing : F) (length period : ℤ) : Res (Indicator F (EmaState F)) :=
  return ⟨← LastN.make 1 period, ⟨smoothing /. (lit F 1 +. lit F length), Ema.make⟩⟩

/-- indicators/exponential_moving_average.cc 34-36. -/
def get (s : Indicator F (EmaState F)) : F := s.state.helper.current

/-- indicators/exponential_moving_average.cc 38-40. -/
def numTicks (s : Indicator F (EmaState F)) : ℕ := s.state.helper.num

end EmaInd

/-- indicators/moving_average_convergence_divergence.h 57-74. -/
structure MacdState (F : Type) where
  num : ℕ
  fastWeight : F
  slowWeight : F
  signalWeight : F
  fast : Ema F
  slow : Ema F
  signal : Ema F

namespace Macd

/-- indicators/moving_average_convergence_divergence.cc 45-47 `GetMACDSeries`. -/
def series (s : MacdState F) : F := s.fast.current -. s.slow.current

/-- indicators/moving_average_convergence_divergence.cc 49-51. -/
def signal (s : MacdState F) : F := s.signal.current

/-- indicators/moving_average_convergence_divergence.cc 53-55. -/
def divergence (s : MacdState F) : F := series s -. signal s

/-- indicators/moving_average_convergence_divergence.cc 65-70. -/
def lastTickUpdated (s : MacdState F) (t : OhlcTick F) : Res (MacdState F) := do
  let fast ← s.fast.update t.close s.fastWeight
  let slow ← s.slow.update t.close s.slowWeight
  let s := { s with fast := fast, slow := slow }
  let sig ← s.signal.update (series s) s.signalWeight
  return { s with signal := sig }

/-- indicators/moving_average_convergence_divergence.cc 72-78. -/
def newTickAdded (s : MacdState F) (t : OhlcTick F) : Res (MacdState F) := do
  let fast ← s.fast.add t.close s.fastWeight
  let slow ← s.slow.add t.close s.slowWeight
  let s := { s with num := s.num + 1, fast := fast, slow := slow }
  let sig ← s.signal.add (series s) s.signalWeight
  return { s with signal := sig }

/-- indicators/moving_average_convergence_divergence.cc 13-32, the three callbacks. -/
def onEvent (_ : List (OhlcTick F)) (s : MacdState F) : TickEvent F → Res (MacdState F)
  | .updated _ new => do assertThat (decide (s.num ≥ 1)); lastTickUpdated s new
  | .added new => do assertThat (decide (s.num = 0)); newTickAdded s new
  | .addedRemoved _ new => do assertThat (decide (s.num ≥ 1)); newTickAdded s new

/-- indicators/moving_average_convergence_divergence.cc 7-12. -/
def make (fast slow signal period : ℤ) : Res (Indicator F (MacdState F)) :=
  return ⟨← LastN.make 1 period,
    ⟨0, lit F 2 /. (lit F 1 +. lit F fast), lit F 2 /. (lit F 1 +. lit F slow),
      lit F 2 /. (lit F 1 +. lit F signal), Ema.make, Ema.make, Ema.make⟩⟩

end Macd

/-- indicators/relative_strength_index.h 54-65. -/
structure RsiState (F : Type) where
  numPeriods : ℤ
  num : ℕ
  up : Ema F
  down : Ema F

namespace Rsi

/-- indicators/relative_strength_index.cc 76-78 `GetModifiedMovingAverageWeight`. -/
def weight (s : RsiState F) : F := lit F 1 /. lit F (min (s.num : ℤ) s.numPeriods : ℤ)

/-- indicators/relative_strength_index.cc 80-107 `GetUpwardDownwardChange`. -/
def change (deque : List (OhlcTick F)) : Res (F × F) :=
  match deque with
  | [t] => if t.close >=. t.opn then .ok (t.close -. t.opn, lit F 0) else .ok (lit F 0, t.opn -. t.close)
  | [p, t] =>
    if t.close >=. p.close then .ok (t.close -. p.close, lit F 0) else .ok (lit F 0, p.close -. t.close)
  | _ => .error .assertion

/-- indicators/relative_strength_index.cc 61-66 `LastTickUpdated`. -/
def lastTickUpdated (deque : List (OhlcTick F)) (s : RsiState F) : Res (RsiState F) := do
  let c ← change deque
  let up ← s.up.update c.1 (weight s)
  let down ← s.down.update c.2 (weight s)
  return { s with up := up, down := down }

/-- indicators/relative_strength_index.cc 68-74 `NewTickAdded`. -/
def newTickAdded (deque : List (OhlcTick F)) (s : RsiState F) : Res (RsiState F) := do
  let s := { s with num := s.num + 1 }
  let c ← change deque
  let up ← s.up.add c.1 (weight s)
  let down ← s.down.add c.2 (weight s)
  return { s with up := up, down := down }

/-- indicators/relative_strength_index.cc 11-30, the three callbacks. -/
def onEvent (deque : List (OhlcTick F)) (s : RsiState F) : TickEvent F → Res (RsiState F)
  | .updated _ _ => do assertThat (decide (s.num ≥ 1)); lastTickUpdated deque s
  | .added _ => do assertThat (decide (s.num ≤ 1)); newTickAdded deque s
  | .addedRemoved _ _ => do assertThat (decide (s.num ≥ 2)); newTickAdded deque s

/-- indicators/relative_strength_index.cc 7-10. -/
def make (numPeriods period : ℤ) : Res (Indicator F (RsiState F)) :=
  return ⟨← LastN.make 2 period, ⟨numPeriods, 0, Ema.make, Ema.make⟩⟩

/-- indicators/relative_strength_index.cc 41-53 `GetRelativeStrengthIndex`. -/
def get (s : RsiState F) : F :=
  let u := s.up.current
  let d := s.down.current
  if u <. lit F (1 / 10 ^ 6) && d <. lit F (1 / 10 ^ 6) then lit F 50
  else if d <. u *. lit F (1 / 10 ^ 6) then lit F 100
  else lit F 100 -. lit F 100 /. (lit F 1 +. u /. d)

end Rsi

/-- indicators/stochastic_oscillator.h 57-70. -/
structure SoState (F : Type) where
  num : ℕ
  k : F
  min : SlidingMin F
  max : SlidingMax F
  dFast : MeanVar F
  dSlow : MeanVar F

namespace So

/-- indicators/stochastic_oscillator.cc 35-37 `GetLow`. -/
def getLow (s : SoState F) : F := s.min.get

/-- indicators/stochastic_oscillator.cc 39-41 `GetHigh`. -/
def getHigh (s : SoState F) : F := s.max.get

/-- indicators/stochastic_oscillator.cc 45 `GetFastD`. -/
def getFastD (s : SoState F) : F := s.dFast.getMean

/-- indicators/stochastic_oscillator.cc 47 `GetSlowD`. -/
def getSlowD (s : SoState F) : F := s.dSlow.getMean

/-- indicators/stochastic_oscillator.cc 72-82 `UpdateK`. -/
def updateK (s : SoState F) (price : F) : Res (SoState F) := do
  assertThat (decide (s.num ≥ 1))
  let lo := s.min.get
  let hi := s.max.get
  let span := hi -. lo
  if span <. lit F (1 / 10 ^ 6) then return { s with k := lit F 50 }
  else return { s with k := lit F 100 *. (price -. lo) /. span }

/-- indicators/stochastic_oscillator.cc 55-61 `LastTickUpdated`. -/
def lastTickUpdated (s : SoState F) (t : OhlcTick F) : Res (SoState F) := do
  let mn ← s.min.update t.low
  let mx ← s.max.update t.high
  let s ← updateK { s with min := mn, max := mx } t.close
  let df ← s.dFast.update s.k
  let ds ← s.dSlow.update df.getMean
  return { s with dFast := df, dSlow := ds }

/-- indicators/stochastic_oscillator.cc 63-70 `NewTickAdded`. -/
def newTickAdded (s : SoState F) (t : OhlcTick F) : Res (SoState F) := do
  let mn ← s.min.add t.low
  let mx ← s.max.add t.high
  let s ← updateK { s with num := s.num + 1, min := mn, max := mx } t.close
  let df := s.dFast.add s.k
  let ds := s.dSlow.add df.getMean
  return { s with dFast := df, dSlow := ds }

/-- indicators/stochastic_oscillator.cc 13-32, the three callbacks. -/
def onEvent (_ : List (OhlcTick F)) (s : SoState F) : TickEvent F → Res (SoState F)
  | .updated _ new => do assertThat (decide (s.num ≥ 1)); lastTickUpdated s new
  | .added new => do assertThat (decide (s.num = 0)); newTickAdded s new
  | .addedRemoved _ new => do assertThat (decide (s.num ≥ 1)); newTickAdded s new

/-- indicators/stochastic_oscillator.cc 7-12. -/
def make (numPeriods period : ℤ) : Res (Indicator F (SoState F)) := do
  let w ← LastN.make 1 period
  let mn ← SlidingMin.make numPeriods
  let mx ← SlidingMax.make numPeriods
  return ⟨w, ⟨0, lit F 0, mn, mx, MeanVar.make 3, MeanVar.make 3⟩⟩

end So

/-- indicators/volatility.h 38-55: the state besides the tick window.  `portfolio` is the deque, oldest value first. -/
structure VolState (F : Type) where
  base : F
  quote : F
  portfolio : List F
  num : ℕ
  variance : MeanVar F

namespace Vol

/-- indicators/volatility.cc 64-67 `GetLogarithmicReturn`. -/
def logReturn [Libm F] (portfolio : List F) : Res F :=
  match portfolio with
  | [prev, cur] => .ok (Libm.log (prev /. cur))
  | _ => .error .assertion

/-- `latest_base_balance_ * price + latest_quote_balance_`.  (indicators/volatility.cc 15, 25, 31, 43.) -/
def value (s : VolState F) (price : F) : F := s.base *. price +. s.quote

/-- indicators/volatility.cc 10-17: the most recent tick was updated.  `back()` of an empty deque is undefined behaviour. -/
def onUpdated [Libm F] (s : VolState F) (new : OhlcTick F) : Res (VolState F) := do
  assertThat (decide (s.num ≥ 1))
  if s.portfolio = [] then throw .undefinedBehaviour
  let portfolio := s.portfolio.dropLast ++ [value s new.close]
  let variance ← s.variance.update (← logReturn portfolio)
  return { s with portfolio := portfolio, variance := variance }

/-- indicators/volatility.cc 18-35: the first or second tick was added. -/
def onAdded [Libm F] (s : VolState F) (new : OhlcTick F) : Res (VolState F) := do
  assertThat (decide (s.num ≤ 1))
  let portfolio ← if s.num = 0 then do
      assertThat s.portfolio.isEmpty
      pure [value s new.opn]
    else match s.portfolio with
      | [] => throw .undefinedBehaviour
      | _ :: rest => pure rest
  let portfolio := portfolio ++ [value s new.close]
  let r ← logReturn portfolio
  return { s with portfolio := portfolio, num := s.num + 1, variance := s.variance.add r }

/-- indicators/volatility.cc 36-48: a tick was added and the oldest removed. -/
def onAddedRemoved [Libm F] (s : VolState F) (new : OhlcTick F) : Res (VolState F) := do
  assertThat (decide (s.num ≥ 2))
  let portfolio ← match s.portfolio with
    | [] => throw .undefinedBehaviour
    | _ :: rest => pure rest
  let portfolio := portfolio ++ [value s new.close]
  let r ← logReturn portfolio
  return { s with portfolio := portfolio, num := s.num + 1, variance := s.variance.add r }

/-- indicators/volatility.cc 10-48, the three callbacks. -/
def onEvent [Libm F] (_ : List (OhlcTick F)) (s : VolState F) : TickEvent F → Res (VolState F)
  | .updated _ new => onUpdated s new
  | .added new => onAdded s new
  | .addedRemoved _ new => onAddedRemoved s new

/-- indicators/volatility.cc 7-9, indicators/volatility.h 39-55. -/
def make (windowSize period : ℤ) : Res (Indicator F (VolState F)) :=
  return ⟨← LastN.make 2 period, ⟨lit F 0, lit F 0, [], 0, MeanVar.make windowSize⟩⟩

/-- indicators/volatility.cc 57-62 `Update`. -/
def update [Libm F] (v : Indicator F (VolState F)) (t : OhlcTick F) (base quote : F) :
    Res (Indicator F (VolState F)) :=
  Indicator.update onEvent { v with state := { v.state with base := base, quote := quote } } t

/-- indicators/volatility.cc 51-53 `GetVolatility`. -/
def get [Libm F] (v : Indicator F (VolState F)) : F := v.state.variance.getStdDev

end Vol
end Verif
