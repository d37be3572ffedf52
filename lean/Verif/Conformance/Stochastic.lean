import Verif.Conformance.Prelude
import Verif.Conformance.Indicators

/-!
# indicators/stochastic_oscillator_test.cc, translated

Generated by tools/gen_conformance.py.
-/

namespace Verif.Conformance
open Verif FloatOps
set_option linter.unusedVariables false
set_option linter.style.longLine false

/-- indicators/stochastic_oscillator_test.cc 11 `StochasticOscillatorTest.GetSOWhenAdding8HourOhlcTicks`. -/
def StochasticOscillatorTest_GetSOWhenAdding8HourOhlcTicks : Bool :=
  let ok := true
  let ok := ok && exampleHistory.2
  let history := exampleHistory.1
  let r := So.make (F := F32) (2) (86400)
  let ok := ok && isOk r
  let ind := okOr r defaultSo
  let ok := ok && almost (So.getLow ind.state) (f (0))
  let ok := ok && almost (So.getHigh ind.state) (f (0))
  let ok := ok && almost (ind.state.k) (f (0))
  let ok := ok && almost (So.getFastD ind.state) (f (0))
  let ok := ok && almost (So.getSlowD ind.state) (f (0))
  let ok := ok && ((ind.state.num : ℕ) : ℤ) == 0
  let r := ind.update So.onEvent (tickAt history 0)
  let ok := ok && isOk r
  let ind := okOr r ind
  let ok := ok && almost (So.getLow ind.state) (f (80))
  let ok := ok && almost (So.getHigh ind.state) (f (150))
  let ok := ok && almost (ind.state.k) (((f (100)) *. ((f (120)) -. (f (80)))) /. ((f (150)) -. (f (80))))
  let ok := ok && almost (So.getFastD ind.state) (((f (100)) *. ((f (120)) -. (f (80)))) /. ((f (150)) -. (f (80))))
  let ok := ok && almost (So.getSlowD ind.state) (((f (100)) *. ((f (120)) -. (f (80)))) /. ((f (150)) -. (f (80))))
  let ok := ok && ((ind.state.num : ℕ) : ℤ) == 1
  let r := ind.update So.onEvent (tickAt history 1)
  let ok := ok && isOk r
  let ind := okOr r ind
  let ok := ok && almost (So.getLow ind.state) (f (80))
  let ok := ok && almost (So.getHigh ind.state) (f (180))
  let ok := ok && almost (ind.state.k) (((f (100)) *. ((f (150)) -. (f (80)))) /. ((f (180)) -. (f (80))))
  let ok := ok && almost (So.getFastD ind.state) (((f (100)) *. ((f (150)) -. (f (80)))) /. ((f (180)) -. (f (80))))
  let ok := ok && almost (So.getSlowD ind.state) (((f (100)) *. ((f (150)) -. (f (80)))) /. ((f (180)) -. (f (80))))
  let ok := ok && ((ind.state.num : ℕ) : ℤ) == 1
  let r := ind.update So.onEvent (tickAt history 2)
  let ok := ok && isOk r
  let ind := okOr r ind
  let ok := ok && almost (So.getLow ind.state) (f (80))
  let ok := ok && almost (So.getHigh ind.state) (f (250))
  let ok := ok && almost (ind.state.k) (((f (100)) *. ((f (140)) -. (f (80)))) /. ((f (250)) -. (f (80))))
  let ok := ok && almost (So.getFastD ind.state) (((f (100)) *. ((f (140)) -. (f (80)))) /. ((f (250)) -. (f (80))))
  let ok := ok && almost (So.getSlowD ind.state) (((f (100)) *. ((f (140)) -. (f (80)))) /. ((f (250)) -. (f (80))))
  let ok := ok && ((ind.state.num : ℕ) : ℤ) == 1
  let r := ind.update So.onEvent (tickAt history 3)
  let ok := ok && isOk r
  let ind := okOr r ind
  let ok := ok && almost (So.getLow ind.state) (f (80))
  let ok := ok && almost (So.getHigh ind.state) (f (250))
  let new_k_1 : F32 := (((f (100)) *. ((f (100)) -. (f (80)))) /. ((f (250)) -. (f (80))))
  let ok := ok && almost (ind.state.k) new_k_1
  let new_fast_d_2 : F32 := (((((f (100)) *. ((f (140)) -. (f (80)))) /. ((f (250)) -. (f (80)))) +. new_k_1) /. (f (2)))
  let ok := ok && almost (So.getFastD ind.state) new_fast_d_2
  let ok := ok && almost (So.getSlowD ind.state) (((((f (100)) *. ((f (140)) -. (f (80)))) /. ((f (250)) -. (f (80)))) +. new_fast_d_2) /. (f (2)))
  let ok := ok && ((ind.state.num : ℕ) : ℤ) == 2
  let r := ind.update So.onEvent (tickAt history 4)
  let ok := ok && isOk r
  let ind := okOr r ind
  let ok := ok && almost (So.getLow ind.state) (f (20))
  let ok := ok && almost (So.getHigh ind.state) (f (250))
  let new_k_3 : F32 := (((f (100)) *. ((f (50)) -. (f (20)))) /. ((f (250)) -. (f (20))))
  let ok := ok && almost (ind.state.k) new_k_3
  let new_fast_d_4 : F32 := (((((f (100)) *. ((f (140)) -. (f (80)))) /. ((f (250)) -. (f (80)))) +. new_k_3) /. (f (2)))
  let ok := ok && almost (So.getFastD ind.state) new_fast_d_4
  let ok := ok && almost (So.getSlowD ind.state) (((((f (100)) *. ((f (140)) -. (f (80)))) /. ((f (250)) -. (f (80)))) +. new_fast_d_4) /. (f (2)))
  let ok := ok && ((ind.state.num : ℕ) : ℤ) == 2
  let r := ind.update So.onEvent (tickAt history 5)
  let ok := ok && isOk r
  let ind := okOr r ind
  let ok := ok && almost (So.getLow ind.state) (f (20))
  let ok := ok && almost (So.getHigh ind.state) (f (250))
  let new_k_5 : F32 := (((f (100)) *. ((f (80)) -. (f (20)))) /. ((f (250)) -. (f (20))))
  let ok := ok && almost (ind.state.k) new_k_5
  let new_fast_d_6 : F32 := (((((f (100)) *. ((f (140)) -. (f (80)))) /. ((f (250)) -. (f (80)))) +. new_k_5) /. (f (2)))
  let ok := ok && almost (So.getFastD ind.state) new_fast_d_6
  let ok := ok && almost (So.getSlowD ind.state) (((((f (100)) *. ((f (140)) -. (f (80)))) /. ((f (250)) -. (f (80)))) +. new_fast_d_6) /. (f (2)))
  let ok := ok && ((ind.state.num : ℕ) : ℤ) == 2
  let r := ind.update So.onEvent (tickAt history 6)
  let ok := ok && isOk r
  let ind := okOr r ind
  let ok := ok && almost (So.getLow ind.state) (f (20))
  let ok := ok && almost (So.getHigh ind.state) (f (180))
  let new_k_7 : F32 := (((f (100)) *. ((f (150)) -. (f (20)))) /. ((f (180)) -. (f (20))))
  let ok := ok && almost (ind.state.k) new_k_7
  let new_fast_d_8 : F32 := ((((((f (100)) *. ((f (140)) -. (f (80)))) /. ((f (250)) -. (f (80)))) +. (((f (100)) *. ((f (80)) -. (f (20)))) /. ((f (250)) -. (f (20))))) +. new_k_7) /. (f (3)))
  let ok := ok && almost (So.getFastD ind.state) new_fast_d_8
  let ok := ok && almost (So.getSlowD ind.state) ((((((f (100)) *. ((f (140)) -. (f (80)))) /. ((f (250)) -. (f (80)))) +. (((((f (100)) *. ((f (140)) -. (f (80)))) /. ((f (250)) -. (f (80)))) +. (((f (100)) *. ((f (80)) -. (f (20)))) /. ((f (250)) -. (f (20))))) /. (f (2)))) +. new_fast_d_8) /. (f (3)))
  let ok := ok && ((ind.state.num : ℕ) : ℤ) == 3
  let r := ind.update So.onEvent (tickAt history 7)
  let ok := ok && isOk r
  let ind := okOr r ind
  let ok := ok && almost (So.getLow ind.state) (f (20))
  let ok := ok && almost (So.getHigh ind.state) (f (250))
  let new_k_9 : F32 := (((f (100)) *. ((f (240)) -. (f (20)))) /. ((f (250)) -. (f (20))))
  let ok := ok && almost (ind.state.k) new_k_9
  let new_fast_d_10 : F32 := ((((((f (100)) *. ((f (140)) -. (f (80)))) /. ((f (250)) -. (f (80)))) +. (((f (100)) *. ((f (80)) -. (f (20)))) /. ((f (250)) -. (f (20))))) +. new_k_9) /. (f (3)))
  let ok := ok && almost (So.getFastD ind.state) new_fast_d_10
  let ok := ok && almost (So.getSlowD ind.state) ((((((f (100)) *. ((f (140)) -. (f (80)))) /. ((f (250)) -. (f (80)))) +. (((((f (100)) *. ((f (140)) -. (f (80)))) /. ((f (250)) -. (f (80)))) +. (((f (100)) *. ((f (80)) -. (f (20)))) /. ((f (250)) -. (f (20))))) /. (f (2)))) +. new_fast_d_10) /. (f (3)))
  let ok := ok && ((ind.state.num : ℕ) : ℤ) == 3
  let r := ind.update So.onEvent (tickAt history 8)
  let ok := ok && isOk r
  let ind := okOr r ind
  let ok := ok && almost (So.getLow ind.state) (f (20))
  let ok := ok && almost (So.getHigh ind.state) (f (450))
  let new_k_11 : F32 := (((f (100)) *. ((f (400)) -. (f (20)))) /. ((f (450)) -. (f (20))))
  let ok := ok && almost (ind.state.k) new_k_11
  let new_fast_d_12 : F32 := ((((((f (100)) *. ((f (140)) -. (f (80)))) /. ((f (250)) -. (f (80)))) +. (((f (100)) *. ((f (80)) -. (f (20)))) /. ((f (250)) -. (f (20))))) +. new_k_11) /. (f (3)))
  let ok := ok && almost (So.getFastD ind.state) new_fast_d_12
  let ok := ok && almost (So.getSlowD ind.state) ((((((f (100)) *. ((f (140)) -. (f (80)))) /. ((f (250)) -. (f (80)))) +. (((((f (100)) *. ((f (140)) -. (f (80)))) /. ((f (250)) -. (f (80)))) +. (((f (100)) *. ((f (80)) -. (f (20)))) /. ((f (250)) -. (f (20))))) /. (f (2)))) +. new_fast_d_12) /. (f (3)))
  let ok := ok && ((ind.state.num : ℕ) : ℤ) == 3
  let r := ind.update So.onEvent (tickAt history 9)
  let ok := ok && isOk r
  let ind := okOr r ind
  let ok := ok && almost (So.getLow ind.state) (f (50))
  let ok := ok && almost (So.getHigh ind.state) (f (450))
  let new_k_13 : F32 := (((f (100)) *. ((f (300)) -. (f (50)))) /. ((f (450)) -. (f (50))))
  let ok := ok && almost (ind.state.k) new_k_13
  let new_fast_d_14 : F32 := ((((((f (100)) *. ((f (80)) -. (f (20)))) /. ((f (250)) -. (f (20)))) +. (((f (100)) *. ((f (400)) -. (f (20)))) /. ((f (450)) -. (f (20))))) +. new_k_13) /. (f (3)))
  let ok := ok && almost (So.getFastD ind.state) new_fast_d_14
  let ok := ok && almost (So.getSlowD ind.state) ((((((((f (100)) *. ((f (140)) -. (f (80)))) /. ((f (250)) -. (f (80)))) +. (((f (100)) *. ((f (80)) -. (f (20)))) /. ((f (250)) -. (f (20))))) /. (f (2))) +. ((((((f (100)) *. ((f (140)) -. (f (80)))) /. ((f (250)) -. (f (80)))) +. (((f (100)) *. ((f (80)) -. (f (20)))) /. ((f (250)) -. (f (20))))) +. (((f (100)) *. ((f (400)) -. (f (20)))) /. ((f (450)) -. (f (20))))) /. (f (3)))) +. new_fast_d_14) /. (f (3)))
  let ok := ok && ((ind.state.num : ℕ) : ℤ) == 4
  let r := ind.update So.onEvent (tickAt history 10)
  let ok := ok && isOk r
  let ind := okOr r ind
  let ok := ok && almost (So.getLow ind.state) (f (50))
  let ok := ok && almost (So.getHigh ind.state) (f (700))
  let new_k_15 : F32 := (((f (100)) *. ((f (650)) -. (f (50)))) /. ((f (700)) -. (f (50))))
  let ok := ok && almost (ind.state.k) new_k_15
  let new_fast_d_16 : F32 := ((((((f (100)) *. ((f (80)) -. (f (20)))) /. ((f (250)) -. (f (20)))) +. (((f (100)) *. ((f (400)) -. (f (20)))) /. ((f (450)) -. (f (20))))) +. new_k_15) /. (f (3)))
  let ok := ok && almost (So.getFastD ind.state) new_fast_d_16
  let ok := ok && almost (So.getSlowD ind.state) ((((((((f (100)) *. ((f (140)) -. (f (80)))) /. ((f (250)) -. (f (80)))) +. (((f (100)) *. ((f (80)) -. (f (20)))) /. ((f (250)) -. (f (20))))) /. (f (2))) +. ((((((f (100)) *. ((f (140)) -. (f (80)))) /. ((f (250)) -. (f (80)))) +. (((f (100)) *. ((f (80)) -. (f (20)))) /. ((f (250)) -. (f (20))))) +. (((f (100)) *. ((f (400)) -. (f (20)))) /. ((f (450)) -. (f (20))))) /. (f (3)))) +. new_fast_d_16) /. (f (3)))
  let ok := ok && ((ind.state.num : ℕ) : ℤ) == 4
  let r := ind.update So.onEvent (tickAt history 11)
  let ok := ok && isOk r
  let ind := okOr r ind
  let ok := ok && almost (So.getLow ind.state) (f (600))
  let ok := ok && almost (So.getHigh ind.state) (f (800))
  let new_k_17 : F32 := (((f (100)) *. ((f (750)) -. (f (600)))) /. ((f (800)) -. (f (600))))
  let ok := ok && almost (ind.state.k) new_k_17
  let new_fast_d_18 : F32 := ((((((f (100)) *. ((f (650)) -. (f (50)))) /. ((f (700)) -. (f (50)))) +. (((f (100)) *. ((f (650)) -. (f (220)))) /. ((f (700)) -. (f (220))))) +. new_k_17) /. (f (3)))
  let ok := ok && almost (So.getFastD ind.state) new_fast_d_18
  let ok := ok && almost (So.getSlowD ind.state) (((((((((f (100)) *. ((f (80)) -. (f (20)))) /. ((f (250)) -. (f (20)))) +. (((f (100)) *. ((f (400)) -. (f (20)))) /. ((f (450)) -. (f (20))))) +. (((f (100)) *. ((f (650)) -. (f (50)))) /. ((f (700)) -. (f (50))))) /. (f (3))) +. ((((((f (100)) *. ((f (400)) -. (f (20)))) /. ((f (450)) -. (f (20)))) +. (((f (100)) *. ((f (650)) -. (f (50)))) /. ((f (700)) -. (f (50))))) +. (((f (100)) *. ((f (650)) -. (f (220)))) /. ((f (700)) -. (f (220))))) /. (f (3)))) +. new_fast_d_18) /. (f (3)))
  let ok := ok && ((ind.state.num : ℕ) : ℤ) == 6
  ok

example : StochasticOscillatorTest_GetSOWhenAdding8HourOhlcTicks = true := by decide +kernel

end Verif.Conformance
