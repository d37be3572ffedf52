import Verif.Conformance.Prelude
import Verif.Conformance.Indicators

/-!
# indicators/moving_average_convergence_divergence_test.cc, translated

Generated by tools/gen_conformance.py.
-/

namespace Verif.Conformance
open Verif FloatOps
set_option linter.unusedVariables false
set_option linter.style.longLine false

/-- indicators/moving_average_convergence_divergence_test.cc 11 `MovingAverageConvergenceDivergenceTest.GetMACDWhenAdding8HourOhlcTicks`. -/
def MovingAverageConvergenceDivergenceTest_GetMACDWhenAdding8HourOhlcTicks : Bool :=
  let ok := true
  let ok := ok && exampleHistory.2
  let history := exampleHistory.1
  let r := Macd.make (F := F32) (4) (7) (3) (86400)
  let ok := ok && isOk r
  let ind := okOr r defaultMacd
  let ok := ok && almost (ind.state.fast.current) (f (0))
  let ok := ok && almost (ind.state.slow.current) (f (0))
  let ok := ok && almost (Macd.series ind.state) (f (0))
  let ok := ok && almost (Macd.signal ind.state) (f (0))
  let ok := ok && almost (Macd.divergence ind.state) (f (0))
  let ok := ok && ((ind.state.num : ℕ) : ℤ) == 0
  let r := ind.update Macd.onEvent (tickAt history 0)
  let ok := ok && isOk r
  let ind := okOr r ind
  let ok := ok && almost (ind.state.fast.current) (f (120))
  let ok := ok && almost (ind.state.slow.current) (f (120))
  let ok := ok && almost (Macd.series ind.state) (f (0))
  let ok := ok && almost (Macd.signal ind.state) (f (0))
  let ok := ok && almost (Macd.divergence ind.state) (f (0))
  let ok := ok && ((ind.state.num : ℕ) : ℤ) == 1
  let r := ind.update Macd.onEvent (tickAt history 1)
  let ok := ok && isOk r
  let ind := okOr r ind
  let ok := ok && almost (ind.state.fast.current) (f (150))
  let ok := ok && almost (ind.state.slow.current) (f (150))
  let ok := ok && almost (Macd.series ind.state) (f (0))
  let ok := ok && almost (Macd.signal ind.state) (f (0))
  let ok := ok && almost (Macd.divergence ind.state) (f (0))
  let ok := ok && ((ind.state.num : ℕ) : ℤ) == 1
  let r := ind.update Macd.onEvent (tickAt history 2)
  let ok := ok && isOk r
  let ind := okOr r ind
  let ok := ok && almost (ind.state.fast.current) (f (140))
  let ok := ok && almost (ind.state.slow.current) (f (140))
  let ok := ok && almost (Macd.series ind.state) (f (0))
  let ok := ok && almost (Macd.signal ind.state) (f (0))
  let ok := ok && almost (Macd.divergence ind.state) (f (0))
  let ok := ok && ((ind.state.num : ℕ) : ℤ) == 1
  let r := ind.update Macd.onEvent (tickAt history 3)
  let ok := ok && isOk r
  let ind := okOr r ind
  let ok := ok && almost (ind.state.fast.current) (((f (140)) *. ((f (1)) -. ((f (2)) /. ((f (1)) +. (f (4)))))) +. (((f (100)) *. (f (2))) /. ((f (1)) +. (f (4)))))
  let ok := ok && almost (ind.state.slow.current) (((f (140)) *. ((f (1)) -. ((f (2)) /. ((f (1)) +. (f (7)))))) +. (((f (100)) *. (f (2))) /. ((f (1)) +. (f (7)))))
  let ok := ok && almost (Macd.series ind.state) ((((f (140)) *. ((f (1)) -. ((f (2)) /. ((f (1)) +. (f (4)))))) +. (((f (100)) *. (f (2))) /. ((f (1)) +. (f (4))))) -. (((f (140)) *. ((f (1)) -. ((f (2)) /. ((f (1)) +. (f (7)))))) +. (((f (100)) *. (f (2))) /. ((f (1)) +. (f (7))))))
  let ok := ok && almost (Macd.signal ind.state) (((f (0)) *. ((f (1)) -. ((f (2)) /. ((f (1)) +. (f (3)))))) +. ((((((f (140)) *. ((f (1)) -. ((f (2)) /. ((f (1)) +. (f (4)))))) +. (((f (100)) *. (f (2))) /. ((f (1)) +. (f (4))))) -. (((f (140)) *. ((f (1)) -. ((f (2)) /. ((f (1)) +. (f (7)))))) +. (((f (100)) *. (f (2))) /. ((f (1)) +. (f (7)))))) *. (f (2))) /. ((f (1)) +. (f (3)))))
  let ok := ok && almost (Macd.divergence ind.state) (((((f (140)) *. ((f (1)) -. ((f (2)) /. ((f (1)) +. (f (4)))))) +. (((f (100)) *. (f (2))) /. ((f (1)) +. (f (4))))) -. (((f (140)) *. ((f (1)) -. ((f (2)) /. ((f (1)) +. (f (7)))))) +. (((f (100)) *. (f (2))) /. ((f (1)) +. (f (7)))))) -. (((f (0)) *. ((f (1)) -. ((f (2)) /. ((f (1)) +. (f (3)))))) +. ((((((f (140)) *. ((f (1)) -. ((f (2)) /. ((f (1)) +. (f (4)))))) +. (((f (100)) *. (f (2))) /. ((f (1)) +. (f (4))))) -. (((f (140)) *. ((f (1)) -. ((f (2)) /. ((f (1)) +. (f (7)))))) +. (((f (100)) *. (f (2))) /. ((f (1)) +. (f (7)))))) *. (f (2))) /. ((f (1)) +. (f (3))))))
  let ok := ok && ((ind.state.num : ℕ) : ℤ) == 2
  let r := ind.update Macd.onEvent (tickAt history 4)
  let ok := ok && isOk r
  let ind := okOr r ind
  let ok := ok && almost (ind.state.fast.current) (((f (140)) *. ((f (1)) -. (f (2 / 5)))) +. ((f (50)) *. (f (2 / 5))))
  let ok := ok && almost (ind.state.slow.current) (((f (140)) *. ((f (1)) -. (f (1 / 4)))) +. ((f (50)) *. (f (1 / 4))))
  let ok := ok && almost (Macd.series ind.state) ((((f (140)) *. ((f (1)) -. (f (2 / 5)))) +. ((f (50)) *. (f (2 / 5)))) -. (((f (140)) *. ((f (1)) -. (f (1 / 4)))) +. ((f (50)) *. (f (1 / 4)))))
  let ok := ok && almost (Macd.signal ind.state) (((f (0)) *. (f (1 / 2))) +. (((((f (140)) *. ((f (1)) -. (f (2 / 5)))) +. ((f (50)) *. (f (2 / 5)))) -. (((f (140)) *. ((f (1)) -. (f (1 / 4)))) +. ((f (50)) *. (f (1 / 4))))) *. (f (1 / 2))))
  let ok := ok && almost (Macd.divergence ind.state) (((((f (140)) *. ((f (1)) -. (f (2 / 5)))) +. ((f (50)) *. (f (2 / 5)))) -. (((f (140)) *. ((f (1)) -. (f (1 / 4)))) +. ((f (50)) *. (f (1 / 4))))) -. (((f (0)) *. (f (1 / 2))) +. (((((f (140)) *. ((f (1)) -. (f (2 / 5)))) +. ((f (50)) *. (f (2 / 5)))) -. (((f (140)) *. ((f (1)) -. (f (1 / 4)))) +. ((f (50)) *. (f (1 / 4))))) *. (f (1 / 2)))))
  let ok := ok && ((ind.state.num : ℕ) : ℤ) == 2
  let r := ind.update Macd.onEvent (tickAt history 5)
  let ok := ok && isOk r
  let ind := okOr r ind
  let ok := ok && almost (ind.state.fast.current) (((f (140)) *. ((f (1)) -. (f (2 / 5)))) +. ((f (80)) *. (f (2 / 5))))
  let ok := ok && almost (ind.state.slow.current) (((f (140)) *. ((f (1)) -. (f (1 / 4)))) +. ((f (80)) *. (f (1 / 4))))
  let ok := ok && almost (Macd.series ind.state) ((((f (140)) *. ((f (1)) -. (f (2 / 5)))) +. ((f (80)) *. (f (2 / 5)))) -. (((f (140)) *. ((f (1)) -. (f (1 / 4)))) +. ((f (80)) *. (f (1 / 4)))))
  let ok := ok && almost (Macd.signal ind.state) (((f (0)) *. (f (1 / 2))) +. (((((f (140)) *. ((f (1)) -. (f (2 / 5)))) +. ((f (80)) *. (f (2 / 5)))) -. (((f (140)) *. ((f (1)) -. (f (1 / 4)))) +. ((f (80)) *. (f (1 / 4))))) *. (f (1 / 2))))
  let ok := ok && almost (Macd.divergence ind.state) ((Macd.series ind.state) -. (Macd.signal ind.state))
  let ok := ok && ((ind.state.num : ℕ) : ℤ) == 2
  let r := ind.update Macd.onEvent (tickAt history 6)
  let ok := ok && isOk r
  let ind := okOr r ind
  let ok := ok && almost (ind.state.fast.current) (((f (116)) *. ((f (1)) -. (f (2 / 5)))) +. ((f (150)) *. (f (2 / 5))))
  let ok := ok && almost (ind.state.slow.current) (((f (125)) *. ((f (1)) -. (f (1 / 4)))) +. ((f (150)) *. (f (1 / 4))))
  let ok := ok && almost (Macd.series ind.state) ((((f (116)) *. ((f (1)) -. (f (2 / 5)))) +. ((f (150)) *. (f (2 / 5)))) -. (((f (125)) *. ((f (1)) -. (f (1 / 4)))) +. ((f (150)) *. (f (1 / 4)))))
  let ok := ok && almost (Macd.signal ind.state) (((((f (0)) *. (f (1 / 2))) +. (((f (116)) -. (f (125))) *. (f (1 / 2)))) *. (f (1 / 2))) +. (((((f (116)) *. ((f (1)) -. (f (2 / 5)))) +. ((f (150)) *. (f (2 / 5)))) -. (((f (125)) *. ((f (1)) -. (f (1 / 4)))) +. ((f (150)) *. (f (1 / 4))))) *. (f (1 / 2))))
  let ok := ok && almost (Macd.divergence ind.state) ((Macd.series ind.state) -. (Macd.signal ind.state))
  let ok := ok && ((ind.state.num : ℕ) : ℤ) == 3
  let r := ind.update Macd.onEvent (tickAt history 7)
  let ok := ok && isOk r
  let ind := okOr r ind
  let ok := ok && almost (ind.state.fast.current) (((f (116)) *. ((f (1)) -. (f (2 / 5)))) +. ((f (240)) *. (f (2 / 5))))
  let ok := ok && almost (ind.state.slow.current) (((f (125)) *. ((f (1)) -. (f (1 / 4)))) +. ((f (240)) *. (f (1 / 4))))
  let ok := ok && almost (Macd.series ind.state) ((((f (116)) *. ((f (1)) -. (f (2 / 5)))) +. ((f (240)) *. (f (2 / 5)))) -. (((f (125)) *. ((f (1)) -. (f (1 / 4)))) +. ((f (240)) *. (f (1 / 4)))))
  let ok := ok && almost (Macd.signal ind.state) (((((f (0)) *. (f (1 / 2))) +. (((f (116)) -. (f (125))) *. (f (1 / 2)))) *. (f (1 / 2))) +. (((((f (116)) *. ((f (1)) -. (f (2 / 5)))) +. ((f (240)) *. (f (2 / 5)))) -. (((f (125)) *. ((f (1)) -. (f (1 / 4)))) +. ((f (240)) *. (f (1 / 4))))) *. (f (1 / 2))))
  let ok := ok && almost (Macd.divergence ind.state) ((Macd.series ind.state) -. (Macd.signal ind.state))
  let ok := ok && ((ind.state.num : ℕ) : ℤ) == 3
  let r := ind.update Macd.onEvent (tickAt history 8)
  let ok := ok && isOk r
  let ind := okOr r ind
  let ok := ok && almost (ind.state.fast.current) (((f (116)) *. ((f (1)) -. (f (2 / 5)))) +. ((f (400)) *. (f (2 / 5))))
  let ok := ok && almost (ind.state.slow.current) (((f (125)) *. ((f (1)) -. (f (1 / 4)))) +. ((f (400)) *. (f (1 / 4))))
  let ok := ok && almost (Macd.series ind.state) ((((f (116)) *. ((f (1)) -. (f (2 / 5)))) +. ((f (400)) *. (f (2 / 5)))) -. (((f (125)) *. ((f (1)) -. (f (1 / 4)))) +. ((f (400)) *. (f (1 / 4)))))
  let ok := ok && almost (Macd.signal ind.state) (((((f (0)) *. (f (1 / 2))) +. (((f (116)) -. (f (125))) *. (f (1 / 2)))) *. (f (1 / 2))) +. (((((f (116)) *. ((f (1)) -. (f (2 / 5)))) +. ((f (400)) *. (f (2 / 5)))) -. (((f (125)) *. ((f (1)) -. (f (1 / 4)))) +. ((f (400)) *. (f (1 / 4))))) *. (f (1 / 2))))
  let ok := ok && almost (Macd.divergence ind.state) ((Macd.series ind.state) -. (Macd.signal ind.state))
  let ok := ok && ((ind.state.num : ℕ) : ℤ) == 3
  let r := ind.update Macd.onEvent (tickAt history 9)
  let ok := ok && isOk r
  let ind := okOr r ind
  let ok := ok && almost (ind.state.fast.current) (((f (1148 / 5)) *. ((f (1)) -. (f (2 / 5)))) +. ((f (300)) *. (f (2 / 5))))
  let ok := ok && almost (ind.state.slow.current) (((f (775 / 4)) *. ((f (1)) -. (f (1 / 4)))) +. ((f (300)) *. (f (1 / 4))))
  let ok := ok && almost (Macd.series ind.state) ((((f (1148 / 5)) *. ((f (1)) -. (f (2 / 5)))) +. ((f (300)) *. (f (2 / 5)))) -. (((f (775 / 4)) *. ((f (1)) -. (f (1 / 4)))) +. ((f (300)) *. (f (1 / 4)))))
  let ok := ok && almost (Macd.signal ind.state) (((((((f (0)) *. (f (1 / 2))) +. (((f (116)) -. (f (125))) *. (f (1 / 2)))) *. (f (1 / 2))) +. (((((f (116)) *. ((f (1)) -. (f (2 / 5)))) +. ((f (400)) *. (f (2 / 5)))) -. (((f (125)) *. ((f (1)) -. (f (1 / 4)))) +. ((f (400)) *. (f (1 / 4))))) *. (f (1 / 2)))) *. (f (1 / 2))) +. (((((f (1148 / 5)) *. ((f (1)) -. (f (2 / 5)))) +. ((f (300)) *. (f (2 / 5)))) -. (((f (775 / 4)) *. ((f (1)) -. (f (1 / 4)))) +. ((f (300)) *. (f (1 / 4))))) *. (f (1 / 2))))
  let ok := ok && almost (Macd.divergence ind.state) ((Macd.series ind.state) -. (Macd.signal ind.state))
  let ok := ok && ((ind.state.num : ℕ) : ℤ) == 4
  let r := ind.update Macd.onEvent (tickAt history 10)
  let ok := ok && isOk r
  let ind := okOr r ind
  let ok := ok && almost (ind.state.fast.current) (((f (1148 / 5)) *. ((f (1)) -. (f (2 / 5)))) +. ((f (650)) *. (f (2 / 5))))
  let ok := ok && almost (ind.state.slow.current) (((f (775 / 4)) *. ((f (1)) -. (f (1 / 4)))) +. ((f (650)) *. (f (1 / 4))))
  let ok := ok && almost (Macd.series ind.state) ((((f (1148 / 5)) *. ((f (1)) -. (f (2 / 5)))) +. ((f (650)) *. (f (2 / 5)))) -. (((f (775 / 4)) *. ((f (1)) -. (f (1 / 4)))) +. ((f (650)) *. (f (1 / 4)))))
  let ok := ok && almost (Macd.signal ind.state) (((((((f (0)) *. (f (1 / 2))) +. (((f (116)) -. (f (125))) *. (f (1 / 2)))) *. (f (1 / 2))) +. (((((f (116)) *. ((f (1)) -. (f (2 / 5)))) +. ((f (400)) *. (f (2 / 5)))) -. (((f (125)) *. ((f (1)) -. (f (1 / 4)))) +. ((f (400)) *. (f (1 / 4))))) *. (f (1 / 2)))) *. (f (1 / 2))) +. (((((f (1148 / 5)) *. ((f (1)) -. (f (2 / 5)))) +. ((f (650)) *. (f (2 / 5)))) -. (((f (775 / 4)) *. ((f (1)) -. (f (1 / 4)))) +. ((f (650)) *. (f (1 / 4))))) *. (f (1 / 2))))
  let ok := ok && almost (Macd.divergence ind.state) ((Macd.series ind.state) -. (Macd.signal ind.state))
  let ok := ok && ((ind.state.num : ℕ) : ℤ) == 4
  let r := ind.update Macd.onEvent (tickAt history 11)
  let ok := ok && isOk r
  let ind := okOr r ind
  let ok := ok && almost (ind.state.fast.current) (((f (62332 / 125)) *. ((f (1)) -. (f (2 / 5)))) +. ((f (750)) *. (f (2 / 5))))
  let ok := ok && almost (ind.state.slow.current) (((f (25175 / 64)) *. ((f (1)) -. (f (1 / 4)))) +. ((f (750)) *. (f (1 / 4))))
  let ok := ok && almost (Macd.series ind.state) ((((f (62332 / 125)) *. ((f (1)) -. (f (2 / 5)))) +. ((f (750)) *. (f (2 / 5)))) -. (((f (25175 / 64)) *. ((f (1)) -. (f (1 / 4)))) +. ((f (750)) *. (f (1 / 4)))))
  let ok := ok && almost (Macd.signal ind.state) (((((((((((f (0)) *. (f (1 / 2))) +. (((f (116)) -. (f (125))) *. (f (1 / 2)))) *. (f (1 / 2))) +. (((((f (116)) *. ((f (1)) -. (f (2 / 5)))) +. ((f (400)) *. (f (2 / 5)))) -. (((f (125)) *. ((f (1)) -. (f (1 / 4)))) +. ((f (400)) *. (f (1 / 4))))) *. (f (1 / 2)))) *. (f (1 / 2))) +. (((((f (1148 / 5)) *. ((f (1)) -. (f (2 / 5)))) +. ((f (650)) *. (f (2 / 5)))) -. (((f (775 / 4)) *. ((f (1)) -. (f (1 / 4)))) +. ((f (650)) *. (f (1 / 4))))) *. (f (1 / 2)))) *. (f (1 / 2))) +. (((((f (9944 / 25)) *. ((f (1)) -. (f (2 / 5)))) +. ((f (650)) *. (f (2 / 5)))) -. (((f (4925 / 16)) *. ((f (1)) -. (f (1 / 4)))) +. ((f (650)) *. (f (1 / 4))))) *. (f (1 / 2)))) *. (f (1 / 2))) +. (((((f (62332 / 125)) *. ((f (1)) -. (f (2 / 5)))) +. ((f (750)) *. (f (2 / 5)))) -. (((f (25175 / 64)) *. ((f (1)) -. (f (1 / 4)))) +. ((f (750)) *. (f (1 / 4))))) *. (f (1 / 2))))
  let ok := ok && almost (Macd.divergence ind.state) ((Macd.series ind.state) -. (Macd.signal ind.state))
  let ok := ok && ((ind.state.num : ℕ) : ℤ) == 6
  ok

example : MovingAverageConvergenceDivergenceTest_GetMACDWhenAdding8HourOhlcTicks = true := by decide +kernel

end Verif.Conformance
