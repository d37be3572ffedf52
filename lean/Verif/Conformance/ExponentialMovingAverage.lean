import Verif.Conformance.Prelude
import Verif.Conformance.Indicators

/-!
# indicators/exponential_moving_average_test.cc, translated

Generated by tools/gen_conformance.py.
-/

namespace Verif.Conformance
open Verif FloatOps
set_option linter.unusedVariables false
set_option linter.style.longLine false

/-- indicators/exponential_moving_average_test.cc 11 `ExponentialMovingAverageTest.GetEMAWhenAdding8HourOhlcTicks`. -/
def ExponentialMovingAverageTest_GetEMAWhenAdding8HourOhlcTicks : Bool :=
  let ok := true
  let ok := ok && exampleHistory.2
  let history := exampleHistory.1
  let r := EmaInd.make (F := F32) (f (2)) (7) (86400)
  let ok := ok && isOk r
  let ind := okOr r defaultEmaInd
  let ok := ok && almost (EmaInd.get ind) (f (0))
  let ok := ok && ((EmaInd.numTicks ind : ℕ) : ℤ) == 0
  let r := ind.update EmaInd.onEvent (tickAt history 0)
  let ok := ok && isOk r
  let ind := okOr r ind
  let ok := ok && almost (EmaInd.get ind) (f (120))
  let ok := ok && ((EmaInd.numTicks ind : ℕ) : ℤ) == 1
  let r := ind.update EmaInd.onEvent (tickAt history 1)
  let ok := ok && isOk r
  let ind := okOr r ind
  let ok := ok && almost (EmaInd.get ind) (f (150))
  let ok := ok && ((EmaInd.numTicks ind : ℕ) : ℤ) == 1
  let r := ind.update EmaInd.onEvent (tickAt history 2)
  let ok := ok && isOk r
  let ind := okOr r ind
  let ok := ok && almost (EmaInd.get ind) (f (140))
  let ok := ok && ((EmaInd.numTicks ind : ℕ) : ℤ) == 1
  let r := ind.update EmaInd.onEvent (tickAt history 3)
  let ok := ok && isOk r
  let ind := okOr r ind
  let ok := ok && almost (EmaInd.get ind) (((f (100)) *. ((f (2)) /. ((f (1)) +. (f (7))))) +. ((f (140)) *. ((f (1)) -. ((f (2)) /. ((f (1)) +. (f (7)))))))
  let ok := ok && ((EmaInd.numTicks ind : ℕ) : ℤ) == 2
  let r := ind.update EmaInd.onEvent (tickAt history 4)
  let ok := ok && isOk r
  let ind := okOr r ind
  let ok := ok && almost (EmaInd.get ind) (((f (50)) *. (f (1 / 4))) +. ((f (140)) *. (f (3 / 4))))
  let ok := ok && ((EmaInd.numTicks ind : ℕ) : ℤ) == 2
  let r := ind.update EmaInd.onEvent (tickAt history 5)
  let ok := ok && isOk r
  let ind := okOr r ind
  let ok := ok && almost (EmaInd.get ind) (((f (80)) *. (f (1 / 4))) +. ((f (140)) *. (f (3 / 4))))
  let ok := ok && ((EmaInd.numTicks ind : ℕ) : ℤ) == 2
  let r := ind.update EmaInd.onEvent (tickAt history 6)
  let ok := ok && isOk r
  let ind := okOr r ind
  let ok := ok && almost (EmaInd.get ind) (((f (150)) *. (f (1 / 4))) +. ((((f (80)) *. (f (1 / 4))) +. ((f (140)) *. (f (3 / 4)))) *. (f (3 / 4))))
  let ok := ok && ((EmaInd.numTicks ind : ℕ) : ℤ) == 3
  let r := ind.update EmaInd.onEvent (tickAt history 7)
  let ok := ok && isOk r
  let ind := okOr r ind
  let ok := ok && almost (EmaInd.get ind) (((f (240)) *. (f (1 / 4))) +. ((f (125)) *. (f (3 / 4))))
  let ok := ok && ((EmaInd.numTicks ind : ℕ) : ℤ) == 3
  let r := ind.update EmaInd.onEvent (tickAt history 8)
  let ok := ok && isOk r
  let ind := okOr r ind
  let ok := ok && almost (EmaInd.get ind) (((f (400)) *. (f (1 / 4))) +. ((f (125)) *. (f (3 / 4))))
  let ok := ok && ((EmaInd.numTicks ind : ℕ) : ℤ) == 3
  let r := ind.update EmaInd.onEvent (tickAt history 9)
  let ok := ok && isOk r
  let ind := okOr r ind
  let ok := ok && almost (EmaInd.get ind) (((f (300)) *. (f (1 / 4))) +. ((((f (400)) *. (f (1 / 4))) +. ((f (125)) *. (f (3 / 4)))) *. (f (3 / 4))))
  let ok := ok && ((EmaInd.numTicks ind : ℕ) : ℤ) == 4
  let r := ind.update EmaInd.onEvent (tickAt history 10)
  let ok := ok && isOk r
  let ind := okOr r ind
  let ok := ok && almost (EmaInd.get ind) (Wide.narrow ((Wide.widen ((f (650)) *. (f (1 / 4)))) +. ((d (775 / 4)) *. (Wide.widen (f (3 / 4))))))
  let ok := ok && ((EmaInd.numTicks ind : ℕ) : ℤ) == 4
  let r := ind.update EmaInd.onEvent (tickAt history 11)
  let ok := ok && isOk r
  let ind := okOr r ind
  let ok := ok && almost (EmaInd.get ind) (Wide.narrow ((Wide.widen ((f (750)) *. (f (1 / 4)))) +. (((Wide.widen ((f (650)) *. (f (1 / 4)))) +. (((Wide.widen ((f (650)) *. (f (1 / 4)))) +. ((d (775 / 4)) *. (Wide.widen (f (3 / 4))))) *. (Wide.widen (f (3 / 4))))) *. (Wide.widen (f (3 / 4))))))
  let ok := ok && ((EmaInd.numTicks ind : ℕ) : ℤ) == 6
  ok

example : ExponentialMovingAverageTest_GetEMAWhenAdding8HourOhlcTicks = true := by decide +kernel

end Verif.Conformance
