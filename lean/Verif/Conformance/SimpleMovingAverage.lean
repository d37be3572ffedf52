import Verif.Conformance.Prelude
import Verif.Conformance.Indicators

/-!
# indicators/simple_moving_average_test.cc, translated

Generated by tools/gen_conformance.py.
-/

namespace Verif.Conformance
open Verif FloatOps
set_option linter.unusedVariables false
set_option linter.style.longLine false

/-- indicators/simple_moving_average_test.cc 11 `SimpleMovingAverageTest.Get3SMAWhenAdding8HourOhlcTicks`. -/
def SimpleMovingAverageTest_Get3SMAWhenAdding8HourOhlcTicks : Bool :=
  let ok := true
  let ok := ok && exampleHistory.2
  let history := exampleHistory.1
  let r := Sma.make (F := F32) (3) (86400)
  let ok := ok && isOk r
  let ind := okOr r defaultSma
  let ok := ok && almost (Sma.get ind) (f (0))
  let ok := ok && ((Sma.numTicks ind : ℕ) : ℤ) == 0
  let r := ind.update Sma.onEvent (tickAt history 0)
  let ok := ok && isOk r
  let ind := okOr r ind
  let ok := ok && almost (Sma.get ind) (f (120))
  let ok := ok && ((Sma.numTicks ind : ℕ) : ℤ) == 1
  let r := ind.update Sma.onEvent (tickAt history 1)
  let ok := ok && isOk r
  let ind := okOr r ind
  let ok := ok && almost (Sma.get ind) (f (150))
  let ok := ok && ((Sma.numTicks ind : ℕ) : ℤ) == 1
  let r := ind.update Sma.onEvent (tickAt history 2)
  let ok := ok && isOk r
  let ind := okOr r ind
  let ok := ok && almost (Sma.get ind) (f (140))
  let ok := ok && ((Sma.numTicks ind : ℕ) : ℤ) == 1
  let r := ind.update Sma.onEvent (tickAt history 3)
  let ok := ok && isOk r
  let ind := okOr r ind
  let ok := ok && almost (Sma.get ind) (((f (140)) +. (f (100))) /. (f (2)))
  let ok := ok && ((Sma.numTicks ind : ℕ) : ℤ) == 2
  let r := ind.update Sma.onEvent (tickAt history 4)
  let ok := ok && isOk r
  let ind := okOr r ind
  let ok := ok && almost (Sma.get ind) (((f (140)) +. (f (50))) /. (f (2)))
  let ok := ok && ((Sma.numTicks ind : ℕ) : ℤ) == 2
  let r := ind.update Sma.onEvent (tickAt history 5)
  let ok := ok && isOk r
  let ind := okOr r ind
  let ok := ok && almost (Sma.get ind) (((f (140)) +. (f (80))) /. (f (2)))
  let ok := ok && ((Sma.numTicks ind : ℕ) : ℤ) == 2
  let r := ind.update Sma.onEvent (tickAt history 6)
  let ok := ok && isOk r
  let ind := okOr r ind
  let ok := ok && almost (Sma.get ind) ((((f (140)) +. (f (80))) +. (f (150))) /. (f (3)))
  let ok := ok && ((Sma.numTicks ind : ℕ) : ℤ) == 3
  let r := ind.update Sma.onEvent (tickAt history 7)
  let ok := ok && isOk r
  let ind := okOr r ind
  let ok := ok && almost (Sma.get ind) ((((f (140)) +. (f (80))) +. (f (240))) /. (f (3)))
  let ok := ok && ((Sma.numTicks ind : ℕ) : ℤ) == 3
  let r := ind.update Sma.onEvent (tickAt history 8)
  let ok := ok && isOk r
  let ind := okOr r ind
  let ok := ok && almost (Sma.get ind) ((((f (140)) +. (f (80))) +. (f (400))) /. (f (3)))
  let ok := ok && ((Sma.numTicks ind : ℕ) : ℤ) == 3
  let r := ind.update Sma.onEvent (tickAt history 9)
  let ok := ok && isOk r
  let ind := okOr r ind
  let ok := ok && almost (Sma.get ind) ((((f (80)) +. (f (400))) +. (f (300))) /. (f (3)))
  let ok := ok && ((Sma.numTicks ind : ℕ) : ℤ) == 3
  let r := ind.update Sma.onEvent (tickAt history 10)
  let ok := ok && isOk r
  let ind := okOr r ind
  let ok := ok && almost (Sma.get ind) ((((f (80)) +. (f (400))) +. (f (650))) /. (f (3)))
  let ok := ok && ((Sma.numTicks ind : ℕ) : ℤ) == 3
  let r := ind.update Sma.onEvent (tickAt history 11)
  let ok := ok && isOk r
  let ind := okOr r ind
  let ok := ok && almost (Sma.get ind) ((((f (650)) +. (f (650))) +. (f (750))) /. (f (3)))
  let ok := ok && ((Sma.numTicks ind : ℕ) : ℤ) == 3
  ok

example : SimpleMovingAverageTest_Get3SMAWhenAdding8HourOhlcTicks = true := by decide +kernel

end Verif.Conformance
