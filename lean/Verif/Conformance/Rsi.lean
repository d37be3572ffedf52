import Verif.Conformance.Prelude
import Verif.Conformance.Indicators

/-!
# indicators/relative_strength_index_test.cc, translated

Generated by tools/gen_conformance.py.
-/

namespace Verif.Conformance
open Verif FloatOps
set_option linter.unusedVariables false
set_option linter.style.longLine false

/-- indicators/relative_strength_index_test.cc 11 `RelativeStrengthIndexTest.GetRSIWhenAdding8HourOhlcTicks`. -/
def RelativeStrengthIndexTest_GetRSIWhenAdding8HourOhlcTicks : Bool :=
  let ok := true
  let ok := ok && exampleHistory.2
  let history := exampleHistory.1
  let r := Rsi.make (F := F32) (3) (86400)
  let ok := ok && isOk r
  let ind := okOr r defaultRsi
  let ok := ok && almost (ind.state.up.current) (f (0))
  let ok := ok && almost (ind.state.down.current) (f (0))
  let ok := ok && almost (Rsi.get ind.state) (f (50))
  let ok := ok && ((ind.state.num : ℕ) : ℤ) == 0
  let r := ind.update Rsi.onEvent (tickAt history 0)
  let ok := ok && isOk r
  let ind := okOr r ind
  let ok := ok && almost (ind.state.up.current) (f (20))
  let ok := ok && almost (ind.state.down.current) (f (0))
  let ok := ok && almost (Rsi.get ind.state) (f (100))
  let ok := ok && ((ind.state.num : ℕ) : ℤ) == 1
  let r := ind.update Rsi.onEvent (tickAt history 1)
  let ok := ok && isOk r
  let ind := okOr r ind
  let ok := ok && almost (ind.state.up.current) (f (50))
  let ok := ok && almost (ind.state.down.current) (f (0))
  let ok := ok && almost (Rsi.get ind.state) (f (100))
  let ok := ok && ((ind.state.num : ℕ) : ℤ) == 1
  let r := ind.update Rsi.onEvent (tickAt history 2)
  let ok := ok && isOk r
  let ind := okOr r ind
  let ok := ok && almost (ind.state.up.current) (f (40))
  let ok := ok && almost (ind.state.down.current) (f (0))
  let ok := ok && almost (Rsi.get ind.state) (f (100))
  let ok := ok && ((ind.state.num : ℕ) : ℤ) == 1
  let r := ind.update Rsi.onEvent (tickAt history 3)
  let ok := ok && isOk r
  let ind := okOr r ind
  let ok := ok && almost (ind.state.up.current) (((f (40)) +. (f (0))) /. (f (2)))
  let ok := ok && almost (ind.state.down.current) (((f (0)) +. (f (40))) /. (f (2)))
  let ok := ok && almost (Rsi.get ind.state) ((f (100)) -. ((f (100)) /. ((f (1)) +. ((f (20)) /. (f (20))))))
  let ok := ok && ((ind.state.num : ℕ) : ℤ) == 2
  let r := ind.update Rsi.onEvent (tickAt history 4)
  let ok := ok && isOk r
  let ind := okOr r ind
  let ok := ok && almost (ind.state.up.current) (((f (40)) +. (f (0))) /. (f (2)))
  let ok := ok && almost (ind.state.down.current) (((f (0)) +. (f (90))) /. (f (2)))
  let ok := ok && almost (Rsi.get ind.state) ((f (100)) -. ((f (100)) /. ((f (1)) +. ((f (20)) /. (f (45))))))
  let ok := ok && ((ind.state.num : ℕ) : ℤ) == 2
  let r := ind.update Rsi.onEvent (tickAt history 5)
  let ok := ok && isOk r
  let ind := okOr r ind
  let ok := ok && almost (ind.state.up.current) (((f (40)) +. (f (0))) /. (f (2)))
  let ok := ok && almost (ind.state.down.current) (((f (0)) +. (f (60))) /. (f (2)))
  let ok := ok && almost (Rsi.get ind.state) ((f (100)) -. ((f (100)) /. ((f (1)) +. ((f (20)) /. (f (30))))))
  let ok := ok && ((ind.state.num : ℕ) : ℤ) == 2
  let r := ind.update Rsi.onEvent (tickAt history 6)
  let ok := ok && isOk r
  let ind := okOr r ind
  let ok := ok && almost (ind.state.up.current) ((((f (40)) +. (f (0))) +. (f (70))) /. (f (3)))
  let ok := ok && almost (ind.state.down.current) (Wide.narrow ((((Wide.widen (f (0))) +. (d (60))) +. (Wide.widen (f (0)))) /. (Wide.widen (f (3)))))
  let ok := ok && almost (Rsi.get ind.state) ((f (100)) -. ((f (100)) /. ((f (1)) +. ((f (110)) /. (f (60))))))
  let ok := ok && ((ind.state.num : ℕ) : ℤ) == 3
  let r := ind.update Rsi.onEvent (tickAt history 7)
  let ok := ok && isOk r
  let ind := okOr r ind
  let ok := ok && almost (ind.state.up.current) ((((f (40)) +. (f (0))) +. (f (160))) /. (f (3)))
  let ok := ok && almost (ind.state.down.current) (Wide.narrow ((((Wide.widen (f (0))) +. (d (60))) +. (Wide.widen (f (0)))) /. (Wide.widen (f (3)))))
  let ok := ok && almost (Rsi.get ind.state) ((f (100)) -. ((f (100)) /. ((f (1)) +. ((f (200)) /. (f (60))))))
  let ok := ok && ((ind.state.num : ℕ) : ℤ) == 3
  let r := ind.update Rsi.onEvent (tickAt history 8)
  let ok := ok && isOk r
  let ind := okOr r ind
  let ok := ok && almost (ind.state.up.current) ((((f (40)) +. (f (0))) +. (f (320))) /. (f (3)))
  let ok := ok && almost (ind.state.down.current) (Wide.narrow ((((Wide.widen (f (0))) +. (d (60))) +. (Wide.widen (f (0)))) /. (Wide.widen (f (3)))))
  let ok := ok && almost (Rsi.get ind.state) ((f (100)) -. ((f (100)) /. ((f (1)) +. ((f (360)) /. (f (60))))))
  let ok := ok && ((ind.state.num : ℕ) : ℤ) == 3
  let r := ind.update Rsi.onEvent (tickAt history 9)
  let ok := ok && isOk r
  let ind := okOr r ind
  let ok := ok && almost (ind.state.up.current) ((((f (1)) -. ((f (1)) /. (f (3)))) *. (((f (40)) +. (f (0))) +. (f (320)))) /. (f (3)))
  let ok := ok && almost (ind.state.down.current) (Wide.narrow ((((Wide.widen ((f (1)) -. ((f (1)) /. (f (3))))) *. (((Wide.widen (f (0))) +. (d (60))) +. (Wide.widen (f (0))))) /. (Wide.widen (f (3)))) +. (Wide.widen (((f (1)) /. (f (3))) *. (f (100))))))
  let ok := ok && almost (Rsi.get ind.state) ((f (100)) -. ((f (100)) /. ((f (1)) +. ((f (80)) /. (((f (40)) /. (f (3))) +. ((f (100)) /. (f (3))))))))
  let ok := ok && ((ind.state.num : ℕ) : ℤ) == 4
  let r := ind.update Rsi.onEvent (tickAt history 10)
  let ok := ok && isOk r
  let ind := okOr r ind
  let ok := ok && almost (ind.state.up.current) ((f (80)) +. (((f (1)) /. (f (3))) *. (f (250))))
  let ok := ok && almost (ind.state.down.current) ((f (40)) /. (f (3)))
  let ok := ok && almost (Rsi.get ind.state) ((f (100)) -. ((f (100)) /. ((f (1)) +. (((f (80)) +. (((f (1)) /. (f (3))) *. (f (250)))) /. ((f (40)) /. (f (3)))))))
  let ok := ok && ((ind.state.num : ℕ) : ℤ) == 4
  let r := ind.update Rsi.onEvent (tickAt history 11)
  let ok := ok && isOk r
  let ind := okOr r ind
  let ok := ok && almost (ind.state.up.current) (((((f (1)) -. ((f (1)) /. (f (3)))) *. ((f (1)) -. ((f (1)) /. (f (3))))) *. ((f (80)) +. (((f (1)) /. (f (3))) *. (f (250))))) +. (((f (1)) /. (f (3))) *. (f (100))))
  let ok := ok && almost (ind.state.down.current) ((((f (1)) -. ((f (1)) /. (f (3)))) *. ((f (1)) -. ((f (1)) /. (f (3))))) *. ((f (40)) /. (f (3))))
  let ok := ok && almost (Rsi.get ind.state) ((f (100)) -. ((f (100)) /. ((f (1)) +. ((((((f (1)) -. ((f (1)) /. (f (3)))) *. ((f (1)) -. ((f (1)) /. (f (3))))) *. ((f (80)) +. (((f (1)) /. (f (3))) *. (f (250))))) +. (((f (1)) /. (f (3))) *. (f (100)))) /. ((((f (1)) -. ((f (1)) /. (f (3)))) *. ((f (1)) -. ((f (1)) /. (f (3))))) *. ((f (40)) /. (f (3))))))))
  let ok := ok && ((ind.state.num : ℕ) : ℤ) == 6
  ok

example : RelativeStrengthIndexTest_GetRSIWhenAdding8HourOhlcTicks = true := by decide +kernel

end Verif.Conformance
