import Verif.Conformance.Prelude
import Verif.Conformance.Indicators

/-!
# indicators/last_n_ohlc_ticks_test.cc, translated

Generated by tools/gen_conformance.py.
-/

namespace Verif.Conformance
open Verif FloatOps
set_option linter.unusedVariables false
set_option linter.style.longLine false

/-- indicators/last_n_ohlc_ticks_test.cc 24 `LastNOhlcTicksTest.GetLast3DaysWhenAdding8HourOhlcTicks`. -/
def LastNOhlcTicksTest_GetLast3DaysWhenAdding8HourOhlcTicks : Bool :=
  let ok := true
  let ok := ok && exampleHistory.2
  let history := exampleHistory.1
  let r := LastN.make (F := F32) 3 86400
  let ok := ok && isOk r
  let last := okOr r ⟨0, 0, []⟩
  let events : List (TickEvent F32) := []
  let ok := ok && last.ticks.length == 0
  let r := last.update (tickAt history 0)
  let ok := ok && isOk r
  let events := events ++ (okOr r (last, [])).2
  let last := (okOr r (last, [])).1
  let ok := ok && last.ticks.length == 1
  let ok := ok && nearTick last.ticks[0]? ⟨1483228800, (f (100)), (f (150)), (f (80)), (f (120)), (f (1000))⟩
  let ok := ok && (updatedOld events).length == 0
  let ok := ok && (updatedNew events).length == 0
  let ok := ok && (addedNew events).length == 1
  let ok := ok && nearTick (addedNew events).getLast? ⟨1483228800, (f (100)), (f (150)), (f (80)), (f (120)), (f (1000))⟩
  let ok := ok && (shiftedOld events).length == 0
  let ok := ok && (shiftedNew events).length == 0
  let r := last.update (tickAt history 1)
  let ok := ok && isOk r
  let events := events ++ (okOr r (last, [])).2
  let last := (okOr r (last, [])).1
  let ok := ok && last.ticks.length == 1
  let ok := ok && nearTick last.ticks[0]? ⟨1483228800, (f (100)), (f (180)), (f (80)), (f (150)), (f (2000))⟩
  let ok := ok && (updatedOld events).length == 1
  let ok := ok && nearTick (updatedOld events).getLast? ⟨1483228800, (f (100)), (f (150)), (f (80)), (f (120)), (f (1000))⟩
  let ok := ok && (updatedNew events).length == 1
  let ok := ok && nearTick (updatedNew events).getLast? ⟨1483228800, (f (100)), (f (180)), (f (80)), (f (150)), (f (2000))⟩
  let ok := ok && (addedNew events).length == 1
  let ok := ok && (shiftedOld events).length == 0
  let ok := ok && (shiftedNew events).length == 0
  let r := last.update (tickAt history 2)
  let ok := ok && isOk r
  let events := events ++ (okOr r (last, [])).2
  let last := (okOr r (last, [])).1
  let ok := ok && last.ticks.length == 1
  let ok := ok && nearTick last.ticks[0]? ⟨1483228800, (f (100)), (f (250)), (f (80)), (f (140)), (f (3000))⟩
  let ok := ok && (updatedOld events).length == 2
  let ok := ok && nearTick (updatedOld events).getLast? ⟨1483228800, (f (100)), (f (180)), (f (80)), (f (150)), (f (2000))⟩
  let ok := ok && (updatedNew events).length == 2
  let ok := ok && nearTick (updatedNew events).getLast? ⟨1483228800, (f (100)), (f (250)), (f (80)), (f (140)), (f (3000))⟩
  let ok := ok && (addedNew events).length == 1
  let ok := ok && (shiftedOld events).length == 0
  let ok := ok && (shiftedNew events).length == 0
  let r := last.update (tickAt history 3)
  let ok := ok && isOk r
  let events := events ++ (okOr r (last, [])).2
  let last := (okOr r (last, [])).1
  let ok := ok && last.ticks.length == 2
  let ok := ok && nearTick last.ticks[0]? ⟨1483228800, (f (100)), (f (250)), (f (80)), (f (140)), (f (3000))⟩
  let ok := ok && nearTick last.ticks[1]? ⟨1483315200, (f (140)), (f (150)), (f (80)), (f (100)), (f (1000))⟩
  let ok := ok && (updatedOld events).length == 2
  let ok := ok && (updatedNew events).length == 2
  let ok := ok && (addedNew events).length == 2
  let ok := ok && nearTick (addedNew events).getLast? ⟨1483315200, (f (140)), (f (150)), (f (80)), (f (100)), (f (1000))⟩
  let ok := ok && (shiftedOld events).length == 0
  let ok := ok && (shiftedNew events).length == 0
  let r := last.update (tickAt history 4)
  let ok := ok && isOk r
  let events := events ++ (okOr r (last, [])).2
  let last := (okOr r (last, [])).1
  let ok := ok && last.ticks.length == 2
  let ok := ok && nearTick last.ticks[0]? ⟨1483228800, (f (100)), (f (250)), (f (80)), (f (140)), (f (3000))⟩
  let ok := ok && nearTick last.ticks[1]? ⟨1483315200, (f (140)), (f (150)), (f (20)), (f (50)), (f (2000))⟩
  let ok := ok && (updatedOld events).length == 3
  let ok := ok && nearTick (updatedOld events).getLast? ⟨1483315200, (f (140)), (f (150)), (f (80)), (f (100)), (f (1000))⟩
  let ok := ok && (updatedNew events).length == 3
  let ok := ok && nearTick (updatedNew events).getLast? ⟨1483315200, (f (140)), (f (150)), (f (20)), (f (50)), (f (2000))⟩
  let ok := ok && (addedNew events).length == 2
  let ok := ok && (shiftedOld events).length == 0
  let ok := ok && (shiftedNew events).length == 0
  let r := last.update (tickAt history 5)
  let ok := ok && isOk r
  let events := events ++ (okOr r (last, [])).2
  let last := (okOr r (last, [])).1
  let ok := ok && last.ticks.length == 2
  let ok := ok && nearTick last.ticks[0]? ⟨1483228800, (f (100)), (f (250)), (f (80)), (f (140)), (f (3000))⟩
  let ok := ok && nearTick last.ticks[1]? ⟨1483315200, (f (140)), (f (150)), (f (20)), (f (80)), (f (3000))⟩
  let ok := ok && (updatedOld events).length == 4
  let ok := ok && nearTick (updatedOld events).getLast? ⟨1483315200, (f (140)), (f (150)), (f (20)), (f (50)), (f (2000))⟩
  let ok := ok && (updatedNew events).length == 4
  let ok := ok && nearTick (updatedNew events).getLast? ⟨1483315200, (f (140)), (f (150)), (f (20)), (f (80)), (f (3000))⟩
  let ok := ok && (addedNew events).length == 2
  let ok := ok && (shiftedOld events).length == 0
  let ok := ok && (shiftedNew events).length == 0
  let r := last.update (tickAt history 6)
  let ok := ok && isOk r
  let events := events ++ (okOr r (last, [])).2
  let last := (okOr r (last, [])).1
  let ok := ok && last.ticks.length == 3
  let ok := ok && nearTick last.ticks[0]? ⟨1483228800, (f (100)), (f (250)), (f (80)), (f (140)), (f (3000))⟩
  let ok := ok && nearTick last.ticks[1]? ⟨1483315200, (f (140)), (f (150)), (f (20)), (f (80)), (f (3000))⟩
  let ok := ok && nearTick last.ticks[2]? ⟨1483401600, (f (80)), (f (180)), (f (50)), (f (150)), (f (1000))⟩
  let ok := ok && (updatedOld events).length == 4
  let ok := ok && (updatedNew events).length == 4
  let ok := ok && (addedNew events).length == 3
  let ok := ok && nearTick (addedNew events).getLast? ⟨1483401600, (f (80)), (f (180)), (f (50)), (f (150)), (f (1000))⟩
  let ok := ok && (shiftedOld events).length == 0
  let ok := ok && (shiftedNew events).length == 0
  let r := last.update (tickAt history 7)
  let ok := ok && isOk r
  let events := events ++ (okOr r (last, [])).2
  let last := (okOr r (last, [])).1
  let ok := ok && last.ticks.length == 3
  let ok := ok && nearTick last.ticks[0]? ⟨1483228800, (f (100)), (f (250)), (f (80)), (f (140)), (f (3000))⟩
  let ok := ok && nearTick last.ticks[1]? ⟨1483315200, (f (140)), (f (150)), (f (20)), (f (80)), (f (3000))⟩
  let ok := ok && nearTick last.ticks[2]? ⟨1483401600, (f (80)), (f (250)), (f (50)), (f (240)), (f (2000))⟩
  let ok := ok && (updatedOld events).length == 5
  let ok := ok && nearTick (updatedOld events).getLast? ⟨1483401600, (f (80)), (f (180)), (f (50)), (f (150)), (f (1000))⟩
  let ok := ok && (updatedNew events).length == 5
  let ok := ok && nearTick (updatedNew events).getLast? ⟨1483401600, (f (80)), (f (250)), (f (50)), (f (240)), (f (2000))⟩
  let ok := ok && (addedNew events).length == 3
  let ok := ok && (shiftedOld events).length == 0
  let ok := ok && (shiftedNew events).length == 0
  let r := last.update (tickAt history 8)
  let ok := ok && isOk r
  let events := events ++ (okOr r (last, [])).2
  let last := (okOr r (last, [])).1
  let ok := ok && last.ticks.length == 3
  let ok := ok && nearTick last.ticks[0]? ⟨1483228800, (f (100)), (f (250)), (f (80)), (f (140)), (f (3000))⟩
  let ok := ok && nearTick last.ticks[1]? ⟨1483315200, (f (140)), (f (150)), (f (20)), (f (80)), (f (3000))⟩
  let ok := ok && nearTick last.ticks[2]? ⟨1483401600, (f (80)), (f (450)), (f (50)), (f (400)), (f (3000))⟩
  let ok := ok && (updatedOld events).length == 6
  let ok := ok && nearTick (updatedOld events).getLast? ⟨1483401600, (f (80)), (f (250)), (f (50)), (f (240)), (f (2000))⟩
  let ok := ok && (updatedNew events).length == 6
  let ok := ok && nearTick (updatedNew events).getLast? ⟨1483401600, (f (80)), (f (450)), (f (50)), (f (400)), (f (3000))⟩
  let ok := ok && (addedNew events).length == 3
  let ok := ok && (shiftedOld events).length == 0
  let ok := ok && (shiftedNew events).length == 0
  let r := last.update (tickAt history 9)
  let ok := ok && isOk r
  let events := events ++ (okOr r (last, [])).2
  let last := (okOr r (last, [])).1
  let ok := ok && last.ticks.length == 3
  let ok := ok && nearTick last.ticks[0]? ⟨1483315200, (f (140)), (f (150)), (f (20)), (f (80)), (f (3000))⟩
  let ok := ok && nearTick last.ticks[1]? ⟨1483401600, (f (80)), (f (450)), (f (50)), (f (400)), (f (3000))⟩
  let ok := ok && nearTick last.ticks[2]? ⟨1483488000, (f (400)), (f (450)), (f (250)), (f (300)), (f (1000))⟩
  let ok := ok && (updatedOld events).length == 6
  let ok := ok && (updatedNew events).length == 6
  let ok := ok && (addedNew events).length == 3
  let ok := ok && (shiftedOld events).length == 1
  let ok := ok && nearTick (shiftedOld events).getLast? ⟨1483228800, (f (100)), (f (250)), (f (80)), (f (140)), (f (3000))⟩
  let ok := ok && (shiftedNew events).length == 1
  let ok := ok && nearTick (shiftedNew events).getLast? ⟨1483488000, (f (400)), (f (450)), (f (250)), (f (300)), (f (1000))⟩
  let r := last.update (tickAt history 10)
  let ok := ok && isOk r
  let events := events ++ (okOr r (last, [])).2
  let last := (okOr r (last, [])).1
  let ok := ok && last.ticks.length == 3
  let ok := ok && nearTick last.ticks[0]? ⟨1483315200, (f (140)), (f (150)), (f (20)), (f (80)), (f (3000))⟩
  let ok := ok && nearTick last.ticks[1]? ⟨1483401600, (f (80)), (f (450)), (f (50)), (f (400)), (f (3000))⟩
  let ok := ok && nearTick last.ticks[2]? ⟨1483488000, (f (400)), (f (700)), (f (220)), (f (650)), (f (2000))⟩
  let ok := ok && (updatedOld events).length == 7
  let ok := ok && nearTick (updatedOld events).getLast? ⟨1483488000, (f (400)), (f (450)), (f (250)), (f (300)), (f (1000))⟩
  let ok := ok && (updatedNew events).length == 7
  let ok := ok && nearTick (updatedNew events).getLast? ⟨1483488000, (f (400)), (f (700)), (f (220)), (f (650)), (f (2000))⟩
  let ok := ok && (addedNew events).length == 3
  let ok := ok && (shiftedOld events).length == 1
  let ok := ok && (shiftedNew events).length == 1
  let r := last.update (tickAt history 11)
  let ok := ok && isOk r
  let events := events ++ (okOr r (last, [])).2
  let last := (okOr r (last, [])).1
  let ok := ok && last.ticks.length == 3
  let ok := ok && nearTick last.ticks[0]? ⟨1483488000, (f (400)), (f (700)), (f (220)), (f (650)), (f (2000))⟩
  let ok := ok && nearTick last.ticks[1]? ⟨1483574400, (f (650)), (f (650)), (f (650)), (f (650)), (f (0))⟩
  let ok := ok && nearTick last.ticks[2]? ⟨1483660800, (f (650)), (f (800)), (f (600)), (f (750)), (f (1000))⟩
  let ok := ok && (updatedOld events).length == 7
  let ok := ok && (updatedNew events).length == 7
  let ok := ok && (addedNew events).length == 3
  let ok := ok && (shiftedOld events).length == 3
  let ok := ok && nearTick (shiftedOld events)[1]? ⟨1483315200, (f (140)), (f (150)), (f (20)), (f (80)), (f (3000))⟩
  let ok := ok && nearTick (shiftedOld events)[2]? ⟨1483401600, (f (80)), (f (450)), (f (50)), (f (400)), (f (3000))⟩
  let ok := ok && (shiftedNew events).length == 3
  let ok := ok && nearTick (shiftedNew events)[1]? ⟨1483574400, (f (650)), (f (650)), (f (650)), (f (650)), (f (0))⟩
  let ok := ok && nearTick (shiftedNew events)[2]? ⟨1483660800, (f (650)), (f (800)), (f (600)), (f (750)), (f (1000))⟩
  ok

example : LastNOhlcTicksTest_GetLast3DaysWhenAdding8HourOhlcTicks = true := by decide +kernel

end Verif.Conformance
