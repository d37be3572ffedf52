import Verif.Conformance.Prelude
import Verif.Model.SideInput

/-!
# base/side_input_test.cc, translated

Generated by tools/gen_conformance.py.
-/

namespace Verif.Conformance
open Verif FloatOps
set_option linter.unusedVariables false
set_option linter.style.longLine false

/-- base/side_input_test.cc 39 `SideInputTest.OneSignalSingleRecord`. -/
def SideInputTest_OneSignalSingleRecord : Bool :=
  let ok := true
  let history : List (SideInputRecord F32) := []
  let history := add8HourSignals [(f (10))] history
  let r := SideInput.make history
  let ok := ok && isOk r
  let side := okOr r ⟨0, [], []⟩
  let ok := ok && side.numRecords == 1
  let ok := ok && side.numSignals == 1
  let ok := ok && gives (side.timestamp 0) 1483228800
  let ok := ok && almostRes (side.signal (0) (0)) ((.ok (f (10))))
  let signals : List F32 := []
  let r := side.signals (0) signals
  let ok := ok && isOk r
  let signals := okOr r []
  let ok := ok && signals.length == 1
  let ok := ok && almostRes ((signals[0]?).elim (.error .outOfRange) .ok) ((.ok (f (10))))
  let ok := ok && side.index (1483200000) == (-1)
  let ok := ok && gives (side.indexHint (1483200000) (-1)) (-1)
  let ok := ok && side.index (1483228800) == (0)
  let ok := ok && gives (side.indexHint (1483228800) (-1)) (0)
  let ok := ok && gives (side.indexHint (1483228800) (0)) (0)
  let ok := ok && side.index (1483257600) == (0)
  let ok := ok && gives (side.indexHint (1483257600) (-1)) (0)
  let ok := ok && gives (side.indexHint (1483257600) (0)) (0)
  ok

example : SideInputTest_OneSignalSingleRecord = true := by decide +kernel

/-- base/side_input_test.cc 67 `SideInputTest.MultipleSignalsSingleRecord`. -/
def SideInputTest_MultipleSignalsSingleRecord : Bool :=
  let ok := true
  let history : List (SideInputRecord F32) := []
  let history := add8HourSignals [(f (10)), (f (20)), (f (5))] history
  let r := SideInput.make history
  let ok := ok && isOk r
  let side := okOr r ⟨0, [], []⟩
  let ok := ok && side.numRecords == 1
  let ok := ok && side.numSignals == 3
  let ok := ok && gives (side.timestamp 0) 1483228800
  let ok := ok && almostRes (side.signal (0) (0)) ((.ok (f (10))))
  let ok := ok && almostRes (side.signal (0) (1)) ((.ok (f (20))))
  let ok := ok && almostRes (side.signal (0) (2)) ((.ok (f (5))))
  let signals : List F32 := []
  let r := side.signals (0) signals
  let ok := ok && isOk r
  let signals := okOr r []
  let ok := ok && signals.length == 3
  let ok := ok && almostRes ((signals[0]?).elim (.error .outOfRange) .ok) ((.ok (f (10))))
  let ok := ok && almostRes ((signals[1]?).elim (.error .outOfRange) .ok) ((.ok (f (20))))
  let ok := ok && almostRes ((signals[2]?).elim (.error .outOfRange) .ok) ((.ok (f (5))))
  let ok := ok && side.index (1483200000) == (-1)
  let ok := ok && gives (side.indexHint (1483200000) (-1)) (-1)
  let ok := ok && side.index (1483228800) == (0)
  let ok := ok && gives (side.indexHint (1483228800) (-1)) (0)
  let ok := ok && gives (side.indexHint (1483228800) (0)) (0)
  let ok := ok && side.index (1483257600) == (0)
  let ok := ok && gives (side.indexHint (1483257600) (-1)) (0)
  let ok := ok && gives (side.indexHint (1483257600) (0)) (0)
  ok

example : SideInputTest_MultipleSignalsSingleRecord = true := by decide +kernel

/-- base/side_input_test.cc 99 `SideInputTest.OneSignalMultipleRecords`. -/
def SideInputTest_OneSignalMultipleRecords : Bool :=
  let ok := true
  let history : List (SideInputRecord F32) := []
  let history := add8HourSignals [(f (10))] history
  let history := add8HourSignals [(f (20))] history
  let history := add8HourSignals [(f (15))] history
  let history := add8HourSignals [(f (5))] history
  let history := add8HourSignals [(f (30))] history
  let history := add8HourSignals [(f (25))] history
  let history := add8HourSignals [(f (10))] history
  let history := add8HourSignals [(f (15))] history
  let history := add8HourSignals [(f (20))] history
  let history := add8HourSignals [(f (5))] history
  let r := SideInput.make history
  let ok := ok && isOk r
  let side := okOr r ⟨0, [], []⟩
  let ok := ok && side.numRecords == 10
  let ok := ok && side.numSignals == 1
  let ok := ok && gives (side.timestamp 0) 1483228800
  let ok := ok && gives (side.timestamp 1) 1483257600
  let ok := ok && gives (side.timestamp 2) 1483286400
  let ok := ok && gives (side.timestamp 3) 1483315200
  let ok := ok && gives (side.timestamp 4) 1483344000
  let ok := ok && gives (side.timestamp 5) 1483372800
  let ok := ok && gives (side.timestamp 6) 1483401600
  let ok := ok && gives (side.timestamp 7) 1483430400
  let ok := ok && gives (side.timestamp 8) 1483459200
  let ok := ok && gives (side.timestamp 9) 1483488000
  let ok := ok && almostRes (side.signal (0) (0)) ((.ok (f (10))))
  let ok := ok && almostRes (side.signal (1) (0)) ((.ok (f (20))))
  let ok := ok && almostRes (side.signal (2) (0)) ((.ok (f (15))))
  let ok := ok && almostRes (side.signal (3) (0)) ((.ok (f (5))))
  let ok := ok && almostRes (side.signal (4) (0)) ((.ok (f (30))))
  let ok := ok && almostRes (side.signal (5) (0)) ((.ok (f (25))))
  let ok := ok && almostRes (side.signal (6) (0)) ((.ok (f (10))))
  let ok := ok && almostRes (side.signal (7) (0)) ((.ok (f (15))))
  let ok := ok && almostRes (side.signal (8) (0)) ((.ok (f (20))))
  let ok := ok && almostRes (side.signal (9) (0)) ((.ok (f (5))))
  let signals : List F32 := []
  let r := side.signals (0) signals
  let ok := ok && isOk r
  let signals := okOr r []
  let ok := ok && signals.length == 1
  let ok := ok && almostRes ((signals[0]?).elim (.error .outOfRange) .ok) (side.signal (0) (0))
  let signals : List F32 := []
  let r := side.signals (1) signals
  let ok := ok && isOk r
  let signals := okOr r []
  let ok := ok && signals.length == 1
  let ok := ok && almostRes ((signals[0]?).elim (.error .outOfRange) .ok) (side.signal (1) (0))
  let signals : List F32 := []
  let r := side.signals (2) signals
  let ok := ok && isOk r
  let signals := okOr r []
  let ok := ok && signals.length == 1
  let ok := ok && almostRes ((signals[0]?).elim (.error .outOfRange) .ok) (side.signal (2) (0))
  let signals : List F32 := []
  let r := side.signals (3) signals
  let ok := ok && isOk r
  let signals := okOr r []
  let ok := ok && signals.length == 1
  let ok := ok && almostRes ((signals[0]?).elim (.error .outOfRange) .ok) (side.signal (3) (0))
  let signals : List F32 := []
  let r := side.signals (4) signals
  let ok := ok && isOk r
  let signals := okOr r []
  let ok := ok && signals.length == 1
  let ok := ok && almostRes ((signals[0]?).elim (.error .outOfRange) .ok) (side.signal (4) (0))
  let signals : List F32 := []
  let r := side.signals (5) signals
  let ok := ok && isOk r
  let signals := okOr r []
  let ok := ok && signals.length == 1
  let ok := ok && almostRes ((signals[0]?).elim (.error .outOfRange) .ok) (side.signal (5) (0))
  let signals : List F32 := []
  let r := side.signals (6) signals
  let ok := ok && isOk r
  let signals := okOr r []
  let ok := ok && signals.length == 1
  let ok := ok && almostRes ((signals[0]?).elim (.error .outOfRange) .ok) (side.signal (6) (0))
  let signals : List F32 := []
  let r := side.signals (7) signals
  let ok := ok && isOk r
  let signals := okOr r []
  let ok := ok && signals.length == 1
  let ok := ok && almostRes ((signals[0]?).elim (.error .outOfRange) .ok) (side.signal (7) (0))
  let signals : List F32 := []
  let r := side.signals (8) signals
  let ok := ok && isOk r
  let signals := okOr r []
  let ok := ok && signals.length == 1
  let ok := ok && almostRes ((signals[0]?).elim (.error .outOfRange) .ok) (side.signal (8) (0))
  let signals : List F32 := []
  let r := side.signals (9) signals
  let ok := ok && isOk r
  let signals := okOr r []
  let ok := ok && signals.length == 1
  let ok := ok && almostRes ((signals[0]?).elim (.error .outOfRange) .ok) (side.signal (9) (0))
  let signals : List F32 := []
  let ok := ok && side.index (1483200000) == (-1)
  let ok := ok && gives (side.indexHint (1483200000) (-1)) (-1)
  let ok := ok && side.index (1483228800) == (0)
  let ok := ok && gives (side.indexHint (1483228800) (-1)) (0)
  let ok := ok && gives (side.indexHint (1483228800) (0)) (0)
  let ok := ok && side.index (1483243200) == (0)
  let ok := ok && gives (side.indexHint (1483243200) (-1)) (0)
  let ok := ok && gives (side.indexHint (1483243200) (0)) (0)
  let ok := ok && side.index (1483257600) == (1)
  let ok := ok && gives (side.indexHint (1483257600) (-1)) (1)
  let ok := ok && gives (side.indexHint (1483257600) (0)) (1)
  let ok := ok && gives (side.indexHint (1483257600) (1)) (1)
  let ok := ok && side.index (1483272000) == (1)
  let ok := ok && gives (side.indexHint (1483272000) (-1)) (1)
  let ok := ok && gives (side.indexHint (1483272000) (0)) (1)
  let ok := ok && gives (side.indexHint (1483272000) (1)) (1)
  let ok := ok && side.index (1483286400) == (2)
  let ok := ok && gives (side.indexHint (1483286400) (-1)) (2)
  let ok := ok && gives (side.indexHint (1483286400) (0)) (2)
  let ok := ok && gives (side.indexHint (1483286400) (1)) (2)
  let ok := ok && gives (side.indexHint (1483286400) (2)) (2)
  let ok := ok && side.index (1483300800) == (2)
  let ok := ok && gives (side.indexHint (1483300800) (-1)) (2)
  let ok := ok && gives (side.indexHint (1483300800) (0)) (2)
  let ok := ok && gives (side.indexHint (1483300800) (1)) (2)
  let ok := ok && gives (side.indexHint (1483300800) (2)) (2)
  let ok := ok && side.index (1483315200) == (3)
  let ok := ok && side.index (1483329600) == (3)
  let ok := ok && gives (side.indexHint (1483315200) (-1)) (3)
  let ok := ok && gives (side.indexHint (1483329600) (-1)) (3)
  let ok := ok && gives (side.indexHint (1483315200) (0)) (3)
  let ok := ok && gives (side.indexHint (1483329600) (0)) (3)
  let ok := ok && gives (side.indexHint (1483315200) (1)) (3)
  let ok := ok && gives (side.indexHint (1483329600) (1)) (3)
  let ok := ok && gives (side.indexHint (1483315200) (2)) (3)
  let ok := ok && gives (side.indexHint (1483329600) (2)) (3)
  let ok := ok && gives (side.indexHint (1483315200) (3)) (3)
  let ok := ok && gives (side.indexHint (1483329600) (3)) (3)
  let ok := ok && side.index (1483344000) == (4)
  let ok := ok && side.index (1483358400) == (4)
  let ok := ok && gives (side.indexHint (1483344000) (-1)) (4)
  let ok := ok && gives (side.indexHint (1483358400) (-1)) (4)
  let ok := ok && gives (side.indexHint (1483344000) (0)) (4)
  let ok := ok && gives (side.indexHint (1483358400) (0)) (4)
  let ok := ok && gives (side.indexHint (1483344000) (1)) (4)
  let ok := ok && gives (side.indexHint (1483358400) (1)) (4)
  let ok := ok && gives (side.indexHint (1483344000) (2)) (4)
  let ok := ok && gives (side.indexHint (1483358400) (2)) (4)
  let ok := ok && gives (side.indexHint (1483344000) (3)) (4)
  let ok := ok && gives (side.indexHint (1483358400) (3)) (4)
  let ok := ok && gives (side.indexHint (1483344000) (4)) (4)
  let ok := ok && gives (side.indexHint (1483358400) (4)) (4)
  let ok := ok && side.index (1483372800) == (5)
  let ok := ok && side.index (1483387200) == (5)
  let ok := ok && gives (side.indexHint (1483372800) (-1)) (5)
  let ok := ok && gives (side.indexHint (1483387200) (-1)) (5)
  let ok := ok && gives (side.indexHint (1483372800) (0)) (5)
  let ok := ok && gives (side.indexHint (1483387200) (0)) (5)
  let ok := ok && gives (side.indexHint (1483372800) (1)) (5)
  let ok := ok && gives (side.indexHint (1483387200) (1)) (5)
  let ok := ok && gives (side.indexHint (1483372800) (2)) (5)
  let ok := ok && gives (side.indexHint (1483387200) (2)) (5)
  let ok := ok && gives (side.indexHint (1483372800) (3)) (5)
  let ok := ok && gives (side.indexHint (1483387200) (3)) (5)
  let ok := ok && gives (side.indexHint (1483372800) (4)) (5)
  let ok := ok && gives (side.indexHint (1483387200) (4)) (5)
  let ok := ok && gives (side.indexHint (1483372800) (5)) (5)
  let ok := ok && gives (side.indexHint (1483387200) (5)) (5)
  let ok := ok && side.index (1483401600) == (6)
  let ok := ok && side.index (1483416000) == (6)
  let ok := ok && gives (side.indexHint (1483401600) (-1)) (6)
  let ok := ok && gives (side.indexHint (1483416000) (-1)) (6)
  let ok := ok && gives (side.indexHint (1483401600) (0)) (6)
  let ok := ok && gives (side.indexHint (1483416000) (0)) (6)
  let ok := ok && gives (side.indexHint (1483401600) (1)) (6)
  let ok := ok && gives (side.indexHint (1483416000) (1)) (6)
  let ok := ok && gives (side.indexHint (1483401600) (2)) (6)
  let ok := ok && gives (side.indexHint (1483416000) (2)) (6)
  let ok := ok && gives (side.indexHint (1483401600) (3)) (6)
  let ok := ok && gives (side.indexHint (1483416000) (3)) (6)
  let ok := ok && gives (side.indexHint (1483401600) (4)) (6)
  let ok := ok && gives (side.indexHint (1483416000) (4)) (6)
  let ok := ok && gives (side.indexHint (1483401600) (5)) (6)
  let ok := ok && gives (side.indexHint (1483416000) (5)) (6)
  let ok := ok && gives (side.indexHint (1483401600) (6)) (6)
  let ok := ok && gives (side.indexHint (1483416000) (6)) (6)
  let ok := ok && side.index (1483430400) == (7)
  let ok := ok && side.index (1483444800) == (7)
  let ok := ok && gives (side.indexHint (1483430400) (-1)) (7)
  let ok := ok && gives (side.indexHint (1483444800) (-1)) (7)
  let ok := ok && gives (side.indexHint (1483430400) (0)) (7)
  let ok := ok && gives (side.indexHint (1483444800) (0)) (7)
  let ok := ok && gives (side.indexHint (1483430400) (1)) (7)
  let ok := ok && gives (side.indexHint (1483444800) (1)) (7)
  let ok := ok && gives (side.indexHint (1483430400) (2)) (7)
  let ok := ok && gives (side.indexHint (1483444800) (2)) (7)
  let ok := ok && gives (side.indexHint (1483430400) (3)) (7)
  let ok := ok && gives (side.indexHint (1483444800) (3)) (7)
  let ok := ok && gives (side.indexHint (1483430400) (4)) (7)
  let ok := ok && gives (side.indexHint (1483444800) (4)) (7)
  let ok := ok && gives (side.indexHint (1483430400) (5)) (7)
  let ok := ok && gives (side.indexHint (1483444800) (5)) (7)
  let ok := ok && gives (side.indexHint (1483430400) (6)) (7)
  let ok := ok && gives (side.indexHint (1483444800) (6)) (7)
  let ok := ok && gives (side.indexHint (1483430400) (7)) (7)
  let ok := ok && gives (side.indexHint (1483444800) (7)) (7)
  let ok := ok && side.index (1483459200) == (8)
  let ok := ok && side.index (1483473600) == (8)
  let ok := ok && gives (side.indexHint (1483459200) (-1)) (8)
  let ok := ok && gives (side.indexHint (1483473600) (-1)) (8)
  let ok := ok && gives (side.indexHint (1483459200) (0)) (8)
  let ok := ok && gives (side.indexHint (1483473600) (0)) (8)
  let ok := ok && gives (side.indexHint (1483459200) (1)) (8)
  let ok := ok && gives (side.indexHint (1483473600) (1)) (8)
  let ok := ok && gives (side.indexHint (1483459200) (2)) (8)
  let ok := ok && gives (side.indexHint (1483473600) (2)) (8)
  let ok := ok && gives (side.indexHint (1483459200) (3)) (8)
  let ok := ok && gives (side.indexHint (1483473600) (3)) (8)
  let ok := ok && gives (side.indexHint (1483459200) (4)) (8)
  let ok := ok && gives (side.indexHint (1483473600) (4)) (8)
  let ok := ok && gives (side.indexHint (1483459200) (5)) (8)
  let ok := ok && gives (side.indexHint (1483473600) (5)) (8)
  let ok := ok && gives (side.indexHint (1483459200) (6)) (8)
  let ok := ok && gives (side.indexHint (1483473600) (6)) (8)
  let ok := ok && gives (side.indexHint (1483459200) (7)) (8)
  let ok := ok && gives (side.indexHint (1483473600) (7)) (8)
  let ok := ok && gives (side.indexHint (1483459200) (8)) (8)
  let ok := ok && gives (side.indexHint (1483473600) (8)) (8)
  let ok := ok && side.index (1483488000) == (9)
  let ok := ok && side.index (1483502400) == (9)
  let ok := ok && gives (side.indexHint (1483488000) (-1)) (9)
  let ok := ok && gives (side.indexHint (1483502400) (-1)) (9)
  let ok := ok && gives (side.indexHint (1483488000) (0)) (9)
  let ok := ok && gives (side.indexHint (1483502400) (0)) (9)
  let ok := ok && gives (side.indexHint (1483488000) (1)) (9)
  let ok := ok && gives (side.indexHint (1483502400) (1)) (9)
  let ok := ok && gives (side.indexHint (1483488000) (2)) (9)
  let ok := ok && gives (side.indexHint (1483502400) (2)) (9)
  let ok := ok && gives (side.indexHint (1483488000) (3)) (9)
  let ok := ok && gives (side.indexHint (1483502400) (3)) (9)
  let ok := ok && gives (side.indexHint (1483488000) (4)) (9)
  let ok := ok && gives (side.indexHint (1483502400) (4)) (9)
  let ok := ok && gives (side.indexHint (1483488000) (5)) (9)
  let ok := ok && gives (side.indexHint (1483502400) (5)) (9)
  let ok := ok && gives (side.indexHint (1483488000) (6)) (9)
  let ok := ok && gives (side.indexHint (1483502400) (6)) (9)
  let ok := ok && gives (side.indexHint (1483488000) (7)) (9)
  let ok := ok && gives (side.indexHint (1483502400) (7)) (9)
  let ok := ok && gives (side.indexHint (1483488000) (8)) (9)
  let ok := ok && gives (side.indexHint (1483502400) (8)) (9)
  let ok := ok && gives (side.indexHint (1483488000) (9)) (9)
  let ok := ok && gives (side.indexHint (1483502400) (9)) (9)
  ok

example : SideInputTest_OneSignalMultipleRecords = true := by decide +kernel

/-- base/side_input_test.cc 200 `SideInputTest.MultipleSignalsMultipleRecords`. -/
def SideInputTest_MultipleSignalsMultipleRecords : Bool :=
  let ok := true
  let history : List (SideInputRecord F32) := []
  let history := add8HourSignals [(f (10)), (f (5)), (f (15))] history
  let history := add8HourSignals [(f (20)), (f (10)), (f (30))] history
  let history := add8HourSignals [(f (15)), (f (20)), (f (5))] history
  let history := add8HourSignals [(f (5)), (f (10)), (f (5))] history
  let history := add8HourSignals [(f (30)), (f (20)), (f (15))] history
  let history := add8HourSignals [(f (25)), (f (20)), (f (10))] history
  let history := add8HourSignals [(f (10)), (f (10)), (f (15))] history
  let history := add8HourSignals [(f (15)), (f (5)), (f (30))] history
  let history := add8HourSignals [(f (20)), (f (15)), (f (20))] history
  let history := add8HourSignals [(f (5)), (f (25)), (f (10))] history
  let r := SideInput.make history
  let ok := ok && isOk r
  let side := okOr r ⟨0, [], []⟩
  let ok := ok && side.numRecords == 10
  let ok := ok && side.numSignals == 3
  let ok := ok && gives (side.timestamp 0) 1483228800
  let ok := ok && gives (side.timestamp 1) 1483257600
  let ok := ok && gives (side.timestamp 2) 1483286400
  let ok := ok && gives (side.timestamp 3) 1483315200
  let ok := ok && gives (side.timestamp 4) 1483344000
  let ok := ok && gives (side.timestamp 5) 1483372800
  let ok := ok && gives (side.timestamp 6) 1483401600
  let ok := ok && gives (side.timestamp 7) 1483430400
  let ok := ok && gives (side.timestamp 8) 1483459200
  let ok := ok && gives (side.timestamp 9) 1483488000
  let ok := ok && almostRes (side.signal (0) (0)) ((.ok (f (10))))
  let ok := ok && almostRes (side.signal (1) (0)) ((.ok (f (20))))
  let ok := ok && almostRes (side.signal (2) (0)) ((.ok (f (15))))
  let ok := ok && almostRes (side.signal (3) (0)) ((.ok (f (5))))
  let ok := ok && almostRes (side.signal (4) (0)) ((.ok (f (30))))
  let ok := ok && almostRes (side.signal (5) (0)) ((.ok (f (25))))
  let ok := ok && almostRes (side.signal (6) (0)) ((.ok (f (10))))
  let ok := ok && almostRes (side.signal (7) (0)) ((.ok (f (15))))
  let ok := ok && almostRes (side.signal (8) (0)) ((.ok (f (20))))
  let ok := ok && almostRes (side.signal (9) (0)) ((.ok (f (5))))
  let ok := ok && almostRes (side.signal (0) (1)) ((.ok (f (5))))
  let ok := ok && almostRes (side.signal (1) (1)) ((.ok (f (10))))
  let ok := ok && almostRes (side.signal (2) (1)) ((.ok (f (20))))
  let ok := ok && almostRes (side.signal (3) (1)) ((.ok (f (10))))
  let ok := ok && almostRes (side.signal (4) (1)) ((.ok (f (20))))
  let ok := ok && almostRes (side.signal (5) (1)) ((.ok (f (20))))
  let ok := ok && almostRes (side.signal (6) (1)) ((.ok (f (10))))
  let ok := ok && almostRes (side.signal (7) (1)) ((.ok (f (5))))
  let ok := ok && almostRes (side.signal (8) (1)) ((.ok (f (15))))
  let ok := ok && almostRes (side.signal (9) (1)) ((.ok (f (25))))
  let ok := ok && almostRes (side.signal (0) (2)) ((.ok (f (15))))
  let ok := ok && almostRes (side.signal (1) (2)) ((.ok (f (30))))
  let ok := ok && almostRes (side.signal (2) (2)) ((.ok (f (5))))
  let ok := ok && almostRes (side.signal (3) (2)) ((.ok (f (5))))
  let ok := ok && almostRes (side.signal (4) (2)) ((.ok (f (15))))
  let ok := ok && almostRes (side.signal (5) (2)) ((.ok (f (10))))
  let ok := ok && almostRes (side.signal (6) (2)) ((.ok (f (15))))
  let ok := ok && almostRes (side.signal (7) (2)) ((.ok (f (30))))
  let ok := ok && almostRes (side.signal (8) (2)) ((.ok (f (20))))
  let ok := ok && almostRes (side.signal (9) (2)) ((.ok (f (10))))
  let signals : List F32 := []
  let r := side.signals (0) signals
  let ok := ok && isOk r
  let signals := okOr r []
  let ok := ok && signals.length == 3
  let ok := ok && almostRes (side.signal (0) (0)) ((signals[0]?).elim (.error .outOfRange) .ok)
  let ok := ok && almostRes (side.signal (0) (1)) ((signals[1]?).elim (.error .outOfRange) .ok)
  let ok := ok && almostRes (side.signal (0) (2)) ((signals[2]?).elim (.error .outOfRange) .ok)
  let signals : List F32 := []
  let r := side.signals (1) signals
  let ok := ok && isOk r
  let signals := okOr r []
  let ok := ok && signals.length == 3
  let ok := ok && almostRes (side.signal (1) (0)) ((signals[0]?).elim (.error .outOfRange) .ok)
  let ok := ok && almostRes (side.signal (1) (1)) ((signals[1]?).elim (.error .outOfRange) .ok)
  let ok := ok && almostRes (side.signal (1) (2)) ((signals[2]?).elim (.error .outOfRange) .ok)
  let signals : List F32 := []
  let r := side.signals (2) signals
  let ok := ok && isOk r
  let signals := okOr r []
  let ok := ok && signals.length == 3
  let ok := ok && almostRes (side.signal (2) (0)) ((signals[0]?).elim (.error .outOfRange) .ok)
  let ok := ok && almostRes (side.signal (2) (1)) ((signals[1]?).elim (.error .outOfRange) .ok)
  let ok := ok && almostRes (side.signal (2) (2)) ((signals[2]?).elim (.error .outOfRange) .ok)
  let signals : List F32 := []
  let r := side.signals (3) signals
  let ok := ok && isOk r
  let signals := okOr r []
  let ok := ok && signals.length == 3
  let ok := ok && almostRes (side.signal (3) (0)) ((signals[0]?).elim (.error .outOfRange) .ok)
  let ok := ok && almostRes (side.signal (3) (1)) ((signals[1]?).elim (.error .outOfRange) .ok)
  let ok := ok && almostRes (side.signal (3) (2)) ((signals[2]?).elim (.error .outOfRange) .ok)
  let signals : List F32 := []
  let r := side.signals (4) signals
  let ok := ok && isOk r
  let signals := okOr r []
  let ok := ok && signals.length == 3
  let ok := ok && almostRes (side.signal (4) (0)) ((signals[0]?).elim (.error .outOfRange) .ok)
  let ok := ok && almostRes (side.signal (4) (1)) ((signals[1]?).elim (.error .outOfRange) .ok)
  let ok := ok && almostRes (side.signal (4) (2)) ((signals[2]?).elim (.error .outOfRange) .ok)
  let signals : List F32 := []
  let r := side.signals (5) signals
  let ok := ok && isOk r
  let signals := okOr r []
  let ok := ok && signals.length == 3
  let ok := ok && almostRes (side.signal (5) (0)) ((signals[0]?).elim (.error .outOfRange) .ok)
  let ok := ok && almostRes (side.signal (5) (1)) ((signals[1]?).elim (.error .outOfRange) .ok)
  let ok := ok && almostRes (side.signal (5) (2)) ((signals[2]?).elim (.error .outOfRange) .ok)
  let signals : List F32 := []
  let r := side.signals (6) signals
  let ok := ok && isOk r
  let signals := okOr r []
  let ok := ok && signals.length == 3
  let ok := ok && almostRes (side.signal (6) (0)) ((signals[0]?).elim (.error .outOfRange) .ok)
  let ok := ok && almostRes (side.signal (6) (1)) ((signals[1]?).elim (.error .outOfRange) .ok)
  let ok := ok && almostRes (side.signal (6) (2)) ((signals[2]?).elim (.error .outOfRange) .ok)
  let signals : List F32 := []
  let r := side.signals (7) signals
  let ok := ok && isOk r
  let signals := okOr r []
  let ok := ok && signals.length == 3
  let ok := ok && almostRes (side.signal (7) (0)) ((signals[0]?).elim (.error .outOfRange) .ok)
  let ok := ok && almostRes (side.signal (7) (1)) ((signals[1]?).elim (.error .outOfRange) .ok)
  let ok := ok && almostRes (side.signal (7) (2)) ((signals[2]?).elim (.error .outOfRange) .ok)
  let signals : List F32 := []
  let r := side.signals (8) signals
  let ok := ok && isOk r
  let signals := okOr r []
  let ok := ok && signals.length == 3
  let ok := ok && almostRes (side.signal (8) (0)) ((signals[0]?).elim (.error .outOfRange) .ok)
  let ok := ok && almostRes (side.signal (8) (1)) ((signals[1]?).elim (.error .outOfRange) .ok)
  let ok := ok && almostRes (side.signal (8) (2)) ((signals[2]?).elim (.error .outOfRange) .ok)
  let signals : List F32 := []
  let r := side.signals (9) signals
  let ok := ok && isOk r
  let signals := okOr r []
  let ok := ok && signals.length == 3
  let ok := ok && almostRes (side.signal (9) (0)) ((signals[0]?).elim (.error .outOfRange) .ok)
  let ok := ok && almostRes (side.signal (9) (1)) ((signals[1]?).elim (.error .outOfRange) .ok)
  let ok := ok && almostRes (side.signal (9) (2)) ((signals[2]?).elim (.error .outOfRange) .ok)
  let signals : List F32 := []
  let ok := ok && side.index (1483200000) == (-1)
  let ok := ok && side.index (1483214400) == (-1)
  let ok := ok && gives (side.indexHint (1483200000) (-1)) (-1)
  let ok := ok && gives (side.indexHint (1483214400) (-1)) (-1)
  let ok := ok && side.index (1483228800) == (0)
  let ok := ok && side.index (1483243200) == (0)
  let ok := ok && gives (side.indexHint (1483228800) (-1)) (0)
  let ok := ok && gives (side.indexHint (1483243200) (-1)) (0)
  let ok := ok && gives (side.indexHint (1483228800) (0)) (0)
  let ok := ok && gives (side.indexHint (1483243200) (0)) (0)
  let ok := ok && side.index (1483257600) == (1)
  let ok := ok && side.index (1483272000) == (1)
  let ok := ok && gives (side.indexHint (1483257600) (-1)) (1)
  let ok := ok && gives (side.indexHint (1483272000) (-1)) (1)
  let ok := ok && gives (side.indexHint (1483257600) (0)) (1)
  let ok := ok && gives (side.indexHint (1483272000) (0)) (1)
  let ok := ok && gives (side.indexHint (1483257600) (1)) (1)
  let ok := ok && gives (side.indexHint (1483272000) (1)) (1)
  let ok := ok && side.index (1483286400) == (2)
  let ok := ok && side.index (1483300800) == (2)
  let ok := ok && gives (side.indexHint (1483286400) (-1)) (2)
  let ok := ok && gives (side.indexHint (1483300800) (-1)) (2)
  let ok := ok && gives (side.indexHint (1483286400) (0)) (2)
  let ok := ok && gives (side.indexHint (1483300800) (0)) (2)
  let ok := ok && gives (side.indexHint (1483286400) (1)) (2)
  let ok := ok && gives (side.indexHint (1483300800) (1)) (2)
  let ok := ok && gives (side.indexHint (1483286400) (2)) (2)
  let ok := ok && gives (side.indexHint (1483300800) (2)) (2)
  let ok := ok && side.index (1483315200) == (3)
  let ok := ok && side.index (1483329600) == (3)
  let ok := ok && gives (side.indexHint (1483315200) (-1)) (3)
  let ok := ok && gives (side.indexHint (1483329600) (-1)) (3)
  let ok := ok && gives (side.indexHint (1483315200) (0)) (3)
  let ok := ok && gives (side.indexHint (1483329600) (0)) (3)
  let ok := ok && gives (side.indexHint (1483315200) (1)) (3)
  let ok := ok && gives (side.indexHint (1483329600) (1)) (3)
  let ok := ok && gives (side.indexHint (1483315200) (2)) (3)
  let ok := ok && gives (side.indexHint (1483329600) (2)) (3)
  let ok := ok && gives (side.indexHint (1483315200) (3)) (3)
  let ok := ok && gives (side.indexHint (1483329600) (3)) (3)
  let ok := ok && side.index (1483344000) == (4)
  let ok := ok && side.index (1483358400) == (4)
  let ok := ok && gives (side.indexHint (1483344000) (-1)) (4)
  let ok := ok && gives (side.indexHint (1483358400) (-1)) (4)
  let ok := ok && gives (side.indexHint (1483344000) (0)) (4)
  let ok := ok && gives (side.indexHint (1483358400) (0)) (4)
  let ok := ok && gives (side.indexHint (1483344000) (1)) (4)
  let ok := ok && gives (side.indexHint (1483358400) (1)) (4)
  let ok := ok && gives (side.indexHint (1483344000) (2)) (4)
  let ok := ok && gives (side.indexHint (1483358400) (2)) (4)
  let ok := ok && gives (side.indexHint (1483344000) (3)) (4)
  let ok := ok && gives (side.indexHint (1483358400) (3)) (4)
  let ok := ok && gives (side.indexHint (1483344000) (4)) (4)
  let ok := ok && gives (side.indexHint (1483358400) (4)) (4)
  let ok := ok && side.index (1483372800) == (5)
  let ok := ok && side.index (1483387200) == (5)
  let ok := ok && gives (side.indexHint (1483372800) (-1)) (5)
  let ok := ok && gives (side.indexHint (1483387200) (-1)) (5)
  let ok := ok && gives (side.indexHint (1483372800) (0)) (5)
  let ok := ok && gives (side.indexHint (1483387200) (0)) (5)
  let ok := ok && gives (side.indexHint (1483372800) (1)) (5)
  let ok := ok && gives (side.indexHint (1483387200) (1)) (5)
  let ok := ok && gives (side.indexHint (1483372800) (2)) (5)
  let ok := ok && gives (side.indexHint (1483387200) (2)) (5)
  let ok := ok && gives (side.indexHint (1483372800) (3)) (5)
  let ok := ok && gives (side.indexHint (1483387200) (3)) (5)
  let ok := ok && gives (side.indexHint (1483372800) (4)) (5)
  let ok := ok && gives (side.indexHint (1483387200) (4)) (5)
  let ok := ok && gives (side.indexHint (1483372800) (5)) (5)
  let ok := ok && gives (side.indexHint (1483387200) (5)) (5)
  let ok := ok && side.index (1483401600) == (6)
  let ok := ok && side.index (1483416000) == (6)
  let ok := ok && gives (side.indexHint (1483401600) (-1)) (6)
  let ok := ok && gives (side.indexHint (1483416000) (-1)) (6)
  let ok := ok && gives (side.indexHint (1483401600) (0)) (6)
  let ok := ok && gives (side.indexHint (1483416000) (0)) (6)
  let ok := ok && gives (side.indexHint (1483401600) (1)) (6)
  let ok := ok && gives (side.indexHint (1483416000) (1)) (6)
  let ok := ok && gives (side.indexHint (1483401600) (2)) (6)
  let ok := ok && gives (side.indexHint (1483416000) (2)) (6)
  let ok := ok && gives (side.indexHint (1483401600) (3)) (6)
  let ok := ok && gives (side.indexHint (1483416000) (3)) (6)
  let ok := ok && gives (side.indexHint (1483401600) (4)) (6)
  let ok := ok && gives (side.indexHint (1483416000) (4)) (6)
  let ok := ok && gives (side.indexHint (1483401600) (5)) (6)
  let ok := ok && gives (side.indexHint (1483416000) (5)) (6)
  let ok := ok && gives (side.indexHint (1483401600) (6)) (6)
  let ok := ok && gives (side.indexHint (1483416000) (6)) (6)
  let ok := ok && side.index (1483430400) == (7)
  let ok := ok && side.index (1483444800) == (7)
  let ok := ok && gives (side.indexHint (1483430400) (-1)) (7)
  let ok := ok && gives (side.indexHint (1483444800) (-1)) (7)
  let ok := ok && gives (side.indexHint (1483430400) (0)) (7)
  let ok := ok && gives (side.indexHint (1483444800) (0)) (7)
  let ok := ok && gives (side.indexHint (1483430400) (1)) (7)
  let ok := ok && gives (side.indexHint (1483444800) (1)) (7)
  let ok := ok && gives (side.indexHint (1483430400) (2)) (7)
  let ok := ok && gives (side.indexHint (1483444800) (2)) (7)
  let ok := ok && gives (side.indexHint (1483430400) (3)) (7)
  let ok := ok && gives (side.indexHint (1483444800) (3)) (7)
  let ok := ok && gives (side.indexHint (1483430400) (4)) (7)
  let ok := ok && gives (side.indexHint (1483444800) (4)) (7)
  let ok := ok && gives (side.indexHint (1483430400) (5)) (7)
  let ok := ok && gives (side.indexHint (1483444800) (5)) (7)
  let ok := ok && gives (side.indexHint (1483430400) (6)) (7)
  let ok := ok && gives (side.indexHint (1483444800) (6)) (7)
  let ok := ok && gives (side.indexHint (1483430400) (7)) (7)
  let ok := ok && gives (side.indexHint (1483444800) (7)) (7)
  let ok := ok && side.index (1483459200) == (8)
  let ok := ok && side.index (1483473600) == (8)
  let ok := ok && gives (side.indexHint (1483459200) (-1)) (8)
  let ok := ok && gives (side.indexHint (1483473600) (-1)) (8)
  let ok := ok && gives (side.indexHint (1483459200) (0)) (8)
  let ok := ok && gives (side.indexHint (1483473600) (0)) (8)
  let ok := ok && gives (side.indexHint (1483459200) (1)) (8)
  let ok := ok && gives (side.indexHint (1483473600) (1)) (8)
  let ok := ok && gives (side.indexHint (1483459200) (2)) (8)
  let ok := ok && gives (side.indexHint (1483473600) (2)) (8)
  let ok := ok && gives (side.indexHint (1483459200) (3)) (8)
  let ok := ok && gives (side.indexHint (1483473600) (3)) (8)
  let ok := ok && gives (side.indexHint (1483459200) (4)) (8)
  let ok := ok && gives (side.indexHint (1483473600) (4)) (8)
  let ok := ok && gives (side.indexHint (1483459200) (5)) (8)
  let ok := ok && gives (side.indexHint (1483473600) (5)) (8)
  let ok := ok && gives (side.indexHint (1483459200) (6)) (8)
  let ok := ok && gives (side.indexHint (1483473600) (6)) (8)
  let ok := ok && gives (side.indexHint (1483459200) (7)) (8)
  let ok := ok && gives (side.indexHint (1483473600) (7)) (8)
  let ok := ok && gives (side.indexHint (1483459200) (8)) (8)
  let ok := ok && gives (side.indexHint (1483473600) (8)) (8)
  let ok := ok && side.index (1483488000) == (9)
  let ok := ok && side.index (1483502400) == (9)
  let ok := ok && gives (side.indexHint (1483488000) (-1)) (9)
  let ok := ok && gives (side.indexHint (1483502400) (-1)) (9)
  let ok := ok && gives (side.indexHint (1483488000) (0)) (9)
  let ok := ok && gives (side.indexHint (1483502400) (0)) (9)
  let ok := ok && gives (side.indexHint (1483488000) (1)) (9)
  let ok := ok && gives (side.indexHint (1483502400) (1)) (9)
  let ok := ok && gives (side.indexHint (1483488000) (2)) (9)
  let ok := ok && gives (side.indexHint (1483502400) (2)) (9)
  let ok := ok && gives (side.indexHint (1483488000) (3)) (9)
  let ok := ok && gives (side.indexHint (1483502400) (3)) (9)
  let ok := ok && gives (side.indexHint (1483488000) (4)) (9)
  let ok := ok && gives (side.indexHint (1483502400) (4)) (9)
  let ok := ok && gives (side.indexHint (1483488000) (5)) (9)
  let ok := ok && gives (side.indexHint (1483502400) (5)) (9)
  let ok := ok && gives (side.indexHint (1483488000) (6)) (9)
  let ok := ok && gives (side.indexHint (1483502400) (6)) (9)
  let ok := ok && gives (side.indexHint (1483488000) (7)) (9)
  let ok := ok && gives (side.indexHint (1483502400) (7)) (9)
  let ok := ok && gives (side.indexHint (1483488000) (8)) (9)
  let ok := ok && gives (side.indexHint (1483502400) (8)) (9)
  let ok := ok && gives (side.indexHint (1483488000) (9)) (9)
  let ok := ok && gives (side.indexHint (1483502400) (9)) (9)
  ok

example : SideInputTest_MultipleSignalsMultipleRecords = true := by decide +kernel

end Verif.Conformance
