import Verif.Conformance.Prelude
import Verif.Conformance.TimePrelude

/-!
# util/time_test.cc, translated

Generated by tools/gen_conformance.py.
-/

namespace Verif.Conformance
open Verif FloatOps
set_option linter.unusedVariables false
set_option linter.style.longLine false

/-- util/time_test.cc 12 `ParseTimeTest.Basic_Y_m_d_Format`. -/
def ParseTimeTest_Basic_Y_m_d_Format : Bool :=
  let ok := true
  let status := parse "Hello World!"
  let time := status.getD 0
  let ok := ok && status.isNone
  let status := parse "1970-01-01"
  let time := status.getD 0
  let ok := ok && status.isSome
  let ok := ok && rfc3339 time == "1970-01-01T00:00:00+00:00".toList
  let ok := ok && formatTimeUtc time == "1970-01-01 00:00:00".toList
  let status := parse "2000-02-29"
  let time := status.getD 0
  let ok := ok && status.isSome
  let ok := ok && time == 951782400
  let ok := ok && formatTimeUtc time == "2000-02-29 00:00:00".toList
  let status := parse "2017-01-01"
  let time := status.getD 0
  let ok := ok && status.isSome
  let ok := ok && time == 1483228800
  let ok := ok && formatTimeUtc time == "2017-01-01 00:00:00".toList
  let status := parse "2017-01-01 +02:00"
  let time := status.getD 0
  let ok := ok && status.isSome
  let ok := ok && time == 1483221600
  let ok := ok && (parse "2017-00-01").isNone
  let ok := ok && (parse "2017-13-01").isNone
  let ok := ok && (parse "2017-01-00").isNone
  let ok := ok && (parse "2017-01-32").isNone
  ok

example : ParseTimeTest_Basic_Y_m_d_Format = true := by decide +kernel

/-- util/time_test.cc 44 `ParseTimeTest.Extended_Y_m_d_H_M_S_Format`. -/
def ParseTimeTest_Extended_Y_m_d_H_M_S_Format : Bool :=
  let ok := true
  let status := parse "1970-01-01 00:00:00"
  let time := status.getD 0
  let ok := ok && status.isSome
  let ok := ok && rfc3339 time == "1970-01-01T00:00:00+00:00".toList
  let status := parse "2000-02-29 00:00:00"
  let time := status.getD 0
  let ok := ok && status.isSome
  let ok := ok && time == 951782400
  let ok := ok && formatTimeUtc time == "2000-02-29 00:00:00".toList
  let status := parse "2017-01-01 00:05:00"
  let time := status.getD 0
  let ok := ok && status.isSome
  let ok := ok && time == 1483229100
  let ok := ok && formatTimeUtc time == "2017-01-01 00:05:00".toList
  let status := parse "2017-01-01 16:25:15 +02:00"
  let time := status.getD 0
  let ok := ok && status.isSome
  let ok := ok && rfc3339 time == "2017-01-01T14:25:15+00:00".toList
  let ok := ok && formatTimeUtc time == "2017-01-01 14:25:15".toList
  let ok := ok && (parse "2017-01-01 24:00:00").isNone
  let ok := ok && (parse "2017-01-01 00:60:00").isNone
  let ok := ok && (parse "2017-01-01 00:00:70").isNone
  ok

example : ParseTimeTest_Extended_Y_m_d_H_M_S_Format = true := by decide +kernel

/-- util/time_test.cc 71 `ParseTimeTest.RFC3339_Format`. -/
def ParseTimeTest_RFC3339_Format : Bool :=
  let ok := true
  let status := parse "2017-01-01T16:25:15+02:00"
  let time := status.getD 0
  let ok := ok && status.isSome
  let ok := ok && rfc3339 time == "2017-01-01T14:25:15+00:00".toList
  let ok := ok && formatTimeUtc time == "2017-01-01 14:25:15".toList
  ok

example : ParseTimeTest_RFC3339_Format = true := by decide +kernel

/-- util/time_test.cc 80 `AddMonthsToTimeTest.Basic`. -/
def AddMonthsToTimeTest_Basic : Bool :=
  let ok := true
  let status := parse "2021-03-01"
  let time := status.getD 0
  let ok := ok && status.isSome
  let ok := ok && rfc3339 (monthsLater time (0)) == "2021-03-01T00:00:00+00:00".toList
  let ok := ok && gives (Time.addMonths 1614556800 (0)) 1614556800
  let ok := ok && rfc3339 (monthsLater time (1)) == "2021-04-01T00:00:00+00:00".toList
  let ok := ok && gives (Time.addMonths 1614556800 (1)) 1617235200
  let ok := ok && rfc3339 (monthsLater time (15)) == "2022-06-01T00:00:00+00:00".toList
  let ok := ok && gives (Time.addMonths 1614556800 (15)) 1654041600
  let ok := ok && rfc3339 (monthsLater time (-1)) == "2021-02-01T00:00:00+00:00".toList
  let ok := ok && gives (Time.addMonths 1614556800 (-1)) 1612137600
  let ok := ok && rfc3339 (monthsLater time (-3)) == "2020-12-01T00:00:00+00:00".toList
  let ok := ok && gives (Time.addMonths 1614556800 (-3)) 1606780800
  let status := parse "2017-01-01T16:25:15+02:00"
  let time := status.getD 0
  let ok := ok && status.isSome
  let ok := ok && rfc3339 (monthsLater time (0)) == "2017-01-01T14:25:15+00:00".toList
  let ok := ok && gives (Time.addMonths 1483280715 (0)) 1483280715
  let ok := ok && rfc3339 (monthsLater time (5)) == "2017-06-01T14:25:15+00:00".toList
  let ok := ok && gives (Time.addMonths 1483280715 (5)) 1496327115
  let ok := ok && rfc3339 (monthsLater time (12)) == "2018-01-01T14:25:15+00:00".toList
  let ok := ok && gives (Time.addMonths 1483280715 (12)) 1514816715
  let ok := ok && rfc3339 (monthsLater time (-1)) == "2016-12-01T14:25:15+00:00".toList
  let ok := ok && gives (Time.addMonths 1483280715 (-1)) 1480602315
  let ok := ok && rfc3339 (monthsLater time (-12)) == "2016-01-01T14:25:15+00:00".toList
  let ok := ok && gives (Time.addMonths 1483280715 (-12)) 1451658315
  ok

example : AddMonthsToTimeTest_Basic = true := by decide +kernel

end Verif.Conformance
