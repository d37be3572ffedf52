import Verif.Model.TimeText

/-!
# The common part of util/time_test.cc
-/

namespace Verif.Conformance
open Verif

/-- `ParseTime`, read with `absl::ToUnixSeconds`. -/
def parse (s : String) : Option ℤ := (Time.parseTime s.toList).map Time.Instant.toUnixSeconds

/-- `AddMonthsToTime`; in the tests it does not fail. -/
def monthsLater (t n : ℤ) : ℤ :=
  match Time.addMonths t n with
  | .ok s => s
  | .error _ => 0

/-- `FormatTimeUTC`. -/
def formatTimeUtc (t : ℤ) : List Char := Time.formatTimeUTC (.sec t)

/-- `absl::FormatTime(time, utc)`: the same numbers with a `T` between date and time, and the offset. -/
def rfc3339 (t : ℤ) : List Char :=
  (Time.formatTimeUTC (.sec t)).map (fun c => if c = ' ' then 'T' else c) ++ "+00:00".toList

end Verif.Conformance
