import Verif.Num.FloatOps

/-!
# util/time.cc 37-48 and the part of absl's civil time it uses (UTC)

`absl::ToCivilSecond`, the normalising `absl::CivilSecond` constructor and `absl::FromCivil` are a dependency of /repo;
they are modelled by their documented contract: the proleptic Gregorian calendar without time zones and leap seconds.
`Props.C61_*` proves that the functions below are that calendar.  `absl::Time` is an integer number of seconds here (the
timestamps of /repo are whole seconds).
-/

namespace Verif.Time

/-- Day number (days since 1970-01-01) of the first day of month `n`, where `n` counts months from January of year 0:
`n = 12 * year + month - 1`.  The formula is cctz's `ymd_ord` (years counted from March) with day 1.
(Library code called at util/time.cc 38-42.) -/
def monthStart (n : ℤ) : ℤ :=
  let year := (n - 2) / 12
  let month := (n - 2) % 12
  365 * year + year / 4 - year / 100 + year / 400 + (153 * month + 2) / 5 - 719468

/-- Day number of a (possibly not normalised) date: `absl::CivilDay(y, m, d) - absl::CivilDay(1970, 1, 1)`.
(Library code called at util/time.cc 39-42.) -/
def dayNumber (y m d : ℤ) : ℤ := monthStart (12 * y + m - 1) + d - 1

/-- The month (counted as in `monthStart`) containing day `z`: the estimate by the mean length of a month
(146097 / 4800 days) is off by at most one.  (Library code called at util/time.cc 38.) -/
def monthOf (z : ℤ) : ℤ :=
  let est := (z + 719468) * 4800 / 146097 + 2
  if monthStart (est + 1) ≤ z then est + 1 else if monthStart est ≤ z then est else est - 1

/-- A civil second: `absl::CivilSecond`.  (util/time.cc 38-42.) -/
structure Civil where
  year : ℤ
  month : ℤ
  day : ℤ
  hour : ℤ
  minute : ℤ
  second : ℤ
  deriving DecidableEq

/-- `absl::ToCivilSecond(absl::FromUnixSeconds(t), UTC)`.  (util/time.cc 38.) -/
def toCivil (t : ℤ) : Civil :=
  let z := t / 86400
  let s := t % 86400
  let n := monthOf z
  ⟨n / 12, n % 12 + 1, z - monthStart n + 1, s / 3600, s % 3600 / 60, s % 60⟩

/-- `absl::ToUnixSeconds(absl::FromCivil(cs, UTC))`.  (util/time.cc 39-42.) -/
def fromCivil (c : Civil) : ℤ :=
  dayNumber c.year c.month c.day * 86400 + c.hour * 3600 + c.minute * 60 + c.second

/-- The constructor `absl::CivilSecond(y, m, d, hh, mm, ss)`, which normalises out-of-range fields.  (util/time.cc 40-41.) -/
def normalise (y m d hh mm ss : ℤ) : Civil := toCivil (fromCivil ⟨y, m, d, hh, mm, ss⟩)

/-- Range of `int`.  (util/time.cc 37, 45.) -/
def isInt (x : ℤ) : Bool := decide (-2 ^ 31 ≤ x) && decide (x < 2 ^ 31)

/-- util/time.cc 37-48 `AddMonthsToTime`, `AddMonthsToTimestampSec`: `cs.month() + months` is computed in `int`. -/
def addMonths (t months : ℤ) : Res ℤ :=
  let cs := toCivil t
  if isInt (cs.month + months) then
    .ok (fromCivil (normalise cs.year (cs.month + months) cs.day cs.hour cs.minute cs.second))
  else .error .signedOverflow

end Verif.Time
