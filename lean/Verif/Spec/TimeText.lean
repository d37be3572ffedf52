import Verif.Model.TimeText
import Verif.Spec.Calendar

/-!
# Specification: how a time may be written (C78)
-/

namespace Verif.Spec
open Verif.Time Verif.Convert

/-- Only white space. -/
def Blank (s : Text) : Prop := ∀ c ∈ s, isSpace c = true

/-- The next character is not a digit. -/
def NoDigit (s : Text) : Prop := ∀ c, s.head? = some c → c.isDigit = false

/-- The number written with these decimal digits. -/
def decimalValue (s : Text) : ℕ := s.foldl (fun n c => 10 * n + (c.toNat - '0'.toNat)) 0

/-- A natural number in decimal digits, possibly with leading zeros. -/
structure Decimal (n : ℕ) (s : Text) : Prop where
  nonempty : s ≠ []
  digits : ∀ c ∈ s, c.isDigit = true
  value : decimalValue s = n

/-- A number from `lo` to `hi` written with two digits, or with one that no further digit follows. -/
structure Short (lo hi n : ℤ) (s rest : Text) : Prop where
  decimal : Decimal n.toNat s
  low : 0 ≤ n ∧ lo ≤ n
  high : n ≤ hi
  size : s.length ≤ 2
  greedy : s.length = 2 ∨ NoDigit rest

/-- A year: decimal digits, a minus sign before the years before year 0. -/
def YearText (y : ℤ) (s : Text) : Prop :=
  (0 ≤ y ∧ Decimal y.toNat s) ∨ (y < 0 ∧ ∃ s', s = '-' :: s' ∧ Decimal (-y).toNat s')

/-- `year-month-day`, with `rest` behind it. -/
def DateText (y m d : ℤ) (s rest : Text) : Prop :=
  ∃ sy sm sd, YearText y sy ∧ -2 ^ 63 ≤ y ∧ y < 2 ^ 63 ∧ Short 1 12 m sm ['-'] ∧ Short 1 31 d sd rest ∧
    s = sy ++ '-' :: sm ++ '-' :: sd

/-- `hour:minute:second`, with `rest` behind it; the second may be 60. -/
def ClockText (h m sec : ℤ) (s rest : Text) : Prop :=
  ∃ sh sm ss, Short 0 23 h sh [':'] ∧ Short 0 59 m sm [':'] ∧ Short 0 60 sec ss rest ∧ s = sh ++ ':' :: sm ++ ':' :: ss

/-- Exactly two digits. -/
def Two (hi n : ℤ) (s : Text) : Prop := 0 ≤ n ∧ n ≤ hi ∧ s.length = 2 ∧ Decimal n.toNat s

/-- An optional colon. -/
def Colon (s : Text) : Prop := s = [] ∨ s = [':']

/-- `Z`, or a sign with hours, minutes and seconds, of which the later ones can be left out: the offset from UTC. -/
inductive OffsetText : ℤ → Text → Prop
  | zulu (c : Char) (hc : c = 'Z' ∨ c = 'z') : OffsetText 0 [c]
  | hours (sg : Char) (hsg : sg = '+' ∨ sg = '-') (h : ℤ) (sh : Text) (h1 : Two 23 h sh) :
      OffsetText (if sg = '-' then -(h * 3600) else h * 3600) (sg :: sh)
  | minutes (sg : Char) (hsg : sg = '+' ∨ sg = '-') (h m : ℤ) (sh sm co : Text) (h1 : Two 23 h sh) (h2 : Two 59 m sm)
      (hc : Colon co) :
      OffsetText (if sg = '-' then -(h * 3600 + m * 60) else h * 3600 + m * 60) (sg :: (sh ++ (co ++ sm)))
  | seconds (sg : Char) (hsg : sg = '+' ∨ sg = '-') (h m s : ℤ) (sh sm ss co co' : Text) (h1 : Two 23 h sh)
      (h2 : Two 59 m sm) (h3 : Two 59 s ss) (hc : Colon co) (hc' : Colon co') :
      OffsetText (if sg = '-' then -(h * 3600 + m * 60 + s) else h * 3600 + m * 60 + s)
        (sg :: (sh ++ (co ++ (sm ++ (co' ++ ss)))))

/-- What follows the date: nothing, an offset, a clock time, a clock time and an offset, or both in the notation of RFC
3339.  Blanks may stand between the parts (except in RFC 3339) and behind them. -/
inductive TailText : ℤ → ℤ → ℤ → ℤ → Text → Prop
  | date (b : Text) (hb : Blank b) : TailText 0 0 0 0 b
  | dateOffset (b o b' : Text) (off : ℤ) (hb : Blank b) (ho : OffsetText off o) (hb' : Blank b') :
      TailText 0 0 0 off (b ++ (o ++ b'))
  | clock (b c b' : Text) (h m s : ℤ) (hb : Blank b) (hc : ClockText h m s c b') (hb' : Blank b') :
      TailText h m s 0 (b ++ (c ++ b'))
  | clockOffset (b c b' o b'' : Text) (h m s off : ℤ) (hb : Blank b) (hc : ClockText h m s c (b' ++ (o ++ b'')))
      (hb' : Blank b') (ho : OffsetText off o) (hb'' : Blank b'') :
      TailText h m s off (b ++ (c ++ (b' ++ (o ++ b''))))
  | rfc3339 (x : Char) (c o b : Text) (h m s off : ℤ) (hx : x = 'T' ∨ x = 't') (hc : ClockText h m s c (o ++ b))
      (ho : OffsetText off o) (hb : Blank b) : TailText h m s off (x :: (c ++ (o ++ b)))

/-- `s` spells out the civil time `c` at the offset `off` from UTC. -/
def TimeText (s : Text) (c : Civil) (off : ℤ) : Prop :=
  ∃ b date tail, Blank b ∧ DateText c.year c.month c.day date tail ∧ TailText c.hour c.minute c.second off tail ∧
    s = b ++ (date ++ tail)

end Verif.Spec
