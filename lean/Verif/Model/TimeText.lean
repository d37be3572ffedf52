import Verif.Model.Convert

/-!
# util/time.cc 10-35: reading and printing times

`absl::ParseTime` and `absl::FormatTime` (abseil 20211102, cctz `time_zone_format.cc`) are a dependency of /repo.  The part
that the formats of /repo use is modelled from its documentation and source: white space, literal characters, `%Y %m %d %H
%M %S %ET %Ez`, always in UTC.  Texts have no NUL characters (they come from the command line).
-/

namespace Verif.Time
open _root_.Verif.Convert

/-- `absl::Time`, as far as it occurs here: whole seconds since 1970, or one of the two infinities.  (util/time.cc 20-34.) -/
inductive Instant
  | sec (t : ℤ)
  | infiniteFuture
  | infinitePast
  deriving DecidableEq, Repr

/-- `absl::ToUnixSeconds`: saturates.  (util/time.cc 46.) -/
def Instant.toUnixSeconds : Instant → ℤ
  | .sec t => t
  | .infiniteFuture => 2 ^ 63 - 1
  | .infinitePast => -2 ^ 63

/-- cctz `ParseInt`, the loop: reads at most `width` digits.  (Library code called at util/time.cc 23.) -/
def digitsUpTo : ℕ → ℕ → Text → ℕ × Text
  | 0, acc, s => (acc, s)
  | _ + 1, acc, [] => (acc, [])
  | width + 1, acc, c :: rest => match digit? c with
    | some d => digitsUpTo width (10 * acc + d) rest
    | none => (acc, c :: rest)

/-- At most `width` digits, at least one.  (Library code called at util/time.cc 23.) -/
def naturalUpTo (width : ℕ) (s : Text) : Option (ℕ × Text) :=
  match s with
  | [] => none
  | c :: _ => if 0 < width ∧ (digit? c).isSome then some (digitsUpTo width 0 s) else none

/-- cctz `ParseInt(dp, width, min, max, vp)`: an optional minus sign, then digits; at most `width` characters (no limit if
`width` is 0); no "-0"; the value must lie between `min` and `max`.  (The C++ code also stops when the value leaves the
range of its type, which the bounds used here exclude anyway.)  (Library code called at util/time.cc 23.) -/
def parseInt (width : ℕ) (min max : ℤ) (s : Text) : Option (ℤ × Text) :=
  match s with
  | '-' :: rest =>
    match naturalUpTo (if width = 0 then rest.length else width - 1) rest with
    | some (n, rest) => if n ≠ 0 ∧ min ≤ -(n : ℤ) ∧ -(n : ℤ) ≤ max then some (-n, rest) else none
    | none => none
  | _ =>
    match naturalUpTo (if width = 0 then s.length else width) s with
    | some (n, rest) => if min ≤ (n : ℤ) ∧ (n : ℤ) ≤ max then some (n, rest) else none
    | none => none

/-- cctz `ParseOffset` with mode ":", one of the optional parts: a colon or not, and exactly two digits up to 59.
Otherwise nothing is read.  (Library code called at util/time.cc 23.) -/
def offsetPart (s : Text) : Option (ℤ × Text) :=
  let t := match s with | ':' :: rest => rest | _ => s
  match parseInt 2 0 59 t with
  | some (n, rest) => if rest.length + 2 = t.length then some (n, rest) else none
  | none => none

/-- cctz `ParseOffset` with mode ":" (`%Ez`): "Z", or a sign, two digits of hours, and optionally minutes and seconds.
(Library code called at util/time.cc 23.) -/
def parseOffset (s : Text) : Option (ℤ × Text) :=
  match s with
  | [] => none
  | c :: s =>
    if c = '+' ∨ c = '-' then
      match parseInt 2 0 23 s with
      | some (hours, rest) =>
        if rest.length + 2 = s.length then
          let r := match offsetPart rest with
            | none => (hours * 3600, rest)
            | some (minutes, rest) => match offsetPart rest with
              | none => (hours * 3600 + minutes * 60, rest)
              | some (seconds, rest) => (hours * 3600 + minutes * 60 + seconds, rest)
          some (if c = '-' then -r.1 else r.1, r.2)
        else none
      | none => none
    else if c = 'Z' ∨ c = 'z' then some (0, s)
    else none

/-- A piece of a format string.  (util/time.cc 11-15.) -/
inductive Piece
  | blank
  | char (c : Char)
  | year | month | day | hour | minute | second
  | letterT
  | offset
  deriving DecidableEq

/-- The fields read so far: a civil second and an offset from UTC.  (Library code called at util/time.cc 23.) -/
structure Fields where
  civil : Civil
  offset : ℤ
  deriving DecidableEq

/-- cctz `parse`: one piece of the format.  (Library code called at util/time.cc 23.) -/
def Piece.parse (f : Fields) (s : Text) : Piece → Option (Fields × Text)
  | .blank => some (f, s.dropWhile isSpace)
  | .char c => match s with
    | x :: rest => if x = c then some (f, rest) else none
    | [] => none
  | .year => (parseInt 0 (-2 ^ 63) (2 ^ 63 - 1) s).map (fun r => ({ f with civil.year := r.1 }, r.2))
  | .month => (parseInt 2 1 12 s).map (fun r => ({ f with civil.month := r.1 }, r.2))
  | .day => (parseInt 2 1 31 s).map (fun r => ({ f with civil.day := r.1 }, r.2))
  | .hour => (parseInt 2 0 23 s).map (fun r => ({ f with civil.hour := r.1 }, r.2))
  | .minute => (parseInt 2 0 59 s).map (fun r => ({ f with civil.minute := r.1 }, r.2))
  | .second => (parseInt 2 0 60 s).map (fun r => ({ f with civil.second := r.1 }, r.2))
  | .letterT => match s with
    | x :: rest => if x = 'T' ∨ x = 't' then some (f, rest) else none
    | [] => none
  | .offset => (parseOffset s).map (fun r => ({ f with offset := r.1 }, r.2))

/-- cctz `parse`: the loop over the format.  (Library code called at util/time.cc 23.) -/
def parsePieces : List Piece → Fields → Text → Option (Fields × Text)
  | [], f, s => some (f, s)
  | p :: rest, f, s => match p.parse f s with
    | some (f, s) => parsePieces rest f s
    | none => none

/-- cctz `parse`, after the loop: only white space may be left; second 60 means the next full minute; the date must exist;
the result must be representable.  (Library code called at util/time.cc 23.) -/
def fieldsToTime (f : Fields) (s : Text) : Option ℤ :=
  if s.dropWhile isSpace ≠ [] then none
  else
    let offset := if f.civil.second = 60 then f.offset - 1 else f.offset
    let second := if f.civil.second = 60 then 59 else f.civil.second
    let cs := normalise f.civil.year f.civil.month f.civil.day f.civil.hour f.civil.minute second
    if cs.month ≠ f.civil.month ∨ cs.day ≠ f.civil.day then none
    else
      let t := fromCivil cs - offset
      if isInt64 t then some t else none

/-- `absl::ParseTime(format, input, &time, nullptr)`: leading white space is skipped; the two infinities have names.
(Called at util/time.cc 23.) -/
def abslParseTime (format : List Piece) (input : Text) : Option Instant :=
  let s := input.dropWhile isSpace
  let past := "infinite-past".toList
  let future := "infinite-future".toList
  if future.isPrefixOf s ∧ (s.drop future.length).dropWhile isSpace = [] then some .infiniteFuture
  else if past.isPrefixOf s ∧ (s.drop past.length).dropWhile isSpace = [] then some .infinitePast
  else match parsePieces format ⟨⟨1970, 1, 1, 0, 0, 0⟩, 0⟩ s with
    | some (f, rest) => (fieldsToTime f rest).map .sec
    | none => none

/-- `%Y-%m-%d`.  (util/time.cc 12-14.) -/
def dateFormat : List Piece := [.year, .char '-', .month, .char '-', .day]

/-- `%H:%M:%S`.  (util/time.cc 12-13.) -/
def clockFormat : List Piece := [.hour, .char ':', .minute, .char ':', .second]

/-- util/time.cc 11-15 `kAllowedTimeFormats`; `absl::RFC3339_sec` is `"%Y-%m-%d%ET%H:%M:%S%Ez"`. -/
def allowedTimeFormats : List (List Piece) :=
  [dateFormat ++ [.letterT] ++ clockFormat ++ [.offset],
   dateFormat ++ [.blank] ++ clockFormat ++ [.blank, .offset],
   dateFormat ++ [.blank] ++ clockFormat,
   dateFormat ++ [.blank, .offset],
   dateFormat]

/-- util/time.cc 20-31 `ParseTime`: the first format that matches; `none` is the `InvalidArgumentError`. -/
def parseTime (datetime : Text) : Option Instant := allowedTimeFormats.findSome? (abslParseTime · datetime)

/-- `absl::FormatTime("%Y-%m-%d %H:%M:%S", time, UTC)` of a finite time: the year without padding, the others with two
digits.  (util/time.cc 34.) -/
def formatCivil (c : Civil) : Text :=
  printInt c.year ++ '-' :: printInt02 c.month ++ '-' :: printInt02 c.day ++ ' ' :: printInt02 c.hour ++
    ':' :: printInt02 c.minute ++ ':' :: printInt02 c.second

/-- util/time.cc 33-35 `FormatTimeUTC`. -/
def formatTimeUTC : Instant → Text
  | .sec t => formatCivil (toCivil t)
  | .infiniteFuture => "infinite-future".toList
  | .infinitePast => "infinite-past".toList

end Verif.Time
