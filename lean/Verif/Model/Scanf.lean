import Verif.Model.Convert
import Verif.Num.IEEE

/-!
# Reading floating point numbers

The rest of the model reads numbers with an arbitrary `Scanner`.  This is the one that convert.cc uses on Linux, in the "C" locale:
`sscanf` with `%f` (convert.cc 84, 140-141) as in glibc, and `istream >> float` (convert.cc 217) as in libstdc++.  Both collect the
characters of a number and hand them to `strtof`.
-/

namespace Verif.Convert
variable {f : Fmt}

/-- The value of a hexadecimal digit.  (Library code called at convert.cc 84, 140-141 (`sscanf`) and 217 (`>>`).) -/
def hexDigit? (c : Char) : Option ℕ :=
  match digit? c with
  | some d => some d
  | none =>
    if 'a' ≤ c ∧ c ≤ 'f' then some (c.toNat - 'a'.toNat + 10)
    else if 'A' ≤ c ∧ c ≤ 'F' then some (c.toNat - 'A'.toNat + 10)
    else none

/-- Reads digits as long as there are any: the value of all digits, the number of those read here, and the rest.
(Library code called at convert.cc 84, 140-141 (`sscanf`) and 217 (`>>`).) -/
def digitRun (digit : Char → Option ℕ) (base : ℕ) : ℕ → ℕ → Text → ℕ × ℕ × Text
  | value, count, [] => (value, count, [])
  | value, count, c :: rest =>
    match digit c with
    | some d => digitRun digit base (base * value + d) (count + 1) rest
    | none => (value, count, c :: rest)

/-- The exponent: the mark, an optional sign, at least one digit; otherwise there is none (and nothing is consumed).
(Library code called at convert.cc 84, 140-141 (`sscanf`) and 217 (`>>`).) -/
def exponentPart (mark : Char) (s : Text) : ℤ × Text :=
  match s with
  | [] => (0, [])
  | c :: rest =>
    if c.toLower = mark then
      match rest with
      | '-' :: more => match natural more with
        | some (n, r) => (-(n : ℤ), r)
        | none => (0, s)
      | '+' :: more => match natural more with
        | some (n, r) => ((n : ℤ), r)
        | none => (0, s)
      | more => match natural more with
        | some (n, r) => ((n : ℤ), r)
        | none => (0, s)
    else (0, s)

/-- Digits with an optional point (at least one digit), and an optional exponent: the exact value.
(Library code called at convert.cc 84, 140-141 (`sscanf`) and 217 (`>>`).) -/
def magnitude (digit : Char → Option ℕ) (base radix : ℕ) (mark : Char) (s : Text) : Option (ℚ × Text) :=
  let w := digitRun digit base 0 0 s
  let fr := match w.2.2 with
    | '.' :: rest => digitRun digit base w.1 0 rest
    | rest => (w.1, 0, rest)
  if w.2.1 + fr.2.1 = 0 then none
  else
    let e := exponentPart mark fr.2.2
    some ((fr.1 : ℚ) / (base : ℚ) ^ fr.2.1 * (radix : ℚ) ^ e.1, e.2)

/-- An optional sign.  (Library code called at convert.cc 84, 140-141 (`sscanf`) and 217 (`>>`).) -/
def splitSign (s : Text) : Text × Text :=
  match s with
  | '-' :: rest => (['-'], rest)
  | '+' :: rest => (['+'], rest)
  | rest => ([], rest)

/-- Whether a text starts with a word, in small or capital letters.
(Library code called at convert.cc 84, 140-141 (`sscanf`) and 217 (`>>`).) -/
def startsWith (word : String) (s : Text) : Bool := (s.take word.toList.length).map Char.toLower = word.toList

/-- `strtof` in the "C" locale, rounding to nearest: the value and what is left, or nothing if there is no number at the beginning.
White space at the beginning and the characters in parentheses that may follow `nan` are left out: neither of the
callers passes them on.  (Library code called at convert.cc 84, 140-141 (`sscanf`) and 217 (`>>`).) -/
def strtof (s : Text) : Option (Fl f × Text) :=
  let p := splitSign s
  let signed (x : Fl f) : Fl f := if p.1 = ['-'] then Fl.neg x else x
  if startsWith "infinity" p.2 then some (signed (.inf false), p.2.drop 8)
  else if startsWith "inf" p.2 then some (signed (.inf false), p.2.drop 3)
  else if startsWith "nan" p.2 then some (.nan, p.2.drop 3)
  else
    let hex := match p.2 with
      | '0' :: x :: rest => if x.toLower = 'x' then magnitude hexDigit? 16 2 'p' rest else none
      | _ => none
    match hex with
    | some (v, rest) => some (signed (Fl.ofRat f v), rest)
    | none => (magnitude digit? 10 10 'e' p.2).map (fun r => (signed (Fl.ofRat f r.1), r.2))

/-- The characters that belong to a number, as glibc's `vfscanf` and libstdc++'s `num_get::_M_extract_float` collect them, and the
rest.  `digit`, `dot`, `exp` say whether a digit, a point and the mark of the exponent have been seen, `last` whether the
mark was the last character.  (Library code called at convert.cc 84, 140-141 (`sscanf`) and 217 (`>>`).) -/
def collect (hex : Bool) (mark : Char) : (digit dot exp last : Bool) → Text → Text × Text
  | _, _, _, _, [] => ([], [])
  | digit, dot, exp, last, c :: rest =>
    if (digit? c).isSome then
      let r := collect hex mark true dot exp false rest
      (c :: r.1, r.2)
    else if !exp && hex && (hexDigit? c).isSome then
      let r := collect hex mark true dot exp false rest
      (c :: r.1, r.2)
    else if exp && last && (c = '-' || c = '+') then
      let r := collect hex mark digit dot exp false rest
      (c :: r.1, r.2)
    else if digit && !exp && c.toLower = mark then
      let r := collect hex mark digit true true true rest
      (mark :: r.1, r.2)
    else if !dot && c = '.' then
      let r := collect hex mark digit true exp false rest
      (c :: r.1, r.2)
    else ([], c :: rest)

/-- `sscanf` with `%f` (glibc): white space, a sign, and then `nan`, `inf`, `infinity`, a hexadecimal or a decimal number.  Once
the first letter is that of a word, the word must be complete.  What was collected is converted by `strtof`; characters that
`strtof` makes no use of (as in `1e,`) are consumed all the same.  (Called at convert.cc 84, 140-141.) -/
def scanFloat (s : Text) : Option (Fl f × Text) :=
  let p := splitSign (s.dropWhile isSpace)
  let convert (word rest : Text) : Option (Fl f × Text) := (strtof (p.1 ++ word)).map (fun r => (r.1, rest))
  if startsWith "n" p.2 then
    if startsWith "nan" p.2 then convert (p.2.take 3) (p.2.drop 3) else none
  else if startsWith "i" p.2 then
    if startsWith "infi" p.2 then
      if startsWith "infinity" p.2 then convert (p.2.take 8) (p.2.drop 8) else none
    else if startsWith "inf" p.2 then convert (p.2.take 3) (p.2.drop 3)
    else none
  else if startsWith "0x" p.2 then
    let b := collect true 'p' false false false false (p.2.drop 2)
    if b.1.isEmpty then none else convert (p.2.take 2 ++ b.1) b.2
  else
    let b := collect false 'e' false false false false p.2
    if b.1.isEmpty then none else convert b.1 b.2

/-- `istream >> float` (libstdc++): white space, a sign, a decimal number, all of which `strtof` must make use of.  A number that is
too large is a failure.  (Called at convert.cc 217.) -/
def streamFloat (s : Text) : Option (Fl f × Text) :=
  let p := splitSign (s.dropWhile isSpace)
  let b := collect false 'e' false false false false p.2
  match strtof (p.1 ++ b.1) with
  | some (.inf _, _) => none
  | some (x, []) => some (x, b.2)
  | _ => none

/-- How convert.cc reads floating point numbers.  (convert.cc 84, 140-141, 217.) -/
def libcScanner : Scanner (Fl f) := ⟨scanFloat, streamFloat⟩

end Verif.Convert
