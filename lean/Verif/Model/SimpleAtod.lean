import Verif.Model.CommandLine
import Verif.Model.Scanf

/-!
# Reading a `double` from the command line

`absl::SimpleAtod` (abseil 20211102.0), which reads the flags of type `double` (convert.cc 38, trader.cc 37-43): blanks around the
number, a sign, then what `absl::from_chars` takes in its general format: `inf`, `infinity`, `nan` (with letters, digits and
underscores in parentheses), a hexadecimal or a decimal number, to the end of the text, rounded to nearest.

Simplification: `absl::from_chars` gives up at 50 million digits; the length of an argument is limited to far less.
-/

namespace Verif.CommandLine
open Verif.Convert
variable {f : Fmt}

/-- The characters in parentheses behind `nan`.  (Flags of type `double`, convert.cc 38, trader.cc 37-43.) -/
def payloadChar (c : Char) : Bool := c.isAlphanum || c = '_'

/-- `nan` as `absl::from_chars` takes it, to the end of the text.  (Flags of type `double`, convert.cc 38, trader.cc 37-43.) -/
def isNan (s : Text) : Bool :=
  (s.take 3).map Char.toLower = "nan".toList &&
    match s.drop 3 with
    | [] => true
    | '(' :: rest => rest.getLast? = some ')' && rest.dropLast.all payloadChar
    | _ => false

/-- A number that `absl::from_chars` takes to the end of the text.  (Flags of type `double`, convert.cc 38, trader.cc 37-43.) -/
def wholeNumber (s : Text) : Option ℚ :=
  let r := match s with
    | '0' :: x :: rest =>
      if x.toLower = 'x' then magnitude hexDigit? 16 2 'p' rest else magnitude digit? 10 10 'e' s
    | _ => magnitude digit? 10 10 'e' s
  match r with
  | some (v, []) => some v
  | _ => none

/-- `absl::SimpleAtod`.  (Flags of type `double`, convert.cc 38, trader.cc 37-43.) -/
def simpleAtod (s : Text) : Option (Fl f) :=
  let p := splitSign (strip s)
  let signed (x : Fl f) : Fl f := if p.1 = ['-'] then Fl.neg x else x
  if p.2.map Char.toLower = "inf".toList ∨ p.2.map Char.toLower = "infinity".toList then some (signed (.inf false))
  else if isNan p.2 then some .nan
  else (wholeNumber p.2).map (fun v => signed (Fl.ofRat f v))

end Verif.CommandLine
