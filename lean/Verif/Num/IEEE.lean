import Verif.Num.FloatOps
import Mathlib.Data.Rat.Floor
import Mathlib.Data.Int.Log

/-!
# An executable IEEE-754 model

Binary floating point with round-to-nearest-even, subnormals, signed zeros, infinities and NaN.  A finite
non-zero value is a rational number; *every operation rounds its exact result* to the format.  (The carrier
also contains rationals that are not representable in the format; universally quantified theorems cover
them too, so they are only stronger.  `Fl.Repr` singles out the representable ones.)
-/

namespace Verif

/-- A binary format: precision `p` bits, smallest positive value `2^emin`, overflow at `2^emax`. -/
structure Fmt where
  p : ℕ
  emin : ℤ
  emax : ℤ
  deriving DecidableEq

/-- IEEE binary32 (`float`). -/
abbrev binary32 : Fmt := ⟨24, -149, 128⟩
/-- IEEE binary64 (`double`). -/
abbrev binary64 : Fmt := ⟨53, -1074, 1024⟩

/-- Floating point data of format `f`. `fin 0` is `+0`. -/
inductive Fl (f : Fmt)
  | nan
  | inf (neg : Bool)
  | negZero
  | fin (q : ℚ)
  deriving DecidableEq

/-- `float`. -/
abbrev F32 := Fl binary32
/-- `double`. -/
abbrev F64 := Fl binary64

/-- Nearest integer, ties to even. -/
def rne (y : ℚ) : ℤ :=
  let n := ⌊y⌋
  let d := y - n
  if d < 1 / 2 then n
  else if 1 / 2 < d then n + 1
  else if n % 2 = 0 then n else n + 1

/-- Spacing of the format's grid around `x ≠ 0`. -/
def ulp (f : Fmt) (x : ℚ) : ℚ := (2 : ℚ) ^ (max (Int.log 2 |x| - (f.p - 1)) f.emin)

/-- The exact value `x` rounded to the grid of the format, ignoring overflow. -/
def rndQ (f : Fmt) (x : ℚ) : ℚ := rne (x / ulp f x) * ulp f x

namespace Fl
variable {f : Fmt}

/-- Round an exact non-zero rational result (sign of an underflowed zero is the sign of `x`). -/
def rnd (f : Fmt) (x : ℚ) : Fl f :=
  let r := rndQ f x
  if (2 : ℚ) ^ f.emax ≤ |r| then .inf (decide (x < 0))
  else if r = 0 then (if x < 0 then .negZero else .fin 0)
  else .fin r

/-- Rounding of a rational (exact zero gives `+0`). -/
def ofRat (f : Fmt) (q : ℚ) : Fl f := if q = 0 then .fin 0 else rnd f q

/-- Sign bit (of a NaN: irrelevant). -/
def signBit : Fl f → Bool
  | nan => false
  | inf s => s
  | negZero => true
  | fin q => decide (q < 0)

/-- The zero with sign bit `s`. -/
def zero (s : Bool) : Fl f := if s then .negZero else .fin 0

/-- Numeric value of a finite datum. -/
def toQ : Fl f → ℚ
  | fin q => q
  | _ => 0

def neg : Fl f → Fl f
  | nan => nan
  | inf s => inf (!s)
  | negZero => fin 0
  | fin q => if q = 0 then negZero else fin (-q)

def add : Fl f → Fl f → Fl f
  | nan, _ => nan
  | _, nan => nan
  | inf s, inf t => if s = t then inf s else nan
  | inf s, _ => inf s
  | _, inf t => inf t
  | negZero, negZero => negZero
  | a, b => ofRat f (a.toQ + b.toQ)

def sub (a b : Fl f) : Fl f := add a (neg b)

def mul : Fl f → Fl f → Fl f
  | nan, _ => nan
  | _, nan => nan
  | inf s, b => if b.toQ = 0 ∧ b ≠ inf true ∧ b ≠ inf false then nan else inf (s != b.signBit)
  | a, inf t => if a.toQ = 0 then nan else inf (a.signBit != t)
  | a, b => if a.toQ * b.toQ = 0 then zero (a.signBit != b.signBit) else rnd f (a.toQ * b.toQ)

def div : Fl f → Fl f → Fl f
  | nan, _ => nan
  | _, nan => nan
  | inf _, inf _ => nan
  | inf s, b => inf (s != b.signBit)
  | a, inf t => zero (a.signBit != t)
  | a, b =>
    if b.toQ = 0 then (if a.toQ = 0 then nan else inf (a.signBit != b.signBit))
    else if a.toQ = 0 then zero (a.signBit != b.signBit)
    else rnd f (a.toQ / b.toQ)

/-- `a < b` (false if either is NaN; `-0 = +0`). -/
def lt : Fl f → Fl f → Bool
  | nan, _ => false
  | _, nan => false
  | inf s, inf t => s && !t
  | inf s, _ => s
  | _, inf t => !t
  | a, b => decide (a.toQ < b.toQ)

def beq : Fl f → Fl f → Bool
  | nan, _ => false
  | _, nan => false
  | inf s, inf t => s == t
  | inf _, _ => false
  | _, inf _ => false
  | a, b => decide (a.toQ = b.toQ)

def le (a b : Fl f) : Bool := lt a b || beq a b

/-- An integer-valued result that keeps the sign bit of its argument when it is zero. -/
def ofIntSigned (s : Bool) (n : ℤ) : Fl f := if n = 0 then zero s else fin n

def floor : Fl f → Fl f
  | fin q => ofIntSigned (decide (q < 0)) ⌊q⌋
  | a => a

def ceil : Fl f → Fl f
  | fin q => ofIntSigned (decide (q < 0)) ⌈q⌉
  | a => a

/-- `std::round`: halves away from zero. -/
def round : Fl f → Fl f
  | fin q => ofIntSigned (decide (q < 0)) (if 0 ≤ q then ⌊q + 1 / 2⌋ else ⌈q - 1 / 2⌉)
  | a => a

/-- Largest finite value of the format. -/
def maxFin (f : Fmt) : Fl f := .fin ((2 ^ f.p - 1) * (2 : ℚ) ^ (f.emax - f.p))

instance instFloatOps : FloatOps (Fl f) where
  add := add
  sub := sub
  mul := mul
  div := div
  neg := neg
  lt := lt
  le := le
  beq := beq
  floor := floor
  ceil := ceil
  round := round
  ofRat := ofRat f
  maxFinite := maxFin f

/-- Conversion between formats (exact when widening representable values). -/
def cvt {g : Fmt} : Fl f → Fl g
  | nan => nan
  | inf s => inf s
  | negZero => negZero
  | fin q => ofRat g q

instance : Wide F32 F64 := ⟨cvt, cvt⟩

end Fl
end Verif
