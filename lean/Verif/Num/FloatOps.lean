import Mathlib.Data.Rat.Defs

/-!
# The arithmetic interface of the model

All model code that computes with C++ `float`/`double` is written over `FloatOps`, a signature
*without laws*.  Theorems stated for every `FloatOps F` therefore hold literally for IEEE-754 floats
(NaN, infinities, signed zeros) as well as for exact arithmetic.
-/

namespace Verif

/-- The primitive floating point operations used by /repo (no laws are assumed).
* `add sub mul div neg`: the arithmetic operators;
* `lt le beq`: the comparisons `<`, `<=`, `==` (IEEE: every comparison with NaN is false);
* `floor ceil round`: `std::floor`, `std::ceil`, `std::round` (halves away from zero);
* `ofRat`: conversion of literals and of integers (`static_cast<float>`, implicit conversions);
* `maxFinite`: `std::numeric_limits<float>::max()`. -/
class FloatOps (F : Type) where
  add : F → F → F
  sub : F → F → F
  mul : F → F → F
  div : F → F → F
  neg : F → F
  lt : F → F → Bool
  le : F → F → Bool
  beq : F → F → Bool
  floor : F → F
  ceil : F → F
  round : F → F
  ofRat : ℚ → F
  maxFinite : F

namespace FloatOps
scoped infixl:65 " +. " => FloatOps.add
scoped infixl:65 " -. " => FloatOps.sub
scoped infixl:70 " *. " => FloatOps.mul
scoped infixl:70 " /. " => FloatOps.div
scoped infix:50 " <. " => FloatOps.lt
scoped infix:50 " <=. " => FloatOps.le
/-- `a > b` in C++ is `b < a`. -/
scoped notation:50 a:51 " >. " b:51 => FloatOps.lt b a
/-- `a >= b` in C++ is `b <= a`. -/
scoped notation:50 a:51 " >=. " b:51 => FloatOps.le b a

variable {F : Type} [FloatOps F]

/-- The float value of the literal `q` / of an integer converted to float. -/
abbrev lit (F : Type) [FloatOps F] (q : ℚ) : F := FloatOps.ofRat q

/-- `std::max(a, b)` = `(a < b) ? b : a` (so the first argument wins on ties and NaN). -/
def fmax (a b : F) : F := if a <. b then b else a

/-- `std::min(a, b)` = `(b < a) ? b : a`. -/
def fmin (a b : F) : F := if b <. a then b else a

end FloatOps

/-- Sign and order laws shared by exact arithmetic and IEEE-754 arithmetic (instances: `Verif/Num/Exact.lean`,
`Verif/Num/IEEELemmas.lean`).  "Not negative" is `lt x 0 = false`, which NaN satisfies. -/
class SignLaws (F : Type) [FloatOps F] : Prop where
  le_of_lt : ∀ a b : F, FloatOps.lt a b = true → FloatOps.le a b = true
  le_refl_zero : FloatOps.le (FloatOps.ofRat 0 : F) (FloatOps.ofRat 0) = true
  not_lt_of_le : ∀ a b : F, FloatOps.le a b = true → FloatOps.lt b a = false
  sub_not_neg : ∀ a b : F, FloatOps.lt a b = false →
    FloatOps.lt (FloatOps.sub a b) (FloatOps.ofRat 0) = false
  add_not_neg : ∀ a b : F, FloatOps.lt a (FloatOps.ofRat 0) = false →
    FloatOps.lt b (FloatOps.ofRat 0) = false → FloatOps.lt (FloatOps.add a b) (FloatOps.ofRat 0) = false
  mul_not_neg : ∀ a b : F, FloatOps.lt (FloatOps.ofRat 0) a = true →
    FloatOps.lt b (FloatOps.ofRat 0) = false → FloatOps.lt (FloatOps.mul a b) (FloatOps.ofRat 0) = false
  div_not_neg : ∀ a b : F, FloatOps.lt (FloatOps.ofRat 0) b = true →
    FloatOps.lt a (FloatOps.ofRat 0) = false → FloatOps.lt (FloatOps.div a b) (FloatOps.ofRat 0) = false
  round_not_neg : ∀ a : F, FloatOps.lt a (FloatOps.ofRat 0) = false →
    FloatOps.lt (FloatOps.round a) (FloatOps.ofRat 0) = false
  ceil_not_neg : ∀ a : F, FloatOps.lt a (FloatOps.ofRat 0) = false →
    FloatOps.lt (FloatOps.ceil a) (FloatOps.ofRat 0) = false
  floor_not_neg : ∀ a : F, FloatOps.lt a (FloatOps.ofRat 0) = false →
    FloatOps.lt (FloatOps.floor a) (FloatOps.ofRat 0) = false
  not_neg_of_not_lt : ∀ u x : F, FloatOps.le (FloatOps.ofRat 0) u = true → FloatOps.lt x u = false →
    FloatOps.lt x (FloatOps.ofRat 0) = false
  not_neg_of_lt : ∀ m x : F, FloatOps.lt m (FloatOps.ofRat 0) = false → FloatOps.lt m x = true →
    FloatOps.lt x (FloatOps.ofRat 0) = false

/-- Conversions between `float` (`F`) and `double` (`D`). -/
class Wide (F : Type) (D : outParam Type) where
  widen : F → D
  narrow : D → F

/-- The libm functions used by /repo; arbitrary functions as far as the model is concerned. -/
class Libm (F : Type) where
  sqrt : F → F
  exp : F → F
  log : F → F
  pow : F → F → F

/-- Abnormal outcomes. `assert` failures are aborts (asserts are enabled in the default bazel build);
the other constructors are undefined behaviour or uncaught C++ exceptions. -/
inductive Fault
  /-- failed `assert`. -/
  | assertion
  /-- access to the front/back/iterator of an empty container, or an inverted iterator range. -/
  | undefinedBehaviour
  /-- `.at()` out of range (`std::out_of_range`) or `reserve` of an impossible size (`std::length_error`). -/
  | outOfRange
  /-- signed integer overflow (undefined behaviour). -/
  | signedOverflow
  deriving DecidableEq, Repr

/-- Result of a C++ call that may abort. -/
abbrev Res (α : Type) := Except Fault α

/-- `assert(b)`. -/
def assertThat (b : Bool) : Res Unit := if b then .ok () else .error .assertion

end Verif
