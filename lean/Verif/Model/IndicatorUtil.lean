import Verif.Model.Base

/-!
# indicators/util.h, indicators/util.cc

Line numbers refer to util.cc unless said otherwise.  Counters of type `int` are natural numbers or integers
(no overflow is modelled: fewer than 2^31 values are added).

`std::pow(x, 2)` with a `float` `x` is evaluated in `double`; it is modelled as the product of the widened values
(in binary64 the product of two widened binary32 numbers is exact).
-/

namespace Verif
open FloatOps

variable {F D : Type} [FloatOps F] [FloatOps D] [Wide F D]

/-- `std::pow(x, 2)`: `double`.  (indicators/util.cc 20-21, 39, 47, 53.) -/
def sq (x : F) : D := Wide.widen x *. Wide.widen x

/-- indicators/util.h 46-58 `SlidingWindowMeanAndVariance`.  `window` is the deque, oldest value first. -/
structure MeanVar (F : Type) where
  windowSize : ℤ
  current : F
  window : List F
  sum : F
  sum2 : F
  num : ℕ
  deriving DecidableEq

namespace MeanVar

/-- indicators/util.h 19-20, the constructor. -/
def make (windowSize : ℤ) : MeanVar F := ⟨windowSize, lit F 0, [], lit F 0, lit F 0, 0⟩

/-- indicators/util.cc 28-33 `GetWindowSize`. -/
def getWindowSize (s : MeanVar F) : ℤ :=
  if s.windowSize = 0 then s.num else min (s.num : ℤ) s.windowSize

/-- indicators/util.cc 7-12 `GetMean`. -/
def getMean (s : MeanVar F) : F :=
  if s.num = 0 then lit F 0 else (s.current +. s.sum) /. lit F s.getWindowSize

/-- indicators/util.cc 14-22 `GetVariance`: the final expression is a `double`, narrowed on return. -/
def getVariance (s : MeanVar F) : F :=
  if s.num = 0 then lit F 0
  else
    let mean : F := (s.current +. s.sum) /. lit F s.getWindowSize
    Wide.narrow ((sq s.current +. Wide.widen s.sum2) /. lit D s.getWindowSize -. (sq mean : D))

/-- indicators/util.cc 24-26 `GetStandardDeviation`. -/
def getStdDev [Libm F] (s : MeanVar F) : F := Libm.sqrt s.getVariance

/-- `window_sum_2_ += std::pow(x, 2)`: computed in `double`, stored as `float`.  (indicators/util.cc 39, 47.) -/
def addSq (s2 x : F) : F := Wide.narrow (Wide.widen s2 +. (sq x : D))

/-- `window_sum_2_ -= std::pow(x, 2)`.  (indicators/util.cc 53.) -/
def subSq (s2 x : F) : F := Wide.narrow (Wide.widen s2 -. (sq x : D))

/-- indicators/util.cc 35-56 `AddNewValue`.  The `front()`/`pop_front()` at 51-54 follow a `push_back`, so the deque is not empty
there; the `[]` case of the `match` is unreachable. -/
def add (s : MeanVar F) (value : F) : MeanVar F :=
  if s.num = 0 ∨ s.windowSize ≤ 1 then
    -- 36-44
    if s.windowSize = 0 then
      { s with
        sum := s.sum +. s.current, sum2 := addSq s.sum2 s.current, current := value, num := s.num + 1 }
    else { s with current := value, num := s.num + 1 }
  else
    -- 45-49
    let window := s.window ++ [s.current]
    let sum := s.sum +. s.current
    let sum2 := addSq s.sum2 s.current
    let s' : MeanVar F := { s with window := window, sum := sum, sum2 := sum2, current := value, num := s.num + 1 }
    -- 50-55
    if (window.length : ℤ) ≥ s.windowSize then
      match window with
      | popped :: rest => { s' with sum := sum -. popped, sum2 := subSq sum2 popped, window := rest }
      | [] => s'
    else s'

/-- indicators/util.cc 58-61 `UpdateCurrentValue`. -/
def update (s : MeanVar F) (value : F) : Res (MeanVar F) := do
  assertThat (decide (s.num ≥ 1))
  return { s with current := value }

end MeanVar

/-- indicators/util.h 84-89 `ExponentialMovingAverageHelper`. -/
structure Ema (F : Type) where
  current : F
  previous : F
  num : ℕ
  deriving DecidableEq

namespace Ema

/-- indicators/util.h 65 (default member initialisers 84-89). -/
def make : Ema F := ⟨lit F 0, lit F 0, 0⟩

/-- indicators/util.cc 69-77 `UpdateCurrentValue`. -/
def update (s : Ema F) (value weight : F) : Res (Ema F) := do
  assertThat (decide (s.num > 0))
  if s.num = 1 then return { s with current := value }
  else return { s with current := weight *. value +. (lit F 1 -. weight) *. s.previous }

/-- indicators/util.cc 63-67 `AddNewValue`. -/
def add (s : Ema F) (value weight : F) : Res (Ema F) :=
  update { s with previous := s.current, num := s.num + 1 } value weight

end Ema

/-- indicators/util.h 123-132 `SlidingWindowMinimum`.  `window` is the deque with its back first (`head` = `back()`). -/
structure SlidingMin (F : Type) where
  windowSize : ℕ
  current : F
  minimum : F
  window : List (F × ℕ)
  num : ℕ
  deriving DecidableEq

namespace SlidingMin

/-- indicators/util.h 98-100, the constructor. -/
def make (windowSize : ℤ) : Res (SlidingMin F) := do
  assertThat (decide (windowSize > 0))
  return ⟨windowSize.toNat, lit F 0, lit F 0, [], 0⟩

/-- indicators/util.cc 89-91: pop from the back while `back().first >= x`. -/
def popBack (x : F) : List (F × ℕ) → List (F × ℕ)
  | [] => []
  | b :: rest => if b.1 >=. x then popBack x rest else b :: rest

/-- indicators/util.cc 95-97: pop from the front while `num_values_ - front().second + 1 >= window_size_`.  `front()` of an empty
deque is undefined behaviour.  The argument is the deque with its front first. -/
def popFront (num windowSize : ℕ) : List (F × ℕ) → Res (List (F × ℕ))
  | [] => .error .undefinedBehaviour
  | f :: rest =>
    if (num : ℤ) - f.2 + 1 ≥ windowSize then popFront num windowSize rest else .ok (f :: rest)

/-- indicators/util.cc 102-108 `UpdateCurrentValue`. -/
def update (s : SlidingMin F) (value : F) : Res (SlidingMin F) := do
  assertThat (decide (s.num ≥ 1))
  return { s with
    current := value
    minimum := match s.window.getLast? with
      | none => value
      | some f => fmin f.1 value }

/-- indicators/util.cc 79-100 `AddNewValue`. -/
def add (s : SlidingMin F) (value : F) : Res (SlidingMin F) :=
  if s.num = 0 ∨ s.windowSize = 1 then
    .ok { s with current := value, minimum := value, num := s.num + 1 }
  else do
    let pushed := (s.current, s.num) :: popBack s.current s.window
    let front ← popFront s.num s.windowSize pushed.reverse
    update { s with window := front.reverse, num := s.num + 1 } value

/-- indicators/util.h 104-106 `GetSlidingWindowMinimum`. -/
def get (s : SlidingMin F) : F := s.minimum

/-- indicators/util.h 112 `GetWindowSize`. -/
def getWindowSize (s : SlidingMin F) : ℕ := min s.num s.windowSize

end SlidingMin

/-- indicators/util.h 137-168 `SlidingWindowMaximum`: the minimum of the negated values. -/
structure SlidingMax (F : Type) where
  inner : SlidingMin F
  deriving DecidableEq

namespace SlidingMax

/-- indicators/util.h 141-142. -/
def make (windowSize : ℤ) : Res (SlidingMax F) := return ⟨← SlidingMin.make windowSize⟩

/-- indicators/util.h 146-148. -/
def get (s : SlidingMax F) : F := FloatOps.neg s.inner.get

/-- indicators/util.h 154 `GetWindowSize`. -/
def getWindowSize (s : SlidingMax F) : ℕ := s.inner.getWindowSize

/-- indicators/util.h 158. -/
def add (s : SlidingMax F) (value : F) : Res (SlidingMax F) := return ⟨← s.inner.add (FloatOps.neg value)⟩

/-- indicators/util.h 162-164. -/
def update (s : SlidingMax F) (value : F) : Res (SlidingMax F) :=
  return ⟨← s.inner.update (FloatOps.neg value)⟩

end SlidingMax
end Verif
