import Verif.Model.History

/-!
# base/side_input.h, base/side_input.cc
-/

namespace Verif

/-- base/side_input.h 40-46: the private data of `SideInput`. -/
structure SideInput (F : Type) where
  numSignals : ℕ
  timestamps : List ℤ
  data : List F

namespace SideInput
variable {F : Type}

/-- base/side_input.cc 12-21, the loop of the constructor. -/
def buildLoop (numSignals : ℕ) : ℤ → SideInput F → List (SideInputRecord F) → Res (SideInput F)
  | _, s, [] => .ok s
  | prev, s, r :: rest => do
    assertThat (decide (r.signals.length = numSignals))
    assertThat (decide (r.ts > prev))
    buildLoop numSignals r.ts
      { s with timestamps := s.timestamps ++ [r.ts], data := s.data ++ r.signals } rest

/-- base/side_input.cc 7-21, the constructor. `side_history.front()` of an empty history is undefined
behaviour. -/
def make (l : List (SideInputRecord F)) : Res (SideInput F) :=
  match l with
  | [] => .error .undefinedBehaviour
  | r :: _ => buildLoop r.signals.length 0 ⟨r.signals.length, [], []⟩ l

variable (s : SideInput F)

/-- base/side_input.h 20 `GetNumberOfRecords`. -/
def numRecords : ℕ := s.timestamps.length

/-- `vector::at`.  (base/side_input.cc 27, 35, 50-56.) -/
def at' {α : Type} (l : List α) (i : ℤ) : Res α :=
  if i < 0 then .error .outOfRange
  else match l[i.toNat]? with | some x => .ok x | none => .error .outOfRange

/-- base/side_input.h 22-24 `GetSideInputTimestamp`. -/
def timestamp (i : ℤ) : Res ℤ := at' s.timestamps i

/-- base/side_input.cc 23-28 `GetSideInputSignal`. -/
def signal (i j : ℤ) : Res F := do
  assertThat (decide (0 ≤ i) && decide (i < s.numRecords))
  assertThat (decide (0 ≤ j) && decide (j < s.numSignals))
  at' s.data (i * s.numSignals + j)

/-- base/side_input.cc 30-37 `GetSideInputSignals`: appends to `out`. -/
def signals (i : ℤ) (out : List F) : Res (List F) := do
  assertThat (decide (0 ≤ i) && decide (i < s.numRecords))
  (List.range s.numSignals).foldlM (fun out (j : ℕ) => do
    let x ← at' s.data (i * s.numSignals + j)
    return out ++ [x]) out

/-- The comparison of `std::upper_bound`: timestamp `i` is not after `t`.  (base/side_input.cc 40, 59.) -/
def notAfter (t : ℤ) (i : ℕ) : Bool :=
  match s.timestamps[i]? with | some x => !decide (t < x) | none => false

/-- `std::upper_bound` on `timestamps` from index `first`: the index of the first element after `t`.
(base/side_input.cc 40-43, 59-62.) -/
def upperBound (first : ℕ) (t : ℤ) : ℕ :=
  (partitionLoop (s.notAfter t) first (s.timestamps.length - first)).1

/-- base/side_input.cc 39-43 `GetSideInputIndex(timestamp_sec)`. -/
def index (t : ℤ) : ℤ := (s.upperBound 0 t : ℤ) - 1

/-- base/side_input.cc 45-63 `GetSideInputIndex(timestamp_sec, prev_side_input_index)`.
`prev == size - 1` compares after conversion to `size_t`; for non-negative `prev` and a non-empty history
this is the comparison of the values (for `prev = size - 2` the case size = 1 would need `prev = SIZE_MAX`). -/
def indexHint (t prev : ℤ) : Res ℤ :=
  if prev < 0 then .ok (s.index t)
  else do
    let p ← at' s.timestamps prev
    assertThat (decide (t ≥ p))
    -- base/side_input.cc 51-54
    let stay ← if prev = (s.timestamps.length : ℤ) - 1 then pure true
      else do let x ← at' s.timestamps (prev + 1); pure (decide (t < x))
    if stay then return prev
    -- base/side_input.cc 55-58
    let next ← if prev = (s.timestamps.length : ℤ) - 2 then pure true
      else do let x ← at' s.timestamps (prev + 2); pure (decide (t < x))
    if next then return prev + 1
    -- base/side_input.cc 59-62
    return (s.upperBound (prev.toNat + 2) t : ℤ) - 1

end SideInput
end Verif
