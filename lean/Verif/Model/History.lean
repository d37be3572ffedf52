import Verif.Model.Base
import Mathlib.Data.List.Sort

/-!
# base/base.h (history subsets), base/history.cc
-/

namespace Verif
open FloatOps

/-! ## Binary search -/

/-- The loop of libstdc++'s `std::lower_bound` / `std::upper_bound` on the index range
`[first, first + len)`; `goRight i` is "element `i` is before the searched position".  Returns the found
index and the list of probed indices.  (Called at base/base.h 60-65 and base/side_input.cc 40, 59.) -/
def partitionLoop (goRight : ℕ → Bool) (first len : ℕ) : ℕ × List ℕ :=
  if h : len = 0 then (first, [])
  else
    let half := len / 2
    let mid := first + half
    if goRight mid then
      let r := partitionLoop goRight (mid + 1) (len - half - 1)
      (r.1, mid :: r.2)
    else
      let r := partitionLoop goRight first half
      (r.1, mid :: r.2)
termination_by len
decreasing_by all_goals omega

/-- base/base.h 55-57 `record_compare` applied to record `i`. -/
def recordBefore {α : Type} (ts : α → ℤ) (l : List α) (t : ℤ) (i : ℕ) : Bool :=
  match l[i]? with | some r => decide (ts r < t) | none => false

/-- `std::lower_bound(history.begin(), history.end(), t, record_compare)` (base/base.h 55-67) as an index.
Probed indices are always in range (`Props.C15_probes`), so the `none` case is never used. -/
def lowerBound {α : Type} (ts : α → ℤ) (l : List α) (t : ℤ) : ℕ × List ℕ :=
  partitionLoop (recordBefore ts l t) 0 l.length

/-- base/base.h 50-69 `HistorySubset`: the two iterators, as indices. -/
def historySubset {α : Type} (ts : α → ℤ) (l : List α) (start stop : ℤ) : ℕ × ℕ :=
  (if start > 0 then (lowerBound ts l start).1 else 0,
   if stop > 0 then (lowerBound ts l stop).1 else l.length)

/-- base/base.h 73-88 `HistorySubsetCopy`. `std::distance` of an inverted range is negative; `reserve`
then throws `std::length_error`. -/
def historySubsetCopy {α : Type} (ts : α → ℤ) (l : List α) (start stop : ℤ) : Res (List α) :=
  let s := historySubset ts l start stop
  let size : ℤ := (s.2 : ℤ) - s.1
  if size = 0 then .ok []
  else if size < 0 then .error .outOfRange
  else .ok ((l.drop s.1).take (s.2 - s.1))

/-! ## Timestamps check -/

section
variable {F : Type}

/-- base/history.cc 7-15 `CheckPriceHistoryTimestamps`. -/
def checkPriceHistoryTimestamps : List (PriceRecord F) → Bool
  | a :: b :: rest => if b.ts < a.ts then false else checkPriceHistoryTimestamps (b :: rest)
  | _ => true

/-! ## Gaps -/

/-- base/history.h 10-11 `HistoryGap`. -/
abbrev HistoryGap := ℤ × ℤ

/-- base/history.cc 25-29 `gap_cmp`. -/
def gapCmp (l r : HistoryGap) : Bool :=
  let lengthDelta := l.2 - l.1 - r.2 + r.1
  decide (lengthDelta > 0) || (decide (lengthDelta = 0) && decide (l.1 < r.1))

/-- `priority_queue::top`: an element that is not before any other in the comparator's order.
(The queue is a list; which of several identical pairs is taken is unobservable.)  (base/history.cc 53.) -/
def gapTop : HistoryGap → List HistoryGap → HistoryGap
  | m, [] => m
  | m, g :: rest => gapTop (if gapCmp m g then g else m) rest

/-- `priority_queue::pop`.  (base/history.cc 41, 49, 54.) -/
def gapPop : List HistoryGap → List HistoryGap
  | [] => []
  | g :: rest => (g :: rest).erase (gapTop g rest)

/-- base/history.cc 39-42, 47-50: push, then pop if the queue is too large. -/
def gapPushBounded (topN : ℕ) (q : List HistoryGap) (g : HistoryGap) : List HistoryGap :=
  let q := g :: q
  if q.length > topN then gapPop q else q

/-- base/history.cc 36-45: the loop over consecutive records (`prev` = `it_prev`). -/
def gapLoop (topN : ℕ) (prev : ℤ) (q : List HistoryGap) : List ℤ → ℤ × List HistoryGap
  | [] => (prev, q)
  | t :: rest => gapLoop topN t (gapPushBounded topN q (prev, t)) rest

/-- Lexicographic `≤` of `std::pair`.  (base/history.cc 56.) -/
def gapLe (a b : HistoryGap) : Bool := decide (a.1 < b.1) || (decide (a.1 = b.1) && decide (a.2 ≤ b.2))

/-- base/history.cc 17-58 `GetPriceHistoryGaps`. Draining the queue into a vector (52-55) and `std::sort`
(56) is sorting its content lexicographically (the algorithm is unobservable). -/
def getPriceHistoryGaps (l : List (PriceRecord F)) (start stop : ℤ) (topN : ℕ) : List HistoryGap :=
  match l with
  | [] => []
  | r :: rest =>
    let q := if start > 0 then [(start, r.ts)] else []
    let (last, q) := gapLoop topN r.ts q (rest.map (·.ts))
    let q := if stop > 0 then gapPushBounded topN q (last, stop) else q
    q.insertionSort (fun a b => gapLe a b = true)

end

/-! ## Outliers -/

section
variable {F : Type} [FloatOps F] [Libm F]

/-- base/history.cc 70 / 102: `price <= 0 || volume < 0`. -/
def PriceRecord.bad (r : PriceRecord F) : Bool := r.price <=. lit F 0 || r.volume <. lit F 0

/-- base/history.cc 101-110, the look-ahead loop: `budget` is `MAX_LOOKAHEAD - lookahead`; returns
`lookahead_persistent`. -/
def lookaheadPersistent (up down : Bool) (midUp midDown : F) : ℕ → List (PriceRecord F) → ℕ
  | _, [] => 0
  | 0, _ :: _ => 0
  | budget + 1, r :: rest =>
    if r.bad then lookaheadPersistent up down midUp midDown (budget + 1) rest
    else
      (if (up && r.price >. midUp) || (down && r.price <. midDown) then 1 else 0) +
        lookaheadPersistent up down midUp midDown budget rest

/-- base/history.cc 82-87 `jump_factor`. -/
def jumpFactor (maxDev : F) (dt : ℤ) : F :=
  (lit F 1 +. maxDev) *. Libm.sqrt (fmax (lit F 1) (lit F dt /. lit F 60))

/-- base/history.cc 80-112: is a valid record `r` an outlier, given the last kept record and the
records after `r`? -/
def isOutlier (maxDev : F) (prev r : PriceRecord F) (rest : List (PriceRecord F)) : Bool :=
  let reference := prev.price
  let factor := jumpFactor maxDev (r.ts - prev.ts)
  let jumpUp := reference *. factor
  let jumpDown := reference /. factor
  let up := r.price >. jumpUp
  let down := r.price <. jumpDown
  if up || down then
    let midUp := lit F (4 / 5) *. jumpUp +. lit F (1 / 5) *. reference
    let midDown := lit F (4 / 5) *. jumpDown +. lit F (1 / 5) *. reference
    decide (lookaheadPersistent up down midUp midDown 10 rest < 3)
  else false

/-- base/history.cc 67-118, one pass: `idx` is the index of the head of the remaining history, `prev` the
last kept record (`price_history_clean.back()`).  Returns the kept records and the outlier indices from here
on. -/
def removeOutliersFrom (maxDev : F) :
    ℕ → Option (PriceRecord F) → List (PriceRecord F) → List (PriceRecord F) × List ℕ
  | _, _, [] => ([], [])
  | idx, prev, r :: rest =>
    if r.bad then
      let o := removeOutliersFrom maxDev (idx + 1) prev rest
      (o.1, idx :: o.2)
    else
      match prev with
      | none =>
        let o := removeOutliersFrom maxDev (idx + 1) (some r) rest
        (r :: o.1, o.2)
      | some p =>
        if isOutlier maxDev p r rest then
          let o := removeOutliersFrom maxDev (idx + 1) prev rest
          (o.1, idx :: o.2)
        else
          let o := removeOutliersFrom maxDev (idx + 1) (some r) rest
          (r :: o.1, o.2)

/-- base/history.cc 60-120 `RemoveOutliers` (with an empty, non-null `outlier_indices`; passing null only
drops the second component). -/
def removeOutliers (maxDev : F) (l : List (PriceRecord F)) : List (PriceRecord F) × List ℕ :=
  removeOutliersFrom maxDev 0 none l

end

/-- `std::map<size_t, bool>` as a finite function.  (base/history.cc 122-125.) -/
abbrev IndexMap := ℕ → Option Bool

/-- base/history.cc 133-136: `index_to_outlier[k] |= false` for `k` in `[a, a + n)`. -/
def touchRange (m : IndexMap) (a : ℕ) : ℕ → IndexMap
  | 0 => m
  | n + 1 =>
    let m' := touchRange m a n
    fun i => if i = a + n then some ((m' i).getD false || false) else m' i

/-- base/history.cc 130-137, loop body. -/
def contextStep (size left right : ℕ) (m : IndexMap) (j : ℕ) : IndexMap :=
  let a := if j ≤ left then 0 else j - left
  let b := min (j + right + 1) size
  let m := touchRange m a (b - a)
  fun i => if i = j then some true else m i

/-- base/history.cc 122-140 `GetOutlierIndicesWithContext`. -/
def getOutlierIndicesWithContext (outliers : List ℕ) (size left right lastN : ℕ) : IndexMap :=
  let startI := if lastN = 0 || outliers.length ≤ lastN then 0 else outliers.length - lastN
  (outliers.drop startI).foldl (contextStep size left right) (fun _ => none)

/-! ## Resampling -/

section
variable {F : Type} [FloatOps F]

/-- A flat zero-volume tick (base/history.cc 153-161, indicators/last_n_ohlc_ticks.cc 36-44). -/
def flatTick (ts : ℤ) (close : F) : OhlcTick F := ⟨ts, close, close, close, close, lit F 0⟩

/-- base/history.cc 148-162, the gap-filling loop.  The history is kept in reverse (`head` = `back()`).
For `rate ≤ 0` the real loop would not terminate or divide by zero; the model then stops, and every theorem
assumes `0 < rate`. -/
def fillGaps (rate target : ℤ) : List (OhlcTick F) → List (OhlcTick F)
  | [] => []
  | last :: rest =>
    if _h : 0 < rate ∧ last.ts + rate < target then
      fillGaps rate target (flatTick (last.ts + rate) last.close :: last :: rest)
    else last :: rest
termination_by l => (target - (match l with | [] => 0 | t :: _ => t.ts)).toNat
decreasing_by simp only [flatTick]; omega

/-- base/history.cc 145-183, loop body, on the reversed output. -/
def resampleStep (rate : ℤ) (acc : List (OhlcTick F)) (r : PriceRecord F) : Res (List (OhlcTick F)) :=
  let down := rate * (r.ts.tdiv rate)
  match fillGaps rate down acc with
  | [] => .ok [⟨down, r.price, r.price, r.price, r.price, r.volume⟩]
  | last :: rest =>
    if last.ts < down then
      .ok (⟨down, r.price, r.price, r.price, r.price, r.volume⟩ :: last :: rest)
    else do
      assertThat (decide (last.ts = down))
      return ⟨last.ts, last.opn, fmax last.high r.price, fmin last.low r.price, r.price,
        last.volume +. r.volume⟩ :: rest

/-- base/history.cc 142-185 `Resample`. -/
def resample (rate : ℤ) (l : List (PriceRecord F)) : Res (List (OhlcTick F)) := do
  let acc ← l.foldlM (resampleStep rate) []
  return acc.reverse

end
end Verif
