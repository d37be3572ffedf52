import Verif.Conformance.Prelude
import Verif.Model.History

/-!
# base/base_test.cc, translated

Generated by tools/gen_conformance.py.
-/

namespace Verif.Conformance
open Verif FloatOps
set_option linter.unusedVariables false
set_option linter.style.longLine false

/-- base/base_test.cc 25 `HistorySubsetTest.Basic`. -/
def HistorySubsetTest_Basic : Bool :=
  let ok := true
  let history : List (PriceRecord F32) := []
  let history := history ++ [⟨1483228800, (f (700)), (f (1000))⟩]
  let history := history ++ [⟨1483229400, (f (800)), (f (1500))⟩]
  let history := history ++ [⟨1483230000, (f (750)), (f (1000))⟩]
  let history := history ++ [⟨1483230600, (f (850)), (f (2000))⟩]
  let history := history ++ [⟨1483231200, (f (800)), (f (1500))⟩]
  let subset := historySubset PriceRecord.ts history 0 0
  let ok := ok && subset.1 == 0
  let ok := ok && subset.2 == history.length
  let subset := historySubset PriceRecord.ts history 0 1483230000
  let ok := ok && subset.1 == 0
  let ok := ok && subset.2 == (0 + 2)
  let subset := historySubset PriceRecord.ts history 1483229400 0
  let ok := ok && subset.1 == (0 + 1)
  let ok := ok && subset.2 == history.length
  let subset := historySubset PriceRecord.ts history 1483228800 1483231800
  let ok := ok && subset.1 == 0
  let ok := ok && subset.2 == history.length
  let subset := historySubset PriceRecord.ts history 1483228800 1483228800
  let ok := ok && subset.1 == 0
  let ok := ok && subset.2 == 0
  let subset := historySubset PriceRecord.ts history 1483228800 1483229400
  let ok := ok && subset.1 == 0
  let ok := ok && subset.2 == (0 + 1)
  let subset := historySubset PriceRecord.ts history 1483228860 1483229400
  let ok := ok && subset.1 == (0 + 1)
  let ok := ok && subset.2 == (0 + 1)
  let subset := historySubset PriceRecord.ts history 1483229100 1483230900
  let ok := ok && subset.1 == (0 + 1)
  let ok := ok && subset.2 == (0 + 4)
  ok

example : HistorySubsetTest_Basic = true := by decide +kernel

/-- base/base_test.cc 83 `HistorySubsetCopyTest.Basic`. -/
def HistorySubsetCopyTest_Basic : Bool :=
  let ok := true
  let history : List (PriceRecord F32) := []
  let history := history ++ [⟨1483228800, (f (700)), (f (1000))⟩]
  let history := history ++ [⟨1483229400, (f (800)), (f (1500))⟩]
  let history := history ++ [⟨1483230000, (f (750)), (f (2000))⟩]
  let history := history ++ [⟨1483230600, (f (850)), (f (2500))⟩]
  let history := history ++ [⟨1483231200, (f (650)), (f (3000))⟩]
  let r := historySubsetCopy PriceRecord.ts history 0 0
  let ok := ok && isOk r
  let copy := okOr r []
  let ok := ok && copy.length == 5
  let ok := ok && nearRecord copy[0]? history[0]?
  let ok := ok && nearRecord copy[1]? history[1]?
  let ok := ok && nearRecord copy[2]? history[2]?
  let ok := ok && nearRecord copy[3]? history[3]?
  let ok := ok && nearRecord copy[4]? history[4]?
  let r := historySubsetCopy PriceRecord.ts history 0 1483230600
  let ok := ok && isOk r
  let copy := okOr r []
  let ok := ok && copy.length == 3
  let ok := ok && nearRecord copy[0]? history[0]?
  let ok := ok && nearRecord copy[1]? history[1]?
  let ok := ok && nearRecord copy[2]? history[2]?
  let r := historySubsetCopy PriceRecord.ts history 1483230000 0
  let ok := ok && isOk r
  let copy := okOr r []
  let ok := ok && copy.length == 3
  let ok := ok && nearRecord copy[0]? history[2]?
  let ok := ok && nearRecord copy[1]? history[3]?
  let ok := ok && nearRecord copy[2]? history[4]?
  let r := historySubsetCopy PriceRecord.ts history 1483229100 1483230900
  let ok := ok && isOk r
  let copy := okOr r []
  let ok := ok && copy.length == 3
  let ok := ok && nearRecord copy[0]? history[1]?
  let ok := ok && nearRecord copy[1]? history[2]?
  let ok := ok && nearRecord copy[2]? history[3]?
  let r := historySubsetCopy PriceRecord.ts history 1483228800 1483228800
  let ok := ok && isOk r
  let copy := okOr r []
  let ok := ok && copy.length == 0
  let r := historySubsetCopy PriceRecord.ts history 1483230300 1483230600
  let ok := ok && isOk r
  let copy := okOr r []
  let ok := ok && copy.length == 0
  ok

example : HistorySubsetCopyTest_Basic = true := by decide +kernel

end Verif.Conformance
