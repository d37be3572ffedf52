import Verif.Conformance.Prelude
import Verif.Conformance.Libm
import Verif.Model.History

/-!
# base/history_test.cc, translated

Generated by tools/gen_conformance.py.
-/

namespace Verif.Conformance
open Verif FloatOps
set_option linter.unusedVariables false
set_option linter.style.longLine false

/-- base/history_test.cc 36 `GetPriceHistoryGapsTest.EmptyPriceHistory`. -/
def GetPriceHistoryGapsTest_EmptyPriceHistory : Bool :=
  let ok := true
  let history : List (PriceRecord F32) := []
  let gaps := getPriceHistoryGaps ((history.drop (0)).take (history.length - 0)) 0 0 2
  let ok := ok && gaps.length == 0
  let gaps := getPriceHistoryGaps ((history.drop (0)).take (history.length - 0)) 1483228000 1483233000 2
  let ok := ok && gaps.length == 0
  ok

example : GetPriceHistoryGapsTest_EmptyPriceHistory = true := by decide +kernel

/-- base/history_test.cc 52 `GetPriceHistoryGapsTest.SingleRecordPriceHistory`. -/
def GetPriceHistoryGapsTest_SingleRecordPriceHistory : Bool :=
  let ok := true
  let history : List (PriceRecord F32) := []
  let history := history ++ [⟨1483228800, (f (700)), (f (1000))⟩]
  let gaps := getPriceHistoryGaps ((history.drop (0)).take (history.length - 0)) 0 0 2
  let ok := ok && gaps.length == 0
  ok

example : GetPriceHistoryGapsTest_SingleRecordPriceHistory = true := by decide +kernel

/-- base/history_test.cc 63 `GetPriceHistoryGapsTest.MultipleRecordsPriceHistory`. -/
def GetPriceHistoryGapsTest_MultipleRecordsPriceHistory : Bool :=
  let ok := true
  let history : List (PriceRecord F32) := []
  let history := history ++ [⟨1483228800, (f (700)), (f (1000))⟩]
  let history := history ++ [⟨1483230000, (f (750)), (f (1000))⟩]
  let history := history ++ [⟨1483230600, (f (850)), (f (2000))⟩]
  let history := history ++ [⟨1483230900, (f (800)), (f (1500))⟩]
  let history := history ++ [⟨1483231500, (f (820)), (f (1000))⟩]
  let history := history ++ [⟨1483231800, (f (840)), (f (1000))⟩]
  let gaps := getPriceHistoryGaps ((history.drop (0)).take (history.length - 0)) 0 0 2
  let ok := ok && gaps.length == 2
  let ok := ok && gaps[0]?.map Prod.fst == some 1483228800
  let ok := ok && gaps[0]?.map Prod.snd == some 1483230000
  let ok := ok && gaps[1]?.map Prod.fst == some 1483230000
  let ok := ok && gaps[1]?.map Prod.snd == some 1483230600
  let gaps := getPriceHistoryGaps ((history.drop (0)).take (history.length - 0)) 1483228000 0 2
  let ok := ok && gaps.length == 2
  let ok := ok && gaps[0]?.map Prod.fst == some 1483228000
  let ok := ok && gaps[0]?.map Prod.snd == some 1483228800
  let ok := ok && gaps[1]?.map Prod.fst == some 1483228800
  let ok := ok && gaps[1]?.map Prod.snd == some 1483230000
  let gaps := getPriceHistoryGaps ((history.drop (0)).take (history.length - 0)) 0 1483233000 2
  let ok := ok && gaps.length == 2
  let ok := ok && gaps[0]?.map Prod.fst == some 1483228800
  let ok := ok && gaps[0]?.map Prod.snd == some 1483230000
  let ok := ok && gaps[1]?.map Prod.fst == some 1483231800
  let ok := ok && gaps[1]?.map Prod.snd == some 1483233000
  let gaps := getPriceHistoryGaps ((history.drop (0)).take (history.length - 0)) 1483228000 1483233000 2
  let ok := ok && gaps.length == 2
  let ok := ok && gaps[0]?.map Prod.fst == some 1483228800
  let ok := ok && gaps[0]?.map Prod.snd == some 1483230000
  let ok := ok && gaps[1]?.map Prod.fst == some 1483231800
  let ok := ok && gaps[1]?.map Prod.snd == some 1483233000
  let gaps := getPriceHistoryGaps ((history.drop (0)).take (history.length - 0)) 1483227000 1483233000 2
  let ok := ok && gaps.length == 2
  let ok := ok && gaps[0]?.map Prod.fst == some 1483227000
  let ok := ok && gaps[0]?.map Prod.snd == some 1483228800
  let ok := ok && gaps[1]?.map Prod.fst == some 1483228800
  let ok := ok && gaps[1]?.map Prod.snd == some 1483230000
  let gaps := getPriceHistoryGaps ((history.drop (0)).take (history.length - 0)) 1483227000 1483234000 2
  let ok := ok && gaps.length == 2
  let ok := ok && gaps[0]?.map Prod.fst == some 1483227000
  let ok := ok && gaps[0]?.map Prod.snd == some 1483228800
  let ok := ok && gaps[1]?.map Prod.fst == some 1483231800
  let ok := ok && gaps[1]?.map Prod.snd == some 1483234000
  let gaps := getPriceHistoryGaps ((history.drop (0)).take (history.length - 0)) 0 0 3
  let ok := ok && gaps.length == 3
  let ok := ok && gaps[0]?.map Prod.fst == some 1483228800
  let ok := ok && gaps[0]?.map Prod.snd == some 1483230000
  let ok := ok && gaps[1]?.map Prod.fst == some 1483230000
  let ok := ok && gaps[1]?.map Prod.snd == some 1483230600
  let ok := ok && gaps[2]?.map Prod.fst == some 1483230900
  let ok := ok && gaps[2]?.map Prod.snd == some 1483231500
  let gaps := getPriceHistoryGaps ((history.drop (0)).take (history.length - 0)) 0 0 4
  let ok := ok && gaps.length == 4
  let ok := ok && gaps[0]?.map Prod.fst == some 1483228800
  let ok := ok && gaps[0]?.map Prod.snd == some 1483230000
  let ok := ok && gaps[1]?.map Prod.fst == some 1483230000
  let ok := ok && gaps[1]?.map Prod.snd == some 1483230600
  let ok := ok && gaps[2]?.map Prod.fst == some 1483230600
  let ok := ok && gaps[2]?.map Prod.snd == some 1483230900
  let ok := ok && gaps[3]?.map Prod.fst == some 1483230900
  let ok := ok && gaps[3]?.map Prod.snd == some 1483231500
  ok

example : GetPriceHistoryGapsTest_MultipleRecordsPriceHistory = true := by decide +kernel

/-- base/history_test.cc 159 `RemoveOutliersTest.EmptyPriceHistory`. -/
def RemoveOutliersTest_EmptyPriceHistory : Bool :=
  let ok := true
  let history : List (PriceRecord F32) := []
  let r := removeOutliers (F := F32) (Wide.narrow (d (1 / 50))) ((history.drop (0)).take (history.length - 0))
  let clean := r.1
  let ok := ok && clean.length == 0
  ok

example : RemoveOutliersTest_EmptyPriceHistory = true := by decide +kernel

/-- base/history_test.cc 169 `RemoveOutliersTest.EmptyPriceHistoryHasEmptyOutlierIndices`. -/
def RemoveOutliersTest_EmptyPriceHistoryHasEmptyOutlierIndices : Bool :=
  let ok := true
  let history : List (PriceRecord F32) := []
  let outliers : List ℕ := []
  let r := removeOutliers (F := F32) (Wide.narrow (d (1 / 50))) ((history.drop (0)).take (history.length - 0))
  let clean := r.1
  let outliers := outliers ++ r.2
  let ok := ok && clean.length == 0
  let ok := ok && outliers.length == 0
  ok

example : RemoveOutliersTest_EmptyPriceHistoryHasEmptyOutlierIndices = true := by decide +kernel

/-- base/history_test.cc 180 `RemoveOutliersTest.NoOutliers`. -/
def RemoveOutliersTest_NoOutliers : Bool :=
  let ok := true
  let history : List (PriceRecord F32) := []
  let history := history ++ [⟨1483228800, (f (700)), (f (1000))⟩]
  let history := history ++ [⟨1483228860, (f (705)), (f (1500))⟩]
  let history := history ++ [⟨1483228920, (f (700)), (f (1000))⟩]
  let history := history ++ [⟨1483228980, (f (695)), (f (1500))⟩]
  let history := history ++ [⟨1483229040, (f (700)), (f (1000))⟩]
  let history := history ++ [⟨1483229100, (f (705)), (f (1500))⟩]
  let history := history ++ [⟨1483229160, (f (700)), (f (1000))⟩]
  let history := history ++ [⟨1483229220, (f (695)), (f (1500))⟩]
  let history := history ++ [⟨1483229280, (f (700)), (f (1000))⟩]
  let history := history ++ [⟨1483229340, (f (705)), (f (1500))⟩]
  let history := history ++ [⟨1483229400, (f (700)), (f (1000))⟩]
  let history := history ++ [⟨1483229460, (f (695)), (f (1500))⟩]
  let history := history ++ [⟨1483229520, (f (700)), (f (1000))⟩]
  let history := history ++ [⟨1483229580, (f (705)), (f (1500))⟩]
  let history := history ++ [⟨1483229640, (f (700)), (f (1000))⟩]
  let history := history ++ [⟨1483229700, (f (695)), (f (1500))⟩]
  let history := history ++ [⟨1483229760, (f (700)), (f (1000))⟩]
  let history := history ++ [⟨1483229820, (f (705)), (f (1500))⟩]
  let history := history ++ [⟨1483229880, (f (700)), (f (1000))⟩]
  let history := history ++ [⟨1483229940, (f (695)), (f (1500))⟩]
  let r := removeOutliers (F := F32) (Wide.narrow (d (1 / 50))) ((history.drop (0)).take (history.length - 0))
  let clean := r.1
  let ok := ok && clean.length == 20
  let ok := ok && nearRecord clean[0]? history[0]?
  let ok := ok && nearRecord clean[1]? history[1]?
  let ok := ok && nearRecord clean[2]? history[2]?
  let ok := ok && nearRecord clean[3]? history[3]?
  let ok := ok && nearRecord clean[4]? history[4]?
  let ok := ok && nearRecord clean[5]? history[5]?
  let ok := ok && nearRecord clean[6]? history[6]?
  let ok := ok && nearRecord clean[7]? history[7]?
  let ok := ok && nearRecord clean[8]? history[8]?
  let ok := ok && nearRecord clean[9]? history[9]?
  let ok := ok && nearRecord clean[10]? history[10]?
  let ok := ok && nearRecord clean[11]? history[11]?
  let ok := ok && nearRecord clean[12]? history[12]?
  let ok := ok && nearRecord clean[13]? history[13]?
  let ok := ok && nearRecord clean[14]? history[14]?
  let ok := ok && nearRecord clean[15]? history[15]?
  let ok := ok && nearRecord clean[16]? history[16]?
  let ok := ok && nearRecord clean[17]? history[17]?
  let ok := ok && nearRecord clean[18]? history[18]?
  let ok := ok && nearRecord clean[19]? history[19]?
  let outliers : List ℕ := []
  let r := removeOutliers (F := F32) (Wide.narrow (d (1 / 50))) ((history.drop (0)).take (history.length - 0))
  let clean := r.1
  let outliers := outliers ++ r.2
  let ok := ok && clean.length == 20
  let ok := ok && nearRecord clean[0]? history[0]?
  let ok := ok && nearRecord clean[1]? history[1]?
  let ok := ok && nearRecord clean[2]? history[2]?
  let ok := ok && nearRecord clean[3]? history[3]?
  let ok := ok && nearRecord clean[4]? history[4]?
  let ok := ok && nearRecord clean[5]? history[5]?
  let ok := ok && nearRecord clean[6]? history[6]?
  let ok := ok && nearRecord clean[7]? history[7]?
  let ok := ok && nearRecord clean[8]? history[8]?
  let ok := ok && nearRecord clean[9]? history[9]?
  let ok := ok && nearRecord clean[10]? history[10]?
  let ok := ok && nearRecord clean[11]? history[11]?
  let ok := ok && nearRecord clean[12]? history[12]?
  let ok := ok && nearRecord clean[13]? history[13]?
  let ok := ok && nearRecord clean[14]? history[14]?
  let ok := ok && nearRecord clean[15]? history[15]?
  let ok := ok && nearRecord clean[16]? history[16]?
  let ok := ok && nearRecord clean[17]? history[17]?
  let ok := ok && nearRecord clean[18]? history[18]?
  let ok := ok && nearRecord clean[19]? history[19]?
  let ok := ok && outliers.length == 0
  ok

example : RemoveOutliersTest_NoOutliers = true := by decide +kernel

/-- base/history_test.cc 225 `RemoveOutliersTest.NonPositivePrice`. -/
def RemoveOutliersTest_NonPositivePrice : Bool :=
  let ok := true
  let history : List (PriceRecord F32) := []
  let history := history ++ [⟨1483228800, (f (1 / 100)), (f (1000))⟩]
  let history := history ++ [⟨1483228860, (f (1 / 100)), (f (1000))⟩]
  let history := history ++ [⟨1483228920, (f (0)), (f (1000))⟩]
  let history := history ++ [⟨1483228980, (f (1 / 100)), (f (1000))⟩]
  let history := history ++ [⟨1483229040, (f (1 / 100)), (f (1000))⟩]
  let r := removeOutliers (F := F32) (Wide.narrow (d (1 / 50))) ((history.drop (0)).take (history.length - 0))
  let clean := r.1
  let ok := ok && clean.length == 4
  let ok := ok && nearRecord clean[0]? history[0]?
  let ok := ok && nearRecord clean[1]? history[1]?
  let ok := ok && nearRecord clean[2]? history[3]?
  let ok := ok && nearRecord clean[3]? history[4]?
  let outliers : List ℕ := []
  let r := removeOutliers (F := F32) (Wide.narrow (d (1 / 50))) ((history.drop (0)).take (history.length - 0))
  let clean := r.1
  let outliers := outliers ++ r.2
  let ok := ok && clean.length == 4
  let ok := ok && nearRecord clean[0]? history[0]?
  let ok := ok && nearRecord clean[1]? history[1]?
  let ok := ok && nearRecord clean[2]? history[3]?
  let ok := ok && nearRecord clean[3]? history[4]?
  let ok := ok && outliers.length == 1
  let ok := ok && outliers[0]? == some 2
  ok

example : RemoveOutliersTest_NonPositivePrice = true := by decide +kernel

/-- base/history_test.cc 258 `RemoveOutliersTest.NegativeVolume`. -/
def RemoveOutliersTest_NegativeVolume : Bool :=
  let ok := true
  let history : List (PriceRecord F32) := []
  let history := history ++ [⟨1483228800, (f (700)), (f (1000))⟩]
  let history := history ++ [⟨1483228860, (f (705)), (f (1000))⟩]
  let history := history ++ [⟨1483228920, (f (700)), (f (-1 / 20))⟩]
  let history := history ++ [⟨1483228980, (f (700)), (f (1000))⟩]
  let history := history ++ [⟨1483229040, (f (695)), (f (1000))⟩]
  let r := removeOutliers (F := F32) (Wide.narrow (d (1 / 50))) ((history.drop (0)).take (history.length - 0))
  let clean := r.1
  let ok := ok && clean.length == 4
  let ok := ok && nearRecord clean[0]? history[0]?
  let ok := ok && nearRecord clean[1]? history[1]?
  let ok := ok && nearRecord clean[2]? history[3]?
  let ok := ok && nearRecord clean[3]? history[4]?
  let outliers : List ℕ := []
  let r := removeOutliers (F := F32) (Wide.narrow (d (1 / 50))) ((history.drop (0)).take (history.length - 0))
  let clean := r.1
  let outliers := outliers ++ r.2
  let ok := ok && clean.length == 4
  let ok := ok && nearRecord clean[0]? history[0]?
  let ok := ok && nearRecord clean[1]? history[1]?
  let ok := ok && nearRecord clean[2]? history[3]?
  let ok := ok && nearRecord clean[3]? history[4]?
  let ok := ok && outliers.length == 1
  let ok := ok && outliers[0]? == some 2
  ok

example : RemoveOutliersTest_NegativeVolume = true := by decide +kernel

/-- base/history_test.cc 291 `RemoveOutliersTest.SimpleOutlier`. -/
def RemoveOutliersTest_SimpleOutlier : Bool :=
  let ok := true
  let history : List (PriceRecord F32) := []
  let history := history ++ [⟨1483228800, (f (700)), (f (1000))⟩]
  let history := history ++ [⟨1483228860, (f (705)), (f (1000))⟩]
  let history := history ++ [⟨1483228920, (f (750)), (f (1000))⟩]
  let history := history ++ [⟨1483228980, (f (700)), (f (1000))⟩]
  let history := history ++ [⟨1483229040, (f (695)), (f (1000))⟩]
  let r := removeOutliers (F := F32) (Wide.narrow (d (1 / 50))) ((history.drop (0)).take (history.length - 0))
  let clean := r.1
  let ok := ok && clean.length == 4
  let ok := ok && nearRecord clean[0]? history[0]?
  let ok := ok && nearRecord clean[1]? history[1]?
  let ok := ok && nearRecord clean[2]? history[3]?
  let ok := ok && nearRecord clean[3]? history[4]?
  let outliers : List ℕ := []
  let r := removeOutliers (F := F32) (Wide.narrow (d (1 / 50))) ((history.drop (0)).take (history.length - 0))
  let clean := r.1
  let outliers := outliers ++ r.2
  let ok := ok && clean.length == 4
  let ok := ok && nearRecord clean[0]? history[0]?
  let ok := ok && nearRecord clean[1]? history[1]?
  let ok := ok && nearRecord clean[2]? history[3]?
  let ok := ok && nearRecord clean[3]? history[4]?
  let ok := ok && outliers.length == 1
  let ok := ok && outliers[0]? == some 2
  ok

example : RemoveOutliersTest_SimpleOutlier = true := by decide +kernel

/-- base/history_test.cc 324 `RemoveOutliersTest.NonPersistentOutliers`. -/
def RemoveOutliersTest_NonPersistentOutliers : Bool :=
  let ok := true
  let history : List (PriceRecord F32) := []
  let history := history ++ [⟨1483228800, (f (700)), (f (1000))⟩]
  let history := history ++ [⟨1483228860, (f (705)), (f (1500))⟩]
  let history := history ++ [⟨1483228920, (f (700)), (f (1000))⟩]
  let history := history ++ [⟨1483228980, (f (695)), (f (1500))⟩]
  let history := history ++ [⟨1483229040, (f (750)), (f (1000))⟩]
  let history := history ++ [⟨1483229100, (f (705)), (f (1500))⟩]
  let history := history ++ [⟨1483229160, (f (750)), (f (1000))⟩]
  let history := history ++ [⟨1483229220, (f (695)), (f (1500))⟩]
  let history := history ++ [⟨1483229280, (f (700)), (f (1000))⟩]
  let history := history ++ [⟨1483229340, (f (705)), (f (1500))⟩]
  let history := history ++ [⟨1483229400, (f (450)), (f (1000))⟩]
  let history := history ++ [⟨1483229460, (f (695)), (f (1500))⟩]
  let history := history ++ [⟨1483229520, (f (700)), (f (1000))⟩]
  let history := history ++ [⟨1483229580, (f (705)), (f (1500))⟩]
  let history := history ++ [⟨1483229640, (f (700)), (f (1000))⟩]
  let history := history ++ [⟨1483229700, (f (695)), (f (1500))⟩]
  let history := history ++ [⟨1483229760, (f (700)), (f (1000))⟩]
  let history := history ++ [⟨1483229820, (f (705)), (f (1500))⟩]
  let history := history ++ [⟨1483229880, (f (700)), (f (1000))⟩]
  let history := history ++ [⟨1483229940, (f (695)), (f (1500))⟩]
  let outliers : List ℕ := []
  let r := removeOutliers (F := F32) (Wide.narrow (d (1 / 50))) ((history.drop (0)).take (history.length - 0))
  let clean := r.1
  let outliers := outliers ++ r.2
  let ok := ok && clean.length == 17
  let ok := ok && nearRecord clean[0]? history[0]?
  let ok := ok && nearRecord clean[1]? history[1]?
  let ok := ok && nearRecord clean[2]? history[2]?
  let ok := ok && nearRecord clean[3]? history[3]?
  let ok := ok && nearRecord clean[4]? history[5]?
  let ok := ok && nearRecord clean[5]? history[7]?
  let ok := ok && nearRecord clean[6]? history[8]?
  let ok := ok && nearRecord clean[7]? history[9]?
  let ok := ok && nearRecord clean[8]? history[11]?
  let ok := ok && nearRecord clean[9]? history[12]?
  let ok := ok && nearRecord clean[10]? history[13]?
  let ok := ok && nearRecord clean[11]? history[14]?
  let ok := ok && nearRecord clean[12]? history[15]?
  let ok := ok && nearRecord clean[13]? history[16]?
  let ok := ok && nearRecord clean[14]? history[17]?
  let ok := ok && nearRecord clean[15]? history[18]?
  let ok := ok && nearRecord clean[16]? history[19]?
  let ok := ok && outliers.length == 3
  let ok := ok && outliers[0]? == some 4
  let ok := ok && outliers[1]? == some 6
  let ok := ok && outliers[2]? == some 10
  ok

example : RemoveOutliersTest_NonPersistentOutliers = true := by decide +kernel

/-- base/history_test.cc 370 `RemoveOutliersTest.PersistentJumps`. -/
def RemoveOutliersTest_PersistentJumps : Bool :=
  let ok := true
  let history : List (PriceRecord F32) := []
  let history := history ++ [⟨1483228800, (f (700)), (f (1000))⟩]
  let history := history ++ [⟨1483228860, (f (705)), (f (1500))⟩]
  let history := history ++ [⟨1483228920, (f (700)), (f (1000))⟩]
  let history := history ++ [⟨1483228980, (f (695)), (f (1500))⟩]
  let history := history ++ [⟨1483229040, (f (750)), (f (1000))⟩]
  let history := history ++ [⟨1483229100, (f (705)), (f (1500))⟩]
  let history := history ++ [⟨1483229160, (f (750)), (f (1000))⟩]
  let history := history ++ [⟨1483229220, (f (745)), (f (1500))⟩]
  let history := history ++ [⟨1483229280, (f (750)), (f (1000))⟩]
  let history := history ++ [⟨1483229340, (f (755)), (f (1500))⟩]
  let history := history ++ [⟨1483229400, (f (750)), (f (1000))⟩]
  let history := history ++ [⟨1483229460, (f (745)), (f (1500))⟩]
  let history := history ++ [⟨1483229520, (f (750)), (f (1000))⟩]
  let history := history ++ [⟨1483229580, (f (755)), (f (1500))⟩]
  let history := history ++ [⟨1483229640, (f (700)), (f (1000))⟩]
  let history := history ++ [⟨1483229700, (f (695)), (f (1500))⟩]
  let history := history ++ [⟨1483229760, (f (700)), (f (1000))⟩]
  let history := history ++ [⟨1483229820, (f (705)), (f (1500))⟩]
  let history := history ++ [⟨1483229880, (f (700)), (f (1000))⟩]
  let history := history ++ [⟨1483229940, (f (695)), (f (1500))⟩]
  let outliers : List ℕ := []
  let r := removeOutliers (F := F32) (Wide.narrow (d (1 / 50))) ((history.drop (0)).take (history.length - 0))
  let clean := r.1
  let outliers := outliers ++ r.2
  let ok := ok && clean.length == 19
  let ok := ok && nearRecord clean[0]? history[0]?
  let ok := ok && nearRecord clean[1]? history[1]?
  let ok := ok && nearRecord clean[2]? history[2]?
  let ok := ok && nearRecord clean[3]? history[3]?
  let ok := ok && nearRecord clean[4]? history[4]?
  let ok := ok && nearRecord clean[5]? history[6]?
  let ok := ok && nearRecord clean[6]? history[7]?
  let ok := ok && nearRecord clean[7]? history[8]?
  let ok := ok && nearRecord clean[8]? history[9]?
  let ok := ok && nearRecord clean[9]? history[10]?
  let ok := ok && nearRecord clean[10]? history[11]?
  let ok := ok && nearRecord clean[11]? history[12]?
  let ok := ok && nearRecord clean[12]? history[13]?
  let ok := ok && nearRecord clean[13]? history[14]?
  let ok := ok && nearRecord clean[14]? history[15]?
  let ok := ok && nearRecord clean[15]? history[16]?
  let ok := ok && nearRecord clean[16]? history[17]?
  let ok := ok && nearRecord clean[17]? history[18]?
  let ok := ok && nearRecord clean[18]? history[19]?
  let ok := ok && outliers.length == 1
  let ok := ok && outliers[0]? == some 5
  ok

example : RemoveOutliersTest_PersistentJumps = true := by decide +kernel

/-- base/history_test.cc 408 `GetOutlierIndicesWithContextTest.NoOutliers`. -/
def GetOutlierIndicesWithContextTest_NoOutliers : Bool :=
  let ok := true
  let outliers : List ℕ := []
  let index := getOutlierIndicesWithContext outliers 100 5 5 10
  let ok := ok && ((List.range 200).filter (fun i => (index i).isSome)).length == 0
  ok

example : GetOutlierIndicesWithContextTest_NoOutliers = true := by decide +kernel

/-- base/history_test.cc 419 `GetOutlierIndicesWithContextTest.SingleOutlierAtTheBeginning`. -/
def GetOutlierIndicesWithContextTest_SingleOutlierAtTheBeginning : Bool :=
  let ok := true
  let outliers : List ℕ := [3]
  let index := getOutlierIndicesWithContext outliers 100 5 5 10
  let ok := ok && ((List.range 200).filter (fun i => (index i).isSome)).length == 9
  let ok := ok && index 0 == some false
  let ok := ok && index 1 == some false
  let ok := ok && index 2 == some false
  let ok := ok && index 3 == some true
  let ok := ok && index 4 == some false
  let ok := ok && index 5 == some false
  let ok := ok && index 6 == some false
  let ok := ok && index 7 == some false
  let ok := ok && index 8 == some false
  ok

example : GetOutlierIndicesWithContextTest_SingleOutlierAtTheBeginning = true := by decide +kernel

/-- base/history_test.cc 439 `GetOutlierIndicesWithContextTest.SingleOutlierInTheMiddle`. -/
def GetOutlierIndicesWithContextTest_SingleOutlierInTheMiddle : Bool :=
  let ok := true
  let outliers : List ℕ := [50]
  let index := getOutlierIndicesWithContext outliers 100 5 5 10
  let ok := ok && ((List.range 200).filter (fun i => (index i).isSome)).length == 11
  let ok := ok && index 45 == some false
  let ok := ok && index 46 == some false
  let ok := ok && index 47 == some false
  let ok := ok && index 48 == some false
  let ok := ok && index 49 == some false
  let ok := ok && index 50 == some true
  let ok := ok && index 51 == some false
  let ok := ok && index 52 == some false
  let ok := ok && index 53 == some false
  let ok := ok && index 54 == some false
  let ok := ok && index 55 == some false
  ok

example : GetOutlierIndicesWithContextTest_SingleOutlierInTheMiddle = true := by decide +kernel

/-- base/history_test.cc 461 `GetOutlierIndicesWithContextTest.SingleOutlierAtTheEnd`. -/
def GetOutlierIndicesWithContextTest_SingleOutlierAtTheEnd : Bool :=
  let ok := true
  let outliers : List ℕ := [97]
  let index := getOutlierIndicesWithContext outliers 100 5 5 10
  let ok := ok && ((List.range 200).filter (fun i => (index i).isSome)).length == 8
  let ok := ok && index 92 == some false
  let ok := ok && index 93 == some false
  let ok := ok && index 94 == some false
  let ok := ok && index 95 == some false
  let ok := ok && index 96 == some false
  let ok := ok && index 97 == some true
  let ok := ok && index 98 == some false
  let ok := ok && index 99 == some false
  ok

example : GetOutlierIndicesWithContextTest_SingleOutlierAtTheEnd = true := by decide +kernel

/-- base/history_test.cc 480 `GetOutlierIndicesWithContextTest.MultipleOutliersAtTheBeginning`. -/
def GetOutlierIndicesWithContextTest_MultipleOutliersAtTheBeginning : Bool :=
  let ok := true
  let outliers : List ℕ := [3, 4, 7]
  let index := getOutlierIndicesWithContext outliers 100 5 5 10
  let ok := ok && ((List.range 200).filter (fun i => (index i).isSome)).length == 13
  let ok := ok && index 0 == some false
  let ok := ok && index 1 == some false
  let ok := ok && index 2 == some false
  let ok := ok && index 3 == some true
  let ok := ok && index 4 == some true
  let ok := ok && index 5 == some false
  let ok := ok && index 6 == some false
  let ok := ok && index 7 == some true
  let ok := ok && index 8 == some false
  let ok := ok && index 9 == some false
  let ok := ok && index 10 == some false
  let ok := ok && index 11 == some false
  let ok := ok && index 12 == some false
  ok

example : GetOutlierIndicesWithContextTest_MultipleOutliersAtTheBeginning = true := by decide +kernel

/-- base/history_test.cc 504 `GetOutlierIndicesWithContextTest.MultipleOutliersInTheMiddle`. -/
def GetOutlierIndicesWithContextTest_MultipleOutliersInTheMiddle : Bool :=
  let ok := true
  let outliers : List ℕ := [50, 51, 53]
  let index := getOutlierIndicesWithContext outliers 100 3 3 10
  let ok := ok && ((List.range 200).filter (fun i => (index i).isSome)).length == 10
  let ok := ok && index 47 == some false
  let ok := ok && index 48 == some false
  let ok := ok && index 49 == some false
  let ok := ok && index 50 == some true
  let ok := ok && index 51 == some true
  let ok := ok && index 52 == some false
  let ok := ok && index 53 == some true
  let ok := ok && index 54 == some false
  let ok := ok && index 55 == some false
  let ok := ok && index 56 == some false
  ok

example : GetOutlierIndicesWithContextTest_MultipleOutliersInTheMiddle = true := by decide +kernel

/-- base/history_test.cc 525 `GetOutlierIndicesWithContextTest.MultipleOutliersAtTheEnd`. -/
def GetOutlierIndicesWithContextTest_MultipleOutliersAtTheEnd : Bool :=
  let ok := true
  let outliers : List ℕ := [94, 95, 97]
  let index := getOutlierIndicesWithContext outliers 100 5 5 10
  let ok := ok && ((List.range 200).filter (fun i => (index i).isSome)).length == 11
  let ok := ok && index 89 == some false
  let ok := ok && index 90 == some false
  let ok := ok && index 91 == some false
  let ok := ok && index 92 == some false
  let ok := ok && index 93 == some false
  let ok := ok && index 94 == some true
  let ok := ok && index 95 == some true
  let ok := ok && index 96 == some false
  let ok := ok && index 97 == some true
  let ok := ok && index 98 == some false
  let ok := ok && index 99 == some false
  ok

example : GetOutlierIndicesWithContextTest_MultipleOutliersAtTheEnd = true := by decide +kernel

/-- base/history_test.cc 547 `ResampleTest.EmptyPriceHistory`. -/
def ResampleTest_EmptyPriceHistory : Bool :=
  let ok := true
  let history : List (PriceRecord F32) := []
  let r := resample 300 ((history.drop (0)).take (history.length - 0))
  let ok := ok && isOk r
  let ohlc := okOr r []
  let ok := ok && ohlc.length == 0
  ok

example : ResampleTest_EmptyPriceHistory = true := by decide +kernel

/-- base/history_test.cc 555 `ResampleTest.EmptyOhlcHistory`. -/
def ResampleTest_EmptyOhlcHistory : Bool :=
  let ok := true
  let history : List (PriceRecord F32) := []
  let history := history ++ [⟨0, (f (10)), (f (1000))⟩]
  let history := history ++ [⟨60, (f (20)), (f (2000))⟩]
  let history := history ++ [⟨120, (f (30)), (f (3000))⟩]
  let history := history ++ [⟨180, (f (40)), (f (4000))⟩]
  let r := resample 300 ((history.drop ((0 + 1))).take ((0 + 1) - (0 + 1)))
  let ok := ok && isOk r
  let ohlc := okOr r []
  let ok := ok && ohlc.length == 0
  let r := resample 10 ((history.drop ((0 + 3))).take ((0 + 3) - (0 + 3)))
  let ok := ok && isOk r
  let ohlc := okOr r []
  let ok := ok && ohlc.length == 0
  ok

example : ResampleTest_EmptyOhlcHistory = true := by decide +kernel

/-- base/history_test.cc 571 `ResampleTest.ResampleSinglePriceRecord`. -/
def ResampleTest_ResampleSinglePriceRecord : Bool :=
  let ok := true
  let history : List (PriceRecord F32) := []
  let history := history ++ [⟨1483228800, (f (700)), (f (1000))⟩]
  let r := resample 300 ((history.drop (0)).take (history.length - 0))
  let ok := ok && isOk r
  let ohlc := okOr r []
  let ok := ok && ohlc.length == 1
  let ok := ok && nearTick ohlc[0]? ⟨1483228800, (f (700)), (f (700)), (f (700)), (f (700)), (f (1000))⟩
  ok

example : ResampleTest_ResampleSinglePriceRecord = true := by decide +kernel

/-- base/history_test.cc 582 `ResampleTest.ResampleMultiplePriceRecords1`. -/
def ResampleTest_ResampleMultiplePriceRecords1 : Bool :=
  let ok := true
  let history : List (PriceRecord F32) := []
  let history := history ++ [⟨1483228800, (f (700)), (f (1000))⟩]
  let history := history ++ [⟨1483229400, (f (800)), (f (1500))⟩]
  let r := resample 300 ((history.drop (0)).take (history.length - 0))
  let ok := ok && isOk r
  let ohlc := okOr r []
  let ok := ok && ohlc.length == 3
  let ok := ok && nearTick ohlc[0]? ⟨1483228800, (f (700)), (f (700)), (f (700)), (f (700)), (f (1000))⟩
  let ok := ok && nearTick ohlc[1]? ⟨1483229100, (f (700)), (f (700)), (f (700)), (f (700)), (f (0))⟩
  let ok := ok && nearTick ohlc[2]? ⟨1483229400, (f (800)), (f (800)), (f (800)), (f (800)), (f (1500))⟩
  let r := resample 600 ((history.drop (0)).take (history.length - 0))
  let ok := ok && isOk r
  let ohlc := okOr r []
  let ok := ok && ohlc.length == 2
  let ok := ok && nearTick ohlc[0]? ⟨1483228800, (f (700)), (f (700)), (f (700)), (f (700)), (f (1000))⟩
  let ok := ok && nearTick ohlc[1]? ⟨1483229400, (f (800)), (f (800)), (f (800)), (f (800)), (f (1500))⟩
  ok

example : ResampleTest_ResampleMultiplePriceRecords1 = true := by decide +kernel

/-- base/history_test.cc 606 `ResampleTest.ResampleMultiplePriceRecords2`. -/
def ResampleTest_ResampleMultiplePriceRecords2 : Bool :=
  let ok := true
  let history : List (PriceRecord F32) := []
  let history := history ++ [⟨1483228850, (f (700)), (f (1000))⟩]
  let history := history ++ [⟨1483228900, (f (750)), (f (2000))⟩]
  let history := history ++ [⟨1483228950, (f (650)), (f (2000))⟩]
  let history := history ++ [⟨1483229000, (f (720)), (f (1000))⟩]
  let history := history ++ [⟨1483229450, (f (800)), (f (1500))⟩]
  let history := history ++ [⟨1483229500, (f (750)), (f (2500))⟩]
  let history := history ++ [⟨1483229550, (f (800)), (f (1500))⟩]
  let history := history ++ [⟨1483229600, (f (850)), (f (2500))⟩]
  let r := resample 300 ((history.drop (0)).take (history.length - 0))
  let ok := ok && isOk r
  let ohlc := okOr r []
  let ok := ok && ohlc.length == 3
  let ok := ok && nearTick ohlc[0]? ⟨1483228800, (f (700)), (f (750)), (f (650)), (f (720)), (f (6000))⟩
  let ok := ok && nearTick ohlc[1]? ⟨1483229100, (f (720)), (f (720)), (f (720)), (f (720)), (f (0))⟩
  let ok := ok && nearTick ohlc[2]? ⟨1483229400, (f (800)), (f (850)), (f (750)), (f (850)), (f (8000))⟩
  let r := resample 150 ((history.drop (0)).take (history.length - 0))
  let ok := ok && isOk r
  let ohlc := okOr r []
  let ok := ok && ohlc.length == 6
  let ok := ok && nearTick ohlc[0]? ⟨1483228800, (f (700)), (f (750)), (f (700)), (f (750)), (f (3000))⟩
  let ok := ok && nearTick ohlc[1]? ⟨1483228950, (f (650)), (f (720)), (f (650)), (f (720)), (f (3000))⟩
  let ok := ok && nearTick ohlc[2]? ⟨1483229100, (f (720)), (f (720)), (f (720)), (f (720)), (f (0))⟩
  let ok := ok && nearTick ohlc[3]? ⟨1483229250, (f (720)), (f (720)), (f (720)), (f (720)), (f (0))⟩
  let ok := ok && nearTick ohlc[4]? ⟨1483229400, (f (800)), (f (800)), (f (750)), (f (750)), (f (4000))⟩
  let ok := ok && nearTick ohlc[5]? ⟨1483229550, (f (800)), (f (850)), (f (800)), (f (850)), (f (4000))⟩
  ok

example : ResampleTest_ResampleMultiplePriceRecords2 = true := by decide +kernel

end Verif.Conformance
