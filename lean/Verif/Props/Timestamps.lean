import Verif.Props.Csv

/-!
# C77: the timestamps check
-/

namespace Verif.Props
open Verif Verif.Spec Verif.Convert

variable {F : Type}

/-- **C77**. The check accepts a price history if and only if no record is older than any record before it. -/
theorem C77_check (l : List (PriceRecord F)) : checkPriceHistoryTimestamps l = true ↔ SortedBy PriceRecord.ts l := by
  induction l with
  | nil => simp [checkPriceHistoryTimestamps, SortedBy]
  | cons a l ih =>
    cases l with
    | nil => simp [checkPriceHistoryTimestamps, SortedBy]
    | cons b rest =>
      unfold checkPriceHistoryTimestamps SortedBy
      unfold SortedBy at ih
      rw [List.pairwise_cons]
      split
      · rename_i h
        simp only [Bool.false_eq_true, false_iff, not_and]
        intro h1
        have := h1 b (by simp)
        omega
      · rename_i h
        rw [ih]
        constructor
        · intro h1
          refine ⟨fun c hc => ?_, h1⟩
          rcases List.mem_cons.mp hc with rfl | hc
          · omega
          · have := (List.pairwise_cons.mp h1).1 c hc; omega
        · exact fun h1 => h1.2

/-- **C77** (order of any two records). If the check rejects a history, some record is older than its predecessor. -/
theorem C77_rejects (l : List (PriceRecord F)) :
    checkPriceHistoryTimestamps l = false ↔ ∃ i, ∃ h : i + 1 < l.length, (l[i + 1]).ts < (l[i]).ts := by
  induction l with
  | nil => simp [checkPriceHistoryTimestamps]
  | cons a l ih =>
    cases l with
    | nil => simp [checkPriceHistoryTimestamps]
    | cons b rest =>
      unfold checkPriceHistoryTimestamps
      split
      · rename_i h
        exact ⟨fun _ => ⟨0, by simp, by simpa using h⟩, fun _ => rfl⟩
      · rename_i h
        rw [ih]
        constructor
        · rintro ⟨i, hi, h1⟩
          exact ⟨i + 1, by simpa using hi, by simpa using h1⟩
        · rintro ⟨i, hi, h1⟩
          cases i with
          | zero => exact absurd (by simpa using h1) h
          | succ i => exact ⟨i, by simpa using hi, by simpa using h1⟩

variable [FloatOps F]

/-- **C77** (loaded histories). Every price history that convert.cc loads, from a CSV file or from a proto file, passes. -/
theorem C77_loaded (sc : Scanner F) (codec : Codec (PriceRecord F)) (start stop : ℤ) (l : List (PriceRecord F))
    (h : (∃ text, readPriceCsv sc start stop text = .ok l) ∨ ∃ bytes, readPriceProto codec start stop (some bytes) = .ok l) :
    checkPriceHistoryTimestamps l = true := by
  rw [C77_check]
  rcases h with ⟨text, h⟩ | ⟨bytes, h⟩
  · exact (C65_price_csv sc start stop text l h).sorted
  · exact (C65_price_proto codec start stop bytes l h).2.sorted

/-- Equal timestamps pass, a step back does not. -/
example : checkPriceHistoryTimestamps ([⟨5, 1, 1⟩, ⟨5, 1, 1⟩, ⟨7, 1, 1⟩] : List (PriceRecord ℚ)) = true ∧
    checkPriceHistoryTimestamps ([⟨5, 1, 1⟩, ⟨7, 1, 1⟩, ⟨6, 1, 1⟩] : List (PriceRecord ℚ)) = false := by decide +kernel

end Verif.Props
