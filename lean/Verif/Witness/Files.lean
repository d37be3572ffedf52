import Verif.Props.Csv
import Verif.Props.Device
import Verif.Props.Defaults
import Verif.Witness.Programs

/-!
# Witnesses: the theorems about CSV and proto files (C65, C66, C106), each applied to concrete data
-/

namespace Verif.Witness.Csv
open FloatOps Spec Props _root_.Verif.Convert

abbrev sc : Scanner ℚ := decimalScanner

theorem ends_nil : Ends [] := by intro c hc; cases hc

theorem num (n : ℕ) (text : String) (h : Nat.toDigits 10 n ++ ".0".toList = text.toList) : NumberText sc n text.toList := by
  have := decimal_text (F := ℚ) n ['0'] (by decide)
  have e : lit ℚ (1 * (n + (Nat.ofDigitChars 10 ['0'] 0 : ℕ) / 10 ^ (['0'] : List Char).length)) = (n : ℚ) := by
    rw [show Nat.ofDigitChars 10 ['0'] 0 = 0 by decide]
    change (1 * ((n : ℚ) + (0 : ℕ) / 10 ^ 1)) = n
    simp
  rw [e] at this
  rw [← h]
  exact this

theorem one : NumberText sc 1 "1.0".toList := by simpa using num 1 "1.0" (by decide)
theorem two : NumberText sc 2 "2.0".toList := by simpa using num 2 "2.0" (by decide)

theorem i64 {t : ℤ} (h : 0 ≤ t) (h' : t ≤ 1000) : IsInt64 t := by unfold IsInt64; omega

/-- Lines of a file, and what they spell out. -/
abbrev l60 : Text := "60,1.0,1.0".toList
abbrev l75 : Text := "75,2.0,1.0".toList
theorem h60 : PriceLine sc l60 ⟨60, 1, 1⟩ :=
  ⟨i64 (by decide) (by decide), _, .cons one (.cons one (.nil [] ends_nil (by simp))), by decide⟩
theorem h75 : PriceLine sc l75 ⟨75, 2, 1⟩ :=
  ⟨i64 (by decide) (by decide), _, .cons two (.cons one (.nil [] ends_nil (by simp))), by decide⟩

example := C65_price_csv sc 0 0 (some "60,1.0,1.0\n75,2.0,1.0\n".toList) [⟨60, 1, 1⟩, ⟨75, 2, 1⟩] (by decide +kernel)
example := C65_ohlc_csv sc 0 0 (some "60,1,2,1,2,0\n".toList) [⟨60, 1, 2, 1, 2, 0⟩] (by decide +kernel)
example := C65_price_csv_exact (sc := sc) 0 0 [l60, l75] _ (.cons h60 (.cons h75 .nil)) [⟨60, 1, 1⟩, ⟨75, 2, 1⟩]
/-- The same lines in the other order. -/
example := C65_price_csv_error (sc := sc) 0 0 [l75, l60] _ (.cons h75 (.cons h60 .nil)) (.record 2 .timestamp) (by decide +kernel)

/-- A tick. -/
abbrev tickLine : Text := "60,1.0,2.0,1.0,2.0,1.0".toList
theorem h_tick : OhlcLine sc tickLine ⟨60, 1, 2, 1, 2, 1⟩ :=
  ⟨i64 (by decide) (by decide), _, .cons one (.cons two (.cons one (.cons two (.cons one (.nil [] ends_nil (by simp)))))), by decide⟩
/-- A tick whose low is above its open. -/
abbrev badLine : Text := "60,1.0,2.0,2.0,2.0,1.0".toList
theorem h_bad : OhlcLine sc badLine ⟨60, 1, 2, 2, 2, 1⟩ :=
  ⟨i64 (by decide) (by decide), _, .cons one (.cons two (.cons two (.cons two (.cons one (.nil [] ends_nil (by simp)))))), by decide⟩

example := C65_ohlc_csv_exact (sc := sc) 0 0 [tickLine, tickLine] _ (.cons h_tick (.cons h_tick .nil)) [⟨60, 1, 2, 1, 2, 1⟩, ⟨60, 1, 2, 1, 2, 1⟩]
example := C65_ohlc_csv_error (sc := sc) 0 0 [tickLine, badLine] _ (.cons h_tick (.cons h_bad .nil)) (.record 2 .price) (by decide +kernel)
example : periodOf PriceRecord.ts 61 90 [⟨60, 1, 1⟩, ⟨75, (2 : ℚ), 1⟩] = [⟨75, 2, 1⟩] := by
  rw [C65_sorted_file PriceRecord.ts 61 90 _ (by unfold SortedBy; decide +kernel)]; decide +kernel

/-! Unreadable lines. -/

abbrev header : Text := "timestamp,price,volume".toList
theorem no_ts : NoTimestamp header := by unfold NoTimestamp; decide +kernel

theorem loadable : Loadable PriceRecord.ts GoodPrice 0 0 ([] ++ [⟨60, (1 : ℚ), 1⟩, ⟨75, 2, 1⟩]) := by
  have h := C65_price_csv sc 0 0 (some "60,1.0,1.0\n75,2.0,1.0\n".toList) [⟨60, 1, 1⟩, ⟨75, 2, 1⟩] (by decide +kernel)
  exact h

example := C66_price_unreadable_line (sc := sc) 0 0 [l60] [] l60 header _ h60 no_ts (by decide)
example := C66_ohlc_unreadable_line (sc := sc) 0 0 [] [tickLine] tickLine header _ h_tick no_ts (by decide)
example := C66_price_duplicate (sc := sc) 0 0 [l60] [l75] header [] [⟨75, 2, 1⟩] ⟨60, 1, 1⟩ (.cons h60 .nil) (.cons h75 .nil) no_ts (by decide)
  loadable
example := C66_price_header (sc := sc) 30 0 header [l60, l75] no_ts (by decide)
example := C66_ohlc_header (sc := sc) 0 0 header [tickLine] no_ts (by decide)
/-- A line that is cut off after the timestamp. -/
example := C66_price_incomplete_line (sc := sc) 0 0 [] [] l60 "75,1.0,1.0".toList _ h60 75 (i64 (by decide) (by decide)) [] (by simp) ends_nil
  (by decide +kernel) ⟨i64 (by decide) (by decide), _, .cons one (.cons one (.nil [] ends_nil (by simp))), by decide⟩ (by simp)

/-! Proto files. -/

abbrev prices : List (PriceRecord ℚ) := [⟨60, 1, 1⟩, ⟨75, 2, 1⟩]
abbrev pc : Codec (PriceRecord ℚ) := tableCodec prices
theorem storable : ∀ r ∈ prices, Storable pc r := by
  intro t ht
  simp only [List.mem_cons, List.not_mem_nil, or_false] at ht
  rcases ht with rfl | rfl <;> exact ⟨by unfold Writable; decide +kernel, by decide +kernel⟩
example := C65_price_proto pc 0 70 (fileOf pc prices) [⟨60, 1, 1⟩] (by decide +kernel)
example := C65_price_proto_exact (codec := pc) 0 70 prices [⟨60, 1, 1⟩] storable
example := C65_ohlc_proto Prog.env.ohlcCodec 0 0 (fileOf Prog.env.ohlcCodec Prog.ticks) Prog.ticks (by decide +kernel)
example := C65_ohlc_proto_exact (codec := Prog.env.ohlcCodec) 0 500 Prog.ticks (Prog.ticks.take 1) Prog.storable_ticks
/-- A file cut off in the middle of the second message. -/
example := C65_price_proto_error pc 0 0 (some ((fileOf pc prices).dropLast)) .cannotParse none (by decide +kernel)
example := C65_ohlc_proto_error Prog.env.ohlcCodec 0 0 none .cannotOpen none rfl

/-! Files that cannot be written to the end. -/

abbrev device : Device.Buffering := ⟨3, true⟩
/-- Only the first block, and one byte of the second, can be stored. -/
abbrev full : ℕ → ℕ := fun i => if i = 0 then 3 else 1

example := C106_prefix device (by decide) full pc prices
example := C106_success device (by decide) (fun _ => 3) (by simp) pc prices
example := C106_error device (by decide) full pc (prices ++ prices ++ prices)
  (by intro m hm; refine (storable m ?_).1; simp only [List.mem_append] at hm; tauto) (by decide +kernel)
example := C106_ok_loss device (by decide) full pc prices (by decide +kernel)
example := C106_small ⟨8192, true⟩ (by decide) full pc prices (by decide +kernel)
example := C106_read device (by decide) full prices storable
example := C106_silent_loss ⟨8192, true⟩ (by decide) prices storable (by decide +kernel) 1

end Verif.Witness.Csv
