import Verif.Props.Factory
import Verif.Props.Gaps
import Verif.Props.Granularity
import Verif.Props.GranularityIndicators
import Verif.Props.Gzip
import Verif.Props.HistorySubset
import Verif.Props.LastN
import Verif.Props.MovingAverages
import Verif.Props.Outliers
import Verif.Props.Pipeline
import Verif.Props.Preconditions
import Verif.Witness.Evaluate
import Verif.Witness.Files

/-!
# Witnesses: the theorems about histories and their cleaning, windows of ticks, averages and preconditions
(C15, C21, C22, C24, C39-C42, C51, C69, C72, C98, C104), each applied to concrete data
-/

namespace Verif.Witness.Data
open FloatOps Spec Props _root_.Verif.Convert

attribute [local instance] evLibm

/-! ### The factory -/

abbrev stopTrader' : BuiltIn ℚ := match (getTrader "stop" : Res (BuiltIn ℚ)) with
  | .ok b => b
  | .error _ => .stop ⟨0, 0, 0, 0⟩
example := C72_default_in_batch (K := ℚ) "stop" _ rfl
example := C72_default_in_batch_f32 "rebalancing" _ rfl

abbrev cfg : AccountConfig ℚ := { btCfg with baseUnit := 1 / 1000, quoteUnit := 1 / 100 }
theorem clean_account : CleanAccount cfg := by
  constructor <;> norm_num [btCfg]

theorem clean_ev : Spec.CleanHistory evTicks := by
  constructor
  · intro t ht
    fin_cases ht <;> constructor <;> norm_num
  · unfold evTicks; decide +kernel
  · unfold evTicks; decide +kernel

example (l : List (BuiltIn ℚ)) (hl : getBatchOfTraders "rebalancing" = .ok l) (schedule : List ℕ) :=
  C72_default_batch_completes Ev.fmt "rebalancing" l hl cfg clean_account _ Bt.side_of evTicks clean_ev
    ⟨1577836800, 1585785600, 1, true⟩ (by decide) (by decide) (by decide) schedule

/-! ### Histories -/

example := C24_top_n (⟨100, 1, 1⟩ : PriceRecord ℚ) [⟨160, 1, 1⟩, ⟨400, 1, 1⟩] 0 500 2 (by decide)
example := C15_subset_range (ts := OhlcTick.ts) evTicks clean_ev.sorted 1578000000 1584000000

abbrev spiky : List (PriceRecord ℚ) := [⟨300, 201 / 2, 2⟩, ⟨310, 100, 1⟩, ⟨700, 900, 1⟩, ⟨920, 101, 1 / 2⟩]
example : isolatedJump (1 / 20 : ℚ) ⟨310, 100, 1⟩ ⟨700, 900, 1⟩ [⟨920, 101, 1 / 2⟩] = true := by
  obtain ⟨h, -⟩ := C21_reason (1 / 20 : ℚ) spiky 2 (by decide)
  rcases h (by decide +kernel) with h | ⟨ref, h1, h2⟩
  · exact absurd h (by decide +kernel)
  · have : some ref = some ⟨310, 100, 1⟩ := h1.symm.trans (by decide +kernel)
    cases this
    exact h2
example := C21_first_kept (1 / 20 : ℚ) spiky 0 (by decide) (by decide +kernel) (by intro i h; omega)
example := C22_clean (1 / 20 : ℚ) (spiky.take 2) (by unfold Props.CleanHistory; decide +kernel)
example := C22_idempotent (1 / 20 : ℚ) (spiky.take 2) (by unfold Props.CleanHistory; decide +kernel)
example := C22_stabilises (1 / 20 : ℚ) spiky
example : removeOutliers (1 / 20 : ℚ) spiky ≠ (spiky, []) ∧ (removeOutliers (1 / 20 : ℚ) spiky).1.length = 3 := by decide +kernel

theorem loaded : readPriceCsv (decimalScanner (F := ℚ)) 300 0 (some pipeText) = .ok spiky := by decide +kernel

example : ∃ lines ticks, convertPriceHistory Ev.fmt (1 / 20) 300 20 spiky = .ok (lines, ticks) ∧ Spec.CleanHistory ticks := by
  obtain ⟨lines, ticks, h, -⟩ := C69_end_to_end (codec := tableCodec tmTicks) _ 300 0 _ spiky loaded (1 / 20) 300 (by decide) (by decide) 20 0 5000 (by decide) Ev.fmt
    (.stop Ev.stopCfg) (by unfold CleanParameters; norm_num [Ev.stopCfg]) cfg clean_account true false
  exact ⟨lines, ticks, h, (C69_clean Ev.fmt (1 / 20) 300 (by decide) 20 300 0 spiky (C65_price_csv _ _ _ _ _ loaded) lines ticks h).2
    (by decide +kernel)⟩

/-! ### Windows of ticks -/

abbrev minute : List (OhlcTick ℚ) := [⟨60, 1, 2, 1, 2, 1⟩, ⟨70, 2, 3, 1, 1, 1⟩, ⟨125, 1, 1, 1, 1, 0⟩, ⟨190, 4, 5, 4, 5, 2⟩]
theorem minute_sorted : SortedBy OhlcTick.ts minute := by unfold SortedBy; decide +kernel
theorem minute_feedable : Feedable minute := ⟨minute_sorted, by decide +kernel⟩
theorem minute_nogap : NoGap 60 minute := by unfold NoGap; decide +kernel

example := C51_closes 2 60 120 (by decide) (by decide) (by decide) (by decide) minute minute_sorted (by decide +kernel)
example := C51_ticks 60 120 (by decide) (by decide) (by decide) minute minute_sorted minute_nogap
example := C51_close_based 60 120 (by decide) (by decide) (by decide) minute minute_feedable
example := C51_sma 60 120 2 (by decide) (by decide) (by decide) (by decide) minute minute_feedable
example := C51_stochastic 60 120 2 (by decide) (by decide) (by decide) (by decide) minute minute_feedable minute_nogap (by simp)
example := C39_last_n_periods 2 60 (by decide) (by decide) minute minute_sorted (by decide +kernel)
example := C39_bounded 2 60 (by decide) (by decide) minute minute_sorted (by decide +kernel)
example : ∃ s e, lastNAfter 2 60 minute = .ok (s, e) ∧ replay 2 [] e = some s.ticks := by
  obtain ⟨s, e, h, -⟩ := C39_last_n_periods 2 60 (by decide) (by decide) minute minute_sorted (by decide +kernel)
  exact ⟨s, e, h, C40_callbacks 2 60 minute s e h⟩
example := C41_sma 2 60 (by decide) (by decide) minute minute_feedable
example := C42_bounds (2 : ℚ) 9 60 (by decide) minute minute_feedable (by simp) (by norm_num) (by norm_num) 1 5 (by decide +kernel)

/-! ### Preconditions -/

example := C98_trading_aborts (Account.init cfg) ⟨0, 0, 0⟩ minute[0] .limit .buy true 1 (-3) (.inr ⟨by decide, by decide +kernel⟩)
example := C98_trading_aborts (Account.init cfg) ⟨0, 0, 0⟩ minute[0] .market .sell true (-1) 0 (.inl (by decide +kernel))
example := C98_indicators 60 minute (by decide +kernel)
example := C98_volatility 5 60 (minute.map (fun t => (t, t.close, t.close))) (by decide +kernel)
example := C98_resample 60 (by decide) spiky
example := C98_side_input _ _ (rfl : SideInput.make ([⟨10, [1, 2]⟩, ⟨20, [3, 4]⟩] : List (SideInputRecord ℚ)) = .ok ⟨2, [10, 20], [1, 2, 3, 4]⟩)
  1 1 []

/-! ### Compressed files -/

theorem build : LawfulBuild (some markZlib) := by
  intro x hx; cases hx; exact markZlib_lawful

example := C104_truncated build true Csv.prices Csv.storable 3

/-- A message that cannot be written, after two that can. -/
abbrev heavy : Codec (PriceRecord ℚ) := { Csv.pc with encode := fun m => if m.ts = 99 then List.replicate (2 ^ 31) 0 else Csv.pc.encode m }
example := C104_unwritable build true (codec := heavy) (Csv.prices ++ [⟨99, 1, 1⟩]) Csv.prices [] ⟨99, 1, 1⟩ rfl (by
    intro m hm
    simp only [List.mem_cons, List.not_mem_nil, or_false] at hm
    rcases hm with rfl | rfl <;> exact ⟨by unfold Writable; decide +kernel, by decide +kernel⟩)
  (by
    unfold Writable
    simp only [heavy, if_pos, List.length_replicate]
    omega)

end Verif.Witness.Data
