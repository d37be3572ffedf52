import Verif.Props.Printing
import Verif.Props.Proto
import Verif.Props.Rebalancing
import Verif.Props.Report
import Verif.Props.Resample
import Verif.Props.Robust
import Verif.Props.Rsi
import Verif.Props.Scanf
import Verif.Props.Score
import Verif.Props.SideCsv
import Verif.Props.SideInput
import Verif.Witness.Data

/-!
# Witnesses: the theorems about the rebalancing trader, printing, proto files, reports, resampling, the RSI, numbers, and side inputs
(C18, C19, C25-C27, C47, C52-C55, C59, C62, C63, C67, C73, C79, C105), each applied to concrete data
-/

namespace Verif.Witness.Trd
open FloatOps Spec Props _root_.Verif.Convert

attribute [local instance] evLibm

example := C73_duration 3725 (by decide)
example := C73_injective 3725 3725 (by decide) (by decide) rfl

/-! ### Proto files -/

example := C62_round_trip Csv.prices Csv.storable [⟨1, 1, 1⟩]
example := C62_concatenation Csv.prices (Csv.prices.take 1) Csv.storable (fun m hm => Csv.storable m (List.mem_of_mem_take hm))
example := C62_callback Csv.prices Csv.storable (fun (n : ℕ) m => (n + 1, if m.ts = 75 then some .kBreak else some .kContinue)) 0
example := C63_truncated Csv.prices Csv.storable 3
example := C63_prefix Csv.prices Csv.storable 3

/-! ### The rebalancing trader -/

theorem sells : rebalancingUpdate rbCfg .init (rbTick 300) [] 1 100 = .ok (⟨1, 100, 300, 300⟩, [marketOrder .sell (1 / 3)]) := by
  decide +kernel
theorem places : rebalancingUpdate rbCfg .init (rbTick 100) [] 2 200 = .ok (⟨2, 200, 300, 100⟩, [limitOrder .sell (2 / 11) (2200 / 9)]) := by
  decide +kernel

theorem rb : (0 : ℚ) < rbCfg.alpha ∧ rbCfg.alpha < 1 ∧ 0 < rbCfg.epsilon ∧ rbCfg.epsilon < 1 := by
  unfold rbCfg; norm_num

example := C52_shape _ _ _ _ _ _ _ _ sells
example := C54_limit_prices _ _ _ _ _ _ _ _ places _ List.mem_cons_self
example := C54_no_market_order_in_band _ _ _ _ _ _ _ _ places (by decide +kernel) (by decide +kernel)
example := C52_orders_valid _ _ _ _ _ _ _ _ rb.1.le rb.2.2.1 rb.2.2.2 (by norm_num) (by norm_num) places
example := C54_market_order_iff _ _ _ _ _ _ _ _ rb.1.le rb.2.2.1.le sells
example := C53_restores_alpha _ _ _ _ _ _ _ _ (by norm_num) (by norm_num) rb.1.le rb.2.1.le sells (1 / 3)
example := C55_limit_price_on_edge_iff _ _ _ _ _ _ _ _ rb.1 rb.2.1 rb.2.2.1 rb.2.2.2 places .sell _ _ List.mem_cons_self
example := C55_limit_amount_restores_alpha _ _ _ _ _ _ _ _ rb.1 rb.2.1 rb.2.2.1 rb.2.2.2 places (2 / 11) (2200 / 9)

/-! ### Reports -/

example := C79_outliers Ev.fmt Data.spiky [2] (by decide) 1 1 5
example := C79_gaps Ev.fmt (⟨100, 1, 1⟩ : PriceRecord ℚ) [⟨160, 1, 1⟩, ⟨400, 1, 1⟩] 2 (by decide)
example := C79_flags Ev.fmt (⟨100, 1, 1⟩ : PriceRecord ℚ) [⟨160, 1, 1⟩] (by decide) [0] (by decide) (-1) (by decide) (by decide)

/-! ### Resampling -/

theorem spiky_sorted : SortedBy PriceRecord.ts Data.spiky := by unfold SortedBy; decide +kernel

theorem resampled : ∃ out x, resample 300 Data.spiky = .ok out ∧ x ∈ out ∧ recordsIn 300 x.ts Data.spiky ≠ [] := by
  obtain ⟨out, ho⟩ := (C98_resample 300 (by decide) Data.spiky).mpr (by decide +kernel)
  have hv := C19_volume 300 (by decide) Data.spiky spiky_sorted (by decide +kernel) out ho
  have : ∃ x ∈ out, recordsIn 300 x.ts Data.spiky ≠ [] := by
    by_contra hno
    push Not at hno
    have hz : ∀ x ∈ out, x.volume = 0 := by
      intro x hx
      have h := C18_meaning 300 (by decide) Data.spiky spiky_sorted (by decide +kernel) out ho x hx
      obtain ⟨prev, -, -, -, -, -, e⟩ := h.2 (hno x hx)
      exact e
    have : (out.map (·.volume)).sum = 0 := List.sum_eq_zero (by simpa using hz)
    rw [this] at hv
    exact absurd hv (by decide +kernel)
  obtain ⟨x, hx, h⟩ := this
  exact ⟨out, x, ho, hx, h⟩

example : ∃ x : OhlcTick ℚ, WellFormedTick x ∧ ∃ r ∈ Data.spiky, x.high = r.price := by
  obtain ⟨out, x, ho, hx, hne⟩ := resampled
  have h := C18_exact 300 (by decide) Data.spiky spiky_sorted (by decide +kernel) out ho x hx hne
  refine ⟨x, C19_well_formed 300 (by decide) Data.spiky spiky_sorted (by decide +kernel) (by decide +kernel) (by decide +kernel) out ho x hx, ?_⟩
  obtain ⟨⟨r, hr, e⟩, -⟩ := h
  exact ⟨r, List.mem_of_mem_filter hr, e⟩

/-! ### Back-tests that do not abort -/

example := C59_returns_iff Bt.side_of Ev.fmt (.stop Ev.stopCfg) (by unfold CleanParameters; norm_num [Ev.stopCfg]) Data.cfg
  Data.clean_account evTicks Data.clean_ev.each Data.clean_ev.sorted false true
example := C59_any_safe_trader Bt.side_of Data.cfg Data.clean_account evTicks Data.clean_ev _ _ _
  (rebalancing_safe Ev.fmt rbCfg ⟨rb.1.le, rb.2.2.1, rb.2.2.2⟩) false true

/-! ### RSI -/

example := C47_formula (F := ℚ) 14 60 (by decide) Data.minute Data.minute_feedable
example := C47_range (K := ℚ) 14 60 (by decide) (by decide) Data.minute Data.minute_feedable

/-! ### Numbers -/

example := C105_stream exNumeral exNumeral_wf
example := C105_nan (f := binary32) "NaN".toList " ".toList ",1".toList none (by unfold Spells; decide) (by decide)
example := C105_inf (f := binary32) "Inf".toList " ".toList ",1".toList (some true) (.inl (by unfold Spells; decide)) (by decide)
  (fun c hc => .inl (by simpa using hc.symm))
example := C105_no_number (f := binary32) "  -abc".toList
  ⟨"  ".toList, some true, "abc".toList, by decide, by decide, fun c hc => by
    obtain rfl : 'a' = c := by simpa using hc
    decide⟩
example := C105_price_csv [exRow, exRow] (by simpa using exRow_wf)
example : ∃ x : F32, ((x <=. lit F32 0) = false ↔ exNumeral.negative = false ∧ 1 / 2 ^ 150 < exNumeral.magnitude) := by
  obtain ⟨x, hx, -⟩ := C105_scan exNumeral exNumeral_wf
  exact ⟨x, (C105_checks exNumeral x hx).1⟩

/-! ### Side inputs -/

abbrev s2 : SideInput ℚ := ⟨2, [10, 20], [1, 2, 3, 4]⟩
theorem made : SideInput.make ([⟨10, [1, 2]⟩, ⟨20, [3, 4]⟩] : List (SideInputRecord ℚ)) = .ok s2 := rfl
example := C27_access _ _ made
example := C25_index _ _ made 15
example := C26_hint _ _ made 15 0
example := C67_loads (decimalScanner (F := ℚ)) 0 100 (some "60,1.5,2.0\n75,0.25,3.0\n100,1\nend".toList) [⟨60, [3 / 2, 2]⟩, ⟨75, [1 / 4, 3]⟩]
  (by decide +kernel)
example := C67_header (F := ℚ) (sc := decimalScanner) 0 0 "timestamp,signal".toList ["60,0.25".toList] (by decide) (by decide +kernel)

end Verif.Witness.Trd
