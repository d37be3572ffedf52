import Verif.Props.FloatAccuracy
import Verif.Props.FloatEma
import Verif.Props.FloatMoney
import Verif.Props.FloatPipeline
import Verif.Props.FloatPrices
import Verif.Props.FloatRobust
import Verif.Props.FloatRobustUse
import Verif.Props.FloatRsi
import Verif.Props.FloatSma
import Verif.Props.FloatStochastic
import Verif.Props.FloatVariance
import Verif.Props.FloatEvaluate

/-!
# Witnesses: theorems about binary32 arithmetic (C18, C19, C85, C87, C89-C91, C96, C101), each applied to concrete data
-/

namespace Verif.Witness.Fl32
open FloatOps Spec Props Fl

/-- Three ticks in two periods of ten seconds; the prices are not dyadic. -/
abbrev ticks : List (OhlcTick F32) :=
  [⟨100, lit F32 (1 / 10), lit F32 1, lit F32 (1 / 20), lit F32 (7 / 10), lit F32 0⟩,
   ⟨110, lit F32 1, lit F32 2, lit F32 (1 / 4), lit F32 (1 / 3), lit F32 0⟩,
   ⟨115, lit F32 1, lit F32 (10 / 3), lit F32 1, lit F32 (16 / 5), lit F32 7⟩]

theorem feedable : Feedable ticks := ⟨by unfold SortedBy; decide +kernel, by decide +kernel⟩

instance (x : F32) : Decidable (IsFin x) := by
  unfold IsFin; cases x <;> infer_instance

theorem prices : PricesWithin (2 ^ 97) ticks := by unfold PricesWithin; decide +kernel
theorem closes (M : ℚ) (h : 4 ≤ M) : ClosesWithin M ticks := by
  have : ClosesWithin 4 ticks := by unfold ClosesWithin; decide +kernel
  exact fun t ht => ⟨(this t ht).1, (this t ht).2.trans h⟩
theorem ranges : RangesWithin (2 ^ 100) ticks := by unfold RangesWithin; decide +kernel

example := C89_rsi 14 10 (by decide) (by decide) (by decide) ticks feedable prices
example := C89_stochastic 14 10 (by decide) (by decide) ticks feedable (by simp) ranges
example := C101_averages 14 10 (by decide) (by decide) (by decide) ticks feedable prices 4 (by norm_num) (by norm_num)
  (by unfold MovesWithin; decide +kernel)
example := C101_rsi 14 10 (by decide) (by decide) (by decide) ticks feedable prices 4 (by norm_num) (by norm_num)
  (by unfold MovesWithin; decide +kernel) _ rfl (by decide +kernel)

example := C90_ema (lit F32 2) 9 10 (by decide) ticks feedable _ rfl (C90_weight 9 (by decide) (by decide)).1 (C90_weight 9 (by decide) (by decide)).2.1
  (C90_weight 9 (by decide) (by decide)).2.2.1 4 (by norm_num) (by norm_num)
  (closes 4 le_rfl)
example := C90_ema_range (lit F32 2) 9 10 (by decide) ticks feedable (by simp) _ rfl (C90_weight 9 (by decide) (by decide)).1 (C90_weight 9 (by decide) (by decide)).2.1
  (C90_weight 9 (by decide) (by decide)).2.2.1 4 (by norm_num)
  (by norm_num) (closes 4 le_rfl) (1 / 4) 4 (by decide +kernel)
example := C90_macd 12 26 9 10 (by decide) (by decide) (by decide) (by decide) (by decide) (by decide) (by decide) ticks feedable 4
  (by norm_num) (by norm_num) (closes 4 le_rfl)
example := C91_sma 2 10 (by decide) (by decide) ticks feedable 4 (by norm_num) (by norm_num) (closes 4 le_rfl) (by decide +kernel)
example := C91_never_recovers 1000 (by decide)

abbrev ops : List (WinOp F32) := [.add (lit F32 (1 / 10)), .add (lit F32 3), .update (lit F32 (-1 / 3)), .add (lit F32 2)]
abbrev vals : List F32 := [lit F32 (1 / 10), lit F32 (-1 / 3), lit F32 2]
theorem values_ops : values ops = some vals := by decide +kernel
example := C96_mean_variance 2 (by decide) 2 (by norm_num) (by norm_num) ops vals values_ops (by decide +kernel) (by decide)
example := C96_positive 2 (by decide) 2 (by norm_num) (by norm_num) ops vals values_ops (by decide +kernel) (by decide) (by decide +kernel)

/-! ### The account -/

example : ∃ a', runOrders (exCfg F32) fmAcc (exOrders F32) = .ok a' ∧ FloatOnGrid a' := by
  have : (runOrders (exCfg F32) fmAcc (exOrders F32)).isOk = true := by decide +kernel
  cases h : runOrders (exCfg F32) fmAcc (exOrders F32) with
  | error e => rw [h] at this; cases this
  | ok a' => exact ⟨a', rfl, C85_grid_kept _ _ fmAcc a' fmAcc_grid h⟩

abbrev tick : OhlcTick F32 := ⟨60, lit F32 10, lit F32 (123 / 10), lit F32 (91 / 10), lit F32 11, lit F32 1⟩
theorem tick_between : TickBetween (1 / 2 ^ 100) (2 ^ 125) tick := by
  constructor <;> first | (unfold Between; decide +kernel) | decide +kernel

/-- A limit order with a price and one without. -/
example := C87_orders_never_abort fmAcc (exCfg F32) ⟨some .limit, some .buy, .base (lit F32 1), some (lit F32 (19 / 2))⟩ tick
  (by unfold Between; decide +kernel) fmAcc_units tick_between (by intro ty; cases ty <;> decide +kernel) (by intro; decide +kernel)
example := C87_orders_never_abort fmAcc (exCfg F32) ⟨some .market, none, .none, none⟩ tick
  (by unfold Between; decide +kernel) fmAcc_units tick_between (by intro ty; cases ty <;> decide +kernel) (by intro h; cases h)

example := C87_default_traders "stop" _ rfl
example (l : List (BuiltIn F32)) (h : getBatchOfTraders "stop" = .ok l) := C87_default_batches "stop" l h

/-! ### Conversion -/

abbrev trades : List (PriceRecord F32) :=
  [⟨300, lit F32 (201 / 2), lit F32 2⟩, ⟨310, lit F32 (1001 / 10), lit F32 1⟩, ⟨920, lit F32 101, lit F32 (1 / 2)⟩]
theorem sorted : SortedBy PriceRecord.ts trades := by unfold SortedBy; decide +kernel

theorem resampled : ∃ out x, resample 300 trades = .ok out ∧ x ∈ out ∧ recordsIn 300 x.ts trades ≠ [] := by
  obtain ⟨out, ho, hl, ht⟩ := C17_grid 300 (by decide) _ _ sorted (by decide +kernel)
  have hl' : (out.length : ℤ) = 3 := hl.trans (by decide +kernel)
  have h0 : 0 < out.length := by omega
  refine ⟨out, out[0], ho, List.getElem_mem _, ?_⟩
  rw [ht 0 h0]
  decide +kernel

example : ∃ x : OhlcTick F32, (∃ r ∈ trades, x.high = r.price) ∧ (∃ r ∈ trades, r.price = x.close ∧ r.ts < x.ts + 300) ∧
    (x.low <=. x.close) = true := by
  obtain ⟨out, x, ho, hx, hne⟩ := resampled
  obtain ⟨⟨r, hr, e⟩, -, -⟩ := C18_float 300 (by decide) trades sorted (by decide +kernel) (by decide +kernel) out ho x hx hne
  exact ⟨x, ⟨r, List.mem_of_mem_filter hr, e⟩,
    C19_no_invented_prices 300 (by decide) trades sorted (by decide +kernel) out ho x hx _ (.inr (.inr (.inr rfl))),
    (C19_well_formed_float 300 (by decide) trades sorted (by decide +kernel) (by decide +kernel) (by decide +kernel) out ho x hx).2.2.1⟩

end Verif.Witness.Fl32
