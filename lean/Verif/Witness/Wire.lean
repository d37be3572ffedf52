import Verif.Props.Stochastic
import Verif.Props.StopTrader
import Verif.Props.Stream
import Verif.Props.TimeText
import Verif.Props.Timestamps
import Verif.Props.TraderLog
import Verif.Props.Volatility
import Verif.Props.Window
import Verif.Props.Wire
import Verif.Props.WireFormat
import Verif.Witness.Traders

/-!
# Witnesses: the theorems about the stop trader, windows, volatility, the stochastic oscillator, times, and the wire format
(C43-C46, C48, C50, C56-C58, C62, C75, C77, C78, C81, C88), each applied to concrete data
-/

namespace Verif.Witness.Wir
open FloatOps Spec Props _root_.Verif.Convert

/-! ### The stop trader -/

section
attribute [local instance] stLibm


theorem up1 : stopUpdate stCfg .init (stTick 300 100) [] 1 0 =
    .ok (⟨1, 0, 300, 100, .long, 90⟩, [⟨some .stop, some .sell, .base 1, some 90⟩]) := by decide +kernel
theorem two : TwoUpdates stCfg (stTick 300 100) (stTick 600 100) .sell .sell 90 (9009 / 100) :=
  ⟨⟨.init, ⟨1, 0, 300, 100, .long, 90⟩, ⟨1, 0, 600, 100, .long, 9009 / 100⟩, [], [], 1, 0, 1, 0,
    ⟨some .stop, some .sell, .base 1, some 90⟩, ⟨some .stop, some .sell, .base 1, some (9009 / 100)⟩,
    by decide +kernel, by decide +kernel, rfl, rfl, rfl, rfl⟩⟩
theorem later : TwoUpdates stCfg (stTick 300 100) (stTick 3900 200) .sell .sell 90 180 :=
  ⟨⟨.init, ⟨1, 0, 300, 100, .long, 90⟩, ⟨1, 0, 3900, 200, .long, 180⟩, [], [], 1, 0, 1, 0,
    ⟨some .stop, some .sell, .base 1, some 90⟩, ⟨some .stop, some .sell, .base 1, some 180⟩,
    by decide +kernel, by decide +kernel, rfl, rfl, rfl, rfl⟩⟩

example := C56_one_stop_order _ _ _ _ _ _ _ _ up1
example := (C57_ratchet stCfg (stTick 300 100) (stTick 600 100) _ _ (by decide)).1 two
example := (C57_no_move_beyond_threshold stCfg (stTick 300 100) (stTick 600 100) _ _ (by decide)).1 two
example := (C57_exact stCfg (stTick 300 100) (stTick 600 100) _ _ (by decide)).1 two
example := C57_reset _ _ _ _ _ _ _ later (.inr (by decide))
example : ∃ s out, feed (stopTrader Ev.fmt stCfg) StopState.init [⟨stTick 300 100, [], 1, 0⟩, ⟨stTick 600 100, [], 1, 0⟩] = .ok (s, out) ∧
    out.length = 2 ∧ ∀ os ∈ out, ∃ o, os = [o] ∧ ValidOrder o := by
  refine ⟨⟨1, 0, 600, 100, .long, 9009 / 100⟩, [[⟨some .stop, some .sell, .base 1, some 90⟩],
    [⟨some .stop, some .sell, .base 1, some (9009 / 100)⟩]], by decide +kernel, rfl, ?_⟩
  exact C56_orders_valid Ev.fmt stCfg (by unfold SaneMargins stCfg; norm_num) _ (by decide +kernel) _ _ (show _ = Except.ok (_, _) by
    decide +kernel : feed (stopTrader Ev.fmt stCfg) StopState.init [⟨stTick 300 100, [], 1, 0⟩, ⟨stTick 600 100, [], 1, 0⟩] =
      .ok (⟨1, 0, 600, 100, .long, 9009 / 100⟩, [[⟨some .stop, some .sell, .base 1, some 90⟩],
    [⟨some .stop, some .sell, .base 1, some (9009 / 100)⟩]]))

end

section
attribute [local instance] evLibm

/-! ### Indicators -/

example := C48_meaning 2 60 (by decide) (by decide) Data.minute Data.minute_feedable (by simp)
example := C48_range 2 60 (by decide) (by decide) Data.minute Data.minute_feedable (by simp)
  (by intro t ht; fin_cases ht <;> constructor <;> norm_num)

abbrev holdings : List (OhlcTick ℚ × ℚ × ℚ) := Data.minute.map (fun t => (t, 1, 10))
example := C50_returns 3 60 (by decide) holdings Data.minute_feedable

abbrev holdingsR : List (OhlcTick ℝ × ℝ × ℝ) := [(⟨60, 1, 2, 1, 2, 1⟩, 1, 10), (⟨125, 1, 1, 1, 1, 1⟩, 2, 9)]
example := C50_volatility 3 60 (by decide) (by decide) holdingsR ⟨by unfold SortedBy; simp, by simp⟩

/-! ### Files and times -/

example := C62_file Csv.pc Csv.prices (fun m hm => (Csv.storable m hm).1)
example := C78_local_time "2020-02-29T12:00:00+01:00".toList 1582974000 (by decide +kernel)
example := C78_format_parse (.sec 1582974000) (by intro t h; cases h; unfold IsInt64; decide)
example := C78_date 2020 2 29 (by constructor <;> decide) (by decide)
example := C77_loaded (F := ℚ) decimalScanner Csv.pc 300 0 _ (.inl ⟨_, Data.loaded⟩)

/-! ### The trader's log -/

abbrev rebalancingRun := executeTrader btCfg btTicks none true (rebalancingTrader Prog.fmt ⟨1 / 2, 1 / 20⟩) .init true
abbrev stopRun := executeTrader btCfg btTicks none true (stopTrader Prog.fmt ⟨1 / 10, 1 / 10, 0, 0⟩) .init true

theorem has_row (trace : List (Event ℚ)) (h : traderRows trace ≠ []) : ∃ before row after, trace = before ++ .traderRow row :: after := by
  obtain ⟨row, hr⟩ := List.exists_mem_of_ne_nil _ h
  unfold traderRows at hr
  obtain ⟨e, he, h1⟩ := List.mem_filterMap.mp hr
  obtain ⟨before, after, h2⟩ := List.append_of_mem he
  cases e <;> simp only [Option.some.injEq, reduceCtorEq] at h1
  subst h1
  exact ⟨before, _, after, h2⟩

example : ∃ row : String, '\n' ∉ row.toList := by
  obtain ⟨before, row, after, h⟩ := has_row rebalancingRun.trace (by decide +kernel)
  have := C75_rebalancing_rows Prog.fmt_plain .none _ _ _ _ _ _ before after row h
  obtain ⟨before, row, after, h⟩ := has_row stopRun.trace (by decide +kernel)
  obtain ⟨-, -, -, -, -, -, -, -, -, h⟩ := C75_stop_rows Prog.fmt_plain .none _ _ _ _ _ _ before after row h
  exact ⟨row, h⟩

/-! ### Windows -/

theorem vals : values exOps = some [3, 2, 4, 6] := by decide +kernel
example := C43_minimum (F := ℚ) 2 (by decide)
example := C43_maximum (F := ℚ) 2 (by decide)
example := C43_add_then_updates _ (C43_minimum (F := ℚ) 2 (by decide)) exOps 3 [4, 5] 6
example := C45_memory_safe 2 (by decide) exOps
example := C45_amortized (F := ℚ) 2 (by decide) exOps _ rfl
example := C44_window_size 2 (by decide) exOps _ vals
example := C44_extrema 2 (by decide) exOps _ vals (by simp)
example := C44_extrema_ieee (f := binary32) 2 (by decide) [.add (.fin 3), .add (.inf true), .update (.fin 2)] [.fin 3, .fin 2] (by decide +kernel)
  (by simp) (by simp)
example := C46_mean_variance 2 (by decide) exOps _ vals
example : ∃ s, meanVarAfter 2 exOps = .ok s ∧ 0 ≤ s.getVariance := by
  obtain ⟨s, h, -⟩ := C46_mean_variance 2 (by decide) exOps _ vals
  exact ⟨s, h, C46_variance_nonneg 2 (by decide) exOps s h⟩

end

/-! ### The wire format -/

section
open Wire

/-- A record, and its bytes. -/
abbrev rec : PriceRecord F32 := ⟨300, .fin (-3 / 2), .fin 1⟩
abbrev recBytes : List UInt8 := [0x08, 0xac, 0x02, 0x15, 0, 0, 0xc0, 0xbf, 0x1d, 0, 0, 0x80, 0x3f]
theorem rec_decode : priceCodec.decode recBytes = some rec := by decide +kernel
theorem rec_machine : MachinePrice rec := C81_any_price recBytes rec rec_decode
theorem one_repr : (Fl.fin 1 : F32).Repr := rec_machine.volume

example := C81_float rec.price rec_machine.price
example := C81_bits 0x3dcccccd (by decide)
example := C81_int64 (-5) (by unfold IsInt64; decide) [1, 2]
example := C81_price rec rec_machine

abbrev tick : OhlcTick F32 := ⟨300, .fin 1, .fin 1, .fin 1, .fin 1, .fin (-3 / 2)⟩
theorem tick_machine : MachineTick tick :=
  ⟨rec_machine.ts, one_repr, one_repr, one_repr, one_repr, rec_machine.price⟩
example := C81_tick tick tick_machine
theorem tick_decode : ohlcCodec.decode (ohlcCodec.encode tick) = some tick := by decide +kernel
example := C81_any_tick _ _ tick_decode

abbrev sideRec : SideInputRecord F32 := ⟨300, [.fin 1, .fin (-3 / 2)]⟩
theorem side_machine : MachineSide sideRec := ⟨rec_machine.ts, by
  intro x hx
  simp only [List.mem_cons, List.not_mem_nil, or_false] at hx
  rcases hx with rfl | rfl
  · exact one_repr
  · exact rec_machine.price⟩
example := C81_side sideRec side_machine (by decide)
theorem side_decode : sideCodec.decode (sideCodec.encode sideRec) = some sideRec := by decide +kernel

/-- A field number 20 with two bytes. -/
theorem newer : Fields 100 [⟨20, .bytes [9, 9]⟩] [162, 1, 2, 9, 9] := by
  have h1 : IsTag 20 2 [162, 1] := ⟨⟨by simp, [162], 1, rfl, by simp, by decide⟩, by decide, by norm_num, by norm_num⟩
  exact Fields.bytes (t := [162, 1]) (s := [2]) (payload := [9, 9]) h1 ⟨by simp, [], 2, rfl, by simp, by decide⟩
    (by decide) (by norm_num) .nil

example := C88_append_price _ _ _ _ rec_decode newer
example := C88_append_tick _ _ _ _ tick_decode newer
example := C88_append_side _ _ _ _ side_decode newer (by simp [WholeFloats])
example := C88_newer_price rec rec_machine _ _ newer (by simp)
example := C88_newer_tick tick tick_machine _ _ newer (by simp)
example := C88_newer_side sideRec side_machine (by decide) _ _ newer (by simp)

example := C81_loaded_prices C105_float 0 0 [⟨1483228800, .fin (201 / 2), .fin (1 / 4)⟩]
  (.inl ⟨some "1483228800,100.5,.25\n".toList, by decide +kernel⟩)
example := C81_loaded_ticks C105_float 0 0 [⟨1483228800, .fin 1, .fin 2, .fin 1, .fin 2, .fin (1 / 4)⟩]
  (.inl ⟨some "1483228800,1,2,1,2,.25\n".toList, by decide +kernel⟩)
end

end Verif.Witness.Wir
