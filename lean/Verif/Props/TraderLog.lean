import Verif.Props.Logger
import Verif.Props.Rebalancing
import Verif.Props.StopTrader
import Verif.Props.Evaluate

/-!
# C75: the trader log
-/

namespace Verif.Props
open Verif Verif.Spec Verif.Logger FloatOps

section
variable {F D : Type} [FloatOps F] [FloatOps D] [Wide F D] [Libm F] [Libm D]

omit [Libm F] [FloatOps F] in
theorem columns_join (l : List String) (h : ∀ w ∈ l, ∀ c ∈ w.toList, c ≠ ',' ∧ c ≠ '\n') (hne : l ≠ []) :
    columns (String.intercalate "," l).toList = l.map String.toList ∧ '\n' ∉ (String.intercalate "," l).toList := by
  rw [String.toList_intercalate]
  have : ",".toList = [','] := rfl
  rw [this]
  refine ⟨List.splitOn_intercalate _ ?_ (by simpa using hne), ?_⟩
  · intro w hw hc
    obtain ⟨v, hv, rfl⟩ := List.mem_map.mp hw
    exact (h v hv _ hc).1 rfl
  · intro hc
    rcases mem_intercalate hc with hc | ⟨w, hw, hc⟩
    · revert hc; decide
    · obtain ⟨v, hv, rfl⟩ := List.mem_map.mp hw
      exact (h v hv _ hc).2 rfl

/-- Every row of the trader log directly follows an update, and shows the state which that update led to. -/
theorem trader_row {recs : Option (List (SideInputRecord F))} {side : Option (SideInput F)} (hside : SideOf recs side)
    (c : AccountConfig F) (ticks : List (OhlcTick F)) (fast : Bool) (T : Trader F) (init : T.State) (log : Bool)
    (before after : List (Event F)) (row : String)
    (h : (executeTrader c ticks side fast T init log).trace = before ++ .traderRow row :: after) :
    ∃ t sg b q os s s', before.getLast? = some (.update t sg b q (.ok os)) ∧ T.update s t sg b q = .ok (s', os) ∧
      row = T.internalState s' := by
  have hstory := C32_story hside c ticks fast T init log
  obtain ⟨h1, t, sg, b, q, os, h2⟩ := hstory _ _ _ h
  obtain ⟨before', rfl⟩ : ∃ before', before = before' ++ [.update t sg b q (.ok os)] := by
    refine ⟨before.dropLast, ?_⟩
    have := List.dropLast_append_getLast? _ h2
    exact this.symm
  have h3 := hstory before' (.update t sg b q (.ok os)) (.traderRow row :: after) (by rw [h]; simp)
  obtain ⟨-, -, h3⟩ := h3
  cases hu : T.update (traderAfter T init before') t sg b q with
  | error e => rw [hu] at h3; cases h3
  | ok r =>
    rw [hu] at h3
    have h3 : os = r.2 := by cases h3; rfl
    refine ⟨t, sg, b, q, os, _, r.1, h2, by rw [hu, h3], ?_⟩
    rw [h1]
    congr 1
    unfold traderAfter
    rw [List.foldl_append]
    change (match T.update (traderAfter T init before') t sg b q with | .ok r => r.1 | .error _ => _) = r.1
    rw [hu]

/-- **C75** (rebalancing trader). Every row of the trader log directly follows an update of the trader and has four columns:
the timestamp of the tick, the base and quote balance the trader was given, and the closing price. -/
theorem C75_rebalancing_rows {fmt : Format F} (hf : PlainFormat fmt) {recs : Option (List (SideInputRecord F))}
    {side : Option (SideInput F)} (hside : SideOf recs side) (cfg : RebalancingConfig F) (c : AccountConfig F)
    (ticks : List (OhlcTick F)) (fast log : Bool) (init : RebalancingState F) (before after : List (Event F)) (row : String)
    (h : (executeTrader c ticks side fast (rebalancingTrader fmt cfg) init log).trace = before ++ .traderRow row :: after) :
    ∃ t sg b q os, before.getLast? = some (.update t sg b q (.ok os)) ∧
      columns row.toList =
        [(fmt.int t.ts).toList, (fmt.fixed 3 b).toList, (fmt.fixed 3 q).toList, (fmt.fixed 3 t.close).toList] ∧
      '\n' ∉ row.toList := by
  obtain ⟨t, sg, b, q, os, s, s', h1, h2, h3⟩ := trader_row hside c ticks fast (rebalancingTrader fmt cfg) init log before after row h
  refine ⟨t, sg, b, q, os, h1, ?_⟩
  obtain ⟨-, -, -, rfl, -⟩ := rebalancingUpdate_ok (sg := sg) h2
  rw [h3]
  have := columns_join [fmt.int t.ts, fmt.fixed 3 b, fmt.fixed 3 q, fmt.fixed 3 t.close] (by
    intro w hw
    simp only [List.mem_cons, List.not_mem_nil, or_false] at hw
    rcases hw with rfl | rfl | rfl | rfl
    · exact hf.int _
    all_goals exact hf.fixed _ _) (by simp)
  exact this

/-- **C75** (stop trader). Every row of the trader log directly follows an update of the trader, which emitted one stop order,
and has six columns: the timestamp of the tick, the base and quote balance the trader was given, the closing price, `LONG`
if the order sells and `CASH` if it buys, and the stop price of the order. -/
theorem C75_stop_rows {fmt : Format F} (hf : PlainFormat fmt) {recs : Option (List (SideInputRecord F))}
    {side : Option (SideInput F)} (hside : SideOf recs side) (cfg : StopConfig F) (c : AccountConfig F)
    (ticks : List (OhlcTick F)) (fast log : Bool) (init : StopState F) (before after : List (Event F)) (row : String)
    (h : (executeTrader c ticks side fast (stopTrader fmt cfg) init log).trace = before ++ .traderRow row :: after) :
    ∃ t sg b q d amount p, before.getLast? = some (.update t sg b q (.ok [⟨some .stop, some d, amount, some p⟩])) ∧
      columns row.toList =
        [(fmt.int t.ts).toList, (fmt.fixed 3 b).toList, (fmt.fixed 3 q).toList, (fmt.fixed 3 t.close).toList,
          (match d with | .sell => "LONG".toList | .buy => "CASH".toList), (fmt.fixed 3 p).toList] ∧
      '\n' ∉ row.toList := by
  obtain ⟨t, sg, b, q, os, s, s', h1, h2, h3⟩ := trader_row hside c ticks fast (stopTrader fmt cfg) init log before after row h
  obtain ⟨-, -, -, rfl, rfl⟩ := stopUpdate_ok (sg := sg) h2
  have key : ∀ m : String, (∀ x ∈ m.toList, x ≠ ',' ∧ x ≠ '\n') → ∀ p : F,
      columns (String.intercalate "," [fmt.int t.ts, fmt.fixed 3 b, fmt.fixed 3 q, fmt.fixed 3 t.close, m, fmt.fixed 3 p]).toList =
        [fmt.int t.ts, fmt.fixed 3 b, fmt.fixed 3 q, fmt.fixed 3 t.close, m, fmt.fixed 3 p].map String.toList ∧
      '\n' ∉ (String.intercalate "," [fmt.int t.ts, fmt.fixed 3 b, fmt.fixed 3 q, fmt.fixed 3 t.close, m, fmt.fixed 3 p]).toList := by
    intro m hm p
    refine columns_join _ ?_ (by simp)
    intro w hw
    simp only [List.mem_cons, List.not_mem_nil, or_false] at hw
    rcases hw with rfl | rfl | rfl | rfl | rfl | rfl
    · exact hf.int _
    · exact hf.fixed _ _
    · exact hf.fixed _ _
    · exact hf.fixed _ _
    · exact hm
    · exact hf.fixed _ _
  by_cases hlong : (q <=. b *. t.close) = true
  · refine ⟨t, sg, b, q, .sell, _, _, by rw [h1, if_pos hlong], ?_⟩
    rw [h3]
    have hm : stopMode t.close b q = .long := by unfold stopMode; exact if_pos hlong
    change columns (stopShow fmt _).toList = _ ∧ _ ∉ (stopShow fmt _).toList
    unfold stopShow
    simp only [hm, if_true]
    exact key "LONG" (by decide) _
  · refine ⟨t, sg, b, q, .buy, _, _, by rw [h1, if_neg hlong], ?_⟩
    rw [h3]
    have hm : stopMode t.close b q = .cash := by unfold stopMode; exact if_neg hlong
    change columns (stopShow fmt _).toList = _ ∧ _ ∉ (stopShow fmt _).toList
    unfold stopShow
    simp only [hm, reduceCtorEq, if_false]
    exact key "CASH" (by decide) _

/-- **C75** (length). A back-test of any trader whose state prints without newlines that completes writes one line to the
trader log for every active tick. -/
theorem C75_number_of_lines (fmt : Format F) {recs : Option (List (SideInputRecord F))} {side : Option (SideInput F)}
    (hside : SideOf recs side) (c : AccountConfig F) (ticks : List (OhlcTick F)) (fast : Bool) (T : Trader F) (init : T.State)
    (hplain : ∀ row ∈ traderRows (executeTrader c ticks side fast T init true).trace, '\n' ∉ row.toList)
    {r : ExecutionResult F} (hr : (executeTrader c ticks side fast T init true).out = .ok r) (exchange : Option Text) (old : Text) :
    ∃ new, ((CsvLogger.mk exchange (some old)).after fmt (executeTrader c ticks side fast T init true).trace).trader
        = some (old ++ new) ∧
      Convert.linesOf new = (traderRows (executeTrader c ticks side fast T init true).trace).map String.toList ∧
      (Convert.linesOf new).length = (ticks.filter active).length := by
  refine ⟨_, (after_eq fmt _ _).2, ?_⟩
  rw [linesOf_textOf _ (by
    intro l hl
    obtain ⟨row, hrow, rfl⟩ := List.mem_map.mp hl
    exact hplain row hrow)]
  have h4 := C32_rows hside c ticks fast T init hr
  dsimp only at h4
  exact ⟨rfl, by rw [List.length_map, h4.2.2.1]⟩

end

/-! ### Non-vacuity -/

/-- `%d` and `%.<n>f` of exact numbers. -/
abbrev logFmt : Format ℚ :=
  ⟨fun x => String.ofList (Convert.printInt x), fun n x => String.ofList (fixedText n (decide (x < 0)) |x|)⟩

attribute [local instance] evLibm in
/-- The trader logs of the two built-in traders on a short history have two rows each. -/
example :
    (traderRows (executeTrader btCfg btTicks none true (rebalancingTrader logFmt ⟨1 / 2, 1 / 20⟩) .init true).trace).length = 2 ∧
    (traderRows (executeTrader btCfg btTicks none true (stopTrader logFmt ⟨1 / 10, 1 / 10, 0, 0⟩) .init true).trace).length = 2 := by
  decide +kernel

/-- What the columns of such a row contain. -/
example : columns "240,5.000,50.000,10.000".toList =
    ["240".toList, "5.000".toList, "50.000".toList, "10.000".toList] ∧
    (logFmt.fixed 3 5).toList = "5.000".toList := by
  constructor
  · decide +kernel
  · simp only [String.toList_ofList]
    decide +kernel

end Verif.Props
