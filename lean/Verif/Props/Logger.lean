import Verif.Spec.Logger
import Verif.Props.Backtest
import Verif.Props.Csv

/-!
# C70, C75: the logs of a back-test
-/

namespace Verif.Props
open Verif Verif.Spec Verif.Logger FloatOps

section generic
variable {F : Type} [FloatOps F]

theorem intercalate_append (x : Char) (a b : List Text) (ha : a ≠ []) (hb : b ≠ []) :
    [x].intercalate (a ++ b) = [x].intercalate a ++ [x] ++ [x].intercalate b := by
  induction a with
  | nil => exact absurd rfl ha
  | cons w a ih =>
    rcases a with - | ⟨v, a⟩
    · simp [List.intercalate_cons_of_ne_nil hb]
    · rw [List.cons_append, List.cons_append, List.intercalate_cons_cons, List.intercalate_cons_cons, ← List.cons_append,
        ih (by simp)]
      simp [List.append_assoc]

theorem intercalate_three (x : Char) (a b c : List Text) (ha : a ≠ []) (hb : b ≠ []) (hc : c ≠ []) :
    [x].intercalate [[x].intercalate a, [x].intercalate b, [x].intercalate c] = [x].intercalate (a ++ b ++ c) := by
  rw [List.append_assoc, intercalate_append x a _ ha (by simp [hb]), intercalate_append x b c hb hc]
  simp [List.intercalate_cons_cons]

theorem tick_line (fmt : Format F) (t : OhlcTick F) (a : Account F) :
    joinFields [tickCsv fmt t, accountCsv fmt a, emptyOrderCsv] = exchangeLine fmt (t, a, none) := by
  have : emptyOrderCsv = joinFields [[], [], [], [], []] := rfl
  rw [this]
  unfold tickCsv accountCsv joinFields exchangeLine
  rw [intercalate_three ',' _ _ _ (by simp) (by simp) (by simp)]
  rfl

theorem order_line (fmt : Format F) (t : OhlcTick F) (a : Account F) (o : Order F) :
    joinFields [tickCsv fmt t, accountCsv fmt a, orderCsv fmt o] = exchangeLine fmt (t, a, some o) := by
  unfold tickCsv accountCsv orderCsv joinFields exchangeLine
  dsimp only
  rw [intercalate_three ',' _ _ _ (by simp) (by simp) (by simp)]
  congr 1
  obtain ⟨ty, sd, am, pr⟩ := o
  rcases ty with - | ty | ty | ty <;> rcases sd with - | sd | sd <;> rcases am with - | x | x <;> rfl

/-- A row of the exchange log never has more or fewer than 14 columns. -/
theorem exchangeColumns_length (fmt : Format F) (call : OhlcTick F × Account F × Option (Order F)) :
    (exchangeColumns fmt call).length = 14 := by
  obtain ⟨t, a, - | o⟩ := call <;> rfl

theorem exchangeColumns_all {fmt : Format F} {P : Char → Prop} (hint : ∀ x, ∀ c ∈ (fmt.int x).toList, P c)
    (hfixed : ∀ n x, ∀ c ∈ (fmt.fixed n x).toList, P c) (hup : ∀ c : Char, c.isUpper → P c)
    (call : OhlcTick F × Account F × Option (Order F)) : ∀ col ∈ exchangeColumns fmt call, ∀ c ∈ col, P c := by
  intro col hcol c hc
  unfold exchangeColumns at hcol
  rw [List.mem_append, List.mem_append] at hcol
  rcases hcol with (hcol | hcol) | hcol
  · rw [List.mem_singleton] at hcol; subst hcol; exact hint _ _ hc
  · obtain ⟨x, -, rfl⟩ := List.mem_map.mp hcol
    exact hfixed _ _ _ hc
  · obtain ⟨t, a, - | o⟩ := call
    · simp at hcol; subst hcol; simp at hc
    · obtain ⟨ty, sd, am, pr⟩ := o
      simp only [orderColumns, List.mem_cons, List.not_mem_nil, or_false] at hcol
      rcases hcol with rfl | rfl | rfl | rfl | rfl
      · refine hup c ?_
        rcases ty with - | ty | ty | ty <;> simp at hc <;> rcases hc with rfl | rfl | rfl | rfl | rfl | rfl <;> decide
      · refine hup c ?_
        rcases sd with - | sd | sd <;> simp at hc <;> rcases hc with rfl | rfl | rfl | rfl <;> decide
      · rcases am with - | x | x
        · simp at hc
        · exact hfixed _ _ _ hc
        · simp at hc
      · rcases am with - | x | x
        · simp at hc
        · simp at hc
        · exact hfixed _ _ _ hc
      · split at hc
        · exact hfixed _ _ _ hc
        · simp at hc

theorem exchangeColumns_plain {fmt : Format F} (hf : PlainFormat fmt) (call : OhlcTick F × Account F × Option (Order F)) :
    ∀ col ∈ exchangeColumns fmt call, ∀ c ∈ col, c ≠ ',' ∧ c ≠ '\n' :=
  exchangeColumns_all hf.int hf.fixed (by
    intro c hc
    constructor <;> rintro rfl <;> exact absurd hc (by decide)) call

theorem columns_exchangeLine {fmt : Format F} (hf : PlainFormat fmt) (call : OhlcTick F × Account F × Option (Order F)) :
    columns (exchangeLine fmt call) = exchangeColumns fmt call := by
  unfold columns exchangeLine
  exact List.splitOn_intercalate _ (fun l hl h => (exchangeColumns_plain hf call l hl _ h).1 rfl)
    (fun h => by have := exchangeColumns_length fmt call; rw [h] at this; simp at this)

theorem mem_intercalate {x c : Char} {l : List Text} (h : c ∈ [x].intercalate l) : c = x ∨ ∃ w ∈ l, c ∈ w := by
  induction l with
  | nil => simp at h
  | cons w l ih =>
    rcases l with - | ⟨v, l⟩
    · exact Or.inr ⟨w, by simp, by simpa using h⟩
    · rw [List.intercalate_cons_cons, List.mem_append, List.mem_append] at h
      rcases h with (h | h) | h
      · exact Or.inr ⟨w, by simp, h⟩
      · exact Or.inl (by simpa using h)
      · rcases ih h with h | ⟨u, hu, h⟩
        · exact Or.inl h
        · exact Or.inr ⟨u, by simp [hu], h⟩

theorem exchangeLine_newline {fmt : Format F} (hf : PlainFormat fmt) (call : OhlcTick F × Account F × Option (Order F)) :
    '\n' ∉ exchangeLine fmt call := by
  intro h
  rcases mem_intercalate h with h | ⟨w, hw, h⟩
  · revert h; decide
  · exact (exchangeColumns_plain hf call w hw _ h).2 rfl

theorem textOf_append (a b : List Text) : textOf (a ++ b) = textOf a ++ textOf b := by simp [textOf]

/-- What a logger writes, whatever it hears. -/
theorem after_eq (fmt : Format F) (l : CsvLogger) (trace : List (Event F)) :
    (l.after fmt trace).exchange = l.exchange.map (· ++ textOf ((exchangeCalls trace).map (exchangeLine fmt))) ∧
    (l.after fmt trace).trader = l.trader.map (· ++ textOf ((traderRows trace).map String.toList)) := by
  induction trace generalizing l with
  | nil => simp [CsvLogger.after, exchangeCalls, traderRows, textOf]
  | cons e trace ih =>
    have h1 := (ih (l.hear fmt e)).1
    have h2 := (ih (l.hear fmt e)).2
    change (CsvLogger.after fmt (l.hear fmt e) trace).exchange = _ ∧ (CsvLogger.after fmt (l.hear fmt e) trace).trader = _
    rw [h1, h2]
    rcases l with ⟨ex, tr⟩
    cases e with
    | exec t o r => exact ⟨rfl, rfl⟩
    | update t sg b q r => exact ⟨rfl, rfl⟩
    | tickRow t a =>
      have hc : exchangeCalls (.tickRow t a :: trace) = (t, a, none) :: exchangeCalls trace := rfl
      refine ⟨?_, rfl⟩
      rw [hc]
      cases ex with
      | none => rfl
      | some ex =>
        simp only [CsvLogger.hear, CsvLogger.logTick, Option.map_some, tick_line, List.map_cons]
        simp [textOf]
    | orderRow t a o =>
      have hc : exchangeCalls (.orderRow t a o :: trace) = (t, a, some o) :: exchangeCalls trace := rfl
      refine ⟨?_, rfl⟩
      rw [hc]
      cases ex with
      | none => rfl
      | some ex =>
        simp only [CsvLogger.hear, CsvLogger.logOrder, Option.map_some, order_line, List.map_cons]
        simp [textOf]
    | traderRow s =>
      have hc : traderRows (.traderRow s :: trace) = s :: traderRows trace := rfl
      refine ⟨rfl, ?_⟩
      rw [hc]
      cases tr with
      | none => rfl
      | some tr =>
        simp only [CsvLogger.hear, CsvLogger.logTrader, Option.map_some, List.map_cons]
        simp [textOf]

/-- **C70** (the exchange log). What the logger appends to the exchange log is one line for each call, in order; each line has
the 14 columns it should have. -/
theorem C70_exchange_log {fmt : Format F} (hf : PlainFormat fmt) (trader : Option Text) (old : Text) (trace : List (Event F)) :
    ∃ new, ((CsvLogger.mk (some old) trader).after fmt trace).exchange = some (old ++ new) ∧
      Convert.linesOf new = (exchangeCalls trace).map (exchangeLine fmt) ∧
      (Convert.linesOf new).map columns = (exchangeCalls trace).map (exchangeColumns fmt) ∧
      ∀ line ∈ Convert.linesOf new, (columns line).length = 14 := by
  refine ⟨_, (after_eq fmt _ trace).1, ?_⟩
  have hl : Convert.linesOf (textOf ((exchangeCalls trace).map (exchangeLine fmt))) =
      (exchangeCalls trace).map (exchangeLine fmt) := by
    apply linesOf_textOf
    intro l hl
    obtain ⟨call, -, rfl⟩ := List.mem_map.mp hl
    exact exchangeLine_newline hf call
  rw [hl]
  refine ⟨rfl, ?_, ?_⟩
  · rw [List.map_map]
    exact List.map_congr_left (fun call _ => columns_exchangeLine hf call)
  · intro line hline
    obtain ⟨call, -, rfl⟩ := List.mem_map.mp hline
    rw [columns_exchangeLine hf, exchangeColumns_length]

/-- **C70** (missing streams). A stream that was not given receives nothing, and what the other one receives does not
depend on it. -/
theorem C70_missing_stream (fmt : Format F) (exchange trader : Option Text) (trace : List (Event F)) :
    ((CsvLogger.mk none trader).after fmt trace).exchange = none ∧
    ((CsvLogger.mk exchange none).after fmt trace).trader = none ∧
    ((CsvLogger.mk exchange none).after fmt trace).exchange = ((CsvLogger.mk exchange trader).after fmt trace).exchange ∧
    ((CsvLogger.mk none trader).after fmt trace).trader = ((CsvLogger.mk exchange trader).after fmt trace).trader := by
  refine ⟨?_, ?_, ?_, ?_⟩
  · rw [(after_eq fmt _ trace).1]; rfl
  · rw [(after_eq fmt _ trace).2]; rfl
  · rw [(after_eq fmt _ trace).1, (after_eq fmt _ trace).1]
  · rw [(after_eq fmt _ trace).2, (after_eq fmt _ trace).2]

omit [FloatOps F] in
theorem exchangeCalls_length (trace : List (Event F)) :
    (exchangeCalls trace).length = (tickRows trace).length + (orderRows trace).length := by
  induction trace with
  | nil => rfl
  | cons e trace ih =>
    cases e <;> simp_all [exchangeCalls, tickRows, orderRows] <;> omega

end generic

section backtest
variable {F D : Type} [FloatOps F] [FloatOps D] [Wide F D] [Libm F] [Libm D]

/-- **C70** (length of the exchange log). A back-test that completes writes one line for every tick and one for every executed
order, whatever the trader. -/
theorem C70_number_of_lines {fmt : Format F} (hf : PlainFormat fmt)
    {recs : Option (List (SideInputRecord F))} {side : Option (SideInput F)} (hside : SideOf recs side)
    (c : AccountConfig F) (ticks : List (OhlcTick F)) (fast : Bool) (T : Trader F) (init : T.State)
    {r : ExecutionResult F} (hr : (executeTrader c ticks side fast T init true).out = .ok r) (trader : Option Text) :
    ∃ text, ((CsvLogger.mk (some []) trader).after fmt (executeTrader c ticks side fast T init true).trace).exchange
        = some text ∧ (Convert.linesOf text).length = ticks.length + r.totalExecutedOrders := by
  obtain ⟨new, h1, -, h2, -⟩ := C70_exchange_log hf trader [] (executeTrader c ticks side fast T init true).trace
  refine ⟨new, by simpa using h1, ?_⟩
  have h3 := congrArg List.length h2
  rw [List.length_map, List.length_map, exchangeCalls_length] at h3
  have h4 := C32_rows hside c ticks fast T init hr
  dsimp only at h4
  rw [h3, h4.2.2.2, ← List.length_map (f := Prod.fst), h4.1]

end backtest
end Verif.Props
