import Verif.Props.CommandLine
import Verif.Props.TraderMain
import Verif.Props.ConvertMain
import Verif.Props.Printing

/-!
# C107: what command lines do to files; traps; examples
-/

namespace Verif.Props
open FloatOps Spec CommandLine Verif.Convert

section
variable {F D : Type} [FloatOps F] [Libm F] [FloatOps D] [Libm D] [Wide F D]

private theorem not_output {settings : List (Text × Text)} {name : String} {v n : Text}
    (h : FlagValue settings name (fun s v => v = s) [] v) (hn : (name.toList, n) ∉ settings) (hne : n ≠ []) : n ≠ v := by
  rintro rfl
  cases hl : lastFor settings name with
  | none => exact hne (h.2 hl)
  | some s =>
    have e := h.1 s hl
    subst e
    unfold lastFor at hl
    obtain ⟨x, hx, e⟩ := Option.map_eq_some_iff.mp hl
    have hm := List.mem_filter.mp (List.mem_of_getLast? hx)
    have h1 : x.1 = name.toList := of_decide_eq_true hm.2
    apply hn
    rw [← h1, ← e]
    exact hm.1

/-- **C107** (trader, files). Whatever the command line, trader changes no file but those it names as its logs. -/
theorem C107_trader_files (atod : Text → Option D) (env : TraderMain.Env F) (args : List Text) (w : Files) (o : Outcome)
    (h : CommandLine.trader atod env args w = some o) (n : Text)
    (hn : ∀ settings, Spelled traderRegistry args settings →
      ("output_exchange_log_file".toList, n) ∉ settings ∧ ("output_trader_log_file".toList, n) ∉ settings) :
    o.files n = w n := by
  rcases C107_trader_outcomes atod env args w o h with rfl | ⟨settings, fl, hs, -, hf, rfl⟩
  · rfl
  · obtain ⟨h1, h2⟩ := hn settings hs
    apply C82_frame
    by_cases he : n = []
    · exact .inr (.inl he)
    · exact .inr (.inr ⟨not_output hf.exchange h1 he, not_output hf.traderLog h2 he⟩)

omit [Libm D] in
/-- **C107** (convert, files). Whatever the command line, convert changes no file but those it names as outputs. -/
theorem C107_convert_files (atod : Text → Option D) (env : Convert.Env F) (args : List Text) (w : Files) (o : Outcome)
    (h : CommandLine.convert atod env args w = some o) (n : Text)
    (hn : ∀ settings, Spelled convertRegistry args settings →
      ("output_price_history_delimited_proto_file".toList, n) ∉ settings ∧
      ("output_ohlc_history_delimited_proto_file".toList, n) ∉ settings ∧
      ("output_side_history_delimited_proto_file".toList, n) ∉ settings) :
    o.files n = w n := by
  rcases C107_convert_outcomes atod env args w o h with rfl | ⟨settings, fl, hs, -, hf, rfl⟩
  · rfl
  · obtain ⟨h1, h2, h3⟩ := hn settings hs
    apply C80_frame
    by_cases he : n = []
    · exact .inl he
    · exact .inr (.inl ⟨not_output hf.price h1 he, not_output hf.ohlc h2 he, not_output hf.side h3 he⟩)

/-- **C107** (a trap). The value of a switch cannot be the next argument: `--evaluate_batch false` switches the batch on. -/
theorem C107_switch_trap (atod : Text → Option D) (env : TraderMain.Env F) (value : Text) (hv : Positional value) (w : Files) :
    ∃ fl, fl.evaluateBatch = true ∧ CommandLine.trader atod env ["--evaluate_batch".toList, value] w =
      some (TraderMain.main env fl w) := by
  have hreg : ("evaluate_batch".toList, Kind.bool) ∈ traderRegistry := by decide +kernel
  have hs : Spelled traderRegistry ["--evaluate_batch".toList, value] [("evaluate_batch".toList, ['1'])] :=
    Spelled.on (d := ['-', '-']) (.inr rfl) hreg (.positional hv .nil)
  have hone : SwitchText ['1'] true := ⟨[], ['1'], [], nofun, nofun, rfl, by decide⟩
  obtain ⟨fl, hf, -, e⟩ := C107_trader atod env _ w _ hs (by
    intro s h
    rw [List.mem_singleton.mp h]
    exact ⟨.bool, hreg, true, hone⟩)
  refine ⟨fl, ?_, e⟩
  have hb := hf.batch.1 ['1'] (by decide +kernel)
  by_contra hne
  rw [Bool.not_eq_true] at hne
  rw [hne] at hb
  exact (C107_bool ['1']).2 ⟨hone, hb⟩

/-! ### Examples -/

/-- A command line with all the notations: what it spells out. -/
example : Spelled traderRegistry
    ["--trader=rebalancing".toList, "ignored".toList, "-evaluate_batch".toList, "--start_time".toList, "--odd".toList,
     "--noevaluate_batch".toList, "--evaluation_period_months= 0x6 ".toList, "--trader=".toList, "--".toList, "--nonsense".toList]
    [("trader".toList, "rebalancing".toList), ("evaluate_batch".toList, ['1']), ("start_time".toList, "--odd".toList),
     ("evaluate_batch".toList, ['0']), ("evaluation_period_months".toList, " 0x6 ".toList), ("trader".toList, [])] :=
  .assign (d := ['-', '-']) (name := "trader".toList) (value := "rebalancing".toList) (k := .string)
    (.inr rfl) (by decide +kernel) nofun <|
  .positional (.inr (fun _ h => absurd (congrArg List.head? h) (show ¬ "ignored".toList.head? = some '-' by decide +kernel))) <|
  .on (d := ['-']) (name := "evaluate_batch".toList) (.inl rfl) (by decide +kernel) <|
  .next (d := ['-', '-']) (name := "start_time".toList) (k := .string) (.inr rfl) (by decide +kernel) nofun <|
  .off (d := ['-', '-']) (name := "evaluate_batch".toList) (.inr rfl) (by decide +kernel) <|
  .assign (d := ['-', '-']) (name := "evaluation_period_months".toList) (value := " 0x6 ".toList) (k := .int)
    (.inr rfl) (by decide +kernel) nofun <|
  .assign (d := ['-', '-']) (name := "trader".toList) (value := []) (k := .string) (.inr rfl) (by decide +kernel) nofun <|
  .stop (.inl rfl)

/-- A mistyped name: the hypotheses of `C107_trader_mistake` hold for `--tradr`. -/
example (atod : Text → Option D) (env : TraderMain.Env F) (w : Files) :
    CommandLine.trader atod env ["--tradr".toList] w = some ⟨w, [], .failure, []⟩ := by
  refine C107_trader_mistake atod env _ w ?_ ?_
  · rintro a ha ⟨d, no, name, rest, hd, hno, hn, e, hr⟩
    rw [List.mem_singleton.mp ha] at e
    have hlt : '=' ∉ "--tradr".toList := by decide +kernel
    have : rest = [] := by
      rcases hr with h | ⟨v, rfl⟩
      · exact h
      · exact absurd (e ▸ (by simp) : '=' ∈ "--tradr".toList) hlt
    subst this
    rw [List.append_nil] at e
    have hall : ∀ d ∈ [['-'], ['-', '-']], ∀ no ∈ [[], ['n', 'o']], ∀ name ∈ CommandLine.builtinNames,
        "--tradr".toList ≠ d ++ no ++ name := by decide +kernel
    exact hall d (by rcases hd with rfl | rfl <;> simp) no (by rcases hno with rfl | rfl <;> simp) name hn e
  · rintro ⟨settings, hs, -⟩
    generalize ha : ["--tradr".toList] = args at hs
    have hreg : ∀ p ∈ traderRegistry, ∀ d ∈ [['-'], ['-', '-']],
        "--tradr".toList ≠ d ++ p.1 ∧ "--tradr".toList ≠ d ++ 'n' :: 'o' :: p.1 := by decide +kernel
    have hd' : ∀ {d : Text}, Dashes d → d ∈ [['-'], ['-', '-']] := fun h => by rcases h with rfl | rfl <;> simp
    have heq : '=' ∉ "--tradr".toList := by decide +kernel
    cases hs with
    | nil => cases ha
    | stop h =>
      have e := (List.cons.inj ha).1
      rcases h with h | ⟨d, v, -, h⟩
      · rw [h] at e; exact absurd e (by decide +kernel)
      · rw [h] at e; exact heq (by rw [e]; simp)
    | positional h hr =>
      have e := (List.cons.inj ha).1
      rcases h with h | h
      · rw [h] at e; exact absurd e (by decide +kernel)
      · exact h _ e.symm
    | assign hd hn hv hr => exact heq (by rw [(List.cons.inj ha).1]; simp)
    | next hd hn hk hr => cases (List.cons.inj ha).2
    | on hd hn hr => exact (hreg _ hn _ (hd' hd)).1 (List.cons.inj ha).1
    | off hd hn hr => exact (hreg _ hn _ (hd' hd)).2 (List.cons.inj ha).1

example : IntText " 0x6 ".toList 6 := (C107_int _).1 6 |>.mp (by decide +kernel)
example : IntText "-12".toList (-12) := (C107_int _).1 _ |>.mp (by decide +kernel)
example : ¬ ∃ n, IntText "12.5".toList n := fun ⟨n, h⟩ => by
  rw [← (C107_int _).1] at h; exact absurd h (by
    have : parseInt "12.5".toList = none := by decide +kernel
    rw [this]; exact nofun)
example : ¬ ∃ n, IntText "2147483648".toList n := fun ⟨n, h⟩ => by
  rw [← (C107_int _).1] at h; exact absurd h (by
    have : parseInt "2147483648".toList = none := by decide +kernel
    rw [this]; exact nofun)
example : SwitchText " Yes".toList true := (C107_bool _).1 true |>.mp (by decide +kernel)

end

end Verif.Props
