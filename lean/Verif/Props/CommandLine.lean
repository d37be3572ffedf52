import Verif.Lemmas.FlagText
import Mathlib.Data.List.Induction

/-!
# C107: command lines mean what they say
-/

namespace Verif.Props
open FloatOps Spec CommandLine Verif.Convert

section
variable {S D F : Type}

/-! ### What a command line spells out -/

/-- Flags that only record what they are set to. -/
private def recorders (reg : Registry) : List (FlagDef (List (Text × Text))) :=
  reg.map (fun r => ⟨r.1, r.2, fun v => some (fun l => l ++ [(r.1, v)])⟩)

private theorem regOf_recorders (reg : Registry) : regOf (recorders reg) = reg := by
  unfold regOf recorders; rw [List.map_map]; exact List.map_id _

private theorem spelled_names {reg : Registry} {args : List Text} {l : List (Text × Text)} (h : Spelled reg args l) :
    ∀ s ∈ l, ∃ k, (s.1, k) ∈ reg := by
  induction h with
  | nil => simp
  | stop => simp
  | positional _ _ ih => exact ih
  | assign _ hn _ _ ih => exact List.forall_mem_cons.mpr ⟨⟨_, hn⟩, ih⟩
  | next _ hn _ _ ih => exact List.forall_mem_cons.mpr ⟨⟨_, hn⟩, ih⟩
  | on _ hn _ ih => exact List.forall_mem_cons.mpr ⟨⟨_, hn⟩, ih⟩
  | off _ hn _ ih => exact List.forall_mem_cons.mpr ⟨⟨_, hn⟩, ih⟩

private theorem applyAll_recorders {reg : Registry} (hw : WellNamed (recorders reg)) (l : List (Text × Text))
    (hl : ∀ s ∈ l, ∃ k, (s.1, k) ∈ reg) : ∀ a, applyAll (recorders reg) l (a, true) = (a ++ l, true) := by
  induction l with
  | nil => intro a; simp [applyAll]
  | cons s rest ih =>
    intro a
    obtain ⟨⟨k, hk⟩, hrest⟩ := List.forall_mem_cons.mp hl
    have hf : (⟨s.1, k, fun v => some (fun l => l ++ [(s.1, v)])⟩ : FlagDef _) ∈ recorders reg :=
      List.mem_map.mpr ⟨(s.1, k), hk, rfl⟩
    have h := applyAll_cons hw hf s.2 rest (a, true)
    rw [show ((_ : Text), s.2) = s from rfl] at h
    rw [h]
    simp only [setFlag]
    rw [ih hrest]
    simp

private theorem spelled_unique {reg : Registry} (hw : WellNamed (recorders reg)) {args : List Text} {l l' : List (Text × Text)}
    (h : Spelled reg args l) (h' : Spelled reg args l') : l = l' := by
  have e := parseLoop_of_spelled hw ((regOf_recorders reg).symm ▸ h) ([], true)
  have e' := parseLoop_of_spelled hw ((regOf_recorders reg).symm ▸ h') ([], true)
  rw [applyAll_recorders hw _ (spelled_names h)] at e
  rw [applyAll_recorders hw _ (spelled_names h')] at e'
  rw [e] at e'
  simpa using e'

private theorem wellNamed_of {defs : List (FlagDef S)} (h : (defs.map (·.name)).Nodup ∧
    (∀ n ∈ defs.map (·.name), n ≠ [] ∧ '=' ∉ n ∧ n.head? ≠ some '-' ∧ isBuiltin n = false ∧
      isBuiltin ('n' :: 'o' :: n) = false) ∧
    ∀ n ∈ defs.map (·.name), ∀ m ∈ defs.map (·.name), m ≠ 'n' :: 'o' :: n) : WellNamed defs :=
  ⟨h.1, fun d hd => h.2.1 _ (List.mem_map_of_mem hd),
    fun d hd e he => h.2.2 _ (List.mem_map_of_mem hd) _ (List.mem_map_of_mem he)⟩

private theorem trader_wellNamed (atod : Text → Option D) : WellNamed (traderDefs atod) := by
  apply wellNamed_of
  have : (traderDefs atod).map (·.name) = traderRegistry.map (·.1) := rfl
  rw [this]
  decide +kernel

private theorem convert_wellNamed [FloatOps D] [Wide F D] (atod : Text → Option D) :
    WellNamed (convertDefs (F := F) atod) := by
  apply wellNamed_of
  have : (convertDefs (F := F) atod).map (·.name) = convertRegistry.map (·.1) := rfl
  rw [this]
  decide +kernel

/-- **C107** (no ambiguity). A command line spells out at most one sequence of settings. -/
theorem C107_unambiguous (args : List Text) (l l' : List (Text × Text)) :
    (Spelled traderRegistry args l → Spelled traderRegistry args l' → l = l') ∧
    (Spelled convertRegistry args l → Spelled convertRegistry args l' → l = l') :=
  ⟨spelled_unique (wellNamed_of (by decide +kernel)), spelled_unique (wellNamed_of (by decide +kernel))⟩

/-! ### The values of flags -/

private theorem numeral_ten (ds : Text) (hd : ∀ c ∈ ds, c.isDigit = true) : numeral 10 ds = Nat.ofDigitChars 10 ds 0 := by
  unfold numeral
  suffices h : ∀ acc, ds.foldl (fun n c => 10 * n + (if c.isDigit then c.toNat - 48 else c.toLower.toNat - 87)) acc =
      Nat.ofDigitChars 10 ds acc from h 0
  induction ds with
  | nil => intro acc; rfl
  | cons c cs ih =>
    intro acc
    rw [List.foldl_cons, Nat.ofDigitChars_cons, if_pos (hd c (by simp)), ih (fun x hx => hd x (by simp [hx]))]
    rfl

/-- **C107** (numbers). The text of an `int` flag is accepted exactly if it is written as an integer that an `int` can hold, and
it then means this integer; the decimal text of every `int` is accepted. -/
theorem C107_int (s : Text) :
    (∀ n, parseInt s = some n ↔ IntText s n) ∧ (∀ n m, IntText s n → IntText s m → n = m) ∧
    ∀ n, -2 ^ 31 ≤ n ∧ n < 2 ^ 31 → IntText (printInt n) n := by
  refine ⟨parseInt_iff s, fun n m hn hm => ?_, fun n hn => ?_⟩
  rotate_left
  · have hd : ∀ c ∈ Nat.toDigits 10 n.natAbs, c.isDigit = true :=
      fun c hc => Nat.isDigit_of_mem_toDigits (by decide) (by decide) hc
    have hv : numeral 10 (Nat.toDigits 10 n.natAbs) = n.natAbs := by
      rw [numeral_ten _ hd, Nat.ofDigitChars_ten_toDigits]
    refine ⟨hn, [], printInt n, [], nofun, nofun, by simp, .inl ⟨_, Nat.toDigits_ne_nil, hd, ?_⟩⟩
    unfold printInt
    rw [hv]
    by_cases h : n < 0
    · exact .inr ⟨by rw [if_pos h], by omega⟩
    · exact .inl ⟨.inl (by rw [if_neg h]), by omega⟩
  have h1 := (parseInt_iff s n).mpr hn
  rw [(parseInt_iff s m).mpr hm] at h1
  exact (Option.some.inj h1).symm

/-- **C107** (switches). The text of a switch is accepted exactly if it is one of the ten words, and no word means both. -/
theorem C107_bool (s : Text) :
    (∀ b, parseBool s = some b ↔ SwitchText s b) ∧ ¬ (SwitchText s true ∧ SwitchText s false) := by
  refine ⟨parseBool_iff s, fun ⟨h1, h2⟩ => ?_⟩
  rw [← parseBool_iff] at h1 h2
  rw [h1] at h2
  cases h2

private theorem lastFor_append (l : List (Text × Text)) (s : Text × Text) (name : String) :
    lastFor (l ++ [s]) name = if s.1 = name.toList then some s.2 else lastFor l name := by
  unfold lastFor
  rw [List.filter_append]
  by_cases h : s.1 = name.toList
  · simp [h]
  · simp [h]

private theorem _root_.Verif.Spec.FlagValue.step {V : Type} {l : List (Text × Text)} {name : String} {means : Text → V → Prop}
    {default v v' : V} {n : String} {s : Text} (h : FlagValue l name means default v) (hs : n = name → means s v')
    (hn : n ≠ name → v' = v) : FlagValue (l ++ [(n.toList, s)]) name means default v' := by
  unfold FlagValue
  rw [lastFor_append]
  by_cases he : n = name
  · simp only [he, if_true]
    exact ⟨fun t ht => by cases ht; exact hs he, nofun⟩
  · rw [if_neg (fun h => he (String.toList_injective h)), hn he]
    exact h

private theorem _root_.Verif.Spec.FlagValue.unique {V : Type} {l : List (Text × Text)} {name : String} {means : Text → V → Prop}
    {default v w : V} (hm : ∀ s, means s v → means s w → v = w) (h : FlagValue l name means default v)
    (h' : FlagValue l name means default w) : v = w := by
  cases hl : lastFor l name with
  | none => rw [h.2 hl, h'.2 hl]
  | some s => exact hm s (h.1 s hl) (h'.1 s hl)

private theorem trader_unique [FloatOps D] (atod : Text → Option D) {l : List (Text × Text)} {fl fl' : TraderMain.Flags D}
    (h : TraderFlags atod l fl) (h' : TraderFlags atod l fl') : fl = fl' := by
  have hs : ∀ {v w : Text} (s : Text), v = s → w = s → v = w := fun s a b => a.trans b.symm
  have hd : ∀ {v w : D} (s : Text), atod s = some v → atod s = some w → v = w :=
    fun s a b => Option.some.inj (a.symm.trans b)
  have e1 := h.inputOhlc.unique hs h'.inputOhlc
  have e2 := h.inputSide.unique hs h'.inputSide
  have e3 := h.exchange.unique hs h'.exchange
  have e4 := h.traderLog.unique hs h'.traderLog
  have e5 := h.trader.unique (fun s a b => String.toList_injective (a.trans b.symm)) h'.trader
  have e6 := h.startTime.unique hs h'.startTime
  have e7 := h.endTime.unique hs h'.endTime
  have e8 := h.months.unique (fun s => (C107_int s).2.1 _ _) h'.months
  have e9 := h.startBase.unique hd h'.startBase
  have e10 := h.startQuote.unique hd h'.startQuote
  have e11 := h.liquidity.unique hd h'.liquidity
  have e12 := h.volume.unique hd h'.volume
  have e13 := h.batch.unique (fun s a b => by
    rw [← parseBool_iff] at a b; exact Option.some.inj (a.symm.trans b)) h'.batch
  cases fl; cases fl'
  simp_all

private theorem convert_unique [FloatOps D] [Wide F D] (atod : Text → Option D) {l : List (Text × Text)} {fl fl' : Convert.Flags F}
    (h : ConvertFlags atod l fl) (h' : ConvertFlags atod l fl') : fl = fl' := by
  have hs : ∀ {v w : Text} (s : Text), v = s → w = s → v = w := fun s a b => a.trans b.symm
  have e1 := h.priceCsv.unique hs h'.priceCsv
  have e2 := h.priceProto.unique hs h'.priceProto
  have e3 := h.price.unique hs h'.price
  have e4 := h.ohlcCsv.unique hs h'.ohlcCsv
  have e5 := h.ohlcProto.unique hs h'.ohlcProto
  have e6 := h.ohlc.unique hs h'.ohlc
  have e7 := h.sideCsv.unique hs h'.sideCsv
  have e8 := h.side.unique hs h'.side
  have e9 := h.startTime.unique hs h'.startTime
  have e10 := h.endTime.unique hs h'.endTime
  have e11 := h.deviation.unique (fun s ⟨x, hx, ex⟩ ⟨y, hy, ey⟩ => by
    rw [ex, ey, Option.some.inj (hx.symm.trans hy)]) h'.deviation
  have e12 := h.rate.unique (fun s => (C107_int s).2.1 _ _) h'.rate
  have e13 := h.gaps.unique (fun s => (C107_int s).2.1 _ _) h'.gaps
  have e14 := h.outliers.unique (fun s => (C107_int s).2.1 _ _) h'.outliers
  cases fl; cases fl'
  simp_all

/-! ### Setting flags -/

private theorem string_value (atod : Text → Option D) (name : String) (set : Text → S → S) (v : Text) :
    ((stringFlag name set).set v).isSome = true ↔ ValueText atod (stringFlag name set).kind v := by
  simp [stringFlag, ValueText]

private theorem int_value (atod : Text → Option D) (name : String) (set : ℤ → S → S) (v : Text) :
    ((intFlag name set).set v).isSome = true ↔ ValueText atod (intFlag name set).kind v := by
  simp only [intFlag, Option.isSome_map, ValueText, Option.isSome_iff_exists, parseInt_iff]

private theorem double_value (atod : Text → Option D) (name : String) (set : D → S → S) (v : Text) :
    ((doubleFlag atod name set).set v).isSome = true ↔ ValueText atod (doubleFlag atod name set).kind v := by
  simp only [doubleFlag, Option.isSome_map, ValueText, Option.isSome_iff_exists]

private theorem bool_value (atod : Text → Option D) (name : String) (set : Bool → S → S) (v : Text) :
    ((boolFlag name set).set v).isSome = true ↔ ValueText atod (boolFlag name set).kind v := by
  simp only [boolFlag, Option.isSome_map, ValueText, Option.isSome_iff_exists, parseBool_iff]

/-- How flags of a program behave: the text of a value is accepted if it is one of the type, and what it does is right. -/
private structure Sets (atod : Text → Option D) (defs : List (FlagDef S)) (means : List (Text × Text) → S → Prop) : Prop where
  value : ∀ d ∈ defs, ∀ v, (d.set v).isSome = true ↔ ValueText atod d.kind v
  step : ∀ d ∈ defs, ∀ v f l fl, d.set v = some f → means l fl → means (l ++ [(d.name, v)]) (f fl)

private theorem kind_unique {defs : List (FlagDef S)} (hw : WellNamed defs) {d : FlagDef S} (hd : d ∈ defs) {k : Kind}
    (h : (d.name, k) ∈ regOf defs) : k = d.kind := by
  obtain ⟨e, he, hn, rfl⟩ := reg_mem h
  have h1 := find_self hw.nodup he
  rw [hn, find_self hw.nodup hd] at h1
  cases h1; rfl

private theorem applyAll_means {atod : Text → Option D} {defs : List (FlagDef S)} {means : List (Text × Text) → S → Prop}
    (hw : WellNamed defs) (hs : Sets atod defs means) (fl0 : S) (h0 : means [] fl0) (l : List (Text × Text))
    (hl : ∀ s ∈ l, ∃ k, (s.1, k) ∈ regOf defs) :
    ((applyAll defs l (fl0, true)).2 = true ↔ ValidSettings atod (regOf defs) l) ∧
    ((applyAll defs l (fl0, true)).2 = true → means l (applyAll defs l (fl0, true)).1) := by
  induction l using List.reverseRecOn with
  | nil => exact ⟨by simp [applyAll, ValidSettings], fun _ => h0⟩
  | append_singleton l s ih =>
    have hl' : ∀ s ∈ l, ∃ k, (s.1, k) ∈ regOf defs := fun x hx => hl x (by simp [hx])
    obtain ⟨k, hk⟩ := hl s (by simp)
    obtain ⟨d, hd, hdn, hdk⟩ := reg_mem hk
    obtain ⟨ih1, ih2⟩ := ih hl'
    have hstep : applyAll defs (l ++ [s]) (fl0, true) = setFlag d s.2 (applyAll defs l (fl0, true)) := by
      unfold applyAll
      rw [List.foldl_append, List.foldl_cons, List.foldl_nil, ← hdn, find_self hw.nodup hd]
    have hvalid : ValidSettings atod (regOf defs) (l ++ [s]) ↔ ValidSettings atod (regOf defs) l ∧ (d.set s.2).isSome = true := by
      unfold ValidSettings
      rw [hs.value d hd]
      constructor
      · intro h
        refine ⟨fun x hx => h x (by simp [hx]), ?_⟩
        obtain ⟨k', hk', hv⟩ := h s (by simp)
        rw [← hdn] at hk'
        rwa [← kind_unique hw hd hk']
      · rintro ⟨h1, h2⟩ x hx
        rcases List.mem_append.mp hx with hx | hx
        · exact h1 x hx
        · rw [List.mem_singleton.mp hx]
          exact ⟨d.kind, by rw [← hdn]; exact mem_reg hd, h2⟩
    rw [hstep, hvalid, ← ih1]
    unfold setFlag
    cases hset : d.set s.2 with
    | none => simp
    | some f =>
      simp only [Option.isSome_some, and_true, true_and]
      intro hok
      have := hs.step d hd s.2 f l _ hset (ih2 hok)
      rwa [show (d.name, s.2) = s from by rw [hdn]] at this

private theorem trader_sets [FloatOps D] (atod : Text → Option D) :
    Sets atod (traderDefs atod) (fun l fl => TraderFlags atod l fl) := by
  constructor
  · intro d hd v
    simp only [traderDefs, List.mem_cons, List.not_mem_nil, or_false] at hd
    rcases hd with rfl | rfl | rfl | rfl | rfl | rfl | rfl | rfl | rfl | rfl | rfl | rfl | rfl <;>
      first | exact string_value atod _ _ v | exact int_value atod _ _ v | exact double_value atod _ _ v | exact bool_value atod _ _ v
  · intro d hd v f l fl hset h
    obtain ⟨h1, h2, h3, h4, h5, h6, h7, h8, h9, h10, h11, h12, h13⟩ := h
    simp only [traderDefs, List.mem_cons, List.not_mem_nil, or_false] at hd
    rcases hd with rfl | rfl | rfl | rfl | rfl | rfl | rfl | rfl | rfl | rfl | rfl | rfl | rfl
    all_goals first
      | (cases Option.some.inj hset)
      | (obtain ⟨x, hx, rfl⟩ := Option.map_eq_some_iff.mp hset)
    all_goals show TraderFlags atod (_ ++ [(String.toList _, v)]) _
    all_goals refine ⟨h1.step ?_ ?_, h2.step ?_ ?_, h3.step ?_ ?_, h4.step ?_ ?_, h5.step ?_ ?_, h6.step ?_ ?_, h7.step ?_ ?_, h8.step ?_ ?_, h9.step ?_ ?_, h10.step ?_ ?_, h11.step ?_ ?_, h12.step ?_ ?_, h13.step ?_ ?_⟩
    all_goals first
      | exact fun _ => rfl
      | exact fun h => absurd h (by decide)
      | exact fun h => absurd rfl h
      | exact fun _ => String.toList_ofList
      | exact fun _ => (parseInt_iff _ _).mp hx
      | exact fun _ => (parseBool_iff _ _).mp hx
      | exact fun _ => hx
      | exact fun _ => ⟨x, hx, rfl⟩

private theorem convert_sets [FloatOps D] [Wide F D] (atod : Text → Option D) :
    Sets atod (convertDefs (F := F) atod) (fun l fl => ConvertFlags atod l fl) := by
  constructor
  · intro d hd v
    simp only [convertDefs, List.mem_cons, List.not_mem_nil, or_false] at hd
    rcases hd with rfl | rfl | rfl | rfl | rfl | rfl | rfl | rfl | rfl | rfl | rfl | rfl | rfl | rfl | rfl <;>
      first | exact string_value atod _ _ v | exact int_value atod _ _ v | exact double_value atod _ _ v | exact bool_value atod _ _ v
  · intro d hd v f l fl hset h
    obtain ⟨h1, h2, h3, h4, h5, h6, h7, h8, h9, h10, h11, h12, h13, h14⟩ := h
    simp only [convertDefs, List.mem_cons, List.not_mem_nil, or_false] at hd
    rcases hd with rfl | rfl | rfl | rfl | rfl | rfl | rfl | rfl | rfl | rfl | rfl | rfl | rfl | rfl | rfl
    all_goals first
      | (cases Option.some.inj hset)
      | (obtain ⟨x, hx, rfl⟩ := Option.map_eq_some_iff.mp hset)
    all_goals show ConvertFlags atod (_ ++ [(String.toList _, v)]) _
    all_goals refine ⟨h1.step ?_ ?_, h2.step ?_ ?_, h3.step ?_ ?_, h4.step ?_ ?_, h5.step ?_ ?_, h6.step ?_ ?_, h7.step ?_ ?_, h8.step ?_ ?_, h9.step ?_ ?_, h10.step ?_ ?_, h11.step ?_ ?_, h12.step ?_ ?_, h13.step ?_ ?_, h14.step ?_ ?_⟩
    all_goals first
      | exact fun _ => rfl
      | exact fun h => absurd h (by decide)
      | exact fun h => absurd rfl h
      | exact fun _ => String.toList_ofList
      | exact fun _ => (parseInt_iff _ _).mp hx
      | exact fun _ => (parseBool_iff _ _).mp hx
      | exact fun _ => hx
      | exact fun _ => ⟨x, hx, rfl⟩

private theorem FlagValue.default {V : Type} {name : String} {means : Text → V → Prop} {default : V} :
    FlagValue [] name means default default := ⟨(fun _ h => nomatch h), fun _ => rfl⟩

private theorem trader_default [FloatOps D] (atod : Text → Option D) : TraderFlags atod [] (TraderMain.defaultFlags : TraderMain.Flags D) := by
  constructor <;> exact FlagValue.default

private theorem convert_default [FloatOps D] [Wide F D] (atod : Text → Option D) :
    ConvertFlags atod [] (Convert.defaultFlags (D := D) : Convert.Flags F) := by
  constructor <;> exact FlagValue.default

private theorem run_means {atod : Text → Option D} {defs : List (FlagDef S)} {means : List (Text × Text) → S → Prop}
    (hw : WellNamed defs) (hs : Sets atod defs means) (hu : ∀ l fl fl', means l fl → means l fl' → fl = fl') (fl0 : S)
    (h0 : means [] fl0) (main : S → Outcome) (args : List Text) (w : Files) :
    (∀ l, Spelled (regOf defs) args l → ValidSettings atod (regOf defs) l →
      ∃ fl, means l fl ∧ (∀ fl', means l fl' → fl' = fl) ∧ run defs fl0 main args w = some (main fl)) ∧
    ((∀ a ∈ args, ¬ NamesBuiltin a) → (¬ ∃ l, Spelled (regOf defs) args l ∧ ValidSettings atod (regOf defs) l) →
      run defs fl0 main args w = some ⟨w, [], .failure, []⟩) := by
  constructor
  · intro l hl hv
    obtain ⟨h1, h2⟩ := applyAll_means hw hs fl0 h0 l (spelled_names hl)
    have hp := parseLoop_of_spelled hw hl (fl0, true)
    have hok := h1.mpr hv
    refine ⟨_, h2 hok, fun fl' h => hu _ _ _ h (h2 hok), ?_⟩
    unfold run
    rw [hp]
    generalize applyAll defs l (fl0, true) = st at hok
    obtain ⟨a, b⟩ := st
    simp only at hok
    subst hok
    rfl
  · intro hb hno
    obtain ⟨⟨fl, ok⟩, hp⟩ := parseLoop_isSome defs args hb (fl0, true)
    cases ok with
    | false => unfold run; rw [hp]
    | true =>
      exfalso
      obtain ⟨l, hl⟩ := spelled_of_parseLoop hw args _ _ hp rfl
      have hp' := parseLoop_of_spelled hw hl (fl0, true)
      rw [hp] at hp'
      have h := (applyAll_means hw hs fl0 h0 l (spelled_names hl)).1
      rw [← Option.some.inj hp'] at h
      exact hno ⟨l, hl, h.mp rfl⟩

private theorem run_inv {atod : Text → Option D} {defs : List (FlagDef S)} {means : List (Text × Text) → S → Prop}
    (hw : WellNamed defs) (hs : Sets atod defs means) (fl0 : S)
    (h0 : means [] fl0) (main : S → Outcome) (args : List Text) (w : Files) (o : Outcome)
    (h : run defs fl0 main args w = some o) :
    o = ⟨w, [], .failure, []⟩ ∨ ∃ l fl, Spelled (regOf defs) args l ∧ ValidSettings atod (regOf defs) l ∧ means l fl ∧
      o = main fl := by
  unfold run at h
  split at h
  · cases h
  · rename_i fl hp
    obtain ⟨l, hl⟩ := spelled_of_parseLoop hw args _ _ hp rfl
    obtain ⟨h1, h2⟩ := applyAll_means hw hs fl0 h0 l (spelled_names hl)
    rw [parseLoop_of_spelled hw hl] at hp
    rw [Option.some.inj hp] at h1 h2
    exact .inr ⟨l, fl, hl, h1.mp rfl, h2 rfl, (Option.some.inj h).symm⟩
  · exact .inl (Option.some.inj h).symm

end

section
variable {F D : Type} [FloatOps F] [Libm F] [FloatOps D] [Libm D] [Wide F D]

/-- **C107** (trader). A command line that spells out settings whose texts are values of the types of their flags runs the
program with the flags these settings describe: what the last setting of each flag says, and the default for flags that are
not set. -/
theorem C107_trader (atod : Text → Option D) (env : TraderMain.Env F) (args : List Text) (w : Files)
    (settings : List (Text × Text)) (hs : Spelled traderRegistry args settings)
    (hv : ValidSettings atod traderRegistry settings) :
    ∃ fl, TraderFlags atod settings fl ∧ (∀ fl', TraderFlags atod settings fl' → fl' = fl) ∧
      CommandLine.trader atod env args w = some (TraderMain.main env fl w) :=
  (run_means (trader_wellNamed atod) (trader_sets atod) (fun _ _ _ => trader_unique atod) _ (trader_default atod) _ args w).1
    settings hs hv

/-- **C107** (trader, mistakes). Any other command line (which is about none of the flags that abseil adds to every program)
ends the program with `EXIT_FAILURE` before it prints anything or touches a file. -/
theorem C107_trader_mistake (atod : Text → Option D) (env : TraderMain.Env F) (args : List Text) (w : Files)
    (hb : ∀ a ∈ args, ¬ NamesBuiltin a)
    (hno : ¬ ∃ settings, Spelled traderRegistry args settings ∧ ValidSettings atod traderRegistry settings) :
    CommandLine.trader atod env args w = some ⟨w, [], .failure, []⟩ :=
  (run_means (trader_wellNamed atod) (trader_sets atod) (fun _ _ _ => trader_unique atod) _ (trader_default atod) _ args w).2
    hb hno

omit [Libm D] in
/-- **C107** (convert). The same for convert. -/
theorem C107_convert (atod : Text → Option D) (env : Convert.Env F) (args : List Text) (w : Files)
    (settings : List (Text × Text)) (hs : Spelled convertRegistry args settings)
    (hv : ValidSettings atod convertRegistry settings) :
    ∃ fl, ConvertFlags atod settings fl ∧ (∀ fl', ConvertFlags atod settings fl' → fl' = fl) ∧
      CommandLine.convert atod env args w = some (Convert.main env fl w) :=
  (run_means (convert_wellNamed atod) (convert_sets atod) (fun _ _ _ => convert_unique atod) _ (convert_default atod) _ args w).1
    settings hs hv

omit [Libm D] in
/-- **C107** (convert, mistakes). -/
theorem C107_convert_mistake (atod : Text → Option D) (env : Convert.Env F) (args : List Text) (w : Files)
    (hb : ∀ a ∈ args, ¬ NamesBuiltin a)
    (hno : ¬ ∃ settings, Spelled convertRegistry args settings ∧ ValidSettings atod convertRegistry settings) :
    CommandLine.convert atod env args w = some ⟨w, [], .failure, []⟩ :=
  (run_means (convert_wellNamed atod) (convert_sets atod) (fun _ _ _ => convert_unique atod) _ (convert_default atod) _ args w).2
    hb hno

/-- **C107** (trader, nothing else). Whatever the command line, if the outcome is known it is one of these two. -/
theorem C107_trader_outcomes (atod : Text → Option D) (env : TraderMain.Env F) (args : List Text) (w : Files) (o : Outcome)
    (h : CommandLine.trader atod env args w = some o) :
    o = ⟨w, [], .failure, []⟩ ∨ ∃ settings fl, Spelled traderRegistry args settings ∧
      ValidSettings atod traderRegistry settings ∧ TraderFlags atod settings fl ∧ o = TraderMain.main env fl w :=
  run_inv (trader_wellNamed atod) (trader_sets atod) _ (trader_default atod) _ args w o h

omit [Libm D] in
/-- **C107** (convert, nothing else). -/
theorem C107_convert_outcomes (atod : Text → Option D) (env : Convert.Env F) (args : List Text) (w : Files) (o : Outcome)
    (h : CommandLine.convert atod env args w = some o) :
    o = ⟨w, [], .failure, []⟩ ∨ ∃ settings fl, Spelled convertRegistry args settings ∧
      ValidSettings atod convertRegistry settings ∧ ConvertFlags atod settings fl ∧ o = Convert.main env fl w :=
  run_inv (convert_wellNamed atod) (convert_sets atod) _ (convert_default atod) _ args w o h

end

end Verif.Props
