import Verif.Props.SimpleAtod
import Verif.Props.CommandLineUse

/-!
# C108: consequences and examples
-/

namespace Verif.Props
open FloatOps Spec CommandLine Verif.Convert

/-- **C108** (one meaning). A text means at most one `double`. -/
theorem C108_unique (s : Text) (x y : F64) (hx : DoubleText s x) (hy : DoubleText s y) : x = y := by
  rw [← C108_double] at hx hy
  rw [hx] at hy
  exact Option.some.inj hy

/-- **C108** (exact values). A number that is a `double` means this `double`: nothing is rounded. -/
theorem C108_exact (sign : Option Bool) (t : Text) (v : ℚ) (y : F64) (ht : AmountText t v) (hf : y.IsFin) (hr : y.Repr)
    (hy : y.toQ = if sign = some true then -v else v) (hs : y.signBit = (sign == some true)) : DoubleText (signText sign ++ t) y := by
  refine ⟨[], sign, t, [], nofun, nofun, by rw [List.append_nil, List.nil_append], .inl ⟨v, ht, ⟨?_, ?_, hr, ?_, ?_⟩, hs⟩⟩
  · rw [← hy]
    have hlt := repr_small (by decide) hf hr
    constructor
    · rintro ⟨s, rfl⟩; exact hf.elim
    · intro h; exact absurd h (not_le.mpr hlt)
  · rintro rfl; exact hf
  · intro _ z _ _
    rw [hy, sub_self, abs_zero]; exact abs_nonneg _
  · intro _ z _ _ h hne
    rw [hy, sub_self, abs_zero] at h
    exact absurd (by rw [hy]; exact sub_eq_zero.mp (abs_eq_zero.mp h.symm)) hne

/-- The texts of doubles are those that `absl::SimpleAtod` reads. -/
private theorem flagValue_double {settings : List (Text × Text)} {name : String} {default v : F64} :
    FlagValue settings name (fun s v => simpleAtod s = some v) default v ↔ FlagValue settings name DoubleText default v := by
  unfold FlagValue
  simp only [C108_double]

private theorem valid_double {reg : Registry} {settings : List (Text × Text)}
    (h : ∀ s ∈ settings, ∃ k, (s.1, k) ∈ reg ∧
      (k = .int → ∃ n, IntText s.2 n) ∧ (k = .double → ∃ x : F64, DoubleText s.2 x) ∧ (k = .bool → ∃ b, SwitchText s.2 b)) :
    ValidSettings (simpleAtod (f := binary64)) reg settings := by
  intro s hs
  obtain ⟨k, hk, h1, h2, h3⟩ := h s hs
  refine ⟨k, hk, ?_⟩
  cases k with
  | string => trivial
  | int => exact h1 rfl
  | double => obtain ⟨x, hx⟩ := h2 rfl; exact ⟨x, (C108_double _ _).mpr hx⟩
  | bool => exact h3 rfl

/-- **C108** (trader). On the command line of trader, the last number given for a balance, the liquidity or the volume ratio is
used, rounded to the nearest `double`; without any the default is used. -/
theorem C108_trader [Libm F32] [Libm F64] (env : TraderMain.Env F32) (args : List Text) (w : Files)
    (settings : List (Text × Text)) (hs : Spelled traderRegistry args settings)
    (hv : ∀ s ∈ settings, ∃ k, (s.1, k) ∈ traderRegistry ∧
      (k = .int → ∃ n, IntText s.2 n) ∧ (k = .double → ∃ x : F64, DoubleText s.2 x) ∧ (k = .bool → ∃ b, SwitchText s.2 b)) :
    ∃ fl : TraderMain.Flags F64,
      FlagValue settings "start_base_balance" DoubleText (.fin 1) fl.startBase ∧
      FlagValue settings "start_quote_balance" DoubleText (.fin 0) fl.startQuote ∧
      FlagValue settings "market_liquidity" DoubleText (.fin (1 / 2)) fl.marketLiquidity ∧
      FlagValue settings "max_volume_ratio" DoubleText (.fin (1 / 2)) fl.maxVolumeRatio ∧
      TraderFlags simpleAtod settings fl ∧
      CommandLine.trader simpleAtod env args w = some (TraderMain.main env fl w) := by
  obtain ⟨fl, hf, -, hr⟩ := C107_trader (simpleAtod (f := binary64)) env args w settings hs (valid_double hv)
  have e1 : (FloatOps.lit F64 1 : F64) = .fin 1 := by decide +kernel
  have e0 : (FloatOps.lit F64 0 : F64) = .fin 0 := by decide +kernel
  have eh : (FloatOps.lit F64 (1 / 2) : F64) = .fin (1 / 2) := by decide +kernel
  refine ⟨fl, ?_, ?_, ?_, ?_, hf, hr⟩
  · have := hf.startBase; rw [e1] at this; exact flagValue_double.mp this
  · have := hf.startQuote; rw [e0] at this; exact flagValue_double.mp this
  · have := hf.liquidity; rw [eh] at this; exact flagValue_double.mp this
  · have := hf.volume; rw [eh] at this; exact flagValue_double.mp this

/-- **C108** (convert). The maximal deviation is rounded to `double`, and then to `float`. -/
theorem C108_convert [Libm F32] (env : Convert.Env F32) (args : List Text) (w : Files)
    (settings : List (Text × Text)) (hs : Spelled convertRegistry args settings)
    (hv : ∀ s ∈ settings, ∃ k, (s.1, k) ∈ convertRegistry ∧
      (k = .int → ∃ n, IntText s.2 n) ∧ (k = .double → ∃ x : F64, DoubleText s.2 x) ∧ (k = .bool → ∃ b, SwitchText s.2 b)) :
    ∃ fl : Convert.Flags F32,
      FlagValue settings "max_price_deviation_per_min" (fun s v => ∃ x : F64, DoubleText s x ∧ v = Wide.narrow x)
        (Wide.narrow (FloatOps.lit F64 (5 / 100))) fl.maxDeviation ∧
      ConvertFlags simpleAtod settings fl ∧
      CommandLine.convert simpleAtod env args w = some (Convert.main env fl w) := by
  obtain ⟨fl, hf, -, hr⟩ := C107_convert (simpleAtod (f := binary64)) env args w settings hs (valid_double hv)
  refine ⟨fl, ?_, hf, hr⟩
  have := hf.deviation
  unfold FlagValue at this ⊢
  simp only [C108_double] at this
  exact this

/-! ### Examples -/

example : DoubleText " +1.5e1\t".toList (.fin 15 : F64) := (C108_double _ _).mp (by decide +kernel)
example : DoubleText "-0x1.8p-1".toList (.fin (-3 / 4) : F64) := (C108_double _ _).mp (by decide +kernel)
example : DoubleText "-0".toList (.negZero : F64) := (C108_double _ _).mp (by decide +kernel)
example : DoubleText "-INF".toList (.inf true : F64) := (C108_double _ _).mp (by decide +kernel)
example : DoubleText "nan(0x_1)".toList (.nan : F64) := (C108_double _ _).mp (by decide +kernel)
example : DoubleText "0.1".toList (.fin (3602879701896397 / 36028797018963968) : F64) := (C108_double _ _).mp (by decide +kernel)

/-- Texts that are refused. -/
example : ∀ s ∈ ["".toList, "1,5".toList, "1.5x".toList, ".".toList, "+-1".toList, "1e".toList, "0x".toList, "- 1".toList,
    "infinit".toList, "nan(".toList], ∀ x : F64, ¬ DoubleText s x := by
  intro s hs x hx
  rw [← C108_double] at hx
  have : ∀ s ∈ ["".toList, "1,5".toList, "1.5x".toList, ".".toList, "+-1".toList, "1e".toList, "0x".toList, "- 1".toList,
    "infinit".toList, "nan(".toList], simpleAtod (f := binary64) s = none := by decide +kernel
  rw [this s hs] at hx
  cases hx

/-- `--start_base_balance=2.5 --max_volume_ratio .25` starts with 2.5 and a ratio of 1/4. -/
example [Libm F32] [Libm F64] (env : TraderMain.Env F32) (w : Files) : ∃ fl : TraderMain.Flags F64,
    fl.startBase = .fin (5 / 2) ∧ fl.maxVolumeRatio = .fin (1 / 4) ∧ fl.startQuote = .fin 0 ∧
    CommandLine.trader simpleAtod env ["--start_base_balance=2.5".toList, "--max_volume_ratio".toList, ".25".toList] w =
      some (TraderMain.main env fl w) := by
  have d1 : DoubleText "2.5".toList (.fin (5 / 2) : F64) := (C108_double _ _).mp (by decide +kernel)
  have d2 : DoubleText ".25".toList (.fin (1 / 4) : F64) := (C108_double _ _).mp (by decide +kernel)
  obtain ⟨fl, h1, h2, -, h4, -, hr⟩ := C108_trader env _ w
    [("start_base_balance".toList, "2.5".toList), ("max_volume_ratio".toList, ".25".toList)]
    (.assign (d := ['-', '-']) (name := "start_base_balance".toList) (value := "2.5".toList) (k := .double)
      (.inr rfl) (by decide +kernel) nofun <|
     .next (d := ['-', '-']) (name := "max_volume_ratio".toList) (k := .double) (.inr rfl) (by decide +kernel) nofun <|
     .nil) (by
      intro s hs
      rcases List.mem_cons.mp hs with rfl | hs
      · exact ⟨.double, by decide +kernel, nofun, fun _ => ⟨_, d1⟩, nofun⟩
      · rw [List.mem_singleton.mp hs]
        exact ⟨.double, by decide +kernel, nofun, fun _ => ⟨_, d2⟩, nofun⟩)
  exact ⟨fl, C108_unique _ _ _ (h1.1 _ (by decide +kernel)) d1, C108_unique _ _ _ (h4.1 _ (by decide +kernel)) d2,
    h2.2 (by decide +kernel), hr⟩

end Verif.Props
