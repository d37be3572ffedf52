import Verif.Props.FloatRobustTraders
import Verif.Props.Factory

/-!
# C87: the conditions are needed; examples
-/

namespace Verif.Props
open FloatOps Spec FloatMoney FloatNN
open Fl (toQ IsFin)

section examples

/-- `exp` and `log` for the counterexamples and examples (none of them is called). -/
@[reducible] def fr32 : Libm F32 := ⟨fun x => x, fun x => x, fun x => x, fun x _ => x⟩
/-- The same in binary64. -/
@[reducible] def fr64 : Libm F64 := ⟨fun x => x, fun x => x, fun x => x, fun x _ => x⟩

/-- Three hours of ticks; the one in the middle has no volume and repeats a timestamp. -/
def fr32Ticks : List (OhlcTick F32) :=
  [⟨1514764800, .fin 100, .fin 110, .fin 90, .fin 105, .fin 10⟩, ⟨1514768400, .fin 105, .fin 120, .fin 100, .fin 115, .fin 3⟩,
   ⟨1514768400, .fin 115, .fin 115, .fin 115, .fin 115, .fin 0⟩, ⟨1514772000, .fin 115, .fin 118, .fin 80, .fin 85, .fin 7⟩]

/-- 1 base, 100 quote, units of 1/1024 and 1/128, fees of 1/64. -/
def fr32Account : AccountConfig F32 where
  startBase := .fin 1
  startQuote := .fin 100
  baseUnit := .fin (1 / 1024)
  quoteUnit := .fin (1 / 128)
  marketFee := ⟨.fin (1 / 64), .fin 0, .fin 0⟩
  stopFee := ⟨.fin (1 / 64), .fin 0, .fin 0⟩
  limitFee := ⟨.fin (1 / 64), .fin 0, .fin 0⟩
  marketLiquidity := .fin (1 / 2)
  maxVolumeRatio := .fin (1 / 2)

theorem fr32Ticks_clean : CleanHistory32 fr32Ticks where
  each t h := by
    unfold fr32Ticks at h
    simp only [List.mem_cons, List.not_mem_nil, or_false] at h
    rcases h with rfl | rfl | rfl | rfl <;>
      refine ⟨by norm_num, ⟨⟨trivial, ?_, ?_⟩, ⟨trivial, ?_, ?_⟩, ⟨trivial, ?_, ?_⟩, by decide +kernel⟩, ⟨trivial, ?_, ?_⟩⟩ <;>
      (dsimp only [Fl.toQ]; norm_num)
  sorted := by unfold fr32Ticks; decide +kernel
  strict := by unfold fr32Ticks; decide +kernel

theorem fr32Account_clean : CleanAccount32 fr32Account := by
  refine ⟨⟨trivial, .inr ?_, ?_⟩, ⟨trivial, .inr ?_, ?_⟩, .inl ?_, ⟨trivial, ?_, ?_⟩, ⟨trivial, ?_, ?_⟩, ⟨trivial, ?_, ?_⟩, ?_⟩
  all_goals first
    | (intro ty; cases ty <;> decide +kernel)
    | (unfold fr32Account; dsimp only [Fl.toQ]; norm_num)

theorem fr32_rebalancing : CleanParameters32 (.rebalancing ⟨.fin (11 / 16), .fin (1 / 16)⟩) := by
  refine ⟨⟨trivial, ?_, ?_⟩, ⟨trivial, ?_, ?_⟩, ?_⟩ <;> (dsimp only [Fl.toQ]; norm_num)

/-- **C87** (defaults). The default parameters of both traders are sensible. -/
theorem C87_default_traders (name : String) (b : BuiltIn F32) (h : getTrader name = .ok b) : CleanParameters32 b := by
  unfold getTrader at h
  split_ifs at h with h1
  · cases h
    refine ⟨⟨?_, ?_, ?_⟩, ⟨?_, ?_, ?_⟩, ?_⟩
    all_goals first | exact ofRat_fin (by norm_num) | decide +kernel
  · obtain ⟨-, h⟩ := assertThat_bind_ok h
    cases h
    refine ⟨⟨?_, ?_, ?_⟩, ⟨?_, ?_, ?_⟩⟩
    all_goals first | exact ofRat_fin (by norm_num) | decide +kernel

/-- **C87** (default batches). So are the parameters of all traders of the default batches. -/
theorem C87_default_batches (name : String) (l : List (BuiltIn F32)) (h : getBatchOfTraders name = .ok l) :
    ∀ b ∈ l, CleanParameters32 b := by
  intro b hb
  unfold getBatchOfTraders at h
  split_ifs at h with h1
  · cases h
    rw [rebalancingBatch_eq] at hb
    simp only [List.mem_flatMap, List.mem_map] at hb
    obtain ⟨a, ha, e, he, rfl⟩ := hb
    have k1 : ∀ a ∈ (defaultAlphas : List F32), Between (1 / 16) 1 a := by
      intro a ha
      simp only [defaultAlphas, List.mem_cons, List.not_mem_nil, or_false] at ha
      rcases ha with rfl | rfl | rfl | rfl | rfl <;>
        exact ⟨ofRat_fin (by rw [abs_of_nonneg (by norm_num)]; norm_num), by decide +kernel, by decide +kernel⟩
    have k2 : ∀ a ∈ (defaultEpsilons : List F32), Between (1 / 128) (1 - 1 / 2 ^ 20) a := by
      intro a ha
      simp only [defaultEpsilons, List.mem_cons, List.not_mem_nil, or_false] at ha
      rcases ha with rfl | rfl | rfl | rfl <;>
        exact ⟨ofRat_fin (by rw [abs_of_nonneg (by norm_num)]; norm_num), by decide +kernel, by decide +kernel⟩
    obtain ⟨f1, a0, a1⟩ := k1 a ha
    obtain ⟨f2, e0, e1⟩ := k2 e he
    refine ⟨⟨f1, le_trans (by norm_num) a0, a1⟩, ⟨f2, le_trans (by norm_num) e0, e1⟩, ?_⟩
    exact le_trans (by norm_num) (mul_le_mul a0 e0 (by norm_num) (le_trans (by norm_num) a0))
  · obtain ⟨-, h⟩ := assertThat_bind_ok h
    rw [← Except.ok.inj h, stopBatch_eq] at hb
    simp only [List.mem_flatMap, List.mem_map] at hb
    obtain ⟨m, hm, mm, hmm, i, -, d, -, rfl⟩ := hb
    have k : ∀ a ∈ (defaultMargins : List F32), IsFin a ∧ 0 ≤ toQ a ∧ toQ a ≤ 1 / 2 := by
      intro a ha
      simp only [defaultMargins, List.mem_cons, List.not_mem_nil, or_false] at ha
      have fin : ∀ q : ℚ, |toQ (lit F64 q)| ≤ 2 ^ 127 → IsFin (lit F64 q) → IsFin (dlit F32 q) := by
        intro q hq hf
        unfold dlit
        show IsFin (Fl.cvt (lit F64 q) : F32)
        revert hq hf
        generalize lit F64 q = x
        cases x <;> intro hq hf <;> first | exact ofRat_fin hq | trivial
      rcases ha with rfl | rfl | rfl | rfl <;>
        refine ⟨fin _ (by decide +kernel) ?_, by decide +kernel, by decide +kernel⟩
      all_goals
        show IsFin (Fl.ofRat binary64 _)
        have : ∀ x : F64, x ≠ .nan → (∀ s, x ≠ .inf s) → IsFin x := by
          intro x h1 h2; cases x <;> simp_all [IsFin]
        exact this _ (by decide +kernel) (by decide +kernel)
    obtain ⟨f1, m0, m1⟩ := k m hm
    obtain ⟨f2, n0, n1⟩ := k mm hmm
    exact ⟨⟨f1, m0, m1.trans (by norm_num)⟩, ⟨f2, n0, n1.trans (by norm_num)⟩⟩

attribute [local instance] fr32 fr64 in
/-- A back-test on clean data that trades and returns. -/
example : (∃ r, (executeTrader fr32Account fr32Ticks none true
    (BuiltIn.emitter ⟨fun _ => "", fun _ _ => ""⟩ (.rebalancing ⟨.fin (11 / 16), .fin (1 / 16)⟩)).trader
    (BuiltIn.emitter ⟨fun _ => "", fun _ _ => ""⟩ (.rebalancing ⟨.fin (11 / 16), .fin (1 / 16)⟩)).init false).out = .ok r ∧
    (fr32Ticks ≠ [] → Solvent r)) := by
  refine (C87_execution .none _ _ fr32_rebalancing fr32Account fr32Account_clean fr32Ticks fr32Ticks_clean true false).resolve_right ?_
  have : (executions (executeTrader fr32Account fr32Ticks none true
    (rebalancingTrader ⟨fun _ => "", fun _ _ => ""⟩ ⟨.fin (11 / 16), .fin (1 / 16)⟩) RebalancingState.init false).trace).map
      (fun x => (x.2.1.baseBalance, x.2.1.quoteBalance)) = [(.fin (687 / 512), .fin (7801 / 128)), (.fin (733 / 512), .fin (3255 / 64))] := by decide +kernel
  rintro ⟨x, hx, ho⟩
  have hx' := List.mem_map_of_mem (f := fun x => (x.2.1.baseBalance, x.2.1.quoteBalance)) hx
  erw [this, List.mem_cons, List.mem_singleton] at hx'
  rcases hx' with hx' | hx' <;>
  · obtain ⟨h1, h2⟩ := Prod.mk.inj hx'
    apply ho
    rw [h1, h2]
    refine ⟨trivial, ?_, trivial, ?_⟩ <;> (dsimp only [Fl.toQ]; norm_num)

attribute [local instance] fr32 fr64 in
/-- **C87** (the band must not be empty). With `alpha = 0` the rebalancing trader sells a base balance that is lost in
the rounding of the portfolio: it emits an order for 0 and the next tick aborts, on clean data, without any overflow. -/
theorem C87_empty_band_aborts : ∃ (c : AccountConfig F32) (ticks : List (OhlcTick F32)) (cfg : RebalancingConfig F32),
    CleanHistory32 ticks ∧ CleanAccount32 c ∧ Between 0 1 cfg.alpha ∧ Between 0 (1 / 2) cfg.epsilon ∧
    (executeTrader c ticks none true (rebalancingTrader ⟨fun _ => "", fun _ _ => ""⟩ cfg) RebalancingState.init false).out =
      .error .assertion ∧
    executions (executeTrader c ticks none true (rebalancingTrader ⟨fun _ => "", fun _ _ => ""⟩ cfg)
      RebalancingState.init false).trace = [] := by
  refine ⟨{ fr32Account with startBase := .fin (1 / 2 ^ 30), startQuote := .fin 100 }, fr32Ticks, ⟨.fin 0, .fin (1 / 2)⟩,
    fr32Ticks_clean, ⟨⟨trivial, .inr ?_, ?_⟩, fr32Account_clean.quote, .inl ?_, fr32Account_clean.baseUnit,
      fr32Account_clean.quoteUnit, fr32Account_clean.liquidity, fr32Account_clean.fees⟩, ⟨trivial, ?_, ?_⟩, ⟨trivial, ?_, ?_⟩, ?_, ?_⟩
  all_goals first
    | (dsimp only [Fl.toQ]; norm_num; done)
    | decide +kernel

/-- **C87** (overflow does abort). With balances of 2^127 the sum of the portfolio is infinite, the trader takes its
share of base currency for 0 and emits a buy order for a negative infinite amount. -/
theorem C87_overflow_aborts : ∃ (cfg : RebalancingConfig F32) (o : Order F32), CleanParameters32 (.rebalancing cfg) ∧
    rebalancingOrders cfg (.fin 1) (.fin (2 ^ 127)) (.fin (2 ^ 127)) = [o] ∧ ¬ ValidOrder o := by
  refine ⟨⟨.fin (11 / 16), .fin (1 / 16)⟩, marketOrder .buy (.inf true), fr32_rebalancing, by decide +kernel, ?_⟩
  rintro ⟨ty, sd, -, -, -, x, hx, h | h⟩
  · have : (Amount.base (.inf true) : Amount F32) = .base x := h
    cases this
    revert hx
    decide +kernel
  · have : (Amount.base (.inf true) : Amount F32) = .quote x := h
    cases this

end examples
end Verif.Props
