import Verif.Props.FloatAfford
import Verif.Props.Fill
import Verif.Props.Orders
import Verif.Props.Settlement

/-!
# Witnesses: the theorems about the account (C01-C14, C76), each applied to a concrete account, order and tick

Nothing here is part of a claim. Every `example` applies a theorem to literal data; that it elaborates shows
that the hypotheses of the theorem can be met together.
-/

namespace Verif.Witness.Acc
open FloatOps Spec Props

/-- The account an order leaves behind. -/
abbrev after {F : Type} (d : Account F) : Res (Bool × Account F) → Account F
  | .ok (_, y) => y
  | .error _ => d

abbrev acc : Account ℚ := Account.init (exCfg ℚ)

theorem acc_grid : OnGrid acc where
  base _ := ⟨80, by decide +kernel⟩
  quote _ := ⟨64000, by decide +kernel⟩
  fee _ := ⟨0, by decide +kernel⟩

/-- A buy, a sell, a stop and a limit order; the numbers of `exOrders`. -/
abbrev marketBuy : Order ℚ := ⟨some .market, some .buy, .base 2, none⟩
abbrev stopSell : Order ℚ := ⟨some .stop, some .sell, .quote 100, some 45⟩
abbrev limitBuy : Order ℚ := ⟨some .limit, some .buy, .quote 400, some 41⟩
abbrev limitSell : Order ℚ := ⟨some .limit, some .sell, .base 40, some 58⟩

abbrev run (o : Order ℚ) : Account ℚ := after acc (acc.executeOrder (exCfg ℚ) o (exTick ℚ))

theorem marketBuy_ok : acc.executeOrder (exCfg ℚ) marketBuy (exTick ℚ) = .ok (true, run marketBuy) := by decide +kernel
theorem stopSell_ok : acc.executeOrder (exCfg ℚ) stopSell (exTick ℚ) = .ok (true, run stopSell) := by decide +kernel
theorem limitBuy_ok : acc.executeOrder (exCfg ℚ) limitBuy (exTick ℚ) = .ok (true, run limitBuy) := by decide +kernel
theorem limitSell_ok : acc.executeOrder (exCfg ℚ) limitSell (exTick ℚ) = .ok (true, run limitSell) := by decide +kernel

abbrev finalQ : Account ℚ :=
  match runOrders (exCfg ℚ) acc (exOrders ℚ) with | .ok a => a | .error _ => acc
abbrev final32 : Account F32 :=
  match runOrders (exCfg F32) (Account.init (exCfg F32)) (exOrders F32) with | .ok a => a | .error _ => Account.init (exCfg F32)

theorem finalQ_ok : runOrders (exCfg ℚ) acc (exOrders ℚ) = .ok finalQ := by decide +kernel
theorem final32_ok : runOrders (exCfg F32) (Account.init (exCfg F32)) (exOrders F32) = .ok final32 := by decide +kernel

/-! ### C02, C03 -/

example : NotBelowZero finalQ.baseBalance ∧ NotBelowZero finalQ.quoteBalance :=
  C02_balances_never_negative (exCfg ℚ) (exOrders ℚ) acc finalQ (by decide +kernel) (by decide +kernel)
    (by unfold NotBelowZero; decide +kernel) (by unfold NotBelowZero; decide +kernel) finalQ_ok

example : NotBelowZero final32.baseBalance ∧ NotBelowZero final32.quoteBalance :=
  C02_binary32 (exCfg F32) (exOrders F32) final32 (by decide +kernel) (by decide +kernel)
    (by unfold NotBelowZero; decide +kernel) (by unfold NotBelowZero; decide +kernel) final32_ok

example : 0 ≤ finalQ.baseBalance ∧ 0 ≤ finalQ.quoteBalance :=
  C02_exact (exCfg ℚ) (exOrders ℚ) finalQ (by decide +kernel) (by decide +kernel) (by decide +kernel)
    (by decide +kernel) finalQ_ok

example : IsMultiple (1 / 8) (run marketBuy).baseBalance := by
  have := (C03_grid acc _ _ _ _ marketBuy_ok).1 (by decide +kernel)
  have e : acc.baseUnit = 1 / 8 := by decide +kernel
  rwa [e] at this

example : OnGrid (run stopSell) := C03_onGrid_step acc _ _ _ _ true acc_grid stopSell_ok
example : OnGrid finalQ := C03_onGrid_run (exCfg ℚ) (exOrders ℚ) acc finalQ acc_grid finalQ_ok

/-- A market buy in binary32. -/
abbrev acc32 : Account F32 := Account.init (exCfg F32)
abbrev marketBuy32 : Order F32 := ⟨some .market, some .buy, .base (lit F32 2), none⟩
abbrev run32 : Account F32 := after acc32 (acc32.executeOrder (exCfg F32) marketBuy32 (exTick F32))
theorem marketBuy32_ok : acc32.executeOrder (exCfg F32) marketBuy32 (exTick F32) = .ok (true, run32) := by decide +kernel

example : FloatMultiple acc32.baseUnit run32.baseBalance :=
  (C03_float acc32 run32 _ _ _ marketBuy32_ok).1 (by decide +kernel)

/-! ### C04-C08 -/

/-- Buying 2.05 at 50: 2 whole units of 1/8, 100 of quote, a fee of 2. -/
example : ∃ b' q fee, NearestTo acc.baseUnit (41 / 20) b' ∧ CeilTo acc.quoteUnit (b' * 50) q ∧
    FeeOf (exCfg ℚ).marketFee acc.quoteUnit q fee ∧
    acc.buyBase (exCfg ℚ).marketFee (41 / 20) 50 = .ok (if acc.baseUnit ≤ b' ∧ q + fee ≤ acc.quoteBalance then
      (true, { acc with
        baseBalance := acc.baseBalance + b'
        quoteBalance := acc.quoteBalance - (q + fee)
        totalFee := acc.totalFee + fee })
      else (false, acc)) :=
  C04_buy acc (exCfg ℚ).marketFee (41 / 20) 50 (by norm_num) (by norm_num) acc_grid

example : (match acc.buyBase (exCfg ℚ).marketFee (41 / 20) 50 with
    | .ok (ok, a) => ok && decide (a.baseBalance = 12 ∧ a.quoteBalance = 898 ∧ a.totalFee = 2)
    | _ => false) = true := by decide +kernel

example := C04_sell acc (exCfg ℚ).marketFee (41 / 20) 50 (by norm_num) (by norm_num) acc_grid

example := C05_no_free_money acc _ _ _ _ .market .buy rfl rfl acc_grid marketBuy_ok
example := C05_no_free_money acc _ _ _ _ .stop .sell rfl rfl acc_grid stopSell_ok
example := C05_no_free_money acc _ _ _ _ .limit .buy rfl rfl acc_grid limitBuy_ok

/-- The limit buy for 400 costs at most 400. -/
example : acc.quoteBalance - (run limitBuy).quoteBalance ≤ 400 := by
  obtain ⟨x', -, -, -, h⟩ := C06_buy_at_quote_bound acc _ _ _ _ .limit 400 rfl rfl rfl acc_grid (by decide +kernel)
    (by decide +kernel) limitBuy_ok
  exact h (fun _ => ⟨25600, by decide +kernel⟩)

/-- The stop sell for 100 credits at most 100. -/
example : (run stopSell).quoteBalance - acc.quoteBalance ≤ 100 := by
  obtain ⟨x', -, -, -, h⟩ := C07_sell_at_quote_bound acc _ _ _ _ .stop 100 rfl rfl rfl acc_grid (by decide +kernel)
    (by decide +kernel) stopSell_ok
  exact h (fun _ => ⟨6400, by decide +kernel⟩)

example : NotBelowZero final32.totalFee :=
  C08_total_fee_never_negative (exCfg F32) (exOrders F32)
    (by intro ty; cases ty <;> (unfold NotBelowZero; decide +kernel)) acc32 final32
    (by unfold NotBelowZero; decide +kernel) final32_ok

example : acc.totalFee ≤ finalQ.totalFee :=
  C08_total_fee_mono (exCfg ℚ) (exOrders ℚ) (by intro ty; cases ty <;> decide +kernel) acc finalQ acc_grid finalQ_ok

/-! ### C09, C10, C12, C13 -/

example := C09_price_bounds acc (exTick ℚ) 45 (by decide +kernel) (by decide +kernel) (by decide +kernel) (by decide +kernel)

example := C09_endpoints_binary32 { acc32 with marketLiquidity := .fin 1 }
  ⟨0, .fin 2, .fin 3, .fin (13421773 / 134217728), .fin 1, .fin 1⟩ 2 3 (13421773 / 134217728) (5 / 2)
  (by constructor <;> decide +kernel) (by constructor <;> decide +kernel) (by constructor <;> decide +kernel)
  (by constructor <;> decide +kernel) rfl rfl rfl

/-- Configurations that differ only in the fee of limit orders do the same to a market order. -/
example : acc.executeOrder (exCfg ℚ) marketBuy (exTick ℚ) =
    acc.executeOrder { exCfg ℚ with limitFee := ⟨1 / 2, 3, 4⟩ } marketBuy (exTick ℚ) :=
  C12_fee_schedule acc _ _ _ _ (by intro ty h; cases h; rfl)

example : acc.executeOrder (exCfg ℚ) { marketBuy with price := some 45 } (exTick ℚ) =
    acc.executeOrder (exCfg ℚ) marketBuy (exTick ℚ) :=
  C12_market_ignores_price acc (exCfg ℚ) marketBuy (exTick ℚ) (some 45) rfl

theorem limitBuy_valid : ValidOrder limitBuy := by
  rw [← Account.isValidOrder_iff]; decide +kernel

example := C12_trade_table acc (exCfg ℚ) limitBuy (exTick ℚ) .limit .buy limitBuy_valid rfl rfl

example : ((exTick ℚ).low >. (45 : ℚ)) = false :=
  (C10_trigger acc _ _ _ _ 45 rfl stopSell_ok).2.2.1 rfl rfl

/-- The high of the tick, 60, does not reach 61. -/
example : acc.executeOrder (exCfg ℚ) ⟨some .stop, some .buy, .base 1, some 61⟩ (exTick ℚ) = .ok (false, acc) :=
  C10_untriggered acc _ _ _ 61 (by rw [← Account.isValidOrder_iff]; decide +kernel) rfl
    (.inl ⟨rfl, rfl, by decide +kernel⟩)

example : ∃ b, acc.sellBase (exCfg ℚ).limitFee b 58 = .ok (true, run limitSell) := by
  obtain ⟨b, h | h⟩ := C10_limit_fills_at_limit acc _ _ _ _ 58 rfl rfl limitSell_ok
  · exact absurd h.1 (by decide)
  · exact ⟨b, h.2⟩

/-- A limit order without a price. -/
example : acc.executeOrder (exCfg ℚ) ⟨some .limit, some .buy, .quote 400, none⟩ (exTick ℚ) = .error .assertion :=
  C13_invalid_aborts acc _ _ _ (by rw [← Account.isValidOrder_iff]; decide +kernel)

example : (∃ r, acc.executeOrder (exCfg ℚ) limitBuy (exTick ℚ) = .ok r) :=
  (C13_accepts_iff_valid acc (exCfg ℚ) limitBuy (exTick ℚ) (by decide +kernel) (by decide +kernel) (by decide +kernel)
    (by decide +kernel) (by decide +kernel) (by decide +kernel) (by decide +kernel)).mpr limitBuy_valid

/-! ### C11, C14 -/

/-- Half of the volume of 8 may be traded: the limit sell for 40 moves no more than 4. -/
example : |(run limitSell).baseBalance - acc.baseBalance| ≤ 4 := by
  obtain ⟨⟨cap, hc, h⟩, -⟩ := C11_volume_cap acc _ _ _ _ rfl acc_grid (by decide +kernel) limitSell_ok
  refine h.trans ?_
  have h0 : 0 < acc.baseUnit := by decide +kernel
  unfold FloorTo at hc
  rw [if_pos h0] at hc
  have e : acc.maxVolumeRatio * (exTick ℚ).volume = 4 := by decide +kernel
  rw [e] at hc
  exact hc.1.1

example : ({ acc with maxVolumeRatio := 0 } : Account ℚ).executeOrder (exCfg ℚ) limitSell (exTick ℚ) =
    ({ acc with maxVolumeRatio := 0 } : Account ℚ).sellBase (exCfg ℚ).limitFee 40 58 :=
  C11_no_cap { acc with maxVolumeRatio := 0 } (exCfg ℚ) limitSell (exTick ℚ)
    (by rw [← Account.isValidOrder_iff]; decide +kernel) rfl .sell rfl 40 rfl (by decide +kernel) (by decide +kernel)
    (by decide +kernel)

abbrev bought : Account ℚ := after acc (acc.buyBase (exCfg ℚ).marketFee 3 41)
abbrev sold : Account ℚ := after acc (acc.sellBase (exCfg ℚ).marketFee 2 40)

/-- Less, at a lower price, with more money. -/
example : ∃ a', ({ acc with quoteBalance := 5000 } : Account ℚ).buyBase (exCfg ℚ).marketFee 2 40 = .ok (true, a') :=
  C14_buy acc bought { acc with quoteBalance := 5000 } (exCfg ℚ).marketFee 3 2 41 40 (by decide +kernel) (by decide +kernel)
    rfl rfl (by decide +kernel) (by norm_num) (by norm_num) (by decide +kernel) (fun _ => ⟨16, by decide +kernel⟩)
    (by norm_num) (by norm_num)

example : ∃ a', ({ acc with baseBalance := 20, quoteBalance := 0 } : Account ℚ).sellBase (exCfg ℚ).marketFee 2 40 = .ok (true, a') :=
  C14_sell acc sold _ (exCfg ℚ).marketFee 2 40 (by decide +kernel) rfl rfl (by decide +kernel)

/-! ### C76 -/

theorem execOf {o : Order ℚ} {ty : OrderType} {sd : Side} (hty : o.type = some ty) (hsd : o.side = some sd)
    (hv : ValidOrder o) (h : acc.executeOrder (exCfg ℚ) o (exTick ℚ) = .ok (true, run o)) :
    notReached (exTick ℚ) o.getPrice ty sd = false ∧
      ∃ b, Wanted acc (feeFor (exCfg ℚ) ty) (exTick ℚ) ty (execPrice acc.marketLiquidity (exTick ℚ) o.getPrice ty sd) sd o.amount b ∧
        acc.baseUnit ≤ b ∧
        Settles acc (feeFor (exCfg ℚ) ty) (execPrice acc.marketLiquidity (exTick ℚ) o.getPrice ty sd) sd b (run o) :=
  (C76_executed_iff acc (run o) (exCfg ℚ) o (exTick ℚ) ty sd hty hsd hv acc_grid (by decide +kernel) (by decide +kernel)
    (by decide +kernel) (by decide +kernel) (by decide +kernel) (by decide +kernel) (by decide +kernel)).mp h

example := execOf (o := limitBuy) rfl rfl limitBuy_valid limitBuy_ok

/-- The amount that the limit buy wants is affordable, and the largest that is. -/
example : ∃ b a', Wanted acc (exCfg ℚ).limitFee (exTick ℚ) .limit 41 .buy (.quote 400) b ∧
    Settles acc (exCfg ℚ).limitFee 41 .buy b a' := by
  obtain ⟨-, b, hw, -, -⟩ := execOf (o := limitBuy) rfl rfl limitBuy_valid limitBuy_ok
  obtain ⟨a', h⟩ := C76_buy_at_quote_affordable acc (exCfg ℚ).limitFee (exTick ℚ) .limit 41 400 b (by norm_num)
    (by norm_num) (by decide +kernel) (by decide +kernel) hw
  have := C76_buy_at_quote_maximal acc (exCfg ℚ).limitFee (exTick ℚ) .limit 41 400 b (by norm_num) (by decide +kernel) hw
  exact ⟨b, a', hw, h⟩

/-- A stop buy that the tick does not reach is refused. -/
example : acc.executeOrder (exCfg ℚ) ⟨some .stop, some .buy, .base 1, some 61⟩ (exTick ℚ) = .ok (false, acc) :=
  C76_refused_otherwise acc (exCfg ℚ) _ (exTick ℚ) .stop .buy rfl rfl
    (by rw [← Account.isValidOrder_iff]; decide +kernel) acc_grid (by decide +kernel) (by decide +kernel)
    (by decide +kernel) (by decide +kernel) (by decide +kernel) (by decide +kernel) (by decide +kernel)
    (fun _ _ _ _ _ => by decide +kernel)

end Verif.Witness.Acc
