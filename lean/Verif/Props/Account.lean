import Verif.Lemmas.Grid
import Verif.Lemmas.Account
import Verif.Num.IEEELemmas

/-!
# Account properties C01-C14

`F` with only `[FloatOps F]`: holds for every arithmetic, IEEE floats included.  `[SignLaws F]`: exact
arithmetic and IEEE floats.  `K`: exact arithmetic.
-/

set_option linter.unusedSectionVars false

namespace Verif.Props
open FloatOps Spec

section generic
variable {F : Type} [FloatOps F]

/-- "If the call returns false nothing changed; whatever it returns, only the two balances and the fee
counter can change." -/
def RejectionHarmless (a : Account F) (r : Res (Bool × Account F)) : Prop :=
  ∀ ok a', r = .ok (ok, a') →
    (ok = false → a' = a) ∧
    a'.baseUnit = a.baseUnit ∧ a'.quoteUnit = a.quoteUnit ∧
    a'.marketLiquidity = a.marketLiquidity ∧ a'.maxVolumeRatio = a.maxVolumeRatio

private theorem harmless_false (a : Account F) : RejectionHarmless a (.ok (false, a)) := by
  rintro ok a' h; cases h; simp

private theorem harmless_error (a : Account F) (e : Fault) : RejectionHarmless a (.error e) := by
  rintro ok a' h; cases h

private theorem harmless_assert (a : Account F) (b : Bool) {f : Unit → Res (Bool × Account F)}
    (h : RejectionHarmless a (f ())) : RejectionHarmless a (assertThat b >>= f) := by
  cases b
  · exact harmless_error a _
  · exact h

private theorem harmless_buyBase (a : Account F) (fc : FeeConfig F) (b p : F) :
    RejectionHarmless a (a.buyBase fc b p) := by
  intro ok a' h
  rcases (a.buyBase_cases h).2.2 with ⟨rfl, rfl⟩ | ⟨rfl, -, q, fee, -, -, -, rfl⟩ <;>
    simp [Account.afterBuy]

private theorem harmless_sellBase (a : Account F) (fc : FeeConfig F) (b p : F) :
    RejectionHarmless a (a.sellBase fc b p) := by
  intro ok a' h
  rcases (a.sellBase_cases h).2.2 with ⟨rfl, rfl⟩ | ⟨rfl, -, -, q, fee, -, -, -, rfl⟩ <;>
    simp [Account.afterSell]

private theorem harmless_buyAtQuote (a : Account F) (fc : FeeConfig F) (q p m : F) :
    RejectionHarmless a (a.buyAtQuote fc q p m) := by
  intro ok a' h
  rcases (a.buyAtQuote_cases h).2.2 with ⟨rfl, rfl⟩ | ⟨q', fee, b, -, -, -, -, -, -, -, h'⟩
  · simp
  · exact harmless_buyBase a _ _ _ _ _ h'

private theorem harmless_sellAtQuote (a : Account F) (fc : FeeConfig F) (q p m : F) :
    RejectionHarmless a (a.sellAtQuote fc q p m) := by
  intro ok a' h
  rcases (a.sellAtQuote_cases h).2.2 with ⟨rfl, rfl⟩ | ⟨q', fee, b, -, -, -, -, -, h'⟩
  · simp
  · exact harmless_sellBase a _ _ _ _ _ h'

/-- **C01** for the sixteen trading methods, any arithmetic. -/
theorem C01_methods (a : Account F) (fc : FeeConfig F) (t : OhlcTick F) (x p m : F) :
    RejectionHarmless a (a.buyBase fc x p) ∧ RejectionHarmless a (a.sellBase fc x p) ∧
    RejectionHarmless a (a.buyAtQuote fc x p m) ∧ RejectionHarmless a (a.sellAtQuote fc x p m) ∧
    RejectionHarmless a (a.marketBuy fc t x) ∧ RejectionHarmless a (a.marketBuyAtQuote fc t x) ∧
    RejectionHarmless a (a.marketSell fc t x) ∧ RejectionHarmless a (a.marketSellAtQuote fc t x) ∧
    RejectionHarmless a (a.stopBuy fc t x p) ∧ RejectionHarmless a (a.stopBuyAtQuote fc t x p) ∧
    RejectionHarmless a (a.stopSell fc t x p) ∧ RejectionHarmless a (a.stopSellAtQuote fc t x p) ∧
    RejectionHarmless a (a.limitBuy fc t x p) ∧ RejectionHarmless a (a.limitBuyAtQuote fc t x p) ∧
    RejectionHarmless a (a.limitSell fc t x p) ∧ RejectionHarmless a (a.limitSellAtQuote fc t x p) := by
  refine ⟨harmless_buyBase _ _ _ _, harmless_sellBase _ _ _ _, harmless_buyAtQuote _ _ _ _ _, harmless_sellAtQuote _ _ _ _ _,
    harmless_buyBase _ _ _ _, harmless_buyAtQuote _ _ _ _ _, harmless_sellBase _ _ _ _, harmless_sellAtQuote _ _ _ _ _,
    ?_, ?_, ?_, ?_, ?_, ?_, ?_, ?_⟩
  all_goals
    first
    | unfold Account.stopBuy | unfold Account.stopBuyAtQuote | unfold Account.stopSell
    | unfold Account.stopSellAtQuote | unfold Account.limitBuy | unfold Account.limitBuyAtQuote
    | unfold Account.limitSell | unfold Account.limitSellAtQuote
    refine harmless_assert _ _ (harmless_assert _ _ ?_)
    split
    · exact harmless_false a
    · first
      | exact harmless_buyBase _ _ _ _ | exact harmless_sellBase _ _ _ _
      | exact harmless_buyAtQuote _ _ _ _ _ | exact harmless_sellAtQuote _ _ _ _ _

/-- **C01** for `ExecuteOrder`, any arithmetic. -/
theorem C01_executeOrder (a : Account F) (c : AccountConfig F) (o : Order F) (t : OhlcTick F) :
    RejectionHarmless a (a.executeOrder c o t) := by
  unfold Account.executeOrder
  refine harmless_assert _ _ ?_
  have h := C01_methods a
  split
  all_goals first
    | exact harmless_error a _
    | exact (h c.marketFee t _ (lit F 0) (lit F 0)).2.2.2.2.1
    | exact (h c.marketFee t _ (lit F 0) (lit F 0)).2.2.2.2.2.1
    | exact (h c.marketFee t _ (lit F 0) (lit F 0)).2.2.2.2.2.2.1
    | exact (h c.marketFee t _ (lit F 0) (lit F 0)).2.2.2.2.2.2.2.1
    | exact (h c.stopFee t _ _ (lit F 0)).2.2.2.2.2.2.2.2.1
    | exact (h c.stopFee t _ _ (lit F 0)).2.2.2.2.2.2.2.2.2.1
    | exact (h c.stopFee t _ _ (lit F 0)).2.2.2.2.2.2.2.2.2.2.1
    | exact (h c.stopFee t _ _ (lit F 0)).2.2.2.2.2.2.2.2.2.2.2.1
    | exact (h c.limitFee t _ _ (lit F 0)).2.2.2.2.2.2.2.2.2.2.2.2.1
    | exact (h c.limitFee t _ _ (lit F 0)).2.2.2.2.2.2.2.2.2.2.2.2.2.1
    | exact (h c.limitFee t _ _ (lit F 0)).2.2.2.2.2.2.2.2.2.2.2.2.2.2.1
    | exact (h c.limitFee t _ _ (lit F 0)).2.2.2.2.2.2.2.2.2.2.2.2.2.2.2

end generic

section laws
variable {F : Type} [FloatOps F] [SignLaws F]

/-- Not below zero (NaN is not below zero). -/
def NotBelowZero (x : F) : Prop := (x <. lit F 0) = false

private theorem roundUnit_notBelow {x u : F} (h : NotBelowZero x) : NotBelowZero (roundUnit x u) := by
  unfold roundUnit
  split
  · rename_i hu
    exact SignLaws.mul_not_neg _ _ hu (SignLaws.round_not_neg _ (SignLaws.div_not_neg _ _ hu h))
  · exact h

private theorem step_notBelow {a a' : Account F} {c : AccountConfig F} {o : Order F} {t : OhlcTick F}
    {ok : Bool} (hu : (lit F 0 <=. a.baseUnit) = true) (hq : (lit F 0 <=. a.quoteUnit) = true)
    (hb : NotBelowZero a.baseBalance) (hqb : NotBelowZero a.quoteBalance)
    (h : a.executeOrder c o t = .ok (ok, a')) :
    NotBelowZero a'.baseBalance ∧ NotBelowZero a'.quoteBalance := by
  rcases a.executeOrder_ok h with ⟨rfl, rfl⟩ | ⟨rfl, ty, sd, b, -, -, -, ⟨-, h⟩ | ⟨-, h⟩⟩
  · exact ⟨hb, hqb⟩
  · rcases (a.buyBase_cases h).2.2 with ⟨h, -⟩ | ⟨-, h1, q, fee, -, -, h2, rfl⟩
    · cases h
    · exact ⟨roundUnit_notBelow (SignLaws.add_not_neg _ _ hb (SignLaws.not_neg_of_not_lt _ _ hu h1)),
        roundUnit_notBelow (SignLaws.sub_not_neg _ _ h2)⟩
  · rcases (a.sellBase_cases h).2.2 with ⟨h, -⟩ | ⟨-, -, h1, q, fee, -, -, h2, rfl⟩
    · cases h
    · exact ⟨roundUnit_notBelow (SignLaws.sub_not_neg _ _ h1),
        roundUnit_notBelow (SignLaws.add_not_neg _ _ hqb (SignLaws.not_neg_of_not_lt _ _ hq h2))⟩

/-- **C02**. No order history makes a balance negative: any number of orders, any ticks, any fee
schedule.  Holds for exact arithmetic and for IEEE floats (see the two corollaries). -/
theorem C02_balances_never_negative (c : AccountConfig F) (l : List (Order F × OhlcTick F)) :
    ∀ a a' : Account F, (lit F 0 <=. a.baseUnit) = true → (lit F 0 <=. a.quoteUnit) = true →
    NotBelowZero a.baseBalance → NotBelowZero a.quoteBalance → runOrders c a l = .ok a' →
    NotBelowZero a'.baseBalance ∧ NotBelowZero a'.quoteBalance := by
  induction l with
  | nil => intro a a' _ _ hb hqb h; cases h; exact ⟨hb, hqb⟩
  | cons x l ih =>
    obtain ⟨o, t⟩ := x
    intro a a' hu hq hb hqb h
    simp only [runOrders] at h
    cases hx : a.executeOrder c o t with
    | error e => rw [hx] at h; cases h
    | ok r =>
      obtain ⟨ok, a1⟩ := r
      rw [hx] at h
      obtain ⟨-, h1, h2, -⟩ := C01_executeOrder a c o t ok a1 hx
      obtain ⟨h3, h4⟩ := step_notBelow hu hq hb hqb hx
      exact ih a1 a' (by rw [h1]; exact hu) (by rw [h2]; exact hq) h3 h4 h

/-- C02 for `float` arithmetic, from the initial account of a configuration. -/
theorem C02_binary32 (c : AccountConfig F32) (l : List (Order F32 × OhlcTick F32)) (a' : Account F32)
    (hu : (lit F32 0 <=. c.baseUnit) = true) (hq : (lit F32 0 <=. c.quoteUnit) = true)
    (hb : NotBelowZero c.startBase) (hqb : NotBelowZero c.startQuote)
    (h : runOrders c (Account.init c) l = .ok a') :
    NotBelowZero a'.baseBalance ∧ NotBelowZero a'.quoteBalance :=
  C02_balances_never_negative c l _ _ hu hq hb hqb h

/-- C02 in exact arithmetic. -/
theorem C02_exact {K : Type} [Field K] [LinearOrder K] [IsStrictOrderedRing K] [FloorRing K]
    (c : AccountConfig K) (l : List (Order K × OhlcTick K)) (a' : Account K)
    (hu : 0 ≤ c.baseUnit) (hq : 0 ≤ c.quoteUnit) (hb : 0 ≤ c.startBase) (hqb : 0 ≤ c.startQuote)
    (h : runOrders c (Account.init c) l = .ok a') : 0 ≤ a'.baseBalance ∧ 0 ≤ a'.quoteBalance := by
  have := C02_balances_never_negative c l _ _ (by simpa [Account.init] using hu)
    (by simpa [Account.init] using hq) (by simpa [Account.init, NotBelowZero] using hb)
    (by simpa [Account.init, NotBelowZero] using hqb) h
  simpa [NotBelowZero] using this

end laws

/-! ### A concrete run used for the non-vacuity checks -/

/-- 10 units of base, 1000 of quote; units 1/8 and 1/64; market fee 1/128, fixed 1, minimum 2. -/
def exCfg (F : Type) [FloatOps F] : AccountConfig F where
  startBase := lit F 10
  startQuote := lit F 1000
  baseUnit := lit F (1 / 8)
  quoteUnit := lit F (1 / 64)
  marketFee := ⟨lit F (1 / 128), lit F 1, lit F 2⟩
  stopFee := ⟨lit F (1 / 64), lit F 1, lit F 2⟩
  limitFee := ⟨lit F 0, lit F 0, lit F 0⟩
  marketLiquidity := lit F (1 / 2)
  maxVolumeRatio := lit F (1 / 2)

def exTick (F : Type) [FloatOps F] : OhlcTick F :=
  ⟨300, lit F 50, lit F 60, lit F 40, lit F 55, lit F 8⟩

def exOrders (F : Type) [FloatOps F] : List (Order F × OhlcTick F) :=
  [(⟨some .market, some .buy, .base (lit F 2), none⟩, exTick F),
   (⟨some .stop, some .sell, .quote (lit F 100), some (lit F 45)⟩, exTick F),
   (⟨some .limit, some .buy, .quote (lit F 400), some (lit F 41)⟩, exTick F),
   (⟨some .limit, some .sell, .base (lit F 40), some (lit F 58)⟩, exTick F)]

/-- The run succeeds and moves both balances, in exact arithmetic and in binary32. -/
example : (match runOrders (exCfg ℚ) (Account.init (exCfg ℚ)) (exOrders ℚ) with
    | .ok a' => decide (a'.baseBalance = 77 / 8 ∧ a'.quoteBalance = 67479 / 64 ∧
        a'.totalFee = 293 / 64)
    | .error _ => false) = true := by decide +kernel

example : (match runOrders (exCfg F32) (Account.init (exCfg F32)) (exOrders F32) with
    | .ok a' => decide (a'.baseBalance = .fin (77 / 8) ∧ a'.quoteBalance = .fin (67479 / 64) ∧
        a'.totalFee = .fin (293 / 64))
    | .error _ => false) = true := by decide +kernel

end Verif.Props
