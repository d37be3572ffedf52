import Verif.Spec.Evaluate
import Verif.Spec.FloatRobust
import Verif.Spec.TraderMain

/-!
# Vocabulary for evaluations in binary32 (C93)
-/

namespace Verif.Spec
open FloatOps

/-- The windows of an evaluation: the configured interval as a whole if windows have no length, otherwise the windows that
fit in it. -/
inductive EvalWindow (cfg : EvalConfig) : ℤ → ℤ → Prop
  | whole (h : cfg.months = 0) : EvalWindow cfg cfg.start cfg.stop
  | month (k : ℕ) (h : 0 < cfg.months) (hk : windowStop cfg k ≤ cfg.stop) :
      EvalWindow cfg (windowStart cfg k) (windowStop cfg k)

/-- The evaluation can be carried out: windows of a positive number of months (and no risk of overflow in counting them), or
no windows and at least one tick in the interval. -/
def Evaluable32 (cfg : EvalConfig) (ticks : List (OhlcTick F32)) : Prop :=
  (0 < cfg.months ∧ cfg.months < 2 ^ 31 - 12 ∧ cfg.stop - cfg.start ≤ 28 * 86400 * (2 ^ 31 - 14)) ∨
  (cfg.months = 0 ∧ ∃ t ∈ ticks, InWindow cfg.start cfg.stop t.ts)

/-- The back-test of the window left, after one of the executed orders, a balance above 2^80 (or an infinite one). -/
def WindowOutgrown [Libm F32] [Libm F64] (i : EvalInputs F32) (start stop : ℤ) : Prop :=
  ∃ x ∈ executions (executeTrader i.account (windowTicks i.history start stop) i.side i.cfg.fast i.emitter.trader
    i.emitter.init false).trace, Outgrown x.2.1

/-- The account grew (or shrank), compared with the price, by a factor that a `float` cannot express: above 2^128 or below
2^-149. -/
def Extreme (p : Period F32) : Prop :=
  p.finalGain /. p.baseFinalGain = .inf false ∨ (p.finalGain /. p.baseFinalGain).toQ = 0

/-- The ratio of the gains is a number that is not negative, or `+inf`. -/
def GoodRatio (p : Period F32) : Prop := (lit F32 0 <=. p.finalGain /. p.baseFinalGain) = true

/-- Usable prices: numbers between 2^-40 and 2^40, with volumes that are not negative (and not NaN). -/
def CleanPrices32 (l : List (PriceRecord F32)) : Prop :=
  ∀ r ∈ l, Between (1 / 2 ^ 40) (2 ^ 40) r.price ∧ (lit F32 0 <=. r.volume) = true

/-- Reasonable flags of trader.cc: as floats, the start balances are nothing or between 2^-61 and 2^80, not both nothing, and
the liquidity is between 0 and 1. -/
structure SaneFlags32 (fl : TraderMain.Flags F64) : Prop where
  base : Holding (Wide.narrow fl.startBase)
  quote : Holding (Wide.narrow fl.startQuote)
  some : 0 < (Wide.narrow fl.startBase : F32).toQ ∨ 0 < (Wide.narrow fl.startQuote : F32).toQ
  liquidity : Between 0 1 (Wide.narrow fl.marketLiquidity)

/-- What the program hands to `EvaluateTrader`. -/
abbrev programInputs [Libm F32] [Libm F64] (env : TraderMain.Env F32) (fl : TraderMain.Flags F64) (start stop : ℤ) (fast : Bool)
    (ticks : List (OhlcTick F32)) (side : Option (SideInput F32)) (b : BuiltIn F32) : EvalInputs F32 :=
  ⟨TraderMain.accountConfig fl, ⟨start, stop, fl.months, fast⟩, ticks, side, b.emitter env.fmt⟩

/-- One of the excuses of `C93_evaluation`: in some window a balance outgrew 2^80, or (several windows) a ratio of gains
left the range of `float`. -/
def Excused [Libm F32] [Libm F64] (i : EvalInputs F32) : Prop :=
  ∃ start stop, EvalWindow i.cfg start stop ∧ (WindowOutgrown i start stop ∨
    0 < i.cfg.months ∧ ∃ p, IsPeriod i start stop p ∧ Extreme p)

end Verif.Spec
