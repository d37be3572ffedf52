import Verif.Model.TraderMain
import Verif.Spec.ConvertMain
import Verif.Spec.Evaluate
import Verif.Spec.History

/-!
# Specification vocabulary for the program trader.cc (C82-C84)
-/

namespace Verif.Spec
open Verif FloatOps

section
variable {F D : Type}

/-- The flags ask for the period from `start` to `stop` (in Unix seconds). -/
def TraderPeriod (fl : TraderMain.Flags D) (start stop : ℤ) : Prop :=
  (Time.parseTime fl.startTime).map Time.Instant.toUnixSeconds = some start ∧
    (Time.parseTime fl.endTime).map Time.Instant.toUnixSeconds = some stop

/-- The file holds messages in order of time, and `l` are those of the period. -/
def HoldsPeriod {M : Type} (codec : Codec M) (ts : M → ℤ) (files : Files) (name : Text) (start stop : ℤ) (l : List M) : Prop :=
  ∃ all, Holds codec files name all ∧ SortedBy ts all ∧ l = all.filter (fun m => decide (InWindow start stop (ts m)))

/-- What the program is to work on: the ticks of the period, and the records of the period if a side history is named. -/
structure Loads (env : TraderMain.Env F) (fl : TraderMain.Flags D) (files : Files) (start stop : ℤ)
    (ticks : List (OhlcTick F)) (recs : Option (List (SideInputRecord F))) : Prop where
  period : TraderPeriod fl start stop
  order : 0 < stop → start ≤ stop
  ticks : HoldsPeriod env.ohlcCodec OhlcTick.ts files fl.inputOhlc start stop ticks
  side : fl.inputSide = [] ∧ recs = none ∨
    fl.inputSide ≠ [] ∧ ∃ l, recs = some l ∧ HoldsPeriod env.sideCodec SideInputRecord.ts files fl.inputSide start stop l

/-- The logs asked for (none, if a flag is empty) can be written: only when the whole period is evaluated at once. -/
def LogsOpen (env : TraderMain.Env F) (fl : TraderMain.Flags D) : Prop :=
  ∀ name, name = fl.outputExchangeLog ∨ name = fl.outputTraderLog → name ≠ [] → fl.months ≤ 0 ∧ env.canWrite name = true

variable [FloatOps F]

/-- The scores can be ranked: comparing them is a strict weak order. -/
structure Rankable (l : List (EvaluationResult F)) : Prop where
  irrefl : ∀ a ∈ l, (a.score <. a.score) = false
  trans : ∀ a ∈ l, ∀ b ∈ l, ∀ c ∈ l, (a.score <. b.score) = true → (b.score <. c.score) = true → (a.score <. c.score) = true
  tied : ∀ a ∈ l, ∀ b ∈ l, ∀ c ∈ l, ((a.score <. b.score) = false ∧ (b.score <. a.score) = false) →
    ((b.score <. c.score) = false ∧ (c.score <. b.score) = false) → ((a.score <. c.score) = false ∧ (c.score <. a.score) = false)

/-- What `std::sort` promises, if the scores can be ranked: the same results, none of them behind one with a smaller score. -/
def SortsByScore (sort : List (EvaluationResult F) → List (EvaluationResult F)) : Prop :=
  ∀ l : List (EvaluationResult F), Rankable l →
    (sort l).Perm l ∧ (sort l).Pairwise (fun a b => (a.score <. b.score) = false)

/-- The line printed for a period: its window, the gains of trader and base currency in percent, their ratio, and the two
volatilities; numbers are padded with blanks on the left. -/
def periodReport (fmt : Format F) (p : Period F) : Text :=
  let pad (n : ℕ) (s : String) : Text := List.replicate (n - s.toList.length) ' ' ++ s.toList
  "[".toList ++ Time.formatTimeUTC (.sec p.start) ++ " - ".toList ++ Time.formatTimeUTC (.sec p.stop) ++ "): ".toList ++
    pad 9 (fmt.fixed 2 ((p.finalGain -. lit F 1) *. lit F 100)) ++ "% ".toList ++
    pad 9 (fmt.fixed 2 ((p.baseFinalGain -. lit F 1) *. lit F 100)) ++ "% ".toList ++
    pad 8 (fmt.fixed 3 (p.finalGain /. p.baseFinalGain)) ++ " ".toList ++
    pad 8 (fmt.fixed 3 p.result.traderVolatility) ++ " ".toList ++ pad 8 (fmt.fixed 3 p.result.baseVolatility)

end

/-- The line printed for a result in a batch. -/
def scoreReport {F : Type} (fmt : Format F) (r : EvaluationResult F) : Text :=
  r.name.toList ++ ": ".toList ++ (fmt.fixed 5 r.score).toList

section exact
variable {K : Type} [Field K] [LinearOrder K] [IsStrictOrderedRing K] [FloorRing K]

/-- Reasonable flags: something to start with, and a liquidity between 0 and 1. -/
structure SaneFlags (fl : TraderMain.Flags K) : Prop where
  base : 0 ≤ fl.startBase
  quote : 0 ≤ fl.startQuote
  some : 0 < fl.startBase ∨ 0 < fl.startQuote
  liquidity : 0 ≤ fl.marketLiquidity ∧ fl.marketLiquidity ≤ 1

/-- There is something to evaluate: windows of a positive number of months (with no risk of overflow), or the whole period
if it contains ticks. -/
def Evaluable (fl : TraderMain.Flags K) (start stop : ℤ) (ticks : List (OhlcTick K)) : Prop :=
  (0 < fl.months ∧ fl.months < 2 ^ 31 - 12 ∧ stop - start ≤ 28 * 86400 * (2 ^ 31 - 14)) ∨ (fl.months = 0 ∧ ticks ≠ [])

end exact
end Verif.Spec
