import Verif.Spec.Aggregate
import Verif.Spec.Window

/-!
# Portfolio values per period and their logarithmic returns (C50)

An input of `Volatility::Update` is a tick together with the base and quote balance.
-/

namespace Verif.Spec
open FloatOps

variable {F : Type} [FloatOps F]

/-- The balances that count for the period starting at `s`: those given with the last tick of the period; for a
period without ticks, those given with the first later tick. -/
def balancesAt (P : ℤ) (inputs : List (OhlcTick F × F × F)) (s : ℤ) : F × F :=
  match (inputs.filter (fun i => decide (periodStart P i.1.ts = s))).getLast? with
  | some i => i.2
  | none =>
    match inputs.find? (fun i => decide (s < periodStart P i.1.ts)) with
    | some i => i.2
    | none => (lit F 0, lit F 0)

/-- The value of balances at a price. -/
def worthAt (balances : F × F) (price : F) : F := balances.1 *. price +. balances.2

/-- The portfolio value at the close of every period. -/
def portfolioValues (P : ℤ) (inputs : List (OhlcTick F × F × F)) : List F :=
  (aggregate P (inputs.map (·.1))).map (fun t => worthAt (balancesAt P inputs t.ts) t.close)

/-- The portfolio value before the first period: at the very first open. -/
def initialValue : List (OhlcTick F × F × F) → F
  | [] => lit F 0
  | i :: _ => worthAt i.2 i.1.opn

/-- The returns of consecutive values, `return previous current`, starting from `v0`. -/
def returnsOf (ret : F → F → F) (v0 : F) (vs : List F) : List F := List.zipWith ret (v0 :: vs) vs

end Verif.Spec
