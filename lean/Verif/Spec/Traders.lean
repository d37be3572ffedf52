import Verif.Model.Exec
import Verif.Spec.Account

/-!
# Specification vocabulary for the built-in traders (C52-C59)
-/

namespace Verif.Spec
open FloatOps

section generic
variable {F : Type}

/-- What `Update` is given. -/
structure UpdateInput (F : Type) where
  tick : OhlcTick F
  signals : List F
  base : F
  quote : F

/-- A sequence of `Update` calls on one trader object: the final state and the orders emitted by each call. -/
def feed (T : Trader F) : T.State → List (UpdateInput F) → Res (T.State × List (List (Order F)))
  | s, [] => .ok (s, [])
  | s, i :: rest => do
    let r ← T.update s i.tick i.signals i.base i.quote
    let r' ← feed T r.1 rest
    return (r'.1, r.2 :: r'.2)

/-- Is it a market order? -/
def isMarket (o : Order F) : Prop := o.type = some .market

/-- A limit order on the given side. -/
def isLimit (side : Side) (o : Order F) : Prop := o.type = some .limit ∧ o.side = some side

end generic

section exact
variable {K : Type} [Field K] [LinearOrder K] [IsStrictOrderedRing K]

/-- The part of the portfolio held in base currency, when one unit of it is worth `price`. -/
def allocation (base quote price : K) : K := base * price / (base * price + quote)

/-- The edges of the tolerance band around `alpha`: selling starts at the upper one, buying at the lower one. -/
def bandEdge (alpha epsilon : K) : Side → K
  | .sell => alpha * (1 + epsilon)
  | .buy => alpha * (1 - epsilon)

end exact
end Verif.Spec
