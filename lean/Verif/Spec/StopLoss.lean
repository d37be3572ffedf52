import Verif.Spec.Exec
import Verif.Spec.Account
import Verif.Model.Traders

/-!
# Specification vocabulary for the guarantee of a stop order (C119)
-/

namespace Verif.Spec
open Verif FloatOps

section
variable {F : Type} [FloatOps F]

/-- The tick reaches the price of the order (a market order is always reached). -/
def reached (t : OhlcTick F) (o : Order F) : Bool :=
  match o.type, o.side with
  | some ty, some sd => !notReached t o.getPrice ty sd
  | _, _ => true

/-- The first order of a run that is reached: its tick, the order, and what its execution gave. -/
def firstReached (trace : List (Event F)) : Option (OhlcTick F × Order F × Res (Bool × Account F)) :=
  trace.findSome? fun e => match e with
    | .exec t o r => if reached t o then some (t, o, r) else none
    | _ => none

/-- The order to sell the amount of base currency if the price falls to `p`. -/
def stopSell (amount p : F) : Order F := ⟨some .stop, some .sell, .base amount, some p⟩

/-- The order to spend the amount of quote currency if the price rises to `p`. -/
def stopBuy (amount p : F) : Order F := ⟨some .stop, some .buy, .quote amount, some p⟩

/-- Among the ticks on which the trader is asked (those with a volume) there is no pause of an hour; `last` is the time of the
last one before. -/
def NoPause (last : ℤ) : List (OhlcTick F) → Prop
  | [] => True
  | t :: rest => if active t then t.ts < last + 3600 ∧ NoPause t.ts rest else NoPause last rest

/-- No tick opens below the close of the tick before, and its low does not exceed its close. -/
def NeverOpensLower (close : F) : List (OhlcTick F) → Prop
  | [] => True
  | t :: rest => (close <=. t.opn) = true ∧ (t.low <=. t.close) = true ∧ NeverOpensLower t.close rest

/-- No tick opens above the close of the tick before; it opens at a positive price, and its close does not exceed its high. -/
def NeverOpensHigher (close : F) : List (OhlcTick F) → Prop
  | [] => True
  | t :: rest => ((lit F 0 <. t.opn) = true ∧ (t.opn <=. close) = true) ∧ (t.close <=. t.high) = true ∧ NeverOpensHigher t.close rest

end

end Verif.Spec
