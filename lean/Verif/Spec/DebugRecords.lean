import Verif.Spec.DebugString
import Verif.Spec.Wire

/-!
# Specification vocabulary for printed records (C118)
-/

namespace Verif.Spec
open Verif

/-- The values of all lines that begin with the name and a colon, in order. -/
def valuesOf (name : String) (lines : List Text) : List Text :=
  (lines.filter (fun l => (name.toList ++ ": ".toList).isPrefixOf l)).map (fun l => l.drop (name.toList.length + 2))

/-- In these lines stand the timestamp, the price and the volume of the record. -/
def ShowsPrice (lines : List Text) (r : PriceRecord F32) : Prop :=
  ShowsInt lines "timestamp_sec" r.ts ∧ Shows lines "price" r.price ∧ Shows lines "volume" r.volume

/-- In these lines stand the timestamp, the four prices and the volume of the tick. -/
def ShowsTick (lines : List Text) (t : OhlcTick F32) : Prop :=
  ShowsInt lines "timestamp_sec" t.ts ∧ Shows lines "open" t.opn ∧ Shows lines "high" t.high ∧ Shows lines "low" t.low ∧
    Shows lines "close" t.close ∧ Shows lines "volume" t.volume

/-- In these lines stand the timestamp and, in order, the signals of the record. -/
def ShowsSide (lines : List Text) (r : SideInputRecord F32) : Prop :=
  ShowsInt lines "timestamp_sec" r.ts ∧
    List.Forall₂ (fun t x => Convert.libcScanner.scan t = some (x, [])) (valuesOf "signal" lines) r.signals

end Verif.Spec
