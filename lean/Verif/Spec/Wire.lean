import Verif.Num.Repr
import Verif.Model.Wire
import Verif.Spec.Proto
import Verif.Spec.Convert

/-!
# Specification vocabulary for the messages on the wire (C81)
-/

namespace Verif.Spec
open Verif

/-- A price record as the program can hold it: a 64-bit timestamp, and `float` values. -/
structure MachinePrice (r : PriceRecord F32) : Prop where
  ts : IsInt64 r.ts
  price : r.price.Repr
  volume : r.volume.Repr

/-- A tick as the program can hold it. -/
structure MachineTick (t : OhlcTick F32) : Prop where
  ts : IsInt64 t.ts
  opn : t.opn.Repr
  high : t.high.Repr
  low : t.low.Repr
  close : t.close.Repr
  volume : t.volume.Repr

/-- A side record as the program can hold it. -/
structure MachineSide (r : SideInputRecord F32) : Prop where
  ts : IsInt64 r.ts
  signals : ∀ x ∈ r.signals, x.Repr

/-- Numbers are read as `float` values. -/
structure FloatScanner (sc : Convert.Scanner F32) : Prop where
  scan : ∀ s x rest, sc.scan s = some (x, rest) → x.Repr
  stream : ∀ s x rest, sc.stream s = some (x, rest) → x.Repr

end Verif.Spec
