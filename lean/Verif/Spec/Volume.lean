import Verif.Num.FloatOps
import Verif.Model.Base

/-!
# The same history with the volume in another unit

Written without reference to any function of the model.
-/

namespace Verif.Spec
open Verif FloatOps

variable {F : Type}

/-- Two ticks that differ at most in the volume. -/
structure SamePrices (t t' : OhlcTick F) : Prop where
  ts : t'.ts = t.ts
  opn : t'.opn = t.opn
  high : t'.high = t.high
  low : t'.low = t.low
  close : t'.close = t.close

/-- The volume of two ticks differs at most in its unit: the rest is the same, and so is whether there is any volume. -/
def OtherVolume [FloatOps F] (t t' : OhlcTick F) : Prop :=
  SamePrices t t' ∧ FloatOps.beq t'.volume (lit F 0) = FloatOps.beq t.volume (lit F 0)

end Verif.Spec
