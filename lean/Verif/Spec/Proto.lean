import Verif.Model.Proto

/-!
# Specification vocabulary for delimited streams (C62-C64)
-/

namespace Verif.Spec
open Verif

variable {M S : Type}

/-- A message that can be written: at most `INT_MAX` bytes. -/
def Writable (codec : Codec M) (m : M) : Prop := (codec.encode m).length ≤ 2 ^ 31 - 1

/-- A message that can be written, and that parsing gets back from its serialisation. -/
structure Storable (codec : Codec M) (m : M) : Prop where
  writable : Writable codec m
  faithful : codec.decode (codec.encode m) = some m

/-- The bytes of a file to which exactly these messages have been written. -/
def fileOf (codec : Codec M) (ms : List M) : List UInt8 := (Proto.writeMessages codec ms []).1

/-- A callback applied to messages in order, until it breaks (status OK) or reports an error (status Aborted); `last` is
the status if it does neither. -/
def applyReader (reader : S → M → S × Option ReaderSignal) (last : Status) : S → List M → S × Status
  | s, [] => (s, last)
  | s, m :: rest =>
    match reader s m with
    | (s', none) => (s', .aborted)
    | (s', some .kBreak) => (s', .ok)
    | (s', some .kContinue) => applyReader reader last s' rest

end Verif.Spec
