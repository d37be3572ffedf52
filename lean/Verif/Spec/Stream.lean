import Verif.Spec.Proto
import Verif.Spec.WireFormat

/-!
# Files of delimited messages, described without the reader (C64)
-/

namespace Verif.Spec
open Verif

variable {M : Type}

/-- One message at the beginning of a file: a varint of at most 10 bytes, of which 32 bits count, with the size of the
message; the size is at most `INT_MAX`; then exactly that many bytes, which the message type accepts. -/
def IsFrame (codec : Codec M) (m : M) (bytes : List UInt8) : Prop :=
  ∃ size payload, bytes = size ++ payload ∧ IsVarint 10 size ∧ varintValue size % 2 ^ 32 = payload.length ∧
    payload.length ≤ 2 ^ 31 - 1 ∧ codec.decode payload = some m

/-- A file that consists of frames of these messages, in this order, and nothing else. -/
inductive IsStream (codec : Codec M) : List M → List UInt8 → Prop
  | nil : IsStream codec [] []
  | cons {m ms first rest} : IsFrame codec m first → IsStream codec ms rest → IsStream codec (m :: ms) (first ++ rest)

end Verif.Spec
