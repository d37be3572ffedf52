import Verif.Spec.Wire

/-!
# The protobuf wire format (C88)

An independent description of well-formed messages: which sequences of fields a sequence of bytes stands for
(https://developers.google.com/protocol-buffers/docs/encoding).
-/

namespace Verif.Spec
open Verif

/-- Seven bits per byte, the least significant ones first. -/
def varintValue : List UInt8 → ℕ
  | [] => 0
  | b :: bs => b.toNat % 128 + 128 * varintValue bs

/-- A varint of at most `k` bytes: all bytes but the last have the high bit set.  (Leading zeros are allowed.) -/
def IsVarint (k : ℕ) (v : List UInt8) : Prop :=
  v.length ≤ k ∧ ∃ front last, v = front ++ [last] ∧ (∀ b ∈ front, 128 ≤ b.toNat) ∧ last.toNat < 128

/-- The bytes of a tag: a field number and a wire type in a varint of at most 5 bytes, of which 32 bits count. -/
def IsTag (number wireType : ℕ) (t : List UInt8) : Prop :=
  IsVarint 5 t ∧ varintValue t % 2 ^ 32 = 8 * number + wireType ∧ wireType < 8 ∧ 0 < number

/-- What a field holds (the content of groups does not matter here). -/
inductive Content
  | varint (value : ℕ)
  | fixed64
  | bytes (payload : List UInt8)
  | group
  | fixed32 (value : ℕ)
  deriving DecidableEq

/-- A field of a message. -/
structure Field where
  number : ℕ
  content : Content
  deriving DecidableEq

/-- Four bytes, the least significant one first. -/
def fixed32Value (a b c d : UInt8) : ℕ := a.toNat + 2 ^ 8 * b.toNat + 2 ^ 16 * c.toNat + 2 ^ 24 * d.toNat

/-- `Fields d fs bytes`: the bytes are an encoding of the fields `fs`, with groups nested at most `d` deep. -/
inductive Fields : ℕ → List Field → List UInt8 → Prop
  | nil {d} : Fields d [] []
  | varint {d n t v fs rest} : IsTag n 0 t → IsVarint 10 v → Fields d fs rest →
      Fields d (⟨n, .varint (varintValue v % 2 ^ 64)⟩ :: fs) (t ++ v ++ rest)
  | fixed64 {d n t v fs rest} : IsTag n 1 t → v.length = 8 → Fields d fs rest →
      Fields d (⟨n, .fixed64⟩ :: fs) (t ++ v ++ rest)
  | bytes {d n t s payload fs rest} : IsTag n 2 t → IsVarint 5 s → varintValue s = payload.length →
      payload.length ≤ 2 ^ 31 - 17 → Fields d fs rest →
      Fields d (⟨n, .bytes payload⟩ :: fs) (t ++ s ++ payload ++ rest)
  | group {d n t e inside inner fs rest} : IsTag n 3 t → Fields d inside inner → IsTag n 4 e → Fields (d + 1) fs rest →
      Fields (d + 1) (⟨n, .group⟩ :: fs) (t ++ inner ++ e ++ rest)
  | fixed32 {d n t a b c e fs rest} : IsTag n 5 t → Fields d fs rest →
      Fields d (⟨n, .fixed32 (fixed32Value a b c e)⟩ :: fs) (t ++ [a, b, c, e] ++ rest)

/-- A 64-bit pattern as a signed number (two's complement). -/
def signed64 (v : ℕ) : ℤ := if v < 2 ^ 63 then (v : ℤ) else (v : ℤ) - 2 ^ 64

/-- What a sequence of fields says about a price record: `timestamp_sec = 1`, `price = 2`, `volume = 3`. -/
def priceField (r : PriceRecord F32) : Field → PriceRecord F32
  | ⟨1, .varint v⟩ => { r with ts := signed64 v }
  | ⟨2, .fixed32 v⟩ => { r with price := Wire.ofBits v }
  | ⟨3, .fixed32 v⟩ => { r with volume := Wire.ofBits v }
  | _ => r

/-- `timestamp_sec = 1`, `open = 2`, `high = 3`, `low = 4`, `close = 5`, `volume = 6`. -/
def ohlcField (r : OhlcTick F32) : Field → OhlcTick F32
  | ⟨1, .varint v⟩ => { r with ts := signed64 v }
  | ⟨2, .fixed32 v⟩ => { r with opn := Wire.ofBits v }
  | ⟨3, .fixed32 v⟩ => { r with high := Wire.ofBits v }
  | ⟨4, .fixed32 v⟩ => { r with low := Wire.ofBits v }
  | ⟨5, .fixed32 v⟩ => { r with close := Wire.ofBits v }
  | ⟨6, .fixed32 v⟩ => { r with volume := Wire.ofBits v }
  | _ => r

/-- The floats in a packed field. -/
def packedFloats : List UInt8 → List F32
  | a :: b :: c :: d :: rest => Wire.ofBits (fixed32Value a b c d) :: packedFloats rest
  | _ => []

/-- `timestamp_sec = 1`, `repeated signal = 2` (packed or not). -/
def sideField (r : SideInputRecord F32) : Field → SideInputRecord F32
  | ⟨1, .varint v⟩ => { r with ts := signed64 v }
  | ⟨2, .fixed32 v⟩ => { r with signals := r.signals ++ [Wire.ofBits v] }
  | ⟨2, .bytes p⟩ => { r with signals := r.signals ++ packedFloats p }
  | _ => r

/-- Packed signals consist of whole floats. -/
def WholeFloats (fs : List Field) : Prop := ∀ f ∈ fs, ∀ p, f = ⟨2, .bytes p⟩ → p.length % 4 = 0

end Verif.Spec
