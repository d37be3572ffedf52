import Verif.Num.IEEE
import Verif.Model.SideInput
import Verif.Model.Convert

/-!
# base/base.proto 8-42: the messages of the histories on the wire

The encoding of `PriceRecord`, `OhlcTick` and `SideInputRecord` (protobuf 3.17, proto2).  The program sets every field of
every message it makes, so all fields are written; a message that was read from a file in which fields were missing, or
in which there were unknown fields, would be written back with these fields missing or kept: this is not modelled.
-/

namespace Verif.Wire
open Verif

/-! ## `float` as four bytes -/

/-- The 32 bits of a `float` (the canonical quiet NaN for every NaN).
(Library code called at util/proto.h 45-46, 119-121 for the messages of base/base.proto 8-42.) -/
def bits : F32 → ℕ
  | .nan => 0x7fc00000
  | .inf s => (if s then 2 ^ 31 else 0) + 0x7f800000
  | .negZero => 2 ^ 31
  | .fin q =>
    let sign := if q < 0 then 2 ^ 31 else 0
    let a := |q|
    if a < (2 : ℚ) ^ (-126 : ℤ) then sign + ⌊a * 2 ^ 149⌋.toNat
    else
      let k := Int.log 2 a
      sign + (k + 127).toNat * 2 ^ 23 + (⌊a / (2 : ℚ) ^ (k - 23)⌋.toNat - 2 ^ 23)

/-- The `float` with the given 32 bits.
(Library code called at util/proto.h 45-46, 119-121 for the messages of base/base.proto 8-42.) -/
def ofBits (n : ℕ) : F32 :=
  let sign : Bool := decide (n / 2 ^ 31 % 2 = 1)
  let e : ℕ := n / 2 ^ 23 % 2 ^ 8
  let m : ℕ := n % 2 ^ 23
  if e = 255 then (if m = 0 then .inf sign else .nan)
  else if e = 0 then
    if m = 0 then (if sign then .negZero else .fin 0)
    else .fin ((if sign then -1 else 1) * (m * (2 : ℚ) ^ (-149 : ℤ)))
  else .fin ((if sign then -1 else 1) * (((2 ^ 23 + m : ℕ) : ℚ) * (2 : ℚ) ^ ((e : ℤ) - 150)))

/-- protobuf `WriteLittleEndian32`.
(Library code called at util/proto.h 45-46, 119-121 for the messages of base/base.proto 8-42.) -/
def writeFixed32 (n : ℕ) : List UInt8 :=
  [UInt8.ofNat (n % 256), UInt8.ofNat (n / 256 % 256), UInt8.ofNat (n / 2 ^ 16 % 256), UInt8.ofNat (n / 2 ^ 24 % 256)]

/-- protobuf `ReadLittleEndian32`.  (Library code called at util/proto.h 45-46, 119-121 for the messages of base/base.proto 8-42.) -/
def readFixed32 : List UInt8 → Option (ℕ × List UInt8)
  | a :: b :: c :: d :: rest => some (a.toNat + b.toNat * 256 + c.toNat * 2 ^ 16 + d.toNat * 2 ^ 24, rest)
  | _ => none

/-! ## `int64` as a varint -/

/-- protobuf `WriteVarint64` of an `int64` (converted to `uint64`).
(Library code called at util/proto.h 45-46, 119-121 for the messages of base/base.proto 8-42.) -/
def writeInt64 (t : ℤ) : List UInt8 := Proto.varintLoop 9 (t % 2 ^ 64).toNat

/-- protobuf `ReadVarint64`, converted to `int64`.
(Library code called at util/proto.h 45-46, 119-121 for the messages of base/base.proto 8-42.) -/
def readInt64 (bytes : List UInt8) : Option (ℤ × List UInt8) :=
  (Proto.readVarintLoop 10 0 0 bytes).map (fun r =>
    let n : ℕ := r.1 % 2 ^ 64
    (if n < 2 ^ 63 then (n : ℤ) else (n : ℤ) - 2 ^ 64, r.2))

/-! ## Fields -/

/-- A field with wire type 0.  (Library code called at util/proto.h 45-46, 119-121 for the messages of base/base.proto 8-42.) -/
def int64Field (number : ℕ) (t : ℤ) : List UInt8 := UInt8.ofNat (number * 8) :: writeInt64 t

/-- A field with wire type 5.  (Library code called at util/proto.h 45-46, 119-121 for the messages of base/base.proto 8-42.) -/
def floatField (number : ℕ) (x : F32) : List UInt8 := UInt8.ofNat (number * 8 + 5) :: writeFixed32 (bits x)

/-- protobuf `ReadTag`: at most five bytes.  (Library code called at util/proto.h 45-46 for the messages of base/base.proto 8-42.) -/
def readTag (bytes : List UInt8) : Option (ℕ × List UInt8) :=
  (Proto.readVarintLoop 5 0 0 bytes).map (fun r => (r.1 % 2 ^ 32, r.2))

/-- protobuf `ReadSize`, and the bytes announced.
(Library code called at util/proto.h 45-46 for the messages of base/base.proto 8-42.) -/
def readBytes (bytes : List UInt8) : Option (List UInt8 × List UInt8) :=
  match Proto.readVarintLoop 5 0 0 bytes with
  | none => none
  | some (size, rest) => if size > 2 ^ 31 - 1 - 16 ∨ rest.length < size then none else some (rest.take size, rest.drop size)

/-- protobuf `UnknownFieldParse`, wire types other than groups.
(Library code called at util/proto.h 45-46 for the messages of base/base.proto 8-42.) -/
def skipScalar (tag : ℕ) (bytes : List UInt8) : Option (List UInt8) :=
  if tag / 8 = 0 then none
  else if tag % 8 = 0 then (Proto.readVarintLoop 10 0 0 bytes).map Prod.snd
  else if tag % 8 = 1 then (if bytes.length < 8 then none else some (bytes.drop 8))
  else if tag % 8 = 2 then (readBytes bytes).map Prod.snd
  else if tag % 8 = 5 then (if bytes.length < 4 then none else some (bytes.drop 4))
  else none

/-- protobuf `UnknownFieldParse`, groups: `stack` are the tags of the open groups, at most 100.  Every round consumes at
least one byte (`fuel`).  (Library code called at util/proto.h 45-46, 119-121 for the messages of base/base.proto 8-42.) -/
def skipGroup : ℕ → List ℕ → List UInt8 → Option (List UInt8)
  | _, [], bytes => some bytes
  | 0, _ :: _, _ => none
  | fuel + 1, g :: gs, bytes =>
    match readTag bytes with
    | none => none
    | some (tag, rest) =>
      if tag = 0 ∨ tag % 8 = 4 then (if tag = g + 1 then skipGroup fuel gs rest else none)
      else if tag % 8 = 3 then
        if tag / 8 = 0 ∨ (g :: gs).length ≥ 100 then none else skipGroup fuel (tag :: g :: gs) rest
      else match skipScalar tag rest with
        | none => none
        | some rest => skipGroup fuel (g :: gs) rest

/-- protobuf `UnknownFieldParse`.  (Library code called at util/proto.h 45-46 for the messages of base/base.proto 8-42.) -/
def skipField (tag : ℕ) (bytes : List UInt8) : Option (List UInt8) :=
  if tag % 8 = 3 then (if tag / 8 = 0 then none else skipGroup bytes.length [tag] bytes) else skipScalar tag bytes

/-- The generated `_InternalParse`: one field after the other.  `handle` deals with the known fields (`none`: not known;
`some none`: malformed); other fields are skipped.  Every round consumes at least one byte (`fuel`).
(Library code called at util/proto.h 45-46 for the messages of base/base.proto 8-42.) -/
def parseLoop {M : Type} (handle : M → ℕ → List UInt8 → Option (Option (M × List UInt8))) : ℕ → M → List UInt8 → Option M
  | _, m, [] => some m
  | 0, _, _ :: _ => none
  | fuel + 1, m, bytes =>
    match readTag bytes with
    | none => none
    | some (tag, rest) =>
      match handle m tag rest with
      | some none => none
      | some (some (m, rest)) => parseLoop handle fuel m rest
      | none =>
        if tag = 0 ∨ tag % 8 = 4 then none
        else match skipField tag rest with
          | none => none
          | some rest => parseLoop handle fuel m rest

/-- A field of type `int64`.  (Library code called at util/proto.h 45-46, 119-121 for the messages of base/base.proto 8-42.) -/
def onInt64 {M : Type} (set : ℤ → M) (rest : List UInt8) : Option (Option (M × List UInt8)) :=
  some ((readInt64 rest).map (fun r => (set r.1, r.2)))

/-- A field of type `float`.  (Library code called at util/proto.h 45-46 for the messages of base/base.proto 8-42.) -/
def onFloat {M : Type} (set : F32 → M) (rest : List UInt8) : Option (Option (M × List UInt8)) :=
  some ((readFixed32 rest).map (fun r => (set (ofBits r.1), r.2)))

/-! ## Messages -/

/-- base/base.proto 8-15 `PriceRecord`. -/
def encodePrice (r : PriceRecord F32) : List UInt8 := int64Field 1 r.ts ++ floatField 2 r.price ++ floatField 3 r.volume

/-- base/base.proto 8-15 `PriceRecord`. -/
def handlePrice (r : PriceRecord F32) (tag : ℕ) (rest : List UInt8) : Option (Option (PriceRecord F32 × List UInt8)) :=
  if tag = 8 then onInt64 (fun t => { r with ts := t }) rest
  else if tag = 21 then onFloat (fun x => { r with price := x }) rest
  else if tag = 29 then onFloat (fun x => { r with volume := x }) rest
  else none

/-- base/base.proto 8-15 `PriceRecord`; missing fields have the value 0. -/
def priceCodec : Codec (PriceRecord F32) where
  encode := encodePrice
  decode bytes := parseLoop handlePrice bytes.length ⟨0, .fin 0, .fin 0⟩ bytes

/-- base/base.proto 19-32 `OhlcTick`. -/
def encodeOhlc (t : OhlcTick F32) : List UInt8 :=
  int64Field 1 t.ts ++ floatField 2 t.opn ++ floatField 3 t.high ++ floatField 4 t.low ++ floatField 5 t.close ++
    floatField 6 t.volume

/-- base/base.proto 19-32 `OhlcTick`. -/
def handleOhlc (t : OhlcTick F32) (tag : ℕ) (rest : List UInt8) : Option (Option (OhlcTick F32 × List UInt8)) :=
  if tag = 8 then onInt64 (fun ts => { t with ts := ts }) rest
  else if tag = 21 then onFloat (fun x => { t with opn := x }) rest
  else if tag = 29 then onFloat (fun x => { t with high := x }) rest
  else if tag = 37 then onFloat (fun x => { t with low := x }) rest
  else if tag = 45 then onFloat (fun x => { t with close := x }) rest
  else if tag = 53 then onFloat (fun x => { t with volume := x }) rest
  else none

/-- base/base.proto 19-32 `OhlcTick`; missing fields have the value 0. -/
def ohlcCodec : Codec (OhlcTick F32) where
  encode := encodeOhlc
  decode bytes := parseLoop handleOhlc bytes.length ⟨0, .fin 0, .fin 0, .fin 0, .fin 0, .fin 0⟩ bytes

/-- base/base.proto 36-42 `SideInputRecord`; the signals are not packed. -/
def encodeSide (r : SideInputRecord F32) : List UInt8 := int64Field 1 r.ts ++ r.signals.flatMap (floatField 2)

/-- A packed list of floats: all the bytes must be used.
(Library code called at util/proto.h 45-46 for the messages of base/base.proto 8-42.) -/
def readFloats : ℕ → List UInt8 → Option (List F32)
  | _, [] => some []
  | 0, _ :: _ => none
  | fuel + 1, bytes => match readFixed32 bytes with
    | none => none
    | some (n, rest) => (readFloats fuel rest).map (ofBits n :: ·)

/-- base/base.proto 36-42 `SideInputRecord`; packed signals are understood as well. -/
def handleSide (r : SideInputRecord F32) (tag : ℕ) (rest : List UInt8) : Option (Option (SideInputRecord F32 × List UInt8)) :=
  if tag = 8 then onInt64 (fun t => { r with ts := t }) rest
  else if tag = 21 then onFloat (fun x => { r with signals := r.signals ++ [x] }) rest
  else if tag = 18 then
    some (match readBytes rest with
      | none => none
      | some (packed, rest) => (readFloats packed.length packed).map (fun xs => ({ r with signals := r.signals ++ xs }, rest)))
  else none

/-- base/base.proto 36-42 `SideInputRecord`. -/
def sideCodec : Codec (SideInputRecord F32) where
  encode := encodeSide
  decode bytes := parseLoop handleSide bytes.length ⟨0, []⟩ bytes

end Verif.Wire
