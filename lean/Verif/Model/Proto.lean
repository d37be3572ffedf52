import Mathlib.Data.Nat.Basic

/-!
# util/proto.h: streams of delimited messages

A stream is the list of bytes it holds (without zlib, or after decompression).  The serialisation of a single message is
a parameter (`Codec`): protobuf itself is not modelled.  The framing done by the two protobuf functions
`SerializeDelimitedToZeroCopyStream` and `ParseDelimitedFromZeroCopyStream` is.
-/

namespace Verif

/-- `SerializeToCodedStream` and `MergeFromCodedStream` of a message type.  (The type `T` of util/proto.h 33-145.) -/
structure Codec (M : Type) where
  encode : M → List UInt8
  decode : List UInt8 → Option M

/-- Status codes of `absl::Status` used here.  (util/proto.h 49-60, 86, 123-128.) -/
inductive Status
  | ok
  | invalidArgument
  | aborted
  deriving DecidableEq, Repr

/-- util/proto.h 29 `ReaderSignal`. -/
inductive ReaderSignal
  | kContinue
  | kBreak
  deriving DecidableEq

namespace Proto

/-- protobuf `WriteVarint32`: seven bits at a time, the least significant ones first; all bytes but the last have the
high bit set.  A 32-bit value needs at most 5 bytes (`fuel`).  (Library code called at util/proto.h 119-121.) -/
def varintLoop : ℕ → ℕ → List UInt8
  | 0, n => [UInt8.ofNat n]
  | fuel + 1, n => if n < 128 then [UInt8.ofNat n] else UInt8.ofNat (n % 128 + 128) :: varintLoop fuel (n / 128)

/-- protobuf `WriteVarint32`.  (Library code called at util/proto.h 119-121.) -/
def writeVarint (n : ℕ) : List UInt8 := varintLoop 5 n

/-- protobuf `ReadVarint64Slow`: at most 10 bytes (`fuel`); `none` at the end of the stream, or if the tenth byte still has
the high bit set.  (Library code called at util/proto.h 45-46.) -/
def readVarintLoop : ℕ → ℕ → ℕ → List UInt8 → Option (ℕ × List UInt8)
  | 0, _, _, _ => none
  | _ + 1, _, _, [] => none
  | fuel + 1, count, acc, b :: rest =>
    let acc := acc + b.toNat % 128 * 2 ^ (7 * count)
    if b.toNat < 128 then some (acc, rest) else readVarintLoop fuel (count + 1) acc rest

/-- protobuf `ReadVarint32`: the low 32 bits.  (Library code called at util/proto.h 45-46.) -/
def readVarint (bytes : List UInt8) : Option (ℕ × List UInt8) :=
  (readVarintLoop 10 0 0 bytes).map (fun r => (r.1 % 2 ^ 32, r.2))

variable {M S : Type}

/-- protobuf `SerializeDelimitedToZeroCopyStream`: the size of the message as a varint, then the message; `none`
(`false`) if the message is larger than `INT_MAX`.  (Called at util/proto.h 119-121.) -/
def serializeDelimited (codec : Codec M) (m : M) : Option (List UInt8) :=
  if (codec.encode m).length > 2 ^ 31 - 1 then none
  else some (writeVarint (codec.encode m).length ++ codec.encode m)

/-- Outcome of `ParseDelimitedFromZeroCopyStream`: a message and the remaining bytes, `false` with `clean_eof`, or `false`
without.  (util/proto.h 44-52.) -/
inductive Parsed (M : Type)
  | message (m : M) (rest : List UInt8)
  | cleanEof
  | bad

/-- protobuf `ParseDelimitedFromZeroCopyStream`: `clean_eof` means that there was not even a first byte.  The message must
occupy exactly as many bytes as announced (a size beyond `INT_MAX`, or one beyond the end of the stream, cannot match).
(Called at util/proto.h 45-46.) -/
def parseDelimited (codec : Codec M) (bytes : List UInt8) : Parsed M :=
  match readVarint bytes with
  | none => if bytes.isEmpty then .cleanEof else .bad
  | some (size, rest) =>
    if size > 2 ^ 31 - 1 ∨ rest.length < size then .bad
    else match codec.decode (rest.take size) with
      | none => .bad
      | some m => .message m (rest.drop size)

/-- util/proto.h 33-65 `ReadDelimitedMessagesFromIStream` with a callback.  The callback is a state machine; it answers with
a signal or an error (`none`).  Every round consumes at least one byte, so as many rounds as there are bytes, plus the
last one that meets the end of the stream, are enough (`fuel`). -/
def readLoop (codec : Codec M) (reader : S → M → S × Option ReaderSignal) : ℕ → S → List UInt8 → S × Status
  | 0, s, _ => (s, .ok)
  | fuel + 1, s, bytes =>
    match parseDelimited codec bytes with
    | .cleanEof => (s, .ok)
    | .bad => (s, .invalidArgument)
    | .message m rest =>
      match reader s m with
      | (s', none) => (s', .aborted)
      | (s', some .kBreak) => (s', .ok)
      | (s', some .kContinue) => readLoop codec reader fuel s' rest

/-- util/proto.h 33-65 `ReadDelimitedMessagesFromIStream(stream, reader)`. -/
def readMessages (codec : Codec M) (reader : S → M → S × Option ReaderSignal) (s : S) (bytes : List UInt8) : S × Status :=
  readLoop codec reader (bytes.length + 1) s bytes

/-- util/proto.h 68-76 `ReadDelimitedMessagesFromIStream(stream, messages)`: the messages are appended to the vector. -/
def readVector (codec : Codec M) (messages : List M) (bytes : List UInt8) : List M × Status :=
  readMessages codec (fun ms m => (ms ++ [m], some .kContinue)) messages bytes

/-- util/proto.h 80-90 `ReadDelimitedMessagesFromFile(file_name, reader)`: `none` is a file that cannot be opened. -/
def readFile (codec : Codec M) (reader : S → M → S × Option ReaderSignal) (s : S) (file : Option (List UInt8)) :
    S × Status :=
  match file with
  | none => (s, .invalidArgument)
  | some bytes => readMessages codec reader s bytes

/-- util/proto.h 104-129 `WriteDelimitedMessagesToOStream`: what the stream holds afterwards, and the status. -/
def writeMessages (codec : Codec M) : List M → List UInt8 → List UInt8 × Status
  | [], out => (out, .ok)
  | m :: rest, out =>
    match serializeDelimited codec m with
    | none => (out, .invalidArgument)
    | some frame => writeMessages codec rest (out ++ frame)

end Proto
end Verif
