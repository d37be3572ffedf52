import Verif.Model.Proto

/-!
# util/proto.h on a device that can fail: the buffer between the messages and the file

`Model/Proto.lean` describes what is written if every write succeeds.  Here the bytes go, as in the program, through the
buffer of protobuf's `OstreamOutputStream` (a `CopyingOutputStreamAdaptor`) to `std::ostream::write`, which can fail at any
call, for example because the disk is full.

Library code in this file (protobuf 3.17.3): `CopyingOutputStreamAdaptor::Next`, `WriteBuffer` and destructor, the
constructor of `CodedOutputStream`, `SerializeDelimitedToCodedStream`.

Simplifications: bytes are put into the buffer one by one (the library copies blocks); the own buffer of `std::filebuf` is
left out (bytes of a write that reported success are in the file).
-/

namespace Verif
namespace Device

/-- The buffer of an `OstreamOutputStream` (created at util/proto.h 109): `block` is its size (the default `block_size` of
protobuf is 8192); `eager` says whether the constructor of `CodedOutputStream` asks for a buffer (it does in protobuf 3.17.3,
in the call at util/proto.h 119-121; other versions ask when the first byte is written). -/
structure Buffering where
  block : ℕ
  eager : Bool

/-- What the program uses.  (util/proto.h 109.) -/
def protobufBuffering : Buffering := ⟨8192, true⟩

/-- The state of the output stream at util/proto.h 109: the bytes in the buffer (`buffer_used_`), whether a write has
failed (`failed_`), the number of calls of `std::ostream::write`, and the bytes in the file. -/
structure Out where
  buffer : List UInt8
  failed : Bool
  calls : ℕ
  file : List UInt8

/-- The stream just opened.  (util/proto.h 109, 137-138.) -/
def Out.start : Out := ⟨[], false, 0, []⟩

/-- `CopyingOutputStreamAdaptor::WriteBuffer`, used by the stream of util/proto.h 109.  The device stores at most `store i`
bytes at the `i`-th write; if these are not all, the write fails, and the stream writes nothing any more. -/
def writeBuffer (store : ℕ → ℕ) (s : Out) : Bool × Out :=
  if s.failed then (false, s)
  else if s.buffer.isEmpty then (true, s)
  else if s.buffer.length ≤ store s.calls then (true, ⟨[], false, s.calls + 1, s.file ++ s.buffer⟩)
  else (false, ⟨[], true, s.calls + 1, s.file ++ s.buffer.take (store s.calls)⟩)

/-- `CopyingOutputStreamAdaptor::Next`, used by the stream of util/proto.h 109: a full buffer is written first. -/
def next (b : Buffering) (store : ℕ → ℕ) (s : Out) : Bool × Out :=
  if s.buffer.length = b.block then writeBuffer store s else (true, s)

/-- Writing bytes to the stream of util/proto.h 109; `false` if a buffer is needed and cannot be had. -/
def put (b : Buffering) (store : ℕ → ℕ) : List UInt8 → Out → Bool × Out
  | [], s => (true, s)
  | x :: rest, s =>
    match next b store s with
    | (false, s) => (false, s)
    | (true, s) => put b store rest { s with buffer := s.buffer ++ [x] }

variable {M : Type}

/-- util/proto.h 118-128: the loop of `WriteDelimitedMessagesToOStream`.  The constructor of `CodedOutputStream` ignores that
it got no buffer. -/
def writeLoop (b : Buffering) (store : ℕ → ℕ) (codec : Codec M) : List M → Out → Out × Status
  | [], s => (s, .ok)
  | m :: rest, s =>
    let s := if b.eager then (next b store s).2 else s
    match Proto.serializeDelimited codec m with
    | none => (s, .invalidArgument)
    | some frame =>
      match put b store frame s with
      | (false, s) => (s, .invalidArgument)
      | (true, s) => writeLoop b store codec rest s

/-- util/proto.h 104-129 `WriteDelimitedMessagesToOStream`: the file and the status.  The destructor of the stream writes
what is left in the buffer, after the status has been decided; that this can fail is not looked at. -/
def writeMessages (b : Buffering) (store : ℕ → ℕ) (codec : Codec M) (ms : List M) : List UInt8 × Status :=
  let r := writeLoop b store codec ms Out.start
  ((writeBuffer store r.1).2.file, r.2)

end Device
end Verif
