import Verif.Model.Proto

/-!
# util/proto.h with and without zlib

The header is compiled in one of two ways: with `HAVE_ZLIB` the streams are wrapped into the gzip streams of protobuf, without it they
are used as they are.  Nothing in the repository defines `HAVE_ZLIB`; the rest of the model is the second build (`Model/Proto.lean`).
zlib itself is a parameter.
-/

namespace Verif

/-- zlib as protobuf's gzip streams use it.  `deflate compress bytes` is what a `GzipOutputStream` with the compression level of
util/proto.h 113 has written once it is closed; `inflate bytes` are the bytes that a `GzipInputStream` hands out before it
reports the end of the stream or an error (both are `Next` returning false, and the parser cannot tell them apart). -/
structure Zlib where
  deflate : Bool → List UInt8 → List UInt8
  inflate : List UInt8 → List UInt8

namespace Proto
variable {M S : Type}

/-- util/proto.h 36-41: the stream that is parsed; `none` is the build without zlib. -/
def inStream (z : Option Zlib) (bytes : List UInt8) : List UInt8 :=
  match z with
  | none => bytes
  | some z => z.inflate bytes

/-- util/proto.h 109-117: what reaches the file of what is written to the stream.  The gzip stream is closed by its destructor, on
every path. -/
def outStream (z : Option Zlib) (compress : Bool) (bytes : List UInt8) : List UInt8 :=
  match z with
  | none => bytes
  | some z => z.deflate compress bytes

/-- util/proto.h 33-65 `ReadDelimitedMessagesFromIStream(stream, reader)`, in both builds. -/
def readMessagesZ (z : Option Zlib) (codec : Codec M) (reader : S → M → S × Option ReaderSignal) (s : S) (bytes : List UInt8) :
    S × Status := readMessages codec reader s (inStream z bytes)

/-- util/proto.h 68-76 `ReadDelimitedMessagesFromIStream(stream, messages)`, in both builds. -/
def readVectorZ (z : Option Zlib) (codec : Codec M) (messages : List M) (bytes : List UInt8) : List M × Status :=
  readMessagesZ z codec (fun ms m => (ms ++ [m], some .kContinue)) messages bytes

/-- util/proto.h 104-129 `WriteDelimitedMessagesToOStream`, in both builds: what the stream holds, and the status. -/
def writeMessagesZ (z : Option Zlib) (compress : Bool) (codec : Codec M) (ms : List M) : List UInt8 × Status :=
  let r := writeMessages codec ms []
  (outStream z compress r.1, r.2)

end Proto
end Verif
