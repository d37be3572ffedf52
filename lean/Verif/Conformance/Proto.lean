import Verif.Conformance.Prelude
import Verif.Model.Gzip
import Verif.Model.Wire

/-!
# util/proto_test.cc, translated by hand

The messages are those of base/base.proto with the same field numbers and types as in util/example.proto; the build has no zlib.
A field that the test leaves unset is written as 0 by the model.
-/

namespace Verif.Conformance
open Verif FloatOps

/-- `status.ok()`. -/
def statusOk : Status → Bool
  | .ok => true
  | _ => false

/-- util/proto_test.cc 12 `ReadWriteDelimitedTest.ReadWriteEmptyStream`. -/
def ReadWriteDelimitedTest_ReadWriteEmptyStream : Bool :=
  let r := Proto.readVectorZ none Wire.priceCodec [] []
  statusOk r.2 && r.1.length == 0

example : ReadWriteDelimitedTest_ReadWriteEmptyStream = true := by decide +kernel

/-- util/proto_test.cc 19 `ReadWriteDelimitedTest.ReadWriteSinglePriceRecord`. -/
def ReadWriteDelimitedTest_ReadWriteSinglePriceRecord : Bool :=
  let w := Proto.writeMessagesZ none true Wire.priceCodec [⟨1483228800, f 700, f 15000⟩]
  let r := Proto.readVectorZ none Wire.priceCodec [] w.1
  statusOk w.2 && statusOk r.2 && r.1.length == 1 &&
    match r.1 with
    | m :: _ => m.ts == 1483228800 && almost m.price (f 700) && almost m.volume (f 15000)
    | [] => false

example : ReadWriteDelimitedTest_ReadWriteSinglePriceRecord = true := by decide +kernel

/-- util/proto_test.cc 40 `ReadWriteDelimitedTest.ReadWriteMultipleOhlcTicks`. -/
def ReadWriteDelimitedTest_ReadWriteMultipleOhlcTicks : Bool :=
  let i (k : ℕ) : F32 := f k
  let message (k : ℕ) : OhlcTick F32 :=
    ⟨0, f 100 +. f 10 *. i k, f 120 +. f 20 *. i k, f 80 +. f 10 *. i k, f 110 +. f 10 *. i k, f 15000 +. f 1000 *. i k⟩
  let w := Proto.writeMessagesZ none true Wire.ohlcCodec ((List.range 10).map message)
  let r := Proto.readVectorZ none Wire.ohlcCodec [] w.1
  statusOk w.2 && statusOk r.2 && r.1.length == 10 &&
    (List.range 10).all fun k =>
      match r.1[k]? with
      | some m => almost m.opn (f 100 +. f 10 *. i k) && almost m.high (f 120 +. f 20 *. i k) && almost m.low (f 80 +. f 10 *. i k) &&
          almost m.close (f 110 +. f 10 *. i k) && almost m.volume (f 15000 +. f 1000 *. i k)
      | none => false

example : ReadWriteDelimitedTest_ReadWriteMultipleOhlcTicks = true := by decide +kernel

end Verif.Conformance
