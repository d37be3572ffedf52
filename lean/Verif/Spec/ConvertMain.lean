import Verif.Model.ConvertMain
import Verif.Spec.Proto
import Verif.Spec.Convert

/-!
# Specification vocabulary for the program convert.cc (C80)
-/

namespace Verif.Spec
open Verif Verif.Convert

variable {F : Type} [FloatOps F]

omit [FloatOps F] in
/-- Exactly one input file is named. -/
def OneInput (fl : Flags F) : Prop :=
  ([fl.inputPriceCsv, fl.inputPriceProto, fl.inputOhlcCsv, fl.inputOhlcProto, fl.inputSideCsv].filter
    (fun name => decide (name ≠ []))).length = 1

omit [FloatOps F] in
/-- The flags ask for the period from `start` to `stop` (in Unix seconds). -/
def Selects (fl : Flags F) (start stop : ℤ) : Prop :=
  (Time.parseTime fl.startTime).map Time.Instant.toUnixSeconds = some start ∧
    (Time.parseTime fl.endTime).map Time.Instant.toUnixSeconds = some stop

/-- The one input file named holds prices, and `l` are those of the period. -/
def ReadsPrices (env : Env F) (fl : Flags F) (files : Files) (l : List (PriceRecord F)) : Prop :=
  OneInput fl ∧ ∃ start stop, Selects fl start stop ∧
    (fl.inputPriceCsv ≠ [] ∧ readPriceCsv env.scanner start stop (textFile (files fl.inputPriceCsv)) = .ok l ∨
      fl.inputPriceProto ≠ [] ∧ readPriceProto env.priceCodec start stop (files fl.inputPriceProto) = .ok l)

/-- The one input file named holds OHLC ticks, and `l` are those of the period. -/
def ReadsTicks (env : Env F) (fl : Flags F) (files : Files) (l : List (OhlcTick F)) : Prop :=
  OneInput fl ∧ ∃ start stop, Selects fl start stop ∧
    (fl.inputOhlcCsv ≠ [] ∧ readOhlcCsv env.scanner start stop (textFile (files fl.inputOhlcCsv)) = .ok l ∨
      fl.inputOhlcProto ≠ [] ∧ readOhlcProto env.ohlcCodec start stop (files fl.inputOhlcProto) = .ok l)

/-- The one input file named holds side inputs, and `l` are those of the period. -/
def ReadsSide (env : Env F) (fl : Flags F) (files : Files) (l : List (SideInputRecord F)) : Prop :=
  OneInput fl ∧ ∃ start stop, Selects fl start stop ∧ fl.inputSideCsv ≠ [] ∧
    readSideCsv env.scanner start stop (textFile (files fl.inputSideCsv)) = .ok l

/-- The file holds exactly these messages. -/
def Holds {M : Type} (codec : Codec M) (files : Files) (name : Text) (l : List M) : Prop :=
  ∃ bytes, files name = some bytes ∧ Proto.readVector codec [] bytes = (l, .ok)

end Verif.Spec
