import Verif.Model.DebugString
import Verif.Num.Repr
import Verif.Spec.Scanf

/-!
# Specification vocabulary for the printed configurations (C109)
-/

namespace Verif.Spec
open Verif

/-- The numbers of a configuration of fees are floats. -/
def FeeFloats (c : FeeConfig F32) : Prop := c.relativeFee.Repr ∧ c.fixedFee.Repr ∧ c.minimumFee.Repr

/-- The numbers of a configuration of an account are floats. -/
def AccountFloats (c : AccountConfig F32) : Prop :=
  (c.startBase.Repr ∧ c.startQuote.Repr ∧ c.baseUnit.Repr ∧ c.quoteUnit.Repr ∧ c.marketLiquidity.Repr ∧ c.maxVolumeRatio.Repr) ∧
    FeeFloats c.marketFee ∧ FeeFloats c.stopFee ∧ FeeFloats c.limitFee

/-- What stands in the first line that begins with the name and a colon. -/
def valueOf (name : String) (lines : List Text) : Option Text :=
  (lines.find? (fun l => (name.toList ++ ": ".toList).isPrefixOf l)).map (fun l => l.drop (name.toList.length + 2))

/-- The lines between `name {` and the next `}`, without the two blanks at their beginning. -/
def blockOf (name : String) (lines : List Text) : List Text :=
  (((lines.dropWhile (fun l => l != name.toList ++ " {".toList)).drop 1).takeWhile (fun l => l != "}".toList)).map (fun l => l.drop 2)

/-- In these lines the name stands before the float `x`. -/
def Shows (lines : List Text) (name : String) (x : F32) : Prop :=
  ∃ t, valueOf name lines = some t ∧ Convert.libcScanner.scan t = some (x, [])

/-- In the block of this name stand the fees. -/
def ShowsFees (lines : List Text) (name : String) (c : FeeConfig F32) : Prop :=
  Shows (blockOf name lines) "relative_fee" c.relativeFee ∧ Shows (blockOf name lines) "fixed_fee" c.fixedFee ∧
    Shows (blockOf name lines) "minimum_fee" c.minimumFee

/-- In these lines the name stands before the integer `n`. -/
def ShowsInt (lines : List Text) (name : String) (n : ℤ) : Prop :=
  ∃ t, valueOf name lines = some t ∧ Convert.scanInt t = some (n, [])

/-- The same trader and the same files. -/
structure SameNames (fl fl' : TraderMain.Flags F64) : Prop where
  trader : fl'.trader = fl.trader
  batch : fl'.evaluateBatch = fl.evaluateBatch
  ohlc : fl'.inputOhlc = fl.inputOhlc
  side : fl'.inputSide = fl.inputSide
  exchangeLog : fl'.outputExchangeLog = fl.outputExchangeLog
  traderLog : fl'.outputTraderLog = fl.outputTraderLog

/-- What is printed before anything is read consists of the first thirty-one lines. -/
def opening (o : Outcome) : List Text := o.lines.take 31

end Verif.Spec
