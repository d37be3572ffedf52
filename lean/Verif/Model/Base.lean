import Verif.Num.FloatOps

/-!
# Messages of base/base.proto

Protobuf getters return `0` for unset scalar fields; the records below hold the value the getter returns.
Where the code looks at presence (`has_*`, `oneof_*_case`) the field is an `Option`.
-/

namespace Verif

/-- base/base.proto `PriceRecord`.  (base/base.proto 8-15.) -/
structure PriceRecord (F : Type) where
  ts : ℤ
  price : F
  volume : F
  deriving DecidableEq

/-- base/base.proto `OhlcTick`.  (base/base.proto 19-32.) -/
structure OhlcTick (F : Type) where
  ts : ℤ
  opn : F
  high : F
  low : F
  close : F
  volume : F
  deriving DecidableEq

/-- base/base.proto `SideInputRecord`.  (base/base.proto 36-42.) -/
structure SideInputRecord (F : Type) where
  ts : ℤ
  signals : List F
  deriving DecidableEq

/-- base/base.proto `FeeConfig`.  (base/base.proto 45-52.) -/
structure FeeConfig (F : Type) where
  relativeFee : F
  fixedFee : F
  minimumFee : F
  deriving DecidableEq

/-- base/base.proto `AccountConfig`.  (base/base.proto 55-85.) -/
structure AccountConfig (F : Type) where
  startBase : F
  startQuote : F
  baseUnit : F
  quoteUnit : F
  marketFee : FeeConfig F
  stopFee : FeeConfig F
  limitFee : FeeConfig F
  marketLiquidity : F
  maxVolumeRatio : F
  deriving DecidableEq

/-- base/base.proto `Order.Type`.  (base/base.proto 89-93.) -/
inductive OrderType | market | stop | limit
  deriving DecidableEq

/-- base/base.proto `Order.Side`.  (base/base.proto 94-97.) -/
inductive Side | buy | sell
  deriving DecidableEq

/-- base/base.proto `Order.oneof_amount`.  (base/base.proto 102-109.) -/
inductive Amount (F : Type) | none | base (a : F) | quote (a : F)
  deriving DecidableEq

/-- base/base.proto `Order`.  (base/base.proto 88-113.) -/
structure Order (F : Type) where
  type : Option OrderType
  side : Option Side
  amount : Amount F
  price : Option F
  deriving DecidableEq

/-- base/base.h 36-39. -/
def kSecondsPerDay : ℤ := 24 * 60 * 60

end Verif
