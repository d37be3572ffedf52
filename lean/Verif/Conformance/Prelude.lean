import Verif.Model.Account
import Verif.Num.IEEE

/-!
# The unit tests of the repository, run on the model

The modules of this directory are the unit tests of /repo (`*_test.cc`), translated statement by statement and evaluated by the kernel
on the model in binary32 arithmetic.  They prove nothing in general; they compare the model with what the authors of the code expect
of it.  The translation is done by `tools/gen_conformance.py`.
-/

namespace Verif.Conformance
open Verif FloatOps

/-- A literal of type `float`. -/
abbrev f (q : ℚ) : F32 := lit F32 q

/-- A literal of type `double`. -/
abbrev d (q : ℚ) : F64 := lit F64 q

/-- The position of a number among the numbers of the format. -/
def position {fm : Fmt} (q : ℚ) : ℤ :=
  let e := max (Int.log 2 |q| - (fm.p - 1)) fm.emin
  let n := (e - fm.emin) * 2 ^ (fm.p - 1) + (|q| / (2 : ℚ) ^ e).floor
  if q < 0 then -n else n

/-- `EXPECT_FLOAT_EQ`: at most four numbers apart. -/
def almost {fm : Fmt} (x y : Fl fm) : Bool :=
  match x, y with
  | .nan, _ => false
  | _, .nan => false
  | .inf s, .inf t => s == t
  | .inf _, _ => false
  | _, .inf _ => false
  | x, y => x.toQ == y.toQ || decide ((position (fm := fm) x.toQ - position (fm := fm) y.toQ).natAbs ≤ 4)

/-- `EXPECT_NEAR`. -/
def near {fm : Fmt} (x y e : Fl fm) : Bool :=
  match x, y with
  | .nan, _ => false
  | _, .nan => false
  | .inf _, _ => false
  | _, .inf _ => false
  | x, y => decide (|x.toQ - y.toQ| ≤ e.toQ)

/-- base/account.h 11-41: an account as it is constructed. -/
def newAccount : Account F32 := ⟨f 0, f 0, f 0, f 0, f 0, f 1, f 0⟩

/-- A `FeeConfig` in which nothing is set. -/
def newFee : FeeConfig F32 := ⟨f 0, f 0, f 0⟩

/-- An `AccountConfig` in which nothing is set. -/
def newAccountConfig : AccountConfig F32 := ⟨f 0, f 0, f 0, f 0, newFee, newFee, newFee, f 0, f 0⟩

/-- An `OhlcTick` in which nothing is set. -/
def newTick : OhlcTick F32 := ⟨0, f 0, f 0, f 0, f 0, f 0⟩

/-- base/account_test.cc 9-15 `SetupOhlcTick`. -/
def setupOhlcTick : OhlcTick F32 := ⟨0, f 10, f 20, f 2, f 15, f (123456 / 100)⟩

/-- An `Order` in which nothing is set. -/
def newOrder : Order F32 := ⟨none, none, .none, none⟩

/-- The flag that a call returns; no failed assertion. -/
def returns {α : Type} (r : Res (Bool × α)) (b : Bool) : Bool :=
  match r with
  | .ok (c, _) => c == b
  | .error _ => false

/-- What a call leaves behind. -/
def after {α : Type} (r : Res (Bool × α)) (a : α) : α :=
  match r with
  | .ok (_, b) => b
  | .error _ => a

/-- A call that does not fail. -/
def isOk {α : Type} : Res α → Bool
  | .ok _ => true
  | .error _ => false

/-- The result of a call that does not fail. -/
def okOr {α : Type} (r : Res α) (a : α) : α :=
  match r with
  | .ok b => b
  | .error _ => a

/-- `EXPECT_EQ` of a call. -/
def gives (r : Res ℤ) (x : ℤ) : Bool :=
  match r with
  | .ok y => y == x
  | .error _ => false

/-- `EXPECT_FLOAT_EQ` of two calls. -/
def almostRes (r s : Res F32) : Bool :=
  match r, s with
  | .ok x, .ok y => almost x y
  | _, _ => false

/-- base/base_test.cc 17-22, base/history_test.cc 17-22 `ExpectNearPriceRecord`. -/
def nearRecord (x y : Option (PriceRecord F32)) : Bool :=
  match x, y with
  | some a, some b => a.ts == b.ts && almost a.price b.price && almost a.volume b.volume
  | _, _ => false

/-- base/history_test.cc 24-33 `ExpectNearOhlcTick`, indicators/last_n_ohlc_ticks_test.cc 12-21 `ExpectOhlcTick`. -/
def nearTick (x : Option (OhlcTick F32)) (y : OhlcTick F32) : Bool :=
  match x with
  | some a => a.ts == y.ts && almost a.opn y.opn && almost a.high y.high && almost a.low y.low && almost a.close y.close &&
    almost a.volume y.volume
  | none => false

/-- base/side_input_test.cc 12-37 `Add8HourSignals`. -/
def add8HourSignals (signals : List F32) (history : List (SideInputRecord F32)) : List (SideInputRecord F32) :=
  history ++ [⟨(history.getLast?).elim 1483228800 (fun r => r.ts + 8 * 60 * 60), signals⟩]

end Verif.Conformance
