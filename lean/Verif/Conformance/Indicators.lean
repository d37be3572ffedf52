import Verif.Conformance.Libm
import Verif.Model.Indicators

/-!
# The common part of the tests of the indicators
-/

namespace Verif.Conformance
open Verif FloatOps

/-- indicators/test_util.cc 10-43 `Add8HourOhlcTick`; the flag collects the assertions. -/
def add8HourOhlcTick (opn high low close : F32) (h : List (OhlcTick F32) × Bool) : List (OhlcTick F32) × Bool :=
  let ok := h.2 && low <=. opn && low <=. high && low <=. close && opn <=. high && close <=. high
  match h.1.getLast? with
  | none => (h.1 ++ [⟨1483228800, opn, high, low, close, f 1000⟩], ok)
  | some t => (h.1 ++ [⟨t.ts + 8 * 60 * 60, opn, high, low, close, f 1000⟩], ok && almost t.close opn)

/-- indicators/test_util.cc 57-59: the last tick is moved by a number of seconds. -/
def moveLast (sec : ℤ) (h : List (OhlcTick F32) × Bool) : List (OhlcTick F32) × Bool :=
  match h.1.getLast? with
  | none => h
  | some t => (h.1.dropLast ++ [{ t with ts := t.ts + sec }], h.2)

/-- indicators/test_util.cc 46-60 `PrepareExampleOhlcHistory`. -/
def exampleHistory : List (OhlcTick F32) × Bool :=
  ([], true) |> add8HourOhlcTick (f 100) (f 150) (f 80) (f 120)
    |> add8HourOhlcTick (f 120) (f 180) (f 100) (f 150)
    |> add8HourOhlcTick (f 150) (f 250) (f 100) (f 140)
    |> add8HourOhlcTick (f 140) (f 150) (f 80) (f 100)
    |> add8HourOhlcTick (f 100) (f 120) (f 20) (f 50)
    |> add8HourOhlcTick (f 50) (f 100) (f 40) (f 80)
    |> add8HourOhlcTick (f 80) (f 180) (f 50) (f 150)
    |> add8HourOhlcTick (f 150) (f 250) (f 120) (f 240)
    |> add8HourOhlcTick (f 240) (f 450) (f 220) (f 400)
    |> add8HourOhlcTick (f 400) (f 450) (f 250) (f 300)
    |> add8HourOhlcTick (f 300) (f 700) (f 220) (f 650)
    |> add8HourOhlcTick (f 650) (f 800) (f 600) (f 750)
    |> moveLast (1 * kSecondsPerDay + 2 * (8 * 60 * 60))

/-- `ohlc_history[i]`. -/
def tickAt (l : List (OhlcTick F32)) (i : ℕ) : OhlcTick F32 := l.getD i newTick

/-- Never used: what an indicator would be if its constructor failed. -/
def defaultEmaInd : Indicator F32 (EmaState F32) := ⟨⟨0, 0, []⟩, ⟨f 0, Ema.make⟩⟩
@[inherit_doc defaultEmaInd]
def defaultSma : Indicator F32 (SmaState F32) := ⟨⟨0, 0, []⟩, f 0⟩
@[inherit_doc defaultEmaInd]
def defaultMacd : Indicator F32 (MacdState F32) := ⟨⟨0, 0, []⟩, ⟨0, f 0, f 0, f 0, Ema.make, Ema.make, Ema.make⟩⟩
@[inherit_doc defaultEmaInd]
def defaultRsi : Indicator F32 (RsiState F32) := ⟨⟨0, 0, []⟩, ⟨0, 0, Ema.make, Ema.make⟩⟩
@[inherit_doc defaultEmaInd]
def defaultVol : Indicator F32 (VolState F32) := ⟨⟨0, 0, []⟩, ⟨f 0, f 0, [], 0, MeanVar.make 0⟩⟩

@[inherit_doc defaultEmaInd]
def newMin : SlidingMin F32 := ⟨0, f 0, f 0, [], 0⟩
@[inherit_doc defaultEmaInd]
def newMax : SlidingMax F32 := ⟨newMin⟩
@[inherit_doc defaultEmaInd]
def defaultSo : Indicator F32 (SoState F32) := ⟨⟨0, 0, []⟩, ⟨0, f 0, newMin, newMax, MeanVar.make 0, MeanVar.make 0⟩⟩

/-- The ticks handed to the callbacks of indicators/last_n_ohlc_ticks_test.cc 31-54. -/
def updatedOld (l : List (TickEvent F32)) : List (OhlcTick F32) := l.filterMap fun | .updated x _ => some x | _ => none
@[inherit_doc updatedOld]
def updatedNew (l : List (TickEvent F32)) : List (OhlcTick F32) := l.filterMap fun | .updated _ x => some x | _ => none
@[inherit_doc updatedOld]
def addedNew (l : List (TickEvent F32)) : List (OhlcTick F32) := l.filterMap fun | .added x => some x | _ => none
@[inherit_doc updatedOld]
def shiftedOld (l : List (TickEvent F32)) : List (OhlcTick F32) := l.filterMap fun | .addedRemoved x _ => some x | _ => none
@[inherit_doc updatedOld]
def shiftedNew (l : List (TickEvent F32)) : List (OhlcTick F32) := l.filterMap fun | .addedRemoved _ x => some x | _ => none

end Verif.Conformance
