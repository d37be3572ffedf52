import Verif.Model.LastN

/-!
# Replaying callbacks on a mirror of the tick window (C40)
-/

namespace Verif.Spec

variable {F : Type} [DecidableEq F]

/-- Apply one callback to a mirror of the window (oldest tick first).  `none`: the callback does not fit the
mirror.  A tick is added without removal only while there is room; a removed tick must be the oldest one of a
full window; an updated tick must be the newest one. -/
def replay1 (n : ℕ) (mirror : List (OhlcTick F)) : TickEvent F → Option (List (OhlcTick F))
  | .added x => if mirror.length < n then some (mirror ++ [x]) else none
  | .addedRemoved r x =>
    if mirror.length = n ∧ mirror.head? = some r then some (mirror.tail ++ [x]) else none
  | .updated old new =>
    if mirror.getLast? = some old ∧ old.ts = new.ts ∧ old.opn = new.opn then some (mirror.dropLast ++ [new])
    else none

/-- Apply a list of callbacks. -/
def replay (n : ℕ) (mirror : List (OhlcTick F)) : List (TickEvent F) → Option (List (OhlcTick F))
  | [] => some mirror
  | e :: es => (replay1 n mirror e).bind (fun m => replay n m es)

end Verif.Spec
