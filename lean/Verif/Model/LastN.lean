import Verif.Model.History

/-!
# indicators/last_n_ohlc_ticks.h, indicators/last_n_ohlc_ticks.cc

Line numbers refer to last_n_ohlc_ticks.cc unless said otherwise.  The registered callbacks are modelled by
the list of callback invocations (`TickEvent`) an `Update` makes, in order.
-/

namespace Verif
open FloatOps

/-- One callback invocation: indicators/last_n_ohlc_ticks.h 19-34. -/
inductive TickEvent (F : Type)
  /-- `NewTickAddedCallback(new)` -/
  | added (new : OhlcTick F)
  /-- `NewTickAddedAndOldestTickRemovedCallback(removed, new)` -/
  | addedRemoved (removed new : OhlcTick F)
  /-- `LastTickUpdatedCallback(old, new)` -/
  | updated (old new : OhlcTick F)

/-- indicators/last_n_ohlc_ticks.h 64-68.  `rev` is the deque in reverse order (`head` = `back()`). -/
structure LastN (F : Type) where
  n : ℕ
  period : ℤ
  rev : List (OhlcTick F)

namespace LastN
variable {F : Type} [FloatOps F]

/-- indicators/last_n_ohlc_ticks.h 36-43, the constructor (`num_ohlc_ticks`, `period_size_sec` are `int`). -/
def make (n period : ℤ) : Res (LastN F) := do
  assertThat (decide (n > 0))
  assertThat (decide (period > 0))
  return ⟨n.toNat, period, []⟩

/-- indicators/last_n_ohlc_ticks.cc 24-26 `GetLastNOhlcTicks`. -/
def ticks (s : LastN F) : List (OhlcTick F) := s.rev.reverse

/-- `emplace_back`/`push_back` followed by `NewOhlcTickAdded` (indicators/last_n_ohlc_ticks.cc 64-77).  In the last case (`n = 0`, excluded
by the constructor) the pushed tick itself would be removed. -/
def pushBack (n : ℕ) (x : OhlcTick F) (rev : List (OhlcTick F)) : List (OhlcTick F) × TickEvent F :=
  if rev.length + 1 ≤ n then (x :: rev, .added x)
  else match rev.getLast? with
    | some front => (x :: rev.dropLast, .addedRemoved front x)
    | none => ([], .addedRemoved x x)

/-- indicators/last_n_ohlc_ticks.cc 31-46, the back-filling loop: the deque and the events. -/
def fill (n : ℕ) (period target : ℤ) (last : OhlcTick F) (rest : List (OhlcTick F)) :
    List (OhlcTick F) × List (TickEvent F) :=
  if _h : 0 < period ∧ last.ts + period < target then
    let x := flatTick (last.ts + period) last.close
    let p := pushBack n x (last :: rest)
    let r := fill n period target x p.1.tail
    (r.1, p.2 :: r.2)
  else (last :: rest, [])
termination_by (target - last.ts).toNat
decreasing_by simp only [flatTick]; omega

/-- indicators/last_n_ohlc_ticks.cc 31-46: back-filling, nothing to do for an empty deque. -/
def backfill (s : LastN F) (target : ℤ) : List (OhlcTick F) × List (TickEvent F) :=
  match s.rev with
  | [] => ([], [])
  | last :: rest => fill s.n s.period target last rest

/-- indicators/last_n_ohlc_ticks.cc 28-62 `Update`. -/
def update (s : LastN F) (t : OhlcTick F) : Res (LastN F × List (TickEvent F)) :=
  let adjusted := s.period * (t.ts.tdiv s.period)
  let filled := s.backfill adjusted
  match filled.1 with
  | [] =>
    let p := pushBack s.n { t with ts := adjusted } []
    .ok ({ s with rev := p.1 }, filled.2 ++ [p.2])
  | last :: rest =>
    if last.ts < adjusted then
      let p := pushBack s.n { t with ts := adjusted } (last :: rest)
      .ok ({ s with rev := p.1 }, filled.2 ++ [p.2])
    else do
      assertThat (decide (last.ts = adjusted))
      let new : OhlcTick F := { last with
        high := fmax last.high t.high
        low := fmin last.low t.low
        close := t.close
        volume := last.volume +. t.volume }
      return ({ s with rev := new :: rest }, filled.2 ++ [.updated last new])

/-- A sequence of `Update` calls: the final state and all callbacks.  (indicators/last_n_ohlc_ticks.cc 28-62, repeatedly.) -/
def run (s : LastN F) : List (OhlcTick F) → Res (LastN F × List (TickEvent F))
  | [] => .ok (s, [])
  | t :: ts => do
    let (s, e) ← update s t
    let (s, es) ← run s ts
    return (s, e ++ es)

end LastN
end Verif
