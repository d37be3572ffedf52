import Verif.Spec.History

/-!
# What aggregating ticks into periods means (C17-C19, C39, C51)

Declarative: a list of periods, and for each period a summary of the ticks whose timestamps fall into it.
-/

namespace Verif.Spec
open FloatOps

variable {F : Type} [FloatOps F]

/-- The start of the period of length `P` that contains the (non-negative) time `t`. -/
def periodStart (P t : ℤ) : ℤ := P * (t / P)

/-- The ticks whose timestamp falls into the period that starts at `s`, in order. -/
def ticksIn (P s : ℤ) (l : List (OhlcTick F)) : List (OhlcTick F) :=
  l.filter (fun t => decide (periodStart P t.ts = s))

/-- The OHLC summary of a non-empty group of ticks: first open, highest high, lowest low, last close, summed
volume (in order). -/
def summary (s : ℤ) (g : OhlcTick F) (gs : List (OhlcTick F)) : OhlcTick F where
  ts := s
  opn := g.opn
  high := (gs.map (·.high)).foldl fmax g.high
  low := (gs.map (·.low)).foldl fmin g.low
  close := ((g :: gs).getLast (by simp)).close
  volume := (gs.map (·.volume)).foldl FloatOps.add g.volume

/-- The close of the last tick before time `s`. -/
def closeBefore (s : ℤ) (l : List (OhlcTick F)) : F :=
  match (l.filter (fun t => decide (t.ts < s))).getLast? with
  | some t => t.close
  | none => lit F 0

/-- The aggregated tick of the period starting at `s`: the summary of its ticks, or, if there are none, a flat
zero-volume tick at the previous close. -/
def aggTick (P : ℤ) (l : List (OhlcTick F)) (s : ℤ) : OhlcTick F :=
  match ticksIn P s l with
  | g :: gs => summary s g gs
  | [] => ⟨s, closeBefore s l, closeBefore s l, closeBefore s l, closeBefore s l, lit F 0⟩

/-- The periods from the one of `a` to the one of `b`. -/
def periods (P a b : ℤ) : List ℤ :=
  (List.range ((b / P - a / P).toNat + 1)).map (fun (i : ℕ) => periodStart P a + P * i)

/-- Aggregation of a whole (sorted) history. -/
def aggregate (P : ℤ) (l : List (OhlcTick F)) : List (OhlcTick F) :=
  match l with
  | [] => []
  | t :: rest => (periods P t.ts ((t :: rest).getLast (by simp)).ts).map (aggTick P (t :: rest))

/-- A price record as a tick. -/
def tickOf (r : PriceRecord F) : OhlcTick F := ⟨r.ts, r.price, r.price, r.price, r.price, r.volume⟩

/-- Consecutive ticks are at most one period apart: no period in between is empty. -/
def NoGap (Q : ℤ) (l : List (OhlcTick F)) : Prop :=
  l.IsChain (fun a b => periodStart Q b.ts ≤ periodStart Q a.ts + Q)

end Verif.Spec
