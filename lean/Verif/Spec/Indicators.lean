import Verif.Spec.Aggregate
import Verif.Spec.Window

/-!
# The textbook definitions of the indicators, on a complete list of (aggregated) ticks, oldest first
-/

namespace Verif.Spec
open FloatOps

/-- All non-empty prefixes of a list, shortest first. -/
def prefixes {α : Type} (l : List α) : List (List α) := (List.range l.length).map (fun i => l.take (i + 1))

section general
variable {F : Type} [FloatOps F]

/-- Exponential moving average with weight `w`: the first value, then `w * c + (1 - w) * previous`. -/
def ema (w : F) : List F → F
  | [] => lit F 0
  | c :: cs => cs.foldl (fun e c => w *. c +. (lit F 1 -. w) *. e) c

/-- The MACD series: fast minus slow average of every prefix of the closes. -/
def macdSeries (fast slow : F) (closes : List F) : List F :=
  (prefixes closes).map (fun p => ema fast p -. ema slow p)

/-- The price each tick's close is compared with: the previous close, for the first tick its own open. -/
def referencePrices : List (OhlcTick F) → List F
  | [] => []
  | t :: ts => t.opn :: ((t :: ts).dropLast.map (·.close))

/-- Upward moves (0 for a downward move). -/
def upMoves (l : List (OhlcTick F)) : List F :=
  List.zipWith (fun r c => if c >=. r then c -. r else lit F 0) (referencePrices l) (l.map (·.close))

/-- Downward moves (0 for an upward move). -/
def downMoves (l : List (OhlcTick F)) : List F :=
  List.zipWith (fun r c => if c >=. r then lit F 0 else r -. c) (referencePrices l) (l.map (·.close))

/-- Modified moving average over `N` periods: the `i`-th value has weight `1 / min(i, N)`. -/
def mma (N : ℤ) (l : List F) : F :=
  (l.foldl (fun (p : ℕ × F) x =>
    let w : F := lit F 1 /. lit F (min ((p.1 + 1 : ℕ) : ℤ) N : ℤ)
    (p.1 + 1, if p.1 = 0 then x else w *. x +. (lit F 1 -. w) *. p.2)) (0, lit F 0)).2

end general

section exact
variable {K : Type} [Field K] [LinearOrder K]

/-- The smallest element. -/
def lowest : List K → K
  | [] => 0
  | x :: xs => xs.foldl min x

/-- The largest element. -/
def highest : List K → K
  | [] => 0
  | x :: xs => xs.foldl max x

/-- %K of the last tick: its close relative to the range of the last `N` ticks. -/
def stochK (N : ℕ) (l : List (OhlcTick K)) : K :=
  let lo : K := lowest (lastN N (l.map (·.low)))
  let hi : K := highest (lastN N (l.map (·.high)))
  let close : K := match l.getLast? with | some t => t.close | none => 0
  if hi - lo < (1 / 1000000 : K) then (50 : K) else 100 * (close - lo) / (hi - lo)

/-- %K of every tick. -/
def kSeries (N : ℕ) (l : List (OhlcTick K)) : List K := (prefixes l).map (stochK N)

/-- Three-period simple moving averages. -/
def sma3 (l : List K) : List K := (prefixes l).map (fun p => mean (lastN 3 p))

end exact
end Verif.Spec
