import Verif.Model.Exec
import Verif.Model.Traders

/-!
# The 64-bit arithmetic on timestamps

The rest of the model computes with timestamps in ℤ.  Here the functions that do arithmetic on timestamps are modelled once
more with the machine's `int64_t`: an operation whose mathematical result does not fit is undefined behaviour
(`Fault.signedOverflow`).  `Props/Machine.lean` says when the two models agree.  The functions below differ from those they
are named after in nothing else.
-/

namespace Verif.Machine
open FloatOps

/-- The result of an `int64_t` operation.
(Sums and products of timestamps, such as base/history.cc 26-28, indicators/last_n_ohlc_ticks.cc 29-33.) -/
def int64 (x : ℤ) : Res ℤ := if -(2 ^ 63) ≤ x ∧ x < 2 ^ 63 then .ok x else .error .signedOverflow

/-- base/history.cc 25-29 `gap_cmp`: `lhs.second - lhs.first - rhs.second + rhs.first` from left to right. -/
def gapCmp (l r : HistoryGap) : Res Bool := do
  let a ← int64 (l.2 - l.1)
  let b ← int64 (a - r.2)
  let lengthDelta ← int64 (b + r.1)
  return decide (lengthDelta > 0) || (decide (lengthDelta = 0) && decide (l.1 < r.1))

/-- convert.cc 339 `gap_duration_sec`. -/
def gapDuration (g : HistoryGap) : Res ℤ := int64 (g.2 - g.1)

section
variable {F : Type} [FloatOps F]

section
variable [Libm F]

/-- base/history.cc 80-112 (see `Verif.isOutlier`): the difference of the timestamps (83-84) is an `int64_t`. -/
def isOutlier (maxDev : F) (prev r : PriceRecord F) (rest : List (PriceRecord F)) : Res Bool := do
  let dt ← int64 (r.ts - prev.ts)
  let reference := prev.price
  let factor := jumpFactor maxDev dt
  let jumpUp := reference *. factor
  let jumpDown := reference /. factor
  let up := r.price >. jumpUp
  let down := r.price <. jumpDown
  if up || down then
    let midUp := lit F (4 / 5) *. jumpUp +. lit F (1 / 5) *. reference
    let midDown := lit F (4 / 5) *. jumpDown +. lit F (1 / 5) *. reference
    return decide (lookaheadPersistent up down midUp midDown 10 rest < 3)
  else return false

/-- base/history.cc 67-118 (see `Verif.removeOutliersFrom`). -/
def removeOutliersFrom (maxDev : F) :
    ℕ → Option (PriceRecord F) → List (PriceRecord F) → Res (List (PriceRecord F) × List ℕ)
  | _, _, [] => .ok ([], [])
  | idx, prev, r :: rest =>
    if r.bad then do
      let o ← removeOutliersFrom maxDev (idx + 1) prev rest
      return (o.1, idx :: o.2)
    else
      match prev with
      | none => do
        let o ← removeOutliersFrom maxDev (idx + 1) (some r) rest
        return (r :: o.1, o.2)
      | some p => do
        let out ← isOutlier maxDev p r rest
        if out then do
          let o ← removeOutliersFrom maxDev (idx + 1) prev rest
          return (o.1, idx :: o.2)
        else do
          let o ← removeOutliersFrom maxDev (idx + 1) (some r) rest
          return (r :: o.1, o.2)

/-- base/history.cc 60-120 `RemoveOutliers`. -/
def removeOutliers (maxDev : F) (l : List (PriceRecord F)) : Res (List (PriceRecord F) × List ℕ) :=
  removeOutliersFrom maxDev 0 none l

end

/-- base/history.cc 148-162 (see `Verif.fillGaps`): `back().timestamp_sec() + sampling_rate_sec` is an `int64_t`. -/
def fillGaps (rate target : ℤ) : List (OhlcTick F) → Res (List (OhlcTick F))
  | [] => .ok []
  | last :: rest =>
    if -(2 ^ 63) ≤ last.ts + rate ∧ last.ts + rate < 2 ^ 63 then
      if _h : 0 < rate ∧ last.ts + rate < target then
        fillGaps rate target (flatTick (last.ts + rate) last.close :: last :: rest)
      else .ok (last :: rest)
    else .error .signedOverflow
termination_by l => (target - (match l with | [] => 0 | t :: _ => t.ts)).toNat
decreasing_by simp only [flatTick]; omega

/-- base/history.cc 145-183 (see `Verif.resampleStep`): `sampling_rate_sec * (timestamp_sec / sampling_rate_sec)`. -/
def resampleStep (rate : ℤ) (acc : List (OhlcTick F)) (r : PriceRecord F) : Res (List (OhlcTick F)) := do
  let q ← int64 (r.ts.tdiv rate)
  let down ← int64 (rate * q)
  let acc ← fillGaps rate down acc
  match acc with
  | [] => .ok [⟨down, r.price, r.price, r.price, r.price, r.volume⟩]
  | last :: rest =>
    if last.ts < down then
      .ok (⟨down, r.price, r.price, r.price, r.price, r.volume⟩ :: last :: rest)
    else do
      assertThat (decide (last.ts = down))
      return ⟨last.ts, last.opn, fmax last.high r.price, fmin last.low r.price, r.price,
        last.volume +. r.volume⟩ :: rest

/-- base/history.cc 142-185 `Resample`. -/
def resample (rate : ℤ) (l : List (PriceRecord F)) : Res (List (OhlcTick F)) := do
  let acc ← l.foldlM (resampleStep rate) []
  return acc.reverse

/-! ## indicators/last_n_ohlc_ticks.cc -/

/-- indicators/last_n_ohlc_ticks.cc 31-46 (see `Verif.LastN.fill`): `back().timestamp_sec() + period_size_sec_` is an `int64_t`. -/
def fill (n : ℕ) (period target : ℤ) (last : OhlcTick F) (rest : List (OhlcTick F)) :
    Res (List (OhlcTick F) × List (TickEvent F)) :=
  if -(2 ^ 63) ≤ last.ts + period ∧ last.ts + period < 2 ^ 63 then
    if _h : 0 < period ∧ last.ts + period < target then do
      let x := flatTick (last.ts + period) last.close
      let p := LastN.pushBack n x (last :: rest)
      let r ← fill n period target x p.1.tail
      return (r.1, p.2 :: r.2)
    else return (last :: rest, [])
  else .error .signedOverflow
termination_by (target - last.ts).toNat
decreasing_by simp only [flatTick]; omega

/-- indicators/last_n_ohlc_ticks.cc 31-46 (see `Verif.LastN.backfill`). -/
def backfill (s : LastN F) (target : ℤ) : Res (List (OhlcTick F) × List (TickEvent F)) :=
  match s.rev with
  | [] => .ok ([], [])
  | last :: rest => fill s.n s.period target last rest

/-- indicators/last_n_ohlc_ticks.cc 28-62 `Update` (see `Verif.LastN.update`). -/
def lastNUpdate (s : LastN F) (t : OhlcTick F) : Res (LastN F × List (TickEvent F)) := do
  let q ← int64 (t.ts.tdiv s.period)
  let adjusted ← int64 (s.period * q)
  let filled ← backfill s adjusted
  match filled.1 with
  | [] =>
    let p := LastN.pushBack s.n { t with ts := adjusted } []
    .ok ({ s with rev := p.1 }, filled.2 ++ [p.2])
  | last :: rest =>
    if last.ts < adjusted then
      let p := LastN.pushBack s.n { t with ts := adjusted } (last :: rest)
      .ok ({ s with rev := p.1 }, filled.2 ++ [p.2])
    else do
      assertThat (decide (last.ts = adjusted))
      let new : OhlcTick F := { last with
        high := fmax last.high t.high
        low := fmin last.low t.low
        close := t.close
        volume := last.volume +. t.volume }
      return ({ s with rev := new :: rest }, filled.2 ++ [.updated last new])

/-- A sequence of `Update` calls (see `Verif.LastN.run`).  (indicators/last_n_ohlc_ticks.cc 28-62, repeatedly.) -/
def lastNRun (s : LastN F) : List (OhlcTick F) → Res (LastN F × List (TickEvent F))
  | [] => .ok (s, [])
  | t :: ts => do
    let (s, e) ← lastNUpdate s t
    let (s, es) ← lastNRun s ts
    return (s, e ++ es)

/-- `Update` of an indicator (see `Verif.Indicator.update`).
(indicators/last_n_ohlc_ticks.cc 28-62 with the callbacks of the indicator.) -/
def indicatorUpdate {σ : Type} (onEvent : List (OhlcTick F) → σ → TickEvent F → Res σ) (ind : Indicator F σ) (t : OhlcTick F) :
    Res (Indicator F σ) := do
  let (w, events) ← lastNUpdate ind.window t
  let s ← Indicator.callbacks onEvent ind.window.ticks ind.state events
  return ⟨w, s⟩

/-! ## traders/stop_trader.cc -/

/-- traders/stop_trader.cc 41-74 `UpdateStopOrderPrice` (see `Verif.updateStopPrice`): `timestamp_sec - last_timestamp_sec_`. -/
def updateStopPrice [Libm F] (cfg : StopConfig F) (mode : Mode) (lastTs ts : ℤ) (stop price : F) : Res F := do
  let dt ← int64 (ts - lastTs)
  let samplingRate := lit F ((min kSecondsPerDay dt : ℤ) : ℚ)
  let ticksPerDay := lit F (kSecondsPerDay : ℚ) /. samplingRate
  if mode = .long then
    let threshold := (lit F 1 -. cfg.moveMargin) *. price
    if stop <=. threshold then
      let increase := Libm.exp (Libm.log (lit F 1 +. cfg.increasePerDay) /. ticksPerDay) -. lit F 1
      .ok (fmax stop (fmin threshold ((lit F 1 +. increase) *. stop)))
    else .ok stop
  else do
    assertThat (decide (mode = .cash))
    let threshold := (lit F 1 +. cfg.moveMargin) *. price
    if stop >=. threshold then
      let decrease := lit F 1 -. Libm.exp (Libm.log (lit F 1 -. cfg.decreasePerDay) /. ticksPerDay)
      return fmin stop (fmax threshold ((lit F 1 -. decrease) *. stop))
    else return stop

/-- traders/stop_trader.cc 10-39 `StopTrader::Update` (see `Verif.stopUpdate`): `last_timestamp_sec_ + max_allowed_gap_sec_`. -/
def stopUpdate [Libm F] (cfg : StopConfig F) (s : StopState F) (t : OhlcTick F) (_signals : List F) (base quote : F) :
    Res (StopState F × List (Order F)) := do
  assertThat (decide (t.ts > s.lastTs))
  assertThat (t.close >. lit F 0)
  assertThat (base >. lit F 0 || quote >. lit F 0)
  let mode := stopMode t.close base quote
  let due ← int64 (s.lastTs + maxAllowedGapSec)
  let stop ←
    if t.ts ≥ due ∨ mode ≠ s.mode then
      if mode = .long then .ok ((lit F 1 -. cfg.margin) *. t.close)
      else do
        assertThat (decide (mode = .cash))
        Except.ok ((lit F 1 +. cfg.margin) *. t.close)
    else do
      assertThat (decide (mode = s.mode))
      updateStopPrice cfg mode s.lastTs t.ts s.stopPrice t.close
  let s : StopState F := ⟨base, quote, t.ts, t.close, mode, stop⟩
  let order ← stopOrder s
  return (s, [order])

/-- traders/stop_trader.h 12-52 `class StopTrader`. -/
abbrev stopTrader [Libm F] (fmt : Format F) (cfg : StopConfig F) : Trader F where
  State := StopState F
  update := stopUpdate cfg
  internalState := stopShow fmt

/-! ## eval/eval.cc -/

/-- eval/eval.cc 66-80 (see `Verif.sideStep`): `ohlc_tick.timestamp_sec() - side_input_timestamp_sec`. -/
def sideStep (side : Option (SideInput F)) (ts : ℤ) (signals : List F) (prev : ℤ) : Res (List F × ℤ) :=
  match side with
  | none => .ok (signals, prev)
  | some s => do
    let i ← s.indexHint ts prev
    if i ≥ 0 then do
      let recordTs ← s.timestamp i
      let sg ← s.signals i []
      let age ← int64 (ts - recordTs)
      return (sg ++ [lit F (age : ℚ)], i)
    else return (signals, prev)

variable {D : Type} [FloatOps D] [Wide F D]

/-- indicators/volatility.cc 57-62 `Update` (see `Verif.Vol.update`). -/
def volUpdate [Libm F] (v : Indicator F (VolState F)) (t : OhlcTick F) (base quote : F) :
    Res (Indicator F (VolState F)) :=
  indicatorUpdate Vol.onEvent { v with state := { v.state with base := base, quote := quote } } t

/-- eval/eval.cc 108-122 (see `Verif.traderStep`). -/
def traderStep [Libm F] (T : Trader F) (fast log : Bool) (t : OhlcTick F) (s : ExecState F T.State) :
    Run (Event F) (ExecState F T.State) := do
  let u := T.update s.trader t s.signals s.account.baseBalance s.account.quoteBalance
  let r ← Run.call (fun u => .update t s.signals s.account.baseBalance s.account.quoteBalance (u.map (·.2))) u
  Run.emitIf log (.traderRow (T.internalState r.1))
  let s := { s with trader := r.1, orders := r.2 }
  if fast then return s
  else do
    let bv ← Run.lift (volUpdate s.baseVol t (lit F 1) (lit F 0))
    let tv ← Run.lift (volUpdate s.traderVol t s.account.baseBalance s.account.quoteBalance)
    return { s with baseVol := bv, traderVol := tv }

/-- eval/eval.cc 63-123 (see `Verif.tickStep`). -/
def tickStep [Libm F] (c : AccountConfig F) (side : Option (SideInput F)) (T : Trader F) (fast log : Bool)
    (s : ExecState F T.State) (t : OhlcTick F) : Run (Event F) (ExecState F T.State) := do
  let sg ← Run.lift (sideStep side t.ts s.signals s.prevIndex)
  let s := { s with signals := sg.1, prevIndex := sg.2 }
  Run.emitIf log (.tickRow t s.account)
  let r ← execOrders log c t s.orders s.account s.executed
  let s := { s with account := r.1, executed := r.2 }
  if FloatOps.beq t.volume (lit F 0) then return s
  else traderStep T fast log t s

/-- eval/eval.cc 38-141 `ExecuteTrader` (see `Verif.executeTrader`). -/
def executeTrader [Libm F] [Libm D] (c : AccountConfig F) (ticks : List (OhlcTick F)) (side : Option (SideInput F))
    (fast : Bool) (T : Trader F) (init : T.State) (log : Bool) : Run (Event F) (ExecutionResult F) :=
  match ticks with
  | [] => return ExecutionResult.default
  | first :: rest => do
    let s ← Run.lift (execInit c T init)
    let s ← (first :: rest).foldlM (tickStep c side T fast log) s
    return execResult c fast first ((first :: rest).getLast (by simp)) s

end
end Verif.Machine
