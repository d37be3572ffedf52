import Verif.Model.Exec

/-!
# Specification vocabulary for back-tests (C28-C33)

Everything here is defined from the observable trace of interface calls alone: the account, the standing orders and
the trader's state "so far" are those reported by the calls made so far.
-/

namespace Verif.Spec
open FloatOps

section positions
variable {E : Type}

/-- Every event of the trace satisfies `P`, given the events performed before it. -/
def Everywhere (P : List E → E → Prop) (trace : List E) : Prop :=
  ∀ before e after, trace = before ++ e :: after → P before e

end positions

section events
variable {F : Type}

/-- The account after the given calls: the one the last completed `ExecuteOrder` call left, initially the configured
one. -/
def accountAfter [FloatOps F] (c : AccountConfig F) (trace : List (Event F)) : Account F :=
  trace.foldl (fun a e => match e with | .exec _ _ (.ok r) => r.2 | _ => a) (Account.init c)

/-- The orders the last completed `Update` call emitted; none initially. -/
def standingAfter (trace : List (Event F)) : List (Order F) :=
  trace.foldl (fun os e => match e with | .update _ _ _ _ (.ok os') => os' | _ => os) []

/-- The state of the trader after the given calls. -/
def traderAfter (T : Trader F) (init : T.State) (trace : List (Event F)) : T.State :=
  trace.foldl (fun s e => match e with
    | .update t sg b q _ => (match T.update s t sg b q with | .ok r => r.1 | .error _ => s)
    | _ => s) init

/-- The successful `ExecuteOrder` calls: tick, account afterwards, order. -/
def executions (trace : List (Event F)) : List (OhlcTick F × Account F × Order F) :=
  trace.filterMap fun e => match e with | .exec t o (.ok (true, a)) => some (t, a, o) | _ => none

/-- All `ExecuteOrder` calls: tick and order. -/
def attempts (trace : List (Event F)) : List (OhlcTick F × Order F) :=
  trace.filterMap fun e => match e with | .exec t o _ => some (t, o) | _ => none

/-- The rows of the exchange log that report an executed order. -/
def orderRows (trace : List (Event F)) : List (OhlcTick F × Account F × Order F) :=
  trace.filterMap fun e => match e with | .orderRow t a o => some (t, a, o) | _ => none

/-- The rows of the exchange log that report a tick. -/
def tickRows (trace : List (Event F)) : List (OhlcTick F × Account F) :=
  trace.filterMap fun e => match e with | .tickRow t a => some (t, a) | _ => none

/-- The rows of the trader log. -/
def traderRows (trace : List (Event F)) : List String :=
  trace.filterMap fun e => match e with | .traderRow s => some s | _ => none

/-- The `Update` calls: tick, signals, base and quote balance. -/
def updates (trace : List (Event F)) : List (OhlcTick F × List F × F × F) :=
  trace.filterMap fun e => match e with | .update t sg b q _ => some (t, sg, b, q) | _ => none

/-- Not a call of the logger. -/
def notLogged : Event F → Bool
  | .exec .. => true
  | .update .. => true
  | _ => false

/-- Each call is what it should be, given the calls before it: orders are executed on the account left by the
previous execution; the trader is updated from its previous state with the current balances; each row of the exchange
log shows the current account, each order row directly follows the successful execution it reports, each row of the
trader log directly follows an update and shows the trader's current state. -/
def FaithfulCall [FloatOps F] (c : AccountConfig F) (T : Trader F) (init : T.State) (before : List (Event F)) :
    Event F → Prop
  | .exec t o r => r = (accountAfter c before).executeOrder c o t
  | .update t sg b q r =>
      b = (accountAfter c before).baseBalance ∧ q = (accountAfter c before).quoteBalance ∧
      r = (T.update (traderAfter T init before) t sg b q).map (·.2)
  | .tickRow _ a => a = accountAfter c before
  | .orderRow t a o => before.getLast? = some (.exec t o (.ok (true, a)))
  | .traderRow s => s = T.internalState (traderAfter T init before) ∧
      ∃ t sg b q os, before.getLast? = some (.update t sg b q (.ok os))

/-- The side-input records a trader may know at time `t` (no side input: none). -/
def known (side : Option (List (SideInputRecord F))) (t : ℤ) : List (SideInputRecord F) :=
  (side.getD []).filter (fun r => decide (r.ts ≤ t))

/-- The signals the trader should receive at time `t`: those of the latest known record, followed by its age in
seconds; nothing if there is no such record. -/
def signalsAt [FloatOps F] (side : Option (List (SideInputRecord F))) (t : ℤ) : List F :=
  match (known side t).getLast? with
  | none => []
  | some r => r.signals ++ [lit F ((t - r.ts : ℤ) : ℚ)]

/-- Ticks on which the trader acts: all but the zero-volume ones (`volume() == 0`). -/
def active [FloatOps F] (t : OhlcTick F) : Bool := !FloatOps.beq t.volume (lit F 0)

/-- What should happen while tick `t` is processed; `before` are all earlier calls, `seg` those of this tick. -/
structure GoodRound [FloatOps F] (log : Bool) (before seg : List (Event F)) (t : OhlcTick F) : Prop where
  /-- the standing orders are tried, in order, on this tick -/
  attempts : attempts seg = (standingAfter before).map (fun o => (t, o))
  /-- the trader is updated on this tick if it is active, and not otherwise -/
  updates : (updates seg).map (·.1) = if active t then [t] else []
  /-- all executions come before the update -/
  order : ∃ x y, seg = x ++ y ∧ Spec.updates x = [] ∧ Spec.attempts y = []
  rows : log = true → orderRows seg = executions seg
  tickRows : (tickRows seg).map (·.1) = if log then [t] else []
  first : log = true → ∃ a rest, seg = .tickRow t a :: rest
  traderRows : (traderRows seg).length = if log then (Spec.updates seg).length else 0
  noRows : log = false → orderRows seg = []

end events
end Verif.Spec
