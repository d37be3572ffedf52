import Verif.Model.Evaluate
import Mathlib.Data.List.Basic

/-!
# Two back-tests that run in step

If two back-tests start from related states, and every interface call keeps them related, then their outcomes are related.  Used for the
unit of the quote currency and for shifts in time.
-/

namespace Verif.Simulation
open Verif FloatOps

/-- Related outcomes: both succeed with related values, or both fail in the same way. -/
def ResRel {α β : Type} (R : α → β → Prop) : Res α → Res β → Prop
  | .ok a, .ok b => R a b
  | .error e, .error f => e = f
  | _, _ => False

theorem ResRel.bind {α β γ δ : Type} {R : α → β → Prop} {S : γ → δ → Prop} {x : Res α} {y : Res β} {f : α → Res γ} {g : β → Res δ}
    (h : ResRel R x y) (hf : ∀ a b, R a b → ResRel S (f a) (g b)) : ResRel S (x >>= f) (y >>= g) := by
  cases x <;> cases y <;> simp_all [ResRel, Bind.bind, Except.bind]

theorem ResRel.mono {α β : Type} {R S : α → β → Prop} {x : Res α} {y : Res β} (h : ResRel R x y) (hs : ∀ a b, R a b → S a b) :
    ResRel S x y := by
  cases x <;> cases y <;> simp_all [ResRel]

theorem ResRel.of_map {α β : Type} {f : α → β} {x : Res α} {y : Res β} (h : y = x.map f) : ResRel (fun a b => b = f a) x y := by
  subst h; cases x <;> simp [ResRel, Except.map]

theorem ResRel.map_eq {α β : Type} {f : α → β} {x : Res α} {y : Res β} (h : ResRel (fun a b => b = f a) x y) : y = x.map f := by
  cases x <;> cases y <;> simp_all [ResRel, Except.map]

theorem ResRel.refl {α : Type} {R : α → α → Prop} (x : Res α) (h : ∀ a, R a a) : ResRel R x x := by
  cases x <;> simp [ResRel, h]

theorem ResRel.assert {p q : Bool} (h : p = q) : ResRel (fun _ _ => True) (assertThat p) (assertThat q) := by
  subst h; exact ResRel.refl _ fun _ => trivial

/-- Related outcomes of runs, whatever they log. -/
def RunRel {E E' α β : Type} (R : α → β → Prop) (x : Run E α) (y : Run E' β) : Prop := ResRel R x.out y.out

theorem RunRel.bind {E E' α β γ δ : Type} {R : α → β → Prop} {S : γ → δ → Prop} {x : Run E α} {y : Run E' β} {f : α → Run E γ} {g : β → Run E' δ}
    (h : RunRel R x y) (hf : ∀ a b, R a b → RunRel S (f a) (g b)) : RunRel S (x >>= f) (y >>= g) := by
  unfold RunRel at h ⊢
  rw [Run.bind_eq, Run.bind_eq]
  cases hx : x.out with
  | error e =>
    cases hy : y.out with
    | error e' => rw [Run.andThen_error hx, Run.andThen_error hy]; rw [hx, hy] at h; exact h
    | ok b => rw [hx, hy] at h; exact h.elim
  | ok a =>
    cases hy : y.out with
    | error e' => rw [hx, hy] at h; exact h.elim
    | ok b => rw [Run.andThen_ok hx, Run.andThen_ok hy]; rw [hx, hy] at h; exact hf a b h

theorem RunRel.lift {E E' α β : Type} {R : α → β → Prop} {x : Res α} {y : Res β} (h : ResRel R x y) :
    RunRel (E := E) (E' := E') R (Run.lift x) (Run.lift y) := h

theorem RunRel.call {E E' α β : Type} {R : α → β → Prop} {x : Res α} {y : Res β} (f : Res α → E) (g : Res β → E') (h : ResRel R x y) :
    RunRel R (Run.call f x) (Run.call g y) := h

theorem RunRel.emitIf {E E' : Type} (b : Bool) (e : E) (e' : E') : RunRel (fun _ _ => True) (Run.emitIf b e) (Run.emitIf b e') := by
  cases b <;> exact trivial

theorem RunRel.pure {E E' α β : Type} {R : α → β → Prop} {a : α} {b : β} (h : R a b) :
    RunRel (E := E) (E' := E') R (Pure.pure a) (Pure.pure b) := h

theorem RunRel.foldlM {E E' α β γ δ : Type} {R : α → β → Prop} {S : γ → δ → Prop} {f : α → γ → Run E α} {g : β → δ → Run E' β}
    (hf : ∀ a b c d, R a b → S c d → RunRel R (f a c) (g b d)) :
    ∀ {l : List γ} {m : List δ}, List.Forall₂ S l m → ∀ {a : α} {b : β}, R a b → RunRel R (l.foldlM f a) (m.foldlM g b) := by
  intro l m h
  induction h with
  | nil => intro a b hab; exact RunRel.pure hab
  | cons h1 _ ih =>
    intro a b hab
    rw [List.foldlM_cons, List.foldlM_cons]
    exact RunRel.bind (hf _ _ _ _ hab h1) fun a b hab => ih hab

section
variable {F D : Type} [FloatOps F] [FloatOps D] [Wide F D] [Libm F] [Libm D]

/-- What two back-tests must have in common, call by call. -/
structure Step (fast : Bool) (c c' : AccountConfig F) (side side' : Option (SideInput F)) (T T' : Trader F)
    (tick : OhlcTick F → OhlcTick F → Prop) (order : Order F → Order F → Prop) (account : Account F → Account F → Prop)
    (trader : T.State → T'.State → Prop) (vol vol' : Indicator F (VolState F) → Indicator F (VolState F) → Prop) : Prop where
  volume : ∀ t t', tick t t' → FloatOps.beq t'.volume (lit F 0) = FloatOps.beq t.volume (lit F 0)
  side : ∀ t t', tick t t' → ∀ sg prev, sideStep side' t'.ts sg prev = sideStep side t.ts sg prev
  exec : ∀ t t' o o' a a', tick t t' → order o o' → account a a' →
    ResRel (fun r r' => r'.1 = r.1 ∧ account r.2 r'.2) (a.executeOrder c o t) (a'.executeOrder c' o' t')
  update : ∀ t t' s s' a a' sg, tick t t' → trader s s' → account a a' →
    ResRel (fun r r' => trader r.1 r'.1 ∧ List.Forall₂ order r.2 r'.2)
      (T.update s t sg a.baseBalance a.quoteBalance) (T'.update s' t' sg a'.baseBalance a'.quoteBalance)
  baseVol : fast = false → ∀ t t' v v', tick t t' → vol v v' → ResRel vol (Vol.update v t (lit F 1) (lit F 0)) (Vol.update v' t' (lit F 1) (lit F 0))
  traderVol : fast = false → ∀ t t' v v' a a', tick t t' → account a a' → vol' v v' →
    ResRel vol' (Vol.update v t a.baseBalance a.quoteBalance) (Vol.update v' t' a'.baseBalance a'.quoteBalance)

variable {fast : Bool} {c c' : AccountConfig F} {side side' : Option (SideInput F)} {T T' : Trader F}
  {tick : OhlcTick F → OhlcTick F → Prop} {order : Order F → Order F → Prop} {account : Account F → Account F → Prop}
  {trader : T.State → T'.State → Prop} {vol vol' : Indicator F (VolState F) → Indicator F (VolState F) → Prop}

/-- Related states of two back-tests. -/
structure Related (order : Order F → Order F → Prop) (account : Account F → Account F → Prop) (trader : T.State → T'.State → Prop)
    (vol vol' : Indicator F (VolState F) → Indicator F (VolState F) → Prop) (s : ExecState F T.State) (s' : ExecState F T'.State) : Prop where
  account : account s.account s'.account
  signals : s'.signals = s.signals
  prevIndex : s'.prevIndex = s.prevIndex
  orders : List.Forall₂ order s.orders s'.orders
  executed : s'.executed = s.executed
  trader : trader s.trader s'.trader
  baseVol : vol s.baseVol s'.baseVol
  traderVol : vol' s.traderVol s'.traderVol

theorem execOrders_rel (h : Step (D := D) fast c c' side side' T T' tick order account trader vol vol') (log : Bool) {t t' : OhlcTick F} (ht : tick t t')
    {os os' : List (Order F)} (ho : List.Forall₂ order os os') :
    ∀ {a a' : Account F} (_ : account a a') (n : ℕ),
      RunRel (fun r r' => account r.1 r'.1 ∧ r'.2 = r.2) (execOrders log c t os a n) (execOrders log c' t' os' a' n) := by
  induction ho with
  | nil => intro a a' ha n; exact RunRel.pure ⟨ha, rfl⟩
  | cons h1 _ ih =>
    intro a a' ha n
    unfold execOrders
    refine RunRel.bind (RunRel.call _ _ (h.exec _ _ _ _ _ _ ht h1 ha)) ?_
    rintro ⟨b, a1⟩ ⟨b', a1'⟩ ⟨hb, ha1⟩
    dsimp only at hb ha1 ⊢
    subst hb
    cases b'
    · exact ih ha1 n
    · exact RunRel.bind (RunRel.emitIf _ _ _) fun _ _ _ => ih ha1 (n + 1)

theorem traderStep_rel (h : Step (D := D) fast c c' side side' T T' tick order account trader vol vol') (log : Bool) {t t' : OhlcTick F} (ht : tick t t')
    {s : ExecState F T.State} {s' : ExecState F T'.State} (hs : Related order account trader vol vol' s s') :
    RunRel (Related order account trader vol vol') (traderStep (D := D) T fast log t s) (traderStep (D := D) T' fast log t' s') := by
  unfold traderStep
  have hu := h.update t t' s.trader s'.trader s.account s'.account s.signals ht hs.trader hs.account
  simp only [hs.signals]
  refine RunRel.bind (RunRel.call _ _ hu) ?_
  rintro ⟨u, os⟩ ⟨u', os'⟩ ⟨hu1, hu2⟩
  refine RunRel.bind (RunRel.emitIf _ _ _) fun _ _ _ => ?_
  cases fast
  · refine RunRel.bind (RunRel.lift (h.baseVol rfl t t' _ _ ht hs.baseVol)) fun v v' hv => ?_
    refine RunRel.bind (RunRel.lift (h.traderVol rfl t t' _ _ _ _ ht hs.account hs.traderVol)) fun w w' hw => ?_
    exact RunRel.pure ⟨hs.account, rfl, hs.prevIndex, hu2, hs.executed, hu1, hv, hw⟩
  · exact RunRel.pure ⟨hs.account, rfl, hs.prevIndex, hu2, hs.executed, hu1, hs.baseVol, hs.traderVol⟩

theorem tickStep_rel (h : Step (D := D) fast c c' side side' T T' tick order account trader vol vol') (log : Bool) {t t' : OhlcTick F} (ht : tick t t')
    {s : ExecState F T.State} {s' : ExecState F T'.State} (hs : Related order account trader vol vol' s s') :
    RunRel (Related order account trader vol vol') (tickStep (D := D) c side T fast log s t) (tickStep (D := D) c' side' T' fast log s' t') := by
  unfold tickStep
  rw [hs.signals, hs.prevIndex, h.side t t' ht]
  refine RunRel.bind (RunRel.lift (ResRel.refl (R := fun a b => a = b) _ fun _ => rfl)) ?_
  rintro sg _ rfl
  refine RunRel.bind (RunRel.emitIf _ _ _) fun _ _ _ => ?_
  refine RunRel.bind (by
    have := execOrders_rel h log ht hs.orders hs.account s.executed
    rw [← hs.executed] at this ⊢
    exact this) ?_
  rintro ⟨a, n⟩ ⟨a', n'⟩ ⟨ha, hn⟩
  dsimp only at ha hn ⊢
  subst hn
  rw [h.volume t t' ht]
  have hr : Related order account trader vol vol' (T := T) (T' := T')
      { s with signals := sg.1, prevIndex := sg.2, account := a, executed := n' }
      { s' with signals := sg.1, prevIndex := sg.2, account := a', executed := n' } :=
    ⟨ha, rfl, rfl, hs.orders, rfl, hs.trader, hs.baseVol, hs.traderVol⟩
  split
  · exact RunRel.pure hr
  · exact traderStep_rel h log ht hr

/-- Two back-tests that keep in step end in related states. -/
theorem ticks_rel (h : Step (D := D) fast c c' side side' T T' tick order account trader vol vol') (log : Bool) {l l' : List (OhlcTick F)}
    (hl : List.Forall₂ tick l l') {s : ExecState F T.State} {s' : ExecState F T'.State} (hs : Related order account trader vol vol' s s') :
    RunRel (Related order account trader vol vol') (l.foldlM (tickStep (D := D) c side T fast log) s)
      (l'.foldlM (tickStep (D := D) c' side' T' fast log) s') :=
  RunRel.foldlM (R := Related order account trader vol vol') (S := tick) (f := tickStep (D := D) c side T fast log)
    (g := tickStep (D := D) c' side' T' fast log) (fun _ _ _ _ hs ht => tickStep_rel h log ht hs) hl hs

end
end Verif.Simulation
