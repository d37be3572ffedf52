import Verif.Lemmas.Simulation
import Verif.Spec.Volume

/-!
# Lemmas for the unit of the volume
-/

namespace Verif.Volume
open Verif FloatOps Simulation Spec

variable {F : Type} [FloatOps F]

omit [FloatOps F] in
theorem samePrices_refl (t : OhlcTick F) : SamePrices t t := ⟨rfl, rfl, rfl, rfl, rfl⟩

/-- Two callbacks whose ticks differ at most in the volume. -/
def SameEvent : TickEvent F → TickEvent F → Prop
  | .added x, .added y => SamePrices x y
  | .addedRemoved r x, .addedRemoved r' y => SamePrices r r' ∧ SamePrices x y
  | .updated o x, .updated o' y => SamePrices o o' ∧ SamePrices x y
  | _, _ => False

/-- Two deques whose ticks differ at most in the volume. -/
def SameTicks (l l' : List (OhlcTick F)) : Prop := List.Forall₂ SamePrices l l'

omit [FloatOps F] in
theorem SameTicks.dropLast {l l' : List (OhlcTick F)} (h : SameTicks l l') : SameTicks l.dropLast l'.dropLast := by
  induction h with
  | nil => exact .nil
  | cons h1 h2 ih =>
    cases h2 with
    | nil => exact .nil
    | cons h3 h4 => exact .cons h1 ih

omit [FloatOps F] in
theorem SameTicks.getLast? {l l' : List (OhlcTick F)} (h : SameTicks l l') :
    (l.getLast? = none ∧ l'.getLast? = none) ∨ ∃ x y, l.getLast? = some x ∧ l'.getLast? = some y ∧ SamePrices x y := by
  induction h with
  | nil => exact .inl ⟨rfl, rfl⟩
  | cons h1 h2 ih =>
    cases h2 with
    | nil => exact .inr ⟨_, _, rfl, rfl, h1⟩
    | cons h3 h4 => simpa only [List.getLast?_cons_cons] using ih

omit [FloatOps F] in
theorem SameTicks.tail {l l' : List (OhlcTick F)} (h : SameTicks l l') : SameTicks l.tail l'.tail := by
  cases h with
  | nil => exact .nil
  | cons _ h => exact h

omit [FloatOps F] in
theorem pushBack_same (n : ℕ) {x y : OhlcTick F} (h : SamePrices x y) {l l' : List (OhlcTick F)} (hl : SameTicks l l') :
    SameTicks (LastN.pushBack n x l).1 (LastN.pushBack n y l').1 ∧ SameEvent (LastN.pushBack n x l).2 (LastN.pushBack n y l').2 := by
  unfold LastN.pushBack
  rw [hl.length_eq]
  split
  · exact ⟨.cons h hl, h⟩
  · rcases hl.getLast? with ⟨e, e'⟩ | ⟨a, b, e, e', hab⟩
    · rw [e, e']; exact ⟨.nil, h, h⟩
    · rw [e, e']; exact ⟨.cons h hl.dropLast, hab, h⟩

theorem fill_same (n : ℕ) (period target : ℤ) {last last' : OhlcTick F} (h : SamePrices last last') {rest rest' : List (OhlcTick F)}
    (hl : SameTicks rest rest') :
    SameTicks (LastN.fill n period target last rest).1 (LastN.fill n period target last' rest').1 ∧
    List.Forall₂ SameEvent (LastN.fill n period target last rest).2 (LastN.fill n period target last' rest').2 := by
  induction hk : (target - last.ts).toNat using Nat.strong_induction_on generalizing last last' rest rest' with
  | _ k ih =>
    unfold LastN.fill
    by_cases hc : 0 < period ∧ last.ts + period < target
    · rw [dif_pos hc, dif_pos (by rw [h.ts]; exact hc)]
      have hf : SamePrices (flatTick (last.ts + period) last.close) (flatTick (last'.ts + period) last'.close) := by
        rw [h.ts, h.close]; exact samePrices_refl _
      have hp := pushBack_same n hf (List.Forall₂.cons h hl)
      have ht : SameTicks (LastN.pushBack n (flatTick (last.ts + period) last.close) (last :: rest)).1.tail
          (LastN.pushBack n (flatTick (last'.ts + period) last'.close) (last' :: rest')).1.tail := by
        exact SameTicks.tail hp.1
      have := ih _ (by subst hk; simp only [flatTick]; omega) hf ht rfl
      exact ⟨this.1, .cons hp.2 this.2⟩
    · rw [dif_neg hc, dif_neg (by rw [h.ts]; exact hc)]
      exact ⟨.cons h hl, .nil⟩

/-- Two windows whose ticks differ at most in the volume. -/
def SameWindow (s s' : LastN F) : Prop := s'.n = s.n ∧ s'.period = s.period ∧ SameTicks s.rev s'.rev

theorem update_same {s s' : LastN F} (h : SameWindow s s') {t t' : OhlcTick F} (ht : SamePrices t t') :
    ResRel (fun r r' => SameWindow r.1 r'.1 ∧ List.Forall₂ SameEvent r.2 r'.2) (s.update t) (s'.update t') := by
  obtain ⟨hn, hp, hr⟩ := h
  have hb : SameTicks (s.backfill (s.period * t.ts.tdiv s.period)).1 (s'.backfill (s.period * t.ts.tdiv s.period)).1 ∧
      List.Forall₂ SameEvent (s.backfill (s.period * t.ts.tdiv s.period)).2 (s'.backfill (s.period * t.ts.tdiv s.period)).2 := by
    unfold LastN.backfill
    rw [hn, hp]
    generalize s.rev = a at hr
    generalize s'.rev = b at hr
    cases hr with
    | nil => exact ⟨.nil, .nil⟩
    | cons h1 h2 => exact fill_same _ _ _ h1 h2
  unfold LastN.update
  rw [hp, ht.ts, hn]
  dsimp only
  generalize hf : s.backfill (s.period * t.ts.tdiv s.period) = f at hb
  generalize hf' : s'.backfill (s.period * t.ts.tdiv s.period) = f' at hb
  obtain ⟨dq, ev⟩ := f
  obtain ⟨dq', ev'⟩ := f'
  obtain ⟨hd, he⟩ := hb
  have hat : SamePrices ({ t with ts := s.period * t.ts.tdiv s.period } : OhlcTick F) { t' with ts := s.period * t.ts.tdiv s.period } :=
    ⟨rfl, ht.opn, ht.high, ht.low, ht.close⟩
  dsimp only at hd he ⊢
  cases hd with
  | nil =>
    have := pushBack_same s.n hat (l := []) (l' := []) .nil
    exact ⟨⟨rfl, rfl, this.1⟩, List.rel_append he (.cons this.2 .nil)⟩
  | @cons last last' rest rest' h1 h2 =>
    dsimp only
    rw [h1.ts]
    split
    · have := pushBack_same s.n hat (List.Forall₂.cons h1 h2)
      exact ⟨⟨rfl, rfl, this.1⟩, List.rel_append he (.cons this.2 .nil)⟩
    · refine ResRel.bind (ResRel.assert rfl) fun _ _ _ => ?_
      have hx : SamePrices ({ last with high := fmax last.high t.high, low := fmin last.low t.low, close := t.close, volume := last.volume +. t.volume } : OhlcTick F)
          { last' with high := fmax last'.high t'.high, low := fmin last'.low t'.low, close := t'.close, volume := last'.volume +. t'.volume, ts := last.ts } := by
        refine ⟨rfl, h1.opn, ?_, ?_, ht.close⟩
        · simp only [h1.high, ht.high]
        · simp only [h1.low, ht.low]
      exact ⟨⟨rfl, rfl, .cons hx h2⟩, List.rel_append he (.cons ⟨h1, hx⟩ .nil)⟩

variable {D : Type} [FloatOps D] [Wide F D] [Libm F] [Libm D]

/-- Two volatility indicators whose windows differ at most in the volume. -/
def SameVol (v v' : Indicator F (VolState F)) : Prop := SameWindow v.window v'.window ∧ v'.state = v.state

theorem onEvent_same (s : VolState F) {e e' : TickEvent F} (h : SameEvent e e') (d d' : List (OhlcTick F)) :
    Vol.onEvent (D := D) d' s e' = Vol.onEvent (D := D) d s e := by
  cases e <;> cases e' <;> simp only [SameEvent] at h
  · simp only [Vol.onEvent, Vol.onAdded, h.close, h.opn]
  · simp only [Vol.onEvent, Vol.onAddedRemoved, h.2.close]
  · simp only [Vol.onEvent, Vol.onUpdated, h.2.close]

theorem callbacks_same {es es' : List (TickEvent F)} (h : List.Forall₂ SameEvent es es') : ∀ (s : VolState F) (d d' : List (OhlcTick F)),
    Indicator.callbacks (Vol.onEvent (D := D)) d' s es' = Indicator.callbacks (Vol.onEvent (D := D)) d s es := by
  induction h with
  | nil => intro _ _ _; rfl
  | cons h1 h2 ih =>
    intro s d d'
    simp only [Indicator.callbacks]
    rw [onEvent_same (D := D) s h1 (windowAfter d _) (windowAfter d' _)]
    cases Vol.onEvent (D := D) (windowAfter d _) s _ with
    | error e => rfl
    | ok a => exact ih a _ _

theorem volUpdate_same {v v' : Indicator F (VolState F)} (h : SameVol v v') {t t' : OhlcTick F} (ht : SamePrices t t') (b q : F) :
    ResRel SameVol (Vol.update (D := D) v t b q) (Vol.update (D := D) v' t' b q) := by
  simp only [Vol.update, Indicator.update, h.2]
  refine ResRel.bind (update_same h.1 ht) ?_
  rintro ⟨w, es⟩ ⟨w', es'⟩ ⟨h1, h2⟩
  dsimp only
  rw [callbacks_same (D := D) h2 { v.state with base := b, quote := q } _ _]
  refine ResRel.bind (R := fun a b => b = a) (ResRel.refl _ fun _ => rfl) ?_
  rintro a _ rfl
  exact ⟨h1, rfl⟩

end Verif.Volume
