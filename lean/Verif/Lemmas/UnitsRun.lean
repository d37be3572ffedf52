import Verif.Lemmas.Units
import Verif.Lemmas.Simulation

/-!
# Lemmas for the unit of the quote currency: indicators and back-tests
-/

namespace Verif.Units
open Verif FloatOps Spec.Units Simulation

variable {K : Type} [Field K] [LinearOrder K] [IsStrictOrderedRing K] [FloorRing K] {c : K}

/-- A callback, in the new unit. -/
def event (c : K) : TickEvent K → TickEvent K
  | .added x => .added (tick c x)
  | .addedRemoved x y => .addedRemoved (tick c x) (tick c y)
  | .updated x y => .updated (tick c x) (tick c y)

/-- A deque of ticks, in the new unit. -/
def lastN (c : K) (s : LastN K) : LastN K := ⟨s.n, s.period, s.rev.map (tick c)⟩

theorem pushBack_scale (n : ℕ) (x : OhlcTick K) (rev : List (OhlcTick K)) :
    LastN.pushBack n (tick c x) (rev.map (tick c)) = ((LastN.pushBack n x rev).1.map (tick c), event c (LastN.pushBack n x rev).2) := by
  unfold LastN.pushBack
  rw [List.length_map]
  split
  · rfl
  · rw [List.getLast?_map]
    cases rev.getLast? with
    | none => rfl
    | some y => simp [event]

theorem fill_scale (n : ℕ) (period target : ℤ) (last : OhlcTick K) (rest : List (OhlcTick K)) :
    LastN.fill n period target (tick c last) (rest.map (tick c)) =
      ((LastN.fill n period target last rest).1.map (tick c), (LastN.fill n period target last rest).2.map (event c)) := by
  induction h : (target - last.ts).toNat using Nat.strong_induction_on generalizing last rest with
  | _ k ih =>
    unfold LastN.fill
    have hts : (tick c last).ts = last.ts := rfl
    have hf : flatTick (last.ts + period) (tick c last).close = tick c (flatTick (last.ts + period) last.close) := rfl
    simp only [hts, hf]
    by_cases hcond : 0 < period ∧ last.ts + period < target
    · rw [dif_pos hcond, dif_pos hcond]
      have hp := pushBack_scale (c := c) n (flatTick (last.ts + period) last.close) (last :: rest)
      rw [List.map_cons] at hp
      rw [hp, ← List.map_tail, ih _ (by subst h; simp only [flatTick]; omega) _ _ rfl]
      rfl
    · rw [dif_neg hcond, dif_neg hcond]; rfl

theorem lastN_update_scale (hc : 0 < c) (s : LastN K) (t : OhlcTick K) :
    (lastN c s).update (tick c t) = (s.update t).map fun r => (lastN c r.1, r.2.map (event c)) := by
  have hb : (lastN c s).backfill (s.period * t.ts.tdiv s.period) =
      ((s.backfill (s.period * t.ts.tdiv s.period)).1.map (tick c), (s.backfill (s.period * t.ts.tdiv s.period)).2.map (event c)) := by
    unfold LastN.backfill lastN
    cases s.rev with
    | nil => rfl
    | cons a l => exact fill_scale _ _ _ _ _
  unfold LastN.update
  have h1 : (lastN c s).period = s.period := rfl
  have h2 : (tick c t).ts = t.ts := rfl
  have h3 : (lastN c s).n = s.n := rfl
  simp only [h1, h2, h3, hb]
  have hat : ∀ x, ({ tick c t with ts := x } : OhlcTick K) = tick c { t with ts := x } := fun _ => rfl
  generalize s.backfill (s.period * t.ts.tdiv s.period) = filled
  obtain ⟨dq, ev⟩ := filled
  cases dq with
  | nil =>
    have := pushBack_scale (c := c) s.n { t with ts := s.period * t.ts.tdiv s.period } []
    rw [List.map_nil] at this
    simp only [List.map_nil, hat, this, Except.map, lastN, List.map_append, List.map_cons]
  | cons last rest =>
    have hl : (tick c last).ts = last.ts := rfl
    simp only [List.map_cons, hl]
    split
    · have := pushBack_scale (c := c) s.n { t with ts := s.period * t.ts.tdiv s.period } (last :: rest)
      rw [List.map_cons] at this
      simp only [hat, this, Except.map, lastN, List.map_append, List.map_cons, List.map_nil]
    · apply ResRel.map_eq
      refine ResRel.bind (ResRel.assert rfl) fun _ _ _ => ?_
      simp only [ResRel, pure, Except.pure, lastN, List.map_append, List.map_cons, List.map_nil, event, tick, max_scale hc, min_scale hc]

variable [Libm K]

/-- The volatility indicator, in the new unit: the variance of the logarithmic returns stays. -/
def volState (c : K) (s : VolState K) : VolState K := ⟨s.base, c * s.quote, s.portfolio.map (c * ·), s.num, s.variance⟩

/-- The volatility indicator, in the new unit. -/
def vol (c : K) (v : Indicator K (VolState K)) : Indicator K (VolState K) := ⟨lastN c v.window, volState c v.state⟩

theorem logReturn_scale (hc : 0 < c) (l : List K) : Vol.logReturn (l.map (c * ·)) = Vol.logReturn l := by
  unfold Vol.logReturn
  rcases l with _ | ⟨x, _ | ⟨y, _ | ⟨z, l⟩⟩⟩ <;> simp [div_scale hc]

theorem value_scale (s : VolState K) (p : K) : Vol.value (volState c s) (c * p) = c * Vol.value s p := by
  simp only [Vol.value, volState, ex_mul, ex_add]; ring

theorem ResRel.pure' {α β : Type} {R : α → β → Prop} {a : α} {b : β} (h : R a b) : ResRel R (Except.ok a) (Except.ok b) := h

theorem onEvent_scale (hc : 0 < c) (s : VolState K) (e : TickEvent K) (d d' : List (OhlcTick K)) :
    Vol.onEvent d' (volState c s) (event c e) = (Vol.onEvent d s e).map (volState c) := by
  apply ResRel.map_eq
  have hone (x : K) : [c * x] = [x].map (c * ·) := rfl
  have ho (x : OhlcTick K) : (tick c x).opn = c * x.opn := rfl
  have hcl (x : OhlcTick K) : (tick c x).close = c * x.close := rfl
  have hlog (l : List K) (x : K) : ResRel (fun a b => b = a) (Vol.logReturn (l ++ [x])) (Vol.logReturn (l.map (c * ·) ++ [c * x])) := by
    rw [hone, ← List.map_append, logReturn_scale hc]
    exact ResRel.refl _ fun _ => rfl
  have htail (l : List K) (x : K) : ResRel (fun a b => b = volState c a)
      (Vol.logReturn (l ++ [Vol.value s x]) >>= fun r => pure
        ({ s with portfolio := l ++ [Vol.value s x], num := s.num + 1, variance := s.variance.add r } : VolState K))
      (Vol.logReturn (l.map (c * ·) ++ [Vol.value (volState c s) (c * x)]) >>= fun r => pure
        ({ volState c s with portfolio := l.map (c * ·) ++ [Vol.value (volState c s) (c * x)], num := (volState c s).num + 1, variance := (volState c s).variance.add r } : VolState K)) := by
    rw [value_scale]
    refine ResRel.bind (hlog l _) ?_
    rintro r _ rfl
    simp [ResRel, pure, Except.pure, volState]
  have hp : (volState c s).portfolio = s.portfolio.map (c * ·) := rfl
  have hn : (volState c s).num = s.num := rfl
  cases e with
  | added x =>
    simp only [event, Vol.onEvent, Vol.onAdded]
    refine ResRel.bind (ResRel.assert rfl) fun _ _ _ => ?_
    rw [hp, hn, List.isEmpty_map]
    split
    · refine ResRel.bind (ResRel.assert rfl) fun _ _ _ => ?_
      have := htail [Vol.value s x.opn] x.close
      rw [List.map_cons, List.map_nil, ← value_scale] at this
      exact this
    · rcases s.portfolio with _ | ⟨y, rest⟩
      · exact rfl
      · exact htail rest x.close
  | addedRemoved x y =>
    simp only [event, Vol.onEvent, Vol.onAddedRemoved]
    refine ResRel.bind (ResRel.assert rfl) fun _ _ _ => ?_
    rw [hp]
    rcases s.portfolio with _ | ⟨z, rest⟩
    · exact rfl
    · exact htail rest y.close
  | updated x y =>
    simp only [event, Vol.onEvent, Vol.onUpdated]
    refine ResRel.bind (ResRel.assert rfl) fun _ _ _ => ?_
    rw [hp, hcl, value_scale]
    by_cases hnil : s.portfolio = []
    · simp only [hnil, List.map_nil, if_true]
      exact rfl
    · have hnil' : s.portfolio.map (c * ·) ≠ [] := by simpa using hnil
      rw [if_neg hnil, if_neg hnil', ← List.map_dropLast]
      refine ResRel.bind (hlog _ _) ?_
      rintro r _ rfl
      refine ResRel.bind (R := fun a b => b = a) (ResRel.refl _ fun _ => rfl) ?_
      rintro w _ rfl
      simp [ResRel, pure, Except.pure, volState]

theorem callbacks_scale (hc : 0 < c) (es : List (TickEvent K)) : ∀ (s : VolState K) (d d' : List (OhlcTick K)),
    Indicator.callbacks Vol.onEvent d' (volState c s) (es.map (event c)) = (Indicator.callbacks Vol.onEvent d s es).map (volState c) := by
  induction es with
  | nil => intro s d d'; rfl
  | cons e es ih =>
    intro s d d'
    apply ResRel.map_eq
    simp only [List.map_cons, Indicator.callbacks]
    refine ResRel.bind (ResRel.of_map (onEvent_scale hc s e _ _)) ?_
    rintro a _ rfl
    exact ResRel.of_map (ih _ _ _)

/-- `Volatility::Update` in the new unit. -/
theorem volUpdate_scale (hc : 0 < c) (v : Indicator K (VolState K)) (t : OhlcTick K) (b q : K) :
    Vol.update (vol c v) (tick c t) b (c * q) = (Vol.update v t b q).map (vol c) := by
  apply ResRel.map_eq
  simp only [Vol.update, Indicator.update]
  refine ResRel.bind (ResRel.of_map (lastN_update_scale hc v.window t)) ?_
  rintro ⟨w, es⟩ _ rfl
  refine ResRel.bind (ResRel.of_map (callbacks_scale hc es { v.state with base := b, quote := q } _ _)) ?_
  rintro a _ rfl
  exact rfl

end Verif.Units
