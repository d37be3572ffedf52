import Verif.Spec.Shift
import Verif.Lemmas.Simulation
import Verif.Lemmas.Evaluate

/-!
# Lemmas for shifts in time
-/

namespace Verif.Shift
open Verif FloatOps Spec.Shift Simulation

section
variable {F : Type} [FloatOps F] {d : ℤ}

/-! ### The deque of an indicator -/

/-- A callback, `d` seconds later. -/
def event (d : ℤ) : TickEvent F → TickEvent F
  | .added x => .added (tick d x)
  | .addedRemoved x y => .addedRemoved (tick d x) (tick d y)
  | .updated x y => .updated (tick d x) (tick d y)

/-- A deque of ticks, `d` seconds later. -/
def lastN (d : ℤ) (s : LastN F) : LastN F := ⟨s.n, s.period, s.rev.map (tick d)⟩

theorem pushBack_shift (n : ℕ) (x : OhlcTick F) (rev : List (OhlcTick F)) :
    LastN.pushBack n (tick d x) (rev.map (tick d)) = ((LastN.pushBack n x rev).1.map (tick d), event d (LastN.pushBack n x rev).2) := by
  unfold LastN.pushBack
  rw [List.length_map]
  split
  · rfl
  · rw [List.getLast?_map]
    cases rev.getLast? with
    | none => rfl
    | some y => simp [event]

theorem fill_shift (n : ℕ) (period target : ℤ) (last : OhlcTick F) (rest : List (OhlcTick F)) :
    LastN.fill n period (target + d) (tick d last) (rest.map (tick d)) =
      ((LastN.fill n period target last rest).1.map (tick d), (LastN.fill n period target last rest).2.map (event d)) := by
  induction h : (target - last.ts).toNat using Nat.strong_induction_on generalizing last rest with
  | _ k ih =>
    unfold LastN.fill
    have hts : (tick d last).ts = last.ts + d := rfl
    have hf : flatTick (last.ts + d + period) (tick d last).close = tick d (flatTick (last.ts + period) last.close) := by
      simp only [flatTick, tick]; congr 1; omega
    simp only [hts, hf]
    by_cases hcond : 0 < period ∧ last.ts + period < target
    · rw [dif_pos hcond, dif_pos ⟨hcond.1, by omega⟩]
      have hp := pushBack_shift (d := d) n (flatTick (last.ts + period) last.close) (last :: rest)
      rw [List.map_cons] at hp
      rw [hp, ← List.map_tail, ih _ (by subst h; simp only [flatTick]; omega) _ _ rfl]
      rfl
    · rw [dif_neg hcond, dif_neg (by omega)]; rfl

theorem lastN_update_shift (s : LastN F) (hd : s.period ∣ d) (t : OhlcTick F) (h0 : 0 ≤ t.ts) (h1 : 0 ≤ t.ts + d) :
    (lastN d s).update (tick d t) = (s.update t).map fun r => (lastN d r.1, r.2.map (event d)) := by
  have hadj : s.period * (t.ts + d).tdiv s.period = s.period * t.ts.tdiv s.period + d := by
    obtain ⟨k, rfl⟩ := hd
    rw [Int.tdiv_eq_ediv_of_nonneg h0, Int.tdiv_eq_ediv_of_nonneg h1]
    by_cases hp : s.period = 0
    · rw [hp]; simp
    · rw [Int.add_mul_ediv_left _ _ hp, mul_add]
  have hb : (lastN d s).backfill (s.period * t.ts.tdiv s.period + d) =
      ((s.backfill (s.period * t.ts.tdiv s.period)).1.map (tick d), (s.backfill (s.period * t.ts.tdiv s.period)).2.map (event d)) := by
    unfold LastN.backfill lastN
    cases s.rev with
    | nil => rfl
    | cons a l => exact fill_shift _ _ _ _ _
  unfold LastN.update
  have h1 : (lastN d s).period = s.period := rfl
  have h2 : (tick d t).ts = t.ts + d := rfl
  have h3 : (lastN d s).n = s.n := rfl
  simp only [h1, h2, h3, hadj, hb]
  have hat (x : ℤ) : ({ tick d t with ts := x + d } : OhlcTick F) = tick d { t with ts := x } := rfl
  generalize s.backfill (s.period * t.ts.tdiv s.period) = filled
  obtain ⟨dq, ev⟩ := filled
  cases dq with
  | nil =>
    have := pushBack_shift (d := d) s.n { t with ts := s.period * t.ts.tdiv s.period } []
    rw [List.map_nil] at this
    simp only [List.map_nil, hat, this, Except.map, lastN, List.map_append, List.map_cons]
  | cons last rest =>
    have hl : (tick d last).ts = last.ts + d := rfl
    simp only [List.map_cons, hl, add_lt_add_iff_right]
    split
    · have := pushBack_shift (d := d) s.n { t with ts := s.period * t.ts.tdiv s.period } (last :: rest)
      rw [List.map_cons] at this
      simp only [hat, this, Except.map, lastN, List.map_append, List.map_cons, List.map_nil]
    · apply ResRel.map_eq
      refine ResRel.bind (ResRel.assert (by simp)) fun _ _ _ => ?_
      simp only [ResRel, pure, Except.pure, lastN, List.map_append, List.map_cons, List.map_nil, event, tick]

theorem lastN_update_period (s : LastN F) (t : OhlcTick F) (r : LastN F × List (TickEvent F)) (h : s.update t = .ok r) : r.1.period = s.period := by
  unfold LastN.update at h
  dsimp only at h
  split at h
  · cases h; rfl
  · split at h
    · cases h; rfl
    · simp only [assertThat, bind, Except.bind] at h
      split at h
      · cases h
      · cases h; rfl

/-! ### The volatility -/

variable {D : Type} [FloatOps D] [Wide F D] [Libm F]

/-- The volatility indicator, `d` seconds later. -/
def vol (d : ℤ) (v : Indicator F (VolState F)) : Indicator F (VolState F) := ⟨lastN d v.window, v.state⟩

theorem onEvent_shift (s : VolState F) (e : TickEvent F) (l l' : List (OhlcTick F)) : (Vol.onEvent (D := D)) l' s (event d e) = (Vol.onEvent (D := D)) l s e := by
  cases e <;> rfl

theorem callbacks_shift (es : List (TickEvent F)) : ∀ (s : VolState F) (l l' : List (OhlcTick F)),
    Indicator.callbacks (Vol.onEvent (D := D)) l' s (es.map (event d)) = Indicator.callbacks (Vol.onEvent (D := D)) l s es := by
  induction es with
  | nil => intro s l l'; rfl
  | cons e es ih =>
    intro s l l'
    simp only [List.map_cons, Indicator.callbacks]
    rw [onEvent_shift (D := D) s e (windowAfter l e) (windowAfter l' (event d e))]
    congr 1
    funext a
    exact ih _ _ _

/-- `Volatility::Update`, `d` seconds later. -/
theorem volUpdate_shift (v : Indicator F (VolState F)) (hd : v.window.period ∣ d) (t : OhlcTick F) (h0 : 0 ≤ t.ts) (h1 : 0 ≤ t.ts + d) (b q : F) :
    ResRel (fun w w' => w' = vol d w ∧ w.window.period = v.window.period) (Vol.update (D := D) v t b q) (Vol.update (D := D) (vol d v) (tick d t) b q) := by
  simp only [Vol.update, Indicator.update]
  have h := lastN_update_shift v.window hd t h0 h1
  have hp := lastN_update_period v.window t
  rw [show (vol d v).window = lastN d v.window from rfl, h]
  cases hu : v.window.update t with
  | error e => exact rfl
  | ok r =>
    obtain ⟨w, es⟩ := r
    have hw := hp _ hu
    show ResRel _ (Indicator.callbacks (Vol.onEvent (D := D)) v.window.ticks { v.state with base := b, quote := q } es >>= fun a =>
        pure (⟨w, a⟩ : Indicator F (VolState F)))
      (Indicator.callbacks (Vol.onEvent (D := D)) (lastN d v.window).ticks { v.state with base := b, quote := q } (es.map (event d)) >>= fun a =>
        pure (⟨lastN d w, a⟩ : Indicator F (VolState F)))
    rw [callbacks_shift (D := D) es _ v.window.ticks]
    refine ResRel.bind (R := fun a b => b = a) (ResRel.refl _ fun _ => rfl) ?_
    rintro a _ rfl
    exact ⟨rfl, hw⟩

end

/-! ### Side inputs -/

section
variable {F : Type} [FloatOps F] {d : ℤ}

theorem at_shift (l : List ℤ) (i : ℤ) : SideInput.at' (l.map (· + d)) i = (SideInput.at' l i).map (· + d) := by
  unfold SideInput.at'
  split
  · rfl
  · rw [List.getElem?_map]
    cases l[i.toNat]? <;> rfl

theorem upperBound_shift (s : SideInput F) (first : ℕ) (t : ℤ) : (side d s).upperBound first (t + d) = s.upperBound first t := by
  have h : (side d s).notAfter (t + d) = s.notAfter t := by
    funext k
    simp only [SideInput.notAfter, side, List.getElem?_map]
    cases s.timestamps[k]? <;> simp
  simp only [SideInput.upperBound, h]
  simp only [side, List.length_map]

theorem indexHint_shift (s : SideInput F) (t prev : ℤ) : (side d s).indexHint (t + d) prev = s.indexHint t prev := by
  unfold SideInput.indexHint
  split
  · simp only [SideInput.index, upperBound_shift]
  · have hl : (side d s).timestamps.length = s.timestamps.length := by simp [side]
    have ht : (side d s).timestamps = s.timestamps.map (· + d) := rfl
    simp only [hl, upperBound_shift]
    simp only [ht, at_shift]
    cases SideInput.at' s.timestamps prev with
    | error e => rfl
    | ok p =>
      simp only [Except.map, bind, Except.bind]
      have hge : (t + d ≥ p + d) = (t ≥ p) := by simp
      simp only [hge]
      cases assertThat (decide (t ≥ p)) with
      | error e => rfl
      | ok _ =>
        cases SideInput.at' s.timestamps (prev + 1) <;> cases SideInput.at' s.timestamps (prev + 2) <;>
          simp only [add_lt_add_iff_right]

theorem sideStep_shift (s : Option (SideInput F)) (t : ℤ) (sg : List F) (prev : ℤ) :
    sideStep (s.map (side d)) (t + d) sg prev = sideStep s t sg prev := by
  cases s with
  | none => rfl
  | some s =>
    simp only [sideStep, Option.map_some, indexHint_shift]
    cases s.indexHint t prev with
    | error e => rfl
    | ok i =>
      simp only [bind, Except.bind]
      split
      · simp only [SideInput.timestamp, show (side d s).timestamps = s.timestamps.map (· + d) from rfl, at_shift]
        cases SideInput.at' s.timestamps i with
        | error e => rfl
        | ok r =>
          have hs : (side d s).signals i [] = s.signals i [] := by
            simp only [SideInput.signals, SideInput.numRecords, side, List.length_map]
            rfl
          simp only [Except.map, hs, add_sub_add_right_eq_sub]
      · rfl

end

/-! ### Back-tests -/

section
variable {F D : Type} [FloatOps F] [FloatOps D] [Wide F D] [Libm F] [Libm D] {d : ℤ}

/-- A trader that looks only at differences of times: `R` relates its states in the two runs. -/
def Respects (d : ℤ) (T : Trader F) (R : T.State → T.State → Prop) : Prop :=
  ∀ s s' t sg b q, R s s' → 0 < t.ts → 0 < t.ts + d →
    ResRel (fun r r' => R r.1 r'.1 ∧ r'.2 = r.2) (T.update s t sg b q) (T.update s' (tick d t) sg b q)

theorem executeOrder_shift (a : Account F) (c : AccountConfig F) (o : Order F) (t : OhlcTick F) :
    a.executeOrder c o (tick d t) = a.executeOrder c o t := by
  rfl

theorem step_shift {cfg : AccountConfig F} {sd : Option (SideInput F)} {T : Trader F} {R : T.State → T.State → Prop} {fast : Bool}
    (hT : Respects d T R) (hd : fast = false → kSecondsPerDay ∣ d) :
    Step (D := D) fast cfg cfg sd (sd.map (side d)) T T (fun t t' => t' = tick d t ∧ 0 < t.ts ∧ 0 < t.ts + d) (fun o o' => o' = o)
      (fun a a' => a' = a) R (fun v v' => v' = vol d v ∧ v.window.period = kSecondsPerDay) (fun v v' => v' = vol d v ∧ v.window.period = kSecondsPerDay) where
  volume := by rintro t _ ⟨rfl, -⟩; rfl
  side := by rintro t _ ⟨rfl, -⟩ sg prev; exact sideStep_shift sd t.ts sg prev
  exec := by
    rintro t _ o _ a _ ⟨rfl, -⟩ rfl rfl
    rw [executeOrder_shift]
    exact ResRel.refl _ fun _ => ⟨rfl, rfl⟩
  update := by
    rintro t _ s s' a _ sg ⟨rfl, h0, h1⟩ hs rfl
    refine ResRel.mono (hT s s' t sg _ _ hs h0 h1) ?_
    rintro r r' ⟨h2, h3⟩
    refine ⟨h2, ?_⟩
    rw [h3]
    exact List.forall₂_same.mpr fun _ _ => rfl
  baseVol := by
    rintro hf t _ v _ ⟨rfl, h0, h1⟩ ⟨rfl, hv⟩
    refine ResRel.mono (volUpdate_shift (D := D) v (hv ▸ hd hf) t h0.le h1.le _ _) ?_
    rintro w w' ⟨h2, h3⟩
    exact ⟨h2, h3.trans hv⟩
  traderVol := by
    rintro hf t _ v _ a _ ⟨rfl, h0, h1⟩ rfl ⟨rfl, hv⟩
    refine ResRel.mono (volUpdate_shift (D := D) v (hv ▸ hd hf) t h0.le h1.le _ _) ?_
    rintro w w' ⟨h2, h3⟩
    exact ⟨h2, h3.trans hv⟩

/-- A back-test, `d` seconds later. -/
theorem executeTrader_shift {cfg : AccountConfig F} {sd : Option (SideInput F)} {T : Trader F} {R : T.State → T.State → Prop} {fast : Bool}
    (hT : Respects d T R) (hd : fast = false → kSecondsPerDay ∣ d) (init : T.State) (hinit : R init init)
    (ticks : List (OhlcTick F)) (hpos : ∀ t ∈ ticks, 0 < t.ts ∧ 0 < t.ts + d) (log : Bool) :
    (executeTrader (D := D) cfg (ticks.map (tick d)) (sd.map (side d)) fast T init log).out =
      (executeTrader (D := D) cfg ticks sd fast T init log).out := by
  have key : ResRel (fun r r' => r' = id r) (executeTrader (D := D) cfg ticks sd fast T init log).out
      (executeTrader (D := D) cfg (ticks.map (tick d)) (sd.map (side d)) fast T init log).out := by
    cases ticks with
    | nil => exact rfl
    | cons first rest =>
      simp only [executeTrader, List.map_cons]
      refine RunRel.bind (R := Related (T := T) (T' := T) (fun o o' => o' = o) (fun a a' => a' = a) R
        (fun v v' => v' = vol d v ∧ v.window.period = kSecondsPerDay) (fun v v' => v' = vol d v ∧ v.window.period = kSecondsPerDay)) (RunRel.lift ?_) ?_
      · unfold execInit
        have hm : ResRel (fun v v' => v' = vol d v ∧ v.window.period = kSecondsPerDay) (Vol.make 0 kSecondsPerDay : Res (Indicator F (VolState F)))
            (Vol.make 0 kSecondsPerDay) := by
          have : (Vol.make 0 kSecondsPerDay : Res (Indicator F (VolState F))) = .ok ⟨⟨2, kSecondsPerDay, []⟩, ⟨lit F 0, lit F 0, [], 0, MeanVar.make 0⟩⟩ := by
            simp [Vol.make, LastN.make, assertThat, kSecondsPerDay, bind, Except.bind, pure, Except.pure]
          rw [this]
          exact ⟨rfl, rfl⟩
        refine ResRel.bind hm fun v v' hv => ResRel.bind hm fun w w' hw => ?_
        exact ⟨rfl, rfl, rfl, List.Forall₂.nil, rfl, hinit, hv, hw⟩
      · intro s s' hs
        have hl : List.Forall₂ (fun t t' => t' = tick d t ∧ 0 < t.ts ∧ 0 < t.ts + d) (first :: rest) (tick d first :: rest.map (tick d)) := by
          rw [← List.map_cons, List.forall₂_map_right_iff]
          exact List.forall₂_same.mpr fun t ht => ⟨rfl, hpos t ht⟩
        refine RunRel.bind (ticks_rel (step_shift hT hd) log hl hs) fun s s' hs => RunRel.pure ?_
        have hlast : (tick d first :: rest.map (tick d)).getLast (by simp) = tick d ((first :: rest).getLast (by simp)) := by
          simp only [← List.map_cons]
          exact List.getLast_map _
        rw [hlast]
        have hv (v : Indicator F (VolState F)) : annualised (D := D) (vol d v) = annualised (D := D) v := rfl
        simp only [execResult, hs.account, hs.executed, hs.baseVol.1, hs.traderVol.1, hv, id]
        rfl
  have := ResRel.map_eq key
  rw [this]
  cases (executeTrader (D := D) cfg ticks sd fast T init log).out <;> rfl

end
end Verif.Shift
