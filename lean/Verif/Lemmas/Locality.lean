import Verif.Lemmas.ExecTick
import Verif.Lemmas.Evaluate

/-!
# What a back-test sees of its side input (for C112)
-/

set_option linter.unusedSectionVars false

namespace Verif.Props
open FloatOps Spec

section
variable {F D : Type} [FloatOps F] [FloatOps D] [Wide F D] [Libm F] [Libm D]

/-- Records known at some time stay known. -/
theorem knownLength_mono (recs : Option (List (SideInputRecord F))) {a b : ℤ} (h : a ≤ b) :
    (known recs a).length ≤ (known recs b).length := by
  unfold known
  apply List.Sublist.length_le
  have : (recs.getD []).filter (fun r => decide (r.ts ≤ a)) =
      ((recs.getD []).filter (fun r => decide (r.ts ≤ b))).filter (fun r => decide (r.ts ≤ a)) := by
    rw [List.filter_filter]
    apply List.filter_congr
    intro r _
    by_cases h1 : r.ts ≤ a <;> by_cases h2 : r.ts ≤ b <;> simp [h1, h2]
    omega
  rw [this]
  exact List.filter_sublist

/-- The side-input step when time does not run backwards: the signals of the specification, never a fault. -/
theorem sideStep_forward {recs : Option (List (SideInputRecord F))} {side : Option (SideInput F)} (h : SideOf recs side)
    {now ts : ℤ} (hle : now ≤ ts) {signals : List F} {prev : ℤ} (hp : prev < (known recs now).length) (h0 : prev < 0 → signals = []) :
    ∃ p : ℤ, sideStep side ts signals prev = .ok (signalsAt recs ts, p) ∧ p < (known recs ts).length ∧ (p < 0 → signalsAt recs ts = []) := by
  have hmono := knownLength_mono recs hle
  have hlen : (known recs ts).length ≤ (recs.getD []).length := List.length_filter_le _ _
  rw [sideStep_eq h ts signals prev (by omega) (by rintro rfl; simpa [known] using hp)]
  unfold sideSpec signalsAt
  by_cases hc : known recs ts = [] ∧ prev < 0
  · rw [if_pos hc, hc.1, h0 hc.2]
    exact ⟨prev, rfl, by simpa using hc.2, fun _ => rfl⟩
  · rw [if_neg hc, if_pos (by omega)]
    refine ⟨((known recs ts).length : ℤ) - 1, rfl, by omega, fun hneg => ?_⟩
    have : known recs ts = [] := List.eq_nil_of_length_eq_zero (by omega)
    rw [this]; rfl

/-- A run up to the position in the side input. -/
def seen {S : Type} (x : Run (Event F) (ExecState F S)) : List (Event F) × Res (ExecState F S) :=
  (x.trace, x.out.map (fun s => { s with prevIndex := -1 }))

/-- One round, given the signals. -/
def roundWith (c : AccountConfig F) (T : Trader F) (fast log : Bool) (sg : List F) (s : ExecState F T.State) (t : OhlcTick F) :
    Run (Event F) (ExecState F T.State) :=
  tickStep c none T fast log { s with signals := sg } t

theorem tickStep_seen {c : AccountConfig F} {side : Option (SideInput F)} {T : Trader F} {fast log : Bool} {s s' : ExecState F T.State} {t : OhlcTick F}
    {sg : List F} {p : ℤ} (hside : sideStep side t.ts s.signals s.prevIndex = .ok (sg, p))
    (hs : { s with prevIndex := -1 } = { s' with prevIndex := -1 }) :
    seen (tickStep (D := D) c side T fast log s t) = seen (roundWith (D := D) c T fast log sg s' t) ∧
    ∀ r, (tickStep (D := D) c side T fast log s t).out = .ok r → r.signals = sg ∧ r.prevIndex = p := by
  obtain ⟨a, b, d, e, f, g, k, l⟩ := s
  obtain ⟨a', b', d', e', f', g', k', l'⟩ := s'
  simp only [ExecState.mk.injEq] at hs
  obtain ⟨rfl, rfl, -, rfl, rfl, rfl, rfl, rfl⟩ := hs
  have hnone : ∀ ts (sg : List F) (q : ℤ), sideStep (none : Option (SideInput F)) ts sg q = .ok (sg, q) := fun _ _ _ => rfl
  unfold roundWith
  rw [tickStep_eq, tickStep_eq, hside, hnone]
  dsimp only
  cases hx : (execOrders log c t e a f).out with
  | error e => exact ⟨rfl, fun r h => by cases h⟩
  | ok r =>
    dsimp only
    split
    · rw [traderStep_eq, traderStep_eq]
      dsimp only
      cases T.update g t sg r.1.baseBalance r.1.quoteBalance with
      | error e => exact ⟨rfl, fun r h => by cases h⟩
      | ok u =>
        dsimp only
        have hv : volPart fast t (⟨r.1, sg, p, u.2, r.2, u.1, k, l⟩ : ExecState F T.State) =
            (volPart fast t (⟨r.1, sg, d', u.2, r.2, u.1, k, l⟩ : ExecState F T.State)).map (fun s => { s with prevIndex := p }) := by
          unfold volPart
          split
          · rfl
          · simp only [bind, Except.bind, pure, Except.pure]
            cases Vol.update k t (lit F 1) (lit F 0) with
            | error e => rfl
            | ok bv =>
              dsimp only
              cases Vol.update l t r.1.baseBalance r.1.quoteBalance <;> rfl
        refine ⟨?_, fun x hx => ?_⟩
        · unfold seen
          rw [hv]
          cases volPart fast t (⟨r.1, sg, d', u.2, r.2, u.1, k, l⟩ : ExecState F T.State) <;> rfl
        · obtain ⟨-, h1, h2, -⟩ := volPart_ok hx
          exact ⟨h1, h2⟩
    · exact ⟨rfl, fun r h => by cases h; exact ⟨rfl, rfl⟩⟩

/-- The loop over ticks in order of time, up to the position in the side input: only the signals at the ticks matter. -/
theorem loop_seen {recs : Option (List (SideInputRecord F))} {side : Option (SideInput F)} (h : SideOf recs side) (c : AccountConfig F)
    (T : Trader F) (fast log : Bool) (ticks : List (OhlcTick F)) :
    ∀ (now : ℤ) (s s' : ExecState F T.State), (∀ t ∈ ticks, now ≤ t.ts) → SortedBy OhlcTick.ts ticks →
      { s with prevIndex := -1 } = { s' with prevIndex := -1 } →
      s.prevIndex < (known recs now).length → (s.prevIndex < 0 → s.signals = []) →
      seen (ticks.foldlM (tickStep (D := D) c side T fast log) s) =
        seen (ticks.foldlM (fun s t => roundWith (D := D) c T fast log (signalsAt recs t.ts) s t) s') := by
  induction ticks with
  | nil => intro now s s' _ _ hs _ _; simp only [List.foldlM_nil]; exact Prod.ext rfl (congrArg Except.ok hs)
  | cons t rest ih =>
    intro now s s' hnow hsorted hs hp h0
    obtain ⟨p, h1, h2, h3⟩ := sideStep_forward h (hnow t (by simp)) hp h0
    obtain ⟨k1, k2⟩ := tickStep_seen (D := D) (c := c) (T := T) (fast := fast) (log := log) h1 hs
    simp only [List.foldlM_cons, Run.bind_eq]
    cases hx : (tickStep (D := D) c side T fast log s t).out with
    | error e =>
      have hy : (roundWith (D := D) c T fast log (signalsAt recs t.ts) s' t).out = .error e := by
        have := congrArg Prod.snd k1
        simp only [seen, hx] at this
        cases hy : (roundWith (D := D) c T fast log (signalsAt recs t.ts) s' t).out with
        | error f => rw [hy] at this; simpa [Except.map] using this.symm
        | ok r => rw [hy] at this; simp [Except.map] at this
      rw [Run.andThen_error hx, Run.andThen_error hy]
      have a3 := congrArg Prod.fst k1
      simp only [seen] at a3 ⊢
      rw [a3]
    | ok r =>
      have hy : ∃ r', (roundWith (D := D) c T fast log (signalsAt recs t.ts) s' t).out = .ok r' ∧
          { r with prevIndex := -1 } = { r' with prevIndex := -1 } := by
        have := congrArg Prod.snd k1
        simp only [seen, hx] at this
        cases hy : (roundWith (D := D) c T fast log (signalsAt recs t.ts) s' t).out with
        | error f => rw [hy] at this; simp [Except.map] at this
        | ok r' => rw [hy] at this; exact ⟨r', rfl, Except.ok.inj this⟩
      obtain ⟨r', hy, hr⟩ := hy
      obtain ⟨g1, g2⟩ := k2 r hx
      rw [Run.andThen_ok hx, Run.andThen_ok hy]
      have hrest := ih t.ts r r' (fun x hx => (List.pairwise_cons.mp hsorted).1 x hx) (List.pairwise_cons.mp hsorted).2 hr (by omega) (by
        intro hneg; rw [g1]; exact h3 (by omega))
      have a1 := congrArg Prod.fst hrest
      have a2 := congrArg Prod.snd hrest
      have a3 := congrArg Prod.fst k1
      simp only [seen] at a1 a2 a3 ⊢
      rw [a1, a2, a3]

/-- A back-test on ticks in order of time depends on the side input only through the signals at these ticks. -/
theorem executeTrader_signals {recs₁ recs₂ : Option (List (SideInputRecord F))} {side₁ side₂ : Option (SideInput F)}
    (h₁ : SideOf recs₁ side₁) (h₂ : SideOf recs₂ side₂) (c : AccountConfig F) (ticks : List (OhlcTick F)) (hs : SortedBy OhlcTick.ts ticks)
    (hsg : ∀ t ∈ ticks, signalsAt recs₁ t.ts = signalsAt recs₂ t.ts) (fast : Bool) (T : Trader F) (init : T.State) (log : Bool) :
    executeTrader (D := D) c ticks side₁ fast T init log = executeTrader (D := D) c ticks side₂ fast T init log := by
  cases ticks with
  | nil => rfl
  | cons t rest =>
    unfold executeTrader
    simp only [Run.bind_eq]
    cases hi : execInit c T init with
    | error e => rw [Run.andThen_error rfl, Run.andThen_error rfl]
    | ok s =>
      have hs0 : s.signals = [] ∧ s.prevIndex = -1 := by
        unfold execInit at hi
        simp only [bind, Except.bind, pure, Except.pure] at hi
        split at hi
        · cases hi
        · split at hi
          · cases hi
          · cases hi; exact ⟨rfl, rfl⟩
      rw [Run.andThen_ok (x := Run.lift (Except.ok s)) rfl, Run.andThen_ok (x := Run.lift (Except.ok s)) rfl]
      have hle : ∀ x ∈ t :: rest, t.ts ≤ x.ts := by
        intro x hx
        rcases List.mem_cons.mp hx with rfl | hx
        · exact le_refl _
        · exact (List.pairwise_cons.mp hs).1 x hx
      have e1 := loop_seen (D := D) h₁ c T fast log (t :: rest) t.ts s s hle hs rfl (by omega) (fun _ => hs0.1)
      have e2 := loop_seen (D := D) h₂ c T fast log (t :: rest) t.ts s s hle hs rfl (by omega) (fun _ => hs0.1)
      have hcongr : ∀ (l : List (OhlcTick F)) (x : ExecState F T.State), (∀ t ∈ l, signalsAt recs₁ t.ts = signalsAt recs₂ t.ts) →
          l.foldlM (fun s t => roundWith (D := D) c T fast log (signalsAt recs₁ t.ts) s t) x =
          l.foldlM (fun s t => roundWith (D := D) c T fast log (signalsAt recs₂ t.ts) s t) x := by
        intro l
        induction l with
        | nil => intros; rfl
        | cons a l ih =>
          intro x hl
          simp only [List.foldlM_cons]
          rw [hl a (by simp)]
          congr 1
          funext y
          exact ih y (fun t ht => hl t (by simp [ht]))
      rw [hcongr _ s hsg, ← e2] at e1
      have a1 := congrArg Prod.fst e1
      have a2 := congrArg Prod.snd e1
      simp only [seen] at a1 a2
      generalize (t :: rest).foldlM (tickStep (D := D) c side₁ T fast log) s = x at a1 a2 ⊢
      generalize (t :: rest).foldlM (tickStep (D := D) c side₂ T fast log) s = y at a1 a2 ⊢
      obtain ⟨tx, ox⟩ := x
      obtain ⟨ty, oy⟩ := y
      dsimp only at a1 a2
      subst a1
      cases ox with
      | error e =>
        cases oy with
        | error f => cases a2; rfl
        | ok y => cases a2
      | ok x =>
        cases oy with
        | error f => cases a2
        | ok y =>
          have a3 := Except.ok.inj a2
          obtain ⟨q1, q2, q3, q4, q5, q6, q7, q8⟩ := x
          obtain ⟨w1, w2, w3, w4, w5, w6, w7, w8⟩ := y
          simp only [ExecState.mk.injEq] at a3
          obtain ⟨rfl, rfl, -, rfl, rfl, rfl, rfl, rfl⟩ := a3
          rfl

end
end Verif.Props
