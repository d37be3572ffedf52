import Verif.Model.Machine
import Verif.Spec.Machine
import Verif.Spec.Traders
import Verif.Lemmas.ExecTick
import Verif.Lemmas.Account
import Verif.Props.SideInput
import Verif.Props.Csv
import Verif.Num.Exact
import Mathlib.Data.Rat.Floor
import Mathlib.Tactic.NormNum

/-!
# C92: with sane dates the 64-bit timestamp arithmetic never overflows
-/

set_option linter.unusedSectionVars false

namespace Verif.Props
open Verif Verif.Spec FloatOps

theorem int64_ok {x : ℤ} (h1 : -(2 ^ 63) ≤ x) (h2 : x < 2 ^ 63) : Machine.int64 x = .ok x := by
  unfold Machine.int64
  rw [if_pos ⟨h1, h2⟩]

theorem tdiv_range {t n : ℤ} (ht : Dated t) (hn : PositiveInt n) : 0 ≤ t.tdiv n ∧ t.tdiv n ≤ t ∧ 0 ≤ n * t.tdiv n ∧
    n * t.tdiv n ≤ t := by
  obtain ⟨h0, -⟩ := ht
  obtain ⟨hp, -⟩ := hn
  rw [Int.tdiv_eq_ediv_of_nonneg h0]
  have h1 : 0 ≤ t / n := Int.ediv_nonneg h0 hp.le
  have h2 : n * (t / n) ≤ t := Int.mul_ediv_self_le hp.ne'
  have h3 : 0 ≤ n * (t / n) := mul_nonneg hp.le h1
  refine ⟨h1, ?_, h3, h2⟩
  nlinarith

/-- **C92** (gaps). Comparing two gaps between dated moments, and measuring one, overflows nowhere, whichever pairs the
priority queue compares. -/
theorem C92_gaps (l r : HistoryGap) (h1 : Dated l.1) (h2 : Dated l.2) (h3 : Dated r.1) (h4 : Dated r.2) :
    Machine.gapCmp l r = .ok (gapCmp l r) ∧ Machine.gapDuration l = .ok (l.2 - l.1) := by
  obtain ⟨a1, a2⟩ := h1
  obtain ⟨b1, b2⟩ := h2
  obtain ⟨c1, c2⟩ := h3
  obtain ⟨d1, d2⟩ := h4
  constructor
  · unfold Machine.gapCmp gapCmp
    rw [int64_ok (x := l.2 - l.1) (by omega) (by omega)]
    simp only [bind, Except.bind, pure, Except.pure]
    rw [int64_ok (x := l.2 - l.1 - r.2) (by omega) (by omega)]
    simp only
    rw [int64_ok (x := l.2 - l.1 - r.2 + r.1) (by omega) (by omega)]
  · exact int64_ok (by omega) (by omega)

section
variable {F : Type} [FloatOps F]

section
variable [Libm F]

theorem isOutlier_machine (maxDev : F) (p r : PriceRecord F) (rest : List (PriceRecord F)) (hp : Dated p.ts) (hr : Dated r.ts) :
    Machine.isOutlier maxDev p r rest = .ok (isOutlier maxDev p r rest) := by
  obtain ⟨a1, a2⟩ := hp
  obtain ⟨b1, b2⟩ := hr
  unfold Machine.isOutlier isOutlier
  rw [int64_ok (by omega) (by omega)]
  simp only [bind, Except.bind, pure, Except.pure]
  split <;> rfl

theorem removeOutliersFrom_machine (maxDev : F) (l : List (PriceRecord F)) : ∀ (idx : ℕ) (prev : Option (PriceRecord F)),
    (∀ p ∈ prev, Dated p.ts) → (∀ r ∈ l, Dated r.ts) →
    Machine.removeOutliersFrom maxDev idx prev l = .ok (removeOutliersFrom maxDev idx prev l) := by
  induction l with
  | nil => intro idx prev _ _; unfold Machine.removeOutliersFrom removeOutliersFrom; rfl
  | cons r rest ih =>
    intro idx prev hp hl
    have hr : Dated r.ts := hl r (by simp)
    have hrest : ∀ x ∈ rest, Dated x.ts := fun x hx => hl x (by simp [hx])
    have hsome : ∀ p ∈ some r, Dated p.ts := by intro p hp; cases hp; exact hr
    unfold Machine.removeOutliersFrom removeOutliersFrom
    by_cases hb : r.bad = true
    · rw [if_pos hb, if_pos hb, ih (idx + 1) prev hp hrest]; rfl
    · rw [if_neg hb, if_neg hb]
      cases prev with
      | none =>
        simp only
        rw [ih (idx + 1) (some r) hsome hrest]; rfl
      | some p =>
        simp only
        rw [isOutlier_machine maxDev p r rest (hp p rfl) hr]
        simp only [bind, Except.bind, pure, Except.pure]
        split
        · rw [ih (idx + 1) (some p) hp hrest]
        · rw [ih (idx + 1) (some r) hsome hrest]

/-- **C92** (outliers). `RemoveOutliers` on a history of dated records: no overflow. -/
theorem C92_outliers (maxDev : F) (l : List (PriceRecord F)) (hl : ∀ r ∈ l, Dated r.ts) :
    Machine.removeOutliers maxDev l = .ok (removeOutliers maxDev l) :=
  removeOutliersFrom_machine maxDev l 0 none (by simp) hl

end

/-! ### Resampling -/

theorem fillGaps_machine (rate target : ℤ) (hr : PositiveInt rate) (ht : Dated target) (acc : List (OhlcTick F))
    (ha : ∀ x ∈ acc, Dated x.ts) :
    Machine.fillGaps rate target acc = .ok (fillGaps rate target acc) ∧ ∀ x ∈ fillGaps rate target acc, Dated x.ts := by
  have key : ∀ (n : ℕ) (acc : List (OhlcTick F)), (∀ x ∈ acc, Dated x.ts) →
      (target - (match acc with | [] => 0 | t :: _ => t.ts)).toNat = n →
      Machine.fillGaps rate target acc = .ok (fillGaps rate target acc) ∧ ∀ x ∈ fillGaps rate target acc, Dated x.ts := by
    intro n
    induction n using Nat.strong_induction_on with
    | _ n ih =>
      intro acc ha hn
      cases acc with
      | nil => unfold Machine.fillGaps fillGaps; exact ⟨rfl, by simp⟩
      | cons last rest =>
        have hl := ha last (by simp)
        obtain ⟨l1, l2⟩ := hl
        obtain ⟨r1, r2⟩ := hr
        obtain ⟨t1, t2⟩ := ht
        unfold Machine.fillGaps fillGaps
        rw [if_pos (by omega)]
        by_cases hc : 0 < rate ∧ last.ts + rate < target
        · rw [dif_pos hc, dif_pos hc]
          simp only at hn
          refine ih _ ?_ _ ?_ rfl
          · simp only [flatTick]; omega
          · intro x hx
            rcases List.mem_cons.mp hx with rfl | hx
            · simp only [flatTick, Dated]; omega
            · exact ha x hx
        · rw [dif_neg hc, dif_neg hc]
          exact ⟨rfl, ha⟩
  exact key _ acc ha rfl

theorem resampleStep_machine (rate : ℤ) (hr : PositiveInt rate) (acc : List (OhlcTick F)) (ha : ∀ x ∈ acc, Dated x.ts)
    (r : PriceRecord F) (hd : Dated r.ts) :
    Machine.resampleStep rate acc r = resampleStep rate acc r ∧
    ∀ acc', resampleStep rate acc r = .ok acc' → ∀ x ∈ acc', Dated x.ts := by
  obtain ⟨q0, q1, q2, q3⟩ := tdiv_range hd hr
  have hd' := hd
  obtain ⟨d0, d1⟩ := hd'
  have hdown : Dated (rate * r.ts.tdiv rate) := ⟨q2, by omega⟩
  obtain ⟨f1, f2⟩ := fillGaps_machine rate _ hr hdown acc ha
  unfold Machine.resampleStep resampleStep
  rw [int64_ok (x := r.ts.tdiv rate) (by omega) (by omega)]
  simp only [bind, Except.bind, pure, Except.pure]
  rw [int64_ok (x := rate * r.ts.tdiv rate) (by omega) (by omega)]
  simp only
  rw [f1]
  refine ⟨rfl, ?_⟩
  intro acc' h
  cases hf : fillGaps rate (rate * r.ts.tdiv rate) acc with
  | nil =>
    rw [hf] at h
    simp only at h
    rw [← Except.ok.inj h]
    intro x hx
    rw [List.mem_singleton] at hx
    rw [hx]
    exact hdown
  | cons last rest =>
    rw [hf] at h f2
    simp only at h
    split at h
    · rw [← Except.ok.inj h]
      intro x hx
      rcases List.mem_cons.mp hx with rfl | hx
      · exact hdown
      · exact f2 x hx
    · unfold assertThat at h
      split at h
      · cases h
      · rw [← Except.ok.inj h]
        intro x hx
        rcases List.mem_cons.mp hx with rfl | hx
        · exact f2 last (by simp)
        · exact f2 x (by simp [hx])

theorem resample_fold_machine (rate : ℤ) (hr : PositiveInt rate) (l : List (PriceRecord F)) (hl : ∀ r ∈ l, Dated r.ts) :
    ∀ acc : List (OhlcTick F), (∀ x ∈ acc, Dated x.ts) →
      l.foldlM (Machine.resampleStep rate) acc = l.foldlM (resampleStep rate) acc := by
  induction l with
  | nil => intro acc _; rfl
  | cons r rest ih =>
    intro acc ha
    obtain ⟨h1, h2⟩ := resampleStep_machine rate hr acc ha r (hl r (by simp))
    simp only [List.foldlM_cons]
    rw [h1]
    cases hs : resampleStep rate acc r with
    | error e => rfl
    | ok acc' =>
      simp only [bind, Except.bind]
      exact ih (fun x hx => hl x (by simp [hx])) acc' (h2 acc' hs)

/-- **C92** (resampling). `Resample` of dated records at any positive rate, including the filling of gaps: no overflow. -/
theorem C92_resample (rate : ℤ) (hr : PositiveInt rate) (l : List (PriceRecord F)) (hl : ∀ r ∈ l, Dated r.ts) :
    Machine.resample rate l = resample rate l := by
  unfold Machine.resample resample
  rw [resample_fold_machine rate hr l hl [] (by simp)]

/-! ### The tick window of the indicators -/

/-- The window holds dated ticks only. -/
def DatedWindow (s : LastN F) : Prop := PositiveInt s.period ∧ ∀ x ∈ s.rev, Dated x.ts

theorem pushBack_dated (n : ℕ) (x : OhlcTick F) (rev : List (OhlcTick F)) (hx : Dated x.ts) (h : ∀ y ∈ rev, Dated y.ts) :
    ∀ y ∈ (LastN.pushBack n x rev).1, Dated y.ts := by
  unfold LastN.pushBack
  split
  · intro y hy
    rcases List.mem_cons.mp hy with rfl | hy
    · exact hx
    · exact h y hy
  · split
    · intro y hy
      rcases List.mem_cons.mp hy with rfl | hy
      · exact hx
      · exact h y (List.mem_of_mem_dropLast hy)
    · intro y hy
      simp at hy

theorem fill_machine (n : ℕ) (period target : ℤ) (hr : PositiveInt period) (ht : Dated target) :
    ∀ (last : OhlcTick F) (rest : List (OhlcTick F)), Dated last.ts → (∀ x ∈ rest, Dated x.ts) →
      Machine.fill n period target last rest = .ok (LastN.fill n period target last rest) ∧
      ∀ x ∈ (LastN.fill n period target last rest).1, Dated x.ts := by
  have key : ∀ (k : ℕ) (last : OhlcTick F) (rest : List (OhlcTick F)), Dated last.ts → (∀ x ∈ rest, Dated x.ts) →
      (target - last.ts).toNat = k →
      Machine.fill n period target last rest = .ok (LastN.fill n period target last rest) ∧
      ∀ x ∈ (LastN.fill n period target last rest).1, Dated x.ts := by
    intro k
    induction k using Nat.strong_induction_on with
    | _ k ih =>
      intro last rest hl hrest hk
      have hl' := hl
      obtain ⟨l1, l2⟩ := hl'
      obtain ⟨r1, r2⟩ := hr
      have ht' := ht
      obtain ⟨t1, t2⟩ := ht'
      unfold Machine.fill LastN.fill
      rw [if_pos (by omega)]
      by_cases hc : 0 < period ∧ last.ts + period < target
      · rw [dif_pos hc, dif_pos hc]
        have hx : Dated (flatTick (last.ts + period) last.close).ts := by simp only [flatTick, Dated]; omega
        have hp := pushBack_dated n _ (last :: rest) hx (by
          intro y hy
          rcases List.mem_cons.mp hy with rfl | hy
          · exact hl
          · exact hrest y hy)
        obtain ⟨i1, i2⟩ := ih _ (by simp only [flatTick]; omega) (flatTick (last.ts + period) last.close)
          (LastN.pushBack n (flatTick (last.ts + period) last.close) (last :: rest)).1.tail hx
          (fun y hy => hp y (List.mem_of_mem_tail hy)) rfl
        simp only
        rw [i1]
        exact ⟨rfl, i2⟩
      · rw [dif_neg hc, dif_neg hc]
        refine ⟨rfl, ?_⟩
        intro x hx
        rcases List.mem_cons.mp hx with rfl | hx
        · exact hl
        · exact hrest x hx
  intro last rest hl hrest
  exact key _ last rest hl hrest rfl

theorem backfill_machine (s : LastN F) (hs : DatedWindow s) (target : ℤ) (ht : Dated target) :
    Machine.backfill s target = .ok (s.backfill target) ∧ ∀ x ∈ (s.backfill target).1, Dated x.ts := by
  unfold Machine.backfill LastN.backfill
  cases hr : s.rev with
  | nil => exact ⟨rfl, by simp⟩
  | cons last rest =>
    have h := hs.2
    rw [hr] at h
    exact fill_machine s.n s.period target hs.1 ht last rest (h last (by simp)) (fun x hx => h x (by simp [hx]))

theorem lastN_machine (s : LastN F) (hs : DatedWindow s) (t : OhlcTick F) (ht : Dated t.ts) :
    Machine.lastNUpdate s t = s.update t ∧ ∀ r, s.update t = .ok r → DatedWindow r.1 := by
  obtain ⟨q0, q1, q2, q3⟩ := tdiv_range ht hs.1
  have ht' := ht
  obtain ⟨d0, d1⟩ := ht'
  have hdown : Dated (s.period * t.ts.tdiv s.period) := ⟨q2, by omega⟩
  obtain ⟨f1, f2⟩ := backfill_machine s hs _ hdown
  have hP := hs.1
  unfold Machine.lastNUpdate LastN.update
  rw [int64_ok (x := t.ts.tdiv s.period) (by omega) (by omega)]
  simp only [bind, Except.bind, pure, Except.pure]
  rw [int64_ok (x := s.period * t.ts.tdiv s.period) (by omega) (by omega)]
  simp only
  rw [f1]
  refine ⟨rfl, ?_⟩
  intro r h
  cases hf : (s.backfill (s.period * t.ts.tdiv s.period)).1 with
  | nil =>
    rw [hf] at h
    simp only at h
    rw [← Except.ok.inj h]
    exact ⟨hP, pushBack_dated _ _ _ hdown (by simp)⟩
  | cons last rest =>
    rw [hf] at h f2
    simp only at h
    split at h
    · rw [← Except.ok.inj h]
      exact ⟨hP, pushBack_dated _ _ _ hdown f2⟩
    · unfold assertThat at h
      split at h
      · cases h
      · rw [← Except.ok.inj h]
        refine ⟨hP, ?_⟩
        intro x hx
        rcases List.mem_cons.mp hx with rfl | hx
        · exact f2 last (by simp)
        · exact f2 x (by simp [hx])

/-- **C92** (tick window). Any sequence of updates of the tick window with dated ticks: no overflow. -/
theorem C92_window (ticks : List (OhlcTick F)) (ht : ∀ t ∈ ticks, Dated t.ts) :
    ∀ s : LastN F, DatedWindow s → Machine.lastNRun s ticks = s.run ticks := by
  induction ticks with
  | nil => intro s _; rfl
  | cons t ts ih =>
    intro s hs
    obtain ⟨h1, h2⟩ := lastN_machine s hs t (ht t (by simp))
    unfold Machine.lastNRun LastN.run
    rw [h1]
    cases hu : s.update t with
    | error e => rfl
    | ok r =>
      simp only [bind, Except.bind, pure, Except.pure]
      rw [ih (fun x hx => ht x (by simp [hx])) r.1 (h2 r hu)]

/-- **C92** (indicators). One update, by a dated tick, of any indicator whose window holds dated ticks: no overflow, and the
window again holds dated ticks. Windows are empty at first. -/
theorem C92_indicator {σ : Type} (onEvent : List (OhlcTick F) → σ → TickEvent F → Res σ) (ind : Indicator F σ)
    (h : DatedWindow ind.window) (t : OhlcTick F) (ht : Dated t.ts) :
    Machine.indicatorUpdate onEvent ind t = ind.update onEvent t ∧
    ∀ ind', ind.update onEvent t = .ok ind' → DatedWindow ind'.window := by
  obtain ⟨h1, h2⟩ := lastN_machine ind.window h t ht
  unfold Machine.indicatorUpdate Indicator.update
  rw [h1]
  refine ⟨rfl, ?_⟩
  intro ind' h
  cases hu : ind.window.update t with
  | error e => rw [hu] at h; cases h
  | ok r =>
    rw [hu] at h
    simp only [bind, Except.bind, pure, Except.pure] at h
    split at h
    · cases h
    · rw [← Except.ok.inj h]
      exact h2 r hu

theorem make_dated {n period : ℤ} (hp : period < 2 ^ 31) {s : LastN F} (h : LastN.make n period = .ok s) : DatedWindow s := by
  unfold LastN.make at h
  obtain ⟨-, h⟩ := assertThat_bind_ok h
  obtain ⟨h0, h⟩ := assertThat_bind_ok h
  rw [← Except.ok.inj h]
  exact ⟨⟨by simpa using h0, hp⟩, by simp⟩

/-! ### The stop trader -/

theorem updateStopPrice_machine [Libm F] (cfg : StopConfig F) (mode : Mode) (lastTs ts : ℤ) (stop price : F) (h1 : Dated lastTs)
    (h2 : Dated ts) : Machine.updateStopPrice cfg mode lastTs ts stop price = updateStopPrice cfg mode lastTs ts stop price := by
  obtain ⟨a1, a2⟩ := h1
  obtain ⟨b1, b2⟩ := h2
  unfold Machine.updateStopPrice updateStopPrice
  rw [int64_ok (by omega) (by omega)]
  rfl

theorem stopUpdate_machine [Libm F] (cfg : StopConfig F) (s : StopState F) (t : OhlcTick F) (sg : List F) (base quote : F)
    (hs : Dated s.lastTs) (ht : Dated t.ts) :
    Machine.stopUpdate cfg s t sg base quote = stopUpdate cfg s t sg base quote ∧
    ∀ r, stopUpdate cfg s t sg base quote = .ok r → Dated r.1.lastTs := by
  constructor
  · unfold Machine.stopUpdate stopUpdate
    rw [int64_ok (x := s.lastTs + maxAllowedGapSec) (by obtain ⟨a1, a2⟩ := hs; unfold maxAllowedGapSec; omega)
      (by obtain ⟨a1, a2⟩ := hs; unfold maxAllowedGapSec; omega)]
    simp only [updateStopPrice_machine cfg _ s.lastTs t.ts _ _ hs ht]
    rfl
  · intro r h
    unfold stopUpdate at h
    obtain ⟨-, h⟩ := assertThat_bind_ok h
    obtain ⟨-, h⟩ := assertThat_bind_ok h
    obtain ⟨-, h⟩ := assertThat_bind_ok h
    simp only [bind, Except.bind, pure, Except.pure] at h
    repeat' split at h
    all_goals first
      | (rw [← Except.ok.inj h]; exact ht)
      | cases h

/-- **C92** (stop trader). Any sequence of updates of the stop trader with dated ticks: no overflow. -/
theorem C92_stop [Libm F] (fmt : Format F) (cfg : StopConfig F) (inputs : List (UpdateInput F))
    (hi : ∀ i ∈ inputs, Dated i.tick.ts) : ∀ s : StopState F, Dated s.lastTs →
    feed (Machine.stopTrader fmt cfg) s inputs = feed (stopTrader fmt cfg) s inputs := by
  induction inputs with
  | nil => intro s _; rfl
  | cons i rest ih =>
    intro s hs
    obtain ⟨h1, h2⟩ := stopUpdate_machine cfg s i.tick i.signals i.base i.quote hs (hi i (by simp))
    unfold feed
    change (Machine.stopUpdate cfg s i.tick i.signals i.base i.quote >>= _) = (stopUpdate cfg s i.tick i.signals i.base i.quote >>= _)
    rw [h1]
    cases hu : stopUpdate cfg s i.tick i.signals i.base i.quote with
    | error e => rfl
    | ok r =>
      simp only [bind, Except.bind, pure, Except.pure]
      rw [ih (fun x hx => hi x (by simp [hx])) r.1 (h2 r hu)]

/-! ### The back-test -/

theorem sideStep_machine (side : Option (SideInput F)) (hside : ∀ s, side = some s → ∀ x ∈ s.timestamps, Dated x) (ts : ℤ)
    (ht : Dated ts) (signals : List F) (prev : ℤ) :
    Machine.sideStep side ts signals prev = sideStep side ts signals prev := by
  unfold Machine.sideStep sideStep
  cases side with
  | none => rfl
  | some s =>
    simp only
    cases s.indexHint ts prev with
    | error e => rfl
    | ok i =>
      simp only [bind, Except.bind, pure, Except.pure]
      split
      · cases hr : s.timestamp i with
        | error e => rfl
        | ok r =>
          have hd : Dated r := by
            refine hside s rfl r ?_
            unfold SideInput.timestamp SideInput.at' at hr
            split at hr
            · cases hr
            · split at hr
              · rename_i x hx
                rw [← Except.ok.inj hr]
                exact List.mem_of_getElem? hx
              · cases hr
          obtain ⟨a1, a2⟩ := ht
          obtain ⟨b1, b2⟩ := hd
          simp only
          cases s.signals i [] with
          | error e => rfl
          | ok sg =>
            simp only
            rw [int64_ok (by omega) (by omega)]
      · rfl

theorem run_out_ok {E α β : Type} {x : Run E α} {f : α → Run E β} {b : β} (h : (x >>= f).out = .ok b) :
    ∃ a, x.out = .ok a ∧ (f a).out = .ok b := by
  rw [Run.bind_eq] at h
  unfold Run.andThen at h
  cases hx : x.out with
  | error e => rw [hx] at h; cases h
  | ok a => rw [hx] at h; exact ⟨a, rfl, h⟩

variable {D : Type} [FloatOps D] [Wide F D] [Libm F]

/-- Both volatility windows hold dated ticks, and the trader's state satisfies `P`. -/
def DatedState {S : Type} (P : S → Prop) (s : ExecState F S) : Prop :=
  DatedWindow s.baseVol.window ∧ DatedWindow s.traderVol.window ∧ P s.trader

theorem traderStep_machine (T : Trader F) (upd : T.State → OhlcTick F → List F → F → F → Res (T.State × List (Order F)))
    (P : T.State → Prop)
    (hupd : ∀ s t sg b q, P s → Dated t.ts → upd s t sg b q = T.update s t sg b q ∧ ∀ r, T.update s t sg b q = .ok r → P r.1)
    (fast log : Bool) (t : OhlcTick F) (ht : Dated t.ts) (s : ExecState F T.State) (hs : DatedState P s) :
    Machine.traderStep { T with update := upd } fast log t s = traderStep T fast log t s ∧
    ∀ s', (traderStep T fast log t s).out = .ok s' → DatedState P s' := by
  obtain ⟨h1, h2, h3⟩ := hs
  obtain ⟨u1, u2⟩ := hupd s.trader t s.signals s.account.baseBalance s.account.quoteBalance h3 ht
  obtain ⟨b1, b2⟩ := C92_indicator Vol.onEvent
    { s.baseVol with state := { s.baseVol.state with base := lit F 1, quote := lit F 0 } } h1 t ht
  obtain ⟨v1, v2⟩ := C92_indicator Vol.onEvent
    { s.traderVol with state := { s.traderVol.state with base := s.account.baseBalance, quote := s.account.quoteBalance } }
    h2 t ht
  constructor
  · unfold Machine.traderStep traderStep Machine.volUpdate Vol.update
    simp only
    rw [u1]
    refine bind_congr (fun r => ?_)
    refine bind_congr (fun _ => ?_)
    split
    · rfl
    · rw [b1]
      refine bind_congr (fun bv => ?_)
      rw [v1]
  · intro s' h
    rw [traderStep_eq] at h
    cases hu : T.update s.trader t s.signals s.account.baseBalance s.account.quoteBalance with
    | error e => rw [hu] at h; cases h
    | ok u =>
      rw [hu] at h
      have hv : volPart fast t { s with trader := u.1, orders := u.2 } = .ok s' := h
      unfold volPart at hv
      split at hv
      · rw [← Except.ok.inj hv]
        exact ⟨h1, h2, u2 u hu⟩
      · unfold Vol.update at hv
        simp only [bind, Except.bind, pure, Except.pure] at hv
        split at hv
        · cases hv
        · rename_i bv hb
          split at hv
          · cases hv
          · rename_i tv htv
            rw [← Except.ok.inj hv]
            exact ⟨b2 bv hb, v2 tv htv, u2 u hu⟩

theorem tickStep_machine (c : AccountConfig F) (side : Option (SideInput F))
    (hside : ∀ s, side = some s → ∀ x ∈ s.timestamps, Dated x) (T : Trader F)
    (upd : T.State → OhlcTick F → List F → F → F → Res (T.State × List (Order F))) (P : T.State → Prop)
    (hupd : ∀ s t sg b q, P s → Dated t.ts → upd s t sg b q = T.update s t sg b q ∧ ∀ r, T.update s t sg b q = .ok r → P r.1)
    (fast log : Bool) (t : OhlcTick F) (ht : Dated t.ts) (s : ExecState F T.State) (hs : DatedState P s) :
    Machine.tickStep c side { T with update := upd } fast log s t = tickStep c side T fast log s t ∧
    ∀ s', (tickStep c side T fast log s t).out = .ok s' → DatedState P s' := by
  constructor
  · unfold Machine.tickStep tickStep
    rw [sideStep_machine side hside t.ts ht]
    refine bind_congr (fun sg => ?_)
    refine bind_congr (fun _ => ?_)
    refine bind_congr (fun r => ?_)
    split
    · rfl
    · exact (traderStep_machine T upd P hupd fast log t ht
        { s with signals := sg.1, prevIndex := sg.2, account := r.1, executed := r.2 } hs).1
  · intro s' h
    unfold tickStep at h
    obtain ⟨sg, -, h⟩ := run_out_ok h
    obtain ⟨-, -, h⟩ := run_out_ok h
    obtain ⟨r, -, h⟩ := run_out_ok h
    simp only at h
    split at h
    · have h := Except.ok.inj h
      rw [← h]
      exact hs
    · exact (traderStep_machine T upd P hupd fast log t ht
        { s with signals := sg.1, prevIndex := sg.2, account := r.1, executed := r.2 } hs).2 s' h

theorem fold_machine (c : AccountConfig F) (side : Option (SideInput F))
    (hside : ∀ s, side = some s → ∀ x ∈ s.timestamps, Dated x) (T : Trader F)
    (upd : T.State → OhlcTick F → List F → F → F → Res (T.State × List (Order F))) (P : T.State → Prop)
    (hupd : ∀ s t sg b q, P s → Dated t.ts → upd s t sg b q = T.update s t sg b q ∧ ∀ r, T.update s t sg b q = .ok r → P r.1)
    (fast log : Bool) (ticks : List (OhlcTick F)) (ht : ∀ t ∈ ticks, Dated t.ts) :
    ∀ s : ExecState F T.State, DatedState P s →
    ticks.foldlM (Machine.tickStep c side { T with update := upd } fast log) s = ticks.foldlM (tickStep c side T fast log) s := by
  induction ticks with
  | nil => intro s _; rfl
  | cons t rest ih =>
    intro s hs
    obtain ⟨h1, h2⟩ := tickStep_machine c side hside T upd P hupd fast log t (ht t (by simp)) s hs
    rw [List.foldlM_cons, List.foldlM_cons, h1]
    simp only [Run.bind_eq]
    unfold Run.andThen
    cases ho : (tickStep c side T fast log s t).out with
    | error e => rfl
    | ok s' =>
      simp only
      rw [ih (fun x hx => ht x (by simp [hx])) s' (h2 s' ho)]

theorem execute_machine [Libm D] (c : AccountConfig F) (side : Option (SideInput F))
    (hside : ∀ s, side = some s → ∀ x ∈ s.timestamps, Dated x) (T : Trader F)
    (upd : T.State → OhlcTick F → List F → F → F → Res (T.State × List (Order F))) (P : T.State → Prop)
    (hupd : ∀ s t sg b q, P s → Dated t.ts → upd s t sg b q = T.update s t sg b q ∧ ∀ r, T.update s t sg b q = .ok r → P r.1)
    (fast log : Bool) (ticks : List (OhlcTick F)) (ht : ∀ t ∈ ticks, Dated t.ts) (init : T.State) (hinit : P init) :
    Machine.executeTrader c ticks side fast { T with update := upd } init log = executeTrader c ticks side fast T init log := by
  unfold Machine.executeTrader executeTrader
  cases ticks with
  | nil => rfl
  | cons first rest =>
    simp only
    cases he : execInit c T init with
    | error e =>
      have he' : execInit c { T with update := upd } init = .error e := he
      rw [he']; rfl
    | ok s0 =>
      have he' : execInit c { T with update := upd } init = .ok s0 := he
      rw [he']
      have hs0 : DatedState P s0 := by
        unfold execInit Vol.make at he
        simp only [bind, Except.bind, pure, Except.pure] at he
        cases hm : (LastN.make 2 kSecondsPerDay : Res (LastN F)) with
        | error e => rw [hm] at he; cases he
        | ok w =>
          rw [hm] at he
          simp only at he
          rw [← Except.ok.inj he]
          have hw := make_dated (by unfold kSecondsPerDay; norm_num) hm
          exact ⟨hw, hw, hinit⟩
      change (Run.lift (.ok s0) >>= _) = (Run.lift (.ok s0) >>= _)
      simp only [Run.bind_eq, Run.lift, Run.andThen]
      rw [fold_machine c side hside T upd P hupd fast log (first :: rest) ht s0 hs0]

theorem side_dated {recs : Option (List (SideInputRecord F))} {side : Option (SideInput F)} (hside : SideOf recs side)
    (hrecs : ∀ l, recs = some l → ∀ r ∈ l, Dated r.ts) : ∀ s, side = some s → ∀ x ∈ s.timestamps, Dated x := by
  intro s hs
  cases hside with
  | none => cases hs
  | some l s' h =>
    cases hs
    intro x hx
    rw [(make_ok h).1] at hx
    obtain ⟨r, hr, rfl⟩ := List.mem_map.mp hx
    exact hrecs l rfl r hr

/-- **C92** (back-test, any trader). `ExecuteTrader` on dated ticks, with side inputs made from dated records: no overflow in
its own arithmetic or in that of the volatility indicators, whatever the trader does. -/
theorem C92_execute [Libm D] (c : AccountConfig F) {recs : Option (List (SideInputRecord F))} (side : Option (SideInput F))
    (hside : SideOf recs side) (hrecs : ∀ l, recs = some l → ∀ r ∈ l, Dated r.ts) (ticks : List (OhlcTick F))
    (ht : ∀ t ∈ ticks, Dated t.ts) (fast log : Bool) (T : Trader F) (init : T.State) :
    Machine.executeTrader c ticks side fast T init log = executeTrader c ticks side fast T init log :=
  execute_machine c side (side_dated hside hrecs) T T.update (fun _ => True) (fun _ _ _ _ _ _ _ => ⟨rfl, fun _ _ => trivial⟩)
    fast log ticks ht init trivial

/-- **C92** (back-test, stop trader). The same with the arithmetic of the stop trader included: trace and result of the whole
back-test are those of unbounded integers. (The rebalancing trader does no arithmetic on timestamps.) -/
theorem C92_execute_stop [Libm D] (c : AccountConfig F) {recs : Option (List (SideInputRecord F))} (side : Option (SideInput F))
    (hside : SideOf recs side) (hrecs : ∀ l, recs = some l → ∀ r ∈ l, Dated r.ts) (ticks : List (OhlcTick F))
    (ht : ∀ t ∈ ticks, Dated t.ts) (fast log : Bool) (fmt : Format F) (cfg : StopConfig F) :
    Machine.executeTrader c ticks side fast (Machine.stopTrader fmt cfg) StopState.init log =
      executeTrader c ticks side fast (stopTrader fmt cfg) StopState.init log :=
  execute_machine c side (side_dated hside hrecs) (stopTrader fmt cfg) (Machine.stopUpdate cfg) (fun s => Dated s.lastTs)
    (fun s t sg b q hs ht => stopUpdate_machine cfg s t sg b q hs ht) fast log ticks ht StopState.init
    (by simp [StopState.init, Dated])

end

theorem loadable_dated {R : Type} {ts : R → ℤ} {good : R → Prop} {start stop : ℤ} {rs : List R} (h0 : 0 < stop)
    (h1 : stop ≤ 2 ^ 62) (h : Loadable ts good start stop rs) : ∀ r ∈ rs, Dated (ts r) := by
  intro r hr
  have hp := h.positive r hr
  have hw := h.window r hr
  unfold InWindow at hw
  unfold Dated
  omega

/-- **C92** (loaded data). With an end time before the year 146 billion every history that convert or trader loads, from any CSV
text or any bytes, is dated, so the theorems above apply to it. -/
theorem C92_loaded {F : Type} [FloatOps F] (sc : Convert.Scanner F) (pc : Codec (PriceRecord F)) (oc : Codec (OhlcTick F))
    (start stop : ℤ) (h0 : 0 < stop) (h1 : stop ≤ 2 ^ 62) :
    (∀ (text : Option Text) (l : List (PriceRecord F)), Convert.readPriceCsv sc start stop text = .ok l →
      ∀ r ∈ l, Dated r.ts) ∧
    (∀ (text : Option Text) (l : List (OhlcTick F)), Convert.readOhlcCsv sc start stop text = .ok l →
      ∀ r ∈ l, Dated r.ts) ∧
    (∀ (bytes : List UInt8) (l : List (PriceRecord F)), Convert.readPriceProto pc start stop (some bytes) = .ok l →
      ∀ r ∈ l, Dated r.ts) ∧
    (∀ (bytes : List UInt8) (l : List (OhlcTick F)), Convert.readOhlcProto oc start stop (some bytes) = .ok l →
      ∀ r ∈ l, Dated r.ts) := by
  refine ⟨fun text l h r hr => ?_, fun text l h r hr => ?_, fun bytes l h r hr => ?_, fun bytes l h r hr => ?_⟩
  · exact loadable_dated h0 h1 (C65_price_csv sc start stop text l h) r hr
  · exact loadable_dated h0 h1 (C65_ohlc_csv sc start stop text l h) r hr
  · exact loadable_dated h0 h1 (C65_price_proto pc start stop bytes l h).2 r hr
  · exact loadable_dated h0 h1 (C65_ohlc_proto oc start stop bytes l h).2 r hr

/-! ### The bound matters, and real data satisfies it -/

/-- Two records in the last seconds that an `int64_t` can express: `Resample` computes the end of the period and overflows. -/
theorem C92_overflow_possible :
    Machine.resample 60 [(⟨2 ^ 63 - 8, 1, 1⟩ : PriceRecord ℚ), ⟨2 ^ 63 - 7, 1, 1⟩] = .error .signedOverflow := by
  simp [Machine.resample, Machine.resampleStep, Machine.fillGaps, Machine.int64, bind, Except.bind, pure, Except.pure]

/-- The end of 2021, and the year 9999. -/
example : Dated 1640995199 ∧ Dated 253402300799 := by unfold Dated; norm_num

/-- Two gaps and their comparison. -/
example : Machine.gapCmp (1600000000, 1600000060) (1600000060, 1600000600) = .ok false := by decide +kernel

/-- A gap of three minutes filled in machine arithmetic. -/
example : Machine.resample 60 [(⟨1600000020, 2, 1⟩ : PriceRecord ℚ), ⟨1600000200, 3, 1⟩] =
    .ok [⟨1600000020, 2, 2, 2, 2, 1⟩, ⟨1600000080, 2, 2, 2, 2, 0⟩, ⟨1600000140, 2, 2, 2, 2, 0⟩, ⟨1600000200, 3, 3, 3, 3, 1⟩] := by
  simp [Machine.resample, Machine.resampleStep, Machine.fillGaps, Machine.int64, bind, Except.bind, pure, Except.pure, flatTick]

end Verif.Props
