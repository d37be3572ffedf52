import Verif.Lemmas.LastN
import Mathlib.Data.Rat.Floor

/-!
# C39, C40, C51: LastNOhlcTicks
-/

namespace Verif.Props
open Spec FloatOps

section general
variable {F : Type} [FloatOps F]

/-- A `LastNOhlcTicks` constructed and fed with `l`. -/
def lastNAfter (n period : ℤ) (l : List (OhlcTick F)) : Res (LastN F × List (TickEvent F)) := do
  let s ← LastN.make n period
  s.run l

theorem run_snoc (s : LastN F) (l : List (OhlcTick F)) (t : OhlcTick F) :
    s.run (l ++ [t]) = (do
      let (s, e) ← s.run l
      let (s, e') ← s.update t
      return (s, e ++ e')) := by
  induction l generalizing s with
  | nil =>
    simp only [List.nil_append, LastN.run, bind, Except.bind, pure, Except.pure]
    cases s.update t with
    | error e => rfl
    | ok p => simp
  | cons a l ih =>
    simp only [List.cons_append, LastN.run, bind, Except.bind, pure, Except.pure]
    cases s.update a with
    | error e => rfl
    | ok p =>
      simp only [ih, bind, Except.bind, pure, Except.pure]
      cases p.1.run l with
      | error e => rfl
      | ok q =>
        simp only
        cases q.1.update t with
        | error e => rfl
        | ok r => simp

theorem lastN_run (n : ℕ) (hn : 0 < n) (period : ℤ) (hP : 0 < period) (l : List (OhlcTick F))
    (hs : SortedBy OhlcTick.ts l) (h0 : ∀ t ∈ l, 0 ≤ t.ts) :
    ∃ e, (⟨n, period, []⟩ : LastN F).run l = .ok (⟨n, period, (aggregate period l).reverse.take n⟩, e) := by
  induction l using List.reverseRecOn with
  | nil => exact ⟨[], by simp [LastN.run, aggregate]⟩
  | append_singleton l t ih =>
    have hsl := (List.pairwise_append.mp hs).1
    obtain ⟨e, he⟩ := ih hsl (fun x hx => h0 x (by simp [hx]))
    rw [run_snoc, he]
    obtain ⟨e', he'⟩ := update_fst (P := period) hn ⟨n, period, (aggregate period l).reverse.take n⟩ rfl rfl
      (aggregate period l).reverse rfl t (h0 t (by simp)) hP (by
        intro x xs hx
        by_cases hne : l = []
        · subst hne; simp [aggregate] at hx
        · rw [aggregate_getLast_ts hP hsl hne hx]
          exact periodStart_mono hP ((List.pairwise_append.mp hs).2.2 _ (List.getLast_mem hne) _ (by simp)))
    simp only [bind, Except.bind, pure, Except.pure, he']
    rw [aggStep_aggregate hP l t hs]
    exact ⟨_, rfl⟩

/-- **C39**. After any sequence of updates with non-decreasing, non-negative timestamps, `GetLastNOhlcTicks` is
the last `n` ticks of the aggregation of the *whole* history into periods; no update aborts. -/
theorem C39_last_n_periods (n period : ℤ) (hn : 0 < n) (hP : 0 < period) (l : List (OhlcTick F))
    (hs : SortedBy OhlcTick.ts l) (h0 : ∀ t ∈ l, 0 ≤ t.ts) :
    ∃ s e, lastNAfter n period l = .ok (s, e) ∧
      s.ticks = (aggregate period l).drop ((aggregate period l).length - n.toNat) := by
  obtain ⟨e, he⟩ := lastN_run n.toNat (by omega) period hP l hs h0
  refine ⟨⟨n.toNat, period, (aggregate period l).reverse.take n.toNat⟩, e, ?_, ?_⟩
  · unfold lastNAfter LastN.make
    simp only [assertThat, hn, hP, decide_true, if_true, bind, Except.bind, pure, Except.pure]
    exact he
  · simp only [LastN.ticks]
    rw [List.take_reverse, List.reverse_reverse]

/-- **C39**, at most `n` ticks are ever kept. -/
theorem C39_bounded (n period : ℤ) (hn : 0 < n) (hP : 0 < period) (l : List (OhlcTick F))
    (hs : SortedBy OhlcTick.ts l) (h0 : ∀ t ∈ l, 0 ≤ t.ts) :
    ∃ s e, lastNAfter n period l = .ok (s, e) ∧ (s.ticks.length : ℤ) ≤ n ∧ (l ≠ [] → s.ticks ≠ []) := by
  obtain ⟨s, e, h, ht⟩ := C39_last_n_periods n period hn hP l hs h0
  refine ⟨s, e, h, ?_, ?_⟩
  · rw [ht, List.length_drop]; omega
  · intro hne
    have hpos : 0 < (aggregate period l).length := List.length_pos_of_ne_nil (aggregate_ne_nil hne)
    rw [ht]
    apply List.ne_nil_of_length_pos
    rw [List.length_drop]; omega

variable [DecidableEq F]

/-- **C40**. Whatever ticks are fed (any timestamps), as long as no update aborts the callbacks, replayed on a
mirror list, reproduce the window: the removed tick is the mirror's oldest, the updated tick its newest. -/
theorem C40_callbacks (n period : ℤ) (l : List (OhlcTick F)) (s : LastN F) (e : List (TickEvent F))
    (h : lastNAfter n period l = .ok (s, e)) : replay n.toNat [] e = some s.ticks := by
  unfold lastNAfter LastN.make at h
  by_cases hn : 0 < n
  swap
  · simp [assertThat, hn, bind, Except.bind] at h
  by_cases hP : 0 < period
  swap
  · simp [assertThat, hn, hP, bind, Except.bind] at h
  simp only [assertThat, hn, hP, decide_true, if_true, bind, Except.bind, pure, Except.pure] at h
  have key : ∀ (l : List (OhlcTick F)) (s0 : LastN F), 0 < s0.n → s0.rev.length ≤ s0.n →
      ∀ s e, s0.run l = .ok (s, e) → replay s0.n s0.ticks e = some s.ticks := by
    intro l
    induction l with
    | nil =>
      intro s0 _ _ s e h
      obtain ⟨rfl, rfl⟩ := Prod.mk.inj (Except.ok.inj h)
      rfl
    | cons t l ih =>
      intro s0 hn0 hl s e h
      simp only [LastN.run, bind, Except.bind, pure, Except.pure] at h
      cases hu : s0.update t with
      | error f => rw [hu] at h; cases h
      | ok p =>
        rw [hu] at h
        simp only at h
        obtain ⟨s1, e1⟩ := p
        obtain ⟨u1, u2, u3, u4⟩ := update_replay s0 hn0 hl t hu
        cases hr : s1.run l with
        | error f => rw [hr] at h; cases h
        | ok q =>
          rw [hr] at h
          obtain ⟨s2, e2⟩ := q
          obtain ⟨rfl, rfl⟩ := Prod.mk.inj (Except.ok.inj h)
          rw [replay_append, u1, Option.bind_some]
          have := ih s1 (by omega) u4 _ _ hr
          rw [u2] at this
          exact this
  exact key l ⟨n.toNat, period, []⟩ (by simp; omega) (by simp) s e h

end general

/-! Non-vacuity. -/

/-- Sample ticks: two in the first period, a gap, one later. -/
def exTicks : List (OhlcTick ℚ) :=
  [⟨10, 1, 3, 1, 2, 5⟩, ⟨50, 2, 4, 2, 3, 1⟩, ⟨250, 5, 5, 5, 5, 2⟩]

example : SortedBy OhlcTick.ts exTicks ∧ ∀ t ∈ exTicks, 0 ≤ t.ts := by unfold SortedBy; decide +kernel

example : aggregate 60 exTicks = [⟨0, 1, 4, 1, 3, 6⟩, ⟨60, 3, 3, 3, 3, 0⟩, ⟨120, 3, 3, 3, 3, 0⟩,
    ⟨180, 3, 3, 3, 3, 0⟩, ⟨240, 5, 5, 5, 5, 2⟩] := by decide +kernel

/-- The hypothesis of C40 is met, with all three kinds of callbacks. -/
example : (lastNAfter 2 60 exTicks).map (fun p => (p.1.ticks, p.2.length)) =
    .ok ([⟨180, 3, 3, 3, 3, 0⟩, ⟨240, 5, 5, 5, 5, 2⟩], 6) := by decide +kernel

/-- Unsorted input can abort. -/
example : (lastNAfter 2 60 (exTicks.reverse)).map (fun p => p.1.ticks) = .error .assertion := by
  decide +kernel

end Verif.Props
