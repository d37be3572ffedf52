import Verif.Lemmas.Resample
import Verif.Spec.Events

/-! `LastNOhlcTicks`: bounded aggregation, callbacks. -/

set_option linter.unusedSectionVars false

namespace Verif
open FloatOps Spec

section
variable {F : Type} [FloatOps F] {P : ℤ} {n : ℕ}

theorem pushBack_fst (hn : 0 < n) (x : OhlcTick F) (full : List (OhlcTick F)) :
    (LastN.pushBack n x (full.take n)).1 = (x :: full).take n := by
  unfold LastN.pushBack
  obtain ⟨m, rfl⟩ : ∃ m, n = m + 1 := ⟨n - 1, by omega⟩
  split
  · rename_i h
    simp only [List.length_take] at h
    rw [List.take_succ_cons, List.take_of_length_le (by omega), List.take_of_length_le (by omega)]
  · rename_i h
    simp only [List.length_take] at h
    have hl : m + 1 ≤ full.length := by omega
    have hne : full.take (m + 1) ≠ [] := by
      intro h0
      rcases List.take_eq_nil_iff.mp h0 with h | h
      · omega
      · rw [h] at hl; simp at hl
    rw [List.getLast?_eq_some_getLast hne]
    simp only [List.take_succ_cons]
    congr 1
    rw [List.dropLast_eq_take, List.length_take, List.take_take]
    congr 1; omega

theorem fill_fst (hn : 0 < n) (target : ℤ) (last : OhlcTick F) (rest full : List (OhlcTick F))
    (h : last :: rest = (last :: full).take n) :
    (LastN.fill n P target last rest).1 = (fillGaps P target (last :: full)).take n := by
  fun_induction LastN.fill n P target last rest generalizing full with
  | case1 last rest hc x p r ih =>
    rw [fillGaps_go hc.1 hc.2]
    have hp : p.1 = (x :: last :: full).take n := by
      show (LastN.pushBack n x (last :: rest)).1 = _
      rw [h]; exact pushBack_fst hn x (last :: full)
    have : x :: p.1.tail = (x :: last :: full).take n := by
      rw [hp]
      obtain ⟨m, rfl⟩ : ∃ m, n = m + 1 := ⟨n - 1, by omega⟩
      simp
    exact ih (last :: full) this
  | case2 last rest hc =>
    by_cases hP : 0 < P
    · rw [fillGaps_stop (fun h' => hc ⟨hP, h'⟩)]; exact h
    · rw [fillGaps, dif_neg (fun h' => hP h'.1)]; exact h

/-- Bounded incremental aggregation is the truncation of unbounded incremental aggregation. -/
theorem update_fst (hn : 0 < n) (s : LastN F) (hsn : s.n = n) (hsP : s.period = P) (full : List (OhlcTick F))
    (hr : s.rev = full.take n) (t : OhlcTick F) (h0 : 0 ≤ t.ts) (hP : 0 < P)
    (hle : ∀ x xs, full = x :: xs → x.ts ≤ periodStart P t.ts) :
    ∃ e, s.update t = .ok ({ s with rev := (aggStep P full t).take n }, e) := by
  obtain ⟨m, rfl⟩ : ∃ m, n = m + 1 := ⟨n - 1, by omega⟩
  unfold LastN.update aggStep LastN.backfill
  rw [hsP, hsn, tdiv_eq_periodStart h0]
  cases full with
  | nil =>
    simp only [List.take_nil] at hr
    rw [hr]
    simp only [fillGaps_nil, List.nil_append, LastN.pushBack, List.length_nil]
    rw [if_pos (by omega)]
    exact ⟨[.added { t with ts := periodStart P t.ts }], by simp⟩
  | cons x xs =>
    rw [hr, List.take_succ_cons]
    have hf := fill_fst (P := P) hn (periodStart P t.ts) x (xs.take m) xs (by simp)
    obtain ⟨y, ys, hy, hyle⟩ := fillGaps_head_le hP (target := periodStart P t.ts) _ x xs (le_refl _)
      (hle x xs rfl)
    rw [hy, List.take_succ_cons] at hf
    simp only [hf, hy]
    split
    · have := pushBack_fst (Nat.succ_pos m) { t with ts := periodStart P t.ts } (y :: ys)
      rw [List.take_succ_cons] at this
      rw [this]
      exact ⟨_, rfl⟩
    · rename_i hlt
      have e : y.ts = periodStart P t.ts := by omega
      simp only [assertThat, e, decide_true, if_true, bind, Except.bind, pure, Except.pure]
      simp only [mergeTick, e, List.take_succ_cons]
      exact ⟨_, rfl⟩

theorem pushBack_length (hn : 0 < n) (x : OhlcTick F) (rev : List (OhlcTick F)) (h : rev.length ≤ n) :
    (LastN.pushBack n x rev).1.length ≤ n := by
  have := pushBack_fst hn x rev
  rw [List.take_of_length_le h] at this
  rw [this, List.length_take]; exact min_le_left _ _

theorem pushBack_head (hn : 0 < n) (x : OhlcTick F) (rev : List (OhlcTick F)) (h : rev.length ≤ n) :
    x :: (LastN.pushBack n x rev).1.tail = (LastN.pushBack n x rev).1 := by
  have := pushBack_fst hn x rev
  rw [List.take_of_length_le h] at this
  obtain ⟨m, rfl⟩ : ∃ m, n = m + 1 := ⟨n - 1, by omega⟩
  rw [this]; simp

variable [DecidableEq F]

theorem pushBack_replay (hn : 0 < n) (x : OhlcTick F) (rev : List (OhlcTick F)) (h : rev.length ≤ n) :
    replay1 n rev.reverse (LastN.pushBack n x rev).2 = some (LastN.pushBack n x rev).1.reverse := by
  unfold LastN.pushBack
  split
  · rename_i hl
    simp only [replay1, List.length_reverse]
    rw [if_pos (by omega)]; simp
  · rename_i hl
    have hlen : rev.length = n := by omega
    have hne : rev ≠ [] := by intro h0; rw [h0] at hlen; simp at hlen; omega
    rw [List.getLast?_eq_some_getLast hne]
    simp only [replay1, List.length_reverse, List.head?_reverse]
    rw [if_pos ⟨hlen, List.getLast?_eq_some_getLast hne⟩]
    rw [List.tail_reverse, List.reverse_cons]

theorem replay_append (m : List (OhlcTick F)) (a b : List (TickEvent F)) :
    replay n m (a ++ b) = (replay n m a).bind (fun m => replay n m b) := by
  induction a generalizing m with
  | nil => rfl
  | cons e a ih =>
    simp only [List.cons_append, replay]
    cases replay1 n m e with
    | none => rfl
    | some m' => simp [ih]

theorem fill_replay (hn : 0 < n) (target : ℤ) (last : OhlcTick F) (rest : List (OhlcTick F))
    (h : (last :: rest).length ≤ n) :
    replay n (last :: rest).reverse (LastN.fill n P target last rest).2 =
      some (LastN.fill n P target last rest).1.reverse ∧
    (LastN.fill n P target last rest).1.length ≤ n := by
  fun_induction LastN.fill n P target last rest with
  | case1 last rest hc x p r ih =>
    have hp : replay1 n (last :: rest).reverse p.2 = some p.1.reverse := pushBack_replay hn x _ h
    have hl : p.1.length ≤ n := pushBack_length hn x _ h
    have hh : x :: p.1.tail = p.1 := pushBack_head hn x _ h
    rw [hh] at ih
    obtain ⟨i1, i2⟩ := ih hl
    refine ⟨?_, i2⟩
    simp only [replay, hp, Option.bind_some]
    exact i1
  | case2 last rest hc => exact ⟨rfl, h⟩

theorem update_replay (s : LastN F) (hn : 0 < s.n) (h : s.rev.length ≤ s.n) (t : OhlcTick F)
    {s' : LastN F} {e : List (TickEvent F)} (hu : s.update t = .ok (s', e)) :
    replay s.n s.ticks e = some s'.ticks ∧ s'.n = s.n ∧ s'.period = s.period ∧ s'.rev.length ≤ s'.n := by
  unfold LastN.update at hu
  set adjusted := s.period * t.ts.tdiv s.period with hadj
  -- the back-filled state
  have hfilled : replay s.n s.ticks (s.backfill adjusted).2 = some (s.backfill adjusted).1.reverse ∧
      (s.backfill adjusted).1.length ≤ s.n := by
    unfold LastN.ticks LastN.backfill
    cases hrev : s.rev with
    | nil => exact ⟨rfl, by simp⟩
    | cons last rest =>
      rw [hrev] at h
      exact fill_replay hn adjusted last rest h
  obtain ⟨hf1, hf2⟩ := hfilled
  dsimp only at hu
  generalize s.backfill adjusted = filled at hu hf1 hf2
  obtain ⟨fd, fe⟩ := filled
  simp only at hu hf1 hf2
  cases fd with
  | nil =>
    obtain ⟨rfl, rfl⟩ := Prod.mk.inj (Except.ok.inj hu)
    refine ⟨?_, rfl, rfl, pushBack_length hn _ _ hf2⟩
    rw [replay_append, hf1]
    simp only [Option.bind_some, replay]
    rw [pushBack_replay hn _ _ hf2]; rfl
  | cons last rest =>
    dsimp only at hu
    split at hu
    · obtain ⟨rfl, rfl⟩ := Prod.mk.inj (Except.ok.inj hu)
      refine ⟨?_, rfl, rfl, pushBack_length hn _ _ hf2⟩
      rw [replay_append, hf1]
      simp only [Option.bind_some, replay]
      rw [pushBack_replay hn _ _ hf2]; rfl
    · by_cases hq : last.ts = adjusted
      · simp only [assertThat, hq, decide_true, if_true, bind, Except.bind, pure, Except.pure] at hu
        obtain ⟨rfl, rfl⟩ := Prod.mk.inj (Except.ok.inj hu)
        refine ⟨?_, rfl, rfl, by simpa using hf2⟩
        rw [replay_append, hf1]
        simp only [Option.bind_some, replay, replay1, List.getLast?_reverse, List.head?_cons]
        rw [if_pos (by simp [hq])]
        simp [LastN.ticks]
      · simp [assertThat, hq, bind, Except.bind] at hu

end
end Verif
