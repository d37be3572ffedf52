import Verif.Lemmas.LastN
import Verif.Props.LastN
import Verif.Model.Indicators

/-! Callbacks seen against the full aggregated history, and a generic induction principle for indicators. -/

set_option linter.unusedSectionVars false

namespace Verif
open FloatOps Spec

section
variable {F : Type} [FloatOps F] {P : ℤ} {n : ℕ}

/-- The effect of a callback on the full aggregated history (newest tick first). -/
inductive EvStep (n : ℕ) : List (OhlcTick F) → TickEvent F → List (OhlcTick F) → Prop
  | added (full : List (OhlcTick F)) (x : OhlcTick F) (h : full.length < n) : EvStep n full (.added x) (x :: full)
  | addedRemoved (full : List (OhlcTick F)) (r x : OhlcTick F) (h : n ≤ full.length)
      (hr : (full.take n).getLast? = some r) : EvStep n full (.addedRemoved r x) (x :: full)
  | updated (full : List (OhlcTick F)) (old new : OhlcTick F) (ho : old.opn = new.opn) :
      EvStep n (old :: full) (.updated old new) (new :: full)

/-- The effect of a list of callbacks. -/
inductive EvSteps (n : ℕ) : List (OhlcTick F) → List (TickEvent F) → List (OhlcTick F) → Prop
  | nil (full : List (OhlcTick F)) : EvSteps n full [] full
  | cons {full full' full'' : List (OhlcTick F)} {e : TickEvent F} {es : List (TickEvent F)}
      (h : EvStep n full e full') (hs : EvSteps n full' es full'') : EvSteps n full (e :: es) full''

theorem EvSteps.append {a b c : List (OhlcTick F)} {es fs : List (TickEvent F)} (h : EvSteps n a es b)
    (h' : EvSteps n b fs c) : EvSteps n a (es ++ fs) c := by
  induction h with
  | nil => exact h'
  | cons h _ ih => exact .cons h (ih h')

theorem EvSteps.single {a b : List (OhlcTick F)} {e : TickEvent F} (h : EvStep n a e b) : EvSteps n a [e] b :=
  .cons h (.nil _)

theorem pushBack_evStep (hn : 0 < n) (x : OhlcTick F) (full : List (OhlcTick F)) :
    EvStep n full (LastN.pushBack n x (full.take n)).2 (x :: full) := by
  unfold LastN.pushBack
  split
  · rename_i h
    rw [List.length_take] at h
    exact .added _ _ (by omega)
  · rename_i h
    rw [List.length_take] at h
    have hl : n ≤ full.length := by omega
    have hne : full.take n ≠ [] := by
      intro h0
      have := congrArg List.length h0
      rw [List.length_take, List.length_nil] at this; omega
    rw [List.getLast?_eq_some_getLast hne]
    exact .addedRemoved _ _ _ hl (List.getLast?_eq_some_getLast hne)

theorem fill_evSteps (hn : 0 < n) (target : ℤ) (last : OhlcTick F) (rest full : List (OhlcTick F))
    (h : last :: rest = (last :: full).take n) :
    EvSteps n (last :: full) (LastN.fill n P target last rest).2 (fillGaps P target (last :: full)) := by
  fun_induction LastN.fill n P target last rest generalizing full with
  | case1 last rest hc x p r ih =>
    rw [fillGaps_go hc.1 hc.2]
    have hp : p = LastN.pushBack n x ((last :: full).take n) := by
      show LastN.pushBack n x (last :: rest) = _
      rw [h]
    have hp1 : p.1 = (x :: last :: full).take n := by rw [hp]; exact pushBack_fst hn x (last :: full)
    have hx : x :: p.1.tail = (x :: last :: full).take n := by
      rw [hp1]
      obtain ⟨m, rfl⟩ : ∃ m, n = m + 1 := ⟨n - 1, by omega⟩
      simp
    refine .cons ?_ (ih (last :: full) hx)
    rw [hp]; exact pushBack_evStep hn x (last :: full)
  | case2 last rest hc =>
    by_cases hP : 0 < P
    · rw [fillGaps_stop (fun h' => hc ⟨hP, h'⟩)]; exact .nil _
    · rw [fillGaps, dif_neg (fun h' => hP h'.1)]; exact .nil _

/-- One update: the new window is the truncated aggregation, and the callbacks turn the old aggregated history
into the new one. -/
theorem update_evSteps (hn : 0 < n) (s : LastN F) (hsn : s.n = n) (hsP : s.period = P) (full : List (OhlcTick F))
    (hr : s.rev = full.take n) (t : OhlcTick F) (h0 : 0 ≤ t.ts) (hP : 0 < P)
    (hle : ∀ x xs, full = x :: xs → x.ts ≤ periodStart P t.ts) :
    ∃ e, s.update t = .ok ({ s with rev := (aggStep P full t).take n }, e) ∧
      EvSteps n full e (aggStep P full t) := by
  obtain ⟨e, he⟩ := update_fst hn s hsn hsP full hr t h0 hP hle
  refine ⟨e, he, ?_⟩
  obtain ⟨m, rfl⟩ : ∃ m, n = m + 1 := ⟨n - 1, by omega⟩
  unfold LastN.update aggStep LastN.backfill at *
  rw [hsP, hsn, tdiv_eq_periodStart h0] at he
  cases full with
  | nil =>
    simp only [List.take_nil] at hr
    rw [hr] at he
    simp only [fillGaps_nil, List.nil_append] at he ⊢
    obtain ⟨_, rfl⟩ := Prod.mk.inj (Except.ok.inj he)
    exact .single (pushBack_evStep hn _ [])
  | cons x xs =>
    rw [hr, List.take_succ_cons] at he
    have hf := fill_fst (P := P) hn (periodStart P t.ts) x (xs.take m) xs (by simp)
    have hev := fill_evSteps (P := P) hn (periodStart P t.ts) x (xs.take m) xs (by simp)
    obtain ⟨y, ys, hy, hyle⟩ := fillGaps_head_le hP (target := periodStart P t.ts) _ x xs (le_refl _)
      (hle x xs rfl)
    rw [hy, List.take_succ_cons] at hf
    rw [hy] at hev
    simp only [hf, hy] at he ⊢
    split at he
    · rename_i hlt
      obtain ⟨_, rfl⟩ := Prod.mk.inj (Except.ok.inj he)
      rw [if_pos hlt]
      refine hev.append (.single ?_)
      have := pushBack_evStep (Nat.succ_pos m) { t with ts := periodStart P t.ts } (y :: ys)
      rw [List.take_succ_cons] at this
      exact this
    · rename_i hlt
      have e' : y.ts = periodStart P t.ts := by omega
      simp only [assertThat, e', decide_true, if_true, bind, Except.bind, pure, Except.pure] at he
      obtain ⟨_, rfl⟩ := Prod.mk.inj (Except.ok.inj he)
      rw [if_neg hlt]
      refine hev.append (.single ?_)
      have := EvStep.updated (n := m + 1) ys y (mergeTick y t) rfl
      simp only [mergeTick, e'] at this ⊢
      exact this

theorem windowAfter_evStep (hn : 0 < n) {full full' : List (OhlcTick F)} {e : TickEvent F}
    (h : EvStep n full e full') : windowAfter (full.take n).reverse e = (full'.take n).reverse := by
  obtain ⟨m, rfl⟩ : ∃ m, n = m + 1 := ⟨n - 1, by omega⟩
  cases h with
  | added x h =>
    simp only [windowAfter, List.take_succ_cons, List.reverse_cons]
    rw [List.take_of_length_le (by omega), List.take_of_length_le (by omega)]
  | addedRemoved r x h hr =>
    simp only [windowAfter, List.take_succ_cons, List.reverse_cons]
    rw [List.tail_reverse, List.dropLast_eq_take, List.length_take, List.take_take]
    congr 3; omega
  | updated full old new ho => simp [windowAfter]

/-- A property of the state that is kept by every callback is kept by a list of callbacks. -/
theorem callbacks_inv {σ : Type} (hn : 0 < n) (onEvent : List (OhlcTick F) → σ → TickEvent F → Res σ)
    (I : List (OhlcTick F) → σ → Prop)
    (hstep : ∀ full e full' s, EvStep n full e full' → I full s →
      ∃ s', onEvent (full'.take n).reverse s e = .ok s' ∧ I full' s')
    {full full' : List (OhlcTick F)} {es : List (TickEvent F)} (h : EvSteps n full es full') (s : σ) (hs : I full s) :
    ∃ s', Indicator.callbacks onEvent (full.take n).reverse s es = .ok s' ∧ I full' s' := by
  induction h generalizing s with
  | nil => exact ⟨s, rfl, hs⟩
  | cons h _ ih =>
    obtain ⟨s1, h1, h2⟩ := hstep _ _ _ s h hs
    obtain ⟨s2, h3, h4⟩ := ih s1 h2
    refine ⟨s2, ?_, h4⟩
    simp only [Indicator.callbacks, windowAfter_evStep hn h, h1, bind, Except.bind]
    exact h3

/-- A sequence of `Update` calls on an indicator. -/
def Indicator.run {σ : Type} (onEvent : List (OhlcTick F) → σ → TickEvent F → Res σ) (ind : Indicator F σ)
    (l : List (OhlcTick F)) : Res (Indicator F σ) := l.foldlM (Indicator.update onEvent) ind

/-- Induction principle: if every callback keeps `I`, then after feeding a sorted history the state satisfies `I`
for the aggregation of the whole history. -/
theorem Indicator.run_inv {σ : Type} (hn : 0 < n) (hP : 0 < P)
    (onEvent : List (OhlcTick F) → σ → TickEvent F → Res σ) (I : List (OhlcTick F) → σ → Prop)
    (hstep : ∀ full e full' s, EvStep n full e full' → I full s →
      ∃ s', onEvent (full'.take n).reverse s e = .ok s' ∧ I full' s')
    (s0 : σ) (h0 : I [] s0) (l : List (OhlcTick F)) (hs : SortedBy OhlcTick.ts l) (hts : ∀ t ∈ l, 0 ≤ t.ts) :
    ∃ s, Indicator.run onEvent ⟨⟨n, P, []⟩, s0⟩ l =
        .ok ⟨⟨n, P, (aggregate P l).reverse.take n⟩, s⟩ ∧ I (aggregate P l).reverse s := by
  induction l using List.reverseRecOn with
  | nil => exact ⟨s0, by simp [Indicator.run, aggregate, pure, Except.pure], by simpa [aggregate] using h0⟩
  | append_singleton l t ih =>
    have hsl := (List.pairwise_append.mp hs).1
    obtain ⟨s, h1, h2⟩ := ih hsl (fun x hx => hts x (by simp [hx]))
    obtain ⟨e, he, hev⟩ := update_evSteps (P := P) hn ⟨n, P, (aggregate P l).reverse.take n⟩ rfl rfl
      (aggregate P l).reverse rfl t (hts t (by simp)) hP (by
        intro x xs hx
        by_cases hne : l = []
        · subst hne; simp [aggregate] at hx
        · rw [aggregate_getLast_ts hP hsl hne hx]
          exact periodStart_mono hP ((List.pairwise_append.mp hs).2.2 _ (List.getLast_mem hne) _ (by simp)))
    rw [aggStep_aggregate hP l t hs] at he hev
    obtain ⟨s', h3, h4⟩ := callbacks_inv hn onEvent I hstep hev s h2
    refine ⟨s', ?_, h4⟩
    unfold Indicator.run at h1 ⊢
    rw [List.foldlM_append, h1]
    simp only [List.foldlM_cons, List.foldlM_nil, Indicator.update, he, LastN.ticks, bind, Except.bind, pure,
      Except.pure]
    rw [h3]

end
end Verif
