import Verif.Lemmas.Indicators

/-! The induction principle for indicators, with a property of the ticks and the number of callbacks. -/

set_option linter.unusedSectionVars false

namespace Verif
open FloatOps Spec

section
variable {F : Type} [FloatOps F] {P : ℤ} {n : ℕ}

/-- The tick a callback announces. -/
def TickEvent.newTick : TickEvent F → OhlcTick F
  | .added x => x
  | .addedRemoved _ x => x
  | .updated _ x => x

/-- The number of callbacks that announce a changed tick. -/
def numUpdated (es : List (TickEvent F)) : ℕ :=
  (es.filter (fun e => match e with | .updated _ _ => true | _ => false)).length

theorem EvSteps.length {a b : List (OhlcTick F)} {es : List (TickEvent F)} (h : EvSteps n a es b) :
    b.length + numUpdated es = a.length + es.length := by
  induction h with
  | nil => rfl
  | cons h _ ih =>
    unfold numUpdated at *
    cases h <;> simp_all <;> omega

/-- A property of ticks that aggregation keeps. -/
structure Kept (R : OhlcTick F → Prop) : Prop where
  move : ∀ t s, R t → R { t with ts := s }
  flat : ∀ t s, R t → R ⟨s, t.close, t.close, t.close, t.close, lit F 0⟩
  merge : ∀ a b, R a → R b → R (mergeTick a b)

theorem pushBack_new (x : OhlcTick F) (rev : List (OhlcTick F)) :
    (LastN.pushBack n x rev).2.newTick = x ∧ numUpdated [(LastN.pushBack n x rev).2] = 0 := by
  unfold LastN.pushBack
  split
  · exact ⟨rfl, rfl⟩
  · split <;> exact ⟨rfl, rfl⟩

theorem fill_new {R : OhlcTick F → Prop} (hR : Kept R) (target : ℤ) (last : OhlcTick F) (rest : List (OhlcTick F))
    (h : R last) : (∀ e ∈ (LastN.fill n P target last rest).2, R e.newTick) ∧
      numUpdated (LastN.fill n P target last rest).2 = 0 := by
  fun_induction LastN.fill n P target last rest with
  | case1 last rest hc x p r ih =>
    obtain ⟨h1, h2⟩ := ih (hR.flat last _ h)
    have hp := pushBack_new (n := n) x (last :: rest)
    refine ⟨?_, ?_⟩
    · intro e he
      rw [List.mem_cons] at he
      rcases he with rfl | he
      · rw [hp.1]; exact hR.flat last _ h
      · exact h1 e he
    · have e : numUpdated (p.2 :: r.2) = numUpdated [p.2] + numUpdated r.2 := by
        unfold numUpdated; rw [← List.length_append, ← List.filter_append]; rfl
      rw [e, hp.2, h2]
  | case2 => exact ⟨by simp, rfl⟩

theorem fill_R {R : OhlcTick F → Prop} (hR : Kept R) (target : ℤ) (last : OhlcTick F) (rest : List (OhlcTick F))
    (h : R last) : ∀ x xs, (LastN.fill n P target last rest).1 = x :: xs → R x := by
  fun_induction LastN.fill n P target last rest with
  | case1 last rest hc x p r ih => exact ih (hR.flat last _ h)
  | case2 => rintro x xs ⟨⟩; exact h

theorem numUpdated_append (es fs : List (TickEvent F)) : numUpdated (es ++ fs) = numUpdated es + numUpdated fs := by
  unfold numUpdated; rw [List.filter_append, List.length_append]

/-- The callbacks of one update announce ticks with the property; at most one of them is not about a new tick. -/
theorem update_new {R : OhlcTick F → Prop} (hR : Kept R) (s s' : LastN F) (t : OhlcTick F) (es : List (TickEvent F))
    (h : s.update t = .ok (s', es)) (hs : ∀ x xs, s.rev = x :: xs → R x) (ht : R t) :
    (∀ e ∈ es, R e.newTick) ∧ numUpdated es ≤ 1 := by
  have hb : (∀ e ∈ (s.backfill (s.period * (t.ts.tdiv s.period))).2, R e.newTick) ∧
      numUpdated (s.backfill (s.period * (t.ts.tdiv s.period))).2 = 0 ∧
      ∀ x xs, (s.backfill (s.period * (t.ts.tdiv s.period))).1 = x :: xs → R x := by
    unfold LastN.backfill
    split
    · exact ⟨by simp, rfl, by simp⟩
    · rename_i last rest hr
      have hl := hs last rest hr
      exact ⟨(fill_new hR _ _ _ hl).1, (fill_new hR _ _ _ hl).2, fill_R hR _ _ _ hl⟩
  obtain ⟨b1, b2, b3⟩ := hb
  unfold LastN.update at h
  dsimp only at h
  generalize s.backfill (s.period * (t.ts.tdiv s.period)) = filled at *
  have key : ∀ e, R e.newTick → numUpdated [e] ≤ 1 → es = filled.2 ++ [e] → (∀ e ∈ es, R e.newTick) ∧ numUpdated es ≤ 1 := by
    rintro e h1 h2 rfl
    refine ⟨fun e' he' => ?_, by rw [numUpdated_append, b2]; omega⟩
    rw [List.mem_append, List.mem_singleton] at he'
    rcases he' with he' | rfl
    · exact b1 _ he'
    · exact h1
  split at h
  · obtain ⟨_, h2⟩ := Prod.mk.inj (Except.ok.inj h)
    refine key _ ?_ ?_ h2.symm
    · rw [(pushBack_new _ _).1]; exact hR.move _ _ ht
    · rw [(pushBack_new _ _).2]; omega
  · rename_i last rest hr
    split at h
    · obtain ⟨_, h2⟩ := Prod.mk.inj (Except.ok.inj h)
      refine key _ ?_ ?_ h2.symm
      · rw [(pushBack_new _ _).1]; exact hR.move _ _ ht
      · rw [(pushBack_new _ _).2]; omega
    · unfold assertThat at h
      split at h
      · simp only [bind, Except.bind, pure, Except.pure] at h
        obtain ⟨_, h2⟩ := Prod.mk.inj (Except.ok.inj h)
        refine key _ ?_ ?_ h2.symm
        · exact hR.merge last t (b3 _ _ hr) ht
        · exact le_refl 1
      · cases h

theorem callbacks_inv_counted {σ : Type} (hn : 0 < n) (onEvent : List (OhlcTick F) → σ → TickEvent F → Res σ)
    (R : OhlcTick F → Prop) (I : ℕ → List (OhlcTick F) → σ → Prop)
    (hstep : ∀ k full e full' s, EvStep n full e full' → (∀ x ∈ full, R x) → R e.newTick → I k full s →
      ∃ s', onEvent (full'.take n).reverse s e = .ok s' ∧ I (k + 1) full' s')
    {full full' : List (OhlcTick F)} {es : List (TickEvent F)} (h : EvSteps n full es full') (k : ℕ) (s : σ)
    (hfull : ∀ x ∈ full, R x) (hes : ∀ e ∈ es, R e.newTick) (hs : I k full s) :
    (∀ x ∈ full', R x) ∧
    ∃ s', Indicator.callbacks onEvent (full.take n).reverse s es = .ok s' ∧ I (k + es.length) full' s' := by
  induction h generalizing s k with
  | nil => exact ⟨hfull, s, rfl, hs⟩
  | @cons a b c e es h _ ih =>
    obtain ⟨s1, h1, h2⟩ := hstep k _ _ _ s h hfull (hes e (by simp)) hs
    have hb : ∀ x ∈ b, R x := by
      have he := hes e (by simp)
      cases h with
      | added _ x _ => intro y hy; rcases List.mem_cons.mp hy with rfl | hy; exacts [he, hfull y hy]
      | addedRemoved _ r x _ _ => intro y hy; rcases List.mem_cons.mp hy with rfl | hy; exacts [he, hfull y hy]
      | updated full old new _ =>
        intro y hy; rcases List.mem_cons.mp hy with rfl | hy; exacts [he, hfull y (by simp [hy])]
    obtain ⟨h3, s2, h4, h5⟩ := ih (k + 1) s1 hb (fun e he => hes e (by simp [he])) h2
    refine ⟨h3, s2, ?_, by rw [List.length_cons]; convert h5 using 1; omega⟩
    simp only [Indicator.callbacks, windowAfter_evStep hn h, h1, bind, Except.bind]
    exact h4

/-- Induction principle: like `Indicator.run_inv`; in addition all ticks involved have the property `R`, and the number
of callbacks is known to `I`. -/
theorem Indicator.run_inv_counted {σ : Type} (hn : 0 < n) (hP : 0 < P)
    (onEvent : List (OhlcTick F) → σ → TickEvent F → Res σ) (R : OhlcTick F → Prop) (hR : Kept R)
    (I : ℕ → List (OhlcTick F) → σ → Prop)
    (hstep : ∀ k full e full' s, EvStep n full e full' → (∀ x ∈ full, R x) → R e.newTick → I k full s →
      ∃ s', onEvent (full'.take n).reverse s e = .ok s' ∧ I (k + 1) full' s')
    (s0 : σ) (h0 : I 0 [] s0) (l : List (OhlcTick F)) (hs : SortedBy OhlcTick.ts l) (hts : ∀ t ∈ l, 0 ≤ t.ts)
    (hl : ∀ t ∈ l, R t) :
    ∃ s k, Indicator.run onEvent ⟨⟨n, P, []⟩, s0⟩ l =
        .ok ⟨⟨n, P, (aggregate P l).reverse.take n⟩, s⟩ ∧ I k (aggregate P l).reverse s ∧
      k ≤ l.length + (aggregate P l).length ∧ ∀ x ∈ aggregate P l, R x := by
  induction l using List.reverseRecOn with
  | nil => exact ⟨s0, 0, by simp [Indicator.run, aggregate, pure, Except.pure], by simpa [aggregate] using h0, by simp, by simp [aggregate]⟩
  | append_singleton l t ih =>
    have hsl := (List.pairwise_append.mp hs).1
    obtain ⟨s, k, h1, h2, hk, hall⟩ := ih hsl (fun x hx => hts x (by simp [hx])) (fun x hx => hl x (by simp [hx]))
    obtain ⟨e, he, hev⟩ := update_evSteps (P := P) hn ⟨n, P, (aggregate P l).reverse.take n⟩ rfl rfl
      (aggregate P l).reverse rfl t (hts t (by simp)) hP (by
        intro x xs hx
        by_cases hne : l = []
        · subst hne; simp [aggregate] at hx
        · rw [aggregate_getLast_ts hP hsl hne hx]
          exact periodStart_mono hP ((List.pairwise_append.mp hs).2.2 _ (List.getLast_mem hne) _ (by simp)))
    obtain ⟨hnew, hupd⟩ := update_new hR _ _ t e he (by
      intro x xs hx
      have : x ∈ (aggregate P l).reverse.take n := by change (aggregate P l).reverse.take n = _ at hx; rw [hx]; simp
      exact hall x (by simpa using List.mem_of_mem_take this)) (hl t (by simp))
    rw [aggStep_aggregate hP l t hs] at he hev
    obtain ⟨hall', s', h3, h4⟩ := callbacks_inv_counted hn onEvent R I hstep hev k s
      (fun x hx => hall x (by simpa using hx)) hnew h2
    have hlen := hev.length
    refine ⟨s', k + e.length, ?_, h4, ?_, fun x hx => hall' x (by simpa using hx)⟩
    · unfold Indicator.run at h1 ⊢
      rw [List.foldlM_append, h1]
      simp only [List.foldlM_cons, List.foldlM_nil, Indicator.update, he, LastN.ticks, bind, Except.bind, pure,
        Except.pure]
      rw [h3]
    · simp only [List.length_reverse, List.length_append, List.length_singleton] at hlen ⊢
      omega

/-- Aggregation keeps such properties. -/
theorem aggregate_kept {R : OhlcTick F → Prop} (hR : Kept R) (hP : 0 < P) (l : List (OhlcTick F))
    (hs : SortedBy OhlcTick.ts l) (hts : ∀ t ∈ l, 0 ≤ t.ts) (hl : ∀ t ∈ l, R t) : ∀ x ∈ aggregate P l, R x := by
  obtain ⟨_, _, _, _, _, h⟩ := Indicator.run_inv_counted (n := 1) (σ := Unit) (by norm_num) hP (fun _ _ _ => .ok ()) R hR
    (fun _ _ _ => True) (fun _ _ _ _ _ _ _ _ _ => ⟨(), rfl, trivial⟩) () trivial l hs hts hl
  exact h

end
end Verif
