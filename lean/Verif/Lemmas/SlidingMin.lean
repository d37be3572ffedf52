import Verif.Lemmas.Window

/-! `SlidingWindowMinimum`: safety of the deque (all floats) and correctness (comparable values). -/

set_option linter.unusedSectionVars false

namespace Verif
open FloatOps Spec

variable {F : Type} [FloatOps F]

namespace SlidingMin

theorem popBack_eq (x : F) (w : List (F × ℕ)) : popBack x w = w.dropWhile (fun b => b.1 >=. x) := by
  induction w with
  | nil => rfl
  | cons b w ih =>
    simp only [popBack, List.dropWhile_cons]
    split <;> simp_all

/-- The test of the second loop. -/
def tooOld (num ws : ℕ) (f : F × ℕ) : Bool := decide ((num : ℤ) - f.2 + 1 ≥ ws)

theorem popFront_eq (num ws : ℕ) (w : List (F × ℕ)) (h : ∃ e ∈ w, tooOld num ws e = false) :
    popFront num ws w = .ok (w.dropWhile (tooOld num ws)) := by
  induction w with
  | nil => simp at h
  | cons f w ih =>
    simp only [popFront, List.dropWhile_cons]
    by_cases hf : (num : ℤ) - f.2 + 1 ≥ ws
    · rw [if_pos hf, if_pos (by simpa [tooOld] using hf)]
      apply ih
      obtain ⟨e, he, hn⟩ := h
      rcases List.mem_cons.mp he with rfl | he
      · simp [tooOld] at hn; omega
      · exact ⟨e, he, hn⟩
    · rw [if_neg hf, if_neg (by simpa [tooOld] using hf)]

/-- The second loop never runs out of elements. -/
theorem popFront_ok (num ws : ℕ) (hws : 2 ≤ ws) (cur : F) (w : List (F × ℕ)) :
    popFront num ws ((cur, num) :: w).reverse = .ok (((cur, num) :: w).reverse.dropWhile (tooOld num ws)) := by
  apply popFront_eq
  exact ⟨(cur, num), by simp, by simp [tooOld]; omega⟩

/-- The deque after an addition. -/
def nextWindow (s : SlidingMin F) : List (F × ℕ) :=
  (((s.current, s.num) :: popBack s.current s.window).reverse.dropWhile (tooOld s.num s.windowSize)).reverse

theorem add_eq (s : SlidingMin F) (hn : s.num ≠ 0) (hw : 2 ≤ s.windowSize) (v : F) :
    s.add v = .ok ⟨s.windowSize, v, match s.nextWindow.getLast? with
      | none => v
      | some f => fmin f.1 v, s.nextWindow, s.num + 1⟩ := by
  unfold SlidingMin.add
  rw [if_neg (by omega)]
  simp only [popFront_ok s.num s.windowSize hw, bind, Except.bind]
  rw [update_ok _ (by simp)]
  rfl

/-- Structure of the deque: strictly decreasing positions (newest first), all of them inside the window. -/
structure Safe (s : SlidingMin F) : Prop where
  size : 1 ≤ s.windowSize
  fresh : s.Fresh
  sorted : s.window.Pairwise (fun a b => b.2 < a.2)
  range : ∀ e ∈ s.window, e.2 < s.num ∧ s.num < e.2 + s.windowSize

theorem nextWindow_prefix (s : SlidingMin F) :
    s.nextWindow <+: (s.current, s.num) :: popBack s.current s.window := by
  unfold nextWindow
  rw [← List.reverse_suffix, List.reverse_reverse]
  exact List.dropWhile_suffix _

theorem mem_dropWhile_of_not {α : Type} (p : α → Bool) {e : α} (hp : p e = false) :
    ∀ l : List α, e ∈ l → e ∈ l.dropWhile p
  | [], h => h
  | a :: l, h => by
    rw [List.dropWhile_cons]
    split
    · rename_i ha
      rcases List.mem_cons.mp h with rfl | h
      · rw [hp] at ha; cases ha
      · exact mem_dropWhile_of_not p hp l h
    · exact h

theorem mem_nextWindow_of (s : SlidingMin F) {e : F × ℕ}
    (he : e ∈ (s.current, s.num) :: popBack s.current s.window) (ht : tooOld s.num s.windowSize e = false) :
    e ∈ s.nextWindow := by
  unfold nextWindow
  rw [List.mem_reverse]
  exact mem_dropWhile_of_not _ ht _ (List.mem_reverse.mpr he)

theorem not_tooOld_of_mem (s : SlidingMin F)
    (hs : ((s.current, s.num) :: popBack s.current s.window).Pairwise (fun a b => b.2 < a.2)) {e : F × ℕ}
    (he : e ∈ s.nextWindow) : tooOld s.num s.windowSize e = false := by
  unfold nextWindow at he
  rw [List.mem_reverse] at he
  have hp : ((s.current, s.num) :: popBack s.current s.window).reverse.Pairwise (fun a b => a.2 < b.2) := by
    rw [List.pairwise_reverse]; exact hs
  generalize ((s.current, s.num) :: popBack s.current s.window).reverse = L at he hp
  induction L with
  | nil => simp at he
  | cons f L ih =>
    rw [List.dropWhile_cons] at he
    split at he
    · exact ih he (List.pairwise_cons.mp hp).2
    · rename_i hf
      rcases List.mem_cons.mp he with rfl | he
      · simpa using hf
      · have := (List.pairwise_cons.mp hp).1 e he
        simp only [tooOld, decide_eq_true_eq, decide_eq_false_iff_not] at hf ⊢
        omega

theorem pushed_sorted {s : SlidingMin F} (h : s.Safe) :
    ((s.current, s.num) :: popBack s.current s.window).Pairwise (fun a b => b.2 < a.2) := by
  rw [List.pairwise_cons]
  have hsuf : popBack s.current s.window <:+ s.window := by rw [popBack_eq]; exact List.dropWhile_suffix _
  exact ⟨fun e he => (h.range e (hsuf.subset he)).1, h.sorted.sublist hsuf.sublist⟩

theorem Safe.add {s : SlidingMin F} (h : s.Safe) (v : F) : ∃ s', s.add v = .ok s' ∧ s'.Safe ∧
    s'.num = s.num + 1 ∧ s'.windowSize = s.windowSize := by
  by_cases hc : s.num = 0 ∨ s.windowSize = 1
  · refine ⟨{ s with current := v, minimum := v, num := s.num + 1 }, ?_, ⟨h.size, ?_, ?_, ?_⟩, rfl, rfl⟩
    · unfold SlidingMin.add; rw [if_pos hc]
    · intro _; exact h.fresh hc
    · exact h.sorted
    · intro e he
      have : e ∈ s.window := he
      rw [h.fresh hc] at this; simp at this
  · have hn : s.num ≠ 0 := by tauto
    have hw : 2 ≤ s.windowSize := by have := h.size; omega
    refine ⟨_, add_eq s hn hw v, ⟨h.size, ?_, ?_, ?_⟩, rfl, rfl⟩
    · intro h'; exact absurd h' (by simp; tauto)
    · exact (pushed_sorted h).sublist (nextWindow_prefix s).sublist
    · intro e he
      have h1 := not_tooOld_of_mem s (pushed_sorted h) he
      have h2 : e.2 ≤ s.num := by
        rcases List.mem_cons.mp ((nextWindow_prefix s).subset he) with rfl | h'
        · exact le_refl _
        · exact ((List.pairwise_cons.mp (pushed_sorted h)).1 e h').le
      simp only [tooOld, decide_eq_false_iff_not] at h1
      refine ⟨by simp; omega, by simp; omega⟩

theorem Safe.bounded {s : SlidingMin F} (h : s.Safe) : s.window.length < s.windowSize := by
  have key : ∀ (w : List (F × ℕ)) (lo hi : ℕ), w.Pairwise (fun a b => b.2 < a.2) →
      (∀ e ∈ w, lo ≤ e.2 ∧ e.2 < hi) → w.length ≤ hi - lo := by
    intro w
    induction w with
    | nil => intros; simp
    | cons a w ih =>
      intro lo hi hp hr
      have ha := hr a (by simp)
      have := ih lo a.2 (List.pairwise_cons.mp hp).2
        (fun e he => ⟨(hr e (by simp [he])).1, (List.pairwise_cons.mp hp).1 e he⟩)
      simp only [List.length_cons]; omega
  have hz := h.size
  have h1 := key s.window (s.num + 1 - s.windowSize) s.num h.sorted
    (fun e he => by have := h.range e he; omega)
  omega

/-! Correctness, for values that can be compared (`key` orders them). -/

section
variable {L : Type} [LinearOrder L] (ok : F → Prop) (key : F → L)

/-- On the values satisfying `ok`, the comparisons are those of `key`. -/
structure _root_.Verif.Comparable : Prop where
  lt : ∀ a b, ok a → ok b → (a <. b) = decide (key a < key b)
  le : ∀ a b, ok a → ok b → (a <=. b) = decide (key a ≤ key b)

/-- What the deque knows about the values `vs` added so far (positions are 1-based). -/
structure Correct (s : SlidingMin F) (vs : List F) : Prop where
  safe : s.Safe
  num : s.num = vs.length
  cur : vs ≠ [] → vs.getLast? = some s.current
  entry : ∀ e ∈ s.window, 1 ≤ e.2 ∧ vs[e.2 - 1]? = some e.1
  mono : s.window.Pairwise (fun a b => key b.1 < key a.1)
  cover : ∀ j x, 1 ≤ j → j < vs.length → vs.length < j + s.windowSize → vs[j - 1]? = some x →
    ∃ e ∈ s.window, j ≤ e.2 ∧ key e.1 ≤ key x
  result : vs ≠ [] → s.minimum ∈ lastN s.windowSize vs ∧ ∀ x ∈ lastN s.windowSize vs, key s.minimum ≤ key x

theorem mem_lastN {α : Type} {n : ℕ} {l : List α} {x : α} :
    x ∈ lastN n l ↔ ∃ j, 1 ≤ j ∧ j ≤ l.length ∧ l.length < j + n ∧ l[j - 1]? = some x := by
  unfold lastN
  rw [List.mem_iff_getElem?]
  constructor
  · rintro ⟨i, hi⟩
    rw [List.getElem?_drop] at hi
    obtain ⟨h, _⟩ := List.getElem?_eq_some_iff.mp hi
    exact ⟨l.length - n + i + 1, by omega, by omega, by omega, by simpa using hi⟩
  · rintro ⟨j, h1, h2, h3, h4⟩
    refine ⟨j - 1 - (l.length - n), ?_⟩
    rw [List.getElem?_drop, ← h4]
    congr 1; omega

variable {ok key} (hc : Comparable ok key)
include hc

theorem Correct.add {s : SlidingMin F} {vs : List F} (h : Correct key s vs) (hok : ∀ x ∈ vs, ok x) {v : F}
    (hv : ok v) : ∃ s', s.add v = .ok s' ∧ Correct key s' (vs ++ [v]) ∧ s'.windowSize = s.windowSize := by
  obtain ⟨s', hs', hsafe, hnum, hws⟩ := h.safe.add v
  have hz := h.safe.size
  by_cases hcase : s.num = 0 ∨ s.windowSize = 1
  · -- the early return
    have he : s' = { s with current := v, minimum := v, num := s.num + 1 } := by
      unfold SlidingMin.add at hs'; rw [if_pos hcase] at hs'; exact (Except.ok.inj hs').symm
    have hw : s.window = [] := h.safe.fresh hcase
    refine ⟨s', hs', ⟨hsafe, ?_, ?_, ?_, ?_, ?_, ?_⟩, hws⟩
    · rw [hnum, h.num]; simp
    · intro _; subst he; simp
    · subst he; simp [hw]
    · subst he; simp [hw]
    · intro j x h1 h2 h3 h4
      rw [hws] at h3
      simp only [List.length_append, List.length_singleton] at h2 h3
      have := h.num
      omega
    · intro _
      subst he
      have hl : lastN s.windowSize (vs ++ [v]) = [v] := by
        unfold lastN
        rcases hcase with h0 | h1
        · have : vs = [] := by rw [h.num] at h0; exact List.length_eq_zero_iff.mp h0
          subst this
          simp only [List.nil_append, List.length_singleton]
          rw [show 1 - s.windowSize = 0 by omega]; rfl
        · rw [h1]; simp
      simp [hl]
  · have hn : s.num ≠ 0 := by tauto
    have hw : 2 ≤ s.windowSize := by omega
    have hne : vs ≠ [] := by intro h0; rw [h.num, h0] at hn; simp at hn
    have hcur := h.cur hne
    have hlen : vs.length = s.num := h.num.symm
    have hcurget : vs[s.num - 1]? = some s.current := by
      rw [← hcur, List.getLast?_eq_getElem?, hlen]
    have hokcur : ok s.current := hok _ (List.mem_of_getElem? hcurget)
    have hokw : ∀ e ∈ s.window, ok e.1 := fun e he => hok _ (List.mem_of_getElem? (h.entry e he).2)
    have he := add_eq s hn hw v
    rw [hs'] at he
    have he := Except.ok.inj he
    have hentry : ∀ e ∈ s.nextWindow, 1 ≤ e.2 ∧ e.2 ≤ s.num ∧ vs[e.2 - 1]? = some e.1 := by
      intro e hm
      rcases List.mem_cons.mp ((nextWindow_prefix s).subset hm) with rfl | h'
      · exact ⟨by omega, le_refl _, hcurget⟩
      · have hm' : e ∈ s.window := by
          rw [popBack_eq] at h'; exact (List.dropWhile_suffix _).subset h'
        exact ⟨(h.entry e hm').1, (h.safe.range e hm').1.le, (h.entry e hm').2⟩
    have hpop : ∀ e ∈ popBack s.current s.window, key e.1 < key s.current := by
      have hsub : ∀ w : List (F × ℕ), (∀ e ∈ w, ok e.1) → w.Pairwise (fun a b => key b.1 < key a.1) →
          ∀ e ∈ popBack s.current w, key e.1 < key s.current := by
        intro w
        induction w with
        | nil => intro _ _ e he; simp [popBack] at he
        | cons b w ih =>
          intro hokw hp e he
          simp only [popBack] at he
          split at he
          · exact ih (fun e he => hokw e (by simp [he])) (List.pairwise_cons.mp hp).2 e he
          · rename_i hb
            rw [hc.le _ _ hokcur (hokw b (by simp))] at hb
            have hb' : key b.1 < key s.current := by simpa using hb
            rcases List.mem_cons.mp he with rfl | he
            · exact hb'
            · exact lt_trans ((List.pairwise_cons.mp hp).1 e he) hb'
      exact hsub s.window hokw h.mono
    have hmono : s.nextWindow.Pairwise (fun a b => key b.1 < key a.1) := by
      apply List.Pairwise.sublist (nextWindow_prefix s).sublist
      rw [List.pairwise_cons]
      refine ⟨hpop, ?_⟩
      apply List.Pairwise.sublist _ h.mono
      rw [popBack_eq]; exact (List.dropWhile_suffix _).sublist
    have hcover : ∀ j x, 1 ≤ j → j ≤ s.num → s.num + 1 < j + s.windowSize → vs[j - 1]? = some x →
        ∃ e ∈ s.nextWindow, j ≤ e.2 ∧ key e.1 ≤ key x := by
      intro j x h1 h2 h3 h4
      have hcm : (s.current, s.num) ∈ s.nextWindow :=
        mem_nextWindow_of s (by simp) (by simp [tooOld]; omega)
      by_cases hj : j = s.num
      · subst hj
        rw [hcurget] at h4; cases h4
        exact ⟨_, hcm, le_refl _, le_refl _⟩
      · obtain ⟨e, hew, hej, hek⟩ := h.cover j x h1 (by omega) (by omega) h4
        by_cases hin : e ∈ popBack s.current s.window
        · refine ⟨e, mem_nextWindow_of s (by simp [hin]) ?_, hej, hek⟩
          simp only [tooOld, decide_eq_false_iff_not]; omega
        · refine ⟨_, hcm, by omega, ?_⟩
          -- a popped entry is not smaller than the current value
          have hge : (fun b : F × ℕ => b.1 >=. s.current) e = true := by
            by_contra hcon
            apply hin
            rw [popBack_eq]
            exact mem_dropWhile_of_not _ (by simpa using hcon) _ hew
          simp only at hge
          rw [hc.le _ _ hokcur (hokw e hew)] at hge
          exact le_trans (by simpa using hge) hek
    refine ⟨s', hs', ⟨hsafe, ?_, ?_, ?_, ?_, ?_, ?_⟩, hws⟩
    · rw [hnum, h.num]; simp
    · intro _; subst he; simp
    · intro e hm
      subst he
      obtain ⟨a, b, c⟩ := hentry e hm
      exact ⟨a, by rw [List.getElem?_append_left (by omega)]; exact c⟩
    · subst he; exact hmono
    · intro j x h1 h2 h3 h4
      subst he
      simp only [List.length_append, List.length_singleton] at h2 h3
      rw [List.getElem?_append_left (by omega)] at h4
      exact hcover j x h1 (by omega) (by omega) h4
    · intro _
      subst he
      simp only
      -- the front of the deque
      cases hlast : s.nextWindow.getLast? with
      | none =>
        exfalso
        rw [List.getLast?_eq_none_iff] at hlast
        obtain ⟨e, hm, _⟩ := hcover s.num s.current (by omega) (le_refl _) (by omega) hcurget
        rw [hlast] at hm; simp at hm
      | some f =>
        simp only
        have hfm : f ∈ s.nextWindow := List.mem_of_getLast? hlast
        obtain ⟨f1, f2, f3⟩ := hentry f hfm
        have hft := not_tooOld_of_mem s (pushed_sorted h.safe) hfm
        simp only [tooOld, decide_eq_false_iff_not] at hft
        have hfok : ok f.1 := hok _ (List.mem_of_getElem? f3)
        have hfle : ∀ e ∈ s.nextWindow, key f.1 ≤ key e.1 := by
          intro e hem
          obtain ⟨ini, hini⟩ := List.getLast?_eq_some_iff.mp hlast
          rw [hini] at hem hmono
          rcases List.mem_append.mp hem with h' | h'
          · exact ((List.pairwise_append.mp hmono).2.2 e h' f (by simp)).le
          · rw [List.mem_singleton.mp h']
        have hall : ∀ x ∈ lastN s.windowSize (vs ++ [v]), key (fmin f.1 v) ≤ key x := by
          intro x hx
          obtain ⟨j, h1, h2, h3, h4⟩ := mem_lastN.mp hx
          simp only [List.length_append, List.length_singleton] at h2 h3
          have hmin : key (fmin f.1 v) ≤ key f.1 ∧ key (fmin f.1 v) ≤ key v := by
            unfold fmin
            rw [hc.lt _ _ hv hfok]
            by_cases hlt : key v < key f.1
            · simp [hlt, hlt.le]
            · simp [hlt, not_lt.mp hlt]
          by_cases hj : j = vs.length + 1
          · subst hj
            simp at h4; subst h4; exact hmin.2
          · rw [List.getElem?_append_left (by omega)] at h4
            obtain ⟨e, hem, _, hek⟩ := hcover j x h1 (by omega) (by omega) h4
            exact le_trans hmin.1 (le_trans (hfle e hem) hek)
        refine ⟨?_, hall⟩
        rw [mem_lastN]
        unfold fmin
        split
        · exact ⟨vs.length + 1, by omega, by simp, by simp; omega, by simp⟩
        · refine ⟨f.2, f1, by simp; omega, by simp; omega, ?_⟩
          rw [List.getElem?_append_left (by omega)]; exact f3

end
end SlidingMin
end Verif
