import Verif.Model.History
import Mathlib.Data.List.Sort
import Mathlib.Data.List.Perm.Basic

/-! The bounded priority queue of `GetPriceHistoryGaps`. -/

namespace Verif

/-- `x` is at least as good as `y`: longer, or as long and not later. -/
def GapBetter (x y : HistoryGap) : Prop :=
  y.2 - y.1 < x.2 - x.1 ∨ (y.2 - y.1 = x.2 - x.1 ∧ x.1 ≤ y.1)

theorem GapBetter.refl (x : HistoryGap) : GapBetter x x := Or.inr ⟨rfl, le_refl _⟩

theorem GapBetter.trans {x y z : HistoryGap} (h1 : GapBetter x y) (h2 : GapBetter y z) : GapBetter x z := by
  unfold GapBetter at *; omega

theorem gapCmp_iff (x y : HistoryGap) : gapCmp x y = true ↔ ¬ GapBetter y x := by
  unfold gapCmp GapBetter
  simp only [Bool.or_eq_true, Bool.and_eq_true, decide_eq_true_eq]
  omega

theorem gapTop_spec (m : HistoryGap) (q : List HistoryGap) :
    gapTop m q ∈ m :: q ∧ ∀ x ∈ m :: q, GapBetter x (gapTop m q) := by
  induction q generalizing m with
  | nil => simp [gapTop, GapBetter.refl]
  | cons g q ih =>
    unfold gapTop
    obtain ⟨h1, h2⟩ := ih (if gapCmp m g then g else m)
    by_cases hc : gapCmp m g = true
    · simp only [hc, if_true] at h1 h2 ⊢
      refine ⟨by simp at h1 ⊢; tauto, ?_⟩
      have hg := h2 g (by simp)
      have hmg : GapBetter m g := by
        have := (gapCmp_iff m g).mp hc; unfold GapBetter at *; omega
      intro x hx
      simp only [List.mem_cons] at hx
      rcases hx with rfl | rfl | hx
      · exact hmg.trans hg
      · exact hg
      · exact h2 x (by simp [hx])
    · simp only [hc] at h1 h2 ⊢
      refine ⟨by simp at h1 ⊢; tauto, ?_⟩
      have hg := h2 m (by simp)
      have hmg : GapBetter g m := by
        by_contra h; exact hc ((gapCmp_iff m g).mpr h)
      intro x hx
      simp only [List.mem_cons] at hx
      rcases hx with rfl | rfl | hx
      · exact hg
      · exact hmg.trans hg
      · exact h2 x (by simp [hx])

/-- The queue holds the best `k` of the gaps `G` pushed so far. -/
def QueueInv (k : ℕ) (q G : List HistoryGap) : Prop :=
  ∃ rest, (q ++ rest).Perm G ∧ q.length = min k G.length ∧ ∀ x ∈ q, ∀ y ∈ rest, GapBetter x y

theorem QueueInv.push {k : ℕ} {q G : List HistoryGap} (h : QueueInv k q G) (g : HistoryGap) :
    QueueInv k (gapPushBounded k q g) (G ++ [g]) := by
  obtain ⟨rest, h1, h2, h3⟩ := h
  have hl := h1.length_eq
  rw [List.length_append] at hl
  have hp : (g :: (q ++ rest)).Perm (G ++ [g]) :=
    (List.Perm.cons g h1).trans (List.perm_append_singleton g G).symm
  unfold gapPushBounded
  by_cases hk : (g :: q).length > k
  · simp only [hk, if_true]
    unfold gapPop
    set w := gapTop g q with hw
    obtain ⟨m1, m2⟩ := gapTop_spec g q
    rw [← hw] at m1 m2
    have hlen : ((g :: q).erase w).length = (g :: q).length - 1 := List.length_erase_of_mem m1
    refine ⟨w :: rest, ?_, ?_, ?_⟩
    · have e1 : (w :: (g :: q).erase w).Perm (g :: q) := (List.perm_cons_erase m1).symm
      have e2 : ((g :: q).erase w ++ w :: rest).Perm (w :: ((g :: q).erase w ++ rest)) := List.perm_middle
      refine (e2.trans ?_).trans hp
      have := e1.append_right rest
      simpa using this
    · rw [hlen]; simp only [List.length_cons, List.length_append, List.length_nil] at *; omega
    · intro x hx y hy0
      replace hx : x ∈ (g :: q).erase w := hx
      have hx' : x ∈ g :: q := List.mem_of_mem_erase hx
      rcases List.mem_cons.mp hy0 with rfl | hy
      · exact m2 x hx'
      · rcases List.mem_cons.mp hx' with rfl | hx''
        · rcases List.mem_cons.mp m1 with hwx | hwq
          · rw [hwx, List.erase_cons_head] at hx
            exact h3 x hx y hy
          · exact (m2 x hx').trans (h3 w hwq y hy)
        · exact h3 x hx'' y hy
  · simp only [hk, if_false]
    have : rest = [] := by
      apply List.eq_nil_of_length_eq_zero
      simp only [List.length_cons] at hk; omega
    subst this
    refine ⟨[], ?_, ?_, ?_⟩
    · simpa using hp
    · simp only [List.length_cons, List.length_append, List.length_nil] at *; omega
    · simp

/-- The gaps between consecutive timestamps, starting from `prev`. -/
def consecutiveGaps (prev : ℤ) : List ℤ → List HistoryGap
  | [] => []
  | t :: rest => (prev, t) :: consecutiveGaps t rest

theorem gapLoop_inv {k : ℕ} (ts : List ℤ) : ∀ (prev : ℤ) (q G : List HistoryGap), QueueInv k q G →
    (gapLoop k prev q ts).1 = (prev :: ts).getLast (by simp) ∧
    QueueInv k (gapLoop k prev q ts).2 (G ++ consecutiveGaps prev ts) := by
  induction ts with
  | nil => intro prev q G h; exact ⟨rfl, by simpa [consecutiveGaps, gapLoop] using h⟩
  | cons t ts ih =>
    intro prev q G h
    unfold gapLoop
    obtain ⟨i1, i2⟩ := ih t _ _ (h.push (prev, t))
    refine ⟨by rw [i1]; simp, ?_⟩
    simpa [consecutiveGaps] using i2

theorem gapPushBounded_length_zero (q : List HistoryGap) (g : HistoryGap) :
    (gapPushBounded 0 q g).length = q.length := by
  unfold gapPushBounded
  simp only [List.length_cons, gt_iff_lt, Nat.zero_lt_succ, if_true]
  unfold gapPop
  rw [List.length_erase_of_mem (gapTop_spec g q).1]; simp

theorem gapPushBounded_zero_one (g' g : HistoryGap) : gapPushBounded 0 [g'] g = gapPushBounded 1 [g'] g := by
  unfold gapPushBounded; simp

theorem gapLoop_zero_one (ts : List ℤ) : ∀ (prev : ℤ) (g : HistoryGap),
    gapLoop 0 prev [g] ts = gapLoop 1 prev [g] ts ∧ (gapLoop 0 prev [g] ts).2.length = 1 := by
  induction ts with
  | nil => intro prev g; exact ⟨rfl, rfl⟩
  | cons t ts ih =>
    intro prev g
    unfold gapLoop
    have hl := gapPushBounded_length_zero [g] (prev, t)
    obtain ⟨g', hg'⟩ := List.length_eq_one_iff.mp hl
    rw [← gapPushBounded_zero_one, hg']
    exact ih t g'

theorem gapLoop_zero_nil (ts : List ℤ) : ∀ (prev : ℤ), (gapLoop 0 prev [] ts).2 = [] := by
  induction ts with
  | nil => intro prev; rfl
  | cons t ts ih =>
    intro prev
    unfold gapLoop
    have : gapPushBounded 0 [] (prev, t) = [] :=
      List.eq_nil_of_length_eq_zero (gapPushBounded_length_zero [] (prev, t))
    rw [this]; exact ih t

theorem gapLe_trans (a b c : HistoryGap) : gapLe a b = true → gapLe b c = true → gapLe a c = true := by
  unfold gapLe
  simp only [Bool.or_eq_true, Bool.and_eq_true, decide_eq_true_eq]
  omega

theorem gapLe_total (a b : HistoryGap) : (gapLe a b || gapLe b a) = true := by
  unfold gapLe
  simp only [Bool.or_eq_true, Bool.and_eq_true, decide_eq_true_eq]
  omega

end Verif
