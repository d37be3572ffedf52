import Verif.Props.MovingAverages

/-!
# C47: the relative strength index
-/

set_option linter.unusedSectionVars false

namespace Verif.Props
open Spec FloatOps

section general
variable {F : Type} [FloatOps F]

/-- Values with the weights of the modified moving average. -/
def mmaPairs (N : ℤ) (l : List F) : List (F × F) :=
  l.mapIdx (fun i x => (x, lit F 1 /. lit F (min ((i + 1 : ℕ) : ℤ) N : ℤ)))

theorem mmaPairs_snoc (N : ℤ) (l : List F) (x : F) :
    mmaPairs N (l ++ [x]) = mmaPairs N l ++ [(x, lit F 1 /. lit F (min ((l.length + 1 : ℕ) : ℤ) N : ℤ))] := by
  unfold mmaPairs; rw [List.mapIdx_concat]

theorem mmaPairs_length (N : ℤ) (l : List F) : (mmaPairs N l).length = l.length := by
  unfold mmaPairs; rw [List.length_mapIdx]

/-- The pair carried by the fold in `mma`. -/
theorem mma_fold (N : ℤ) (l : List F) :
    l.foldl (fun (p : ℕ × F) x =>
      let w : F := lit F 1 /. lit F (min ((p.1 + 1 : ℕ) : ℤ) N : ℤ)
      (p.1 + 1, if p.1 = 0 then x else w *. x +. (lit F 1 -. w) *. p.2)) (0, lit F 0) = (l.length, mma N l) := by
  refine Prod.ext ?_ rfl
  induction l using List.reverseRecOn with
  | nil => rfl
  | append_singleton l x ih =>
    rw [List.foldl_append, List.length_append, List.length_singleton]
    exact congrArg (· + 1) ih

theorem mma_snoc (N : ℤ) (l : List F) (x : F) : mma N (l ++ [x]) =
    if l.length = 0 then x
    else (lit F 1 /. lit F (min ((l.length + 1 : ℕ) : ℤ) N : ℤ)) *. x +.
      (lit F 1 -. (lit F 1 /. lit F (min ((l.length + 1 : ℕ) : ℤ) N : ℤ))) *. mma N l := by
  conv_lhs => unfold mma
  rw [List.foldl_append, mma_fold]
  rfl

theorem emaOf_mma (N : ℤ) (l : List F) : (emaOf (mmaPairs N l)).current = mma N l := by
  induction l using List.reverseRecOn with
  | nil => rfl
  | append_singleton l x ih => rw [mmaPairs_snoc, emaOf_snoc, mma_snoc, ← ih, emaOf_num, mmaPairs_length]

/-- The reference price of a tick that follows `l`. -/
def refPrice (l : List (OhlcTick F)) (t : OhlcTick F) : F :=
  match l.getLast? with
  | some p => p.close
  | none => t.opn

theorem referencePrices_snoc (l : List (OhlcTick F)) (t : OhlcTick F) :
    referencePrices (l ++ [t]) = referencePrices l ++ [refPrice l t] := by
  cases l with
  | nil => rfl
  | cons a l =>
    rcases List.eq_nil_or_concat (a :: l) with h | ⟨l', p, h⟩
    · cases h
    · rw [List.concat_eq_append] at h
      simp only [referencePrices, List.cons_append, refPrice]
      rw [← List.cons_append, List.dropLast_concat, h, List.dropLast_concat, List.getLast?_concat]
      simp

theorem referencePrices_length (l : List (OhlcTick F)) : (referencePrices l).length = l.length := by
  cases l <;> simp [referencePrices]

theorem upMoves_snoc (l : List (OhlcTick F)) (t : OhlcTick F) : upMoves (l ++ [t]) =
    upMoves l ++ [if t.close >=. refPrice l t then t.close -. refPrice l t else lit F 0] := by
  unfold upMoves
  rw [referencePrices_snoc, List.map_append, List.zipWith_append (by simp [referencePrices_length])]
  rfl

theorem downMoves_snoc (l : List (OhlcTick F)) (t : OhlcTick F) : downMoves (l ++ [t]) =
    downMoves l ++ [if t.close >=. refPrice l t then lit F 0 else refPrice l t -. t.close] := by
  unfold downMoves
  rw [referencePrices_snoc, List.map_append, List.zipWith_append (by simp [referencePrices_length])]
  rfl

theorem upMoves_length (l : List (OhlcTick F)) : (upMoves l).length = l.length := by
  simp [upMoves, referencePrices_length]
theorem downMoves_length (l : List (OhlcTick F)) : (downMoves l).length = l.length := by
  simp [downMoves, referencePrices_length]

/-- The state for the aggregated ticks `l` (oldest first). -/
def rsiOf (N : ℤ) (l : List (OhlcTick F)) : RsiState F :=
  ⟨N, l.length, emaOf (mmaPairs N (upMoves l)), emaOf (mmaPairs N (downMoves l))⟩

theorem rsi_change (full : List (OhlcTick F)) (t : OhlcTick F) :
    Rsi.change ((t :: full).take 2).reverse =
      .ok (if t.close >=. refPrice full.reverse t then t.close -. refPrice full.reverse t else lit F 0,
        if t.close >=. refPrice full.reverse t then lit F 0 else refPrice full.reverse t -. t.close) := by
  cases full with
  | nil =>
    simp only [List.take_succ_cons, List.take_nil, List.reverse_cons, List.reverse_nil, List.nil_append, Rsi.change,
      refPrice, List.getLast?_nil]
    split <;> simp [*]
  | cons p full =>
    simp only [List.take_succ_cons, List.take_zero, List.reverse_cons, List.reverse_nil, List.nil_append, Rsi.change,
      List.cons_append, refPrice, List.getLast?_concat]
    split <;> simp [*]

theorem rsi_new (N : ℤ) (full : List (OhlcTick F)) (t : OhlcTick F) :
    Rsi.newTickAdded ((t :: full).take 2).reverse (rsiOf N full.reverse) = .ok (rsiOf N (t :: full).reverse) := by
  simp only [Rsi.newTickAdded, rsi_change, bind, Except.bind, pure, Except.pure, rsiOf, Rsi.weight, emaOf_add]
  simp only [List.reverse_cons, upMoves_snoc, downMoves_snoc, mmaPairs_snoc, upMoves_length, downMoves_length,
    List.length_append, List.length_singleton]

theorem rsi_upd (N : ℤ) (full : List (OhlcTick F)) (old t : OhlcTick F) :
    Rsi.lastTickUpdated ((t :: full).take 2).reverse (rsiOf N (old :: full).reverse) =
      .ok (rsiOf N (t :: full).reverse) := by
  simp only [Rsi.lastTickUpdated, rsi_change, bind, Except.bind, pure, Except.pure, rsiOf, Rsi.weight,
    List.reverse_cons, upMoves_snoc, downMoves_snoc, mmaPairs_snoc, emaOf_update, upMoves_length, downMoves_length,
    List.length_append, List.length_singleton]

theorem rsi_state (N period : ℤ) (hP : 0 < period) (l : List (OhlcTick F)) (hl : Feedable l) :
    ∃ s, rsiAfter N period l = .ok s ∧ s.state = rsiOf N (aggregate period l) := by
  obtain ⟨s, h1, h2⟩ := Indicator.run_inv (n := 2) (P := period) (by norm_num) hP Rsi.onEvent
    (fun full s => s = rsiOf N full.reverse)
    (fun full e full' s h hs => by
      subst hs
      cases h with
      | added _ x h =>
        refine ⟨_, ?_, rfl⟩
        simp only [Rsi.onEvent, assertThat, bind, Except.bind]
        rw [if_pos (by simp [rsiOf]; omega), rsi_new]
      | addedRemoved _ r x h hr =>
        refine ⟨_, ?_, rfl⟩
        simp only [Rsi.onEvent, assertThat, bind, Except.bind]
        rw [if_pos (by simpa [rsiOf] using h), rsi_new]
      | updated rest old new ho =>
        refine ⟨_, ?_, rfl⟩
        simp only [Rsi.onEvent, assertThat, bind, Except.bind]
        rw [if_pos (by simp [rsiOf]), rsi_upd])
    (rsiOf N []) rfl l hl.1 hl.2
  refine ⟨⟨⟨2, period, (aggregate period l).reverse.take 2⟩, s⟩, ?_, ?_⟩
  · simp only [rsiAfter, indAfter, Rsi.make, lastN_make 2 period (by norm_num) hP, bind, Except.bind, pure,
      Except.pure]
    exact h1
  · rw [List.reverse_reverse] at h2; exact h2

/-- **C47** (formula), for all floats and any number of periods `N`: the two averages are the modified moving
averages of the upward and downward moves of the aggregated history; the index is 50 if both are negligible, 100 if
the downward one is negligible relative to the upward one, and otherwise `100 - 100 / (1 + U/D)`. -/
theorem C47_formula (N period : ℤ) (hP : 0 < period) (l : List (OhlcTick F)) (hl : Feedable l) :
    ∃ s, rsiAfter N period l = .ok s ∧
      let u := mma N (upMoves (aggregate period l))
      let d := mma N (downMoves (aggregate period l))
      s.state.up.current = u ∧ s.state.down.current = d ∧
      s.state.num = (aggregate period l).length ∧
      Rsi.get s.state =
        if u <. lit F (1 / 10 ^ 6) && d <. lit F (1 / 10 ^ 6) then lit F 50
        else if d <. u *. lit F (1 / 10 ^ 6) then lit F 100
        else lit F 100 -. lit F 100 /. (lit F 1 +. u /. d) := by
  obtain ⟨s, h1, h2⟩ := rsi_state N period hP l hl
  refine ⟨s, h1, ?_⟩
  simp only [h2, Rsi.get, rsiOf, emaOf_mma]
  exact ⟨trivial, trivial, trivial, trivial⟩

end general

section exact
variable {K : Type} [Field K] [LinearOrder K] [IsStrictOrderedRing K] [FloorRing K]

theorem mma_nonneg (N : ℤ) (hN : 1 ≤ N) (l : List K) (h : ∀ x ∈ l, 0 ≤ x) : 0 ≤ mma N l := by
  induction l using List.reverseRecOn with
  | nil => simp [mma]
  | append_singleton l x ih =>
    rw [mma_snoc]
    have hx := h x (by simp)
    have hi := ih (fun y hy => h y (by simp [hy]))
    split
    · exact hx
    · have hm : (1 : ℤ) ≤ min ((l.length + 1 : ℕ) : ℤ) N := by
        rw [le_min_iff]; exact ⟨by push_cast; omega, hN⟩
      have hmK : (1 : K) ≤ ((min ((l.length + 1 : ℕ) : ℤ) N : ℤ) : K) := by exact_mod_cast hm
      have hw1 : (1 : K) / ((min ((l.length + 1 : ℕ) : ℤ) N : ℤ) : K) ≤ 1 := by
        rw [div_le_one (by linarith)]; exact hmK
      have hw0 : (0 : K) ≤ 1 / ((min ((l.length + 1 : ℕ) : ℤ) N : ℤ) : K) := by
        apply div_nonneg <;> linarith
      simp only [ex_ofRat, ex_add, ex_sub, ex_mul, ex_div, Rat.cast_one, Rat.cast_intCast]
      have : 0 ≤ 1 - (1 : K) / ((min ((l.length + 1 : ℕ) : ℤ) N : ℤ) : K) := by linarith
      positivity

theorem upMoves_nonneg (l : List (OhlcTick K)) : ∀ x ∈ upMoves l, 0 ≤ x := by
  induction l using List.reverseRecOn with
  | nil => simp [upMoves, referencePrices]
  | append_singleton l t ih =>
    intro x hx
    rw [upMoves_snoc, List.mem_append, List.mem_singleton] at hx
    rcases hx with hx | rfl
    · exact ih x hx
    · split
      · rename_i h; simp at h ⊢; exact h
      · simp

theorem downMoves_nonneg (l : List (OhlcTick K)) : ∀ x ∈ downMoves l, 0 ≤ x := by
  induction l using List.reverseRecOn with
  | nil => simp [downMoves, referencePrices]
  | append_singleton l t ih =>
    intro x hx
    rw [downMoves_snoc, List.mem_append, List.mem_singleton] at hx
    rcases hx with hx | rfl
    · exact ih x hx
    · split
      · simp
      · rename_i h; simp at h ⊢; exact h.le

theorem rsi_range (s : RsiState K) (hu : 0 ≤ s.up.current) (hd : 0 ≤ s.down.current) :
    0 ≤ Rsi.get s ∧ Rsi.get s ≤ 100 := by
  unfold Rsi.get
  generalize s.up.current = u at *
  generalize s.down.current = d at *
  simp only [ex_lt, ex_ofRat, ex_mul, ex_sub, ex_add, ex_div, Bool.and_eq_true, decide_eq_true_eq]
  push_cast
  split
  · norm_num
  · rename_i h1
    split
    · norm_num
    · rename_i h2
      have hd0 : 0 < d := by
        rcases hd.lt_or_eq with h | h
        · exact h
        · exfalso
          rw [← h] at h1 h2
          apply h1
          constructor
          · by_contra hc
            apply h2
            have : (0 : K) < 1 / 10 ^ 6 := by positivity
            have hu' : 0 < u := by push Not at hc; linarith
            positivity
          · positivity
      have hq : 0 ≤ u / d := by positivity
      have h3 : (100 : K) / (1 + u / d) ≤ 100 := by
        rw [div_le_iff₀ (by linarith)]; nlinarith
      have h4 : (0 : K) ≤ 100 / (1 + u / d) := by positivity
      constructor <;> linarith

/-- **C47** (range). In exact arithmetic, with at least one period, both averages are non-negative and the index lies
in [0, 100], whatever the (sorted) history. -/
theorem C47_range (N period : ℤ) (hN : 1 ≤ N) (hP : 0 < period) (l : List (OhlcTick K)) (hl : Feedable l) :
    ∃ s, rsiAfter N period l = .ok s ∧ 0 ≤ s.state.up.current ∧ 0 ≤ s.state.down.current ∧
      0 ≤ Rsi.get s.state ∧ Rsi.get s.state ≤ 100 := by
  obtain ⟨s, h1, hu, hd, _⟩ := C47_formula N period hP l hl
  have a := mma_nonneg N hN _ (upMoves_nonneg (aggregate period l))
  have b := mma_nonneg N hN _ (downMoves_nonneg (aggregate period l))
  rw [← hu] at a
  rw [← hd] at b
  exact ⟨s, h1, a, b, rsi_range s.state a b⟩

end exact

/-! Non-vacuity: moves up, flat and down. -/

example : upMoves (aggregate 10 indTicks) = [3, 0, 0] ∧ downMoves (aggregate 10 indTicks) = [0, 0, 5] := by
  decide +kernel
example : (rsiAfter 2 10 indTicks).map (fun s => Rsi.get s.state) = .ok (300 / 13) := by decide +kernel

end Verif.Props
