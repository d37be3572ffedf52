import Verif.Lemmas.SlidingMin
import Verif.Num.IEEELemmas
import Mathlib.Data.Rat.Floor
import Mathlib.Data.Prod.Lex
import Mathlib.Algebra.BigOperators.Group.List.Basic

/-!
# C43-C46: the window helpers of indicators/util.h
-/

set_option linter.unusedSectionVars false

namespace Verif.Props
open Spec FloatOps

section general
variable {F D : Type} [FloatOps F] [FloatOps D] [Wide F D]

/-- A `SlidingWindowMeanAndVariance` after a sequence of calls. -/
def meanVarAfter (windowSize : ℤ) (ops : List (WinOp F)) : Res (MeanVar F) :=
  runOps (fun s x => .ok (s.add x)) MeanVar.update (MeanVar.make windowSize) ops

/-- An `ExponentialMovingAverageHelper` after a sequence of calls, all with the weight `w`. -/
def emaAfter (w : F) (ops : List (WinOp F)) : Res (Ema F) :=
  runOps (fun s x => s.add x w) (fun s x => s.update x w) Ema.make ops

/-- A `SlidingWindowMinimum` after a sequence of calls. -/
def minAfter (windowSize : ℤ) (ops : List (WinOp F)) : Res (SlidingMin F) := do
  runOps SlidingMin.add SlidingMin.update (← SlidingMin.make windowSize) ops

/-- A `SlidingWindowMaximum` after a sequence of calls. -/
def maxAfter (windowSize : ℤ) (ops : List (WinOp F)) : Res (SlidingMax F) := do
  runOps SlidingMax.add SlidingMax.update (← SlidingMax.make windowSize) ops

/-- `AddNewValue(x)` for every value of a list. -/
def adds (vs : List F) : List (WinOp F) := vs.map .add

theorem values_adds (vs : List F) : values (adds vs) = some vs := by
  induction vs using List.reverseRecOn with
  | nil => rfl
  | append_singleton vs x ih =>
    unfold adds at *
    rw [List.map_append, List.map_singleton, values_snoc, ih]; rfl

/-- What it means that `UpdateCurrentValue` corrects the last `AddNewValue`: every sequence of calls leaves the
same state as adding just the values that were not overwritten; updating before any addition aborts. -/
def UpdateCorrectsLast {σ : Type} (after : List (WinOp F) → Res σ) : Prop :=
  ∀ ops, after ops = match values ops with
    | some vs => after (adds vs)
    | none => .error .assertion

theorem canonical_of {σ : Type} (add upd : σ → F → Res σ) (I : σ → Prop) (s0 : σ) (hI : I s0)
    (hadd : ∀ s x s', I s → add s x = .ok s' → I s')
    (hlaw : ∀ s a b, I s → (add s a >>= fun s => upd s b) = add s b)
    (hinit : ∀ b, upd s0 b = .error .assertion) : UpdateCorrectsLast (runOps add upd s0) := by
  intro ops
  rw [runOps_canonical add upd I s0 hI hadd hlaw hinit ops]
  cases hv : values ops with
  | none => rfl
  | some vs =>
    simp only
    rw [runOps_canonical add upd I s0 hI hadd hlaw hinit (adds vs), values_adds]

theorem minMake (n : ℤ) (hn : 0 < n) :
    (SlidingMin.make n : Res (SlidingMin F)) = .ok ⟨n.toNat, lit F 0, lit F 0, [], 0⟩ := by
  simp [SlidingMin.make, assertThat, hn, bind, Except.bind, pure, Except.pure]

theorem maxMake (n : ℤ) (hn : 0 < n) :
    (SlidingMax.make n : Res (SlidingMax F)) = .ok ⟨⟨n.toNat, lit F 0, lit F 0, [], 0⟩⟩ := by
  simp [SlidingMax.make, minMake n hn, bind, Except.bind, pure, Except.pure]

theorem SlidingMax.add_eq (s : SlidingMax F) (x : F) :
    s.add x = (s.inner.add (FloatOps.neg x)).map SlidingMax.mk := by
  simp only [SlidingMax.add, bind, Except.bind, pure, Except.pure]
  cases s.inner.add (FloatOps.neg x) <;> rfl

theorem SlidingMax.update_eq (s : SlidingMax F) (x : F) :
    s.update x = (s.inner.update (FloatOps.neg x)).map SlidingMax.mk := by
  simp only [SlidingMax.update, bind, Except.bind, pure, Except.pure]
  cases s.inner.update (FloatOps.neg x) <;> rfl

/-- **C43**, `SlidingWindowMeanAndVariance` (any window size). -/
theorem C43_mean_variance (n : ℤ) : UpdateCorrectsLast (F := F) (meanVarAfter n) :=
  canonical_of _ _ (fun _ => True) _ trivial (fun _ _ _ _ _ => trivial)
    (fun s a b _ => MeanVar.add_update s a b) (fun _ => rfl)

/-- **C43**, `ExponentialMovingAverageHelper`. -/
theorem C43_ema (w : F) : UpdateCorrectsLast (emaAfter w) :=
  canonical_of _ _ (fun _ => True) _ trivial (fun _ _ _ _ _ => trivial)
    (fun s a b _ => Ema.add_update s a b w w) (fun _ => rfl)

/-- **C43**, `SlidingWindowMinimum`. -/
theorem C43_minimum (n : ℤ) (hn : 0 < n) : UpdateCorrectsLast (F := F) (minAfter n) := by
  have h := canonical_of (F := F) SlidingMin.add SlidingMin.update SlidingMin.Fresh
    ⟨n.toNat, lit F 0, lit F 0, [], 0⟩ (fun _ => rfl) (fun s x s' hI h => (SlidingMin.add_fresh s hI x h).1)
    (fun s a b hI => SlidingMin.add_update s hI a b) (fun b => rfl)
  intro ops
  have := h ops
  simp only [minAfter, minMake n hn, bind, Except.bind] at this ⊢
  exact this

/-- **C43**, `SlidingWindowMaximum`. -/
theorem C43_maximum (n : ℤ) (hn : 0 < n) : UpdateCorrectsLast (F := F) (maxAfter n) := by
  have h := canonical_of (F := F) SlidingMax.add SlidingMax.update (fun s => s.inner.Fresh)
    ⟨⟨n.toNat, lit F 0, lit F 0, [], 0⟩⟩ (fun _ => rfl)
    (fun s x s' hI h => by
      rw [SlidingMax.add_eq] at h
      cases hh : s.inner.add (FloatOps.neg x) with
      | error e => rw [hh] at h; cases h
      | ok s1 => rw [hh] at h; cases h; exact (SlidingMin.add_fresh _ hI _ hh).1)
    (fun s a b hI => by
      have := SlidingMin.add_update s.inner hI (FloatOps.neg a) (FloatOps.neg b)
      rw [SlidingMax.add_eq, SlidingMax.add_eq, ← this]
      simp only [bind, Except.bind]
      cases s.inner.add (FloatOps.neg a) with
      | error e => rfl
      | ok s1 => exact SlidingMax.update_eq _ _) (fun b => rfl)
  intro ops
  have := h ops
  simp only [maxAfter, maxMake n hn, bind, Except.bind] at this ⊢
  exact this

/-- **C43**, the form users see: adding `a` and then correcting it any number of times, the last time to `b`, is
the same as adding `b`. -/
theorem C43_add_then_updates {σ : Type} (after : List (WinOp F) → Res σ) (h : UpdateCorrectsLast after)
    (ops : List (WinOp F)) (a : F) (corrections : List F) (b : F) :
    after (ops ++ [.add a] ++ corrections.map .update ++ [.update b]) = after (ops ++ [.add b]) := by
  have key : ∀ cs : List F, values (ops ++ [.add a] ++ cs.map .update) =
      (values ops).map (fun vs => vs ++ [(cs.getLast?).getD a]) := by
    intro cs
    induction cs using List.reverseRecOn with
    | nil => rw [List.map_nil, List.append_nil, values_snoc]; cases values ops <;> rfl
    | append_singleton cs c ih =>
      rw [List.map_append, List.map_singleton, ← List.append_assoc, values_snoc, ih]
      cases values ops with
      | none => rfl
      | some vs => simp
  have e : values (ops ++ [.add a] ++ corrections.map .update ++ [.update b]) = values (ops ++ [.add b]) := by
    rw [values_snoc, key, values_snoc]
    cases values ops with
    | none => rfl
    | some vs => simp
  refine (h _).trans ?_
  rw [e]
  exact (h _).symm

/-! ## C45 -/

/-- Iterations of the first loop of `SlidingWindowMinimum::AddNewValue` (util.cc 89-91). -/
def backLoop (x : F) : List (F × ℕ) → ℕ
  | [] => 0
  | b :: rest => if b.1 >=. x then backLoop x rest + 1 else 0

/-- Iterations of the second loop (util.cc 95-97). -/
def frontLoop (num windowSize : ℕ) : List (F × ℕ) → ℕ
  | [] => 0
  | f :: rest => if (num : ℤ) - f.2 + 1 ≥ windowSize then frontLoop num windowSize rest + 1 else 0

/-- Loop iterations of one call. -/
def loopIterations (s : SlidingMin F) : WinOp F → ℕ
  | .update _ => 0
  | .add _ =>
    if s.num = 0 ∨ s.windowSize = 1 then 0
    else
      let pushed := (s.current, s.num) :: SlidingMin.popBack s.current s.window
      backLoop s.current s.window + frontLoop s.num s.windowSize pushed.reverse

/-- Loop iterations of a sequence of calls. -/
def totalIterations (s : SlidingMin F) : List (WinOp F) → ℕ
  | [] => 0
  | op :: ops =>
    loopIterations s op +
    match (match op with | .add x => s.add x | .update x => s.update x) with
    | .ok s' => totalIterations s' ops
    | .error _ => 0

theorem backLoop_eq (x : F) (w : List (F × ℕ)) : backLoop x w + (SlidingMin.popBack x w).length = w.length := by
  induction w with
  | nil => rfl
  | cons b w ih =>
    simp only [backLoop, SlidingMin.popBack]
    split
    · simp only [List.length_cons]; omega
    · simp

theorem frontLoop_eq (num ws : ℕ) (w : List (F × ℕ)) :
    frontLoop num ws w + (w.dropWhile (SlidingMin.tooOld num ws)).length = w.length := by
  induction w with
  | nil => rfl
  | cons b w ih =>
    rw [frontLoop, List.dropWhile_cons]
    by_cases hb : (num : ℤ) - b.2 + 1 ≥ ws
    · rw [if_pos hb, if_pos (by simpa [SlidingMin.tooOld] using hb), List.length_cons]; omega
    · rw [if_neg hb, if_neg (by simpa [SlidingMin.tooOld] using hb)]; simp

/-- Number of `AddNewValue` calls. -/
def numAdds : List (WinOp F) → ℕ
  | [] => 0
  | .add _ :: ops => numAdds ops + 1
  | .update _ :: ops => numAdds ops

theorem totalIterations_le (s : SlidingMin F) (hs : s.Safe) (ops : List (WinOp F)) :
    totalIterations s ops ≤ numAdds ops + s.window.length := by
  induction ops generalizing s with
  | nil => simp [totalIterations]
  | cons op ops ih =>
    cases op with
    | update x =>
      simp only [totalIterations, loopIterations, numAdds, zero_add]
      by_cases hn : s.num ≥ 1
      · rw [SlidingMin.update_ok s hn]
        exact ih _ ⟨hs.size, hs.fresh, hs.sorted, hs.range⟩
      · simp [SlidingMin.update, assertThat, hn, bind, Except.bind]
    | add x =>
      obtain ⟨s', h1, h2, _⟩ := hs.add x
      simp only [totalIterations, numAdds, h1]
      have := ih s' h2
      by_cases hc : s.num = 0 ∨ s.windowSize = 1
      · have hw : s'.window = s.window := by
          unfold SlidingMin.add at h1; rw [if_pos hc] at h1; cases h1; rfl
        simp only [loopIterations, if_pos hc]
        rw [hw] at this; omega
      · have hw2 : 2 ≤ s.windowSize := by have := hs.size; omega
        have hw : s'.window = s.nextWindow := by
          rw [SlidingMin.add_eq s (by tauto) hw2] at h1; cases h1; rfl
        simp only [loopIterations, if_neg hc]
        have hb := backLoop_eq s.current s.window
        have hf := frontLoop_eq s.num s.windowSize
          ((s.current, s.num) :: SlidingMin.popBack s.current s.window).reverse
        rw [hw] at this
        unfold SlidingMin.nextWindow at this
        simp only [List.length_reverse, List.length_cons] at this hf
        omega

theorem minAfter_safe (n : ℤ) (hn : 0 < n) (vs : List F) :
    ∃ s, minAfter n (adds vs) = .ok s ∧ s.Safe ∧ s.windowSize = n.toNat ∧ s.num = vs.length := by
  induction vs using List.reverseRecOn with
  | nil =>
    refine ⟨⟨n.toNat, lit F 0, lit F 0, [], 0⟩, ?_, ⟨?_, ?_, ?_, ?_⟩, rfl, rfl⟩
    · simp [minAfter, minMake n hn, bind, Except.bind, adds, runOps, pure, Except.pure]
    · simp only; omega
    · intro _; rfl
    · simp
    · simp
  | append_singleton vs x ih =>
    obtain ⟨s, h1, h2, h3, h4⟩ := ih
    obtain ⟨s', a1, a2, a3, a4⟩ := h2.add x
    refine ⟨s', ?_, a2, by rw [a4, h3], by rw [a3, h4]; simp⟩
    simp only [minAfter, minMake n hn, bind, Except.bind, adds, runOps] at h1 ⊢
    rw [List.map_append, List.map_singleton, foldlM_snoc, h1]
    exact a1

/-- **C45** (memory safety). For all float values (NaN included), every sequence of calls on a sliding window
minimum of positive size either succeeds or aborts because `UpdateCurrentValue` was called before any value was
added; an empty deque is never accessed; the deque never holds as many elements as the window. -/
theorem C45_memory_safe (n : ℤ) (hn : 0 < n) (ops : List (WinOp F)) :
    (∀ f, minAfter n ops = .error f → f = .assertion ∧ values ops = none) ∧
    (∀ s, minAfter n ops = .ok s → (s.window.length : ℤ) < n) := by
  have hcan := C43_minimum n hn ops
  cases hv : values ops with
  | none =>
    rw [hv] at hcan
    rw [hcan]
    refine ⟨fun f h => ?_, fun s h => by cases h⟩
    cases h; exact ⟨rfl, rfl⟩
  | some vs =>
    rw [hv] at hcan
    obtain ⟨s, h1, h2, h3, _⟩ := minAfter_safe n hn vs
    simp only at hcan
    rw [hcan, h1]
    refine ⟨fun f h => (by cases h), fun s' h => ?_⟩
    cases h
    have := h2.bounded
    omega

/-- **C45** (amortized cost). Over any sequence of calls the two loops together make at most as many iterations as
there are `AddNewValue` calls. -/
theorem C45_amortized (n : ℤ) (hn : 0 < n) (ops : List (WinOp F)) (s0 : SlidingMin F)
    (h0 : SlidingMin.make n = .ok s0) : totalIterations s0 ops ≤ numAdds ops := by
  rw [minMake n hn] at h0
  cases h0
  have := totalIterations_le (⟨n.toNat, lit F 0, lit F 0, [], 0⟩ : SlidingMin F)
    ⟨by simp only; omega, fun _ => rfl, by simp, by simp⟩ ops
  simpa using this

/-! ## C44 -/

theorem minAfter_correct {L : Type} [LinearOrder L] {ok : F → Prop} {key : F → L} (hc : Comparable ok key)
    (n : ℤ) (hn : 0 < n) (vs : List F) (hok : ∀ x ∈ vs, ok x) :
    ∃ s, minAfter n (adds vs) = .ok s ∧ SlidingMin.Correct key s vs ∧ s.windowSize = n.toNat := by
  induction vs using List.reverseRecOn with
  | nil =>
    refine ⟨⟨n.toNat, lit F 0, lit F 0, [], 0⟩, ?_, ⟨⟨?_, fun _ => rfl, by simp, by simp⟩, rfl, ?_, ?_, ?_, ?_, ?_⟩, rfl⟩
    · simp [minAfter, minMake n hn, bind, Except.bind, adds, runOps, pure, Except.pure]
    · simp only; omega
    · simp
    · simp
    · simp
    · intro j x h1 h2; simp at h2
    · simp
  | append_singleton vs x ih =>
    obtain ⟨s, h1, h2, h3⟩ := ih (fun y hy => hok y (by simp [hy]))
    obtain ⟨s', a1, a2, a3⟩ := h2.add hc (fun y hy => hok y (by simp [hy])) (v := x) (hok x (by simp))
    refine ⟨s', ?_, a2, by rw [a3, h3]⟩
    simp only [minAfter, minMake n hn, bind, Except.bind, adds, runOps] at h1 ⊢
    rw [List.map_append, List.map_singleton, foldlM_snoc, h1]
    exact a1

/-- The maximum is the minimum of the negated values. -/
theorem maxAfter_eq (n : ℤ) (hn : 0 < n) (vs : List F) :
    maxAfter n (adds vs) = (minAfter n (adds (vs.map FloatOps.neg))).map SlidingMax.mk := by
  simp only [maxAfter, minAfter, minMake n hn, maxMake n hn, bind, Except.bind, adds, runOps]
  induction vs using List.reverseRecOn with
  | nil => rfl
  | append_singleton vs x ih =>
    simp only [List.map_append, List.map_singleton, foldlM_snoc, ih]
    cases (List.foldlM _ _ (List.map WinOp.add (List.map FloatOps.neg vs)) : Res (SlidingMin F)) with
    | error e => rfl
    | ok s => exact SlidingMax.add_eq _ _

theorem extrema_of {L : Type} [LinearOrder L] {ok : F → Prop} {key : F → L} (hc : Comparable ok key)
    (hneg : ∀ a b, ok a → ok b → key (FloatOps.neg a) ≤ key (FloatOps.neg b) → key b ≤ key a)
    (hokneg : ∀ a, ok a → ok (FloatOps.neg a)) (hinv : ∀ a : F, FloatOps.neg (FloatOps.neg a) = a)
    (n : ℤ) (hn : 0 < n) (ops : List (WinOp F)) (vs : List F) (hv : values ops = some vs) (hne : vs ≠ [])
    (hok : ∀ x ∈ vs, ok x) :
    (∃ s, minAfter n ops = .ok s ∧ s.get ∈ lastN n.toNat vs ∧ ∀ x ∈ lastN n.toNat vs, key s.get ≤ key x) ∧
    (∃ s, maxAfter n ops = .ok s ∧ s.get ∈ lastN n.toNat vs ∧ ∀ x ∈ lastN n.toNat vs, key x ≤ key s.get) := by
  have h1 := C43_minimum n hn ops
  have h2 := C43_maximum n hn ops
  rw [hv] at h1 h2
  simp only at h1 h2
  constructor
  · obtain ⟨s, a, b, c⟩ := minAfter_correct hc n hn vs hok
    rw [h1]
    have := b.result hne
    rw [c] at this
    exact ⟨s, a, this.1, this.2⟩
  · obtain ⟨s, a, b, c⟩ := minAfter_correct hc n hn (vs.map FloatOps.neg) (by
      intro x hx
      obtain ⟨y, hy, rfl⟩ := List.mem_map.mp hx
      exact hokneg y (hok y hy))
    rw [h2, maxAfter_eq n hn, a]
    refine ⟨⟨s⟩, rfl, ?_⟩
    have hr := b.result (by simpa using hne)
    rw [c] at hr
    have hl : lastN n.toNat (vs.map FloatOps.neg) = (lastN n.toNat vs).map FloatOps.neg := by
      unfold lastN; rw [List.length_map, List.map_drop]
    rw [hl] at hr
    obtain ⟨hm, hle⟩ := hr
    obtain ⟨y, hy, hye⟩ := List.mem_map.mp hm
    have hget : SlidingMax.get ⟨s⟩ = y := by
      simp only [SlidingMax.get, SlidingMin.get]
      rw [← hye, hinv]
    rw [hget]
    refine ⟨hy, fun x hx => ?_⟩
    have hsub : ∀ z ∈ lastN n.toNat vs, z ∈ vs := fun z hz => List.mem_of_mem_drop hz
    apply hneg y x (hok _ (hsub y hy)) (hok _ (hsub x hx))
    rw [hye]
    exact hle _ (List.mem_map_of_mem hx)

/-- **C44** (window size). For all values (NaN included), `GetWindowSize` is the number of values the minimum and the
maximum are taken over: as many as have been added (`GetNumValues`), but at most `n`. -/
theorem C44_window_size (n : ℤ) (hn : 0 < n) (ops : List (WinOp F)) (vs : List F) (hv : values ops = some vs) :
    (∃ s, minAfter n ops = .ok s ∧ s.getWindowSize = (lastN n.toNat vs).length ∧ s.num = vs.length) ∧
    (∃ s, maxAfter n ops = .ok s ∧ s.getWindowSize = (lastN n.toNat vs).length ∧ s.inner.num = vs.length) := by
  have h1 := C43_minimum n hn ops
  have h2 := C43_maximum n hn ops
  rw [hv] at h1 h2
  simp only at h1 h2
  have hlen : (lastN n.toNat vs).length = min vs.length n.toNat := by
    unfold lastN; rw [List.length_drop]; omega
  constructor
  · obtain ⟨s, a, -, b, c⟩ := minAfter_safe n hn vs
    refine ⟨s, by rw [h1, a], ?_, c⟩
    rw [hlen, SlidingMin.getWindowSize, b, c]
  · obtain ⟨s, a, -, b, c⟩ := minAfter_safe n hn (vs.map FloatOps.neg)
    refine ⟨⟨s⟩, by rw [h2, maxAfter_eq n hn, a]; rfl, ?_, by rw [c, List.length_map]⟩
    rw [hlen, SlidingMax.getWindowSize, SlidingMin.getWindowSize, b, c, List.length_map]

end general

section exact
variable {K : Type} [Field K] [LinearOrder K] [IsStrictOrderedRing K] [FloorRing K]

/-- **C44**, exact arithmetic: whatever the sequence of `AddNewValue`/`UpdateCurrentValue` calls,
`GetSlidingWindowMinimum` / `GetSlidingWindowMaximum` is the smallest / largest of the last `n` values. -/
theorem C44_extrema (n : ℤ) (hn : 0 < n) (ops : List (WinOp K)) (vs : List K) (hv : values ops = some vs)
    (hne : vs ≠ []) :
    (∃ s, minAfter n ops = .ok s ∧ IsLeast {x | x ∈ lastN n.toNat vs} s.get) ∧
    (∃ s, maxAfter n ops = .ok s ∧ IsGreatest {x | x ∈ lastN n.toNat vs} s.get) := by
  have hc : Comparable (F := K) (fun _ => True) (id : K → K) := ⟨fun _ _ _ _ => rfl, fun _ _ _ _ => rfl⟩
  exact extrema_of hc (fun a b _ _ h => by simpa using h) (fun _ _ => trivial) (fun a => by simp) n hn ops vs hv
    hne (fun _ _ => trivial)

end exact

section ieee
variable {f : Fmt}

/-- The position of a float on the number line (`-0` and `+0` coincide). -/
def lineKey : Fl f → ℤ ×ₗ ℚ
  | .nan => toLex (0, 0)
  | .inf true => toLex (-1, 0)
  | .inf false => toLex (1, 0)
  | .negZero => toLex (0, 0)
  | .fin q => toLex (0, q)

theorem lineKey_comparable : Comparable (F := Fl f) (fun a => a ≠ .nan) lineKey := by
  have hlt : ∀ a b : Fl f, a ≠ .nan → b ≠ .nan → Fl.lt a b = decide (lineKey a < lineKey b) := by
    intro a b ha hb
    rcases a with _ | s | _ | q <;> rcases b with _ | t | _ | r <;> try exact absurd rfl ha
    all_goals try exact absurd rfl hb
    all_goals try cases s
    all_goals try cases t
    all_goals simp [lineKey, Prod.Lex.toLex_lt_toLex]
  have hle : ∀ a b : Fl f, a ≠ .nan → b ≠ .nan → Fl.le a b = decide (lineKey a ≤ lineKey b) := by
    intro a b ha hb
    rcases a with _ | s | _ | q <;> rcases b with _ | t | _ | r <;> try exact absurd rfl ha
    all_goals try exact absurd rfl hb
    all_goals try cases s
    all_goals try cases t
    all_goals simp [Fl.le, lineKey, Prod.Lex.toLex_lt_toLex, le_iff_lt_or_eq]
  exact ⟨hlt, hle⟩

theorem neg_neg_fl (a : Fl f) : Fl.neg (Fl.neg a) = a := by
  rcases a with _ | s | _ | q
  · rfl
  · simp
  · simp [Fl.neg_fin]
  · rw [Fl.neg_fin]
    split
    · rename_i h; subst h; rfl
    · rename_i h; rw [Fl.neg_fin, if_neg (by simpa using h)]; simp

/-- **C44**, floating point: without NaN the window minimum / maximum is one of the last `n` values and no value of
the window compares below / above it. -/
theorem C44_extrema_ieee (n : ℤ) (hn : 0 < n) (ops : List (WinOp (Fl f))) (vs : List (Fl f))
    (hv : values ops = some vs) (hne : vs ≠ []) (hnan : ∀ x ∈ vs, x ≠ .nan) :
    (∃ s, minAfter n ops = .ok s ∧ s.get ∈ lastN n.toNat vs ∧ ∀ x ∈ lastN n.toNat vs, (x <. s.get) = false) ∧
    (∃ s, maxAfter n ops = .ok s ∧ s.get ∈ lastN n.toNat vs ∧ ∀ x ∈ lastN n.toNat vs, (s.get <. x) = false) := by
  have hc := lineKey_comparable (f := f)
  have hsub : ∀ z ∈ lastN n.toNat vs, z ≠ .nan := fun z hz => hnan z (List.mem_of_mem_drop hz)
  obtain ⟨⟨s, a1, a2, a3⟩, t, b1, b2, b3⟩ := extrema_of hc
    (by
      intro a b ha hb h
      rcases a with _ | s | _ | q <;> rcases b with _ | t | _ | r <;> try exact absurd rfl ha
      all_goals try exact absurd rfl hb
      all_goals try cases s
      all_goals try cases t
      all_goals simp only [FloatOps.neg, Fl.neg] at h
      all_goals try split at h
      all_goals try split at h
      all_goals simp_all [lineKey, Prod.Lex.toLex_le_toLex])
    (by
      intro a ha
      rcases a with _ | s | _ | q
      · exact absurd rfl ha
      · simp [FloatOps.neg, Fl.neg]
      · simp [FloatOps.neg, Fl.neg]
      · simp only [FloatOps.neg, Fl.neg]; split <;> simp)
    neg_neg_fl n hn ops vs hv hne hnan
  refine ⟨⟨s, a1, a2, fun x hx => ?_⟩, t, b1, b2, fun x hx => ?_⟩
  · rw [hc.lt _ _ (hsub x hx) (hsub _ a2)]; simpa using a3 x hx
  · rw [hc.lt _ _ (hsub _ b2) (hsub x hx)]; simpa using b3 x hx

end ieee

/-! ## C46 -/

section variance
variable {K : Type} [Field K] [LinearOrder K] [IsStrictOrderedRing K] [FloorRing K]

/-- The values a mean/variance window of size `n` looks at: the last `n`, or all of them if `n = 0`. -/
def windowOf (n : ℤ) (vs : List K) : List K := if n = 0 then vs else lastN n.toNat vs

/-- The state after adding `vs`. -/
structure MeanVarState (n : ℤ) (s : MeanVar K) (vs : List K) : Prop where
  size : s.windowSize = n
  num : s.num = vs.length
  win : (2 ≤ n → s.window = lastN (n.toNat - 1) vs.dropLast)
  cur : vs.getLast? = if vs = [] then none else some s.current
  cur0 : vs = [] → s.current = 0
  sum : s.sum = (if n = 0 then vs.dropLast else lastN (n.toNat - 1) vs.dropLast).sum
  sum2 : s.sum2 = ((if n = 0 then vs.dropLast else lastN (n.toNat - 1) vs.dropLast).map (· ^ 2)).sum

theorem lastN_snoc {α : Type} (m : ℕ) (l : List α) (x : α) : lastN (m + 1) (l ++ [x]) = lastN m l ++ [x] := by
  unfold lastN
  simp only [List.length_append, List.length_singleton]
  rw [show l.length + 1 - (m + 1) = l.length - m by omega, List.drop_append_of_le_length (by omega)]

theorem lastN_snoc_drop {α : Type} (m : ℕ) (l : List α) (x : α) :
    lastN m (l ++ [x]) = if (lastN m l).length + 1 ≤ m then lastN m l ++ [x] else (lastN m l ++ [x]).tail := by
  have hlen : (lastN m l).length = min m l.length := by unfold lastN; rw [List.length_drop]; omega
  rw [hlen]
  split
  · rename_i h
    unfold lastN
    simp only [List.length_append, List.length_singleton]
    rw [show l.length + 1 - m = 0 by omega, show l.length - m = 0 by omega]; rfl
  · rename_i h
    unfold lastN
    simp only [List.length_append, List.length_singleton]
    rw [← List.drop_append_of_le_length (by omega), List.tail_drop]
    congr 1; omega

theorem meanVar_state (n : ℤ) (hn : 0 ≤ n) (vs : List K) :
    ∃ s, meanVarAfter n (adds vs) = .ok s ∧ MeanVarState n s vs := by
  induction vs using List.reverseRecOn with
  | nil =>
    refine ⟨MeanVar.make n, rfl, ⟨rfl, rfl, ?_, rfl, fun _ => by simp [MeanVar.make], ?_, ?_⟩⟩
    · simp [MeanVar.make, lastN]
    · simp [MeanVar.make, lastN]
    · simp [MeanVar.make, lastN]
  | append_singleton vs x ih =>
    obtain ⟨s, h1, h⟩ := ih
    refine ⟨s.add x, ?_, ?_⟩
    · simp only [meanVarAfter, adds, runOps] at h1 ⊢
      rw [List.map_append, List.map_singleton, foldlM_snoc, h1]; rfl
    · have hsq : ∀ y : K, (sq y : K) = y ^ 2 := fun y => by simp [sq]; ring
      -- the old values, as the old window plus the old current value
      rcases vs.eq_nil_or_concat with rfl | ⟨ws, c, rfl⟩
      · have hnum : s.num = 0 := by rw [h.num]; rfl
        have hcur := h.cur0 rfl
        unfold MeanVar.add
        rw [if_pos (Or.inl hnum)]
        have hs := h.sum
        have hs2 := h.sum2
        have e : (if n = 0 then ([] : List K).dropLast else lastN (n.toNat - 1) ([] : List K).dropLast) = [] := by
          simp [lastN]
        rw [e] at hs hs2
        simp only [List.map_nil, List.sum_nil] at hs hs2
        have e' : (if n = 0 then ([] ++ [x] : List K).dropLast else lastN (n.toNat - 1) ([] ++ [x] : List K).dropLast) = [] := by
          simp [lastN]
        split
        · refine ⟨h.size, by simp [hnum], ?_, by simp, by simp, ?_, ?_⟩
          · intro h2; have := h.size; simp_all
          · rw [e']; simp [hs, hcur]
          · rw [e']; simp [MeanVar.addSq, hsq, hs2, hcur]
        · refine ⟨h.size, by simp [hnum], ?_, by simp, by simp, ?_, ?_⟩
          · intro h2; rw [show ({ s with current := x, num := s.num + 1 } : MeanVar K).window = s.window from rfl, h.win h2]
            simp [lastN]
          · rw [e']; simpa using hs
          · rw [e']; simpa using hs2
      · rw [List.concat_eq_append] at *
        have hcur : s.current = c := by
          have := h.cur; simp at this; exact this.symm
        have hnum : s.num = ws.length + 1 := by rw [h.num]; simp
        have hs := h.sum
        have hs2 := h.sum2
        simp only [List.dropLast_concat] at hs hs2
        have hsize := h.size
        unfold MeanVar.add
        by_cases hn1 : n ≤ 1
        · rw [if_pos (Or.inr (by rw [hsize]; exact hn1))]
          by_cases hz : n = 0
          · subst hz
            rw [if_pos hsize]
            simp only [if_true] at hs hs2
            refine ⟨hsize, by simp [hnum], by omega, by simp, by simp, ?_, ?_⟩
            · simp [hs, hcur]
            · simp only [List.dropLast_concat, if_true, List.map_append, List.sum_append, List.map_singleton,
                List.sum_singleton, ← hs2, hcur]
              simp [MeanVar.addSq, hsq]
          · have hone : n = 1 := by omega
            subst hone
            rw [if_neg (by omega)]
            refine ⟨hsize, by simp [hnum], by omega, by simp, by simp, ?_, ?_⟩
            · simpa [lastN] using hs
            · simpa [lastN] using hs2
        · rw [if_neg (by rw [hnum, hsize]; omega)]
          have hwin := h.win (by omega)
          simp only [List.dropLast_concat] at hwin
          rw [if_neg (by omega)] at hs hs2
          rw [← hwin] at hs hs2
          have hlenle : s.window.length ≤ n.toNat - 1 := by
            rw [hwin]; unfold lastN; rw [List.length_drop]; omega
          have hnew := lastN_snoc_drop (n.toNat - 1) ws c
          rw [← hwin] at hnew
          simp only [hsize, hcur]
          by_cases hfull : ((s.window ++ [c]).length : ℤ) ≥ n
          · rw [if_pos hfull]
            rw [if_neg (by simp at hfull; omega)] at hnew
            have hne : s.window ++ [c] ≠ [] := by simp
            obtain ⟨p, rest, hpr⟩ := List.exists_cons_of_ne_nil hne
            rw [hpr] at hnew
            simp only [List.tail_cons] at hnew
            simp only [hpr]
            have hsum : s.sum + c = p + rest.sum := by
              rw [hs, ← List.sum_singleton (x := c), ← List.sum_append, hpr]; simp
            have hsum2 : s.sum2 + c ^ 2 = p ^ 2 + (rest.map (· ^ 2)).sum := by
              rw [hs2]
              have := congrArg (fun l => (l.map (· ^ 2)).sum) hpr
              simpa using this
            refine ⟨rfl, by simp [hnum], ?_, by simp, by simp, ?_, ?_⟩
            · intro _; simp [hnew]
            · simp only [List.dropLast_concat, if_neg (show ¬ n = 0 by omega), hnew, ex_add, ex_sub]
              rw [hsum]; ring
            · simp only [List.dropLast_concat, if_neg (show ¬ n = 0 by omega), hnew, MeanVar.subSq, MeanVar.addSq,
                hsq, ex_widen, ex_narrow, ex_add, ex_sub]
              rw [hsum2]; ring
          · rw [if_neg hfull]
            rw [if_pos (by simp at hfull; omega)] at hnew
            refine ⟨rfl, by simp [hnum], ?_, by simp, by simp, ?_, ?_⟩
            · intro _; simp [hnew]
            · simp only [List.dropLast_concat, if_neg (show ¬ n = 0 by omega), hnew, ex_add, hs, List.sum_append,
                List.sum_singleton]
            · simp only [List.dropLast_concat, if_neg (show ¬ n = 0 by omega), hnew, MeanVar.addSq,
                hsq, ex_widen, ex_narrow, ex_add, hs2, List.map_append, List.sum_append, List.map_singleton,
                List.sum_singleton]

theorem sum_sq_dev (l : List K) (m : K) :
    (l.map (fun x => (x - m) ^ 2)).sum = (l.map (· ^ 2)).sum - 2 * m * l.sum + l.length * m ^ 2 := by
  induction l with
  | nil => simp
  | cons a l ih => simp only [List.map_cons, List.sum_cons, ih, List.length_cons]; push_cast; ring

theorem variance_eq (l : List K) (hne : l ≠ []) :
    Spec.variance l = (l.map (· ^ 2)).sum / l.length - (Spec.mean l) ^ 2 := by
  have hl : (l.length : K) ≠ 0 := by
    have := List.length_pos_of_ne_nil hne
    exact_mod_cast this.ne'
  unfold Spec.variance Spec.mean
  rw [sum_sq_dev, List.length_map]
  field_simp
  ring

theorem variance_nonneg (l : List K) : 0 ≤ Spec.variance l := by
  unfold Spec.variance Spec.mean
  apply div_nonneg
  · apply List.sum_nonneg
    intro x hx
    obtain ⟨y, _, rfl⟩ := List.mem_map.mp hx
    positivity
  · positivity

/-- **C46**. In exact arithmetic, after any sequence of calls `GetMean` / `GetVariance` are the mean and the
population variance of the last `n` values (of all values if `n = 0`); `GetWindowSize` is their number; without
values both are 0. -/
theorem C46_mean_variance (n : ℤ) (hn : 0 ≤ n) (ops : List (WinOp K)) (vs : List K) (hv : values ops = some vs) :
    ∃ s, meanVarAfter n ops = .ok s ∧ (s.getWindowSize : ℤ) = (windowOf n vs).length ∧
      s.getMean = Spec.mean (windowOf n vs) ∧ s.getVariance = Spec.variance (windowOf n vs) := by
  have hcan := C43_mean_variance n ops
  rw [hv] at hcan
  simp only at hcan
  obtain ⟨s, h1, h⟩ := meanVar_state n hn vs
  refine ⟨s, by rw [hcan, h1], ?_⟩
  have hsize : s.getWindowSize = (windowOf n vs).length := by
    unfold MeanVar.getWindowSize windowOf
    rw [h.size, h.num]
    split
    · rfl
    · unfold lastN; rw [List.length_drop]; omega
  refine ⟨hsize, ?_⟩
  rcases vs.eq_nil_or_concat with rfl | ⟨ws, c, rfl⟩
  · have : s.num = 0 := by rw [h.num]; rfl
    simp [MeanVar.getMean, MeanVar.getVariance, this, windowOf, lastN, Spec.mean, Spec.variance]
  · rw [List.concat_eq_append] at *
    have hcur : s.current = c := by have := h.cur; simp at this; exact this.symm
    have hnum : s.num ≠ 0 := by rw [h.num]; simp
    have hw : windowOf n (ws ++ [c]) =
        (if n = 0 then ws else lastN (n.toNat - 1) ws) ++ [c] := by
      unfold windowOf
      split
      · rfl
      · rw [← lastN_snoc]; congr 1; omega
    have hs := h.sum
    have hs2 := h.sum2
    simp only [List.dropLast_concat] at hs hs2
    have hm : s.getMean = Spec.mean (windowOf n (ws ++ [c])) := by
      unfold MeanVar.getMean Spec.mean
      rw [if_neg hnum, hsize, hw]
      simp only [ex_add, ex_div, ex_ofRat, hs, hcur, List.sum_append, List.sum_singleton]
      rw [add_comm]; push_cast; rfl
    refine ⟨hm, ?_⟩
    rw [variance_eq _ (by rw [hw]; simp), ← hm]
    unfold MeanVar.getVariance MeanVar.getMean
    rw [if_neg hnum, if_neg hnum]
    simp only [ex_add, ex_div, ex_ofRat, ex_widen, ex_narrow, ex_sub, sq, ex_mul, hs2]
    rw [hsize, hw]
    simp only [List.map_append, List.sum_append, List.map_singleton, List.sum_singleton, hcur]
    push_cast
    ring

/-- **C46**, hence the variance is never negative (exact arithmetic). -/
theorem C46_variance_nonneg (n : ℤ) (hn : 0 ≤ n) (ops : List (WinOp K)) (s : MeanVar K)
    (h : meanVarAfter n ops = .ok s) : 0 ≤ s.getVariance := by
  cases hv : values ops with
  | none =>
    have hcan := C43_mean_variance n ops
    rw [hv, h] at hcan; cases hcan
  | some vs =>
    obtain ⟨s', h1, _, _, h2⟩ := C46_mean_variance n hn ops vs hv
    rw [h] at h1; cases h1
    rw [h2]; exact variance_nonneg _

end variance

/-- **C46**, binary32: the variance of two equal values can be negative, so the standard deviation is NaN. -/
theorem C46_negative_in_binary32 :
    (meanVarAfter (F := F32) 0 [.add (.fin 4097), .add (.fin 4097)]).map (fun s => s.getVariance) =
      .ok (.fin (-1 / 2)) := by decide +kernel

/-! Non-vacuity: a sequence with additions and corrections, and windows shorter than the history. -/

/-- Sample calls. -/
def exOps : List (WinOp ℚ) := [.add 3, .add 1, .update 2, .add 5, .update 7, .update 4, .add 6]

example : values exOps = some [3, 2, 4, 6] := by decide +kernel
example : (minAfter 2 exOps).map (fun s => s.get) = .ok 4 := by decide +kernel
example : (maxAfter 3 exOps).map (fun s => s.get) = .ok 6 := by decide +kernel
example : (meanVarAfter 3 exOps).map (fun s => (s.getMean, s.getVariance)) = .ok (4, 8 / 3) := by decide +kernel
example : lastN 3 ([3, 2, 4, 6] : List ℚ) = [2, 4, 6] := by decide +kernel
example : Spec.variance ([2, 4, 6] : List ℚ) = 8 / 3 := by decide +kernel

end Verif.Props
