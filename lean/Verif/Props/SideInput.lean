import Verif.Lemmas.SideInput
import Mathlib.Tactic.Positivity
import Mathlib.Tactic.Ring

/-!
# C25, C26, C27: SideInput

Index computations are on unbounded integers; the code uses `int` (histories with fewer than 2^31 signals).
-/

namespace Verif.Props
open SideInput

variable {F : Type}

/-- What the constructor expects: equal numbers of signals, positive and strictly increasing timestamps. -/
def ValidSideHistory (l : List (SideInputRecord F)) : Prop :=
  (∀ a ∈ l, ∀ b ∈ l, a.signals.length = b.signals.length) ∧ (∀ a ∈ l, 0 < a.ts) ∧
    l.Pairwise (fun a b => a.ts < b.ts)

theorem valid_iff (r : SideInputRecord F) (rest : List (SideInputRecord F)) :
    ValidSideHistory (r :: rest) ↔
      ((∀ x ∈ r :: rest, x.signals.length = r.signals.length) ∧
        ((0 : ℤ) :: (r :: rest).map (·.ts)).IsChain (· < ·)) := by
  rw [List.isChain_iff_pairwise, List.pairwise_cons, List.pairwise_map]
  unfold ValidSideHistory
  constructor
  · rintro ⟨h1, h2, h3⟩
    refine ⟨fun x hx => h1 x hx r (by simp), ?_, h3⟩
    intro a ha
    obtain ⟨x, hx, rfl⟩ := List.mem_map.mp ha
    exact h2 x hx
  · rintro ⟨h1, h2, h3⟩
    refine ⟨fun a ha b hb => by rw [h1 a ha, h1 b hb], ?_, h3⟩
    intro a ha
    exact h2 _ (List.mem_map.mpr ⟨a, ha, rfl⟩)

/-- **C27** (construction). A non-empty history is accepted exactly when it is valid, otherwise the constructor
aborts; an empty history is undefined behaviour. -/
theorem C27_construct (l : List (SideInputRecord F)) :
    (l = [] → make l = .error .undefinedBehaviour) ∧
    (l ≠ [] → ValidSideHistory l → ∃ s, make l = .ok s) ∧
    (l ≠ [] → ¬ ValidSideHistory l → make l = .error .assertion) := by
  cases l with
  | nil => simp [make]
  | cons r rest =>
    refine ⟨fun h => by simp at h, fun _ hv => ?_, fun _ hv => ?_⟩
    · rw [valid_iff] at hv
      exact ⟨_, buildLoop_ok _ _ _ _ hv.1 hv.2⟩
    · rw [valid_iff] at hv
      exact buildLoop_error _ _ _ _ hv

theorem make_ok {l : List (SideInputRecord F)} {s : SideInput F} (h : make l = .ok s) :
    s.timestamps = l.map (·.ts) ∧ s.data = l.flatMap (·.signals) ∧ (∀ r ∈ l, r.signals.length = s.numSignals) ∧
      l.Pairwise (fun a b => a.ts < b.ts) ∧ l ≠ [] := by
  cases l with
  | nil => simp [make] at h
  | cons r rest =>
    by_cases hv : ValidSideHistory (r :: rest)
    · have hv' := (valid_iff r rest).mp hv
      have e := buildLoop_ok _ _ 0 ⟨r.signals.length, [], []⟩ hv'.1 hv'.2
      have : make (r :: rest) = _ := e
      rw [this] at h
      rw [← Except.ok.inj h]
      exact ⟨by simp, by simp, hv'.1, hv.2.2, by simp⟩
    · rw [(C27_construct (r :: rest)).2.2 (by simp) hv] at h; cases h

/-- **C27** (access). Every stored record is returned unchanged. -/
theorem C27_access (l : List (SideInputRecord F)) (s : SideInput F) (h : make l = .ok s) :
    s.numRecords = l.length ∧
    ∀ (i : ℕ) (hi : i < l.length),
      s.timestamp i = .ok l[i].ts ∧
      (∀ out, s.signals i out = .ok (out ++ l[i].signals)) ∧
      (∀ (j : ℕ) (hj : j < l[i].signals.length), s.signal i j = .ok l[i].signals[j]) ∧
      (∀ (j : ℤ), (j < 0 ∨ (l[i].signals.length : ℤ) ≤ j) → s.signal i j = .error .assertion) := by
  obtain ⟨h1, h2, h3, h4, h5⟩ := make_ok h
  have hn : s.numRecords = l.length := by unfold numRecords; rw [h1]; simp
  refine ⟨hn, fun i hi => ?_⟩
  have hlen : l[i].signals.length = s.numSignals := h3 _ (List.getElem_mem hi)
  have hat : ∀ (j : ℕ) (hj : j < s.numSignals),
      at' s.data ((i : ℤ) * s.numSignals + j) = .ok (l[i].signals[j]'(by omega)) := by
    intro j hj
    unfold at'
    rw [if_neg (not_lt.mpr (by positivity))]
    have : ((i : ℤ) * s.numSignals + j).toNat = i * s.numSignals + j := by
      have : ((i : ℤ) * s.numSignals + j) = ((i * s.numSignals + j : ℕ) : ℤ) := by push_cast; ring
      rw [this, Int.toNat_natCast]
    rw [this, h2, flatMap_get l h3 i hi j hj, List.getElem?_eq_getElem (by omega)]
  refine ⟨?_, ?_, ?_, ?_⟩
  · unfold timestamp at'
    rw [if_neg (by omega), h1, Int.toNat_natCast, List.getElem?_eq_getElem (by simpa using hi)]
    simp
  · intro out
    unfold SideInput.signals
    have hb : (decide ((0 : ℤ) ≤ (i : ℤ)) && decide ((i : ℤ) < s.numRecords)) = true := by
      simp [hn, hi]
    rw [hb]
    show (List.range s.numSignals).foldlM _ out = _
    have key : ∀ m, m ≤ s.numSignals →
        (List.range m).foldlM (m := Except Fault) (fun (out : List F) (j : ℕ) => do
          let x ← at' s.data ((i : ℤ) * s.numSignals + j)
          return out ++ [x]) out = .ok (out ++ l[i].signals.take m) := by
      intro m
      induction m with
      | zero => intro _; simp [pure, Except.pure]
      | succ m ih =>
        intro hm
        rw [List.range_succ, List.foldlM_append, ih (by omega)]
        simp only [bind, Except.bind, List.foldlM_cons, List.foldlM_nil, hat m (by omega), pure, Except.pure]
        rw [List.append_assoc, List.take_succ_eq_append_getElem (by omega)]
    have := key s.numSignals (le_refl _)
    rw [← hlen, List.take_length] at this
    rw [← hlen]
    exact this
  · intro j hj
    unfold SideInput.signal
    have hb : (decide ((0 : ℤ) ≤ (i : ℤ)) && decide ((i : ℤ) < s.numRecords)) = true := by
      simp [hn, hi]
    have hb2 : (decide ((0 : ℤ) ≤ (j : ℤ)) && decide ((j : ℤ) < s.numSignals)) = true := by
      simp; omega
    simp only [assertThat, hb, hb2, if_true, bind, Except.bind]
    exact hat j (by omega)
  · intro j hj
    unfold SideInput.signal
    have hb : (decide ((0 : ℤ) ≤ (i : ℤ)) && decide ((i : ℤ) < s.numRecords)) = true := by
      simp [hn, hi]
    have hb2 : (decide ((0 : ℤ) ≤ (j : ℤ)) && decide ((j : ℤ) < s.numSignals)) = false := by
      simp; omega
    simp only [assertThat, hb, hb2, if_true, bind, Except.bind]
    rfl

/-- The side-input index a caller expects at time `t`: the number of the latest record not after `t`, or -1. -/
def IsLatestIndex (l : List (SideInputRecord F)) (t k : ℤ) : Prop :=
  -1 ≤ k ∧ k < l.length ∧ ∀ (i : ℕ) (h : i < l.length), l[i].ts ≤ t ↔ (i : ℤ) ≤ k

theorem IsLatestIndex.unique {l : List (SideInputRecord F)} {t k k' : ℤ} (h : IsLatestIndex l t k)
    (h' : IsLatestIndex l t k') : k = k' := by
  obtain ⟨a1, a2, a3⟩ := h
  obtain ⟨b1, b2, b3⟩ := h'
  rcases lt_trichotomy k k' with hlt | rfl | hlt
  · have hk : k'.toNat < l.length := by omega
    have := (b3 k'.toNat hk).mpr (by omega)
    have := (a3 k'.toNat hk).mp this
    omega
  · rfl
  · have hk : k.toNat < l.length := by omega
    have := (a3 k.toNat hk).mpr (by omega)
    have := (b3 k.toNat hk).mp this
    omega

/-- **C25**. `GetSideInputIndex(t)` is the index of the latest record whose timestamp is `≤ t`, or -1. -/
theorem C25_index (l : List (SideInputRecord F)) (s : SideInput F) (h : make l = .ok s) (t : ℤ) :
    IsLatestIndex l t (s.index t) := by
  obtain ⟨h1, h2, h3, h4, h5⟩ := make_ok h
  have hp : s.timestamps.Pairwise (· < ·) := by rw [h1, List.pairwise_map]; exact h4
  have hl : s.timestamps.length = l.length := by rw [h1]; simp
  obtain ⟨u1, u2, u3, u4⟩ := upperBound_spec s hp t 0 (by omega)
  unfold index
  refine ⟨by omega, by omega, fun i hi => ?_⟩
  have hts : s.timestamps[i]'(by omega) = l[i].ts := by simp [h1]
  constructor
  · intro hle
    by_contra hc
    have := u4 i (by omega) (by omega)
    rw [hts] at this; omega
  · intro hle
    have := u3 i (by omega) (by omega) (by omega)
    rwa [hts] at this

/-- **C26**. The hint never changes the answer: a negative hint is ignored, a hint that is a valid index not after
`t` gives the same result as no hint, a hint from the future or out of range aborts. -/
theorem C26_hint (l : List (SideInputRecord F)) (s : SideInput F) (h : make l = .ok s) (t prev : ℤ) :
    (prev < 0 → s.indexHint t prev = .ok (s.index t)) ∧
    (∀ (_ : 0 ≤ prev) (hr : prev.toNat < l.length),
      (l[prev.toNat].ts ≤ t → s.indexHint t prev = .ok (s.index t)) ∧
      (t < l[prev.toNat].ts → s.indexHint t prev = .error .assertion)) ∧
    ((l.length : ℤ) ≤ prev → s.indexHint t prev = .error .outOfRange) := by
  obtain ⟨h1, h2, h3, h4, h5⟩ := make_ok h
  have hp : s.timestamps.Pairwise (· < ·) := by rw [h1, List.pairwise_map]; exact h4
  have hl : s.timestamps.length = l.length := by rw [h1]; simp
  have hat : ∀ (i : ℕ) (hi : i < l.length), at' s.timestamps (i : ℤ) = .ok l[i].ts := by
    intro i hi
    unfold at'
    rw [if_neg (by omega), h1, Int.toNat_natCast, List.getElem?_eq_getElem (by simpa using hi)]
    simp
  have hmono : ∀ (i j : ℕ) (hi : i < l.length) (hj : j < l.length), i ≤ j → l[i].ts ≤ l[j].ts := by
    intro i j hi hj hij
    rcases Nat.eq_or_lt_of_le hij with rfl | hlt
    · exact le_refl _
    · exact (List.pairwise_iff_getElem.mp h4 i j hi hj hlt).le
  have hidx := C25_index l s h t
  refine ⟨?_, ?_, ?_⟩
  · intro hneg; unfold indexHint; rw [if_pos hneg]
  · intro h0 hr
    obtain ⟨p, rfl⟩ : ∃ p : ℕ, prev = (p : ℤ) := ⟨prev.toNat, by omega⟩
    simp only [Int.toNat_natCast] at hr ⊢
    constructor
    · intro hle
      have conclude : ∀ k : ℤ, IsLatestIndex l t k → (.ok k : Res ℤ) = .ok (s.index t) := by
        intro k hk; rw [hk.unique hidx]
      unfold indexHint
      rw [if_neg (by omega)]
      simp only [hat p hr, bind, Except.bind, assertThat, ge_iff_le, hle, decide_true, if_true, hl]
      by_cases hlast : (p : ℤ) = (l.length : ℤ) - 1
      · simp only [hlast, if_true, pure, Except.pure]
        apply conclude
        refine ⟨by omega, by omega, fun i hi => ⟨fun _ => by omega, fun _ => ?_⟩⟩
        exact le_trans (hmono i p hi hr (by omega)) hle
      · simp only [hlast, if_false]
        have hp1 : p + 1 < l.length := by omega
        have e1 : ((p : ℤ) + 1) = ((p + 1 : ℕ) : ℤ) := by push_cast; rfl
        rw [e1, hat (p + 1) hp1]
        simp only [pure, Except.pure]
        by_cases hlt : t < l[p + 1].ts
        · simp only [hlt, decide_true, if_true]
          apply conclude
          refine ⟨by omega, by omega, fun i hi => ⟨fun hi' => ?_, fun hi' => ?_⟩⟩
          · by_contra hc
            have := hmono (p + 1) i hp1 hi (by omega); omega
          · exact le_trans (hmono i p hi hr (by omega)) hle
        · simp only [hlt, decide_false, Bool.false_eq_true, if_false]
          by_cases hlast2 : (p : ℤ) = (l.length : ℤ) - 2
          · simp only [hlast2, if_true]
            have : (p + 1 : ℕ) = (l.length : ℤ) - 1 := by omega
            apply conclude
            refine ⟨by omega, by omega, fun i hi => ⟨fun _ => by omega, fun _ => ?_⟩⟩
            exact le_trans (hmono i (p + 1) hi hp1 (by omega)) (by omega)
          · simp only [hlast2, if_false]
            have hp2 : p + 2 < l.length := by omega
            have e2 : ((p : ℤ) + 2) = ((p + 2 : ℕ) : ℤ) := by push_cast; rfl
            rw [e2, hat (p + 2) hp2]
            simp only
            by_cases hlt2 : t < l[p + 2].ts
            · simp only [hlt2, decide_true, if_true]
              apply conclude
              refine ⟨by omega, by omega, fun i hi => ⟨fun hi' => ?_, fun hi' => ?_⟩⟩
              · by_contra hc
                have := hmono (p + 2) i hp2 hi (by omega); omega
              · exact le_trans (hmono i (p + 1) hi hp1 (by omega)) (by omega)
            · simp only [hlt2, decide_false, Bool.false_eq_true, if_false, Int.toNat_natCast]
              apply conclude
              obtain ⟨u1, u2, u3, u4⟩ := upperBound_spec s hp t (p + 2) (by omega)
              have hts : ∀ (i : ℕ) (hi : i < l.length), s.timestamps[i]'(by omega) = l[i].ts := by
                intro i hi; simp [h1]
              refine ⟨by omega, by omega, fun i hi => ⟨fun hi' => ?_, fun hi' => ?_⟩⟩
              · by_contra hc
                have := u4 i (by omega) (by omega)
                rw [hts i hi] at this; omega
              · by_cases hge : p + 2 ≤ i
                · have := u3 i (by omega) hge (by omega)
                  rwa [hts i hi] at this
                · exact le_trans (hmono i (p + 2) hi hp2 (by omega)) (by omega)
    · intro hgt
      unfold indexHint
      rw [if_neg (by omega)]
      have : ¬ l[p].ts ≤ t := by omega
      simp only [hat p hr, bind, Except.bind, assertThat, ge_iff_le, this, decide_false,
        Bool.false_eq_true, if_false]
  · intro hge
    unfold indexHint
    rw [if_neg (by omega)]
    have : at' s.timestamps prev = .error .outOfRange := by
      unfold at'
      rw [if_neg (by omega), List.getElem?_eq_none (by omega)]
    simp only [this, bind, Except.bind]

/-! Non-vacuity. -/

/-- Sample side history. -/
def exSide : List (SideInputRecord ℤ) := [⟨10, [1, 2]⟩, ⟨20, [3, 4]⟩, ⟨30, [5, 6]⟩, ⟨40, [7, 8]⟩, ⟨50, [9, 9]⟩]

example : (make exSide).map (fun s => (s.index 9, s.index 10, s.index 45, s.numRecords)) = .ok (-1, 0, 3, 5) := by
  decide +kernel
example : (make exSide).bind (fun s => s.indexHint 45 0) = .ok 3 := by decide +kernel
example : (make exSide).bind (fun s => s.indexHint 15 1) = .error .assertion := by decide +kernel
example : (make exSide).bind (fun s => s.signals 2 [0]) = .ok [0, 5, 6] := by decide +kernel
example : (make (exSide ++ [⟨50, [1, 1]⟩])).map (fun s => s.numRecords) = .error .assertion := by decide +kernel

end Verif.Props
