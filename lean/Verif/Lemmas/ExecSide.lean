import Verif.Lemmas.Exec
import Verif.Props.SideInput

/-! # Side input inside the back-test loop -/

set_option linter.unusedSectionVars false

namespace Verif
open FloatOps Spec
open Props

variable {F : Type} [FloatOps F]

/-- The side input a caller passes: none, or one constructed from the records. -/
inductive SideOf : Option (List (SideInputRecord F)) → Option (SideInput F) → Prop
  | none : SideOf none none
  | some (l : List (SideInputRecord F)) (s : SideInput F) (h : SideInput.make l = .ok s) : SideOf (some l) (some s)

theorem knownFilter_eq_take {l : List (SideInputRecord F)} (h : l.Pairwise (fun a b => a.ts < b.ts)) (t : ℤ) :
    l.filter (fun r => decide (r.ts ≤ t)) = l.take (l.filter (fun r => decide (r.ts ≤ t))).length := by
  induction l with
  | nil => rfl
  | cons a l ih =>
    rw [List.pairwise_cons] at h
    by_cases ha : a.ts ≤ t
    · rw [List.filter_cons_of_pos (by simpa using ha), List.length_cons, List.take_succ_cons, ← ih h.2]
    · have : (a :: l).filter (fun r => decide (r.ts ≤ t)) = [] := by
        rw [List.filter_eq_nil_iff]
        intro x hx
        rcases List.mem_cons.mp hx with rfl | hx
        · simpa using ha
        · have := h.1 x hx
          simp only [decide_eq_true_eq]; omega
      rw [this]; rfl

theorem known_latest {l : List (SideInputRecord F)} (h : l.Pairwise (fun a b => a.ts < b.ts)) (t : ℤ) :
    IsLatestIndex l t (((known (some l) t).length : ℤ) - 1) := by
  unfold known
  simp only [Option.getD_some]
  have hk := knownFilter_eq_take h t
  have hlen := List.length_filter_le (fun r => decide (r.ts ≤ t)) l
  generalize hn : (l.filter (fun r => decide (r.ts ≤ t))).length = n at *
  refine ⟨by omega, by omega, fun i hi => ?_⟩
  constructor
  · intro hle
    by_contra hc
    have hnil : (l.drop n).filter (fun r => decide (r.ts ≤ t)) = [] := by
      have e := List.filter_append (p := fun r : SideInputRecord F => decide (r.ts ≤ t)) (l.take n) (l.drop n)
      rw [List.take_append_drop] at e
      have e2 : (l.take n).filter (fun r => decide (r.ts ≤ t)) = l.take n := by
        rw [← hk, List.filter_filter]; simp
      have := congrArg List.length e
      rw [List.length_append, e2, hn, List.length_take, Nat.min_eq_left hlen] at this
      exact List.eq_nil_of_length_eq_zero (by omega)
    rw [List.filter_eq_nil_iff] at hnil
    have hmem : l[i] ∈ l.drop n := by
      rw [List.mem_iff_getElem]
      refine ⟨i - n, by rw [List.length_drop]; omega, ?_⟩
      rw [List.getElem_drop]; congr 1; omega
    exact hnil _ hmem (by simpa using hle)
  · intro hle
    have hmem : l[i] ∈ l.filter (fun r => decide (r.ts ≤ t)) := by
      rw [hk, List.mem_iff_getElem]
      refine ⟨i, by rw [List.length_take]; omega, ?_⟩
      rw [List.getElem_take]
    simpa using (List.mem_filter.mp hmem).2

/-- The side-input step as a function of the known records only. -/
def sideSpec (K : List (SideInputRecord F)) (ts : ℤ) (signals : List F) (prev : ℤ) : Res (List F × ℤ) :=
  if K = [] ∧ prev < 0 then .ok (signals, prev)
  else if prev < K.length then
    .ok ((match K.getLast? with
      | none => []
      | some r => r.signals ++ [lit F ((ts - r.ts : ℤ) : ℚ)]), K.length - 1)
  else .error .assertion

theorem sideStep_eq {recs : Option (List (SideInputRecord F))} {side : Option (SideInput F)} (h : SideOf recs side)
    (ts : ℤ) (signals : List F) (prev : ℤ) (hp : prev < (recs.getD []).length) (hp0 : recs = none → prev < 0) :
    sideStep side ts signals prev = sideSpec (known recs ts) ts signals prev := by
  cases h with
  | none =>
    simp only [sideStep, sideSpec, known, Option.getD_none, List.filter_nil]
    rw [if_pos ⟨trivial, hp0 rfl⟩]
  | some l s h =>
    obtain ⟨h1, h2, h3, h4, h5⟩ := make_ok h
    have hlat := known_latest h4 ts
    have hidx : s.index ts = ((known (some l) ts).length : ℤ) - 1 := (C25_index l s h ts).unique hlat
    have hhint := C26_hint l s h ts prev
    have hacc := (C27_access l s h).2
    have hk : known (some l) ts = l.take (known (some l) ts).length := knownFilter_eq_take h4 ts
    simp only [Option.getD_some] at hp
    -- the value returned by the lookup
    have hlook : s.indexHint ts prev = if prev < 0 ∨ prev < (known (some l) ts).length
        then .ok (((known (some l) ts).length : ℤ) - 1) else .error .assertion := by
      by_cases hneg : prev < 0
      · rw [if_pos (Or.inl hneg), hhint.1 hneg, hidx]
      · have hr : prev.toNat < l.length := by omega
        obtain ⟨g1, g2⟩ := hhint.2.1 (by omega) hr
        have hiff := hlat.2.2 prev.toNat hr
        by_cases hlt : prev < (known (some l) ts).length
        · rw [if_pos (Or.inr hlt), g1 (hiff.mpr (by omega)), hidx]
        · rw [if_neg (by omega), g2]
          by_contra hc
          have := hiff.mp (by omega)
          omega
    simp only [sideStep, hlook, sideSpec]
    by_cases hnil : known (some l) ts = []
    · rw [hnil]
      by_cases hneg : prev < 0
      · simp [hneg, bind, Except.bind, pure, Except.pure]
      · simp [hneg, bind, Except.bind]
    · have hpos : 0 < (known (some l) ts).length := List.length_pos_iff.mpr hnil
      have hcond : ¬ (known (some l) ts = [] ∧ prev < 0) := fun h => hnil h.1
      rw [if_neg hcond]
      by_cases hlt : prev < (known (some l) ts).length
      · rw [if_pos (Or.inr hlt), if_pos hlt]
        set n := (known (some l) ts).length with hn
        have hnl : n - 1 < l.length := by
          have : n ≤ l.length := by rw [hn]; exact List.length_filter_le _ _
          omega
        obtain ⟨a1, a2, _⟩ := hacc (n - 1) hnl
        have hcast : ((n : ℤ) - 1) = ((n - 1 : ℕ) : ℤ) := by omega
        have hlast : (known (some l) ts).getLast? = some l[n - 1] := by
          rw [hk, List.getLast?_eq_getElem?, List.length_take, Nat.min_eq_left (by omega), List.getElem?_take]
          rw [if_pos (by omega), List.getElem?_eq_getElem hnl]
        simp only [bind, Except.bind, pure, Except.pure]
        rw [hcast, if_pos (by omega), a1]
        simp only
        rw [a2]
        simp only [List.nil_append, hlast]
      · rw [if_neg (by omega), if_neg hlt]
        rfl

theorem sideSpec_ok {K : List (SideInputRecord F)} {ts : ℤ} {signals : List F} {prev : ℤ} {r : List F × ℤ}
    (h : sideSpec K ts signals prev = .ok r) (hs : prev < 0 → signals = []) :
    r.1 = (match K.getLast? with | none => [] | some r => r.signals ++ [lit F ((ts - r.ts : ℤ) : ℚ)]) ∧
    r.2 < K.length ∧ (r.2 < 0 → r.1 = []) ∧ (K = [] → r.2 < 0) := by
  unfold sideSpec at h
  split at h
  · next hc =>
    obtain ⟨rfl, hneg⟩ := hc
    cases h
    simp only [List.getLast?_nil, List.length_nil]
    exact ⟨hs hneg, by simpa using hneg, fun _ => hs hneg, fun _ => hneg⟩
  · split at h
    · next hc hlt =>
      cases h
      dsimp only
      have hK : K ≠ [] := by
        rintro rfl
        apply hc
        simpa using hlt
      have := List.length_pos_iff.mpr hK
      exact ⟨rfl, by omega, fun h => by omega, fun h => absurd h hK⟩
    · cases h

theorem known_mono_length (recs : Option (List (SideInputRecord F))) (t : ℤ) :
    (known recs t).length ≤ (recs.getD []).length := List.length_filter_le _ _

/-- What is known at an earlier time is determined by what is known at a later time. -/
theorem known_of_known (recs : Option (List (SideInputRecord F))) {t u : ℤ} (h : t ≤ u) :
    known recs t = (known recs u).filter (fun r => decide (r.ts ≤ t)) := by
  unfold known
  rw [List.filter_filter]
  congr 1
  funext r
  by_cases h1 : r.ts ≤ t
  · have : r.ts ≤ u := by omega
    simp [h1, this]
  · simp [h1]

end Verif
