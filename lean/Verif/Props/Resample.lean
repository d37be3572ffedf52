import Verif.Lemmas.Resample
import Verif.Lemmas.Fold
import Mathlib.Data.Rat.Floor
import Mathlib.Algebra.BigOperators.Group.List.Basic
import Mathlib.Algebra.Order.BigOperators.Group.List

/-!
# C17, C18, C19: Resample

The hypotheses `SortedBy`, `0 ≤ ts` hold of every history the readers accept (C65).
-/

namespace Verif.Props
open Spec FloatOps

section general
variable {F : Type} [FloatOps F]

/-- The records of the period `[s, s + rate)`, in order. -/
def recordsIn (rate s : ℤ) (l : List (PriceRecord F)) : List (PriceRecord F) :=
  l.filter (fun r => decide (s ≤ r.ts ∧ r.ts < s + rate))

/-- **C17**. `Resample` succeeds, and its timestamps are the consecutive multiples of the sampling rate from the
period of the first record to the period of the last: no hole, no duplicate. -/
theorem C17_grid (rate : ℤ) (hrate : 0 < rate) (first : PriceRecord F) (rest : List (PriceRecord F))
    (hs : SortedBy PriceRecord.ts (first :: rest)) (h0 : ∀ r ∈ first :: rest, 0 ≤ r.ts) :
    ∃ out, resample rate (first :: rest) = .ok out ∧
      let a := first.ts / rate
      let b := ((first :: rest).getLast (by simp)).ts / rate
      (out.length : ℤ) = b - a + 1 ∧
      ∀ (i : ℕ) (h : i < out.length), out[i].ts = rate * (a + i) := by
  refine ⟨_, resample_eq hrate _ hs h0, ?_⟩
  have hsm : SortedBy OhlcTick.ts ((first :: rest).map tickOf) := List.pairwise_map.mpr hs
  have hne : (first :: rest).map (tickOf (F := F)) ≠ [] := by simp
  have hle := hsm.head_le_getLast hne
  have e1 : (((first :: rest).map tickOf).head hne).ts = first.ts := rfl
  have e2 : (((first :: rest).map tickOf).getLast hne).ts = ((first :: rest).getLast (by simp)).ts := by
    rw [List.getLast_map]; rfl
  rw [e1, e2] at hle
  have q := Int.ediv_le_ediv hrate hle
  intro a b
  have hab : a ≤ b := q
  have E := aggregate_eq (P := rate) hne
  rw [e1, e2] at E
  constructor
  · rw [E]; simp only [List.length_map, List.length_range]; push_cast; omega
  · intro i h
    simp only [E, List.getElem_map, List.getElem_range, aggTick_ts]
    show periodStart rate first.ts + rate * i = _
    unfold periodStart; ring

/-- **C17**, the degenerate case: an empty history gives an empty result. -/
theorem C17_empty (rate : ℤ) : resample rate ([] : List (PriceRecord F)) = .ok [] := rfl

/-- **C18**. Every tick of the result summarises the records of its period `[ts, ts + rate)`: the first and
last price as open and close, the running maximum/minimum as high and low, and the sum of the volumes; a period
without records gets a flat zero-volume tick at the price of the last record before it. For every arithmetic. -/
theorem C18_meaning (rate : ℤ) (hrate : 0 < rate) (l : List (PriceRecord F))
    (hs : SortedBy PriceRecord.ts l) (h0 : ∀ r ∈ l, 0 ≤ r.ts) (out : List (OhlcTick F))
    (ho : resample rate l = .ok out) (x : OhlcTick F) (hx : x ∈ out) :
    (∀ g gs, recordsIn rate x.ts l = g :: gs →
      x.opn = g.price ∧ x.close = ((g :: gs).getLast (by simp)).price ∧
      x.high = (gs.map (·.price)).foldl fmax g.price ∧
      x.low = (gs.map (·.price)).foldl fmin g.price ∧
      x.volume = (gs.map (·.volume)).foldl FloatOps.add g.volume) ∧
    (recordsIn rate x.ts l = [] → ∃ prev, (l.filter (fun r => decide (r.ts < x.ts))).getLast? = some prev ∧
      x.opn = prev.price ∧ x.high = prev.price ∧ x.low = prev.price ∧ x.close = prev.price ∧
      x.volume = lit F 0) := by
  obtain ⟨hxa, hk⟩ := resample_mem hrate hs h0 ho hx
  have hg : ticksIn rate x.ts (l.map tickOf) = (recordsIn rate x.ts l).map tickOf := by
    rw [ticksIn_map_tickOf]
    congr 1
    unfold recordsIn
    congr 1
    funext r
    rw [decide_eq_decide]
    exact period_iff hrate hk
  constructor
  · intro g gs hgs
    rw [hgs] at hg
    have : x = summary x.ts (tickOf g) (gs.map tickOf) := by
      conv_lhs => rw [hxa]
      unfold aggTick; rw [hg]; rfl
    generalize x.ts = s at this
    subst this
    refine ⟨rfl, ?_, ?_, ?_, ?_⟩
    · show (((g :: gs).map tickOf).getLast (by simp)).close = _
      rw [List.getLast_map]; rfl
    · show ((gs.map tickOf).map (·.high)).foldl fmax _ = _
      rw [List.map_map]; rfl
    · show ((gs.map tickOf).map (·.low)).foldl fmin _ = _
      rw [List.map_map]; rfl
    · show ((gs.map tickOf).map (·.volume)).foldl FloatOps.add _ = _
      rw [List.map_map]; rfl
  · intro hnil
    rw [hnil] at hg
    -- some record is before the period: the first one
    have hex : ∃ r ∈ l, r.ts < x.ts := by
      rw [resample_eq hrate l hs h0] at ho
      have ho' : aggregate rate (l.map tickOf) = out := Except.ok.inj ho
      rw [← ho'] at hx
      cases l with
      | nil => simp [aggregate] at hx
      | cons f rest =>
        refine ⟨f, by simp, ?_⟩
        have hne : (f :: rest).map (tickOf (F := F)) ≠ [] := by simp
        rw [aggregate_eq hne, List.mem_map] at hx
        obtain ⟨i, _, hxi⟩ := hx
        have hts : x.ts = periodStart rate f.ts + rate * i := by rw [← hxi, aggTick_ts]; rfl
        by_contra hge
        have hle : x.ts ≤ f.ts := not_lt.mp hge
        have : f ∈ recordsIn rate x.ts (f :: rest) := by
          unfold recordsIn
          rw [List.mem_filter]
          refine ⟨by simp, ?_⟩
          simp only [decide_eq_true_eq]
          refine ⟨hle, ?_⟩
          have := lt_periodStart_add hrate f.ts
          have : 0 ≤ rate * (i : ℤ) := by positivity
          omega
        rw [hnil] at this
        simp at this
    obtain ⟨r, hr, hlt⟩ := hex
    have hne : l.filter (fun r => decide (r.ts < x.ts)) ≠ [] := by
      intro h
      rw [List.filter_eq_nil_iff] at h
      exact h r hr (by simpa using hlt)
    refine ⟨_, List.getLast?_eq_some_getLast hne, ?_⟩
    have hcb : closeBefore x.ts (l.map tickOf) =
        ((l.filter (fun r => decide (r.ts < x.ts))).getLast hne).price := by
      unfold closeBefore
      rw [List.filter_map]
      have e : ((fun t : OhlcTick F => decide (t.ts < x.ts)) ∘ tickOf) = fun r => decide (r.ts < x.ts) := rfl
      rw [e, List.getLast?_map, List.getLast?_eq_some_getLast hne]
      rfl
    have hx' : x = ⟨x.ts, closeBefore x.ts (l.map tickOf), closeBefore x.ts (l.map tickOf),
        closeBefore x.ts (l.map tickOf), closeBefore x.ts (l.map tickOf), lit F 0⟩ := by
      conv_lhs => rw [hxa]
      unfold aggTick; rw [hg]; rfl
    rw [hcb] at hx'
    generalize hp : (l.filter (fun r => decide (r.ts < x.ts))).getLast hne = p at hx'
    rw [hx']
    exact ⟨rfl, rfl, rfl, rfl, rfl⟩

end general

section exact
set_option linter.unusedSectionVars false
variable {K : Type} [Field K] [LinearOrder K] [IsStrictOrderedRing K] [FloorRing K]

/-- **C18** in exact arithmetic: high and low are the true maximum and minimum of the period's prices, and the
volume is the total volume of the period. -/
theorem C18_exact (rate : ℤ) (hrate : 0 < rate) (l : List (PriceRecord K))
    (hs : SortedBy PriceRecord.ts l) (h0 : ∀ r ∈ l, 0 ≤ r.ts) (out : List (OhlcTick K))
    (ho : resample rate l = .ok out) (x : OhlcTick K) (hx : x ∈ out)
    (hne : recordsIn rate x.ts l ≠ []) :
    (∃ r ∈ recordsIn rate x.ts l, x.high = r.price) ∧ (∀ r ∈ recordsIn rate x.ts l, r.price ≤ x.high) ∧
    (∃ r ∈ recordsIn rate x.ts l, x.low = r.price) ∧ (∀ r ∈ recordsIn rate x.ts l, x.low ≤ r.price) ∧
    x.volume = ((recordsIn rate x.ts l).map (·.volume)).sum := by
  obtain ⟨g, gs, hg⟩ := List.exists_cons_of_ne_nil hne
  obtain ⟨h1, _⟩ := C18_meaning rate hrate l hs h0 out ho x hx
  obtain ⟨_, _, h4, h5, h6⟩ := h1 g gs hg
  rw [foldl_fmax] at h4
  rw [foldl_fmin] at h5
  rw [foldl_fadd] at h6
  have m1 := foldl_max_mem g.price (gs.map (·.price))
  have m2 := foldl_min_mem g.price (gs.map (·.price))
  have e : g.price :: gs.map (·.price) = (g :: gs).map (·.price) := rfl
  rw [← h4, e] at m1
  rw [← h5, e] at m2
  simp only [List.mem_map] at m1 m2
  rw [hg]
  refine ⟨?_, ?_, ?_, ?_, ?_⟩
  · obtain ⟨r, hr, h⟩ := m1.1; exact ⟨r, hr, h.symm⟩
  · intro r hr; exact m1.2 _ ⟨r, hr, rfl⟩
  · obtain ⟨r, hr, h⟩ := m2.1; exact ⟨r, hr, h.symm⟩
  · intro r hr; exact m2.2 _ ⟨r, hr, rfl⟩
  · rw [h6]; simp

/-- A tick a back-test can work with: `0 < low ≤ open, close ≤ high`, `0 ≤ volume`. -/
def WellFormedTick (x : OhlcTick K) : Prop :=
  0 < x.low ∧ x.low ≤ x.opn ∧ x.low ≤ x.close ∧ x.opn ≤ x.high ∧ x.close ≤ x.high ∧ 0 ≤ x.volume

/-- **C19** (well-formedness). From records with positive prices and non-negative volumes, every resampled tick
is well-formed. -/
theorem C19_well_formed (rate : ℤ) (hrate : 0 < rate) (l : List (PriceRecord K))
    (hs : SortedBy PriceRecord.ts l) (h0 : ∀ r ∈ l, 0 ≤ r.ts)
    (hp : ∀ r ∈ l, 0 < r.price) (hv : ∀ r ∈ l, 0 ≤ r.volume)
    (out : List (OhlcTick K)) (ho : resample rate l = .ok out) (x : OhlcTick K) (hx : x ∈ out) :
    WellFormedTick x := by
  obtain ⟨h1, h2⟩ := C18_meaning rate hrate l hs h0 out ho x hx
  by_cases hne : recordsIn rate x.ts l = []
  · obtain ⟨p, hp', a, b, c, d, e⟩ := h2 hne
    have hmem : p ∈ l := by
      have := List.mem_of_getLast? hp'
      exact (List.mem_filter.mp this).1
    have := hp p hmem
    simp only [ex_ofRat, Rat.cast_zero] at e
    unfold WellFormedTick
    rw [a, b, c, d, e]
    exact ⟨this, le_refl _, le_refl _, le_refl _, le_refl _, le_refl _⟩
  · obtain ⟨e1, e2, e3, e4, e5⟩ := C18_exact rate hrate l hs h0 out ho x hx hne
    obtain ⟨g, gs, hg⟩ := List.exists_cons_of_ne_nil hne
    obtain ⟨f1, f2, _⟩ := h1 g gs hg
    have sub : ∀ r ∈ recordsIn rate x.ts l, r ∈ l := fun r hr => (List.mem_filter.mp hr).1
    have hgm : g ∈ recordsIn rate x.ts l := by rw [hg]; simp
    have hlm : (g :: gs).getLast (by simp) ∈ recordsIn rate x.ts l := by
      rw [hg]; exact List.getLast_mem _
    refine ⟨?_, ?_, ?_, ?_, ?_, ?_⟩
    · obtain ⟨r, hr, h⟩ := e3; rw [h]; exact hp r (sub r hr)
    · rw [f1]; exact e4 _ hgm
    · rw [f2]; exact e4 _ hlm
    · rw [f1]; exact e2 _ hgm
    · rw [f2]; exact e2 _ hlm
    · rw [e5]
      apply List.sum_nonneg
      intro v hv'
      obtain ⟨r, hr, rfl⟩ := List.mem_map.mp hv'
      exact hv r (sub r hr)

/-- **C19** (conservation). Resampling neither creates nor loses volume. -/
theorem C19_volume (rate : ℤ) (hrate : 0 < rate) (l : List (PriceRecord K))
    (hs : SortedBy PriceRecord.ts l) (h0 : ∀ r ∈ l, 0 ≤ r.ts)
    (out : List (OhlcTick K)) (ho : resample rate l = .ok out) :
    (out.map (·.volume)).sum = (l.map (·.volume)).sum := by
  rw [resample_eq hrate l hs h0] at ho
  rw [← Except.ok.inj ho]
  have hsm : SortedBy OhlcTick.ts (l.map tickOf) := List.pairwise_map.mpr hs
  have e := foldl_aggStep hrate _ hsm
  have : ((aggregate rate (l.map tickOf)).map (·.volume)).sum =
      (((aggregate rate (l.map tickOf)).reverse).map (·.volume)).sum := by
    rw [List.map_reverse, List.sum_reverse]
  rw [this, ← e]
  have key : ∀ (ll : List (OhlcTick K)) (acc : List (OhlcTick K)),
      ((ll.foldl (aggStep rate) acc).map (·.volume)).sum =
        (acc.map (·.volume)).sum + (ll.map (·.volume)).sum := by
    intro ll
    induction ll with
    | nil => intro acc; simp
    | cons t ll ih => intro acc; rw [List.foldl_cons, ih, volume_aggStep rate]; simp [add_assoc]
  rw [key]
  simp [Function.comp_def, tickOf]

end exact

/-! Non-vacuity: a history with two records in one period and an empty period. -/

/-- Sample history for the examples below. -/
def exHistory : List (PriceRecord ℚ) := [⟨305, 10, 1⟩, ⟨590, 12, 2⟩, ⟨1300, 9, 3⟩]

example : SortedBy PriceRecord.ts exHistory ∧ (∀ r ∈ exHistory, 0 ≤ r.ts) ∧ (∀ r ∈ exHistory, 0 < r.price) ∧
    (∀ r ∈ exHistory, 0 ≤ r.volume) := by
  unfold SortedBy; decide +kernel

example : resample 300 exHistory = .ok [⟨300, 10, 12, 10, 12, 3⟩, ⟨600, 12, 12, 12, 12, 0⟩,
    ⟨900, 12, 12, 12, 12, 0⟩, ⟨1200, 9, 9, 9, 9, 3⟩] := by decide +kernel

example : recordsIn 300 300 exHistory ≠ [] ∧ recordsIn 300 600 exHistory = [] := by decide +kernel

/-- Without the sortedness hypothesis the call can abort (a record of an earlier period). -/
example : resample 300 [⟨900, 10, 1⟩, ⟨305, 12, 2⟩] = (.error .assertion : Res (List (OhlcTick ℚ))) := by
  decide +kernel

end Verif.Props
