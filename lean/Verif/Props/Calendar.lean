import Verif.Lemmas.Calendar

/-!
# C60, C61: calendar arithmetic (UTC)
-/

namespace Verif.Props
open Time Spec

/-- The calendar date of a civil second. -/
def dateOf (c : Civil) : Date := ⟨c.year, c.month, c.day⟩

theorem toCivil_valid (t : ℤ) : (dateOf (toCivil t)).Valid := by
  have h := monthOf_spec (t / 86400)
  rw [monthStart_step] at h
  refine ⟨?_, ?_, ?_, ?_⟩ <;> simp only [dateOf, toCivil] <;> omega

/-- **C61**. Civil fields are in range and describe an existing date. -/
theorem C61_fields (t : ℤ) :
    (dateOf (toCivil t)).Valid ∧ 0 ≤ (toCivil t).hour ∧ (toCivil t).hour < 24 ∧ 0 ≤ (toCivil t).minute ∧
      (toCivil t).minute < 60 ∧ 0 ≤ (toCivil t).second ∧ (toCivil t).second < 60 := by
  refine ⟨toCivil_valid t, ?_⟩
  simp only [toCivil]
  omega

/-- **C61**. Converting a timestamp to civil time and back is the identity. -/
theorem C61_round_trip (t : ℤ) : fromCivil (toCivil t) = t := by
  simp only [fromCivil, toCivil, dayNumber]
  rw [show 12 * (monthOf (t / 86400) / 12) + (monthOf (t / 86400) % 12 + 1) - 1 = monthOf (t / 86400) by omega]
  omega

theorem monthOf_of_valid {y m d : ℤ} (h : (⟨y, m, d⟩ : Date).Valid) : monthOf (dayNumber y m d) = 12 * y + m - 1 := by
  obtain ⟨h1, h2, h3, h4⟩ := h
  simp only at h1 h2 h3 h4
  unfold dayNumber
  apply monthOf_unique
  · omega
  · rw [monthStart_step, show (12 * y + m - 1) / 12 = y by omega, show (12 * y + m - 1) % 12 + 1 = m by omega]
    omega

/-- **C61**. Converting an existing civil time to a timestamp and back is the identity; together with the previous
theorem, the conversion is a bijection between timestamps and civil times. -/
theorem C61_round_trip' (c : Civil) (hd : (dateOf c).Valid) (h0 : 0 ≤ c.hour) (h1 : c.hour < 24) (m0 : 0 ≤ c.minute)
    (m1 : c.minute < 60) (s0 : 0 ≤ c.second) (s1 : c.second < 60) : toCivil (fromCivil c) = c := by
  obtain ⟨y, m, d, hh, mm, ss⟩ := c
  simp only at h0 h1 m0 m1 s0 s1
  have hm := monthOf_of_valid hd
  obtain ⟨v1, v2, v3, v4⟩ := hd
  simp only [dateOf] at v1 v2 v3 v4
  simp only [fromCivil, toCivil]
  rw [show (dayNumber y m d * 86400 + hh * 3600 + mm * 60 + ss) / 86400 = dayNumber y m d by omega,
    show (dayNumber y m d * 86400 + hh * 3600 + mm * 60 + ss) % 86400 = hh * 3600 + mm * 60 + ss by omega, hm]
  unfold dayNumber
  simp only [Civil.mk.injEq]
  omega

/-- **C61**. It is the Gregorian calendar: timestamp 0 is 1970-01-01 00:00:00, the date advances exactly every 86400
seconds to the next calendar date (leap years included), and the time of day counts the seconds since midnight. -/
theorem C61_gregorian :
    toCivil 0 = ⟨1970, 1, 1, 0, 0, 0⟩ ∧
    (∀ t, dateOf (toCivil (t + 86400)) = (dateOf (toCivil t)).next) ∧
    (∀ t, t / 86400 = (t + 1) / 86400 → dateOf (toCivil (t + 1)) = dateOf (toCivil t)) ∧
    (∀ t, (toCivil t).hour * 3600 + (toCivil t).minute * 60 + (toCivil t).second = t % 86400) := by
  refine ⟨by decide, fun t => ?_, fun t h => ?_, fun t => ?_⟩
  · have hs := monthOf_spec (t / 86400)
    have hstep := monthStart_step (monthOf (t / 86400))
    have hb := monthLength_bounds ((monthOf (t / 86400) + 1) / 12) ((monthOf (t / 86400) + 1) % 12 + 1)
    simp only [dateOf, toCivil]
    rw [show (t + 86400) / 86400 = t / 86400 + 1 by omega]
    generalize t / 86400 = z at *
    by_cases hlt : z + 1 < monthStart (monthOf z + 1)
    · have : monthOf (z + 1) = monthOf z := monthOf_unique (by omega) hlt
      rw [this, Date.next]
      simp only
      rw [if_pos (by omega)]
      simp only [Date.mk.injEq, true_and]
      omega
    · have hstep2 := monthStart_step (monthOf z + 1)
      have : monthOf (z + 1) = monthOf z + 1 := monthOf_unique (by omega) (by omega)
      rw [this, Date.next]
      simp only
      rw [if_neg (by omega)]
      split
      · simp only [Date.mk.injEq]; omega
      · simp only [Date.mk.injEq]; omega
  · simp only [dateOf, toCivil]; rw [← h]
  · simp only [toCivil]; omega

/-! ## Adding months -/

theorem addMonths_ok (t k : ℤ) (hk : isInt ((toCivil t).month + k) = true) :
    addMonths t k = .ok ((monthStart (monthOf (t / 86400) + k) + (toCivil t).day - 1) * 86400 + t % 86400) := by
  unfold addMonths
  dsimp only
  rw [if_pos hk, normalise, C61_round_trip]
  simp only [fromCivil, dayNumber, toCivil]
  rw [show 12 * (monthOf (t / 86400) / 12) + (monthOf (t / 86400) % 12 + 1 + k) - 1 = monthOf (t / 86400) + k by omega]
  congr 1
  omega

/-- Numbers of months for which `int` arithmetic cannot overflow. -/
def SmallMonths (k : ℤ) : Prop := -2 ^ 31 ≤ k ∧ k < 2 ^ 31 - 12

theorem small_isInt (t : ℤ) {k : ℤ} (h : SmallMonths k) : isInt ((toCivil t).month + k) = true := by
  have := (toCivil_valid t).month_pos
  have := (toCivil_valid t).month_le
  simp only [dateOf] at *
  unfold SmallMonths at h
  simp only [isInt, Bool.and_eq_true, decide_eq_true_eq]
  omega

theorem addMonths_small (t : ℤ) {k : ℤ} (h : SmallMonths k) :
    addMonths t k = .ok ((monthStart (monthOf (t / 86400) + k) + (toCivil t).day - 1) * 86400 + t % 86400) :=
  addMonths_ok t k (small_isInt t h)

/-- **C60**. Adding no months changes nothing; adding months preserves the time of day; and the result is strictly
increasing in the number of months (by at least 28 days per month). -/
theorem C60_basic (t : ℤ) :
    addMonths t 0 = .ok t ∧
    (∀ k, SmallMonths k → ∃ r, addMonths t k = .ok r ∧ r % 86400 = t % 86400) ∧
    (∀ j k, SmallMonths j → SmallMonths k → j < k → ∃ r s, addMonths t j = .ok r ∧ addMonths t k = .ok s ∧
      r + 28 * 86400 * (k - j) ≤ s) := by
  refine ⟨?_, fun k hk => ⟨_, addMonths_small t hk, by omega⟩, fun j k hj hk h => ?_⟩
  · rw [addMonths_small t (by unfold SmallMonths; omega)]
    congr 1
    simp only [toCivil, add_zero]
    omega
  · refine ⟨_, _, addMonths_small t hj, addMonths_small t hk, ?_⟩
    have := monthStart_mono (show monthOf (t / 86400) + j ≤ monthOf (t / 86400) + k by omega)
    omega

/-- **C60**. The sum of the month and the number of months is computed in `int`: adding months is defined exactly if it
fits. -/
theorem C60_defined_iff (t k : ℤ) :
    (∃ r, addMonths t k = .ok r) ↔ -2 ^ 31 ≤ (dateOf (toCivil t)).month + k ∧ (dateOf (toCivil t)).month + k < 2 ^ 31 := by
  have key : isInt ((toCivil t).month + k) = true ↔
      -2 ^ 31 ≤ (dateOf (toCivil t)).month + k ∧ (dateOf (toCivil t)).month + k < 2 ^ 31 := by
    simp only [isInt, Bool.and_eq_true, decide_eq_true_eq, dateOf]
  rw [← key]
  constructor
  · rintro ⟨r, h⟩
    by_contra hc
    unfold addMonths at h
    dsimp only at h
    rw [if_neg hc] at h
    cases h
  · intro h
    exact ⟨_, addMonths_ok t k h⟩

/-- In January one more month can be added than in February. -/
example : (∃ r, addMonths 0 2147483646 = .ok r) ∧ ¬ (∃ r, addMonths (31 * 86400) 2147483646 = .ok r) := by
  rw [C60_defined_iff, C60_defined_iff]
  decide

/-- **C60**. Calendar meaning: the result has the same day of the month in the target month if that day exists there;
otherwise the surplus days run into the following month. -/
theorem C60_calendar (t k : ℤ) (hk : SmallMonths k) (y m : ℤ)
    (hym : (y, m) = shiftMonth (toCivil t).year (toCivil t).month k) :
    ∃ r, addMonths t k = .ok r ∧
      dateOf (toCivil r) =
        if (toCivil t).day ≤ monthLength y m then ⟨y, m, (toCivil t).day⟩
        else ⟨(shiftMonth y m 1).1, (shiftMonth y m 1).2, (toCivil t).day - monthLength y m⟩ := by
  refine ⟨_, addMonths_small t hk, ?_⟩
  have hd1 := (toCivil_valid t).day_pos
  have hd2 := (toCivil_valid t).day_le
  have hb2 := (monthLength_bounds (dateOf (toCivil t)).year (dateOf (toCivil t)).month).2
  simp only [dateOf] at hd1 hd2 hb2
  have hd : (toCivil t).day ≤ 31 := by omega
  clear hd2 hb2
  generalize (toCivil t).day = d at *
  simp only [toCivil, shiftMonth, Prod.mk.injEq] at hym
  obtain ⟨hy, hm⟩ := hym
  generalize hn : monthOf (t / 86400) = n at *
  have hy' : y = (n + k) / 12 := by rw [hy]; congr 1; omega
  have hm' : m = (n + k) % 12 + 1 := by rw [hm]; congr 2; omega
  have hstep := monthStart_step (n + k)
  rw [← hy', ← hm'] at hstep
  simp only [dateOf, toCivil]
  rw [show ((monthStart (n + k) + d - 1) * 86400 + t % 86400) / 86400 = monthStart (n + k) + d - 1 by omega]
  split
  · next hle =>
    rw [monthOf_unique (z := monthStart (n + k) + d - 1) (n := n + k) (by omega) (by omega)]
    simp only [Date.mk.injEq]
    omega
  · next hgt =>
    have hb := monthLength_bounds y m
    have hstep2 := monthStart_lt (n + k + 1)
    rw [monthOf_unique (z := monthStart (n + k) + d - 1) (n := n + k + 1) (by omega) (by omega)]
    simp only [Date.mk.injEq, shiftMonth]
    refine ⟨?_, ?_, ?_⟩
    · omega
    · omega
    · omega

/-- **C60**. Adding months is additive as long as the day of the month is at most 28. -/
theorem C60_additive (t j k : ℤ) (hj : SmallMonths j) (hk : SmallMonths k) (hjk : SmallMonths (j + k))
    (hd : (toCivil t).day ≤ 28) :
    ∃ r, addMonths t j = .ok r ∧ addMonths r k = addMonths t (j + k) := by
  refine ⟨_, addMonths_small t hj, ?_⟩
  rw [addMonths_small _ hk, addMonths_small _ hjk]
  have hd1 := (toCivil_valid t).day_pos
  simp only [dateOf] at hd1
  generalize hdd : (toCivil t).day = d at *
  generalize hn : monthOf (t / 86400) = n at *
  have h1 : ((monthStart (n + j) + d - 1) * 86400 + t % 86400) / 86400 = monthStart (n + j) + d - 1 := by omega
  have h2 : ((monthStart (n + j) + d - 1) * 86400 + t % 86400) % 86400 = t % 86400 := by omega
  have hm : monthOf (monthStart (n + j) + d - 1) = n + j :=
    monthOf_unique (by omega) (by have := monthStart_lt (n + j); omega)
  have hday : (toCivil ((monthStart (n + j) + d - 1) * 86400 + t % 86400)).day = d := by
    simp only [toCivil]; rw [h1, hm]; omega
  rw [hday, h1, h2, hm, add_assoc]

/-- **C60**. In general adding months is not additive: January 31 + 1 month + 1 month is April 3 in a common year,
January 31 + 2 months is March 31. -/
theorem C60_not_additive :
    dateOf (toCivil 1612051200) = ⟨2021, 1, 31⟩ ∧
    ((do addMonths (← addMonths 1612051200 1) 1).map (fun r => dateOf (toCivil r))).toOption = some ⟨2021, 4, 3⟩ ∧
    ((addMonths 1612051200 2).map (fun r => dateOf (toCivil r))).toOption = some ⟨2021, 3, 31⟩ := by decide

/-- Non-vacuity: 2016-01-01 plus 12 months is 2017-01-01; 2020-02-29 plus 12 months is 2021-03-01. -/
example : (addMonths 1451606400 12).toOption = some 1483228800 ∧
    ((addMonths 1582934400 12).map (fun r => dateOf (toCivil r))).toOption = some ⟨2021, 3, 1⟩ ∧ SmallMonths 12 := by
  refine ⟨by decide, by decide, ?_⟩; unfold SmallMonths; omega

end Verif.Props
