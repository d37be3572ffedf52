import Verif.Props.Units
import Verif.Props.Shift
import Verif.Props.Pipeline

/-!
# C110, C111 for the conversion: units and times of price histories
-/

set_option linter.unusedSectionVars false

namespace Verif.Spec
/-- A price record with its price in another unit of quote currency and its volume in another unit of base currency. -/
def Units.price {K : Type} [Mul K] (c v : K) (r : PriceRecord K) : PriceRecord K := { ts := r.ts, price := c * r.price, volume := v * r.volume }

/-- A tick with its prices in another unit of quote currency and its volume in another unit of base currency. -/
def Units.tick₂ {K : Type} [Mul K] (c v : K) (t : OhlcTick K) : OhlcTick K :=
  { ts := t.ts, opn := c * t.opn, high := c * t.high, low := c * t.low, close := c * t.close, volume := v * t.volume }

/-- A price record, `d` seconds later. -/
def Shift.price {F : Type} (d : ℤ) (r : PriceRecord F) : PriceRecord F := { ts := r.ts + d, price := r.price, volume := r.volume }
end Verif.Spec

namespace Verif.Props.ConvertInvariance
open FloatOps Spec

section general
variable {F : Type} [FloatOps F]

/-- A change of records and ticks that resampling cannot see. -/
structure Change (d rate : ℤ) (φ ψ : F → F) : Prop where
  max : ∀ a b, fmax (φ a) (φ b) = φ (fmax a b)
  min : ∀ a b, fmin (φ a) (φ b) = φ (fmin a b)
  add : ∀ a b, ψ a +. ψ b = ψ (a +. b)
  zero : ψ (lit F 0) = lit F 0

/-- The changed record. -/
def rec (d : ℤ) (φ ψ : F → F) (r : PriceRecord F) : PriceRecord F := { ts := r.ts + d, price := φ r.price, volume := ψ r.volume }
/-- The changed tick. -/
def tck (d : ℤ) (φ ψ : F → F) (t : OhlcTick F) : OhlcTick F :=
  { ts := t.ts + d, opn := φ t.opn, high := φ t.high, low := φ t.low, close := φ t.close, volume := ψ t.volume }

variable {d rate : ℤ} {φ ψ : F → F}

theorem fillGaps_yes {rate target : ℤ} {last : OhlcTick F} {rest : List (OhlcTick F)} (h : 0 < rate ∧ last.ts + rate < target) :
    fillGaps rate target (last :: rest) = fillGaps rate target (flatTick (last.ts + rate) last.close :: last :: rest) := by
  rw [fillGaps, dif_pos h]

theorem fillGaps_no {rate target : ℤ} {last : OhlcTick F} {rest : List (OhlcTick F)} (h : ¬ (0 < rate ∧ last.ts + rate < target)) :
    fillGaps rate target (last :: rest) = last :: rest := by
  rw [fillGaps, dif_neg h]

theorem fillGaps_map (h : Change d rate φ ψ) (target : ℤ) (n : ℕ) :
    ∀ l : List (OhlcTick F), (target - (match l with | [] => 0 | t :: _ => t.ts)).toNat ≤ n →
      fillGaps rate (target + d) (l.map (tck d φ ψ)) = (fillGaps rate target l).map (tck d φ ψ) := by
  induction n with
  | zero =>
    intro l hl
    cases l with
    | nil => rw [List.map_nil, fillGaps, fillGaps]; rfl
    | cons last rest =>
      dsimp only at hl
      rw [List.map_cons, fillGaps_no (by simp only [tck]; omega), fillGaps_no (by omega)]; rfl
  | succ n ih =>
    intro l hl
    cases l with
    | nil => rw [List.map_nil, fillGaps, fillGaps]; rfl
    | cons last rest =>
      dsimp only at hl
      rw [List.map_cons]
      by_cases c : 0 < rate ∧ last.ts + rate < target
      · rw [fillGaps_yes c, fillGaps_yes (by simp only [tck]; omega), ← ih _ (by simp only [flatTick]; omega)]
        congr 1
        simp only [List.map_cons, flatTick, tck, h.zero]
        congr 2
        omega
      · rw [fillGaps_no c, fillGaps_no (by simp only [tck]; omega)]; rfl

/-- The period of a changed record. -/
def Aligned (d rate : ℤ) (r : PriceRecord F) : Prop := rate * ((r.ts + d).tdiv rate) = rate * (r.ts.tdiv rate) + d

theorem resampleStep_map (h : Change d rate φ ψ) (acc : List (OhlcTick F)) (r : PriceRecord F) (hr : Aligned d rate r) :
    resampleStep rate (acc.map (tck d φ ψ)) (rec d φ ψ r) = (resampleStep rate acc r).map (List.map (tck d φ ψ)) := by
  unfold resampleStep
  have e : rate * ((rec d φ ψ r).ts.tdiv rate) = rate * (r.ts.tdiv rate) + d := hr
  simp only [e]
  rw [fillGaps_map h _ _ acc (le_refl _)]
  cases fillGaps rate (rate * (r.ts.tdiv rate)) acc with
  | nil => rfl
  | cons last rest =>
    simp only [List.map_cons]
    by_cases c : last.ts < rate * (r.ts.tdiv rate)
    · rw [if_pos c, if_pos (by simp only [tck]; omega)]; rfl
    · rw [if_neg c, if_neg (by simp only [tck]; omega)]
      have e2 : ((tck d φ ψ last).ts = rate * (r.ts.tdiv rate) + d) ↔ last.ts = rate * (r.ts.tdiv rate) := by simp only [tck]; omega
      simp only [e2, assertThat, bind, Except.bind, pure, Except.pure]
      split
      · rfl
      · simp only [Except.map, tck, rec, h.max, h.min, h.add, List.map_cons]

theorem resample_map (h : Change d rate φ ψ) (l : List (PriceRecord F)) (hl : ∀ r ∈ l, Aligned d rate r) :
    resample rate (l.map (rec d φ ψ)) = (resample rate l).map (List.map (tck d φ ψ)) := by
  have key : ∀ (l : List (PriceRecord F)) (acc : List (OhlcTick F)), (∀ r ∈ l, Aligned d rate r) →
      (l.map (rec d φ ψ)).foldlM (resampleStep rate) (acc.map (tck d φ ψ)) = (l.foldlM (resampleStep rate) acc).map (List.map (tck d φ ψ)) := by
    intro l
    induction l with
    | nil => intros; rfl
    | cons r l ih =>
      intro acc hl
      simp only [List.map_cons, List.foldlM_cons, bind, Except.bind]
      rw [resampleStep_map h acc r (hl r (by simp))]
      cases resampleStep rate acc r with
      | error e => rfl
      | ok a => exact ih a (fun x hx => hl x (by simp [hx]))
  unfold resample
  simp only [bind, Except.bind, pure, Except.pure]
  have := key l [] hl
  rw [List.map_nil] at this
  rw [this]
  cases l.foldlM (resampleStep rate) [] with
  | error e => rfl
  | ok a => simp only [Except.map, List.map_reverse]

variable [Libm F]

/-- A change of records that the removal of outliers cannot see. -/
theorem removeFrom_map {f : PriceRecord F → PriceRecord F} {maxDev : F} (hbad : ∀ r, (f r).bad = r.bad)
    (hout : ∀ p r rest, isOutlier maxDev (f p) (f r) (List.map f rest) = isOutlier maxDev p r rest) (l : List (PriceRecord F)) :
    ∀ (idx : ℕ) (prev : Option (PriceRecord F)), removeOutliersFrom maxDev idx (prev.map f) (l.map f) =
      ((removeOutliersFrom maxDev idx prev l).1.map f, (removeOutliersFrom maxDev idx prev l).2) := by
  induction l with
  | nil => intros; rfl
  | cons r rest ih =>
    intro idx prev
    have ihn := ih (idx + 1) none
    have ihs := fun x => ih (idx + 1) (some x)
    simp only [Option.map_none, Option.map_some] at ihn ihs
    cases prev with
    | none =>
      simp only [List.map_cons, Option.map_none, removeOutliersFrom, hbad, ihn, ihs]
      split <;> rfl
    | some p =>
      simp only [List.map_cons, Option.map_some, removeOutliersFrom, hbad, hout, ihs]
      split
      · rfl
      · split <;> rfl

theorem removeOutliers_map {f : PriceRecord F → PriceRecord F} {maxDev : F} (hbad : ∀ r, (f r).bad = r.bad)
    (hout : ∀ p r rest, isOutlier maxDev (f p) (f r) (List.map f rest) = isOutlier maxDev p r rest) (l : List (PriceRecord F)) :
    removeOutliers maxDev (l.map f) = ((removeOutliers maxDev l).1.map f, (removeOutliers maxDev l).2) :=
  removeFrom_map hbad hout l 0 none

theorem lookahead_map {f : PriceRecord F → PriceRecord F} (hbad : ∀ r, (f r).bad = r.bad) {up down : Bool} {u d u' d' : F}
    (hu : ∀ r : PriceRecord F, ((f r).price >. u') = (r.price >. u)) (hd : ∀ r : PriceRecord F, ((f r).price <. d') = (r.price <. d))
    (l : List (PriceRecord F)) : ∀ n, lookaheadPersistent up down u' d' n (l.map f) = lookaheadPersistent up down u d n l := by
  induction l with
  | nil => intros; rfl
  | cons r rest ih =>
    intro n
    cases n with
    | zero => rfl
    | succ n => simp only [List.map_cons, lookaheadPersistent, hbad, hu, hd, ih]

/-- **C111** (outliers). Moved by any number of seconds, a price history loses the same records: those at the same positions. -/
theorem C111_outliers (d : ℤ) (maxDev : F) (l : List (PriceRecord F)) :
    removeOutliers maxDev (l.map (Shift.price d)) = ((removeOutliers maxDev l).1.map (Shift.price d), (removeOutliers maxDev l).2) := by
  refine removeOutliers_map (f := Shift.price d) (fun _ => rfl) (fun p r rest => ?_) l
  have e : (Shift.price d r).ts - (Shift.price d p).ts = r.ts - p.ts := by simp only [Shift.price]; omega
  unfold isOutlier
  simp only [e]
  have h := fun up down u d' => lookahead_map (f := Shift.price (F := F) d) (fun _ => rfl) (up := up) (down := down) (u := u) (d := d') (u' := u) (d' := d')
    (fun _ => rfl) (fun _ => rfl) rest 10
  simp only [h]
  rfl

/-- **C111** (conversion). Moved by a multiple of the sampling rate, a price history with positive times is converted to the same ticks at times moved by as
much, or to the same abort; for every arithmetic. -/
theorem C111_conversion (d rate : ℤ) (hrate : 0 < rate) (hd : rate ∣ d) (fmt : Format F) (maxDev : F) (lastN : ℤ) (l : List (PriceRecord F))
    (hl : ∀ r ∈ l, 0 ≤ r.ts ∧ 0 ≤ r.ts + d) :
    (Convert.convertPriceHistory fmt maxDev rate lastN (l.map (Shift.price d))).map Prod.snd =
      ((Convert.convertPriceHistory fmt maxDev rate lastN l).map Prod.snd).map (List.map (Shift.tick d)) := by
  rw [convert_eq _ _ _ hrate.ne', convert_eq _ _ _ hrate.ne', C111_outliers]
  refine resample_map (φ := id) (ψ := id) ⟨fun _ _ => rfl, fun _ _ => rfl, fun _ _ => rfl, rfl⟩ _ ?_
  intro r hr
  obtain ⟨h1, h2⟩ := hl r ((C20_partition maxDev l).2.2.2.1.subset hr)
  unfold Aligned
  rw [Int.tdiv_eq_ediv_of_nonneg h2, Int.tdiv_eq_ediv_of_nonneg h1]
  obtain ⟨k, rfl⟩ := hd
  rw [Int.add_mul_ediv_left _ _ hrate.ne', mul_add]

end general

section exact
variable {K : Type} [Field K] [LinearOrder K] [IsStrictOrderedRing K] [FloorRing K] [Libm K]

theorem bad_scale {c v : K} (hc : 0 < c) (hv : 0 < v) (r : PriceRecord K) : (Units.price c v r).bad = r.bad := by
  unfold PriceRecord.bad Units.price
  have h1 : c * r.price ≤ 0 ↔ r.price ≤ 0 := by
    constructor
    · intro h; by_contra hp; have := mul_pos hc (not_le.mp hp); linarith
    · intro h; exact mul_nonpos_of_nonneg_of_nonpos hc.le h
  have h2 : v * r.volume < 0 ↔ r.volume < 0 := by
    constructor
    · intro h; by_contra hp; have := mul_nonneg hv.le (not_lt.mp hp); linarith
    · intro h; exact mul_neg_of_pos_of_neg hv h
  simp [lit, h1, h2]

/-- **C110** (outliers). With prices and volumes in other units a price history loses the same records. -/
theorem C110_outliers (c v : K) (hc : 0 < c) (hv : 0 < v) (maxDev : K) (l : List (PriceRecord K)) :
    removeOutliers maxDev (l.map (Units.price c v)) = ((removeOutliers maxDev l).1.map (Units.price c v), (removeOutliers maxDev l).2) := by
  have hlt : ∀ a b : K, decide (c * a < c * b) = decide (a < b) := by
    intro a b; simp only [mul_lt_mul_iff_right₀ hc]
  refine removeOutliers_map (bad_scale hc hv) (fun p r rest => ?_) l
  unfold isOutlier
  have e : (Units.price c v r).ts - (Units.price c v p).ts = r.ts - p.ts := rfl
  simp only [e]
  generalize jumpFactor maxDev (r.ts - p.ts) = fac
  have e1 : (Units.price c v p).price *. fac = c * (p.price *. fac) := by simp only [Units.price, ex_mul]; ring
  have e2 : (Units.price c v p).price /. fac = c * (p.price /. fac) := by simp only [Units.price, ex_div]; ring
  have e3 : ∀ x : K, lit K (4 / 5) *. (c * x) +. lit K (1 / 5) *. (Units.price c v p).price = c * (lit K (4 / 5) *. x +. lit K (1 / 5) *. p.price) := by
    intro x; simp only [Units.price, ex_mul, ex_add]; ring
  have hp : (Units.price c v r).price = c * r.price := rfl
  simp only [e1, e2, e3, hp, ex_lt, hlt]
  have h := fun up down u d => lookahead_map (f := Units.price c v) (bad_scale hc hv) (up := up) (down := down) (u := u) (d := d) (u' := c * u)
    (d' := c * d) (fun x => hlt _ _) (fun x => hlt _ _) rest 10
  simp only [h]

/-- **C110** (conversion). With prices and volumes in other units a price history is converted to the same ticks in these units, or to the same abort. -/
theorem C110_conversion (c v : K) (hc : 0 < c) (hv : 0 < v) (fmt : Format K) (maxDev : K) (rate : ℤ) (hrate : rate ≠ 0) (lastN : ℤ)
    (l : List (PriceRecord K)) :
    (Convert.convertPriceHistory fmt maxDev rate lastN (l.map (Units.price c v))).map Prod.snd =
      ((Convert.convertPriceHistory fmt maxDev rate lastN l).map Prod.snd).map (List.map (Units.tick₂ c v)) := by
  rw [convert_eq _ _ _ hrate, convert_eq _ _ _ hrate, C110_outliers c v hc hv]
  have h := resample_map (d := 0) (rate := rate) (φ := fun x : K => c * x) (ψ := fun x : K => v * x)
    ⟨fun a b => Verif.Units.max_scale hc a b, fun a b => Verif.Units.min_scale hc a b, fun a b => (mul_add v a b).symm, by simp [lit]⟩
    (removeOutliers maxDev l).1 (fun r _ => by unfold Aligned; simp)
  have f1 : rec 0 (fun x : K => c * x) (fun x : K => v * x) = Units.price c v := by
    funext r; simp only [rec, Units.price, add_zero]
  have f2 : tck 0 (fun x : K => c * x) (fun x : K => v * x) = Units.tick₂ c v := by
    funext r; simp only [tck, Units.tick₂, add_zero]
  rw [f1, f2] at h
  exact h

end exact

/-! ## Non-vacuity -/

section examples
attribute [local instance] evLibm

/-- A spike among ordinary prices. -/
def sample : List (PriceRecord ℚ) := [⟨300, 100, 1⟩, ⟨360, 500, 2⟩, ⟨420, 101, 1⟩, ⟨990, 102, 3⟩, ⟨1000, -1, 1⟩]

/-- In cents and in thousandths of the base currency, the same records are dropped. -/
example : (removeOutliers (1 / 20) sample).2 = [1, 4] ∧ (removeOutliers (1 / 20) (sample.map (Units.price 100 1000))).2 = [1, 4] ∧
    (removeOutliers (1 / 20) (sample.map (Shift.price 12345))).2 = [1, 4] := by
  refine ⟨by decide +kernel, ?_, ?_⟩
  · rw [C110_outliers 100 1000 (by norm_num) (by norm_num)]; decide +kernel
  · rw [C111_outliers]; decide +kernel

example (fmt : Format ℚ) := C110_conversion 100 1000 (by norm_num) (by norm_num) fmt (1 / 20) 300 (by decide) 5 sample
example (fmt : Format ℚ) := C111_conversion 86400 300 (by decide) (by decide) fmt (1 / 20) 5 sample (by decide)

end examples

section limit
attribute [local instance] evLibm

/-- **C111** (conversion, the limit). Moved by less than the sampling rate a history is converted to other ticks: here two instead of one. -/
theorem C111_needs_alignment (fmt : Format ℚ) :
    let l : List (PriceRecord ℚ) := [⟨100, 10, 1⟩, ⟨110, 10, 1⟩]
    (Convert.convertPriceHistory fmt (1 / 20) 60 0 l).map Prod.snd = .ok [⟨60, 10, 10, 10, 10, 2⟩] ∧
    (Convert.convertPriceHistory fmt (1 / 20) 60 0 (l.map (Shift.price 15))).map Prod.snd =
      .ok [⟨60, 10, 10, 10, 10, 1⟩, ⟨120, 10, 10, 10, 10, 1⟩] := by
  intro l
  have h1 : (removeOutliers (1 / 20) l).1 = l := by decide +kernel
  constructor
  · rw [convert_eq _ _ _ (by decide), h1]
    simp [l, resample, resampleStep, fillGaps, bind, Except.bind, pure, Except.pure, assertThat]
    norm_num [fmax, fmin]
  · rw [convert_eq _ _ _ (by decide), C111_outliers, h1]
    simp [l, resample, resampleStep, fillGaps, Shift.price, bind, Except.bind, pure, Except.pure, assertThat]

end limit

end Verif.Props.ConvertInvariance
