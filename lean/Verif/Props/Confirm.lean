import Verif.Props.Locality
import Verif.Props.TwoRates
import Verif.Props.Append

/-!
# C129: a later evaluation confirms an earlier one
-/

set_option linter.unusedSectionVars false

namespace Verif.Props.Confirm
open Verif FloatOps Spec Time Verif.Props

theorem forall₂_split {α β : Type} {R : α → β → Prop} {a b : List α} {c : List β} (h : List.Forall₂ R (a ++ b) c) :
    ∃ c₁ c₂, c = c₁ ++ c₂ ∧ List.Forall₂ R a c₁ ∧ List.Forall₂ R b c₂ := by
  induction a generalizing c with
  | nil => exact ⟨[], c, rfl, .nil, h⟩
  | cons x a ih =>
    cases h with
    | cons h1 h2 =>
      obtain ⟨c₁, c₂, rfl, h3, h4⟩ := ih h2
      exact ⟨_ :: c₁, c₂, rfl, .cons h1 h3, h4⟩

theorem forall₂_right {α β : Type} {R : α → β → Prop} {a : List α} {b : List β} (h : List.Forall₂ R a b) {y : β} (hy : y ∈ b) :
    ∃ x ∈ a, R x y := by
  induction h with
  | nil => cases hy
  | cons h1 _ ih =>
    rcases List.mem_cons.mp hy with rfl | hy
    · exact ⟨_, by simp, h1⟩
    · obtain ⟨x, hx, hxy⟩ := ih hy
      exact ⟨x, by simp [hx], hxy⟩

section
variable {F D : Type} [FloatOps F] [FloatOps D] [Wide F D] [Libm F] [Libm D]

/-- The evaluation with another history, another side input and another end. -/
def later (i : EvalInputs F) (history : List (OhlcTick F)) (side : Option (SideInput F)) (stop : ℤ) : EvalInputs F :=
  { i with history := history, side := side, cfg := { i.cfg with stop := stop } }

/-- The later evaluation begins with the periods of the earlier one. -/
theorem split_later (i : EvalInputs F) (history : List (OhlcTick F)) (side : Option (SideInput F)) (stop : ℤ)
    {recs recs' : Option (List (SideInputRecord F))} (hr : SideOf recs i.side) (hr' : SideOf recs' side)
    (hs' : SortedBy OhlcTick.ts history) (hm : 0 < i.cfg.months) (h0 : 0 ≤ i.cfg.start) (hstop : i.cfg.stop ≤ stop)
    (ht : windowTicks history i.cfg.start i.cfg.stop = windowTicks i.history i.cfg.start i.cfg.stop)
    (hsg : ∀ t ∈ windowTicks history i.cfg.start i.cfg.stop, signalsAt recs t.ts = signalsAt recs' t.ts) (log : Bool) {r' : EvaluationResult F}
    {K : ℕ} (hK : ∀ k, k < K ↔ windowStop i.cfg k ≤ i.cfg.stop)
    (h' : (evaluateTrader (D := D) (later i history side stop) log).out = .ok r') :
    ∃ c₁ c₂, r'.periods = c₁ ++ c₂ ∧
      List.Forall₂ (fun k p => IsPeriod (D := D) i (windowStart i.cfg k) (windowStop i.cfg k) p)
        ((List.range K).filter (fun k => !(windowTicks i.history (windowStart i.cfg k) (windowStop i.cfg k)).isEmpty)) c₁ ∧
      (∀ p ∈ c₁, p.stop ≤ i.cfg.stop) ∧ (∀ p ∈ c₂, i.cfg.stop < p.stop) ∧
      ((List.range K).filter (fun k => !(windowTicks i.history (windowStart i.cfg k) (windowStop i.cfg k)).isEmpty)).flatMap (fun k =>
          (executeTrader (D := D) i.account (windowTicks i.history (windowStart i.cfg k) (windowStop i.cfg k)) i.side i.cfg.fast i.emitter.trader i.emitter.init
            log).trace) <+: (evaluateTrader (D := D) (later i history side stop) log).trace := by
  obtain ⟨K', hK', hF', hT'⟩ := C35_periods (later i history side stop) hs' hm log h'
  have hKK : K ≤ K' := by
    by_contra hlt
    have h1 := (hK K').mp (by omega)
    have h2 := (hK' K').mpr (le_trans h1 hstop)
    omega
  obtain ⟨n, rfl⟩ := Nat.exists_eq_add_of_le hKK
  -- the windows of the earlier evaluation have the same ticks
  have hwin : ∀ k < K, ∀ t, InWindow (windowStart i.cfg k) (windowStop i.cfg k) t → InWindow i.cfg.start i.cfg.stop t := by
    intro k hk t h
    obtain ⟨w1, w2⟩ := window_lower i.cfg hm k
    have w3 := plusMonths_mono i.cfg.start (show (0 : ℤ) ≤ k by omega)
    rw [plusMonths_zero] at w3
    have w4 := (hK k).mp hk
    change i.cfg.start + 28 * 86400 * ((k : ℤ) - 0) ≤ windowStart i.cfg k at w3
    exact ⟨fun h3 => by have := h.1 (by omega); omega, fun h3 => by have := h.2 (by omega); omega⟩
  have hticks : ∀ k < K, windowTicks history (windowStart i.cfg k) (windowStop i.cfg k) = windowTicks i.history (windowStart i.cfg k) (windowStop i.cfg k) :=
    fun k hk => windowTicks_shrink ht (hwin k hk)
  have hrun : ∀ k < K, ∀ log, executeTrader (D := D) i.account (windowTicks history (windowStart i.cfg k) (windowStop i.cfg k)) side i.cfg.fast i.emitter.trader i.emitter.init log =
      executeTrader (D := D) i.account (windowTicks i.history (windowStart i.cfg k) (windowStop i.cfg k)) i.side i.cfg.fast i.emitter.trader i.emitter.init log := by
    intro k hk log
    rw [← hticks k hk]
    refine (executeTrader_signals hr hr' _ _ (hs'.sublist List.filter_sublist) (fun t h => hsg t ?_) _ _ _ _).symm
    obtain ⟨h1, h2⟩ := List.mem_filter.mp h
    rw [decide_eq_true_eq] at h2
    exact List.mem_filter.mpr ⟨h1, by rw [decide_eq_true_eq]; exact hwin k hk _ h2⟩
  -- the later evaluation runs the same windows first
  have hsel : (List.range K).filter (fun k => !(windowTicks history (windowStart i.cfg k) (windowStop i.cfg k)).isEmpty) =
      (List.range K).filter (fun k => !(windowTicks i.history (windowStart i.cfg k) (windowStop i.cfg k)).isEmpty) :=
    List.filter_congr fun k hk => by rw [hticks k (List.mem_range.mp hk)]
  change List.Forall₂ (fun k p => IsPeriod (later i history side stop) (windowStart i.cfg k) (windowStop i.cfg k) p)
    ((List.range (K + n)).filter (fun k => !(windowTicks history (windowStart i.cfg k) (windowStop i.cfg k)).isEmpty)) r'.periods at hF'
  change _ = ((List.range (K + n)).filter (fun k => !(windowTicks history (windowStart i.cfg k) (windowStop i.cfg k)).isEmpty)).flatMap (fun k =>
    (executeTrader (D := D) i.account (windowTicks history (windowStart i.cfg k) (windowStop i.cfg k)) side i.cfg.fast i.emitter.trader i.emitter.init log).trace) at hT'
  rw [List.range_add, List.filter_append, hsel] at hF' hT'
  obtain ⟨c₁, c₂, e, h1, h2⟩ := forall₂_split hF'
  have hmem : ∀ k ∈ (List.range K).filter (fun k => !(windowTicks i.history (windowStart i.cfg k) (windowStop i.cfg k)).isEmpty), k < K :=
    fun k hk => List.mem_range.mp (List.mem_filter.mp hk).1
  have h1' : List.Forall₂ (fun k p => IsPeriod (D := D) i (windowStart i.cfg k) (windowStop i.cfg k) p)
      ((List.range K).filter (fun k => !(windowTicks i.history (windowStart i.cfg k) (windowStop i.cfg k)).isEmpty)) c₁ := by
    revert h1 hmem
    generalize (List.range K).filter (fun k => !(windowTicks i.history (windowStart i.cfg k) (windowStop i.cfg k)).isEmpty) = sel
    intro h1 hmem
    clear e h2 hF' hT' hsel
    induction h1 with
    | nil => exact .nil
    | @cons k q ks qs hq _ ih =>
      have hk := hmem k (by simp)
      exact .cons ⟨hq.start_eq, hq.stop_eq, by rw [← hrun k hk]; exact hq.result, hq.startValue, hq.startPrice, hq.endPrice, hq.finalGain, hq.baseFinalGain⟩
        (ih fun k hk => hmem k (by simp [hk]))
  refine ⟨c₁, c₂, e, h1', ?_, ?_, ?_⟩
  · intro p hp
    obtain ⟨k, hk, hkp⟩ := forall₂_right h1' hp
    have := hkp.stop_eq
    have := (hK k).mp (hmem k hk)
    omega
  · intro p hp
    obtain ⟨k, hk, hkp⟩ := forall₂_right h2 hp
    obtain ⟨hk, -⟩ := List.mem_filter.mp hk
    obtain ⟨m, -, rfl⟩ := List.mem_map.mp hk
    have h3 : ¬ windowStop i.cfg (K + m) ≤ i.cfg.stop := fun hle => absurd ((hK (K + m)).mpr hle) (by omega)
    have h4 := hkp.stop_eq
    omega
  · rw [hT', List.flatMap_append]
    have : ∀ sel : List ℕ, (∀ k ∈ sel, k < K) → sel.flatMap (fun k =>
        (executeTrader (D := D) i.account (windowTicks i.history (windowStart i.cfg k) (windowStop i.cfg k)) i.side i.cfg.fast i.emitter.trader i.emitter.init log).trace) =
        sel.flatMap (fun k =>
        (executeTrader (D := D) i.account (windowTicks history (windowStart i.cfg k) (windowStop i.cfg k)) side i.cfg.fast i.emitter.trader i.emitter.init log).trace) := by
      intro sel hsel
      induction sel with
      | nil => rfl
      | cons k sel ih => rw [List.flatMap_cons, List.flatMap_cons, ih fun k hk => hsel k (by simp [hk]), hrun k (hsel k (by simp))]
    rw [this _ hmem]
    exact List.prefix_append _ _

/-- **C129**. Evaluate a trader in periods, and later once more with a later end, on a history and a side input to which records have been added - any that agree with the old ones
on the earlier window.  If both evaluations succeed, the later one begins with exactly the periods of the earlier one, and with exactly the same calls and log rows; the periods it adds end
after the earlier end. -/
theorem C129_confirms (i : EvalInputs F) (history : List (OhlcTick F)) (side : Option (SideInput F)) (stop : ℤ)
    {recs recs' : Option (List (SideInputRecord F))} (hr : SideOf recs i.side) (hr' : SideOf recs' side)
    (hs : SortedBy OhlcTick.ts i.history) (hs' : SortedBy OhlcTick.ts history) (hm : 0 < i.cfg.months) (h0 : 0 ≤ i.cfg.start) (hstop : i.cfg.stop ≤ stop)
    (ht : windowTicks history i.cfg.start i.cfg.stop = windowTicks i.history i.cfg.start i.cfg.stop)
    (hsg : ∀ t ∈ windowTicks history i.cfg.start i.cfg.stop, signalsAt recs t.ts = signalsAt recs' t.ts) (log : Bool) {r r' : EvaluationResult F}
    (h : (evaluateTrader (D := D) i log).out = .ok r) (h' : (evaluateTrader (D := D) (later i history side stop) log).out = .ok r') :
    r.periods <+: r'.periods ∧ (∀ p ∈ r'.periods.drop r.periods.length, i.cfg.stop < p.stop) ∧
      (evaluateTrader (D := D) i log).trace <+: (evaluateTrader (D := D) (later i history side stop) log).trace := by
  obtain ⟨K, hK, hF, hT⟩ := C35_periods i hs hm log h
  obtain ⟨c₁, c₂, e, h1, -, h3, h4⟩ := split_later i history side stop hr hr' hs' hm h0 hstop ht hsg log hK h'
  have hsame : r.periods = c₁ := by
    revert hF h1
    generalize (List.range K).filter (fun k => !(windowTicks i.history (windowStart i.cfg k) (windowStop i.cfg k)).isEmpty) = sel
    generalize r.periods = ps
    intro hF h1
    clear e h4 hT
    induction hF generalizing c₁ with
    | nil => cases h1; rfl
    | @cons k p ks ps hp _ ih =>
      cases h1 with
      | @cons _ q _ qs hq hqs => rw [C35_local rfl rfl rfl rfl rfl hp hq, ih _ hqs]
  refine ⟨by rw [e, hsame]; exact List.prefix_append _ _, ?_, by rw [hT]; exact h4⟩
  rw [e, hsame, List.drop_left]
  exact h3

/-- **C129** (looking back). If the later evaluation succeeds, the earlier one reports exactly those periods of it that end in time; the only thing that can go wrong with it is the final
score of these periods. -/
theorem C129_looking_back (i : EvalInputs F) (history : List (OhlcTick F)) (side : Option (SideInput F)) (stop : ℤ)
    {recs recs' : Option (List (SideInputRecord F))} (hr : SideOf recs i.side) (hr' : SideOf recs' side)
    (hs : SortedBy OhlcTick.ts i.history) (hs' : SortedBy OhlcTick.ts history) (hm : 0 < i.cfg.months) (hsm : SmallMonths i.cfg.months)
    (hlen : i.cfg.stop - i.cfg.start ≤ 28 * 86400 * (2 ^ 31 - 14)) (h0 : 0 ≤ i.cfg.start) (hstop : i.cfg.stop ≤ stop)
    (ht : windowTicks history i.cfg.start i.cfg.stop = windowTicks i.history i.cfg.start i.cfg.stop)
    (hsg : ∀ t ∈ windowTicks history i.cfg.start i.cfg.stop, signalsAt recs t.ts = signalsAt recs' t.ts) (log : Bool) {r' : EvaluationResult F}
    (h' : (evaluateTrader (D := D) (later i history side stop) log).out = .ok r') :
    let inTime := r'.periods.filter fun p => decide (p.stop ≤ i.cfg.stop)
    (∃ r, (evaluateTrader (D := D) i log).out = .ok r ∧ r.periods = inTime) ∨
    ((evaluateTrader (D := D) i log).out = .error .assertion ∧
      ((lit D 0 <=. inTime.foldl (fun mul p => mul *. Wide.widen (p.finalGain /. p.baseFinalGain)) (lit D 1)) = false)) := by
  intro inTime
  obtain ⟨K, hK, -⟩ := C36_terminates i hs hm hsm hlen log
  obtain ⟨c₁, c₂, e, h1, h2, h3, -⟩ := split_later i history side stop hr hr' hs' hm h0 hstop ht hsg log hK h'
  have hin : inTime = c₁ := by
    show r'.periods.filter _ = c₁
    rw [e, List.filter_append, List.filter_eq_self.mpr fun p hp => by simpa using h2 p hp,
      List.filter_eq_nil_iff.mpr fun p hp => by have := h3 p hp; simpa using this, List.append_nil]
  rw [hin, C36_completes i hs hm hsm hlen log hK h1]
  exact C36_summary i c₁

/-- **C129** (added records). In particular when ticks and side records are appended that are not before the earlier end. -/
theorem C129_append (i : EvalInputs F) (more : List (OhlcTick F)) (side : Option (SideInput F)) (stop : ℤ)
    (hside : (i.side = none ∧ side = none) ∨ ∃ recs moreRecs, SideOf (some recs) i.side ∧ SideOf (some (recs ++ moreRecs)) side ∧
      ∀ s ∈ moreRecs, i.cfg.stop ≤ s.ts)
    (hs' : SortedBy OhlcTick.ts (i.history ++ more)) (hm : 0 < i.cfg.months) (h0 : 0 ≤ i.cfg.start) (h1 : 0 < i.cfg.stop) (hstop : i.cfg.stop ≤ stop)
    (hmore : ∀ t ∈ more, i.cfg.stop ≤ t.ts) (log : Bool) {r r' : EvaluationResult F}
    (h : (evaluateTrader (D := D) i log).out = .ok r) (h' : (evaluateTrader (D := D) (later i (i.history ++ more) side stop) log).out = .ok r') :
    r.periods <+: r'.periods ∧ (∀ p ∈ r'.periods.drop r.periods.length, i.cfg.stop < p.stop) ∧
      (evaluateTrader (D := D) i log).trace <+: (evaluateTrader (D := D) (later i (i.history ++ more) side stop) log).trace := by
  have hw : windowTicks (i.history ++ more) i.cfg.start i.cfg.stop = windowTicks i.history i.cfg.start i.cfg.stop := by
    unfold windowTicks
    rw [List.filter_append]
    have : more.filter (fun t => decide (InWindow i.cfg.start i.cfg.stop t.ts)) = [] := by
      rw [List.filter_eq_nil_iff]
      intro t ht hw
      rw [decide_eq_true_eq] at hw
      have := hw.2 h1
      have := hmore t ht
      omega
    rw [this, List.append_nil]
  have hs := (List.pairwise_append.mp hs').1
  rcases hside with ⟨hn, rfl⟩ | ⟨recs, moreRecs, hr, hr', hmoreRecs⟩
  · exact C129_confirms i _ none stop (by rw [hn]; exact .none) .none hs hs' hm h0 hstop hw (fun _ _ => rfl) log h h'
  · refine C129_confirms i _ side stop hr hr' hs hs' hm h0 hstop hw ?_ log h h'
    intro t ht
    obtain ⟨-, hw⟩ := List.mem_filter.mp ht
    rw [decide_eq_true_eq] at hw
    have hlt := hw.2 h1
    have : moreRecs.filter (fun r => decide (r.ts ≤ t.ts)) = [] := by
      rw [List.filter_eq_nil_iff]
      intro s hs hle
      rw [decide_eq_true_eq] at hle
      have := hmoreRecs s hs
      omega
    unfold signalsAt known
    simp only [Option.getD_some, List.filter_append, this, List.append_nil]

/-- **C129** (both programs). Convert a price history and evaluate a trader on the result; later convert the same records with more appended and evaluate again with a later end.  If
the earlier evaluation ends no later than the last settled tick does - the last but one that comes from kept records followed by 10 usable ones, see C113 -, then the later evaluation begins
with the periods of the earlier one. -/
theorem C129_converted (fmt : Format F) (maxDev : F) (rate lastN : ℤ) (hrate : 0 < rate) (l more : List (PriceRecord F))
    (hs : SortedBy PriceRecord.ts (l ++ more)) (hp : ∀ r ∈ l ++ more, 0 ≤ r.ts) (n : ℕ) (hn : 10 ≤ ((l.drop n).filter usable).length)
    {lines lines' : List Text} {old new common : List (OhlcTick F)}
    (c1 : Convert.convertPriceHistory fmt maxDev rate lastN l = .ok (lines, old))
    (c2 : Convert.convertPriceHistory fmt maxDev rate lastN (l ++ more) = .ok (lines', new))
    (c3 : resample rate (keepOutside (l.take n) (removeOutliers maxDev l).2) = .ok common) (settled : OhlcTick F) (hset : common.dropLast.getLast? = some settled)
    (i : EvalInputs F) (hi : i.history = old) (hside : i.side = none) (hm : 0 < i.cfg.months) (h0 : 0 ≤ i.cfg.start) (h1 : 0 < i.cfg.stop)
    (hend : i.cfg.stop ≤ settled.ts + rate) (stop : ℤ) (hstop : i.cfg.stop ≤ stop) (log : Bool) {r r' : EvaluationResult F}
    (h : (evaluateTrader (D := D) i log).out = .ok r) (h' : (evaluateTrader (D := D) (later i new none stop) log).out = .ok r') :
    r.periods <+: r'.periods ∧ (∀ p ∈ r'.periods.drop r.periods.length, i.cfg.stop < p.stop) ∧
      (evaluateTrader (D := D) i log).trace <+: (evaluateTrader (D := D) (later i new none stop) log).trace := by
  obtain ⟨common', e3, p1, p2⟩ := Append.C113_conversion fmt maxDev rate lastN l more n hn c1 c2
  obtain rfl : common' = common := Except.ok.inj (e3.symm.trans c3)
  have r1 := (convert_iff fmt maxDev rate (by omega) lastN l old).mp ⟨_, c1⟩
  have r2 := (convert_iff fmt maxDev rate (by omega) lastN (l ++ more) new).mp ⟨_, c2⟩
  have sub1 := (C20_partition maxDev l).2.2.2.1
  have sub2 := (C20_partition maxDev (l ++ more)).2.2.2.1
  have s1 := TwoRates.fine_steps hrate ((List.pairwise_append.mp hs).1.sublist sub1) (fun x hx => hp x (List.mem_append_left _ (sub1.subset hx))) r1
  have s2 := TwoRates.fine_steps hrate (hs.sublist sub2) (fun x hx => hp x (sub2.subset hx)) r2
  have hsorted : ∀ {out : List (OhlcTick F)}, out.Pairwise (fun a b => a.ts + rate ≤ b.ts) → SortedBy OhlcTick.ts out :=
    fun h => h.imp fun h => by omega
  have hmem := List.mem_of_getLast? hset
  have key : ∀ {out : List (OhlcTick F)}, common'.dropLast <+: out → out.Pairwise (fun a b => a.ts + rate ≤ b.ts) →
      windowTicks out i.cfg.start i.cfg.stop = windowTicks common'.dropLast i.cfg.start i.cfg.stop := by
    rintro out ⟨rest, rfl⟩ hst
    unfold windowTicks
    rw [List.filter_append]
    have : rest.filter (fun t => decide (InWindow i.cfg.start i.cfg.stop t.ts)) = [] := by
      rw [List.filter_eq_nil_iff]
      intro t ht hw
      rw [decide_eq_true_eq] at hw
      have := hw.2 h1
      have := (List.pairwise_append.mp hst).2.2 settled hmem t ht
      omega
    rw [this, List.append_nil]
  subst hi
  exact C129_confirms i new none stop (by rw [hside]; exact .none) .none (hsorted s1) (hsorted s2) hm h0 hstop ((key p2 s2).trans (key p1 s1).symm)
    (fun _ _ => rfl) log h h'

end

section examples
attribute [local instance] evLibm

/-- The example evaluation as it was made in February 2020, when only the first two ticks were known. -/
def cfEarly : EvalInputs ℚ := { evInputs with history := evTicks.take 2, cfg := { evInputs.cfg with stop := 1580515200 } }

theorem cfEarly_later : later cfEarly evTicks none 1585785600 = evInputs := rfl

theorem cf_sorted : SortedBy OhlcTick.ts cfEarly.history ∧ SortedBy OhlcTick.ts evTicks := by
  constructor <;> (unfold SortedBy; decide +kernel)

theorem cf_later : ∃ r, (evaluateTrader (D := ℚ) evInputs true).out = .ok r ∧ r.periods = evPeriods := by
  rw [evOut true]
  obtain ⟨r, h, hp⟩ | ⟨-, hf⟩ := C36_summary (D := ℚ) evInputs evPeriods
  · exact ⟨r, h, hp⟩
  · exact absurd hf (by decide +kernel)

/-- The earlier evaluation reports January alone, the later one January and March. -/
example : ∃ r r', (evaluateTrader (D := ℚ) cfEarly true).out = .ok r ∧ (evaluateTrader (D := ℚ) evInputs true).out = .ok r' ∧
    r.periods = evPeriods.take 1 ∧ r'.periods = evPeriods ∧ r.periods <+: r'.periods := by
  obtain ⟨r', h', hp'⟩ := cf_later
  rw [← cfEarly_later] at h'
  have hback := C129_looking_back (D := ℚ) cfEarly evTicks none 1585785600 .none .none cf_sorted.1 cf_sorted.2 (by decide) (by unfold SmallMonths; decide)
    (by decide) (by decide) (by decide) (by decide +kernel) (fun _ _ => rfl) true h'
  rw [hp'] at hback
  rcases hback with ⟨r, h, hp⟩ | ⟨-, hf⟩
  · refine ⟨r, r', h, h', hp.trans (by decide +kernel), hp', ?_⟩
    exact (C129_append (D := ℚ) cfEarly (evTicks.drop 2) none 1585785600 (.inl ⟨rfl, rfl⟩) cf_sorted.2 (by decide) (by decide) (by decide) (by decide)
      (by decide +kernel) true h h').1
  · exact absurd hf (by decide +kernel)

/-- With a side input: one record in January, later another one in March. -/
def cfSided : EvalInputs ℚ := { cfEarly with side := some ⟨1, [1577836800], [7]⟩ }

example {r r' : EvaluationResult ℚ} (h : (evaluateTrader (D := ℚ) cfSided true).out = .ok r)
    (h' : (evaluateTrader (D := ℚ) (later cfSided evTicks (some ⟨1, [1577836800, 1583100000], [7, 9]⟩) 1585785600) true).out = .ok r') :=
  C129_append (D := ℚ) cfSided (evTicks.drop 2) (some ⟨1, [1577836800, 1583100000], [7, 9]⟩) 1585785600
    (.inr ⟨[⟨1577836800, [7]⟩], [⟨1583100000, [9]⟩], .some _ _ rfl, .some _ _ rfl, by decide⟩) cf_sorted.2 (by decide) (by decide) (by decide) (by decide)
    (by decide +kernel) true h h'

/-- Both of these evaluations succeed. -/
example : ((evaluateTrader (D := ℚ) cfSided true).out.toOption.map fun r => r.periods.length) = some 1 ∧
    ((evaluateTrader (D := ℚ) (later cfSided evTicks (some ⟨1, [1577836800, 1583100000], [7, 9]⟩) 1585785600) true).out.toOption.map
      fun r => r.periods.length) = some 2 := by decide +kernel

/-- Prices every ten days from 2020-01-01, then ten quick ones on 2020-02-20. -/
def cfPrices : List (PriceRecord ℚ) :=
  [⟨1577836800, 10, 5⟩, ⟨1578700800, 11, 5⟩, ⟨1579564800, 10, 5⟩, ⟨1580428800, 10, 5⟩, ⟨1581292800, 10, 5⟩] ++
    (List.range 11).map fun k => ⟨1582156800 + k, 10, 5⟩
/-- Two prices in March and April. -/
def cfMore : List (PriceRecord ℚ) := [⟨1583100000, 10, 5⟩, ⟨1586000000, 9, 5⟩]
def cfOld : List (OhlcTick ℚ) := ((resample 864000 cfPrices).toOption).getD []
def cfNew : List (OhlcTick ℚ) := ((resample 864000 (cfPrices ++ cfMore)).toOption).getD []
/-- The first six records alone. -/
def cfCommon : List (OhlcTick ℚ) := ((resample 864000 (cfPrices.take 6)).toOption).getD []
def cfConv : EvalInputs ℚ := { evInputs with history := cfOld, cfg := { evInputs.cfg with stop := 1580515200 } }

/-- January, evaluated in February, is confirmed by the evaluation in April. -/
example (fmt : Format ℚ) : ∃ r r', (evaluateTrader (D := ℚ) cfConv true).out = .ok r ∧
    (evaluateTrader (D := ℚ) (later cfConv cfNew none 1585699200) true).out = .ok r' ∧
    r.periods.length = 1 ∧ r'.periods.length = 3 ∧ r.periods <+: r'.periods := by
  have e1 : (removeOutliers 10 cfPrices) = (cfPrices, []) := by decide +kernel
  have e2 : (removeOutliers 10 (cfPrices ++ cfMore)).1 = cfPrices ++ cfMore := by decide +kernel
  have r1 : resample 864000 cfPrices = .ok cfOld := by decide +kernel
  have r2 : resample 864000 (cfPrices ++ cfMore) = .ok cfNew := by decide +kernel
  obtain ⟨_, c1⟩ := (convert_iff fmt 10 864000 (by decide) 0 cfPrices cfOld).mpr (by rw [e1]; exact r1)
  obtain ⟨_, c2⟩ := (convert_iff fmt 10 864000 (by decide) 0 (cfPrices ++ cfMore) cfNew).mpr (by rw [e2]; exact r2)
  have o1 : ((evaluateTrader (D := ℚ) cfConv true).out.toOption.map fun r => r.periods.length) = some 1 := by decide +kernel
  have o2 : ((evaluateTrader (D := ℚ) (later cfConv cfNew none 1585699200) true).out.toOption.map fun r => r.periods.length) = some 3 := by decide +kernel
  cases h : (evaluateTrader (D := ℚ) cfConv true).out with
  | error e => rw [h] at o1; cases o1
  | ok r =>
    cases h' : (evaluateTrader (D := ℚ) (later cfConv cfNew none 1585699200) true).out with
    | error e => rw [h'] at o2; cases o2
    | ok r' =>
      rw [h] at o1
      rw [h'] at o2
      refine ⟨r, r', rfl, rfl, Option.some.inj o1, Option.some.inj o2, ?_⟩
      exact (C129_converted (D := ℚ) fmt 10 864000 0 (by decide) cfPrices cfMore (by unfold SortedBy; decide +kernel) (by decide +kernel) 6 (by decide +kernel)
        c1 c2 (common := cfCommon) (by rw [e1]; decide +kernel) ⟨1581120000, 10, 10, 10, 10, 5⟩ (by decide +kernel) cfConv rfl rfl (by decide) (by decide) (by decide) (by decide)
        1585699200 (by decide) true h h').1

end examples
end Verif.Props.Confirm
