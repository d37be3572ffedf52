import Verif.Props.Stochastic
import Verif.Spec.Volatility
import Verif.Lemmas.Granularity
import Verif.Num.RealMath

/-!
# C50: volatility is the standard deviation of the logarithmic returns of the portfolio value
-/

set_option linter.unusedSectionVars false

namespace Verif
open FloatOps Spec

section kinds
variable {F : Type} [FloatOps F] {P : ℤ} {n : ℕ}

/-- An update callback (as opposed to one that reports a new tick). -/
def TickEvent.isUpdate : TickEvent F → Bool
  | .updated _ _ => true
  | _ => false

theorem pushBack_notUpdate (n : ℕ) (x : OhlcTick F) (rev : List (OhlcTick F)) :
    (LastN.pushBack n x rev).2.isUpdate = false := by
  unfold LastN.pushBack
  split
  · rfl
  · split <;> rfl

theorem fill_notUpdate (target : ℤ) (last : OhlcTick F) (rest : List (OhlcTick F)) :
    ∀ e ∈ (LastN.fill n P target last rest).2, e.isUpdate = false := by
  fun_induction LastN.fill n P target last rest with
  | case1 last rest hc x p r ih =>
    intro e he
    rw [List.mem_cons] at he
    rcases he with rfl | he
    · exact pushBack_notUpdate n x (last :: rest)
    · exact ih e he
  | case2 => simp

theorem fillGaps_head_lt {target : ℤ} (x : OhlcTick F) (xs : List (OhlcTick F)) (h : x.ts < target)
    {y : OhlcTick F} {ys : List (OhlcTick F)} (hy : fillGaps P target (x :: xs) = y :: ys) : y.ts < target := by
  generalize hacc : x :: xs = acc at hy
  fun_induction fillGaps P target acc generalizing x xs with
  | case1 => cases hacc
  | case2 last rest hc ih =>
    exact ih _ _ (by simp only [flatTick]; exact hc.2) rfl hy
  | case3 last rest hc =>
    cases hy; cases hacc; exact h

/-- The callbacks of one update: either exactly one correction of the last tick, or only new ticks. -/
theorem update_kind (hn : 0 < n) (s : LastN F) (hsn : s.n = n) (hsP : s.period = P) (full : List (OhlcTick F))
    (hr : s.rev = full.take n) (t : OhlcTick F) (h0 : 0 ≤ t.ts) (hP : 0 < P)
    (hle : ∀ x xs, full = x :: xs → x.ts ≤ periodStart P t.ts) {s' : LastN F} {e : List (TickEvent F)}
    (he : s.update t = .ok (s', e)) :
    (∃ y ys, full = y :: ys ∧ y.ts = periodStart P t.ts ∧ e = [.updated y (mergeTick y t)] ∧
      aggStep P full t = mergeTick y t :: ys) ∨
    (e ≠ [] ∧ (∀ ev ∈ e, ev.isUpdate = false) ∧ ∀ y ys, full = y :: ys → y.ts < periodStart P t.ts) := by
  obtain ⟨m, rfl⟩ : ∃ m, n = m + 1 := ⟨n - 1, by omega⟩
  unfold LastN.update LastN.backfill at he
  rw [hsP, hsn, tdiv_eq_periodStart h0] at he
  cases full with
  | nil =>
    right
    simp only [List.take_nil] at hr
    rw [hr] at he
    simp only [List.nil_append] at he
    obtain ⟨_, rfl⟩ := Prod.mk.inj (Except.ok.inj he)
    refine ⟨by simp, ?_, by simp⟩
    intro ev hev
    rw [List.mem_singleton] at hev; subst hev
    exact pushBack_notUpdate _ _ _
  | cons x xs =>
    rw [hr, List.take_succ_cons] at he
    have hf := fill_fst (P := P) hn (periodStart P t.ts) x (xs.take m) xs (by simp)
    have hno := fill_notUpdate (P := P) (n := m + 1) (periodStart P t.ts) x (xs.take m)
    obtain ⟨y, ys, hy, hyle⟩ := fillGaps_head_le hP (target := periodStart P t.ts) _ x xs (le_refl _)
      (hle x xs rfl)
    rcases (hle x xs rfl).lt_or_eq with hlt | heq
    · right
      have hylt := fillGaps_head_lt x xs hlt hy
      rw [hy, List.take_succ_cons] at hf
      simp only [hf] at he
      rw [if_pos hylt] at he
      obtain ⟨_, rfl⟩ := Prod.mk.inj (Except.ok.inj he)
      refine ⟨by simp, ?_, ?_⟩
      · intro ev hev
        rw [List.mem_append, List.mem_singleton] at hev
        rcases hev with hev | rfl
        · exact hno ev hev
        · exact pushBack_notUpdate _ _ _
      · intro z zs hz; cases hz; exact hlt
    · left
      refine ⟨x, xs, rfl, heq, ?_, ?_⟩
      · have hfill : LastN.fill (m + 1) P (periodStart P t.ts) x (xs.take m) = (x :: xs.take m, []) := by
          rw [LastN.fill, dif_neg (by omega)]
        dsimp only at he
        rw [hfill] at he
        dsimp only at he
        rw [if_neg (by omega)] at he
        simp only [assertThat, heq, decide_true, if_true, bind, Except.bind, pure, Except.pure] at he
        obtain ⟨_, rfl⟩ := Prod.mk.inj (Except.ok.inj he)
        simp [mergeTick, heq]
      · unfold aggStep
        rw [fillGaps_stop (by omega)]
        simp only
        rw [if_neg (by omega)]

end kinds
end Verif

namespace Verif.Props
open Spec FloatOps

section general
variable {F D : Type} [FloatOps F] [FloatOps D] [Wide F D] [Libm F]

/-- `Volatility` after its constructor and a sequence of updates (tick, base balance, quote balance). -/
def volAfter (windowSize period : ℤ) (inputs : List (OhlcTick F × F × F)) : Res (Indicator F (VolState F)) := do
  inputs.foldlM (fun v i => Vol.update v i.1 i.2.1 i.2.2) (← Vol.make windowSize period)

/-- The code's return: `log(previous / current)`. -/
def codeReturn (p c : F) : F := Libm.log (p /. c)

theorem returnsOf_snoc (ret : F → F → F) (v0 : F) (vs : List F) (x : F) :
    returnsOf ret v0 (vs ++ [x]) = returnsOf ret v0 vs ++ [ret (vs.getLastD v0) x] := by
  induction vs generalizing v0 with
  | nil => rfl
  | cons a vs ih =>
    have := ih a
    simp only [returnsOf, List.cons_append, List.zipWith_cons_cons] at this ⊢
    rw [this, List.getLastD_cons]

/-- The current and the previous of the values (newest first). -/
def lastTwo (v0 : F) : List F → List F
  | [] => []
  | [c] => [v0, c]
  | c :: p :: _ => [p, c]

/-- The state for the portfolio values `vals` (newest first), with the value `v0` before the first period. -/
structure VolInv (ws : ℤ) (v0 : F) (vals : List F) (s : VolState F) : Prop where
  num : s.num = vals.length
  portfolio : s.portfolio = lastTwo v0 vals
  variance : meanVarAfter ws (adds (returnsOf codeReturn v0 vals.reverse)) = .ok s.variance

theorem reverse_getLastD (l : List F) (d : F) : l.reverse.getLastD d = l.headD d := by
  cases l with
  | nil => rfl
  | cons a l => simp

/-- One callback that reports a new tick. -/
theorem vol_add (ws : ℤ) (v0 : F) (vals : List F) (s : VolState F) (full full' : List (OhlcTick F))
    (e : TickEvent F) (hlen : vals.length = full.length) (hI : VolInv ws v0 vals s) (h : EvStep 2 full e full')
    (hu : e.isUpdate = false) (hv0 : ∀ x, full' = x :: full → vals = [] → v0 = Vol.value s x.opn) (dq) :
    ∃ x, full' = x :: full ∧ ∃ s', Vol.onEvent dq s e = .ok s' ∧ VolInv ws v0 (Vol.value s x.close :: vals) s' ∧
      s'.base = s.base ∧ s'.quote = s.quote := by
  have hv : ∀ c, meanVarAfter ws (adds (returnsOf codeReturn v0 (c :: vals).reverse)) =
      .ok (s.variance.add (codeReturn (vals.headD v0) c)) := by
    intro c
    rw [List.reverse_cons, returnsOf_snoc, reverse_getLastD]
    exact meanVarAfter_snoc _ _ _ _ hI.variance
  cases h with
  | added _ x h =>
    refine ⟨x, rfl, ?_⟩
    have hp := hI.portfolio
    have hn := hI.num
    cases vals with
    | nil =>
      have h0 := hv0 x rfl rfl
      simp only [List.length_nil] at hn
      refine ⟨⟨s.base, s.quote, [Vol.value s x.opn, Vol.value s x.close], 1,
        s.variance.add (codeReturn v0 (Vol.value s x.close))⟩, ?_, ⟨rfl, ?_, hv _⟩, rfl, rfl⟩
      · simp only [lastTwo] at hp
        simp only [Vol.onEvent, Vol.onAdded, hn, assertThat, hp, h0, Vol.logReturn, codeReturn, bind, Except.bind, pure,
          Except.pure]
        simp
      · simp only [h0, lastTwo]
    | cons c rest =>
      have hr : rest = [] := by
        rw [List.length_cons] at hlen
        exact List.length_eq_zero_iff.mp (by omega)
      subst hr
      simp only [List.length_singleton] at hn
      refine ⟨⟨s.base, s.quote, [c, Vol.value s x.close], 2,
        s.variance.add (codeReturn c (Vol.value s x.close))⟩, ?_, ⟨rfl, rfl, hv _⟩, rfl, rfl⟩
      simp only [lastTwo] at hp
      simp only [Vol.onEvent, Vol.onAdded, hn, assertThat, hp, Vol.logReturn, codeReturn, bind, Except.bind, pure,
        Except.pure]
      simp
  | addedRemoved _ r x h hr =>
    refine ⟨x, rfl, ?_⟩
    have hp := hI.portfolio
    have hn := hI.num
    match vals, hlen, hn, hp, hv with
    | [], hlen, _, _, _ => simp at hlen; omega
    | [_], hlen, _, _, _ => simp at hlen; omega
    | c :: p :: rest, hlen, hn, hp, hv =>
      refine ⟨⟨s.base, s.quote, [c, Vol.value s x.close], s.num + 1,
        s.variance.add (codeReturn c (Vol.value s x.close))⟩, ?_, ⟨by simp [hn], rfl, hv _⟩, rfl, rfl⟩
      simp only [lastTwo] at hp
      have hge : s.num ≥ 2 := by rw [hn]; simp
      simp only [Vol.onEvent, Vol.onAddedRemoved, hge, assertThat, hp, Vol.logReturn, codeReturn, bind, Except.bind,
        pure, Except.pure]
      simp
  | updated _ old new ho => cases hu

/-- One callback that reports a correction. -/
theorem vol_upd (ws : ℤ) (v0 c : F) (vals : List F) (s : VolState F) (hI : VolInv ws v0 (c :: vals) s)
    (old x : OhlcTick F) (dq) :
    ∃ s', Vol.onEvent dq s (.updated old x) = .ok s' ∧ VolInv ws v0 (Vol.value s x.close :: vals) s' ∧
      s'.base = s.base ∧ s'.quote = s.quote := by
  have hv := hI.variance
  rw [List.reverse_cons, returnsOf_snoc, reverse_getLastD] at hv
  obtain ⟨mv, hmv⟩ := meanVarAfter_ok ws (returnsOf codeReturn v0 vals.reverse ++
    [codeReturn (vals.headD v0) (Vol.value s x.close)])
  have hup := meanVarAfter_corrected ws _ _ (codeReturn (vals.headD v0) (Vol.value s x.close)) _ hv
  rw [hmv] at hup
  have hp := hI.portfolio
  have hn := hI.num
  refine ⟨⟨s.base, s.quote, [vals.headD v0, Vol.value s x.close], s.num, mv⟩, ?_, ⟨by simpa using hn, ?_, ?_⟩, rfl,
    rfl⟩
  · have hge : s.num ≥ 1 := by rw [hn]; simp
    have hp' : s.portfolio = [vals.headD v0, c] := by rw [hp]; cases vals <;> rfl
    unfold codeReturn at hup
    simp only [Vol.onEvent, Vol.onUpdated, hge, assertThat, hp', Vol.logReturn, bind, Except.bind, pure, Except.pure]
    simp only [hup, decide_true, if_true, List.dropLast_cons_cons, List.dropLast_singleton, List.cons_append,
      List.nil_append, reduceCtorEq, if_false]
  · cases vals <;> rfl
  · rw [List.reverse_cons, returnsOf_snoc, reverse_getLastD]; exact hmv

/-- The callbacks of an update that reports only new ticks. -/
theorem vol_adds (ws : ℤ) (v0 b q : F) {full full' : List (OhlcTick F)} {es : List (TickEvent F)}
    (h : EvSteps 2 full es full') : ∀ (vals : List F) (s : VolState F), vals.length = full.length →
    VolInv ws v0 vals s → (∀ ev ∈ es, ev.isUpdate = false) → s.base = b → s.quote = q →
    (vals = [] → ∀ x, full'.getLast? = some x → v0 = worthAt (b, q) x.opn) →
    ∃ new s', full' = new ++ full ∧
      Indicator.callbacks Vol.onEvent (full.take 2).reverse s es = .ok s' ∧
      VolInv ws v0 (new.map (fun x => worthAt (b, q) x.close) ++ vals) s' := by
  induction h with
  | nil full =>
    intro vals s _ hI _ _ _ _
    exact ⟨[], s, rfl, rfl, hI⟩
  | @cons full full1 full2 e es h hs ih =>
    intro vals s hlen hI hno hb hq hv0
    have hsuf : ∀ {a b : List (OhlcTick F)} {es : List (TickEvent F)}, EvSteps 2 a es b →
        (∀ ev ∈ es, ev.isUpdate = false) → ∃ new, b = new ++ a := by
      intro a b es h
      induction h with
      | nil a => intro _; exact ⟨[], rfl⟩
      | cons h _ ih =>
        intro hno
        obtain ⟨new, hnew⟩ := ih (fun ev hev => hno ev (by simp [hev]))
        have h1 := hno _ List.mem_cons_self
        cases h with
        | added _ x h => exact ⟨new ++ [x], by rw [hnew]; simp⟩
        | addedRemoved _ r x h hr => exact ⟨new ++ [x], by rw [hnew]; simp⟩
        | updated _ old new ho => cases h1
    obtain ⟨newS, hS⟩ := hsuf hs (fun ev hev => hno ev (by simp [hev]))
    obtain ⟨x, hx, s1, h1, h2, h3, h4⟩ := vol_add ws v0 vals s full full1 e hlen hI h (hno e (by simp))
      (by
        intro x hx hvals
        have hf : full = [] := List.length_eq_zero_iff.mp (by rw [← hlen, hvals]; rfl)
        subst hf
        have := hv0 hvals x (by rw [hS, hx]; simp)
        rw [this]; unfold worthAt Vol.value; rw [hb, hq])
      (full1.take 2).reverse
    obtain ⟨new, s', e1, e2, e3⟩ := ih (Vol.value s x.close :: vals) s1 (by simp [hx, hlen]) h2
      (fun ev hev => hno ev (by simp [hev])) (by rw [h3, hb]) (by rw [h4, hq]) (by simp)
    refine ⟨new ++ [x], s', by rw [e1, hx]; simp, ?_, ?_⟩
    · simp only [Indicator.callbacks, windowAfter_evStep (by norm_num) h, h1, bind, Except.bind]
      exact e2
    · have : Vol.value s x.close = worthAt (b, q) x.close := by unfold worthAt Vol.value; rw [hb, hq]
      rw [this] at e3
      simpa using e3

/-! ### The declarative values when one input is added -/

theorem balancesAt_new {P : ℤ} (inputs : List (OhlcTick F × F × F)) (x : OhlcTick F × F × F) (s : ℤ)
    (hle : s ≤ periodStart P x.1.ts)
    (h : s = periodStart P x.1.ts ∨ ∀ i ∈ inputs, periodStart P i.1.ts < s) :
    balancesAt P (inputs ++ [x]) s = x.2 := by
  unfold balancesAt
  by_cases heq : s = periodStart P x.1.ts
  · rw [List.filter_append, List.filter_cons_of_pos (by simpa using heq.symm), List.filter_nil, List.getLast?_concat]
  · rcases h with h | h
    · exact absurd h heq
    · have h1 : (inputs ++ [x]).filter (fun i => decide (periodStart P i.1.ts = s)) = [] := by
        rw [List.filter_eq_nil_iff]
        intro i hi
        rw [List.mem_append, List.mem_singleton] at hi
        rcases hi with hi | rfl
        · have := h i hi; simp; omega
        · simpa using fun h => heq h.symm
      have h2 : (inputs ++ [x]).find? (fun i => decide (s < periodStart P i.1.ts)) = some x := by
        rw [List.find?_append, List.find?_eq_none.mpr, Option.none_or]
        · rw [List.find?_cons_of_pos (by simp; omega)]
        · intro i hi; have := h i hi; simp; omega
      rw [h1, h2]; rfl

theorem balancesAt_old {P : ℤ} (inputs : List (OhlcTick F × F × F)) (x : OhlcTick F × F × F) (s : ℤ)
    (hne : periodStart P x.1.ts ≠ s) (h : ∃ i ∈ inputs, s ≤ periodStart P i.1.ts) :
    balancesAt P (inputs ++ [x]) s = balancesAt P inputs s := by
  unfold balancesAt
  rw [List.filter_append, List.filter_cons_of_neg (by simpa using hne), List.filter_nil, List.append_nil]
  cases hf : (inputs.filter (fun i => decide (periodStart P i.1.ts = s))).getLast? with
  | some i => rfl
  | none =>
    simp only
    obtain ⟨i, hi, hle⟩ := h
    have hfil : inputs.filter (fun i => decide (periodStart P i.1.ts = s)) = [] := List.getLast?_eq_none_iff.mp hf
    have : s < periodStart P i.1.ts := by
      rcases hle.lt_or_eq with h | h
      · exact h
      · have := List.filter_eq_nil_iff.mp hfil i hi
        simp at this; exact absurd h.symm this
    have hsome : (inputs.find? (fun i => decide (s < periodStart P i.1.ts))).isSome := by
      rw [List.find?_isSome]; exact ⟨i, hi, by simpa using this⟩
    rw [List.find?_append]
    obtain ⟨j, hj⟩ := Option.isSome_iff_exists.mp hsome
    rw [hj]; rfl

theorem vol_make (ws period : ℤ) (hP : 0 < period) :
    (Vol.make ws period : Res (Indicator F (VolState F))) =
      .ok ⟨⟨2, period, []⟩, ⟨lit F 0, lit F 0, [], 0, MeanVar.make ws⟩⟩ := by
  simp only [Vol.make, lastN_make 2 period (by norm_num) hP, bind, Except.bind, pure, Except.pure]
  rfl

theorem vol_state (ws period : ℤ) (hP : 0 < period) (inputs : List (OhlcTick F × F × F))
    (hl : Feedable (inputs.map (·.1))) :
    ∃ s, volAfter ws period inputs =
        .ok ⟨⟨2, period, (aggregate period (inputs.map (·.1))).reverse.take 2⟩, s⟩ ∧
      VolInv ws (initialValue inputs) (portfolioValues period inputs).reverse s := by
  induction inputs using List.reverseRecOn with
  | nil =>
    refine ⟨⟨lit F 0, lit F 0, [], 0, MeanVar.make ws⟩, ?_, ⟨rfl, rfl, rfl⟩⟩
    simp [volAfter, vol_make ws period hP, bind, Except.bind, pure, Except.pure, aggregate]
  | append_singleton inputs x ih =>
    set P := period
    rw [List.map_append, List.map_singleton] at hl ⊢
    set l := inputs.map (·.1) with hldef
    have hsl := (List.pairwise_append.mp hl.1).1
    have hlt : ∀ t ∈ l, t.ts ≤ x.1.ts := fun t ht => (List.pairwise_append.mp hl.1).2.2 t ht _ (by simp)
    obtain ⟨s, h1, h2⟩ := ih ⟨hsl, fun t ht => hl.2 t (by simp [ht])⟩
    set full := (aggregate P l).reverse with hfull
    have hhead : ∀ y ys, full = y :: ys → y.ts ≤ periodStart P x.1.ts := by
      intro y ys hy
      by_cases hne : l = []
      · rw [hfull, hne] at hy; simp [aggregate] at hy
      · rw [aggregate_getLast_ts hP hsl hne hy]
        exact periodStart_mono hP (hlt _ (List.getLast_mem hne))
    have hts : 0 ≤ x.1.ts := hl.2 _ (by simp)
    obtain ⟨e, he, hev⟩ := update_evSteps (P := P) (n := 2) (by norm_num) ⟨2, P, full.take 2⟩ rfl rfl full rfl x.1 hts hP
      hhead
    have hkind := update_kind (P := P) (n := 2) (by norm_num) ⟨2, P, full.take 2⟩ rfl rfl full rfl x.1 hts hP hhead he
    have hagg := aggStep_aggregate hP l x.1 hl.1
    rw [← hfull] at hagg
    -- the run of the code
    have hrun : ∀ s', Indicator.callbacks Vol.onEvent (full.take 2).reverse { s with base := x.2.1, quote := x.2.2 } e =
        .ok s' → volAfter ws P (inputs ++ [x]) =
          .ok ⟨⟨2, P, (aggregate P (l ++ [x.1])).reverse.take 2⟩, s'⟩ := by
      intro s' hs'
      unfold volAfter at h1 ⊢
      rw [vol_make ws P hP] at h1 ⊢
      simp only [bind, Except.bind] at h1 ⊢
      rw [foldlM_snoc, h1]
      simp only [Vol.update, Indicator.update, he, LastN.ticks, bind, Except.bind, pure, Except.pure]
      rw [hs', hagg]
    -- the state with the new balances
    have h2' : VolInv ws (initialValue inputs) (portfolioValues P inputs).reverse
        { s with base := x.2.1, quote := x.2.2 } := ⟨h2.num, h2.portfolio, h2.variance⟩
    have hvlen : (portfolioValues P inputs).reverse.length = full.length := by
      simp [portfolioValues, hfull, hldef]
    -- the declarative values
    have hval : (portfolioValues P (inputs ++ [x])).reverse =
        (aggStep P full x.1).map (fun t => worthAt (balancesAt P (inputs ++ [x]) t.ts) t.close) := by
      unfold portfolioValues
      rw [List.map_append, List.map_singleton, ← hldef, hagg, List.map_reverse]
    have hvalOld : (portfolioValues P inputs).reverse =
        full.map (fun t => worthAt (balancesAt P inputs t.ts) t.close) := by
      unfold portfolioValues; rw [← hldef, hfull, List.map_reverse]
    have hstrict : (aggStep P full x.1).Pairwise (fun a b => b.ts < a.ts) := by
      rw [hagg, List.pairwise_reverse]; exact aggregate_strict hP _
    have hmemOld : ∀ y ∈ full, ∃ i ∈ inputs, y.ts ≤ periodStart P i.1.ts := by
      intro y hy
      have hne : l ≠ [] := by
        intro h0; rw [hfull, h0] at hy; simp [aggregate] at hy
      have hy' : y ∈ aggregate P l := by rw [hfull] at hy; simpa using hy
      have := (aggregate_sorted hP l).le_getLast (Verif.aggregate_ne_nil hne) y hy'
      rw [aggregate_getLast hP hsl hne] at this
      have hmem := List.getLast_mem hne
      obtain ⟨i, hi, hieq⟩ := List.mem_map.mp hmem
      exact ⟨i, hi, by rw [hieq]; exact this⟩
    rcases hkind with ⟨y, ys, hy, hyts, rfl, hstep⟩ | ⟨hne, hno, hlt'⟩
    · -- a correction of the last tick
      rw [hy, List.map_cons] at hvalOld
      rw [hvalOld] at h2'
      obtain ⟨s', a1, a2, _⟩ := vol_upd ws _ _ _ _ h2' y (mergeTick y x.1) ((aggStep P full x.1).take 2).reverse
      refine ⟨s', hrun s' ?_, ?_⟩
      · cases hev with
        | cons h hs =>
          cases hs
          simp only [Indicator.callbacks, windowAfter_evStep (n := 2) (by norm_num) h, bind, Except.bind]
          rw [a1]
      · rw [hval, hstep, List.map_cons]
        have hinit : initialValue (inputs ++ [x]) = initialValue inputs := by
          cases inputs with
          | nil => simp [hfull, hldef, aggregate] at hy
          | cons i inputs => rfl
        rw [hinit]
        have hb : balancesAt P (inputs ++ [x]) (mergeTick y x.1).ts = x.2 :=
          balancesAt_new inputs x _ (by simp [mergeTick, hyts]) (.inl (by simp [mergeTick, hyts]))
        have htail : ys.map (fun t => worthAt (balancesAt P (inputs ++ [x]) t.ts) t.close) =
            ys.map (fun t => worthAt (balancesAt P inputs t.ts) t.close) := by
          apply List.map_congr_left
          intro z hz
          have hzlt : z.ts < (mergeTick y x.1).ts := by
            rw [hstep] at hstrict; exact (List.pairwise_cons.mp hstrict).1 z hz
          rw [balancesAt_old inputs x z.ts (by simp [mergeTick, hyts] at hzlt; omega)
            (hmemOld z (by rw [hy]; simp [hz]))]
        rw [hb, htail]
        exact a2
    · -- only new ticks
      have hv0 : (portfolioValues P inputs).reverse = [] → ∀ z, (aggStep P full x.1).getLast? = some z →
          initialValue (inputs ++ [x]) = worthAt x.2 z.opn := by
        intro h0 z hz
        rw [hvalOld, List.map_eq_nil_iff] at h0
        have hin : inputs = [] := by
          by_contra hc
          have : l ≠ [] := by simpa [hldef] using hc
          exact Verif.aggregate_ne_nil (P := P) this (by simpa [hfull] using h0)
        rw [h0] at hz
        simp [aggStep, fillGaps_nil] at hz
        subst hz
        subst hin
        rfl
      have h2'' : VolInv ws (initialValue (inputs ++ [x])) (portfolioValues P inputs).reverse
          { s with base := x.2.1, quote := x.2.2 } := by
        cases hin : inputs with
        | cons i inputs' =>
          rw [hin] at h2'
          exact h2'
        | nil =>
          subst hin
          refine ⟨h2'.num, h2'.portfolio, ?_⟩
          have := h2'.variance
          simpa [portfolioValues, aggregate, returnsOf] using this
      obtain ⟨new, s', e1, e2, e3⟩ := vol_adds ws (initialValue (inputs ++ [x])) x.2.1 x.2.2 hev _ _ hvlen h2'' hno rfl
        rfl hv0
      refine ⟨s', hrun s' e2, ?_⟩
      rw [hval, e1, List.map_append]
      have hnew : new.map (fun t => worthAt (balancesAt P (inputs ++ [x]) t.ts) t.close) =
          new.map (fun t => worthAt (x.2.1, x.2.2) t.close) := by
        apply List.map_congr_left
        intro z hz
        have hzp : z.ts ≤ periodStart P x.1.ts := by
          have hz' : z ∈ aggregate P (l ++ [x.1]) := by
            have : z ∈ (aggregate P (l ++ [x.1])).reverse := by rw [← hagg, e1]; simp [hz]
            simpa using this
          have := (aggregate_sorted hP _).le_getLast (Verif.aggregate_ne_nil (by simp)) z hz'
          rw [aggregate_getLast hP hl.1 (by simp)] at this
          simpa using this
        rw [balancesAt_new inputs x z.ts hzp]
        right
        intro i hi
        have hne : l ≠ [] := by
          intro h0
          have : inputs = [] := by simpa [hldef] using h0
          rw [this] at hi; simp at hi
        have hfne : full ≠ [] := by
          have := Verif.aggregate_ne_nil (P := P) hne
          simpa [hfull] using this
        obtain ⟨y, ys, hy⟩ := List.exists_cons_of_ne_nil hfne
        have hyts := aggregate_getLast_ts hP hsl hne (by rw [← hfull]; exact hy)
        have hzy : y.ts < z.ts := by
          rw [e1] at hstrict
          exact (List.pairwise_append.mp hstrict).2.2 z hz y (by rw [hy]; simp)
        have him : i.1 ∈ l := List.mem_map.mpr ⟨i, hi, rfl⟩
        have := periodStart_mono hP (Spec.SortedBy.le_getLast hsl hne i.1 him)
        omega
      have hold : full.map (fun t => worthAt (balancesAt P (inputs ++ [x]) t.ts) t.close) =
          full.map (fun t => worthAt (balancesAt P inputs t.ts) t.close) := by
        apply List.map_congr_left
        intro z hz
        obtain ⟨y, ys, hy⟩ := List.exists_cons_of_ne_nil (List.ne_nil_of_mem hz)
        have hyl := hlt' y ys hy
        have hzy : z.ts ≤ y.ts := by
          rw [e1, hy] at hstrict
          have := (List.pairwise_append.mp hstrict).2.1
          rw [hy, List.mem_cons] at hz
          rcases hz with rfl | hz
          · exact le_refl _
          · exact ((List.pairwise_cons.mp this).1 z hz).le
        rw [balancesAt_old inputs x z.ts (by omega) (hmemOld z hz)]
      rw [hnew, hold, ← hvalOld]
      exact e3

/-- **C50**, for all floats: the values the variance window has been fed are exactly the logarithmic returns between
consecutive portfolio values (the first relative to the value at the very first open), one per aggregated tick. -/
theorem C50_returns (windowSize period : ℤ) (hP : 0 < period) (inputs : List (OhlcTick F × F × F))
    (hl : Feedable (inputs.map (·.1))) :
    ∃ s, volAfter windowSize period inputs = .ok s ∧
      meanVarAfter windowSize (adds (returnsOf (fun prev cur => Libm.log (prev /. cur)) (initialValue inputs)
        (portfolioValues period inputs))) = .ok s.state.variance ∧
      s.state.num = (aggregate period (inputs.map (·.1))).length := by
  obtain ⟨s, h1, h2⟩ := vol_state windowSize period hP inputs hl
  refine ⟨_, h1, ?_, ?_⟩
  · have := h2.variance
    rw [List.reverse_reverse] at this
    exact this
  · rw [h2.num]; simp [portfolioValues]

end general

section exact
variable {K : Type} [Field K] [LinearOrder K] [IsStrictOrderedRing K] [FloorRing K]

theorem variance_neg (l : List K) : Spec.variance (l.map (fun x => -x)) = Spec.variance l := by
  have hm : mean (l.map (fun x => -x)) = - mean l := by
    unfold mean
    rw [List.length_map]
    have : (l.map (fun x => -x)).sum = - l.sum := by
      induction l with
      | nil => simp
      | cons a l ih => simp [ih]; ring
    rw [this, neg_div]
  unfold Spec.variance
  rw [hm, List.map_map]
  congr 1
  apply List.map_congr_left
  intro x _
  simp only [Function.comp]
  ring

theorem windowOf_map (n : ℤ) (f : K → K) (l : List K) : windowOf n (l.map f) = (windowOf n l).map f := by
  unfold windowOf lastN
  split
  · rfl
  · rw [List.length_map, List.map_drop]

/-- **C50**, over the reals (exact `log` and `sqrt`): `GetVolatility` is the square root of the population variance of
the last `windowSize` (all, if 0) logarithmic returns `log(current / previous)` of the portfolio value. -/
theorem C50_volatility (windowSize period : ℤ) (hw : 0 ≤ windowSize) (hP : 0 < period)
    (inputs : List (OhlcTick ℝ × ℝ × ℝ)) (hl : Feedable (inputs.map (·.1))) :
    ∃ s, volAfter windowSize period inputs = .ok s ∧
      Vol.get s = Real.sqrt (Spec.variance (windowOf windowSize
        (returnsOf (fun prev cur => Real.log (cur / prev)) (initialValue inputs)
          (portfolioValues period inputs)))) := by
  obtain ⟨s, h1, h2, _⟩ := C50_returns windowSize period hP inputs hl
  refine ⟨s, h1, ?_⟩
  obtain ⟨s', a, _, _, b⟩ := C46_mean_variance windowSize hw (adds _) _ (values_adds
    (returnsOf (fun prev cur : ℝ => Libm.log (prev /. cur)) (initialValue inputs) (portfolioValues period inputs)))
  rw [h2] at a; cases a
  unfold Vol.get MeanVar.getStdDev
  rw [b]
  show Real.sqrt _ = _
  congr 1
  have : returnsOf (fun prev cur : ℝ => Libm.log (prev /. cur)) (initialValue inputs) (portfolioValues period inputs) =
      (returnsOf (fun prev cur => Real.log (cur / prev)) (initialValue inputs) (portfolioValues period inputs)).map
        (fun x => -x) := by
    unfold returnsOf
    rw [List.map_zipWith]
    congr 1
    funext p c
    show Real.log (p / c) = - Real.log (c / p)
    rw [← Real.log_inv, inv_div]
  rw [this, windowOf_map, variance_neg]

end exact

/-! Non-vacuity: three inputs in two periods with an empty period between them. -/

/-- Sample inputs: the balances change with every input. -/
def volInputs : List (OhlcTick ℚ × ℚ × ℚ) :=
  [(⟨100, 10, 12, 9, 11, 1⟩, 1, 0), (⟨105, 11, 14, 10, 13, 2⟩, 2, 5), (⟨121, 12, 12, 7, 8, 3⟩, 3, 7)]

example : Feedable (volInputs.map (·.1)) := by unfold Feedable SortedBy; decide +kernel
example : initialValue volInputs = 10 ∧ portfolioValues 10 volInputs = [31, 46, 31] := by decide +kernel

end Verif.Props
