import Verif.Props.FloatRobustUse
import Verif.Props.TraderBatch
import Verif.Props.Robust
import Verif.Lemmas.FloatEvaluate

/-!
# C93: evaluations and the program trader in binary32
-/

set_option linter.unusedSectionVars false

namespace Verif.Props
open FloatOps Spec FloatMoney FloatNN FloatVal FloatEvaluate
open Fl (toQ IsFin)

section
variable [Libm F32] [Libm F64]

/-- The inputs of an evaluation of a built-in trader on clean data. -/
structure CleanEvaluation32 (recs : Option (List (SideInputRecord F32))) (fmt : Format F32) (i : EvalInputs F32) : Prop where
  side : SideOf recs i.side
  trader : ∃ b : BuiltIn F32, CleanParameters32 b ∧ i.emitter = b.emitter fmt
  account : CleanAccount32 i.account
  history : CleanHistory32 i.history

theorem clean_filter32 {ticks : List (OhlcTick F32)} (h : CleanHistory32 ticks) (p : OhlcTick F32 → Bool) :
    CleanHistory32 (ticks.filter p) where
  each t ht := h.each t (List.mem_of_mem_filter ht)
  sorted := h.sorted.sublist List.filter_sublist
  strict := h.strict.sublist (List.filter_sublist.filter _)

/-- The quotient of two numbers of the range, where the second is positive. -/
private theorem quotient_between {a b : F32} (ha : Between (1 / 2 ^ 40) (2 ^ 40) a) (hb : Between (1 / 2 ^ 40) (2 ^ 40) b) :
    Between (1 / 2 ^ 80) (2 ^ 80) (a /. b) := by
  obtain ⟨af, a1, a2⟩ := ha
  obtain ⟨bf, b1, b2⟩ := hb
  have b0 : 0 < toQ b := lt_of_lt_of_le (by norm_num) b1
  have l : (1 : ℚ) / 2 ^ 80 ≤ toQ a / toQ b := by
    rw [le_div_iff₀ b0]
    have := mul_le_mul_of_nonneg_left b2 (show (0 : ℚ) ≤ 1 / 2 ^ 80 by norm_num)
    exact this.trans (le_trans (by norm_num) a1)
  have u : toQ a / toQ b ≤ 2 ^ 80 := by
    rw [div_le_iff₀ b0]
    have := mul_le_mul_of_nonneg_left b1 (show (0 : ℚ) ≤ 2 ^ 80 by norm_num)
    exact a2.trans (le_trans (by norm_num) this)
  have habs : |toQ a / toQ b| ≤ 2 ^ 127 := by
    rw [abs_of_nonneg (le_trans (by norm_num) l)]; exact u.trans (by norm_num)
  refine ⟨(div_fin af bf b0.ne' habs).1, ?_⟩
  rw [div_val af bf b0.ne' habs]
  exact rndQ_between (by decide +kernel) (by decide +kernel) l u

/-- **C93** (one window). The back-test of a window of clean data is a period of the evaluation: the assertions on the start
value and the prices hold; the values of the account at start and end are numbers between 2^-101 and 2^121, the gain of the
price is between 2^-80 and 2^80, and the ratio of the gains is not NaN and not negative.  Unless a balance outgrew 2^80. -/
theorem C93_window {recs : Option (List (SideInputRecord F32))} {fmt : Format F32} {i : EvalInputs F32}
    (h : CleanEvaluation32 recs fmt i) (start stop : ℤ) (hne : windowTicks i.history start stop ≠ []) :
    (∃ p, IsPeriod i start stop p ∧ Between (1 / 2 ^ 101) (2 ^ 121) p.result.startValue ∧
      Between (1 / 2 ^ 101) (2 ^ 121) p.result.endValue ∧ Between (1 / 2 ^ 80) (2 ^ 80) p.baseFinalGain ∧ GoodRatio p) ∨
    WindowOutgrown i start stop := by
  obtain ⟨b, hb, he⟩ := h.trader
  have hclean : CleanHistory32 (windowTicks i.history start stop) := clean_filter32 h.history _
  have hex := C87_execution h.side fmt b hb i.account h.account _ hclean i.cfg.fast false
  rw [← he] at hex
  refine hex.imp ?_ id
  rintro ⟨r, hr, hsol⟩
  obtain ⟨s1, s2, s3⟩ := hsol hne
  obtain ⟨r1, r2, -, -, -, r6, r7, r8, r9, -⟩ := C33_result h.side _ _ hne _ _ _ _ hr
  have hsp : Between (1 / 2 ^ 40) (2 ^ 40) r.startPrice := by rw [r6]; exact (hclean.each _ (List.head_mem hne)).close
  have hep : Between (1 / 2 ^ 40) (2 ^ 40) r.endPrice := by rw [r7]; exact (hclean.each _ (List.getLast_mem hne)).close
  have hsv : Between (1 / 2 ^ 101) (2 ^ 121) r.startValue := by
    rw [r8, r1, r2]; exact value_between hsp h.account.base h.account.quote h.account.some
  have hev : Between (1 / 2 ^ 101) (2 ^ 121) r.endValue := by
    rw [r9]; exact value_between hep s1 s2 s3
  have hbg := quotient_between hep hsp
  have pos : ∀ {lo hi : ℚ} {x : F32}, 0 < lo → Between lo hi x → 0 < toQ x := fun h1 h2 => lt_of_lt_of_le h1 h2.2.1
  refine ⟨⟨start, stop, r, r.endValue /. r.startValue, r.endPrice /. r.startPrice⟩, ⟨rfl, rfl, hr, ?_, ?_, ?_, rfl, rfl⟩,
    hsv, hev, hbg, ?_⟩
  · exact pos_of_fin hsv.1 (pos (by norm_num) hsv)
  · exact pos_of_fin hsp.1 (pos (by norm_num) hsp)
  · exact pos_of_fin hep.1 (pos (by norm_num) hep)
  · exact geZero_div hbg.1 (pos (by norm_num) hbg) (geZero_div hsv.1 (pos (by norm_num) hsv)
      (geZero_of_fin hev.1 (pos (by norm_num) hev).le))

private theorem one64 : GeZero (lit F64 1) := by unfold GeZero; decide +kernel

/-- The summary succeeds if the product of the ratios is not NaN. -/
private theorem summary_ok {i : EvalInputs F32} {ps : List (Period F32)}
    (h : GeZero (ps.foldl (fun (mul : F64) p => mul *. Wide.widen (p.finalGain /. p.baseFinalGain)) (lit F64 1))) :
    ∃ r, summarise i ps = .ok r ∧ r.periods = ps := by
  rcases C36_summary i ps with h' | ⟨-, h'⟩
  · exact h'
  · exact absurd (h'.symm.trans h) (by decide)

private theorem ratio_range {p : Period F32} (hg : GoodRatio p) (hx : ¬ Extreme p) :
    IsFin (p.finalGain /. p.baseFinalGain) ∧ 1 / 2 ^ 149 ≤ toQ (p.finalGain /. p.baseFinalGain) ∧
      toQ (p.finalGain /. p.baseFinalGain) ≤ 2 ^ 128 := by
  have hg' : GeZero (p.finalGain /. p.baseFinalGain) := hg
  have hf : IsFin (p.finalGain /. p.baseFinalGain) := by
    unfold Extreme at hx
    rw [geZero_iff] at hg'
    revert hx hg'
    generalize p.finalGain /. p.baseFinalGain = x
    intro hx hg'
    cases x with
    | nan => exact hg'.1 rfl
    | inf s =>
      have : s = false := by simpa using hg'.2
      subst this
      exact hx (.inl rfl)
    | negZero => trivial
    | fin q => trivial
  have h0 : 0 < toQ (p.finalGain /. p.baseFinalGain) :=
    lt_of_le_of_ne (toQ_of_geZero hg' hf) (fun e => hx (.inr e.symm))
  exact ⟨hf, div_range hf h0⟩

/-- **C93** (evaluation). In binary32, `EvaluateTrader` with either built-in trader on clean data returns a result, unless in
one of the windows an executed order left a balance above 2^80, or, with windows of several months, the ratio of the gains of
one of them is beyond the range of `float`. -/
theorem C93_evaluation {recs : Option (List (SideInputRecord F32))} {fmt : Format F32} {i : EvalInputs F32}
    (h : CleanEvaluation32 recs fmt i) (hcfg : Evaluable32 i.cfg i.history) (log : Bool) :
    (∃ r, (evaluateTrader i log).out = .ok r) ∨
    (∃ start stop, EvalWindow i.cfg start stop ∧ WindowOutgrown i start stop) ∨
    (∃ start stop p, 0 < i.cfg.months ∧ EvalWindow i.cfg start stop ∧ IsPeriod i start stop p ∧ Extreme p) := by
  rcases hcfg with ⟨hm, hm2, hlen⟩ | ⟨hm, t, ht, htw⟩
  · obtain ⟨n, hK, hrun⟩ := C36_terminates i h.history.sorted hm ⟨by omega, hm2⟩ hlen log
    rcases hrun with ⟨k, e, hk, hbusy, hf, -⟩ | ⟨ps, h1, h2⟩
    · rcases C93_window h _ _ hbusy with ⟨p, hp, -⟩ | ho
      · exfalso
        rcases hf with hf | ⟨r, hr, -, hn⟩
        · rw [hp.result] at hf; cases hf
        · rw [hp.result] at hr
          have hr := Except.ok.inj hr
          subst hr
          exact hn ⟨hp.startValue, hp.startPrice, hp.endPrice⟩
      · exact .inr (.inl ⟨_, _, .month k hm ((hK k).mp hk), ho⟩)
    · by_cases hall : ∀ p ∈ ps, GoodRatio p ∧ ¬ Extreme p
      · left
        obtain ⟨r, hr, -⟩ := summary_ok (i := i) (ps := ps) (product_geZero _ ps
          (fun p hp => ratio_range (hall p hp).1 (hall p hp).2) _ one64)
        exact ⟨r, h2.trans hr⟩
      · right
        push Not at hall
        obtain ⟨p, hp, hbad⟩ := hall
        have hmem : ∃ k, k < n ∧ windowTicks i.history (windowStart i.cfg k) (windowStop i.cfg k) ≠ [] ∧
            IsPeriod i (windowStart i.cfg k) (windowStop i.cfg k) p := by
          obtain ⟨j, hj, rfl⟩ := List.getElem_of_mem hp
          have hj' : j < ((List.range n).filter
            (fun k => !(windowTicks i.history (windowStart i.cfg k) (windowStop i.cfg k)).isEmpty)).length := by
            rw [h1.length_eq]; exact hj
          have hget := h1.get hj' hj
          have hm' := List.getElem_mem hj'
          rw [List.mem_filter, List.mem_range] at hm'
          exact ⟨_, hm'.1, by simpa using hm'.2, hget⟩
        obtain ⟨k, hk, hbusy, hP⟩ := hmem
        have hw : EvalWindow i.cfg _ _ := .month k hm ((hK k).mp hk)
        rcases C93_window h _ _ hbusy with ⟨q, hq, -, -, -, hg⟩ | ho
        · have e : q = p := C35_local rfl rfl rfl rfl rfl hq hP
          subst e
          exact .inr ⟨_, _, q, hm, hw, hq, hbad hg⟩
        · exact .inl ⟨_, _, hw, ho⟩
  · have hne : windowTicks i.history i.cfg.start i.cfg.stop ≠ [] := by
      intro he
      have : t ∈ windowTicks i.history i.cfg.start i.cfg.stop := List.mem_filter.mpr ⟨ht, by simpa using htw⟩
      rw [he] at this; cases this
    rcases C93_window h _ _ hne with ⟨p, hp, -, -, -, hg⟩ | ho
    · left
      rw [(C36_single i h.history.sorted hm hne log).2.1 p hp]
      obtain ⟨r, hr, -⟩ := summary_ok (i := i) (ps := [p]) (by
        change GeZero (Fl.mul (lit F64 1) _)
        exact geZero_mul (show IsFin (lit F64 1) by decide +kernel) (by decide +kernel) (widen_geZero hg))
      exact ⟨r, hr⟩
    · exact .inr (.inl ⟨_, _, .whole hm, ho⟩)

/-- **C93** (account). Reasonable flags make a usable account (the program's units are 1e-5 and 0.01, its relative fees
0.005, rounded to binary32). -/
theorem C93_account (fl : TraderMain.Flags F64) :
    CleanAccount32 (TraderMain.accountConfig fl : AccountConfig F32) ↔ SaneFlags32 fl := by
  constructor
  · rintro ⟨a, b, c, -, -, d, -⟩
    exact ⟨a, b, c, d⟩
  · rintro ⟨a, b, c, d⟩
    have u1 : Between (1 / 2 ^ 60) (2 ^ 60) (lit F32 (1 / 100000)) :=
      ⟨ofRat_fin (by rw [abs_of_nonneg (by norm_num)]; norm_num), by decide +kernel, by decide +kernel⟩
    have u2 : Between (1 / 2 ^ 60) (2 ^ 60) (lit F32 (1 / 100)) :=
      ⟨ofRat_fin (by rw [abs_of_nonneg (by norm_num)]; norm_num), by decide +kernel, by decide +kernel⟩
    have u3 : (lit F32 0 >=. lit F32 0) = true := by decide +kernel
    exact ⟨a, b, c, u1, u2, d, fun ty => by cases ty <;> exact u3⟩

private theorem side_exists32 {recs : Option (List (SideInputRecord F32))}
    (h : ∀ l, recs = some l → l ≠ [] ∧ ValidSideHistory l) : ∃ side, SideOf recs side := by
  cases recs with
  | none => exact ⟨_, .none⟩
  | some l =>
    obtain ⟨h1, h2⟩ := h l rfl
    obtain ⟨s, hs⟩ := (C27_construct l).2.1 h1 h2
    exact ⟨_, .some l s hs⟩

/-- **C93** (one trader). The program trader, in binary32, on a clean history with reasonable flags and valid side inputs (if
any) succeeds, unless a balance outgrew 2^80 in one of the windows or the ratio of the gains of one of several windows is
beyond the range of `float`. -/
theorem C93_single (env : TraderMain.Env F32) (fl : TraderMain.Flags F64) (w : Files) (start stop : ℤ)
    (ticks : List (OhlcTick F32)) (recs : Option (List (SideInputRecord F32))) (hl : Loads env fl w start stop ticks recs)
    (hc : CleanHistory32 ticks) (hs : ∀ l, recs = some l → l ≠ [] ∧ ValidSideHistory l) (hf : SaneFlags32 fl)
    (he : Evaluable32 ⟨start, stop, fl.months, false⟩ ticks) (hname : fl.trader = "rebalancing" ∨ fl.trader = "stop")
    (hb : fl.evaluateBatch = false) (ho : LogsOpen env fl) :
    ∃ side b, SideOf recs side ∧ getTrader fl.trader = .ok b ∧
      ((TraderMain.main env fl w).exit = .success ∨ Excused (programInputs env fl start stop false ticks side b)) := by
  obtain ⟨side, hside⟩ := side_exists32 hs
  obtain ⟨b, hn⟩ := (C72_names (F := F32) fl.trader).1.mpr hname
  refine ⟨side, b, hside, hn, ?_⟩
  obtain ⟨run, log, hrun, -, hbad, hgood⟩ := C82_single env fl w start stop ticks recs side hl hside hb b hn ho
  rcases C93_evaluation (recs := recs) (fmt := env.fmt) (i := programInputs env fl start stop false ticks side b)
    ⟨hside, ⟨b, C87_default_traders _ b hn, rfl⟩, (C93_account fl).mpr hf, hc⟩ he true with ⟨r, hr⟩ | ⟨a, c, h1, h2⟩ | ⟨a, c, p, h1, h2, h3, h4⟩
  · exact .inl (hgood r (by rw [hrun]; exact hr)).1
  · exact .inr ⟨a, c, h1, .inl h2⟩
  · exact .inr ⟨a, c, h2, .inr ⟨h1, p, h3, h4⟩⟩

/-- **C93** (batch). The same for a batch, under every schedule in which each task gets to run: it succeeds unless one of the
traders of the batch has such an excuse. -/
theorem C93_batch (hpow : PowIsNumber) (env : TraderMain.Env F32) (fl : TraderMain.Flags F64) (w : Files) (start stop : ℤ)
    (ticks : List (OhlcTick F32)) (recs : Option (List (SideInputRecord F32))) (hl : Loads env fl w start stop ticks recs)
    (hc : CleanHistory32 ticks) (hs : ∀ l, recs = some l → l ≠ [] ∧ ValidSideHistory l) (hf : SaneFlags32 fl)
    (he : Evaluable32 ⟨start, stop, fl.months, true⟩ ticks) (hname : fl.trader = "rebalancing" ∨ fl.trader = "stop")
    (hb : fl.evaluateBatch = true) (hfair : ∀ k < 144, 2 ^ 31 + 1 ≤ env.schedule.count k) :
    ∃ side batch, SideOf recs side ∧ getBatchOfTraders fl.trader = .ok batch ∧
      ((TraderMain.main env fl w).exit = .success ∨
        ∃ b ∈ batch, Excused (programInputs env fl start stop true ticks side b)) := by
  obtain ⟨side, hside⟩ := side_exists32 hs
  obtain ⟨batch, hg, hlen⟩ : ∃ batch : List (BuiltIn F32), getBatchOfTraders fl.trader = .ok batch ∧ batch.length ≤ 144 := by
    obtain ⟨-, -, -, -, ⟨l1, a1, a2, -⟩, ⟨l2, b1, b2, -⟩⟩ := C72_names (F := F32) fl.trader
    rcases hname with h | h <;> rw [h]
    · exact ⟨l1, a1, by omega⟩
    · exact ⟨l2, b1, by omega⟩
  refine ⟨side, batch, hside, hg, ?_⟩
  rw [C83_completes_f32 hpow env fl w start stop ticks recs side hl hside hb batch hg (fun k hk => hfair k (by omega))]
  by_cases hex : ∃ b ∈ batch, Excused (programInputs env fl start stop true ticks side b)
  · exact .inr hex
  · left
    intro b hbm
    rcases C93_evaluation (recs := recs) (fmt := env.fmt) (i := programInputs env fl start stop true ticks side b)
      ⟨hside, ⟨b, C87_default_batches _ batch hg b hbm, rfl⟩, (C93_account fl).mpr hf, hc⟩ he false with h | ⟨a, c, h1, h2⟩ | ⟨a, c, p, h1, h2, h3, h4⟩
    · exact h
    · exact absurd ⟨b, hbm, a, c, h1, .inl h2⟩ hex
    · exact absurd ⟨b, hbm, a, c, h2, .inr ⟨h1, p, h3, h4⟩⟩ hex

end

section examples
attribute [local instance] fr32 fr64

/-- The evaluation of `fr32Ticks` as a whole. -/
def fr32Inputs (months : ℤ) : EvalInputs F32 :=
  ⟨fr32Account, ⟨1514764800, 1517443200, months, true⟩, fr32Ticks, none,
    BuiltIn.emitter ⟨fun _ => "", fun _ _ => ""⟩ (.rebalancing ⟨.fin (11 / 16), .fin (1 / 16)⟩)⟩

theorem fr32Inputs_clean (months : ℤ) : CleanEvaluation32 none ⟨fun _ => "", fun _ _ => ""⟩ (fr32Inputs months) :=
  ⟨.none, ⟨_, fr32_rebalancing, rfl⟩, fr32Account_clean, fr32Ticks_clean⟩

theorem fr32Inputs_evaluable : Evaluable32 (fr32Inputs 0).cfg (fr32Inputs 0).history ∧
    Evaluable32 (fr32Inputs 1).cfg (fr32Inputs 1).history := by
  refine ⟨.inr ⟨rfl, _, List.mem_cons_self, ?_⟩, .inl ⟨by decide, by decide, by decide⟩⟩
  constructor <;> intro _ <;> decide

theorem fr32Inputs_executions : (executions (executeTrader fr32Account fr32Ticks none true
    (rebalancingTrader ⟨fun _ => "", fun _ _ => ""⟩ ⟨.fin (11 / 16), .fin (1 / 16)⟩) RebalancingState.init false).trace).map
      (fun x => (x.2.1.baseBalance, x.2.1.quoteBalance)) = [(.fin (687 / 512), .fin (7801 / 128)), (.fin (733 / 512), .fin (3255 / 64))] := by
  decide +kernel

theorem fr32Inputs_not_outgrown (months : ℤ) (a b : ℤ) (h : windowTicks fr32Ticks a b = fr32Ticks) :
    ¬ WindowOutgrown (fr32Inputs months) a b := by
  rintro ⟨x, hx, ho⟩
  have e : windowTicks (fr32Inputs months).history a b = fr32Ticks := h
  rw [e] at hx
  have hx' := List.mem_map_of_mem (f := fun x => (x.2.1.baseBalance, x.2.1.quoteBalance)) hx
  erw [fr32Inputs_executions, List.mem_cons, List.mem_singleton] at hx'
  rcases hx' with hx' | hx' <;>
  · obtain ⟨h1, h2⟩ := Prod.mk.inj hx'
    apply ho
    rw [h1, h2]
    refine ⟨trivial, ?_, trivial, ?_⟩ <;> (dsimp only [Fl.toQ]; norm_num)

/-- An evaluation of two trades in binary32 that returns. -/
example : ∃ r, (evaluateTrader (fr32Inputs 0) false).out = .ok r := by
  rcases C93_evaluation (fr32Inputs_clean 0) fr32Inputs_evaluable.1 false with h | ⟨a, b, h1, h2⟩ | ⟨a, b, p, h1, -⟩
  · exact h
  · exfalso
    cases h1 with
    | whole _ => exact fr32Inputs_not_outgrown 0 _ _ (by decide +kernel) h2
    | month k h _ => exact absurd h (by decide)
  · exact absurd h1 (by decide)

/-- **C93** (extreme ratios do abort). If the ratio of the gains is infinite in one window and 0 in another, the product of
the ratios is NaN and the summary aborts. -/
theorem C93_extreme_aborts (i : EvalInputs F32) (p q : Period F32) (hp : p.finalGain /. p.baseFinalGain = .inf false)
    (hq : (q.finalGain /. q.baseFinalGain) = .fin 0) : summarise i [p, q] = .error .assertion := by
  rcases C36_summary i [p, q] with ⟨r, hr, -⟩ | ⟨h, -⟩
  · exfalso
    unfold summarise getGeometricAverage at hr
    simp only [List.isEmpty_cons, Bool.false_eq_true, if_false, List.foldl_cons, List.foldl_nil, hp, hq] at hr
    revert hr
    have : (lit F64 1 *. Wide.widen (.inf false : F32) *. Wide.widen (.fin 0 : F32) : F64) = .nan := by decide +kernel
    rw [this]
    simp [bind, Except.bind, assertThat, show ((.nan : F64) >=. lit F64 0) = false by decide +kernel]
  · exact h

end examples
end Verif.Props
