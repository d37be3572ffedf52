import Verif.Props.Robust
import Verif.Num.IEEELemmas
import Verif.Spec.Factory

/-!
# C72: the factory
-/

set_option linter.unusedSectionVars false

namespace Verif.Props
open Verif Verif.Spec FloatOps

section generic
variable {F : Type} [FloatOps F]

theorem foldl_append_eq {α β : Type} (f : α → List β) (l : List α) (acc : List β) :
    l.foldl (fun acc x => acc ++ f x) acc = acc ++ l.flatMap f := by
  induction l generalizing acc with
  | nil => simp
  | cons a l ih => rw [List.foldl_cons, ih]; simp

theorem rebalancingBatch_eq (alphas epsilons : List F) :
    rebalancingBatch alphas epsilons = alphas.flatMap (fun a => epsilons.map (fun e => .rebalancing ⟨a, e⟩)) := by
  unfold rebalancingBatch
  have inner : ∀ (a : F) (acc : List (BuiltIn F)), epsilons.foldl (fun batch e => batch ++ [.rebalancing ⟨a, e⟩]) acc =
      acc ++ epsilons.map (fun e => .rebalancing ⟨a, e⟩) := by
    intro a acc
    rw [foldl_append_eq (fun e => [BuiltIn.rebalancing ⟨a, e⟩])]
    simp [List.map_eq_flatMap]
  simp only [inner]
  rw [foldl_append_eq]; rfl

theorem stopBatch_eq (ms mms is ds : List F) :
    stopBatch ms mms is ds = ms.flatMap (fun m => mms.flatMap (fun mm => is.flatMap (fun i =>
      ds.map (fun d => .stop ⟨m, mm, i, d⟩)))) := by
  unfold stopBatch
  have l1 : ∀ (m mm i : F) (acc : List (BuiltIn F)), ds.foldl (fun batch d => batch ++ [.stop ⟨m, mm, i, d⟩]) acc =
      acc ++ ds.map (fun d => .stop ⟨m, mm, i, d⟩) := by
    intro m mm i acc
    rw [foldl_append_eq (fun d => [BuiltIn.stop ⟨m, mm, i, d⟩])]
    simp [List.map_eq_flatMap]
  simp only [l1, foldl_append_eq]
  rfl

/-- `l.flatMap f` when all blocks have the same length `n`: position `i * n + j` is position `j` of block `i`. -/
theorem getElem?_flatMap {α β : Type} (f : α → List β) (n : ℕ) (hf : ∀ x, (f x).length = n) (l : List α) (i j : ℕ)
    (hj : j < n) : (l.flatMap f)[i * n + j]? = (l[i]?).bind (fun x => (f x)[j]?) := by
  induction l generalizing i with
  | nil => simp
  | cons a l ih =>
    rw [List.flatMap_cons]
    cases i with
    | zero =>
      rw [List.getElem?_append_left (by rw [hf]; omega)]
      simp
    | succ i =>
      rw [List.getElem?_append_right (by rw [hf, Nat.add_mul]; omega), hf]
      have : (i + 1) * n + j - n = i * n + j := by rw [Nat.add_mul]; omega
      rw [this, ih]
      simp

theorem length_flatMap_const {α β : Type} (f : α → List β) (n : ℕ) (hf : ∀ x, (f x).length = n) (l : List α) :
    (l.flatMap f).length = l.length * n := by
  induction l with
  | nil => simp
  | cons a l ih => rw [List.flatMap_cons, List.length_append, hf, ih, List.length_cons, Nat.add_mul]; omega

/-- **C72** (rebalancing grid). The batch has one trader for each combination of parameters, in lexicographic order:
the last parameter varies fastest. -/
theorem C72_rebalancing_grid (alphas epsilons : List F) :
    (rebalancingBatch alphas epsilons).length = alphas.length * epsilons.length ∧
    ∀ i j (hi : i < alphas.length) (hj : j < epsilons.length),
      (rebalancingBatch alphas epsilons)[i * epsilons.length + j]? = some (.rebalancing ⟨alphas[i], epsilons[j]⟩) := by
  rw [rebalancingBatch_eq]
  refine ⟨length_flatMap_const _ _ (fun x => by simp) _, ?_⟩
  intro i j hi hj
  rw [getElem?_flatMap _ epsilons.length (fun x => by simp) _ _ _ hj]
  simp [hi, hj]

/-- **C72** (stop grid). The batch has one trader for each combination of parameters, in lexicographic order. -/
theorem C72_stop_grid (ms mms is ds : List F) :
    (stopBatch ms mms is ds).length = ms.length * mms.length * is.length * ds.length ∧
    ∀ i j k l (hi : i < ms.length) (hj : j < mms.length) (hk : k < is.length) (hl : l < ds.length),
      (stopBatch ms mms is ds)[((i * mms.length + j) * is.length + k) * ds.length + l]? =
        some (.stop ⟨ms[i], mms[j], is[k], ds[l]⟩) := by
  rw [stopBatch_eq]
  have e1 : ∀ m mm i : F, (ds.map (fun d => BuiltIn.stop ⟨m, mm, i, d⟩)).length = ds.length := by simp
  have e2 : ∀ m mm : F, (is.flatMap (fun i => ds.map (fun d => BuiltIn.stop ⟨m, mm, i, d⟩))).length =
      is.length * ds.length := fun m mm => length_flatMap_const _ _ (e1 m mm) _
  have e3 : ∀ m : F, (mms.flatMap (fun mm => is.flatMap (fun i => ds.map (fun d => BuiltIn.stop ⟨m, mm, i, d⟩)))).length =
      mms.length * (is.length * ds.length) := fun m => length_flatMap_const _ _ (e2 m) _
  refine ⟨by rw [length_flatMap_const _ _ e3]; ring, ?_⟩
  intro i j k l hi hj hk hl
  have b2 : k * ds.length + l < is.length * ds.length := by
    calc k * ds.length + l < k * ds.length + ds.length := by omega
      _ = (k + 1) * ds.length := by ring
      _ ≤ is.length * ds.length := Nat.mul_le_mul_right _ hk
  have b3 : j * (is.length * ds.length) + (k * ds.length + l) < mms.length * (is.length * ds.length) := by
    calc j * (is.length * ds.length) + (k * ds.length + l) < j * (is.length * ds.length) + is.length * ds.length := by
          omega
      _ = (j + 1) * (is.length * ds.length) := by ring
      _ ≤ mms.length * (is.length * ds.length) := Nat.mul_le_mul_right _ hj
  have e : ((i * mms.length + j) * is.length + k) * ds.length + l =
      i * (mms.length * (is.length * ds.length)) + (j * (is.length * ds.length) + (k * ds.length + l)) := by ring
  rw [e, getElem?_flatMap _ _ e3 _ _ _ b3, List.getElem?_eq_getElem hi, Option.bind_some,
    getElem?_flatMap _ _ (e2 _) _ _ _ b2, List.getElem?_eq_getElem hj, Option.bind_some,
    getElem?_flatMap _ _ (e1 _ _) _ _ _ hl, List.getElem?_eq_getElem hk, Option.bind_some]
  simp [hl]

variable {D : Type} [FloatOps D] [Wide F D]

/-- **C72** (names). The factory knows exactly the names "rebalancing" and "stop"; any other name is a failed assertion.
The default batches consist of 20 rebalancing traders and of 144 stop traders. -/
theorem C72_names (name : String) :
    ((∃ b, (getTrader name : Res (BuiltIn F)) = .ok b) ↔ name = "rebalancing" ∨ name = "stop") ∧
    (name ≠ "rebalancing" → name ≠ "stop" → (getTrader name : Res (BuiltIn F)) = .error .assertion ∧
      (getBatchOfTraders name : Res (List (BuiltIn F))) = .error .assertion) ∧
    (∃ cfg, (getTrader "rebalancing" : Res (BuiltIn F)) = .ok (.rebalancing cfg)) ∧
    (∃ cfg, (getTrader "stop" : Res (BuiltIn F)) = .ok (.stop cfg)) ∧
    (∃ l : List (BuiltIn F), getBatchOfTraders "rebalancing" = .ok l ∧ l.length = 20 ∧
      ∀ b ∈ l, ∃ cfg, b = .rebalancing cfg) ∧
    (∃ l : List (BuiltIn F), getBatchOfTraders "stop" = .ok l ∧ l.length = 144 ∧ ∀ b ∈ l, ∃ cfg, b = .stop cfg) := by
  have ne : ("stop" : String) ≠ "rebalancing" := by decide
  refine ⟨?_, ?_, ⟨_, rfl⟩, ⟨_, rfl⟩, ⟨_, rfl, ?_, ?_⟩, ⟨_, rfl, ?_, ?_⟩⟩
  · constructor
    · rintro ⟨b, hb⟩
      by_contra hc
      push Not at hc
      unfold getTrader at hb
      rw [if_neg hc.1] at hb
      simp [assertThat, hc.2, bind, Except.bind] at hb
    · rintro (rfl | rfl)
      · exact ⟨_, rfl⟩
      · exact ⟨_, rfl⟩
  · intro h1 h2
    unfold getTrader getBatchOfTraders
    rw [if_neg h1, if_neg h1]
    simp [assertThat, h2, bind, Except.bind]
  · rw [(C72_rebalancing_grid _ _).1]; rfl
  · intro b hb
    rw [rebalancingBatch_eq] at hb
    simp only [List.mem_flatMap, List.mem_map] at hb
    obtain ⟨a, -, e, -, rfl⟩ := hb
    exact ⟨_, rfl⟩
  · rw [(C72_stop_grid _ _ _ _).1]; rfl
  · intro b hb
    rw [stopBatch_eq] at hb
    simp only [List.mem_flatMap, List.mem_map] at hb
    obtain ⟨_, -, _, -, _, -, _, -, rfl⟩ := hb
    exact ⟨_, rfl⟩

/-- Which traders a default batch has, given that its parameter lists are those of the specification. -/
theorem default_grid {D : Type} [FloatOps D] [Wide F D]
    (ha : (defaultAlphas : List F) = [10, 30, 50, 70, 90].map (percent F))
    (he : (defaultEpsilons : List F) = [1, 5, 10, 20].map (percent F))
    (hm : (defaultMargins : List F) = [5, 10, 15, 20].map (percent F))
    (hr : (defaultRates : List F) = [1, 5, 10].map (percent F)) :
    (∀ l : List (BuiltIn F), getBatchOfTraders "rebalancing" = .ok l → ∀ b,
      b ∈ l ↔ ∃ cfg, b = .rebalancing cfg ∧ OnRebalancingGrid cfg) ∧
    (∀ l : List (BuiltIn F), getBatchOfTraders "stop" = .ok l → ∀ b, b ∈ l ↔ ∃ cfg, b = .stop cfg ∧ OnStopGrid cfg) := by
  constructor
  · intro l hl b
    unfold getBatchOfTraders at hl
    rw [if_pos rfl] at hl
    have hl := Except.ok.inj hl
    rw [← hl, rebalancingBatch_eq, ha, he]
    simp only [List.mem_flatMap, List.mem_map]
    constructor
    · rintro ⟨a, ⟨p, hp, rfl⟩, e, ⟨q, hq, rfl⟩, rfl⟩
      exact ⟨_, rfl, ⟨p, hp, rfl⟩, q, hq, rfl⟩
    · rintro ⟨⟨a, e⟩, rfl, ⟨p, hp, h1⟩, q, hq, h2⟩
      exact ⟨a, ⟨p, hp, h1.symm⟩, e, ⟨q, hq, h2.symm⟩, rfl⟩
  · intro l hl b
    unfold getBatchOfTraders at hl
    rw [if_neg (by decide)] at hl
    obtain ⟨-, hl⟩ := assertThat_bind_ok hl
    have hl := Except.ok.inj hl
    rw [← hl, stopBatch_eq, hm, hr]
    simp only [List.mem_flatMap, List.mem_map]
    constructor
    · rintro ⟨m, ⟨p, hp, rfl⟩, mm, ⟨q, hq, rfl⟩, i, ⟨u, hu, rfl⟩, d, ⟨v, hv, rfl⟩, rfl⟩
      exact ⟨_, rfl, ⟨p, hp, rfl⟩, ⟨q, hq, rfl⟩, ⟨u, hu, rfl⟩, v, hv, rfl⟩
    · rintro ⟨⟨m, mm, i, d⟩, rfl, ⟨p, hp, h1⟩, ⟨q, hq, h2⟩, ⟨u, hu, h3⟩, v, hv, h4⟩
      exact ⟨m, ⟨p, hp, h1.symm⟩, mm, ⟨q, hq, h2.symm⟩, i, ⟨u, hu, h3.symm⟩, d, ⟨v, hv, h4.symm⟩, rfl⟩

end generic

section exact
variable {K : Type} [Field K] [LinearOrder K] [IsStrictOrderedRing K] [FloorRing K]

/-- **C72** (preconditions). Every trader the factory makes has sensible parameters. -/
theorem C72_parameters_clean (name : String) :
    (∀ b, (getTrader name : Res (BuiltIn K)) = .ok b → CleanParameters b) ∧
    (∀ l : List (BuiltIn K), getBatchOfTraders name = .ok l → ∀ b ∈ l, CleanParameters b) := by
  constructor
  · intro b hb
    unfold getTrader at hb
    split at hb
    · cases hb
      simp only [CleanParameters, ex_ofRat]
      norm_num
    · obtain ⟨-, hb⟩ := assertThat_bind_ok hb
      cases hb
      simp only [CleanParameters, ex_ofRat]
      norm_num
  · intro l hl b hb
    unfold getBatchOfTraders at hl
    split at hl
    · have hl := Except.ok.inj hl
      rw [← hl] at hb
      rw [rebalancingBatch_eq] at hb
      simp only [List.mem_flatMap, List.mem_map] at hb
      obtain ⟨a, ha, e, he, rfl⟩ := hb
      simp only [defaultAlphas, defaultEpsilons, ex_ofRat, List.mem_cons, List.not_mem_nil, or_false] at ha he
      simp only [CleanParameters]
      refine ⟨?_, ?_⟩
      · rcases ha with rfl | rfl | rfl | rfl | rfl <;> norm_num
      · rcases he with rfl | rfl | rfl | rfl <;> norm_num
    · obtain ⟨-, hl⟩ := assertThat_bind_ok hl
      have hl := Except.ok.inj hl
      rw [← hl] at hb
      rw [stopBatch_eq] at hb
      simp only [List.mem_flatMap, List.mem_map] at hb
      obtain ⟨m, hm, mm, hmm, i, -, d, -, rfl⟩ := hb
      simp only [defaultMargins, dlit, ex_ofRat, ex_narrow, List.mem_cons, List.not_mem_nil, or_false] at hm hmm
      simp only [CleanParameters]
      refine ⟨?_, ?_, ?_⟩
      · rcases hm with rfl | rfl | rfl | rfl <;> norm_num
      · rcases hm with rfl | rfl | rfl | rfl <;> norm_num
      · rcases hmm with rfl | rfl | rfl | rfl <;> norm_num

/-- **C72** (default grids). The default batches contain the traders of the documented grids and no others. -/
theorem C72_default_grid :
    (∀ l : List (BuiltIn K), getBatchOfTraders "rebalancing" = .ok l → ∀ b,
      b ∈ l ↔ ∃ cfg, b = .rebalancing cfg ∧ OnRebalancingGrid cfg) ∧
    (∀ l : List (BuiltIn K), getBatchOfTraders "stop" = .ok l → ∀ b, b ∈ l ↔ ∃ cfg, b = .stop cfg ∧ OnStopGrid cfg) := by
  refine default_grid ?_ ?_ ?_ ?_ <;>
    simp only [defaultAlphas, defaultEpsilons, defaultMargins, defaultRates, dlit, percent, ex_ofRat, ex_narrow, List.map_cons,
      List.map_nil] <;> norm_num

/-- **C72** (default trader). The single trader that the factory makes is one of the default batch of the same name. -/
theorem C72_default_in_batch (name : String) (b : BuiltIn K) (h : getTrader name = .ok b) :
    ∃ l : List (BuiltIn K), getBatchOfTraders name = .ok l ∧ b ∈ l := by
  unfold getTrader at h
  unfold getBatchOfTraders
  split at h
  · rename_i hn
    rw [if_pos hn]
    cases h
    refine ⟨_, rfl, ?_⟩
    rw [rebalancingBatch_eq]
    simp only [List.mem_flatMap, List.mem_map]
    exact ⟨_, by simp [defaultAlphas], _, by simp [defaultEpsilons], rfl⟩
  · rename_i hn
    rw [if_neg hn]
    obtain ⟨hs, h⟩ := assertThat_bind_ok h
    cases h
    refine ⟨_, by rw [hs]; rfl, ?_⟩
    rw [stopBatch_eq]
    simp only [List.mem_flatMap, List.mem_map]
    exact ⟨_, by simp [defaultMargins, dlit], _, by simp [defaultMargins, dlit], _, by simp [defaultRates, dlit], _,
      by simp [defaultRates, dlit], rfl⟩

/-- **C72** (default trader, `float`). The same for `float` parameters, where the batch of stop traders gets its parameters
from `double` literals. -/
theorem C72_default_in_batch_f32 (name : String) (b : BuiltIn F32) (h : getTrader name = .ok b) :
    ∃ l : List (BuiltIn F32), getBatchOfTraders name = .ok l ∧ b ∈ l := by
  unfold getTrader at h
  unfold getBatchOfTraders
  split at h
  · rename_i hn
    rw [if_pos hn]
    cases h
    exact ⟨_, rfl, by decide +kernel⟩
  · rename_i hn
    rw [if_neg hn]
    obtain ⟨hs, h⟩ := assertThat_bind_ok h
    cases h
    exact ⟨_, by rw [hs]; rfl, by decide +kernel⟩

/-- **C72** (default grids, `float`). In binary32 each parameter is the `float` nearest to the percentage, also where the code
goes through a `double` literal; and no trader occurs twice. -/
theorem C72_default_grid_f32 :
    (∀ l : List (BuiltIn F32), getBatchOfTraders "rebalancing" = .ok l → l.Nodup ∧ ∀ b,
      b ∈ l ↔ ∃ cfg, b = .rebalancing cfg ∧ OnRebalancingGrid cfg) ∧
    (∀ l : List (BuiltIn F32), getBatchOfTraders "stop" = .ok l → l.Nodup ∧ ∀ b,
      b ∈ l ↔ ∃ cfg, b = .stop cfg ∧ OnStopGrid cfg) := by
  have h := default_grid (F := F32) (by decide +kernel) (by decide +kernel) (by decide +kernel) (by decide +kernel)
  refine ⟨fun l hl => ⟨?_, h.1 l hl⟩, fun l hl => ⟨?_, h.2 l hl⟩⟩
  · unfold getBatchOfTraders at hl
    rw [if_pos rfl] at hl
    rw [← Except.ok.inj hl]
    decide +kernel
  · unfold getBatchOfTraders at hl
    rw [if_neg (by decide)] at hl
    obtain ⟨-, hl⟩ := assertThat_bind_ok hl
    rw [← Except.ok.inj hl]
    decide +kernel

/-- **C72** (with C59). Evaluating a default batch on clean data delivers all results, under every fair schedule. -/
theorem C72_default_batch_completes [Libm K] {recs : Option (List (SideInputRecord K))} (fmt : Format K) (name : String)
    (l : List (BuiltIn K)) (hl : getBatchOfTraders name = .ok l) (c : AccountConfig K) (hc : CleanAccount c)
    (side : Option (SideInput K)) (hside : SideOf recs side) (history : List (OhlcTick K)) (hh : CleanHistory history)
    (cfg : EvalConfig) (h0 : 0 < cfg.months) (h1 : cfg.months < 2 ^ 31 - 12)
    (h2 : cfg.stop - cfg.start ≤ 28 * 86400 * (2 ^ 31 - 14)) (schedule : List ℕ)
    (hfair : ∀ k < l.length, 2 ^ 31 + 1 ≤ schedule.count k) :
    ∃ tasks rs, batchRun (l.map (fun b => ⟨c, cfg, history, side, b.emitter fmt⟩)) schedule
        (batchStart (l.map (fun b => ⟨c, cfg, history, side, b.emitter fmt⟩))) = .ok tasks ∧
      batchResults tasks = some rs := by
  refine C59_batch_never_aborts (recs := recs) (fmt := fmt) _ ?_ _ (by simpa using hfair)
  intro i hi
  obtain ⟨b, hb, rfl⟩ := List.mem_map.mp hi
  exact ⟨⟨hside, ⟨b, (C72_parameters_clean name).2 l hl b hb, rfl⟩, hc, hh⟩, h0, h1, h2⟩

end exact

/-! ### Non-vacuity: a 2 × 3 grid, and the default batches in binary32 -/

example : rebalancingBatch [(1 : ℚ), 2] [3, 4, 5] =
    [.rebalancing ⟨1, 3⟩, .rebalancing ⟨1, 4⟩, .rebalancing ⟨1, 5⟩,
     .rebalancing ⟨2, 3⟩, .rebalancing ⟨2, 4⟩, .rebalancing ⟨2, 5⟩] := by decide +kernel

/-- The default parameters as `float`s: 0.7f is not 7/10. -/
example : (defaultAlphas : List F32)[3]? = some (.fin (11744051 / 16777216)) := by decide +kernel

/-- In binary32 too, all default margins and rates lie strictly between 0 and 1. -/
theorem C72_parameters_binary32 :
    (∀ x ∈ (defaultAlphas ++ defaultEpsilons ++ defaultMargins ++ defaultRates : List F32),
      (lit F32 0 <. x) = true ∧ (x <. lit F32 1) = true) := by decide +kernel

end Verif.Props
