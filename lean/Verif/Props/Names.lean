import Verif.Props.Printing
import Verif.Props.Factory
import Verif.Props.Batch

/-!
# C120: the name of a trader tells its configuration
-/

namespace Verif.Props.Names
open Verif Verif.Spec Verif.Logger Verif.Props FloatOps

variable {f : Fmt}

/-- A number as it appears in a name: three decimals, or a word. -/
theorem no_bar (x : Fl f) : ∀ c ∈ printFixed 3 x, c ≠ '|' ∧ c ≠ ']' := by
  obtain ⟨h1, h2, h3, h4, h5⟩ := C70_numbers (f := f)
  cases x with
  | nan => rw [h3]; decide
  | inf b => cases b <;> [rw [h4]; rw [h5]] <;> decide
  | negZero => rw [h2]; decide
  | fin q =>
    obtain ⟨v, ⟨neg, whole, frac, ht, -, hw, -, hf, -⟩, -⟩ := h1 q
    have dig : ∀ c : Char, c.isDigit → c ≠ '|' ∧ c ≠ ']' := fun c hc =>
      ⟨fun e => by rw [e] at hc; exact absurd hc (by decide), fun e => by rw [e] at hc; exact absurd hc (by decide)⟩
    rw [ht]
    intro c hc
    rcases List.mem_append.mp hc with hc | hc
    · rcases List.mem_append.mp hc with hc | hc
      · cases neg <;> simp at hc; subst hc; decide
      · exact dig c (hw c hc)
    · rcases List.mem_cons.mp hc with rfl | hc
      · decide
      · exact dig c (hf c hc)

theorem cut_unique {sep : Char} : ∀ {a b r s : Text}, sep ∉ a → sep ∉ b → a ++ sep :: r = b ++ sep :: s → a = b ∧ r = s
  | [], [], _, _, _, _, h => ⟨rfl, (List.cons.inj h).2⟩
  | [], y :: b, _, _, _, hb, h => absurd ((List.cons.inj h).1 ▸ List.mem_cons_self) hb
  | x :: a, [], _, _, ha, _, h => absurd ((List.cons.inj h).1 ▸ List.mem_cons_self) ha
  | x :: a, y :: b, r, s, ha, hb, h => by
    obtain ⟨h1, h2⟩ := List.cons.inj h
    obtain ⟨h3, h4⟩ := cut_unique (fun m => ha (List.mem_cons_of_mem _ m)) (fun m => hb (List.mem_cons_of_mem _ m)) h2
    exact ⟨by rw [h1, h3], h4⟩

/-- A text shows at most one decimal number. -/
theorem shows_unique {n : ℕ} {text : Text} {v w : ℚ} (h : ShowsDecimal n text v) (h' : ShowsDecimal n text w) : v = w := by
  obtain ⟨neg, whole, frac, ht, hne, hw, -, -, hv⟩ := h
  obtain ⟨neg', whole', frac', ht', hne', hw', -, -, hv'⟩ := h'
  have hd : ∀ {l : Text}, (∀ c ∈ l, c.isDigit) → '.' ∉ l := fun hl hm => absurd (hl _ hm) (by decide)
  have hm : ∀ {l r : Text} {s : Text}, l ≠ [] → (∀ c ∈ l, c.isDigit) → '-' :: s = l ++ r → False := by
    intro l r s hl hdig e
    cases l with
    | nil => exact hl rfl
    | cons c cs =>
      obtain rfl := (List.cons.inj e).1
      exact absurd (hdig _ List.mem_cons_self) (by decide)
  rw [ht] at ht'
  have key : neg = neg' ∧ whole = whole' ∧ frac = frac' := by
    cases neg <;> cases neg' <;> simp only [Bool.false_eq_true, if_false, if_true, List.nil_append, List.cons_append] at ht'
    · exact ⟨rfl, cut_unique (hd hw) (hd hw') ht'⟩
    · exact (hm hne hw ht'.symm).elim
    · exact (hm hne' hw' ht').elim
    · exact ⟨rfl, cut_unique (hd hw) (hd hw') (List.cons.inj ht').2⟩
  obtain ⟨rfl, rfl, rfl⟩ := key
  rw [hv, hv']

/-- Numbers that look the same differ by at most a thousandth. -/
theorem same_close {p q : ℚ} (h : printFixed 3 (.fin p : Fl f) = printFixed 3 (.fin q : Fl f)) : |p - q| ≤ 1 / 1000 := by
  obtain ⟨v, hv, hp⟩ := (C70_numbers (f := f)).1 p
  obtain ⟨w, hw, hq⟩ := (C70_numbers (f := f)).1 q
  rw [h] at hv
  obtain rfl := shows_unique hv hw
  rw [abs_le] at *
  constructor <;> linarith

theorem bar_text : "|".toList = ['|'] := by decide
theorem close_text : "]".toList = [']'] := by decide

theorem toList_two (s t u : String) (a b : Text) :
    (s ++ String.ofList a ++ t ++ String.ofList b ++ u).toList = s.toList ++ (a ++ (t.toList ++ (b ++ u.toList))) := by
  simp only [String.toList_append, String.toList_ofList, List.append_assoc]

theorem toList_four (s t u : String) (a b c d : Text) :
    (s ++ String.ofList a ++ t ++ String.ofList b ++ t ++ String.ofList c ++ t ++ String.ofList d ++ u).toList =
      s.toList ++ (a ++ (t.toList ++ (b ++ (t.toList ++ (c ++ (t.toList ++ (d ++ u.toList))))))) := by
  simp only [String.toList_append, String.toList_ofList, List.append_assoc]

/-- The name of a rebalancing trader as a sequence of characters. -/
theorem rebalancing_name (cfg : RebalancingConfig (Fl f)) : (rebalancingEmitter (abslFormat f) cfg).name.toList =
    "rebalancing-trader[".toList ++ (printFixed 3 cfg.alpha ++ '|' :: (printFixed 3 cfg.epsilon ++ ']' :: [])) := by
  refine (toList_two _ _ _ _ _).trans ?_
  rw [bar_text, close_text]
  rfl

/-- The name of a stop trader as a sequence of characters. -/
theorem stop_name [Libm (Fl f)] (cfg : StopConfig (Fl f)) : (stopEmitter (abslFormat f) cfg).name.toList =
    "stop-trader[".toList ++ (printFixed 3 cfg.margin ++ '|' :: (printFixed 3 cfg.moveMargin ++ '|' ::
      (printFixed 3 cfg.increasePerDay ++ '|' :: (printFixed 3 cfg.decreasePerDay ++ ']' :: [])))) := by
  refine (toList_four _ _ _ _ _ _ _).trans ?_
  rw [bar_text, close_text]
  rfl

/-- **C120** (rebalancing traders). The name shows alpha and epsilon, in this order, each within 0.0005. -/
theorem C120_rebalancing (alpha epsilon : ℚ) : ∃ a e va ve,
    (rebalancingEmitter (abslFormat f) ⟨.fin alpha, .fin epsilon⟩).name.toList =
      "rebalancing-trader[".toList ++ a ++ "|".toList ++ e ++ "]".toList ∧
    ShowsDecimal 3 a va ∧ |va - alpha| ≤ 1 / 2000 ∧ ShowsDecimal 3 e ve ∧ |ve - epsilon| ≤ 1 / 2000 := by
  obtain ⟨va, ha, ha'⟩ := (C70_numbers (f := f)).1 alpha
  obtain ⟨ve, he, he'⟩ := (C70_numbers (f := f)).1 epsilon
  refine ⟨_, _, va, ve, ?_, ha, ha', he, he'⟩
  rw [rebalancing_name]
  simp only [bar_text, close_text, List.append_assoc, List.cons_append, List.nil_append]

/-- **C120** (stop traders). The name shows the margin, the margin for moving, and the increase and the decrease per day, in this
order, each within 0.0005. -/
theorem C120_stop [Libm (Fl f)] (margin moveMargin increase decrease : ℚ) : ∃ a b c d va vb vc vd,
    (stopEmitter (abslFormat f) ⟨.fin margin, .fin moveMargin, .fin increase, .fin decrease⟩).name.toList =
      "stop-trader[".toList ++ a ++ "|".toList ++ b ++ "|".toList ++ c ++ "|".toList ++ d ++ "]".toList ∧
    (ShowsDecimal 3 a va ∧ |va - margin| ≤ 1 / 2000) ∧ (ShowsDecimal 3 b vb ∧ |vb - moveMargin| ≤ 1 / 2000) ∧
    (ShowsDecimal 3 c vc ∧ |vc - increase| ≤ 1 / 2000) ∧ (ShowsDecimal 3 d vd ∧ |vd - decrease| ≤ 1 / 2000) := by
  obtain ⟨va, ha⟩ := (C70_numbers (f := f)).1 margin
  obtain ⟨vb, hb⟩ := (C70_numbers (f := f)).1 moveMargin
  obtain ⟨vc, hc⟩ := (C70_numbers (f := f)).1 increase
  obtain ⟨vd, hd⟩ := (C70_numbers (f := f)).1 decrease
  refine ⟨_, _, _, _, va, vb, vc, vd, ?_, ha, hb, hc, hd⟩
  rw [stop_name]
  simp only [bar_text, close_text, List.append_assoc, List.cons_append, List.nil_append]

theorem rebalancing_same (a b : RebalancingConfig (Fl f))
    (h : (rebalancingEmitter (abslFormat f) a).name = (rebalancingEmitter (abslFormat f) b).name) :
    printFixed 3 a.alpha = printFixed 3 b.alpha ∧ printFixed 3 a.epsilon = printFixed 3 b.epsilon := by
  have h := congrArg String.toList h
  rw [rebalancing_name, rebalancing_name] at h
  have nb : ∀ x : Fl f, '|' ∉ printFixed 3 x := fun x m => (no_bar x _ m).1 rfl
  obtain ⟨h1, h2⟩ := cut_unique (nb _) (nb _) (List.append_cancel_left h)
  exact ⟨h1, List.append_cancel_right h2⟩

theorem stop_same [Libm (Fl f)] (a b : StopConfig (Fl f)) (h : (stopEmitter (abslFormat f) a).name = (stopEmitter (abslFormat f) b).name) :
    printFixed 3 a.margin = printFixed 3 b.margin ∧ printFixed 3 a.moveMargin = printFixed 3 b.moveMargin ∧
    printFixed 3 a.increasePerDay = printFixed 3 b.increasePerDay ∧ printFixed 3 a.decreasePerDay = printFixed 3 b.decreasePerDay := by
  have h := congrArg String.toList h
  rw [stop_name, stop_name] at h
  have nb : ∀ x : Fl f, '|' ∉ printFixed 3 x := fun x m => (no_bar x _ m).1 rfl
  obtain ⟨h1, h2⟩ := cut_unique (nb _) (nb _) (List.append_cancel_left h)
  obtain ⟨h3, h4⟩ := cut_unique (nb _) (nb _) h2
  obtain ⟨h5, h6⟩ := cut_unique (nb _) (nb _) h4
  exact ⟨h1, h3, h5, List.append_cancel_right h6⟩

/-- **C120** (what a name tells). Two rebalancing traders with the same name have parameters that differ by at most 0.001 each, and so
have two stop traders; a rebalancing trader and a stop trader never have the same name. -/
theorem C120_same_name [Libm (Fl f)] :
    (∀ a e a' e' : ℚ, (rebalancingEmitter (abslFormat f) ⟨.fin a, .fin e⟩).name = (rebalancingEmitter (abslFormat f) ⟨.fin a', .fin e'⟩).name →
      |a - a'| ≤ 1 / 1000 ∧ |e - e'| ≤ 1 / 1000) ∧
    (∀ m v i d m' v' i' d' : ℚ, (stopEmitter (abslFormat f) ⟨.fin m, .fin v, .fin i, .fin d⟩).name =
        (stopEmitter (abslFormat f) ⟨.fin m', .fin v', .fin i', .fin d'⟩).name →
      |m - m'| ≤ 1 / 1000 ∧ |v - v'| ≤ 1 / 1000 ∧ |i - i'| ≤ 1 / 1000 ∧ |d - d'| ≤ 1 / 1000) ∧
    ∀ (a : RebalancingConfig (Fl f)) (b : StopConfig (Fl f)), (rebalancingEmitter (abslFormat f) a).name ≠ (stopEmitter (abslFormat f) b).name := by
  refine ⟨fun a e a' e' h => ?_, fun m v i d m' v' i' d' h => ?_, fun a b h => ?_⟩
  · obtain ⟨h1, h2⟩ := rebalancing_same _ _ h
    exact ⟨same_close h1, same_close h2⟩
  · obtain ⟨h1, h2, h3, h4⟩ := stop_same _ _ h
    exact ⟨same_close h1, same_close h2, same_close h3, same_close h4⟩
  · have h := congrArg String.toList h
    rw [rebalancing_name, stop_name] at h
    have := congrArg List.head? h
    exact absurd this (by simp)

/-- **C120** (default batches). No two traders of a default batch have the same name. -/
theorem C120_default_batch [Libm F32] (name : String) (l : List (BuiltIn F32)) (hl : getBatchOfTraders name = .ok l) :
    (l.map (fun b => (b.emitter (abslFormat binary32)).name)).Nodup := by
  unfold getBatchOfTraders at hl
  let key : BuiltIn F32 → List Text
    | .rebalancing c => [printFixed 3 c.alpha, printFixed 3 c.epsilon]
    | .stop c => [printFixed 3 c.margin, printFixed 3 c.moveMargin, printFixed 3 c.increasePerDay, printFixed 3 c.decreasePerDay]
  have hkey : ∀ a b : BuiltIn F32, (a.emitter (abslFormat binary32)).name = (b.emitter (abslFormat binary32)).name → key a = key b := by
    intro a b h
    cases a with
    | rebalancing a =>
      cases b with
      | rebalancing b => obtain ⟨h1, h2⟩ := rebalancing_same a b h; simp only [key, h1, h2]
      | stop b => exact absurd h (C120_same_name.2.2 a b)
    | stop a =>
      cases b with
      | rebalancing b => exact absurd h.symm (C120_same_name.2.2 b a)
      | stop b => obtain ⟨h1, h2, h3, h4⟩ := stop_same a b h; simp only [key, h1, h2, h3, h4]
  suffices h : (l.map key).Nodup by
    rw [List.Nodup, List.pairwise_map] at h ⊢
    exact h.imp (fun hn he => hn (hkey _ _ he))
  split at hl
  · rw [← Except.ok.inj hl]
    decide +kernel
  · obtain ⟨-, hl⟩ := assertThat_bind_ok hl
    rw [← Except.ok.inj hl]
    decide +kernel

/-- **C120** (results). The results of a default batch carry the names of its traders, in their order, hence no two have the same name,
whatever the schedule. -/
theorem C120_results [Libm F32] [Libm F64] (name : String) (l : List (BuiltIn F32)) (hl : getBatchOfTraders name = .ok l) (c : AccountConfig F32)
    (cfg : EvalConfig) (history : List (OhlcTick F32)) (side : Option (SideInput F32)) (schedule : List ℕ) (tasks : List (Task F32))
    (rs : List (EvaluationResult F32))
    (h : batchRun (l.map (fun b => ⟨c, cfg, history, side, b.emitter (abslFormat binary32)⟩)) schedule
      (batchStart (l.map (fun b => ⟨c, cfg, history, side, b.emitter (abslFormat binary32)⟩))) = .ok tasks)
    (hr : batchResults tasks = some rs) :
    rs.map (·.name) = l.map (fun b => (b.emitter (abslFormat binary32)).name) ∧ (rs.map (·.name)).Nodup := by
  have h2 := C37_batch _ schedule h hr
  have key : rs.map (·.name) = l.map (fun b => (b.emitter (abslFormat binary32)).name) := by
    clear hl h hr
    induction l generalizing rs with
    | nil => cases h2; rfl
    | cons b l ih =>
      cases h2 with
      | cons h3 h4 => rw [List.map_cons, List.map_cons, ih _ h4, (C35_echo _ _ h3).2.2]
  exact ⟨key, by rw [key]; exact C120_default_batch name l hl⟩

/-! ## Concrete cases -/

example : ShowsDecimal 3 (printFixed 3 (.fin (1 / 3) : F32)) (333 / 1000) :=
  ⟨false, ['0'], ['3', '3', '3'], by decide +kernel, by decide, by decide, by decide, by decide, by decide +kernel⟩

example : (rebalancingEmitter (abslFormat binary32) ⟨.fin (7 / 10), .fin (1 / 16)⟩).name.toList = "rebalancing-trader[0.700|0.062]".toList := by
  rw [rebalancing_name]; decide +kernel

example [Libm F32] : (stopEmitter (abslFormat binary32) ⟨.fin (1 / 10), .fin (2 / 10), .fin (3 / 100), .nan⟩).name.toList =
    "stop-trader[0.100|0.200|0.030|nan]".toList := by
  rw [stop_name]; decide +kernel

/-- Two different configurations whose names coincide: a name tells no more than three decimals. -/
example : (rebalancingEmitter (abslFormat binary32) ⟨.fin (7 / 10), .fin (1 / 16)⟩).name.toList =
    (rebalancingEmitter (abslFormat binary32) ⟨.fin (7 / 10), .fin (31 / 500)⟩).name.toList := by
  rw [rebalancing_name, rebalancing_name]; decide +kernel

/-- Both default batches exist. -/
example : (∃ l : List (BuiltIn F32), getBatchOfTraders "rebalancing" = .ok l ∧ l.length = 20) ∧
    ∃ l : List (BuiltIn F32), getBatchOfTraders "stop" = .ok l ∧ l.length = 144 :=
  ⟨⟨_, rfl, by decide +kernel⟩, ⟨_, rfl, by decide +kernel⟩⟩

end Verif.Props.Names
