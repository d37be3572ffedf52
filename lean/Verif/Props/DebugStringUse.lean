import Verif.Props.DebugString

/-!
# What the configurations that trader.cc prints say about a run (C109)
-/

namespace Verif.Props
open Verif Verif.Spec Verif.FloatOps Verif.DebugString Verif.TraderMain

private theorem narrow_repr (x : F64) : (Wide.narrow x : F32).Repr := by
  change (Fl.cvt x : F32).Repr
  cases x with
  | nan => trivial
  | inf => trivial
  | negZero => trivial
  | fin q => exact Fl.ofRat_repr (by decide) (by decide) _

private theorem lit_repr (q : ℚ) : (lit F32 q).Repr := Fl.ofRat_repr (by decide) (by decide) _

/-- **C109** (all flags). The configuration that trader.cc builds consists of floats, whatever the flags are. -/
theorem C109_floats (fl : Flags F64) : AccountFloats (accountConfig fl) :=
  ⟨⟨narrow_repr _, narrow_repr _, lit_repr _, lit_repr _, narrow_repr _, narrow_repr _⟩,
    ⟨lit_repr _, lit_repr _, lit_repr _⟩, ⟨lit_repr _, lit_repr _, lit_repr _⟩, ⟨lit_repr _, lit_repr _, lit_repr _⟩⟩

section
variable [Libm F32] [Libm F64]

private theorem runBatch_prefix (env : Env F32) (fl : Flags F64) (cfg : EvalConfig) (ticks : List (OhlcTick F32))
    (side : Option (SideInput F32)) (w : Files) (lines : List Text) : lines <+: (runBatch env fl cfg ticks side w lines).lines := by
  unfold runBatch
  dsimp only
  split
  · exact List.prefix_append _ _
  · split
    · exact List.prefix_append _ _
    · split
      · exact List.prefix_append _ _
      · split
        · simp only [List.append_assoc]; exact List.prefix_append _ _
        · exact List.prefix_append _ _

private theorem runSingle_prefix (env : Env F32) (fl : Flags F64) (cfg : EvalConfig) (ticks : List (OhlcTick F32))
    (side : Option (SideInput F32)) (w : Files) (lines : List Text) : lines <+: (runSingle env fl cfg ticks side w lines).lines := by
  unfold runSingle
  dsimp only
  split
  · exact List.prefix_refl _
  · split
    · exact List.prefix_append _ _
    · split
      · exact List.prefix_append _ _
      · split
        · exact List.prefix_append _ _
        · simp only [List.append_assoc]; exact List.prefix_append _ _

private theorem evaluate_prefix (env : Env F32) (fl : Flags F64) (cfg : EvalConfig) (ticks : List (OhlcTick F32))
    (side : Option (SideInput F32)) (w : Files) (lines : List Text) : lines <+: (evaluate env fl cfg ticks side w lines).lines := by
  unfold evaluate
  split
  · exact runBatch_prefix ..
  · exact runSingle_prefix ..

private theorem readInputs_prefix (env : Env F32) (fl : Flags F64) (a b : Time.Instant) (w : Files) (lines : List Text) :
    lines <+: (readInputs env fl a b w lines).lines := by
  unfold readInputs
  dsimp only
  split
  · exact List.prefix_append _ _
  · simp only [List.append_assoc]; exact List.prefix_append _ _
  · split
    · refine List.IsPrefix.trans ?_ (evaluate_prefix ..)
      simp only [List.append_assoc]; exact List.prefix_append _ _
    · split
      · simp only [List.append_assoc]; exact List.prefix_append _ _
      · simp only [List.append_assoc]; exact List.prefix_append _ _
      · split
        · simp only [List.append_assoc]; exact List.prefix_append _ _
        · refine List.IsPrefix.trans ?_ (evaluate_prefix ..)
          simp only [List.append_assoc]; exact List.prefix_append _ _

/-- What is printed before anything is read. -/
private def head (erange : Text → Bool) (fl : Flags F64) (a b : Time.Instant) : List Text :=
  ("Trader AccountConfig:".toList :: accountLines erange (accountConfig fl)) ++ ["Selected time period:".toList,
    "[".toList ++ Time.formatTimeUTC a ++ " - ".toList ++ Time.formatTimeUTC b ++ ")".toList,
    [], "Trader EvaluationConfig:".toList] ++ evalLines ⟨a.toUnixSeconds, b.toUnixSeconds, fl.months, false⟩

variable {erange : Text → Bool} {env : Env F32}

private theorem main_head (h1 : env.debugAccount = accountLines erange) (h2 : env.debugEval = evalLines) {fl : Flags F64} (w : Files)
    {a b : Time.Instant} (ha : Time.parseTime fl.startTime = some a) (hb : Time.parseTime fl.endTime = some b) :
    main env fl w = readInputs env fl a b w (head erange fl a b) := by
  unfold main
  rw [ha, hb, h1, h2]
  rfl

private theorem opening_head (h1 : env.debugAccount = accountLines erange) (h2 : env.debugEval = evalLines) {fl : Flags F64} (w : Files)
    {a b : Time.Instant} (ha : Time.parseTime fl.startTime = some a) (hb : Time.parseTime fl.endTime = some b) :
    opening (main env fl w) = head erange fl a b := by
  rw [main_head h1 h2 w ha hb]
  obtain ⟨more, hm⟩ := readInputs_prefix env fl a b w (head erange fl a b)
  unfold opening
  rw [← hm]
  exact List.take_left' rfl

/-- A run that stops early prints fewer lines. -/
private theorem opening_short (h1 : env.debugAccount = accountLines erange) {fl : Flags F64} (w : Files)
    (h : Time.parseTime fl.startTime = none ∨ Time.parseTime fl.endTime = none) : (opening (main env fl w)).length = 23 := by
  unfold main opening
  rw [h1]
  cases ha : Time.parseTime fl.startTime with
  | none => rfl
  | some a =>
    rcases h with h | h
    · rw [ha] at h; cases h
    · rw [h]; rfl

private theorem opening_parsed (h1 : env.debugAccount = accountLines erange) (h2 : env.debugEval = evalLines) {fl fl' : Flags F64}
    {w w' : Files} {a b : Time.Instant} (ha : Time.parseTime fl.startTime = some a) (hb : Time.parseTime fl.endTime = some b)
    (hsame : opening (main env fl' w') = opening (main env fl w)) :
    ∃ a' b', Time.parseTime fl'.startTime = some a' ∧ Time.parseTime fl'.endTime = some b' := by
  have hl : (opening (main env fl' w')).length = 31 := by
    rw [hsame, opening_head h1 h2 w ha hb]; rfl
  cases ha' : Time.parseTime fl'.startTime with
  | none => rw [opening_short h1 w' (.inl ha')] at hl; cases hl
  | some a' =>
    cases hb' : Time.parseTime fl'.endTime with
    | none => rw [opening_short h1 w' (.inr hb')] at hl; cases hl
    | some b' => exact ⟨a', b', rfl, rfl⟩

omit [Libm F32] [Libm F64] in
private theorem head_parts {fl fl' : Flags F64} {a b a' b' : Time.Instant} (h : head erange fl' a' b' = head erange fl a b) :
    (accountConfig fl' : AccountConfig F32) = accountConfig fl ∧
    Time.formatTimeUTC a' ++ " - ".toList ++ Time.formatTimeUTC b' = Time.formatTimeUTC a ++ " - ".toList ++ Time.formatTimeUTC b ∧
    a'.toUnixSeconds = a.toUnixSeconds ∧ b'.toUnixSeconds = b.toUnixSeconds ∧ fl'.months = fl.months := by
  unfold head at h
  obtain ⟨h, h3⟩ := List.append_inj' h rfl
  obtain ⟨h, h4⟩ := List.append_inj' h rfl
  have e1 := C109_account erange _ _ (C109_floats fl') (C109_floats fl) (List.cons.inj h).2
  obtain ⟨e3, e4, e5⟩ := C109_evaluation _ _ h3
  refine ⟨e1, ?_, e3, e4, e5⟩
  simp only [List.cons.injEq, true_and, and_true] at h4
  have h5 := List.append_cancel_right h4
  simp only [List.append_assoc] at h5 ⊢
  exact List.append_cancel_left h5

/-- **C109** (run). What trader.cc prints before it reads anything says on which account and over which period it evaluates: whoever
sees the same lines has the same balances, units, fees, liquidity and volume ratio, the same period and the same number of months. -/
theorem C109_trader (h1 : env.debugAccount = accountLines erange) (h2 : env.debugEval = evalLines)
    (fl fl' : Flags F64) (w w' : Files) (a b : Time.Instant)
    (ha : Time.parseTime fl.startTime = some a) (hb : Time.parseTime fl.endTime = some b)
    (hsame : opening (main env fl' w') = opening (main env fl w)) :
    (accountConfig fl' : AccountConfig F32) = accountConfig fl ∧ fl'.months = fl.months ∧
    ∃ a' b', Time.parseTime fl'.startTime = some a' ∧ Time.parseTime fl'.endTime = some b' ∧
      a'.toUnixSeconds = a.toUnixSeconds ∧ b'.toUnixSeconds = b.toUnixSeconds := by
  obtain ⟨a', b', ha', hb'⟩ := opening_parsed h1 h2 ha hb hsame
  rw [opening_head h1 h2 w ha hb, opening_head h1 h2 w' ha' hb'] at hsame
  obtain ⟨e1, -, e3, e4, e5⟩ := head_parts hsame
  exact ⟨e1, e5, a', b', ha', hb', e3, e4⟩

private theorem runBatch_same {fl fl' : Flags F64} (hn : SameNames fl fl')
    (hc : (accountConfig fl' : AccountConfig F32) = accountConfig fl) (cfg : EvalConfig) (ticks : List (OhlcTick F32))
    (side : Option (SideInput F32)) (w : Files) (lines : List Text) :
    runBatch env fl' cfg ticks side w lines = runBatch env fl cfg ticks side w lines := by
  unfold runBatch
  rw [hn.trader, hc]

private theorem runSingle_same {fl fl' : Flags F64} (hn : SameNames fl fl')
    (hc : (accountConfig fl' : AccountConfig F32) = accountConfig fl) (hm : fl'.months = fl.months) (cfg : EvalConfig)
    (ticks : List (OhlcTick F32)) (side : Option (SideInput F32)) (w : Files) (lines : List Text) :
    runSingle env fl' cfg ticks side w lines = runSingle env fl cfg ticks side w lines := by
  have hw : ∀ w l, writeLogs fl' w l = writeLogs fl w l := fun w l => by
    unfold writeLogs; rw [hn.exchangeLog, hn.traderLog]
  unfold runSingle
  simp only [hn.trader, hc, hm, hn.exchangeLog, hn.traderLog, hw]

private theorem readInputs_same {fl fl' : Flags F64} (hn : SameNames fl fl')
    (hc : (accountConfig fl' : AccountConfig F32) = accountConfig fl) (hm : fl'.months = fl.months) {a b a' b' : Time.Instant}
    (ht : Time.formatTimeUTC a' ++ " - ".toList ++ Time.formatTimeUTC b' = Time.formatTimeUTC a ++ " - ".toList ++ Time.formatTimeUTC b)
    (h3 : a'.toUnixSeconds = a.toUnixSeconds) (h4 : b'.toUnixSeconds = b.toUnixSeconds) (w : Files) (lines : List Text) :
    readInputs env fl' a' b' w lines = readInputs env fl a b w lines := by
  have hs : ∀ n, selectedLine env.fmt n a' b' = selectedLine env.fmt n a b := fun n => by
    unfold selectedLine
    have e : ∀ p x y : Text, p ++ x ++ " - ".toList ++ y ++ ")".toList = p ++ (x ++ " - ".toList ++ y) ++ ")".toList := by
      intro p x y; simp only [List.append_assoc]
    rw [e, e, ht]
  have hev : ∀ cfg ticks side w lines, evaluate env fl' cfg ticks side w lines = evaluate env fl cfg ticks side w lines := by
    intro cfg ticks side w lines
    unfold evaluate
    rw [hn.batch, runBatch_same hn hc, runSingle_same hn hc hm]
  unfold readInputs
  simp only [h3, h4, hs, hev, hn.ohlc, hn.side, hm]

/-- **C109** (same run). The lines that are printed before anything is read, the name of the trader and those of the files determine
the whole run: everything else that is printed, the exit status and the logs. -/
theorem C109_same_run (h1 : env.debugAccount = accountLines erange) (h2 : env.debugEval = evalLines)
    (fl fl' : Flags F64) (w : Files) (hn : SameNames fl fl')
    (ha : Time.parseTime fl.startTime ≠ none) (hb : Time.parseTime fl.endTime ≠ none)
    (hsame : opening (main env fl' w) = opening (main env fl w)) : main env fl' w = main env fl w := by
  obtain ⟨a, ha⟩ := Option.ne_none_iff_exists'.mp ha
  obtain ⟨b, hb⟩ := Option.ne_none_iff_exists'.mp hb
  obtain ⟨a', b', ha', hb'⟩ := opening_parsed h1 h2 ha hb hsame
  rw [opening_head h1 h2 w ha hb, opening_head h1 h2 w ha' hb'] at hsame
  obtain ⟨e1, e2, e3, e4, e5⟩ := head_parts hsame
  rw [main_head h1 h2 w ha hb, main_head h1 h2 w ha' hb', hsame]
  exact readInputs_same hn e1 e5 e2 e3 e4 w _

end

/-! ### Examples -/

private abbrev quiet : Text → Bool := fun _ => false

private abbrev defaults : Flags F64 := defaultFlags

/-- Flags that look different but mean the same: the times are written in another way and the balance differs by less than a float
can tell. -/
private abbrev others : Flags F64 :=
  { defaults with startTime := "2017-01-01 00:00:00".toList, startBase := lit F64 (1 + 1 / 1000000000) }

example := C109_fields quiet (accountConfig defaults) (C109_floats _)
example : valueOf "base_unit" (accountLines quiet (accountConfig defaults)) = some "1e-05".toList := by decide +kernel
example : valueOf "relative_fee" (blockOf "stop_order_fee_config" (accountLines quiet (accountConfig defaults))) =
    some "0.005".toList := by decide +kernel
example := C109_account quiet (accountConfig others) (accountConfig defaults) (C109_floats _) (C109_floats _) (by decide +kernel)

example : others.startBase ≠ defaults.startBase := by decide +kernel

/-- The two runs print the same lines, and therefore everything else is the same. -/
example [Libm F32] [Libm F64] (env : Env F32) (h1 : env.debugAccount = accountLines quiet) (h2 : env.debugEval = evalLines) (w : Files) :
    main env others w = main env defaults w := by
  have a : Time.parseTime others.startTime = some (.sec 1483228800) := by decide +kernel
  have a' : Time.parseTime defaults.startTime = some (.sec 1483228800) := by decide +kernel
  have b : Time.parseTime defaults.endTime = some (.sec 1609459200) := by decide +kernel
  refine C109_same_run h1 h2 defaults others w ⟨rfl, rfl, rfl, rfl, rfl, rfl⟩ (by rw [a']; nofun) (by rw [b]; nofun) ?_
  rw [opening_head h1 h2 w a b, opening_head h1 h2 w a' b]
  unfold head
  have : (accountConfig others : AccountConfig F32) = accountConfig defaults := by decide +kernel
  rw [this]

example [Libm F32] [Libm F64] (env : Env F32) (h1 : env.debugAccount = accountLines quiet) (h2 : env.debugEval = evalLines) (w w' : Files)
    (h : opening (main env others w') = opening (main env defaults w)) :=
  C109_trader h1 h2 defaults others w w' (.sec 1483228800) (.sec 1609459200) (by decide +kernel) (by decide +kernel) h

end Verif.Props
