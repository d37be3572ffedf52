import Verif.Spec.DebugString
import Verif.Lemmas.DebugString
import Verif.Lemmas.Rounded
import Verif.Props.Scanf

/-!
# The numbers of the configurations that trader.cc prints (C109)
-/

namespace Verif.Props
open Verif Verif.Spec Verif.Convert Verif.DebugString FloatOps

/-! ### Nine digits identify a float -/

private theorem pow_gap {a b : ℤ} {e : ℤ} (h : (a : ℚ) * (2 : ℚ) ^ e ≠ b * (2 : ℚ) ^ e) :
    (2 : ℚ) ^ e ≤ |a * (2 : ℚ) ^ e - b * (2 : ℚ) ^ e| := by
  have he : (0 : ℚ) < (2 : ℚ) ^ e := zpow_pos (by norm_num) _
  rw [← sub_mul, abs_mul, abs_of_pos he]
  have hab : a - b ≠ 0 := fun h' => h (by rw [sub_eq_zero.mp h'])
  have h1 : (1 : ℚ) ≤ |(a : ℚ) - b| := by exact_mod_cast Int.one_le_abs hab
  nlinarith

/-- Different floats are apart from each other by more than a `2^25`-th of each. -/
private theorem gap {q z : ℚ} (hq : 0 < q) (h1 : (Fl.fin q : F32).Repr) (h2 : (Fl.fin z : F32).Repr) (hne : z ≠ q) :
    q / 2 ^ 25 < |z - q| := by
  obtain ⟨m, e, hm, -, -, rfl⟩ := h1
  obtain ⟨m', e', hm', -, -, rfl⟩ := h2
  have hm1 : (m : ℚ) < 2 ^ 24 := by
    have : m < 2 ^ 24 := (abs_lt.mp hm).2
    exact_mod_cast this
  have hm2 : |(m' : ℚ)| < 2 ^ 24 := by
    have : |m'| < 2 ^ 24 := hm'
    exact_mod_cast this
  have he : (0 : ℚ) < (2 : ℚ) ^ e := zpow_pos (by norm_num) _
  have he' : (0 : ℚ) < (2 : ℚ) ^ e' := zpow_pos (by norm_num) _
  rcases le_total e e' with h | h
  · obtain ⟨k, hk⟩ := Int.eq_ofNat_of_zero_le (sub_nonneg.mpr h)
    have e1 : (m' : ℚ) * (2 : ℚ) ^ e' = ((m' * 2 ^ k : ℤ) : ℚ) * (2 : ℚ) ^ e := by
      rw [show e' = e + k by omega, zpow_add₀ (by norm_num)]
      push_cast
      rw [zpow_natCast]
      ring
    rw [e1] at hne ⊢
    have hg := pow_gap hne
    refine lt_of_lt_of_le ?_ hg
    rw [div_lt_iff₀ (by norm_num)]
    nlinarith
  · obtain ⟨k, hk⟩ := Int.eq_ofNat_of_zero_le (sub_nonneg.mpr h)
    have e1 : (m : ℚ) * (2 : ℚ) ^ e = ((m * 2 ^ k : ℤ) : ℚ) * (2 : ℚ) ^ e' := by
      rw [show e = e' + k by omega, zpow_add₀ (by norm_num)]
      push_cast
      rw [zpow_natCast]
      ring
    generalize (m : ℚ) * (2 : ℚ) ^ e = q at *
    rw [e1] at hne
    have hg := pow_gap hne
    rw [← e1] at hg
    by_cases hb : q < 2 ^ 25 * (2 : ℚ) ^ e'
    · refine lt_of_lt_of_le ?_ hg
      rw [div_lt_iff₀ (by norm_num)]
      linarith
    · have hz : (m' : ℚ) * (2 : ℚ) ^ e' < q / 2 := by
        have : (m' : ℚ) < 2 ^ 24 := lt_of_le_of_lt (le_abs_self _) hm2
        nlinarith
      rw [abs_sub_comm]
      refine lt_of_lt_of_le ?_ (le_abs_self _)
      have : q / 2 ^ 25 < q / 2 := by
        rw [div_lt_div_iff₀ (by norm_num) (by norm_num)]
        linarith
      linarith

private theorem repr_le {q : ℚ} (h : (Fl.fin q : F32).Repr) : q ≤ (2 ^ 24 - 1) * 2 ^ 104 := by
  obtain ⟨m, e, hm, -, he, rfl⟩ := h
  have hm1 : (m : ℚ) ≤ 2 ^ 24 - 1 := by
    have : m ≤ 2 ^ 24 - 1 := by have := (abs_lt.mp hm).2; change m < 2 ^ 24 at this; omega
    exact_mod_cast this
  have he1 : (2 : ℚ) ^ e ≤ (2 : ℚ) ^ (104 : ℤ) := zpow_le_zpow_right₀ (by norm_num) (by change e + 24 ≤ 128 at he; omega)
  have he0 : (0 : ℚ) < (2 : ℚ) ^ e := zpow_pos (by norm_num) _
  have e3 : (2 : ℚ) ^ (104 : ℤ) = 2 ^ 104 := by norm_num
  rw [e3] at he1
  generalize (2 : ℚ) ^ e = u at *
  generalize (2 : ℚ) ^ 104 = v at *
  nlinarith

/-- What is next to a float by half a unit of its ninth digit is read as this float. -/
private theorem nine {q d : ℚ} (hq : 0 < q) (hr : (Fl.fin q : F32).Repr) (hd : |d - q| ≤ (10 : ℚ) ^ (Int.log 10 q - (9 - 1)) / 2) :
    (∀ z : ℚ, (Fl.fin z : F32).Repr → z ≠ q → |q - d| < |z - d|) ∧ |d| < (2 ^ 24 - 1 / 2) * 2 ^ 104 := by
  have hlog : (10 : ℚ) ^ Int.log 10 q ≤ q := by exact_mod_cast Int.zpow_log_le_self (by norm_num) hq
  have hd' : |d - q| ≤ q / (2 * 10 ^ 8) := by
    refine hd.trans ?_
    rw [zpow_sub₀ (by norm_num), show ((9 : ℤ) - 1) = (8 : ℕ) by norm_num, zpow_natCast, div_div, mul_comm]
    gcongr
  constructor
  · intro z hz hne
    have hg := gap hq hr hz hne
    have h3 : |z - q| ≤ |z - d| + |d - q| := by
      have := abs_add_le (z - d) (d - q)
      rwa [sub_add_sub_cancel] at this
    rw [abs_sub_comm q d]
    generalize |z - d| = a at *
    generalize |d - q| = b at *
    generalize |z - q| = c at *
    rw [div_lt_iff₀ (by norm_num)] at hg
    rw [le_div_iff₀ (by norm_num)] at hd'
    norm_num at *
    linarith
  · have hle := repr_le hr
    have h1 : |d| ≤ q + q / (2 * 10 ^ 8) := by
      have := abs_add_le q (d - q)
      rw [add_sub_cancel, abs_of_pos hq] at this
      linarith
    refine lt_of_le_of_lt h1 ?_
    have hv : (0 : ℚ) < 2 ^ 104 := by positivity
    generalize (2 : ℚ) ^ 104 = v at *
    have h2 : q + q / (2 * 10 ^ 8) = q * (1 + 1 / (2 * 10 ^ 8)) := by ring
    rw [h2]
    norm_num at *
    nlinarith

/-! ### What is printed can be read -/

private theorem lowered_text {n : Numeral} (h : ∀ m s ds, n.exponent = some (m, s, ds) → m = 'e') :
    n.text = signText n.sign ++ lowered n := by
  unfold Numeral.text lowered Numeral.exponentText
  cases he : n.exponent with
  | none => simp only [List.append_assoc]
  | some t =>
    obtain ⟨m, s, ds⟩ := t
    rw [h m s ds he]
    simp only [List.append_assoc]

private theorem same_float {x y : F32} (hx : x.IsFin) (hy : y.IsFin) (hq : x.toQ = y.toQ) (hs : x.signBit = y.signBit) : x = y := by
  cases x with
  | nan => exact hx.elim
  | inf => exact hx.elim
  | negZero =>
    cases y with
    | nan => exact hy.elim
    | inf => exact hy.elim
    | negZero => rfl
    | fin q =>
      exfalso
      have : q = 0 := hq.symm
      subst this
      simp [Fl.signBit] at hs
  | fin q =>
    cases y with
    | nan => exact hy.elim
    | inf => exact hy.elim
    | fin q' => rw [show q = q' from hq]
    | negZero =>
      exfalso
      have : q = 0 := hq
      subst this
      simp [Fl.signBit] at hs

private theorem beq_fin {x y : F32} (hy : y.IsFin) (h : FloatOps.beq x y = true) : x.IsFin ∧ x.toQ = y.toQ := by
  change Fl.beq x y = true at h
  cases x <;> cases y <;> simp_all [Fl.beq, Fl.IsFin, Fl.toQ] <;> exact of_decide_eq_true h

/-- What `%.{P}g` prints is a number, with half a unit of the last digit as the error. -/
private theorem printG_numeral {P : ℕ} (hP : 1 ≤ P) {x : F32} (hx : x.IsFin) :
    ∃ n : Numeral, n.WellFormed ∧ n.text = printG P x ∧ n.negative = x.signBit ∧
      (∀ m s ds, n.exponent = some (m, s, ds) → m = 'e') ∧
      (x.toQ = 0 → n.magnitude = 0) ∧
      (x.toQ ≠ 0 → |n.magnitude - (|x.toQ|)| ≤ (10 : ℚ) ^ (Int.log 10 |x.toQ| - (P - 1)) / 2) := by
  have hz : ∀ s, (⟨s, ['0'], none, none⟩ : Numeral).WellFormed := fun s =>
    ⟨by simp, by simp, by simp, by simp⟩
  cases x with
  | nan => exact hx.elim
  | inf => exact hx.elim
  | negZero =>
    refine ⟨⟨some true, ['0'], none, none⟩, hz _, rfl, rfl, by simp, fun _ => ?_, fun h => absurd rfl h⟩
    simp [Numeral.magnitude, Numeral.digitsValue]
  | fin q =>
    by_cases h0 : q = 0
    · subst h0
      refine ⟨⟨none, ['0'], none, none⟩, hz _, ?_, ?_, by simp, fun _ => ?_, fun h => absurd rfl h⟩
      · simp [Numeral.text, printG, signText, Numeral.fracText, Numeral.exponentText]
      · simp [Numeral.negative, Fl.signBit]
      · simp [Numeral.magnitude, Numeral.digitsValue]
    · rcases lt_or_gt_of_ne h0 with hn | hp
      · obtain ⟨n, h1, h2, h3, h4, h5⟩ := formatG_numeral hP (neg_pos.mpr hn) (some true)
        refine ⟨n, h1, ?_, ?_, h4, fun h => absurd h h0, fun _ => ?_⟩
        · rw [h3]; unfold printG; dsimp only; rw [if_neg h0, if_pos hn]; rfl
        · unfold Numeral.negative; rw [h2]; simp [Fl.signBit, hn]
        · change |n.magnitude - (|q|)| ≤ (10 : ℚ) ^ (Int.log 10 |q| - (P - 1)) / 2
          rw [abs_of_neg hn]; exact h5
      · obtain ⟨n, h1, h2, h3, h4, h5⟩ := formatG_numeral hP hp none
        refine ⟨n, h1, ?_, ?_, h4, fun h => absurd h h0, fun _ => ?_⟩
        · rw [h3]; unfold printG; dsimp only; rw [if_neg h0, if_neg hp.le.not_gt]; rfl
        · unfold Numeral.negative; rw [h2]; simp [Fl.signBit, hp.le]
        · change |n.magnitude - (|q|)| ≤ (10 : ℚ) ^ (Int.log 10 |q| - (P - 1)) / 2
          rw [abs_of_pos hp]; exact h5

private theorem repr_abs {q : ℚ} (h : (Fl.fin q : F32).Repr) : (Fl.fin |q| : F32).Repr := by
  obtain ⟨m, e, h1, h2, h3, rfl⟩ := h
  refine ⟨|m|, e, by rwa [abs_abs], h2, h3, ?_⟩
  rw [abs_mul, abs_of_pos (zpow_pos (by norm_num : (0 : ℚ) < 2) e)]
  push_cast
  rfl

private theorem repr_neg {q : ℚ} (h : (Fl.fin q : F32).Repr) : (Fl.fin (-q) : F32).Repr := by
  obtain ⟨m, e, h1, h2, h3, rfl⟩ := h
  exact ⟨-m, e, by rwa [abs_neg], h2, h3, by push_cast; ring⟩

private theorem fin_repr {x : F32} (hx : x.IsFin) (hr : x.Repr) : (Fl.fin x.toQ : F32).Repr := by
  cases x with
  | nan => exact hx.elim
  | inf => exact hx.elim
  | negZero => exact ⟨0, 0, by decide, by decide, by decide, by simp [Fl.toQ]⟩
  | fin q => exact hr

private theorem signed_abs {q : ℚ} {b : Bool} (hb : b = decide (q < 0)) : q = if b then -|q| else |q| := by
  subst hb
  by_cases h : q < 0
  · simp [h, abs_of_neg h]
  · simp [h, abs_of_nonneg (not_lt.mp h)]

/-- Nine digits are enough. -/
private theorem nine_read {x : F32} (hx : x.IsFin) (hr : x.Repr) {n : Numeral} (hs : n.negative = x.signBit)
    (h0 : x.toQ = 0 → n.magnitude = 0)
    (h : x.toQ ≠ 0 → |n.magnitude - (|x.toQ|)| ≤ (10 : ℚ) ^ (Int.log 10 |x.toQ| - (9 - 1)) / 2) : ReadAs binary32 n x := by
  have hread := readAs_signed (f := binary32) (by decide) (by decide) n
  have key : (signedValue binary32 n.negative n.magnitude).IsFin ∧ (signedValue binary32 n.negative n.magnitude).toQ = x.toQ := by
    by_cases hq : x.toQ = 0
    · have hv : n.value = x.toQ := by rw [hq]; unfold Numeral.value; rw [h0 hq]; simp
      have := C105_exact n _ x hread hx hr hv
      rwa [hv] at this
    · have hR := repr_abs (fin_repr hx hr)
      obtain ⟨h1, h2⟩ := nine (abs_pos.mpr hq) hR (h hq)
      have hsign : n.negative = decide (x.toQ < 0) := by
        rw [hs]
        cases x with
        | nan => exact hx.elim
        | inf => exact hx.elim
        | negZero => exact absurd rfl hq
        | fin q => rfl
      have hxq := signed_abs hsign
      refine C105_round_trip n _ x hread hx hr (fun z hz hzr hne => ?_) ?_
      · have hzR := fin_repr hz hzr
        unfold Numeral.value
        cases hb : n.negative with
        | false =>
          rw [hb] at hxq
          simp only [Bool.false_eq_true, if_false] at hxq ⊢
          rw [hxq]
          exact h1 z.toQ hzR (fun h => hne (h.trans hxq.symm))
        | true =>
          rw [hb] at hxq
          simp only [if_true] at hxq ⊢
          have := h1 (-z.toQ) (repr_neg hzR) (fun h => hne (by rw [hxq, ← h, neg_neg]))
          have e1 : ∀ a : ℚ, |a - -n.magnitude| = |-a - n.magnitude| := fun a => by rw [← abs_neg]; congr 1; ring
          rw [e1, e1]
          have e2 : -x.toQ = |x.toQ| := by linarith
          rw [e2]
          exact this
      · have : |n.value| = |n.magnitude| := by unfold Numeral.value; split <;> simp
        rw [this]
        exact h2
  have : signedValue binary32 n.negative n.magnitude = x :=
    same_float key.1 hx key.2 (by rw [hread.sign, hs])
  rwa [this] at hread

/-- **C109** (numbers). A number is printed so that what is printed, rounded to `float`, is this number. -/
theorem C109_number (erange : Text → Bool) (x : F32) (hx : x.IsFin) (hr : x.Repr) :
    ∃ n : Numeral, n.WellFormed ∧ floatText erange x = n.text ∧ ReadAs binary32 n x := by
  obtain ⟨n9, a1, a2, a3, -, a5, a6⟩ := printG_numeral (P := 9) (by norm_num) hx
  obtain ⟨n6, b1, b2, b3, b4, -, -⟩ := printG_numeral (P := 6) (by norm_num) hx
  have hnine : ReadAs binary32 n9 x := nine_read hx hr a3 a5 (fun h => by have := a6 h; exact_mod_cast this)
  have hstr := strtof_numeral (f := binary32) b1
  rw [← lowered_text b4, b2] at hstr
  have hft : floatText erange x =
      if !erange (printG 6 x) && FloatOps.beq (signedValue binary32 n6.negative n6.magnitude) x then printG 6 x else printG 9 x := by
    cases x with
    | nan => exact hx.elim
    | inf => exact hx.elim
    | negZero => unfold floatText; dsimp only; rw [hstr]
    | fin q => unfold floatText; dsimp only; rw [hstr]
  rw [hft]
  split
  · rename_i hc
    rw [Bool.and_eq_true] at hc
    obtain ⟨h1, h2⟩ := beq_fin hx hc.2
    have hread := readAs_signed (f := binary32) (by decide) (by decide) n6
    have : signedValue binary32 n6.negative n6.magnitude = x := same_float h1 hx h2 (by rw [hread.sign, b3])
    rw [this] at hread
    exact ⟨n6, b1, b2.symm, hread⟩
  · exact ⟨n9, a1, a2.symm, hnine⟩

/-- **C109** (no numbers). Infinities and `nan` are printed as words. -/
theorem C109_words (erange : Text → Bool) :
    floatText erange (.inf false) = "inf".toList ∧ floatText erange (.inf true) = "-inf".toList ∧
      floatText erange .nan = "nan".toList := ⟨rfl, rfl, rfl⟩

/-- **C109** (round trip). What is printed about a `float` is read as the same `float` by `sscanf` with `%f`. -/
theorem C109_read_back (erange : Text → Bool) (x : F32) (hr : x.Repr) (rest : Text) (he : Ends rest) :
    libcScanner.scan (floatText erange x ++ rest) = some (x, rest) := by
  have finite : x.IsFin → libcScanner.scan (floatText erange x ++ rest) = some (x, rest) := fun hx => by
    obtain ⟨n, h1, h2, h3⟩ := C109_number erange x hx hr
    obtain ⟨y, h4, h5⟩ := C105_scan n h1
    have := h5 [] rest (by simp) he
    rw [← RoundedTo.unique (f := binary32) (by decide) (by decide) h3.rounded h4.rounded (h3.sign.trans h4.sign.symm)] at this
    rw [h2]
    exact this
  cases x with
  | fin q => exact finite trivial
  | negZero => exact finite trivial
  | nan => exact C105_nan "nan".toList [] rest none rfl (by simp)
  | inf s =>
    cases s with
    | false => exact C105_inf "inf".toList [] rest none (.inl rfl) (by simp) he
    | true => exact C105_inf "inf".toList [] rest (some true) (.inl rfl) (by simp) he

/-- Different floats are printed differently. -/
theorem floatText_inj {erange : Text → Bool} {x y : F32} (hx : x.Repr) (hy : y.Repr)
    (h : floatText erange x = floatText erange y) : x = y := by
  have he : Ends [] := fun c hc => by simp at hc
  have h1 := C109_read_back erange x hx [] he
  have h2 := C109_read_back erange y hy [] he
  rw [h, h2] at h1
  exact (congrArg Prod.fst (Option.some.inj h1)).symm

theorem field_inj {name : String} {a b : Text} (h : field name a = field name b) : a = b :=
  List.append_cancel_left h

/-! ### The configurations -/

private theorem feeLines_inj {erange : Text → Bool} {name : String} {c c' : FeeConfig F32} (hc : FeeFloats c) (hc' : FeeFloats c')
    (h : feeLines erange name c = feeLines erange name c') : c = c' := by
  obtain ⟨a1, a2, a3⟩ := hc
  obtain ⟨b1, b2, b3⟩ := hc'
  unfold feeLines at h
  simp only [List.cons.injEq, true_and, and_true] at h
  obtain ⟨h1, h2, h3⟩ := h
  have e1 := floatText_inj a1 b1 (field_inj (List.append_cancel_left h1))
  have e2 := floatText_inj a2 b2 (field_inj (List.append_cancel_left h2))
  have e3 := floatText_inj a3 b3 (field_inj (List.append_cancel_left h3))
  cases c; cases c'
  dsimp only at e1 e2 e3
  rw [e1, e2, e3]

/-- **C109** (fields). Under the name of a field stands its value. -/
theorem C109_fields (erange : Text → Bool) (c : AccountConfig F32) (hc : AccountFloats c) :
    Shows (accountLines erange c) "start_base_balance" c.startBase ∧
    Shows (accountLines erange c) "start_quote_balance" c.startQuote ∧
    Shows (accountLines erange c) "base_unit" c.baseUnit ∧
    Shows (accountLines erange c) "quote_unit" c.quoteUnit ∧
    ShowsFees (accountLines erange c) "market_order_fee_config" c.marketFee ∧
    ShowsFees (accountLines erange c) "stop_order_fee_config" c.stopFee ∧
    ShowsFees (accountLines erange c) "limit_order_fee_config" c.limitFee ∧
    Shows (accountLines erange c) "market_liquidity" c.marketLiquidity ∧
    Shows (accountLines erange c) "max_volume_ratio" c.maxVolumeRatio := by
  obtain ⟨⟨a1, a2, a3, a4, a5, a6⟩, ⟨a7, a8, a9⟩, ⟨a10, a11, a12⟩, a13, a14, a15⟩ := hc
  have rd : ∀ x : F32, x.Repr → libcScanner.scan (floatText erange x) = some (x, []) := fun x hx => by
    have := C109_read_back erange x hx [] (fun c hc => by simp at hc)
    rwa [List.append_nil] at this
  exact ⟨⟨_, rfl, rd _ a1⟩, ⟨_, rfl, rd _ a2⟩, ⟨_, rfl, rd _ a3⟩, ⟨_, rfl, rd _ a4⟩,
    ⟨⟨_, rfl, rd _ a7⟩, ⟨_, rfl, rd _ a8⟩, ⟨_, rfl, rd _ a9⟩⟩, ⟨⟨_, rfl, rd _ a10⟩, ⟨_, rfl, rd _ a11⟩, ⟨_, rfl, rd _ a12⟩⟩,
    ⟨⟨_, rfl, rd _ a13⟩, ⟨_, rfl, rd _ a14⟩, ⟨_, rfl, rd _ a15⟩⟩, ⟨_, rfl, rd _ a5⟩, ⟨_, rfl, rd _ a6⟩⟩

/-- **C109** (account). Different configurations of the account are printed differently. -/
theorem C109_account (erange : Text → Bool) (c c' : AccountConfig F32) (hc : AccountFloats c) (hc' : AccountFloats c')
    (h : accountLines erange c = accountLines erange c') : c = c' := by
  obtain ⟨⟨a1, a2, a3, a4, a5, a6⟩, a7, a8, a9⟩ := hc
  obtain ⟨⟨b1, b2, b3, b4, b5, b6⟩, b7, b8, b9⟩ := hc'
  unfold accountLines at h
  have hl : ∀ (name : String) (d d' : FeeConfig F32), (feeLines erange name d).length = (feeLines erange name d').length :=
    fun _ _ _ => rfl
  obtain ⟨h, h6⟩ := List.append_inj' h rfl
  obtain ⟨h, h9⟩ := List.append_inj' h (hl _ _ _)
  obtain ⟨h, h8⟩ := List.append_inj' h (hl _ _ _)
  obtain ⟨h, h7⟩ := List.append_inj' h (hl _ _ _)
  simp only [List.cons.injEq, and_true] at h h6
  obtain ⟨h1, h2, h3, h4⟩ := h
  obtain ⟨h5, h6⟩ := h6
  have e1 := floatText_inj a1 b1 (field_inj h1)
  have e2 := floatText_inj a2 b2 (field_inj h2)
  have e3 := floatText_inj a3 b3 (field_inj h3)
  have e4 := floatText_inj a4 b4 (field_inj h4)
  have e5 := floatText_inj a5 b5 (field_inj h5)
  have e6 := floatText_inj a6 b6 (field_inj h6)
  have e7 := feeLines_inj a7 b7 h7
  have e8 := feeLines_inj a8 b8 h8
  have e9 := feeLines_inj a9 b9 h9
  cases c; cases c'
  dsimp only at e1 e2 e3 e4 e5 e6 e7 e8 e9
  rw [e1, e2, e3, e4, e5, e6, e7, e8, e9]

theorem printInt_inj {a b : ℤ} (h : printInt a = printInt b) : a = b := by
  have h1 := integer_print a [] (by simp)
  have h2 := integer_print b [] (by simp)
  rw [h, h2] at h1
  exact (congrArg Prod.fst (Option.some.inj h1)).symm

/-- **C109** (evaluation). Different periods and different numbers of months are printed differently. -/
theorem C109_evaluation (c c' : EvalConfig) (h : evalLines c = evalLines c') :
    c.start = c'.start ∧ c.stop = c'.stop ∧ c.months = c'.months := by
  unfold evalLines at h
  simp only [List.cons.injEq, and_true] at h
  obtain ⟨h1, h2, h3⟩ := h
  exact ⟨printInt_inj (field_inj h1), printInt_inj (field_inj h2), printInt_inj (field_inj h3)⟩

/-- **C109** (fields of the evaluation). Under the name of a field stands its value. -/
theorem C109_evaluation_fields (c : EvalConfig) (h1 : IsInt64 c.start) (h2 : IsInt64 c.stop) (h3 : IsInt64 c.months) :
    ShowsInt (evalLines c) "start_timestamp_sec" c.start ∧ ShowsInt (evalLines c) "end_timestamp_sec" c.stop ∧
      ShowsInt (evalLines c) "evaluation_period_months" c.months := by
  have rd : ∀ x : ℤ, IsInt64 x → scanInt (printInt x) = some (x, []) := fun x hx => by
    have := scanInt_print hx [] (by simp)
    rwa [List.append_nil] at this
  exact ⟨⟨_, rfl, rd _ h1⟩, ⟨_, rfl, rd _ h2⟩, ⟨_, rfl, rd _ h3⟩⟩

/-! ### Examples -/

/-- No `errno` is set. -/
private abbrev quiet : Text → Bool := fun _ => false

/-- A tenth, a third and a large number, as floats; the third needs nine digits. -/
private abbrev third : F32 := lit F32 (1 / 3)

example : floatText quiet (lit F32 (1 / 10)) = "0.1".toList := by decide +kernel
example : floatText quiet third = "0.333333343".toList := by decide +kernel
example : floatText quiet (lit F32 (1 / 100000)) = "1e-05".toList := by decide +kernel
example : floatText quiet (lit F32 1234567890) = "1.23456794e+09".toList := by decide +kernel
example : floatText quiet (.negZero) = "-0".toList := by decide +kernel

private theorem third_repr : third.Repr := Fl.ofRat_repr (by decide) (by decide) _

example : ∃ n : Numeral, n.WellFormed ∧ floatText quiet third = n.text ∧ ReadAs binary32 n third :=
  C109_number quiet third (by decide +kernel) third_repr

example : libcScanner.scan (floatText quiet third ++ ",7".toList) = some (third, ",7".toList) :=
  C109_read_back quiet third third_repr _ (fun c hc => by simp at hc; exact .inl hc.symm)

example := C109_evaluation ⟨1483228800, 1609459200, 6, true⟩ ⟨1483228800, 1609459200, 6, false⟩ rfl
example := C109_evaluation_fields ⟨1483228800, 1609459200, 6, false⟩ (by unfold IsInt64; decide) (by unfold IsInt64; decide)
  (by unfold IsInt64; decide)

end Verif.Props
