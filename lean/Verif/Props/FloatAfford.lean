import Verif.Props.FloatQuote

/-!
# C14 in binary32: affordability is monotone, rounding errors included
-/

namespace Verif.Fl
variable {f : Fmt}

theorem round_int_mono {x y : ℚ} (h : x ≤ y) :
    (if 0 ≤ x then ⌊x + 1 / 2⌋ else ⌈x - 1 / 2⌉) ≤ (if 0 ≤ y then ⌊y + 1 / 2⌋ else ⌈y - 1 / 2⌉) := by
  split_ifs with h1 h2 h2
  · exact Int.floor_le_floor (by linarith)
  · exact absurd (h1.trans h) h2
  · have e1 : ⌈x - 1 / 2⌉ ≤ 0 := Int.ceil_le.mpr (by push_cast; linarith)
    have e2 : 0 ≤ ⌊y + 1 / 2⌋ := Int.le_floor.mpr (by push_cast; linarith)
    omega
  · exact Int.ceil_le_ceil (by linarith)

/-- `std::round` keeps the order. -/
theorem Le.round {a b : Fl f} (h : Le a b) : Le (round a) (round b) := by
  obtain ⟨ha, hb, h⟩ := h
  have fr : ∀ x : Fl f, IsFin x → IsFin (Fl.round x) ∧
      toQ (Fl.round x) = ((if 0 ≤ toQ x then ⌊toQ x + 1 / 2⌋ else ⌈toQ x - 1 / 2⌉ : ℤ) : ℚ) := by
    intro x hx
    cases x with
    | fin q => exact ⟨isFin_ofIntSigned _ _, toQ_ofIntSigned _ _⟩
    | negZero =>
      refine ⟨trivial, ?_⟩
      have : ⌊(0 : ℚ) + 1 / 2⌋ = 0 := by rw [Int.floor_eq_iff]; norm_num
      show (0 : ℚ) = ((if (0 : ℚ) ≤ 0 then ⌊(0 : ℚ) + 1 / 2⌋ else ⌈(0 : ℚ) - 1 / 2⌉ : ℤ) : ℚ)
      rw [if_pos le_rfl, this]
      rfl
    | nan => exact hx.elim
    | inf s => exact hx.elim
  by_cases fa : IsFin a
  · by_cases fb : IsFin b
    · refine Le.of_fin (fr a fa).1 (fr b fb).1 ?_
      rw [(fr a fa).2, (fr b fb).2]
      exact_mod_cast round_int_mono ((lt_eq_false_iff fb fa).mp h)
    · have hb' : b = inf false := by cases a <;> cases b <;> simp_all [IsFin]
      subst hb'
      have := (fr a fa).1
      refine ⟨fun hc => by rw [hc] at this; exact this, by simp [Fl.round], ?_⟩
      show lt (inf false) (Fl.round a) = false
      cases Fl.round a <;> simp
  · cases a with
    | nan => exact absurd rfl ha
    | fin _ => exact absurd trivial fa
    | negZero => exact absurd trivial fa
    | inf s =>
      cases s with
      | false =>
        have hb' : b = inf false := by cases b <;> simp_all
        subst hb'
        exact ⟨ha, hb, h⟩
      | true =>
        have hn : Fl.round b ≠ nan := by
          cases b with
          | nan => exact absurd rfl hb
          | inf t => simp [Fl.round]
          | fin q => intro hc; have := (fr (fin q) trivial).1; rw [hc] at this; exact this
          | negZero => simp [Fl.round]
        refine ⟨by simp [Fl.round], hn, ?_⟩
        show lt (Fl.round b) (inf true) = false
        cases hr : Fl.round b <;> simp_all

theorem mul_comm' (a b : Fl f) : mul a b = mul b a := by
  cases a <;> cases b <;> simp [mul, toQ, signBit, _root_.mul_comm, Bool.xor_comm]

theorem add_comm' (a b : Fl f) : add a b = add b a := by
  cases a <;> cases b <;> simp [add, _root_.add_comm]
  rename_i s t
  cases s <;> cases t <;> simp

end Verif.Fl

namespace Verif.Props
open FloatOps Spec FloatMoney
open Fl (toQ IsFin)

/-- A comparison that came out true is between numbers or infinities. -/
theorem le_of_cmp {f : Fmt} {x y : Fl f} (h : (x <=. y) = true) : Fl.Le x y := by
  have h3 := SignLaws.not_lt_of_le _ _ h
  change Fl.le x y = true at h
  refine ⟨?_, ?_, h3⟩
  · rintro rfl; simp [Fl.le, Fl.lt, Fl.beq] at h
  · rintro rfl; cases x <;> simp [Fl.le, Fl.lt, Fl.beq] at h

theorem pos_of_cmp {u : F32} (hu : IsFin u) (hc : (u >. lit F32 0) = true) : 0 < toQ u := unit_pos hu hc

theorem ceilUnit_le {u x y : F32} (hu : IsFin u) (h : Fl.Le x y) : Fl.Le (ceilUnit x u) (ceilUnit y u) := by
  unfold ceilUnit
  by_cases hc : (u >. lit F32 0) = true
  · rw [if_pos hc, if_pos hc]
    have hpos := pos_of_cmp hu hc
    exact Fl.Le.mul_left (by decide) hu hpos (Fl.Le.ceil (Fl.Le.div_right (by decide) hu hpos h))
  · rw [if_neg hc, if_neg hc]; exact h

theorem roundUnit_le {u x y : F32} (hu : IsFin u) (h : Fl.Le x y) : Fl.Le (roundUnit x u) (roundUnit y u) := by
  unfold roundUnit
  by_cases hc : (u >. lit F32 0) = true
  · rw [if_pos hc, if_pos hc]
    have hpos := pos_of_cmp hu hc
    exact Fl.Le.mul_left (by decide) hu hpos (Fl.Le.round (Fl.Le.div_right (by decide) hu hpos h))
  · rw [if_neg hc, if_neg hc]; exact h

theorem ceilUnit_fin' {u x : F32} (h : IsFin (ceilUnit x u)) : IsFin x := by
  unfold ceilUnit at h
  split_ifs at h
  · have h1 := (Fl.mul_err h).2.1
    have h2 := (Fl.ceil_spec h1).1
    revert h2
    show IsFin (Fl.div x u) → _
    cases x <;> cases u <;> simp [Fl.div, IsFin]
  · exact h

theorem notBelow_mul {x y : F32} (hy : (y >. lit F32 0) = true) (hx : NotBelowZero x) :
    NotBelowZero (x *. y) := by
  have := SignLaws.mul_not_neg y x hy hx
  have e : FloatOps.mul y x = FloatOps.mul x y := Fl.mul_comm' y x
  rw [e] at this
  exact this

theorem notBelow_ceil {x u : F32} (h : NotBelowZero x) : NotBelowZero (ceilUnit x u) := by
  unfold ceilUnit
  split
  · rename_i hu
    exact SignLaws.mul_not_neg _ _ hu (SignLaws.ceil_not_neg _ (SignLaws.div_not_neg _ _ hu h))
  · exact h

theorem fin_of_Le {x y : F32} (hy : IsFin y) (h0 : NotBelowZero x) (h : Fl.Le x y) : IsFin x :=
  fin_of_bounded hy h0 h.1 h.2.2

/-- The fee of any amount - infinite and NaN included - is not NaN. -/
theorem fee_ne_nan (a : Account F32) (fc : FeeConfig F32) (q : F32) (hm : fc.minimumFee ≠ .nan)
    (hu : IsFin a.quoteUnit) : a.getFee fc q ≠ .nan := by
  unfold Account.getFee
  refine (ceilUnit_le hu (Fl.Le.refl ?_)).1
  unfold fmax
  split_ifs with h
  · intro hc
    rw [hc] at h
    change Fl.lt fc.minimumFee .nan = true at h
    cases hx : fc.minimumFee <;> rw [hx] at h <;> cases h
  · exact hm

/-- **C14** in binary32 (buy): if buying `b` at `p` succeeds, so does buying any amount that is not larger (and
that still rounds to at least one unit) at any price that is not higher, from an account with the same units and
at least as much quote currency. No rounding error, wherever it occurs, can make the cheaper purchase fail. -/
theorem C14_buy_float (a a' a2 : Account F32) (fc : FeeConfig F32) (b b2 p p2 : F32)
    (hm : fc.minimumFee ≠ .nan) (hm0 : NotBelowZero fc.minimumFee) (hff : IsFin fc.fixedFee)
    (hfr : IsFin fc.relativeFee) (hr0 : 0 ≤ toQ fc.relativeFee)
    (hub : IsFin a.baseUnit) (huq : IsFin a.quoteUnit) (hQ : IsFin a.quoteBalance) (hp : IsFin p)
    (h : a.buyBase fc b p = .ok (true, a'))
    (hbu : a2.baseUnit = a.baseUnit) (hqu : a2.quoteUnit = a.quoteUnit)
    (hq : (a.quoteBalance <=. a2.quoteBalance) = true)
    (hb2 : (b2 <=. b) = true) (hb0 : (lit F32 0 <=. b2) = true)
    (hunit : (roundUnit b2 a.baseUnit <. a.baseUnit) = false)
    (hp0 : (p2 >. lit F32 0) = true) (hp2 : (p2 <=. p) = true) :
    ∃ a2', a2.buyBase fc b2 p2 = .ok (true, a2') := by
  obtain ⟨hpp, hb, h⟩ := a.buyBase_cases h
  rcases h with ⟨h, -⟩ | ⟨-, h1, q, fee, hq1, hfee, h2, -⟩
  · cases h
  have hP : 0 < toQ p := pos_of_cmp hp hpp
  have hb2' := le_of_cmp hb2
  have hLB := roundUnit_le hub hb2'
  set B := roundUnit b a.baseUnit with hB
  set B2 := roundUnit b2 a.baseUnit with hB2
  have hBn : NotBelowZero B := hB ▸ roundUnit_notBelow' (SignLaws.not_lt_of_le _ _ hb)
  have hB2n : NotBelowZero B2 := hB2 ▸ roundUnit_notBelow' (SignLaws.not_lt_of_le _ _ hb0)
  -- the cost of the first purchase is a number
  have hBp : Fl.Le (B2 *. p) (B *. p) := by
    have := Fl.Le.mul_left (f := binary32) (by decide) hp hP hLB
    rw [Fl.mul_comm' p B2, Fl.mul_comm' p B] at this
    exact this
  have hqn : NotBelowZero q := hq1 ▸ notBelow_ceil (notBelow_mul hpp hBn)
  have hqnn : q ≠ .nan := hq1 ▸ (ceilUnit_le huq (Fl.Le.refl hBp.2.1)).1
  have hfn : NotBelowZero fee := hfee ▸ getFee_notBelow a fc q hm0
  have hfnn : fee ≠ .nan := hfee ▸ fee_ne_nan a fc q hm huq
  have htn : NotBelowZero (q +. fee) := SignLaws.add_not_neg _ _ hqn hfn
  have htnn : (q +. fee) ≠ .nan := by
    have e : ∀ x : F32, NotBelowZero x → x ≠ .inf true := by
      rintro x hx rfl
      unfold NotBelowZero at hx
      rw [lit0] at hx
      cases hx
    have e1 := e q hqn
    have e2 := e fee hfn
    show Fl.add q fee ≠ .nan
    clear_value B B2
    clear hq1 hfee htn hqn hfn h2
    cases q <;> cases fee <;> simp_all [Fl.add, Fl.ofRat_ne_nan]
  have htf : IsFin (q +. fee) := fin_of_bounded hQ htn htnn h2
  obtain ⟨hqf, hfeef, -⟩ := Fl.add_err (a := q) (b := fee) htf
  have hBpf : IsFin (B *. p) := ceilUnit_fin' (u := a.quoteUnit) (hq1 ▸ hqf)
  have hBf : IsFin B := (Fl.mul_err hBpf).1
  have hB2f : IsFin B2 := fin_of_Le hBf hB2n hLB
  have hp2f : IsFin p2 := fin_of_Le hp (SignLaws.not_lt_of_le _ _ (SignLaws.le_of_lt _ _ hp0)) (le_of_cmp hp2)
  -- the cost of the second purchase
  have hcost : Fl.Le (B2 *. p2) (B *. p) := by
    refine Fl.Le.trans ?_ hBp
    have := Fl.Le.mul_right (f := binary32) (by decide) hp2f hp hB2f (notBelow_toQ hB2f hB2n)
      ((le_of_cmp hp2).toQ_le hp2f hp)
    rw [Fl.mul_comm' p2 B2, Fl.mul_comm' p B2] at this
    exact this
  set q2 := ceilUnit (B2 *. p2) a.quoteUnit with hq2
  have hqq : Fl.Le q2 q := by rw [hq2, hq1]; exact ceilUnit_le huq hcost
  have hq2n : NotBelowZero q2 := hq2 ▸ notBelow_ceil (notBelow_mul hp0 hB2n)
  have hq2f : IsFin q2 := fin_of_Le hqf hq2n hqq
  have hfees : Fl.Le (a.getFee fc q2) fee := by
    rw [hfee]
    exact C08_fee_mono_float (by decide) a fc q2 q hfr hr0 hff hm huq hq2f hqf (hqq.toQ_le hq2f hqf)
  have htot : Fl.Le (q2 +. a.getFee fc q2) (q +. fee) := by
    refine Fl.Le.trans (Fl.Le.add_left (f := binary32) (by decide) hq2f hfees) ?_
    have := Fl.Le.add_left (f := binary32) (by decide) hfeef hqq
    rw [Fl.add_comm' fee q2, Fl.add_comm' fee q] at this
    exact this
  have hbal : Fl.Le (q2 +. a.getFee fc q2) a2.quoteBalance :=
    htot.trans (Fl.Le.trans ⟨htnn, fun hc => (hc ▸ hQ : IsFin (.nan : F32)).elim, h2⟩ (le_of_cmp hq))
  have hg : ∀ y, a2.getFee fc y = a.getFee fc y := by
    intro y; unfold Account.getFee; rw [hqu]
  rw [Account.buyBase_eq]
  simp only [hbu, hqu, hg]
  rw [if_pos hp0, if_pos hb0, if_neg (by rw [← hB2, hunit]; decide), if_neg]
  · exact ⟨_, rfl⟩
  · rw [← hB2, ← hq2]
    exact fun hc => Bool.false_ne_true (hbal.2.2.symm.trans hc)

/-- **C14** in binary32 (sell): a sell that succeeds still succeeds, on the same terms, with more base currency
and any quote balance. -/
theorem C14_sell_float {f : Fmt} (a a' a2 : Account (Fl f)) (fc : FeeConfig (Fl f)) (b p : Fl f)
    (h : a.sellBase fc b p = .ok (true, a'))
    (hbu : a2.baseUnit = a.baseUnit) (hqu : a2.quoteUnit = a.quoteUnit)
    (hb2 : (a.baseBalance <=. a2.baseBalance) = true) :
    ∃ a2', a2.sellBase fc b p = .ok (true, a2') := by
  obtain ⟨hp, hb, h⟩ := a.sellBase_cases h
  rcases h with ⟨h, -⟩ | ⟨-, h1, h3, q, fee, hq1, hfee, h2, -⟩
  · cases h
  rw [Account.sellBase_eq]
  rw [if_pos hp, if_pos hb, hbu, hqu]
  have : ∀ y, a2.getFee fc y = a.getFee fc y := by intro y; unfold Account.getFee; rw [hqu]
  simp only [this]
  rw [if_neg, if_neg]
  · exact ⟨_, rfl⟩
  · rw [← hq1, ← hfee, h2]; simp
  · simp only [Bool.or_eq_true, not_or, Bool.not_eq_true]
    refine ⟨h1, ?_⟩
    have hl := le_of_cmp hb2
    change Fl.lt a.baseBalance (roundUnit b a.baseUnit) = false at h3
    change Fl.lt a2.baseBalance (roundUnit b a.baseUnit) = false
    cases hB : roundUnit b a.baseUnit with
    | nan => cases a2.baseBalance <;> simp
    | _ =>
      rw [hB] at h3
      exact ((Fl.Le.trans ⟨by simp, hl.1, h3⟩ hl) : Fl.Le _ _).2.2

/-! ### Non-vacuity: purchases and sells that succeed in binary32, and what the theorems say about others -/

private def afAcc : Account F32 := Account.init (exCfg F32)
private def afFee : FeeConfig F32 := (exCfg F32).marketFee

private theorem afBuy : ∃ a', afAcc.buyBase afFee (lit F32 3) (lit F32 41) = .ok (true, a') := by
  have : (match afAcc.buyBase afFee (lit F32 3) (lit F32 41) with | .ok (true, _) => true | _ => false) = true := by
    decide +kernel
  split at this
  · exact ⟨_, by assumption⟩
  · cases this

/-- One unit less at a lower price, from an account with more money: it succeeds too. -/
example : ∃ a2', ({ afAcc with quoteBalance := lit F32 5000 } : Account F32).buyBase afFee (lit F32 2) (lit F32 40) =
    .ok (true, a2') := by
  obtain ⟨a', h⟩ := afBuy
  have fl : ∀ x : F32, (match x with | .fin _ => true | _ => false) = true → IsFin x := by
    intro x hx; cases x <;> first | trivial | cases hx
  exact C14_buy_float afAcc a' _ afFee _ _ _ _ (by decide +kernel) (by unfold NotBelowZero; decide +kernel)
    (fl _ (by decide +kernel)) (fl _ (by decide +kernel)) (by decide +kernel) (fl _ (by decide +kernel))
    (fl _ (by decide +kernel)) (fl _ (by decide +kernel)) (fl _ (by decide +kernel)) h rfl rfl
    (by decide +kernel) (by decide +kernel) (by decide +kernel) (by decide +kernel) (by decide +kernel)
    (by decide +kernel)

/-- A sell that succeeds; with twice the base balance and no quote currency it succeeds too. -/
example : ∃ a2', ({ afAcc with baseBalance := lit F32 20, quoteBalance := lit F32 0 } : Account F32).sellBase afFee
    (lit F32 2) (lit F32 40) = .ok (true, a2') := by
  have : (match afAcc.sellBase afFee (lit F32 2) (lit F32 40) with | .ok (true, _) => true | _ => false) = true := by
    decide +kernel
  split at this
  · rename_i a' h
    exact C14_sell_float afAcc a' _ afFee _ _ h rfl rfl (by decide +kernel)
  · cases this

end Verif.Props
