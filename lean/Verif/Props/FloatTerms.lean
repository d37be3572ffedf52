import Verif.Props.Terms
import Verif.Props.FloatAfford

/-!
# C114 in binary32: lower fees never make an order for a base amount worse
-/

namespace Verif.Spec
open Fl FloatOps
/-- The fee schedule `f` charges no more than `g` in any of its three positions; all of them are finite numbers, and those of `f` are not negative. -/
structure CheaperFloat (f g : FeeConfig F32) : Prop where
  minimum : (f.minimumFee <=. g.minimumFee) = true
  fixed : (f.fixedFee <=. g.fixedFee) = true
  relative : (f.relativeFee <=. g.relativeFee) = true
  nonneg : ∀ x ∈ [f.minimumFee, f.fixedFee, f.relativeFee], 0 ≤ toQ x
  finite : ∀ x ∈ [f.minimumFee, f.fixedFee, f.relativeFee, g.minimumFee, g.fixedFee, g.relativeFee], IsFin x
end Verif.Spec

namespace Verif.Props.FloatTerms
open FloatOps Spec Fl Terms

theorem lt_asymm' {f : Fmt} {a b : Fl f} (h : Fl.lt a b = true) : Fl.lt b a = false := by
  have h1 : Fl.le a b = true := by unfold Fl.le; rw [h]; rfl
  exact SignLaws.not_lt_of_le a b h1

theorem fmax_le_left {f : Fmt} {m m' y : Fl f} (hm : Fl.Le m m') (hy : y ≠ .nan) : Fl.Le (fmax m y) (fmax m' y) := by
  unfold fmax
  change Fl.Le (if Fl.lt m y = true then y else m) (if Fl.lt m' y = true then y else m')
  split_ifs with h1 h2 h2
  · exact Fl.Le.refl hy
  · exact ⟨hy, hm.2.1, by simpa using h2⟩
  · exact hm.trans ⟨hm.2.1, hy, lt_asymm' h2⟩
  · exact hm

theorem neg_le {f : Fmt} {a b : Fl f} (ha : IsFin a) (hb : IsFin b) (h : Fl.Le a b) : Fl.Le (Fl.neg b) (Fl.neg a) := by
  have hn : ∀ x : Fl f, IsFin x → IsFin (Fl.neg x) ∧ toQ (Fl.neg x) = - toQ x := by
    intro x hx
    cases x with
    | nan => exact hx.elim
    | inf s => exact hx.elim
    | negZero => exact ⟨trivial, by simp [Fl.neg, toQ]⟩
    | fin q =>
      by_cases hq : q = 0
      · subst hq; exact ⟨by simp [Fl.neg, IsFin], by simp [Fl.neg, toQ]⟩
      · exact ⟨by simp [Fl.neg, hq, IsFin], by simp [Fl.neg, hq, toQ]⟩
  refine Fl.Le.of_fin (hn b hb).1 (hn a ha).1 ?_
  rw [(hn a ha).2, (hn b hb).2]
  have := h.toQ_le ha hb
  linarith

theorem sub_le {f : Fmt} (hp : 0 < f.p) {x a b : Fl f} (hx : IsFin x) (ha : IsFin a) (hb : IsFin b) (h : Fl.Le a b) : Fl.Le (Fl.sub x b) (Fl.sub x a) :=
  Fl.Le.add_left hp hx (neg_le ha hb h)

theorem fee_cheaper (a : Account F32) {f g : FeeConfig F32} (h : CheaperFloat f g) (hu : IsFin a.quoteUnit) {q q' : F32} (hq : IsFin q) (hq' : IsFin q')
    (hqq : toQ q ≤ toQ q') (h0 : 0 ≤ toQ q') (hfin : IsFin (g.fixedFee +. q' *. g.relativeFee)) :
    Fl.Le (a.getFee f q) (a.getFee g q') := by
  have hfr := h.finite f.relativeFee (by simp)
  have hgr := h.finite g.relativeFee (by simp)
  have hff := h.finite f.fixedFee (by simp)
  have hgf := h.finite g.fixedFee (by simp)
  have hX : IsFin (q' *. g.relativeFee) := (Fl.add_err (a := g.fixedFee) (b := q' *. g.relativeFee) hfin).2.1
  have h1 : Fl.Le (q *. f.relativeFee) (q' *. g.relativeFee) := by
    refine Fl.Le.trans (Fl.Le.mul_right (f := binary32) (by decide) hq hq' hfr (h.nonneg _ (by simp)) hqq) ?_
    have := Fl.Le.mul_right (f := binary32) (by decide) hfr hgr hq' h0 ((le_of_cmp h.relative).toQ_le hfr hgr)
    rw [Fl.mul_comm' f.relativeFee q', Fl.mul_comm' g.relativeFee q'] at this
    exact this
  have h2 : Fl.Le (f.fixedFee +. q *. f.relativeFee) (g.fixedFee +. q' *. g.relativeFee) := by
    refine Fl.Le.trans (Fl.Le.add_left (f := binary32) (by decide) hff h1) ?_
    have := Fl.Le.add_left (f := binary32) (by decide) hX (le_of_cmp h.fixed)
    rw [Fl.add_comm' _ f.fixedFee, Fl.add_comm' _ g.fixedFee] at this
    exact this
  unfold Account.getFee
  refine ceilUnit_le hu ?_
  have hm := le_of_cmp h.minimum
  exact (fmax_le hm.1 h2).trans (fmax_le_left hm h2.2.1)

theorem cmp_of_Le {f : Fmt} {a b : Fl f} (h : Fl.Le a b) : (a <=. b) = true := by
  obtain ⟨h1, h2, h3⟩ := h
  show Fl.le a b = true
  unfold Fl.le
  rw [Bool.or_eq_true]
  have key : ∀ x y : ℚ, decide (y < x) = false → decide (x < y) = true ∨ decide (x = y) = true := by
    intro x y h
    simp only [decide_eq_true_eq, decide_eq_false_iff_not, not_lt] at h ⊢
    exact lt_or_eq_of_le h
  cases a with
  | nan => exact absurd rfl h1
  | inf s => cases b with
    | nan => exact absurd rfl h2
    | inf t => cases s <;> cases t <;> simp_all [Fl.lt, Fl.beq]
    | negZero => cases s <;> simp_all [Fl.lt, Fl.beq]
    | fin y => cases s <;> simp_all [Fl.lt, Fl.beq]
  | negZero => cases b with
    | nan => exact absurd rfl h2
    | inf t => cases t <;> simp_all [Fl.lt, Fl.beq]
    | negZero => right; rfl
    | fin y => exact key 0 y h3
  | fin x => cases b with
    | nan => exact absurd rfl h2
    | inf t => cases t <;> simp_all [Fl.lt, Fl.beq]
    | negZero => exact key x 0 h3
    | fin y => exact key x y h3

theorem add_ne_nan {q fee : F32} (hq : q ≠ .nan) (hf : fee ≠ .nan) (hqn : NotBelowZero q) (hfn : NotBelowZero fee) : (q +. fee) ≠ .nan := by
  have e : ∀ x : F32, NotBelowZero x → x ≠ .inf true := by
    rintro x hx rfl
    unfold NotBelowZero at hx
    rw [show lit F32 0 = .fin 0 from by decide +kernel] at hx
    cases hx
  have e1 := e q hqn
  have e2 := e fee hfn
  show Fl.add q fee ≠ .nan
  clear hqn hfn
  cases q <;> cases fee <;> simp_all [Fl.add, Fl.ofRat_ne_nan]

/-- If the fee is finite, so is the sum it was computed from. -/
theorem fee_sum_fin {a : Account F32} {g : FeeConfig F32} {q : F32} (hX : (g.fixedFee +. q *. g.relativeFee) ≠ .nan)
    (hX' : (g.fixedFee +. q *. g.relativeFee) ≠ .inf true) (h : IsFin (a.getFee g q)) (hm : g.minimumFee ≠ .nan) :
    IsFin (g.fixedFee +. q *. g.relativeFee) := by
  have h1 := ceilUnit_fin' h
  unfold fmax at h1
  revert h1 hX hX'
  generalize (g.fixedFee +. q *. g.relativeFee) = X
  intro hX hX' h1
  cases X with
  | nan => exact absurd rfl hX
  | inf s =>
    cases s
    · exfalso
      revert h1
      change IsFin (if Fl.lt g.minimumFee (.inf false) = true then (.inf false : F32) else g.minimumFee) → False
      cases hx : g.minimumFee with
      | nan => exact fun _ => hm hx
      | inf t => cases t <;> simp [Fl.lt, IsFin]
      | negZero => simp [Fl.lt, IsFin]
      | fin y => simp [Fl.lt, IsFin]
    · exact absurd rfl hX'
  | negZero => trivial
  | fin y => trivial

theorem notBelow_of_toQ {x : F32} (hx : IsFin x) (h : 0 ≤ toQ x) : NotBelowZero x := by
  unfold NotBelowZero
  rw [show lit F32 0 = .fin 0 from by decide +kernel]
  exact (lt_eq_false_iff (a := x) (b := (.fin 0 : F32)) hx trivial).mpr h

/-- Facts about the dearer of two schedules. -/
theorem dear {f g : FeeConfig F32} (h : CheaperFloat f g) : NotBelowZero g.minimumFee ∧ 0 ≤ toQ g.fixedFee ∧ 0 ≤ toQ g.relativeFee := by
  have hle : ∀ x y : F32, (x <=. y) = true → IsFin x → IsFin y → 0 ≤ toQ x → 0 ≤ toQ y := fun x y h hx hy h0 => h0.trans ((le_of_cmp h).toQ_le hx hy)
  exact ⟨notBelow_of_toQ (h.finite _ (by simp)) (hle _ _ h.minimum (h.finite _ (by simp)) (h.finite _ (by simp)) (h.nonneg _ (by simp))),
    hle _ _ h.fixed (h.finite _ (by simp)) (h.finite _ (by simp)) (h.nonneg _ (by simp)),
    hle _ _ h.relative (h.finite _ (by simp)) (h.finite _ (by simp)) (h.nonneg _ (by simp))⟩

theorem not_inf_true {x : F32} (hx : NotBelowZero x) : x ≠ .inf true := by
  rintro rfl
  unfold NotBelowZero at hx
  rw [show lit F32 0 = .fin 0 from by decide +kernel] at hx
  cases hx

theorem fin_ne_nan {x : F32} (h : IsFin x) : x ≠ .nan := by rintro rfl; exact h

/-- Less is charged for the same amount, and what was charged under the dearer schedule is finite. -/
theorem fee_cheaper' (a : Account F32) {f g : FeeConfig F32} (h : CheaperFloat f g) (hu : IsFin a.quoteUnit) {q : F32} (hq : IsFin q) (h0 : NotBelowZero q)
    (hfin : IsFin (a.getFee g q)) : Fl.Le (a.getFee f q) (a.getFee g q) := by
  obtain ⟨hgm, hgf, hgr⟩ := dear h
  have hrf := h.finite g.relativeFee (by simp)
  have hff := h.finite g.fixedFee (by simp)
  have hprod : NotBelowZero (q *. g.relativeFee) := by
    have hq0 := notBelow_toQ hq h0
    have hXn : (q *. g.relativeFee) ≠ .nan := (Fl.Le.mul_right (f := binary32) (by decide) hq hq hrf hgr le_rfl).1
    have := Fl.Le.mul_right (f := binary32) (a := .fin 0) (b := q) (by decide) trivial hq hrf hgr hq0
    have hz : Fl.Le (.fin 0 : F32) (Fl.mul (.fin 0) g.relativeFee) := by
      refine ⟨by simp, this.1, ?_⟩
      cases hx : g.relativeFee with
      | nan => rw [hx] at hrf; exact hrf.elim
      | inf t => rw [hx] at hrf; exact hrf.elim
      | negZero =>
        simp only [Fl.mul, toQ, zero_mul, if_true]
        cases (signBit (.fin 0 : F32) != signBit (.negZero : F32)) <;> rfl
      | fin y =>
        simp only [Fl.mul, toQ, zero_mul, if_true]
        cases (signBit (.fin 0 : F32) != signBit (.fin y : F32)) <;> rfl
    have hall := hz.trans this
    unfold NotBelowZero
    rw [show lit F32 0 = .fin 0 from by decide +kernel]
    exact hall.2.2
  have hsum : NotBelowZero (g.fixedFee +. q *. g.relativeFee) := SignLaws.add_not_neg _ _ (notBelow_of_toQ hff hgf) hprod
  have hnn : (g.fixedFee +. q *. g.relativeFee) ≠ .nan := by
    refine (Fl.Le.add_left (f := binary32) (by decide) hff (Fl.Le.refl ?_)).1
    exact (Fl.Le.mul_right (f := binary32) (by decide) hq hq hrf hgr le_rfl).1
  exact fee_cheaper a h hu hq hq le_rfl (notBelow_toQ hq h0) (fee_sum_fin hnn (not_inf_true hsum) hfin (fin_ne_nan (h.finite _ (by simp))))

/-- Buying the same amount at the same price with lower fees. -/
theorem buyBase_cheaper (a w : Account F32) {f g : FeeConfig F32} (hf : CheaperFloat f g) (b p : F32) (huq : IsFin a.quoteUnit)
    (hub : IsFin a.baseUnit) (hQ : IsFin a.quoteBalance) (hT : IsFin a.totalFee) (hp : IsFin p) (h : a.buyBase g b p = .ok (true, w)) :
    ∃ z, a.buyBase f b p = .ok (true, z) ∧ z.baseBalance = w.baseBalance ∧ (w.quoteBalance <=. z.quoteBalance) = true ∧
      (z.totalFee <=. w.totalFee) = true := by
  obtain ⟨hpp, hb, h⟩ := a.buyBase_cases h
  rcases h with ⟨h, -⟩ | ⟨-, h1, q, fee, hq, hfee, h2, rfl⟩
  · cases h
  obtain ⟨hgm, -, -⟩ := dear hf
  have hgn := fin_ne_nan (hf.finite g.minimumFee (by simp))
  have hP : 0 < toQ p := pos_of_cmp hp hpp
  set B := roundUnit b a.baseUnit with hB
  have hBn : NotBelowZero B := hB ▸ roundUnit_notBelow' (SignLaws.not_lt_of_le _ _ hb)
  have hBnn : B ≠ .nan := by
    have hbn : b ≠ .nan := (le_of_cmp hb).2.1
    rw [hB]; exact (roundUnit_le hub (Fl.Le.refl hbn)).1
  have hBp : (B *. p) ≠ .nan := by
    have := Fl.Le.mul_left (f := binary32) (by decide) hp hP (Fl.Le.refl hBnn)
    rw [Fl.mul_comm' p B] at this
    exact this.1
  have hqn : NotBelowZero q := hq ▸ notBelow_ceil (notBelow_mul hpp hBn)
  have hqnn : q ≠ .nan := hq ▸ (ceilUnit_le huq (Fl.Le.refl hBp)).1
  have hfn : NotBelowZero fee := hfee ▸ getFee_notBelow a g q hgm
  have hfnn : fee ≠ .nan := hfee ▸ fee_ne_nan a g q hgn huq
  have htn : NotBelowZero (q +. fee) := SignLaws.add_not_neg _ _ hqn hfn
  have htnn := add_ne_nan hqnn hfnn hqn hfn
  have htf : IsFin (q +. fee) := fin_of_bounded hQ htn htnn h2
  obtain ⟨hqf, hfeef, -⟩ := Fl.add_err (a := q) (b := fee) htf
  have hfe : Fl.Le (a.getFee f q) fee := hfee ▸ fee_cheaper' a hf huq hqf hqn (hfee ▸ hfeef)
  have hf0 : NotBelowZero (a.getFee f q) := getFee_notBelow a f q (notBelow_of_toQ (hf.finite _ (by simp)) (hf.nonneg _ (by simp)))
  have hff : IsFin (a.getFee f q) := fin_of_Le hfeef hf0 hfe
  have htot : Fl.Le (q +. a.getFee f q) (q +. fee) := Fl.Le.add_left (f := binary32) (by decide) hqf hfe
  have htf' : IsFin (q +. a.getFee f q) := fin_of_Le htf (SignLaws.add_not_neg _ _ hqn hf0) htot
  have hbal : Fl.Le (q +. a.getFee f q) a.quoteBalance := htot.trans ⟨htnn, fin_ne_nan hQ, h2⟩
  rw [Account.buyBase_eq]
  simp only [← hB, ← hq]
  rw [if_pos hpp, if_pos hb, if_neg (by rw [h1]; decide), if_neg (show ¬ ((q +. a.getFee f q) >. a.quoteBalance) = true from fun hc => Bool.false_ne_true (hbal.2.2.symm.trans hc))]
  refine ⟨_, rfl, rfl, cmp_of_Le ?_, cmp_of_Le ?_⟩
  · exact roundUnit_le huq (sub_le (by decide) hQ htf' htf htot)
  · exact roundUnit_le huq (Fl.Le.add_left (f := binary32) (by decide) hT hfe)

theorem roundUnit_fin' {u x : F32} (h : IsFin (roundUnit x u)) : IsFin x := by
  unfold roundUnit at h
  split_ifs at h
  · have h1 := (Fl.mul_err h).2.1
    have h2 := (Fl.round_spec h1).1
    revert h2
    show IsFin (Fl.div x u) → _
    cases x <;> cases u <;> simp [Fl.div, IsFin]
  · exact h

theorem notBelow_floor {x u : F32} (h : NotBelowZero x) : NotBelowZero (floorUnit x u) := by
  unfold floorUnit
  split
  · rename_i hu
    exact SignLaws.mul_not_neg _ _ hu (SignLaws.floor_not_neg _ (SignLaws.div_not_neg _ _ hu h))
  · exact h

/-- Selling the same amount at the same price with lower fees. -/
theorem sellBase_cheaper (a w : Account F32) {f g : FeeConfig F32} (hf : CheaperFloat f g) (b p : F32) (huq : IsFin a.quoteUnit) (hT : IsFin a.totalFee)
    (hw : IsFin w.quoteBalance) (h : a.sellBase g b p = .ok (true, w)) :
    ∃ z, a.sellBase f b p = .ok (true, z) ∧ z.baseBalance = w.baseBalance ∧ (w.quoteBalance <=. z.quoteBalance) = true ∧
      (z.totalFee <=. w.totalFee) = true := by
  obtain ⟨hpp, hb, h⟩ := a.sellBase_cases h
  rcases h with ⟨h, -⟩ | ⟨-, h1, h3, q, fee, hq, hfee, h2, rfl⟩
  · cases h
  have hw1 : IsFin (a.quoteBalance +. (q -. fee)) := roundUnit_fin' hw
  obtain ⟨hQ, hnet, -⟩ := Fl.add_err (a := a.quoteBalance) (b := q -. fee) hw1
  obtain ⟨hqf, hfeef, -⟩ := Fl.sub_err (a := q) (b := fee) hnet
  have hBn : NotBelowZero (roundUnit b a.baseUnit) := roundUnit_notBelow' (SignLaws.not_lt_of_le _ _ hb)
  have hqn : NotBelowZero q := hq ▸ notBelow_floor (notBelow_mul hpp hBn)
  have hfe : Fl.Le (a.getFee f q) fee := hfee ▸ fee_cheaper' a hf huq hqf hqn (hfee ▸ hfeef)
  have hf0 : NotBelowZero (a.getFee f q) := getFee_notBelow a f q (notBelow_of_toQ (hf.finite _ (by simp)) (hf.nonneg _ (by simp)))
  have hff : IsFin (a.getFee f q) := fin_of_Le hfeef hf0 hfe
  have hnl : Fl.Le (q -. fee) (q -. a.getFee f q) := sub_le (by decide) hqf hff hfeef hfe
  have hun : Fl.Le a.quoteUnit (q -. a.getFee f q) := Fl.Le.trans ⟨fin_ne_nan huq, fin_ne_nan hnet, h2⟩ hnl
  rw [Account.sellBase_eq]
  simp only [← hq]
  rw [if_pos hpp, if_pos hb, if_neg (by rw [h1, h3]; decide),
    if_neg (show ¬ ((q -. a.getFee f q) <. a.quoteUnit) = true from fun hc => Bool.false_ne_true (hun.2.2.symm.trans hc))]
  refine ⟨_, rfl, rfl, cmp_of_Le ?_, cmp_of_Le ?_⟩
  · exact roundUnit_le huq (Fl.Le.add_left (f := binary32) (by decide) hQ hnl)
  · exact roundUnit_le huq (Fl.Le.add_left (f := binary32) (by decide) hT hfe)

section orders
variable (a w : Account F32) (c c' : AccountConfig F32) (o : Order F32) (t : OhlcTick F32) (ty : OrderType) (x : F32)

theorem ok_valid {a w : Account F32} {c : AccountConfig F32} {o : Order F32} {t : OhlcTick F32} (h : a.executeOrder c o t = .ok (true, w)) : ValidOrder o := by
  by_contra hv
  rw [Account.executeOrder_invalid a c o t hv] at h
  cases h

/-- **C114** in binary32 (buying a base amount). Whatever order to buy an amount of base currency is executed at a finite price, is also executed with fees that are
nowhere higher: it buys bit for bit the same amount, leaves at least as much quote currency, and the account has paid no more fees.  No rounding can turn this round. -/
theorem C114_buy_float (hty : o.type = some ty) (hsd : o.side = some .buy) (ho : o.amount = .base x) (hf : CheaperFloat (feeFor c' ty) (feeFor c ty))
    (hfin : ∀ y ∈ [a.quoteUnit, a.baseUnit, a.quoteBalance, a.totalFee, execPrice a.marketLiquidity t o.getPrice ty .buy], IsFin y)
    (h : a.executeOrder c o t = .ok (true, w)) :
    ∃ z, a.executeOrder c' o t = .ok (true, z) ∧ z.baseBalance = w.baseBalance ∧ (w.quoteBalance <=. z.quoteBalance) = true ∧
      (z.totalFee <=. w.totalFee) = true := by
  have hv := ok_valid h
  rw [Account.executeOrder_valid a c o t hv hty hsd] at h
  rw [Account.executeOrder_valid a c' o t hv hty hsd]
  split_ifs at h ⊢ with hn
  · cases h
  rw [ho] at h ⊢
  simp only [tradeOf] at h ⊢
  exact buyBase_cheaper a w hf _ _ (hfin _ (by simp)) (hfin _ (by simp)) (hfin _ (by simp)) (hfin _ (by simp)) (hfin _ (by simp)) h

/-- **C114** in binary32 (selling a base amount). Whatever order to sell an amount of base currency is executed and leaves a finite balance, is also executed with fees
that are nowhere higher: it sells bit for bit the same amount, leaves at least as much quote currency, and the account has paid no more fees. -/
theorem C114_sell_float (hty : o.type = some ty) (hsd : o.side = some .sell) (ho : o.amount = .base x) (hf : CheaperFloat (feeFor c' ty) (feeFor c ty))
    (hfin : ∀ y ∈ [a.quoteUnit, a.totalFee, w.quoteBalance], IsFin y)
    (h : a.executeOrder c o t = .ok (true, w)) :
    ∃ z, a.executeOrder c' o t = .ok (true, z) ∧ z.baseBalance = w.baseBalance ∧ (w.quoteBalance <=. z.quoteBalance) = true ∧
      (z.totalFee <=. w.totalFee) = true := by
  have hv := ok_valid h
  rw [Account.executeOrder_valid a c o t hv hty hsd] at h
  rw [Account.executeOrder_valid a c' o t hv hty hsd]
  split_ifs at h ⊢ with hn
  · cases h
  rw [ho] at h ⊢
  simp only [tradeOf] at h ⊢
  exact sellBase_cheaper a w hf _ _ (hfin _ (by simp)) (hfin _ (by simp)) (hfin _ (by simp)) h

end orders

/-! ## Non-vacuity -/

section examples

def ftDear : FeeConfig F32 := ⟨lit F32 (1 / 100), lit F32 (1 / 10), lit F32 (1 / 2)⟩
def ftCheap : FeeConfig F32 := ⟨lit F32 (1 / 200), lit F32 (1 / 20), lit F32 (1 / 4)⟩
def ftCfg (fee : FeeConfig F32) : AccountConfig F32 := ⟨lit F32 0, lit F32 100, lit F32 (1 / 100), lit F32 (1 / 100), fee, fee, fee, lit F32 (3 / 10), lit F32 0⟩
def ftAcc : Account F32 := ⟨lit F32 10, lit F32 100, lit F32 0, lit F32 (1 / 100), lit F32 (1 / 100), lit F32 (3 / 10), lit F32 0⟩
def ftTick : OhlcTick F32 := ⟨60, lit F32 10, lit F32 (121 / 10), lit F32 (81 / 10), lit F32 9, lit F32 100⟩

theorem isFin_of {x : F32} (h : (match x with | .fin _ => true | _ => false) = true) : IsFin x := by
  cases x <;> first | trivial | cases h

theorem all_fin {l : List F32} (h : (l.all fun x => match x with | .fin _ => true | _ => false) = true) : ∀ y ∈ l, IsFin y :=
  fun y hy => isFin_of (List.all_eq_true.mp h y hy)

theorem ft_cheaper : CheaperFloat ftCheap ftDear :=
  ⟨by decide +kernel, by decide +kernel, by decide +kernel, by decide +kernel, all_fin (by decide +kernel)⟩

/-- What an order does to an account, if it is executed. -/
def ftAfter (c : AccountConfig F32) (o : Order F32) : Account F32 := match ftAcc.executeOrder c o ftTick with | .ok (true, w) => w | _ => ftAcc

example := C114_buy_float ftAcc (ftAfter (ftCfg ftDear) ⟨some .market, some .buy, .base (lit F32 5), none⟩) (ftCfg ftDear) (ftCfg ftCheap)
  ⟨some .market, some .buy, .base (lit F32 5), none⟩ ftTick .market (lit F32 5) rfl rfl rfl ft_cheaper (all_fin (by decide +kernel)) (by decide +kernel)

example := C114_sell_float ftAcc (ftAfter (ftCfg ftDear) ⟨some .stop, some .sell, .base (lit F32 (333 / 100)), some (lit F32 9)⟩) (ftCfg ftDear) (ftCfg ftCheap)
  ⟨some .stop, some .sell, .base (lit F32 (333 / 100)), some (lit F32 9)⟩ ftTick .stop (lit F32 (333 / 100)) rfl rfl rfl ft_cheaper
  (all_fin (by decide +kernel)) (by decide +kernel)

/-- The cheaper purchase leaves strictly more. -/
example : ((ftAfter (ftCfg ftDear) ⟨some .market, some .buy, .base (lit F32 5), none⟩).quoteBalance <.
    (ftAfter (ftCfg ftCheap) ⟨some .market, some .buy, .base (lit F32 5), none⟩).quoteBalance) = true := by decide +kernel

end examples

end Verif.Props.FloatTerms
