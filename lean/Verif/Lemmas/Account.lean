import Verif.Spec.Account

/-! Helper lemmas about the account model. -/

set_option linter.unusedSectionVars false

namespace Verif
open FloatOps Spec

section generic
variable {F : Type} [FloatOps F]

@[simp] theorem assertThat_true : assertThat true = .ok () := rfl
@[simp] theorem assertThat_false : assertThat false = .error .assertion := rfl

theorem assertThat_bind {α : Type} (b : Bool) (f : Unit → Res α) :
    (assertThat b >>= f) = if b then f () else .error .assertion := by
  cases b <;> rfl

/-- One step of settlement: what the four primitives do in common. -/
theorem assertThat_bind_ok {α : Type} {b : Bool} {f : Unit → Res α} {x : α}
    (h : (assertThat b >>= f) = .ok x) : b = true ∧ f () = .ok x := by
  cases b
  · cases h
  · exact ⟨rfl, h⟩

namespace Account
variable (a : Account F)

/-- The account after a successful buy of (rounded) `b` costing `q` with fee `fee`. -/
def afterBuy (b q fee : F) : Account F := { a with
  baseBalance := roundUnit (a.baseBalance +. b) a.baseUnit
  quoteBalance := roundUnit (a.quoteBalance -. (q +. fee)) a.quoteUnit
  totalFee := roundUnit (a.totalFee +. fee) a.quoteUnit }

/-- The account after a successful sell of (rounded) `b` yielding `q` with fee `fee`. -/
def afterSell (b q fee : F) : Account F := { a with
  baseBalance := roundUnit (a.baseBalance -. b) a.baseUnit
  quoteBalance := roundUnit (a.quoteBalance +. (q -. fee)) a.quoteUnit
  totalFee := roundUnit (a.totalFee +. fee) a.quoteUnit }

theorem buyBase_eq (fc : FeeConfig F) (b p : F) :
    a.buyBase fc b p =
      if p >. lit F 0 then
        if b >=. lit F 0 then
          if roundUnit b a.baseUnit <. a.baseUnit then .ok (false, a)
          else
            let q := ceilUnit (roundUnit b a.baseUnit *. p) a.quoteUnit
            if (q +. a.getFee fc q) >. a.quoteBalance then .ok (false, a)
            else .ok (true, a.afterBuy (roundUnit b a.baseUnit) q (a.getFee fc q))
        else .error .assertion
      else .error .assertion := by
  unfold buyBase afterBuy
  simp only [assertThat_bind]
  rfl

theorem sellBase_eq (fc : FeeConfig F) (b p : F) :
    a.sellBase fc b p =
      if p >. lit F 0 then
        if b >=. lit F 0 then
          if (roundUnit b a.baseUnit <. a.baseUnit || roundUnit b a.baseUnit >. a.baseBalance) then
            .ok (false, a)
          else
            let q := floorUnit (roundUnit b a.baseUnit *. p) a.quoteUnit
            if (q -. a.getFee fc q) <. a.quoteUnit then .ok (false, a)
            else .ok (true, a.afterSell (roundUnit b a.baseUnit) q (a.getFee fc q))
        else .error .assertion
      else .error .assertion := by
  unfold sellBase afterSell
  simp only [assertThat_bind]
  rfl

theorem buyAtQuote_eq (fc : FeeConfig F) (q p m : F) :
    a.buyAtQuote fc q p m =
      if p >. lit F 0 then
        if q >=. lit F 0 then
          let q' := roundUnit q a.quoteUnit
          if (q' <. a.quoteUnit || q' >. a.quoteBalance) then .ok (false, a)
          else if q' <=. a.getFee fc q' then .ok (false, a)
          else
            let b := floorUnit (fmin ((q' -. a.getFee fc q') /. p) m) a.baseUnit
            if b <. a.baseUnit then .ok (false, a) else a.buyBase fc b p
        else .error .assertion
      else .error .assertion := by
  unfold buyAtQuote
  simp only [assertThat_bind]
  rfl

theorem sellAtQuote_eq (fc : FeeConfig F) (q p m : F) :
    a.sellAtQuote fc q p m =
      if p >. lit F 0 then
        if q >=. lit F 0 then
          let q' := roundUnit q a.quoteUnit
          if q' <. a.quoteUnit then .ok (false, a)
          else
            let b := floorUnit (fmin ((q' +. a.getFee fc q') /. p) m) a.baseUnit
            if b <. a.baseUnit then .ok (false, a) else a.sellBase fc b p
        else .error .assertion
      else .error .assertion := by
  unfold sellAtQuote
  simp only [assertThat_bind]
  rfl

/-- Outcomes of `BuyBase`. -/
theorem buyBase_cases {fc : FeeConfig F} {b p : F} {ok : Bool} {a' : Account F}
    (h : a.buyBase fc b p = .ok (ok, a')) :
    (p >. lit F 0) = true ∧ (b >=. lit F 0) = true ∧
    ((ok = false ∧ a' = a) ∨
     (ok = true ∧ (roundUnit b a.baseUnit <. a.baseUnit) = false ∧
      ∃ q fee, q = ceilUnit (roundUnit b a.baseUnit *. p) a.quoteUnit ∧ fee = a.getFee fc q ∧
        ((q +. fee) >. a.quoteBalance) = false ∧ a' = a.afterBuy (roundUnit b a.baseUnit) q fee)) := by
  rw [buyBase_eq] at h
  simp only at h
  split_ifs at h with h1 h2 h3 h4
  all_goals simp only [Except.ok.injEq, Prod.mk.injEq] at h
  · exact ⟨h1, h2, .inl ⟨h.1.symm, h.2.symm⟩⟩
  · exact ⟨h1, h2, .inl ⟨h.1.symm, h.2.symm⟩⟩
  · refine ⟨h1, h2, .inr ⟨h.1.symm, by simpa using h3, _, _, rfl, rfl, by simpa using h4, h.2.symm⟩⟩

/-- Outcomes of `SellBase`. -/
theorem sellBase_cases {fc : FeeConfig F} {b p : F} {ok : Bool} {a' : Account F}
    (h : a.sellBase fc b p = .ok (ok, a')) :
    (p >. lit F 0) = true ∧ (b >=. lit F 0) = true ∧
    ((ok = false ∧ a' = a) ∨
     (ok = true ∧ (roundUnit b a.baseUnit <. a.baseUnit) = false ∧
      (roundUnit b a.baseUnit >. a.baseBalance) = false ∧
      ∃ q fee, q = floorUnit (roundUnit b a.baseUnit *. p) a.quoteUnit ∧ fee = a.getFee fc q ∧
        ((q -. fee) <. a.quoteUnit) = false ∧ a' = a.afterSell (roundUnit b a.baseUnit) q fee)) := by
  rw [sellBase_eq] at h
  simp only at h
  split_ifs at h with h1 h2 h3 h4
  all_goals simp only [Except.ok.injEq, Prod.mk.injEq] at h
  · exact ⟨h1, h2, .inl ⟨h.1.symm, h.2.symm⟩⟩
  · exact ⟨h1, h2, .inl ⟨h.1.symm, h.2.symm⟩⟩
  · simp only [Bool.or_eq_true, not_or, Bool.not_eq_true] at h3
    refine ⟨h1, h2, .inr ⟨h.1.symm, h3.1, h3.2, _, _, rfl, rfl, by simpa using h4, h.2.symm⟩⟩

/-- Outcomes of `BuyAtQuote`. -/
theorem buyAtQuote_cases {fc : FeeConfig F} {q p m : F} {ok : Bool} {a' : Account F}
    (h : a.buyAtQuote fc q p m = .ok (ok, a')) :
    (p >. lit F 0) = true ∧ (q >=. lit F 0) = true ∧
    ((ok = false ∧ a' = a) ∨
     ∃ q' fee b, q' = roundUnit q a.quoteUnit ∧ fee = a.getFee fc q' ∧
      b = floorUnit (fmin ((q' -. fee) /. p) m) a.baseUnit ∧
      (q' <. a.quoteUnit) = false ∧ (q' >. a.quoteBalance) = false ∧ (q' <=. fee) = false ∧
      (b <. a.baseUnit) = false ∧ a.buyBase fc b p = .ok (ok, a')) := by
  rw [buyAtQuote_eq] at h
  simp only at h
  split_ifs at h with h1 h2 h3 h4 h5
  · simp only [Except.ok.injEq, Prod.mk.injEq] at h
    exact ⟨h1, h2, .inl ⟨h.1.symm, h.2.symm⟩⟩
  · simp only [Except.ok.injEq, Prod.mk.injEq] at h
    exact ⟨h1, h2, .inl ⟨h.1.symm, h.2.symm⟩⟩
  · simp only [Except.ok.injEq, Prod.mk.injEq] at h
    exact ⟨h1, h2, .inl ⟨h.1.symm, h.2.symm⟩⟩
  · simp only [Bool.or_eq_true, not_or, Bool.not_eq_true] at h3 h4 h5
    exact ⟨h1, h2, .inr ⟨_, _, _, rfl, rfl, rfl, h3.1, h3.2, h4, h5, h⟩⟩

/-- Outcomes of `SellAtQuote`. -/
theorem sellAtQuote_cases {fc : FeeConfig F} {q p m : F} {ok : Bool} {a' : Account F}
    (h : a.sellAtQuote fc q p m = .ok (ok, a')) :
    (p >. lit F 0) = true ∧ (q >=. lit F 0) = true ∧
    ((ok = false ∧ a' = a) ∨
     ∃ q' fee b, q' = roundUnit q a.quoteUnit ∧ fee = a.getFee fc q' ∧
      b = floorUnit (fmin ((q' +. fee) /. p) m) a.baseUnit ∧
      (q' <. a.quoteUnit) = false ∧
      (b <. a.baseUnit) = false ∧ a.sellBase fc b p = .ok (ok, a')) := by
  rw [sellAtQuote_eq] at h
  simp only at h
  split_ifs at h with h1 h2 h3 h5
  · simp only [Except.ok.injEq, Prod.mk.injEq] at h
    exact ⟨h1, h2, .inl ⟨h.1.symm, h.2.symm⟩⟩
  · simp only [Except.ok.injEq, Prod.mk.injEq] at h
    exact ⟨h1, h2, .inl ⟨h.1.symm, h.2.symm⟩⟩
  · simp only [Bool.not_eq_true] at h3 h5
    exact ⟨h1, h2, .inr ⟨_, _, _, rfl, rfl, rfl, h3, h5, h⟩⟩

theorem isValidOrder_iff (o : Order F) : isValidOrder o = true ↔ ValidOrder o := by
  obtain ⟨ty, sd, am, pr⟩ := o
  unfold isValidOrder ValidOrder Order.getPrice
  rcases ty with _ | ty
  · simp
  rcases sd with _ | sd
  · simp
  rcases am with _ | x | x <;> rcases pr with _ | p <;> cases ty <;> simp

theorem executeOrder_invalid (c : AccountConfig F) (o : Order F) (t : OhlcTick F)
    (h : ¬ ValidOrder o) : a.executeOrder c o t = .error .assertion := by
  unfold executeOrder
  rw [← isValidOrder_iff] at h
  simp only [Bool.not_eq_true] at h
  rw [h]; rfl

theorem executeOrder_valid [SignLaws F] (c : AccountConfig F) (o : Order F) (t : OhlcTick F)
    {ty : OrderType} {sd : Side} (hv : ValidOrder o) (hty : o.type = some ty)
    (hsd : o.side = some sd) :
    a.executeOrder c o t =
      if notReached t o.getPrice ty sd then .ok (false, a)
      else tradeOf a c t o.getPrice ty sd o.amount := by
  have hvb := (isValidOrder_iff o).mpr hv
  unfold executeOrder
  rw [hvb, assertThat_true]
  obtain ⟨ty', sd', h1, h2, hp, x, hx, hx'⟩ := hv
  rw [hty] at h1; cases h1
  rw [hsd] at h2; cases h2
  have hge : (x >=. lit F 0) = true := SignLaws.le_of_lt _ _ hx
  have hpp : ty = .market ∨ (o.getPrice >. lit F 0) = true := by
    rcases hp with h | ⟨p, hp, hpp⟩
    · exact .inl h
    · right; simpa [Order.getPrice, hp] using hpp
  rcases hx' with hx' | hx' <;> cases ty <;> cases sd <;>
    simp only [reduceCtorEq, false_or] at hpp <;>
    simp only [hty, hsd, hx', bind, Except.bind] <;>
    simp only [marketBuy, marketSell, marketBuyAtQuote, marketSellAtQuote, stopBuy, stopSell,
      stopBuyAtQuote, stopSellAtQuote, limitBuy, limitSell, limitBuyAtQuote, limitSellAtQuote,
      assertThat_bind, hpp, hge, if_true] <;>
    rfl

/-- Every successful execution is one `BuyBase` or `SellBase`. -/
theorem executeOrder_ok [SignLaws F] {c : AccountConfig F} {o : Order F} {t : OhlcTick F} {ok : Bool}
    {a' : Account F} (h : a.executeOrder c o t = .ok (ok, a')) :
    (ok = false ∧ a' = a) ∨
    (ok = true ∧ ∃ ty sd b, o.type = some ty ∧ o.side = some sd ∧
      notReached t o.getPrice ty sd = false ∧
      ((sd = .buy ∧ a.buyBase (feeFor c ty) b (execPrice a.marketLiquidity t o.getPrice ty sd)
          = .ok (true, a')) ∨
       (sd = .sell ∧ a.sellBase (feeFor c ty) b (execPrice a.marketLiquidity t o.getPrice ty sd)
          = .ok (true, a')))) := by
  by_cases hv : ValidOrder o
  swap
  · rw [executeOrder_invalid a c o t hv] at h; cases h
  have hv' := hv
  obtain ⟨ty, sd, hty, hsd, -, x, -, hx⟩ := hv'
  rw [executeOrder_valid a c o t hv hty hsd] at h
  split_ifs at h with hn
  · cases h; exact .inl ⟨rfl, rfl⟩
  simp only [Bool.not_eq_true] at hn
  have key : (ok = false ∧ a' = a) ∨ (ok = true ∧ ∃ b, ((sd = .buy ∧ a.buyBase (feeFor c ty) b (execPrice a.marketLiquidity t o.getPrice ty sd)
          = .ok (true, a')) ∨
       (sd = .sell ∧ a.sellBase (feeFor c ty) b (execPrice a.marketLiquidity t o.getPrice ty sd)
          = .ok (true, a')))) := by
    rcases hx with hx | hx <;> cases sd <;> rw [hx] at h <;> simp only [tradeOf] at h
    · rcases (buyBase_cases a h).2.2 with h' | ⟨rfl, _⟩
      · exact .inl h'
      · exact .inr ⟨rfl, _, .inl ⟨rfl, h⟩⟩
    · rcases (sellBase_cases a h).2.2 with h' | ⟨rfl, _⟩
      · exact .inl h'
      · exact .inr ⟨rfl, _, .inr ⟨rfl, h⟩⟩
    · rcases (buyAtQuote_cases a h).2.2 with h' | ⟨q', fee, b, -, -, -, -, -, -, -, h'⟩
      · exact .inl h'
      · rcases (buyBase_cases a h').2.2 with h'' | ⟨rfl, _⟩
        · exact .inl h''
        · exact .inr ⟨rfl, _, .inl ⟨rfl, h'⟩⟩
    · rcases (sellAtQuote_cases a h).2.2 with h' | ⟨q', fee, b, -, -, -, -, -, h'⟩
      · exact .inl h'
      · rcases (sellBase_cases a h').2.2 with h'' | ⟨rfl, _⟩
        · exact .inl h''
        · exact .inr ⟨rfl, _, .inr ⟨rfl, h'⟩⟩
  rcases key with h' | ⟨rfl, b, h'⟩
  · exact .inl h'
  · exact .inr ⟨rfl, ty, sd, b, hty, hsd, hn, h'⟩

end Account
end generic
end Verif
