import Verif.Spec.FloatRobust
import Verif.Lemmas.FloatNN
import Verif.Props.Robust

/-!
# C87: orders and back-tests in binary32 abort only by overflow
-/

set_option linter.unusedSectionVars false

namespace Verif.Props
open FloatOps Spec FloatMoney FloatNN
open Fl (toQ IsFin)

theorem lit_one : (lit F32 1) = .fin 1 := by decide +kernel

/-- The interpolated price is a positive number. -/
theorem interp_pos {l b w : F32} (hl : Between 0 1 l) (hb : Between (1 / 2 ^ 100) (2 ^ 125) b)
    (hw : Between (1 / 2 ^ 100) (2 ^ 125) w) : IsFin (interp l b w) ∧ 0 < toQ (interp l b w) := by
  obtain ⟨hfl, hl0, hl1⟩ := hl
  obtain ⟨hfb, hb0, hb1⟩ := hb
  obtain ⟨hfw, hw0, hw1⟩ := hw
  have hT : tinyQ ≤ 1 / 2 ^ 150 := le_refl _
  have ht := tinyQ_pos
  have hb' : (0 : ℚ) < toQ b := lt_of_lt_of_le (by norm_num) hb0
  have hw' : (0 : ℚ) < toQ w := lt_of_lt_of_le (by norm_num) hw0
  have p1 : toQ l * toQ b ≤ 2 ^ 125 := by nlinarith
  have p1' : 0 ≤ toQ l * toQ b := by positivity
  obtain ⟨f1, e1⟩ := mul_fin hfl hfb (by rw [abs_of_nonneg p1']; norm_num at p1 ⊢; linarith)
  obtain ⟨f2, e2⟩ := sub_fin (x := lit F32 1) (y := l) (by rw [lit_one]; trivial) hfl (by
    rw [lit_one]; change |1 - toQ l| ≤ _; rw [abs_of_nonneg (by linarith)]; norm_num; linarith)
  have o1 : toQ (lit F32 1) = 1 := by rw [lit_one]; rfl
  rw [o1, abs_of_nonneg (by linarith : (0 : ℚ) ≤ 1 - toQ l)] at e2
  have d0 : 0 ≤ toQ (lit F32 1 -. l) := by
    refine toQ_of_geZero ?_ f2
    rw [geZero_iff]
    refine ⟨fun h => ?_, Fl.sub_notNeg (a := lit F32 1) (b := l) ((Fl.lt_eq_false_iff (by rw [lit_one]; trivial) hfl).mpr (by rw [o1]; exact hl1))⟩
    rw [h] at f2; exact f2
  have d1 : toQ (lit F32 1 -. l) ≤ 2 := by
    have := (abs_le.mp e2).2
    norm_num at hT; linarith
  have p2' : 0 ≤ toQ (lit F32 1 -. l) * toQ w := mul_nonneg d0 hw'.le
  have p2 : toQ (lit F32 1 -. l) * toQ w ≤ 2 * 2 ^ 125 := mul_le_mul d1 hw1 hw'.le (by norm_num)
  obtain ⟨f3, e3⟩ := mul_fin f2 hfw (by rw [abs_of_nonneg p2']; norm_num at p2 ⊢; linarith)
  rw [abs_of_nonneg p1'] at e1
  rw [abs_of_nonneg p2'] at e3
  have m1 : 0 ≤ toQ (l *. b) := by
    refine toQ_of_geZero ?_ f1
    exact geZero_mul' hfb hb' (geZero_of_fin hfl hl0)
  have m2 : 0 ≤ toQ ((lit F32 1 -. l) *. w) := by
    refine toQ_of_geZero ?_ f3
    exact geZero_mul' hfw hw' (geZero_of_fin f2 d0)
  have hlow : 1 / 2 ^ 103 ≤ toQ (l *. b) + toQ ((lit F32 1 -. l) *. w) := by
    rcases le_total (1 / 2) (toQ l) with h | h
    · have : 1 / 2 * (1 / 2 ^ 100) ≤ toQ l * toQ b := mul_le_mul h hb0 (by positivity) hl0
      have := (abs_le.mp e1).1
      norm_num at *
      linarith
    · have h2 : 1 / 4 ≤ toQ (lit F32 1 -. l) := by
        have := (abs_le.mp e2).1
        norm_num at *
        linarith
      have : 1 / 4 * (1 / 2 ^ 100) ≤ toQ (lit F32 1 -. l) * toQ w := mul_le_mul h2 hw0 (by positivity) d0
      have := (abs_le.mp e3).1
      norm_num at *
      linarith
  have hhigh : toQ (l *. b) + toQ ((lit F32 1 -. l) *. w) ≤ 2 ^ 127 := by
    have := (abs_le.mp e1).2
    have := (abs_le.mp e3).2
    norm_num at *
    linarith
  have hs : 0 ≤ toQ (l *. b) + toQ ((lit F32 1 -. l) *. w) := by linarith
  obtain ⟨f4, e4⟩ := add_fin f1 f3 (by rwa [abs_of_nonneg hs])
  rw [abs_of_nonneg hs] at e4
  refine ⟨f4, ?_⟩
  have := (abs_le.mp e4).1
  unfold interp
  norm_num at *
  linarith

theorem lt_false_iff' {x y : F32} (hx : IsFin x) (hy : y ≠ .nan) (h : Fl.lt x y = false) :
    IsFin y ∧ toQ y ≤ toQ x ∨ y = .inf true := by
  cases x <;> cases y <;> simp_all [IsFin, toQ]

/-- The price at which a triggered order executes is a positive number. -/
theorem execPrice_pos32 {l p : F32} {t : OhlcTick F32} {ty : OrderType} {sd : Side} (hl : Between 0 1 l)
    (ht : TickBetween (1 / 2 ^ 100) (2 ^ 125) t) (hp : ty = .market ∨ (lit F32 0 <. p) = true)
    (hlim : ty = .limit → IsFin p) (hr : notReached t p ty sd = false) :
    IsFin (execPrice l t p ty sd) ∧ 0 < toQ (execPrice l t p ty sd) := by
  cases ty with
  | market => cases sd <;> exact interp_pos hl ht.opn (by first | exact ht.high | exact ht.low)
  | limit =>
    have hp : (lit F32 0 <. p) = true := by simpa using hp
    cases sd <;> exact ⟨hlim rfl, toQ_of_pos (hlim rfl) hp⟩
  | stop =>
    have hp : Fl.lt (.fin 0) p = true := hp.resolve_left (by simp)
    cases sd with
    | buy =>
      refine interp_pos hl ?_ ht.high
      change Fl.lt t.high p = false at hr
      have h1 : IsFin p ∧ toQ p ≤ toQ t.high := by
        rcases lt_false_iff' ht.high.1 (by rintro rfl; simp at hp) hr with h | rfl
        · exact h
        · simp at hp
      unfold fmax
      split
      · exact ht.opn
      · rename_i h
        rw [Bool.not_eq_true] at h
        exact ⟨h1.1, ht.opn.2.1.trans ((Fl.lt_eq_false_iff h1.1 ht.opn.1).mp h), h1.2.trans ht.high.2.2⟩
    | sell =>
      refine interp_pos hl ?_ ht.low
      change Fl.lt p t.low = false at hr
      unfold fmin
      split
      · exact ht.opn
      · rename_i h
        rw [Bool.not_eq_true] at h
        have h1 : IsFin p ∧ toQ p ≤ toQ t.opn := by
          rcases lt_false_iff' ht.opn.1 (by rintro rfl; simp at hp) h with h | rfl
          · exact h
          · simp at hp
        exact ⟨h1.1, ht.low.2.1.trans ((Fl.lt_eq_false_iff h1.1 ht.low.1).mp hr), h1.2.trans ht.opn.2.2⟩

theorem lt_of_not_le32 {x y : F32} (hx : GeZero x) (hy : GeZero y) (h : Fl.le x y = false) : Fl.lt y x = true := by
  rw [geZero_iff] at hx hy
  unfold Fl.le at h
  cases x <;> cases y <;> simp_all
  · exact (h.2 (le_antisymm hy h.1)).elim
  · exact lt_of_le_of_ne hx (Ne.symm h)
  · exact lt_of_le_of_ne h.1 (Ne.symm h.2)

section totals
variable (a : Account F32) (fc : FeeConfig F32) {b p m : F32} (hp : IsFin p) (hp0 : 0 < toQ p)
include hp hp0

theorem buyBase_total32 (hb : GeZero b) : ∃ r, a.buyBase fc b p = .ok r := by
  have h1 : (p >. lit F32 0) = true := pos_of_fin hp hp0
  have h2 : (b >=. lit F32 0) = true := hb
  rw [Account.buyBase_eq, if_pos h1, if_pos h2]
  simp only
  split_ifs <;> exact ⟨_, rfl⟩

theorem sellBase_total32 (hb : GeZero b) : ∃ r, a.sellBase fc b p = .ok r := by
  have h1 : (p >. lit F32 0) = true := pos_of_fin hp hp0
  have h2 : (b >=. lit F32 0) = true := hb
  rw [Account.sellBase_eq, if_pos h1, if_pos h2]
  simp only
  split_ifs <;> exact ⟨_, rfl⟩

theorem buyAtQuote_total32 (hu : SaneUnits a) (hm : GeZero fc.minimumFee) (hb : GeZero b) (hcap : Fl.NotNeg m) :
    ∃ r, a.buyAtQuote fc b p m = .ok r := by
  have h1 : (p >. lit F32 0) = true := pos_of_fin hp hp0
  have h2 : (b >=. lit F32 0) = true := hb
  rw [Account.buyAtQuote_eq, if_pos h1, if_pos h2]
  simp only
  split_ifs with g1 h2 g3
  · exact ⟨_, rfl⟩
  · exact ⟨_, rfl⟩
  · exact ⟨_, rfl⟩
  · refine buyBase_total32 a fc hp hp0 (geZero_floorUnit hu.base.1 (geZero_fmin (geZero_div hp hp0 (geZero_sub ?_)) hcap))
    rw [Bool.not_eq_true] at h2
    exact lt_of_not_le32 (geZero_roundUnit hu.quote.1 hb) (geZero_getFee a fc _ hu.quote.1 hm) h2

theorem sellAtQuote_total32 (hu : SaneUnits a) (hm : GeZero fc.minimumFee) (hb : GeZero b) (hcap : Fl.NotNeg m) :
    ∃ r, a.sellAtQuote fc b p m = .ok r := by
  have h1 : (p >. lit F32 0) = true := pos_of_fin hp hp0
  have h2 : (b >=. lit F32 0) = true := hb
  rw [Account.sellAtQuote_eq, if_pos h1, if_pos h2]
  simp only
  split_ifs with g1 g3
  · exact ⟨_, rfl⟩
  · exact ⟨_, rfl⟩
  · exact sellBase_total32 a fc hp hp0 (geZero_floorUnit hu.base.1 (geZero_fmin (geZero_div hp hp0
      (geZero_add (geZero_roundUnit hu.quote.1 hb) (geZero_getFee a fc _ hu.quote.1 hm))) hcap))

end totals

/-- **C87** (orders). In binary32, on a tick with prices between 2^-100 and 2^125 and a volume that is not negative,
with a liquidity between 0 and 1, units that are numbers and not negative and minimum fees that are not negative,
`ExecuteOrder` returns for every valid order whose price, if it is a limit order, is a number.  Balances, fixed and
relative fees, amounts, stop prices and the volume ratio are arbitrary floats, infinities and NaNs included. -/
theorem C87_orders_never_abort (a : Account F32) (c : AccountConfig F32) (o : Order F32) (t : OhlcTick F32)
    (hl : Between 0 1 a.marketLiquidity) (hu : SaneUnits a) (ht : TickBetween (1 / 2 ^ 100) (2 ^ 125) t)
    (hm : ∀ ty, ((feeFor c ty).minimumFee >=. lit F32 0) = true)
    (hlim : o.type = some .limit → IsFin o.getPrice) :
    (∃ r, a.executeOrder c o t = .ok r) ↔ ValidOrder o := by
  constructor
  · rintro ⟨r, h⟩
    by_contra hv
    rw [C13_invalid_aborts a c o t hv] at h; cases h
  intro hv
  obtain ⟨ty, sd, hty, hsd, hpr, x, hx, hamt⟩ := id hv
  rw [C12_trade_table a c o t ty sd hv hty hsd]
  split_ifs with hn
  · exact ⟨_, rfl⟩
  rw [Bool.not_eq_true] at hn
  have hcap := notNeg_maxBase a t ht.volume hu.base.1
  have hgp : ty = .market ∨ (lit F32 0 <. o.getPrice) = true := by
    rcases hpr with h | ⟨p, hp, hpp⟩
    · exact .inl h
    · right; simpa [Order.getPrice, hp] using hpp
  obtain ⟨hf, hprice⟩ := execPrice_pos32 hl ht hgp (fun h => hlim (h ▸ hty)) hn
  have hx0 : GeZero x := geZero_of_pos hx
  have hx' : GeZero (if ty = .limit then fmin x (a.maxBaseAmount t) else x) := by
    split_ifs
    · exact geZero_fmin hx0 hcap
    · exact hx0
  have hm' : Fl.NotNeg (if ty = .limit then a.maxBaseAmount t else (FloatOps.maxFinite : F32)) := by
    split_ifs
    · exact hcap
    · show Fl.NotNeg (Fl.maxFin binary32); unfold Fl.NotNeg; decide +kernel
  rcases hamt with h | h <;> rw [h] <;> cases sd <;> simp only [tradeOf]
  · exact buyBase_total32 a _ hf hprice hx'
  · exact sellBase_total32 a _ hf hprice hx'
  · exact buyAtQuote_total32 a _ hf hprice hu (hm ty) hx0 hm'
  · exact sellAtQuote_total32 a _ hf hprice hu (hm ty) hx0 hm'

/-! ### The account -/

/-- An account on which every valid order can be processed and that a trader can use. -/
structure Healthy32 (a : Account F32) : Prop where
  base : Holding a.baseBalance
  quote : Holding a.quoteBalance
  some : 0 < toQ a.baseBalance ∨ 0 < toQ a.quoteBalance
  baseUnit : Between (1 / 2 ^ 60) (2 ^ 60) a.baseUnit
  quoteUnit : Between (1 / 2 ^ 60) (2 ^ 60) a.quoteUnit
  liquidity : Between 0 1 a.marketLiquidity

theorem Healthy32.units {a : Account F32} (h : Healthy32 a) : SaneUnits a where
  base := ⟨h.baseUnit.1, le_trans (by positivity) h.baseUnit.2.1⟩
  quote := ⟨h.quoteUnit.1, le_trans (by positivity) h.quoteUnit.2.1⟩

theorem holding_nonneg {x : F32} (h : Holding x) : 0 ≤ toQ x := by
  rcases h.2.1 with h | h
  · exact h.ge
  · exact le_trans (by positivity) h

theorem holding_geZero {x : F32} (h : Holding x) : GeZero x := geZero_of_fin h.1 (holding_nonneg h)

/-- What a rounded amount looks like. -/
theorem roundUnit_shape {u x : F32} (hu : Between (1 / 2 ^ 60) (2 ^ 60) u) (h : IsFin (roundUnit x u)) :
    IsFin x ∧ ∃ n : ℤ, (n = 0 → toQ (roundUnit x u) = 0) ∧ (1 ≤ n → 1 / 2 ^ 61 ≤ toQ (roundUnit x u)) ∧
      (n ≤ -1 → toQ (roundUnit x u) < 0) ∧
      (9 / 10 * toQ u ≤ toQ x → 1 ≤ n) := by
  have hT : tinyQ = 1 / 2 ^ 150 := rfl
  obtain ⟨hfu, hu0, hu1⟩ := hu
  have hup : 0 < toQ u := lt_of_lt_of_le (by positivity) hu0
  have hu' : (lit F32 0 <. u) = true := pos_of_fin hfu hup
  unfold roundUnit at h ⊢
  rw [if_pos hu'] at h ⊢
  obtain ⟨-, hfr, -⟩ := Fl.mul_err (a := u) (b := FloatOps.round (x /. u)) h
  obtain ⟨hfd, n, hn, hr⟩ := Fl.round_spec (x := x /. u) hfr
  obtain ⟨hfx, -, hd⟩ := Fl.div_err (a := x) hfu hfd
  change |toQ (x /. u) - _| ≤ _ at hd
  rw [err32] at hd
  obtain ⟨-, -, hm⟩ := Fl.mul_err (a := u) (b := FloatOps.round (x /. u)) h
  change |toQ (u *. FloatOps.round (x /. u)) - _| ≤ _ at hm
  change toQ (FloatOps.round (x /. u)) = n at hn
  rw [err32, hn] at hm
  refine ⟨hfx, n, ?_, ?_, ?_, ?_⟩
  · rintro rfl
    show toQ (Fl.mul u (FloatOps.round (x /. u))) = 0
    rw [Fl.mul_num hfu hfr]
    change toQ (FloatOps.round (x /. u)) = _ at hn
    rw [if_pos (by rw [hn]; simp), Fl.toQ_zero]
  · intro h1
    have h1' : (1 : ℚ) ≤ n := by exact_mod_cast h1
    have h2 : toQ u ≤ toQ u * n := by nlinarith
    rw [abs_of_nonneg (by linarith : (0 : ℚ) ≤ toQ u * n)] at hm
    have := (abs_le.mp hm).1
    norm_num at *
    linarith
  · intro h1
    have h1' : (n : ℚ) ≤ -1 := by exact_mod_cast h1
    have h2 : toQ u * n ≤ - toQ u := by nlinarith
    rw [abs_of_neg (by linarith : toQ u * n < (0 : ℚ))] at hm
    have := (abs_le.mp hm).2
    norm_num at *
    linarith
  · intro hx
    have hq : 9 / 10 ≤ toQ x / toQ u := by rw [le_div_iff₀ hup]; exact hx
    rw [abs_of_nonneg (by linarith : (0 : ℚ) ≤ toQ x / toQ u)] at hd
    have h1 := (abs_le.mp hd).1
    have h2 := (abs_le.mp hr).1
    change -(1 / 2) ≤ (n : ℚ) - toQ (x /. u) at h2
    have hT' : tinyQ ≤ 1 / 100 := by rw [hT]; norm_num
    have : (0 : ℚ) < n := by linarith
    have : 0 < n := by exact_mod_cast this
    omega

theorem holding_round {u x : F32} (hu : Between (1 / 2 ^ 60) (2 ^ 60) u) (h : IsFin (roundUnit x u))
    (h0 : 0 ≤ toQ (roundUnit x u)) (h1 : toQ (roundUnit x u) ≤ 2 ^ 80) : Holding (roundUnit x u) := by
  obtain ⟨-, n, n0, n1, n2, -⟩ := roundUnit_shape hu h
  refine ⟨h, ?_, h1⟩
  rcases lt_trichotomy n 0 with hn | hn | hn
  · exact absurd (n2 (by omega)) (not_lt.mpr h0)
  · exact .inl (n0 hn)
  · exact .inr (n1 (by omega))

/-- Adding at least a unit to something that is not negative gives something positive. -/
theorem round_add_pos {u x y : F32} (hu : Between (1 / 2 ^ 60) (2 ^ 60) u) (hx : 0 ≤ toQ x)
    (hy : Fl.lt y u = false) (h : IsFin (roundUnit (x +. y) u)) : 0 < toQ (roundUnit (x +. y) u) := by
  obtain ⟨hf, n, -, n1, -, n3⟩ := roundUnit_shape hu h
  obtain ⟨-, hfy, he⟩ := Fl.add_err (a := x) (b := y) hf
  have hyu := (Fl.lt_eq_false_iff hfy hu.1).mp hy
  change |toQ (x +. y) - _| ≤ _ at he
  have hu0 := hu.2.1
  have hT : tinyQ = 1 / 2 ^ 150 := rfl
  rw [err32, abs_of_nonneg (show (0 : ℚ) ≤ toQ x + toQ y by norm_num at *; linarith)] at he
  have h1 := (abs_le.mp he).1
  refine lt_of_lt_of_le (by positivity) (n1 (n3 ?_))
  norm_num at *
  linarith

theorem outgrown_step {a a' : Account F32} (ha : Healthy32 a) {c : AccountConfig F32} {o : Order F32} {t : OhlcTick F32}
    {ok : Bool} (h : a.executeOrder c o t = .ok (ok, a')) : Healthy32 a' ∨ (ok = true ∧ Outgrown a') := by
  by_cases hg : Outgrown a'
  · rcases a.executeOrder_ok h with ⟨rfl, rfl⟩ | ⟨rfl, -⟩
    · left; exact ha
    · right; exact ⟨rfl, hg⟩
  left
  unfold Outgrown at hg
  rw [not_not] at hg
  obtain ⟨fb, gb, fq, gq⟩ := hg
  obtain ⟨h1, h2, h3, h4, -⟩ := C01_executeOrder a c o t ok a' h
  obtain ⟨nb, nq⟩ := C02_balances_never_negative c [(o, t)] a a' 
    (geZero_of_fin ha.units.base.1 ha.units.base.2) (geZero_of_fin ha.units.quote.1 ha.units.quote.2)
    (geZero_iff.mp (holding_geZero ha.base)).2 (geZero_iff.mp (holding_geZero ha.quote)).2
    (by simp [runOrders, h, bind, Except.bind])
  have nb' := toQ_of_geZero (geZero_iff.mpr ⟨fun e => by rw [e] at fb; exact fb, nb⟩) fb
  have nq' := toQ_of_geZero (geZero_iff.mpr ⟨fun e => by rw [e] at fq; exact fq, nq⟩) fq
  have key : Holding a'.baseBalance ∧ Holding a'.quoteBalance ∧ (0 < toQ a'.baseBalance ∨ 0 < toQ a'.quoteBalance) := by
    rcases a.executeOrder_ok h with ⟨rfl, rfl⟩ | ⟨rfl, ty, sd, b, -, -, -, ⟨-, h⟩ | ⟨-, h⟩⟩
    · exact ⟨ha.base, ha.quote, ha.some⟩
    · rcases (a.buyBase_cases h).2.2 with ⟨h, -⟩ | ⟨-, hb, q, fee, -, -, -, rfl⟩
      · cases h
      · exact ⟨holding_round ha.baseUnit fb nb' gb, holding_round ha.quoteUnit fq nq' gq,
          .inl (round_add_pos ha.baseUnit (holding_nonneg ha.base) hb fb)⟩
    · rcases (a.sellBase_cases h).2.2 with ⟨h, -⟩ | ⟨-, -, -, q, fee, -, -, hq, rfl⟩
      · cases h
      · exact ⟨holding_round ha.baseUnit fb nb' gb, holding_round ha.quoteUnit fq nq' gq,
          .inr (round_add_pos ha.quoteUnit (holding_nonneg ha.quote) hq fq)⟩
  exact ⟨key.1, key.2.1, key.2.2, by rw [h2]; exact ha.baseUnit, by rw [h3]; exact ha.quoteUnit,
    by rw [h4]; exact ha.liquidity⟩

/-! ### The loop -/

/-- An order that `ExecuteOrder` accepts in binary32. -/
def GoodOrder (o : Order F32) : Prop := ValidOrder o ∧ (o.type = some .limit → IsFin o.getPrice)

theorem tick_weaken {t : OhlcTick F32} (h : CleanTick32 t) : TickBetween (1 / 2 ^ 100) (2 ^ 125) t := by
  have k : ∀ x : F32, Between (1 / 2 ^ 40) (2 ^ 40) x → Between (1 / 2 ^ 100) (2 ^ 125) x := fun x hx =>
    ⟨hx.1, le_trans (by norm_num) hx.2.1, le_trans hx.2.2 (by norm_num)⟩
  exact ⟨k _ h.prices.opn, k _ h.prices.high, k _ h.prices.low, h.prices.volume⟩

/-- Some order left an account that has outgrown the format. -/
def Overflowed (tr : List (Event F32)) : Prop := ∃ x ∈ executions tr, Outgrown x.2.1

theorem overflowed_append_left {x y : List (Event F32)} (h : Overflowed x) : Overflowed (x ++ y) := by
  obtain ⟨e, he, ho⟩ := h
  exact ⟨e, by unfold executions at *; rw [List.filterMap_append]; exact List.mem_append_left _ he, ho⟩

theorem overflowed_append_right {x y : List (Event F32)} (h : Overflowed y) : Overflowed (x ++ y) := by
  obtain ⟨e, he, ho⟩ := h
  exact ⟨e, by unfold executions at *; rw [List.filterMap_append]; exact List.mem_append_right _ he, ho⟩

theorem orders32 (log : Bool) (c : AccountConfig F32) (hm : ∀ ty, ((feeFor c ty).minimumFee >=. lit F32 0) = true)
    {t : OhlcTick F32} (ht : CleanTick32 t) (os : List (Order F32)) (hos : ∀ o ∈ os, GoodOrder o) (a : Account F32)
    (ha : Healthy32 a) (n : ℕ) :
    (∃ r, (execOrders log c t os a n).out = .ok r ∧ Healthy32 r.1) ∨ Overflowed (execOrders log c t os a n).trace := by
  induction os generalizing a n with
  | nil => exact .inl ⟨_, rfl, ha⟩
  | cons o rest ih =>
    have ho := hos o (by simp)
    obtain ⟨⟨ok, a'⟩, hx⟩ := (C87_orders_never_abort a c o t ha.liquidity ha.units (tick_weaken ht) hm ho.2).mpr ho.1
    rw [execOrders_cons, hx]
    rcases outgrown_step ha hx with ha' | ⟨rfl, hg⟩
    · cases ok
      · rcases ih (fun o ho => hos o (by simp [ho])) a' ha' n with h | h
        · exact .inl h
        · exact .inr (overflowed_append_right h)
      · rcases ih (fun o ho => hos o (by simp [ho])) a' ha' (n + 1) with h | h
        · exact .inl h
        · exact .inr (overflowed_append_right h)
    · right
      apply overflowed_append_left
      exact ⟨(t, a', o), by simp [executions], hg⟩

/-- A trader that, fed with clean ticks in strictly increasing order of time and balances that are not both zero, never
aborts and only emits acceptable orders (`I s l`: `s` is a state it can be in after ticks up to time `l`). -/
structure SafeTrader32 (T : Trader F32) (init : T.State) (I : T.State → ℤ → Prop) : Prop where
  start : I init 0
  step : ∀ s l t sg base quote, I s l → CleanTick32 t → l < t.ts → Holding base → Holding quote →
    (0 < toQ base ∨ 0 < toQ quote) →
    ∃ s' os, T.update s t sg base quote = .ok (s', os) ∧ I s' t.ts ∧ ∀ o ∈ os, GoodOrder o

structure SafeState32 {T : Trader F32} (recs : Option (List (SideInputRecord F32))) (I : T.State → ℤ → Prop) (l m : ℤ)
    (s : ExecState F32 T.State) : Prop where
  account : Healthy32 s.account
  orders : ∀ o ∈ s.orders, GoodOrder o
  trader : I s.trader l
  index : s.prevIndex < (known recs m).length
  noSide : recs = none → s.prevIndex < 0

variable [Libm F32] [Libm F64]

theorem safe_tick32 {recs : Option (List (SideInputRecord F32))} {side : Option (SideInput F32)} (hside : SideOf recs side)
    (c : AccountConfig F32) (hmin : ∀ ty, ((feeFor c ty).minimumFee >=. lit F32 0) = true)
    {T : Trader F32} {init : T.State} {I : T.State → ℤ → Prop} (hT : SafeTrader32 T init I) (log : Bool)
    {l m : ℤ} {s : ExecState F32 T.State} (hs : SafeState32 recs I l m s) {t : OhlcTick F32} (ht : CleanTick32 t)
    (hm : m ≤ t.ts) (hl : active t = true → l < t.ts) :
    (∃ s', (tickStep c side T true log s t).out = .ok s' ∧
      SafeState32 recs I (if active t = true then t.ts else l) t.ts s') ∨
    Overflowed (tickStep c side T true log s t).trace := by
  have hk := known_length_mono recs hm
  rw [tickStep_eq, sideStep_eq hside _ _ _ (by
    have := known_mono_length recs t.ts
    have := hs.index
    omega) hs.noSide]
  have hside' : ∃ r, sideSpec (known recs t.ts) t.ts s.signals s.prevIndex = .ok r ∧ r.2 < (known recs t.ts).length ∧
      (recs = none → r.2 < 0) := by
    have hi := hs.index
    unfold sideSpec
    split
    · exact ⟨_, rfl, by dsimp only; omega, hs.noSide⟩
    · rename_i hn
      rw [if_pos (by omega)]
      refine ⟨_, rfl, by dsimp only; omega, fun h => ?_⟩
      exfalso
      apply hn
      subst h
      exact ⟨rfl, hs.noSide rfl⟩
  obtain ⟨sg, hsg, hi1, hi2⟩ := hside'
  rw [hsg]
  dsimp only
  rcases orders32 log c hmin ht s.orders hs.orders s.account hs.account s.executed with ⟨r, hr, hacc⟩ | hov
  · left
    rw [hr]
    dsimp only
    by_cases hact : active t = true
    · rw [if_pos hact, if_pos hact, traderStep_eq]
      dsimp only
      obtain ⟨s', os, hu, hI, hos⟩ := hT.step s.trader l t sg.1 r.1.baseBalance r.1.quoteBalance hs.trader ht (hl hact)
        hacc.base hacc.quote hacc.some
      rw [hu]
      exact ⟨_, rfl, ⟨hacc, hos, hI, hi1, hi2⟩⟩
    · rw [if_neg hact, if_neg hact]
      exact ⟨_, rfl, ⟨hacc, hs.orders, hs.trader, hi1, hi2⟩⟩
  · right
    cases hr : (execOrders log c t s.orders s.account s.executed).out with
    | error e => exact overflowed_append_right hov
    | ok r =>
      dsimp only
      split
      · exact overflowed_append_left (overflowed_append_right hov)
      · exact overflowed_append_right hov

theorem safe_loop32 {recs : Option (List (SideInputRecord F32))} {side : Option (SideInput F32)} (hside : SideOf recs side)
    (c : AccountConfig F32) (hmin : ∀ ty, ((feeFor c ty).minimumFee >=. lit F32 0) = true)
    {T : Trader F32} {init : T.State} {I : T.State → ℤ → Prop} (hT : SafeTrader32 T init I) (log : Bool)
    (ticks : List (OhlcTick F32)) : ∀ (l m : ℤ) (s : ExecState F32 T.State), SafeState32 recs I l m s →
    CleanHistory32 ticks → (∀ t ∈ ticks, m ≤ t.ts) → (∀ t ∈ ticks, active t = true → l < t.ts) →
    (∃ s', (ticks.foldlM (tickStep c side T true log) s).out = .ok s' ∧ Healthy32 s'.account) ∨
      Overflowed (ticks.foldlM (tickStep c side T true log) s).trace := by
  induction ticks with
  | nil => intro l m s hs _ _ _; exact .inl ⟨s, rfl, hs.account⟩
  | cons t rest ih =>
    intro l m s hs hc hm hl
    rw [List.foldlM_cons, Run.bind_eq]
    rcases safe_tick32 hside c hmin hT log hs (hc.each t (by simp)) (hm t (by simp)) (hl t (by simp)) with
      ⟨s', h1, h2⟩ | hov
    · rw [Run.andThen_ok h1]
      have hsort := List.pairwise_cons.mp hc.sorted
      rcases ih _ _ s' h2 ⟨fun x hx => hc.each x (by simp [hx]), hsort.2, by
          by_cases hact : active t = true
          · have := hc.strict
            rw [List.filter_cons_of_pos hact] at this
            exact (List.pairwise_cons.mp this).2
          · have := hc.strict
            rwa [List.filter_cons_of_neg hact] at this⟩ (fun x hx => hsort.1 x hx) (by
          intro x hx hxa
          by_cases hact : active t = true
          · rw [if_pos hact]
            have := hc.strict
            rw [List.filter_cons_of_pos hact] at this
            exact (List.pairwise_cons.mp this).1 x (List.mem_filter.mpr ⟨hx, hxa⟩)
          · rw [if_neg hact]
            exact hl x (by simp [hx]) hxa) with h | h
      · exact .inl h
      · exact .inr (overflowed_append_right h)
    · right
      cases hx : (tickStep c side T true log s t).out with
      | error e => rw [Run.andThen_error hx]; exact hov
      | ok s' => rw [Run.andThen_ok hx]; exact overflowed_append_left hov

/-- **C87** (any well-behaved trader). In binary32, a back-test on clean data with a clean account returns a result and the
account is not empty at the end, or one of the executed orders left a balance larger than 2^80 (or infinite); fast or not,
logged or not, with any side input. -/
theorem C87_any_safe_trader {recs : Option (List (SideInputRecord F32))} {side : Option (SideInput F32)}
    (hside : SideOf recs side) (c : AccountConfig F32) (hc : CleanAccount32 c) (ticks : List (OhlcTick F32))
    (ht : CleanHistory32 ticks) (T : Trader F32) (init : T.State) (I : T.State → ℤ → Prop) (hT : SafeTrader32 T init I)
    (fast log : Bool) :
    (∃ r, (executeTrader c ticks side fast T init log).out = .ok r ∧ (ticks ≠ [] → Solvent r)) ∨
      ∃ x ∈ executions (executeTrader c ticks side fast T init log).trace, Outgrown x.2.1 := by
  have hfast : (∃ r, (executeTrader c ticks side true T init log).out = .ok r ∧ (ticks ≠ [] → Solvent r)) ∨
      Overflowed (executeTrader c ticks side true T init log).trace := by
    cases ticks with
    | nil => exact .inl ⟨_, rfl, fun h => absurd rfl h⟩
    | cons a l =>
      rw [executeTrader_eq _ _ _ _ _ _ _ (by simp)]
      rcases safe_loop32 hside c hc.fees hT log (a :: l) 0 0 (execStart c T init)
        ⟨⟨hc.base, hc.quote, hc.some, hc.baseUnit, hc.quoteUnit, hc.liquidity⟩, by simp [execStart], hT.start,
          by simp only [execStart]; omega, fun _ => by simp [execStart]⟩ ht
        (fun t h => (ht.each t h).ts.le) (fun t h _ => (ht.each t h).ts) with ⟨s, hs, hh⟩ | hov
      · left
        have hs' : (execLoop c (a :: l) side true T init log).out = .ok s := hs
        dsimp only
        rw [hs']
        exact ⟨_, rfl, fun _ => ⟨hh.base, hh.quote, hh.some⟩⟩
      · exact .inr hov
  cases fast with
  | true => exact hfast
  | false =>
    obtain ⟨h1, h2⟩ := C31_same_calls hside c ticks ⟨ht.sorted, fun t h => (ht.each t h).ts.le⟩ T init log
    rw [h1]
    refine hfast.imp ?_ id
    rintro ⟨r, hr, hsol⟩
    obtain ⟨r', hr'⟩ := h2.mpr ⟨r, hr⟩
    refine ⟨r', hr', fun hne => ?_⟩
    obtain ⟨-, -, a1, a2, -⟩ := C33_result hside c ticks hne true T init log hr
    obtain ⟨-, -, b1, b2, -⟩ := C33_result hside c ticks hne false T init log hr'
    rw [h1] at b1 b2
    obtain ⟨s1, s2, s3⟩ := hsol hne
    rw [a1] at s1 s3
    rw [a2] at s2 s3
    exact ⟨by rw [b1]; exact s1, by rw [b2]; exact s2, by rw [b1, b2]; exact s3⟩

end Verif.Props
