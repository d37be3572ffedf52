import Verif.Model.Traders
import Verif.Spec.Traders
import Verif.Lemmas.Account
import Verif.Num.RealMath
import Verif.Num.IEEE

/-!
# Properties of the stop trader (C56-C58)
-/

set_option linter.unusedSectionVars false

namespace Verif.Props
open FloatOps Spec

section generic
variable {F : Type} [FloatOps F] [Libm F]

/-- The next stop price of the trader. -/
def nextStop (cfg : StopConfig F) (s : StopState F) (t : OhlcTick F) (base quote : F) : F :=
  let long := (quote <=. base *. t.close)
  if t.ts ≥ s.lastTs + 3600 ∨ stopMode t.close base quote ≠ s.mode then
    if long then (lit F 1 -. cfg.margin) *. t.close else (lit F 1 +. cfg.margin) *. t.close
  else
    match updateStopPrice cfg (stopMode t.close base quote) s.lastTs t.ts s.stopPrice t.close with
    | .ok p => p
    | .error _ => s.stopPrice

theorem updateStopPrice_total (cfg : StopConfig F) (mode : Mode) (hm : mode ≠ .none) (l t : ℤ) (stop price : F) :
    ∃ p, updateStopPrice cfg mode l t stop price = .ok p := by
  unfold updateStopPrice
  cases mode with
  | none => exact absurd rfl hm
  | long => simp only [if_true]; split_ifs <;> exact ⟨_, rfl⟩
  | cash =>
    simp only [reduceCtorEq, if_false, decide_true, assertThat_true]
    simp only [bind, Except.bind, pure, Except.pure]
    split_ifs <;> exact ⟨_, rfl⟩

theorem stopMode_ne (price base quote : F) : stopMode price base quote ≠ .none := by
  unfold stopMode; split_ifs <;> simp

/-- What `Update` does when it returns. -/
theorem stopUpdate_ok {cfg : StopConfig F} {s s' : StopState F} {t : OhlcTick F} {sg : List F} {base quote : F}
    {os : List (Order F)} (h : stopUpdate cfg s t sg base quote = .ok (s', os)) :
    t.ts > s.lastTs ∧ (lit F 0 <. t.close) = true ∧ ((lit F 0 <. base) = true ∨ (lit F 0 <. quote) = true) ∧
    s' = ⟨base, quote, t.ts, t.close, stopMode t.close base quote, nextStop cfg s t base quote⟩ ∧
    os = [if (quote <=. base *. t.close) = true
          then ⟨some .stop, some .sell, .base base, some (nextStop cfg s t base quote)⟩
          else ⟨some .stop, some .buy, .quote quote, some (nextStop cfg s t base quote)⟩] := by
  unfold stopUpdate at h
  obtain ⟨h1, h⟩ := assertThat_bind_ok h
  obtain ⟨h2, h⟩ := assertThat_bind_ok h
  obtain ⟨h3, h⟩ := assertThat_bind_ok h
  refine ⟨by simpa using h1, h2, by simpa using h3, ?_⟩
  dsimp only at h
  have hgap : maxAllowedGapSec = 3600 := rfl
  have hne := stopMode_ne t.close base quote
  obtain ⟨p, hp⟩ := updateStopPrice_total cfg _ hne s.lastTs t.ts s.stopPrice t.close
  unfold nextStop stopOrder at *
  rw [hgap] at h
  by_cases hl : (quote <=. base *. t.close) = true
  · have hm : stopMode t.close base quote = .long := by unfold stopMode; rw [if_pos hl]
    rw [hm] at h hp ⊢
    rw [if_pos hl]
    by_cases hc : t.ts ≥ s.lastTs + 3600 ∨ Mode.long ≠ s.mode
    · rw [if_pos hc] at h
      simp only [if_true, bind, Except.bind, pure, Except.pure, Except.ok.injEq, Prod.mk.injEq] at h
      dsimp only
      rw [if_pos hc, if_pos hl]
      exact ⟨h.1.symm, h.2.symm⟩
    · rw [if_neg hc] at h
      have hm' : Mode.long = s.mode := by
        by_contra hx; exact hc (.inr hx)
      simp only [decide_eq_true hm', assertThat_true, bind, Except.bind, pure, Except.pure] at h
      rw [hp] at h
      simp only [if_true, Except.ok.injEq, Prod.mk.injEq] at h
      dsimp only
      rw [if_neg hc, hp]
      exact ⟨h.1.symm, h.2.symm⟩
  · have hm : stopMode t.close base quote = .cash := by unfold stopMode; rw [if_neg hl]
    rw [hm] at h hp ⊢
    rw [if_neg hl]
    by_cases hc : t.ts ≥ s.lastTs + 3600 ∨ Mode.cash ≠ s.mode
    · rw [if_pos hc] at h
      simp only [reduceCtorEq, if_false, decide_true, assertThat_true, bind, Except.bind, pure, Except.pure,
        Except.ok.injEq, Prod.mk.injEq] at h
      dsimp only
      rw [if_pos hc, if_neg hl]
      exact ⟨h.1.symm, h.2.symm⟩
    · rw [if_neg hc] at h
      have hm' : Mode.cash = s.mode := by
        by_contra hx; exact hc (.inr hx)
      simp only [decide_eq_true hm', assertThat_true, bind, Except.bind, pure, Except.pure] at h
      rw [hp] at h
      simp only [reduceCtorEq, if_false, decide_true, assertThat_true, Except.ok.injEq, Prod.mk.injEq] at h
      dsimp only
      rw [if_neg hc, hp]
      exact ⟨h.1.symm, h.2.symm⟩

/-- **C56** (when `Update` aborts, any arithmetic). `Update` returns exactly if time advanced, the price is positive and
the account is not empty. -/
theorem C56_returns_iff (cfg : StopConfig F) (s : StopState F) (t : OhlcTick F) (sg : List F) (base quote : F) :
    (∃ r, stopUpdate cfg s t sg base quote = .ok r) ↔
      t.ts > s.lastTs ∧ (lit F 0 <. t.close) = true ∧ ((lit F 0 <. base) = true ∨ (lit F 0 <. quote) = true) := by
  constructor
  · rintro ⟨⟨s', os⟩, h⟩
    obtain ⟨h1, h2, h3, -, -⟩ := stopUpdate_ok h
    exact ⟨h1, h2, h3⟩
  · rintro ⟨h1, h2, h3⟩
    have h3' : ((lit F 0 <. base) || (lit F 0 <. quote)) = true := by simpa using h3
    have hne := stopMode_ne t.close base quote
    obtain ⟨p, hp⟩ := updateStopPrice_total cfg _ hne s.lastTs t.ts s.stopPrice t.close
    unfold stopUpdate
    rw [decide_eq_true h1, h2, h3']
    simp only [assertThat_true, bind, Except.bind, pure, Except.pure]
    generalize stopMode t.close base quote = m at *
    by_cases hc : t.ts ≥ s.lastTs + maxAllowedGapSec ∨ m ≠ s.mode
    · rw [if_pos hc]
      cases m with
      | none => exact absurd rfl hne
      | long => simp [stopOrder]
      | cash => simp [stopOrder, bind, Except.bind, pure, Except.pure]
    · rw [if_neg hc]
      have hm' : m = s.mode := by
        by_contra hx; exact hc (.inr hx)
      rw [decide_eq_true hm', assertThat_true, hp]
      cases m with
      | none => exact absurd rfl hne
      | long => simp [stopOrder]
      | cash => simp [stopOrder, bind, Except.bind, pure, Except.pure]

/-- **C56** (any arithmetic). Every `Update` emits exactly one order: a stop order which, if the base balance is worth
at least the quote balance, sells the whole base balance and otherwise spends the whole quote balance. -/
theorem C56_one_stop_order (cfg : StopConfig F) (s s' : StopState F) (t : OhlcTick F) (sg : List F) (base quote : F)
    (os : List (Order F)) (h : stopUpdate cfg s t sg base quote = .ok (s', os)) :
    ∃ p, os = [if (quote <=. base *. t.close) = true then ⟨some .stop, some .sell, .base base, some p⟩
      else ⟨some .stop, some .buy, .quote quote, some p⟩] := by
  obtain ⟨-, -, -, -, h⟩ := stopUpdate_ok h
  exact ⟨_, h⟩

/-- Two consecutive `Update` calls on one stop trader (in any state), on ticks `t₁`, `t₂`, emitting stop orders on
sides `d₁`, `d₂` at prices `p₁`, `p₂`. -/
structure TwoUpdates (cfg : StopConfig F) (t₁ t₂ : OhlcTick F) (d₁ d₂ : Side) (p₁ p₂ : F) : Prop where
  run : ∃ (s s₁ s₂ : StopState F) (sg₁ sg₂ : List F) (b₁ q₁ b₂ q₂ : F) (o₁ o₂ : Order F),
    stopUpdate cfg s t₁ sg₁ b₁ q₁ = .ok (s₁, [o₁]) ∧ stopUpdate cfg s₁ t₂ sg₂ b₂ q₂ = .ok (s₂, [o₂]) ∧
    o₁.side = some d₁ ∧ o₂.side = some d₂ ∧ o₁.price = some p₁ ∧ o₂.price = some p₂

theorem stopOrder_of_mode {cfg : StopConfig F} {s s' : StopState F} {t : OhlcTick F} {sg : List F} {base quote : F}
    {o : Order F} {d : Side} {p : F} (h : stopUpdate cfg s t sg base quote = .ok (s', [o]))
    (hd : o.side = some d) (hp : o.price = some p) :
    s'.lastTs = t.ts ∧ s'.stopPrice = p ∧ p = nextStop cfg s t base quote ∧
    s'.mode = stopMode t.close base quote ∧
    (d = .sell → s'.mode = .long ∧ (quote <=. base *. t.close) = true) ∧
    (d = .buy → s'.mode = .cash ∧ (quote <=. base *. t.close) = false) := by
  obtain ⟨-, -, -, hs, ho⟩ := stopUpdate_ok h
  rw [List.cons.injEq] at ho
  have ho := ho.1
  subst hs
  unfold stopMode
  by_cases hl : (quote <=. base *. t.close) = true
  · rw [if_pos hl] at ho
    subst ho
    simp only [Option.some.injEq] at hd hp
    subst hd; subst hp
    simp [hl]
  · rw [if_neg hl] at ho
    subst ho
    simp only [Option.some.injEq] at hd hp
    subst hd; subst hp
    simp [hl]

/-- **C57** (ratchet, any arithmetic). When the trader stays on the same side and less than an hour has passed, the stop
price of a sell order either stays or moves up, and if it moves, not beyond the move threshold
`(1 - move margin) * close`; the stop price of a buy order stays or moves down, not beyond `(1 + move margin) * close`. -/
theorem C57_ratchet (cfg : StopConfig F) (t₁ t₂ : OhlcTick F) (p₁ p₂ : F) (hgap : t₂.ts < t₁.ts + 3600) :
    (TwoUpdates cfg t₁ t₂ .sell .sell p₁ p₂ →
      p₂ = p₁ ∨ ((p₁ <. p₂) = true ∧ (p₂ = (lit F 1 -. cfg.moveMargin) *. t₂.close ∨
        (p₂ <. (lit F 1 -. cfg.moveMargin) *. t₂.close) = true))) ∧
    (TwoUpdates cfg t₁ t₂ .buy .buy p₁ p₂ →
      p₂ = p₁ ∨ ((p₂ <. p₁) = true ∧ (p₂ = (lit F 1 +. cfg.moveMargin) *. t₂.close ∨
        ((lit F 1 +. cfg.moveMargin) *. t₂.close <. p₂) = true))) := by
  constructor
  · rintro ⟨s, s₁, s₂, sg₁, sg₂, b₁, q₁, b₂, q₂, o₁, o₂, h1, h2, d1, d2, e1, e2⟩
    obtain ⟨a1, a2, -, -, a5, -⟩ := stopOrder_of_mode h1 d1 e1
    obtain ⟨-, -, c3, c4, c5, -⟩ := stopOrder_of_mode h2 d2 e2
    have hm : stopMode t₂.close b₂ q₂ = .long := by rw [← c4]; exact (c5 rfl).1
    rw [c3]
    unfold nextStop updateStopPrice
    dsimp only
    rw [hm, (a5 rfl).1, a1, a2, if_neg (by push Not; exact ⟨hgap, rfl⟩)]
    simp only [if_true]
    split_ifs with hle
    · dsimp only
      unfold fmax fmin
      by_cases hx : ((lit F 1 +. (Libm.exp (Libm.log (lit F 1 +. cfg.increasePerDay) /.
        (lit F (kSecondsPerDay : ℚ) /. lit F ((min kSecondsPerDay (t₂.ts - t₁.ts) : ℤ) : ℚ))) -. lit F 1)) *. p₁ <.
        (lit F 1 -. cfg.moveMargin) *. t₂.close) = true
      · rw [if_pos hx]
        split_ifs with h
        · exact .inr ⟨h, .inr hx⟩
        · exact .inl rfl
      · rw [if_neg hx]
        split_ifs with h
        · exact .inr ⟨h, .inl rfl⟩
        · exact .inl rfl
    · exact .inl rfl
  · rintro ⟨s, s₁, s₂, sg₁, sg₂, b₁, q₁, b₂, q₂, o₁, o₂, h1, h2, d1, d2, e1, e2⟩
    obtain ⟨a1, a2, -, -, -, a5⟩ := stopOrder_of_mode h1 d1 e1
    obtain ⟨-, -, c3, c4, -, c5⟩ := stopOrder_of_mode h2 d2 e2
    have hm : stopMode t₂.close b₂ q₂ = .cash := by rw [← c4]; exact (c5 rfl).1
    rw [c3]
    unfold nextStop updateStopPrice
    dsimp only
    rw [hm, (a5 rfl).1, a1, a2, if_neg (by push Not; exact ⟨hgap, rfl⟩)]
    simp only [reduceCtorEq, if_false, decide_true, assertThat_true, bind, Except.bind, pure, Except.pure]
    split_ifs with hle
    · dsimp only
      unfold fmax fmin
      by_cases hx : ((lit F 1 +. cfg.moveMargin) *. t₂.close <. (lit F 1 -. (lit F 1 -. Libm.exp (Libm.log (lit F 1 -. cfg.decreasePerDay) /.
        (lit F (kSecondsPerDay : ℚ) /. lit F ((min kSecondsPerDay (t₂.ts - t₁.ts) : ℤ) : ℚ))))) *. p₁) = true
      · rw [if_pos hx]
        split_ifs with h
        · exact .inr ⟨h, .inr hx⟩
        · exact .inl rfl
      · rw [if_neg hx]
        split_ifs with h
        · exact .inr ⟨h, .inl rfl⟩
        · exact .inl rfl
    · exact .inl rfl

/-- **C57** (the price is left alone above the threshold, any arithmetic). -/
theorem C57_no_move_beyond_threshold (cfg : StopConfig F) (t₁ t₂ : OhlcTick F) (p₁ p₂ : F)
    (hgap : t₂.ts < t₁.ts + 3600) :
    (TwoUpdates cfg t₁ t₂ .sell .sell p₁ p₂ → (p₁ <=. (lit F 1 -. cfg.moveMargin) *. t₂.close) = false → p₂ = p₁) ∧
    (TwoUpdates cfg t₁ t₂ .buy .buy p₁ p₂ → ((lit F 1 +. cfg.moveMargin) *. t₂.close <=. p₁) = false → p₂ = p₁) := by
  constructor
  · rintro ⟨s, s₁, s₂, sg₁, sg₂, b₁, q₁, b₂, q₂, o₁, o₂, h1, h2, d1, d2, e1, e2⟩ hthr
    obtain ⟨a1, a2, -, -, a5, -⟩ := stopOrder_of_mode h1 d1 e1
    obtain ⟨-, -, c3, c4, c5, -⟩ := stopOrder_of_mode h2 d2 e2
    have hm : stopMode t₂.close b₂ q₂ = .long := by rw [← c4]; exact (c5 rfl).1
    rw [c3]
    unfold nextStop updateStopPrice
    dsimp only
    rw [hm, (a5 rfl).1, a1, a2, if_neg (by push Not; exact ⟨hgap, rfl⟩)]
    simp only [if_true, hthr, Bool.false_eq_true, if_false]
  · rintro ⟨s, s₁, s₂, sg₁, sg₂, b₁, q₁, b₂, q₂, o₁, o₂, h1, h2, d1, d2, e1, e2⟩ hthr
    obtain ⟨a1, a2, -, -, -, a5⟩ := stopOrder_of_mode h1 d1 e1
    obtain ⟨-, -, c3, c4, -, c5⟩ := stopOrder_of_mode h2 d2 e2
    have hm : stopMode t₂.close b₂ q₂ = .cash := by rw [← c4]; exact (c5 rfl).1
    rw [c3]
    unfold nextStop updateStopPrice
    dsimp only
    rw [hm, (a5 rfl).1, a1, a2, if_neg (by push Not; exact ⟨hgap, rfl⟩)]
    simp only [reduceCtorEq, if_false, decide_true, assertThat_true, bind, Except.bind, pure, Except.pure, hthr,
      Bool.false_eq_true]

/-- The initial stop price: below the market when selling, above it when buying. -/
def resetPrice (cfg : StopConfig F) (close : F) : Side → F
  | .sell => (lit F 1 -. cfg.margin) *. close
  | .buy => (lit F 1 +. cfg.margin) *. close

/-- **C57** (reset, any arithmetic). When the trader changes sides or an hour or more has passed since the previous
`Update`, and on the very first `Update`, the stop price is set to `(1 ∓ margin) * close`. -/
theorem C57_reset (cfg : StopConfig F) (t₁ t₂ : OhlcTick F) (d₁ d₂ : Side) (p₁ p₂ : F)
    (h : TwoUpdates cfg t₁ t₂ d₁ d₂ p₁ p₂) (hreset : d₁ ≠ d₂ ∨ t₁.ts + 3600 ≤ t₂.ts) :
    p₂ = resetPrice cfg t₂.close d₂ := by
  obtain ⟨s, s₁, s₂, sg₁, sg₂, b₁, q₁, b₂, q₂, o₁, o₂, h1, h2, hd1, hd2, e1, e2⟩ := h
  obtain ⟨a1, a2, -, -, a5, a6⟩ := stopOrder_of_mode h1 hd1 e1
  obtain ⟨-, -, c3, c4, c5, c6⟩ := stopOrder_of_mode h2 hd2 e2
  rw [c3]
  unfold nextStop
  dsimp only
  rw [if_pos]
  · cases d₂ with
    | buy => rw [if_neg (by rw [(c6 rfl).2]; simp)]; rfl
    | sell => rw [if_pos (c5 rfl).2]; rfl
  · rcases hreset with h | h
    · right
      rw [← c4]
      cases d₁ <;> cases d₂
      · exact absurd rfl h
      · rw [(c5 rfl).1, (a6 rfl).1]; simp
      · rw [(c6 rfl).1, (a5 rfl).1]; simp
      · exact absurd rfl h
    · left; rw [a1]; exact h

@[inherit_doc C57_reset]
theorem C57_first (cfg : StopConfig F) (t : OhlcTick F) (sg : List F) (base quote : F) (s' : StopState F)
    (o : Order F) (d : Side) (p : F) (h : stopUpdate cfg StopState.init t sg base quote = .ok (s', [o]))
    (hd : o.side = some d) (hp : o.price = some p) :
    p = resetPrice cfg t.close d := by
  obtain ⟨-, -, c3, -, c5, c6⟩ := stopOrder_of_mode h hd hp
  rw [c3]
  unfold nextStop
  dsimp only
  rw [if_pos (.inr (stopMode_ne _ _ _))]
  cases d with
  | buy => rw [if_neg (by rw [(c6 rfl).2]; simp)]; rfl
  | sell => rw [if_pos (c5 rfl).2]; rfl

end generic

section exact
variable {K : Type} [Field K] [LinearOrder K] [IsStrictOrderedRing K] [FloorRing K] [Libm K]

/-- Sensible parameters: margin in [0,1), non-negative move margin. -/
def SaneMargins (cfg : StopConfig K) : Prop := 0 ≤ cfg.margin ∧ cfg.margin < 1 ∧ 0 ≤ cfg.moveMargin

/-- The stop price of a trader that has emitted an order is positive. -/
def PositiveStop (s : StopState K) : Prop := s.mode = .none ∨ 0 < s.stopPrice

theorem nextStop_pos {cfg : StopConfig K} (hc : SaneMargins cfg) {s : StopState K} (hs : PositiveStop s)
    {t : OhlcTick K} (hp : 0 < t.close) (base quote : K) : 0 < nextStop cfg s t base quote := by
  obtain ⟨m0, m1, mm⟩ := hc
  unfold nextStop
  dsimp only
  split_ifs with h1 h2
  · simp only [ex_mul, ex_sub, ex_ofRat, Rat.cast_one]; exact mul_pos (by linarith) hp
  · simp only [ex_mul, ex_add, ex_ofRat, Rat.cast_one]; exact mul_pos (by linarith) hp
  · push Not at h1
    have hne := stopMode_ne t.close base quote
    have hs' : 0 < s.stopPrice := by
      rcases hs with h | h
      · rw [← h1.2] at h; exact absurd h hne
      · exact h
    generalize stopMode t.close base quote = m at *
    unfold updateStopPrice
    cases m with
    | none => exact absurd rfl hne
    | long =>
      simp only [if_true]
      split_ifs
      · simp only [ex_fmax]; exact lt_max_of_lt_left hs'
      · exact hs'
    | cash =>
      simp only [reduceCtorEq, if_false, decide_true, assertThat_true, bind, Except.bind, pure, Except.pure]
      split_ifs
      · simp only [ex_fmax, ex_fmin]
        refine lt_min hs' (lt_max_of_lt_left ?_)
        simp only [ex_mul, ex_add, ex_ofRat, Rat.cast_one]; exact mul_pos (by linarith) hp
      · exact hs'

theorem stopUpdate_valid {cfg : StopConfig K} (hc : SaneMargins cfg) {s s' : StopState K} (hs : PositiveStop s)
    {t : OhlcTick K} {sg : List K} {base quote : K} (hb : 0 ≤ base) {os : List (Order K)}
    (h : stopUpdate cfg s t sg base quote = .ok (s', os)) : PositiveStop s' ∧ ∀ o ∈ os, ValidOrder o := by
  obtain ⟨-, hp, hbq, rfl, rfl⟩ := stopUpdate_ok h
  simp only [ex_lt, ex_ofRat, Rat.cast_zero, decide_eq_true_eq] at hp hbq
  have hn := nextStop_pos hc hs hp base quote
  refine ⟨.inr hn, ?_⟩
  intro o ho
  rw [List.mem_singleton] at ho
  subst ho
  have hn' : (lit K 0 <. nextStop cfg s t base quote) = true := by simpa using hn
  split_ifs with hl
  · simp only [ex_le, ex_mul, decide_eq_true_eq] at hl
    have hb' : 0 < base := by
      rcases hb.lt_or_eq with h | h
      · exact h
      · rw [← h, zero_mul] at hl
        rcases hbq with h' | h'
        · exact h'
        · exact absurd hl (not_le.mpr h')
    exact ⟨.stop, .sell, rfl, rfl, .inr ⟨_, rfl, hn'⟩, base, by simpa using hb', .inl rfl⟩
  · simp only [ex_le, ex_mul, decide_eq_true_eq, not_le] at hl
    have hq' : 0 < quote := lt_of_le_of_lt (mul_nonneg hb hp.le) hl
    exact ⟨.stop, .buy, rfl, rfl, .inr ⟨_, rfl, hn'⟩, quote, by simpa using hq', .inr rfl⟩

/-- **C56** (validity). Whatever sequence of ticks and balances (base balance not negative) a stop trader with sane margins is fed,
every order it emits is valid. -/
theorem C56_orders_valid (fmt : Format K) (cfg : StopConfig K) (hc : SaneMargins cfg) (inputs : List (UpdateInput K))
    (hin : ∀ i ∈ inputs, 0 ≤ i.base) (s : StopState K) (out : List (List (Order K)))
    (h : feed (stopTrader fmt cfg) StopState.init inputs = .ok (s, out)) :
    ∀ os ∈ out, ∃ o, os = [o] ∧ ValidOrder o := by
  have key : ∀ (inputs : List (UpdateInput K)) (s0 : StopState K), PositiveStop s0 →
      (∀ i ∈ inputs, 0 ≤ i.base) → ∀ s out,
      feed (stopTrader fmt cfg) s0 inputs = .ok (s, out) → ∀ os ∈ out, ∃ o, os = [o] ∧ ValidOrder o := by
    intro inputs
    induction inputs with
    | nil =>
      intro s0 _ _ s out h
      cases h
      simp
    | cons i rest ih =>
      intro s0 hs0 hin s out h
      unfold feed at h
      simp only [bind, Except.bind, pure, Except.pure] at h
      cases hu : stopUpdate cfg s0 i.tick i.signals i.base i.quote with
      | error e =>
        simp only [stopTrader] at h
        rw [hu] at h; cases h
      | ok r =>
        obtain ⟨s1, os1⟩ := r
        simp only [stopTrader] at h
        rw [hu] at h
        dsimp only at h
        cases hf : feed (stopTrader fmt cfg) s1 rest with
        | error e => rw [hf] at h; cases h
        | ok r' =>
          rw [hf] at h
          dsimp only at h
          cases h
          obtain ⟨hs1, hv⟩ := stopUpdate_valid hc hs0 (hin i (by simp)) hu
          intro os hos
          rcases List.mem_cons.mp hos with rfl | hos
          · obtain ⟨p, hp⟩ := C56_one_stop_order cfg s0 s1 i.tick i.signals i.base i.quote _ hu
            exact ⟨_, hp, hv _ (by rw [hp]; exact List.mem_singleton.mpr rfl)⟩
          · exact ih s1 hs1 (fun j hj => hin j (by simp [hj])) _ _ hf os hos
  exact key inputs _ (.inl rfl) hin s out h

/-- **C57** (exact arithmetic): the sell stop never moves down, the buy stop never moves up, and the move never passes
the threshold. -/
theorem C57_exact (cfg : StopConfig K) (t₁ t₂ : OhlcTick K) (p₁ p₂ : K) (hgap : t₂.ts < t₁.ts + 3600) :
    (TwoUpdates cfg t₁ t₂ .sell .sell p₁ p₂ → p₁ ≤ p₂ ∧ p₂ ≤ max p₁ ((1 - cfg.moveMargin) * t₂.close)) ∧
    (TwoUpdates cfg t₁ t₂ .buy .buy p₁ p₂ → p₂ ≤ p₁ ∧ min p₁ ((1 + cfg.moveMargin) * t₂.close) ≤ p₂) := by
  obtain ⟨h1, h2⟩ := C57_ratchet cfg t₁ t₂ p₁ p₂ hgap
  simp only [ex_mul, ex_sub, ex_add, ex_lt, ex_ofRat, Rat.cast_one, decide_eq_true_eq] at h1 h2
  constructor
  · intro h
    rcases h1 h with rfl | ⟨h3, h4⟩
    · exact ⟨le_refl _, le_max_left _ _⟩
    · refine ⟨h3.le, le_max_of_le_right ?_⟩
      rcases h4 with h4 | h4
      · exact h4.le
      · exact h4.le
  · intro h
    rcases h2 h with rfl | ⟨h3, h4⟩
    · exact ⟨le_refl _, min_le_left _ _⟩
    · refine ⟨h3.le, min_le_of_right_le ?_⟩
      rcases h4 with h4 | h4
      · exact h4.ge
      · exact h4.le

end exact

/-! ## C58 -/

section real

/-- `(1 + rate) ^ (elapsed days)`. -/
noncomputable def compound (rate : ℝ) (from_ to_ : ℤ) : ℝ := (1 + rate) ^ (((to_ - from_ : ℤ) : ℝ) / 86400)

theorem compound_self (r : ℝ) (t : ℤ) : compound r t t = 1 := by
  unfold compound; rw [sub_self]; simp

theorem compound_trans {r : ℝ} (hr : -1 < r) (a b c : ℤ) : compound r a b * compound r b c = compound r a c := by
  unfold compound
  rw [← Real.rpow_add (by linarith), ← add_div]
  congr 2
  push_cast; ring

theorem compound_pos {r : ℝ} (hr : -1 < r) (a b : ℤ) : 0 < compound r a b := Real.rpow_pos_of_pos (by linarith) _

theorem one_le_compound {r : ℝ} (hr : 0 ≤ r) {a b : ℤ} (h : a ≤ b) : 1 ≤ compound r a b :=
  Real.one_le_rpow (by linarith) (div_nonneg (by exact_mod_cast sub_nonneg.mpr h) (by norm_num))

theorem compound_le_one {r : ℝ} (h0 : -1 < r) (hr : r ≤ 0) {a b : ℤ} (h : a ≤ b) : compound r a b ≤ 1 :=
  Real.rpow_le_one (by linarith) (by linarith) (div_nonneg (by exact_mod_cast sub_nonneg.mpr h) (by norm_num))

/-- The per-tick factor computed with `exp` and `log` is the daily factor to the power of the elapsed days. -/
theorem perTick_eq {x : ℝ} (hx : 0 < x) {l t : ℤ} (h1 : l < t) (h2 : t < l + 3600) :
    Real.exp (Real.log x / (((kSecondsPerDay : ℤ) : ℝ) / ((min kSecondsPerDay (t - l) : ℤ) : ℝ))) =
      x ^ (((t - l : ℤ) : ℝ) / 86400) := by
  have hk : kSecondsPerDay = 86400 := rfl
  rw [hk, min_eq_right (by omega), Real.rpow_def_of_pos hx, div_div_eq_mul_div, mul_div_assoc]
  norm_num

/-- One step of the stop price over the reals, when the trader keeps selling. -/
theorem nextStop_sell {cfg : StopConfig ℝ} (hr : 0 ≤ cfg.increasePerDay) {s : StopState ℝ} (hm : s.mode = .long)
    {t : OhlcTick ℝ} {base quote : ℝ} (h1 : s.lastTs < t.ts) (h2 : t.ts < s.lastTs + 3600)
    (hl : stopMode t.close base quote = .long) :
    nextStop cfg s t base quote =
      if s.stopPrice ≤ (1 - cfg.moveMargin) * t.close then
        max s.stopPrice (min ((1 - cfg.moveMargin) * t.close) (compound cfg.increasePerDay s.lastTs t.ts * s.stopPrice))
      else s.stopPrice := by
  unfold nextStop updateStopPrice
  dsimp only
  rw [hl, hm, if_neg (by push Not; exact ⟨h2, rfl⟩)]
  simp only [if_true, ex_mul, ex_sub, ex_add, ex_div, ex_le, ex_ofRat, Rat.cast_one, ex_fmax, ex_fmin,
    decide_eq_true_eq, Rat.cast_intCast]
  have hc : Real.exp (Real.log (1 + cfg.increasePerDay) / (((kSecondsPerDay : ℤ) : ℝ) / ((min kSecondsPerDay (t.ts - s.lastTs) : ℤ) : ℝ))) = compound cfg.increasePerDay s.lastTs t.ts :=
    perTick_eq (by linarith) h1 h2
  have hc' : (Libm.exp ((Libm.log (1 + cfg.increasePerDay) : ℝ) / (((kSecondsPerDay : ℤ) : ℝ) / ((min kSecondsPerDay (t.ts - s.lastTs) : ℤ) : ℝ))) : ℝ) = compound cfg.increasePerDay s.lastTs t.ts := hc
  rw [hc']
  split_ifs
  · simp
  · rfl

/-- One step of the stop price over the reals, when the trader keeps buying. -/
theorem nextStop_buy {cfg : StopConfig ℝ} (hr : cfg.decreasePerDay < 1) {s : StopState ℝ} (hm : s.mode = .cash)
    {t : OhlcTick ℝ} {base quote : ℝ} (h1 : s.lastTs < t.ts) (h2 : t.ts < s.lastTs + 3600)
    (hl : stopMode t.close base quote = .cash) :
    nextStop cfg s t base quote =
      if (1 + cfg.moveMargin) * t.close ≤ s.stopPrice then
        min s.stopPrice (max ((1 + cfg.moveMargin) * t.close) (compound (-cfg.decreasePerDay) s.lastTs t.ts * s.stopPrice))
      else s.stopPrice := by
  unfold nextStop updateStopPrice
  dsimp only
  rw [hl, hm, if_neg (by push Not; exact ⟨h2, rfl⟩)]
  simp only [reduceCtorEq, if_false, decide_true, assertThat_true, bind, Except.bind, pure, Except.pure,
    ex_mul, ex_sub, ex_add, ex_div, ex_le, ex_ofRat, Rat.cast_one, ex_fmax, ex_fmin,
    decide_eq_true_eq, Rat.cast_intCast]
  have hc : Real.exp (Real.log (1 - cfg.decreasePerDay) / (((kSecondsPerDay : ℤ) : ℝ) / ((min kSecondsPerDay (t.ts - s.lastTs) : ℤ) : ℝ))) = compound (-cfg.decreasePerDay) s.lastTs t.ts := by
    rw [sub_eq_add_neg]
    exact perTick_eq (by linarith) h1 h2
  have hc' : (Libm.exp ((Libm.log (1 - cfg.decreasePerDay) : ℝ) / (((kSecondsPerDay : ℤ) : ℝ) / ((min kSecondsPerDay (t.ts - s.lastTs) : ℤ) : ℝ))) : ℝ) = compound (-cfg.decreasePerDay) s.lastTs t.ts := hc
  rw [hc']
  split_ifs
  · simp
  · rfl

section steady
variable {F : Type} [FloatOps F] [Libm F]

/-- A run of `Update` calls on one stop trader, starting in any state `s`, on ticks less than an hour apart, in which
the trader stays on side `d`: the first tick and the price of the first order are `t₀`, `p₀`, the last ones `t₁`, `p₁`. -/
structure SteadyRun (cfg : StopConfig F) (d : Side) (inputs : List (UpdateInput F)) (t₀ : ℤ) (p₀ : F) (t₁ : ℤ)
    (p₁ : F) : Prop where
  run : ∃ (fmt : Format F) (s s' : StopState F) (out : List (List (Order F))) (o₀ o₁ : Order F),
    feed (stopTrader fmt cfg) s inputs = .ok (s', out) ∧ (∀ os ∈ out, ∀ o ∈ os, o.side = some d) ∧
    out.head? = some [o₀] ∧ out.getLast? = some [o₁] ∧ o₀.price = some p₀ ∧ o₁.price = some p₁
  gaps : inputs.IsChain (fun a b => b.tick.ts < a.tick.ts + 3600)
  first : inputs.head?.map (·.tick.ts) = some t₀
  last : inputs.getLast?.map (·.tick.ts) = some t₁

theorem feed_cons {T : Trader F} {s s' : T.State} {i : UpdateInput F} {rest : List (UpdateInput F)}
    {out : List (List (Order F))} (h : feed T s (i :: rest) = .ok (s', out)) :
    ∃ s1 os out', T.update s i.tick i.signals i.base i.quote = .ok (s1, os) ∧ feed T s1 rest = .ok (s', out') ∧
      out = os :: out' := by
  unfold feed at h
  simp only [bind, Except.bind, pure, Except.pure] at h
  cases hu : T.update s i.tick i.signals i.base i.quote with
  | error e => rw [hu] at h; cases h
  | ok r =>
    rw [hu] at h
    dsimp only at h
    cases hf : feed T r.1 rest with
    | error e => rw [hf] at h; cases h
    | ok r' =>
      rw [hf] at h
      dsimp only at h
      cases h
      exact ⟨r.1, r.2, r'.2, rfl, hf, rfl⟩

/-- After a sequence of `Update` calls the trader remembers the last tick's time and the last order's price. -/
theorem feed_last {cfg : StopConfig F} {fmt : Format F} (inputs : List (UpdateInput F)) :
    ∀ (s s' : StopState F) (out : List (List (Order F))), feed (stopTrader fmt cfg) s inputs = .ok (s', out) →
      (∀ i, inputs.getLast? = some i → s'.lastTs = i.tick.ts) ∧
      (∀ os, out.getLast? = some os → ∀ o ∈ os, o.price = some s'.stopPrice) := by
  induction inputs with
  | nil => intro s s' out h; cases h; simp
  | cons i rest ih =>
    intro s s' out h
    obtain ⟨s1, os, out', hu, hf, rfl⟩ := feed_cons h
    obtain ⟨h1, h2⟩ := ih s1 s' out' hf
    cases rest with
    | nil =>
      cases hf
      obtain ⟨-, -, -, rfl, rfl⟩ := stopUpdate_ok (sg := i.signals) hu
      refine ⟨fun j hj => ?_, fun os hos o ho => ?_⟩
      · simp at hj; rw [← hj]
      · simp only [List.getLast?_singleton, Option.some.injEq] at hos
        subst hos
        rw [List.mem_singleton] at ho
        subst ho
        split_ifs <;> rfl
    | cons j rest =>
      obtain ⟨s2, os2, out2, -, -, rfl⟩ := feed_cons hf
      refine ⟨fun k hk => h1 k ?_, fun os' hos => h2 os' ?_⟩
      · rwa [List.getLast?_cons_cons] at hk
      · rwa [List.getLast?_cons_cons] at hos

/-- The mode of a trader that emits orders on side `d`. -/
def modeOf : Side → Mode
  | .sell => .long
  | .buy => .cash

theorem mode_of_side {cfg : StopConfig F} {s s' : StopState F} {t : OhlcTick F} {sg : List F} {base quote : F}
    {os : List (Order F)} {d : Side} (h : stopUpdate cfg s t sg base quote = .ok (s', os))
    (hd : ∀ o ∈ os, o.side = some d) :
    s'.mode = modeOf d ∧ s'.mode = stopMode t.close base quote ∧ s'.lastTs = t.ts ∧
    s'.stopPrice = nextStop cfg s t base quote := by
  obtain ⟨-, -, -, rfl, rfl⟩ := stopUpdate_ok h
  refine ⟨?_, rfl, rfl, rfl⟩
  have := hd _ (List.mem_singleton.mpr rfl)
  unfold stopMode
  split_ifs at this ⊢ <;> simp at this <;> subst this <;> rfl

/-- Induction along a run: a relation between time and stop price that is kept by every `Update` which stays on the
side `d` holds at the end. -/
theorem feed_induct {cfg : StopConfig F} {d : Side} {fmt : Format F} (P : ℕ → ℤ → F → Prop) (inputs : List (UpdateInput F)) :
    ∀ (n : ℕ) (s s' : StopState F) (out : List (List (Order F))), feed (stopTrader fmt cfg) s inputs = .ok (s', out) →
      (∀ os ∈ out, ∀ o ∈ os, o.side = some d) → s.mode = modeOf d →
      (∀ i, inputs.head? = some i → i.tick.ts < s.lastTs + 3600) →
      inputs.IsChain (fun a b => b.tick.ts < a.tick.ts + 3600) → P n s.lastTs s.stopPrice →
      (∀ (n : ℕ) (s : StopState F) (i : UpdateInput F), i ∈ inputs → s.lastTs < i.tick.ts → i.tick.ts < s.lastTs + 3600 →
        s.mode = modeOf d → stopMode i.tick.close i.base i.quote = modeOf d →
        P n s.lastTs s.stopPrice → P (n + 1) i.tick.ts (nextStop cfg s i.tick i.base i.quote)) →
      P (n + inputs.length) s'.lastTs s'.stopPrice := by
  induction inputs with
  | nil => intro n s s' out h _ _ _ _ hP _; cases h; exact hP
  | cons i rest ih =>
    intro n s s' out h hd hm hh hc hP hstep
    obtain ⟨s1, os, out', hu, hf, rfl⟩ := feed_cons h
    obtain ⟨m1, m2, m3, m4⟩ := mode_of_side (sg := i.signals) hu (hd os List.mem_cons_self)
    obtain ⟨hts, -⟩ := stopUpdate_ok (sg := i.signals) hu
    rw [List.length_cons, show n + (rest.length + 1) = n + 1 + rest.length by omega]
    refine ih (n + 1) s1 s' out' hf (fun os hos => hd os (List.mem_cons_of_mem _ hos)) m1 ?_ hc.of_cons ?_
      (fun n s j hj => hstep n s j (List.mem_cons_of_mem _ hj))
    · intro j hj
      rw [m3]
      cases rest with
      | nil => simp at hj
      | cons k rest =>
        simp only [List.head?_cons, Option.some.injEq] at hj
        subst hj
        exact (List.isChain_cons_cons.mp hc).1
    · rw [m3, m4]
      exact hstep n s i List.mem_cons_self hts (hh i rfl) hm (by rw [← m2]; exact m1) hP

/-- The same for a steady run, starting at its first order; `P` may depend on the number of updates. -/
theorem steady_induct_counted {cfg : StopConfig F} {d : Side} (P : ℕ → ℤ → F → Prop) (inputs : List (UpdateInput F)) (t₀ t₁ : ℤ)
    (p₀ p₁ : F) (hrun : SteadyRun cfg d inputs t₀ p₀ t₁ p₁) (h0 : P 0 t₀ p₀)
    (hstep : ∀ (n : ℕ) (s : StopState F) (i : UpdateInput F), i ∈ inputs.tail → s.lastTs < i.tick.ts →
      i.tick.ts < s.lastTs + 3600 → s.mode = modeOf d → stopMode i.tick.close i.base i.quote = modeOf d →
      P n s.lastTs s.stopPrice → P (n + 1) i.tick.ts (nextStop cfg s i.tick i.base i.quote)) : P (inputs.length - 1) t₁ p₁ := by
  obtain ⟨⟨fmt, s, s', out, o₀, o₁, hf, hd, ho0, ho1, hp0, hp1⟩, hg, hfirst, hlast⟩ := hrun
  cases inputs with
  | nil => simp at hfirst
  | cons i rest =>
    obtain ⟨l1, l2⟩ := feed_last _ _ _ _ hf
    have e1 : s'.lastTs = t₁ := by
      cases hl : (i :: rest).getLast? with
      | none => rw [hl] at hlast; simp at hlast
      | some k =>
        rw [hl] at hlast
        simp only [Option.map_some, Option.some.injEq] at hlast
        rw [l1 k hl, hlast]
    have e2 : s'.stopPrice = p₁ := by
      have := l2 _ ho1 o₁ (List.mem_singleton.mpr rfl)
      rw [hp1] at this
      simpa using this.symm
    obtain ⟨s1, os, out', hu, hf', rfl⟩ := feed_cons hf
    simp only [List.head?_cons, Option.some.injEq] at ho0
    subst ho0
    simp only [List.head?_cons, Option.map_some, Option.some.injEq] at hfirst
    obtain ⟨m1, m2, m3, m4⟩ := mode_of_side (sg := i.signals) hu (hd _ List.mem_cons_self)
    have e3 : s1.stopPrice = p₀ := by
      have hfs : feed (stopTrader fmt cfg) s [i] = .ok (s1, [[o₀]]) := by
        unfold feed
        rw [hu]; rfl
      have := (feed_last _ _ _ _ hfs).2 [o₀] rfl o₀ (List.mem_singleton.mpr rfl)
      rw [hp0] at this
      simpa using this.symm
    rw [← e1, ← e2, List.length_cons, Nat.add_sub_cancel, ← Nat.zero_add rest.length]
    refine feed_induct P rest 0 s1 s' out' hf' (fun os hos => hd os (List.mem_cons_of_mem _ hos)) m1 ?_ hg.of_cons ?_ hstep
    · intro j hj
      rw [m3]
      cases rest with
      | nil => simp at hj
      | cons k rest =>
        simp only [List.head?_cons, Option.some.injEq] at hj
        subst hj
        exact (List.isChain_cons_cons.mp hg).1
    · rw [m3, e3, hfirst]; exact h0

@[inherit_doc steady_induct_counted]
theorem steady_induct {cfg : StopConfig F} {d : Side} (P : ℤ → F → Prop) (inputs : List (UpdateInput F)) (t₀ t₁ : ℤ)
    (p₀ p₁ : F) (hrun : SteadyRun cfg d inputs t₀ p₀ t₁ p₁) (h0 : P t₀ p₀)
    (hstep : ∀ (s : StopState F) (i : UpdateInput F), i ∈ inputs.tail → s.lastTs < i.tick.ts →
      i.tick.ts < s.lastTs + 3600 → s.mode = modeOf d → stopMode i.tick.close i.base i.quote = modeOf d →
      P s.lastTs s.stopPrice → P i.tick.ts (nextStop cfg s i.tick i.base i.quote)) : P t₁ p₁ :=
  steady_induct_counted (fun _ => P) inputs t₀ t₁ p₀ p₁ hrun h0 (fun _ => hstep)

end steady

/-- **C58**. Over any run without reset, whatever the sampling of the ticks, the stop price of a selling trader grows at
most by the daily rate compounded over the elapsed time, and the stop price of a buying trader shrinks at most by its
daily rate compounded over the elapsed time. -/
theorem C58_rate_bound (cfg : StopConfig ℝ) (inputs : List (UpdateInput ℝ)) (t₀ t₁ : ℤ) (p₀ p₁ : ℝ) (hp : 0 ≤ p₀) :
    (0 ≤ cfg.increasePerDay → SteadyRun cfg .sell inputs t₀ p₀ t₁ p₁ →
      p₁ ≤ p₀ * (1 + cfg.increasePerDay) ^ (((t₁ - t₀ : ℤ) : ℝ) / 86400)) ∧
    (0 ≤ cfg.decreasePerDay → cfg.decreasePerDay < 1 → SteadyRun cfg .buy inputs t₀ p₀ t₁ p₁ →
      p₀ * (1 - cfg.decreasePerDay) ^ (((t₁ - t₀ : ℤ) : ℝ) / 86400) ≤ p₁) := by
  constructor
  · intro hr hrun
    have key := steady_induct (fun t p => 0 ≤ p ∧ p ≤ p₀ * compound cfg.increasePerDay t₀ t) inputs t₀ t₁ p₀ p₁ hrun
      ⟨hp, by rw [compound_self, mul_one]⟩ ?_
    · exact key.2
    · intro s i _ h1 h2 h3 h4 ⟨h5, h6⟩
      have hc := one_le_compound hr h1.le
      rw [nextStop_sell hr h3 h1 h2 h4]
      have hle : s.stopPrice ≤ compound cfg.increasePerDay s.lastTs i.tick.ts * s.stopPrice := by nlinarith
      have hb : compound cfg.increasePerDay s.lastTs i.tick.ts * s.stopPrice ≤
          p₀ * compound cfg.increasePerDay t₀ i.tick.ts := by
        rw [← compound_trans (by linarith) t₀ s.lastTs i.tick.ts]
        nlinarith
      split_ifs
      · exact ⟨le_max_of_le_left h5, max_le (hle.trans hb) ((min_le_right _ _).trans hb)⟩
      · exact ⟨h5, hle.trans hb⟩
  · intro hr0 hr hrun
    have key := steady_induct (fun t p => 0 ≤ p ∧ p₀ * compound (-cfg.decreasePerDay) t₀ t ≤ p) inputs t₀ t₁ p₀ p₁ hrun
      ⟨hp, by rw [compound_self, mul_one]⟩ ?_
    · have := key.2
      unfold compound at this
      rwa [← sub_eq_add_neg] at this
    · intro s i _ h1 h2 h3 h4 ⟨h5, h6⟩
      have hc := compound_le_one (r := -cfg.decreasePerDay) (by linarith) (by linarith) h1.le
      have hc0 := compound_pos (r := -cfg.decreasePerDay) (by linarith) s.lastTs i.tick.ts
      rw [nextStop_buy hr h3 h1 h2 h4]
      have hle : compound (-cfg.decreasePerDay) s.lastTs i.tick.ts * s.stopPrice ≤ s.stopPrice := by nlinarith
      have hb : p₀ * compound (-cfg.decreasePerDay) t₀ i.tick.ts ≤
          compound (-cfg.decreasePerDay) s.lastTs i.tick.ts * s.stopPrice := by
        rw [← compound_trans (by linarith) t₀ s.lastTs i.tick.ts]
        nlinarith
      split_ifs
      · exact ⟨le_min h5 (le_max_of_le_right (by positivity)), le_min (hb.trans hle) (hb.trans (le_max_right _ _))⟩
      · exact ⟨h5, hb.trans hle⟩

/-- **C58** (the rate is attained). As long as the compounded price stays within the move threshold of every tick, the
stop price is exactly the compounded one - it does not depend on how often the trader was updated. -/
theorem C58_rate_attained (cfg : StopConfig ℝ) (inputs : List (UpdateInput ℝ)) (t₀ t₁ : ℤ) (p₀ p₁ : ℝ) (hp : 0 ≤ p₀) :
    (0 ≤ cfg.increasePerDay → SteadyRun cfg .sell inputs t₀ p₀ t₁ p₁ →
      (∀ i ∈ inputs.tail, p₀ * (1 + cfg.increasePerDay) ^ (((i.tick.ts - t₀ : ℤ) : ℝ) / 86400) ≤
        (1 - cfg.moveMargin) * i.tick.close) →
      p₁ = p₀ * (1 + cfg.increasePerDay) ^ (((t₁ - t₀ : ℤ) : ℝ) / 86400)) ∧
    (0 ≤ cfg.decreasePerDay → cfg.decreasePerDay < 1 → SteadyRun cfg .buy inputs t₀ p₀ t₁ p₁ →
      (∀ i ∈ inputs.tail, (1 + cfg.moveMargin) * i.tick.close ≤
        p₀ * (1 - cfg.decreasePerDay) ^ (((i.tick.ts - t₀ : ℤ) : ℝ) / 86400)) →
      p₁ = p₀ * (1 - cfg.decreasePerDay) ^ (((t₁ - t₀ : ℤ) : ℝ) / 86400)) := by
  constructor
  · intro hr hrun hfree
    refine steady_induct (fun t p => p = p₀ * compound cfg.increasePerDay t₀ t) inputs t₀ t₁ p₀ p₁ hrun
      (by rw [compound_self, mul_one]) ?_
    intro s i hi h1 h2 h3 h4 h5
    have hc := one_le_compound hr h1.le
    have hc0 := compound_pos (r := cfg.increasePerDay) (by linarith) t₀ s.lastTs
    rw [nextStop_sell hr h3 h1 h2 h4]
    have e : compound cfg.increasePerDay s.lastTs i.tick.ts * s.stopPrice = p₀ * compound cfg.increasePerDay t₀ i.tick.ts := by
      rw [← compound_trans (by linarith) t₀ s.lastTs i.tick.ts, h5]; ring
    have hf : p₀ * compound cfg.increasePerDay t₀ i.tick.ts ≤ (1 - cfg.moveMargin) * i.tick.close := hfree i hi
    have hs : 0 ≤ s.stopPrice := by rw [h5]; positivity
    have hle : s.stopPrice ≤ p₀ * compound cfg.increasePerDay t₀ i.tick.ts := by rw [← e]; nlinarith
    rw [e, if_pos (hle.trans hf), min_eq_right hf, max_eq_right hle]
  · intro hr0 hr hrun hfree
    rw [sub_eq_add_neg] at *
    refine steady_induct (fun t p => p = p₀ * compound (-cfg.decreasePerDay) t₀ t) inputs t₀ t₁ p₀ p₁ hrun
      (by rw [compound_self, mul_one]) ?_
    intro s i hi h1 h2 h3 h4 h5
    have hc := compound_le_one (r := -cfg.decreasePerDay) (by linarith) (by linarith) h1.le
    have hc0 := compound_pos (r := -cfg.decreasePerDay) (by linarith) t₀ s.lastTs
    rw [nextStop_buy hr h3 h1 h2 h4]
    have e : compound (-cfg.decreasePerDay) s.lastTs i.tick.ts * s.stopPrice = p₀ * compound (-cfg.decreasePerDay) t₀ i.tick.ts := by
      rw [← compound_trans (by linarith) t₀ s.lastTs i.tick.ts, h5]; ring
    have hf : (1 + cfg.moveMargin) * i.tick.close ≤ p₀ * compound (-cfg.decreasePerDay) t₀ i.tick.ts := hfree i hi
    have hs : 0 ≤ s.stopPrice := by rw [h5]; positivity
    have hle : p₀ * compound (-cfg.decreasePerDay) t₀ i.tick.ts ≤ s.stopPrice := by rw [← e]; nlinarith
    rw [e, if_pos (hf.trans hle), max_eq_right hf, min_eq_right hle]

/-- A steady run of two updates exists, and its second price is strictly between the first one and the threshold. -/
example : ∃ p₁ : ℝ, SteadyRun ⟨1 / 10, 1 / 20, 1 / 100, 1 / 10⟩ .sell
    [⟨⟨300, 100, 100, 100, 100, 1⟩, [], 1, 0⟩, ⟨⟨600, 100, 100, 100, 100, 1⟩, [], 1, 0⟩] 300 90 600 p₁ ∧
    p₁ = 90 * (1 + 1 / 100) ^ ((300 : ℝ) / 86400) := by
  set cfg : StopConfig ℝ := ⟨1 / 10, 1 / 20, 1 / 100, 1 / 10⟩ with hcfg
  set i1 : UpdateInput ℝ := ⟨⟨300, 100, 100, 100, 100, 1⟩, [], 1, 0⟩ with hi1
  set i2 : UpdateInput ℝ := ⟨⟨600, 100, 100, 100, 100, 1⟩, [], 1, 0⟩ with hi2
  obtain ⟨⟨s1, os1⟩, h1⟩ := (C56_returns_iff cfg StopState.init i1.tick i1.signals i1.base i1.quote).mpr
    ⟨by decide, by simp [hi1], by simp [hi1]⟩
  obtain ⟨-, -, -, es1, eo1⟩ := stopUpdate_ok h1
  obtain ⟨⟨s2, os2⟩, h2⟩ := (C56_returns_iff cfg s1 i2.tick i2.signals i2.base i2.quote).mpr
    ⟨by rw [es1]; decide, by simp [hi2], by simp [hi2]⟩
  obtain ⟨-, -, -, es2, eo2⟩ := stopUpdate_ok h2
  have l1 : (i1.quote <=. i1.base *. i1.tick.close) = true := by simp [hi1]
  have l2 : (i2.quote <=. i2.base *. i2.tick.close) = true := by simp [hi2]
  rw [if_pos l1] at eo1
  rw [if_pos l2] at eo2
  have p1 : nextStop cfg StopState.init i1.tick i1.base i1.quote = 90 := by
    have := C57_first cfg i1.tick i1.signals i1.base i1.quote s1 _ .sell _ (by rw [h1, eo1]) rfl rfl
    rw [this]
    simp [resetPrice, hcfg, hi1]; norm_num
  have run : SteadyRun cfg .sell [i1, i2] 300 90 600 (nextStop cfg s1 i2.tick i2.base i2.quote) := by
    refine ⟨⟨⟨fun _ => "", fun _ _ => ""⟩, StopState.init, s2, [os1, os2],
      ⟨some .stop, some .sell, .base i1.base, some 90⟩,
      ⟨some .stop, some .sell, .base i2.base, some (nextStop cfg s1 i2.tick i2.base i2.quote)⟩,
      ?_, ?_, ?_, ?_, rfl, rfl⟩, ?_, rfl, rfl⟩
    rotate_left 2
    · rw [eo1, p1]; rfl
    · rw [eo2]; rfl
    · simp [hi1, hi2]
    · unfold feed
      rw [show (stopTrader ⟨fun _ => "", fun _ _ => ""⟩ cfg).update StopState.init i1.tick i1.signals i1.base i1.quote = _ from h1]
      simp only [bind, Except.bind]
      unfold feed
      rw [show (stopTrader ⟨fun _ => "", fun _ _ => ""⟩ cfg).update s1 i2.tick i2.signals i2.base i2.quote = _ from h2]
      rfl
    · rw [eo1, eo2]; simp
  refine ⟨_, run, ?_⟩
  have := (C58_rate_attained cfg [i1, i2] 300 600 90 _ (by norm_num)).1 (by simp [hcfg]) run ?_
  · rw [this]; norm_num [hcfg]
  · intro i hi
    simp only [List.tail_cons, List.mem_singleton] at hi
    subst hi
    have h1 : (1 + cfg.increasePerDay) ^ (((i2.tick.ts - 300 : ℤ) : ℝ) / 86400) ≤ (1 + cfg.increasePerDay) ^ (1 : ℝ) := by
      apply Real.rpow_le_rpow_of_exponent_le
      · norm_num [hcfg]
      · norm_num [hi2]
    rw [Real.rpow_one] at h1
    have h2 : (90 : ℝ) * (1 + cfg.increasePerDay) ≤ (1 - cfg.moveMargin) * i2.tick.close := by norm_num [hcfg, hi2]
    linarith

end real

/-! ## Examples over ℚ (with first-order approximations of `exp` and `log`) -/

/-- `exp x ≈ 1 + x`, `log x ≈ x - 1`. -/
@[instance_reducible] def stLibm : Libm ℚ := ⟨id, fun x => 1 + x, fun x => x - 1, fun x _ => x⟩

section
attribute [local instance] stLibm

abbrev stCfg : StopConfig ℚ := ⟨1 / 10, 1 / 20, 288 / 1000, 288 / 1000⟩
abbrev stTick (ts : ℤ) (price : ℚ) : OhlcTick ℚ := ⟨ts, price, price, price, price, 1⟩

/-- The first update resets, the second (five minutes later, same side) ratchets up by 1/1000; after an hour, or when the
trader changes sides, the price is reset; a buy stop ratchets down. -/
example :
    stopUpdate stCfg .init (stTick 300 100) [] 1 0 =
      .ok (⟨1, 0, 300, 100, .long, 90⟩, [⟨some .stop, some .sell, .base 1, some 90⟩]) ∧
    stopUpdate stCfg ⟨1, 0, 300, 100, .long, 90⟩ (stTick 600 100) [] 1 0 =
      .ok (⟨1, 0, 600, 100, .long, 9009 / 100⟩, [⟨some .stop, some .sell, .base 1, some (9009 / 100)⟩]) ∧
    stopUpdate stCfg ⟨1, 0, 300, 100, .long, 90⟩ (stTick 600 80) [] 1 0 =
      .ok (⟨1, 0, 600, 80, .long, 90⟩, [⟨some .stop, some .sell, .base 1, some 90⟩]) ∧
    stopUpdate stCfg ⟨1, 0, 300, 100, .long, 90⟩ (stTick 3900 80) [] 1 0 =
      .ok (⟨1, 0, 3900, 80, .long, 72⟩, [⟨some .stop, some .sell, .base 1, some 72⟩]) ∧
    stopUpdate stCfg ⟨1, 0, 300, 100, .long, 90⟩ (stTick 600 100) [] 0 90 =
      .ok (⟨0, 90, 600, 100, .cash, 110⟩, [⟨some .stop, some .buy, .quote 90, some 110⟩]) ∧
    stopUpdate stCfg ⟨0, 90, 600, 100, .cash, 110⟩ (stTick 900 90) [] 0 90 =
      .ok (⟨0, 90, 900, 90, .cash, 10989 / 100⟩, [⟨some .stop, some .buy, .quote 90, some (10989 / 100)⟩]) := by
  decide +kernel

/-- `TwoUpdates` and the hypotheses of the C57 theorems are met by the first two updates above. -/
example : TwoUpdates stCfg (stTick 300 100) (stTick 600 100) .sell .sell 90 (9009 / 100) :=
  ⟨⟨.init, ⟨1, 0, 300, 100, .long, 90⟩, ⟨1, 0, 600, 100, .long, 9009 / 100⟩, [], [], 1, 0, 1, 0,
    ⟨some .stop, some .sell, .base 1, some 90⟩, ⟨some .stop, some .sell, .base 1, some (9009 / 100)⟩,
    by decide +kernel, by decide +kernel, rfl, rfl, rfl, rfl⟩⟩

example : SaneMargins stCfg := by unfold SaneMargins stCfg; norm_num

end
end Verif.Props
