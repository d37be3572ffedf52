import Verif.Spec.Preconditions
import Verif.Props.Orders
import Verif.Props.SideInput
import Verif.Props.Rsi
import Verif.Props.FloatStochastic
import Verif.Props.Volatility

/-!
# C98: calls outside the preconditions abort, all others return
-/

set_option linter.unusedSectionVars false

namespace Verif.Props
open FloatOps Spec SideInput

section general
variable {F : Type} [FloatOps F]

/-! ### Trading methods -/

/-- **C98** (trading, any arithmetic). Every trading method aborts if the amount is not at least 0 (NaN included), and the
stop and limit methods also abort if the price is not positive. -/
theorem C98_trading_aborts (a : Account F) (fc : FeeConfig F) (t : OhlcTick F) (ty : OrderType) (sd : Side) (inBase : Bool)
    (amount price : F)
    (h : (amount >=. lit F 0) = false ∨ (ty ≠ .market ∧ (price >. lit F 0) = false)) :
    tradingMethod a fc t ty sd inBase amount price = .error .assertion := by
  have key : ∀ (b c : Bool) (r : Unit → Res (Bool × Account F)), (b = false ∨ c = false) →
      (assertThat c >>= fun _ => assertThat b >>= r) = .error .assertion := by
    rintro b c r (rfl | rfl)
    · cases c <;> rfl
    · rfl
  rcases ty with _ | _ | _ <;> rcases sd with _ | _ <;> cases inBase <;>
    (apply key; rcases h with h | ⟨h1, h2⟩ <;> first | exact .inl h | exact .inr h2 | exact absurd rfl h1)

/-! ### Constructors -/

theorem lastN_make_iff (n P : ℤ) : (∃ s, (LastN.make n P : Res (LastN F)) = .ok s) ↔ 0 < n ∧ 0 < P := by
  constructor
  · rintro ⟨s, h⟩
    by_cases hn : 0 < n
    · by_cases hP : 0 < P
      · exact ⟨hn, hP⟩
      · simp [LastN.make, assertThat, hn, hP, bind, Except.bind] at h
    · simp [LastN.make, assertThat, hn, bind, Except.bind] at h
  · rintro ⟨hn, hP⟩; exact ⟨_, lastN_make n P hn hP⟩

/-- **C98** (sliding windows). A sliding minimum or maximum can be made exactly for a positive window size. -/
theorem C98_window_size (n : ℤ) :
    ((∃ s, (SlidingMin.make n : Res (SlidingMin F)) = .ok s) ↔ 0 < n) ∧
    ((∃ s, (SlidingMax.make n : Res (SlidingMax F)) = .ok s) ↔ 0 < n) := by
  constructor <;> by_cases hn : 0 < n <;>
    simp [SlidingMax.make, SlidingMin.make, assertThat, hn, bind, Except.bind, pure, Except.pure]

/-! ### Ticks in order -/

variable {P : ℤ}

theorem fill_head (n : ℕ) (target : ℤ) (last : OhlcTick F) (rest : List (OhlcTick F)) :
    ∃ y ys, (LastN.fill n P target last rest).1 = y :: ys ∧
      (last.ts ≤ target → y.ts ≤ target) ∧ (target < last.ts → y = last) := by
  fun_induction LastN.fill n P target last rest with
  | case1 last rest hc x p r ih =>
    obtain ⟨y, ys, h1, h2, h3⟩ := ih
    have hx : x.ts = last.ts + P := rfl
    exact ⟨y, ys, h1, fun _ => h2 (by omega), fun h => by omega⟩
  | case2 last rest hc => exact ⟨last, rest, rfl, id, fun _ => rfl⟩

theorem pushBack_cons (n : ℕ) (hn : 0 < n) (x : OhlcTick F) (rev : List (OhlcTick F)) :
    ∃ xs, (LastN.pushBack n x rev).1 = x :: xs := by
  unfold LastN.pushBack
  split
  · exact ⟨_, rfl⟩
  · cases h : rev.getLast? with
    | some f => exact ⟨_, rfl⟩
    | none =>
      rw [List.getLast?_eq_none_iff] at h
      subst h
      simp at *
      omega

/-- One update: it returns exactly if the tick is not from an earlier period; the tick's period is then the newest. -/
theorem update_returns_iff (s : LastN F) (hn : 0 < s.n) (t : OhlcTick F) :
    ((∃ r, s.update t = .ok r) ↔ ∀ last ∈ s.rev.head?, last.ts ≤ s.period * t.ts.tdiv s.period) ∧
    (∀ s' e, s.update t = .ok (s', e) → s'.n = s.n ∧ s'.period = s.period ∧
      ∃ x xs, s'.rev = x :: xs ∧ x.ts = s.period * t.ts.tdiv s.period) := by
  unfold LastN.update LastN.backfill
  cases hr : s.rev with
  | nil =>
    simp only [List.nil_append]
    refine ⟨⟨fun _ => by simp, fun _ => ⟨_, rfl⟩⟩, ?_⟩
    intro s' e h
    obtain ⟨rfl, -⟩ := Prod.mk.inj (Except.ok.inj h)
    obtain ⟨xs, hxs⟩ := pushBack_cons s.n hn { t with ts := s.period * t.ts.tdiv s.period } []
    exact ⟨rfl, rfl, _, xs, hxs, rfl⟩
  | cons last rest =>
    obtain ⟨y, ys, h1, h2, h3⟩ := fill_head (P := s.period) s.n (s.period * t.ts.tdiv s.period) last rest
    simp only [h1, List.head?_cons, Option.mem_def, Option.some.injEq, forall_eq']
    set target := s.period * t.ts.tdiv s.period with ht
    by_cases hlt : y.ts < target
    · rw [if_pos hlt]
      refine ⟨⟨fun _ => ?_, fun _ => ⟨_, rfl⟩⟩, ?_⟩
      · by_contra hc
        have := h3 (by omega)
        subst this; omega
      · intro s' e h
        obtain ⟨rfl, -⟩ := Prod.mk.inj (Except.ok.inj h)
        obtain ⟨xs, hxs⟩ := pushBack_cons s.n hn { t with ts := target } (y :: ys)
        exact ⟨rfl, rfl, _, xs, hxs, rfl⟩
    · rw [if_neg hlt]
      by_cases he : y.ts = target
      · simp only [assertThat, he, decide_true, if_true, bind, Except.bind, pure, Except.pure]
        refine ⟨⟨fun _ => ?_, fun _ => ⟨_, rfl⟩⟩, ?_⟩
        · by_contra hc
          have := h3 (by omega)
          subst this; omega
        · intro s' e h
          obtain ⟨rfl, -⟩ := Prod.mk.inj (Except.ok.inj h)
          exact ⟨rfl, rfl, _, ys, rfl, rfl⟩
      · simp only [assertThat, he, decide_false, bind, Except.bind]
        refine ⟨⟨fun ⟨r, h⟩ => by simp at h, fun h => ?_⟩, ?_⟩
        · have := h2 h; omega
        · intro s' e h; simp at h

theorem run_returns_iff (l : List (OhlcTick F)) : ∀ (s : LastN F), 0 < s.n → 0 < s.period →
    (∀ last ∈ s.rev.head?, ∃ k, last.ts = s.period * k) →
    ((∃ r, s.run l = .ok r) ↔
      PeriodsInOrder s.period l ∧ ∀ last ∈ s.rev.head?, ∀ t ∈ l.head?, last.ts ≤ s.period * t.ts.tdiv s.period) := by
  induction l with
  | nil => intro s _ _ _; simp [LastN.run, PeriodsInOrder]
  | cons t l ih =>
    intro s hn hP hk
    obtain ⟨u1, u2⟩ := update_returns_iff s hn t
    simp only [List.head?_cons, Option.mem_def, Option.some.injEq, forall_eq']
    simp only [Option.mem_def] at u1
    rw [← u1]
    simp only [LastN.run, bind, Except.bind, pure, Except.pure]
    cases hu : s.update t with
    | error e => simp
    | ok p =>
      obtain ⟨s', e⟩ := p
      obtain ⟨v1, v2, x, xs, v3, v4⟩ := u2 s' e hu
      have := ih s' (by omega) (by omega) (by rw [v3, v2]; simp [v4])
      simp only
      refine Iff.trans (b := ∃ r, s'.run l = .ok r) (by cases s'.run l <;> simp) (this.trans ?_)
      · rw [v3, v2]
        simp only [List.head?_cons, Option.mem_def, Option.some.injEq, forall_eq', v4]
        unfold PeriodsInOrder
        rw [List.isChain_cons]
        constructor
        · rintro ⟨h1, h2⟩
          refine ⟨⟨fun y hy => ?_, h1⟩, _, rfl⟩
          exact le_of_mul_le_mul_left (h2 y hy) hP
        · rintro ⟨⟨h1, h2⟩, -⟩
          exact ⟨h2, fun y hy => mul_le_mul_of_nonneg_left (h1 y hy) hP.le⟩

/-- **C98** (last ticks). A `LastNOhlcTicks` can be made and fed a list of ticks exactly if the number of ticks and the
period are positive and no tick belongs to an earlier period than the one before it - whatever their timestamps. -/
theorem C98_last_n (n period : ℤ) (l : List (OhlcTick F)) :
    (∃ r, lastNAfter n period l = .ok r) ↔ 0 < n ∧ 0 < period ∧ PeriodsInOrder period l := by
  unfold lastNAfter
  by_cases h : 0 < n ∧ 0 < period
  · rw [lastN_make n period h.1 h.2]
    simp only [bind, Except.bind]
    rw [run_returns_iff l ⟨n.toNat, period, []⟩ (by show 0 < n.toNat; omega) h.2 (by simp)]
    simp [h.1, h.2]
  · have := (lastN_make_iff (F := F) n period).not.mpr h
    cases hm : (LastN.make n period : Res (LastN F)) with
    | ok s => exact absurd ⟨s, hm⟩ this
    | error e =>
      simp only [bind, Except.bind]
      exact ⟨fun ⟨r, h⟩ => (by cases h), fun h' => absurd ⟨h'.1, h'.2.1⟩ h⟩

/-! ### Indicators -/

/-- A tick moved to the start of its period. -/
def toStart (P : ℤ) (t : OhlcTick F) : OhlcTick F := { t with ts := P * t.ts.tdiv P }

theorem update_toStart (s : LastN F) (hP : 0 < s.period) (t : OhlcTick F) : s.update (toStart s.period t) = s.update t := by
  have e : s.period * (toStart s.period t).ts.tdiv s.period = s.period * t.ts.tdiv s.period := by
    unfold toStart
    rw [Int.mul_tdiv_cancel_left _ hP.ne']
  unfold LastN.update
  simp only [e]
  rfl

theorem update_period {s s' : LastN F} {t : OhlcTick F} {e : List (TickEvent F)} (h : s.update t = .ok (s', e)) :
    s'.period = s.period := by
  unfold LastN.update at h
  dsimp only at h
  split at h
  · obtain ⟨rfl, -⟩ := Prod.mk.inj (Except.ok.inj h); rfl
  · split at h
    · obtain ⟨rfl, -⟩ := Prod.mk.inj (Except.ok.inj h); rfl
    · rename_i last rest _ _
      by_cases hl : last.ts = s.period * t.ts.tdiv s.period
      · simp only [assertThat, hl, decide_true, if_true, bind, Except.bind, pure, Except.pure] at h
        obtain ⟨rfl, -⟩ := Prod.mk.inj (Except.ok.inj h); rfl
      · simp [assertThat, hl, bind, Except.bind] at h

theorem indUpdate_toStart {σ : Type} (onEvent : List (OhlcTick F) → σ → TickEvent F → Res σ) (ind : Indicator F σ)
    (hP : 0 < ind.window.period) (t : OhlcTick F) :
    Indicator.update onEvent ind (toStart ind.window.period t) = Indicator.update onEvent ind t := by
  unfold Indicator.update
  rw [update_toStart _ hP]

theorem indUpdate_window {σ : Type} {onEvent : List (OhlcTick F) → σ → TickEvent F → Res σ} {ind ind' : Indicator F σ}
    {t : OhlcTick F} (h : Indicator.update onEvent ind t = .ok ind') :
    ∃ e, ind.window.update t = .ok (ind'.window, e) := by
  unfold Indicator.update at h
  simp only [bind, Except.bind, pure, Except.pure] at h
  cases hu : ind.window.update t with
  | error e => rw [hu] at h; cases h
  | ok p =>
    rw [hu] at h
    dsimp only at h
    cases hc : Indicator.callbacks onEvent ind.window.ticks ind.state p.2 with
    | error e => rw [hc] at h; cases h
    | ok s => rw [hc] at h; cases h; exact ⟨_, rfl⟩

theorem indRun_toStart {σ : Type} (onEvent : List (OhlcTick F) → σ → TickEvent F → Res σ) (l : List (OhlcTick F)) :
    ∀ (ind : Indicator F σ), 0 < ind.window.period →
    Indicator.run onEvent ind (l.map (toStart ind.window.period)) = Indicator.run onEvent ind l := by
  induction l with
  | nil => intro ind _; rfl
  | cons t l ih =>
    intro ind hP
    unfold Indicator.run at ih ⊢
    rw [List.map_cons, List.foldlM_cons, List.foldlM_cons, indUpdate_toStart _ _ hP]
    simp only [bind, Except.bind]
    cases hu : Indicator.update onEvent ind t with
    | error e => rfl
    | ok ind' =>
      obtain ⟨e, he⟩ := indUpdate_window hu
      have hp := update_period he
      have := ih ind' (by omega)
      rw [hp] at this
      exact this

theorem indRun_lastN {σ : Type} {onEvent : List (OhlcTick F) → σ → TickEvent F → Res σ} (l : List (OhlcTick F)) :
    ∀ {ind ind' : Indicator F σ}, Indicator.run onEvent ind l = .ok ind' → ∃ r, ind.window.run l = .ok r := by
  induction l with
  | nil => intro ind ind' _; exact ⟨_, rfl⟩
  | cons t l ih =>
    intro ind ind' h
    unfold Indicator.run at h
    rw [List.foldlM_cons] at h
    simp only [bind, Except.bind] at h
    cases hu : Indicator.update onEvent ind t with
    | error e => rw [hu] at h; cases h
    | ok ind1 =>
      rw [hu] at h
      obtain ⟨e, he⟩ := indUpdate_window hu
      obtain ⟨r, hr⟩ := ih h
      simp only [LastN.run, he, hr, bind, Except.bind, pure, Except.pure]
      exact ⟨_, rfl⟩

theorem toStart_feedable (hP : 0 < P) (l : List (OhlcTick F)) (h0 : ∀ t ∈ l, 0 ≤ t.ts) (h : PeriodsInOrder P l) :
    Feedable (l.map (toStart P)) := by
  constructor
  · unfold SortedBy
    rw [List.pairwise_map]
    have : l.Pairwise (fun a b => a.ts.tdiv P ≤ b.ts.tdiv P) := by
      have : IsTrans (OhlcTick F) (fun a b => a.ts.tdiv P ≤ b.ts.tdiv P) := ⟨fun _ _ _ => le_trans⟩
      exact h.pairwise
    exact this.imp (fun hab => mul_le_mul_of_nonneg_left hab hP.le)
  · intro t ht
    obtain ⟨x, hx, rfl⟩ := List.mem_map.mp ht
    have := Int.tdiv_nonneg (h0 x hx) hP.le
    unfold toStart
    positivity

/-- An indicator that handles every sorted history handles exactly the histories whose periods are in order. -/
theorem indicator_returns_iff {σ : Type} (make : Res (Indicator F σ)) (onEvent : List (OhlcTick F) → σ → TickEvent F → Res σ)
    (k : ℤ) (hk : 0 < k) (good : Prop) (hmake : ∀ s, make = .ok s → (good ∧ 0 < P) ∧ s.window = ⟨k.toNat, P, []⟩)
    (hgood : good → 0 < P → (∃ s, make = .ok s) ∧ ∀ l, Feedable l → ∃ s, indAfter make onEvent l = .ok s)
    (l : List (OhlcTick F)) (h0 : ∀ t ∈ l, 0 ≤ t.ts) :
    (∃ s, indAfter make onEvent l = .ok s) ↔ good ∧ 0 < P ∧ PeriodsInOrder P l := by
  unfold indAfter at *
  cases hm : make with
  | error e =>
    simp only [bind, Except.bind]
    constructor
    · rintro ⟨s, h⟩; cases h
    · rintro ⟨h1, h2, -⟩
      obtain ⟨⟨s, h⟩, -⟩ := hgood h1 h2
      rw [hm] at h; cases h
  | ok s =>
    obtain ⟨⟨g, hP⟩, hw⟩ := hmake s hm
    rw [hm] at hgood
    simp only [bind, Except.bind] at hgood ⊢
    constructor
    · rintro ⟨s', h⟩
      obtain ⟨r, hr⟩ := indRun_lastN l h
      rw [hw] at hr
      have := (run_returns_iff l ⟨k.toNat, P, []⟩ (by show 0 < k.toNat; omega) hP (by simp)).mp ⟨r, hr⟩
      exact ⟨g, hP, this.1⟩
    · rintro ⟨-, -, h⟩
      have := (hgood g hP).2 _ (toStart_feedable hP l h0 h)
      have e := indRun_toStart onEvent l s (by rw [hw]; exact hP)
      rw [hw] at e
      simp only at e
      rw [e] at this
      exact this

theorem make_bind {σ : Type} {n : ℤ} {x : σ} {s : Indicator F σ}
    (h : (do let w ← LastN.make n P; pure (⟨w, x⟩ : Indicator F σ) : Res (Indicator F σ)) = .ok s) :
    0 < n ∧ 0 < P ∧ s.window = ⟨n.toNat, P, []⟩ := by
  simp only [bind, Except.bind, pure, Except.pure] at h
  cases hm : (LastN.make n P : Res (LastN F)) with
  | error e => rw [hm] at h; cases h
  | ok w =>
    obtain ⟨a, b⟩ := (lastN_make_iff n P).mp ⟨w, hm⟩
    rw [lastN_make n P a b] at hm
    obtain rfl := Except.ok.inj hm
    rw [lastN_make n P a b] at h
    cases h
    exact ⟨a, b, rfl⟩

variable {D : Type} [FloatOps D] [Wide F D]

/-- **C98** (indicators, any arithmetic). For ticks from 1970 on, every indicator can be made and fed exactly if its
period (and, for the simple moving average and the stochastic oscillator, its number of periods) is positive and no tick
belongs to an earlier period than the one before. -/
theorem C98_indicators (period : ℤ) (l : List (OhlcTick F)) (h0 : ∀ t ∈ l, 0 ≤ t.ts) :
    (∀ n, (∃ s, smaAfter n period l = .ok s) ↔ 0 < n ∧ 0 < period ∧ PeriodsInOrder period l) ∧
    (∀ smoothing length, (∃ s, emaIndAfter smoothing length period l = .ok s) ↔ 0 < period ∧ PeriodsInOrder period l) ∧
    (∀ fast slow signal, (∃ s, macdAfter fast slow signal period l = .ok s) ↔ 0 < period ∧ PeriodsInOrder period l) ∧
    (∀ n, (∃ s, rsiAfter n period l = .ok s) ↔ 0 < period ∧ PeriodsInOrder period l) ∧
    (∀ n, (∃ s, soAfter n period l = .ok s) ↔ 0 < n ∧ 0 < period ∧ PeriodsInOrder period l) := by
  refine ⟨fun n => ?_, fun smoothing length => ?_, fun fast slow signal => ?_, fun n => ?_, fun n => ?_⟩
  · by_cases hn : 0 < n
    · exact indicator_returns_iff (P := period) (Sma.make n period) Sma.onEvent n hn (0 < n)
        (fun s h => by obtain ⟨a, b, c⟩ := make_bind h; exact ⟨⟨a, b⟩, c⟩)
        (fun _ hP => by
          refine ⟨⟨_, by unfold Sma.make; rw [lastN_make n period hn hP]; rfl⟩, fun l hl => ?_⟩
          obtain ⟨s, h, -⟩ := Indicator.run_inv (n := n.toNat) (P := period) (by omega) hP (Sma.onEvent (F := F))
            (fun _ _ => True) (fun _ e _ s _ _ => by cases e <;> exact ⟨_, rfl, trivial⟩) (lit F 0) trivial l hl.1 hl.2
          refine ⟨⟨⟨n.toNat, period, (aggregate period l).reverse.take n.toNat⟩, s⟩, ?_⟩
          unfold indAfter Sma.make
          rw [lastN_make n period hn hP]
          exact h) l h0
    · constructor
      · rintro ⟨s, h⟩
        unfold smaAfter indAfter at h
        cases hm : (Sma.make n period : Res (Indicator F (SmaState F))) with
        | error e => rw [hm] at h; cases h
        | ok s => exact absurd (make_bind hm).1 hn
      · rintro ⟨h, -⟩; exact absurd h hn
  · have := indicator_returns_iff (P := period) (EmaInd.make smoothing length period) EmaInd.onEvent 1 one_pos True
      (fun s h => by obtain ⟨a, b, c⟩ := make_bind h; exact ⟨⟨trivial, b⟩, c⟩)
      (fun _ hP => ⟨⟨_, by unfold EmaInd.make; rw [lastN_make 1 period one_pos hP]; rfl⟩, fun l hl => by
        obtain ⟨s, h, -⟩ := C42_ema smoothing length period hP l hl; exact ⟨s, h⟩⟩) l h0
    simp only [true_and] at this
    exact this
  · have := indicator_returns_iff (P := period) (Macd.make fast slow signal period) Macd.onEvent 1 one_pos True
      (fun s h => by obtain ⟨a, b, c⟩ := make_bind h; exact ⟨⟨trivial, b⟩, c⟩)
      (fun _ hP => ⟨⟨_, by unfold Macd.make; rw [lastN_make 1 period one_pos hP]; rfl⟩, fun l hl => by
        obtain ⟨s, h, -⟩ := C49_macd (F := F) fast slow signal period hP l hl; exact ⟨s, h⟩⟩) l h0
    simp only [true_and] at this
    exact this
  · have := indicator_returns_iff (P := period) (Rsi.make n period) Rsi.onEvent 2 two_pos True
      (fun s h => by obtain ⟨a, b, c⟩ := make_bind h; exact ⟨⟨trivial, b⟩, c⟩)
      (fun _ hP => ⟨⟨_, by unfold Rsi.make; rw [lastN_make 2 period two_pos hP]; rfl⟩, fun l hl => by
        obtain ⟨s, h, -⟩ := rsi_state (F := F) n period hP l hl; exact ⟨s, h⟩⟩) l h0
    simp only [true_and] at this
    exact this
  · exact indicator_returns_iff (P := period) (So.make n period) So.onEvent 1 one_pos (0 < n)
      (fun s h => by
        unfold So.make at h
        by_cases hP : 0 < period
        · rw [lastN_make 1 period one_pos hP] at h
          by_cases hn : 0 < n
          · rw [minMake n hn, maxMake n hn] at h
            cases h
            exact ⟨⟨hn, hP⟩, rfl⟩
          · simp [SlidingMin.make, assertThat, hn, bind, Except.bind] at h
        · have := (lastN_make_iff (F := F) 1 period).not.mpr (fun h => hP h.2)
          cases hm : (LastN.make 1 period : Res (LastN F)) with
          | ok s => exact absurd ⟨s, hm⟩ this
          | error e => rw [hm] at h; cases h)
      (fun hn hP => ⟨⟨_, by
          unfold So.make
          rw [lastN_make 1 period one_pos hP, minMake n hn, maxMake n hn]; rfl⟩, fun l hl => by
        obtain ⟨s, h, -⟩ := soF_state (F := F) n period hn hP l hl; exact ⟨s, h⟩⟩) l h0

/-! ### Volatility -/

theorem volRun_toStart [Libm F] (inputs : List (OhlcTick F × F × F)) : ∀ (v : Indicator F (VolState F)), 0 < v.window.period →
    (inputs.map (fun i => (toStart v.window.period i.1, i.2))).foldlM (fun v i => Vol.update v i.1 i.2.1 i.2.2) v =
      inputs.foldlM (fun v i => Vol.update v i.1 i.2.1 i.2.2) v := by
  induction inputs with
  | nil => intro v _; rfl
  | cons i l ih =>
    intro v hP
    rw [List.map_cons, List.foldlM_cons, List.foldlM_cons]
    have e0 : Vol.update v (toStart v.window.period i.1) i.2.1 i.2.2 = Vol.update v i.1 i.2.1 i.2.2 :=
      indUpdate_toStart Vol.onEvent { v with state := { v.state with base := i.2.1, quote := i.2.2 } } hP i.1
    simp only [e0, bind, Except.bind]
    cases hu : Vol.update v i.1 i.2.1 i.2.2 with
    | error e => rfl
    | ok v' =>
      obtain ⟨e, he⟩ := indUpdate_window hu
      have hp : v'.window.period = v.window.period := update_period he
      have := ih v' (by omega)
      rw [hp] at this
      exact this

theorem volRun_lastN [Libm F] (inputs : List (OhlcTick F × F × F)) : ∀ {v v' : Indicator F (VolState F)},
    inputs.foldlM (fun v i => Vol.update v i.1 i.2.1 i.2.2) v = .ok v' → ∃ r, v.window.run (inputs.map (·.1)) = .ok r := by
  induction inputs with
  | nil => intro v v' _; exact ⟨_, rfl⟩
  | cons i l ih =>
    intro v v' h
    rw [List.foldlM_cons] at h
    simp only [bind, Except.bind] at h
    cases hu : Vol.update v i.1 i.2.1 i.2.2 with
    | error e => rw [hu] at h; cases h
    | ok v1 =>
      rw [hu] at h
      obtain ⟨e, he⟩ := indUpdate_window hu
      obtain ⟨r, hr⟩ := ih h
      have he' : v.window.update i.1 = .ok (v1.window, e) := he
      simp only [List.map_cons, LastN.run, he', hr, bind, Except.bind, pure, Except.pure]
      exact ⟨_, rfl⟩

/-- **C98** (volatility, any arithmetic). The same for `Volatility`, whatever the balances and the window size. -/
theorem C98_volatility [Libm F] (windowSize period : ℤ) (inputs : List (OhlcTick F × F × F)) (h0 : ∀ i ∈ inputs, 0 ≤ i.1.ts) :
    (∃ s, volAfter windowSize period inputs = .ok s) ↔ 0 < period ∧ PeriodsInOrder period (inputs.map (·.1)) := by
  by_cases hP : 0 < period
  · constructor
    · rintro ⟨s, h⟩
      unfold volAfter at h
      rw [vol_make windowSize period hP] at h
      obtain ⟨r, hr⟩ := volRun_lastN inputs h
      have := (run_returns_iff _ ⟨2, period, []⟩ (by show 0 < 2; omega) hP (by simp)).mp ⟨r, hr⟩
      exact ⟨hP, this.1⟩
    · rintro ⟨-, h⟩
      have hf := toStart_feedable hP (inputs.map (·.1)) (by
        intro t ht; obtain ⟨i, hi, rfl⟩ := List.mem_map.mp ht; exact h0 i hi) h
      have e : (inputs.map (·.1)).map (toStart period) =
          (inputs.map (fun i => ((toStart period i.1, i.2) : OhlcTick F × F × F))).map (·.1) := by
        rw [List.map_map, List.map_map]; rfl
      rw [e] at hf
      obtain ⟨s, hs, -⟩ := vol_state windowSize period hP _ hf
      refine ⟨_, Eq.trans ?_ hs⟩
      unfold volAfter
      rw [vol_make windowSize period hP]
      exact (volRun_toStart inputs ⟨⟨2, period, []⟩, _⟩ hP).symm
  · constructor
    · rintro ⟨s, h⟩
      unfold volAfter at h
      cases hm : (Vol.make windowSize period : Res (Indicator F (VolState F))) with
      | error e => rw [hm] at h; cases h
      | ok s => exact absurd (make_bind hm).2.1 hP
    · rintro ⟨h, -⟩; exact absurd h hP

/-! ### Resampling -/

theorem resampleStep_returns_iff (hP : 0 < P) (acc : List (OhlcTick F)) (r : PriceRecord F) :
    ((∃ x, resampleStep P acc r = .ok x) ↔ ∀ last ∈ acc.head?, last.ts ≤ P * r.ts.tdiv P) ∧
    (∀ x, resampleStep P acc r = .ok x → ∃ y ys, x = y :: ys ∧ y.ts = P * r.ts.tdiv P) := by
  unfold resampleStep
  cases acc with
  | nil =>
    simp only [fillGaps_nil]
    refine ⟨by simp, fun x h => ?_⟩
    obtain rfl := Except.ok.inj h
    exact ⟨_, _, rfl, rfl⟩
  | cons last rest =>
    set target := P * r.ts.tdiv P with ht
    obtain ⟨y, ys, h1, h2, h3⟩ : ∃ y ys, fillGaps P target (last :: rest) = y :: ys ∧
        (last.ts ≤ target → y.ts ≤ target) ∧ (target < last.ts → y = last) := by
      by_cases hle : last.ts ≤ target
      · obtain ⟨y, ys, a, b⟩ := fillGaps_head_le hP (target := target) _ last rest (le_refl _) hle
        exact ⟨y, ys, a, fun _ => b, fun h => by omega⟩
      · rw [fillGaps_stop (by omega)]
        exact ⟨last, rest, rfl, id, fun _ => rfl⟩
    simp only [h1, List.head?_cons, Option.mem_def, Option.some.injEq, forall_eq']
    by_cases hlt : y.ts < target
    · rw [if_pos hlt]
      refine ⟨⟨fun _ => ?_, fun _ => ⟨_, rfl⟩⟩, fun x h => ?_⟩
      · by_contra hc
        have := h3 (by omega)
        subst this; omega
      · obtain rfl := Except.ok.inj h
        exact ⟨_, _, rfl, rfl⟩
    · rw [if_neg hlt]
      by_cases he : y.ts = target
      · simp only [assertThat, he, decide_true, if_true, bind, Except.bind, pure, Except.pure]
        refine ⟨⟨fun _ => ?_, fun _ => ⟨_, rfl⟩⟩, fun x h => ?_⟩
        · by_contra hc
          have := h3 (by omega)
          subst this; omega
        · obtain rfl := Except.ok.inj h
          exact ⟨_, _, rfl, rfl⟩
      · simp only [assertThat, he, decide_false, bind, Except.bind]
        refine ⟨⟨fun ⟨x, h⟩ => by simp at h, fun h => ?_⟩, fun x h => by simp at h⟩
        have := h2 h; omega

theorem resampleFold_returns_iff (hP : 0 < P) (l : List (PriceRecord F)) : ∀ acc : List (OhlcTick F),
    ((∃ x, l.foldlM (resampleStep P) acc = .ok x) ↔
      l.IsChain (fun a b => a.ts.tdiv P ≤ b.ts.tdiv P) ∧ ∀ last ∈ acc.head?, ∀ r ∈ l.head?, last.ts ≤ P * r.ts.tdiv P) := by
  induction l with
  | nil => intro acc; simp [pure, Except.pure]
  | cons r l ih =>
    intro acc
    obtain ⟨u1, u2⟩ := resampleStep_returns_iff hP acc r
    simp only [List.head?_cons, Option.mem_def, Option.some.injEq, forall_eq', List.foldlM_cons]
    simp only [Option.mem_def] at u1
    rw [← u1]
    simp only [bind, Except.bind]
    cases hu : resampleStep P acc r with
    | error e => simp
    | ok acc' =>
      obtain ⟨y, ys, rfl, hy⟩ := u2 acc' hu
      simp only
      rw [ih]
      simp only [List.head?_cons, Option.mem_def, Option.some.injEq, forall_eq', hy]
      rw [List.isChain_cons]
      constructor
      · rintro ⟨h1, h2⟩
        exact ⟨⟨fun z hz => le_of_mul_le_mul_left (h2 z hz) hP, h1⟩, _, rfl⟩
      · rintro ⟨⟨h1, h2⟩, -⟩
        exact ⟨h2, fun z hz => mul_le_mul_of_nonneg_left (h1 z hz) hP.le⟩

/-- **C98** (resampling, any arithmetic). With a positive rate, `Resample` returns exactly if no price belongs to an earlier
period than the one before it - whatever the timestamps. -/
theorem C98_resample (rate : ℤ) (hrate : 0 < rate) (l : List (PriceRecord F)) :
    (∃ x, resample rate l = .ok x) ↔ l.IsChain (fun a b => a.ts.tdiv rate ≤ b.ts.tdiv rate) := by
  have := resampleFold_returns_iff hrate l []
  simp only [List.head?_nil, Option.mem_def, reduceCtorEq, false_implies, implies_true, and_true] at this
  rw [← this]
  unfold resample
  cases l.foldlM (resampleStep rate) ([] : List (OhlcTick F)) <;> simp [bind, Except.bind, pure, Except.pure]

/-! ### Side inputs -/

/-- **C98** (side inputs). The accessors return exactly for indices in range. -/
theorem C98_side_input (l : List (SideInputRecord F)) (s : SideInput F) (h : SideInput.make l = .ok s) (i j : ℤ)
    (out : List F) :
    ((∃ t, s.timestamp i = .ok t) ↔ 0 ≤ i ∧ i < l.length) ∧
    ((∃ r, s.signals i out = .ok r) ↔ 0 ≤ i ∧ i < l.length) ∧
    ((∃ x, s.signal i j = .ok x) ↔ (0 ≤ i ∧ i < l.length) ∧ 0 ≤ j ∧ ∀ r ∈ l, j < r.signals.length) := by
  obtain ⟨hn, hacc⟩ := C27_access l s h
  by_cases hi : 0 ≤ i ∧ i < l.length
  · obtain ⟨m, rfl⟩ := Int.eq_ofNat_of_zero_le hi.1
    have hm : m < l.length := by omega
    obtain ⟨a1, a2, a3, a4⟩ := hacc m hm
    have hlen : ∀ r ∈ l, r.signals.length = l[m].signals.length := by
      obtain ⟨-, -, h3, -⟩ := make_ok h
      intro r hr; rw [h3 r hr, h3 _ (List.getElem_mem hm)]
    refine ⟨⟨fun _ => hi, fun _ => ⟨_, a1⟩⟩, ⟨fun _ => hi, fun _ => ⟨_, a2 out⟩⟩, ?_, ?_⟩
    · rintro ⟨x, hx⟩
      refine ⟨hi, ?_⟩
      by_contra hc
      rw [a4 j (by
        by_cases hj : j < 0
        · exact .inl hj
        · right
          by_contra hlt
          exact hc ⟨by omega, fun r hr => by rw [hlen r hr]; omega⟩)] at hx
      cases hx
    · rintro ⟨-, hj0, hj⟩
      obtain ⟨k, rfl⟩ := Int.eq_ofNat_of_zero_le hj0
      have := hj _ (List.getElem_mem hm)
      exact ⟨_, a3 k (by omega)⟩
  · have hi' : ¬ (0 ≤ i ∧ i < (s.numRecords : ℤ)) := by rw [hn]; exact hi
    refine ⟨⟨?_, fun h => absurd h hi⟩, ⟨?_, fun h => absurd h hi⟩, ⟨?_, fun h => absurd h.1 hi⟩⟩
    · rintro ⟨t, ht⟩
      unfold SideInput.timestamp SideInput.at' at ht
      split at ht
      · cases ht
      · split at ht
        · rename_i h1 x h2
          have := (List.getElem?_eq_some_iff.mp h2).1
          exfalso; apply hi'
          unfold SideInput.numRecords
          omega
        · cases ht
    · rintro ⟨r, hr⟩
      unfold SideInput.signals at hr
      have : (decide (0 ≤ i) && decide (i < (s.numRecords : ℤ))) = false := by
        rw [← Bool.not_eq_true]; simpa using hi'
      rw [this] at hr
      cases hr
    · rintro ⟨r, hr⟩
      unfold SideInput.signal at hr
      have : (decide (0 ≤ i) && decide (i < (s.numRecords : ℤ))) = false := by
        rw [← Bool.not_eq_true]; simpa using hi'
      rw [this] at hr
      cases hr

end general

section exact
variable {K : Type} [Field K] [LinearOrder K] [IsStrictOrderedRing K] [FloorRing K]

/-- **C98** (trading, exact arithmetic). On a tick with positive prices, with liquidity in [0,1] and a base unit that is not
negative, a trading method returns (true or false) exactly if the amount is not negative and, for the stop and limit
methods, the price is positive. -/
theorem C98_trading_returns_iff (a : Account K) (fc : FeeConfig K) (t : OhlcTick K) (ty : OrderType) (sd : Side)
    (inBase : Bool) (amount price : K) (h0 : 0 ≤ a.marketLiquidity) (h1 : a.marketLiquidity ≤ 1) (hbu : 0 ≤ a.baseUnit)
    (hl : 0 < t.low) (ho : 0 < t.opn) (hh : 0 < t.high) (hvol : 0 ≤ t.volume) :
    (∃ r, tradingMethod a fc t ty sd inBase amount price = .ok r) ↔ 0 ≤ amount ∧ (ty = .market ∨ 0 < price) := by
  constructor
  · rintro ⟨r, h⟩
    by_contra hc
    rw [C98_trading_aborts a fc t ty sd inBase amount price (by
      simp only [ex_le, ex_lt, ex_ofRat, Rat.cast_zero, decide_eq_false_iff_not]
      by_cases ha : 0 ≤ amount
      · right
        refine ⟨fun hty => hc ⟨ha, .inl hty⟩, fun hp => hc ⟨ha, .inr hp⟩⟩
      · exact .inl ha)] at h
    cases h
  · rintro ⟨ha, hp⟩
    have hm := maxFinite_nonneg (K := K)
    have hb := maxBaseAmount_nonneg a t hvol
    have ha' : (amount >=. lit K 0) = true := by simpa using ha
    have ep := execPrice_pos a.marketLiquidity t price ty sd h0 h1 hl ho hh hp
    have hmin : 0 ≤ fmin amount (a.maxBaseAmount t) := by simp only [ex_fmin]; exact le_min ha hb
    rcases ty with _ | _ | _
    · rcases sd with _ | _ <;> cases inBase <;> simp only [tradingMethod]
      · exact buyAtQuote_total a fc ep ha hm
      · exact buyBase_total a fc ep ha
      · exact sellAtQuote_total a fc ep ha hm hbu
      · exact sellBase_total a fc ep ha
    · have hp : 0 < price := by rcases hp with h | h; cases h; exact h
      have hp' : (price >. lit K 0) = true := by simpa using hp
      rcases sd with _ | _ <;> cases inBase <;>
        simp only [tradingMethod, Account.stopBuy, Account.stopBuyAtQuote, Account.stopSell, Account.stopSellAtQuote,
          assertThat, hp', ha', if_true, bind, Except.bind, pure, Except.pure] <;> split
      · exact ⟨_, rfl⟩
      · exact buyAtQuote_total a fc ep ha hm
      · exact ⟨_, rfl⟩
      · exact buyBase_total a fc ep ha
      · exact ⟨_, rfl⟩
      · exact sellAtQuote_total a fc ep ha hm hbu
      · exact ⟨_, rfl⟩
      · exact sellBase_total a fc ep ha
    · have hp : 0 < price := by rcases hp with h | h; cases h; exact h
      have hp' : (price >. lit K 0) = true := by simpa using hp
      rcases sd with _ | _ <;> cases inBase <;>
        simp only [tradingMethod, Account.limitBuy, Account.limitBuyAtQuote, Account.limitSell, Account.limitSellAtQuote,
          assertThat, hp', ha', if_true, bind, Except.bind, pure, Except.pure] <;> split
      · exact ⟨_, rfl⟩
      · exact buyAtQuote_total a fc hp ha hb
      · exact ⟨_, rfl⟩
      · exact buyBase_total a fc hp hmin
      · exact ⟨_, rfl⟩
      · exact sellAtQuote_total a fc hp ha hb hbu
      · exact ⟨_, rfl⟩
      · exact sellBase_total a fc hp hmin

end exact

/-! ### Concrete cases -/

/-- Within a period the order does not matter; a tick from an earlier period is refused. -/
example : PeriodsInOrder (F := ℚ) 60 [⟨119, 1, 1, 1, 1, 1⟩, ⟨60, 1, 1, 1, 1, 1⟩, ⟨120, 1, 1, 1, 1, 1⟩] ∧
    ¬ PeriodsInOrder (F := ℚ) 60 [⟨120, 1, 1, 1, 1, 1⟩, ⟨119, 1, 1, 1, 1, 1⟩] := by
  unfold PeriodsInOrder; decide +kernel

/-- Hypotheses of the trading theorem. -/
example := C98_trading_returns_iff (K := ℚ) ⟨0, 2000, 0, 1 / 100, 1 / 100, 1 / 2, 0⟩ ⟨0, 0, 0⟩ ⟨300, 100, 120, 90, 110, 5⟩
  .limit .buy true 1 100 (by norm_num) (by norm_num) (by norm_num) (by norm_num) (by norm_num) (by norm_num) (by norm_num)

/-- Hypotheses of the side-input theorem. -/
example : ∃ s, SideInput.make ([⟨10, [1, 2]⟩, ⟨20, [3, 4]⟩] : List (SideInputRecord ℚ)) = .ok s ∧
    (∃ x, s.signal 1 1 = .ok x) ∧ ¬ ∃ x, s.signal 2 0 = .ok x := by
  refine ⟨⟨2, [10, 20], [1, 2, 3, 4]⟩, rfl, ⟨4, rfl⟩, ?_⟩
  rintro ⟨x, h⟩; cases h

end Verif.Props
