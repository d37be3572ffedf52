import Verif.Props.Stochastic
import Verif.Props.MovingAverages
import Verif.Props.Volatility
import Verif.Props.UnitsIndicators
import Verif.Props.Rsi

/-!
# C122: how long the indicators remember
-/

namespace Verif.Props.Memory
open Verif Verif.Spec Verif.Props FloatOps

/-! ## Lists -/

theorem lastN_append {α : Type} {m : ℕ} (p : List α) {s : List α} (h : m ≤ s.length) : lastN m (p ++ s) = lastN m s := by
  unfold lastN
  rw [List.length_append, List.drop_append, List.drop_eq_nil_of_le (by omega), List.nil_append]
  congr 1; omega

theorem prefixes_append {α : Type} (p s : List α) : prefixes (p ++ s) = prefixes p ++ (prefixes s).map (p ++ ·) := by
  induction s using List.reverseRecOn with
  | nil => simp [prefixes]
  | append_singleton s x ih => rw [← List.append_assoc, prefixes_snoc, ih, prefixes_snoc, List.map_append, ← List.append_assoc]; simp

theorem prefixes_length {α : Type} (l : List α) : (prefixes l).length = l.length := by simp [prefixes]

/-- A series of a quantity that only looks at the last `N` elements: what follows `N - 1` common elements is common. -/
theorem series_common {α β : Type} (g : List α → β) (N : ℕ) (hg : ∀ p q : List α, N ≤ q.length → g (p ++ q) = g q) (u v : List α)
    (hu : N ≤ u.length + 1) (p : List α) :
    (prefixes (p ++ (u ++ v))).map g = (prefixes (p ++ u)).map g ++ (prefixes v).map (fun q => g (u ++ q)) := by
  rw [← List.append_assoc, prefixes_append, List.map_append, List.map_map]
  congr 1
  refine List.map_congr_left (fun q hq => ?_)
  have hq0 := (prefixes_mem hq).1
  have : 1 ≤ q.length := List.length_pos_iff.mpr hq0
  simp only [Function.comp, List.append_assoc]
  exact hg p (u ++ q) (by rw [List.length_append]; omega)

section
variable {K : Type} [Field K] [LinearOrder K] [IsStrictOrderedRing K] [FloorRing K]

/-! ## Averages -/

theorem ema_append (w : K) (p s : List K) (hp : p ≠ []) :
    ema w (p ++ s) = s.foldl (fun e c => w * c + (1 - w) * e) (ema w p) := by
  cases p with
  | nil => exact absurd rfl hp
  | cons c cs => simp [ema, List.foldl_append]

theorem fold_contracts (w : K) (h1 : w ≤ 1) (s : List K) : ∀ x y : K,
    |s.foldl (fun e c => w * c + (1 - w) * e) x - s.foldl (fun e c => w * c + (1 - w) * e) y| = (1 - w) ^ s.length * |x - y| := by
  induction s with
  | nil => intro x y; simp
  | cons c s ih =>
    intro x y
    rw [List.foldl_cons, List.foldl_cons, ih, List.length_cons, pow_succ]
    rw [show w * c + (1 - w) * x - (w * c + (1 - w) * y) = (1 - w) * (x - y) by ring, abs_mul, abs_of_nonneg (by linarith : 0 ≤ 1 - w)]
    ring

theorem between_close {lo hi x y : K} (hx : lo ≤ x ∧ x ≤ hi) (hy : lo ≤ y ∧ y ≤ hi) : |x - y| ≤ hi - lo := by
  rw [abs_le]; constructor <;> linarith [hx.1, hx.2, hy.1, hy.2]

theorem ema_forgets {w lo hi : K} (h0 : 0 ≤ w) (h1 : w ≤ 1) {p q : List K} (s : List K) (hp : p ≠ []) (hq : q ≠ [])
    (hpb : ∀ c ∈ p, lo ≤ c ∧ c ≤ hi) (hqb : ∀ c ∈ q, lo ≤ c ∧ c ≤ hi) :
    |ema w (p ++ s) - ema w (q ++ s)| ≤ (1 - w) ^ s.length * (hi - lo) := by
  rw [ema_append w p s hp, ema_append w q s hq, fold_contracts w h1]
  exact mul_le_mul_of_nonneg_left (between_close (ema_between w lo hi h0 h1 p hp hpb) (ema_between w lo hi h0 h1 q hq hqb))
    (pow_nonneg (by linarith) _)

/-- **C122** (SMA). Two histories whose last `n` aggregated closes agree have the same average. -/
theorem C122_sma (n period : ℤ) (hn : 0 < n) (hP : 0 < period) (l₁ l₂ : List (OhlcTick K)) (h₁ : Feedable l₁) (h₂ : Feedable l₂)
    (h : lastN n.toNat ((aggregate period l₁).map (·.close)) = lastN n.toNat ((aggregate period l₂).map (·.close))) :
    (smaAfter n period l₁).map Sma.get = (smaAfter n period l₂).map Sma.get := by
  obtain ⟨s₁, a₁, b₁, -⟩ := C41_sma n period hn hP l₁ h₁
  obtain ⟨s₂, a₂, b₂, -⟩ := C41_sma n period hn hP l₂ h₂
  rw [a₁, a₂]
  simp only [Except.map]
  rw [b₁, b₂, h]

/-- **C122** (EMA). Two histories with closes between `lo` and `hi` whose last `k` aggregated closes agree have averages that differ by at most
`(1 - w)^k (hi - lo)`. -/
theorem C122_ema (smoothing : K) (length period : ℤ) (hP : 0 < period) (h0 : 0 ≤ smoothing / (1 + length)) (h1 : smoothing / (1 + length) ≤ 1)
    (l₁ l₂ : List (OhlcTick K)) (h₁ : Feedable l₁) (h₂ : Feedable l₂) (p₁ p₂ s : List K) (hp₁ : p₁ ≠ []) (hp₂ : p₂ ≠ [])
    (e₁ : (aggregate period l₁).map (·.close) = p₁ ++ s) (e₂ : (aggregate period l₂).map (·.close) = p₂ ++ s)
    (lo hi : K) (hb : ∀ c ∈ p₁ ++ p₂, lo ≤ c ∧ c ≤ hi) :
    ∃ s₁ s₂, emaIndAfter smoothing length period l₁ = .ok s₁ ∧ emaIndAfter smoothing length period l₂ = .ok s₂ ∧
      |EmaInd.get s₁ - EmaInd.get s₂| ≤ (1 - smoothing / (1 + length)) ^ s.length * (hi - lo) := by
  obtain ⟨s₁, a₁, b₁, -⟩ := C42_ema smoothing length period hP l₁ h₁
  obtain ⟨s₂, a₂, b₂, -⟩ := C42_ema smoothing length period hP l₂ h₂
  refine ⟨s₁, s₂, a₁, a₂, ?_⟩
  rw [b₁, b₂, e₁, e₂]
  have hw : smoothing /. (lit K 1 +. lit K length) = smoothing / (1 + length) := by simp
  rw [hw]
  exact ema_forgets h0 h1 s hp₁ hp₂ (fun c hc => hb c (List.mem_append_left _ hc)) (fun c hc => hb c (List.mem_append_right _ hc))

/-- The MACD series of two histories with a common end. -/
theorem macd_forgets {wf ws wg lo hi : K} (hf : 0 ≤ wf ∧ wf ≤ 1) (hs : 0 ≤ ws ∧ ws ≤ 1) (hg : 0 ≤ wg ∧ wg ≤ 1) (hR : lo ≤ hi)
    {p q : List K} (a b : List K) (hp : p ≠ []) (hq : q ≠ [])
    (hpb : ∀ c ∈ p, lo ≤ c ∧ c ≤ hi) (hqb : ∀ c ∈ q, lo ≤ c ∧ c ≤ hi) (hab : ∀ c ∈ a, lo ≤ c ∧ c ≤ hi) :
    |ema wg (macdSeries wf ws (p ++ (a ++ b))) - ema wg (macdSeries wf ws (q ++ (a ++ b)))| ≤
      (hi - lo) * ((1 - wf) ^ a.length + (1 - ws) ^ a.length) + 2 * (hi - lo) * (1 - wg) ^ b.length := by
  have hser : ∀ r : List K, r ≠ [] → macdSeries wf ws (r ++ (a ++ b)) =
      macdSeries wf ws (r ++ a) ++ (prefixes b).map (fun x => ema wf (r ++ (a ++ x)) - ema ws (r ++ (a ++ x))) := by
    intro r _
    unfold macdSeries
    rw [← List.append_assoc, prefixes_append, List.map_append, List.map_map]
    congr 1
    refine List.map_congr_left (fun x _ => ?_)
    simp [Function.comp, List.append_assoc]
  rw [hser p hp, hser q hq]
  -- the series before are between -(hi - lo) and hi - lo
  have hbound : ∀ r : List K, r ≠ [] → (∀ c ∈ r, lo ≤ c ∧ c ≤ hi) → macdSeries wf ws (r ++ a) ≠ [] ∧
      ∀ c ∈ macdSeries wf ws (r ++ a), -(hi - lo) ≤ c ∧ c ≤ hi - lo := by
    intro r hr hrb
    refine ⟨?_, fun c hc => ?_⟩
    · intro h
      have := congrArg List.length h
      simp only [macdSeries, List.length_map, prefixes_length, List.length_append, List.length_nil] at this
      exact hr (List.length_eq_zero_iff.mp (by omega))
    · unfold macdSeries at hc
      obtain ⟨x, hx, rfl⟩ := List.mem_map.mp hc
      obtain ⟨hx0, hxm⟩ := prefixes_mem hx
      have hxb : ∀ c ∈ x, lo ≤ c ∧ c ≤ hi := fun c hc => by
        rcases List.mem_append.mp (hxm c hc) with h | h
        · exact hrb c h
        · exact hab c h
      have h1 := ema_between wf lo hi hf.1 hf.2 x hx0 hxb
      have h2 := ema_between ws lo hi hs.1 hs.2 x hx0 hxb
      simp only [ex_sub]
      constructor <;> linarith [h1.1, h1.2, h2.1, h2.2]
  obtain ⟨n1, b1⟩ := hbound p hp hpb
  obtain ⟨n2, b2⟩ := hbound q hq hqb
  rw [ema_append wg _ _ n1, ema_append wg _ _ n2]
  -- the common part: the difference of the two series is small
  set δ : K := (hi - lo) * ((1 - wf) ^ a.length + (1 - ws) ^ a.length) with hδ
  have hδ0 : 0 ≤ δ := by
    have := pow_nonneg (by linarith [hf.2] : 0 ≤ 1 - wf) a.length
    have := pow_nonneg (by linarith [hs.2] : 0 ≤ 1 - ws) a.length
    have : 0 ≤ hi - lo := by linarith
    positivity
  have hstep : ∀ (xs ys : List K), List.Forall₂ (fun x y => |x - y| ≤ δ) xs ys → ∀ x y e : K, |x - y| ≤ δ + e →
      |xs.foldl (fun e c => wg * c + (1 - wg) * e) x - ys.foldl (fun e c => wg * c + (1 - wg) * e) y| ≤ δ + e * (1 - wg) ^ xs.length := by
    intro xs ys hxy
    induction hxy with
    | nil => intro x y e hd; simpa using hd
    | @cons c c' xs ys hc _ ih =>
      intro x y e hd
      rw [List.foldl_cons, List.foldl_cons, List.length_cons, pow_succ]
      have hg0 : 0 ≤ 1 - wg := by linarith [hg.2]
      have h := ih (wg * c + (1 - wg) * x) (wg * c' + (1 - wg) * y) ((1 - wg) * e) (by
        rw [show wg * c + (1 - wg) * x - (wg * c' + (1 - wg) * y) = wg * (c - c') + (1 - wg) * (x - y) by ring]
        refine (abs_add_le _ _).trans ?_
        rw [abs_mul, abs_mul, abs_of_nonneg hg.1, abs_of_nonneg hg0]
        have := mul_le_mul_of_nonneg_left hc hg.1
        have := mul_le_mul_of_nonneg_left hd hg0
        linarith)
      refine h.trans (le_of_eq ?_)
      ring
  have hcommon : List.Forall₂ (fun x y : K => |x - y| ≤ δ) ((prefixes b).map (fun x => ema wf (p ++ (a ++ x)) - ema ws (p ++ (a ++ x))))
      ((prefixes b).map (fun x => ema wf (q ++ (a ++ x)) - ema ws (q ++ (a ++ x)))) := by
    rw [List.forall₂_map_left_iff, List.forall₂_map_right_iff]
    refine List.forall₂_same.mpr (fun x _ => ?_)
    have e1 := ema_forgets hf.1 hf.2 (a ++ x) hp hq hpb hqb
    have e2 := ema_forgets hs.1 hs.2 (a ++ x) hp hq hpb hqb
    have hlen : a.length ≤ (a ++ x).length := by rw [List.length_append]; omega
    have m1 := pow_le_pow_of_le_one (by linarith [hf.2] : 0 ≤ 1 - wf) (by linarith [hf.1]) hlen
    have m2 := pow_le_pow_of_le_one (by linarith [hs.2] : 0 ≤ 1 - ws) (by linarith [hs.1]) hlen
    have hR' : 0 ≤ hi - lo := by linarith
    have m1' := mul_le_mul_of_nonneg_right m1 hR'
    have m2' := mul_le_mul_of_nonneg_right m2 hR'
    rw [show ema wf (p ++ (a ++ x)) - ema ws (p ++ (a ++ x)) - (ema wf (q ++ (a ++ x)) - ema ws (q ++ (a ++ x))) =
      (ema wf (p ++ (a ++ x)) - ema wf (q ++ (a ++ x))) - (ema ws (p ++ (a ++ x)) - ema ws (q ++ (a ++ x))) by ring]
    refine (abs_sub _ _).trans ?_
    rw [hδ]
    nlinarith
  have h := hstep _ _ hcommon (ema wg (macdSeries wf ws (p ++ a))) (ema wg (macdSeries wf ws (q ++ a))) (2 * (hi - lo)) (by
    have := between_close (ema_between wg _ _ hg.1 hg.2 _ n1 b1) (ema_between wg _ _ hg.1 hg.2 _ n2 b2)
    linarith)
  simpa only [List.length_map, prefixes_length] using h

/-- **C122** (MACD). Two histories with closes between `lo` and `hi` whose last `a + b` aggregated closes agree: the series differ by at most
`(hi - lo) ((1 - w_fast)^(a + b) + (1 - w_slow)^(a + b))`, and the signals by at most
`(hi - lo) ((1 - w_fast)^a + (1 - w_slow)^a) + 2 (hi - lo) (1 - w_signal)^b`, where `w = 2 / (1 + length)`. -/
theorem C122_macd (fast slow signal period : ℤ) (hf : 1 ≤ fast) (hs : 1 ≤ slow) (hg : 1 ≤ signal) (hP : 0 < period)
    (l₁ l₂ : List (OhlcTick K)) (h₁ : Feedable l₁) (h₂ : Feedable l₂) (p₁ p₂ a b : List K) (hp₁ : p₁ ≠ []) (hp₂ : p₂ ≠ [])
    (e₁ : (aggregate period l₁).map (·.close) = p₁ ++ (a ++ b)) (e₂ : (aggregate period l₂).map (·.close) = p₂ ++ (a ++ b))
    (lo hi : K) (hb : ∀ c ∈ p₁ ++ p₂ ++ a, lo ≤ c ∧ c ≤ hi) :
    ∃ s₁ s₂, macdAfter fast slow signal period l₁ = .ok s₁ ∧ macdAfter fast slow signal period l₂ = .ok s₂ ∧
      |Macd.series s₁.state - Macd.series s₂.state| ≤
        (hi - lo) * ((1 - 2 / (1 + fast)) ^ (a ++ b).length + (1 - 2 / (1 + slow)) ^ (a ++ b).length) ∧
      |Macd.signal s₁.state - Macd.signal s₂.state| ≤
        (hi - lo) * ((1 - 2 / (1 + fast)) ^ a.length + (1 - 2 / (1 + slow)) ^ a.length) + 2 * (hi - lo) * (1 - 2 / (1 + signal)) ^ b.length := by
  obtain ⟨s₁, a₁, x₁⟩ := C49_macd fast slow signal period hP l₁ h₁
  obtain ⟨s₂, a₂, x₂⟩ := C49_macd fast slow signal period hP l₂ h₂
  obtain ⟨-, -, c₁, d₁, -, -⟩ := x₁
  obtain ⟨-, -, c₂, d₂, -, -⟩ := x₂
  refine ⟨s₁, s₂, a₁, a₂, ?_⟩
  have hw : ∀ n : ℤ, (lit K 2 /. (lit K 1 +. lit K n)) = 2 / (1 + n) := by intro n; simp
  have hw01 : ∀ n : ℤ, 1 ≤ n → (0 : K) ≤ 2 / (1 + n) ∧ (2 : K) / (1 + n) ≤ 1 := by
    intro n hn
    have : (1 : K) ≤ n := by exact_mod_cast hn
    exact ⟨by positivity, by rw [div_le_one (by linarith)]; linarith⟩
  simp only [hw] at c₁ c₂ d₁ d₂
  rw [e₁] at c₁ d₁
  rw [e₂] at c₂ d₂
  have hb1 : ∀ c ∈ p₁, lo ≤ c ∧ c ≤ hi := fun c hc => hb c (by simp [hc])
  have hb2 : ∀ c ∈ p₂, lo ≤ c ∧ c ≤ hi := fun c hc => hb c (by simp [hc])
  have hb3 : ∀ c ∈ a, lo ≤ c ∧ c ≤ hi := fun c hc => hb c (by simp [hc])
  have hR : lo ≤ hi := by
    cases p₁ with
    | nil => exact absurd rfl hp₁
    | cons c cs => have := hb1 c (by simp); linarith [this.1, this.2]
  rw [c₁, c₂, d₁, d₂]
  refine ⟨?_, macd_forgets (hw01 fast hf) (hw01 slow hs) (hw01 signal hg) hR a b hp₁ hp₂ hb1 hb2 hb3⟩
  have f1 := ema_forgets (hw01 fast hf).1 (hw01 fast hf).2 (a ++ b) hp₁ hp₂ hb1 hb2
  have f2 := ema_forgets (hw01 slow hs).1 (hw01 slow hs).2 (a ++ b) hp₁ hp₂ hb1 hb2
  simp only [ex_sub]
  generalize ema (2 / (1 + (fast : K))) (p₁ ++ (a ++ b)) = y1 at f1 ⊢
  generalize ema (2 / (1 + (fast : K))) (p₂ ++ (a ++ b)) = y2 at f1 ⊢
  generalize ema (2 / (1 + (slow : K))) (p₁ ++ (a ++ b)) = z1 at f2 ⊢
  generalize ema (2 / (1 + (slow : K))) (p₂ ++ (a ++ b)) = z2 at f2 ⊢
  rw [show y1 - z1 - (y2 - z2) = (y1 - y2) - (z1 - z2) by ring]
  refine (abs_sub _ _).trans ?_
  nlinarith

/-! ## Stochastic oscillator -/

theorem stochK_append {N : ℕ} (hN : 0 < N) (p q : List (OhlcTick K)) (h : N ≤ q.length) : stochK N (p ++ q) = stochK N q := by
  unfold stochK
  rw [List.map_append, List.map_append, lastN_append _ (by simpa using h), lastN_append _ (by simpa using h)]
  rw [List.getLast?_append_of_ne_nil _ (by rintro rfl; simp at h; omega)]

/-- **C122** (stochastic oscillator). Two histories whose last `n + 4` aggregated ticks agree have the same %K, fast %D and slow %D. -/
theorem C122_stochastic (n period : ℤ) (hn : 0 < n) (hP : 0 < period) (l₁ l₂ : List (OhlcTick K)) (h₁ : Feedable l₁) (h₂ : Feedable l₂)
    (p₁ p₂ s : List (OhlcTick K)) (hs : n.toNat + 4 ≤ s.length) (e₁ : aggregate period l₁ = p₁ ++ s) (e₂ : aggregate period l₂ = p₂ ++ s) :
    (soAfter n period l₁).map (fun s => (s.state.k, So.getFastD s.state, So.getSlowD s.state)) =
      (soAfter n period l₂).map (fun s => (s.state.k, So.getFastD s.state, So.getSlowD s.state)) := by
  have hne : ∀ {l : List (OhlcTick K)} {p : List (OhlcTick K)}, aggregate period l = p ++ s → l ≠ [] := by
    rintro l p e rfl
    have := congrArg List.length e
    simp [aggregate, List.length_append] at this
    omega
  obtain ⟨s₁, a₁, x₁⟩ := C48_meaning n period hn hP l₁ h₁ (hne e₁)
  obtain ⟨s₂, a₂, x₂⟩ := C48_meaning n period hn hP l₂ h₂ (hne e₂)
  obtain ⟨-, -, k₁, f₁, w₁, -⟩ := x₁
  obtain ⟨-, -, k₂, f₂, w₂, -⟩ := x₂
  rw [e₁] at k₁ f₁ w₁
  rw [e₂] at k₂ f₂ w₂
  rw [a₁, a₂]
  simp only [Except.map]
  rw [k₁, k₂, f₁, f₂, w₁, w₂]
  have hN : 0 < n.toNat := by omega
  -- the series of %K
  have hk : ∀ p : List (OhlcTick K), kSeries n.toNat (p ++ s) = kSeries n.toNat (p ++ s.take (n.toNat - 1)) ++
      (prefixes (s.drop (n.toNat - 1))).map (fun q => stochK n.toNat (s.take (n.toNat - 1) ++ q)) := by
    intro p
    have := series_common (stochK (K := K) n.toNat) n.toNat (fun p q h => stochK_append hN p q h) (s.take (n.toNat - 1)) (s.drop (n.toNat - 1))
      (by rw [List.length_take]; omega) p
    rwa [List.take_append_drop] at this
  set C := (prefixes (s.drop (n.toNat - 1))).map (fun q => stochK n.toNat (s.take (n.toNat - 1) ++ q)) with hC
  have hCl : 5 ≤ C.length := by rw [hC, List.length_map, prefixes_length, List.length_drop]; omega
  have hs3 : ∀ x : List K, sma3 (x ++ C) = sma3 (x ++ C.take 2) ++ (prefixes (C.drop 2)).map (fun q => mean (lastN 3 (C.take 2 ++ q))) := by
    intro x
    have := series_common (fun q : List K => mean (lastN 3 q)) 3 (fun p q h => by show mean (lastN 3 (p ++ q)) = mean (lastN 3 q); rw [lastN_append p h]) (C.take 2) (C.drop 2)
      (by rw [List.length_take]; omega) x
    rwa [List.take_append_drop] at this
  have hk3 : 3 ≤ ((prefixes (C.drop 2)).map (fun q => mean (lastN 3 (C.take 2 ++ q)))).length := by
    rw [List.length_map, prefixes_length, List.length_drop]; omega
  rw [hk p₁, hk p₂, hs3, hs3, lastN_append _ (by omega : 3 ≤ C.length), lastN_append _ (by omega : 3 ≤ C.length), lastN_append _ hk3, lastN_append _ hk3,
    stochK_append hN p₁ s (by omega), stochK_append hN p₂ s (by omega)]

/-! ## The relative strength index -/

theorem mma_le (N : ℤ) (hN : 1 ≤ N) {B : K} (hB : 0 ≤ B) (l : List K) (h : ∀ x ∈ l, x ≤ B) : mma N l ≤ B := by
  induction l using List.reverseRecOn with
  | nil => simpa [mma] using hB
  | append_singleton l x ih =>
    rw [mma_snoc]
    have hx := h x (by simp)
    have hi := ih (fun y hy => h y (by simp [hy]))
    split
    · exact hx
    · have hm : (1 : ℤ) ≤ min ((l.length + 1 : ℕ) : ℤ) N := by
        rw [le_min_iff]; exact ⟨by push_cast; omega, hN⟩
      have hmK : (1 : K) ≤ ((min ((l.length + 1 : ℕ) : ℤ) N : ℤ) : K) := by exact_mod_cast hm
      have hw1 : (1 : K) / ((min ((l.length + 1 : ℕ) : ℤ) N : ℤ) : K) ≤ 1 := by
        rw [div_le_one (by linarith)]; exact hmK
      have hw0 : (0 : K) ≤ 1 / ((min ((l.length + 1 : ℕ) : ℤ) N : ℤ) : K) := by
        apply div_nonneg <;> linarith
      simp only [ex_ofRat, ex_add, ex_sub, ex_mul, ex_div, Rat.cast_one, Rat.cast_intCast]
      nlinarith [mul_le_mul_of_nonneg_left hx hw0, mul_le_mul_of_nonneg_left hi (by linarith : 0 ≤ 1 - (1 : K) / ((min ((l.length + 1 : ℕ) : ℤ) N : ℤ) : K))]

/-- After `N` values the weight of the modified average is `1 / N`. -/
theorem mma_append (N : ℤ) (hN : 1 ≤ N) (p s : List K) (hp : N.toNat ≤ p.length) :
    mma N (p ++ s) = s.foldl (fun e c => 1 / (N : K) * c + (1 - 1 / (N : K)) * e) (mma N p) := by
  induction s using List.reverseRecOn with
  | nil => simp
  | append_singleton s x ih =>
    rw [← List.append_assoc, mma_snoc, if_neg (by rw [List.length_append]; omega), ih, List.foldl_append]
    have hm : min (((p ++ s).length + 1 : ℕ) : ℤ) N = N := by
      rw [min_eq_right]; rw [List.length_append]; push_cast; omega
    rw [hm]
    simp

theorem mma_forgets (N : ℤ) (hN : 1 ≤ N) {B : K} (hB : 0 ≤ B) (p q s : List K) (hp : N.toNat ≤ p.length) (hq : N.toNat ≤ q.length)
    (hpb : ∀ x ∈ p, 0 ≤ x ∧ x ≤ B) (hqb : ∀ x ∈ q, 0 ≤ x ∧ x ≤ B) :
    |mma N (p ++ s) - mma N (q ++ s)| ≤ (1 - 1 / (N : K)) ^ s.length * B := by
  have hNK : (1 : K) ≤ N := by exact_mod_cast hN
  have h1 : (1 : K) / N ≤ 1 := by rw [div_le_one (by linarith)]; exact hNK
  rw [mma_append N hN p s hp, mma_append N hN q s hq, fold_contracts _ h1]
  refine mul_le_mul_of_nonneg_left ?_ (pow_nonneg (by linarith) _)
  have := between_close (lo := 0) (hi := B)
    ⟨mma_nonneg N hN p (fun x hx => (hpb x hx).1), mma_le N hN hB p (fun x hx => (hpb x hx).2)⟩
    ⟨mma_nonneg N hN q (fun x hx => (hqb x hx).1), mma_le N hN hB q (fun x hx => (hqb x hx).2)⟩
  simpa using this

theorem refPrice_common (p : List (OhlcTick K)) (t : OhlcTick K) (s : List (OhlcTick K)) (x : OhlcTick K) :
    refPrice (p ++ t :: s) x = refPrice (t :: s) x := by
  unfold refPrice
  have : (p ++ t :: s).getLast? = (t :: s).getLast? := by
    rw [List.getLast?_append]; simp [List.getLast?_cons]
  rw [this]

theorem upMoves_common (p : List (OhlcTick K)) (t : OhlcTick K) (s : List (OhlcTick K)) :
    upMoves (p ++ t :: s) = upMoves (p ++ [t]) ++ (upMoves (t :: s)).tail := by
  induction s using List.reverseRecOn with
  | nil => simp [upMoves, referencePrices]
  | append_singleton s x ih =>
    have h0 : upMoves (t :: s) ≠ [] := by
      intro h; have := congrArg List.length h; rw [upMoves_length] at this; simp at this
    rw [show p ++ t :: (s ++ [x]) = (p ++ t :: s) ++ [x] by simp, upMoves_snoc (p ++ t :: s), ih, show t :: (s ++ [x]) = (t :: s) ++ [x] by simp, upMoves_snoc (t :: s),
      List.tail_append_of_ne_nil h0, refPrice_common, List.append_assoc]

theorem downMoves_common (p : List (OhlcTick K)) (t : OhlcTick K) (s : List (OhlcTick K)) :
    downMoves (p ++ t :: s) = downMoves (p ++ [t]) ++ (downMoves (t :: s)).tail := by
  induction s using List.reverseRecOn with
  | nil => simp [downMoves, referencePrices]
  | append_singleton s x ih =>
    have h0 : downMoves (t :: s) ≠ [] := by
      intro h; have := congrArg List.length h; rw [downMoves_length] at this; simp at this
    rw [show p ++ t :: (s ++ [x]) = (p ++ t :: s) ++ [x] by simp, downMoves_snoc (p ++ t :: s), ih, show t :: (s ++ [x]) = (t :: s) ++ [x] by simp,
      downMoves_snoc (t :: s), List.tail_append_of_ne_nil h0, refPrice_common, List.append_assoc]

/-- Away from a standstill the index is `100 u / (u + d)`, or at most `1 / 10000` above it. -/
theorem rsi_share {s : RsiState K} (hu : 0 ≤ s.up.current) (hd : 0 ≤ s.down.current) (hm : 2 / 10 ^ 6 ≤ s.up.current + s.down.current) :
    100 * s.up.current / (s.up.current + s.down.current) ≤ Rsi.get s ∧
      Rsi.get s ≤ 100 * s.up.current / (s.up.current + s.down.current) + 1 / 10 ^ 4 := by
  unfold Rsi.get
  generalize s.up.current = u at *
  generalize s.down.current = d at *
  have hp : 0 < u + d := lt_of_lt_of_le (by positivity) hm
  simp only [ex_lt, ex_ofRat, ex_mul, ex_sub, ex_add, ex_div, Bool.and_eq_true, decide_eq_true_eq]
  push_cast
  split
  · rename_i h
    exfalso
    have := add_lt_add h.1 h.2
    have e : (1 : K) / 10 ^ 6 + 1 / 10 ^ 6 = 2 / 10 ^ 6 := by ring
    linarith
  · split
    · rename_i h
      refine ⟨?_, ?_⟩
      · rw [div_le_iff₀ hp]; nlinarith
      · rw [← sub_le_iff_le_add, le_div_iff₀ hp]
        have e : u * (1 / 10 ^ 6) = u / 10 ^ 6 := by ring
        rw [e] at h
        have h2 : 100 * d ≤ u / 10 ^ 4 := by
          have : u / 10 ^ 4 = 100 * (u / 10 ^ 6) := by ring
          rw [this]; linarith
        have h3 : u / 10 ^ 4 = 1 / 10 ^ 4 * u := by ring
        have h4 : (0 : K) ≤ 1 / 10 ^ 4 * d := by positivity
        nlinarith
    · rename_i h
      have hd0 : 0 < d := by
        rcases hd.lt_or_eq with hd | hd
        · exact hd
        · exfalso; apply h; rw [← hd] at hp ⊢
          have : 0 < u := by simpa using hp
          positivity
      have e : (100 : K) - 100 / (1 + u / d) = 100 * u / (u + d) := by
        field_simp
        ring
      rw [e]
      exact ⟨le_refl _, le_add_of_nonneg_right (by positivity)⟩

theorem share_close {u v d f e : K} (hu : 0 ≤ u) (hd : 0 ≤ d) (hs : 0 < u + d) (ht : 0 < v + f) (h1 : |u - v| ≤ e) (h2 : |d - f| ≤ e) :
    |100 * u / (u + d) - 100 * v / (v + f)| ≤ 100 * e / (v + f) := by
  have h : 100 * u / (u + d) - 100 * v / (v + f) = 100 * (u * (f - d) + d * (u - v)) / ((u + d) * (v + f)) := by
    field_simp
    ring
  rw [h, abs_div, abs_of_pos (mul_pos hs ht), abs_mul, abs_of_pos (by norm_num : (0 : K) < 100), div_le_div_iff₀ (mul_pos hs ht) ht]
  have h3 : |u * (f - d) + d * (u - v)| ≤ (u + d) * e := by
    refine (abs_add_le _ _).trans ?_
    rw [abs_mul, abs_mul, abs_of_nonneg hu, abs_of_nonneg hd, abs_sub_comm f d, add_mul]
    exact add_le_add (mul_le_mul_of_nonneg_left h2 hu) (mul_le_mul_of_nonneg_left h1 hd)
  have h4 := mul_le_mul_of_nonneg_right h3 ht.le
  linarith

/-- **C122** (RSI). Two histories of at least `N` periods before their common end, whose moves are at most `B`: the upward and the downward
averages differ by at most `(1 - 1/N)^k B`, and unless the market stands still so do the indices, relative to the size of the moves. -/
theorem C122_rsi (N period : ℤ) (hN : 1 ≤ N) (hP : 0 < period) (l₁ l₂ : List (OhlcTick K)) (h₁ : Feedable l₁) (h₂ : Feedable l₂)
    (p₁ p₂ s : List (OhlcTick K)) (t : OhlcTick K) (e₁ : aggregate period l₁ = p₁ ++ t :: s) (e₂ : aggregate period l₂ = p₂ ++ t :: s)
    (n₁ : N ≤ (p₁.length : ℤ) + 1) (n₂ : N ≤ (p₂.length : ℤ) + 1) (B : K) (hB : 0 ≤ B)
    (m₁ : ∀ x ∈ upMoves (p₁ ++ [t]) ++ downMoves (p₁ ++ [t]), x ≤ B) (m₂ : ∀ x ∈ upMoves (p₂ ++ [t]) ++ downMoves (p₂ ++ [t]), x ≤ B) :
    ∃ s₁ s₂, rsiAfter N period l₁ = .ok s₁ ∧ rsiAfter N period l₂ = .ok s₂ ∧
      let e := (1 - 1 / (N : K)) ^ s.length * B
      |s₁.state.up.current - s₂.state.up.current| ≤ e ∧ |s₁.state.down.current - s₂.state.down.current| ≤ e ∧
      (2 / 10 ^ 6 ≤ s₁.state.up.current + s₁.state.down.current → 2 / 10 ^ 6 ≤ s₂.state.up.current + s₂.state.down.current →
        |Rsi.get s₁.state - Rsi.get s₂.state| ≤ 100 * e / (s₂.state.up.current + s₂.state.down.current) + 1 / 10 ^ 4) := by
  obtain ⟨s₁, a₁, u₁, d₁, -, -⟩ := C47_formula N period hP l₁ h₁
  obtain ⟨s₂, a₂, u₂, d₂, -, -⟩ := C47_formula N period hP l₂ h₂
  have hl : (upMoves (t :: s)).tail.length = s.length := by rw [List.length_tail, upMoves_length]; simp
  have hl' : (downMoves (t :: s)).tail.length = s.length := by rw [List.length_tail, downMoves_length]; simp
  have hU : |s₁.state.up.current - s₂.state.up.current| ≤ (1 - 1 / (N : K)) ^ s.length * B := by
    rw [u₁, u₂, e₁, e₂, upMoves_common p₁, upMoves_common p₂, ← hl]
    refine mma_forgets N hN hB _ _ _ ?_ ?_ (fun x hx => ⟨upMoves_nonneg _ x hx, m₁ x (List.mem_append_left _ hx)⟩)
      (fun x hx => ⟨upMoves_nonneg _ x hx, m₂ x (List.mem_append_left _ hx)⟩)
    · rw [upMoves_length]; simp; omega
    · rw [upMoves_length]; simp; omega
  have hD : |s₁.state.down.current - s₂.state.down.current| ≤ (1 - 1 / (N : K)) ^ s.length * B := by
    rw [d₁, d₂, e₁, e₂, downMoves_common p₁, downMoves_common p₂, ← hl']
    refine mma_forgets N hN hB _ _ _ ?_ ?_ (fun x hx => ⟨downMoves_nonneg _ x hx, m₁ x (List.mem_append_right _ hx)⟩)
      (fun x hx => ⟨downMoves_nonneg _ x hx, m₂ x (List.mem_append_right _ hx)⟩)
    · rw [downMoves_length]; simp; omega
    · rw [downMoves_length]; simp; omega
  refine ⟨s₁, s₂, a₁, a₂, hU, hD, ?_⟩
  intro q₁ q₂
  have nu₁ : 0 ≤ s₁.state.up.current := by rw [u₁]; exact mma_nonneg N hN _ (upMoves_nonneg _)
  have nd₁ : 0 ≤ s₁.state.down.current := by rw [d₁]; exact mma_nonneg N hN _ (downMoves_nonneg _)
  have nu₂ : 0 ≤ s₂.state.up.current := by rw [u₂]; exact mma_nonneg N hN _ (upMoves_nonneg _)
  have nd₂ : 0 ≤ s₂.state.down.current := by rw [d₂]; exact mma_nonneg N hN _ (downMoves_nonneg _)
  have r₁ := rsi_share nu₁ nd₁ q₁
  have r₂ := rsi_share nu₂ nd₂ q₂
  have c := share_close nu₁ nd₁ (lt_of_lt_of_le (by positivity) q₁) (lt_of_lt_of_le (by positivity) q₂) hU hD
  rw [abs_le] at c ⊢
  constructor <;> linarith [r₁.1, r₁.2, r₂.1, r₂.2, c.1, c.2]

end

/-! ## Volatility -/

/-- **C122** (volatility). With a window of `w > 0` returns, two histories whose last `w + 1` portfolio values agree have the same volatility. -/
theorem C122_volatility (w period : ℤ) (hw : 0 < w) (hP : 0 < period) (i₁ i₂ : List (OhlcTick ℝ × ℝ × ℝ)) (h₁ : Feedable (i₁.map (·.1)))
    (h₂ : Feedable (i₂.map (·.1))) (p₁ p₂ s : List ℝ) (hs : w.toNat + 1 ≤ s.length)
    (e₁ : portfolioValues period i₁ = p₁ ++ s) (e₂ : portfolioValues period i₂ = p₂ ++ s) :
    (volAfter w period i₁).map Vol.get = (volAfter w period i₂).map Vol.get := by
  obtain ⟨s₁, a₁, b₁⟩ := C50_volatility w period (by omega) hP i₁ h₁
  obtain ⟨s₂, a₂, b₂⟩ := C50_volatility w period (by omega) hP i₂ h₂
  rw [a₁, a₂]
  simp only [Except.map]
  rw [b₁, b₂, e₁, e₂]
  have key : ∀ (ret : ℝ → ℝ → ℝ) (v : ℝ) (p : List ℝ), windowOf w (returnsOf ret v (p ++ s)) = windowOf w (List.zipWith ret s s.tail) := by
    intro ret v p
    unfold windowOf
    rw [if_neg (by omega), if_neg (by omega)]
    cases s with
    | nil => simp at hs
    | cons x xs =>
      have : returnsOf ret v (p ++ x :: xs) = returnsOf ret v (p ++ [x]) ++ List.zipWith ret (x :: xs) xs := by
        unfold returnsOf
        rw [show v :: (p ++ x :: xs) = (v :: p) ++ (x :: xs) by simp, show p ++ x :: xs = (p ++ [x]) ++ xs by simp,
          List.zipWith_append (by simp), show v :: (p ++ [x]) = (v :: p) ++ [x] by simp]
        congr 1
        conv_rhs => rw [← List.append_nil (p ++ [x])]
        rw [List.zipWith_append (by simp)]
        simp
      rw [this, List.tail_cons, lastN_append]
      simp at hs ⊢
      omega
  rw [key, key]

/-! ## The hypotheses are met -/

section Examples

/-- A tick with one price. -/
def flat (ts : ℤ) (c : ℚ) : OhlcTick ℚ := ⟨ts, c, c, c, c, 1⟩

/-- A history of eight minutes. -/
def one : List (OhlcTick ℚ) := [flat 0 10, flat 60 14, flat 120 20, flat 180 22, flat 240 21, flat 300 25, flat 360 24, flat 430 26]

/-- A history of seven minutes with another start. -/
def two : List (OhlcTick ℚ) := [flat 60 30, flat 120 20, flat 180 22, flat 240 21, flat 300 25, flat 360 24, flat 430 26]

theorem one_ok : Feedable one := ⟨by unfold SortedBy; decide +kernel, by decide +kernel⟩
theorem two_ok : Feedable two := ⟨by unfold SortedBy; decide +kernel, by decide +kernel⟩

example := C122_sma 3 60 (by decide) (by decide) one two one_ok two_ok (by decide +kernel)
example := C122_ema (2 : ℚ) 9 60 (by decide) (by norm_num) (by norm_num) one two one_ok two_ok [10, 14] [30] [20, 22, 21, 25, 24, 26]
  (by simp) (by simp) (by decide +kernel) (by decide +kernel) 10 30 (by decide +kernel)
example := C122_macd 3 5 2 60 (by decide) (by decide) (by decide) (by decide) one two one_ok two_ok [10, 14] [30] [20, 22, 21] [25, 24, 26]
  (by simp) (by simp) (by decide +kernel) (by decide +kernel) 10 30 (by decide +kernel)
example := C122_stochastic 2 60 (by decide) (by decide) one two one_ok two_ok ((aggregate 60 one).take 2) ((aggregate 60 two).take 1)
  ((aggregate 60 one).drop 2) (by decide +kernel) (by decide +kernel) (by decide +kernel)

/-- The two histories have different averages with a window of seven: the memory is not shorter than the window. -/
example : ((smaAfter 7 60 one).map Sma.get).toOption ≠ ((smaAfter 7 60 two).map Sma.get).toOption := by decide +kernel

example := C122_rsi 2 60 (by decide) (by decide) one two one_ok two_ok ((aggregate 60 one).take 2) ((aggregate 60 two).take 1)
  ((aggregate 60 one).drop 3) ((aggregate 60 one).getD 2 (flat 0 0)) (by decide +kernel) (by decide +kernel) (by decide +kernel) (by decide +kernel)
  20 (by norm_num) (by decide +kernel) (by decide +kernel)

/-- Balances of one and of two coins, and no money, over three minutes. -/
def realOne : List (OhlcTick ℝ × ℝ × ℝ) := [(⟨0, 5, 5, 5, 5, 1⟩, 1, 0), (⟨60, 9, 9, 9, 9, 1⟩, 1, 0), (⟨120, 8, 8, 8, 8, 1⟩, 1, 0)]
def realTwo : List (OhlcTick ℝ × ℝ × ℝ) := [(⟨0, 4, 4, 4, 4, 1⟩, 1, 3), (⟨60, 9, 9, 9, 9, 1⟩, 1, 0), (⟨120, 4, 4, 4, 4, 1⟩, 2, 0)]

theorem real_one_ticks : aggregate 60 (realOne.map (·.1)) = [⟨0, 5, 5, 5, 5, 1⟩, ⟨60, 9, 9, 9, 9, 1⟩, ⟨120, 8, 8, 8, 8, 1⟩] := by
  norm_num [realOne, aggregate, periods, aggTick, ticksIn, summary, periodStart, List.range_succ, List.filter, show Int.toNat 2 = 2 from rfl]
theorem real_one : portfolioValues 60 realOne = [5] ++ [9, 8] := by
  rw [portfolioValues, real_one_ticks]
  norm_num [realOne, balancesAt, worthAt, periodStart, List.filter, List.find?]
theorem real_two_ticks : aggregate 60 (realTwo.map (·.1)) = [⟨0, 4, 4, 4, 4, 1⟩, ⟨60, 9, 9, 9, 9, 1⟩, ⟨120, 4, 4, 4, 4, 1⟩] := by
  norm_num [realTwo, aggregate, periods, aggTick, ticksIn, summary, periodStart, List.range_succ, List.filter, show Int.toNat 2 = 2 from rfl]
theorem real_two : portfolioValues 60 realTwo = [7] ++ [9, 8] := by
  rw [portfolioValues, real_two_ticks]
  norm_num [realTwo, balancesAt, worthAt, periodStart, List.filter, List.find?]
example := C122_volatility 1 60 (by decide) (by decide) realOne realTwo ⟨by simp [SortedBy, realOne], by simp [realOne]⟩
  ⟨by simp [SortedBy, realTwo], by simp [realTwo]⟩ [5] [7] [9, 8] (by decide) real_one real_two
end Examples

end Verif.Props.Memory
