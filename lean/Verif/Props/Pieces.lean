import Verif.Props.Append
import Verif.Props.Evaluate

/-!
# C130: a conversion can be done in pieces
-/

set_option linter.unusedSectionVars false

namespace Verif.Props.Pieces
open FloatOps Spec

/-- The flat ticks for the periods without records between the tick `t` and the period that begins at `next`: one for each, at the closing price of `t`, without volume. -/
def quiet {F : Type} [FloatOps F] (rate : ℤ) (t : OhlcTick F) (next : ℤ) : List (OhlcTick F) :=
  (List.range ((next - t.ts) / rate - 1).toNat).map fun (k : ℕ) => ⟨t.ts + rate * (k + 1), t.close, t.close, t.close, t.close, lit F 0⟩

/-- Two resampled pieces, one after the other: the ticks of the first, flat ticks for the periods in between, the ticks of the second. -/
def joined {F : Type} [FloatOps F] (rate : ℤ) (a b : List (OhlcTick F)) : List (OhlcTick F) :=
  a ++ (match a.getLast?, b.head? with
    | some t, some s => quiet rate t s.ts
    | _, _ => []) ++ b

section resample
variable {F : Type} [FloatOps F]

theorem fillGaps_frame {rate target : ℤ} (acc : List (OhlcTick F)) (n : ℕ) : ∀ (x : OhlcTick F) (xs : List (OhlcTick F)), (target - x.ts).toNat ≤ n →
    fillGaps rate target (x :: (xs ++ acc)) = fillGaps rate target (x :: xs) ++ acc := by
  induction n with
  | zero =>
    intro x xs h
    rw [fillGaps, dif_neg (by omega), fillGaps, dif_neg (by omega)]
    rfl
  | succ n ih =>
    intro x xs h
    by_cases hc : 0 < rate ∧ x.ts + rate < target
    · rw [fillGaps_go hc.1 hc.2, fillGaps_go (rest := xs) hc.1 hc.2]
      exact ih (flatTick (x.ts + rate) x.close) (x :: xs) (by simp only [flatTick]; omega)
    · rw [fillGaps, dif_neg hc, fillGaps, dif_neg hc]
      rfl

theorem resampleStep_frame (rate : ℤ) (acc : List (OhlcTick F)) (x : OhlcTick F) (xs : List (OhlcTick F)) (r : PriceRecord F) :
    resampleStep rate (x :: (xs ++ acc)) r = (resampleStep rate (x :: xs) r).map (· ++ acc) := by
  unfold resampleStep
  dsimp only
  rw [fillGaps_frame acc _ x xs (le_refl _)]
  obtain ⟨fs, hfs⟩ := Append.fillGaps_extends rate (rate * r.ts.tdiv rate) _ (x :: xs) (le_refl _)
  rw [hfs]
  cases fs with
  | nil =>
    simp only [List.nil_append, List.cons_append]
    split
    · rfl
    · simp only [assertThat]
      split <;> rfl
  | cons f fs =>
    simp only [List.cons_append, List.append_assoc]
    split
    · simp [Except.map]
    · simp only [assertThat]
      split
      · simp only [bind, Except.bind, pure, Except.pure, Except.map, List.cons_append, List.append_assoc]
      · rfl

/-- After a record, the newest tick is that of its period. -/
theorem resampleStep_head {rate : ℤ} {acc out : List (OhlcTick F)} {r : PriceRecord F} (h : resampleStep rate acc r = .ok out) :
    ∃ x xs, out = x :: xs ∧ x.ts = rate * r.ts.tdiv rate := by
  unfold resampleStep at h
  dsimp only at h
  split at h
  · cases h; exact ⟨_, _, rfl, rfl⟩
  · split at h
    · cases h; exact ⟨_, _, rfl, rfl⟩
    · simp only [bind, Except.bind, pure, Except.pure, assertThat] at h
      split at h
      · cases h
      · next hc =>
        cases h
        refine ⟨_, _, rfl, ?_⟩
        by_contra hne
        exact absurd hc (by simp [hne])

theorem loop_frame (rate : ℤ) (acc : List (OhlcTick F)) (rs : List (PriceRecord F)) : ∀ (x : OhlcTick F) (xs : List (OhlcTick F)),
    rs.foldlM (resampleStep rate) (x :: (xs ++ acc)) = (rs.foldlM (resampleStep rate) (x :: xs)).map (· ++ acc) := by
  induction rs with
  | nil => intro x xs; rfl
  | cons r rs ih =>
    intro x xs
    simp only [List.foldlM_cons, bind, Except.bind]
    rw [resampleStep_frame]
    cases h : resampleStep rate (x :: xs) r with
    | error e => rfl
    | ok out =>
      obtain ⟨y, ys, rfl, -⟩ := resampleStep_head h
      exact ih y ys

theorem loop_head {rate : ℤ} (rs : List (PriceRecord F)) : ∀ {acc out : List (OhlcTick F)}, (∀ x ∈ acc.head?, rate ∣ x.ts) →
    rs.foldlM (resampleStep rate) acc = .ok out → ∀ x ∈ out.head?, rate ∣ x.ts := by
  induction rs with
  | nil => intro acc out h0 h; cases h; exact h0
  | cons r rs ih =>
    intro acc out h0 h
    simp only [List.foldlM_cons, bind, Except.bind] at h
    cases h1 : resampleStep rate acc r with
    | error e => rw [h1] at h; cases h
    | ok a =>
      rw [h1] at h
      obtain ⟨y, ys, rfl, e⟩ := resampleStep_head h1
      exact ih (fun x hx => by cases hx; exact ⟨_, e⟩) h

/-- The first record of a later period, after the tick `t`. -/
theorem step_later {rate : ℤ} (hrate : 0 < rate) {t : OhlcTick F} (rest : List (OhlcTick F)) {r : PriceRecord F} (hd : rate ∣ t.ts) (h0 : 0 ≤ r.ts)
    (h : t.ts + rate ≤ r.ts) : resampleStep rate (t :: rest) r =
      .ok (⟨rate * (r.ts / rate), r.price, r.price, r.price, r.price, r.volume⟩ :: ((quiet rate t (rate * (r.ts / rate))).reverse ++ t :: rest)) := by
  obtain ⟨c, hc⟩ := hd
  have hdiv : r.ts.tdiv rate = r.ts / rate := Int.tdiv_eq_ediv_of_nonneg h0
  have hge : c + 1 ≤ r.ts / rate := (Int.le_ediv_iff_mul_le hrate).mpr (by nlinarith)
  obtain ⟨k, hk⟩ : ∃ k : ℕ, r.ts / rate = c + (k + 1) := ⟨(r.ts / rate - c - 1).toNat, by omega⟩
  have hn : ((rate * (r.ts / rate) - t.ts) / rate - 1).toNat = k := by
    rw [hk, hc, show rate * (c + ((k : ℤ) + 1)) - rate * c = rate * (k + 1) by ring, Int.mul_ediv_cancel_left _ (by omega)]
    omega
  have hfill := fillGaps_closed rate hrate k t rest
  have htarget : rate * (r.ts / rate) = t.ts + rate * (k + 1) := by rw [hk, hc]; ring
  have hq : quiet rate t (rate * (r.ts / rate)) = (List.range k).map (fun (i : ℕ) => flatTick (t.ts + rate * (i + 1)) t.close) := by
    unfold quiet; rw [hn]; rfl
  rw [← htarget, ← hq] at hfill
  unfold resampleStep
  dsimp only
  rw [hdiv, hfill]
  have hlt : ∀ y ∈ quiet rate t (rate * (r.ts / rate)), y.ts < rate * (r.ts / rate) := by
    intro y hy
    rw [hq] at hy
    obtain ⟨i, hi, rfl⟩ := List.mem_map.mp hy
    have hi := List.mem_range.mp hi
    simp only [flatTick]
    rw [htarget]
    have : (i : ℤ) + 1 < k + 1 := by omega
    nlinarith
  cases hr : (quiet rate t (rate * (r.ts / rate))).reverse with
  | nil =>
    simp only [List.nil_append]
    rw [if_pos (by rw [htarget]; nlinarith)]
  | cons y ys =>
    simp only [List.cons_append]
    rw [if_pos (hlt y (by rw [← List.mem_reverse, hr]; simp))]

/-- **C130** (resampling). Resample a history in two pieces, where the second begins after the last period of the first: the ticks of the whole are those of the first piece, flat ticks for
the periods in between, and those of the second piece.  The whole can be resampled exactly if both pieces can. -/
theorem C130_resample (rate : ℤ) (hrate : 0 < rate) (l r : List (PriceRecord F)) {a : List (OhlcTick F)} (ha : resample rate l = .ok a)
    (hr : ∀ x ∈ r.head?, 0 ≤ x.ts ∧ ∀ t ∈ a.getLast?, t.ts + rate ≤ x.ts) :
    resample rate (l ++ r) = (resample rate r).map (joined rate a) := by
  unfold resample at ha ⊢
  simp only [List.foldlM_append, bind, Except.bind, pure, Except.pure] at ha ⊢
  cases h1 : l.foldlM (resampleStep rate) [] with
  | error e => rw [h1] at ha; cases ha
  | ok acc =>
    rw [h1] at ha
    cases ha
    dsimp only
    have hhead := loop_head l (rate := rate) (by simp) h1
    cases r with
    | nil => simp [joined, Except.map, pure, Except.pure]
    | cons x r =>
      obtain ⟨h0, hlater⟩ := hr x rfl
      simp only [List.foldlM_cons, bind, Except.bind]
      have e0 : resampleStep rate ([] : List (OhlcTick F)) x = .ok [⟨rate * (x.ts / rate), x.price, x.price, x.price, x.price, x.volume⟩] := by
        unfold resampleStep
        dsimp only
        rw [fillGaps_nil, Int.tdiv_eq_ediv_of_nonneg h0]
      rw [e0]
      dsimp only
      cases acc with
      | nil =>
        rw [e0]
        dsimp only
        cases r.foldlM (resampleStep rate) [⟨rate * (x.ts / rate), x.price, x.price, x.price, x.price, x.volume⟩] with
        | error e => rfl
        | ok out => simp [joined, Except.map]
      | cons t rest =>
        rw [step_later hrate rest (hhead t rfl) h0 (hlater t (by simp))]
        dsimp only
        have := loop_frame rate ((quiet rate t (rate * (x.ts / rate))).reverse ++ t :: rest) r ⟨rate * (x.ts / rate), x.price, x.price, x.price, x.price, x.volume⟩ []
        rw [List.nil_append] at this
        rw [this]
        cases hout : r.foldlM (resampleStep rate) [⟨rate * (x.ts / rate), x.price, x.price, x.price, x.price, x.volume⟩] with
        | error e => rfl
        | ok out =>
          obtain ⟨new, last', rfl, e1, -, -⟩ := Append.resampleLoop_extends r hout
          simp [Except.map, joined, e1]

theorem joined_last {rate : ℤ} {a b : List (OhlcTick F)} : (joined rate a b).getLast? = if b = [] then a.getLast? else b.getLast? := by
  unfold joined
  cases b with
  | nil => simp
  | cons s b => simp [List.getLast?_append, List.getLast?_cons]

/-- **C130** (many pieces). The same for any number of pieces, each of which begins after the last period of every earlier one. -/
theorem C130_many (rate : ℤ) (hrate : 0 < rate) (pieces : List (List (PriceRecord F) × List (OhlcTick F)))
    (hp : ∀ p ∈ pieces, resample rate p.1 = .ok p.2 ∧ ∀ x ∈ p.1.head?, 0 ≤ x.ts)
    (hlater : pieces.Pairwise fun p q => ∀ t ∈ p.2.getLast?, ∀ x ∈ q.1.head?, t.ts + rate ≤ x.ts) :
    resample rate (pieces.flatMap (·.1)) = .ok (pieces.foldl (fun out p => joined rate out p.2) []) := by
  have key : resample rate (pieces.flatMap (·.1)) = .ok (pieces.foldl (fun out p => joined rate out p.2) []) ∧
      ∀ t ∈ (pieces.foldl (fun out p => joined rate out p.2) []).getLast?, ∃ p ∈ pieces, t ∈ p.2.getLast? := by
    induction pieces using List.reverseRecOn with
    | nil => exact ⟨rfl, by simp⟩
    | append_singleton ps p ih =>
      obtain ⟨h1, h2, h3⟩ := List.pairwise_append.mp hlater
      obtain ⟨e, hl⟩ := ih (fun q hq => hp q (List.mem_append_left _ hq)) h1
      obtain ⟨ep, hp0⟩ := hp p (by simp)
      simp only [List.flatMap_append, List.foldl_append, List.flatMap_cons, List.flatMap_nil, List.append_nil, List.foldl_cons, List.foldl_nil]
      refine ⟨?_, ?_⟩
      · rw [C130_resample rate hrate _ p.1 e (fun x hx => ⟨hp0 x hx, fun t ht => ?_⟩), ep]
        · rfl
        · obtain ⟨q, hq, hqt⟩ := hl t ht
          exact h3 q hq p (by simp) t hqt x hx
      · intro t ht
        rw [joined_last] at ht
        split at ht
        · obtain ⟨q, hq, hqt⟩ := hl t ht
          exact ⟨q, List.mem_append_left _ hq, hqt⟩
        · exact ⟨p, by simp, ht⟩
  exact key.1

end resample

section convert
variable {F : Type} [FloatOps F] [Libm F]

/-- **C130** (the program's conversion). On clean data - usable records without a jump, also where the pieces meet - a price history converted in two pieces, where the second begins after the
last period of the first, gives the ticks of the whole: those of the first, flat ticks in between, those of the second. -/
theorem C130_conversion (fmt : Format F) (maxDev : F) (rate lastN : ℤ) (hrate : 0 < rate) (l r : List (PriceRecord F)) (hclean : CleanHistory maxDev (l ++ r))
    {la lb : List Text} {a b : List (OhlcTick F)} (ha : Convert.convertPriceHistory fmt maxDev rate lastN l = .ok (la, a))
    (hb : Convert.convertPriceHistory fmt maxDev rate lastN r = .ok (lb, b))
    (hr : ∀ x ∈ r.head?, 0 ≤ x.ts ∧ ∀ t ∈ a.getLast?, t.ts + rate ≤ x.ts) :
    ∃ lines, Convert.convertPriceHistory fmt maxDev rate lastN (l ++ r) = .ok (lines, joined rate a b) := by
  have ha := (convert_iff fmt maxDev rate (by omega) lastN l a).mp ⟨_, ha⟩
  have hb := (convert_iff fmt maxDev rate (by omega) lastN r b).mp ⟨_, hb⟩
  obtain ⟨hc, hl, -⟩ := List.isChain_append.mp hclean.2
  rw [C22_clean maxDev l ⟨fun x hx => hclean.1 x (List.mem_append_left _ hx), hc⟩] at ha
  rw [C22_clean maxDev r ⟨fun x hx => hclean.1 x (List.mem_append_right _ hx), hl⟩] at hb
  rw [convert_iff fmt maxDev rate (by omega) lastN, C22_clean maxDev (l ++ r) hclean, C130_resample rate hrate l r ha hr, hb]
  rfl

end convert

/-- **C130** (not with outliers). The first usable record of a history is always kept, so a price that the whole conversion removes - here 20 after a price of 10 - stays when a piece begins
with it: the pieces do not give the ticks of the whole.  In exact arithmetic and in binary32, for every square root with `sqrt(1) = 1`. -/
theorem C130_not_with_outliers :
    (∀ [Libm ℚ], Libm.sqrt (1 : ℚ) = 1 →
      let l : List (PriceRecord ℚ) := [⟨60, 10, 1⟩]
      let r : List (PriceRecord ℚ) := [⟨62, 20, 1⟩]
      resample 2 (removeOutliers (1 / 20) (l ++ r)).1 = .ok [⟨60, 10, 10, 10, 10, 1⟩] ∧
      resample 2 (removeOutliers (1 / 20) l).1 = .ok [⟨60, 10, 10, 10, 10, 1⟩] ∧
      resample 2 (removeOutliers (1 / 20) r).1 = .ok [⟨62, 20, 20, 20, 20, 1⟩]) ∧
    (∀ [Libm F32], Libm.sqrt (lit F32 1) = lit F32 1 →
      let l : List (PriceRecord F32) := [⟨60, lit F32 10, lit F32 1⟩]
      let r : List (PriceRecord F32) := [⟨62, lit F32 20, lit F32 1⟩]
      resample 2 (removeOutliers (lit F32 (1 / 20)) (l ++ r)).1 = .ok [⟨60, lit F32 10, lit F32 10, lit F32 10, lit F32 10, lit F32 1⟩] ∧
      resample 2 (removeOutliers (lit F32 (1 / 20)) l).1 = .ok [⟨60, lit F32 10, lit F32 10, lit F32 10, lit F32 10, lit F32 1⟩] ∧
      resample 2 (removeOutliers (lit F32 (1 / 20)) r).1 = .ok [⟨62, lit F32 20, lit F32 20, lit F32 20, lit F32 20, lit F32 1⟩]) := by
  constructor
  · intro L hL
    have key := removeFrom_sqrt L ⟨id, id, id, fun a _ => a⟩ (1 / 20 : ℚ) (by
      intro dt h1 h2
      have : fmax (lit ℚ 1) (lit ℚ dt /. lit ℚ 60) = 1 := by interval_cases dt <;> decide +kernel
      simp only [jumpFactor, this, hL, id])
    dsimp only [removeOutliers]
    refine ⟨?_, ?_, ?_⟩ <;> (rw [key _ 0 none (by decide) (by simp)]; decide +kernel)
  · intro L hL
    have key := removeFrom_sqrt L ⟨id, id, id, fun a _ => a⟩ (lit F32 (1 / 20)) (by
      intro dt h1 h2
      have : fmax (lit F32 1) (lit F32 dt /. lit F32 60) = lit F32 1 := by interval_cases dt <;> decide +kernel
      simp only [jumpFactor, this, hL, id])
    dsimp only [removeOutliers]
    refine ⟨?_, ?_, ?_⟩ <;> (rw [key _ 0 none (by decide +kernel) (by simp)]; decide +kernel)

section examples

/-- Prices of one hour, and prices that begin three periods later. -/
def pcFirst : List (PriceRecord ℚ) := [⟨7200, 10, 1⟩, ⟨7230, 12, 2⟩, ⟨7500, 11, 4⟩]
def pcSecond : List (PriceRecord ℚ) := [⟨8500, 13, 8⟩, ⟨8700, 9, 16⟩]

example : ∃ a b, resample 300 pcFirst = .ok a ∧ resample 300 pcSecond = .ok b ∧ resample 300 (pcFirst ++ pcSecond) = .ok (joined 300 a b) ∧
    a.map OhlcTick.ts = [7200, 7500] ∧ b.map OhlcTick.ts = [8400, 8700] ∧ (joined 300 a b).map OhlcTick.ts = [7200, 7500, 7800, 8100, 8400, 8700] := by
  have ha : resample 300 pcFirst = .ok [⟨7200, 10, 12, 10, 12, 3⟩, ⟨7500, 11, 11, 11, 11, 4⟩] := by decide +kernel
  have hb : resample 300 pcSecond = .ok [⟨8400, 13, 13, 13, 13, 8⟩, ⟨8700, 9, 9, 9, 9, 16⟩] := by decide +kernel
  refine ⟨_, _, ha, hb, ?_, rfl, rfl, rfl⟩
  rw [C130_resample 300 (by decide) pcFirst pcSecond ha (by
    intro x hx
    cases hx
    refine ⟨by decide, fun t ht => ?_⟩
    cases ht
    decide), hb]
  rfl

/-- Three pieces, the middle one empty. -/
example : resample 300 (pcFirst ++ ([] ++ (pcSecond ++ []))) =
    .ok (joined 300 (joined 300 (joined 300 [] [⟨7200, 10, 12, 10, 12, 3⟩, ⟨7500, 11, 11, 11, 11, 4⟩]) []) [⟨8400, 13, 13, 13, 13, 8⟩, ⟨8700, 9, 9, 9, 9, 16⟩]) :=
  C130_many 300 (by decide) [(pcFirst, [⟨7200, 10, 12, 10, 12, 3⟩, ⟨7500, 11, 11, 11, 11, 4⟩]), ([], []), (pcSecond, [⟨8400, 13, 13, 13, 13, 8⟩, ⟨8700, 9, 9, 9, 9, 16⟩])]
    (by
      intro p hp
      simp only [List.mem_cons, List.not_mem_nil, or_false] at hp
      obtain rfl | rfl | rfl := hp
      · exact ⟨by decide +kernel, by decide⟩
      · exact ⟨rfl, by decide⟩
      · exact ⟨by decide +kernel, by decide⟩)
    (by decide +kernel)

attribute [local instance] evLibm

/-- The two pieces converted by the program, and the whole. -/
example (fmt : Format ℚ) : ∃ la a lb b lines, Convert.convertPriceHistory fmt 1 300 0 pcFirst = .ok (la, a) ∧
    Convert.convertPriceHistory fmt 1 300 0 pcSecond = .ok (lb, b) ∧ Convert.convertPriceHistory fmt 1 300 0 (pcFirst ++ pcSecond) = .ok (lines, joined 300 a b) ∧
      a.map OhlcTick.ts = [7200, 7500] ∧ (joined 300 a b).map OhlcTick.ts = [7200, 7500, 7800, 8100, 8400, 8700] := by
  have hclean : CleanHistory (1 : ℚ) (pcFirst ++ pcSecond) := by unfold CleanHistory; decide +kernel
  obtain ⟨la, ha⟩ := (convert_iff fmt 1 300 (by decide) 0 pcFirst [⟨7200, 10, 12, 10, 12, 3⟩, ⟨7500, 11, 11, 11, 11, 4⟩]).mpr (by decide +kernel)
  obtain ⟨lb, hb⟩ := (convert_iff fmt 1 300 (by decide) 0 pcSecond [⟨8400, 13, 13, 13, 13, 8⟩, ⟨8700, 9, 9, 9, 9, 16⟩]).mpr (by decide +kernel)
  obtain ⟨lines, h⟩ := C130_conversion fmt 1 300 0 (by decide) pcFirst pcSecond hclean ha hb (by decide +kernel)
  exact ⟨la, _, lb, _, lines, ha, hb, h, rfl, rfl⟩

/-- Such a square root. -/
example : resample 2 (removeOutliers (1 / 20) ([⟨60, 10, 1⟩, ⟨62, 20, 1⟩] : List (PriceRecord ℚ))).1 = .ok [⟨60, 10, 10, 10, 10, 1⟩] :=
  (C130_not_with_outliers.1 (by decide +kernel)).1

end examples
end Verif.Props.Pieces
