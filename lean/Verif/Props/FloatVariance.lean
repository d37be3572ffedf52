import Verif.Props.FloatSma
import Verif.Props.FloatRobustUse
import Verif.Props.Backtest
import Verif.Props.Volatility
import Verif.Lemmas.FloatWide

/-!
# C96: mean, variance and volatility in binary32
-/

namespace Verif.Props
open FloatOps Spec FloatMoney FloatNN FloatVal FloatEma FloatWide
open Fl (toQ IsFin)

/-- The values other than the current one that count. -/
def restOf (n : ℤ) (vs : List F32) : List F32 := if n = 0 then vs.dropLast else lastN (n.toNat - 1) vs.dropLast

/-- `x` is a finite number of absolute value at most `M`. -/
def Within (M : ℚ) (x : F32) : Prop := IsFin x ∧ |toQ x| ≤ M

theorem sum_within {M : ℚ} (l : List F32) (h : ∀ x ∈ l, Within M x) : |(l.map toQ).sum| ≤ (l.length : ℚ) * M := by
  induction l with
  | nil => simp
  | cons a l ih =>
    rw [List.map_cons, List.sum_cons, List.length_cons]
    push_cast
    have h1 := (h a (by simp)).2
    have h2 := ih (fun t ht => h t (by simp [ht]))
    refine (abs_add_le _ _).trans ?_
    linarith

theorem sqsum_within {M : ℚ} (l : List F32) (h : ∀ x ∈ l, Within M x) :
    0 ≤ (l.map (fun x => toQ x ^ 2)).sum ∧ (l.map (fun x => toQ x ^ 2)).sum ≤ (l.length : ℚ) * M ^ 2 := by
  induction l with
  | nil => simp
  | cons a l ih =>
    rw [List.map_cons, List.sum_cons, List.length_cons]
    push_cast
    have h1 := (h a (by simp)).2
    have h1' : toQ a ^ 2 ≤ M ^ 2 := sq_le_sq' (by linarith [(abs_le.mp h1).1]) (abs_le.mp h1).2
    have h2 := ih (fun t ht => h t (by simp [ht]))
    constructor
    · have := sq_nonneg (toQ a); linarith [h2.1]
    · linarith [h2.2]

/-- The state after adding `vs`, where the window never holds more than `W` values (the current one included). -/
structure VarClose (n : ℤ) (M W : ℚ) (s : MeanVar F32) (vs : List F32) : Prop where
  size : s.windowSize = n
  num : s.num = vs.length
  win : (2 ≤ n → s.window = lastN (n.toNat - 1) vs.dropLast)
  cur : vs.getLast? = if vs = [] then none else some s.current
  cur0 : vs = [] → s.current = .fin 0
  fin : IsFin s.sum
  fin2 : IsFin s.sum2
  sum : |toQ s.sum - ((restOf n vs).map toQ).sum| ≤ vs.length * (W * M / 2 ^ 21)
  sum2 : |toQ s.sum2 - ((restOf n vs).map (fun x => toQ x ^ 2)).sum| ≤ vs.length * (W * M ^ 2 / 2 ^ 21)

/-- Adding a value to a running sum, or taking one away. -/
theorem addend {s x : F32} {S X C E : ℚ} (hs : IsFin s) (hx : IsFin x) (hE : |toQ s - S| ≤ E) (hEC : E ≤ 3 / 4 * C)
    (hX : toQ x = X) (hC : 1 / 2 ^ 100 ≤ C) (hC2 : C ≤ 2 ^ 120) (hSX : |S + X| ≤ C) :
    IsFin (s +. x) ∧ |toQ (s +. x) - (S + X)| ≤ E + C / 2 ^ 22 := by
  have ht := tiny_le
  have ht0 := tinyQ_pos
  have h1 : |toQ s + toQ x| ≤ 2 * C - C / 8 := by
    have e : toQ s + toQ x = (toQ s - S) + (S + X) := by rw [hX]; ring
    rw [e]; refine (abs_add_le _ _).trans ?_; linarith
  obtain ⟨f1, e1⟩ := add_fin hs hx (h1.trans (by norm_num at *; linarith))
  refine ⟨f1, ?_⟩
  have e : toQ (s +. x) - (S + X) = (toQ (s +. x) - (toQ s + toQ x)) + (toQ s - S) := by rw [hX]; ring
  rw [e]
  refine (abs_add_le _ _).trans ?_
  norm_num at *; linarith

theorem subtrahend {s x : F32} {S X C E : ℚ} (hs : IsFin s) (hx : IsFin x) (hE : |toQ s - S| ≤ E) (hEC : E ≤ 3 / 4 * C)
    (hX : toQ x = X) (hC : 1 / 2 ^ 100 ≤ C) (hC2 : C ≤ 2 ^ 120) (hSX : |S - X| ≤ C) :
    IsFin (s -. x) ∧ |toQ (s -. x) - (S - X)| ≤ E + C / 2 ^ 22 := by
  have := addend (s := s) (x := Fl.neg x) (X := -X) hs (Fl.isFin_neg.mpr hx) hE hEC (by rw [Fl.toQ_neg, hX]) hC hC2
    (by rwa [← sub_eq_add_neg])
  rw [← sub_eq_add_neg] at this
  exact this

theorem addendSq {s x : F32} {S C E M : ℚ} (hs : IsFin s) (hx : Within M x) (hE : |toQ s - S| ≤ E) (hEC : E ≤ 3 / 4 * C)
    (hM1 : 1 / 2 ^ 40 ≤ M) (hM2 : M ≤ 2 ^ 40) (hMC : M ^ 2 ≤ C) (hC2 : C ≤ 2 ^ 110) (hS : |S| ≤ C)
    (hSX : |S + toQ x ^ 2| ≤ C) :
    IsFin (MeanVar.addSq s x) ∧ |toQ (MeanVar.addSq s x) - (S + toQ x ^ 2)| ≤ E + C / 2 ^ 22 := by
  have hC0 : 0 ≤ C := (sq_nonneg M).trans hMC
  have h1 : |toQ s + toQ x ^ 2| ≤ 2 * C := by
    have e : toQ s + toQ x ^ 2 = (toQ s - S) + (S + toQ x ^ 2) := by ring
    rw [e]; refine (abs_add_le _ _).trans ?_; linarith
  have h2 : |toQ s| ≤ 2 * C := by have := (abs_add_bound hE).1; linarith
  obtain ⟨f1, e1⟩ := addSq_fin (Y := 2 * C) hs hx.1 hx.2 (by norm_num at *; linarith) (by norm_num at *; linarith)
    (by linarith) (by norm_num at *; linarith) h2 h1
  refine ⟨f1, ?_⟩
  have e : toQ (MeanVar.addSq s x) - (S + toQ x ^ 2) =
    (toQ (MeanVar.addSq s x) - (toQ s + toQ x ^ 2)) + (toQ s - S) := by ring
  rw [e]
  refine (abs_add_le _ _).trans ?_
  norm_num at *; linarith

theorem subtrahendSq {s x : F32} {S C E M : ℚ} (hs : IsFin s) (hx : Within M x) (hE : |toQ s - S| ≤ E)
    (hEC : E ≤ 3 / 4 * C)
    (hM1 : 1 / 2 ^ 40 ≤ M) (hM2 : M ≤ 2 ^ 40) (hMC : M ^ 2 ≤ C) (hC2 : C ≤ 2 ^ 110) (hS : |S| ≤ C)
    (hSX : |S - toQ x ^ 2| ≤ C) :
    IsFin (MeanVar.subSq s x) ∧ |toQ (MeanVar.subSq s x) - (S - toQ x ^ 2)| ≤ E + C / 2 ^ 22 := by
  have hC0 : 0 ≤ C := (sq_nonneg M).trans hMC
  have h1 : |toQ s - toQ x ^ 2| ≤ 2 * C := by
    have e : toQ s - toQ x ^ 2 = (toQ s - S) + (S - toQ x ^ 2) := by ring
    rw [e]; refine (abs_add_le _ _).trans ?_; linarith
  have h2 : |toQ s| ≤ 2 * C := by have := (abs_add_bound hE).1; linarith
  obtain ⟨f1, e1⟩ := subSq_fin (Y := 2 * C) hs hx.1 hx.2 (by norm_num at *; linarith) (by norm_num at *; linarith)
    (by linarith) (by norm_num at *; linarith) h2 h1
  refine ⟨f1, ?_⟩
  have e : toQ (MeanVar.subSq s x) - (S - toQ x ^ 2) =
    (toQ (MeanVar.subSq s x) - (toQ s - toQ x ^ 2)) + (toQ s - S) := by ring
  rw [e]
  refine (abs_add_le _ _).trans ?_
  norm_num at *; linarith

theorem meanVar_close (n : ℤ) (hn : 0 ≤ n) (M W : ℚ) (hM1 : 1 / 2 ^ 40 ≤ M) (hM2 : M ≤ 2 ^ 40) (hW1 : 1 ≤ W)
    (hW2 : W ≤ 2 ^ 20) (vs : List F32) (hvs : ∀ x ∈ vs, Within M x) (hlen : vs.length ≤ 2 ^ 20)
    (hW : (if n = 0 then vs.length else min vs.length n.toNat : ℕ) ≤ W) :
    ∃ s, meanVarAfter n (adds vs) = .ok s ∧ VarClose n M W s vs := by
  have hM0 : 0 < M := lt_of_lt_of_le (by positivity) hM1
  have hW0 : 0 < W := by linarith
  have hC1 : 1 / 2 ^ 100 ≤ W * M := by
    calc (1 : ℚ) / 2 ^ 100 ≤ 1 * (1 / 2 ^ 40) := by norm_num
      _ ≤ W * M := by gcongr
  have hC2 : W * M ≤ 2 ^ 60 := by
    calc W * M ≤ 2 ^ 20 * 2 ^ 40 := by gcongr
      _ = 2 ^ 60 := by norm_num
  have hD1 : M ^ 2 ≤ W * M ^ 2 := by nlinarith [sq_nonneg M]
  have hD2 : W * M ^ 2 ≤ 2 ^ 100 := by
    calc W * M ^ 2 ≤ 2 ^ 20 * (2 ^ 40) ^ 2 := by gcongr
      _ = 2 ^ 100 := by norm_num
  have hl1 : ∀ (k : ℕ) (C : ℚ), 0 ≤ C → k ≤ 2 ^ 20 → (k : ℚ) * (C / 2 ^ 21) ≤ C / 2 := by
    intro k C hC hk
    have : (k : ℚ) ≤ 2 ^ 20 := by exact_mod_cast hk
    calc (k : ℚ) * (C / 2 ^ 21) ≤ 2 ^ 20 * (C / 2 ^ 21) := by gcongr
      _ = C / 2 := by ring
  induction vs using List.reverseRecOn with
  | nil =>
    refine ⟨MeanVar.make n, rfl, ⟨rfl, rfl, ?_, rfl, fun _ => by simp [MeanVar.make, litZero], trivial, trivial, ?_, ?_⟩⟩
    · simp [MeanVar.make, lastN]
    · simp [MeanVar.make, lastN, restOf, litZero, toQ]
    · simp [MeanVar.make, lastN, restOf, litZero, toQ]
  | append_singleton vs x ih =>
    rw [List.length_append, List.length_singleton] at hlen hW
    obtain ⟨s, h1, h⟩ := ih (fun y hy => hvs y (by simp [hy])) (by omega) (le_trans (by
      norm_cast; split <;> omega) hW)
    refine ⟨s.add x, ?_, ?_⟩
    · simp only [meanVarAfter, adds, runOps] at h1 ⊢
      rw [List.map_append, List.map_singleton, foldlM_snoc, h1]; rfl
    · rcases vs.eq_nil_or_concat with rfl | ⟨ws, c, rfl⟩
      · have hnum : s.num = 0 := by rw [h.num]; rfl
        have hcur := h.cur0 rfl
        have e : restOf n [] = [] := by simp [restOf, lastN]
        have e' : restOf n ([] ++ [x]) = [] := by simp [restOf, lastN]
        have hs := h.sum
        have hs2 := h.sum2
        rw [e] at hs hs2
        simp only [List.map_nil, List.sum_nil, List.length_nil, Nat.cast_zero, zero_mul, sub_zero, abs_nonpos_iff] at hs hs2
        unfold MeanVar.add
        rw [if_pos (Or.inl hnum)]
        split
        · obtain ⟨f1, e1⟩ := addend (S := 0) (X := 0) (C := W * M) (E := 0) h.fin (x := s.current) (by rw [hcur]; trivial) (by simp [hs])
            (by positivity) (by rw [hcur]; rfl) hC1 (hC2.trans (by norm_num)) (by simp; positivity)
          have hc0 : toQ s.current = 0 := by rw [hcur]; rfl
          obtain ⟨f2, e2⟩ := addendSq (S := 0) (C := W * M ^ 2) (E := 0) (M := M) h.fin2 (x := s.current)
            ⟨by rw [hcur]; trivial, by rw [hc0]; simp; exact hM0.le⟩ (by simp [hs2]) (by positivity) hM1 hM2 hD1
            (hD2.trans (by norm_num)) (by simp; positivity) (by rw [hc0]; simp; positivity)
          rw [hc0] at e2
          refine ⟨h.size, by simp [hnum], ?_, by simp, by simp, f1, f2, ?_, ?_⟩
          · intro h2; have := h.size; simp_all
          · rw [e']; simp only [List.map_nil, List.sum_nil, List.nil_append, List.length_singleton, Nat.cast_one, one_mul]
            norm_num at e1 ⊢
            have : 0 < W * M := by positivity
            linarith
          · rw [e']; simp only [List.map_nil, List.sum_nil, List.nil_append, List.length_singleton, Nat.cast_one, one_mul]
            norm_num at e2 ⊢
            have : 0 < W * M ^ 2 := by positivity
            linarith
        · refine ⟨h.size, by simp [hnum], ?_, by simp, by simp, h.fin, h.fin2, ?_, ?_⟩
          · intro h2; rw [show ({ s with current := x, num := s.num + 1 } : MeanVar F32).window = s.window from rfl, h.win h2]
            simp [lastN]
          · rw [e']; simp only [List.map_nil, List.sum_nil, hs]; norm_num; positivity
          · rw [e']; simp only [List.map_nil, List.sum_nil, hs2]; norm_num; positivity
      · rw [List.concat_eq_append] at *
        have hcur : s.current = c := by
          have := h.cur; simp at this; exact this.symm
        have hc : Within M c := hvs c (by simp)
        have hws : ∀ y ∈ ws, Within M y := fun y hy => hvs y (by simp [hy])
        have hnum : s.num = ws.length + 1 := by rw [h.num]; simp
        have hs := h.sum
        have hs2 := h.sum2
        have er : restOf n (ws ++ [c]) = if n = 0 then ws else lastN (n.toNat - 1) ws := by
          simp [restOf]
        have er' : restOf n (ws ++ [c] ++ [x]) = if n = 0 then ws ++ [c] else lastN (n.toNat - 1) (ws ++ [c]) := by
          unfold restOf; rw [List.dropLast_concat]
        rw [er] at hs hs2
        have hsize := h.size
        simp only [List.length_append, List.length_singleton] at hs hs2 hlen hW
        have hE := hl1 (ws.length + 1) (W * M) (by positivity) (by omega)
        have hE2 := hl1 (ws.length + 1) (W * M ^ 2) (by positivity) (by omega)
        -- one addition
        have step1 : ∀ l : List F32, (∀ y ∈ l, Within M y) → ((l.length + 1 : ℕ) : ℚ) ≤ W →
            |toQ s.sum - (l.map toQ).sum| ≤ ((ws.length + 1 : ℕ) : ℚ) * (W * M / 2 ^ 21) →
            |toQ s.sum2 - (l.map (fun y => toQ y ^ 2)).sum| ≤ ((ws.length + 1 : ℕ) : ℚ) * (W * M ^ 2 / 2 ^ 21) →
            IsFin (s.sum +. c) ∧ IsFin (MeanVar.addSq s.sum2 c) ∧
            |toQ (s.sum +. c) - ((l ++ [c]).map toQ).sum| ≤ ((ws.length + 1 : ℕ) : ℚ) * (W * M / 2 ^ 21) + W * M / 2 ^ 22 ∧
            |toQ (MeanVar.addSq s.sum2 c) - ((l ++ [c]).map (fun y => toQ y ^ 2)).sum| ≤
              ((ws.length + 1 : ℕ) : ℚ) * (W * M ^ 2 / 2 ^ 21) + W * M ^ 2 / 2 ^ 22 := by
          intro l hl hlW a b
          have hl' : ∀ y ∈ l ++ [c], Within M y := by
            intro y hy
            rcases List.mem_append.mp hy with hy | hy
            · exact hl y hy
            · rw [List.mem_singleton.mp hy]; exact hc
          have z1 := sum_within (l ++ [c]) hl'
          have z2 := sqsum_within (l ++ [c]) hl'
          have z3 := sqsum_within l hl
          rw [List.length_append, List.length_singleton] at z1 z2
          simp only [List.map_append, List.map_singleton, List.sum_append, List.sum_singleton] at z1 z2 ⊢
          have hLW : (l.length : ℚ) ≤ W := le_trans (by push_cast; linarith) hlW
          obtain ⟨f1, e1⟩ := addend (x := c) (C := W * M) h.fin hc.1 a (hE.trans (by nlinarith)) rfl hC1
            (hC2.trans (by norm_num)) (z1.trans (by gcongr))
          obtain ⟨f2, e2⟩ := addendSq (x := c) (C := W * M ^ 2) h.fin2 hc b (hE2.trans (by nlinarith)) hM1 hM2 hD1
            (hD2.trans (by norm_num)) (by rw [abs_of_nonneg z3.1]; exact z3.2.trans (by gcongr))
            (by rw [abs_of_nonneg z2.1]; exact z2.2.trans (by gcongr))
          exact ⟨f1, f2, e1, e2⟩
        have fin1 : ∀ (E C : ℚ), 0 ≤ C → E ≤ ((ws.length + 1 : ℕ) : ℚ) * (C / 2 ^ 21) + C / 2 ^ 22 →
            E ≤ ((ws ++ [c] ++ [x]).length : ℚ) * (C / 2 ^ 21) := by
          intro E C hC hE
          simp only [List.length_append, List.length_singleton]
          push_cast at hE ⊢
          refine hE.trans ?_
          have : ((ws.length : ℚ) + 1 + 1) * (C / 2 ^ 21) = ((ws.length : ℚ) + 1) * (C / 2 ^ 21) + C / 2 ^ 21 := by ring
          rw [this]
          norm_num; linarith
        have hP : 0 ≤ W * M := by positivity
        have hP2 : 0 ≤ W * M ^ 2 := by positivity
        unfold MeanVar.add
        by_cases hn1 : n ≤ 1
        · rw [if_pos (Or.inr (by rw [hsize]; exact hn1))]
          by_cases hz : n = 0
          · subst hz
            rw [if_pos hsize]
            simp only [if_true] at hs hs2 hW er'
            obtain ⟨f1, f2, e1, e2⟩ := step1 ws hws (le_trans (by push_cast; linarith) hW) hs hs2
            refine ⟨hsize, by simp [hnum], by omega, by simp, by simp, ?_, ?_, ?_, ?_⟩
            · rw [hcur]; exact f1
            · rw [hcur]; exact f2
            · rw [er', hcur]; exact fin1 _ _ hP e1
            · rw [er', hcur]; exact fin1 _ _ hP2 e2
          · have hone : n = 1 := by omega
            subst hone
            rw [if_neg (by omega)]
            refine ⟨hsize, by simp [hnum], by omega, by simp, by simp, h.fin, h.fin2, ?_, ?_⟩
            · rw [er']; refine fin1 _ _ hP ?_
              have : (0 : ℚ) ≤ W * M / 2 ^ 22 := by positivity
              simp [lastN] at hs ⊢; norm_num at *; linarith
            · rw [er']; refine fin1 _ _ hP2 ?_
              have : (0 : ℚ) ≤ W * M ^ 2 / 2 ^ 22 := by positivity
              simp [lastN] at hs2 ⊢; norm_num at *; linarith
        · rw [if_neg (by rw [hnum, hsize]; omega)]
          have hwin := h.win (by omega)
          simp only [List.dropLast_concat] at hwin
          rw [if_neg (by omega)] at hs hs2 er' hW
          rw [← hwin] at hs hs2
          have hlenle : s.window.length ≤ n.toNat - 1 := by
            rw [hwin]; unfold lastN; rw [List.length_drop]; omega
          have hlenle2 : s.window.length ≤ ws.length := by
            rw [hwin]; unfold lastN; rw [List.length_drop]; omega
          have hwm : ∀ y ∈ s.window, Within M y := by
            intro y hy; rw [hwin] at hy; exact hws y (List.mem_of_mem_drop hy)
          have hnew := lastN_snoc_drop (n.toNat - 1) ws c
          rw [← hwin] at hnew
          obtain ⟨f1, f2, e1, e2⟩ := step1 s.window hwm (le_trans (by norm_cast; omega) hW) hs hs2
          simp only [hsize, hcur]
          by_cases hfull : ((s.window ++ [c]).length : ℤ) ≥ n
          · rw [if_pos hfull]
            rw [if_neg (by simp at hfull; omega)] at hnew
            have hne : s.window ++ [c] ≠ [] := by simp
            obtain ⟨p, rest, hpr⟩ := List.exists_cons_of_ne_nil hne
            rw [hpr] at hnew e1 e2
            simp only [List.tail_cons] at hnew
            simp only [hpr]
            have hpm : p ∈ s.window ++ [c] := by rw [hpr]; simp
            have hall : ∀ y ∈ p :: rest, Within M y := by
              intro y hy; rw [← hpr] at hy
              rcases List.mem_append.mp hy with hy | hy
              · exact hwm y hy
              · rw [List.mem_singleton.mp hy]; exact hc
            have hp := hall p (by simp)
            have hrest : ∀ y ∈ rest, Within M y := fun y hy => hall y (by simp [hy])
            have hlr : rest.length + 1 = s.window.length + 1 := by
              have := congrArg List.length hpr; simp at this; omega
            have hWl : ((rest.length + 1 : ℕ) : ℚ) ≤ W := by rw [hlr]; exact le_trans (by norm_cast; omega) hW
            have hWr : (rest.length : ℚ) ≤ W := le_trans (by push_cast; linarith) hWl
            have z1 := sum_within rest hrest
            have z2 := sqsum_within rest hrest
            have z3 := sqsum_within (p :: rest) hall
            simp only [List.map_cons, List.sum_cons, List.length_cons] at e1 e2 z3
            have sm : W * M / 2 ^ 22 ≤ W * M / 4 := by gcongr; norm_num
            have sm2 : W * M ^ 2 / 2 ^ 22 ≤ W * M ^ 2 / 4 := by gcongr; norm_num
            obtain ⟨g1, k1⟩ := subtrahend (x := p) (C := W * M) f1 hp.1 e1
              (by push_cast at hE ⊢; linarith) rfl hC1
              (hC2.trans (by norm_num)) (by rw [add_sub_cancel_left]; exact z1.trans (by gcongr))
            obtain ⟨g2, k2⟩ := subtrahendSq (x := p) (C := W * M ^ 2) f2 hp e2
              (by push_cast at hE2 ⊢; linarith) hM1 hM2 hD1
              (hD2.trans (by norm_num)) (by rw [abs_of_nonneg z3.1]; exact z3.2.trans (by gcongr))
              (by rw [add_sub_cancel_left, abs_of_nonneg z2.1]; exact z2.2.trans (by gcongr))
            rw [add_sub_cancel_left] at k1 k2
            have fin2 : ∀ (E C : ℚ), E ≤ ((ws.length + 1 : ℕ) : ℚ) * (C / 2 ^ 21) + C / 2 ^ 22 + C / 2 ^ 22 →
                E ≤ ((ws ++ [c] ++ [x]).length : ℚ) * (C / 2 ^ 21) := by
              intro E C hE
              simp only [List.length_append, List.length_singleton]
              push_cast at hE ⊢
              refine hE.trans (le_of_eq ?_)
              ring
            refine ⟨rfl, by simp [hnum], ?_, by simp, by simp, g1, g2, ?_, ?_⟩
            · intro _; simp [hnew]
            · rw [er', hnew]; exact fin2 _ _ k1
            · rw [er', hnew]; exact fin2 _ _ k2
          · rw [if_neg hfull]
            rw [if_pos (by simp at hfull; omega)] at hnew
            refine ⟨rfl, by simp [hnum], ?_, by simp, by simp, f1, f2, ?_, ?_⟩
            · intro _; simp [hnew]
            · rw [er', hnew]; exact fin1 _ _ hP e1
            · rw [er', hnew]; exact fin1 _ _ hP2 e2

/-- `GetMean` from a running sum. -/
theorem mean_close {cur sum : F32} {S E M : ℚ} {L : ℕ} (hL1 : 1 ≤ L) (hL2 : L ≤ 2 ^ 20) (hc : IsFin cur) (hs : IsFin sum)
    (hM1 : 1 / 2 ^ 40 ≤ M) (hM2 : M ≤ 2 ^ 40) (hE : |toQ sum - S| ≤ L * E) (hEM : E ≤ M / 2)
    (hT : |toQ cur + S| ≤ L * M) :
    IsFin ((cur +. sum) /. lit F32 (L : ℚ)) ∧
      |toQ ((cur +. sum) /. lit F32 (L : ℚ)) - (toQ cur + S) / L| ≤ E + M / 2 ^ 21 := by
  have ht := tiny_le
  have ht0 := tinyQ_pos
  have hLq1 : (1 : ℚ) ≤ L := by exact_mod_cast hL1
  have hLq2 : (L : ℚ) ≤ 2 ^ 20 := by exact_mod_cast hL2
  have hL0 : (0 : ℚ) < L := by linarith
  have hM0 : 0 < M := lt_of_lt_of_le (by positivity) hM1
  obtain ⟨c1, c2⟩ := lit_int (n := (L : ℤ)) (by rw [abs_of_nonneg (by omega)]; omega)
  rw [Int.cast_natCast] at c1 c2
  have hLE : L * E ≤ L * (M / 2) := by gcongr
  have hLM : (L : ℚ) * M ≤ 2 ^ 20 * 2 ^ 40 := by gcongr
  have a0 : |toQ cur + toQ sum| ≤ L * M + L * (M / 2) := by
    rw [show toQ cur + toQ sum = (toQ cur + S) + (toQ sum - S) by ring]
    refine (abs_add_le _ _).trans ?_; linarith
  obtain ⟨f1, e1⟩ := add_fin hc hs (a0.trans (by
    have : (L : ℚ) * (M / 2) = L * M / 2 := by ring
    rw [this]; norm_num at *; linarith))
  set T := cur +. sum with hTd
  have a1 : |toQ T - (toQ cur + S)| ≤ L * (E + 3 / 2 * M / 2 ^ 24 + tinyQ) := by
    rw [show toQ T - (toQ cur + S) = (toQ T - (toQ cur + toQ sum)) + (toQ sum - S) by ring]
    refine (abs_add_le _ _).trans ?_
    have : tinyQ ≤ L * tinyQ := by nlinarith
    have e : (L : ℚ) * (E + 3 / 2 * M / 2 ^ 24 + tinyQ) = L * E + (L * M + L * (M / 2)) / 16777216 + L * tinyQ := by
      norm_num; ring
    rw [e]
    linarith
  have a2 : |toQ T / L - (toQ cur + S) / L| ≤ E + 3 / 2 * M / 2 ^ 24 + tinyQ := by
    rw [← sub_div, abs_div, abs_of_pos hL0, div_le_iff₀ hL0, mul_comm]
    exact a1
  have a3 : |(toQ cur + S) / L| ≤ M := by
    rw [abs_div, abs_of_pos hL0, div_le_iff₀ hL0, mul_comm]; exact hT
  have a4 := (abs_add_bound a2).1
  have a5 : |toQ T / L| ≤ 2 * M := by norm_num at *; linarith
  obtain ⟨g1, g2⟩ := div_fin (x := T) (y := lit F32 (L : ℚ)) f1 c1 (by rw [c2]; exact hL0.ne')
    (by rw [c2]; exact a5.trans (by norm_num at *; linarith))
  refine ⟨g1, ?_⟩
  rw [c2] at g2
  rw [show toQ (T /. lit F32 (L : ℚ)) - (toQ cur + S) / L =
    (toQ (T /. lit F32 (L : ℚ)) - toQ T / L) + (toQ T / L - (toQ cur + S) / L) by ring]
  refine (abs_add_le _ _).trans ?_
  norm_num at *
  linarith

/-- `GetVariance` from a running sum of squares and the mean. -/
theorem var_close {cur sum2 m : F32} {S2 E2 E M mu : ℚ} {L : ℕ} (hL1 : 1 ≤ L) (hL2 : L ≤ 2 ^ 20) (hc : Within M cur)
    (hs : IsFin sum2) (hM1 : 1 / 2 ^ 40 ≤ M) (hM2 : M ≤ 2 ^ 40) (hE2 : |toQ sum2 - S2| ≤ L * E2) (hEM2 : E2 ≤ M ^ 2 / 2)
    (hS2 : 0 ≤ S2) (hT : S2 + toQ cur ^ 2 ≤ L * M ^ 2) (hm : IsFin m) (hmu : |mu| ≤ M) (hE : |toQ m - mu| ≤ E)
    (hEM : E ≤ M / 2) :
    IsFin (Wide.narrow ((sq cur +. Wide.widen sum2) /. lit F64 (L : ℚ) -. (sq m : F64)) : F32) ∧
      |toQ (Wide.narrow ((sq cur +. Wide.widen sum2) /. lit F64 (L : ℚ) -. (sq m : F64)) : F32) -
        ((S2 + toQ cur ^ 2) / L - mu ^ 2)| ≤ E2 + 5 / 2 * M * E + M ^ 2 / 2 ^ 21 := by
  have ht := tiny_le
  have ht0 := tinyQ_pos
  have hLq1 : (1 : ℚ) ≤ L := by exact_mod_cast hL1
  have hLq2 : (L : ℚ) ≤ 2 ^ 20 := by exact_mod_cast hL2
  have hL0 : (0 : ℚ) < L := by linarith
  have hM0 : 0 < M := lt_of_lt_of_le (by positivity) hM1
  have hQ1 : 1 / 2 ^ 80 ≤ M ^ 2 := by
    calc (1 : ℚ) / 2 ^ 80 = (1 / 2 ^ 40) ^ 2 := by norm_num
      _ ≤ M ^ 2 := by gcongr
  have hQ2 : M ^ 2 ≤ 2 ^ 80 := by
    calc M ^ 2 ≤ (2 ^ 40) ^ 2 := by gcongr
      _ = 2 ^ 80 := by norm_num
  obtain ⟨c1, c2⟩ := lit_int64 (n := (L : ℤ)) (by rw [abs_of_nonneg (by omega)]; omega)
  rw [Int.cast_natCast] at c1 c2
  -- the squares
  obtain ⟨q1, q2⟩ := sq_fin hc.1 hc.2 (by norm_num at *; linarith) (by norm_num at *; linarith)
  have m0 := (abs_add_bound hE).1
  have m1 : |toQ m| ≤ 3 / 2 * M := by linarith
  obtain ⟨r1, r2⟩ := sq_fin hm m1 (by norm_num at *; linarith) (by norm_num at *; linarith)
  have m2 : |toQ m ^ 2 - mu ^ 2| ≤ 5 / 2 * M * E := by
    rw [show toQ m ^ 2 - mu ^ 2 = (toQ m - mu) * (toQ m + mu) by ring, abs_mul]
    have : |toQ m + mu| ≤ 5 / 2 * M := (abs_add_le _ _).trans (by linarith)
    calc |toQ m - mu| * |toQ m + mu| ≤ E * (5 / 2 * M) := by gcongr; exact (abs_nonneg _).trans hE
      _ = _ := by ring
  have m3 : toQ m ^ 2 ≤ 9 / 4 * M ^ 2 := by
    have := sq_le_sq' (by linarith [(abs_le.mp m1).1]) (abs_le.mp m1).2
    calc toQ m ^ 2 ≤ (3 / 2 * M) ^ 2 := this
      _ = _ := by ring
  have hY0 : 0 ≤ toQ m ^ 2 := sq_nonneg _
  have r2' : |toQ (sq m : F64) - toQ m ^ 2| ≤ 9 / 4 * M ^ 2 / 2 ^ 45 := by
    refine r2.trans (le_of_eq ?_); ring
  have hLQ : L * E2 ≤ L * (M ^ 2 / 2) := by gcongr
  have hLQ' : (L : ℚ) * (M ^ 2 / 2) = L * M ^ 2 / 2 := by ring
  rw [hLQ'] at hLQ
  have hLMM : (L : ℚ) * M ^ 2 ≤ 2 ^ 20 * 2 ^ 80 := by gcongr
  have hx0 : 0 ≤ toQ cur ^ 2 := sq_nonneg _
  have hML : M ^ 2 ≤ L * M ^ 2 := by nlinarith
  have s1 : |toQ sum2| ≤ 3 / 2 * (L * M ^ 2) := by
    have := (abs_add_bound hE2).1
    rw [abs_of_nonneg hS2] at this
    linarith
  obtain ⟨w1, w2⟩ := widen_fin hs (s1.trans (by norm_num at *; linarith))
  generalize (Wide.widen sum2 : F64) = w at *
  generalize (sq cur : F64) = q at *
  generalize (sq m : F64) = r at *
  generalize toQ cur ^ 2 = X at *
  generalize toQ m ^ 2 = Y at *
  generalize mu ^ 2 = Z at *
  set P := (L : ℚ) * M ^ 2 with hP
  have n1 : |(toQ q + toQ w) - (S2 + X)| ≤ L * E2 + P / 2 ^ 43 := by
    rw [show (toQ q + toQ w) - (S2 + X) = (toQ q - X) + (toQ w - toQ sum2) + (toQ sum2 - S2) by ring]
    refine (abs_add_three _ _ _).trans ?_
    norm_num at *; linarith
  have n2 := (abs_add_bound n1).1
  have hT0 : |S2 + X| ≤ P := by rw [abs_of_nonneg (show (0 : ℚ) ≤ S2 + X by linarith)]; exact hT
  have n3 : |toQ q + toQ w| ≤ 2 * P := by norm_num at *; linarith
  obtain ⟨a1, a2⟩ := add_fin64 q1 w1 (n3.trans (by norm_num at *; linarith))
  generalize q +. w = t at *
  have b1 : |toQ t - (S2 + X)| ≤ L * E2 + P / 2 ^ 42 := by
    rw [show toQ t - (S2 + X) = (toQ t - (toQ q + toQ w)) + ((toQ q + toQ w) - (S2 + X)) by ring]
    refine (abs_add_le _ _).trans ?_
    norm_num at *; linarith
  have b2 : |toQ t / L - (S2 + X) / L| ≤ E2 + M ^ 2 / 2 ^ 42 := by
    rw [← sub_div, abs_div, abs_of_pos hL0, div_le_iff₀ hL0]
    refine b1.trans (le_of_eq ?_)
    rw [hP]; ring
  have b3 : |(S2 + X) / L| ≤ M ^ 2 := by
    rw [abs_div, abs_of_pos hL0, div_le_iff₀ hL0, mul_comm, ← hP]; exact hT0
  have b4 := (abs_add_bound b2).1
  generalize M ^ 2 = Q at *
  have b5 : |toQ t / L| ≤ 2 * Q := by norm_num at *; linarith
  obtain ⟨g1, g2⟩ := div_fin64 (x := t) (y := lit F64 (L : ℚ)) a1 c1 (by rw [c2]; exact hL0.ne')
    (by rw [c2]; exact b5.trans (by norm_num at *; linarith))
  rw [c2] at g2
  generalize t /. lit F64 (L : ℚ) = u at *
  generalize toQ t / L = tl at *
  generalize (S2 + X) / L = sl at *
  have d1 : |(toQ u - toQ r) - (sl - Z)| ≤ E2 + 5 / 2 * M * E + Q / 2 ^ 40 := by
    rw [show (toQ u - toQ r) - (sl - Z) = (toQ u - tl) + (tl - sl) + (-((toQ r - Y) + (Y - Z))) by ring]
    refine (abs_add_three _ _ _).trans ?_
    rw [abs_neg]
    have := abs_add_le (toQ r - Y) (Y - Z)
    norm_num at *; linarith
  have hu := (abs_add_bound g2).1
  have hr := (abs_add_bound r2').1
  have hY : |Y| ≤ 9 / 4 * Q := by
    rw [abs_of_nonneg hY0]; exact m3
  have d2 : |toQ u - toQ r| ≤ 5 * Q := (abs_sub _ _).trans (by norm_num at *; linarith)
  obtain ⟨v1, v2⟩ := sub_fin64 g1 r1 (d2.trans (by norm_num at *; linarith))
  generalize u -. r = v at *
  have hv := (abs_add_bound v2).1
  have d3 : |toQ v| ≤ 6 * Q := by norm_num at *; linarith
  obtain ⟨o1, o2⟩ := narrow_fin v1 (d3.trans (by norm_num at *; linarith))
  refine ⟨o1, ?_⟩
  rw [show toQ (Wide.narrow v : F32) - (sl - Z) = (toQ (Wide.narrow v : F32) - toQ v) + (toQ v - (toQ u - toQ r)) +
    ((toQ u - toQ r) - (sl - Z)) by ring]
  refine (abs_add_three _ _ _).trans ?_
  norm_num at *
  linarith

/-- **C96**. In binary32, after any sequence of fewer than 2^20 additions (and corrections) of finite numbers of
absolute value at most `M`, `GetMean` and `GetVariance` are finite; the mean is within `(N+1)·M/2^21` of the mean, and
the variance within `(N+1)·M²/2^18` of the population variance, of the values in the window, `N` being the number of
values added. -/
theorem C96_mean_variance (n : ℤ) (hn : 0 ≤ n) (M : ℚ) (hM1 : 1 / 2 ^ 40 ≤ M) (hM2 : M ≤ 2 ^ 40)
    (ops : List (WinOp F32)) (vs : List F32) (hv : values ops = some vs)
    (hvs : ∀ x ∈ vs, IsFin x ∧ |toQ x| ≤ M) (hlen : vs.length < 2 ^ 20) :
    ∃ s, meanVarAfter n ops = .ok s ∧ IsFin s.getMean ∧ IsFin (s.getVariance) ∧
      |toQ s.getMean - Spec.mean (windowOf n (vs.map toQ))| ≤ ((vs.length + 1 : ℕ) : ℚ) * (M / 2 ^ 21) ∧
      |toQ s.getVariance - Spec.variance (windowOf n (vs.map toQ))| ≤ ((vs.length + 1 : ℕ) : ℚ) * (M ^ 2 / 2 ^ 18) := by
  have hcan := C43_mean_variance n ops
  rw [hv] at hcan
  simp only at hcan
  have hM0 : 0 < M := lt_of_lt_of_le (by positivity) hM1
  rcases vs.eq_nil_or_concat with rfl | ⟨ws, c, rfl⟩
  · refine ⟨MeanVar.make n, by rw [hcan]; rfl, ?_⟩
    have e1 : (MeanVar.make n : MeanVar F32).getMean = .fin 0 := by
      unfold MeanVar.getMean; rw [if_pos (show (MeanVar.make n : MeanVar F32).num = 0 from rfl)]; exact litZero
    have e2 : (MeanVar.make n : MeanVar F32).getVariance = .fin 0 := by
      unfold MeanVar.getVariance; rw [if_pos (show (MeanVar.make n : MeanVar F32).num = 0 from rfl)]; exact litZero
    have e3 : windowOf n (([] : List F32).map toQ) = [] := by simp [windowOf, lastN]
    rw [e1, e2, e3]
    refine ⟨trivial, trivial, ?_, ?_⟩ <;> simp [toQ, Spec.mean, Spec.variance] <;> positivity
  · rw [List.concat_eq_append] at *
    set L : ℕ := (restOf n (ws ++ [c])).length + 1 with hL
    have er : restOf n (ws ++ [c]) = if n = 0 then ws else lastN (n.toNat - 1) ws := by simp [restOf]
    have hlen' : ws.length + 1 < 2 ^ 20 := by simpa using hlen
    have hLle : L ≤ ws.length + 1 := by
      rw [hL, er]; split
      · exact le_refl _
      · unfold lastN; rw [List.length_drop]; omega
    have hLw : (if n = 0 then (ws ++ [c]).length else min (ws ++ [c]).length n.toNat : ℕ) = L := by
      rw [hL, er, List.length_append, List.length_singleton]
      split
      · rfl
      · unfold lastN; rw [List.length_drop]; omega
    obtain ⟨s, h1, h⟩ := meanVar_close n hn M L hM1 hM2 (by rw [hL]; push_cast; linarith [Nat.cast_nonneg (α := ℚ) (restOf n (ws ++ [c])).length])
      (by exact_mod_cast (by omega : L ≤ 2 ^ 20)) (ws ++ [c]) hvs (by omega) (by rw [hLw])
    refine ⟨s, by rw [hcan, h1], ?_⟩
    have hcur : s.current = c := by have := h.cur; simp at this; exact this.symm
    have hnum : s.num ≠ 0 := by rw [h.num]; simp
    have hsize : s.getWindowSize = L := by
      rw [← hLw]
      unfold MeanVar.getWindowSize
      rw [h.size, h.num]
      split
      · rfl
      · omega
    have hw : windowOf n ((ws ++ [c]).map toQ) = (restOf n (ws ++ [c]) ++ [c]).map toQ := by
      rw [er]; unfold windowOf
      split
      · rfl
      · rw [← lastN_snoc, show n.toNat - 1 + 1 = n.toNat by omega]; unfold lastN; rw [List.length_map, List.map_drop]
    have hrest : ∀ y ∈ restOf n (ws ++ [c]), Within M y := by
      intro y hy; rw [er] at hy
      refine hvs y (List.mem_append_left _ ?_)
      split at hy
      · exact hy
      · exact List.mem_of_mem_drop hy
    have hc : Within M c := hvs c (by simp)
    have hs := h.sum
    have hs2 := h.sum2
    set k : ℕ := (ws ++ [c]).length with hk
    have hLl : (restOf n (ws ++ [c])).length + 1 = L := rfl
    generalize restOf n (ws ++ [c]) = R at *
    have hall : ∀ y ∈ R ++ [c], Within M y := by
      intro y hy
      rcases List.mem_append.mp hy with hy | hy
      · exact hrest y hy
      · rw [List.mem_singleton.mp hy]; exact hc
    have z1 := sum_within _ hall
    have z2 := sqsum_within _ hall
    have z3 := sqsum_within _ hrest
    rw [List.length_append, List.length_singleton, hLl] at z1 z2
    simp only [List.map_append, List.map_singleton, List.sum_append, List.sum_singleton] at z1 z2
    have hkq : (k : ℚ) + 1 ≤ 2 ^ 20 := by
      have : k + 1 ≤ 2 ^ 20 := by omega
      exact_mod_cast this
    have hEb : ∀ C : ℚ, 0 ≤ C → ((k : ℚ) + 1) * (C / 2 ^ 21) ≤ C / 2 := by
      intro C hC
      calc ((k : ℚ) + 1) * (C / 2 ^ 21) ≤ 2 ^ 20 * (C / 2 ^ 21) := by gcongr
        _ = C / 2 := by ring
    have hMM : 0 < M ^ 2 := by positivity
    have hE1 := hEb M hM0.le
    have hE2 := hEb (M ^ 2) hMM.le
    have hE1' : (k : ℚ) * (M / 2 ^ 21) ≤ M / 2 := by
      refine le_trans ?_ hE1; gcongr; linarith
    have hE2' : (k : ℚ) * (M ^ 2 / 2 ^ 21) ≤ M ^ 2 / 2 := by
      refine le_trans ?_ hE2; gcongr; linarith
    obtain ⟨m1, m2⟩ := mean_close (cur := s.current) (sum := s.sum) (S := (R.map toQ).sum) (E := k * (M / 2 ^ 21)) (M := M)
      (L := L) (by omega) (by omega) (by rw [hcur]; exact hc.1) h.fin hM1 hM2 (hs.trans (le_of_eq (by ring))) hE1'
      (by rw [hcur, add_comm]; exact z1)
    have hmeq : s.getMean = (s.current +. s.sum) /. lit F32 (L : ℚ) := by
      unfold MeanVar.getMean; rw [if_neg hnum, hsize]; norm_cast
    have hmean : Spec.mean (windowOf n ((ws ++ [c]).map toQ)) = (toQ s.current + (R.map toQ).sum) / L := by
      rw [hw]; unfold Spec.mean
      rw [hcur, List.length_map, List.length_append, List.length_singleton, hLl]
      simp only [List.map_append, List.map_singleton, List.sum_append, List.sum_singleton]
      rw [add_comm]
    have hmle : |Spec.mean (windowOf n ((ws ++ [c]).map toQ))| ≤ M := by
      have hL0 : (0 : ℚ) < L := by exact_mod_cast (by omega : 0 < L)
      rw [hmean, abs_div, abs_of_pos hL0, div_le_iff₀ hL0, hcur, mul_comm, add_comm]
      exact z1
    rw [← hmean, ← hmeq] at m2
    rw [← hmeq] at m1
    have m3 : |toQ s.getMean - Spec.mean (windowOf n ((ws ++ [c]).map toQ))| ≤ ((k : ℚ) + 1) * (M / 2 ^ 21) :=
      m2.trans (le_of_eq (by ring))
    obtain ⟨v1, v2⟩ := var_close (cur := s.current) (sum2 := s.sum2) (m := s.getMean) (S2 := (R.map (fun x => toQ x ^ 2)).sum)
      (E2 := k * (M ^ 2 / 2 ^ 21)) (E := ((k : ℚ) + 1) * (M / 2 ^ 21)) (M := M) (L := L)
      (mu := Spec.mean (windowOf n ((ws ++ [c]).map toQ))) (by omega) (by omega) (by rw [hcur]; exact hc) h.fin2 hM1 hM2
      (hs2.trans (le_of_eq (by ring))) hE2' z3.1 (by rw [hcur]; exact z2.2) m1 hmle m3 hE1
    have hveq : s.getVariance = (Wide.narrow ((sq s.current +. Wide.widen s.sum2) /. lit F64 (L : ℚ) -. (sq s.getMean : F64)) : F32) := by
      unfold MeanVar.getVariance MeanVar.getMean
      rw [if_neg hnum, if_neg hnum, hsize]; norm_cast
    have hvar : Spec.variance (windowOf n ((ws ++ [c]).map toQ)) =
        ((R.map (fun x => toQ x ^ 2)).sum + toQ s.current ^ 2) / L - Spec.mean (windowOf n ((ws ++ [c]).map toQ)) ^ 2 := by
      rw [variance_eq _ (by rw [hw]; simp)]
      congr 1
      rw [hw, hcur, List.length_map, List.length_append, List.length_singleton, hLl, List.map_map]
      simp [Function.comp_def]
    refine ⟨m1, by rw [hveq]; exact v1, ?_, ?_⟩
    · push_cast; exact m3
    · rw [hveq, hvar]
      refine v2.trans ?_
      have e : 5 / 2 * M * (((k : ℚ) + 1) * (M / 2 ^ 21)) = 5 / 2 * (((k : ℚ) + 1) * (M ^ 2 / 2 ^ 21)) := by ring
      have e2 : (((k + 1 : ℕ) : ℚ)) * (M ^ 2 / 2 ^ 18) = 8 * (((k : ℚ) + 1) * (M ^ 2 / 2 ^ 21)) := by push_cast; ring
      have e3 : (k : ℚ) * (M ^ 2 / 2 ^ 21) ≤ ((k : ℚ) + 1) * (M ^ 2 / 2 ^ 21) := by gcongr; linarith
      have e4 : M ^ 2 / 2 ^ 21 ≤ ((k : ℚ) + 1) * (M ^ 2 / 2 ^ 21) := by
        have : 0 ≤ (k : ℚ) := Nat.cast_nonneg k
        have : 0 ≤ M ^ 2 / 2 ^ 21 := by positivity
        nlinarith
      rw [e, e2]
      have : 0 ≤ ((k : ℚ) + 1) * (M ^ 2 / 2 ^ 21) := by positivity
      linarith

/-- **C96** (no NaN). When the true variance exceeds the error bound, `GetVariance` is positive, so that
`GetStandardDeviation` takes the square root of a positive finite number. -/
theorem C96_positive (n : ℤ) (hn : 0 ≤ n) (M : ℚ) (hM1 : 1 / 2 ^ 40 ≤ M) (hM2 : M ≤ 2 ^ 40)
    (ops : List (WinOp F32)) (vs : List F32) (hv : values ops = some vs)
    (hvs : ∀ x ∈ vs, IsFin x ∧ |toQ x| ≤ M) (hlen : vs.length < 2 ^ 20)
    (hvar : ((vs.length + 1 : ℕ) : ℚ) * (M ^ 2 / 2 ^ 18) < Spec.variance (windowOf n (vs.map toQ))) :
    ∃ s, meanVarAfter n ops = .ok s ∧ IsFin s.getVariance ∧ 0 < toQ s.getVariance := by
  obtain ⟨s, h1, _, h2, _, h3⟩ := C96_mean_variance n hn M hM1 hM2 ops vs hv hvs hlen
  refine ⟨s, h1, h2, ?_⟩
  have := (abs_le.mp h3).1
  linarith

/-- **C96** (volatility). In binary32, `GetVolatility` is `sqrtf` of a finite number that is within `(N+1)·M²/2^18` of the
population variance of the returns `logf(previous / current)` that count, if these are finite and at most `M` in absolute
value. `N` is the number of periods. -/
theorem C96_volatility [Libm F32] (windowSize period : ℤ) (hw : 0 ≤ windowSize) (hP : 0 < period)
    (inputs : List (OhlcTick F32 × F32 × F32)) (hl : Feedable (inputs.map (·.1))) (M : ℚ) (hM1 : 1 / 2 ^ 40 ≤ M)
    (hM2 : M ≤ 2 ^ 40) (rs : List F32)
    (hrs : rs = returnsOf (fun prev cur => Libm.log (prev /. cur)) (initialValue inputs) (portfolioValues period inputs))
    (hr : ∀ r ∈ rs, IsFin r ∧ |toQ r| ≤ M) (hlen : rs.length < 2 ^ 20) :
    ∃ s v, volAfter windowSize period inputs = .ok s ∧ Vol.get s = Libm.sqrt v ∧ IsFin v ∧
      |toQ v - Spec.variance (windowOf windowSize (rs.map toQ))| ≤ ((rs.length + 1 : ℕ) : ℚ) * (M ^ 2 / 2 ^ 18) := by
  obtain ⟨s, h1, h2, _⟩ := C50_returns windowSize period hP inputs hl
  rw [← hrs] at h2
  obtain ⟨s', a, _, b, _, d⟩ := C96_mean_variance windowSize hw M hM1 hM2 (adds rs) rs (values_adds rs) hr hlen
  rw [h2] at a; cases a
  exact ⟨s, _, h1, rfl, b, d⟩

/-! ### A volatility that is not a number -/

/-- Two days; the price doubles on each of them. -/
def doubling : List (OhlcTick F32) :=
  [⟨0, .fin 1, .fin 2, .fin 1, .fin 2, .fin 1⟩, ⟨86400, .fin 2, .fin 4, .fin 2, .fin 4, .fin 1⟩]

theorem doubling_returns : let inputs := doubling.map (fun t => (t, (.fin 1 : F32), (.fin 0 : F32)))
    Feedable (inputs.map (·.1)) ∧ initialValue inputs = .fin 1 ∧ portfolioValues 86400 inputs = [.fin 2, .fin 4] := by
  unfold Feedable SortedBy; decide +kernel

/-- The binary32 number nearest to `log(1/2)`. -/
def logHalf : F32 := .fin (-1453635 / 2097152)

/-- **C96** (NaN). On a history of two days on which the price doubles, no run of `ExecuteTrader` with volatilities - of
no trader, no account - reports a volatility of the base currency other than NaN: the variance of the two equal daily
returns is reported as a negative number. (`logf(0.5)` is taken to be correctly rounded; `sqrtf` of a negative number is
NaN.) -/
theorem C96_nan_volatility [Libm F32] [Libm F64] (hlog : Libm.log (.fin (1 / 2) : F32) = logHalf)
    (hsqrt : ∀ x : F32, (x <. lit F32 0) = true → Libm.sqrt x = .nan)
    {recs : Option (List (SideInputRecord F32))} {side : Option (SideInput F32)}
    (hside : SideOf recs side) (c : AccountConfig F32) (T : Trader F32) (init : T.State) (log : Bool)
    {r : ExecutionResult F32} (hr : (executeTrader c doubling side false T init log).out = .ok r) :
    r.baseVolatility = .nan := by
  obtain ⟨_, _, _, _, _, _, _, _, _, _, _, hv⟩ := C33_result hside c doubling (by simp [doubling]) false T init log hr
  obtain ⟨b, t, h1, _, h2, _⟩ := hv rfl
  have hu := C29_active_ticks hside c doubling false T init log hr
  have hb : baselineInputs (executeTrader c doubling side false T init log).trace =
      doubling.map (fun t => (t, (.fin 1 : F32), (.fin 0 : F32))) := by
    unfold baselineInputs
    have e : doubling.filter active = doubling := by decide +kernel
    rw [e] at hu
    have e1 : lit F32 1 = .fin 1 := lit1
    simp only [e1, litZero]
    generalize updates (executeTrader c doubling side false T init log).trace = us at hu
    rw [← hu, List.map_map]
    rfl
  rw [hb] at h1
  obtain ⟨d1, d2, d3⟩ := doubling_returns
  obtain ⟨s, s1, s2, _⟩ := C50_returns 0 86400 (by norm_num) _ d1
  have : kSecondsPerDay = 86400 := rfl
  rw [this, s1] at h1
  have hsb := Except.ok.inj h1
  rw [← hsb] at h2
  rw [d2, d3] at s2
  have hret : returnsOf (fun prev cur => Libm.log (prev /. cur)) (.fin 1 : F32) [.fin 2, .fin 4] = [logHalf, logHalf] := by
    have e1 : ((.fin 1 : F32) /. .fin 2) = .fin (1 / 2) := by decide +kernel
    have e2 : ((.fin 2 : F32) /. .fin 4) = .fin (1 / 2) := by decide +kernel
    simp only [returnsOf, List.zipWith_cons_cons, List.zipWith_nil_right, e1, e2, hlog]
  rw [hret] at s2
  have hneg : (meanVarAfter 0 (adds [logHalf, logHalf])).map (fun s => s.getVariance <. lit F32 0) = .ok true := by
    decide +kernel
  rw [s2] at hneg
  have hneg' : (s.state.variance.getVariance <. lit F32 0) = true := by
    simpa [Except.map] using hneg
  rw [h2]
  unfold Vol.get MeanVar.getStdDev
  rw [hsqrt _ hneg']
  rfl

/-! Non-vacuity: the bound of `C96_positive` for daily returns of ±1/16, and a run of `ExecuteTrader` on `doubling`. -/

/-- Returns of alternating sign. -/
def altReturns : List F32 := (List.range 8).map (fun i : ℕ => if i % 2 = 0 then .fin (1 / 16) else .fin (-1 / 20))

example : values (adds altReturns) = some altReturns ∧ (∀ x ∈ altReturns, IsFin x ∧ |toQ x| ≤ 1 / 16) ∧
    ((altReturns.length + 1 : ℕ) : ℚ) * ((1 / 16) ^ 2 / 2 ^ 18) < Spec.variance (windowOf 5 (altReturns.map toQ)) := by
  decide +kernel

example : (meanVarAfter 5 (adds altReturns)).map (fun s => decide (0 < toQ s.getVariance)) = .ok true := by decide +kernel

/-- A `sqrt` and a `log` that satisfy the hypotheses. -/
@[reducible] def nanLibm : Libm F32 :=
  ⟨fun x => if x <. lit F32 0 then .nan else x, fun x => x, fun x => if x = .fin (1 / 2) then logHalf else x, fun x _ => x⟩

/-- Holds for one update after another: never places an order. -/
def nanIdle : Trader F32 := ⟨Unit, fun s _ _ _ _ => .ok (s, []), fun _ => ""⟩

attribute [local instance] nanLibm fr64 in
example (x : F32) (h : (x <. lit F32 0) = true) : Libm.log (.fin (1 / 2) : F32) = logHalf ∧ Libm.sqrt x = .nan := by
  constructor
  · decide +kernel
  · show (if x <. lit F32 0 then Fl.nan else x) = .nan
    rw [if_pos h]

attribute [local instance] nanLibm fr64 in
example : (executeTrader fr32Account doubling none false nanIdle () false).out.isOk = true := by decide +kernel

end Verif.Props
