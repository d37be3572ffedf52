import Verif.Spec.Convert
import Verif.Props.Proto
import Verif.Num.Exact
import Verif.Num.IEEE

/-!
# C65-C66: loading price and OHLC histories
-/

namespace Verif.Props
open Verif Verif.Spec Verif.Convert FloatOps

/-! ### Lines of a text -/

theorem linesLoop_line (line rest : Text) (hl : '\n' ∉ line) (acc : Text) :
    linesLoop acc (line ++ '\n' :: rest) = (acc.reverse ++ line) :: linesOf rest := by
  induction line generalizing acc with
  | nil => simp [linesLoop, linesOf]
  | cons c line ih =>
    have hc : c ≠ '\n' := fun h => hl (by simp [h])
    simp only [List.cons_append, linesLoop, hc, if_false]
    rw [ih (fun h => hl (by simp [h]))]
    simp

/-- Reading the lines of a text gives the lines it was made of. -/
theorem linesOf_textOf (lines : List Text) (h : ∀ l ∈ lines, '\n' ∉ l) : linesOf (textOf lines) = lines := by
  induction lines with
  | nil => rfl
  | cons l ls ih =>
    have : textOf (l :: ls) = l ++ '\n' :: textOf ls := by simp [textOf]
    rw [this]
    unfold linesOf
    rw [linesLoop_line l _ (h l (by simp)), ih (fun x hx => h x (by simp [hx]))]
    rfl

/-! ### The loop over records -/

section
variable {R : Type} {ts : R → ℤ}

/-- The values of the variables after each line. -/
def csvValues (scan : Text → R → R) : R → List Text → List R
  | _, [] => []
  | cur, line :: rest => scan line cur :: csvValues scan (scan line cur) rest

theorem csvValues_length (scan : Text → R → R) (cur : R) (lines : List Text) :
    (csvValues scan cur lines).length = lines.length := by
  induction lines generalizing cur with
  | nil => rfl
  | cons l ls ih => simp [csvValues, ih]

theorem csvValues_of_lines {scan : Text → R → R} {lines : List Text} {rs : List R} (cur : R)
    (h : List.Forall₂ (fun line r => ∀ s, scan line s = r) lines rs) : csvValues scan cur lines = rs := by
  induction h generalizing cur with
  | nil => rfl
  | cons hr _ ih => simp [csvValues, hr, ih]

/-- The loop as a function of the records. -/
def recordLoop (ts : R → ℤ) (check : R → Option Complaint) (start stop : ℤ) :
    ℕ → ℤ → List R → Except LoadError (List R)
  | _, _, [] => .ok []
  | row, prev, cur :: rest =>
    if start > 0 ∧ ts cur < start then recordLoop ts check start stop (row + 1) prev rest
    else if stop > 0 ∧ ts cur ≥ stop then .ok []
    else if ts cur ≤ 0 ∨ ts cur < prev then .error (.record (row + 1) .timestamp)
    else match check cur with
      | some what => .error (.record (row + 1) what)
      | none => (recordLoop ts check start stop (row + 1) (ts cur) rest).map (cur :: ·)

theorem csvLoop_eq (scan : Text → R → R) (check : R → Option Complaint) (start stop : ℤ) (row : ℕ) (prev : ℤ) (cur : R)
    (lines : List Text) :
    csvLoop ts scan check start stop row prev cur lines =
      recordLoop ts check start stop row prev (csvValues scan cur lines) := by
  induction lines generalizing row prev cur with
  | nil => rfl
  | cons l ls ih =>
    simp only [csvLoop, csvValues, recordLoop, ih]
    rfl

theorem periodOf_cons (start stop : ℤ) (r : R) (rs : List R) :
    periodOf ts start stop (r :: rs) =
      if 0 < start ∧ ts r < start then periodOf ts start stop rs else
      if 0 < stop ∧ stop ≤ ts r then [] else r :: periodOf ts start stop rs := by
  unfold periodOf
  by_cases h2 : 0 < start ∧ ts r < start
  · rw [List.filter_cons_of_neg (by simp; omega), if_pos h2]
  · rw [List.filter_cons_of_pos (by simp; omega), if_neg h2]
    by_cases h1 : 0 < stop ∧ stop ≤ ts r
    · rw [List.takeWhile_cons_of_neg (by simp; omega), if_pos h1]
    · rw [List.takeWhile_cons_of_pos (by simp; omega), if_neg h1]

theorem periodOf_window {start stop : ℤ} {rs : List R} {r : R} (h : r ∈ periodOf ts start stop rs) :
    r ∈ rs ∧ InWindow start stop (ts r) := by
  induction rs with
  | nil => simp [periodOf] at h
  | cons x rs ih =>
    rw [periodOf_cons] at h
    split at h
    · exact ⟨by simp [(ih h).1], (ih h).2⟩
    · split at h
      · simp at h
      · rcases List.mem_cons.mp h with rfl | h
        · exact ⟨by simp, fun _ => by omega, fun _ => by omega⟩
        · exact ⟨by simp [(ih h).1], (ih h).2⟩

/-- In a sorted file the records of the period are those inside the window. -/
theorem periodOf_sorted (start stop : ℤ) {rs : List R} (h : SortedBy ts rs) :
    periodOf ts start stop rs = rs.filter (fun r => decide (InWindow start stop (ts r))) := by
  induction rs with
  | nil => rfl
  | cons r rs ih =>
    have hp := List.pairwise_cons.mp h
    rw [periodOf_cons, ih hp.2]
    by_cases h2 : 0 < start ∧ ts r < start
    · rw [if_pos h2, List.filter_cons_of_neg]
      rw [decide_eq_true_eq]; unfold InWindow; omega
    · rw [if_neg h2]
      by_cases h1 : 0 < stop ∧ stop ≤ ts r
      · rw [if_pos h1, eq_comm, List.filter_eq_nil_iff]
        intro x hx
        have : ts r ≤ ts x := by
          rcases List.mem_cons.mp hx with rfl | hx
          · exact le_refl _
          · exact hp.1 x hx
        rw [decide_eq_true_eq]; unfold InWindow; omega
      · rw [if_neg h1, List.filter_cons_of_pos]
        rw [decide_eq_true_eq]; unfold InWindow; omega

/-- What the loop accepts. -/
theorem recordLoop_ok_iff (check : R → Option Complaint) (start stop : ℤ)
    (row : ℕ) (prev : ℤ) (rs out : List R) :
    recordLoop ts check start stop row prev rs = .ok out ↔
      out = periodOf ts start stop rs ∧ (∀ r ∈ out, 0 < ts r ∧ prev ≤ ts r ∧ check r = none) ∧ SortedBy ts out := by
  induction rs generalizing row prev out with
  | nil =>
    unfold recordLoop
    simp only [Except.ok.injEq]
    constructor
    · rintro rfl; exact ⟨rfl, by simp, List.Pairwise.nil⟩
    · rintro ⟨rfl, -, -⟩; rfl
  | cons r rs ih =>
    unfold recordLoop
    rw [periodOf_cons]
    by_cases h2 : start > 0 ∧ ts r < start
    · rw [if_pos h2, ih, if_pos h2]
    · rw [if_neg h2, if_neg (by omega : ¬ (0 < start ∧ ts r < start))]
      by_cases h1 : stop > 0 ∧ ts r ≥ stop
      · rw [if_pos h1, if_pos (by omega)]
        simp only [Except.ok.injEq]
        constructor
        · rintro rfl; exact ⟨rfl, by simp, List.Pairwise.nil⟩
        · rintro ⟨rfl, -, -⟩; rfl
      · rw [if_neg h1, if_neg (by omega : ¬ (0 < stop ∧ stop ≤ ts r))]
        by_cases h3 : ts r ≤ 0 ∨ ts r < prev
        · rw [if_pos h3]
          constructor
          · intro h; cases h
          · rintro ⟨rfl, h, -⟩
            have := h r (by simp)
            omega
        · rw [if_neg h3]
          cases hc : check r with
          | some what =>
            dsimp only
            constructor
            · intro h; cases h
            · rintro ⟨rfl, h, -⟩
              have := (h r (by simp)).2.2
              rw [hc] at this; cases this
          | none =>
            dsimp only
            constructor
            · intro h
              cases hl : recordLoop ts check start stop (row + 1) (ts r) rs with
              | error e => rw [hl] at h; cases h
              | ok tail =>
                rw [hl] at h
                simp only [Except.map, Except.ok.injEq] at h
                subst h
                obtain ⟨he, ha, hs⟩ := (ih (row + 1) (ts r) tail).mp hl
                refine ⟨by rw [he], ?_, ?_⟩
                · intro x hx
                  rcases List.mem_cons.mp hx with rfl | hx
                  · exact ⟨by omega, by omega, hc⟩
                  · have := ha x hx
                    exact ⟨this.1, by omega, this.2.2⟩
                · exact List.pairwise_cons.mpr ⟨fun x hx => (ha x hx).2.1, hs⟩
            · rintro ⟨rfl, ha, hs⟩
              have hp := List.pairwise_cons.mp hs
              have := (ih (row + 1) (ts r) (periodOf ts start stop rs)).mpr
                ⟨rfl, fun x hx => ⟨(ha x (by simp [hx])).1, hp.1 x hx, (ha x (by simp [hx])).2.2⟩, hp.2⟩
              rw [this]; rfl

/-- Why the loop fails, and where. -/
theorem recordLoop_error (check : R → Option Complaint) (start stop : ℤ) (row : ℕ) (prev : ℤ) (rs : List R) (e : LoadError)
    (h : recordLoop ts check start stop row prev rs = .error e) :
    ∃ i r what, e = .record (row + i + 1) what ∧ rs[i]? = some r ∧ InWindow start stop (ts r) ∧
      ((what = .timestamp ∧ (ts r ≤ 0 ∨ ts r < prev ∨ ∃ r' ∈ periodOf ts start stop (rs.take i), ts r < ts r')) ∨
        (0 < ts r ∧ check r = some what)) ∧
      recordLoop ts check start stop row prev (rs.take i) = .ok (periodOf ts start stop (rs.take i)) := by
  induction rs generalizing row prev with
  | nil => cases h
  | cons r rs ih =>
    unfold recordLoop at h
    by_cases h2 : start > 0 ∧ ts r < start
    · rw [if_pos h2] at h
      obtain ⟨i, r', what, he, hi, hw, hwhy, hok⟩ := ih _ _ h
      refine ⟨i + 1, r', what, by rw [he]; congr 1; omega, by simpa using hi, hw, ?_, ?_⟩
      · rw [List.take_succ_cons, periodOf_cons, if_pos h2]; exact hwhy
      · rw [List.take_succ_cons, periodOf_cons, if_pos h2]
        unfold recordLoop
        rw [if_pos h2]; exact hok
    · rw [if_neg h2] at h
      by_cases h1 : stop > 0 ∧ ts r ≥ stop
      · rw [if_pos h1] at h; cases h
      · rw [if_neg h1] at h
        have hw : InWindow start stop (ts r) := ⟨fun _ => by omega, fun _ => by omega⟩
        by_cases h3 : ts r ≤ 0 ∨ ts r < prev
        · rw [if_pos h3] at h
          cases h
          refine ⟨0, r, .timestamp, rfl, rfl, hw, Or.inl ⟨rfl, ?_⟩, rfl⟩
          rcases h3 with h3 | h3
          · exact Or.inl h3
          · exact Or.inr (Or.inl h3)
        · rw [if_neg h3] at h
          cases hc : check r with
          | some what =>
            rw [hc] at h
            cases h
            exact ⟨0, r, what, rfl, rfl, hw, Or.inr ⟨by omega, hc⟩, rfl⟩
          | none =>
            rw [hc] at h
            dsimp only at h
            cases hl : recordLoop ts check start stop (row + 1) (ts r) rs with
            | ok tail => rw [hl] at h; cases h
            | error e' =>
              rw [hl] at h
              simp only [Except.map, Except.error.injEq] at h
              subst h
              obtain ⟨i, r', what, he, hi, hw', hwhy, hok⟩ := ih _ _ hl
              refine ⟨i + 1, r', what, by rw [he]; congr 1; omega, by simpa using hi, hw', ?_, ?_⟩
              · rw [List.take_succ_cons, periodOf_cons, if_neg h2, if_neg h1]
                rcases hwhy with ⟨hwt, hwhy⟩ | hwhy
                · refine Or.inl ⟨hwt, ?_⟩
                  rcases hwhy with hwhy | hwhy | ⟨x, hx, hlt⟩
                  · exact Or.inl hwhy
                  · exact Or.inr (Or.inr ⟨r, by simp, hwhy⟩)
                  · exact Or.inr (Or.inr ⟨x, by simp [hx], hlt⟩)
                · exact Or.inr hwhy
              · rw [List.take_succ_cons, periodOf_cons, if_neg h2, if_neg h1]
                unfold recordLoop
                rw [if_neg h2, if_neg h1, if_neg h3, hc]
                dsimp only
                rw [hok]; rfl

/-- A shift of the line numbers. -/
theorem recordLoop_row (check : R → Option Complaint) (start stop : ℤ) (row row' : ℕ) (prev : ℤ) (rs out : List R) :
    recordLoop ts check start stop row prev rs = .ok out ↔ recordLoop ts check start stop row' prev rs = .ok out := by
  rw [recordLoop_ok_iff, recordLoop_ok_iff]

end

/-! ### Reading the fields of a line -/

theorem digit?_of_isDigit {c : Char} (h : c.isDigit) : digit? c = some (c.toNat - '0'.toNat) := by
  unfold digit?
  rw [if_pos]
  rw [Char.isDigit] at h
  simp only [Bool.and_eq_true, decide_eq_true_eq] at h
  exact ⟨h.1, h.2⟩

theorem digitsLoop_append (ds rest : Text) (acc : ℕ) (hd : ∀ c ∈ ds, c.isDigit)
    (hr : ∀ c, rest.head? = some c → digit? c = none) :
    digitsLoop acc (ds ++ rest) = (Nat.ofDigitChars 10 ds acc, rest) := by
  induction ds generalizing acc with
  | nil =>
    cases rest with
    | nil => rfl
    | cons c rest => simp [digitsLoop, hr c rfl]
  | cons c ds ih =>
    simp only [List.cons_append, digitsLoop, digit?_of_isDigit (hd c (by simp))]
    rw [ih _ (fun x hx => hd x (by simp [hx])), Nat.ofDigitChars_cons]

theorem natural_digits (ds rest : Text) (hne : ds ≠ []) (hall : ∀ x ∈ ds, x.isDigit)
    (hr : ∀ c, rest.head? = some c → digit? c = none) :
    natural (ds ++ rest) = some (Nat.ofDigitChars 10 ds 0, rest) := by
  cases ds with
  | nil => exact absurd rfl hne
  | cons c ds =>
    unfold natural
    simp only [List.cons_append, digit?_of_isDigit (hall c (by simp))]
    rw [digitsLoop_append ds rest _ (fun x hx => hall x (by simp [hx])) hr, Nat.ofDigitChars_cons]
    simp only [Nat.mul_zero, Nat.zero_add]

theorem natural_print (n : ℕ) (rest : Text) (hr : ∀ c, rest.head? = some c → digit? c = none) :
    natural (Nat.toDigits 10 n ++ rest) = some (n, rest) := by
  rw [natural_digits _ rest Nat.toDigits_ne_nil (fun x hx => Nat.isDigit_of_mem_toDigits (by decide) (by decide) hx) hr,
    Nat.ofDigitChars_ten_toDigits]

theorem not_space_of_isDigit {c : Char} (h : c.isDigit) : isSpace c = false ∧ c ≠ '-' ∧ c ≠ '+' ∧ c ≠ '\x00' ∧ c ≠ '\n' ∧
    c ≠ ',' := by
  refine ⟨?_, ?_, ?_, ?_, ?_, ?_⟩
  · by_contra hc
    rw [Bool.not_eq_false] at hc
    unfold isSpace at hc
    simp only [Bool.or_eq_true, decide_eq_true_eq] at hc
    rcases hc with ((((rfl | rfl) | rfl) | rfl) | rfl) | rfl <;> exact absurd h (by decide)
  all_goals rintro rfl; exact absurd h (by decide)

/-- A printed integer is read back. -/
theorem integer_print (t : ℤ) (rest : Text) (hr : ∀ c, rest.head? = some c → digit? c = none) :
    integer (printInt t ++ rest) = some (t, rest) := by
  unfold printInt
  by_cases ht : t < 0
  · rw [if_pos ht]
    unfold integer
    have : ('-' :: Nat.toDigits 10 t.natAbs ++ rest).dropWhile isSpace = '-' :: (Nat.toDigits 10 t.natAbs ++ rest) := by
      rw [List.cons_append, List.dropWhile_cons_of_neg (by decide)]
    rw [this]
    change Option.map (fun r : ℕ × Text => (-(r.1 : ℤ), r.2)) (natural (Nat.toDigits 10 t.natAbs ++ rest)) = _
    rw [natural_print _ _ hr]
    simp only [Option.map_some, Option.some.injEq, Prod.mk.injEq, and_true]
    omega
  · rw [if_neg ht]
    unfold integer
    have hn := natural_print t.natAbs rest hr
    have hnn : Nat.toDigits 10 t.natAbs ≠ [] := Nat.toDigits_ne_nil
    have hall : ∀ x ∈ Nat.toDigits 10 t.natAbs, x.isDigit := fun x hx => Nat.isDigit_of_mem_toDigits (by decide) (by decide) hx
    cases hd : Nat.toDigits 10 t.natAbs with
    | nil => exact absurd hd hnn
    | cons c ds =>
      rw [hd] at hn hall
      have hc := not_space_of_isDigit (hall c (by simp))
      rw [List.cons_append, List.dropWhile_cons_of_neg (by simp [hc.1])]
      rw [List.cons_append] at hn
      split
      · rename_i h; exact absurd (List.cons.inj h).1 hc.2.1
      · rename_i h; exact absurd (List.cons.inj h).1 hc.2.2.1
      · rw [hn]
        simp only [Option.map_some, Option.some.injEq, Prod.mk.injEq, and_true]
        omega

theorem scanInt_print {t : ℤ} (ht : IsInt64 t) (rest : Text) (hr : ∀ c, rest.head? = some c → digit? c = none) :
    scanInt (printInt t ++ rest) = some (t, rest) := by
  unfold scanInt
  rw [integer_print t rest hr]
  unfold IsInt64 at ht
  simp only [Option.map_some, Option.some.injEq, Prod.mk.injEq, and_true]
  omega

theorem streamInt_print {t : ℤ} (ht : IsInt64 t) (rest : Text) (hr : ∀ c, rest.head? = some c → digit? c = none) :
    streamInt (printInt t ++ rest) = some (t, rest) := by
  unfold streamInt
  rw [integer_print t rest hr]
  unfold IsInt64 at ht
  dsimp only
  rw [if_pos]
  unfold isInt64
  simp only [Bool.and_eq_true, decide_eq_true_eq]
  exact ht

theorem printInt_plain (t : ℤ) : ∀ c ∈ printInt t, c ≠ '\x00' ∧ c ≠ '\n' ∧ c ≠ ',' := by
  intro c hc
  have hall : ∀ x ∈ Nat.toDigits 10 t.natAbs, x.isDigit := fun x hx => Nat.isDigit_of_mem_toDigits (by decide) (by decide) hx
  unfold printInt at hc
  split at hc
  · rcases List.mem_cons.mp hc with rfl | hc
    · decide
    · exact (not_space_of_isDigit (hall c hc)).2.2.2
  · exact (not_space_of_isDigit (hall c hc)).2.2.2

theorem ends_not_digit {rest : Text} (h : Ends rest) : ∀ c, rest.head? = some c → digit? c = none := by
  intro c hc
  rcases h c hc with rfl | rfl | rfl <;> decide

section
variable {F : Type} {sc : Scanner F}

theorem NumbersText_ends {xs : List F} {text : Text} (h : NumbersText sc xs text) : Ends text := by
  cases h with
  | nil _ he _ => exact he
  | cons hx hr =>
    intro c hc
    simp only [List.cons_append, List.head?_cons, Option.some.injEq] at hc
    exact Or.inl hc.symm

theorem NumbersText_plain {xs : List F} {text : Text} (h : NumbersText sc xs text) : ∀ c ∈ text, c ≠ '\x00' ∧ c ≠ '\n' := by
  induction h with
  | nil _ _ hp => exact hp
  | cons hx hr ih =>
    intro c hc
    rw [List.cons_append, List.mem_cons, List.mem_append] at hc
    rcases hc with rfl | hc | hc
    · decide
    · exact hx.plain c hc
    · exact ih c hc

theorem scanFloats_read {xs : List F} {text : Text} (h : NumbersText sc xs text) : scanFloats sc xs.length text = xs := by
  induction h with
  | nil => rfl
  | cons hx hr ih =>
    simp only [List.length_cons, List.cons_append, scanFloats]
    rw [hx.read _ (NumbersText_ends hr)]
    dsimp only
    rw [ih]

theorem cString_plain {line : Text} (h : ∀ c ∈ line, c ≠ '\x00') : cString line = line := by
  unfold cString
  induction line with
  | nil => rfl
  | cons c line ih =>
    rw [List.takeWhile_cons_of_pos (by simpa using h c (by simp)), ih (fun x hx => h x (by simp [hx]))]

/-- The timestamp of a line and what follows it. -/
theorem scanInt_line {t : ℤ} (ht : IsInt64 t) {rest : Text} (hp : ∀ c ∈ rest, c ≠ '\x00' ∧ c ≠ '\n') (he : Ends rest) :
    scanInt (cString (printInt t ++ rest)) = some (t, rest) := by
  rw [cString_plain, scanInt_print ht rest (ends_not_digit he)]
  intro c hc
  rcases List.mem_append.mp hc with hc | hc
  · exact (printInt_plain t c hc).1
  · exact (hp c hc).1

theorem price_line {line : Text} {r : PriceRecord F} (h : PriceLine sc line r) (s : PriceRecord F) :
    scanPriceLine sc line s = r := by
  obtain ⟨ht, rest, hn, rfl⟩ := h
  unfold scanPriceLine
  rw [scanInt_line ht (NumbersText_plain hn) (NumbersText_ends hn)]
  have := scanFloats_read hn
  simp only [List.length_cons, List.length_nil] at this
  simp only [this]
  rfl

theorem ohlc_line {line : Text} {r : OhlcTick F} (h : OhlcLine sc line r) (s : OhlcTick F) :
    scanOhlcLine sc line s = r := by
  obtain ⟨ht, rest, hn, rfl⟩ := h
  unfold scanOhlcLine
  rw [scanInt_line ht (NumbersText_plain hn) (NumbersText_ends hn)]
  have := scanFloats_read hn
  simp only [List.length_cons, List.length_nil] at this
  simp only [this]
  rfl

theorem price_line_newline {line : Text} {r : PriceRecord F} (h : PriceLine sc line r) : '\n' ∉ line := by
  obtain ⟨ht, rest, hn, rfl⟩ := h
  intro hc
  rcases List.mem_append.mp hc with hc | hc
  · exact (printInt_plain _ _ hc).2.1 rfl
  · exact (NumbersText_plain hn _ hc).2 rfl

theorem ohlc_line_newline {line : Text} {r : OhlcTick F} (h : OhlcLine sc line r) : '\n' ∉ line := by
  obtain ⟨ht, rest, hn, rfl⟩ := h
  intro hc
  rcases List.mem_append.mp hc with hc | hc
  · exact (printInt_plain _ _ hc).2.1 rfl
  · exact (NumbersText_plain hn _ hc).2 rfl

end

theorem forall₂_left {α β : Type} {P : α → β → Prop} {Q : α → Prop} (hPQ : ∀ a b, P a b → Q a) {l : List α} {r : List β}
    (h : List.Forall₂ P l r) : ∀ a ∈ l, Q a := by
  induction h with
  | nil => simp
  | cons hab _ ih =>
    intro a ha
    rcases List.mem_cons.mp ha with rfl | ha
    · exact hPQ _ _ hab
    · exact ih a ha

theorem forall₂_snoc {α β : Type} {P : α → β → Prop} {l : List α} {r : List β} {x : β} (h : List.Forall₂ P l (r ++ [x])) :
    ∃ l' a, l = l' ++ [a] ∧ List.Forall₂ P l' r ∧ P a x := by
  induction r generalizing l with
  | nil =>
    cases h with
    | cons h1 h2 => cases h2; exact ⟨[], _, rfl, .nil, h1⟩
  | cons y r ih =>
    cases h with
    | cons h1 h2 =>
      obtain ⟨l', a, rfl, h3, h4⟩ := ih h2
      exact ⟨_ :: l', a, rfl, .cons h1 h3, h4⟩

/-! ### C65 -/

section
variable {F : Type} [FloatOps F] {sc : Scanner F}

theorem checkPrice_iff (r : PriceRecord F) : checkPrice r = none ↔ GoodPrice r := by
  unfold checkPrice
  constructor
  · intro h
    split at h
    · cases h
    · split at h
      · cases h
      · rename_i h1 h2
        exact ⟨by simpa using h1, by simpa using h2⟩
  · rintro ⟨h1, h2⟩
    rw [h1, h2]; rfl

theorem checkOhlc_iff (t : OhlcTick F) : checkOhlc t = none ↔ GoodTick t := by
  unfold checkOhlc
  constructor
  · intro h
    split at h
    · cases h
    · split at h
      · cases h
      · rename_i h1 h2
        simp only [Bool.or_eq_true, not_or, Bool.not_eq_true] at h1
        obtain ⟨⟨⟨⟨⟨⟨⟨⟨a, b⟩, c⟩, d⟩, e⟩, f⟩, g⟩, i⟩, j⟩ := h1
        refine ⟨?_, ?_, ?_, by simpa using h2⟩ <;> simp only [List.mem_cons, List.not_mem_nil, or_false] <;> intro x hx
        · rcases hx with rfl | rfl | rfl | rfl <;> assumption
        · rcases hx with rfl | rfl | rfl <;> assumption
        · rcases hx with rfl | rfl <;> assumption
  · rintro ⟨h1, h2, h3, h4⟩
    simp only [List.mem_cons, List.not_mem_nil, or_false, forall_eq_or_imp, forall_eq] at h1 h2 h3
    rw [h1.1, h1.2.1, h1.2.2.1, h1.2.2.2, h2.1, h2.2.1, h2.2.2, h3.1, h3.2, h4]; rfl

/-- Loadable, from what the loop guarantees. -/
theorem loadable_of_loop {R : Type} {ts : R → ℤ} {check : R → Option Complaint} {good : R → Prop}
    (hg : ∀ r, check r = none ↔ good r) {start stop : ℤ} {row : ℕ} {rs out : List R} :
    recordLoop ts check start stop row 0 rs = .ok out ↔
      out = periodOf ts start stop rs ∧ Loadable ts good start stop out := by
  rw [recordLoop_ok_iff]
  constructor
  · rintro ⟨he, ha, hs⟩
    refine ⟨he, fun r hr => (ha r hr).1, ?_, hs, fun r hr => (hg r).mp (ha r hr).2.2⟩
    intro r hr
    rw [he] at hr
    exact (periodOf_window hr).2
  · rintro ⟨he, h⟩
    exact ⟨he, fun r hr => ⟨h.positive r hr, le_of_lt (h.positive r hr), (hg r).mpr (h.each r hr)⟩, h.sorted⟩

/-- **C65** (CSV, prices). Whatever the file holds: if it loads, then the history has positive timestamps inside the
window, in order, positive prices and no negative volumes. -/
theorem C65_price_csv (sc : Scanner F) (start stop : ℤ) (file : Option Text) (out : List (PriceRecord F))
    (h : readPriceCsv sc start stop file = .ok out) : Loadable PriceRecord.ts GoodPrice start stop out := by
  unfold readPriceCsv at h
  cases file with
  | none => cases h
  | some text =>
    dsimp only at h
    rw [csvLoop_eq] at h
    exact ((loadable_of_loop checkPrice_iff).mp h).2

/-- **C65** (CSV, OHLC). Whatever the file holds: if it loads, the history has positive timestamps inside the window, in
order, and well-formed ticks. -/
theorem C65_ohlc_csv (sc : Scanner F) (start stop : ℤ) (file : Option Text) (out : List (OhlcTick F))
    (h : readOhlcCsv sc start stop file = .ok out) : Loadable OhlcTick.ts GoodTick start stop out := by
  unfold readOhlcCsv at h
  cases file with
  | none => cases h
  | some text =>
    dsimp only at h
    rw [csvLoop_eq] at h
    exact ((loadable_of_loop checkOhlc_iff).mp h).2

/-- **C65** (CSV, prices, nothing is lost or made up). A file whose lines spell out records loads if and only if the
records of the requested period are good, positive and in order, and what is loaded is exactly these records. -/
theorem C65_price_csv_exact (start stop : ℤ) (lines : List Text) (rs : List (PriceRecord F))
    (hl : List.Forall₂ (PriceLine sc) lines rs) (out : List (PriceRecord F)) :
    readPriceCsv sc start stop (some (textOf lines)) = .ok out ↔
      out = periodOf PriceRecord.ts start stop rs ∧ Loadable PriceRecord.ts GoodPrice start stop out := by
  unfold readPriceCsv
  dsimp only
  rw [linesOf_textOf _ (forall₂_left (Q := fun l => '\n' ∉ l) (fun _ _ => price_line_newline) hl),
    csvLoop_eq, csvValues_of_lines _ (hl.imp fun _ _ h => price_line h)]
  exact loadable_of_loop checkPrice_iff

/-- **C65** (CSV, OHLC, nothing is lost or made up). -/
theorem C65_ohlc_csv_exact (start stop : ℤ) (lines : List Text) (rs : List (OhlcTick F))
    (hl : List.Forall₂ (OhlcLine sc) lines rs) (out : List (OhlcTick F)) :
    readOhlcCsv sc start stop (some (textOf lines)) = .ok out ↔
      out = periodOf OhlcTick.ts start stop rs ∧ Loadable OhlcTick.ts GoodTick start stop out := by
  unfold readOhlcCsv
  dsimp only
  rw [linesOf_textOf _ (forall₂_left (Q := fun l => '\n' ∉ l) (fun _ _ => ohlc_line_newline) hl),
    csvLoop_eq, csvValues_of_lines _ (hl.imp fun _ _ h => ohlc_line h)]
  exact loadable_of_loop checkOhlc_iff

/-- A complaint about a price record is justified. -/
theorem checkPrice_what {r : PriceRecord F} {what : Complaint} (h : checkPrice r = some what) :
    (what = .price ∧ (r.price <=. lit F 0) = true) ∨ (what = .volume ∧ (r.volume <. lit F 0) = true) := by
  unfold checkPrice at h
  split at h
  · rename_i h1; cases h; exact Or.inl ⟨rfl, h1⟩
  · split at h
    · rename_i h1; cases h; exact Or.inr ⟨rfl, h1⟩
    · cases h

/-- A complaint about a tick is justified. -/
theorem checkOhlc_what {t : OhlcTick F} {what : Complaint} (h : checkOhlc t = some what) :
    (what = .price ∧ ((∃ x ∈ [t.opn, t.high, t.low, t.close], (x <=. lit F 0) = true) ∨
      (∃ x ∈ [t.opn, t.high, t.close], (t.low >. x) = true) ∨ ∃ x ∈ [t.opn, t.close], (t.high <. x) = true)) ∨
    (what = .volume ∧ (t.volume <. lit F 0) = true) := by
  unfold checkOhlc at h
  split at h
  · rename_i h1
    cases h
    refine Or.inl ⟨rfl, ?_⟩
    simp only [Bool.or_eq_true] at h1
    simp only [List.mem_cons, List.not_mem_nil, or_false, exists_eq_or_imp, exists_eq_left]
    tauto
  · split at h
    · rename_i h1; cases h; exact Or.inr ⟨rfl, h1⟩
    · cases h

/-- **C65** (CSV, prices, errors). If a file whose lines spell out records does not load, the error names the line of the
first record of the period that must not be loaded, and what is wrong with it; the lines before it do load. -/
theorem C65_price_csv_error (start stop : ℤ) (lines : List Text) (rs : List (PriceRecord F))
    (hl : List.Forall₂ (PriceLine sc) lines rs) (e : LoadError)
    (h : readPriceCsv sc start stop (some (textOf lines)) = .error e) :
    ∃ i r what, e = .record (i + 1) what ∧ rs[i]? = some r ∧ InWindow start stop r.ts ∧
      ((what = .timestamp ∧ (r.ts ≤ 0 ∨ ∃ r' ∈ periodOf PriceRecord.ts start stop (rs.take i), r.ts < r'.ts)) ∨
        (what = .price ∧ (r.price <=. lit F 0) = true) ∨ (what = .volume ∧ (r.volume <. lit F 0) = true)) ∧
      Loadable PriceRecord.ts GoodPrice start stop (periodOf PriceRecord.ts start stop (rs.take i)) := by
  unfold readPriceCsv at h
  dsimp only at h
  rw [linesOf_textOf _ (forall₂_left (Q := fun l => '\n' ∉ l) (fun _ _ => price_line_newline) hl), csvLoop_eq,
    csvValues_of_lines _ (hl.imp fun _ _ h => price_line h)] at h
  obtain ⟨i, r, what, he, hi, hw, hwhy, hok⟩ := recordLoop_error _ _ _ _ _ _ _ h
  refine ⟨i, r, what, by rw [he]; congr 1; omega, hi, hw, ?_, ((loadable_of_loop checkPrice_iff).mp hok).2⟩
  rcases hwhy with ⟨h1, h2 | h2 | h2⟩ | ⟨h1, h2⟩
  · exact Or.inl ⟨h1, Or.inl h2⟩
  · exact Or.inl ⟨h1, Or.inl h2.le⟩
  · exact Or.inl ⟨h1, Or.inr h2⟩
  · exact Or.inr (checkPrice_what h2)

/-- **C65** (CSV, OHLC, errors). -/
theorem C65_ohlc_csv_error (start stop : ℤ) (lines : List Text) (rs : List (OhlcTick F))
    (hl : List.Forall₂ (OhlcLine sc) lines rs) (e : LoadError)
    (h : readOhlcCsv sc start stop (some (textOf lines)) = .error e) :
    ∃ i t what, e = .record (i + 1) what ∧ rs[i]? = some t ∧ InWindow start stop t.ts ∧
      ((what = .timestamp ∧ (t.ts ≤ 0 ∨ ∃ t' ∈ periodOf OhlcTick.ts start stop (rs.take i), t.ts < t'.ts)) ∨
        (what = .price ∧ ((∃ x ∈ [t.opn, t.high, t.low, t.close], (x <=. lit F 0) = true) ∨
          (∃ x ∈ [t.opn, t.high, t.close], (t.low >. x) = true) ∨ ∃ x ∈ [t.opn, t.close], (t.high <. x) = true)) ∨
        (what = .volume ∧ (t.volume <. lit F 0) = true)) ∧
      Loadable OhlcTick.ts GoodTick start stop (periodOf OhlcTick.ts start stop (rs.take i)) := by
  unfold readOhlcCsv at h
  dsimp only at h
  rw [linesOf_textOf _ (forall₂_left (Q := fun l => '\n' ∉ l) (fun _ _ => ohlc_line_newline) hl), csvLoop_eq,
    csvValues_of_lines _ (hl.imp fun _ _ h => ohlc_line h)] at h
  obtain ⟨i, r, what, he, hi, hw, hwhy, hok⟩ := recordLoop_error _ _ _ _ _ _ _ h
  refine ⟨i, r, what, by rw [he]; congr 1; omega, hi, hw, ?_, ((loadable_of_loop checkOhlc_iff).mp hok).2⟩
  rcases hwhy with ⟨h1, h2 | h2 | h2⟩ | ⟨h1, h2⟩
  · exact Or.inl ⟨h1, Or.inl h2⟩
  · exact Or.inl ⟨h1, Or.inl h2.le⟩
  · exact Or.inl ⟨h1, Or.inr h2⟩
  · exact Or.inr (checkOhlc_what h2)

/-- **C65** (sorted files). In a file in order of time, the records of the period are simply those inside the window. -/
theorem C65_sorted_file {R : Type} (ts : R → ℤ) (start stop : ℤ) (rs : List R) (h : SortedBy ts rs) :
    periodOf ts start stop rs = rs.filter (fun r => decide (InWindow start stop (ts r))) := periodOf_sorted start stop h

/-! ### C65: proto files -/

omit [FloatOps F] in
/-- The callback over the messages of a file. -/
theorem applyReader_loop {R : Type} (ts : R → ℤ) (check : R → Option Complaint) (start stop : ℤ) (last : Status)
    (row : ℕ) (prev : ℤ) (hist rs : List R) :
    (∃ tail p, recordLoop ts check start stop row prev rs = .ok tail ∧
      (applyReader (protoReader ts check start stop) last (prev, hist, none) rs = ((p, hist ++ tail, none), last) ∨
       applyReader (protoReader ts check start stop) last (prev, hist, none) rs = ((p, hist ++ tail, none), .ok) ∧
        ∃ r ∈ rs, 0 < stop ∧ stop ≤ ts r ∧ ¬ (0 < start ∧ ts r < start))) ∨
    (∃ i p h' what m, recordLoop ts check start stop row prev rs = .error (.record (row + i + 1) what) ∧ rs[i]? = some m ∧
      applyReader (protoReader ts check start stop) last (prev, hist, none) rs =
        ((p, h', some (.record (hist.length + (periodOf ts start stop (rs.take i)).length) what, m)), .aborted)) := by
  induction rs generalizing row prev hist with
  | nil => exact Or.inl ⟨[], prev, rfl, Or.inl (by simp [applyReader])⟩
  | cons r rs ih =>
    unfold recordLoop applyReader protoReader
    by_cases h2 : start > 0 ∧ ts r < start
    · simp only [if_pos h2]
      rcases ih (row + 1) prev hist with ⟨tail, p, h3, h4⟩ | ⟨i, p, h', what, m, h3, hi, h4⟩
      · refine Or.inl ⟨tail, p, h3, ?_⟩
        rcases h4 with h4 | ⟨h4, x, hx, h5⟩
        · exact Or.inl h4
        · exact Or.inr ⟨h4, x, by simp [hx], h5⟩
      · refine Or.inr ⟨i + 1, p, h', what, m, by rw [h3]; congr 2; omega, by simpa using hi, ?_⟩
        rw [List.take_succ_cons, periodOf_cons, if_pos h2]; exact h4
    · simp only [if_neg h2]
      by_cases h1 : stop > 0 ∧ ts r ≥ stop
      · simp only [if_pos h1]
        exact Or.inl ⟨[], prev, rfl, Or.inr ⟨by simp, r, by simp, h1.1, h1.2, h2⟩⟩
      · simp only [if_neg h1]
        by_cases h3 : ts r ≤ 0 ∨ ts r < prev
        · simp only [if_pos h3]
          exact Or.inr ⟨0, prev, hist, _, r, rfl, rfl, rfl⟩
        · simp only [if_neg h3]
          cases hc : check r with
          | some what => exact Or.inr ⟨0, prev, hist, _, r, rfl, rfl, rfl⟩
          | none =>
            dsimp only
            rcases ih (row + 1) (ts r) (hist ++ [r]) with ⟨tail, p, h4, h5⟩ | ⟨i, p, h', what, m, h4, hi, h5⟩
            · left
              refine ⟨r :: tail, p, ?_, ?_⟩
              · rw [h4]; rfl
              · rw [List.append_assoc] at h5
                rcases h5 with h5 | ⟨h5, x, hx, h6⟩
                · exact Or.inl h5
                · exact Or.inr ⟨h5, x, by simp [hx], h6⟩
            · refine Or.inr ⟨i + 1, p, h', what, m, by rw [h4]; simp only [Except.map]; congr 2; omega, by simpa using hi, ?_⟩
              rw [List.take_succ_cons, periodOf_cons, if_neg h2, if_neg h1]
              refine Eq.trans h5 ?_
              rw [List.length_append, List.length_cons, List.length_cons, List.length_nil, Nat.add_assoc, Nat.zero_add,
                Nat.add_comm 1]

omit [FloatOps F] in
/-- A proto history loads if and only if the records of the period may be loaded and the file is intact as far as it is
read. -/
theorem readHistoryProto_ok {R : Type} {codec : Codec R} {ts : R → ℤ} {check : R → Option Complaint} {good : R → Prop}
    (hg : ∀ r, check r = none ↔ good r) {start stop : ℤ} {bytes : List UInt8} {out : List R}
    (h : readHistoryProto codec ts check start stop (some bytes) = .ok out) :
    out = periodOf ts start stop (Proto.readVector codec [] bytes).1 ∧ Loadable ts good start stop out := by
  obtain ⟨ms, st, h0, h1, h2⟩ := C64_callback codec bytes
  have hv := h1 []
  rw [List.nil_append] at hv
  rw [hv]
  unfold readHistoryProto Proto.readFile at h
  dsimp only at h
  rw [h2] at h
  rcases applyReader_loop ts check start stop st 0 0 [] ms with ⟨tail, p, h3, h4⟩ | ⟨i, p, h', what, m, h3, hi, h4⟩
  · rw [List.nil_append] at h4
    have : out = tail := by
      rcases h4 with h4 | ⟨h4, -⟩
      · rw [h4] at h
        cases st with
        | ok => exact (Except.ok.inj h).symm
        | invalidArgument => cases h
        | aborted => cases h
      · rw [h4] at h
        exact (Except.ok.inj h).symm
    rw [this]
    exact (loadable_of_loop hg).mp h3
  · rw [h4] at h; cases h

omit [FloatOps F] in
/-- The same for an intact file. -/
theorem readHistoryProto_iff {R : Type} {codec : Codec R} {ts : R → ℤ}
    {check : R → Option Complaint} {good : R → Prop}
    (hg : ∀ r, check r = none ↔ good r) {start stop : ℤ} {rs out : List R} (hw : ∀ r ∈ rs, Storable codec r) :
    readHistoryProto codec ts check start stop (some (fileOf codec rs)) = .ok out ↔
      out = periodOf ts start stop rs ∧ Loadable ts good start stop out := by
  rw [← loadable_of_loop (row := 0) hg]
  unfold readHistoryProto Proto.readFile
  dsimp only
  rw [C62_callback rs hw]
  rcases applyReader_loop ts check start stop .ok 0 0 [] rs with ⟨tail, p, h3, h4⟩ | ⟨i, p, h', what, m, h3, hi, h4⟩
  · rw [List.nil_append] at h4
    rw [h3]
    rcases h4 with h4 | ⟨h4, -⟩ <;> rw [h4] <;> simp
  · rw [h3, h4]
    constructor <;> intro h <;> cases h

/-- **C65** (proto files, prices). Whatever bytes the file holds: what loads is loadable, and it is the period of the
messages in the file. -/
theorem C65_price_proto (codec : Codec (PriceRecord F)) (start stop : ℤ) (bytes : List UInt8) (out : List (PriceRecord F))
    (h : readPriceProto codec start stop (some bytes) = .ok out) :
    out = periodOf PriceRecord.ts start stop (Proto.readVector codec [] bytes).1 ∧
      Loadable PriceRecord.ts GoodPrice start stop out := readHistoryProto_ok checkPrice_iff h

/-- **C65** (proto files, OHLC). -/
theorem C65_ohlc_proto (codec : Codec (OhlcTick F)) (start stop : ℤ) (bytes : List UInt8) (out : List (OhlcTick F))
    (h : readOhlcProto codec start stop (some bytes) = .ok out) :
    out = periodOf OhlcTick.ts start stop (Proto.readVector codec [] bytes).1 ∧
      Loadable OhlcTick.ts GoodTick start stop out := readHistoryProto_ok checkOhlc_iff h

/-- **C65** (proto files, prices, nothing is lost or made up). A file to which records were written loads if and only if the
records of the period are good, and then as exactly these records. -/
theorem C65_price_proto_exact {codec : Codec (PriceRecord F)} (start stop : ℤ)
    (rs out : List (PriceRecord F)) (hw : ∀ r ∈ rs, Storable codec r) :
    readPriceProto codec start stop (some (fileOf codec rs)) = .ok out ↔
      out = periodOf PriceRecord.ts start stop rs ∧ Loadable PriceRecord.ts GoodPrice start stop out :=
  readHistoryProto_iff checkPrice_iff hw

/-- **C65** (proto files, OHLC, nothing is lost or made up). -/
theorem C65_ohlc_proto_exact {codec : Codec (OhlcTick F)} (start stop : ℤ)
    (rs out : List (OhlcTick F)) (hw : ∀ r ∈ rs, Storable codec r) :
    readOhlcProto codec start stop (some (fileOf codec rs)) = .ok out ↔
      out = periodOf OhlcTick.ts start stop rs ∧ Loadable OhlcTick.ts GoodTick start stop out :=
  readHistoryProto_iff checkOhlc_iff hw

omit [FloatOps F] in
theorem readHistoryProto_error {R : Type} {codec : Codec R} {ts : R → ℤ} {check : R → Option Complaint} {good : R → Prop}
    (hg : ∀ r, check r = none ↔ good r) {start stop : ℤ} {file : Option (List UInt8)} {e : LoadError} {about : Option R}
    (h : readHistoryProto codec ts check start stop file = .error (e, about)) :
    (e = .cannotOpen ∧ about = none ∧ file = none) ∨
    ∃ bytes, file = some bytes ∧
      ((e = .cannotParse ∧ about = none ∧ (Proto.readVector codec [] bytes).2 = .invalidArgument ∧
        Loadable ts good start stop (periodOf ts start stop (Proto.readVector codec [] bytes).1)) ∨
      ∃ i m what, (Proto.readVector codec [] bytes).1[i]? = some m ∧ about = some m ∧
        e = .record (periodOf ts start stop ((Proto.readVector codec [] bytes).1.take i)).length what ∧
        InWindow start stop (ts m) ∧
        ((what = .timestamp ∧ (ts m ≤ 0 ∨
            ∃ m' ∈ periodOf ts start stop ((Proto.readVector codec [] bytes).1.take i), ts m < ts m')) ∨
          0 < ts m ∧ check m = some what) ∧
        Loadable ts good start stop (periodOf ts start stop ((Proto.readVector codec [] bytes).1.take i))) := by
  cases file with
  | none =>
    have := Except.error.inj h
    cases this
    exact .inl ⟨rfl, rfl, rfl⟩
  | some bytes =>
    refine .inr ⟨bytes, rfl, ?_⟩
    obtain ⟨ms, st, h0, h1, h2⟩ := C64_callback codec bytes
    have hv := h1 []
    rw [List.nil_append] at hv
    rw [hv]
    unfold readHistoryProto Proto.readFile at h
    dsimp only at h
    rw [h2] at h
    rcases applyReader_loop ts check start stop st 0 0 [] ms with ⟨tail, p, h3, h4⟩ | ⟨i, p, h', what, m, h3, hi, h4⟩
    · left
      rw [List.nil_append] at h4
      obtain ⟨e1, e2⟩ := (loadable_of_loop hg).mp h3
      rcases h4 with h4 | ⟨h4, -⟩
      · rw [h4] at h
        cases st with
        | ok => cases h
        | invalidArgument =>
          have := Except.error.inj h
          cases this
          exact ⟨rfl, rfl, rfl, e1 ▸ e2⟩
        | aborted => exact absurd rfl h0
      · rw [h4] at h; cases h
    · right
      rw [h4] at h
      have := Except.error.inj h
      cases this
      obtain ⟨i', r, what', he, hi', hw, hwhy, hok⟩ := recordLoop_error _ _ _ _ _ _ _ h3
      obtain ⟨hii, rfl⟩ := LoadError.record.inj he
      have hii : i' = i := by omega
      subst hii
      rw [hi] at hi'
      cases hi'
      refine ⟨i', m, what, hi, rfl, by simp, hw, ?_, ((loadable_of_loop hg).mp hok).2⟩
      rcases hwhy with ⟨a, b | b | b⟩ | b
      · exact .inl ⟨a, .inl b⟩
      · exact .inl ⟨a, .inl b.le⟩
      · exact .inl ⟨a, .inr b⟩
      · exact .inr b

/-- **C65** (proto files, prices, errors). If a file does not load, it cannot be opened; or its messages can all be loaded,
but are followed by something that is not a message; or the error is about the first message of the period that must not be
loaded.  The number it gives is not the position of that message in the file: it is the number of messages loaded before it
(messages before the start of the period are not counted). -/
theorem C65_price_proto_error (codec : Codec (PriceRecord F)) (start stop : ℤ) (file : Option (List UInt8)) (e : LoadError)
    (about : Option (PriceRecord F)) (h : readPriceProto codec start stop file = .error (e, about)) :
    (e = .cannotOpen ∧ about = none ∧ file = none) ∨
    ∃ bytes all st, file = some bytes ∧ Proto.readVector codec [] bytes = (all, st) ∧
      ((e = .cannotParse ∧ about = none ∧ st = .invalidArgument ∧
        Loadable PriceRecord.ts GoodPrice start stop (periodOf PriceRecord.ts start stop all)) ∨
      ∃ i r what, all[i]? = some r ∧ about = some r ∧
        e = .record (periodOf PriceRecord.ts start stop (all.take i)).length what ∧ InWindow start stop r.ts ∧
        ((what = .timestamp ∧ (r.ts ≤ 0 ∨ ∃ r' ∈ periodOf PriceRecord.ts start stop (all.take i), r.ts < r'.ts)) ∨
          (what = .price ∧ (r.price <=. lit F 0) = true) ∨ (what = .volume ∧ (r.volume <. lit F 0) = true)) ∧
        Loadable PriceRecord.ts GoodPrice start stop (periodOf PriceRecord.ts start stop (all.take i))) := by
  rcases readHistoryProto_error checkPrice_iff h with h | ⟨bytes, hf, h⟩
  · exact .inl h
  · refine .inr ⟨bytes, _, _, hf, rfl, ?_⟩
    rcases h with h | ⟨i, m, what, h1, h2, h3, h4, h5, h6⟩
    · exact .inl h
    · refine .inr ⟨i, m, what, h1, h2, h3, h4, ?_, h6⟩
      rcases h5 with h5 | ⟨-, h5⟩
      · exact .inl h5
      · exact .inr (checkPrice_what h5)

/-- **C65** (proto files, OHLC, errors). -/
theorem C65_ohlc_proto_error (codec : Codec (OhlcTick F)) (start stop : ℤ) (file : Option (List UInt8)) (e : LoadError)
    (about : Option (OhlcTick F)) (h : readOhlcProto codec start stop file = .error (e, about)) :
    (e = .cannotOpen ∧ about = none ∧ file = none) ∨
    ∃ bytes all st, file = some bytes ∧ Proto.readVector codec [] bytes = (all, st) ∧
      ((e = .cannotParse ∧ about = none ∧ st = .invalidArgument ∧
        Loadable OhlcTick.ts GoodTick start stop (periodOf OhlcTick.ts start stop all)) ∨
      ∃ i t what, all[i]? = some t ∧ about = some t ∧
        e = .record (periodOf OhlcTick.ts start stop (all.take i)).length what ∧ InWindow start stop t.ts ∧
        ((what = .timestamp ∧ (t.ts ≤ 0 ∨ ∃ t' ∈ periodOf OhlcTick.ts start stop (all.take i), t.ts < t'.ts)) ∨
          (what = .price ∧ ((∃ x ∈ [t.opn, t.high, t.low, t.close], (x <=. lit F 0) = true) ∨
            (∃ x ∈ [t.opn, t.high, t.close], (t.low >. x) = true) ∨ ∃ x ∈ [t.opn, t.close], (t.high <. x) = true)) ∨
          (what = .volume ∧ (t.volume <. lit F 0) = true)) ∧
        Loadable OhlcTick.ts GoodTick start stop (periodOf OhlcTick.ts start stop (all.take i))) := by
  rcases readHistoryProto_error checkOhlc_iff h with h | ⟨bytes, hf, h⟩
  · exact .inl h
  · refine .inr ⟨bytes, _, _, hf, rfl, ?_⟩
    rcases h with h | ⟨i, m, what, h1, h2, h3, h4, h5, h6⟩
    · exact .inl h
    · refine .inr ⟨i, m, what, h1, h2, h3, h4, ?_, h6⟩
      rcases h5 with h5 | ⟨-, h5⟩
      · exact .inl h5
      · exact .inr (checkOhlc_what h5)

/-! ### C66: lines that cannot be read -/

omit [FloatOps F] in
theorem csvValues_congr {R : Type} {scan : Text → R → R} (pre : List Text) {a b : List Text} (cur : R)
    (h : ∀ s, csvValues scan s a = csvValues scan s b) : csvValues scan cur (pre ++ a) = csvValues scan cur (pre ++ b) := by
  induction pre generalizing cur with
  | nil => exact h cur
  | cons l pre ih => simp [csvValues, ih]

omit [FloatOps F] in
theorem scanPrice_junk {line : Text} (h : NoTimestamp line) (s : PriceRecord F) : scanPriceLine sc line s = s := by
  unfold scanPriceLine; rw [h]

omit [FloatOps F] in
theorem scanOhlc_junk {line : Text} (h : NoTimestamp line) (s : OhlcTick F) : scanOhlcLine sc line s = s := by
  unfold scanOhlcLine; rw [h]

/-- **C66** (prices). A line without a readable timestamp is not noticed: the file is read exactly as if that line were a
copy of the line before it. -/
theorem C66_price_unreadable_line (start stop : ℤ) (pre post : List Text) (line junk : Text) (r : PriceRecord F)
    (hl : PriceLine sc line r) (hj : NoTimestamp junk) (hn : ∀ l ∈ pre ++ junk :: post, '\n' ∉ l) :
    readPriceCsv sc start stop (some (textOf (pre ++ line :: junk :: post))) =
      readPriceCsv sc start stop (some (textOf (pre ++ line :: line :: post))) := by
  have hnl := price_line_newline hl
  unfold readPriceCsv
  dsimp only
  rw [linesOf_textOf _ (by simp only [List.mem_append, List.mem_cons] at hn ⊢; rintro l (h | rfl | rfl | h) <;>
      first | exact hnl | (apply hn; tauto)),
    linesOf_textOf _ (by simp only [List.mem_append, List.mem_cons] at hn ⊢; rintro l (h | rfl | rfl | h) <;>
      first | exact hnl | (apply hn; tauto)),
    csvLoop_eq, csvLoop_eq]
  rw [csvValues_congr pre _ (fun s => ?_)]
  simp only [csvValues, price_line hl, scanPrice_junk hj]

/-- **C66** (OHLC). -/
theorem C66_ohlc_unreadable_line (start stop : ℤ) (pre post : List Text) (line junk : Text) (r : OhlcTick F)
    (hl : OhlcLine sc line r) (hj : NoTimestamp junk) (hn : ∀ l ∈ pre ++ junk :: post, '\n' ∉ l) :
    readOhlcCsv sc start stop (some (textOf (pre ++ line :: junk :: post))) =
      readOhlcCsv sc start stop (some (textOf (pre ++ line :: line :: post))) := by
  have hnl := ohlc_line_newline hl
  unfold readOhlcCsv
  dsimp only
  rw [linesOf_textOf _ (by simp only [List.mem_append, List.mem_cons] at hn ⊢; rintro l (h | rfl | rfl | h) <;>
      first | exact hnl | (apply hn; tauto)),
    linesOf_textOf _ (by simp only [List.mem_append, List.mem_cons] at hn ⊢; rintro l (h | rfl | rfl | h) <;>
      first | exact hnl | (apply hn; tauto)),
    csvLoop_eq, csvLoop_eq]
  rw [csvValues_congr pre _ (fun s => ?_)]
  simp only [csvValues, ohlc_line hl, scanOhlc_junk hj]

omit [FloatOps F] in
theorem scanPrice_cut {t : ℤ} (ht : IsInt64 t) {rest : Text} (hp : ∀ c ∈ rest, c ≠ '\x00' ∧ c ≠ '\n') (he : Ends rest)
    (hx : scanFloats sc 2 rest = []) (s : PriceRecord F) :
    scanPriceLine sc (printInt t ++ rest) s = ⟨t, s.price, s.volume⟩ := by
  unfold scanPriceLine
  rw [scanInt_line ht hp he]
  simp only [hx]
  rfl

/-- **C66** (prices, incomplete lines). A line with a timestamp but no readable price is loaded with the price and the
volume of the line before it. -/
theorem C66_price_incomplete_line (start stop : ℤ) (pre post : List Text) (line line' : Text) (r : PriceRecord F)
    (hl : PriceLine sc line r) (t : ℤ) (ht : IsInt64 t) (rest : Text) (hp : ∀ c ∈ rest, c ≠ '\x00' ∧ c ≠ '\n')
    (he : Ends rest) (hx : scanFloats sc 2 rest = []) (hl' : PriceLine sc line' ⟨t, r.price, r.volume⟩)
    (hn : ∀ l ∈ pre ++ post, '\n' ∉ l) :
    readPriceCsv sc start stop (some (textOf (pre ++ line :: (printInt t ++ rest) :: post))) =
      readPriceCsv sc start stop (some (textOf (pre ++ line :: line' :: post))) := by
  have hnl := price_line_newline hl
  have hnl' := price_line_newline hl'
  have hnj : '\n' ∉ printInt t ++ rest := by
    intro hc
    rcases List.mem_append.mp hc with hc | hc
    · exact (printInt_plain _ _ hc).2.1 rfl
    · exact (hp _ hc).2 rfl
  unfold readPriceCsv
  dsimp only
  rw [linesOf_textOf _ (by simp only [List.mem_append, List.mem_cons] at hn ⊢; rintro l (h | rfl | rfl | h) <;>
      first | assumption | exact hn l (Or.inl h) | exact hn l (Or.inr h)),
    linesOf_textOf _ (by simp only [List.mem_append, List.mem_cons] at hn ⊢; rintro l (h | rfl | rfl | h) <;>
      first | assumption | exact hn l (Or.inl h) | exact hn l (Or.inr h)),
    csvLoop_eq, csvLoop_eq]
  rw [csvValues_congr pre _ (fun s => ?_)]
  simp only [csvValues, price_line hl, price_line hl', scanPrice_cut ht hp he hx]

/-- **C66** (prices, consequence). Between two good parts of a file, an unreadable line adds a record that is not in the
file: the last record of the first part, a second time. -/
theorem C66_price_duplicate (start stop : ℤ) (pre post : List Text) (junk : Text) (rs rs' : List (PriceRecord F))
    (r : PriceRecord F) (hpre : List.Forall₂ (PriceLine sc) pre (rs ++ [r])) (hpost : List.Forall₂ (PriceLine sc) post rs')
    (hj : NoTimestamp junk) (hn : '\n' ∉ junk)
    (hok : Loadable PriceRecord.ts GoodPrice start stop (rs ++ r :: rs')) :
    readPriceCsv sc start stop (some (textOf (pre ++ post))) = .ok (rs ++ r :: rs') ∧
    readPriceCsv sc start stop (some (textOf (pre ++ junk :: post))) = .ok (rs ++ r :: r :: rs') := by
  have hper : ∀ {l : List (PriceRecord F)}, Loadable PriceRecord.ts GoodPrice start stop l →
      l = periodOf PriceRecord.ts start stop l := by
    intro l h
    rw [C65_sorted_file _ _ _ _ h.sorted, eq_comm, List.filter_eq_self]
    intro x hx
    exact decide_eq_true (h.window x hx)
  constructor
  · have hf : List.Forall₂ (PriceLine sc) (pre ++ post) (rs ++ r :: rs') := by
      have := List.rel_append hpre hpost
      simpa using this
    exact (C65_price_csv_exact start stop _ _ hf _).mpr ⟨hper hok, hok⟩
  · -- the first part ends with a line that spells out `r`
    obtain ⟨pre', last, rfl, h1, h2⟩ : ∃ pre' last, pre = pre' ++ [last] ∧ List.Forall₂ (PriceLine sc) pre' rs ∧
        PriceLine sc last r := by
      exact forall₂_snoc hpre
    rw [List.append_assoc, List.singleton_append,
      C66_price_unreadable_line start stop pre' post last junk r h2 hj]
    · have hf : List.Forall₂ (PriceLine sc) (pre' ++ last :: last :: post) (rs ++ r :: r :: rs') :=
        List.rel_append h1 (.cons h2 (.cons h2 hpost))
      have hok' : Loadable PriceRecord.ts GoodPrice start stop (rs ++ r :: r :: rs') := by
        have hs : SortedBy PriceRecord.ts (rs ++ r :: r :: rs') := by
          have := hok.sorted
          unfold SortedBy at this ⊢
          rw [List.pairwise_append, List.pairwise_cons] at this ⊢
          refine ⟨this.1, ⟨?_, ?_⟩, ?_⟩
          · intro x hx
            rcases List.mem_cons.mp hx with rfl | hx
            · exact le_refl _
            · exact this.2.1.1 x hx
          · exact List.pairwise_cons.mpr this.2.1
          · intro x hx y hy
            rcases List.mem_cons.mp hy with rfl | hy
            · exact this.2.2 x hx y (by simp)
            · exact this.2.2 x hx y hy
        refine ⟨fun x hx => hok.positive x ?_, fun x hx => hok.window x ?_, hs, fun x hx => hok.each x ?_⟩ <;>
          simp only [List.mem_append, List.mem_cons] at hx ⊢ <;> tauto
      exact (C65_price_csv_exact start stop _ _ hf _).mpr ⟨hper hok', hok'⟩
    · intro l hl
      rcases List.mem_append.mp hl with hl | hl
      · exact forall₂_left (Q := fun l => '\n' ∉ l) (fun _ _ => price_line_newline) h1 l hl
      · rcases List.mem_cons.mp hl with rfl | hl
        · exact hn
        · exact forall₂_left (Q := fun l => '\n' ∉ l) (fun _ _ => price_line_newline) hpost l hl

/-- **C66** (header lines). A first line without a timestamp, such as a header, is skipped if a (positive) start time is
given; without one, no such file can be loaded. -/
theorem C66_price_header (start stop : ℤ) (header : Text) (lines : List Text) (hj : NoTimestamp header)
    (hn : ∀ l ∈ header :: lines, '\n' ∉ l) :
    (0 < start → ∀ out, readPriceCsv sc start stop (some (textOf (header :: lines))) = .ok out ↔
      readPriceCsv sc start stop (some (textOf lines)) = .ok out) ∧
    (start ≤ 0 → readPriceCsv sc start stop (some (textOf (header :: lines))) = .error (.record 1 .timestamp)) := by
  unfold readPriceCsv
  dsimp only
  rw [linesOf_textOf _ hn, linesOf_textOf _ (fun l hl => hn l (by simp [hl]))]
  constructor
  · intro hs out
    rw [csvLoop_eq, csvLoop_eq]
    simp only [csvValues, scanPrice_junk hj]
    conv_lhs => unfold recordLoop
    rw [if_pos ⟨hs, hs⟩]
    exact recordLoop_row _ _ _ _ _ _ _ _
  · intro hs
    rw [csvLoop_eq]
    simp only [csvValues, scanPrice_junk hj]
    unfold recordLoop
    rw [if_neg (by dsimp only; omega), if_neg (by dsimp only; omega), if_pos (by left; rfl)]

/-- **C66** (header lines, OHLC). -/
theorem C66_ohlc_header (start stop : ℤ) (header : Text) (lines : List Text) (hj : NoTimestamp header)
    (hn : ∀ l ∈ header :: lines, '\n' ∉ l) :
    (0 < start → ∀ out, readOhlcCsv sc start stop (some (textOf (header :: lines))) = .ok out ↔
      readOhlcCsv sc start stop (some (textOf lines)) = .ok out) ∧
    (start ≤ 0 → readOhlcCsv sc start stop (some (textOf (header :: lines))) = .error (.record 1 .timestamp)) := by
  unfold readOhlcCsv
  dsimp only
  rw [linesOf_textOf _ hn, linesOf_textOf _ (fun l hl => hn l (by simp [hl]))]
  constructor
  · intro hs out
    rw [csvLoop_eq, csvLoop_eq]
    simp only [csvValues, scanOhlc_junk hj]
    conv_lhs => unfold recordLoop
    rw [if_pos ⟨hs, hs⟩]
    exact recordLoop_row _ _ _ _ _ _ _ _
  · intro hs
    rw [csvLoop_eq]
    simp only [csvValues, scanOhlc_junk hj]
    unfold recordLoop
    rw [if_neg (by dsimp only; omega), if_neg (by dsimp only; omega), if_pos (by left; rfl)]

end

/-! ### Non-vacuity: decimal numbers -/

section
variable {F : Type} [FloatOps F]

/-- Digits with an optional fractional part. -/
def unsignedDecimal (neg : Bool) (s : Text) : Option (F × Text) :=
  match natural s with
  | none => none
  | some (n, '.' :: rest) =>
    let f := digitsLoop 0 rest
    some (lit F ((if neg then -1 else 1) * (n + f.1 / 10 ^ (rest.length - f.2.length))), f.2)
  | some (n, rest) => some (lit F ((if neg then -1 else 1) * n), rest)

/-- Blanks, an optional sign, a decimal number, correctly rounded (the part of `strtof` that ordinary files need). -/
def decimalNumber (s : Text) : Option (F × Text) :=
  match s.dropWhile isSpace with
  | '-' :: rest => unsignedDecimal true rest
  | '+' :: rest => unsignedDecimal false rest
  | rest => unsignedDecimal false rest

/-- Decimal numbers for `%f` and `>>`. -/
def decimalScanner : Scanner F := ⟨decimalNumber, decimalNumber⟩

theorem unsigned_text (neg : Bool) (ws ds rest : Text) (hne : ws ≠ []) (hw : ∀ c ∈ ws, c.isDigit) (hd : ∀ c ∈ ds, c.isDigit)
    (he : Ends rest) :
    unsignedDecimal (F := F) neg (ws ++ '.' :: (ds ++ rest)) =
      some (lit F ((if neg then -1 else 1) * ((Nat.ofDigitChars 10 ws 0 : ℕ) + (Nat.ofDigitChars 10 ds 0 : ℕ) / 10 ^ ds.length)),
        rest) := by
  unfold unsignedDecimal
  rw [natural_digits ws _ hne hw (by intro c hc; simp at hc; subst hc; decide)]
  simp only
  rw [digitsLoop_append ds rest 0 hd (ends_not_digit he)]
  simp

/-- Digits, a point and more digits are read as that number, and so is the same with a minus sign. -/
theorem decimal_digits (neg : Bool) (ws ds : Text) (hne : ws ≠ []) (hw : ∀ c ∈ ws, c.isDigit) (hd : ∀ c ∈ ds, c.isDigit) :
    NumberText (decimalScanner (F := F))
      (lit F ((if neg then -1 else 1) * ((Nat.ofDigitChars 10 ws 0 : ℕ) + (Nat.ofDigitChars 10 ds 0 : ℕ) / 10 ^ ds.length)))
      ((if neg then ['-'] else []) ++ ws ++ '.' :: ds) where
  read rest he := by
    change decimalNumber _ = _
    unfold decimalNumber
    cases neg with
    | true =>
      have : (((if true = true then ['-'] else []) ++ ws ++ '.' :: ds) ++ rest).dropWhile isSpace =
          '-' :: (ws ++ '.' :: (ds ++ rest)) := by
        simp only [if_true, List.cons_append, List.nil_append, List.append_assoc]
        rw [List.dropWhile_cons_of_neg (by decide)]
      rw [this]
      exact unsigned_text true ws ds rest hne hw hd he
    | false =>
      have := unsigned_text (F := F) false ws ds rest hne hw hd he
      simp only [Bool.false_eq_true, if_false, List.nil_append, List.append_assoc, List.cons_append] at this ⊢
      rw [← this]
      cases ws with
      | nil => exact absurd rfl hne
      | cons c cs =>
        have hc := not_space_of_isDigit (hw c (by simp))
        rw [List.cons_append, List.dropWhile_cons_of_neg (by simp [hc.1])]
        split
        · rename_i h; exact absurd (List.cons.inj h).1 hc.2.1
        · rename_i h; exact absurd (List.cons.inj h).1 hc.2.2.1
        · rfl
  plain c hc := by
    rcases List.mem_append.mp hc with hc | hc
    · rcases List.mem_append.mp hc with hc | hc
      · cases neg <;> simp at hc; subst hc; decide
      · have := not_space_of_isDigit (hw c hc)
        exact ⟨this.2.2.2.1, this.2.2.2.2.1⟩
    · rcases List.mem_cons.mp hc with rfl | hc
      · decide
      · exact ⟨(not_space_of_isDigit (hd c hc)).2.2.2.1, (not_space_of_isDigit (hd c hc)).2.2.2.2.1⟩

/-- `n.ddd` is read as that number. -/
theorem decimal_text (n : ℕ) (ds : Text) (hd : ∀ c ∈ ds, c.isDigit) :
    NumberText (decimalScanner (F := F)) (lit F (1 * (n + (Nat.ofDigitChars 10 ds 0 : ℕ) / 10 ^ ds.length)))
      (Nat.toDigits 10 n ++ '.' :: ds) := by
  have := decimal_digits (F := F) false (Nat.toDigits 10 n) ds Nat.toDigits_ne_nil
    (fun x hx => Nat.isDigit_of_mem_toDigits (by decide) (by decide) hx) hd
  simpa using this

/-- A line `timestamp,price,volume` with decimal numbers, as it would be printed. -/
theorem decimal_price_line (t : ℤ) (p v : ℕ) (pd vd : Text) (ht : IsInt64 t) (hp : ∀ c ∈ pd, c.isDigit) (hv : ∀ c ∈ vd, c.isDigit)
    (tail : Text) (he : Ends tail) (hpl : ∀ c ∈ tail, c ≠ '\x00' ∧ c ≠ '\n') :
    PriceLine (decimalScanner (F := F))
      (printInt t ++ (',' :: (Nat.toDigits 10 p ++ '.' :: pd) ++ (',' :: (Nat.toDigits 10 v ++ '.' :: vd) ++ tail)))
      ⟨t, lit F (1 * (p + (Nat.ofDigitChars 10 pd 0 : ℕ) / 10 ^ pd.length)),
        lit F (1 * (v + (Nat.ofDigitChars 10 vd 0 : ℕ) / 10 ^ vd.length))⟩ :=
  ⟨ht, _, .cons (decimal_text p pd hp) (.cons (decimal_text v vd hv) (.nil tail he hpl)), rfl⟩

end

/-- Two lines of a file (the second ends with a carriage return), and the records they spell out. -/
example : List.Forall₂ (PriceLine (decimalScanner (F := ℚ)))
    ["60,100.5,2.0".toList, "75,101.25,0.125\r".toList] [⟨60, 201 / 2, 2⟩, ⟨75, 405 / 4, 1 / 8⟩] := by
  have h1 := decimal_price_line (F := ℚ) 60 100 2 ['5'] ['0'] (by unfold IsInt64; omega) (by decide) (by decide) []
    (by intro c hc; cases hc) (by simp)
  have h2 := decimal_price_line (F := ℚ) 75 101 0 ['2', '5'] ['1', '2', '5'] (by unfold IsInt64; omega) (by decide)
    (by decide) ['\r'] (by intro c hc; simp at hc; simp [← hc]) (by decide)
  refine .cons ?_ (.cons ?_ .nil)
  · convert h1 using 2 <;> decide +kernel
  · convert h2 using 2 <;> decide +kernel

/-- The whole file. -/
def csvText : Text := "timestamp,price,volume\n60,100.5,2.0\n\n75,101.25,0.125\r\nnonsense\n90,1.0".toList

/-- With a start time the header is skipped; the empty line repeats the record before it, and so does the nonsense; the last
line has no volume and gets the one of the line before. -/
example : readPriceCsv (decimalScanner (F := ℚ)) 30 0 (some csvText) =
    .ok [⟨60, 201 / 2, 2⟩, ⟨60, 201 / 2, 2⟩, ⟨75, 405 / 4, 1 / 8⟩, ⟨75, 405 / 4, 1 / 8⟩, ⟨90, 1, 1 / 8⟩] := by
  decide +kernel

/-- Without a start time the header is an error. -/
example : readPriceCsv (decimalScanner (F := ℚ)) 0 0 (some csvText) = .error (.record 1 .timestamp) := by decide +kernel

example : NoTimestamp "timestamp,price,volume".toList := by unfold NoTimestamp; decide +kernel
example : NoTimestamp [] := by unfold NoTimestamp; decide +kernel

/-- A file with a negative volume, and one that is not in order. -/
example : readPriceCsv (decimalScanner (F := ℚ)) 0 0 (some "5,1.5,1\n6,2,-3".toList) = .error (.record 2 .volume) := by
  decide +kernel
example : readPriceCsv (decimalScanner (F := ℚ)) 0 0 (some "5,1.5,1\n4,2,3".toList) = .error (.record 2 .timestamp) := by
  decide +kernel

/-- **C65** (the limit of the checks). In binary32, a record whose price or volume is not a number passes the checks and is
loaded. -/
theorem C65_nan_accepted {sc : Scanner F32} (text : Text) (h : NumberText sc .nan text) (t : ℤ) (ht : 0 < t)
    (ht' : IsInt64 t) :
    readPriceCsv sc 0 0 (some (textOf [printInt t ++ ',' :: text ++ ',' :: text])) = .ok [⟨t, .nan, .nan⟩] := by
  have hl : PriceLine sc (printInt t ++ ',' :: text ++ ',' :: text) ⟨t, .nan, .nan⟩ := by
    refine ⟨ht', _, .cons h (.cons h (.nil [] ?_ ?_)), ?_⟩
    · intro c hc; cases hc
    · simp
    · simp
  refine (C65_price_csv_exact 0 0 _ _ (.cons hl .nil) _).mpr ⟨?_, ?_, ?_, ?_, ?_⟩
  · simp [periodOf]
  · simpa using ht
  · intro r _; exact ⟨by omega, by omega⟩
  · simp [SortedBy]
  · intro r hr
    rw [List.mem_singleton] at hr
    subst hr
    exact ⟨rfl, rfl⟩

end Verif.Props
