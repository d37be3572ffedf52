import Verif.Props.Csv
import Verif.Props.SideInput

/-!
# C67: loading side histories
-/

namespace Verif.Props
open Verif Verif.Spec Verif.Convert

variable {F : Type} {sc : Scanner F}

/-- The loop as a function of the records. -/
def sideRecordLoop (start stop : ℤ) : ℕ → ℤ → ℕ → List (SideInputRecord F) →
    Except LoadError (List (SideInputRecord F))
  | _, _, _, [] => .ok []
  | row, prev, num, r :: rest =>
    if start > 0 ∧ r.ts < start then sideRecordLoop start stop (row + 1) prev num rest
    else if stop > 0 ∧ r.ts ≥ stop then .ok []
    else if r.ts ≤ 0 ∨ r.ts ≤ prev then .error (.record (row + 1) .timestamp)
    else
      let num := if num = 0 then r.signals.length else num
      if num = 0 ∨ num ≠ r.signals.length then .error (.record (row + 1) .signals)
      else (sideRecordLoop start stop (row + 1) r.ts num rest).map (r :: ·)

/-- What a line holds, if it has a timestamp. -/
def sideRecord (sc : Scanner F) (line : Text) : Option (SideInputRecord F) :=
  match streamInt (line.map (fun c => if c = ',' then ' ' else c)) with
  | none => none
  | some (t, tail) => some ⟨t, streamFloats sc tail.length tail⟩

/-- As long as the lines have timestamps, the loop works on the records. -/
theorem sideLoop_eq (start stop : ℤ) (row : ℕ) (prev : ℤ) (num : ℕ) (lines : List Text) (rs : List (SideInputRecord F))
    (h : List.Forall₂ (fun line r => sideRecord sc line = some r) lines rs) :
    sideLoop sc start stop row prev num lines = sideRecordLoop start stop row prev num rs := by
  induction h generalizing row prev num with
  | nil => rfl
  | cons hr _ ih =>
    unfold sideLoop sideRecordLoop
    unfold sideRecord at hr
    split at hr
    · cases hr
    · rename_i heq
      cases hr
      dsimp only
      rw [heq]
      dsimp only
      simp only [ih]

/-- In general the loop works on the records of the lines before the first one without a timestamp. -/
theorem sideLoop_prefix (start stop : ℤ) (row : ℕ) (prev : ℤ) (num : ℕ) (lines : List Text) (out : List (SideInputRecord F))
    (h : sideLoop sc start stop row prev num lines = .ok out) :
    ∃ rs, sideRecordLoop start stop row prev num rs = .ok out := by
  induction lines generalizing row prev num out with
  | nil => exact ⟨[], h⟩
  | cons line lines ih =>
    unfold sideLoop at h
    dsimp only at h
    split at h
    · cases h
    · rename_i t tail heq
      by_cases h1 : start > 0 ∧ t < start
      · rw [if_pos h1] at h
        obtain ⟨rs, hrs⟩ := ih _ _ _ _ h
        refine ⟨⟨t, []⟩ :: rs, ?_⟩
        unfold sideRecordLoop
        rw [if_pos h1]; exact hrs
      · rw [if_neg h1] at h
        by_cases h2 : stop > 0 ∧ t ≥ stop
        · rw [if_pos h2] at h
          exact ⟨[], h⟩
        · rw [if_neg h2] at h
          by_cases h3 : t ≤ 0 ∨ t ≤ prev
          · rw [if_pos h3] at h; cases h
          · rw [if_neg h3] at h
            by_cases h4 : (if num = 0 then (streamFloats sc tail.length tail).length else num) = 0 ∨
                (if num = 0 then (streamFloats sc tail.length tail).length else num) ≠
                  (streamFloats sc tail.length tail).length
            · rw [if_pos h4] at h; cases h
            · rw [if_neg h4] at h
              cases hl : sideLoop sc start stop (row + 1) t
                  (if num = 0 then (streamFloats sc tail.length tail).length else num) lines with
              | error e => rw [hl] at h; cases h
              | ok tl =>
                rw [hl] at h
                obtain ⟨rs, hrs⟩ := ih _ _ _ _ hl
                refine ⟨⟨t, streamFloats sc tail.length tail⟩ :: rs, ?_⟩
                unfold sideRecordLoop
                dsimp only
                rw [if_neg h1, if_neg h2, if_neg h3, if_neg h4, hrs]
                exact h

theorem sideRecordLoop_ok_iff (start stop : ℤ) (row : ℕ) (prev : ℤ) (hprev : 0 ≤ prev) (num : ℕ)
    (rs out : List (SideInputRecord F)) :
    sideRecordLoop start stop row prev num rs = .ok out ↔
      out = periodOf SideInputRecord.ts start stop rs ∧ (∀ r ∈ out, prev < r.ts) ∧
      out.Pairwise (fun a b => a.ts < b.ts) ∧ (∃ n, 0 < n ∧ (0 < num → n = num) ∧ ∀ r ∈ out, r.signals.length = n) := by
  have htriv : ∃ n, 0 < n ∧ (0 < num → n = num) := by
    by_cases h : num = 0
    · exact ⟨1, by omega, by omega⟩
    · exact ⟨num, by omega, fun _ => rfl⟩
  induction rs generalizing row prev num out with
  | nil =>
    unfold sideRecordLoop
    simp only [Except.ok.injEq]
    constructor
    · rintro rfl
      obtain ⟨n, h1, h2⟩ := htriv
      exact ⟨rfl, by simp, List.Pairwise.nil, n, h1, h2, by simp⟩
    · rintro ⟨rfl, -⟩; rfl
  | cons r rs ih =>
    unfold sideRecordLoop
    rw [periodOf_cons]
    by_cases h2 : start > 0 ∧ r.ts < start
    · rw [if_pos h2, if_pos h2]
      exact ih (row + 1) prev hprev num out htriv
    · rw [if_neg h2, if_neg (by omega : ¬ (0 < start ∧ r.ts < start))]
      by_cases h1 : stop > 0 ∧ r.ts ≥ stop
      · rw [if_pos h1, if_pos (by omega)]
        simp only [Except.ok.injEq]
        constructor
        · rintro rfl
          obtain ⟨n, h1, h2⟩ := htriv
          exact ⟨rfl, by simp, List.Pairwise.nil, n, h1, h2, by simp⟩
        · rintro ⟨rfl, -⟩; rfl
      · rw [if_neg h1, if_neg (by omega : ¬ (0 < stop ∧ stop ≤ r.ts))]
        by_cases h3 : r.ts ≤ 0 ∨ r.ts ≤ prev
        · rw [if_pos h3]
          constructor
          · intro h; cases h
          · rintro ⟨rfl, h, -⟩
            have := h r (by simp)
            omega
        · rw [if_neg h3]
          dsimp only
          by_cases h4 : (if num = 0 then r.signals.length else num) = 0 ∨
              (if num = 0 then r.signals.length else num) ≠ r.signals.length
          · rw [if_pos h4]
            constructor
            · intro h; cases h
            · rintro ⟨rfl, -, -, n, hn, hnum, hall⟩
              have := hall r (by simp)
              exfalso
              split at h4 <;> omega
          · rw [if_neg h4]
            have hnum : (if num = 0 then r.signals.length else num) = r.signals.length ∧ 0 < r.signals.length ∧
                (0 < num → r.signals.length = num) := by
              split at h4
              · rename_i h0; rw [if_pos h0]; omega
              · rename_i h0; rw [if_neg h0]; omega
            rw [hnum.1]
            have ih' := ih (row + 1) r.ts (by omega) r.signals.length (periodOf SideInputRecord.ts start stop rs)
              ⟨_, hnum.2.1, fun _ => rfl⟩
            constructor
            · intro h
              cases hl : sideRecordLoop start stop (row + 1) r.ts r.signals.length rs with
              | error e => rw [hl] at h; cases h
              | ok tail =>
                rw [hl] at h
                simp only [Except.map, Except.ok.injEq] at h
                subst h
                obtain ⟨he, ha, hs, n, hn, hn2, hn3⟩ := (ih (row + 1) r.ts (by omega) r.signals.length tail
                  ⟨_, hnum.2.1, fun _ => rfl⟩).mp hl
                refine ⟨by rw [he], ?_, List.pairwise_cons.mpr ⟨ha, hs⟩, n, hn, ?_, ?_⟩
                · intro x hx
                  rcases List.mem_cons.mp hx with rfl | hx
                  · omega
                  · have := ha x hx; omega
                · intro h; rw [hn2 hnum.2.1]; exact hnum.2.2 h
                · intro x hx
                  rcases List.mem_cons.mp hx with rfl | hx
                  · exact (hn2 hnum.2.1).symm
                  · exact hn3 x hx
            · rintro ⟨rfl, ha, hs, n, hn, hn2, hn3⟩
              have hp := List.pairwise_cons.mp hs
              have := ih'.mpr ⟨rfl, hp.1, hp.2, n, hn, fun _ => (hn3 r (by simp)).symm,
                fun x hx => hn3 x (by simp [hx])⟩
              rw [this]; rfl

/-- What a loaded side history satisfies. -/
theorem sideRecordLoop_loadable (start stop : ℤ) (row : ℕ) (rs out : List (SideInputRecord F)) :
    sideRecordLoop start stop row 0 0 rs = .ok out ↔
      out = periodOf SideInputRecord.ts start stop rs ∧ LoadableSide start stop out := by
  rw [sideRecordLoop_ok_iff start stop row 0 (le_refl _)]
  constructor
  · rintro ⟨he, ha, hs, n, hn, -, hn3⟩
    exact ⟨he, ha, fun r hr => (periodOf_window (he ▸ hr)).2, hs, n, hn, hn3⟩
  · rintro ⟨he, h1, -, h3, n, hn, hn3⟩
    exact ⟨he, h1, h3, n, hn, by omega, hn3⟩

/-- **C67**. Whatever the file holds: a side history that loads has positive, strictly increasing timestamps inside the
window and the same positive number of signals everywhere; a `SideInput` can be made of it unless it is empty. -/
theorem C67_loads (sc : Scanner F) (start stop : ℤ) (file : Option Text) (out : List (SideInputRecord F))
    (h : readSideCsv sc start stop file = .ok out) :
    LoadableSide start stop out ∧ (out ≠ [] → ∃ s, SideInput.make out = .ok s) := by
  unfold readSideCsv at h
  cases file with
  | none => cases h
  | some text =>
    obtain ⟨rs, hrs⟩ := sideLoop_prefix start stop 0 0 0 _ out h
    have hl := ((sideRecordLoop_loadable start stop 0 rs out).mp hrs).2
    refine ⟨hl, fun hne => (C27_construct out).2.1 hne ⟨?_, hl.positive, hl.increasing⟩⟩
    obtain ⟨n, -, hn⟩ := hl.signals
    intro a ha b hb
    rw [hn a ha, hn b hb]

/-! ### Exactness -/

theorem signals_ends {xs : List F} {text : Text} (h : SignalsText sc xs text) : Ends text ∧ '\n' ∉ text := by
  induction h with
  | nil _ he hn _ => exact ⟨he, hn⟩
  | cons hp hx hr ih =>
    constructor
    · intro c hc
      simp only [List.cons_append, List.head?_cons, Option.some.injEq] at hc
      exact Or.inl hc.symm
    · intro hc
      rw [List.cons_append, List.mem_cons, List.mem_append] at hc
      rcases hc with hc | hc | hc
      · cases hc
      · exact hp.1 hc
      · exact ih.2 hc

theorem map_blank_id {text : Text} (h : ',' ∉ text) : text.map (fun c => if c = ',' then ' ' else c) = text := by
  induction text with
  | nil => rfl
  | cons c text ih =>
    have hc : c ≠ ',' := fun hc => h (by simp [hc])
    rw [List.map_cons, if_neg hc, ih (fun hm => h (by simp [hm]))]

theorem ends_map {text : Text} (h : Ends text) : Ends (text.map (fun c => if c = ',' then ' ' else c)) := by
  intro c hc
  cases text with
  | nil => cases hc
  | cons d text =>
    simp only [List.map_cons, List.head?_cons, Option.some.injEq] at hc
    subst hc
    split
    · right; left; rfl
    · exact h d rfl

theorem streamFloats_read {xs : List F} {text : Text} (h : SignalsText sc xs text) (fuel : ℕ) (hf : text.length ≤ fuel) :
    streamFloats sc fuel (text.map (fun c => if c = ',' then ' ' else c)) = xs := by
  induction h generalizing fuel with
  | nil rest he hn hfail =>
    cases fuel with
    | zero => rfl
    | succ fuel => unfold streamFloats; rw [hfail]
  | @cons x xs text rest hp hx hr ih =>
    cases fuel with
    | zero => simp at hf
    | succ fuel =>
      have : (',' :: text ++ rest).map (fun c => if c = ',' then ' ' else c) =
          ' ' :: text ++ rest.map (fun c => if c = ',' then ' ' else c) := by
        rw [List.map_append, List.map_cons, map_blank_id hp.2]; rfl
      rw [this]
      unfold streamFloats
      rw [hx _ (ends_map (signals_ends hr).1)]
      dsimp only
      rw [ih fuel (by simp only [List.cons_append, List.length_cons, List.length_append] at hf; omega)]

theorem side_line {line : Text} {r : SideInputRecord F} (h : SideLine sc line r) : sideRecord sc line = some r := by
  obtain ⟨ht, rest, hn, rfl⟩ := h
  unfold sideRecord
  rw [List.map_append, map_blank_id (fun hc => (printInt_plain _ _ hc).2.2 rfl),
    streamInt_print ht _ (ends_not_digit (ends_map (signals_ends hn).1))]
  dsimp only
  rw [streamFloats_read hn _ (by rw [List.length_map])]

theorem side_line_newline {line : Text} {r : SideInputRecord F} (h : SideLine sc line r) : '\n' ∉ line := by
  obtain ⟨ht, rest, hn, rfl⟩ := h
  intro hc
  rcases List.mem_append.mp hc with hc | hc
  · exact (printInt_plain _ _ hc).2.1 rfl
  · exact (signals_ends hn).2 hc

/-- **C67** (nothing is lost or made up). A file whose lines spell out side records loads if and only if the records of the
period may be loaded, and what is loaded is exactly these records. -/
theorem C67_exact (start stop : ℤ) (lines : List Text) (rs : List (SideInputRecord F))
    (hl : List.Forall₂ (SideLine sc) lines rs) (out : List (SideInputRecord F)) :
    readSideCsv sc start stop (some (textOf lines)) = .ok out ↔
      out = periodOf SideInputRecord.ts start stop rs ∧ LoadableSide start stop out := by
  unfold readSideCsv
  dsimp only
  rw [linesOf_textOf _ (forall₂_left (Q := fun l => '\n' ∉ l) (fun _ _ => side_line_newline) hl),
    sideLoop_eq start stop 0 0 0 lines rs (hl.imp fun _ _ h => side_line h)]
  exact sideRecordLoop_loadable start stop 0 rs out

/-- **C67** (headers are not accepted). Unlike in the price and OHLC files, a first line without a timestamp is an error. -/
theorem C67_header (start stop : ℤ) (header : Text) (lines : List Text) (hn : ∀ l ∈ header :: lines, '\n' ∉ l)
    (hh : streamInt (header.map (fun c => if c = ',' then ' ' else c)) = none) :
    readSideCsv sc start stop (some (textOf (header :: lines))) = .error (.record 1 .unparsable) := by
  unfold readSideCsv
  dsimp only
  rw [linesOf_textOf _ hn]
  unfold sideLoop
  dsimp only
  rw [hh]

/-- Why the loop fails, and where. -/
theorem sideRecordLoop_error (start stop : ℤ) (row : ℕ) (prev : ℤ) (num : ℕ) (rs : List (SideInputRecord F)) (e : LoadError)
    (h : sideRecordLoop start stop row prev num rs = .error e) :
    ∃ i r what, e = .record (row + i + 1) what ∧ rs[i]? = some r ∧ InWindow start stop r.ts ∧
      ((what = .timestamp ∧ (r.ts ≤ 0 ∨ r.ts ≤ prev ∨ ∃ r' ∈ periodOf SideInputRecord.ts start stop (rs.take i), r.ts ≤ r'.ts)) ∨
        (what = .signals ∧ (r.signals = [] ∨ (0 < num ∧ r.signals.length ≠ num) ∨
          ∃ r' ∈ periodOf SideInputRecord.ts start stop (rs.take i), r.signals.length ≠ r'.signals.length))) ∧
      sideRecordLoop start stop row prev num (rs.take i) = .ok (periodOf SideInputRecord.ts start stop (rs.take i)) := by
  induction rs generalizing row prev num with
  | nil => cases h
  | cons r rs ih =>
    unfold sideRecordLoop at h
    by_cases h2 : start > 0 ∧ r.ts < start
    · rw [if_pos h2] at h
      obtain ⟨i, r', what, he, hi, hw, hwhy, hok⟩ := ih _ _ _ h
      refine ⟨i + 1, r', what, by rw [he]; congr 1; omega, by simpa using hi, hw, ?_, ?_⟩
      · rw [List.take_succ_cons, periodOf_cons, if_pos h2]; exact hwhy
      · rw [List.take_succ_cons, periodOf_cons, if_pos h2]
        unfold sideRecordLoop
        rw [if_pos h2]; exact hok
    · rw [if_neg h2] at h
      by_cases h1 : stop > 0 ∧ r.ts ≥ stop
      · rw [if_pos h1] at h; cases h
      · rw [if_neg h1] at h
        have hw : InWindow start stop r.ts := ⟨fun _ => by omega, fun _ => by omega⟩
        by_cases h3 : r.ts ≤ 0 ∨ r.ts ≤ prev
        · rw [if_pos h3] at h
          cases h
          refine ⟨0, r, .timestamp, rfl, rfl, hw, Or.inl ⟨rfl, ?_⟩, rfl⟩
          rcases h3 with h3 | h3
          · exact Or.inl h3
          · exact Or.inr (Or.inl h3)
        · rw [if_neg h3] at h
          dsimp only at h
          by_cases h4 : (if num = 0 then r.signals.length else num) = 0 ∨
              (if num = 0 then r.signals.length else num) ≠ r.signals.length
          · rw [if_pos h4] at h
            cases h
            refine ⟨0, r, .signals, rfl, rfl, hw, Or.inr ⟨rfl, ?_⟩, rfl⟩
            by_cases hn : num = 0
            · simp only [hn, if_true, ne_eq, not_true_eq_false, or_false] at h4
              exact .inl (List.length_eq_zero_iff.mp h4)
            · simp only [hn, if_false, false_or] at h4
              exact .inr (.inl ⟨by omega, fun h => h4 h.symm⟩)
          · rw [if_neg h4] at h
            have hn : (if num = 0 then r.signals.length else num) = r.signals.length := by
              by_contra hn; exact h4 (.inr hn)
            cases hl : sideRecordLoop start stop (row + 1) r.ts (if num = 0 then r.signals.length else num) rs with
            | ok tail => rw [hl] at h; cases h
            | error e' =>
              rw [hl] at h
              simp only [Except.map, Except.error.injEq] at h
              subst h
              obtain ⟨i, r', what, he, hi, hw', hwhy, hok⟩ := ih _ _ _ hl
              refine ⟨i + 1, r', what, by rw [he]; congr 1; omega, by simpa using hi, hw', ?_, ?_⟩
              · rw [List.take_succ_cons, periodOf_cons, if_neg h2, if_neg h1]
                rcases hwhy with ⟨hwt, hwhy⟩ | ⟨hwt, hwhy⟩
                · refine Or.inl ⟨hwt, ?_⟩
                  rcases hwhy with hwhy | hwhy | ⟨x, hx, hlt⟩
                  · exact Or.inl hwhy
                  · exact Or.inr (Or.inr ⟨r, by simp, hwhy⟩)
                  · exact Or.inr (Or.inr ⟨x, by simp [hx], hlt⟩)
                · refine Or.inr ⟨hwt, ?_⟩
                  rcases hwhy with hwhy | ⟨-, hwhy⟩ | ⟨x, hx, hlt⟩
                  · exact Or.inl hwhy
                  · exact Or.inr (Or.inr ⟨r, by simp, fun h => hwhy (h.trans hn.symm)⟩)
                  · exact Or.inr (Or.inr ⟨x, by simp [hx], hlt⟩)
              · rw [List.take_succ_cons, periodOf_cons, if_neg h2, if_neg h1]
                unfold sideRecordLoop
                dsimp only
                rw [if_neg h2, if_neg h1, if_neg h3, if_neg h4, hok]; rfl

/-- **C67** (errors). If a file whose lines spell out side records does not load, the error names the line of the first record
of the period that must not be loaded, and what is wrong with it; the lines before it do load. -/
theorem C67_error (start stop : ℤ) (lines : List Text) (rs : List (SideInputRecord F))
    (hl : List.Forall₂ (SideLine sc) lines rs) (e : LoadError)
    (h : readSideCsv sc start stop (some (textOf lines)) = .error e) :
    ∃ i r what, e = .record (i + 1) what ∧ rs[i]? = some r ∧ InWindow start stop r.ts ∧
      ((what = .timestamp ∧ (r.ts ≤ 0 ∨ ∃ r' ∈ periodOf SideInputRecord.ts start stop (rs.take i), r.ts ≤ r'.ts)) ∨
        (what = .signals ∧ (r.signals = [] ∨
          ∃ r' ∈ periodOf SideInputRecord.ts start stop (rs.take i), r.signals.length ≠ r'.signals.length))) ∧
      LoadableSide start stop (periodOf SideInputRecord.ts start stop (rs.take i)) := by
  unfold readSideCsv at h
  dsimp only at h
  rw [linesOf_textOf _ (forall₂_left (Q := fun l => '\n' ∉ l) (fun _ _ => side_line_newline) hl),
    sideLoop_eq start stop 0 0 0 lines rs (hl.imp fun _ _ h => side_line h)] at h
  obtain ⟨i, r, what, he, hi, hw, hwhy, hok⟩ := sideRecordLoop_error _ _ _ _ _ _ _ h
  refine ⟨i, r, what, by rw [he]; congr 1; omega, hi, hw, ?_, ((sideRecordLoop_loadable start stop 0 _ _).mp hok).2⟩
  rcases hwhy with ⟨h1, h2 | h2 | h2⟩ | ⟨h1, h2 | h2 | h2⟩
  · exact Or.inl ⟨h1, Or.inl h2⟩
  · exact Or.inl ⟨h1, Or.inl h2⟩
  · exact Or.inl ⟨h1, Or.inr h2⟩
  · exact Or.inr ⟨h1, Or.inl h2⟩
  · omega
  · exact Or.inr ⟨h1, Or.inr h2⟩

/-- **C67** (a line without a timestamp). If such a line is reached, that is if the records before it may be loaded and none
of them is at or past the end, it is an error, whatever the period. -/
theorem C67_unparsable (start stop : ℤ) (lines : List Text) (rs : List (SideInputRecord F)) (junk : Text) (post : List Text)
    (hl : List.Forall₂ (SideLine sc) lines rs) (hn : '\n' ∉ junk) (hp : ∀ l ∈ post, '\n' ∉ l)
    (hj : streamInt (junk.map (fun c => if c = ',' then ' ' else c)) = none)
    (hload : LoadableSide start stop (periodOf SideInputRecord.ts start stop rs)) (hstop : 0 < stop → ∀ r ∈ rs, r.ts < stop) :
    readSideCsv sc start stop (some (textOf (lines ++ junk :: post))) = .error (.record (lines.length + 1) .unparsable) := by
  have hnl := forall₂_left (Q := fun l => '\n' ∉ l) (fun _ _ => side_line_newline) hl
  have h0 := (sideRecordLoop_loadable start stop 0 rs _).mpr ⟨rfl, hload⟩
  unfold readSideCsv
  dsimp only
  rw [linesOf_textOf]
  · have key : ∀ (lines : List Text) (rs : List (SideInputRecord F)) (row : ℕ) (prev : ℤ) (num : ℕ) (out),
        List.Forall₂ (SideLine sc) lines rs → (0 < stop → ∀ r ∈ rs, r.ts < stop) →
        sideRecordLoop start stop row prev num rs = .ok out →
        sideLoop sc start stop row prev num (lines ++ junk :: post) = .error (.record (row + lines.length + 1) .unparsable) := by
      intro lines rs row prev num out hl hstop hok
      induction hl generalizing row prev num out with
      | nil =>
        unfold sideLoop
        simp only [List.nil_append]
        rw [hj]; rfl
      | @cons line r lines rs hr _ ih =>
        have hr' := side_line hr
        unfold sideRecord at hr'
        split at hr'
        · cases hr'
        · rename_i t tail heq
          cases hr'
          have hlen : row + (line :: lines).length + 1 = row + 1 + lines.length + 1 := by simp; omega
          rw [hlen]
          unfold sideRecordLoop at hok
          simp only [List.cons_append]
          unfold sideLoop
          dsimp only at hok ⊢
          rw [heq]
          dsimp only
          split
          · rename_i c
            rw [if_pos c] at hok
            exact ih _ _ _ _ (fun h r hr => hstop h r (by simp [hr])) hok
          · rename_i c
            rw [if_neg c] at hok
            rw [if_neg (by rintro ⟨c1, c2⟩; have := hstop c1 _ (List.mem_cons_self ..); dsimp only at this; omega)] at hok
            rw [if_neg (by rintro ⟨c1, c2⟩; have := hstop c1 _ (List.mem_cons_self ..); dsimp only at this; omega)]
            split
            · rename_i c3
              rw [if_pos c3] at hok; cases hok
            · rename_i c3
              rw [if_neg c3] at hok
              generalize (if num = 0 then (streamFloats sc tail.length tail).length else num) = num' at hok ⊢
              split
              · rename_i c4
                rw [if_pos c4] at hok; cases hok
              · rename_i c4
                rw [if_neg c4] at hok
                cases hl : sideRecordLoop start stop (row + 1) t num' rs with
                | error e => rw [hl] at hok; cases hok
                | ok tl =>
                  rw [ih _ _ _ _ (fun h r hr => hstop h r (by simp [hr])) hl]
                  rfl
    have := key lines rs 0 0 0 _ hl hstop h0
    simpa using this
  · intro l h
    rcases List.mem_append.mp h with h | h
    · exact hnl l h
    · rcases List.mem_cons.mp h with rfl | h
      · exact hn
      · exact hp l h

/-! ### Non-vacuity -/

/-- Two lines with two signals each. -/
example : List.Forall₂ (SideLine (decimalScanner (F := ℚ))) ["60,1.5,2.0".toList, "75,0.25,3.0".toList]
    [⟨60, [3 / 2, 2]⟩, ⟨75, [1 / 4, 3]⟩] := by
  have hread : ∀ (n : ℕ) (ds : Text) (hd : ∀ c ∈ ds, c.isDigit) (rest : Text), Ends rest →
      (decimalScanner (F := ℚ)).stream (' ' :: (Nat.toDigits 10 n ++ '.' :: ds) ++ rest) =
        some ((1 * (n + (Nat.ofDigitChars 10 ds 0 : ℕ) / 10 ^ ds.length) : ℚ), rest) := by
    intro n ds hd rest he
    exact (decimal_text (F := ℚ) n ds hd).read rest he
  have hfail : (decimalScanner (F := ℚ)).stream [] = none := rfl
  refine .cons ⟨by unfold IsInt64; decide, ",1.5,2.0".toList, ?_, by decide +kernel⟩
    (.cons ⟨by unfold IsInt64; decide, ",0.25,3.0".toList, ?_, by decide +kernel⟩ .nil)
  · have h := SignalsText.cons (sc := decimalScanner) (by decide) (hread 1 ['5'] (by decide))
      (.cons (by decide) (hread 2 ['0'] (by decide)) (.nil [] (by intro c hc; cases hc) (by simp) hfail))
    convert h using 2 <;> decide +kernel
  · have h := SignalsText.cons (sc := decimalScanner) (by decide) (hread 0 ['2', '5'] (by decide))
      (.cons (by decide) (hread 3 ['0'] (by decide)) (.nil [] (by intro c hc; cases hc) (by simp) hfail))
    convert h using 2 <;> decide +kernel

example : readSideCsv (decimalScanner (F := ℚ)) 0 100 (some "60,1.5,2.0\n75,0.25,3.0\n100,1\nend".toList) =
    .ok [⟨60, [3 / 2, 2]⟩, ⟨75, [1 / 4, 3]⟩] := by decide +kernel
example : readSideCsv (decimalScanner (F := ℚ)) 0 0 (some "60,1.5,2.0\n75,0.25".toList) =
    .error (.record 2 .signals) := by decide +kernel
example : readSideCsv (decimalScanner (F := ℚ)) 0 0 (some "60,1.5\n60,0.25".toList) =
    .error (.record 2 .timestamp) := by decide +kernel
example : readSideCsv (decimalScanner (F := ℚ)) 30 0 (some "timestamp,signal\n60,0.25".toList) =
    .error (.record 1 .unparsable) := by decide +kernel

/-- A line without a timestamp after the first one. -/
example := C67_unparsable (F := ℚ) (sc := decimalScanner) 0 0 [] [] "timestamp,signal".toList ["60,0.25".toList] .nil (by decide)
  (by decide) (by decide +kernel) ⟨by simp [periodOf], by simp [periodOf], by simp [periodOf], ⟨1, by norm_num, by simp [periodOf]⟩⟩ (by simp)

end Verif.Props
