import Verif.Spec.TimeText
import Verif.Props.Csv
import Verif.Props.Calendar

/-!
# C78: the times of the command line
-/

namespace Verif.Props
open FloatOps Spec Verif.Time Verif.Convert

/-! ### Digits -/

private theorem digit?_none {c : Char} (h : c.isDigit = false) : digit? c = none := by
  unfold digit?
  rw [if_neg]
  intro hc
  have : c.isDigit = true := by
    rw [Char.isDigit]; simp only [Bool.and_eq_true, decide_eq_true_eq]; exact ⟨hc.1, hc.2⟩
  rw [h] at this; cases this

private theorem noDigit_cons {c : Char} {s : Text} (h : c.isDigit = false) : NoDigit (c :: s) := by
  intro x hx; cases hx; exact h

private theorem noDigit_nil : NoDigit [] := by intro x hx; cases hx

private theorem digitsUpTo_of (w : ℕ) (text rest : Text) (acc : ℕ) (hd : ∀ c ∈ text, c.isDigit = true)
    (hl : text.length ≤ w) (hg : text.length = w ∨ NoDigit rest) :
    digitsUpTo w acc (text ++ rest) = (text.foldl (fun n c => 10 * n + (c.toNat - '0'.toNat)) acc, rest) := by
  induction text generalizing w acc with
  | nil =>
    cases w with
    | zero => rfl
    | succ w =>
      cases rest with
      | nil => rfl
      | cons c rest =>
        rcases hg with hg | hg
        · cases hg
        · simp only [List.nil_append, digitsUpTo, digit?_none (hg c rfl), List.foldl_nil]
  | cons c text ih =>
    cases w with
    | zero => cases hl
    | succ w =>
      simp only [List.cons_append, digitsUpTo, digit?_of_isDigit (hd c (by simp)), List.foldl_cons]
      exact ih w _ (fun x hx => hd x (by simp [hx])) (by simpa using hl) (by simpa using hg)

private theorem digitsUpTo_spec (w : ℕ) (s : Text) (acc : ℕ) :
    ∃ text, s = text ++ (digitsUpTo w acc s).2 ∧ (∀ c ∈ text, c.isDigit = true) ∧ text.length ≤ w ∧
      (text.length = w ∨ NoDigit (digitsUpTo w acc s).2) := by
  induction w generalizing s acc with
  | zero => exact ⟨[], rfl, by simp, le_refl _, .inl rfl⟩
  | succ w ih =>
    cases s with
    | nil => exact ⟨[], rfl, by simp, by simp, .inr noDigit_nil⟩
    | cons c s =>
      by_cases hc : c.isDigit = true
      · obtain ⟨text, h1, h2, h3, h4⟩ := ih s (10 * acc + (c.toNat - '0'.toNat))
        simp only [digitsUpTo, digit?_of_isDigit hc]
        refine ⟨c :: text, by rw [List.cons_append, ← h1], ?_, by simpa using h3, by simpa using h4⟩
        intro x hx
        rcases List.mem_cons.mp hx with rfl | hx
        · exact hc
        · exact h2 x hx
      · have hc : c.isDigit = false := by simpa using hc
        simp only [digitsUpTo, digit?_none hc]
        exact ⟨[], rfl, by simp, by simp, .inr (noDigit_cons hc)⟩

private theorem naturalUpTo_iff (w : ℕ) (s rest : Text) (n : ℕ) :
    naturalUpTo w s = some (n, rest) ↔
      ∃ text, s = text ++ rest ∧ Decimal n text ∧ text.length ≤ w ∧ (text.length = w ∨ NoDigit rest) := by
  constructor
  · intro h
    cases s with
    | nil => cases h
    | cons c s =>
      simp only [naturalUpTo] at h
      split at h
      · rename_i hc
        obtain ⟨text, h1, h2, h3, h4⟩ := digitsUpTo_spec w (c :: s) 0
        have h5 := digitsUpTo_of w text _ 0 h2 h3 h4
        rw [← h1, Option.some.inj h] at h5
        rw [Option.some.inj h] at h1 h4
        refine ⟨text, h1, ⟨?_, h2, (Prod.mk.inj h5).1.symm⟩, h3, h4⟩
        rintro rfl
        rcases h4 with h4 | h4
        · rw [List.length_nil] at h4; omega
        · dsimp only at h1 h4
          rw [List.nil_append] at h1
          have := h4 c (by rw [← h1]; rfl)
          rw [digit?_none this] at hc
          exact absurd hc.2 (by simp)
      · cases h
  · rintro ⟨text, rfl, hd, hl, hg⟩
    obtain ⟨h1, h2, h3⟩ := hd
    have := digitsUpTo_of w text rest 0 h2 hl hg
    cases text with
    | nil => exact absurd rfl h1
    | cons c text =>
      simp only [List.cons_append, naturalUpTo] at this ⊢
      rw [if_pos ⟨by simp at hl; omega, by rw [digit?_of_isDigit (h2 c (by simp))]; rfl⟩, this, ← h3]
      rfl

private theorem head_digit {n : ℕ} {text : Text} (h : Decimal n text) : ∃ c t, text = c :: t ∧ c.isDigit = true := by
  cases text with
  | nil => exact absurd rfl h.nonempty
  | cons c t => exact ⟨c, t, rfl, h.digits c (by simp)⟩

/-- A field of at most two digits. -/
private theorem parseInt2_iff {lo hi : ℤ} (hlo : 0 ≤ lo) (s rest : Text) (n : ℤ) :
    parseInt 2 lo hi s = some (n, rest) ↔ ∃ text, s = text ++ rest ∧ Short lo hi n text rest := by
  constructor
  · intro h
    unfold parseInt at h
    split at h
    · split at h
      · split at h
        · rename_i hc
          cases h
          omega
        · cases h
      · cases h
    · split at h
      · rename_i n' rest' hn
        split at h
        · rename_i hc
          cases h
          rw [if_neg (by decide)] at hn
          obtain ⟨text, h1, h2, h3, h4⟩ := (naturalUpTo_iff _ _ _ _).mp hn
          exact ⟨text, h1, by simpa using h2, ⟨by omega, hc.1⟩, hc.2, h3, h4⟩
        · cases h
      · cases h
  · rintro ⟨text, rfl, hs⟩
    obtain ⟨c, t, rfl, hc⟩ := head_digit hs.decimal
    have hm : c ≠ '-' := (not_space_of_isDigit hc).2.1
    have hn := (naturalUpTo_iff 2 (c :: t ++ rest) rest n.toNat).mpr ⟨_, rfl, hs.decimal, hs.size, hs.greedy⟩
    have h0 := hs.low.1
    unfold parseInt
    split
    · rename_i heq; cases heq; exact absurd rfl hm
    · rw [if_neg (by decide), hn]
      dsimp only
      rw [if_pos ⟨by have := hs.low.2; omega, by have := hs.high; omega⟩]
      rw [show ((n.toNat : ℕ) : ℤ) = n by omega]

/-- The year. -/
private theorem parseYear_iff (s rest : Text) (y : ℤ) :
    parseInt 0 (-2 ^ 63) (2 ^ 63 - 1) s = some (y, rest) ↔
      ∃ text, s = text ++ rest ∧ YearText y text ∧ NoDigit rest ∧ -2 ^ 63 ≤ y ∧ y < 2 ^ 63 := by
  have key : ∀ (s : Text) (n : ℕ), naturalUpTo s.length s = some (n, rest) ↔
      ∃ text, s = text ++ rest ∧ Decimal n text ∧ NoDigit rest := by
    intro s n
    rw [naturalUpTo_iff]
    refine exists_congr fun text => ⟨?_, ?_⟩
    · rintro ⟨h1, h2, h3, h4⟩
      refine ⟨h1, h2, h4.elim (fun h => ?_) id⟩
      have : rest = [] := by
        rw [h1, List.length_append] at h
        exact List.length_eq_zero_iff.mp (by omega)
      rw [this]; exact noDigit_nil
    · rintro ⟨h1, h2, h3⟩
      exact ⟨h1, h2, by rw [h1]; simp, .inr h3⟩
  constructor
  · intro h
    unfold parseInt at h
    split at h
    · rename_i s'
      rw [if_pos rfl] at h
      split at h
      · rename_i n' rest' hn
        split at h
        · rename_i hc
          cases h
          obtain ⟨text, h1, h2, h3⟩ := (key s' _).mp hn
          exact ⟨'-' :: text, by rw [h1]; rfl, .inr ⟨by omega, text, rfl, by simpa using h2⟩, h3, by omega⟩
        · cases h
      · cases h
    · rw [if_pos rfl] at h
      split at h
      · rename_i n' rest' hn
        split at h
        · rename_i hc
          cases h
          obtain ⟨text, h1, h2, h3⟩ := (key s _).mp hn
          exact ⟨text, h1, .inl ⟨by omega, by simpa using h2⟩, h3, by omega⟩
        · cases h
      · cases h
  · rintro ⟨text, rfl, ⟨h0, hd⟩ | ⟨h0, s', rfl, hd⟩, hnd, hlo, hhi⟩
    · have hn := (key (text ++ rest) y.toNat).mpr ⟨text, rfl, hd, hnd⟩
      obtain ⟨c, t, rfl, hc⟩ := head_digit hd
      have hm : c ≠ '-' := (not_space_of_isDigit hc).2.1
      unfold parseInt
      split
      · rename_i heq; cases heq; exact absurd rfl hm
      · rw [if_pos rfl, hn]
        dsimp only
        rw [if_pos (by omega), show ((y.toNat : ℕ) : ℤ) = y by omega]
    · have hn := (key (s' ++ rest) (-y).toNat).mpr ⟨s', rfl, hd, hnd⟩
      unfold parseInt
      simp only [List.cons_append, if_true]
      rw [hn]
      dsimp only
      rw [if_pos (by omega), show -(((-y).toNat : ℕ) : ℤ) = y by omega]

/-! ### The parts of a time -/

private theorem parsePieces_append (a b : List Piece) (f : Fields) (s : Text) :
    parsePieces (a ++ b) f s = (parsePieces a f s).bind (fun r => parsePieces b r.1 r.2) := by
  induction a generalizing f s with
  | nil => rfl
  | cons p a ih =>
    simp only [List.cons_append, parsePieces]
    cases p.parse f s with
    | none => rfl
    | some r => exact ih r.1 r.2

private theorem piece_char (c : Char) (ps : List Piece) (f : Fields) (s : Text) (r : Fields × Text) :
    parsePieces (.char c :: ps) f s = some r ↔ ∃ s', s = c :: s' ∧ parsePieces ps f s' = some r := by
  cases s with
  | nil => simp [parsePieces, Piece.parse]
  | cons x s =>
    simp only [parsePieces, Piece.parse]
    by_cases h : x = c
    · subst h; simp
    · simp [h]

private theorem piece_field {p : Piece} {lo hi : ℤ} (set : Fields → ℤ → Fields)
    (hp : ∀ f s, p.parse f s = (parseInt 2 lo hi s).map (fun r => (set f r.1, r.2))) (hlo : 0 ≤ lo)
    (ps : List Piece) (f : Fields) (s : Text) (r : Fields × Text) :
    parsePieces (p :: ps) f s = some r ↔
      ∃ n text rest, s = text ++ rest ∧ Short lo hi n text rest ∧ parsePieces ps (set f n) rest = some r := by
  simp only [parsePieces, hp]
  constructor
  · intro h
    cases hi' : parseInt 2 lo hi s with
    | none => rw [hi'] at h; cases h
    | some q =>
      rw [hi'] at h
      obtain ⟨n, rest⟩ := q
      obtain ⟨text, h1, h2⟩ := (parseInt2_iff hlo s rest n).mp hi'
      exact ⟨n, text, rest, h1, h2, h⟩
  · rintro ⟨n, text, rest, h1, h2, h3⟩
    rw [(parseInt2_iff hlo s rest n).mpr ⟨text, h1, h2⟩]
    exact h3

private theorem short_of_noDigit {lo hi n : ℤ} {text rest rest' : Text} (h : Short lo hi n text rest)
    (hr : NoDigit rest') : Short lo hi n text rest' :=
  ⟨h.decimal, h.low, h.high, h.size, .inr hr⟩

private theorem date_iff (f f' : Fields) (s rest : Text) :
    parsePieces dateFormat f s = some (f', rest) ↔
      ∃ y m d text, s = text ++ rest ∧ DateText y m d text rest ∧
        f' = ⟨{ f.civil with year := y, month := m, day := d }, f.offset⟩ := by
  unfold dateFormat
  constructor
  · intro h
    simp only [parsePieces] at h
    cases hy : Piece.year.parse f s with
    | none => rw [hy] at h; cases h
    | some q =>
      rw [hy] at h
      dsimp only at h
      simp only [Piece.parse, Option.map_eq_some_iff] at hy
      obtain ⟨⟨y, s1⟩, hy, rfl⟩ := hy
      obtain ⟨sy, e1, y1, y2, y3, y4⟩ := (parseYear_iff _ _ _).mp hy
      obtain ⟨s2, e2, h⟩ := (piece_char '-' [.month, .char '-', .day] _ _ _).mp h
      obtain ⟨m, sm, s3, e3, hm, h⟩ := (piece_field (p := .month) (fun f n => { f with civil.month := n })
        (fun _ _ => rfl) (by decide) [.char '-', .day] _ _ _).mp h
      obtain ⟨s4, e4, h⟩ := (piece_char '-' [.day] _ _ _).mp h
      obtain ⟨d, sd, s5, e5, hd, h⟩ := (piece_field (p := .day) (fun f n => { f with civil.day := n })
        (fun _ _ => rfl) (by decide) [] _ _ _).mp h
      cases h
      dsimp only at e2
      refine ⟨y, m, d, sy ++ '-' :: sm ++ '-' :: sd, ?_, ⟨sy, sm, sd, y1, y3, y4, ?_, hd, rfl⟩, rfl⟩
      · rw [e1, e2, e3, e4, e5]; simp
      · exact short_of_noDigit hm (noDigit_cons (by decide))
  · rintro ⟨y, m, d, text, rfl, ⟨sy, sm, sd, y1, y3, y4, hm, hd, rfl⟩, rfl⟩
    have hy := (parseYear_iff (sy ++ ('-' :: (sm ++ '-' :: (sd ++ rest)))) ('-' :: (sm ++ '-' :: (sd ++ rest))) y).mpr
      ⟨sy, rfl, y1, noDigit_cons (by decide), y3, y4⟩
    simp only [List.append_assoc, List.cons_append] at hy ⊢
    simp only [parsePieces]
    rw [show Piece.year.parse f _ = _ from rfl]
    simp only [Piece.parse]
    rw [hy]
    simp only [Option.map_some]
    refine (piece_char '-' [.month, .char '-', .day] _ _ _).mpr ⟨_, rfl, ?_⟩
    refine (piece_field (p := .month) (fun f n => { f with civil.month := n })
        (fun _ _ => rfl) (by decide) [.char '-', .day] _ _ _).mpr ⟨m, sm, _, rfl, ?_, ?_⟩
    · exact short_of_noDigit hm (noDigit_cons (by decide))
    refine (piece_char '-' [.day] _ _ _).mpr ⟨_, rfl, ?_⟩
    exact (piece_field (p := .day) (fun f n => { f with civil.day := n })
        (fun _ _ => rfl) (by decide) [] _ _ _).mpr ⟨d, sd, rest, rfl, hd, rfl⟩

private theorem clock_iff (f f' : Fields) (s rest : Text) :
    parsePieces clockFormat f s = some (f', rest) ↔
      ∃ h m sec text, s = text ++ rest ∧ ClockText h m sec text rest ∧
        f' = ⟨{ f.civil with hour := h, minute := m, second := sec }, f.offset⟩ := by
  unfold clockFormat
  constructor
  · intro h
    obtain ⟨hh, sh, s1, e1, hh1, h⟩ := (piece_field (p := .hour) (fun f n => { f with civil.hour := n })
        (fun _ _ => rfl) (by decide) [.char ':', .minute, .char ':', .second] _ _ _).mp h
    obtain ⟨s2, e2, h⟩ := (piece_char ':' [.minute, .char ':', .second] _ _ _).mp h
    obtain ⟨m, sm, s3, e3, hm, h⟩ := (piece_field (p := .minute) (fun f n => { f with civil.minute := n })
        (fun _ _ => rfl) (by decide) [.char ':', .second] _ _ _).mp h
    obtain ⟨s4, e4, h⟩ := (piece_char ':' [.second] _ _ _).mp h
    obtain ⟨d, sd, s5, e5, hd, h⟩ := (piece_field (p := .second) (fun f n => { f with civil.second := n })
        (fun _ _ => rfl) (by decide) [] _ _ _).mp h
    cases h
    refine ⟨hh, m, d, sh ++ ':' :: sm ++ ':' :: sd, ?_, ⟨sh, sm, sd, ?_, ?_, hd, rfl⟩, rfl⟩
    · rw [e1, e2, e3, e4, e5]; simp
    · exact short_of_noDigit hh1 (noDigit_cons (by decide))
    · exact short_of_noDigit hm (noDigit_cons (by decide))
  · rintro ⟨hh, m, d, text, rfl, ⟨sh, sm, sd, hh1, hm, hd, rfl⟩, rfl⟩
    simp only [List.append_assoc, List.cons_append]
    refine (piece_field (p := .hour) (fun f n => { f with civil.hour := n })
        (fun _ _ => rfl) (by decide) [.char ':', .minute, .char ':', .second] _ _ _).mpr ⟨hh, sh, _, rfl, ?_, ?_⟩
    · exact short_of_noDigit hh1 (noDigit_cons (by decide))
    refine (piece_char ':' [.minute, .char ':', .second] _ _ _).mpr ⟨_, rfl, ?_⟩
    refine (piece_field (p := .minute) (fun f n => { f with civil.minute := n })
        (fun _ _ => rfl) (by decide) [.char ':', .second] _ _ _).mpr ⟨m, sm, _, rfl, ?_, ?_⟩
    · exact short_of_noDigit hm (noDigit_cons (by decide))
    refine (piece_char ':' [.second] _ _ _).mpr ⟨_, rfl, ?_⟩
    exact (piece_field (p := .second) (fun f n => { f with civil.second := n })
        (fun _ _ => rfl) (by decide) [] _ _ _).mpr ⟨d, sd, rest, rfl, hd, rfl⟩

/-- Two digits. -/
private theorem two_iff (hi : ℤ) (s rest : Text) (n : ℤ) :
    (parseInt 2 0 hi s = some (n, rest) ∧ rest.length + 2 = s.length) ↔ ∃ text, s = text ++ rest ∧ Two hi n text := by
  rw [parseInt2_iff le_rfl]
  constructor
  · rintro ⟨⟨text, rfl, hs⟩, hl⟩
    exact ⟨text, rfl, hs.low.1, hs.high, by simp at hl; omega, hs.decimal⟩
  · rintro ⟨text, rfl, h1, h2, h3, h4⟩
    exact ⟨⟨text, rfl, h4, ⟨h1, h1⟩, h2, h3.le, .inl h3⟩, by simp; omega⟩

private theorem two_head {hi n : ℤ} {text : Text} (h : Two hi n text) : ∃ c t, text = c :: t ∧ c.isDigit = true :=
  head_digit h.2.2.2

private theorem offsetPart_iff (s rest : Text) (n : ℤ) :
    offsetPart s = some (n, rest) ↔ ∃ co text, s = co ++ (text ++ rest) ∧ Colon co ∧ Two 59 n text := by
  have key : ∀ t : Text, (match parseInt 2 0 59 t with
      | some (n, rest) => if rest.length + 2 = t.length then some (n, rest) else none
      | none => none) = some (n, rest) ↔ ∃ text, t = text ++ rest ∧ Two 59 n text := by
    intro t
    rw [← two_iff]
    constructor
    · intro h
      split at h
      · rename_i n' rest' hp
        split at h
        · rename_i hl; cases h; exact ⟨hp, hl⟩
        · cases h
      · cases h
    · rintro ⟨h1, h2⟩
      rw [h1]; dsimp only; rw [if_pos h2]
  unfold offsetPart
  dsimp only
  refine (key _).trans ?_
  constructor
  · rintro ⟨text, h1, h2⟩
    split at h1
    · exact ⟨[':'], text, by rw [h1]; rfl, .inr rfl, h2⟩
    · exact ⟨[], text, h1, .inl rfl, h2⟩
  · rintro ⟨co, text, rfl, rfl | rfl, h2⟩
    · refine ⟨text, ?_, h2⟩
      obtain ⟨c, t, rfl, hc⟩ := two_head h2
      split
      · rename_i heq; cases heq; exact absurd hc (by decide)
      · rfl
    · exact ⟨text, rfl, h2⟩

private theorem offsetPart_blank {s : Text} (h : Blank s) : offsetPart s = none := by
  cases ho : offsetPart s with
  | none => rfl
  | some r =>
    obtain ⟨n, rest⟩ := r
    obtain ⟨co, text, rfl, hc, ht⟩ := (offsetPart_iff _ _ _).mp ho
    obtain ⟨c, t, rfl, hd⟩ := two_head ht
    have := h c (by simp)
    rw [(not_space_of_isDigit hd).1] at this
    cases this

private theorem offset_iff (s rest : Text) (off : ℤ) (hb : Blank rest) :
    parseOffset s = some (off, rest) ↔ ∃ text, s = text ++ rest ∧ OffsetText off text := by
  constructor
  · intro h
    unfold parseOffset at h
    split at h
    · cases h
    rename_i c s
    split at h
    · rename_i hsg
      split at h
      · rename_i hours r1 hp
        split at h
        · rename_i hl
          obtain ⟨sh, e1, h1⟩ := (two_iff 23 s r1 hours).mp ⟨hp, hl⟩
          dsimp only at h
          cases ho1 : offsetPart r1 with
          | none =>
            rw [ho1] at h
            obtain ⟨rfl, rfl⟩ := Prod.mk.inj (Option.some.inj h)
            exact ⟨c :: sh, by rw [e1]; rfl, .hours c hsg hours sh h1⟩
          | some q =>
            obtain ⟨m, r2⟩ := q
            obtain ⟨co, sm, e2, hco, h2⟩ := (offsetPart_iff _ _ _).mp ho1
            rw [ho1] at h
            dsimp only at h
            cases ho2 : offsetPart r2 with
            | none =>
              rw [ho2] at h
              obtain ⟨rfl, rfl⟩ := Prod.mk.inj (Option.some.inj h)
              exact ⟨_, by rw [e1, e2]; simp, .minutes c hsg hours m sh sm co h1 h2 hco⟩
            | some q =>
              obtain ⟨x, r3⟩ := q
              obtain ⟨co', ss, e3, hco', h3⟩ := (offsetPart_iff _ _ _).mp ho2
              rw [ho2] at h
              obtain ⟨rfl, rfl⟩ := Prod.mk.inj (Option.some.inj h)
              exact ⟨_, by rw [e1, e2, e3]; simp, .seconds c hsg hours m x sh sm ss co co' h1 h2 h3 hco hco'⟩
        · cases h
      · cases h
    · split at h
      · rename_i hz
        cases h
        exact ⟨[c], rfl, .zulu c hz⟩
      · cases h
  · rintro ⟨text, rfl, ho⟩
    cases ho with
    | zulu c hc =>
      unfold parseOffset
      simp only [List.cons_append, List.nil_append]
      rw [if_neg (by rcases hc with rfl | rfl <;> decide), if_pos hc]
    | hours sg hsg h sh h1 =>
      obtain ⟨e1, e2⟩ := (two_iff 23 (sh ++ rest) rest h).mpr ⟨sh, rfl, h1⟩
      unfold parseOffset
      simp only [List.cons_append]
      rw [if_pos hsg, e1]
      dsimp only
      rw [if_pos e2, offsetPart_blank hb]
    | minutes sg hsg h m sh sm co h1 h2 hc =>
      obtain ⟨e1, e2⟩ := (two_iff 23 (sh ++ (co ++ (sm ++ rest))) (co ++ (sm ++ rest)) h).mpr ⟨sh, rfl, h1⟩
      have e3 := (offsetPart_iff (co ++ (sm ++ rest)) rest m).mpr ⟨co, sm, rfl, hc, h2⟩
      unfold parseOffset
      simp only [List.cons_append, List.append_assoc]
      rw [if_pos hsg, e1]
      dsimp only
      rw [if_pos e2, e3]
      dsimp only
      rw [offsetPart_blank hb]
    | seconds sg hsg h m x sh sm ss co co' h1 h2 h3 hc hc' =>
      obtain ⟨e1, e2⟩ := (two_iff 23 (sh ++ (co ++ (sm ++ (co' ++ (ss ++ rest))))) (co ++ (sm ++ (co' ++ (ss ++ rest)))) h).mpr
        ⟨sh, rfl, h1⟩
      have e3 := (offsetPart_iff (co ++ (sm ++ (co' ++ (ss ++ rest)))) (co' ++ (ss ++ rest)) m).mpr ⟨co, sm, rfl, hc, h2⟩
      have e4 := (offsetPart_iff (co' ++ (ss ++ rest)) rest x).mpr ⟨co', ss, rfl, hc', h3⟩
      unfold parseOffset
      simp only [List.cons_append, List.append_assoc]
      rw [if_pos hsg, e1]
      dsimp only
      rw [if_pos e2, e3]
      dsimp only
      rw [e4]

/-! ### Blanks -/

private theorem dropWhile_blank {b s : Text} (hb : Blank b) (hs : ∀ c, s.head? = some c → isSpace c = false) :
    (b ++ s).dropWhile isSpace = s := by
  induction b with
  | nil =>
    cases s with
    | nil => rfl
    | cons c s => simp [hs c rfl]
  | cons c b ih =>
    rw [List.cons_append, List.dropWhile_cons, if_pos (hb c (by simp))]
    exact ih (fun x hx => hb x (by simp [hx]))

private theorem dropWhile_nil_iff (s : Text) : s.dropWhile isSpace = [] ↔ Blank s := by
  unfold Blank
  induction s with
  | nil => simp
  | cons c s ih =>
    by_cases hc : isSpace c = true
    · rw [List.dropWhile_cons, if_pos hc, ih]; simp [hc]
    · rw [List.dropWhile_cons, if_neg hc]; simp [hc]

private theorem split_blank (s : Text) : ∃ b, Blank b ∧ s = b ++ s.dropWhile isSpace :=
  ⟨s.takeWhile isSpace, fun c hc => by
    have := List.all_takeWhile (p := isSpace) (l := s)
    exact List.all_eq_true.mp this c hc, (List.takeWhile_append_dropWhile).symm⟩

private theorem head_clock {h m sec : ℤ} {c rest : Text} (hc : ClockText h m sec c rest) :
    ∃ x t, c = x :: t ∧ x.isDigit = true := by
  obtain ⟨sh, sm, ss, h1, -, -, rfl⟩ := hc
  obtain ⟨x, t, rfl, hx⟩ := head_digit h1.decimal
  exact ⟨x, _, rfl, hx⟩

private theorem head_offset {off : ℤ} {o : Text} (ho : OffsetText off o) :
    ∃ x t, o = x :: t ∧ (x = '+' ∨ x = '-' ∨ x = 'Z' ∨ x = 'z') := by
  cases ho with
  | zulu c hc => exact ⟨c, _, rfl, by tauto⟩
  | hours sg hsg => exact ⟨sg, _, rfl, by tauto⟩
  | minutes sg hsg => exact ⟨sg, _, rfl, by tauto⟩
  | seconds sg hsg => exact ⟨sg, _, rfl, by tauto⟩

private theorem head_date {y m d : ℤ} {s rest : Text} (h : DateText y m d s rest) :
    ∃ x t, s = x :: t ∧ (x = '-' ∨ x.isDigit = true) := by
  obtain ⟨sy, sm, sd, (⟨-, h1⟩ | ⟨-, s', rfl, h1⟩), -, -, -, -, rfl⟩ := h
  · obtain ⟨x, t, rfl, hx⟩ := head_digit h1
    exact ⟨x, _, rfl, .inr hx⟩
  · exact ⟨'-', _, rfl, .inl rfl⟩

/-! ### Dates that exist -/

private theorem normalise_iff (y m d h mi s : ℤ) (hm : 1 ≤ m ∧ m ≤ 12) (hd : 1 ≤ d ∧ d ≤ 31) (hh : 0 ≤ h ∧ h ≤ 23)
    (hmi : 0 ≤ mi ∧ mi ≤ 59) (hs : 0 ≤ s ∧ s ≤ 59) :
    ((normalise y m d h mi s).month = m ∧ (normalise y m d h mi s).day = d) ↔ (⟨y, m, d⟩ : Date).Valid := by
  constructor
  · intro hn
    by_contra hv
    have hlong : monthLength y m < d := by
      by_contra hc
      exact hv ⟨hm.1, hm.2, hd.1, not_lt.mp hc⟩
    have hday : fromCivil ⟨y, m, d, h, mi, s⟩ / 86400 = dayNumber y m d := by
      simp only [fromCivil]; omega
    have hstep := monthStart_step (12 * y + m - 1)
    rw [show (12 * y + m - 1) / 12 = y by omega, show (12 * y + m - 1) % 12 + 1 = m by omega] at hstep
    have hnext := monthStart_lt (12 * y + m - 1 + 1)
    have hb := monthLength_bounds y m
    have hmo : monthOf (dayNumber y m d) = 12 * y + m - 1 + 1 :=
      monthOf_unique (by unfold dayNumber; omega) (by unfold dayNumber; omega)
    have h1 := hn.1
    unfold normalise toCivil at h1
    dsimp only at h1
    rw [hday, hmo] at h1
    omega
  · intro hv
    have := C61_round_trip' ⟨y, m, d, h, mi, s⟩ hv hh.1 (Int.lt_add_one_of_le hh.2) hmi.1 (Int.lt_add_one_of_le hmi.2)
      hs.1 (Int.lt_add_one_of_le hs.2)
    unfold normalise
    rw [this]
    exact ⟨rfl, rfl⟩

private theorem fieldsToTime_iff (c : Civil) (off : ℤ) (s : Text) (t : ℤ) (hm : 1 ≤ c.month ∧ c.month ≤ 12)
    (hd : 1 ≤ c.day ∧ c.day ≤ 31) (hh : 0 ≤ c.hour ∧ c.hour ≤ 23) (hmi : 0 ≤ c.minute ∧ c.minute ≤ 59)
    (hs : 0 ≤ c.second ∧ c.second ≤ 60) :
    fieldsToTime ⟨c, off⟩ s = some t ↔ Blank s ∧ (dateOf c).Valid ∧ t = fromCivil c - off ∧ IsInt64 t := by
  unfold fieldsToTime
  dsimp only
  rw [← dropWhile_nil_iff]
  by_cases hb : s.dropWhile isSpace = []
  swap
  · rw [if_pos hb]
    simp [hb]
  rw [if_neg (by simpa using hb)]
  have hs' : 0 ≤ (if c.second = 60 then 59 else c.second) ∧ (if c.second = 60 then 59 else c.second) ≤ 59 := by
    split <;> omega
  have hn := normalise_iff c.year c.month c.day c.hour c.minute _ hm hd hh hmi hs'
  have hv : (fromCivil (normalise c.year c.month c.day c.hour c.minute (if c.second = 60 then 59 else c.second)) -
      if c.second = 60 then off - 1 else off) = fromCivil c - off := by
    unfold normalise
    rw [C61_round_trip]
    simp only [fromCivil]
    split <;> omega
  rw [hv]
  by_cases hval : (dateOf c).Valid
  · rw [if_neg (by have := hn.mpr hval; tauto)]
    simp only [hb, hval, true_and, isInt64, Bool.and_eq_true, decide_eq_true_eq, IsInt64]
    constructor
    · intro h
      split at h
      · rename_i hi; cases h; exact ⟨rfl, hi⟩
      · cases h
    · rintro ⟨rfl, hi⟩
      rw [if_pos hi]
  · rw [if_pos (by by_contra hc; push Not at hc; exact hval (hn.mp hc))]
    simp [hval]

/-! ### The formats -/

private theorem piece_blank (ps : List Piece) (f : Fields) (s : Text) :
    parsePieces (.blank :: ps) f s = parsePieces ps f (s.dropWhile isSpace) := rfl

private theorem piece_T (ps : List Piece) (f : Fields) (s : Text) (r : Fields × Text) :
    parsePieces (.letterT :: ps) f s = some r ↔ ∃ x s', s = x :: s' ∧ (x = 'T' ∨ x = 't') ∧ parsePieces ps f s' = some r := by
  cases s with
  | nil => simp [parsePieces, Piece.parse]
  | cons x s =>
    simp only [parsePieces, Piece.parse]
    by_cases h : x = 'T' ∨ x = 't'
    · rw [if_pos h]
      constructor
      · exact fun h' => ⟨x, s, rfl, h, h'⟩
      · rintro ⟨x', s', e, -, h'⟩; cases e; exact h'
    · rw [if_neg h]
      constructor
      · intro h'; cases h'
      · rintro ⟨x', s', e, h', -⟩; cases e; exact absurd h' h

private theorem piece_offset (f : Fields) (s rest : Text) (f' : Fields) :
    parsePieces [.offset] f s = some (f', rest) ↔ ∃ off, parseOffset s = some (off, rest) ∧ f' = { f with offset := off } := by
  simp only [parsePieces, Piece.parse]
  cases parseOffset s with
  | none => simp
  | some q =>
    obtain ⟨o, r⟩ := q
    simp only [Option.map_some, Option.some.injEq, Prod.mk.injEq]
    constructor
    · rintro ⟨rfl, rfl⟩; exact ⟨o, ⟨rfl, rfl⟩, rfl⟩
    · rintro ⟨off, ⟨rfl, rfl⟩, rfl⟩; exact ⟨rfl, rfl⟩

/-- The initial fields. -/
private abbrev fields0 : Fields := ⟨⟨1970, 1, 1, 0, 0, 0⟩, 0⟩

/-- What comes after the date in the five formats. -/
private abbrev tf1 : List Piece := .letterT :: (clockFormat ++ [.offset])
private abbrev tf2 : List Piece := .blank :: (clockFormat ++ [.blank, .offset])
private abbrev tf3 : List Piece := .blank :: (clockFormat ++ [])
private abbrev tf4 : List Piece := [.blank, .offset]
private def tailFormats : List (List Piece) := [tf1, tf2, tf3, tf4, []]

private theorem formats_eq : allowedTimeFormats = tailFormats.map (dateFormat ++ ·) := by
  unfold allowedTimeFormats tailFormats
  simp

private theorem clock_bind (qs : List Piece) (f : Fields) (s : Text) (r : Fields × Text) :
    parsePieces (clockFormat ++ qs) f s = some r ↔ ∃ h m sec c rest, s = c ++ rest ∧ ClockText h m sec c rest ∧
      parsePieces qs ⟨{ f.civil with hour := h, minute := m, second := sec }, f.offset⟩ rest = some r := by
  rw [parsePieces_append, Option.bind_eq_some_iff]
  constructor
  · rintro ⟨⟨f', rest⟩, h1, h2⟩
    obtain ⟨h, m, sec, c, e1, e2, rfl⟩ := (clock_iff f f' s rest).mp h1
    exact ⟨h, m, sec, c, rest, e1, e2, h2⟩
  · rintro ⟨h, m, sec, c, rest, e1, e2, h2⟩
    exact ⟨(_, rest), (clock_iff f _ s rest).mpr ⟨h, m, sec, c, e1, e2, rfl⟩, h2⟩

private theorem date_bind (qs : List Piece) (f : Fields) (s : Text) (r : Fields × Text) :
    parsePieces (dateFormat ++ qs) f s = some r ↔ ∃ y m d c rest, s = c ++ rest ∧ DateText y m d c rest ∧
      parsePieces qs ⟨{ f.civil with year := y, month := m, day := d }, f.offset⟩ rest = some r := by
  rw [parsePieces_append, Option.bind_eq_some_iff]
  constructor
  · rintro ⟨⟨f', rest⟩, h1, h2⟩
    obtain ⟨h, m, sec, c, e1, e2, rfl⟩ := (date_iff f f' s rest).mp h1
    exact ⟨h, m, sec, c, rest, e1, e2, h2⟩
  · rintro ⟨h, m, sec, c, rest, e1, e2, h2⟩
    exact ⟨(_, rest), (date_iff f _ s rest).mpr ⟨h, m, sec, c, e1, e2, rfl⟩, h2⟩

private theorem clock_none {f : Fields} {s : Text} {qs : List Piece} (h : NoDigit s) :
    parsePieces (clockFormat ++ qs) f s = none := by
  cases hp : parsePieces (clockFormat ++ qs) f s with
  | none => rfl
  | some r =>
    obtain ⟨_, _, _, c, rest, rfl, hc, -⟩ := (clock_bind qs f s r).mp hp
    obtain ⟨x, t, rfl, hx⟩ := head_clock hc
    have := h x rfl
    rw [hx] at this; cases this

private theorem civil_ranges {y m d h mi sec : ℤ} {a b c e : Text} (hd : DateText y m d a b) (hc : ClockText h mi sec c e) :
    (1 ≤ m ∧ m ≤ 12) ∧ (1 ≤ d ∧ d ≤ 31) ∧ (0 ≤ h ∧ h ≤ 23) ∧ (0 ≤ mi ∧ mi ≤ 59) ∧ (0 ≤ sec ∧ sec ≤ 60) := by
  obtain ⟨_, _, _, -, -, -, h1, h2, -⟩ := hd
  obtain ⟨_, _, _, h3, h4, h5, -⟩ := hc
  exact ⟨⟨h1.low.2, h1.high⟩, ⟨h2.low.2, h2.high⟩, ⟨h3.low.2, h3.high⟩, ⟨h4.low.2, h4.high⟩, ⟨h5.low.2, h5.high⟩⟩

private theorem date_ranges {y m d : ℤ} {a b : Text} (hd : DateText y m d a b) :
    (1 ≤ m ∧ m ≤ 12) ∧ (1 ≤ d ∧ d ≤ 31) := by
  obtain ⟨_, _, _, -, -, -, h1, h2, -⟩ := hd
  exact ⟨⟨h1.low.2, h1.high⟩, ⟨h2.low.2, h2.high⟩⟩

private theorem tail_ranges {h m s off : ℤ} {tail : Text} (ht : TailText h m s off tail) :
    (0 ≤ h ∧ h ≤ 23) ∧ (0 ≤ m ∧ m ≤ 59) ∧ (0 ≤ s ∧ s ≤ 60) := by
  have key : ∀ {h m s : ℤ} {c e : Text}, ClockText h m s c e → (0 ≤ h ∧ h ≤ 23) ∧ (0 ≤ m ∧ m ≤ 59) ∧ (0 ≤ s ∧ s ≤ 60) := by
    rintro h m s c e ⟨_, _, _, h3, h4, h5, -⟩
    exact ⟨⟨h3.low.2, h3.high⟩, ⟨h4.low.2, h4.high⟩, ⟨h5.low.2, h5.high⟩⟩
  cases ht with
  | date => omega
  | dateOffset => omega
  | clock _ _ _ _ _ _ _ hc => exact key hc
  | clockOffset _ _ _ _ _ _ _ _ _ _ hc => exact key hc
  | rfc3339 _ _ _ _ _ _ _ _ _ hc => exact key hc

/-- A tail read by one of the formats is one of the forms of the specification. -/
private theorem tail_sound (y m d : ℤ) (tail rest : Text) (f : Fields) (fmt : List Piece) (hf : fmt ∈ tailFormats)
    (hb : Blank rest) (h : parsePieces fmt ⟨⟨y, m, d, 0, 0, 0⟩, 0⟩ tail = some (f, rest)) :
    ∃ hh mi s off, f = ⟨⟨y, m, d, hh, mi, s⟩, off⟩ ∧ TailText hh mi s off tail := by
  simp only [tailFormats, List.mem_cons, List.not_mem_nil, or_false] at hf
  rcases hf with rfl | rfl | rfl | rfl | rfl
  · obtain ⟨x, s1, rfl, hx, h⟩ := (piece_T _ _ _ _).mp h
    obtain ⟨hh, mi, s, c, r, rfl, hc, h⟩ := (clock_bind _ _ _ _).mp h
    obtain ⟨off, ho, rfl⟩ := (piece_offset _ _ _ _).mp h
    obtain ⟨o, rfl, ho'⟩ := (offset_iff _ _ _ hb).mp ho
    exact ⟨hh, mi, s, off, rfl, .rfc3339 x c o rest hh mi s off hx hc ho' hb⟩
  · obtain ⟨b, hbl, e⟩ := split_blank tail
    rw [piece_blank] at h
    obtain ⟨hh, mi, s, c, r, e1, hc, h⟩ := (clock_bind _ _ _ _).mp h
    obtain ⟨b', hbl', e'⟩ := split_blank r
    rw [piece_blank] at h
    obtain ⟨off, ho, rfl⟩ := (piece_offset _ _ _ _).mp h
    obtain ⟨o, e2, ho'⟩ := (offset_iff _ _ _ hb).mp ho
    rw [e2] at e'
    rw [e1] at e
    subst e'
    exact ⟨hh, mi, s, off, rfl, by rw [e]; exact .clockOffset b c b' o rest hh mi s off hbl hc hbl' ho' hb⟩
  · obtain ⟨b, hbl, e⟩ := split_blank tail
    rw [piece_blank] at h
    obtain ⟨hh, mi, s, c, r, e1, hc, h⟩ := (clock_bind _ _ _ _).mp h
    cases h
    exact ⟨hh, mi, s, 0, rfl, by rw [e, e1]; exact .clock b c rest hh mi s hbl hc hb⟩
  · obtain ⟨b, hbl, e⟩ := split_blank tail
    rw [piece_blank] at h
    obtain ⟨off, ho, rfl⟩ := (piece_offset _ _ _ _).mp h
    obtain ⟨o, e2, ho⟩ := (offset_iff _ _ _ hb).mp ho
    exact ⟨0, 0, 0, off, rfl, by rw [e, e2]; exact .dateOffset b o rest off hbl ho hb⟩
  · cases h
    exact ⟨0, 0, 0, 0, rfl, .date _ hb⟩

private theorem T_none {f : Fields} {s : Text} {ps : List Piece} (h : ∀ c, s.head? = some c → c ≠ 'T' ∧ c ≠ 't') :
    parsePieces (.letterT :: ps) f s = none := by
  cases hp : parsePieces (.letterT :: ps) f s with
  | none => rfl
  | some r =>
    obtain ⟨x, s', rfl, hx, -⟩ := (piece_T _ _ _ _).mp hp
    have := h x rfl
    tauto

private theorem head_blank_append {b s : Text} (hb : Blank b) {P : Char → Prop} (hsp : ∀ c, isSpace c = true → P c)
    (hs : ∀ c, s.head? = some c → P c) : ∀ c, (b ++ s).head? = some c → P c := by
  intro c hc
  cases b with
  | nil => exact hs c hc
  | cons x b =>
    cases hc
    exact hsp _ (hb _ (by simp))

private theorem space_not_T (c : Char) (h : isSpace c = true) : c ≠ 'T' ∧ c ≠ 't' := by
  constructor <;> (rintro rfl; exact absurd h (by decide))

private theorem digit_not_T {c : Char} (h : c.isDigit = true) : c ≠ 'T' ∧ c ≠ 't' := by
  constructor <;> (rintro rfl; exact absurd h (by decide))

private theorem offset_head {x : Char} (hx : x = '+' ∨ x = '-' ∨ x = 'Z' ∨ x = 'z') :
    isSpace x = false ∧ x.isDigit = false ∧ x ≠ 'T' ∧ x ≠ 't' := by
  rcases hx with rfl | rfl | rfl | rfl <;> decide

/-- The first format that reads a tail (up to blanks) gives the values of the specification. -/
private theorem tail_complete (y m d hh mi s off : ℤ) (tail : Text) (ht : TailText hh mi s off tail) :
    ∃ pre fmt post rest, tailFormats = pre ++ fmt :: post ∧ Blank rest ∧
      parsePieces fmt ⟨⟨y, m, d, 0, 0, 0⟩, 0⟩ tail = some (⟨⟨y, m, d, hh, mi, s⟩, off⟩, rest) ∧
      ∀ p ∈ pre, parsePieces p ⟨⟨y, m, d, 0, 0, 0⟩, 0⟩ tail = none := by
  cases ht with
  | rfc3339 x c o b _ _ _ _ hx hc ho hb =>
    refine ⟨[], tf1, [tf2, tf3, tf4, []], b, rfl, hb, ?_, by simp⟩
    refine (piece_T _ _ _ _).mpr ⟨x, _, rfl, hx, (clock_bind _ _ _ _).mpr ⟨hh, mi, s, c, _, rfl, hc, ?_⟩⟩
    exact (piece_offset _ _ _ _).mpr ⟨off, (offset_iff _ _ _ hb).mpr ⟨o, rfl, ho⟩, rfl⟩
  | clockOffset b c b' o b'' _ _ _ _ hb hc hb' ho hb'' =>
    obtain ⟨x, t, hxc, hx⟩ := head_clock hc
    obtain ⟨x', t', hxo, hx'⟩ := head_offset ho
    refine ⟨[tf1], tf2, [tf3, tf4, []], b'', rfl, hb'', ?_, ?_⟩
    · rw [piece_blank,
        dropWhile_blank hb (by rw [hxc]; intro z hz; cases hz; exact (not_space_of_isDigit hx).1)]
      refine (clock_bind _ _ _ _).mpr ⟨hh, mi, s, c, _, rfl, hc, ?_⟩
      rw [piece_blank, dropWhile_blank hb' (by rw [hxo]; intro z hz; cases hz; exact (offset_head hx').1)]
      exact (piece_offset _ _ _ _).mpr ⟨off, (offset_iff _ _ _ hb'').mpr ⟨o, rfl, ho⟩, rfl⟩
    · intro p hp
      rw [List.mem_singleton.mp hp]
      exact T_none (head_blank_append hb space_not_T (by rw [hxc]; intro z hz; cases hz; exact digit_not_T hx))
  | clock b c b' _ _ _ hb hc hb' =>
    obtain ⟨x, t, hxc, hx⟩ := head_clock hc
    refine ⟨[tf1, tf2], tf3, [tf4, []], b', rfl, hb', ?_, ?_⟩
    · rw [piece_blank,
        dropWhile_blank hb (by rw [hxc]; intro z hz; cases hz; exact (not_space_of_isDigit hx).1)]
      exact (clock_bind _ _ _ _).mpr ⟨hh, mi, s, c, _, rfl, hc, rfl⟩
    · intro p hp
      simp only [List.mem_cons, List.not_mem_nil, or_false] at hp
      rcases hp with rfl | rfl
      · exact T_none (head_blank_append hb space_not_T (by rw [hxc]; intro z hz; cases hz; exact digit_not_T hx))
      · rw [piece_blank,
          dropWhile_blank hb (by rw [hxc]; intro z hz; cases hz; exact (not_space_of_isDigit hx).1),
          parsePieces_append, (clock_iff _ _ _ _).mpr ⟨hh, mi, s, c, rfl, hc, rfl⟩]
        simp only [Option.bind_some, piece_blank, (dropWhile_nil_iff b').mpr hb']
        rfl
  | dateOffset b o b' _ hb ho hb' =>
    obtain ⟨x', t', hxo, hx'⟩ := head_offset ho
    have hdw : (b ++ (o ++ b')).dropWhile isSpace = o ++ b' :=
      dropWhile_blank hb (by rw [hxo]; intro z hz; cases hz; exact (offset_head hx').1)
    have hnd : NoDigit (o ++ b') := by rw [hxo]; intro z hz; cases hz; exact (offset_head hx').2.1
    refine ⟨[tf1, tf2, tf3], tf4, [[]], b', rfl, hb', ?_, ?_⟩
    · rw [piece_blank, hdw]
      exact (piece_offset _ _ _ _).mpr ⟨off, (offset_iff _ _ _ hb').mpr ⟨o, rfl, ho⟩, rfl⟩
    · intro p hp
      simp only [List.mem_cons, List.not_mem_nil, or_false] at hp
      rcases hp with rfl | rfl | rfl
      · exact T_none (head_blank_append hb space_not_T (by rw [hxo]; intro z hz; cases hz; exact (offset_head hx').2.2))
      · rw [piece_blank, hdw]
        exact clock_none hnd
      · rw [piece_blank, hdw]
        exact clock_none hnd
  | date _ hb =>
    have hdw := (dropWhile_nil_iff tail).mpr hb
    refine ⟨[tf1, tf2, tf3, tf4], [], [], tail, rfl, hb, rfl, ?_⟩
    intro p hp
    simp only [List.mem_cons, List.not_mem_nil, or_false] at hp
    rcases hp with rfl | rfl | rfl | rfl
    · refine T_none ?_
      intro c hc
      cases tail with
      | nil => cases hc
      | cons x tail => cases hc; exact space_not_T _ (hb _ (by simp))
    · rw [piece_blank, hdw]; exact clock_none noDigit_nil
    · rw [piece_blank, hdw]; exact clock_none noDigit_nil
    · rw [piece_blank, hdw]; rfl

private theorem abslParse_sec {fmt : List Piece} {s : Text} {t : ℤ} (h : abslParseTime fmt s = some (.sec t)) :
    ∃ f rest, parsePieces fmt fields0 (s.dropWhile isSpace) = some (f, rest) ∧ fieldsToTime f rest = some t := by
  unfold abslParseTime at h
  dsimp only at h
  split at h
  · cases h
  · split at h
    · cases h
    · split at h
      · rename_i f rest hp
        simp only [Option.map_eq_some_iff] at h
        obtain ⟨t', h1, h2⟩ := h
        cases h2
        exact ⟨f, rest, hp, h1⟩
      · cases h

private theorem abslParse_of_date {fmt : List Piece} {s date tail : Text} {y m d : ℤ} (hs : s.dropWhile isSpace = date ++ tail)
    (hd : DateText y m d date tail) :
    abslParseTime fmt s = (parsePieces fmt fields0 (date ++ tail)).bind (fun r => (fieldsToTime r.1 r.2).map .sec) := by
  obtain ⟨x, t, rfl, hx⟩ := head_date hd
  have hi : x ≠ 'i' := by
    rcases hx with rfl | hx
    · decide
    · rintro rfl; exact absurd hx (by decide)
  have hpre : ∀ l : Text, ('i' :: l).isPrefixOf (x :: (t ++ tail)) = false := by
    intro l
    simp [List.isPrefixOf, Ne.symm hi]
  unfold abslParseTime
  dsimp only
  rw [hs]
  rw [if_neg (by
    rw [List.cons_append, show "infinite-future".toList = 'i' :: "nfinite-future".toList from rfl, hpre]; simp)]
  rw [if_neg (by
    rw [List.cons_append, show "infinite-past".toList = 'i' :: "nfinite-past".toList from rfl, hpre]; simp)]
  cases parsePieces fmt fields0 (x :: t ++ tail) <;> rfl

/-- **C78** (infinities). Exactly the names of the two infinite times, possibly with blanks around them, are accepted as
infinite times; as Unix seconds these are the largest and the smallest 64-bit number. -/
theorem C78_infinite (s : Text) :
    (parseTime s = some .infiniteFuture ↔ ∃ b b', Blank b ∧ Blank b' ∧ s = b ++ "infinite-future".toList ++ b') ∧
    (parseTime s = some .infinitePast ↔ ∃ b b', Blank b ∧ Blank b' ∧ s = b ++ "infinite-past".toList ++ b') ∧
    (IsInt64 Instant.infiniteFuture.toUnixSeconds ∧ ∀ t, IsInt64 t → t ≤ Instant.infiniteFuture.toUnixSeconds) ∧
    (IsInt64 Instant.infinitePast.toUnixSeconds ∧ ∀ t, IsInt64 t → Instant.infinitePast.toUnixSeconds ≤ t) := by
  have split_blank : ∀ (x : Char) (name : Text), isSpace x = false →
      (((x :: name).isPrefixOf (s.dropWhile isSpace) ∧ ((s.dropWhile isSpace).drop (x :: name).length).dropWhile isSpace = []) ↔
        ∃ b b', Blank b ∧ Blank b' ∧ s = b ++ (x :: name) ++ b') := by
    intro x name hx
    constructor
    · rintro ⟨h1, h2⟩
      obtain ⟨rest, hr⟩ := List.isPrefixOf_iff_prefix.mp h1
      refine ⟨s.takeWhile isSpace, rest, ?_, ?_, ?_⟩
      · intro c hc
        exact List.all_eq_true.mp List.all_takeWhile c hc
      · rw [← hr, List.drop_left] at h2
        exact (dropWhile_nil_iff rest).mp h2
      · rw [List.append_assoc, hr, List.takeWhile_append_dropWhile]
    · rintro ⟨b, b', hb, hb', rfl⟩
      have : (b ++ (x :: name) ++ b').dropWhile isSpace = (x :: name) ++ b' := by
        rw [List.append_assoc]
        exact dropWhile_blank hb (by intro z hz; cases hz; exact hx)
      rw [this]
      refine ⟨List.isPrefixOf_iff_prefix.mpr ⟨b', rfl⟩, ?_⟩
      rw [List.drop_left]
      exact (dropWhile_nil_iff b').mpr hb'
  have hf := split_blank 'i' "nfinite-future".toList (by decide)
  have hp := split_blank 'i' "nfinite-past".toList (by decide)
  rw [show 'i' :: "nfinite-future".toList = "infinite-future".toList from rfl] at hf
  rw [show 'i' :: "nfinite-past".toList = "infinite-past".toList from rfl] at hp
  have hex : ¬ (("infinite-future".toList.isPrefixOf (s.dropWhile isSpace) = true) ∧
      ("infinite-past".toList.isPrefixOf (s.dropWhile isSpace) = true)) := by
    rintro ⟨h1, h2⟩
    obtain ⟨r1, e1⟩ := List.isPrefixOf_iff_prefix.mp h1
    obtain ⟨r2, e2⟩ := List.isPrefixOf_iff_prefix.mp h2
    have := e1.trans e2.symm
    have := congrArg (fun l : Text => l[9]?) this
    simp at this
  have hfin : ∀ fmt, (abslParseTime fmt s = some .infiniteFuture ↔
        ("infinite-future".toList.isPrefixOf (s.dropWhile isSpace) ∧
          ((s.dropWhile isSpace).drop "infinite-future".toList.length).dropWhile isSpace = [])) ∧
      (abslParseTime fmt s = some .infinitePast ↔
        ("infinite-past".toList.isPrefixOf (s.dropWhile isSpace) ∧
          ((s.dropWhile isSpace).drop "infinite-past".toList.length).dropWhile isSpace = [])) := by
    intro fmt
    unfold abslParseTime
    dsimp only
    split
    · rename_i h
      refine ⟨⟨fun _ => h, fun _ => rfl⟩, ⟨fun h' => ?_, fun h' => absurd ⟨h.1, h'.1⟩ hex⟩⟩
      cases h'
    · rename_i h
      split
      · rename_i h'
        refine ⟨⟨fun h2 => ?_, fun h'' => absurd h'' h⟩, ⟨fun _ => h', fun _ => rfl⟩⟩
        cases h2
      · rename_i h'
        refine ⟨⟨fun h2 => ?_, fun h'' => absurd h'' h⟩, ⟨fun h2 => ?_, fun h'' => absurd h'' h'⟩⟩
        all_goals
          split at h2
          · rw [Option.map_eq_some_iff] at h2
            obtain ⟨_, -, h2⟩ := h2
            cases h2
          · cases h2
  have hall : ∀ (i : Instant) (C : Prop), (∀ fmt, abslParseTime fmt s = some i ↔ C) → (parseTime s = some i ↔ C) := by
    intro i C h
    unfold parseTime
    constructor
    · intro h'
      obtain ⟨fmt, -, h'⟩ := List.exists_of_findSome?_eq_some h'
      exact (h fmt).mp h'
    · intro hC
      unfold allowedTimeFormats
      rw [List.findSome?_cons, (h _).mpr hC]
  refine ⟨?_, ?_, ⟨?_, ?_⟩, ?_, ?_⟩
  · rw [← hf]; exact hall _ _ (fun fmt => (hfin fmt).1)
  · rw [← hp]; exact hall _ _ (fun fmt => (hfin fmt).2)
  all_goals
    unfold IsInt64 Instant.toUnixSeconds
    simp only
    omega

example : parseTime " infinite-future\t".toList = some .infiniteFuture ∧ parseTime "infinite-past".toList = some .infinitePast ∧
    parseTime "infinite".toList = none := by decide +kernel

/-- **C78** (reading times). A text is accepted as the time `t` exactly when it spells out, in one of the documented
notations, an existing date (midnight if there is no clock time) in UTC or at the given offset, and `t` is that time in
seconds since 1970. -/
theorem C78_parse_iff (s : Text) (t : ℤ) :
    parseTime s = some (.sec t) ↔
      ∃ c off, TimeText s c off ∧ (dateOf c).Valid ∧ t = fromCivil c - off ∧ IsInt64 t := by
  unfold parseTime
  rw [formats_eq]
  constructor
  · intro h
    obtain ⟨fmt, hfmt, h⟩ := List.exists_of_findSome?_eq_some h
    obtain ⟨q, hq, rfl⟩ := List.mem_map.mp hfmt
    obtain ⟨f, rest, h1, h2⟩ := abslParse_sec h
    obtain ⟨y, m, d, date, tail, e, hd, h1⟩ := (date_bind _ _ _ _).mp h1
    have hb : Blank rest := by
      rw [← dropWhile_nil_iff]
      unfold fieldsToTime at h2
      split at h2
      · cases h2
      · rename_i h'; simpa using h'
    obtain ⟨hh, mi, sec, off, rfl, ht⟩ := tail_sound y m d tail rest f q hq hb h1
    obtain ⟨b, hbb, es⟩ := split_blank s
    obtain ⟨r1, r2⟩ := date_ranges hd
    obtain ⟨r3, r4, r5⟩ := tail_ranges ht
    obtain ⟨-, g2, g3, g4⟩ := (fieldsToTime_iff ⟨y, m, d, hh, mi, sec⟩ off rest t r1 r2 r3 r4 r5).mp h2
    exact ⟨⟨y, m, d, hh, mi, sec⟩, off, ⟨b, date, tail, hbb, hd, ht, by rw [← e]; exact es⟩, g2, g3, g4⟩
  · rintro ⟨⟨y, m, d, hh, mi, sec⟩, off, ⟨b, date, tail, hb, hd, ht, rfl⟩, hv, hval, hint⟩
    dsimp only at hd ht
    obtain ⟨r1, r2⟩ := date_ranges hd
    obtain ⟨r3, r4, r5⟩ := tail_ranges ht
    obtain ⟨x, t', hx, hxd⟩ := head_date hd
    have hdw : (b ++ (date ++ tail)).dropWhile isSpace = date ++ tail := by
      refine dropWhile_blank hb ?_
      rw [hx]
      intro z hz
      cases hz
      rcases hxd with rfl | hxd
      · decide
      · exact (not_space_of_isDigit hxd).1
    obtain ⟨pre, fmt, post, rest, e, hbr, h1, h2⟩ := tail_complete y m d hh mi sec off tail ht
    have hparse : ∀ q, parsePieces (dateFormat ++ q) fields0 (date ++ tail) = parsePieces q ⟨⟨y, m, d, 0, 0, 0⟩, 0⟩ tail := by
      intro q
      rw [parsePieces_append, (date_iff fields0 _ (date ++ tail) tail).mpr ⟨y, m, d, date, rfl, hd, rfl⟩]
      rfl
    rw [e, List.map_append, List.findSome?_append]
    have hnone : (pre.map (dateFormat ++ ·)).findSome? (abslParseTime · (b ++ (date ++ tail))) = none := by
      rw [List.findSome?_eq_none_iff]
      intro q hq
      obtain ⟨q, hq', rfl⟩ := List.mem_map.mp hq
      rw [abslParse_of_date hdw hd, hparse, h2 q hq']
      rfl
    rw [hnone, Option.none_or, List.map_cons, List.findSome?_cons, abslParse_of_date hdw hd, hparse, h1]
    simp only [Option.bind_some]
    rw [(fieldsToTime_iff ⟨y, m, d, hh, mi, sec⟩ off rest t r1 r2 r3 r4 r5).mpr ⟨hbr, hv, hval, hint⟩]
    rfl

/-- **C78** (offsets). A time with an offset means the instant at which clocks at that offset show what is written; in
particular no time is read differently from what is written. -/
theorem C78_local_time (s : Text) (t : ℤ) (h : parseTime s = some (.sec t)) :
    ∃ c off, TimeText s c off ∧ (c.second < 60 → toCivil (t + off) = c) ∧
      (c.second = 60 → toCivil (t + off - 1) = { c with second := 59 }) := by
  obtain ⟨c, off, ht, hv, rfl, hi⟩ := (C78_parse_iff s t).mp h
  refine ⟨c, off, ht, ?_, ?_⟩
  all_goals
    intro hs
    obtain ⟨b, date, tail, -, -, h2, -⟩ := ht
    obtain ⟨r3, r4, r5⟩ := tail_ranges h2
  · rw [show fromCivil c - off + off = fromCivil c by omega]
    exact C61_round_trip' c hv r3.1 (by omega) r4.1 (by omega) r5.1 hs
  · rw [show fromCivil c - off + off - 1 = fromCivil { c with second := 59 } by simp only [fromCivil]; omega]
    exact C61_round_trip' { c with second := 59 } hv r3.1 (Int.lt_add_one_of_le r3.2) r4.1 (Int.lt_add_one_of_le r4.2)
      (by simp) (by simp)

private theorem print02 : ∀ n : Fin 100, (printInt02 (n : ℕ)).length = 2 ∧ (∀ c ∈ printInt02 (n : ℕ), c.isDigit = true) ∧
    decimalValue (printInt02 (n : ℕ)) = n := by decide +kernel

private theorem print02_short {lo hi n : ℤ} (hlo : lo ≤ n) (h0 : 0 ≤ n) (hhi : n ≤ hi) (h100 : n < 100) (rest : Text) :
    Short lo hi n (printInt02 n) rest := by
  obtain ⟨h1, h2, h3⟩ := print02 ⟨n.toNat, by omega⟩
  simp only [Int.toNat_of_nonneg h0] at h1 h2 h3
  exact ⟨⟨fun h => by rw [h] at h1; exact absurd h1 (by decide), h2, h3⟩, ⟨h0, hlo⟩, hhi, h1.le, .inl h1⟩

private theorem decimal_print (n : ℕ) : Decimal n (Nat.toDigits 10 n) :=
  ⟨Nat.toDigits_ne_nil, fun _ hx => Nat.isDigit_of_mem_toDigits (by decide) (by decide) hx, Nat.ofDigitChars_ten_toDigits⟩

private theorem yearText_print (y : ℤ) : YearText y (printInt y) := by
  unfold YearText printInt
  by_cases h : y < 0
  · rw [if_pos h]
    refine .inr ⟨h, _, rfl, ?_⟩
    rw [show (-y).toNat = y.natAbs by omega]
    exact decimal_print _
  · rw [if_neg h]
    refine .inl ⟨not_lt.mp h, ?_⟩
    rw [show y.toNat = y.natAbs by omega]
    exact decimal_print _

private theorem year_bound {t : ℤ} (h : IsInt64 t) : -2 ^ 63 ≤ (toCivil t).year ∧ (toCivil t).year < 2 ^ 63 := by
  unfold IsInt64 at h
  simp only [toCivil, monthOf]
  split
  · omega
  · split <;> omega

/-- **C78** (printing and reading). Every time printed by `FormatTimeUTC` is read back as the same time. -/
theorem C78_format_parse (i : Instant) (hi : ∀ t, i = .sec t → IsInt64 t) : parseTime (formatTimeUTC i) = some i := by
  cases i with
  | infiniteFuture => decide +kernel
  | infinitePast => decide +kernel
  | sec t =>
    have ht := hi t rfl
    obtain ⟨hv, h0, h1, m0, m1, s0, s1⟩ := C61_fields t
    obtain ⟨y0, y1⟩ := year_bound ht
    have hm1 := hv.month_pos
    have hm2 := hv.month_le
    have hd1 := hv.day_pos
    have hd2 := hv.day_le
    have hml := (monthLength_bounds (dateOf (toCivil t)).year (dateOf (toCivil t)).month).2
    simp only [dateOf] at hm1 hm2 hd1 hd2 hml
    refine (C78_parse_iff _ t).mpr ⟨toCivil t, 0, ?_, hv, by rw [C61_round_trip]; omega, ht⟩
    unfold formatTimeUTC
    dsimp only
    unfold formatCivil
    set c := toCivil t
    refine ⟨[], printInt c.year ++ '-' :: printInt02 c.month ++ '-' :: printInt02 c.day,
      [' '] ++ ((printInt02 c.hour ++ ':' :: printInt02 c.minute ++ ':' :: printInt02 c.second) ++ []), by simp [Blank],
      ⟨_, _, _, yearText_print _, y0, y1, print02_short hm1 (by omega) hm2 (by omega) _,
        print02_short hd1 (by omega) (by omega) (by omega) _, rfl⟩, ?_, by simp⟩
    refine .clock [' '] _ [] _ _ _ (by intro c hc; rw [List.mem_singleton.mp hc]; decide) ?_ (by simp [Blank])
    exact ⟨_, _, _, print02_short h0 h0 (by omega) (by omega) _, print02_short m0 m0 (by omega) (by omega) _,
      print02_short s0 s0 (by omega) (by omega) _, rfl⟩

/-- **C78** (dates). A date alone means midnight UTC. -/
theorem C78_date (y m d : ℤ) (hv : (⟨y, m, d⟩ : Date).Valid) (hy : -10 ^ 9 ≤ y ∧ y ≤ 10 ^ 9) :
    ∃ t, parseTime (printInt y ++ '-' :: printInt02 m ++ '-' :: printInt02 d) = some (.sec t) ∧
      toCivil t = ⟨y, m, d, 0, 0, 0⟩ := by
  have hm1 := hv.month_pos
  have hm2 := hv.month_le
  have hd1 := hv.day_pos
  have hd2 := hv.day_le
  have hml := (monthLength_bounds y m).2
  simp only at hm1 hm2 hd1 hd2
  refine ⟨fromCivil ⟨y, m, d, 0, 0, 0⟩, (C78_parse_iff _ _).mpr ⟨⟨y, m, d, 0, 0, 0⟩, 0, ?_, hv, by omega, ?_⟩,
    C61_round_trip' ⟨y, m, d, 0, 0, 0⟩ hv (by simp) (by simp) (by simp) (by simp) (by simp) (by simp)⟩
  · refine ⟨[], _, [], by simp [Blank], ⟨_, _, _, yearText_print y, by simp only; omega, by simp only; omega,
      print02_short hm1 (by omega) hm2 (by omega) _, print02_short hd1 (by omega) (by omega) (by omega) _, rfl⟩,
      .date [] (by simp [Blank]), by simp⟩
  · unfold IsInt64
    simp only [fromCivil, dayNumber, monthStart]
    omega

/-- Notations that are understood, and texts that are refused. -/
example :
    parseTime "2017-01-01".toList = some (.sec 1483228800) ∧
    parseTime " 2017-1-1 00:05:00 ".toList = some (.sec 1483229100) ∧
    parseTime "2017-01-01 16:25:15 +02:00".toList = some (.sec 1483280715) ∧
    parseTime "2017-01-01T16:25:15-0530".toList = some (.sec 1483307715) ∧
    parseTime "2017-01-01 +02:00".toList = some (.sec 1483221600) ∧
    parseTime "2016-12-31 23:59:60".toList = some (.sec 1483228800) ∧
    parseTime "2017-02-29".toList = none ∧ parseTime "2017-13-01".toList = none ∧
    parseTime "2017-01-01 24:00:00".toList = none ∧ parseTime "2017-01-01 00:60:00".toList = none ∧
    parseTime "2017-01-01 00:00".toList = none ∧ parseTime "1.1.2017".toList = none ∧ parseTime [] = none := by
  decide +kernel

end Verif.Props
