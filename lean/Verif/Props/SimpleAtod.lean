import Verif.Lemmas.SimpleAtod
import Verif.Props.CommandLine
import Verif.Props.Scanf

/-!
# C108: numbers on the command line
-/

namespace Verif.Props
open FloatOps Spec CommandLine Verif.Convert

variable {f : Fmt}

/-! ### The characters of a number -/

/-- The characters that occur in numbers. -/
private def NumberChar (c : Char) : Prop := HexDigit c ∨ c ∈ ['.', '+', '-', 'x', 'X', 'p', 'P']

private instance (c : Char) : Decidable (NumberChar c) := by unfold NumberChar; infer_instance

private theorem numberChar_large (c : Char) (hc : 128 ≤ c.toNat) : ¬ NumberChar c := by
  rintro (h | h)
  · exact hex_large c hc h
  · simp only [List.mem_cons, List.not_mem_nil, or_false] at h
    rcases h with rfl | rfl | rfl | rfl | rfl | rfl | rfl <;> exact absurd hc (by decide)

private theorem numberChar_not_space (c : Char) (h : NumberChar c) : isSpace c = false := by
  revert h; revert c
  exact char_ascii _ (by decide +kernel) (fun c hc h => absurd h (numberChar_large c hc))

private theorem point_chars {P : Char → Prop} {base : ℕ} {p : Text} {w : ℚ} (h : PointText P base p w) :
    p ≠ [] ∧ ∀ c ∈ p, P c ∨ c = '.' := by
  obtain ⟨whole, frac, hd, hne, hp, -⟩ := h
  rcases hp with rfl | ⟨rfl, rfl⟩
  · refine ⟨by simp, fun c hc => ?_⟩
    rcases List.mem_append.mp hc with hc | hc
    · exact .inl (hd c (List.mem_append_left _ hc))
    · rcases List.mem_cons.mp hc with hc | hc
      · exact .inr hc
      · exact .inl (hd c (List.mem_append_right _ hc))
  · rw [List.append_nil] at hne hd
    exact ⟨hne, fun c hc => .inl (hd c hc)⟩

private theorem exponent_chars {letter capital : Char} {e : Text} {k : ℤ} (h : ExponentText letter capital e k) :
    ∀ c ∈ e, c = letter ∨ c = capital ∨ c = '+' ∨ c = '-' ∨ c.isDigit = true := by
  rcases h with ⟨rfl, -⟩ | ⟨mark, sign, ds, hm, -, hd, rfl, -⟩
  · intro c hc; cases hc
  · intro c hc
    rcases List.mem_append.mp hc with hc | hc
    · rcases List.mem_cons.mp hc with rfl | hc
      · rcases hm with h | h
        · exact .inl h
        · exact .inr (.inl h)
      · cases sign with
        | none => cases hc
        | some b =>
          cases b
          · exact .inr (.inr (.inl (List.mem_singleton.mp hc)))
          · exact .inr (.inr (.inr (.inl (List.mem_singleton.mp hc))))
    · exact .inr (.inr (.inr (.inr (hd c hc))))

/-- What a number starts with. -/
private theorem amount_head {t : Text} {v : ℚ} (h : AmountText t v) : ∃ c cs, t = c :: cs ∧ (c.isDigit = true ∨ c = '.') := by
  rcases h with ⟨p, e, w, k, rfl, hp, -, -⟩ | ⟨x, p, e, w, k, -, rfl, -, -, -⟩
  · obtain ⟨hne, hc⟩ := point_chars hp
    cases p with
    | nil => exact absurd rfl hne
    | cons c cs => exact ⟨c, cs ++ e, rfl, hc c (by simp)⟩
  · exact ⟨'0', _, rfl, .inl (by decide)⟩

private theorem amount_chars {t : Text} {v : ℚ} (h : AmountText t v) : ∀ c ∈ t, NumberChar c := by
  rcases h with ⟨p, e, w, k, rfl, hp, he, -⟩ | ⟨x, p, e, w, k, hx, rfl, hp, he, -⟩
  · intro c hc
    rcases List.mem_append.mp hc with hc | hc
    · rcases (point_chars hp).2 c hc with h | rfl
      · exact .inl (.inl h)
      · exact by decide
    · rcases exponent_chars he c hc with rfl | rfl | rfl | rfl | h
      · exact by decide
      · exact by decide
      · exact by decide
      · exact by decide
      · exact .inl (.inl h)
  · intro c hc
    rcases List.mem_cons.mp hc with rfl | hc
    · exact by decide
    rcases List.mem_cons.mp hc with rfl | hc
    · rcases hx with rfl | rfl <;> decide
    rcases List.mem_append.mp hc with hc | hc
    · rcases (point_chars hp).2 c hc with h | rfl
      · exact .inl h
      · exact by decide
    · rcases exponent_chars he c hc with rfl | rfl | rfl | rfl | h
      · exact by decide
      · exact by decide
      · exact by decide
      · exact by decide
      · exact .inl (.inl h)

private theorem amount_nonneg {t : Text} {v : ℚ} (h : AmountText t v) : 0 ≤ v := by
  rcases h with ⟨p, e, w, k, rfl, ⟨a, b, -, -, -, rfl⟩, -, rfl⟩ | ⟨x, p, e, w, k, -, rfl, ⟨a, b, -, -, -, rfl⟩, -, rfl⟩
  · positivity
  · positivity

private theorem decimal_iff (s : Text) (v : ℚ) : magnitude digit? 10 10 'e' s = some (v, []) ↔
    ∃ p e w k, s = p ++ e ∧ PointText (fun c => c.isDigit = true) 10 p w ∧ ExponentText 'e' 'E' e k ∧ v = w * (10 : ℚ) ^ k :=
  magnitude_iff digit? 10 10 (fun c => c.isDigit = true) digit?_eq (lower_iff 'e' 'E' (by decide) (by decide +kernel))
    (by decide) (by decide) (by decide) s v

private theorem hexadecimal_iff (s : Text) (v : ℚ) : magnitude hexDigit? 16 2 'p' s = some (v, []) ↔
    ∃ p e w k, s = p ++ e ∧ PointText HexDigit 16 p w ∧ ExponentText 'p' 'P' e k ∧ v = w * (2 : ℚ) ^ k :=
  magnitude_iff hexDigit? 16 2 HexDigit hexDigit?_eq (lower_iff 'p' 'P' (by decide) (by decide +kernel))
    (by decide) (by decide) (by decide) s v

private theorem lower_x (c : Char) : c.toLower = 'x' ↔ c = 'x' ∨ c = 'X' := lower_iff 'x' 'X' (by decide) (by decide +kernel) c

private theorem full_iff {r : Option (ℚ × Text)} {v : ℚ} :
    (match r with
      | some (v, []) => some v
      | _ => none) = some v ↔ r = some (v, []) := by
  rcases r with _ | ⟨v', rest⟩
  · simp
  · cases rest <;> simp

private theorem wholeNumber_iff (s : Text) (v : ℚ) : wholeNumber s = some v ↔ AmountText s v := by
  have hw : ∀ r : Option (ℚ × Text), (match s with
    | '0' :: x :: rest => if x.toLower = 'x' then magnitude hexDigit? 16 2 'p' rest else magnitude digit? 10 10 'e' s
    | _ => magnitude digit? 10 10 'e' s) = r → (wholeNumber s = some v ↔ r = some (v, [])) := by
    intro r hr
    subst hr
    exact full_iff
  constructor
  · intro h
    have h' := (hw _ rfl).mp h
    split at h'
    · rename_i x rest
      split at h'
      · rename_i hx
        rw [lower_x] at hx
        obtain ⟨p, e, w, k, rfl, hp, he, hv⟩ := (hexadecimal_iff _ _).mp h'
        exact .inr ⟨x, p, e, w, k, hx, rfl, hp, he, hv⟩
      · exact .inl ((decimal_iff _ _).mp h')
    · exact .inl ((decimal_iff _ _).mp h')
  · intro h
    rw [hw _ rfl]
    rcases h with h | ⟨x, p, e, w, k, hx, rfl, hp, he, hv⟩
    · have hm := (decimal_iff s v).mpr h
      split
      · rename_i x rest
        rw [if_neg, hm]
        intro hx
        rw [lower_x] at hx
        obtain ⟨p, e, w, k, hs, hp, he, -⟩ := h
        have hmem : x ∈ p ++ e := by rw [← hs]; simp
        rcases List.mem_append.mp hmem with hc | hc
        · rcases (point_chars hp).2 x hc with h | rfl
          · rcases hx with rfl | rfl <;> exact absurd h (by decide)
          · exact absurd hx (by decide)
        · rcases exponent_chars he x hc with rfl | rfl | rfl | rfl | h
          · exact absurd hx (by decide)
          · exact absurd hx (by decide)
          · exact absurd hx (by decide)
          · exact absurd hx (by decide)
          · rcases hx with rfl | rfl <;> exact absurd h (by decide)
      · exact hm
    · change (if x.toLower = 'x' then _ else _) = _
      rw [if_pos ((lower_x x).mpr hx)]
      exact (hexadecimal_iff _ _).mpr ⟨p, e, w, k, rfl, hp, he, hv⟩

/-! ### Words -/

/-- The forms of `nan`. -/
private def NanText (t : Text) : Prop :=
  ∃ word more, t = word ++ more ∧ WordText "nan" word ∧
    (more = [] ∨ ∃ payload, (∀ c ∈ payload, c.isAlphanum = true ∨ c = '_') ∧ more = '(' :: payload ++ [')'])

private theorem isNan_iff (t : Text) : isNan t = true ↔ NanText t := by
  unfold isNan
  rw [Bool.and_eq_true, decide_eq_true_eq]
  constructor
  · rintro ⟨h1, h2⟩
    refine ⟨t.take 3, t.drop 3, (List.take_append_drop 3 t).symm, h1, ?_⟩
    split at h2
    · rename_i h; exact .inl h
    · rename_i rest h
      rw [Bool.and_eq_true, decide_eq_true_eq] at h2
      refine .inr ⟨rest.dropLast, fun c hc => ?_, ?_⟩
      · have := List.all_eq_true.mp h2.2 c hc
        unfold payloadChar at this
        rwa [Bool.or_eq_true, decide_eq_true_eq] at this
      · rw [h, List.cons_append]
        congr 1
        have hne : rest ≠ [] := by rintro rfl; exact absurd h2.1 (by simp)
        have hl := List.getLast?_eq_some_getLast hne
        rw [h2.1] at hl
        conv_lhs => rw [← List.dropLast_append_getLast hne, ← Option.some.inj hl]
    · cases h2
  · rintro ⟨word, more, rfl, hw, hm⟩
    have hlen : word.length = 3 := by
      have := congrArg List.length hw
      rw [List.length_map] at this
      exact this
    rw [List.take_append_of_le_length (by omega), List.take_of_length_le (by omega),
      List.drop_append_of_le_length (by omega), List.drop_of_length_le (by omega), List.nil_append]
    refine ⟨hw, ?_⟩
    rcases hm with rfl | ⟨payload, hp, rfl⟩
    · rfl
    · simp only [List.cons_append]
      rw [List.getLast?_concat, List.dropLast_concat]
      simp only [decide_true, Bool.true_and]
      rw [List.all_eq_true]
      intro c hc
      unfold payloadChar
      rw [Bool.or_eq_true, decide_eq_true_eq]
      exact hp c hc

private theorem word_head {word : String} {w : Char} {ws : List Char} (hw : word.toList = w :: ws) {t : Text} (h : WordText word t) :
    ∃ c cs, t = c :: cs ∧ c.toLower = w := by
  unfold WordText at h
  rw [hw] at h
  cases t with
  | nil => cases h
  | cons c cs => exact ⟨c, cs, rfl, (List.cons.inj h).1⟩

private theorem word_not_space {word : String} (hw : ∀ c ∈ word.toList, isSpace c = false) {t : Text} (h : WordText word t) :
    ∀ c ∈ t, isSpace c = false := by
  intro c hc
  cases hs : isSpace c with
  | false => rfl
  | true =>
    have h1 := space_lower c hs
    have h2 : c.toLower ∈ word.toList := by rw [← (show t.map Char.toLower = word.toList from h)]; exact List.mem_map_of_mem hc
    rw [hw _ h2] at h1
    cases h1

private theorem alnum_not_space (c : Char) : c.isAlphanum = true ∨ c = '_' → isSpace c = false := by
  revert c
  refine char_ascii _ (by decide +kernel) (fun c hc h => ?_)
  cases hs : isSpace c with
  | false => rfl
  | true =>
    unfold isSpace at hs
    simp only [Bool.or_eq_true, decide_eq_true_eq] at hs
    rcases hs with ((((rfl | rfl) | rfl) | rfl) | rfl) | rfl <;> exact absurd hc (by decide)

private theorem nan_head {t : Text} (h : NanText t) : ∃ c cs, t = c :: cs ∧ c.toLower = 'n' := by
  obtain ⟨word, more, rfl, hw, -⟩ := h
  obtain ⟨c, cs, rfl, hc⟩ := word_head (w := 'n') (ws := ['a', 'n']) (by decide +kernel) hw
  exact ⟨c, cs ++ more, rfl, hc⟩

private theorem nan_not_space {t : Text} (h : NanText t) : ∀ c ∈ t, isSpace c = false := by
  obtain ⟨word, more, rfl, hw, hm⟩ := h
  intro c hc
  rcases List.mem_append.mp hc with hc | hc
  · exact word_not_space (by decide +kernel) hw c hc
  · rcases hm with rfl | ⟨payload, hp, rfl⟩
    · cases hc
    · rcases List.mem_append.mp hc with hc | hc
      · rcases List.mem_cons.mp hc with rfl | hc
        · decide
        · exact alnum_not_space c (hp c hc)
      · rw [List.mem_singleton.mp hc]; decide

private theorem inf_head {t : Text} (h : WordText "inf" t ∨ WordText "infinity" t) : ∃ c cs, t = c :: cs ∧ c.toLower = 'i' := by
  rcases h with h | h
  · exact word_head (w := 'i') (ws := ['n', 'f']) (by decide +kernel) h
  · exact word_head (w := 'i') (ws := ['n', 'f', 'i', 'n', 'i', 't', 'y']) (by decide +kernel) h

private theorem inf_not_space {t : Text} (h : WordText "inf" t ∨ WordText "infinity" t) : ∀ c ∈ t, isSpace c = false := by
  rcases h with h | h
  · exact word_not_space (by decide +kernel) h
  · exact word_not_space (by decide +kernel) h

private theorem number_lower (c : Char) : c.isDigit = true ∨ c = '.' → c.toLower = c ∧ c ≠ '-' ∧ c ≠ '+' ∧ c ≠ 'i' ∧ c ≠ 'n' := by
  revert c
  refine char_ascii _ (by decide +kernel) (fun c hc h => ?_)
  rcases h with h | rfl
  · rw [isDigit_large c hc] at h; cases h
  · exact absurd hc (by decide)

private theorem letter_sign (c : Char) (h : c.toLower = 'i' ∨ c.toLower = 'n') : c ≠ '-' ∧ c ≠ '+' := by
  constructor
  · rintro rfl; exact absurd h (by decide)
  · rintro rfl; exact absurd h (by decide)

/-- The text between the blanks, without the sign. -/
private theorem strip_signed {b t b' : Text} (hb : Blank b) (hb' : Blank b') (sign : Option Bool)
    (hns : ∀ c ∈ t, isSpace c = false) (hh : ∃ c cs, t = c :: cs ∧ c ≠ '-' ∧ c ≠ '+') :
    splitSign (strip (b ++ signText sign ++ t ++ b')) = (signText sign, t) := by
  obtain ⟨c, cs, rfl, h1, h2⟩ := hh
  have hs : ∀ x ∈ signText sign ++ c :: cs, isSpace x = false := by
    intro x hx
    rcases List.mem_append.mp hx with hx | hx
    · cases sign with
      | none => cases hx
      | some s => cases s <;> (rw [List.mem_singleton.mp hx]; decide)
    · exact hns x hx
  rw [List.append_assoc b, strip_of hb hb' (fun x hx => hs x (List.mem_of_head? hx)) (fun x hx => hs x (List.mem_of_getLast? hx))]
  exact splitSign_other sign (fun _ => ⟨h1, h2⟩)

private theorem splitSign_form (s : Text) : ∃ sign, s = signText sign ++ (splitSign s).2 ∧ (splitSign s).1 = signText sign := by
  unfold splitSign
  split
  · exact ⟨some true, rfl, rfl⟩
  · exact ⟨some false, rfl, rfl⟩
  · exact ⟨none, rfl, rfl⟩

private theorem signed_inf (sign : Option Bool) :
    (if signText sign = ['-'] then Fl.neg (.inf false : Fl f) else .inf false) = .inf (sign == some true) := by
  rcases sign with _ | _ | _ <;> rfl

private theorem signed_rounded (hf : f.emin + f.p ≤ f.emax) (hp : 2 ≤ f.p) (sign : Option Bool) {v : ℚ} (hv : 0 ≤ v) (x : Fl f)
    (hx : x = if signText sign = ['-'] then Fl.neg (Fl.ofRat f v) else Fl.ofRat f v) :
    RoundedTo f (if sign = some true then -v else v) x ∧ x.signBit = (sign == some true) := by
  have hr := rounded_ofRat hf hp v
  have hs := signBit_ofRat (f := f) hv
  by_cases h : sign = some true
  · subst h
    rw [if_pos (show signText (some true) = ['-'] from rfl)] at hx
    rw [hx, if_pos rfl]
    exact ⟨rounded_neg hf hr, by rw [signBit_neg hr.number, hs]; rfl⟩
  · have hsg : signText sign ≠ ['-'] := by
      rcases sign with _ | _ | _
      · exact nofun
      · decide
      · exact absurd rfl h
    rw [if_neg hsg] at hx
    rw [hx, if_neg h]
    refine ⟨hr, ?_⟩
    rw [hs]
    rcases sign with _ | _ | _
    · rfl
    · rfl
    · exact absurd rfl h

/-- **C108** (numbers). The text of a flag of type `double` is accepted exactly if it is written as a number, an infinity or `nan`,
and it then means the nearest `double` (a tie goes to the even one; a number beyond the largest `double` means infinity). -/
theorem C108_double (s : Text) (x : F64) : simpleAtod s = some x ↔ DoubleText s x := by
  have hf : binary64.emin + binary64.p ≤ binary64.emax := by decide
  have hp : 2 ≤ binary64.p := by decide
  unfold simpleAtod
  dsimp only
  constructor
  · intro h
    obtain ⟨b, b', hb, hb', hs⟩ := strip_form s
    obtain ⟨sign, h1, h2⟩ := splitSign_form (strip s)
    rw [h2] at h
    refine ⟨b, sign, (splitSign (strip s)).2, b', hb, hb', ?_, ?_⟩
    · rw [List.append_assoc b, ← h1]; exact hs
    generalize (splitSign (strip s)).2 = t at h
    split at h
    · rename_i hw
      refine .inr (.inl ⟨hw, ?_⟩)
      rw [← signed_inf sign]
      exact (Option.some.inj h).symm
    · split at h
      · rename_i hn
        exact .inr (.inr ⟨(isNan_iff t).mp hn, (Option.some.inj h).symm⟩)
      · obtain ⟨v, hv, hx⟩ := Option.map_eq_some_iff.mp h
        have ha := (wholeNumber_iff t v).mp hv
        exact .inl ⟨v, ha, signed_rounded hf hp sign (amount_nonneg ha) x hx.symm⟩
  · rintro ⟨b, sign, t, b', hb, hb', rfl, ⟨v, ha, hr, hsb⟩ | ⟨hw, rfl⟩ | ⟨hn, rfl⟩⟩
    · obtain ⟨c, cs, hc, hd⟩ := amount_head ha
      have hl := number_lower c hd
      rw [strip_signed hb hb' sign (fun c hc => numberChar_not_space c (amount_chars ha c hc)) ⟨c, cs, hc, hl.2.1, hl.2.2.1⟩]
      dsimp only
      rw [if_neg, if_neg, (wholeNumber_iff t v).mpr ha, Option.map_some]
      · congr 1
        have hr' := signed_rounded hf hp sign (amount_nonneg ha) _ rfl
        exact RoundedTo.unique hf (by omega) hr'.1 hr (by rw [hr'.2, hsb])
      · intro hn
        obtain ⟨c', cs', hc', hl'⟩ := nan_head ((isNan_iff t).mp hn)
        rw [hc] at hc'
        obtain ⟨rfl, -⟩ := List.cons.inj hc'
        exact hl.2.2.2.2 (hl.1.symm.trans hl')
      · intro hw
        obtain ⟨c', cs', hc', hl'⟩ := inf_head hw
        rw [hc] at hc'
        obtain ⟨rfl, -⟩ := List.cons.inj hc'
        exact hl.2.2.2.1 (hl.1.symm.trans hl')
    · obtain ⟨c, cs, hc, hl⟩ := inf_head hw
      rw [strip_signed hb hb' sign (inf_not_space hw) ⟨c, cs, hc, letter_sign c (.inl hl)⟩]
      dsimp only
      rw [if_pos (show t.map Char.toLower = "inf".toList ∨ t.map Char.toLower = "infinity".toList from hw), signed_inf]
    · have hn : NanText t := hn
      obtain ⟨c, cs, hc, hl⟩ := nan_head hn
      rw [strip_signed hb hb' sign (nan_not_space hn) ⟨c, cs, hc, letter_sign c (.inr hl)⟩]
      dsimp only
      rw [if_neg, if_pos ((isNan_iff t).mpr hn)]
      intro hw
      obtain ⟨c', cs', hc', hl'⟩ := inf_head hw
      rw [hc] at hc'
      obtain ⟨rfl, -⟩ := List.cons.inj hc'
      rw [hl] at hl'
      exact absurd hl' (by decide)

end Verif.Props
