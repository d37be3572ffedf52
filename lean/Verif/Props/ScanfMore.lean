import Verif.Spec.ScanfMore
import Verif.Props.Scanf

/-!
# C105: hexadecimal numbers, and numbers with an incomplete exponent
-/

namespace Verif.Props.ScanfMore
open Verif Verif.Spec Verif.Convert FloatOps

/-- Digits after a point, with the point. -/
def pointText : Option Text → Text
  | none => []
  | some ds => '.' :: ds

/-- An exponent, with the given letter. -/
def tailText (mark : Char) : Option (Char × Option Bool × Text) → Text
  | none => []
  | some (_, sign, ds) => mark :: signText sign ++ ds

/-- An exponent as it is written. -/
def tailWritten : Option (Char × Option Bool × Text) → Text
  | none => []
  | some (mark, sign, ds) => mark :: signText sign ++ ds

section generic
variable (dg : Char → Option ℕ) (base radix : ℕ) (mark : Char) (val : Char → ℕ)

theorem digitRun_gen (ds rest : Text) (v n : ℕ) (hd : ∀ c ∈ ds, dg c = some (val c)) (hr : ∀ c, rest.head? = some c → dg c = none) :
    digitRun dg base v n (ds ++ rest) = (ds.foldl (fun n c => base * n + val c) v, n + ds.length, rest) := by
  induction ds generalizing v n with
  | nil =>
    cases rest with
    | nil => rfl
    | cons c rest => simp [digitRun, hr c rfl]
  | cons c ds ih =>
    simp only [List.cons_append, digitRun, hd c (by simp)]
    rw [ih _ _ (fun x hx => hd x (by simp [hx]))]
    simp only [List.foldl_cons, List.length_cons]
    refine Prod.ext rfl (Prod.ext ?_ rfl)
    simp only
    omega

theorem foldl_gen (ds : Text) (v : ℕ) :
    ds.foldl (fun n c => base * n + val c) v = v * base ^ ds.length + ds.foldl (fun n c => base * n + val c) 0 := by
  induction ds generalizing v with
  | nil => simp
  | cons c ds ih =>
    simp only [List.foldl_cons, List.length_cons]
    rw [ih, ih (base * 0 + _)]
    ring

theorem magnitude_gen (hb : 0 < base) (whole : Text) (frac : Option Text) (X : Text) (hw : ∀ c ∈ whole, dg c = some (val c))
    (hf : ∀ ds, frac = some ds → ∀ c ∈ ds, dg c = some (val c)) (hs : whole ++ frac.getD [] ≠ []) (hdot : dg '.' = none)
    (hX : ∀ c, X.head? = some c → dg c = none ∧ c ≠ '.') :
    Convert.magnitude dg base radix mark (whole ++ pointText frac ++ X) =
      some ((((whole.foldl (fun n c => base * n + val c) 0 : ℕ) : ℚ) + ((frac.getD []).foldl (fun n c => base * n + val c) 0 : ℕ) /
        (base : ℚ) ^ (frac.getD []).length) * (radix : ℚ) ^ (exponentPart mark X).1, (exponentPart mark X).2) := by
  unfold Convert.magnitude pointText
  cases frac with
  | none =>
    have hne : whole ≠ [] := by simpa using hs
    simp only [List.append_nil]
    rw [digitRun_gen dg base val whole X 0 0 hw (fun c hc => (hX c hc).1)]
    have hl : 0 < whole.length := List.length_pos_of_ne_nil hne
    dsimp only
    split
    · exact absurd rfl (hX '.' rfl).2
    · dsimp only
      rw [if_neg (by omega)]
      simp
  | some ds =>
    have hpos : 0 < whole.length + ds.length := by
      have := List.length_pos_of_ne_nil hs
      simpa using this
    dsimp only
    rw [List.append_assoc, digitRun_gen dg base val whole ('.' :: ds ++ X) 0 0 hw (by
      intro c hc
      obtain rfl : '.' = c := by simpa using hc
      exact hdot)]
    simp only [List.cons_append]
    rw [digitRun_gen dg base val ds X _ 0 (hf ds rfl) (fun c hc => (hX c hc).1)]
    dsimp only
    rw [if_neg (by omega), foldl_gen base val ds]
    simp only [Option.getD_some, zero_add, Option.some.injEq, Prod.mk.injEq, and_true]
    congr 1
    have : (base : ℚ) ^ ds.length ≠ 0 := by positivity
    push_cast
    field_simp

end generic

section collecting
variable (hex : Bool) (mark : Char)

theorem collect_run (ds rest : Text) (d dot l : Bool) (hd : ∀ c ∈ ds, (digit? c).isSome ∨ hex = true ∧ (hexDigit? c).isSome) (hne : ds ≠ []) :
    collect hex mark d dot false l (ds ++ rest) =
      (ds ++ (collect hex mark true dot false false rest).1, (collect hex mark true dot false false rest).2) := by
  induction ds generalizing d l with
  | nil => exact absurd rfl hne
  | cons c ds ih =>
    have h1 : collect hex mark d dot false l (c :: (ds ++ rest)) =
        (c :: (collect hex mark true dot false false (ds ++ rest)).1, (collect hex mark true dot false false (ds ++ rest)).2) := by
      rw [collect]
      rcases hd c (by simp) with h | ⟨h, h'⟩
      · rw [if_pos h]
      · split_ifs
        · rfl
        · rfl
        all_goals simp_all
    rw [List.cons_append, h1]
    by_cases h : ds = []
    · subst h; rfl
    · rw [ih _ _ (fun x hx => hd x (by simp [hx])) h]
      rfl

theorem collect_exp_run (ds rest : Text) (d dot l : Bool) (hd : ∀ c ∈ ds, c.isDigit) (hrest : ∀ d l, collect hex mark d dot true l rest = ([], rest)) :
    collect hex mark d dot true l (ds ++ rest) = (ds, rest) := by
  induction ds generalizing d l with
  | nil => exact hrest d l
  | cons c ds ih =>
    rw [List.cons_append, collect, if_pos (by rw [digit?_of_isDigit (hd c (by simp))]; rfl), ih _ _ (fun x hx => hd x (by simp [hx]))]

theorem collect_stop (hm : mark = 'e' ∨ mark = 'p') {rest : Text} (h : Ends rest) (d dot e l : Bool) : collect hex mark d dot e l rest = ([], rest) := by
  cases rest with
  | nil => rfl
  | cons c rest =>
    rcases hm with rfl | rfl <;> rcases h c rfl with rfl | rfl | rfl <;> cases hex <;> cases d <;> cases dot <;> cases e <;> cases l <;> rfl

/-- The exponent is collected, even if it has no digits. -/
theorem collect_tail (hm : hex = false ∧ mark = 'e' ∨ hex = true ∧ mark = 'p') (t : Option (Char × Option Bool × Text))
    (ht : ∀ m s ds, t = some (m, s, ds) → m.toLower = mark ∧ (m = 'e' ∨ m = 'E' ∨ m = 'p' ∨ m = 'P') ∧ ∀ c ∈ ds, c.isDigit)
    {rest : Text} (he : Ends rest) (dot l : Bool) :
    collect hex mark true dot false l (tailWritten t ++ rest) = (tailText mark t, rest) := by
  have hm' : mark = 'e' ∨ mark = 'p' := by tauto
  cases t with
  | none => exact collect_stop hex mark hm' he _ _ _ _
  | some t =>
    obtain ⟨m, sign, ds⟩ := t
    obtain ⟨h1, h2, hd⟩ := ht _ _ _ rfl
    unfold tailWritten tailText
    dsimp only
    have hmark : collect hex mark true dot false l (m :: signText sign ++ ds ++ rest) =
        (mark :: (collect hex mark true true true true (signText sign ++ ds ++ rest)).1, (collect hex mark true true true true (signText sign ++ ds ++ rest)).2) := by
      rcases hm with ⟨rfl, rfl⟩ | ⟨rfl, rfl⟩ <;> rcases h2 with rfl | rfl | rfl | rfl <;>
        first | (exfalso; revert h1; decide) | (cases dot <;> cases l <;> rfl)
    rw [hmark]
    have hrun : ∀ dot d l, collect hex mark d dot true l (ds ++ rest) = (ds, rest) := fun dot d l =>
      collect_exp_run hex mark ds rest d dot l hd (fun d l => collect_stop hex mark hm' he _ _ _ _)
    have : collect hex mark true true true true (signText sign ++ ds ++ rest) = (signText sign ++ ds, rest) := by
      cases sign with
      | none => simp only [signText, List.nil_append]; exact hrun _ _ _
      | some b =>
        have step : ∀ c : Char, c = '-' ∨ c = '+' → collect hex mark true true true true (c :: (ds ++ rest)) = (c :: ds, rest) := by
          intro c hc
          have : collect hex mark true true true true (c :: (ds ++ rest)) =
              (c :: (collect hex mark true true true false (ds ++ rest)).1, (collect hex mark true true true false (ds ++ rest)).2) := by
            rcases hc with rfl | rfl <;> cases hex <;> rfl
          rw [this, hrun]
        cases b
        · exact step '+' (.inr rfl)
        · exact step '-' (.inl rfl)
    rw [this]
    rfl

/-- All characters of a number are collected, and no others. -/
theorem collect_number (hm : hex = false ∧ mark = 'e' ∨ hex = true ∧ mark = 'p') (whole : Text) (frac : Option Text) (t : Option (Char × Option Bool × Text))
    (hw : ∀ c ∈ whole, (digit? c).isSome ∨ hex = true ∧ (hexDigit? c).isSome)
    (hf : ∀ ds, frac = some ds → ∀ c ∈ ds, (digit? c).isSome ∨ hex = true ∧ (hexDigit? c).isSome) (hs : whole ++ frac.getD [] ≠ [])
    (ht : ∀ m s ds, t = some (m, s, ds) → m.toLower = mark ∧ (m = 'e' ∨ m = 'E' ∨ m = 'p' ∨ m = 'P') ∧ ∀ c ∈ ds, c.isDigit)
    {rest : Text} (he : Ends rest) :
    collect hex mark false false false false (whole ++ pointText frac ++ tailWritten t ++ rest) = (whole ++ pointText frac ++ tailText mark t, rest) := by
  have htail := collect_tail hex mark hm t ht he
  have hfrac : ∀ d l, d = true ∨ frac.getD [] ≠ [] → collect hex mark d false false l (pointText frac ++ (tailWritten t ++ rest)) =
      (pointText frac ++ tailText mark t, rest) := by
    intro d l hd
    cases frac with
    | none =>
      obtain rfl : d = true := by simpa using hd
      exact htail _ _
    | some ds =>
      have hdot : collect hex mark d false false l ('.' :: (ds ++ (tailWritten t ++ rest))) =
          ('.' :: (collect hex mark d true false false (ds ++ (tailWritten t ++ rest))).1, (collect hex mark d true false false (ds ++ (tailWritten t ++ rest))).2) := by
        rcases hm with ⟨rfl, rfl⟩ | ⟨rfl, rfl⟩ <;> cases d <;> cases l <;> rfl
      unfold pointText
      dsimp only [List.cons_append]
      rw [hdot]
      by_cases hne : ds = []
      · subst hne
        obtain rfl : d = true := by simpa using hd
        rw [List.nil_append, htail]
        rfl
      · rw [collect_run hex mark ds _ _ _ _ (hf ds rfl) hne, htail]
  by_cases hw0 : whole = []
  · subst hw0
    simp only [List.nil_append] at hs ⊢
    rw [List.append_assoc]
    exact hfrac _ _ (.inr hs)
  · rw [List.append_assoc, List.append_assoc, collect_run hex mark whole _ _ _ _ hw hw0, hfrac true false (.inl rfl), ← List.append_assoc]

end collecting

theorem exponentPart_tail (mark : Char) (hm : mark.toLower = mark) (m : Char) (sign : Option Bool) (ds : Text) (hd : ∀ c ∈ ds, c.isDigit) :
    exponentPart mark (tailText mark (some (m, sign, ds))) = if ds = [] then (0, tailText mark (some (m, sign, ds)))
      else (if sign = some true then -(Numeral.digitsValue ds : ℤ) else Numeral.digitsValue ds, []) := by
  by_cases hne : ds = []
  · subst hne
    rw [if_pos rfl]
    unfold tailText
    cases sign with
    | none => simp [signText, exponentPart, hm, natural]
    | some b => cases b <;> simp [signText, exponentPart, hm, natural]
  · rw [if_neg hne]
    have hnat : natural ds = some (Numeral.digitsValue ds, []) := by
      have := natural_digits ds [] hne hd (by simp)
      rwa [List.append_nil, ofDigitChars_value] at this
    unfold tailText
    cases sign with
    | none =>
      simp only [signText, List.cons_append, List.nil_append, exponentPart, hm, if_true]
      cases ds with
      | nil => exact absurd rfl hne
      | cons c ds =>
        have hc := not_space_of_isDigit (hd c (by simp))
        split
        · rename_i heq; exact absurd (List.cons.inj heq).1 hc.2.1
        · rename_i heq; exact absurd (List.cons.inj heq).1 hc.2.2.1
        · rw [hnat]; simp
    | some b =>
      cases b
      · simp only [signText, List.cons_append, List.nil_append, exponentPart, hm, if_true, hnat]
        simp
      · simp only [signText, List.cons_append, List.nil_append, exponentPart, hm, if_true, hnat]

section
variable {f : Fmt}

theorem strtof_opens (sign : Option Bool) {s : Text} (ho : Opens s) {v : ℚ} {left : Text} (hmag : Convert.magnitude digit? 10 10 'e' s = some (v, left)) :
    strtof (f := f) (signText sign ++ s) = some (signedValue f (sign == some true) v, left) := by
  unfold strtof
  dsimp only
  rw [splitSign_opens sign ho]
  dsimp only
  obtain ⟨c, cs, hc, rfl, hx⟩ := ho
  have hfirst := opens_first hc
  rw [startsWith_first (word := "infinity") (w := 'i') (ws := "nfinity".toList) rfl hfirst.2.2.2.2,
    startsWith_first (word := "inf") (w := 'i') (ws := "nf".toList) rfl hfirst.2.2.2.2,
    startsWith_first (word := "nan") (w := 'n') (ws := "an".toList) rfl hfirst.2.2.2.1]
  rw [if_neg Bool.false_ne_true, if_neg Bool.false_ne_true, if_neg Bool.false_ne_true]
  have hsg : (if signText sign = ['-'] then (Fl.ofRat f v).neg else Fl.ofRat f v) = signedValue f (sign == some true) v := by
    unfold signedValue
    simp only [signText_neg]
  split
  · rename_i hh
    exfalso
    split at hh
    · rename_i heq
      rw [if_neg (hx _ (by rw [(List.cons.inj heq).2]; rfl))] at hh
      cases hh
    · cases hh
  · rw [hmag, Option.map_some, hsg]

theorem opens_space {sign : Option Bool} {s : Text} (ho : Opens s) : ∀ c, s.head? = some c → sign = none → isSpace c = false := by
  obtain ⟨c, cs, hc, rfl, -⟩ := ho
  intro x hx _
  obtain rfl : c = x := by simpa using hx
  exact (opens_first hc).1

theorem scanFloat_opens (sign : Option Bool) {blanks s word rest : Text} (hb : ∀ c ∈ blanks, isSpace c) (ho : Opens s)
    (hcol : collect false 'e' false false false false s = (word, rest)) (hne : word ≠ []) {x : Fl f} {left : Text}
    (hstr : strtof (signText sign ++ word) = some (x, left)) :
    scanFloat (blanks ++ (signText sign ++ s)) = some (x, rest) := by
  unfold scanFloat
  dsimp only
  rw [dropWhile_sign hb sign (opens_space ho), splitSign_opens sign ho]
  dsimp only
  obtain ⟨c, cs, hc, rfl, hx⟩ := ho
  have hfirst := opens_first hc
  rw [startsWith_first (word := "n") (w := 'n') (ws := []) rfl hfirst.2.2.2.1,
    startsWith_first (word := "i") (w := 'i') (ws := []) rfl hfirst.2.2.2.2, startsWith_0x hx,
    if_neg Bool.false_ne_true, if_neg Bool.false_ne_true, if_neg Bool.false_ne_true, hcol]
  dsimp only
  rw [if_neg (by cases word with
    | nil => exact absurd rfl hne
    | cons _ _ => exact Bool.false_ne_true), hstr]
  rfl

theorem streamFloat_of (sign : Option Bool) {blanks s word rest : Text} (hb : ∀ c ∈ blanks, isSpace c)
    (hsp : ∀ c, s.head? = some c → isSpace c = false) (hsplit : splitSign (signText sign ++ s) = (signText sign, s))
    (hcol : collect false 'e' false false false false s = (word, rest)) :
    streamFloat (f := f) (blanks ++ (signText sign ++ s)) = match strtof (signText sign ++ word) with
      | some (.inf _, _) => none
      | some (x, []) => some (x, rest)
      | _ => none := by
  unfold streamFloat
  dsimp only
  rw [dropWhile_sign hb sign (fun c hc _ => hsp c hc), hsplit]
  dsimp only
  rw [hcol]
  dsimp only
  rcases strtof (f := f) (signText sign ++ word) with _ | ⟨x, r⟩
  · rfl
  · cases x <;> cases r <;> rfl

/-- **C105** (an incomplete exponent). After a decimal number without an exponent the letter `e`, with or without a sign but with no digit behind it, is no exponent:
`%f` reads the number and consumes the letter and the sign all the same, while `>>` reads nothing. -/
theorem C105_incomplete (n : Numeral) (h : n.WellFormed) (hn : n.exponent = none) (mark : Char) (hm : mark = 'e' ∨ mark = 'E') (sign : Option Bool) :
    ∃ x : F32, ReadAs binary32 n x ∧ ∀ blanks rest, (∀ c ∈ blanks, isSpace c) → Ends rest →
      libcScanner.scan (blanks ++ (n.text ++ (mark :: signText sign ++ rest))) = some (x, rest) ∧
      (libcScanner (f := binary32)).stream (blanks ++ (n.text ++ (mark :: signText sign ++ rest))) = none := by
  refine ⟨_, readAs_signed (f := binary32) (by decide) (by decide) n, fun blanks rest hb he => ?_⟩
  have hfrac : n.fracText = pointText n.frac := by
    unfold Numeral.fracText pointText; cases n.frac <;> rfl
  have hdig : ∀ c : Char, c.isDigit → (digit? c).isSome ∨ false = true ∧ (hexDigit? c).isSome := fun c hc => .inl (by rw [digit?_of_isDigit hc]; rfl)
  have hsplit : n.text ++ (mark :: signText sign ++ rest) =
      signText n.sign ++ (n.whole ++ pointText n.frac ++ tailWritten (some (mark, sign, [])) ++ rest) := by
    unfold Numeral.text Numeral.exponentText tailWritten
    rw [hn, hfrac]
    simp
  have hcol := collect_number false 'e' (.inl ⟨rfl, rfl⟩) n.whole n.frac (some (mark, sign, [])) (fun c hc => hdig c (h.whole c hc))
    (fun ds hd c hc => hdig c (h.frac ds hd c hc)) h.some_digit (by
      rintro m s ds hh
      obtain ⟨rfl, rfl, rfl⟩ : mark = m ∧ sign = s ∧ ([] : Text) = ds := by simpa using hh
      rcases hm with rfl | rfl <;> simp) he
  have hmag := magnitude_gen digit? 10 10 'e' (fun c => c.toNat - '0'.toNat) (by decide) n.whole n.frac (tailText 'e' (some (mark, sign, [])))
    (fun c hc => digit?_of_isDigit (h.whole c hc)) (fun ds hd c hc => digit?_of_isDigit (h.frac ds hd c hc)) h.some_digit (by decide) (by
      intro c hc
      obtain rfl : 'e' = c := by simpa [tailText] using hc
      decide)
  rw [exponentPart_tail 'e' (by decide) mark sign [] (by simp), if_pos rfl] at hmag
  have hv : (((n.whole.foldl (fun n c => 10 * n + (c.toNat - '0'.toNat)) 0 : ℕ) : ℚ) + ((n.frac.getD []).foldl (fun n c => 10 * n + (c.toNat - '0'.toNat)) 0 : ℕ) /
        ((10 : ℕ) : ℚ) ^ (n.frac.getD []).length) * ((10 : ℕ) : ℚ) ^ (0 : ℤ) = n.magnitude := by
    unfold Numeral.magnitude Numeral.exponentValue
    rw [hn]
    rfl
  dsimp only at hmag
  rw [hv] at hmag
  have ho1 : Opens (n.whole ++ pointText n.frac ++ tailText 'e' (some (mark, sign, []))) := by
    rw [← hfrac]
    refine opens_body h ?_
    intro x hx
    obtain rfl : 'e' = x := by simpa [tailText] using hx
    decide
  have ho2 : Opens (n.whole ++ pointText n.frac ++ tailWritten (some (mark, sign, [])) ++ rest) := by
    rw [← hfrac, List.append_assoc]
    refine opens_body h ?_
    intro x hx
    obtain rfl : mark = x := by simpa [tailWritten] using hx
    rcases hm with rfl | rfl <;> decide
  have hstr := strtof_opens (f := binary32) n.sign ho1 hmag
  rw [hsplit]
  constructor
  · refine scanFloat_opens n.sign hb ho2 hcol ?_ hstr
    obtain ⟨c, cs, -, e, -⟩ := ho1
    rw [e]; simp
  · change streamFloat _ = none
    rw [streamFloat_of n.sign hb (fun c hc => opens_space (sign := none) ho2 c hc rfl) (splitSign_opens n.sign ho2) hcol, hstr]
    cases hx : signedValue binary32 (n.sign == some true) n.magnitude <;> rfl

theorem hexDigit_some {c : Char} (h : c ∈ hexDigits) : hexDigit? c = some (hexDigitValue c) ∧ c ≠ '.' := by
  have : ∀ c ∈ hexDigits, hexDigit? c = some (hexDigitValue c) ∧ c ≠ '.' := by decide
  exact this c h

theorem hex_readAs (hf : f.emin + f.p ≤ f.emax) (hp : 2 ≤ f.p) (n : HexNumeral) :
    RoundedTo f n.value (signedValue f n.negative n.magnitude) ∧ (signedValue f n.negative n.magnitude).signBit = n.negative := by
  unfold signedValue
  have hm : 0 ≤ n.magnitude := by unfold HexNumeral.magnitude; positivity
  have hr := rounded_ofRat hf hp n.magnitude
  have hs := signBit_ofRat (f := f) hm
  cases hn : n.negative with
  | false =>
    refine ⟨?_, by simpa using hs⟩
    simpa [HexNumeral.value, hn] using hr
  | true =>
    refine ⟨?_, ?_⟩
    · simpa [HexNumeral.value, hn] using rounded_neg hf hr
    · simp only [if_true]
      rw [signBit_neg hr.number, hs]
      rfl

theorem splitSign_zero (sign : Option Bool) (s : Text) : splitSign (signText sign ++ '0' :: s) = (signText sign, '0' :: s) := by
  cases sign with
  | none => rfl
  | some b => cases b <;> rfl

theorem startsWith_zero {word : String} {w : Char} {ws : List Char} (hw : word.toList = w :: ws) (h : w ≠ '0') (cs : Text) :
    startsWith word ('0' :: cs) = false := startsWith_first hw (by rintro e; exact h (e.symm.trans (by decide)))

theorem strtof_hex (sign : Option Bool) {x : Char} (hx : x = 'x' ∨ x = 'X') {s : Text} {v : ℚ} {left : Text}
    (hmag : Convert.magnitude hexDigit? 16 2 'p' s = some (v, left)) :
    strtof (f := f) (signText sign ++ '0' :: x :: s) = some (signedValue f (sign == some true) v, left) := by
  unfold strtof
  dsimp only
  rw [splitSign_zero]
  dsimp only
  rw [startsWith_zero (word := "infinity") (w := 'i') (ws := "nfinity".toList) rfl (by decide),
    startsWith_zero (word := "inf") (w := 'i') (ws := "nf".toList) rfl (by decide),
    startsWith_zero (word := "nan") (w := 'n') (ws := "an".toList) rfl (by decide)]
  rw [if_neg Bool.false_ne_true, if_neg Bool.false_ne_true, if_neg Bool.false_ne_true]
  have hx' : x.toLower = 'x' := by rcases hx with rfl | rfl <;> decide
  have hm : (if x.toLower = 'x' then Convert.magnitude hexDigit? 16 2 'p' s else none) = some (v, left) := by
    rw [if_pos hx', hmag]
  simp only [hm]
  unfold signedValue
  simp only [signText_neg]

theorem scanFloat_hex (sign : Option Bool) {x : Char} (hx : x = 'x' ∨ x = 'X') {blanks s word rest : Text} (hb : ∀ c ∈ blanks, isSpace c)
    (hcol : collect true 'p' false false false false s = (word, rest)) :
    scanFloat (f := f) (blanks ++ (signText sign ++ '0' :: x :: s)) =
      if word = [] then none else (strtof (signText sign ++ '0' :: x :: word)).map (fun r => (r.1, rest)) := by
  unfold scanFloat
  dsimp only
  rw [dropWhile_sign hb sign (by intro c hc _; obtain rfl : '0' = c := by simpa using hc
                                 decide), splitSign_zero]
  dsimp only
  have h0x : startsWith "0x" ('0' :: x :: s) = true := by rcases hx with rfl | rfl <;> simp [startsWith]
  rw [startsWith_zero (word := "n") (w := 'n') (ws := []) rfl (by decide),
    startsWith_zero (word := "i") (w := 'i') (ws := []) rfl (by decide), h0x, if_neg Bool.false_ne_true, if_neg Bool.false_ne_true, if_pos rfl]
  simp only [List.drop_succ_cons, List.drop_zero, List.take_succ_cons, List.take_zero, hcol]
  cases word with
  | nil => rfl
  | cons w ws => rfl

/-- **C105** (hexadecimal numbers). `%f` also reads a hexadecimal number, correctly rounded; `>>` stops after its first zero. -/
theorem C105_hex (n : HexNumeral) (h : n.WellFormed) : ∃ x : F32, RoundedTo binary32 n.value x ∧ x.signBit = n.negative ∧
    ∀ blanks rest, (∀ c ∈ blanks, isSpace c) → Ends rest →
      libcScanner.scan (blanks ++ (n.text ++ rest)) = some (x, rest) ∧
      libcScanner.stream (blanks ++ (n.text ++ rest)) = some ((Fl.zero n.negative : F32), n.x :: n.body ++ rest) := by
  obtain ⟨h1, h2⟩ := hex_readAs (f := binary32) (by decide) (by decide) n
  refine ⟨_, h1, h2, fun blanks rest hb he => ?_⟩
  have hbody : n.body = n.whole ++ pointText n.frac ++ tailWritten n.exponent := by
    unfold HexNumeral.body pointText tailWritten
    cases n.frac <;> cases n.exponent <;> rfl
  have hsplit : n.text ++ rest = signText n.sign ++ '0' :: n.x :: (n.whole ++ pointText n.frac ++ tailWritten n.exponent ++ rest) := by
    unfold HexNumeral.text
    rw [hbody]
    simp
  have hdig : ∀ c ∈ hexDigits, (digit? c).isSome ∨ true = true ∧ (hexDigit? c).isSome := fun c hc => .inr ⟨rfl, by rw [(hexDigit_some hc).1]; rfl⟩
  have hcol := collect_number true 'p' (.inr ⟨rfl, rfl⟩) n.whole n.frac n.exponent (fun c hc => hdig c (h.whole c hc))
    (fun ds hd c hc => hdig c (h.frac ds hd c hc)) h.some_digit (by
      intro m s ds hh
      obtain ⟨hm, -, hd⟩ := h.exponent m s ds hh
      rcases hm with rfl | rfl <;> exact ⟨by decide, by simp, hd⟩) he
  have hmag := magnitude_gen hexDigit? 16 2 'p' hexDigitValue (by decide) n.whole n.frac (tailText 'p' n.exponent)
    (fun c hc => (hexDigit_some (h.whole c hc)).1) (fun ds hd c hc => (hexDigit_some (h.frac ds hd c hc)).1) h.some_digit (by decide) (by
      intro c hc
      cases hn : n.exponent with
      | none => rw [hn] at hc; cases hc
      | some t =>
        rw [hn] at hc
        obtain rfl : 'p' = c := by simpa [tailText] using hc
        decide)
  have hexp : exponentPart 'p' (tailText 'p' n.exponent) = (n.exponentValue, []) := by
    unfold HexNumeral.exponentValue
    cases hn : n.exponent with
    | none => rfl
    | some t =>
      obtain ⟨m, s, ds⟩ := t
      obtain ⟨-, hne, hd⟩ := h.exponent m s ds hn
      rw [exponentPart_tail 'p' (by decide) m s ds hd, if_neg hne]
  rw [hexp] at hmag
  have hv : (((n.whole.foldl (fun n c => 16 * n + hexDigitValue c) 0 : ℕ) : ℚ) + ((n.frac.getD []).foldl (fun n c => 16 * n + hexDigitValue c) 0 : ℕ) /
        ((16 : ℕ) : ℚ) ^ (n.frac.getD []).length) * ((2 : ℕ) : ℚ) ^ n.exponentValue = n.magnitude := rfl
  dsimp only at hmag
  rw [hv] at hmag
  have hne : n.whole ++ pointText n.frac ++ tailText 'p' n.exponent ≠ [] := by
    have := h.some_digit
    intro hc
    simp only [List.append_eq_nil_iff] at hc
    obtain ⟨⟨a, b⟩, -⟩ := hc
    rw [a] at this
    cases hfr : n.frac with
    | none => rw [hfr] at this; exact this rfl
    | some ds => rw [hfr] at b; cases b
  constructor
  · change scanFloat _ = _
    rw [hsplit, scanFloat_hex n.sign h.x hb hcol, if_neg hne, strtof_hex n.sign h.x hmag]
    rfl
  · change streamFloat _ = _
    have hc0 : ∀ s : Text, collect false 'e' false false false false ('0' :: n.x :: s) = (['0'], n.x :: s) := by
      intro s
      rcases h.x with e | e <;> rw [e] <;> rfl
    rw [hsplit, streamFloat_of n.sign hb (fun c hc => by obtain rfl : '0' = c := by simpa using hc
                                                         decide) (splitSign_zero _ _) (hc0 _)]
    have hz : strtof (f := binary32) (signText n.sign ++ ['0']) = some (Fl.zero n.negative, []) := by
      unfold HexNumeral.negative
      cases n.sign with
      | none => decide +kernel
      | some b => cases b <;> decide +kernel
    rw [hz, hbody]
    cases n.negative <;> simp [Fl.zero]

/-- **C105** (`0x` alone). After `0x` there must be a digit or a point, otherwise `%f` reads no number. -/
theorem C105_bare_hex (blanks : Text) (sign : Option Bool) (x : Char) (hx : x = 'x' ∨ x = 'X') (rest : Text) (hb : ∀ c ∈ blanks, isSpace c)
    (hr : ∀ c, rest.head? = some c → hexDigit? c = none ∧ c ≠ '.') :
    (libcScanner (f := f)).scan (blanks ++ (signText sign ++ '0' :: x :: rest)) = none := by
  have hcol : collect true 'p' false false false false rest = ([], rest) := by
    cases rest with
    | nil => rfl
    | cons c rest =>
      obtain ⟨h1, h2⟩ := hr c rfl
      have h3 : digit? c = none := by
        cases hd : digit? c with
        | none => rfl
        | some d => unfold hexDigit? at h1; rw [hd] at h1; cases h1
      rw [collect]
      simp [h1, h2, h3]
  change scanFloat _ = none
  rw [scanFloat_hex sign hx hb hcol, if_pos rfl]

end

/-! ## Concrete cases -/

/-- `-0x1.8P+3`, which is -12. -/
def exHex : HexNumeral := ⟨some true, 'x', ['1'], some ['8'], some ('P', some false, ['3'])⟩

theorem exHex_wellFormed : exHex.WellFormed where
  x := .inl rfl
  whole := by decide
  frac := by intro ds h; cases h; decide
  some_digit := by decide
  exponent := by intro m s ds h; cases h; exact ⟨.inr rfl, by decide, by decide⟩

example : exHex.text = "-0x1.8P+3".toList := by decide

example : exHex.value = -12 := by decide +kernel

example := C105_hex exHex exHex_wellFormed

example : libcScanner.scan "  -0x1.8P+3,7".toList = some ((.fin (-12) : F32), ",7".toList) ∧
    libcScanner.stream "-0x1.8P+3,7".toList = some ((.negZero : F32), "x1.8P+3,7".toList) := by decide +kernel

/-- `12.5` -/
def exCut : Numeral := ⟨none, ['1', '2'], some ['5'], none⟩

theorem exCut_wellFormed : exCut.WellFormed where
  whole := by decide
  frac := by intro ds h; cases h; decide
  some_digit := by decide
  exponent := by intro m s ds h; cases h

example := C105_incomplete exCut exCut_wellFormed rfl 'e' (.inl rfl) (some true)

example : libcScanner.scan "12.5e-,7".toList = some ((.fin (25 / 2) : F32), ",7".toList) ∧
    (libcScanner (f := binary32)).stream "12.5e-,7".toList = none := by decide +kernel

example := C105_bare_hex (f := binary32) [' '] (some false) 'X' (.inr rfl) ",1".toList (by decide) (by intro c hc; cases hc; decide)

end Verif.Props.ScanfMore
