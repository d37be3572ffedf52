import Verif.Lemmas.CommandLine

/-!
# Lemmas about the texts of flag values (C107)
-/

namespace Verif.CommandLine
open Verif.Convert Verif.Spec

theorem strip_form (s : Text) : ∃ b b', Blank b ∧ Blank b' ∧ s = b ++ strip s ++ b' := by
  refine ⟨s.takeWhile isSpace, ((s.dropWhile isSpace).reverse.takeWhile isSpace).reverse, ?_, ?_, ?_⟩
  · intro c hc; exact (List.all_eq_true.mp List.all_takeWhile) c hc
  · intro c hc; exact (List.all_eq_true.mp List.all_takeWhile) c (List.mem_reverse.mp hc)
  · unfold strip
    rw [List.append_assoc, ← List.reverse_append, List.takeWhile_append_dropWhile, List.reverse_reverse,
      List.takeWhile_append_dropWhile]

theorem dropWhile_blank {b : Text} (hb : Blank b) (t : Text) (ht : ∀ c, t.head? = some c → isSpace c = false) :
    (b ++ t).dropWhile isSpace = t := by
  rw [List.dropWhile_append_of_pos hb]
  cases t with
  | nil => rfl
  | cons c cs => rw [List.dropWhile_cons, ht c rfl]; rfl

theorem strip_of {b t b' : Text} (hb : Blank b) (hb' : Blank b') (h1 : ∀ c, t.head? = some c → isSpace c = false)
    (h2 : ∀ c, t.getLast? = some c → isSpace c = false) : strip (b ++ t ++ b') = t := by
  unfold strip
  cases ht : t with
  | nil =>
    have : (b ++ [] ++ b').dropWhile isSpace = [] := by
      have h := dropWhile_blank (b := b ++ b') (fun c hc => (List.mem_append.mp hc).elim (hb c) (hb' c)) [] (by simp)
      simpa using h
    rw [this]; rfl
  | cons x xs =>
    rw [← ht, List.append_assoc, dropWhile_blank hb (t ++ b') (by
      intro c hc; apply h1 c; rw [ht] at hc ⊢; simpa using hc)]
    rw [List.reverse_append, dropWhile_blank (fun c hc => hb' c (List.mem_reverse.mp hc)) _ (by
      intro c hc; apply h2 c; rwa [List.head?_reverse] at hc), List.reverse_reverse]

/-! ### Digits -/

theorem char_ascii (P : Char → Prop) (h : ∀ n < 128, P (Char.ofNat n)) (h' : ∀ c : Char, 128 ≤ c.toNat → P c) (c : Char) : P c := by
  rcases Nat.lt_or_ge c.toNat 128 with hc | hc
  · have := h _ hc
    rwa [Char.ofNat_toNat] at this
  · exact h' c hc

theorem char_le (a c : Char) : a ≤ c ↔ a.toNat ≤ c.toNat := by
  rw [Char.le_def, UInt32.le_iff_toNat_le]; rfl

instance (c : Char) : Decidable (HexDigit c) := by unfold HexDigit; infer_instance

/-- The value of a digit. -/
def digitVal (c : Char) : ℕ := if c.isDigit then c.toNat - 48 else c.toLower.toNat - 87

theorem digitIn_large (base : ℕ) (hb : base ≤ 36) (c : Char) (hc : 128 ≤ c.toNat) : digitIn base c = none := by
  have h : ∀ a b : Char, b.toNat < 128 → ¬ (a ≤ c ∧ c ≤ b) := fun a b hb h => by
    have := (char_le c b).mp h.2; omega
  unfold digitIn
  rw [if_neg (h '0' '9' (by decide)), if_neg (h 'a' 'z' (by decide)), if_neg (h 'A' 'Z' (by decide))]
  simp only
  rw [if_neg (by omega)]

theorem isDigit_large (c : Char) (hc : 128 ≤ c.toNat) : c.isDigit = false := by
  unfold Char.isDigit
  have : ¬ c.val ≤ 57 := by
    rw [UInt32.le_iff_toNat_le]; exact fun h => absurd (show c.toNat ≤ 57 from h) (by omega)
  simp [this]

theorem digitIn_ten (c : Char) : digitIn 10 c = if c.isDigit then some (digitVal c) else none := by
  revert c
  refine char_ascii _ (by decide +kernel) (fun c hc => ?_)
  rw [digitIn_large 10 (by decide) c hc, isDigit_large c hc]; rfl

theorem hex_large (c : Char) (hc : 128 ≤ c.toNat) : ¬ HexDigit c := by
  rintro (h | h | h)
  · rw [isDigit_large c hc] at h; cases h
  · have := (char_le c 'f').mp h.2
    have e : 'f'.toNat = 102 := rfl
    omega
  · have := (char_le c 'F').mp h.2
    have e : 'F'.toNat = 70 := rfl
    omega

theorem digitIn_sixteen (c : Char) : digitIn 16 c = if HexDigit c then some (digitVal c) else none := by
  revert c
  refine char_ascii _ (by decide +kernel) (fun c hc => ?_)
  rw [digitIn_large 16 (by decide) c hc, if_neg (hex_large c hc)]

theorem digitsIn_iff (base : ℕ) (P : Char → Prop) [DecidablePred P]
    (h : ∀ c, digitIn base c = if P c then some (digitVal c) else none) (ds : Text) : ∀ acc n,
    digitsIn base acc ds = some n ↔ (∀ c ∈ ds, P c) ∧ n = ds.foldl (fun n c => base * n + digitVal c) acc := by
  induction ds with
  | nil => intro acc n; simp [digitsIn, eq_comm]
  | cons c cs ih =>
    intro acc n
    unfold digitsIn
    rw [h]
    by_cases hc : P c
    · simp [hc, ih]
    · simp [hc]

theorem numberIn_iff (base : ℕ) (P : Char → Prop) [DecidablePred P]
    (h : ∀ c, digitIn base c = if P c then some (digitVal c) else none) (ds : Text) (n : ℕ) :
    numberIn base ds = some n ↔ ds ≠ [] ∧ (∀ c ∈ ds, P c) ∧ n = numeral base ds := by
  unfold numberIn
  by_cases hd : ds = []
  · simp [hd]
  · rw [if_neg hd, digitsIn_iff base P h]
    simp only [ne_eq, hd, not_false_eq_true, true_and]
    rfl

theorem ten_iff (ds : Text) (n : ℕ) :
    numberIn 10 ds = some n ↔ ds ≠ [] ∧ (∀ c ∈ ds, c.isDigit = true) ∧ n = numeral 10 ds :=
  numberIn_iff 10 (fun c => c.isDigit = true) digitIn_ten ds n

theorem sixteen_iff (ds : Text) (n : ℕ) :
    numberIn 16 ds = some n ↔ ds ≠ [] ∧ (∀ c ∈ ds, HexDigit c) ∧ n = numeral 16 ds :=
  numberIn_iff 16 HexDigit digitIn_sixteen ds n

theorem hex_not_space (c : Char) (h : HexDigit c) : isSpace c = false := by
  revert h; revert c
  exact char_ascii _ (by decide +kernel) (fun c hc h => absurd h (hex_large c hc))

theorem digit_hex (c : Char) (h : c.isDigit = true) : HexDigit c := .inl h

/-! ### Integers -/

/-- The value without the check of the range. -/
def rawInt (t : Text) : Option ℤ :=
  match t with
  | '0' :: 'x' :: rest => (numberIn 16 rest).map (↑)
  | '0' :: 'X' :: rest => (numberIn 16 rest).map (↑)
  | '-' :: rest => (numberIn 10 rest).map (fun n => -(n : ℤ))
  | '+' :: rest => (numberIn 10 rest).map (↑)
  | rest => (numberIn 10 rest).map (↑)

/-- The forms of an integer. -/
def IntForm (t : Text) (n : ℤ) : Prop :=
  (∃ ds, ds ≠ [] ∧ (∀ c ∈ ds, c.isDigit = true) ∧
      ((t = ds ∨ t = '+' :: ds) ∧ n = numeral 10 ds ∨ t = '-' :: ds ∧ n = -(numeral 10 ds : ℤ))) ∨
    ∃ x ds, (x = 'x' ∨ x = 'X') ∧ ds ≠ [] ∧ (∀ c ∈ ds, HexDigit c) ∧ t = '0' :: x :: ds ∧ n = numeral 16 ds

theorem map_cast_iff {o : Option ℕ} {n : ℤ} : o.map (fun k : ℕ => (k : ℤ)) = some n ↔ ∃ k : ℕ, o = some k ∧ n = k := by
  cases o <;> simp [eq_comm]

theorem rawInt_iff (t : Text) (n : ℤ) : rawInt t = some n ↔ IntForm t n := by
  constructor
  · intro h
    unfold rawInt at h
    split at h
    · obtain ⟨k, hk, rfl⟩ := map_cast_iff.mp h
      obtain ⟨a, b, c⟩ := (sixteen_iff _ _).mp hk
      exact .inr ⟨'x', _, .inl rfl, a, b, rfl, by rw [c]⟩
    · obtain ⟨k, hk, rfl⟩ := map_cast_iff.mp h
      obtain ⟨a, b, c⟩ := (sixteen_iff _ _).mp hk
      exact .inr ⟨'X', _, .inr rfl, a, b, rfl, by rw [c]⟩
    · rename_i rest
      cases hr : numberIn 10 rest with
      | none => rw [hr] at h; cases h
      | some k =>
        rw [hr] at h
        obtain ⟨a, b, c⟩ := (ten_iff _ _).mp hr
        refine .inl ⟨_, a, b, .inr ⟨rfl, ?_⟩⟩
        rw [← c]; exact (Option.some.inj h).symm
    · obtain ⟨k, hk, rfl⟩ := map_cast_iff.mp h
      obtain ⟨a, b, c⟩ := (ten_iff _ _).mp hk
      exact .inl ⟨_, a, b, .inl ⟨.inr rfl, by rw [c]⟩⟩
    · obtain ⟨k, hk, rfl⟩ := map_cast_iff.mp h
      obtain ⟨a, b, c⟩ := (ten_iff _ _).mp hk
      exact .inl ⟨_, a, b, .inl ⟨.inl rfl, by rw [c]⟩⟩
  · rintro (⟨ds, h1, h2, ⟨rfl | rfl, rfl⟩ | ⟨rfl, rfl⟩⟩ | ⟨x, ds, hx, h1, h2, rfl, rfl⟩)
    · have hk := (ten_iff t _).mpr ⟨h1, h2, rfl⟩
      unfold rawInt
      split
      · exact absurd (h2 'x' (by simp)) (by decide)
      · exact absurd (h2 'X' (by simp)) (by decide)
      · exact absurd (h2 '-' (by simp)) (by decide)
      · exact absurd (h2 '+' (by simp)) (by decide)
      · rw [hk]; rfl
    · have hk := (ten_iff ds _).mpr ⟨h1, h2, rfl⟩
      show (numberIn 10 ds).map _ = _
      rw [hk]; rfl
    · have hk := (ten_iff ds _).mpr ⟨h1, h2, rfl⟩
      show (numberIn 10 ds).map (fun n => -(n : ℤ)) = _
      rw [hk]; rfl
    · have hk := (sixteen_iff ds _).mpr ⟨h1, h2, rfl⟩
      rcases hx with rfl | rfl
      · show (numberIn 16 ds).map _ = _
        rw [hk]; rfl
      · show (numberIn 16 ds).map _ = _
        rw [hk]; rfl

theorem IntForm.ends {t : Text} {n : ℤ} (h : IntForm t n) :
    (∀ c, t.head? = some c → isSpace c = false) ∧ (∀ c, t.getLast? = some c → isSpace c = false) := by
  have last : ∀ (l ds : Text), ds ≠ [] → (∀ c ∈ ds, HexDigit c) → ∀ c, (l ++ ds).getLast? = some c → isSpace c = false := by
    intro l ds hne hd c hc
    rw [List.getLast?_append_of_ne_nil _ hne] at hc
    exact hex_not_space c (hd c (List.mem_of_getLast? hc))
  rcases h with ⟨ds, h1, h2, ⟨rfl | rfl, -⟩ | ⟨rfl, -⟩⟩ | ⟨x, ds, hx, h1, h2, rfl, -⟩
  · exact ⟨fun c hc => hex_not_space c (.inl (h2 c (List.mem_of_head? hc))), last [] t h1 (fun c hc => .inl (h2 c hc))⟩
  · exact ⟨fun c hc => by cases hc; decide, last ['+'] ds h1 (fun c hc => .inl (h2 c hc))⟩
  · exact ⟨fun c hc => by cases hc; decide, last ['-'] ds h1 (fun c hc => .inl (h2 c hc))⟩
  · exact ⟨fun c hc => by cases hc; decide, last ['0', x] ds h1 h2⟩

theorem parseInt_iff (s : Text) (n : ℤ) : parseInt s = some n ↔ IntText s n := by
  have hp : parseInt s = (rawInt (strip s)).filter (fun n => decide (-2 ^ 31 ≤ n ∧ n < 2 ^ 31)) := rfl
  rw [hp, Option.filter_eq_some_iff, rawInt_iff]
  simp only [decide_eq_true_eq]
  constructor
  · rintro ⟨h, hr⟩
    obtain ⟨b, b', hb, hb', he⟩ := strip_form s
    exact ⟨hr, b, strip s, b', hb, hb', he, h⟩
  · rintro ⟨hr, b, t, b', hb, hb', rfl, h⟩
    have hf : IntForm t n := h
    rw [strip_of hb hb' hf.ends.1 hf.ends.2]
    exact ⟨hf, hr⟩

/-! ### Switches -/

/-- The words for a switch. -/
def Word (on : Bool) (t : Text) : Prop :=
  String.ofList (t.map Char.toLower) ∈ (if on then ["1", "t", "true", "y", "yes"] else ["0", "f", "false", "n", "no"])

theorem word_iff (on : Bool) (t : Text) : Word on t ↔
    if on then t.map Char.toLower ∈ [['1'], ['t'], ['t', 'r', 'u', 'e'], ['y'], ['y', 'e', 's']]
    else t.map Char.toLower ∈ [['0'], ['f'], ['f', 'a', 'l', 's', 'e'], ['n'], ['n', 'o']] := by
  have key : ∀ l : Text, ∀ s : String, String.ofList l = s ↔ l = s.toList := fun l s =>
    ⟨fun h => by rw [← h, String.toList_ofList], fun h => by rw [h, String.ofList_toList]⟩
  unfold Word
  cases on
  · simp only [Bool.false_eq_true, if_false, List.mem_cons, List.not_mem_nil, or_false, key]
    rfl
  · simp only [if_true, List.mem_cons, List.not_mem_nil, or_false, key]
    rfl

theorem space_lower (c : Char) : isSpace c = true → isSpace c.toLower = true := by
  revert c
  refine char_ascii _ (by decide +kernel) (fun c hc h => ?_)
  exfalso
  unfold isSpace at h
  simp only [Bool.or_eq_true, decide_eq_true_eq] at h
  rcases h with ((((rfl | rfl) | rfl) | rfl) | rfl) | rfl <;> exact absurd hc (by decide)

theorem Word.ends {on : Bool} {t : Text} (h : Word on t) :
    (∀ c, t.head? = some c → isSpace c = false) ∧ (∀ c, t.getLast? = some c → isSpace c = false) := by
  have hall : ∀ c ∈ t.map Char.toLower, isSpace c = false := by
    rw [word_iff] at h
    cases on
    · simp only [Bool.false_eq_true, if_false, List.mem_cons, List.not_mem_nil, or_false] at h
      rcases h with h | h | h | h | h <;> rw [h] <;> decide
    · simp only [if_true, List.mem_cons, List.not_mem_nil, or_false] at h
      rcases h with h | h | h | h | h <;> rw [h] <;> decide
  have hns : ∀ c ∈ t, isSpace c = false := by
    intro c hc
    cases hs : isSpace c with
    | false => rfl
    | true =>
      have := space_lower c hs
      rw [hall _ (List.mem_map_of_mem hc)] at this
      cases this
  exact ⟨fun c hc => hns c (List.mem_of_head? hc), fun c hc => hns c (List.mem_of_getLast? hc)⟩

/-- The value of a stripped text. -/
theorem parseBool_word (s : Text) (on : Bool) : parseBool s = some on ↔ Word on (strip s) := by
  rw [word_iff]
  unfold parseBool
  simp only [List.mem_cons, List.not_mem_nil, or_false]
  generalize (strip s).map Char.toLower = t
  by_cases h1 : t = ['1'] ∨ t = ['t'] ∨ t = ['t', 'r', 'u', 'e'] ∨ t = ['y'] ∨ t = ['y', 'e', 's']
  · rw [if_pos h1]
    cases on
    · simp only [Option.some.injEq, Bool.true_eq_false, Bool.false_eq_true, if_false, false_iff, not_or]
      rcases h1 with rfl | rfl | rfl | rfl | rfl <;> decide
    · simp [h1]
  · rw [if_neg h1]
    by_cases h2 : t = ['0'] ∨ t = ['f'] ∨ t = ['f', 'a', 'l', 's', 'e'] ∨ t = ['n'] ∨ t = ['n', 'o']
    · rw [if_pos h2]
      cases on
      · simp [h2]
      · simp [h1]
    · rw [if_neg h2]
      cases on
      · simp [h2]
      · simp [h1]

theorem parseBool_iff (s : Text) (on : Bool) : parseBool s = some on ↔ SwitchText s on := by
  rw [parseBool_word]
  constructor
  · intro h
    obtain ⟨b, b', hb, hb', he⟩ := strip_form s
    exact ⟨b, strip s, b', hb, hb', he, h⟩
  · rintro ⟨b, t, b', hb, hb', rfl, h⟩
    have hw : Word on t := h
    rw [strip_of hb hb' hw.ends.1 hw.ends.2]
    exact hw

end Verif.CommandLine
