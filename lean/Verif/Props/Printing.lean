import Verif.Props.Logger
import Verif.Num.IEEELemmas

/-!
# C70 (numbers), C73: printed numbers and durations
-/

namespace Verif.Props
open Verif Verif.Spec Verif.Logger FloatOps

theorem rne_error (y : ℚ) : |(rne y : ℚ) - y| ≤ 1 / 2 := by
  unfold rne
  have h1 := Int.floor_le y
  have h2 := Int.lt_floor_add_one y
  dsimp only
  rw [abs_le]
  split_ifs with h3 h4 h5 <;> push_cast <;> constructor <;> linarith

theorem toDigits_digit (n : ℕ) : ∀ c ∈ Nat.toDigits 10 n, c.isDigit :=
  fun _ hc => Nat.isDigit_of_mem_toDigits (by decide) (by decide) hc

theorem ofDigitChars_zeros (k : ℕ) (ds : Text) :
    Nat.ofDigitChars 10 (List.replicate k '0' ++ ds) 0 = Nat.ofDigitChars 10 ds 0 := by
  induction k with
  | zero => rfl
  | succ k ih =>
    rw [List.replicate_succ, List.cons_append, Nat.ofDigitChars_cons]
    exact ih

theorem toDigits_length_le {n k : ℕ} (hk : 0 < k) (h : n < 10 ^ k) : (Nat.toDigits 10 n).length ≤ k :=
  (Nat.length_toDigits_le_iff (by decide) hk).mpr h

/-- What `%.<n>f` prints. -/
theorem fixedText_shows (n : ℕ) (hn : 0 < n) (neg : Bool) (x : ℚ) (hx : 0 ≤ x) :
    ShowsDecimal n (fixedText n neg x) ((if neg then -1 else 1) * (rne (x * 10 ^ n) / 10 ^ n)) := by
  unfold fixedText
  dsimp only
  obtain ⟨m, hm⟩ : ∃ m : ℕ, (m : ℤ) = rne (x * 10 ^ n) := ⟨_, Int.toNat_of_nonneg (rne_nonneg (by positivity))⟩
  rw [← hm, Int.toNat_natCast]
  refine ⟨neg, Nat.toDigits 10 (m / 10 ^ n), List.replicate (n - (Nat.toDigits 10 (m % 10 ^ n)).length) '0' ++
    Nat.toDigits 10 (m % 10 ^ n), by rw [if_neg hn.ne'], Nat.toDigits_ne_nil, toDigits_digit _, ?_, ?_, ?_⟩
  · have := toDigits_length_le hn (Nat.mod_lt m (pow_pos (by decide : 0 < 10) n))
    rw [List.length_append, List.length_replicate]
    omega
  · intro c hc
    rcases List.mem_append.mp hc with hc | hc
    · rw [List.eq_of_mem_replicate hc]; decide
    · exact toDigits_digit _ c hc
  · rw [ofDigitChars_zeros, Nat.ofDigitChars_ten_toDigits, Nat.ofDigitChars_ten_toDigits]
    congr 1
    have h := Nat.div_add_mod m (10 ^ n)
    have hp : (10 : ℚ) ^ n ≠ 0 := by positivity
    field_simp
    have : ((m : ℤ) : ℚ) = ((10 ^ n * (m / 10 ^ n) + m % 10 ^ n : ℕ) : ℚ) := by rw [h]; simp
    rw [this]
    push_cast
    ring

/-- **C70** (numbers). A finite number is printed as a decimal number with three decimals that differs from it by at most
0.0005; the other values are printed as words. -/
theorem C70_numbers {f : Fmt} : (∀ q : ℚ, ∃ v, ShowsDecimal 3 (printFixed 3 (.fin q : Fl f)) v ∧ |v - q| ≤ 1 / 2000) ∧
    printFixed 3 (.negZero : Fl f) = "-0.000".toList ∧ printFixed 3 (.nan : Fl f) = "nan".toList ∧
    printFixed 3 (.inf false : Fl f) = "inf".toList ∧ printFixed 3 (.inf true : Fl f) = "-inf".toList := by
  have h0 : fixedText 3 true 0 = "-0.000".toList := by decide +kernel
  refine ⟨?_, h0, rfl, rfl, rfl⟩
  intro q
  refine ⟨_, fixedText_shows 3 (by decide) (decide (q < 0)) |q| (abs_nonneg q), ?_⟩
  have h := rne_error (|q| * 10 ^ 3)
  rw [abs_le] at h ⊢
  rcases lt_or_ge q 0 with hq | hq
  · rw [abs_of_neg hq] at h ⊢
    simp only [hq, decide_true, if_true]
    constructor <;> linarith
  · rw [abs_of_nonneg hq] at h ⊢
    simp only [not_lt.mpr hq, decide_false, Bool.false_eq_true, if_false]
    constructor <;> linarith

theorem shows_plain {n : ℕ} {text : Text} {v : ℚ} (h : ShowsDecimal n text v) : ∀ c ∈ text, c ≠ ',' ∧ c ≠ '\n' := by
  obtain ⟨neg, whole, frac, rfl, -, hw, -, hf, -⟩ := h
  intro c hc
  rcases List.mem_append.mp hc with hc | hc
  · rcases List.mem_append.mp hc with hc | hc
    · cases neg <;> simp at hc; subst hc; decide
    · have := not_space_of_isDigit (hw c hc); exact ⟨this.2.2.2.2.2, this.2.2.2.2.1⟩
  · rcases List.mem_cons.mp hc with rfl | hc
    · decide
    · have := not_space_of_isDigit (hf c hc); exact ⟨this.2.2.2.2.2, this.2.2.2.2.1⟩

theorem fixedText_plain (n : ℕ) (neg : Bool) (x : ℚ) : ∀ c ∈ fixedText n neg x, c ≠ ',' ∧ c ≠ '\n' ∧ c ≠ '\x00' := by
  intro c hc
  unfold fixedText at hc
  dsimp only at hc
  have dig : ∀ {c : Char} {n : ℕ}, c ∈ Nat.toDigits 10 n → c ≠ ',' ∧ c ≠ '\n' ∧ c ≠ '\x00' := fun h => by
    have := not_space_of_isDigit (toDigits_digit _ _ h); exact ⟨this.2.2.2.2.2, this.2.2.2.2.1, this.2.2.2.1⟩
  rcases List.mem_append.mp hc with hc | hc
  · rcases List.mem_append.mp hc with hc | hc
    · cases neg <;> simp at hc; subst hc; decide
    · exact dig hc
  · split at hc
    · simp at hc
    · rcases List.mem_cons.mp hc with rfl | hc
      · decide
      · rcases List.mem_append.mp hc with hc | hc
        · rw [List.eq_of_mem_replicate hc]; decide
        · exact dig hc

theorem absl_chars (f : Fmt) : (∀ x, ∀ c ∈ ((abslFormat f).int x).toList, c ≠ ',' ∧ c ≠ '\n' ∧ c ≠ '\x00') ∧
    ∀ n x, ∀ c ∈ ((abslFormat f).fixed n x).toList, c ≠ ',' ∧ c ≠ '\n' ∧ c ≠ '\x00' := by
  refine ⟨fun x c hc => ?_, fun n x c hc => ?_⟩
  · have : c ∈ Convert.printInt x := by simpa [abslFormat] using hc
    exact ⟨(printInt_plain x c this).2.2, (printInt_plain x c this).2.1, (printInt_plain x c this).1⟩
  · have hc : c ∈ printFixed n x := by simpa [abslFormat] using hc
    cases x with
    | nan => simp [printFixed] at hc; rcases hc with rfl | rfl | rfl <;> decide
    | inf b => cases b <;> simp [printFixed] at hc <;> rcases hc with rfl | rfl | rfl | rfl <;> decide
    | negZero => exact fixedText_plain _ _ _ c hc
    | fin q => exact fixedText_plain _ _ _ c hc

/-- Numbers as abseil prints them contain neither commas nor newlines: the premise of C70 and C75 holds. -/
theorem abslFormat_plain (f : Fmt) : PlainFormat (abslFormat f) where
  int x c hc := ⟨((absl_chars f).1 x c hc).1, ((absl_chars f).1 x c hc).2.1⟩
  fixed n x c hc := ⟨((absl_chars f).2 n x c hc).1, ((absl_chars f).2 n x c hc).2.1⟩

/-! ### C73 -/

theorem printInt02_two : ∀ n : ℕ, n < 60 → Convert.printInt02 (n : ℤ) = twoDigits n := by decide +kernel

/-- **C73**. A duration that is not negative prints as hours, minutes and seconds, separated by colons; minutes and seconds
have two digits and are below 60, and the hours, minutes and seconds add up to the duration. -/
theorem C73_duration (d : ℤ) (hd : 0 ≤ d) : ∃ h m s : ℕ, d = 3600 * h + 60 * m + s ∧ m < 60 ∧ s < 60 ∧
    Convert.durationToString d = Nat.toDigits 10 h ++ [':'] ++ twoDigits m ++ [':'] ++ twoDigits s := by
  obtain ⟨n, rfl⟩ : ∃ n : ℕ, d = n := ⟨d.toNat, by omega⟩
  refine ⟨n / 3600, n / 60 % 60, n % 60, by omega, by omega, by omega, ?_⟩
  unfold Convert.durationToString
  have h1 : (n : ℤ).tdiv 3600 = ((n / 3600 : ℕ) : ℤ) := by rw [Int.tdiv_eq_ediv_of_nonneg hd]; simp
  have h2 : ((n : ℤ).tdiv 60).tmod 60 = ((n / 60 % 60 : ℕ) : ℤ) := by
    rw [Int.tdiv_eq_ediv_of_nonneg hd, Int.tmod_eq_emod_of_nonneg (by omega)]; simp
  have h3 : (n : ℤ).tmod 60 = ((n % 60 : ℕ) : ℤ) := by rw [Int.tmod_eq_emod_of_nonneg hd]; simp
  rw [h1, h2, h3, printInt02_two _ (by omega), printInt02_two _ (by omega)]
  have h4 : Convert.printInt ((n / 3600 : ℕ) : ℤ) = Nat.toDigits 10 (n / 3600) := by
    unfold Convert.printInt
    rw [if_neg (by omega), Int.natAbs_natCast]
  rw [h4]
  simp

theorem twoDigits_inj : ∀ a < 60, ∀ b < 60, twoDigits a = twoDigits b → a = b := by decide +kernel

/-- **C73** (no loss). Different durations print differently. -/
theorem C73_injective (d e : ℤ) (hd : 0 ≤ d) (he : 0 ≤ e)
    (h : Convert.durationToString d = Convert.durationToString e) : d = e := by
  obtain ⟨h1, m1, s1, rfl, hm1, hs1, ht1⟩ := C73_duration d hd
  obtain ⟨h2, m2, s2, rfl, hm2, hs2, ht2⟩ := C73_duration e he
  rw [ht1, ht2] at h
  obtain ⟨h, g1⟩ := List.append_inj' h rfl
  obtain ⟨h, -⟩ := List.append_inj' h rfl
  obtain ⟨h, g2⟩ := List.append_inj' h rfl
  obtain ⟨h, -⟩ := List.append_inj' h rfl
  have := twoDigits_inj _ hs1 _ hs2 g1
  have := twoDigits_inj _ hm1 _ hm2 g2
  have h3 : h1 = h2 := by
    have := congrArg (fun l => Nat.ofDigitChars 10 l 0) h
    simpa using this
  subst_vars
  rfl

/-- A day, an hour, a minute and a second. -/
example : String.ofList (Convert.durationToString 90061) = "25:01:01" := by decide +kernel

/-- A negative duration carries its sign on each part that is not zero. -/
example : String.ofList (Convert.durationToString (-59)) = "0:00:-59" ∧
    String.ofList (Convert.durationToString (-3661)) = "-1:-1:-1" := by decide +kernel

/-! ### The exchange log as a history -/

/-- A decimal number is read as its value. -/
theorem shows_number {F : Type} [FloatOps F] {n : ℕ} {text : Text} {v : ℚ} (h : ShowsDecimal n text v) :
    NumberText (decimalScanner (F := F)) (lit F v) text := by
  obtain ⟨neg, whole, frac, rfl, hne, hw, rfl, hf, rfl⟩ := h
  exact decimal_digits neg whole frac hne hw hf

/-- **C70** (the exchange log as a history). Every line of the exchange log starts with a tick that `convert` can read: the
tick of the call, with every number rounded to three decimals. -/
theorem C70_row_shows_tick {f : Fmt} (ts : ℤ) (hts : IsInt64 ts) (o h l c v : ℚ) (a : Account (Fl f)) (ord : Option (Order (Fl f))) :
    ∃ o' h' l' c' v' : ℚ, (|o' - o| ≤ 1 / 2000 ∧ |h' - h| ≤ 1 / 2000 ∧ |l' - l| ≤ 1 / 2000 ∧ |c' - c| ≤ 1 / 2000 ∧
        |v' - v| ≤ 1 / 2000) ∧
      OhlcLine (decimalScanner (F := Fl f)) (exchangeLine (abslFormat f) (⟨ts, .fin o, .fin h, .fin l, .fin c, .fin v⟩, a, ord))
        ⟨ts, lit _ o', lit _ h', lit _ l', lit _ c', lit _ v'⟩ := by
  obtain ⟨o', ho, ho'⟩ := C70_numbers (f := f).1 o
  obtain ⟨h', hh, hh'⟩ := C70_numbers (f := f).1 h
  obtain ⟨l', hl, hl'⟩ := C70_numbers (f := f).1 l
  obtain ⟨c', hc, hc'⟩ := C70_numbers (f := f).1 c
  obtain ⟨v', hv, hv'⟩ := C70_numbers (f := f).1 v
  refine ⟨o', h', l', c', v', ⟨ho', hh', hl', hc', hv'⟩, hts, ?_⟩
  set call : OhlcTick (Fl f) × Account (Fl f) × Option (Order (Fl f)) := (⟨ts, .fin o, .fin h, .fin l, .fin c, .fin v⟩, a, ord)
  obtain ⟨tail, htail⟩ : ∃ tail, exchangeColumns (abslFormat f) call =
      [Convert.printInt ts, printFixed 3 (.fin o : Fl f), printFixed 3 (.fin h : Fl f), printFixed 3 (.fin l : Fl f),
        printFixed 3 (.fin c : Fl f), printFixed 3 (.fin v : Fl f)] ++ tail ∧ tail ≠ [] := by
    refine ⟨(exchangeColumns (abslFormat f) call).drop 6, ?_, ?_⟩
    · cases ord <;> simp [call, exchangeColumns, abslFormat]
    · cases ord <;> simp [call, exchangeColumns, orderColumns]
  refine ⟨_, .cons (shows_number ho) (.cons (shows_number hh) (.cons (shows_number hl) (.cons (shows_number hc)
    (.cons (shows_number hv) (.nil (',' :: [','].intercalate tail) ?_ ?_))))), ?_⟩
  · intro c hc; simp at hc; simp [← hc]
  · intro x hx
    rcases List.mem_cons.mp hx with rfl | hx
    · decide
    · rcases mem_intercalate hx with rfl | ⟨w, hw, hx⟩
      · decide
      · have := exchangeColumns_all (absl_chars f).1 (absl_chars f).2 (by
          intro c hc
          refine ⟨?_, ?_, ?_⟩ <;> rintro rfl <;> exact absurd hc (by decide)) call w (by
            rw [htail.1]; exact List.mem_append_right _ hw) x hx
        exact ⟨this.2.2, this.2.1⟩
  · unfold exchangeLine
    rw [htail.1]
    rw [intercalate_append _ _ _ (by simp) htail.2]
    simp [List.intercalate_cons_cons]

/-- An account with the given balances and fees. -/
def logAcc (b q f : F32) : Account F32 := ⟨b, q, f, .fin 0, .fin 0, .fin 1, .fin 0⟩

/-- A tick, and the same tick with a limit order executed on it. -/
example : (CsvLogger.mk (some []) (some [])).after (abslFormat binary32)
    [.tickRow ⟨1500000000, .fin 100, .fin (225 / 2), .fin 80, .fin 90, .fin 1000⟩ (logAcc (.fin 10) (.fin 0) (.fin 0)),
     .orderRow ⟨1500000000, .fin 100, .fin (225 / 2), .fin 80, .fin 90, .fin 1000⟩ (logAcc (.fin 5) (.fin (1999 / 4)) (.fin (1 / 4)))
       ⟨some .limit, some .sell, .base (.fin 5), some (.fin 100)⟩, .traderRow "a"] =
    ⟨some ("1500000000,100.000,112.500,80.000,90.000,1000.000,10.000,0.000,0.000,,,,,\n" ++
      "1500000000,100.000,112.500,80.000,90.000,1000.000,5.000,499.750,0.250,LIMIT,SELL,5.000,,100.000\n").toList,
      some "a\n".toList⟩ := by decide +kernel

end Verif.Props
