import Verif.Model.DebugString
import Verif.Props.Scanf
import Verif.Lemmas.Rounded

/-!
# Lemmas about printed floats (C109)
-/

namespace Verif.DebugString
open Verif.Convert Verif.Spec Verif.Props

/-! ### Digits -/

theorem digitsValue_append (a b : Text) :
    Numeral.digitsValue (a ++ b) = Numeral.digitsValue a * 10 ^ b.length + Numeral.digitsValue b := by
  conv_lhs => unfold Numeral.digitsValue
  rw [List.foldl_append, foldl_digits]
  rfl

theorem digitsValue_zeros (j : ℕ) : Numeral.digitsValue (List.replicate j '0') = 0 := by
  induction j with
  | zero => rfl
  | succ j ih =>
    rw [List.replicate_succ', digitsValue_append, ih]
    rfl

theorem digitsValue_toDigits (n : ℕ) : Numeral.digitsValue (Nat.toDigits 10 n) = n := by
  rw [← ofDigitChars_value, Nat.ofDigitChars_ten_toDigits]

theorem stripZeros_form (ds : Text) : ∃ j, ds = stripZeros ds ++ List.replicate j '0' := by
  refine ⟨(ds.reverse.takeWhile (· = '0')).length, ?_⟩
  have h1 : ds.reverse.takeWhile (· = '0') = List.replicate (ds.reverse.takeWhile (· = '0')).length '0' := by
    rw [List.eq_replicate_iff]
    refine ⟨rfl, fun c hc => ?_⟩
    exact of_decide_eq_true (List.all_eq_true.mp (List.all_takeWhile (l := ds.reverse) (p := fun c => decide (c = '0'))) c hc)
  have h2 : ds = (ds.reverse.dropWhile (· = '0')).reverse ++ (ds.reverse.takeWhile (· = '0')).reverse := by
    rw [← List.reverse_append, List.takeWhile_append_dropWhile, List.reverse_reverse]
  conv_lhs => rw [h2]
  unfold stripZeros
  conv_lhs => rw [h1]
  rw [List.reverse_replicate]

/-- The value of digits with a point. -/
def pointValue (a b : Text) : ℚ := Numeral.digitsValue a + Numeral.digitsValue b / 10 ^ b.length

theorem pointValue_eq (a b : Text) : pointValue a b = (Numeral.digitsValue (a ++ b) : ℚ) / 10 ^ b.length := by
  unfold pointValue
  rw [digitsValue_append]
  have : (10 : ℚ) ^ b.length ≠ 0 := by positivity
  push_cast
  field_simp

theorem pointValue_strip (a b : Text) : pointValue a (stripZeros b) = pointValue a b := by
  obtain ⟨j, hj⟩ := stripZeros_form b
  unfold pointValue
  conv_rhs => rw [hj, digitsValue_append, digitsValue_zeros, List.length_append, List.length_replicate]
  have h1 : (10 : ℚ) ^ (stripZeros b).length ≠ 0 := by positivity
  have h2 : (10 : ℚ) ^ j ≠ 0 := by positivity
  push_cast
  rw [pow_add]
  field_simp
  ring

theorem stripZeros_mem {b : Text} {c : Char} (h : c ∈ stripZeros b) : c ∈ b := by
  obtain ⟨j, hj⟩ := stripZeros_form b
  rw [hj]
  exact List.mem_append_left _ h

/-- The fraction as it is printed. -/
def fracOf (b : Text) : Option Text := if stripZeros b = [] then none else some (stripZeros b)

theorem fracOf_getD (b : Text) : (fracOf b).getD [] = stripZeros b := by
  unfold fracOf
  split
  · rename_i h; rw [h]; rfl
  · rfl

/-- A number printed without an exponent. -/
def fixedNumeral (sign : Option Bool) (a b : Text) : Numeral := ⟨sign, a, fracOf b, none⟩

/-- A number printed with an exponent. -/
def scientific (sign : Option Bool) (a b : Text) (k : ℤ) : Numeral :=
  ⟨sign, a, fracOf b, some ('e', some (decide (k < 0)),
    if k.natAbs < 10 then '0' :: Nat.toDigits 10 k.natAbs else Nat.toDigits 10 k.natAbs)⟩

theorem fixed_text (sign : Option Bool) (a b : Text) : (fixedNumeral sign a b).text = signText sign ++ withPoint a b := by
  unfold fixedNumeral Numeral.text Numeral.fracText Numeral.exponentText withPoint fracOf
  split
  · simp
  · simp

theorem scientific_text (sign : Option Bool) (a b : Text) (k : ℤ) :
    (scientific sign a b k).text = signText sign ++ (withPoint a b ++ exponentText k) := by
  unfold scientific Numeral.text Numeral.fracText Numeral.exponentText withPoint fracOf exponentText
  by_cases hk : k < 0
  · split <;> simp [hk, signText]
  · split <;> simp [hk, signText]

theorem fixed_magnitude (sign : Option Bool) (a b : Text) : (fixedNumeral sign a b).magnitude = pointValue a b := by
  unfold fixedNumeral Numeral.magnitude Numeral.exponentValue
  simp only [fracOf_getD, zpow_zero, mul_one]
  exact pointValue_strip a b

theorem exponent_value (k : ℤ) : Numeral.digitsValue
    (if k.natAbs < 10 then '0' :: Nat.toDigits 10 k.natAbs else Nat.toDigits 10 k.natAbs) = k.natAbs := by
  split
  · have := digitsValue_append ['0'] (Nat.toDigits 10 k.natAbs)
    rw [List.singleton_append] at this
    rw [this, digitsValue_toDigits, show Numeral.digitsValue ['0'] = 0 from rfl]
    simp
  · exact digitsValue_toDigits _

theorem scientific_magnitude (sign : Option Bool) (a b : Text) (k : ℤ) :
    (scientific sign a b k).magnitude = pointValue a b * (10 : ℚ) ^ k := by
  unfold scientific Numeral.magnitude Numeral.exponentValue
  simp only [fracOf_getD, exponent_value]
  rw [← pointValue_strip]
  unfold pointValue
  congr 2
  by_cases hk : k < 0
  · simp only [hk, decide_true, if_true]; omega
  · simp only [hk, decide_false, if_neg (show ¬ (some false = some true) by decide)]; omega

theorem frac_digits {b : Text} (hb : ∀ c ∈ b, c.isDigit) : ∀ ds, fracOf b = some ds → ∀ c ∈ ds, c.isDigit := by
  intro ds h c hc
  unfold fracOf at h
  split at h
  · cases h
  · cases h
    exact hb c (stripZeros_mem hc)

theorem fixed_wf (sign : Option Bool) {a b : Text} (ha : ∀ c ∈ a, c.isDigit) (hb : ∀ c ∈ b, c.isDigit) (hne : a ≠ []) :
    (fixedNumeral sign a b).WellFormed where
  whole := ha
  frac := frac_digits hb
  some_digit := by intro h; exact hne (List.append_eq_nil_iff.mp h).1
  exponent := by intro m s ds h; cases h

theorem toDigits_digit (n : ℕ) : ∀ c ∈ Nat.toDigits 10 n, c.isDigit :=
  fun _ hc => Nat.isDigit_of_mem_toDigits (by decide) (by decide) hc

theorem scientific_wf (sign : Option Bool) {a b : Text} (k : ℤ) (ha : ∀ c ∈ a, c.isDigit) (hb : ∀ c ∈ b, c.isDigit) (hne : a ≠ []) :
    (scientific sign a b k).WellFormed where
  whole := ha
  frac := frac_digits hb
  some_digit := by intro h; exact hne (List.append_eq_nil_iff.mp h).1
  exponent := by
    intro m s ds h
    obtain ⟨rfl, h2⟩ := Prod.mk.inj (Option.some.inj h)
    obtain ⟨rfl, rfl⟩ := Prod.mk.inj h2
    refine ⟨.inl rfl, ?_, ?_⟩
    · split
      · exact List.cons_ne_nil _ _
      · exact Nat.toDigits_ne_nil
    · split
      · intro c hc
        rcases List.mem_cons.mp hc with rfl | hc
        · decide
        · exact toDigits_digit _ c hc
      · exact toDigits_digit _

/-! ### Rounding to `P` digits -/

theorem roundDigits_spec {P : ℕ} (hP : 1 ≤ P) {q : ℚ} (hq : 0 < q) :
    10 ^ (P - 1) ≤ (roundDigits P q).1 ∧ (roundDigits P q).1 < 10 ^ P ∧
    |((roundDigits P q).1 : ℚ) * (10 : ℚ) ^ ((roundDigits P q).2 - (P - 1)) - q| ≤ (10 : ℚ) ^ (Int.log 10 q - (P - 1)) / 2 := by
  have hlow := Int.zpow_log_le_self (b := 10) (by norm_num) hq
  have hhigh := Int.lt_zpow_succ_log_self (b := 10) (by norm_num) q
  push_cast at hlow hhigh
  unfold roundDigits
  dsimp only
  set k := Int.log 10 q with hk
  set u : ℚ := (10 : ℚ) ^ (k - ((P : ℤ) - 1)) with hu
  have hupos : 0 < u := zpow_pos (by norm_num) _
  have hP' : ((P - 1 : ℕ) : ℤ) = (P : ℤ) - 1 := by omega
  have h1 : ((10 ^ (P - 1) : ℤ) : ℚ) ≤ q / u := by
    rw [le_div_iff₀ hupos, hu]
    push_cast
    rw [← zpow_natCast, ← zpow_add₀ (by norm_num), hP']
    refine le_trans (le_of_eq ?_) hlow
    congr 1; ring
  have h2 : q / u ≤ ((10 ^ P : ℤ) : ℚ) := by
    rw [div_le_iff₀ hupos, hu]
    push_cast
    rw [← zpow_natCast, ← zpow_add₀ (by norm_num)]
    refine le_trans hhigh.le (le_of_eq ?_)
    congr 1; ring
  have h3 : 10 ^ (P - 1) ≤ rne (q / u) := by
    have := Fl.rne_mono h1
    rwa [Fl.rne_int] at this
  have h4 : rne (q / u) ≤ 10 ^ P := by
    have := Fl.rne_mono h2
    rwa [Fl.rne_int] at this
  have hpos : (0 : ℤ) < 10 ^ (P - 1) := by positivity
  have hn : ((rne (q / u)).toNat : ℤ) = rne (q / u) := Int.toNat_of_nonneg (by omega)
  have hnq : ((rne (q / u)).toNat : ℚ) = (rne (q / u) : ℚ) := by exact_mod_cast congrArg (Int.cast (R := ℚ)) hn
  have herr : |((rne (q / u)).toNat : ℚ) * u - q| ≤ u / 2 := by
    have h := Fl.rne_err (q / u)
    rw [hnq]
    have e : (rne (q / u) : ℚ) * u - q = ((rne (q / u) : ℚ) - q / u) * u := by field_simp
    rw [e, abs_mul, abs_of_pos hupos]
    have := mul_le_mul_of_nonneg_right h hupos.le
    linarith
  split
  · rename_i heq
    refine ⟨le_refl _, ?_, ?_⟩
    · exact Nat.pow_lt_pow_right (by norm_num) (by omega)
    · have e : (((10 ^ (P - 1) : ℕ) : ℚ)) * (10 : ℚ) ^ (k + 1 - ((P : ℤ) - 1)) = ((rne (q / u)).toNat : ℚ) * u := by
        rw [heq, hu]
        push_cast
        rw [← zpow_natCast, ← zpow_natCast, ← zpow_add₀ (by norm_num), ← zpow_add₀ (by norm_num), hP']
        congr 1; ring
      rw [e]; exact herr
  · rename_i hne
    refine ⟨?_, ?_, herr⟩
    · have : ((10 ^ (P - 1) : ℕ) : ℤ) ≤ ((rne (q / u)).toNat : ℤ) := by rw [hn]; push_cast; exact h3
      exact_mod_cast this
    · have : ((rne (q / u)).toNat : ℤ) ≤ ((10 ^ P : ℕ) : ℤ) := by rw [hn]; push_cast; exact h4
      have : (rne (q / u)).toNat ≤ 10 ^ P := by exact_mod_cast this
      omega

/-- What `%.{P}g` prints, as a numeral. -/
theorem formatG_numeral {P : ℕ} (hP : 1 ≤ P) {q : ℚ} (hq : 0 < q) (sign : Option Bool) :
    ∃ n : Numeral, n.WellFormed ∧ n.sign = sign ∧ n.text = signText sign ++ formatG P q ∧
      (∀ m s ds, n.exponent = some (m, s, ds) → m = 'e') ∧
      |n.magnitude - q| ≤ (10 : ℚ) ^ (Int.log 10 q - (P - 1)) / 2 := by
  obtain ⟨h1, h2, h3⟩ := roundDigits_spec hP hq
  set r := roundDigits P q with hr
  have hlen : (Nat.toDigits 10 r.1).length = P := by
    have a := (Nat.length_toDigits_le_iff (b := 10) (n := r.1) (k := P) (by norm_num) (by omega)).mpr h2
    rcases Nat.lt_or_ge (Nat.toDigits 10 r.1).length P with hlt | hge
    · exfalso
      by_cases hP1 : P = 1
      · have := Nat.length_toDigits_pos (b := 10) (n := r.1); omega
      · have := (Nat.length_toDigits_le_iff (b := 10) (n := r.1) (k := P - 1) (by norm_num) (by omega)).mp (by omega)
        omega
    · omega
  have hd := toDigits_digit r.1
  have hdt : ∀ j, ∀ c ∈ (Nat.toDigits 10 r.1).take j, c.isDigit := fun j c hc => hd c (List.mem_of_mem_take hc)
  have hdd : ∀ j, ∀ c ∈ (Nat.toDigits 10 r.1).drop j, c.isDigit := fun j c hc => hd c (List.mem_of_mem_drop hc)
  have htake : ∀ j, 0 < j → (Nat.toDigits 10 r.1).take j ≠ [] := fun j hj h => by
    have := congrArg List.length h
    rw [List.length_take, hlen, List.length_nil] at this
    omega
  have hval : ∀ j, j ≤ P → pointValue ((Nat.toDigits 10 r.1).take j) ((Nat.toDigits 10 r.1).drop j) =
      (r.1 : ℚ) * (10 : ℚ) ^ ((j : ℤ) - P) := by
    intro j hj
    rw [pointValue_eq, List.take_append_drop, digitsValue_toDigits, List.length_drop, hlen, div_eq_mul_inv, ← zpow_natCast,
      ← zpow_neg]
    congr 2
    omega
  unfold formatG
  dsimp only
  rw [← hr]
  by_cases hs : r.2 < -4 ∨ (P : ℤ) ≤ r.2
  · rw [if_pos hs]
    refine ⟨scientific sign _ _ r.2, scientific_wf sign r.2 (hdt 1) (hdd 1) (htake 1 (by norm_num)), rfl,
      scientific_text sign _ _ r.2, ?_, ?_⟩
    · intro m s ds h; exact (congrArg Prod.fst (Option.some.inj h)).symm
    · rw [scientific_magnitude, hval 1 hP, mul_assoc, ← zpow_add₀ (by norm_num)]
      have e : ((1 : ℕ) : ℤ) - P + r.2 = r.2 - (P - 1) := by push_cast; ring
      rw [e]; exact h3
  · rw [if_neg hs]
    have hexp : ∀ a b, ∀ m s ds, (fixedNumeral sign a b).exponent = some (m, s, ds) → m = 'e' := fun _ _ m s ds h => by cases h
    by_cases hk : r.2 < 0
    · rw [if_pos hk]
      refine ⟨fixedNumeral sign ['0'] _, fixed_wf sign (by decide) ?_ (by decide), rfl, fixed_text sign _ _, hexp _ _, ?_⟩
      · intro c hc
        rcases List.mem_append.mp hc with hc | hc
        · rw [List.eq_of_mem_replicate hc]; decide
        · exact hd c hc
      · rw [fixed_magnitude, pointValue_eq, digitsValue_append, digitsValue_append, digitsValue_zeros, digitsValue_toDigits,
          show Numeral.digitsValue ['0'] = 0 from rfl, List.length_append, List.length_replicate, hlen]
        have e : (((0 * 10 ^ ((-r.2 - 1).toNat + P) + (0 * 10 ^ P + r.1) : ℕ) : ℚ)) / 10 ^ ((-r.2 - 1).toNat + P) =
            (r.1 : ℚ) * (10 : ℚ) ^ (r.2 - (P - 1)) := by
          rw [Nat.zero_mul, Nat.zero_mul, Nat.zero_add, Nat.zero_add, div_eq_mul_inv, ← zpow_natCast, ← zpow_neg]
          congr 2
          push_cast
          omega
        first
          | (rw [e]; exact h3)
          | (simp only [Nat.zero_mul, Nat.zero_add] at e ⊢; rw [e]; exact h3)
    · rw [if_neg hk]
      refine ⟨fixedNumeral sign _ _, fixed_wf sign (hdt _) (hdd _) (htake _ (by omega)), rfl, fixed_text sign _ _, hexp _ _, ?_⟩
      rw [fixed_magnitude, hval _ (by omega)]
      have e : (((r.2 + 1).toNat : ℤ)) - P = r.2 - (P - 1) := by omega
      rw [e]; exact h3

end Verif.DebugString
