import Verif.Lemmas.FlagText
import Verif.Lemmas.Rounded
import Verif.Model.SimpleAtod
import Verif.Spec.SimpleAtod
import Mathlib.Data.List.TakeWhile

/-!
# Lemmas about the texts of numbers (C108)
-/

namespace Verif.CommandLine
open Verif.Convert Verif.Spec

theorem digit?_eq (c : Char) : digit? c = if c.isDigit = true then some (digitVal c) else none := by
  revert c
  refine char_ascii _ (by decide +kernel) (fun c hc => ?_)
  rw [isDigit_large c hc, if_neg Bool.false_ne_true]
  unfold digit?
  rw [if_neg]
  rintro ⟨-, h⟩
  have := (char_le c '9').mp h
  have e : '9'.toNat = 57 := rfl
  omega

theorem hexDigit?_eq (c : Char) : hexDigit? c = if HexDigit c then some (digitVal c) else none := by
  revert c
  refine char_ascii _ (by decide +kernel) (fun c hc => ?_)
  rw [if_neg (hex_large c hc)]
  unfold hexDigit?
  rw [digit?_eq, isDigit_large c hc, if_neg Bool.false_ne_true]
  simp only
  have hb : ∀ a b : Char, b.toNat < 128 → ¬ (a ≤ c ∧ c ≤ b) := fun a b hb h => by
    have := (char_le c b).mp h.2; omega
  rw [if_neg (hb 'a' 'f' (by decide)), if_neg (hb 'A' 'F' (by decide))]

theorem toLower_large (c : Char) (hc : 128 ≤ c.toNat) : c.toLower = c := by
  unfold Char.toLower
  split
  · rename_i h
    exfalso
    have : c.toNat ≤ 90 := by
      have := h.2
      rw [UInt32.le_iff_toNat_le] at this
      exact this
    omega
  · rfl

theorem lower_iff (l C : Char) (hC : C.toNat < 128)
    (h : ∀ n < 128, (Char.ofNat n).toLower = l ↔ Char.ofNat n = l ∨ Char.ofNat n = C) (c : Char) :
    c.toLower = l ↔ c = l ∨ c = C := by
  rcases Nat.lt_or_ge c.toNat 128 with hc | hc
  · have := h _ hc
    rwa [Char.ofNat_toNat] at this
  · rw [toLower_large c hc]
    constructor
    · exact .inl
    · rintro (h | rfl)
      · exact h
      · omega

/-- Reading digits to the first character that is none. -/
theorem digitRun_eq (digit : Char → Option ℕ) (base : ℕ) (P : Char → Prop) [DecidablePred P]
    (h : ∀ c, digit c = if P c then some (digitVal c) else none) (s : Text) : ∀ v n,
    digitRun digit base v n s = ((s.takeWhile (fun c => decide (P c))).foldl (fun n c => base * n + digitVal c) v,
      n + (s.takeWhile (fun c => decide (P c))).length, s.dropWhile (fun c => decide (P c))) := by
  induction s with
  | nil => intro v n; rfl
  | cons c cs ih =>
    intro v n
    unfold digitRun
    rw [h]
    by_cases hc : P c
    · simp only [hc, if_true, decide_true, List.takeWhile_cons_of_pos, List.dropWhile_cons_of_pos, List.foldl_cons,
        List.length_cons]
      rw [ih]
      simp only [Prod.mk.injEq, true_and, and_true]
      omega
    · simp [hc]

theorem digitsLoop_eq (s : Text) : ∀ v,
    digitsLoop v s = ((s.takeWhile Char.isDigit).foldl (fun n c => 10 * n + digitVal c) v, s.dropWhile Char.isDigit) := by
  induction s with
  | nil => intro v; rfl
  | cons c cs ih =>
    intro v
    unfold digitsLoop
    rw [digit?_eq]
    by_cases hc : c.isDigit = true
    · simp only [hc, if_true, List.takeWhile_cons_of_pos, List.dropWhile_cons_of_pos, List.foldl_cons]
      rw [ih]
    · simp [hc]

theorem natural_all (s : Text) (n : ℕ) :
    natural s = some (n, []) ↔ s ≠ [] ∧ (∀ c ∈ s, c.isDigit = true) ∧ n = numeral 10 s := by
  cases s with
  | nil => simp [natural]
  | cons c cs =>
    unfold natural
    dsimp only
    rw [digit?_eq]
    by_cases hc : c.isDigit = true
    · simp only [hc, if_true, Option.some.injEq]
      rw [digitsLoop_eq]
      simp only [Prod.mk.injEq]
      constructor
      · rintro ⟨h1, h2⟩
        have hall : ∀ x ∈ cs, x.isDigit = true := by simpa [List.dropWhile_eq_nil_iff] using h2
        rw [List.takeWhile_eq_self_iff.mpr hall] at h1
        refine ⟨List.cons_ne_nil _ _, fun x hx => ?_, ?_⟩
        · rcases List.mem_cons.mp hx with rfl | hx
          · exact hc
          · exact hall x hx
        · rw [← h1]; unfold numeral; simp only [List.foldl_cons, Nat.mul_zero, Nat.zero_add]; rfl
      · rintro ⟨-, hall, rfl⟩
        have hall' : ∀ x ∈ cs, x.isDigit = true := fun x hx => hall x (List.mem_cons_of_mem _ hx)
        rw [List.takeWhile_eq_self_iff.mpr hall']
        refine ⟨?_, by simpa [List.dropWhile_eq_nil_iff] using hall'⟩
        unfold numeral; simp only [List.foldl_cons, Nat.mul_zero, Nat.zero_add]; rfl
    · simp [hc]

theorem exponentPart_iff {letter capital : Char} (hlow : ∀ c, c.toLower = letter ↔ c = letter ∨ c = capital) (s : Text) (k : ℤ) :
    exponentPart letter s = (k, []) ↔ ExponentText letter capital s k := by
  cases s with
  | nil =>
    constructor
    · intro h
      exact .inl ⟨rfl, (congrArg Prod.fst h).symm⟩
    · rintro (⟨-, rfl⟩ | ⟨mark, sign, ds, -, -, -, h, -⟩)
      · rfl
      · cases h
  | cons c rest =>
    constructor
    · intro h
      unfold exponentPart at h
      dsimp only at h
      split at h
      · rename_i hc
        rw [hlow] at hc
        split at h
        · rename_i more
          split at h
          · rename_i n r hn
            obtain ⟨rfl, rfl⟩ := Prod.mk.inj h
            obtain ⟨h1, h2, h3⟩ := (natural_all _ _).mp hn
            exact .inr ⟨c, some true, more, hc, h1, h2, rfl, by rw [if_pos rfl, h3]⟩
          · cases (Prod.mk.inj h).2
        · rename_i more
          split at h
          · rename_i n r hn
            obtain ⟨rfl, rfl⟩ := Prod.mk.inj h
            obtain ⟨h1, h2, h3⟩ := (natural_all _ _).mp hn
            exact .inr ⟨c, some false, more, hc, h1, h2, rfl, by rw [if_neg (by decide), h3]⟩
          · cases (Prod.mk.inj h).2
        · split at h
          · rename_i n r hn
            obtain ⟨rfl, rfl⟩ := Prod.mk.inj h
            obtain ⟨h1, h2, h3⟩ := (natural_all _ _).mp hn
            exact .inr ⟨c, none, rest, hc, h1, h2, rfl, by rw [if_neg (by decide), h3]⟩
          · cases (Prod.mk.inj h).2
      · cases (Prod.mk.inj h).2
    · rintro (⟨h, -⟩ | ⟨mark, sign, ds, hm, hne, hd, h, rfl⟩)
      · cases h
      · have hn : natural ds = some (numeral 10 ds, []) := (natural_all _ _).mpr ⟨hne, hd, rfl⟩
        obtain ⟨rfl, rfl⟩ := List.cons.inj h
        rw [← hlow] at hm
        unfold exponentPart
        dsimp only
        rw [if_pos hm]
        cases sign with
        | none =>
          change (match ds with
            | '-' :: more => _
            | '+' :: more => _
            | more => _) = _
          split
          · exact absurd (hd '-' (by simp)) (by decide)
          · exact absurd (hd '+' (by simp)) (by decide)
          · rw [hn]; rfl
        | some b =>
          cases b
          · change (match natural ds with
              | some (n, r) => ((n : ℤ), r)
              | none => _) = _
            rw [hn]; rfl
          · change (match natural ds with
              | some (n, r) => (-(n : ℤ), r)
              | none => _) = _
            rw [hn]; rfl

theorem numeral_append (base : ℕ) (a b : Text) :
    b.foldl (fun n c => base * n + digitVal c) (a.foldl (fun n c => base * n + digitVal c) 0) = numeral base (a ++ b) := by
  unfold numeral
  rw [List.foldl_append]
  rfl

theorem ExponentText.head {letter capital : Char} {e : Text} {k : ℤ} (h : ExponentText letter capital e k) :
    ∀ c, e.head? = some c → c = letter ∨ c = capital := by
  rcases h with ⟨rfl, -⟩ | ⟨mark, sign, ds, hm, -, -, rfl, -⟩
  · intro c hc; cases hc
  · intro c hc; cases hc; exact hm

theorem takeWhile_run (P : Char → Prop) [DecidablePred P] (a r : Text) (ha : ∀ c ∈ a, P c)
    (hr : ∀ c, r.head? = some c → ¬ P c) :
    (a ++ r).takeWhile (fun c => decide (P c)) = a ∧ (a ++ r).dropWhile (fun c => decide (P c)) = r := by
  have h1 : ∀ x ∈ a, (fun c => decide (P c)) x = true := fun x hx => decide_eq_true (ha x hx)
  rw [List.takeWhile_append_of_pos h1, List.dropWhile_append_of_pos h1]
  cases r with
  | nil => simp
  | cons c cs => simp [hr c rfl]

/-- The part behind the point. -/
def fracPart (digit : Char → Option ℕ) (base v : ℕ) (s : Text) : ℕ × ℕ × Text :=
  match s with
  | '.' :: rest => digitRun digit base v 0 rest
  | rest => (v, 0, rest)

theorem fracPart_none (digit : Char → Option ℕ) (base v : ℕ) (s : Text) (h : s.head? ≠ some '.') :
    fracPart digit base v s = (v, 0, s) := by
  unfold fracPart
  split
  · exact absurd rfl h
  · rfl

theorem magnitude_frac (digit : Char → Option ℕ) (base radix : ℕ) (mark : Char) (s : Text) :
    magnitude digit base radix mark s =
      if (digitRun digit base 0 0 s).2.1 + (fracPart digit base (digitRun digit base 0 0 s).1 (digitRun digit base 0 0 s).2.2).2.1 = 0
      then none
      else
        let fr := fracPart digit base (digitRun digit base 0 0 s).1 (digitRun digit base 0 0 s).2.2
        some ((fr.1 : ℚ) / (base : ℚ) ^ fr.2.1 * (radix : ℚ) ^ (exponentPart mark fr.2.2).1, (exponentPart mark fr.2.2).2) := rfl

/-- Reading a number up to the end. -/
theorem magnitude_iff (digit : Char → Option ℕ) (base radix : ℕ) (P : Char → Prop) [DecidablePred P]
    (h : ∀ c, digit c = if P c then some (digitVal c) else none) {letter capital : Char}
    (hlow : ∀ c, c.toLower = letter ↔ c = letter ∨ c = capital) (hdot : ¬ P '.')
    (hl : ¬ P letter ∧ letter ≠ '.') (hC : ¬ P capital ∧ capital ≠ '.') (s : Text) (v : ℚ) :
    magnitude digit base radix letter s = some (v, []) ↔
      ∃ p e w k, s = p ++ e ∧ PointText P base p w ∧ ExponentText letter capital e k ∧ v = w * (radix : ℚ) ^ k := by
  constructor
  · intro hm
    rw [magnitude_frac, digitRun_eq digit base P h] at hm
    dsimp only at hm
    have hs := List.takeWhile_append_dropWhile (p := fun c => decide (P c)) (l := s)
    have hall : ∀ l : Text, ∀ c ∈ l.takeWhile (fun c => decide (P c)), P c := fun l c hc =>
      of_decide_eq_true ((List.all_eq_true.mp (List.all_takeWhile (l := l) (p := fun c => decide (P c)))) c hc)
    generalize hwh : s.takeWhile (fun c => decide (P c)) = whole at hm hs
    have hw : ∀ c ∈ whole, P c := by rw [← hwh]; exact hall s
    generalize s.dropWhile (fun c => decide (P c)) = rest at hm hs
    by_cases hdt : rest.head? = some '.'
    · obtain ⟨cs, rfl⟩ : ∃ cs, rest = '.' :: cs := by
        cases rest with
        | nil => cases hdt
        | cons c cs => cases hdt; exact ⟨cs, rfl⟩
      have hfp : ∀ v, fracPart digit base v ('.' :: cs) = digitRun digit base v 0 cs := fun _ => rfl
      rw [hfp, digitRun_eq digit base P h] at hm
      dsimp only at hm
      have hs' := List.takeWhile_append_dropWhile (p := fun c => decide (P c)) (l := cs)
      generalize hfr : cs.takeWhile (fun c => decide (P c)) = frac at hm hs'
      have hf : ∀ c ∈ frac, P c := by rw [← hfr]; exact hall cs
      generalize cs.dropWhile (fun c => decide (P c)) = rest at hm hs'
      simp only [Nat.zero_add] at hm
      split at hm
      · cases hm
      · rename_i hlen
        obtain ⟨h1, h2⟩ := Prod.mk.inj (Option.some.inj hm)
        have he := (exponentPart_iff hlow rest (exponentPart letter rest).1).mp (by rw [← h2])
        refine ⟨whole ++ '.' :: frac, rest, _, _, ?_, ⟨whole, frac, ?_, ?_, .inl rfl, rfl⟩, he, ?_⟩
        · rw [← hs, ← hs', List.append_assoc]; rfl
        · intro c hc
          rcases List.mem_append.mp hc with hc | hc
          · exact hw c hc
          · exact hf c hc
        · intro hnil
          obtain ⟨rfl, rfl⟩ := List.append_eq_nil_iff.mp hnil
          exact hlen rfl
        · rw [← h1, ← numeral_append]
    · rw [fracPart_none digit base _ _ hdt] at hm
      simp only [Nat.zero_add, Nat.add_zero] at hm
      split at hm
      · cases hm
      · rename_i hlen
        obtain ⟨h1, h2⟩ := Prod.mk.inj (Option.some.inj hm)
        have he := (exponentPart_iff hlow rest (exponentPart letter rest).1).mp (by rw [← h2])
        refine ⟨whole, rest, _, _, hs.symm, ⟨whole, [], by simpa using hw, ?_, .inr ⟨rfl, rfl⟩, rfl⟩, he, ?_⟩
        · rw [List.append_nil]; rintro rfl; exact hlen rfl
        · rw [← h1, ← numeral_append]; rfl
  · rintro ⟨p, e, w, k, rfl, ⟨whole, frac, hd, hne, hp, rfl⟩, he, rfl⟩
    have hhead := ExponentText.head he
    have hexp := (exponentPart_iff hlow e k).mpr he
    have hne' : ∀ c, e.head? = some c → ¬ P c := fun c hc => by
      rcases hhead c hc with rfl | rfl
      · exact hl.1
      · exact hC.1
    have hned : e.head? ≠ some '.' := fun hc => by
      rcases hhead _ hc with h | h
      · exact hl.2 h.symm
      · exact hC.2 h.symm
    have hw : ∀ c ∈ whole, P c := fun c hc => hd c (List.mem_append_left _ hc)
    have hf : ∀ c ∈ frac, P c := fun c hc => hd c (List.mem_append_right _ hc)
    rw [magnitude_frac, digitRun_eq digit base P h]
    dsimp only
    rcases hp with rfl | ⟨rfl, rfl⟩
    · have hrun := takeWhile_run P whole ('.' :: frac ++ e) hw (fun c hc => by cases hc; exact hdot)
      have hrun' := takeWhile_run P frac e hf hne'
      have hfp : ∀ v, fracPart digit base v ('.' :: frac ++ e) = digitRun digit base v 0 (frac ++ e) := fun _ => rfl
      rw [List.append_assoc, hrun.1, hrun.2, hfp, digitRun_eq digit base P h, hrun'.1, hrun'.2]
      simp only [Nat.zero_add]
      rw [if_neg, hexp, numeral_append]
      intro hlen
      apply hne
      rw [List.append_eq_nil_iff]
      exact ⟨List.length_eq_zero_iff.mp (by omega), List.length_eq_zero_iff.mp (by omega)⟩
    · have hrun := takeWhile_run P p e hw hne'
      rw [hrun.1, hrun.2, fracPart_none digit base _ _ hned]
      have hlen : ¬ p.length = 0 := by
        intro h0; apply hne; rw [List.append_nil]; exact List.length_eq_zero_iff.mp h0
      have hval : p.foldl (fun n c => base * n + digitVal c) 0 = numeral base (p ++ []) := by
        rw [← numeral_append]; rfl
      simp only [Nat.zero_add, Nat.add_zero]
      rw [if_neg hlen, hexp, hval]; rfl

end Verif.CommandLine
