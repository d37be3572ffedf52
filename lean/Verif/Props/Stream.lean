import Verif.Spec.Stream
import Verif.Props.Proto
import Verif.Props.WireFormat

/-!
# C64: exactly which files are read, and what they contain
-/

namespace Verif.Props
open Verif Verif.Spec Verif.Proto

variable {M : Type}

/-- The parser finds a message exactly if a frame is at the beginning. -/
private theorem parse_iff_frame (codec : Codec M) (bytes rest : List UInt8) (m : M) :
    parseDelimited codec bytes = .message m rest ↔ ∃ first, bytes = first ++ rest ∧ IsFrame codec m first := by
  unfold parseDelimited readVarint IsFrame
  constructor
  · intro h
    cases hr : readVarintLoop 10 0 0 bytes with
    | none =>
      rw [hr] at h
      simp only [Option.map_none] at h
      split at h <;> cases h
    | some r =>
      obtain ⟨n, r⟩ := r
      rw [hr] at h
      simp only [Option.map_some] at h
      obtain ⟨v, rfl, hv, rfl⟩ := (readVarint_iff0 _ _ _ _).mp hr
      split at h
      · cases h
      · rename_i hs
        push Not at hs
        cases hd : codec.decode (r.take (varintValue v % 2 ^ 32)) with
        | none => rw [hd] at h; cases h
        | some m' =>
          rw [hd] at h
          simp only [Parsed.message.injEq] at h
          obtain ⟨rfl, rfl⟩ := h
          have hl : (r.take (varintValue v % 2 ^ 32)).length = varintValue v % 2 ^ 32 := by
            rw [List.length_take]; omega
          refine ⟨v ++ r.take (varintValue v % 2 ^ 32), ?_, v, _, rfl, hv, hl.symm, ?_, hd⟩
          · rw [List.append_assoc, List.take_append_drop]
          · rw [hl]; exact hs.1
  · rintro ⟨first, rfl, v, payload, rfl, hv, hn, hl, hd⟩
    rw [List.append_assoc, (readVarint_iff0 10 _ (payload ++ rest) (varintValue v)).mpr ⟨v, rfl, hv, rfl⟩]
    simp only [Option.map_some]
    rw [hn, if_neg (by rw [List.length_append]; omega), List.take_left, hd, List.drop_left]

private theorem parse_eof (codec : Codec M) (bytes : List UInt8) :
    parseDelimited codec bytes = .cleanEof ↔ bytes = [] := by
  unfold parseDelimited
  constructor
  · intro h
    cases hr : readVarint bytes with
    | none =>
      rw [hr] at h
      simp only at h
      by_cases he : bytes.isEmpty = true
      · exact List.isEmpty_iff.mp he
      · rw [if_neg he] at h; cases h
    | some r =>
      rw [hr] at h
      simp only at h
      split at h
      · cases h
      · split at h <;> cases h
  · rintro rfl; rfl

/-- **C64** (which files are read). Reading succeeds with the messages `ms` if and only if the file consists of frames of
exactly these messages. -/
theorem C64_stream (codec : Codec M) (bytes : List UInt8) (ms : List M) :
    readVector codec [] bytes = (ms, .ok) ↔ IsStream codec ms bytes := by
  induction hn : bytes.length using Nat.strong_induction_on generalizing bytes ms with
  | _ n ih =>
    rw [readVector_eq]
    cases hp : parseDelimited codec bytes with
    | cleanEof =>
      have he := (parse_eof _ _).mp hp
      subst he
      simp only [Prod.mk.injEq, and_true]
      constructor
      · rintro rfl; exact .nil
      · intro h
        generalize hb : ([] : List UInt8) = b at h
        cases h with
        | nil => rfl
        | cons hf _ =>
          obtain ⟨v, p, rfl, hv, -⟩ := hf
          have := isVarint_pos hv
          have := congrArg List.length hb
          simp at this; omega
    | bad =>
      simp only [Prod.mk.injEq, reduceCtorEq, and_false, false_iff]
      intro h
      cases h with
      | nil => rw [(parse_eof codec []).mpr rfl] at hp; cases hp
      | cons hf _ => rw [(parse_iff_frame _ _ _ _).mpr ⟨_, rfl, hf⟩] at hp; cases hp
    | message m rest =>
      dsimp only
      rw [C64_appends]
      have hlt := parse_consumes hp
      obtain ⟨first, rfl, hf⟩ := (parse_iff_frame _ _ _ _).mp hp
      constructor
      · intro h
        obtain ⟨h1, h2⟩ := Prod.mk.inj h
        rw [← h1]
        exact .cons hf ((ih rest.length (by rw [← hn]; exact hlt) rest _ rfl).mp (Prod.ext rfl h2))
      · intro h
        generalize hb : first ++ rest = b at h hp
        cases h with
        | nil =>
          rw [(parse_eof codec []).mpr rfl] at hp; cases hp
        | cons hf' hs =>
          rename_i m' ms' first' rest'
          rw [(parse_iff_frame _ _ _ _).mpr ⟨_, rfl, hf'⟩] at hp
          simp only [Parsed.message.injEq] at hp
          obtain ⟨rfl, rfl⟩ := hp
          have := (ih _ (by rw [← hn]; exact hlt) _ _ rfl).mpr hs
          rw [this]; rfl

/-- **C64** (which files are refused). Reading fails after delivering `ms` if and only if the file starts with frames of
exactly these messages, something follows, and no message starts there. -/
theorem C64_refused (codec : Codec M) (bytes : List UInt8) (ms : List M) :
    readVector codec [] bytes = (ms, .invalidArgument) ↔
      ∃ good bad, bytes = good ++ bad ∧ IsStream codec ms good ∧ bad ≠ [] ∧
        ∀ first rest m, bad = first ++ rest → ¬ IsFrame codec m first := by
  induction hn : bytes.length using Nat.strong_induction_on generalizing bytes ms with
  | _ n ih =>
    rw [readVector_eq]
    cases hp : parseDelimited codec bytes with
    | cleanEof =>
      have he := (parse_eof _ _).mp hp
      subst he
      simp only [Prod.mk.injEq, reduceCtorEq, and_false, false_iff]
      rintro ⟨good, bad, he, -, hne, -⟩
      have := he.symm
      rw [List.append_eq_nil_iff] at this
      exact hne this.2
    | bad =>
      simp only [Prod.mk.injEq, and_true]
      constructor
      · rintro rfl
        refine ⟨[], bytes, rfl, .nil, ?_, ?_⟩
        · rintro rfl; rw [(parse_eof codec []).mpr rfl] at hp; cases hp
        · intro first rest m he hf
          rw [(parse_iff_frame _ _ _ _).mpr ⟨_, he, hf⟩] at hp; cases hp
      · rintro ⟨good, bad, he, hs, -, -⟩
        cases hs with
        | nil => rfl
        | cons hf _ =>
          rw [(parse_iff_frame _ _ _ _).mpr ⟨_, by rw [he, List.append_assoc], hf⟩] at hp; cases hp
    | message m rest =>
      dsimp only
      rw [C64_appends]
      have hlt := parse_consumes hp
      obtain ⟨first, rfl, hf⟩ := (parse_iff_frame _ _ _ _).mp hp
      constructor
      · intro h
        obtain ⟨h1, h2⟩ := Prod.mk.inj h
        obtain ⟨good, bad, he, hs, h3, h4⟩ :=
          (ih rest.length (by rw [← hn]; exact hlt) rest _ rfl).mp (Prod.ext rfl h2)
        rw [← h1]
        exact ⟨first ++ good, bad, by rw [he, List.append_assoc], .cons hf hs, h3, h4⟩
      · rintro ⟨good, bad, he, hs, h3, h4⟩
        cases hs with
        | nil => exact absurd hf (h4 first rest m he.symm)
        | cons hf' hs =>
          rw [List.append_assoc] at he
          rw [(parse_iff_frame _ _ _ _).mpr ⟨_, he, hf'⟩] at hp
          simp only [Parsed.message.injEq] at hp
          obtain ⟨rfl, hr⟩ := hp
          have := (ih _ (by rw [← hn]; exact hlt) rest _ rfl).mpr ⟨_, _, hr.symm, hs, h3, h4⟩
          rw [this]; rfl

/-! ### What is written -/

private theorem varintLoop_spec (fuel : ℕ) : ∀ n, n < 128 ^ (fuel + 1) →
    ∃ front last, varintLoop fuel n = front ++ [last] ∧ (∀ b ∈ front, 128 ≤ b.toNat) ∧ last.toNat < 128 ∧
      varintValue (varintLoop fuel n) = n ∧ (varintLoop fuel n).length ≤ fuel + 1 ∧ (0 < n → last ≠ 0) ∧
      (n < 128 ^ fuel → (varintLoop fuel n).length ≤ max 1 fuel) := by
  induction fuel with
  | zero =>
    intro n hn
    have hn : n < 128 := by simpa using hn
    have e : (UInt8.ofNat n).toNat = n := by rw [UInt8.toNat_ofNat']; omega
    refine ⟨[], UInt8.ofNat n, rfl, by simp, by omega, ?_, by simp [varintLoop], ?_, by simp [varintLoop]⟩
    · simp only [varintLoop, varintValue, e]; omega
    · intro h0 h; rw [h] at e; simp at e; omega
  | succ fuel ih =>
    intro n hn
    unfold varintLoop
    by_cases h : n < 128
    · have e : (UInt8.ofNat n).toNat = n := by rw [UInt8.toNat_ofNat']; omega
      rw [if_pos h]
      refine ⟨[], UInt8.ofNat n, rfl, by simp, by omega, ?_, by simp, ?_, by simp⟩
      · simp only [varintValue, e]; omega
      · intro h0 h; rw [h] at e; simp at e; omega
    · have e : (UInt8.ofNat (n % 128 + 128)).toNat = n % 128 + 128 := by rw [UInt8.toNat_ofNat']; omega
      rw [if_neg h]
      obtain ⟨front, last, h1, h2, h3, h4, h5, h6, h7⟩ := ih (n / 128) (by
        rw [pow_succ] at hn
        omega)
      refine ⟨UInt8.ofNat (n % 128 + 128) :: front, last, by rw [h1]; rfl, ?_, h3, ?_, ?_, ?_, ?_⟩
      · intro b hb
        rcases List.mem_cons.mp hb with rfl | hb
        · omega
        · exact h2 b hb
      · rw [varintValue, h4, e]; omega
      · simp only [List.length_cons]; omega
      · intro _; exact h6 (by omega)
      · intro hlt
        have : (varintLoop fuel (n / 128)).length ≤ max 1 fuel := h7 (by
          rw [pow_succ] at hlt; omega)
        cases fuel with
        | zero => simp at hlt; omega
        | succ f => simp only [List.length_cons]; omega

/-- **C62** (what is written). The file holds, for every message in order, its size as the shortest varint (at most five
bytes), followed by its bytes; nothing else. -/
theorem C62_file (codec : Codec M) (ms : List M) (h : ∀ m ∈ ms, Writable codec m) :
    ∃ frames : List (List UInt8), writeMessages codec ms [] = (frames.flatten, .ok) ∧
      List.Forall₂ (fun m bytes => ∃ size, bytes = size ++ codec.encode m ∧ IsVarint 5 size ∧
        varintValue size = (codec.encode m).length ∧ (1 < size.length → size.getLast? ≠ some 0)) ms frames := by
  refine ⟨ms.map (fun m => writeVarint (codec.encode m).length ++ codec.encode m), ?_, ?_⟩
  · rw [(C62_write codec ms []).1 h, List.nil_append]
    congr 1
    induction ms with
    | nil => rfl
    | cons m ms ih =>
      rw [fileOf_cons (h m (List.mem_cons_self ..)), ih (fun x hx => h x (List.mem_cons_of_mem _ hx))]
      rfl
  · rw [List.forall₂_map_right_iff, List.forall₂_same]
    intro m hm
    have hw := h m hm
    unfold Writable at hw
    have hlt : (codec.encode m).length < 128 ^ 5 := by norm_num at *; omega
    obtain ⟨front, last, h1, h2, h3, h4, h5, h6, h7⟩ := varintLoop_spec 5 (codec.encode m).length (by norm_num at *; omega)
    refine ⟨writeVarint (codec.encode m).length, rfl, ⟨h7 hlt, front, last, h1, h2, h3⟩, h4, ?_⟩
    intro hlen
    have hpos : 0 < (codec.encode m).length := by
      by_contra h0
      have h0 : (codec.encode m).length = 0 := by omega
      rw [h0] at hlen
      exact absurd hlen (by decide)
    unfold writeVarint
    rw [h1, List.getLast?_concat]
    exact fun e => h6 hpos (Option.some.inj e)

/-! ### Non-vacuity: a size with leading zeros, a size that is too large -/

example : IsStream rawCodec [[7, 8], []] [130, 128, 0, 7, 8, 0] :=
  .cons (first := [130, 128, 0, 7, 8]) (rest := [0])
    ⟨[130, 128, 0], [7, 8], rfl, ⟨by decide, [130, 128], 0, rfl, by decide, by decide⟩, rfl, by decide, rfl⟩
    (.cons (first := [0]) (rest := []) ⟨[0], [], rfl, ⟨by decide, [], 0, rfl, by decide, by decide⟩, rfl, by decide, rfl⟩
      .nil)

example : readVector rawCodec [] [130, 128, 0, 7, 8, 0] = ([[7, 8], []], .ok) := by decide +kernel
example : readVector rawCodec [] [1, 9, 128, 128, 128, 128, 8, 7] = ([[9]], .invalidArgument) := by decide +kernel

example : writeMessages rawCodec [[7, 8], [], List.replicate 200 1] [] =
    ([[2, 7, 8], [0], [200, 1] ++ List.replicate 200 1].flatten, .ok) := by decide +kernel

end Verif.Props
