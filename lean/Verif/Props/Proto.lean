import Verif.Spec.Proto
import Mathlib.Tactic.Ring
import Mathlib.Tactic.NormNum

/-!
# C62-C64: files of delimited messages
-/

namespace Verif.Props
open Verif Verif.Spec Verif.Proto

variable {M S : Type}

/-! ### The varint -/

theorem varint_read (fuel : ℕ) : ∀ (n count acc fuel' : ℕ) (rest : List UInt8), n < 128 ^ (fuel + 1) → fuel < fuel' →
    readVarintLoop fuel' count acc (varintLoop fuel n ++ rest) = some (acc + n * 2 ^ (7 * count), rest) := by
  induction fuel with
  | zero =>
    intro n count acc fuel' rest hn hf
    obtain ⟨f, rfl⟩ : ∃ f, fuel' = f + 1 := ⟨fuel' - 1, by omega⟩
    have hn : n < 128 := by simpa using hn
    have e : (UInt8.ofNat n).toNat = n := by rw [UInt8.toNat_ofNat']; omega
    simp only [varintLoop, List.cons_append, List.nil_append, readVarintLoop, e]
    rw [if_pos hn, Nat.mod_eq_of_lt hn]
  | succ fuel ih =>
    intro n count acc fuel' rest hn hf
    obtain ⟨f, rfl⟩ : ∃ f, fuel' = f + 1 := ⟨fuel' - 1, by omega⟩
    unfold varintLoop
    by_cases h : n < 128
    · have e : (UInt8.ofNat n).toNat = n := by rw [UInt8.toNat_ofNat']; omega
      rw [if_pos h]
      simp only [List.cons_append, List.nil_append, readVarintLoop, e]
      rw [if_pos h, Nat.mod_eq_of_lt h]
    · have e : (UInt8.ofNat (n % 128 + 128)).toNat = n % 128 + 128 := by rw [UInt8.toNat_ofNat']; omega
      rw [if_neg h]
      simp only [List.cons_append, readVarintLoop, e]
      rw [if_neg (by omega), ih _ _ _ _ _ (by
        rw [pow_succ] at hn
        omega) (by omega)]
      congr 2
      have : (n % 128 + 128) % 128 = n % 128 := by omega
      rw [this, show 7 * (count + 1) = 7 * count + 7 by ring, pow_add]
      have hd := Nat.div_add_mod n 128
      calc acc + n % 128 * 2 ^ (7 * count) + n / 128 * (2 ^ (7 * count) * 2 ^ 7)
          = acc + (128 * (n / 128) + n % 128) * 2 ^ (7 * count) := by ring
        _ = acc + n * 2 ^ (7 * count) := by rw [hd]

theorem readVarint_write {n : ℕ} (hn : n ≤ 2 ^ 31 - 1) (rest : List UInt8) :
    readVarint (writeVarint n ++ rest) = some (n, rest) := by
  unfold readVarint writeVarint
  rw [varint_read 5 n 0 0 10 rest (by norm_num at *; omega) (by norm_num)]
  simp only [Option.map_some, Nat.mul_zero, pow_zero, Nat.mul_one, Nat.zero_add]
  rw [Nat.mod_eq_of_lt (by norm_num at *; omega)]

theorem readVarint_consumes {bytes rest : List UInt8} {n : ℕ} (h : readVarint bytes = some (n, rest)) :
    rest.length < bytes.length := by
  have key : ∀ fuel count acc bytes x rest, readVarintLoop fuel count acc bytes = some (x, rest) →
      rest.length < bytes.length := by
    intro fuel
    induction fuel with
    | zero => intro count acc bytes x rest h; simp [readVarintLoop] at h
    | succ fuel ih =>
      intro count acc bytes x rest h
      cases bytes with
      | nil => simp [readVarintLoop] at h
      | cons b bytes =>
        simp only [readVarintLoop] at h
        split at h
        · simp only [Option.some.injEq, Prod.mk.injEq] at h
          rw [← h.2]; simp
        · have := ih _ _ _ _ _ h
          simp only [List.length_cons]; omega
  unfold readVarint at h
  simp only [Option.map_eq_some_iff, Prod.mk.injEq] at h
  obtain ⟨⟨x, r⟩, h, -, rfl⟩ := h
  exact key _ _ _ _ _ _ h

/-- A proper prefix of a varint cannot be read. -/
theorem readVarint_prefix {n : ℕ} (hn : n ≤ 2 ^ 31 - 1) (k : ℕ) (hk : k < (writeVarint n).length) :
    readVarint ((writeVarint n).take k) = none := by
  have key : ∀ fuel n count acc fuel' k, k < (varintLoop fuel n).length → n < 128 ^ (fuel + 1) →
      readVarintLoop fuel' count acc ((varintLoop fuel n).take k) = none := by
    intro fuel
    induction fuel with
    | zero =>
      intro n count acc fuel' k hk _
      simp only [varintLoop, List.length_singleton] at hk
      have : k = 0 := by omega
      subst this
      cases fuel' <;> simp [readVarintLoop]
    | succ fuel ih =>
      intro n count acc fuel' k hk hn
      cases k with
      | zero => cases fuel' <;> simp [readVarintLoop]
      | succ k =>
        unfold varintLoop at hk ⊢
        by_cases h : n < 128
        · rw [if_pos h] at hk; simp at hk
        · rw [if_neg h] at hk ⊢
          rw [List.take_succ_cons]
          cases fuel' with
          | zero => rfl
          | succ f =>
            have e : (UInt8.ofNat (n % 128 + 128)).toNat = n % 128 + 128 := by rw [UInt8.toNat_ofNat']; omega
            simp only [readVarintLoop, e]
            rw [if_neg (by omega)]
            exact ih _ _ _ _ _ (by simpa using hk) (by rw [pow_succ] at hn; omega)
  unfold readVarint writeVarint
  rw [key 5 n 0 0 10 k hk (by norm_num at *; omega)]
  rfl

/-! ### Frames -/

/-- One message with its length prefix. -/
def frame (codec : Codec M) (m : M) : List UInt8 := writeVarint (codec.encode m).length ++ codec.encode m

theorem frame_ne_nil (codec : Codec M) (m : M) : frame codec m ≠ [] := by
  unfold frame writeVarint varintLoop
  split <;> simp

theorem serialize_eq (codec : Codec M) (m : M) :
    (Writable codec m → serializeDelimited codec m = some (frame codec m)) ∧
    (¬ Writable codec m → serializeDelimited codec m = none) := by
  unfold serializeDelimited Writable frame
  constructor
  · intro h; rw [if_neg (by omega)]
  · intro h; rw [if_pos (by omega)]

theorem parse_frame {codec : Codec M} {m : M} (hm : Storable codec m) (rest : List UInt8) :
    parseDelimited codec (frame codec m ++ rest) = .message m rest := by
  unfold parseDelimited frame
  rw [List.append_assoc, readVarint_write hm.writable]
  dsimp only
  rw [if_neg (by have h := hm.writable; rw [List.length_append]; unfold Writable at h; omega), List.take_left, hm.faithful,
    List.drop_left]

/-- The beginning of a frame, cut off at any point, is not taken for a message. -/
theorem parse_cut {codec : Codec M} {m : M} (hm : Writable codec m) (k : ℕ) (hk : k < (frame codec m).length) :
    parseDelimited codec ((frame codec m).take k) = if k = 0 then .cleanEof else .bad := by
  unfold parseDelimited
  by_cases h : k < (writeVarint (codec.encode m).length).length
  · have e : (frame codec m).take k = (writeVarint (codec.encode m).length).take k := by
      unfold frame; rw [List.take_append_of_le_length (by omega)]
    rw [e, readVarint_prefix hm k h]
    dsimp only
    by_cases h0 : k = 0
    · subst h0; simp
    · rw [if_neg h0, if_neg]
      rw [List.isEmpty_iff, List.take_eq_nil_iff]
      push Not
      refine ⟨h0, ?_⟩
      intro hc; rw [hc] at h; simp at h
  · have hpos : 0 < (writeVarint (codec.encode m).length).length := by
      unfold writeVarint varintLoop; split <;> simp
    have e : (frame codec m).take k = writeVarint (codec.encode m).length ++
        (codec.encode m).take (k - (writeVarint (codec.encode m).length).length) := by
      unfold frame; rw [List.take_append, List.take_of_length_le (by omega)]
    have hlen : (frame codec m).length = (writeVarint (codec.encode m).length).length + (codec.encode m).length := by
      unfold frame; rw [List.length_append]
    rw [e, readVarint_write hm]
    dsimp only
    rw [if_pos (by right; rw [List.length_take]; omega), if_neg (by omega)]

theorem parse_consumes {codec : Codec M} {bytes rest : List UInt8} {m : M}
    (h : parseDelimited codec bytes = .message m rest) : rest.length < bytes.length := by
  unfold parseDelimited at h
  split at h
  · split at h <;> cases h
  · rename_i size r hr
    split at h
    · cases h
    · split at h
      · cases h
      · cases h
        have := readVarint_consumes hr
        rw [List.length_drop]; omega

/-! ### Files -/

theorem writeMessages_append (codec : Codec M) (ms : List M) (out : List UInt8) :
    writeMessages codec ms out = (out ++ (writeMessages codec ms []).1, (writeMessages codec ms []).2) := by
  induction ms generalizing out with
  | nil => simp [writeMessages]
  | cons m rest ih =>
    unfold writeMessages
    cases serializeDelimited codec m with
    | none => simp
    | some f =>
      simp only
      rw [ih (out ++ f), ih ([] ++ f)]
      simp

theorem fileOf_cons {codec : Codec M} {m : M} (hm : Writable codec m) (ms : List M) :
    fileOf codec (m :: ms) = frame codec m ++ fileOf codec ms := by
  unfold fileOf
  conv_lhs => unfold writeMessages
  rw [(serialize_eq codec m).1 hm]
  simp only [List.nil_append]
  rw [writeMessages_append]

theorem fileOf_nil (codec : Codec M) : fileOf codec [] = [] := rfl

theorem readLoop_fuel (codec : Codec M) (reader : S → M → S × Option ReaderSignal) (f g : ℕ) (s : S) (bytes : List UInt8)
    (hf : bytes.length < f) (hg : bytes.length < g) : readLoop codec reader f s bytes = readLoop codec reader g s bytes := by
  induction f generalizing g s bytes with
  | zero => omega
  | succ f ih =>
    obtain ⟨g, rfl⟩ : ∃ g', g = g' + 1 := ⟨g - 1, by omega⟩
    unfold readLoop
    cases hp : parseDelimited codec bytes with
    | cleanEof => rfl
    | bad => rfl
    | message m rest =>
      dsimp only
      have := parse_consumes hp
      cases hr : reader s m with
      | mk s' r =>
        cases r with
        | none => rfl
        | some r =>
          cases r with
          | kBreak => rfl
          | kContinue => exact ih g s' rest (by omega) (by omega)

theorem readMessages_eq (codec : Codec M) (reader : S → M → S × Option ReaderSignal) (s : S) (bytes : List UInt8) :
    readMessages codec reader s bytes =
      match parseDelimited codec bytes with
      | .cleanEof => (s, .ok)
      | .bad => (s, .invalidArgument)
      | .message m rest =>
        match reader s m with
        | (s', none) => (s', .aborted)
        | (s', some .kBreak) => (s', .ok)
        | (s', some .kContinue) => readMessages codec reader s' rest := by
  unfold readMessages
  rw [readLoop]
  cases hp : parseDelimited codec bytes with
  | cleanEof => rfl
  | bad => rfl
  | message m rest =>
    dsimp only
    have := parse_consumes hp
    cases hr : reader s m with
    | mk s' r =>
      cases r with
      | none => rfl
      | some r =>
        cases r with
        | kBreak => rfl
        | kContinue => exact readLoop_fuel _ _ _ _ _ _ (by omega) (by omega)

theorem readVector_eq (codec : Codec M) (ms : List M) (bytes : List UInt8) :
    readVector codec ms bytes =
      match parseDelimited codec bytes with
      | .cleanEof => (ms, .ok)
      | .bad => (ms, .invalidArgument)
      | .message m rest => readVector codec (ms ++ [m]) rest := by
  unfold readVector
  rw [readMessages_eq]

/-- **C64**. For every stream there is a list of messages such that reading into a vector appends exactly these, and a
callback is applied to exactly these, in order, until it breaks or fails; if it does neither, the status is the same. -/
theorem C64_callback (codec : Codec M) (bytes : List UInt8) :
    ∃ (ms : List M) (st : Status), st ≠ .aborted ∧
      (∀ start, readVector codec start bytes = (start ++ ms, st)) ∧
      ∀ (S : Type) (reader : S → M → S × Option ReaderSignal) (s : S),
        readMessages codec reader s bytes = applyReader reader st s ms := by
  induction hn : bytes.length using Nat.strong_induction_on generalizing bytes with
  | _ n ih =>
    cases hp : parseDelimited codec bytes with
    | cleanEof =>
      refine ⟨[], .ok, by decide, fun start => ?_, fun S reader s => ?_⟩
      · rw [readVector_eq, hp]; simp
      · rw [readMessages_eq, hp]; rfl
    | bad =>
      refine ⟨[], .invalidArgument, by decide, fun start => ?_, fun S reader s => ?_⟩
      · rw [readVector_eq, hp]; simp
      · rw [readMessages_eq, hp]; rfl
    | message m rest =>
      obtain ⟨ms, st, h0, h1, h2⟩ := ih rest.length (by rw [← hn]; exact parse_consumes hp) rest rfl
      refine ⟨m :: ms, st, h0, fun start => ?_, fun S reader s => ?_⟩
      · rw [readVector_eq, hp]
        dsimp only
        rw [h1]; simp
      · rw [readMessages_eq, hp]
        dsimp only [applyReader]
        cases reader s m with
        | mk s' r =>
          cases r with
          | none => rfl
          | some r =>
            cases r with
            | kBreak => rfl
            | kContinue => exact h2 S reader s'

/-- **C64** (the vector is not shared with anything else). Reading into a vector that already holds messages appends. -/
theorem C64_appends (codec : Codec M) (start : List M) (bytes : List UInt8) :
    readVector codec start bytes = (start ++ (readVector codec [] bytes).1, (readVector codec [] bytes).2) := by
  obtain ⟨ms, st, -, h, -⟩ := C64_callback codec bytes
  rw [h start, h []]; rfl

/-- **C62** (writing). Writing succeeds if and only if every message is at most `INT_MAX` bytes long; if it fails, the
stream holds the messages before the first one that is too long. -/
theorem C62_write (codec : Codec M) (ms : List M) (out : List UInt8) :
    ((∀ m ∈ ms, Writable codec m) → writeMessages codec ms out = (out ++ fileOf codec ms, .ok)) ∧
    (∀ pre m post, ms = pre ++ m :: post → (∀ x ∈ pre, Writable codec x) → ¬ Writable codec m →
      writeMessages codec ms out = (out ++ fileOf codec pre, .invalidArgument)) := by
  constructor
  · intro h
    rw [writeMessages_append]
    have : (writeMessages codec ms []).2 = .ok := by
      induction ms with
      | nil => rfl
      | cons m rest ih =>
        unfold writeMessages
        rw [(serialize_eq codec m).1 (h m (by simp))]
        dsimp only
        rw [writeMessages_append]
        exact ih (fun x hx => h x (by simp [hx]))
    rw [this]; rfl
  · rintro pre m post rfl hpre hm
    induction pre generalizing out with
    | nil =>
      simp only [List.nil_append]
      unfold writeMessages
      rw [(serialize_eq codec m).2 hm]
      simp [fileOf_nil]
    | cons x pre ih =>
      simp only [List.cons_append]
      unfold writeMessages
      rw [(serialize_eq codec x).1 (hpre x (by simp))]
      dsimp only
      rw [ih (out ++ frame codec x) (fun y hy => hpre y (by simp [hy])), fileOf_cons (hpre x (by simp))]
      simp

/-- Reading a file that starts with written messages. -/
theorem read_fileOf {codec : Codec M} (ms : List M) (hm : ∀ m ∈ ms, Storable codec m)
    (start : List M) (rest : List UInt8) :
    readVector codec start (fileOf codec ms ++ rest) = readVector codec (start ++ ms) rest := by
  induction ms generalizing start with
  | nil => simp [fileOf_nil]
  | cons m ms ih =>
    rw [fileOf_cons (hm m (by simp)).writable, List.append_assoc, readVector_eq, parse_frame (hm m (by simp))]
    dsimp only
    rw [ih (fun x hx => hm x (by simp [hx]))]
    simp

/-- **C62** (round trip). Reading what was written gives the messages back, in order, with status OK; also if several
files are concatenated. -/
theorem C62_round_trip {codec : Codec M} (ms : List M) (h : ∀ m ∈ ms, Storable codec m)
    (start : List M) : readVector codec start (writeMessages codec ms []).1 = (start ++ ms, .ok) := by
  have := read_fileOf ms h start []
  rw [List.append_nil] at this
  unfold fileOf at this
  rw [this, readVector_eq]
  rfl

/-- **C62** (append). The concatenation of two files holds the messages of both. -/
theorem C62_concatenation {codec : Codec M} (ms ns : List M) (h : ∀ m ∈ ms, Storable codec m)
    (h' : ∀ m ∈ ns, Storable codec m) :
    readVector codec [] (fileOf codec ms ++ fileOf codec ns) = (ms ++ ns, .ok) := by
  rw [read_fileOf ms h]
  exact C62_round_trip ns h' _

/-- **C62** (callback). A callback that never stops sees every written message, in order. -/
theorem C62_callback {codec : Codec M} (ms : List M) (h : ∀ m ∈ ms, Storable codec m)
    (reader : S → M → S × Option ReaderSignal) (s : S) :
    readMessages codec reader s (fileOf codec ms) = applyReader reader .ok s ms := by
  obtain ⟨ms', st, -, h1, h2⟩ := C64_callback codec (fileOf codec ms)
  have := C62_round_trip ms h []
  change readVector codec [] (fileOf codec ms) = _ at this
  rw [h1 []] at this
  simp only [List.nil_append, Prod.mk.injEq] at this
  rw [h2, this.1, this.2]

/-- **C63**. A file cut off after any number of bytes: the reader delivers exactly the messages that are complete, and
reports an error unless the cut is at the end of a message.  It never delivers a wrong message. -/
theorem C63_truncated {codec : Codec M} (ms : List M) (h : ∀ m ∈ ms, Storable codec m) (k : ℕ) :
    ∃ n ≤ ms.length,
      -- `n` messages are complete, the next one is not
      (fileOf codec (ms.take n)).length ≤ k ∧
      (n < ms.length → k < (fileOf codec (ms.take (n + 1))).length) ∧
      readVector codec [] ((fileOf codec ms).take k) =
        (ms.take n, if k = (fileOf codec (ms.take n)).length ∨ n = ms.length then .ok else .invalidArgument) := by
  induction ms generalizing k with
  | nil => exact ⟨0, le_refl _, Nat.zero_le _, fun h => absurd h (by simp), by simp [fileOf_nil, readVector_eq, parseDelimited, readVarint, readVarintLoop]⟩
  | cons m ms ih =>
    have hm := h m (by simp)
    by_cases hk : k < (frame codec m).length
    · refine ⟨0, Nat.zero_le _, Nat.zero_le _, fun _ => ?_, ?_⟩
      · rw [List.take_succ_cons, fileOf_cons hm.writable]; simpa [fileOf_nil] using hk
      · rw [fileOf_cons hm.writable, List.take_append_of_le_length (by omega), readVector_eq, parse_cut hm.writable k hk]
        by_cases h0 : k = 0
        · simp [h0, fileOf_nil]
        · simp [h0, fileOf_nil]
    · obtain ⟨n, hn, h1, h2, h3⟩ := ih (fun x hx => h x (by simp [hx])) (k - (frame codec m).length)
      refine ⟨n + 1, by simpa using hn, ?_, ?_, ?_⟩
      · rw [List.take_succ_cons, fileOf_cons hm.writable, List.length_append]; omega
      · intro hlt
        rw [List.take_succ_cons, fileOf_cons hm.writable, List.length_append]
        have := h2 (by simpa using hlt)
        omega
      · rw [fileOf_cons hm.writable, List.take_append, List.take_of_length_le (by omega), readVector_eq, parse_frame hm]
        dsimp only
        rw [C64_appends, h3, List.take_succ_cons, fileOf_cons hm.writable, List.length_append, List.length_cons]
        simp only [List.nil_append, List.singleton_append, Prod.mk.injEq, true_and]
        have e1 : (k - (frame codec m).length = (fileOf codec (ms.take n)).length) =
            (k = (frame codec m).length + (fileOf codec (ms.take n)).length) := by
          apply propext; omega
        have e2 : (n = ms.length) = (n + 1 = ms.length + 1) := by apply propext; omega
        exact if_congr (by rw [e1, e2]) rfl rfl

/-- **C63** (no wrong data). Whatever is left of a file, what is read from it is a prefix of what was written. -/
theorem C63_prefix {codec : Codec M} (ms : List M) (h : ∀ m ∈ ms, Storable codec m) (k : ℕ) :
    (readVector codec [] ((fileOf codec ms).take k)).1 <+: ms := by
  obtain ⟨n, -, -, -, h3⟩ := C63_truncated ms h k
  rw [h3]
  exact List.take_prefix _ _

/-! ### Non-vacuity: byte strings as messages -/

/-- Messages that are their own encoding. -/
def rawCodec : Codec (List UInt8) := ⟨id, some⟩

/-- A short message, an empty one, and one long enough for a two-byte length. -/
def protoMessages : List (List UInt8) := [[1, 2, 3], [], List.replicate 200 7]

example : ∀ m ∈ protoMessages, Storable rawCodec m := by
  intro m hm
  refine ⟨?_, rfl⟩
  revert m
  unfold Writable rawCodec protoMessages
  decide +kernel

example : (fileOf rawCodec protoMessages).length = 4 + 1 + 202 := by decide +kernel
example : (fileOf rawCodec protoMessages).take 7 = [3, 1, 2, 3, 0, 200, 1] := by decide +kernel
example : readVector rawCodec [] ((fileOf rawCodec protoMessages).take 6) = ([[1, 2, 3], []], .invalidArgument) := by
  decide +kernel
example : readVector rawCodec [] ((fileOf rawCodec protoMessages).take 5) = ([[1, 2, 3], []], .ok) := by
  decide +kernel

end Verif.Props
