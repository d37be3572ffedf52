import Verif.Spec.Gzip
import Verif.Props.Stream

/-!
# C104: compressed files
-/

namespace Verif.Props
open Verif Verif.Spec Verif.Proto

variable {M S : Type}

private theorem in_out {z : Option Zlib} (hz : LawfulBuild z) (compress : Bool) (bytes : List UInt8) :
    inStream z (outStream z compress bytes) = bytes := by
  cases z with
  | none => rfl
  | some z => exact (hz z rfl).inverse compress bytes

private theorem in_take {z : Option Zlib} (hz : LawfulBuild z) (compress : Bool) (bytes : List UInt8) (k : ℕ) :
    inStream z ((outStream z compress bytes).take k) <+: bytes := by
  cases z with
  | none => exact List.take_prefix k bytes
  | some z => exact (hz z rfl).streaming compress bytes k

/-- **C104** (round trip). With or without zlib, with or without `--compress`: reading what was written gives the messages back, in
order, and a callback sees exactly what it would see of an uncompressed file. -/
theorem C104_round_trip {z : Option Zlib} (hz : LawfulBuild z) (compress : Bool) {codec : Codec M} (ms : List M)
    (h : ∀ m ∈ ms, Storable codec m) :
    (writeMessagesZ z compress codec ms).2 = .ok ∧
    (∀ start, readVectorZ z codec start (writeMessagesZ z compress codec ms).1 = (start ++ ms, .ok)) ∧
    ∀ (reader : S → M → S × Option ReaderSignal) (s : S),
      readMessagesZ z codec reader s (writeMessagesZ z compress codec ms).1 = applyReader reader .ok s ms := by
  refine ⟨?_, fun start => ?_, fun reader s => ?_⟩
  · unfold writeMessagesZ
    rw [(C62_write codec ms []).1 (fun m hm => (h m hm).writable)]
  · unfold readVectorZ readMessagesZ writeMessagesZ
    dsimp only
    rw [in_out hz]
    exact C62_round_trip ms h start
  · unfold readMessagesZ writeMessagesZ
    dsimp only
    rw [in_out hz]
    exact C62_callback ms h reader s

/-- **C104** (a message that is too long). Writing fails as without compression, and the messages before it can be read. -/
theorem C104_unwritable {z : Option Zlib} (hz : LawfulBuild z) (compress : Bool) {codec : Codec M} (ms pre post : List M) (m : M)
    (hms : ms = pre ++ m :: post) (h : ∀ x ∈ pre, Storable codec x) (hm : ¬ Writable codec m) :
    (writeMessagesZ z compress codec ms).2 = .invalidArgument ∧
    readVectorZ z codec [] (writeMessagesZ z compress codec ms).1 = (pre, .ok) := by
  have hw := (C62_write codec ms []).2 pre m post hms (fun x hx => (h x hx).writable) hm
  unfold readVectorZ readMessagesZ writeMessagesZ
  rw [hw]
  refine ⟨rfl, ?_⟩
  dsimp only
  rw [in_out hz, List.nil_append]
  exact C62_round_trip pre h []

/-- **C104** (a file that is cut off). Whatever number of bytes is left of a compressed file, what is read from it is a beginning of
what was written: the messages that are complete in the part that can be decompressed, with status OK if this part ends with a message
(a `GzipInputStream` that fails is taken for the end of the file). -/
theorem C104_truncated {z : Option Zlib} (hz : LawfulBuild z) (compress : Bool) {codec : Codec M} (ms : List M)
    (h : ∀ m ∈ ms, Storable codec m) (k : ℕ) :
    ∃ n ≤ ms.length, ∃ left, inStream z ((writeMessagesZ z compress codec ms).1.take k) = left ∧ left <+: fileOf codec ms ∧
      (fileOf codec (ms.take n)).length ≤ left.length ∧
      (n < ms.length → left.length < (fileOf codec (ms.take (n + 1))).length) ∧
      readVectorZ z codec [] ((writeMessagesZ z compress codec ms).1.take k) =
        (ms.take n, if left = fileOf codec (ms.take n) then .ok else .invalidArgument) := by
  obtain ⟨rest, hl⟩ := in_take hz compress (writeMessages codec ms []).1 k
  generalize hleft : inStream z ((outStream z compress (writeMessages codec ms []).1).take k) = left at hl
  have hpre : left <+: fileOf codec ms := ⟨rest, hl⟩
  have htake : (fileOf codec ms).take left.length = left := List.prefix_iff_eq_take.mp hpre |>.symm
  obtain ⟨n, hn, h1, h2, h3⟩ := C63_truncated ms h left.length
  rw [htake] at h3
  refine ⟨n, hn, left, hleft, hpre, h1, h2, ?_⟩
  have hr : readVectorZ z codec [] ((writeMessagesZ z compress codec ms).1.take k) = readVector codec [] left := by
    unfold readVectorZ readMessagesZ writeMessagesZ readVector
    dsimp only
    rw [hleft]
  rw [hr, h3]
  congr 1
  have hcat : fileOf codec ms = fileOf codec (ms.take n) ++ fileOf codec (ms.drop n) := by
    have := (C62_write codec (ms.drop n) (fileOf codec (ms.take n))).1 (fun m hm => (h m (List.mem_of_mem_drop hm)).writable)
    have e : ∀ (a b : List M) (out : List UInt8), (∀ m ∈ a, Writable codec m) →
        writeMessages codec (a ++ b) out = writeMessages codec b (out ++ fileOf codec a) := by
      intro a b out ha
      induction a generalizing out with
      | nil => simp [fileOf, writeMessages]
      | cons x a ih =>
        have hx := ha x (by simp)
        have ha' : ∀ m ∈ a, Writable codec m := fun m hm => ha m (by simp [hm])
        have hs : ∃ f, serializeDelimited codec x = some f := by
          unfold serializeDelimited; rw [if_neg (by unfold Writable at hx; omega)]; exact ⟨_, rfl⟩
        obtain ⟨f, hf⟩ := hs
        have e1 : fileOf codec (x :: a) = f ++ fileOf codec a := by
          unfold fileOf
          rw [writeMessages, hf]
          simp only [List.nil_append]
          rw [(C62_write codec a f).1 ha']
          rfl
        rw [List.cons_append, writeMessages, hf]
        simp only
        rw [ih _ ha', e1, List.append_assoc]
    have e2 := e (ms.take n) (ms.drop n) [] (fun m hm => (h m (List.mem_of_mem_take hm)).writable)
    rw [List.take_append_drop, List.nil_append] at e2
    unfold fileOf at *
    rw [e2, this]
  by_cases hE : left = fileOf codec (ms.take n)
  · rw [if_pos hE, if_pos (.inl (by rw [hE]))]
  · rw [if_neg hE, if_neg]
    rintro (hk | hk)
    · apply hE
      rw [← htake, hk, hcat, List.take_left']
      rfl
    · apply hE
      subst hk
      rw [List.take_length] at h1 ⊢
      exact hpre.eq_of_length (le_antisymm hpre.length_le h1)

/-- **C104** (a file that is not compressed, or whose beginning is damaged). If nothing can be decompressed, reading with zlib
succeeds with no message at all. -/
theorem C104_not_compressed (z : Zlib) (codec : Codec M) (start : List M) (bytes : List UInt8) (h : z.inflate bytes = []) :
    readVectorZ (some z) codec start bytes = (start, .ok) := by
  unfold readVectorZ readMessagesZ inStream
  dsimp only
  rw [h]
  rfl

/-- **C104** (without zlib). The flag `--compress` changes nothing, and this is the library of C62 to C64. -/
theorem C104_without_zlib (compress : Bool) (codec : Codec M) (ms : List M) (reader : S → M → S × Option ReaderSignal) (s : S)
    (bytes : List UInt8) :
    writeMessagesZ none compress codec ms = writeMessages codec ms [] ∧
    readMessagesZ none codec reader s bytes = readMessages codec reader s bytes := ⟨rfl, rfl⟩

/-! ### Non-vacuity -/

/-- A compressor: a mark of two bytes, and then the bytes as they are. -/
def markZlib : Zlib where
  deflate compress bytes := 31 :: (if compress then 139 else 140) :: bytes
  inflate
    | 31 :: 139 :: rest => rest
    | 31 :: 140 :: rest => rest
    | _ => []

theorem markZlib_lawful : LawfulZlib markZlib where
  inverse compress bytes := by cases compress <;> rfl
  streaming compress bytes k := by
    cases compress <;> match k with
      | 0 => exact List.nil_prefix
      | 1 => exact List.nil_prefix
      | k + 2 => exact List.take_prefix k bytes

/-- Messages of one byte. -/
private def gzCodec : Codec UInt8 := ⟨fun m => [m], fun l => l.head?⟩

private theorem gzStorable (m : UInt8) : Storable gzCodec m := ⟨by show 1 ≤ 2 ^ 31 - 1; decide, rfl⟩

private theorem gzBuild : LawfulBuild (some markZlib) := by
  intro x hx; cases hx; exact markZlib_lawful

example := (C104_round_trip (S := ℕ) gzBuild true [5, 6, 7] (fun m _ => gzStorable m)).2.1 []

/-- Cut off within the second message, and behind it: a beginning is read. -/
example : readVectorZ (some markZlib) gzCodec [] ((writeMessagesZ (some markZlib) true gzCodec [5, 6, 7]).1.take 5) =
    ([5], .invalidArgument) := by decide +kernel
example : readVectorZ (some markZlib) gzCodec [] ((writeMessagesZ (some markZlib) true gzCodec [5, 6, 7]).1.take 6) =
    ([5, 6], .ok) := by decide +kernel

/-- A file written without zlib, read with zlib. -/
example : readVectorZ (some markZlib) gzCodec [] (writeMessagesZ none true gzCodec [5, 6, 7]).1 = ([], .ok) :=
  C104_not_compressed markZlib gzCodec [] _ (by decide +kernel)

end Verif.Props
