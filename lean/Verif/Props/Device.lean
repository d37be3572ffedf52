import Verif.Model.Device
import Verif.Props.Stream

/-!
# C106: writing to a device that can fail

`store i` is the number of bytes the device stores at most at the `i`-th write; `Buffering` are the size of the buffer and the
moment it is asked for.  Everything holds for all of them, in particular for a disk that becomes full at any byte.
-/

namespace Verif.Props
open Verif Verif.Spec Verif.Device
open Verif.Proto (readVector)

variable {M : Type}

/-- The state of the stream after the bytes `sent` have been put into it. -/
private structure Core (b : Buffering) (store : ℕ → ℕ) (s : Out) (sent : List UInt8) : Prop where
  small : s.buffer.length ≤ b.block
  whole : s.failed = false → s.file ++ s.buffer = sent
  part : s.failed = true → s.file <+: sent ∧ s.file.length < sent.length ∧
    sent.length ≤ s.file.length + b.block + s.buffer.length
  cause : s.failed = true → ∃ i, store i < b.block

/-- The same while messages are being written: the first write happens when the buffer is full. -/
private structure Sent (b : Buffering) (store : ℕ → ℕ) (s : Out) (sent : List UInt8) : Prop
    extends Core b store s sent where
  first : sent.length ≤ b.block → (s.calls = 0 ∧ s.file = [] ∧ s.failed = false ∧ s.buffer = sent) ∨
    (sent.length = b.block ∧ s.buffer = [] ∧ s.file = sent.take (store 0))

private theorem Core.file_prefix {b : Buffering} {store : ℕ → ℕ} {s : Out} {sent : List UInt8} (h : Core b store s sent) :
    s.file <+: sent := by
  cases hf : s.failed with
  | false => exact ⟨s.buffer, h.whole hf⟩
  | true => exact (h.part hf).1

private theorem core_write {b : Buffering} {store : ℕ → ℕ} {s : Out} {sent : List UInt8} (h : Core b store s sent) :
    Core b store (writeBuffer store s).2 sent ∧
    ((writeBuffer store s).1 = true → (writeBuffer store s).2.buffer = [] ∧ (writeBuffer store s).2.failed = false ∧
      s.failed = false) ∧
    ((writeBuffer store s).1 = false → (writeBuffer store s).2.failed = true) := by
  unfold writeBuffer
  cases hf : s.failed with
  | true => simp only [if_true]; exact ⟨h, by simp, fun _ => hf⟩
  | false =>
    have hw := h.whole hf
    simp only [Bool.false_eq_true, if_false]
    split
    · rename_i he
      exact ⟨h, fun _ => ⟨List.isEmpty_iff.mp he, hf, trivial⟩, by simp⟩
    · rename_i he
      split
      · refine ⟨⟨Nat.zero_le _, fun _ => ?_, by simp, by simp⟩, fun _ => ⟨rfl, rfl, trivial⟩, by simp⟩
        simpa using hw
      · rename_i hs
        have hsm := h.small
        refine ⟨⟨Nat.zero_le _, by simp, fun _ => ?_, fun _ => ⟨s.calls, by omega⟩⟩, by simp, by simp⟩
        have hl := congrArg List.length hw
        simp only [List.length_append] at hl
        refine ⟨?_, ?_, ?_⟩
        · rw [← hw]
          exact (List.prefix_append_right_inj _).mpr (List.take_prefix _ _)
        · simp only [List.length_append, List.length_take]; omega
        · simp only [List.length_append, List.length_take, List.length_nil]; omega

/-- A first write stores what the device stores of it. -/
private theorem first_write {store : ℕ → ℕ} {s : Out} {sent : List UInt8}
    (h : s.calls = 0 ∧ s.file = [] ∧ s.failed = false ∧ s.buffer = sent) :
    (writeBuffer store s).2.buffer = [] ∧ (writeBuffer store s).2.file = sent.take (store 0) := by
  obtain ⟨h1, h2, h3, h4⟩ := h
  unfold writeBuffer
  rw [h3, h4, h1, h2]
  simp only [Bool.false_eq_true, if_false]
  split
  · rename_i he
    have := List.isEmpty_iff.mp he
    rw [h4, h2, this]; simp
  · split
    · rename_i hl
      exact ⟨rfl, by rw [List.take_of_length_le hl]; rfl⟩
    · exact ⟨rfl, rfl⟩

private theorem sent_next {b : Buffering} {store : ℕ → ℕ} (hb : 0 < b.block) {s : Out} {sent : List UInt8}
    (h : Sent b store s sent) :
    Sent b store (next b store s).2 sent ∧
    ((next b store s).1 = true → (next b store s).2.buffer.length < b.block ∧
      (next b store s).2.failed = s.failed) ∧
    ((next b store s).1 = false → (next b store s).2.failed = true) := by
  unfold next
  split
  · rename_i hlen
    obtain ⟨h1, h2, h3⟩ := core_write (store := store) h.toCore
    refine ⟨⟨h1, fun hl => ?_⟩, fun ht => ?_, h3⟩
    · rcases h.first hl with hf | ⟨-, hf, -⟩
      · right
        obtain ⟨e1, e2⟩ := first_write (store := store) hf
        exact ⟨by rw [← hf.2.2.2]; exact hlen, e1, e2⟩
      · rw [hf] at hlen; simp at hlen; omega
    · obtain ⟨e1, e2, e3⟩ := h2 ht
      rw [e1, e2, e3]
      exact ⟨hb, rfl⟩
  · rename_i hne
    refine ⟨h, fun _ => ⟨?_, rfl⟩, by simp⟩
    have := h.small
    show s.buffer.length < b.block
    omega

private theorem sent_put {b : Buffering} {store : ℕ → ℕ} (hb : 0 < b.block) (bytes : List UInt8) :
    ∀ {s : Out} {sent : List UInt8}, Sent b store s sent →
    ∃ n ≤ bytes.length, Sent b store (put b store bytes s).2 (sent ++ bytes.take n) ∧
      ((put b store bytes s).1 = true → n = bytes.length ∧ (put b store bytes s).2.failed = s.failed) ∧
      ((put b store bytes s).1 = false → n < bytes.length ∧ (put b store bytes s).2.failed = true) := by
  induction bytes with
  | nil => intro s sent h; exact ⟨0, le_refl _, by simpa [put] using h, fun _ => ⟨rfl, rfl⟩, by simp [put]⟩
  | cons x rest ih =>
    intro s sent h
    obtain ⟨h1, h2, h3⟩ := sent_next (store := store) hb h
    unfold put
    revert h1 h2 h3
    rcases next b store s with ⟨ok, s'⟩
    intro h1 h2 h3
    cases ok with
    | false =>
      refine ⟨0, Nat.zero_le _, by simpa using h1, by simp, fun _ => ⟨by simp, h3 rfl⟩⟩
    | true =>
      obtain ⟨hlt, hf⟩ := h2 rfl
      have hs : Sent b store { s' with buffer := s'.buffer ++ [x] } (sent ++ [x]) := by
        refine ⟨⟨?_, fun hff => ?_, fun hff => ?_, fun hff => h1.cause hff⟩, fun hl => ?_⟩
        · simp only [List.length_append, List.length_singleton]
          simp only at hlt; omega
        · rw [← h1.whole hff]; simp
        · obtain ⟨p1, p2, p3⟩ := h1.part hff
          refine ⟨p1.trans (List.prefix_append _ _), ?_, ?_⟩
          · simp only [List.length_append, List.length_singleton] at *; omega
          · simp only [List.length_append, List.length_singleton] at *; omega
        · simp only [List.length_append, List.length_singleton] at hl
          rcases h1.first (by omega) with ⟨g1, g2, g3, g4⟩ | ⟨g, -⟩
          · exact Or.inl ⟨g1, g2, g3, congrArg (· ++ [x]) g4⟩
          · omega
      obtain ⟨n, hn, i1, i2, i3⟩ := ih hs
      refine ⟨n + 1, by simp only [List.length_cons]; omega, ?_, ?_, ?_⟩
      · simpa using i1
      · intro ht
        obtain ⟨e1, e2⟩ := i2 ht
        exact ⟨by simp only [List.length_cons]; omega, e2.trans hf⟩
      · intro ht
        obtain ⟨e1, e2⟩ := i3 ht
        exact ⟨by simp only [List.length_cons]; omega, e2⟩

/-- What the loop leaves behind: a prefix of the file has been sent; the status is OK only if all of it has. -/
private theorem sent_loop {b : Buffering} {store : ℕ → ℕ} (hb : 0 < b.block) (codec : Codec M) (ms : List M) :
    ∀ {s : Out} {sent : List UInt8}, Sent b store s sent →
    ∃ more, more <+: fileOf codec ms ∧ Sent b store (writeLoop b store codec ms s).1 (sent ++ more) ∧
      ((writeLoop b store codec ms s).2 = .ok →
        more = fileOf codec ms ∧ (∀ m ∈ ms, Writable codec m) ∧
        (b.eager = false → (writeLoop b store codec ms s).1.failed = s.failed)) ∧
      ((writeLoop b store codec ms s).2 ≠ .ok → (writeLoop b store codec ms s).2 = .invalidArgument ∧
        ((¬ ∀ m ∈ ms, Writable codec m) ∧ more = fileOf codec ms ∨
          more.length < (fileOf codec ms).length ∧ (writeLoop b store codec ms s).1.failed = true)) := by
  induction ms with
  | nil =>
    intro s sent h
    exact ⟨[], List.nil_prefix, by simpa [writeLoop] using h, fun _ => ⟨rfl, by simp, fun _ => rfl⟩,
      fun h => absurd rfl h⟩
  | cons m rest ih =>
    intro s sent h
    have h' : Sent b store (if b.eager then (next b store s).2 else s) sent ∧
        (b.eager = false → (if b.eager then (next b store s).2 else s).failed = s.failed) := by
      cases b.eager with
      | true => exact ⟨(sent_next hb h).1, by simp⟩
      | false => exact ⟨h, fun _ => rfl⟩
    unfold writeLoop
    revert h'
    generalize (if b.eager then (next b store s).2 else s) = s0
    rintro ⟨h0, h0f⟩
    dsimp only
    by_cases hm : Writable codec m
    · rw [(serialize_eq codec m).1 hm]
      simp only
      rw [fileOf_cons hm]
      obtain ⟨n, hn, p1, p2, p3⟩ := sent_put (store := store) hb (frame codec m) h0
      revert p1 p2 p3
      rcases put b store (frame codec m) s0 with ⟨ok, s1⟩
      intro p1 p2 p3
      cases ok with
      | false =>
        obtain ⟨e1, e2⟩ := p3 rfl
        refine ⟨(frame codec m).take n, (List.take_prefix _ _).trans (List.prefix_append _ _), p1, by simp, fun _ =>
          ⟨rfl, Or.inr ⟨?_, e2⟩⟩⟩
        simp only [List.length_take, List.length_append]; omega
      | true =>
        obtain ⟨e1, e2⟩ := p2 rfl
        rw [e1, List.take_length] at p1
        obtain ⟨more, q1, q2, q3, q4⟩ := ih p1
        refine ⟨frame codec m ++ more, (List.prefix_append_right_inj _).mpr q1, by rw [← List.append_assoc]; exact q2,
          fun ho => ?_, fun ho => ?_⟩
        · obtain ⟨r1, r2, r3⟩ := q3 ho
          refine ⟨by rw [r1], ?_, fun he => (r3 he).trans (e2.trans (h0f he))⟩
          intro x hx
          rcases List.mem_cons.mp hx with rfl | hx
          · exact hm
          · exact r2 x hx
        · obtain ⟨r1, r2⟩ := q4 ho
          refine ⟨r1, ?_⟩
          rcases r2 with ⟨r2, r3⟩ | ⟨r2, r3⟩
          · left
            exact ⟨fun hall => r2 (fun x hx => hall x (List.mem_cons_of_mem _ hx)), by rw [r3]⟩
          · right
            exact ⟨by simp only [List.length_append]; omega, r3⟩
    · rw [(serialize_eq codec m).2 hm]
      simp only
      have he : fileOf codec (m :: rest) = [] := by
        unfold fileOf Proto.writeMessages
        rw [(serialize_eq codec m).2 hm]
      refine ⟨[], List.nil_prefix, by simpa using h0, by simp, fun _ => ⟨trivial, Or.inl ⟨?_, he.symm⟩⟩⟩
      exact fun hall => hm (hall m (List.mem_cons_self ..))

private theorem sent_start (b : Buffering) (store : ℕ → ℕ) : Sent b store Out.start [] :=
  ⟨⟨Nat.zero_le _, fun _ => rfl, by simp [Out.start], by simp [Out.start]⟩, fun _ => Or.inl ⟨rfl, rfl, rfl, rfl⟩⟩

private theorem unwritable_status (codec : Codec M) (ms : List M) (h : ¬ ∀ m ∈ ms, Writable codec m) :
    (Proto.writeMessages codec ms []).2 = .invalidArgument := by
  have key : ∀ ms out, (¬ ∀ m ∈ ms, Writable codec m) → (Proto.writeMessages codec ms out).2 = .invalidArgument := by
    intro ms
    induction ms with
    | nil => intro out h; simp at h
    | cons m rest ih =>
      intro out h
      unfold Proto.writeMessages
      by_cases hm : Writable codec m
      · rw [(serialize_eq codec m).1 hm]
        exact ih _ (fun hr => h (by
          intro x hx
          rcases List.mem_cons.mp hx with rfl | hx
          · exact hm
          · exact hr x hx))
      · rw [(serialize_eq codec m).2 hm]
  exact key ms [] h

/-- **C106** (no wrong bytes). Whatever the device does, the file holds the beginning of what should have been written. -/
theorem C106_prefix (b : Buffering) (hb : 0 < b.block) (store : ℕ → ℕ) (codec : Codec M) (ms : List M) :
    (Device.writeMessages b store codec ms).1 <+: fileOf codec ms := by
  obtain ⟨more, h1, h2, -, -⟩ := sent_loop (store := store) hb codec ms (sent_start b store)
  have := (core_write (store := store) h2.toCore).1.file_prefix
  rw [List.nil_append] at this
  exact this.trans h1

/-- **C106** (a device that works). If every write succeeds, the file and the status are those of C62. -/
theorem C106_success (b : Buffering) (hb : 0 < b.block) (store : ℕ → ℕ) (hs : ∀ i, b.block ≤ store i) (codec : Codec M)
    (ms : List M) : Device.writeMessages b store codec ms = Proto.writeMessages codec ms [] := by
  obtain ⟨more, h1, h2, h3, h4⟩ := sent_loop (store := store) hb codec ms (sent_start b store)
  have hf := (core_write (store := store) h2.toCore).1
  have hbuf := (core_write (store := store) h2.toCore).2.1
  have hnot : ∀ s sent, Core b store s sent → s.failed = false := by
    intro s sent hc
    cases hfs : s.failed with
    | false => rfl
    | true =>
      obtain ⟨i, hi⟩ := hc.cause hfs
      have := hs i
      omega
  have hok : (writeBuffer store (writeLoop b store codec ms Out.start).1).1 = true := by
    cases hw : (writeBuffer store (writeLoop b store codec ms Out.start).1).1 with
    | true => rfl
    | false =>
      have e := (core_write (store := store) h2.toCore).2.2 hw
      rw [hnot _ _ hf] at e; cases e
  have hfile := hf.whole (hnot _ _ hf)
  rw [(hbuf hok).1, List.append_nil, List.nil_append] at hfile
  unfold Device.writeMessages
  dsimp only
  rw [hfile]
  by_cases hst : (writeLoop b store codec ms Out.start).2 = .ok
  · obtain ⟨r1, r2, -⟩ := h3 hst
    rw [hst, r1, (C62_write codec ms []).1 r2, List.nil_append]
  · obtain ⟨r1, r2 | r2⟩ := h4 hst
    · rw [r1, r2.2]
      refine Prod.ext rfl ?_
      show Status.invalidArgument = (Proto.writeMessages codec ms []).2
      exact (unwritable_status codec ms r2.1).symm
    · rw [hnot _ _ h2.toCore] at r2
      exact absurd r2.2 (by simp)

/-- **C106** (an error is a real one). If every message can be written, an error status means that some write failed and the
file is incomplete. -/
theorem C106_error (b : Buffering) (hb : 0 < b.block) (store : ℕ → ℕ) (codec : Codec M) (ms : List M)
    (hw : ∀ m ∈ ms, Writable codec m) (h : (Device.writeMessages b store codec ms).2 ≠ .ok) :
    (Device.writeMessages b store codec ms).2 = .invalidArgument ∧ (∃ i, store i < b.block) ∧
    (Device.writeMessages b store codec ms).1.length < (fileOf codec ms).length := by
  obtain ⟨more, h1, h2, h3, h4⟩ := sent_loop (store := store) hb codec ms (sent_start b store)
  obtain ⟨r1, ⟨r2, -⟩ | ⟨r2, r3⟩⟩ := h4 h
  · exact absurd hw r2
  · refine ⟨r1, h2.cause r3, ?_⟩
    have hl := (core_write (store := store) h2.toCore).1.file_prefix.length_le
    rw [List.nil_append] at hl
    show (writeBuffer store (writeLoop b store codec ms Out.start).1).2.file.length < _
    omega

/-- **C106** (how much OK can hide). If the status is OK, all but the last two blocks of the file have been stored - all but
the last block, if the buffer is only asked for when it is needed. -/
theorem C106_ok_loss (b : Buffering) (hb : 0 < b.block) (store : ℕ → ℕ) (codec : Codec M) (ms : List M)
    (h : (Device.writeMessages b store codec ms).2 = .ok) :
    (fileOf codec ms).length ≤ (Device.writeMessages b store codec ms).1.length + 2 * b.block ∧
    (b.eager = false → (fileOf codec ms).length ≤ (Device.writeMessages b store codec ms).1.length + b.block) := by
  obtain ⟨more, h1, h2, h3, h4⟩ := sent_loop (store := store) hb codec ms (sent_start b store)
  obtain ⟨r1, -, r3⟩ := h3 h
  rw [List.nil_append, r1] at h2
  have hmono : (writeLoop b store codec ms Out.start).1.file.length ≤ (Device.writeMessages b store codec ms).1.length := by
    show _ ≤ (writeBuffer store (writeLoop b store codec ms Out.start).1).2.file.length
    unfold writeBuffer
    split_ifs <;> simp
  have hsm := h2.small
  cases hf : (writeLoop b store codec ms Out.start).1.failed with
  | false =>
    have hl := congrArg List.length (h2.whole hf)
    rw [List.length_append] at hl
    exact ⟨by omega, fun _ => by omega⟩
  | true =>
    obtain ⟨-, -, p3⟩ := h2.part hf
    refine ⟨by omega, fun he => ?_⟩
    rw [r3 he] at hf
    cases hf

/-- **C106** (small files). A file that fits into the buffer is written in one go after the status has been decided: the status
does not depend on the device at all, and the file is cut off where the device stops. -/
theorem C106_small (b : Buffering) (hb : 0 < b.block) (store : ℕ → ℕ) (codec : Codec M) (ms : List M)
    (hlen : (fileOf codec ms).length ≤ b.block) :
    Device.writeMessages b store codec ms =
      ((fileOf codec ms).take (store 0), (Proto.writeMessages codec ms []).2) := by
  obtain ⟨more, h1, h2, h3, h4⟩ := sent_loop (store := store) hb codec ms (sent_start b store)
  rw [List.nil_append] at h2
  have hml := h1.length_le
  have hmore : more = fileOf codec ms ∧
      (writeLoop b store codec ms Out.start).2 = (Proto.writeMessages codec ms []).2 := by
    by_cases hst : (writeLoop b store codec ms Out.start).2 = .ok
    · obtain ⟨r1, r2, -⟩ := h3 hst
      exact ⟨r1, by rw [hst, (C62_write codec ms []).1 r2]⟩
    · obtain ⟨r1, ⟨r2, r3⟩ | ⟨r2, r3⟩⟩ := h4 hst
      · exact ⟨r3, by rw [r1, unwritable_status codec ms r2]⟩
      · rcases h2.first (by omega) with ⟨-, -, g, -⟩ | ⟨g, -⟩
        · rw [g] at r3; cases r3
        · omega
  obtain ⟨rfl, hst⟩ := hmore
  unfold Device.writeMessages
  dsimp only
  rw [hst]
  refine Prod.ext ?_ rfl
  show (writeBuffer store (writeLoop b store codec ms Out.start).1).2.file = _
  rcases h2.first hlen with g | ⟨-, g1, g2⟩
  · exact (first_write g).2
  · unfold writeBuffer
    rw [g1]
    split_ifs
    · exact g2
    · exact g2
    · simp_all
    · simp_all

private theorem fileOf_split {codec : Codec M} (l : List M) (hl : ∀ m ∈ l, Storable codec m) (r : List M) :
    fileOf codec (l ++ r) = fileOf codec l ++ fileOf codec r := by
  induction l with
  | nil => rfl
  | cons m l ih =>
    rw [List.cons_append, fileOf_cons (hl m (List.mem_cons_self ..)).writable,
      fileOf_cons (hl m (List.mem_cons_self ..)).writable, ih (fun x hx => hl x (List.mem_cons_of_mem _ hx)),
      List.append_assoc]

/-- **C106** (reading it back). Whatever the device did, reading the file delivers the first so many of the messages, unchanged;
and if the status of reading is OK, the file ends with a message. -/
theorem C106_read (b : Buffering) (hb : 0 < b.block) (store : ℕ → ℕ) {codec : Codec M} (ms : List M)
    (h : ∀ m ∈ ms, Storable codec m) :
    ∃ n ≤ ms.length, (readVector codec [] (Device.writeMessages b store codec ms).1).1 = ms.take n ∧
      ((readVector codec [] (Device.writeMessages b store codec ms).1).2 = .ok →
        (Device.writeMessages b store codec ms).1 = fileOf codec (ms.take n)) := by
  have hp := C106_prefix b hb store codec ms
  generalize (Device.writeMessages b store codec ms).1 = file at hp
  obtain ⟨n, hn, h1, h2, h3⟩ := C63_truncated ms h file.length
  rw [← List.prefix_iff_eq_take.mp hp] at h3
  refine ⟨n, hn, by rw [h3], fun hok => ?_⟩
  rw [h3] at hok
  have hk : file.length = (fileOf codec (ms.take n)).length ∨ n = ms.length := by
    by_contra hc
    rw [if_neg hc] at hok
    cases hok
  have hsplit := fileOf_split (ms.take n) (fun m hm => h m (List.mem_of_mem_take hm)) (ms.drop n)
  rw [List.take_append_drop] at hsplit
  rcases hk with hk | rfl
  · refine List.IsPrefix.eq_of_length ?_ hk
    exact List.prefix_of_prefix_length_le hp (hsplit ▸ List.prefix_append _ _) (le_of_eq hk)
  · rw [List.take_length] at h1 ⊢
    exact hp.eq_of_length (le_antisymm hp.length_le h1)

/-- **C106** (silent loss). A disk that becomes full at the end of a message: writing a file that fits into the buffer reports
OK, reading it back reports OK, and the messages after the first `n` are gone. -/
theorem C106_silent_loss (b : Buffering) (hb : 0 < b.block) {codec : Codec M} (ms : List M)
    (h : ∀ m ∈ ms, Storable codec m) (hlen : (fileOf codec ms).length ≤ b.block) (n : ℕ) :
    ∃ store : ℕ → ℕ, (Device.writeMessages b store codec ms).2 = .ok ∧
      readVector codec [] (Device.writeMessages b store codec ms).1 = (ms.take n, .ok) := by
  have hsplit := fileOf_split (ms.take n) (fun m hm => h m (List.mem_of_mem_take hm)) (ms.drop n)
  rw [List.take_append_drop] at hsplit
  refine ⟨fun _ => (fileOf codec (ms.take n)).length, ?_⟩
  rw [C106_small b hb _ codec ms hlen, (C62_write codec ms []).1 (fun m hm => (h m hm).writable)]
  refine ⟨rfl, ?_⟩
  dsimp only
  rw [hsplit, List.take_left]
  have := C62_round_trip (ms.take n) (fun m hm => h m (List.mem_of_mem_take hm)) []
  rw [List.nil_append] at this
  exact this

/-! ### Non-vacuity: a buffer of four bytes -/

/-- The first write fails unnoticed (nobody looks at the answer), so does the last one: OK, two blocks and all messages lost.
The bound of `C106_ok_loss` is attained. -/
example : Device.writeMessages ⟨4, true⟩ (fun _ => 0) rawCodec [[1, 2, 3], [4, 5, 6]] = ([], .ok) ∧
    (fileOf rawCodec [[1, 2, 3], [4, 5, 6]]).length = 0 + 2 * 4 := by decide +kernel
/-- With one more message the failure is noticed. -/
example : Device.writeMessages ⟨4, true⟩ (fun _ => 0) rawCodec [[1, 2, 3], [4, 5, 6], [7]] = ([], .invalidArgument) := by
  decide +kernel
/-- Without the early request it is noticed at once. -/
example : Device.writeMessages ⟨4, false⟩ (fun _ => 0) rawCodec [[1, 2, 3], [4, 5, 6]] = ([], .invalidArgument) := by
  decide +kernel
/-- The disk is full after six bytes, in the middle of the second message. -/
example : Device.writeMessages ⟨4, true⟩ (fun i => if i = 0 then 4 else 2) rawCodec [[1, 2, 3], [4, 5, 6], [7]] =
      ([3, 1, 2, 3, 3, 4], .ok) ∧
    readVector rawCodec [] [3, 1, 2, 3, 3, 4] = ([[1, 2, 3]], .invalidArgument) := by decide +kernel
/-- A device that works. -/
example : Device.writeMessages ⟨4, true⟩ (fun _ => 4) rawCodec [[1, 2, 3], [4, 5, 6], [7]] =
    ([3, 1, 2, 3, 3, 4, 5, 6, 1, 7], .ok) := by decide +kernel
example : 0 < protobufBuffering.block := by decide

end Verif.Props
