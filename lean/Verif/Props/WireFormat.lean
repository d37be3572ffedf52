import Verif.Spec.WireFormat
import Verif.Props.Wire

/-!
# C88: which bytes are messages, and what they mean
-/

namespace Verif.Props
open Verif Verif.Spec Verif.Wire

/-! ### Varints -/

private theorem isVarint_cons {k : ℕ} {b : UInt8} {v : List UInt8} :
    IsVarint (k + 1) (b :: v) ↔ (v = [] ∧ b.toNat < 128) ∨ (128 ≤ b.toNat ∧ IsVarint k v) := by
  unfold IsVarint
  constructor
  · rintro ⟨hl, front, last, he, hf, hlast⟩
    cases front with
    | nil =>
      simp only [List.nil_append, List.cons.injEq] at he
      exact .inl ⟨he.2, he.1 ▸ hlast⟩
    | cons x front =>
      simp only [List.cons_append, List.cons.injEq] at he
      right
      refine ⟨he.1 ▸ hf x (by simp), by simpa using hl, front, last, he.2, fun c hc => hf c (by simp [hc]), hlast⟩
  · rintro (⟨rfl, h⟩ | ⟨h, hl, front, last, rfl, hf, hlast⟩)
    · exact ⟨by simp, [], b, rfl, by simp, h⟩
    · refine ⟨by simpa using hl, b :: front, last, rfl, ?_, hlast⟩
      intro c hc
      rcases List.mem_cons.mp hc with rfl | hc
      · exact h
      · exact hf c hc

private theorem not_isVarint_nil (k : ℕ) : ¬ IsVarint k [] := by
  rintro ⟨-, front, last, he, -⟩
  simp at he

private theorem not_isVarint_zero (v : List UInt8) : ¬ IsVarint 0 v := by
  rintro ⟨hl, front, last, rfl, -⟩
  simp at hl

private theorem readVarint_iff (k count acc : ℕ) (bytes rest : List UInt8) (n : ℕ) :
    Proto.readVarintLoop k count acc bytes = some (n, rest) ↔
      ∃ v, bytes = v ++ rest ∧ IsVarint k v ∧ n = acc + varintValue v * 2 ^ (7 * count) := by
  induction k generalizing count acc bytes with
  | zero =>
    constructor
    · intro h; simp [Proto.readVarintLoop] at h
    · rintro ⟨v, -, hv, -⟩; exact absurd hv (not_isVarint_zero v)
  | succ k ih =>
    cases bytes with
    | nil =>
      constructor
      · intro h; simp [Proto.readVarintLoop] at h
      · rintro ⟨v, he, hv, -⟩
        have : v = [] := by
          have := he.symm
          rw [List.append_eq_nil_iff] at this
          exact this.1
        subst this
        exact absurd hv (not_isVarint_nil _)
    | cons b bs =>
      unfold Proto.readVarintLoop
      dsimp only
      split
      · rename_i hb
        constructor
        · intro h
          simp only [Option.some.injEq, Prod.mk.injEq] at h
          obtain ⟨rfl, rfl⟩ := h
          exact ⟨[b], rfl, isVarint_cons.mpr (.inl ⟨rfl, hb⟩), by simp [varintValue]⟩
        · rintro ⟨v, he, hv, rfl⟩
          cases v with
          | nil => exact absurd hv (not_isVarint_nil _)
          | cons c v =>
            simp only [List.cons_append, List.cons.injEq] at he
            obtain ⟨rfl, rfl⟩ := he
            rcases isVarint_cons.mp hv with ⟨rfl, -⟩ | ⟨h, -⟩
            · simp [varintValue]
            · omega
      · rename_i hb
        rw [ih]
        constructor
        · rintro ⟨v, rfl, hv, rfl⟩
          refine ⟨b :: v, rfl, isVarint_cons.mpr (.inr ⟨by omega, hv⟩), ?_⟩
          rw [varintValue]
          rw [show 7 * (count + 1) = 7 * count + 7 by ring, pow_add]
          ring
        · rintro ⟨v, he, hv, rfl⟩
          cases v with
          | nil => exact absurd hv (not_isVarint_nil _)
          | cons c v =>
            simp only [List.cons_append, List.cons.injEq] at he
            obtain ⟨rfl, rfl⟩ := he
            rcases isVarint_cons.mp hv with ⟨-, h⟩ | ⟨-, hv⟩
            · omega
            · refine ⟨v, rfl, hv, ?_⟩
              rw [varintValue]
              rw [show 7 * (count + 1) = 7 * count + 7 by ring, pow_add]
              ring

theorem readVarint_iff0 (k : ℕ) (bytes rest : List UInt8) (n : ℕ) :
    Proto.readVarintLoop k 0 0 bytes = some (n, rest) ↔ ∃ v, bytes = v ++ rest ∧ IsVarint k v ∧ n = varintValue v := by
  rw [readVarint_iff]; simp

theorem isVarint_pos {k : ℕ} {v : List UInt8} (h : IsVarint k v) : 1 ≤ v.length := by
  obtain ⟨-, front, last, rfl, -⟩ := h
  simp

/-! ### Tags and scalar fields -/

private theorem readTag_iff (bytes rest : List UInt8) (tag : ℕ) :
    readTag bytes = some (tag, rest) ↔ ∃ t, bytes = t ++ rest ∧ IsVarint 5 t ∧ varintValue t % 2 ^ 32 = tag := by
  unfold readTag
  rw [Option.map_eq_some_iff]
  constructor
  · rintro ⟨⟨n, r⟩, h, he⟩
    simp only [Prod.mk.injEq] at he
    obtain ⟨v, rfl, hv, rfl⟩ := (readVarint_iff0 _ _ _ _).mp h
    obtain ⟨rfl, rfl⟩ := he
    exact ⟨v, rfl, hv, rfl⟩
  · rintro ⟨t, rfl, ht, rfl⟩
    exact ⟨(varintValue t, rest), (readVarint_iff0 _ _ _ _).mpr ⟨t, rfl, ht, rfl⟩, rfl⟩

private theorem readBytes_iff (bytes rest payload : List UInt8) :
    readBytes bytes = some (payload, rest) ↔ ∃ s, bytes = s ++ payload ++ rest ∧ IsVarint 5 s ∧
      varintValue s = payload.length ∧ payload.length ≤ 2 ^ 31 - 17 := by
  unfold readBytes
  constructor
  · intro h
    split at h
    · cases h
    · rename_i size r hr
      obtain ⟨s, rfl, hs, rfl⟩ := (readVarint_iff0 _ _ _ _).mp hr
      split at h
      · cases h
      · rename_i hc
        push Not at hc
        simp only [Option.some.injEq, Prod.mk.injEq] at h
        obtain ⟨rfl, rfl⟩ := h
        have hl : (List.take (varintValue s) r).length = varintValue s := by
          rw [List.length_take]; omega
        refine ⟨s, by rw [List.append_assoc, List.take_append_drop], hs, hl.symm, ?_⟩
        rw [hl]
        omega
  · rintro ⟨s, rfl, hs, hv, hlen⟩
    rw [List.append_assoc, (readVarint_iff0 5 _ (payload ++ rest) (varintValue s)).mpr ⟨s, rfl, hs, rfl⟩]
    dsimp only
    rw [if_neg (by rw [hv, List.length_append]; omega), hv]
    simp

private theorem readFixed32_iff (bytes rest : List UInt8) (n : ℕ) :
    readFixed32 bytes = some (n, rest) ↔ ∃ a b c d, bytes = [a, b, c, d] ++ rest ∧ n = fixed32Value a b c d := by
  unfold readFixed32
  constructor
  · intro h
    split at h
    · rename_i a b c d r
      simp only [Option.some.injEq, Prod.mk.injEq] at h
      obtain ⟨rfl, rfl⟩ := h
      exact ⟨a, b, c, d, rfl, by unfold fixed32Value; ring⟩
    · cases h
  · rintro ⟨a, b, c, d, rfl, rfl⟩
    simp only [List.cons_append, List.nil_append, Option.some.injEq, Prod.mk.injEq, and_true]
    unfold fixed32Value; ring

/-- `IsScalar w c body`: the bytes `body` after a tag with wire type `w` hold the content `c`. -/
private inductive IsScalar : ℕ → Content → List UInt8 → Prop
  | varint {v} : IsVarint 10 v → IsScalar 0 (.varint (varintValue v % 2 ^ 64)) v
  | fixed64 {v} : v.length = 8 → IsScalar 1 .fixed64 v
  | bytes {s payload} : IsVarint 5 s → varintValue s = payload.length → payload.length ≤ 2 ^ 31 - 17 →
      IsScalar 2 (.bytes payload) (s ++ payload)
  | fixed32 {a b c e} : IsScalar 5 (.fixed32 (fixed32Value a b c e)) [a, b, c, e]

private theorem fields_scalar {d n w : ℕ} {c : Content} {t body rest : List UInt8} {fs : List Field} (ht : IsTag n w t)
    (hc : IsScalar w c body) (h : Fields d fs rest) : Fields d (⟨n, c⟩ :: fs) (t ++ body ++ rest) := by
  cases hc with
  | varint hv => exact .varint ht hv h
  | fixed64 hv => exact .fixed64 ht hv h
  | bytes h1 h2 h3 => rw [← List.append_assoc]; exact .bytes ht h1 h2 h3 h
  | fixed32 => exact .fixed32 ht h

private theorem skipScalar_iff (tag : ℕ) (bytes rest : List UInt8) :
    skipScalar tag bytes = some rest ↔ 0 < tag / 8 ∧ ∃ c body, IsScalar (tag % 8) c body ∧ bytes = body ++ rest := by
  unfold skipScalar
  by_cases h0 : tag / 8 = 0
  · rw [if_pos h0]
    constructor
    · intro h; cases h
    · rintro ⟨h, -⟩; omega
  rw [if_neg h0]
  have h0' : 0 < tag / 8 := by omega
  simp only [h0', true_and]
  have hw : tag % 8 < 8 := Nat.mod_lt _ (by norm_num)
  generalize tag % 8 = w at *
  split_ifs with h1 h2 h3 h4 h5 h6
  · subst h1
    rw [Option.map_eq_some_iff]
    constructor
    · rintro ⟨⟨n, r⟩, h, rfl⟩
      obtain ⟨v, rfl, hv, rfl⟩ := (readVarint_iff0 _ _ _ _).mp h
      exact ⟨_, v, .varint hv, rfl⟩
    · rintro ⟨c, body, hs, rfl⟩
      cases hs with
      | varint hv => exact ⟨(varintValue body, rest), (readVarint_iff0 _ _ _ _).mpr ⟨body, rfl, hv, rfl⟩, rfl⟩
  · subst h2
    constructor
    · intro h; cases h
    · rintro ⟨c, body, hs, rfl⟩
      cases hs with
      | fixed64 hv => rw [List.length_append] at h3; omega
  · subst h2
    constructor
    · intro h
      rw [Option.some.injEq] at h
      exact ⟨_, bytes.take 8, .fixed64 (by rw [List.length_take]; omega), by rw [← h, List.take_append_drop]⟩
    · rintro ⟨c, body, hs, rfl⟩
      cases hs with
      | fixed64 hv => rw [← hv, List.drop_left]
  · subst h4
    rw [Option.map_eq_some_iff]
    constructor
    · rintro ⟨⟨p, r⟩, h, rfl⟩
      obtain ⟨s, rfl, h1, h2, h3⟩ := (readBytes_iff _ _ _).mp h
      exact ⟨_, _, .bytes h1 h2 h3, rfl⟩
    · rintro ⟨c, body, hs, rfl⟩
      cases hs with
      | @bytes s payload h1 h2 h3 => exact ⟨(payload, rest), (readBytes_iff _ _ _).mpr ⟨s, rfl, h1, h2, h3⟩, rfl⟩
  · subst h5
    constructor
    · intro h; cases h
    · rintro ⟨c, body, hs, rfl⟩
      cases hs with
      | fixed32 => simp at h6; omega
  · subst h5
    constructor
    · intro h
      rw [Option.some.injEq] at h
      match bytes, h6, h with
      | a :: b :: c :: e :: r, _, h =>
        simp only [List.drop_succ_cons, List.drop_zero] at h
        exact ⟨_, [a, b, c, e], .fixed32, by simp [h]⟩
      | [], h6, _ => simp at h6
      | [_], h6, _ => simp at h6
      | [_, _], h6, _ => simp at h6
      | [_, _, _], h6, _ => simp at h6
    · rintro ⟨c, body, hs, rfl⟩
      cases hs with
      | fixed32 => rfl
  · constructor
    · intro h; cases h
    · rintro ⟨c, body, hs, rfl⟩
      cases hs <;> omega

/-! ### Groups -/

/-- Several groups are still open: the bytes of each of them, its end tag, and what follows. -/
private def Closes : List ℕ → List UInt8 → List UInt8 → Prop
  | [], bytes, rest => bytes = rest
  | n :: ns, bytes, rest => ∃ fs inner e mid, Fields (100 - (n :: ns).length) fs inner ∧ IsTag n 4 e ∧
      bytes = inner ++ (e ++ mid) ∧ Closes ns mid rest

private theorem isTag_of {t : List UInt8} {tag : ℕ} (ht : IsVarint 5 t) (h : varintValue t % 2 ^ 32 = tag) (h0 : 0 < tag / 8) :
    IsTag (tag / 8) (tag % 8) t := ⟨ht, by omega, Nat.mod_lt _ (by norm_num), h0⟩

private theorem readTag_isTag {n w : ℕ} {t : List UInt8} (h : IsTag n w t) (rest : List UInt8) :
    readTag (t ++ rest) = some (8 * n + w, rest) := (readTag_iff _ _ _).mpr ⟨t, rfl, h.1, h.2.1⟩

private theorem isTag_pos {n w : ℕ} {t : List UInt8} (h : IsTag n w t) : 1 ≤ t.length := isVarint_pos h.1

private theorem skipGroup_iff (fuel : ℕ) (ns : List ℕ) (hns : ∀ n ∈ ns, 0 < n) (bytes rest : List UInt8)
    (hfuel : bytes.length ≤ fuel) (hd : ns.length ≤ 100) :
    skipGroup fuel (ns.map (fun n => 8 * n + 3)) bytes = some rest ↔ Closes ns bytes rest := by
  induction fuel generalizing ns bytes with
  | zero =>
    cases ns with
    | nil => simp [skipGroup, Closes]
    | cons n ns =>
      simp only [List.map_cons, skipGroup]
      constructor
      · intro h; cases h
      · rintro ⟨fs, inner, e, mid, -, he, rfl, -⟩
        have := isTag_pos he
        simp at hfuel
        simp [hfuel.2.1] at this
  | succ fuel ih =>
    cases ns with
    | nil => simp [skipGroup, Closes]
    | cons n ns =>
      have hn : 0 < n := hns n (by simp)
      have hns' : ∀ n ∈ ns, 0 < n := fun m hm => hns m (by simp [hm])
      have hd' : ns.length < 100 := by simpa using hd
      constructor
      · intro h
        rw [List.map_cons, skipGroup] at h
        cases htag : readTag bytes with
        | none => rw [htag] at h; cases h
        | some p =>
          obtain ⟨tag, r⟩ := p
          rw [htag] at h
          dsimp only at h
          obtain ⟨t, rfl, ht, hv⟩ := (readTag_iff _ _ _).mp htag
          have hlen := isVarint_pos ht
          rw [List.length_append] at hfuel
          split_ifs at h with h1 h2 h3 h4
          · -- the end of the group
            refine ⟨[], [], t, r, .nil, ?_, rfl, (ih ns hns' r (by omega) (by omega)).mp h⟩
            exact ⟨ht, by omega, by norm_num, hn⟩
          · -- a nested group
            push Not at h4
            have hlen4 : (n :: ns).length < 100 := by simpa using h4.2
            have e3 : tag = 8 * (tag / 8) + 3 := by omega
            have h5 : skipGroup fuel ((tag / 8 :: n :: ns).map (fun n => 8 * n + 3)) r = some rest := by
              rw [List.map_cons, ← e3]; exact h
            obtain ⟨fs, inner, e, mid, hf, he, rfl, fs2, inner2, e2, mid2, hf2, he2, rfl, hc⟩ :=
              (ih (tag / 8 :: n :: ns) (by
                intro m hm
                rcases List.mem_cons.mp hm with rfl | hm
                · omega
                · exact hns m hm) r (by omega) (by simpa using hlen4)).mp h5
            refine ⟨⟨tag / 8, .group⟩ :: fs2, t ++ inner ++ e ++ inner2, e2, mid2, ?_, he2, by simp, hc⟩
            have ed : 100 - (n :: ns).length = 100 - (tag / 8 :: n :: ns).length + 1 := by
              simp only [List.length_cons] at *; omega
            rw [ed] at hf2 ⊢
            exact .group (by have := isTag_of ht hv (by omega); rwa [h3] at this) hf he hf2
          · -- a scalar field
            push Not at h1
            cases hs : skipScalar tag r with
            | none => rw [hs] at h; cases h
            | some r' =>
              rw [hs] at h
              dsimp only at h
              obtain ⟨h0, c, body, hc, rfl⟩ := (skipScalar_iff _ _ _).mp hs
              rw [List.length_append] at hfuel
              obtain ⟨fs2, inner2, e2, mid2, hf2, he2, rfl, hcl⟩ := (ih (n :: ns) hns r' (by omega) hd).mp h
              exact ⟨⟨tag / 8, c⟩ :: fs2, t ++ body ++ inner2, e2, mid2, fields_scalar (isTag_of ht hv h0) hc hf2, he2, by simp, hcl⟩
      · rintro ⟨fs, inner, e, mid, hf, he, rfl, hcl⟩
        have hscalar : ∀ (m w : ℕ) (c : Content) (t body tail : List UInt8) (fs' : List Field), IsTag m w t →
            IsScalar w c body → Fields (100 - (n :: ns).length) fs' tail →
            (t ++ body ++ tail ++ (e ++ mid)).length ≤ fuel + 1 →
            skipGroup (fuel + 1) ((n :: ns).map (fun n => 8 * n + 3)) (t ++ body ++ tail ++ (e ++ mid)) = some rest := by
          intro m w c t body tail fs' ht hs hf' hl
          have hw : w < 8 := ht.2.2.1
          have hm := ht.2.2.2
          have hw4 : w ≠ 4 ∧ w ≠ 3 := by cases hs <;> omega
          have e1 : (8 * m + w) % 8 = w := by omega
          have e2 : (8 * m + w) / 8 = m := by omega
          rw [List.map_cons, skipGroup, List.append_assoc, List.append_assoc, readTag_isTag ht]
          dsimp only
          rw [if_neg (by omega), if_neg (by omega),
            (skipScalar_iff (8 * m + w) _ (tail ++ (e ++ mid))).mpr ⟨by omega, c, body, by rw [e1]; exact hs, rfl⟩]
          dsimp only
          refine (ih (n :: ns) hns _ ?_ hd).mpr ⟨fs', tail, e, mid, hf', he, rfl, hcl⟩
          have := isTag_pos ht
          simp only [List.length_append] at *
          omega
        generalize hdep : 100 - (n :: ns).length = D at hf hscalar
        cases hf with
        | nil =>
          rw [List.map_cons, skipGroup, List.nil_append, readTag_isTag he]
          dsimp only
          rw [if_pos (by omega), if_pos (by omega)]
          refine (ih ns hns' mid ?_ (by omega)).mpr hcl
          have := isTag_pos he
          simp only [List.length_append, List.nil_append] at hfuel
          omega
        | varint ht hv hr => exact hscalar _ _ _ _ _ _ _ ht (.varint hv) hr hfuel
        | fixed64 ht hv hr => exact hscalar _ _ _ _ _ _ _ ht (.fixed64 hv) hr hfuel
        | @bytes _ m t s payload fs' tail ht h1 h2 h3 hr =>
          have := hscalar _ _ _ t (s ++ payload) tail _ ht (.bytes h1 h2 h3) hr (by simpa using hfuel)
          simpa only [List.append_assoc] using this
        | fixed32 ht hr => exact hscalar _ _ _ _ _ _ _ ht .fixed32 hr hfuel
        | @group d m t e' inside inner' fs' tail ht hi he' hr =>
          have hm := ht.2.2.2
          have hd2 : (n :: ns).length < 100 := by
            simp only [List.length_cons] at *; omega
          rw [List.map_cons, skipGroup, List.append_assoc, List.append_assoc, List.append_assoc, readTag_isTag ht]
          dsimp only
          rw [if_neg (by omega), if_pos (by omega), if_neg (by
            simp only [List.length_cons, List.length_map] at *
            omega)]
          have h5 := ih (m :: n :: ns) (by
            intro x hx
            rcases List.mem_cons.mp hx with rfl | hx
            · exact hm
            · exact hns x hx) (inner' ++ (e' ++ (tail ++ (e ++ mid)))) (by
              have := isTag_pos ht
              simp only [List.length_append] at *
              omega) (by simpa using hd2)
          rw [List.map_cons, List.map_cons] at h5
          refine h5.mpr ⟨inside, inner', e', tail ++ (e ++ mid), ?_, he', rfl, fs', tail, e, mid, ?_, he, rfl, hcl⟩
          · have : 100 - (m :: n :: ns).length = d := by simp only [List.length_cons] at *; omega
            rw [this]; exact hi
          · have : 100 - (n :: ns).length = d + 1 := by simp only [List.length_cons] at *; omega
            rw [this]; exact hr

/-! ### Messages -/

private def wireType : Content → ℕ
  | .varint _ => 0
  | .fixed64 => 1
  | .bytes _ => 2
  | .group => 3
  | .fixed32 _ => 5

private theorem scalar_wireType {w : ℕ} {c : Content} {body : List UInt8} (h : IsScalar w c body) :
    wireType c = w ∧ w ≠ 3 ∧ w ≠ 4 := by
  cases h <;> simp [wireType]

private theorem skipField_iff (tag : ℕ) (bytes rest : List UInt8) :
    skipField tag bytes = some rest ↔ 0 < tag / 8 ∧
      ((∃ c body, IsScalar (tag % 8) c body ∧ bytes = body ++ rest) ∨
       (tag % 8 = 3 ∧ ∃ inside inner e, Fields 99 inside inner ∧ IsTag (tag / 8) 4 e ∧ bytes = inner ++ (e ++ rest))) := by
  unfold skipField
  split_ifs with h3 h0
  · constructor
    · intro h; cases h
    · rintro ⟨h, -⟩; omega
  · have e3 : tag = 8 * (tag / 8) + 3 := by omega
    have := skipGroup_iff bytes.length [tag / 8] (by simp; omega) bytes rest le_rfl (by simp)
    rw [List.map_cons, List.map_nil, ← e3] at this
    rw [this]
    constructor
    · rintro ⟨fs, inner, e, mid, hf, he, rfl, rfl⟩
      exact ⟨by omega, .inr ⟨h3, fs, inner, e, hf, he, rfl⟩⟩
    · rintro ⟨-, ⟨c, body, hs, -⟩ | ⟨-, fs, inner, e, hf, he, rfl⟩⟩
      · exact absurd h3 (scalar_wireType hs).2.1
      · exact ⟨fs, inner, e, rest, hf, he, rfl, rfl⟩
  · rw [skipScalar_iff]
    constructor
    · rintro ⟨h, h'⟩; exact ⟨h, .inl h'⟩
    · rintro ⟨h, h' | ⟨h', -⟩⟩
      · exact ⟨h, h'⟩
      · exact absurd h' h3

/-- `handle` does with the known fields what `step` says. -/
private structure Handles {M : Type} (handle : M → ℕ → List UInt8 → Option (Option (M × List UInt8)))
    (step : M → Field → Option M) : Prop where
  unknown : ∀ m tag bytes, handle m tag bytes = none → ∀ c, wireType c = tag % 8 → step m ⟨tag / 8, c⟩ = some m
  known : ∀ m tag bytes x, handle m tag bytes = some x → 0 < tag / 8 ∧ tag % 8 ≠ 3 ∧
    ∀ m' rest, x = some (m', rest) ↔ ∃ c body, IsScalar (tag % 8) c body ∧ bytes = body ++ rest ∧
      step m ⟨tag / 8, c⟩ = some m'

private theorem parse_iff {M : Type} {handle : M → ℕ → List UInt8 → Option (Option (M × List UInt8))}
    {step : M → Field → Option M} (hh : Handles handle step) (fuel : ℕ) (m r : M) (bytes : List UInt8)
    (hfuel : bytes.length ≤ fuel) :
    parseLoop handle fuel m bytes = some r ↔ ∃ fs, Fields 100 fs bytes ∧ fs.foldlM step m = some r := by
  induction fuel generalizing m bytes with
  | zero =>
    have : bytes = [] := by simpa using hfuel
    subst this
    rw [parseLoop]
    constructor
    · intro h; exact ⟨[], .nil, h⟩
    · rintro ⟨fs, hf, h⟩
      have hnil : fs = [] := by
        generalize hb : ([] : List UInt8) = b at hf
        cases hf with
        | nil => rfl
        | varint ht _ _ => have := isTag_pos ht; have := congrArg List.length hb; simp at this; omega
        | fixed64 ht _ _ => have := isTag_pos ht; have := congrArg List.length hb; simp at this; omega
        | bytes ht _ _ _ _ => have := isTag_pos ht; have := congrArg List.length hb; simp at this; omega
        | group ht _ _ _ => have := isTag_pos ht; have := congrArg List.length hb; simp at this; omega
        | fixed32 ht _ => have := congrArg List.length hb; simp at this
      subst hnil
      exact h
  | succ fuel ih =>
    constructor
    · intro h
      cases bytes with
      | nil => rw [parseLoop] at h; exact ⟨[], .nil, h⟩
      | cons b bs =>
        rw [parseLoop] at h
        · generalize hbytes : b :: bs = bytes at *
          cases htag : readTag bytes with
          | none => rw [htag] at h; cases h
          | some p =>
            obtain ⟨tag, rest⟩ := p
            rw [htag] at h
            dsimp only at h
            obtain ⟨t, rfl, ht, hv⟩ := (readTag_iff _ _ _).mp htag
            have hlen := isVarint_pos ht
            rw [List.length_append] at hfuel
            cases hhand : handle m tag rest with
            | none =>
              rw [hhand] at h
              dsimp only at h
              split_ifs at h with h1
              push Not at h1
              cases hs : skipField tag rest with
              | none => rw [hs] at h; cases h
              | some rest' =>
                rw [hs] at h
                dsimp only at h
                obtain ⟨h0, ⟨c, body, hc, rfl⟩ | ⟨h3, inside, inner, e, hf, he, rfl⟩⟩ := (skipField_iff _ _ _).mp hs
                · rw [List.length_append] at hfuel
                  obtain ⟨fs, hfs, hr⟩ := (ih m rest' (by omega)).mp h
                  refine ⟨⟨tag / 8, c⟩ :: fs, ?_, ?_⟩
                  · rw [← List.append_assoc]; exact fields_scalar (isTag_of ht hv h0) hc hfs
                  · rw [List.foldlM_cons, hh.unknown m tag _ hhand c (scalar_wireType hc).1]; exact hr
                · simp only [List.length_append] at hfuel
                  obtain ⟨fs, hfs, hr⟩ := (ih m rest' (by omega)).mp h
                  refine ⟨⟨tag / 8, .group⟩ :: fs, ?_, ?_⟩
                  · have := Fields.group (d := 99) (h3 ▸ isTag_of ht hv h0) hf he hfs
                    simpa only [List.append_assoc] using this
                  · rw [List.foldlM_cons, hh.unknown m tag _ hhand .group h3.symm]; exact hr
            | some x =>
              rw [hhand] at h
              obtain ⟨h0, h3, hx⟩ := hh.known m tag rest x hhand
              cases x with
              | none => cases h
              | some p =>
                obtain ⟨m', rest'⟩ := p
                dsimp only at h
                obtain ⟨c, body, hc, rfl, hstep⟩ := (hx m' rest').mp rfl
                rw [List.length_append] at hfuel
                obtain ⟨fs, hfs, hr⟩ := (ih m' rest' (by omega)).mp h
                refine ⟨⟨tag / 8, c⟩ :: fs, ?_, ?_⟩
                · rw [← List.append_assoc]; exact fields_scalar (isTag_of ht hv h0) hc hfs
                · rw [List.foldlM_cons, hstep]; exact hr
        · simp
    · rintro ⟨fs, hf, hr⟩
      have hcons : ∀ {x : List UInt8} {n w : ℕ} {t : List UInt8}, IsTag n w t →
          parseLoop handle (fuel + 1) m (t ++ x) =
            match handle m (8 * n + w) x with
            | some none => none
            | some (some (m, rest)) => parseLoop handle fuel m rest
            | none =>
              if 8 * n + w = 0 ∨ (8 * n + w) % 8 = 4 then none
              else match skipField (8 * n + w) x with
                | none => none
                | some rest => parseLoop handle fuel m rest := by
        intro x n w t ht
        rw [parseLoop]
        · rw [readTag_isTag ht]
          rfl
        · intro he
          rw [List.append_eq_nil_iff] at he
          have := isTag_pos ht
          rw [he.1] at this
          simp at this
      have hscalar : ∀ (n w : ℕ) (c : Content) (t body tail : List UInt8) (fs' : List Field), IsTag n w t →
          IsScalar w c body → Fields 100 fs' tail → (t ++ body ++ tail).length ≤ fuel + 1 →
          (⟨n, c⟩ :: fs').foldlM step m = some r → parseLoop handle (fuel + 1) m (t ++ body ++ tail) = some r := by
        intro n w c t body tail fs' ht hs hf' hl hr
        obtain ⟨hw1, hw3, hw4⟩ := scalar_wireType hs
        have hw : w < 8 := ht.2.2.1
        have hn := ht.2.2.2
        have e1 : (8 * n + w) % 8 = w := by omega
        have e2 : (8 * n + w) / 8 = n := by omega
        have hl' : tail.length ≤ fuel := by
          have := isTag_pos ht
          simp only [List.length_append] at hl
          omega
        rw [List.append_assoc, hcons ht]
        rw [List.foldlM_cons] at hr
        cases hhand : handle m (8 * n + w) (body ++ tail) with
        | none =>
          have := hh.unknown m _ _ hhand c (by rw [e1]; exact hw1)
          rw [e2] at this
          rw [this] at hr
          dsimp only
          rw [if_neg (by omega), (skipField_iff _ _ tail).mpr ⟨by omega, .inl ⟨c, body, by rw [e1]; exact hs, rfl⟩⟩]
          exact (ih m tail hl').mpr ⟨fs', hf', hr⟩
        | some x =>
          obtain ⟨-, -, hx⟩ := hh.known m _ _ x hhand
          cases hst : step m ⟨n, c⟩ with
          | none => rw [hst] at hr; cases hr
          | some m' =>
            rw [hst] at hr
            have := (hx m' tail).mpr ⟨c, body, by rw [e1]; exact hs, rfl, by rw [e2]; exact hst⟩
            rw [this]
            exact (ih m' tail hl').mpr ⟨fs', hf', hr⟩
      generalize hD : 100 = D at hf hscalar
      cases hf with
      | nil => rw [parseLoop]; exact hr
      | varint ht hv hf' => exact hscalar _ _ _ _ _ _ _ ht (.varint hv) hf' hfuel hr
      | fixed64 ht hv hf' => exact hscalar _ _ _ _ _ _ _ ht (.fixed64 hv) hf' hfuel hr
      | @bytes _ n t s payload fs' tail ht h1 h2 h3 hf' =>
        have := hscalar _ _ _ t (s ++ payload) tail _ ht (.bytes h1 h2 h3) hf' (by simpa using hfuel) hr
        simpa only [List.append_assoc] using this
      | fixed32 ht hf' => exact hscalar _ _ _ _ _ _ _ ht .fixed32 hf' hfuel hr
      | @group d n t e inside inner fs' tail ht hi he hf' =>
        have hn := ht.2.2.2
        have e1 : (8 * n + 3) % 8 = 3 := by omega
        have e2 : (8 * n + 3) / 8 = n := by omega
        have hd : d = 99 := by omega
        subst hd
        rw [List.append_assoc, List.append_assoc, hcons ht]
        rw [List.foldlM_cons] at hr
        cases hhand : handle m (8 * n + 3) (inner ++ (e ++ tail)) with
        | some x =>
          obtain ⟨-, h3, -⟩ := hh.known m _ _ x hhand
          exact absurd e1 h3
        | none =>
          have := hh.unknown m _ _ hhand .group e1.symm
          rw [e2] at this
          rw [this] at hr
          dsimp only
          rw [if_neg (by omega), (skipField_iff _ _ tail).mpr ⟨by omega, .inr ⟨e1, inside, inner, e, hi, by rw [e2]; exact he, rfl⟩⟩]
          refine (ih m tail ?_).mpr ⟨fs', hf', hr⟩
          have := isTag_pos ht
          simp only [List.length_append] at hfuel
          omega

private theorem readInt64_iff (bytes rest : List UInt8) (z : ℤ) :
    readInt64 bytes = some (z, rest) ↔ ∃ v, bytes = v ++ rest ∧ IsVarint 10 v ∧ z = signed64 (varintValue v % 2 ^ 64) := by
  unfold readInt64
  rw [Option.map_eq_some_iff]
  constructor
  · rintro ⟨⟨n, r⟩, h, he⟩
    obtain ⟨v, rfl, hv, rfl⟩ := (readVarint_iff0 _ _ _ _).mp h
    simp only [Prod.mk.injEq] at he
    obtain ⟨rfl, rfl⟩ := he
    exact ⟨v, rfl, hv, by unfold signed64; simp⟩
  · rintro ⟨v, rfl, hv, rfl⟩
    exact ⟨(varintValue v, rest), (readVarint_iff0 _ _ _ _).mpr ⟨v, rfl, hv, rfl⟩, by unfold signed64; simp⟩

private theorem onInt64_iff {M : Type} (set : ℤ → M) (bytes : List UInt8) (step : Field → Option M) (n : ℕ)
    (hstep : ∀ v, step ⟨n, .varint v⟩ = some (set (signed64 v))) (x : Option (M × List UInt8)) (h : onInt64 set bytes = some x)
    (m' : M) (rest : List UInt8) :
    x = some (m', rest) ↔ ∃ c body, IsScalar 0 c body ∧ bytes = body ++ rest ∧ step ⟨n, c⟩ = some m' := by
  unfold onInt64 at h
  rw [Option.some.injEq] at h
  subst h
  rw [Option.map_eq_some_iff]
  constructor
  · rintro ⟨⟨z, r⟩, h, he⟩
    obtain ⟨v, rfl, hv, rfl⟩ := (readInt64_iff _ _ _).mp h
    simp only [Prod.mk.injEq] at he
    obtain ⟨rfl, rfl⟩ := he
    exact ⟨_, v, .varint hv, rfl, hstep _⟩
  · rintro ⟨c, body, hs, rfl, h⟩
    cases hs with
    | varint hv =>
      rw [hstep, Option.some.injEq] at h
      exact ⟨(signed64 (varintValue body % 2 ^ 64), rest), (readInt64_iff _ _ _).mpr ⟨body, rfl, hv, rfl⟩, by rw [h]⟩

private theorem onFloat_iff {M : Type} (set : F32 → M) (bytes : List UInt8) (step : Field → Option M) (n : ℕ)
    (hstep : ∀ v, step ⟨n, .fixed32 v⟩ = some (set (ofBits v))) (x : Option (M × List UInt8)) (h : onFloat set bytes = some x)
    (m' : M) (rest : List UInt8) :
    x = some (m', rest) ↔ ∃ c body, IsScalar 5 c body ∧ bytes = body ++ rest ∧ step ⟨n, c⟩ = some m' := by
  unfold onFloat at h
  rw [Option.some.injEq] at h
  subst h
  rw [Option.map_eq_some_iff]
  constructor
  · rintro ⟨⟨k, r⟩, h, he⟩
    obtain ⟨a, b, c, d, rfl, rfl⟩ := (readFixed32_iff _ _ _).mp h
    simp only [Prod.mk.injEq] at he
    obtain ⟨rfl, rfl⟩ := he
    exact ⟨_, _, .fixed32, rfl, hstep _⟩
  · rintro ⟨c, body, hs, rfl, h⟩
    cases hs with
    | @fixed32 a b c e =>
      rw [hstep, Option.some.injEq] at h
      exact ⟨(fixed32Value a b c e, rest), (readFixed32_iff _ _ _).mpr ⟨a, b, c, e, rfl, rfl⟩, by rw [h]⟩

private theorem foldlM_some {M : Type} (f : M → Field → M) (fs : List Field) (m : M) :
    fs.foldlM (fun m x => some (f m x)) m = some (fs.foldl f m) := by
  induction fs generalizing m with
  | nil => rfl
  | cons a fs ih => rw [List.foldlM_cons]; exact ih _

private theorem price_handles : Handles handlePrice (fun r f => some (priceField r f)) where
  unknown := by
    intro m tag bytes h c hc
    unfold handlePrice onInt64 onFloat at h
    split_ifs at h with h1 h2 h3
    congr 1
    have : tag = 8 * (tag / 8) + wireType c := by omega
    generalize tag / 8 = n at *
    unfold priceField
    split
    all_goals first
      | rfl
      | (rename_i hf
         simp only [Field.mk.injEq] at hf
         obtain ⟨rfl, rfl⟩ := hf
         simp only [wireType] at this
         omega)
  known := by
    intro m tag bytes x h
    unfold handlePrice at h
    split_ifs at h with h1 h2 h3
    · subst h1; exact ⟨by norm_num, by norm_num, onInt64_iff _ _ (fun f => some (priceField m f)) 1 (fun _ => rfl) x h⟩
    · subst h2; exact ⟨by norm_num, by norm_num, onFloat_iff _ _ (fun f => some (priceField m f)) 2 (fun _ => rfl) x h⟩
    · subst h3; exact ⟨by norm_num, by norm_num, onFloat_iff _ _ (fun f => some (priceField m f)) 3 (fun _ => rfl) x h⟩

/-- **C88** (price records). The parser accepts exactly the well-formed messages; the record they stand for is given by
their fields in order, where unknown fields (and known ones with another wire type) do not count and the last value of
a field counts. -/
theorem C88_price (bytes : List UInt8) (r : PriceRecord F32) :
    priceCodec.decode bytes = some r ↔ ∃ fs, Fields 100 fs bytes ∧ r = fs.foldl priceField ⟨0, .fin 0, .fin 0⟩ := by
  show parseLoop handlePrice bytes.length _ bytes = some r ↔ _
  rw [parse_iff price_handles _ _ _ _ le_rfl]
  simp only [foldlM_some, Option.some.injEq, eq_comm]

private theorem ohlc_handles : Handles handleOhlc (fun r f => some (ohlcField r f)) where
  unknown := by
    intro m tag bytes h c hc
    unfold handleOhlc onInt64 onFloat at h
    split_ifs at h with h1 h2 h3 h4 h5 h6
    congr 1
    have : tag = 8 * (tag / 8) + wireType c := by omega
    generalize tag / 8 = n at *
    unfold ohlcField
    split
    all_goals first
      | rfl
      | (rename_i hf
         simp only [Field.mk.injEq] at hf
         obtain ⟨rfl, rfl⟩ := hf
         simp only [wireType] at this
         omega)
  known := by
    intro m tag bytes x h
    unfold handleOhlc at h
    split_ifs at h with h1 h2 h3 h4 h5 h6
    · subst h1; exact ⟨by norm_num, by norm_num, onInt64_iff _ _ (fun f => some (ohlcField m f)) 1 (fun _ => rfl) x h⟩
    · subst h2; exact ⟨by norm_num, by norm_num, onFloat_iff _ _ (fun f => some (ohlcField m f)) 2 (fun _ => rfl) x h⟩
    · subst h3; exact ⟨by norm_num, by norm_num, onFloat_iff _ _ (fun f => some (ohlcField m f)) 3 (fun _ => rfl) x h⟩
    · subst h4; exact ⟨by norm_num, by norm_num, onFloat_iff _ _ (fun f => some (ohlcField m f)) 4 (fun _ => rfl) x h⟩
    · subst h5; exact ⟨by norm_num, by norm_num, onFloat_iff _ _ (fun f => some (ohlcField m f)) 5 (fun _ => rfl) x h⟩
    · subst h6; exact ⟨by norm_num, by norm_num, onFloat_iff _ _ (fun f => some (ohlcField m f)) 6 (fun _ => rfl) x h⟩

/-- **C88** (ticks). -/
theorem C88_tick (bytes : List UInt8) (r : OhlcTick F32) :
    ohlcCodec.decode bytes = some r ↔
      ∃ fs, Fields 100 fs bytes ∧ r = fs.foldl ohlcField ⟨0, .fin 0, .fin 0, .fin 0, .fin 0, .fin 0⟩ := by
  show parseLoop handleOhlc bytes.length _ bytes = some r ↔ _
  rw [parse_iff ohlc_handles _ _ _ _ le_rfl]
  simp only [foldlM_some, Option.some.injEq, eq_comm]

private theorem readFloats_iff (fuel : ℕ) (bytes : List UInt8) (hfuel : bytes.length ≤ fuel) (xs : List F32) :
    readFloats fuel bytes = some xs ↔ bytes.length % 4 = 0 ∧ xs = packedFloats bytes := by
  induction fuel generalizing bytes xs with
  | zero =>
    have : bytes = [] := by simpa using hfuel
    subst this
    simp [readFloats, packedFloats, eq_comm]
  | succ fuel ih =>
    match bytes, hfuel with
    | [], _ => simp [readFloats, packedFloats, eq_comm]
    | [_], _ => simp [readFloats, readFixed32]
    | [_, _], _ => simp [readFloats, readFixed32]
    | [_, _, _], _ => simp [readFloats, readFixed32]
    | a :: b :: c :: d :: rest, hfuel =>
      rw [readFloats]
      · rw [(readFixed32_iff (a :: b :: c :: d :: rest) rest (fixed32Value a b c d)).mpr ⟨a, b, c, d, rfl, rfl⟩]
        dsimp only
        rw [Option.map_eq_some_iff, packedFloats]
        have hl : rest.length ≤ fuel := by simp at hfuel; omega
        constructor
        · rintro ⟨ys, h, rfl⟩
          obtain ⟨h1, rfl⟩ := (ih rest hl ys).mp h
          exact ⟨by simp; omega, rfl⟩
        · rintro ⟨h1, rfl⟩
          exact ⟨_, (ih rest hl _).mpr ⟨by simp at h1; omega, rfl⟩, rfl⟩
      · simp

/-- The fields of a side record; `none` if packed signals do not consist of whole floats. -/
private def sideTry (r : SideInputRecord F32) (f : Field) : Option (SideInputRecord F32) :=
  match f with
  | ⟨2, .bytes p⟩ => if p.length % 4 = 0 then some (sideField r f) else none
  | _ => some (sideField r f)

private theorem side_handles : Handles handleSide sideTry where
  unknown := by
    intro m tag bytes h c hc
    unfold handleSide onInt64 onFloat at h
    split_ifs at h with h1 h2 h3
    have : tag = 8 * (tag / 8) + wireType c := by omega
    generalize tag / 8 = n at *
    unfold sideTry sideField
    split
    · rename_i p hf
      simp only [Field.mk.injEq] at hf
      obtain ⟨rfl, rfl⟩ := hf
      simp only [wireType] at this
      omega
    · congr 1
      split
      all_goals first
        | rfl
        | (rename_i hf
           simp only [Field.mk.injEq] at hf
           obtain ⟨rfl, rfl⟩ := hf
           simp only [wireType] at this
           omega)
  known := by
    intro m tag bytes x h
    unfold handleSide at h
    split_ifs at h with h1 h2 h3
    · subst h1; exact ⟨by norm_num, by norm_num, onInt64_iff _ _ (sideTry m) 1 (fun _ => rfl) x h⟩
    · subst h2; exact ⟨by norm_num, by norm_num, onFloat_iff _ _ (sideTry m) 2 (fun _ => rfl) x h⟩
    · subst h3
      refine ⟨by norm_num, by norm_num, fun m' rest => ?_⟩
      rw [Option.some.injEq] at h
      subst h
      constructor
      · intro h
        split at h
        · cases h
        · rename_i packed r hr
          obtain ⟨s, rfl, k1, k2, k3⟩ := (readBytes_iff _ _ _).mp hr
          rw [Option.map_eq_some_iff] at h
          obtain ⟨xs, hx, he⟩ := h
          obtain ⟨k4, rfl⟩ := (readFloats_iff _ _ le_rfl _).mp hx
          simp only [Prod.mk.injEq] at he
          obtain ⟨rfl, rfl⟩ := he
          refine ⟨_, _, .bytes k1 k2 k3, rfl, ?_⟩
          show (if packed.length % 4 = 0 then _ else none) = _
          rw [if_pos k4]
          rfl
      · rintro ⟨c, body, hs, rfl, h⟩
        have e : (18 : ℕ) % 8 = 2 := rfl
        rw [e] at hs
        cases hs with
        | @bytes s payload k1 k2 k3 =>
          rw [(readBytes_iff _ rest payload).mpr ⟨s, rfl, k1, k2, k3⟩]
          dsimp only
          have h' : (if payload.length % 4 = 0 then some (sideField m ⟨2, .bytes payload⟩) else none) = some m' := h
          split_ifs at h' with k4
          rw [(readFloats_iff _ payload le_rfl (packedFloats payload)).mpr ⟨k4, rfl⟩]
          rw [Option.some.injEq] at h'
          rw [← h']
          rfl

private theorem sideTry_fold (fs : List Field) (m r : SideInputRecord F32) :
    fs.foldlM sideTry m = some r ↔ WholeFloats fs ∧ r = fs.foldl sideField m := by
  induction fs generalizing m with
  | nil => simp [WholeFloats, eq_comm, pure]
  | cons f fs ih =>
    rw [List.foldlM_cons]
    have hw : WholeFloats (f :: fs) ↔ (∀ p, f = ⟨2, .bytes p⟩ → p.length % 4 = 0) ∧ WholeFloats fs := by
      unfold WholeFloats
      simp
    rw [hw, List.foldl_cons]
    by_cases hf : ∃ p, f = ⟨2, .bytes p⟩
    · obtain ⟨p, rfl⟩ := hf
      show ((if p.length % 4 = 0 then some (sideField m ⟨2, .bytes p⟩) else none) >>= _) = _ ↔ _
      split_ifs with h4
      · show fs.foldlM sideTry _ = some r ↔ _
        rw [ih]
        constructor
        · rintro ⟨h1, h2⟩
          refine ⟨⟨fun q hq => ?_, h1⟩, h2⟩
          simp only [Field.mk.injEq, Content.bytes.injEq, true_and] at hq
          exact hq ▸ h4
        · rintro ⟨⟨-, h1⟩, h2⟩; exact ⟨h1, h2⟩
      · constructor
        · intro h; cases h
        · rintro ⟨⟨h, -⟩, -⟩; exact absurd (h p rfl) h4
    · push Not at hf
      have hs : sideTry m f = some (sideField m f) := by
        unfold sideTry
        split
        · rename_i p; exact absurd rfl (hf p)
        · rfl
      rw [hs]
      show fs.foldlM sideTry _ = some r ↔ _
      rw [ih]
      constructor
      · rintro ⟨h1, h2⟩; exact ⟨⟨fun p hp => absurd hp (hf p), h1⟩, h2⟩
      · rintro ⟨⟨-, h1⟩, h2⟩; exact ⟨h1, h2⟩

/-- **C88** (side records). Signals may be packed or not; packed ones must be whole floats. -/
theorem C88_side (bytes : List UInt8) (r : SideInputRecord F32) :
    sideCodec.decode bytes = some r ↔
      ∃ fs, Fields 100 fs bytes ∧ WholeFloats fs ∧ r = fs.foldl sideField ⟨0, []⟩ := by
  show parseLoop handleSide bytes.length _ bytes = some r ↔ _
  rw [parse_iff side_handles _ _ _ _ le_rfl]
  simp only [sideTry_fold]

private theorem Fields.append {d : ℕ} {fs gs : List Field} {a b : List UInt8} (ha : Fields d fs a) (hb : Fields d gs b) :
    Fields d (fs ++ gs) (a ++ b) := by
  induction ha with
  | nil => exact hb
  | varint h1 h2 _ ih => have := Fields.varint h1 h2 (ih hb); simpa using this
  | fixed64 h1 h2 _ ih => have := Fields.fixed64 h1 h2 (ih hb); simpa using this
  | bytes h1 h2 h3 h4 _ ih => have := Fields.bytes h1 h2 h3 h4 (ih hb); simpa using this
  | group h1 h2 h3 _ _ ih => have := Fields.group h1 h2 h3 (ih hb); simpa using this
  | @fixed32 d n t a b c e fs rest h1 _ ih => have := Fields.fixed32 (a := a) (b := b) (c := c) (e := e) h1 (ih hb); simpa using this

/-- **C88** (messages end to end). Bytes that follow a message add their fields to it, for prices, -/
theorem C88_append_price (a b : List UInt8) (r : PriceRecord F32) (gs : List Field)
    (ha : priceCodec.decode a = some r) (hb : Fields 100 gs b) :
    priceCodec.decode (a ++ b) = some (gs.foldl priceField r) := by
  obtain ⟨fs, hf, rfl⟩ := (C88_price _ _).mp ha
  exact (C88_price _ _).mpr ⟨fs ++ gs, Fields.append hf hb, by rw [List.foldl_append]⟩

/-- for ticks, -/
theorem C88_append_tick (a b : List UInt8) (r : OhlcTick F32) (gs : List Field)
    (ha : ohlcCodec.decode a = some r) (hb : Fields 100 gs b) :
    ohlcCodec.decode (a ++ b) = some (gs.foldl ohlcField r) := by
  obtain ⟨fs, hf, rfl⟩ := (C88_tick _ _).mp ha
  exact (C88_tick _ _).mpr ⟨fs ++ gs, Fields.append hf hb, by rw [List.foldl_append]⟩

/-- and for side records. -/
theorem C88_append_side (a b : List UInt8) (r : SideInputRecord F32) (gs : List Field)
    (ha : sideCodec.decode a = some r) (hb : Fields 100 gs b) (hw : WholeFloats gs) :
    sideCodec.decode (a ++ b) = some (gs.foldl sideField r) := by
  obtain ⟨fs, hf, hw', rfl⟩ := (C88_side _ _).mp ha
  refine (C88_side _ _).mpr ⟨fs ++ gs, Fields.append hf hb, ?_, by rw [List.foldl_append]⟩
  intro f hm
  rcases List.mem_append.mp hm with hm | hm
  · exact hw' f hm
  · exact hw f hm

private theorem foldl_id {M : Type} (step : M → Field → M) (gs : List Field) (h : ∀ f ∈ gs, ∀ m, step m f = m) (m : M) :
    gs.foldl step m = m := by
  induction gs generalizing m with
  | nil => rfl
  | cons a gs ih =>
    rw [List.foldl_cons, h a (by simp)]
    exact ih (fun f hf => h f (by simp [hf])) m

/-- **C88** (later versions). Fields that a later version of the format adds do not keep this one from reading a
record: for prices, -/
theorem C88_newer_price (r : PriceRecord F32) (h : MachinePrice r) (b : List UInt8) (gs : List Field)
    (hb : Fields 100 gs b) (hn : ∀ f ∈ gs, 3 < f.number) :
    priceCodec.decode (priceCodec.encode r ++ b) = some r := by
  rw [C88_append_price _ b r gs (C81_price r h).1.2 hb]
  congr 1
  refine foldl_id _ _ (fun f hf m => ?_) r
  have := hn f hf
  unfold priceField
  split <;> first | rfl | simp at this

/-- for ticks, -/
theorem C88_newer_tick (r : OhlcTick F32) (h : MachineTick r) (b : List UInt8) (gs : List Field)
    (hb : Fields 100 gs b) (hn : ∀ f ∈ gs, 6 < f.number) :
    ohlcCodec.decode (ohlcCodec.encode r ++ b) = some r := by
  rw [C88_append_tick _ b r gs (C81_tick r h).1.2 hb]
  congr 1
  refine foldl_id _ _ (fun f hf m => ?_) r
  have := hn f hf
  unfold ohlcField
  split <;> first | rfl | simp at this

/-- and for side records. -/
theorem C88_newer_side (r : SideInputRecord F32) (h : MachineSide r) (hs : 11 + 5 * r.signals.length ≤ 2 ^ 31 - 1)
    (b : List UInt8) (gs : List Field) (hb : Fields 100 gs b) (hn : ∀ f ∈ gs, 2 < f.number) :
    sideCodec.decode (sideCodec.encode r ++ b) = some r := by
  rw [C88_append_side _ b r gs (C81_side r h hs).1.2 hb (fun f hf p hp => by have := hn f hf; rw [hp] at this; simp at this)]
  congr 1
  refine foldl_id _ _ (fun f hf m => ?_) r
  have := hn f hf
  unfold sideField
  split <;> first | rfl | simp at this

/-- A price of 1.5 followed by a group with field 3 in it, field 20, and a later price: the last price counts. -/
private def wfBytes : List UInt8 :=
  [8, 7] ++ [21, 0, 0, 192, 63] ++ [11, 29, 0, 0, 0, 64, 12] ++ [162, 1, 2, 9, 9] ++ [21, 0, 0, 32, 64]

/-- The bytes mean what the wire format says, … -/
example : priceCodec.decode wfBytes = some ⟨7, .fin (5 / 2), .fin 0⟩ := by decide +kernel

/-- … bytes that follow may be such fields, … -/
example : ∃ gs, Fields 100 gs [162, 1, 2, 9, 9] ∧ gs = [⟨20, .bytes [9, 9]⟩] ∧ ∀ f ∈ gs, 6 < f.number := by
  refine ⟨[⟨20, .bytes [9, 9]⟩], ?_, rfl, by simp⟩
  have h1 : IsTag 20 2 [162, 1] := ⟨⟨by simp, [162], 1, rfl, by simp, by decide⟩, by decide, by norm_num, by norm_num⟩
  exact Fields.bytes (t := [162, 1]) (s := [2]) (payload := [9, 9]) h1 ⟨by simp, [], 2, rfl, by simp, by decide⟩
    (by decide) (by norm_num) .nil

/-- … a field that ends too early, a tag with number 0 and a group with another's end tag are refused, … -/
example : priceCodec.decode [21, 0, 0, 192] = none ∧ priceCodec.decode [8, 7, 0] = none ∧ priceCodec.decode [11, 20] = none := by
  decide +kernel

/-- … and signals may be packed or not. -/
example : sideCodec.decode [18, 8, 0, 0, 128, 63, 0, 0, 0, 64, 21, 0, 0, 64, 64] = some ⟨0, [.fin 1, .fin 2, .fin 3]⟩ ∧
    sideCodec.decode [18, 3, 0, 0, 128] = none := by
  decide +kernel

end Verif.Props
