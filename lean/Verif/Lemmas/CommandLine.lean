import Verif.Spec.CommandLine

/-!
# Lemmas about command lines (C107)
-/

namespace Verif.CommandLine
open Verif.Convert Verif.Spec

variable {S D : Type}

/-- Names and types of the declared flags. -/
def regOf (defs : List (FlagDef S)) : Registry := defs.map (fun d => (d.name, d.kind))

/-- Names that cannot be confused. -/
structure WellNamed (defs : List (FlagDef S)) : Prop where
  nodup : (defs.map (·.name)).Nodup
  plain : ∀ d ∈ defs, d.name ≠ [] ∧ '=' ∉ d.name ∧ d.name.head? ≠ some '-' ∧ isBuiltin d.name = false ∧
    isBuiltin ('n' :: 'o' :: d.name) = false
  no : ∀ d ∈ defs, ∀ e ∈ defs, e.name ≠ 'n' :: 'o' :: d.name

theorem find_self {defs : List (FlagDef S)} (hw : (defs.map (·.name)).Nodup) {d : FlagDef S} (hd : d ∈ defs) :
    defs.find? (fun e => decide (e.name = d.name)) = some d := by
  induction defs with
  | nil => cases hd
  | cons e rest ih =>
    rw [List.map_cons, List.nodup_cons] at hw
    rcases List.mem_cons.mp hd with rfl | h
    · simp
    · have : e.name ≠ d.name := fun he => hw.1 (he ▸ List.mem_map_of_mem h)
      simp [this, ih hw.2 h]

theorem locate_self {defs : List (FlagDef S)} (hw : WellNamed defs) {d : FlagDef S} (hd : d ∈ defs) :
    locate defs d.name = some (d, false) := by
  unfold locate; rw [find_self hw.nodup hd]

theorem locate_no {defs : List (FlagDef S)} (hw : WellNamed defs) {d : FlagDef S} (hd : d ∈ defs) :
    locate defs ('n' :: 'o' :: d.name) = some (d, true) := by
  unfold locate
  have : defs.find? (fun e => decide (e.name = 'n' :: 'o' :: d.name)) = none :=
    List.find?_eq_none.mpr (fun e he => by simpa using hw.no d hd e he)
  rw [this]
  simp only [find_self hw.nodup hd, Option.map_some]

theorem locate_some {defs : List (FlagDef S)} {name : Text} {d : FlagDef S} {neg : Bool} (h : locate defs name = some (d, neg)) :
    d ∈ defs ∧ (if neg then name = 'n' :: 'o' :: d.name else name = d.name) := by
  unfold locate at h
  split at h
  · rename_i e he
    have hm := List.mem_of_find?_eq_some he
    have hp := List.find?_some he
    injection h with h; injection h with h1 h2; subst h1; subst h2
    exact ⟨hm, by simpa using (of_decide_eq_true hp).symm⟩
  · split at h
    · rename_i rest _
      cases hf : defs.find? (fun d => decide (d.name = rest)) with
      | none => rw [hf] at h; cases h
      | some e =>
        rw [hf] at h
        have hm := List.mem_of_find?_eq_some hf
        have hp := of_decide_eq_true (p := e.name = rest) (by simpa using List.find?_some hf)
        injection h with h; injection h with h1 h2; subst h1; subst h2
        exact ⟨hm, by simp [hp]⟩
    · cases h

/-- The text behind the name. -/
def tail : Option Text → Text
  | none => []
  | some v => '=' :: v

theorem splitEq_tail (name : Text) (hn : '=' ∉ name) (v : Option Text) : splitEq (name ++ tail v) = (name, v) := by
  induction name with
  | nil => cases v <;> simp [tail, splitEq]
  | cons c cs ih =>
    simp only [List.mem_cons, not_or] at hn
    simp only [List.cons_append, splitEq, ih hn.2, if_neg (Ne.symm hn.1)]

theorem splitEq_form (s : Text) : s = (splitEq s).1 ++ tail (splitEq s).2 ∧ '=' ∉ (splitEq s).1 := by
  induction s with
  | nil => simp [splitEq, tail]
  | cons c cs ih =>
    unfold splitEq
    by_cases hc : c = '='
    · simp [hc, tail]
    · simp only [if_neg hc, List.cons_append, ← ih.1, List.mem_cons, not_or, true_and]
      exact ⟨fun h => hc h.symm, ih.2⟩

theorem split_tail (d : Text) (hd : d = [] ∨ d = ['-']) (name : Text) (hn : '=' ∉ name) (hh : name.head? ≠ some '-')
    (hne : d = ['-'] ∨ name ≠ []) (v : Option Text) : splitNameAndValue (d ++ name ++ tail v) = (name, v) := by
  have key : dropDash (d ++ name ++ tail v) = name ++ tail v := by
    rcases hd with rfl | rfl
    · rcases hne with h | h
      · cases h
      · cases name with
        | nil => exact absurd rfl h
        | cons c cs =>
          have : c ≠ '-' := fun h => hh (by rw [h]; rfl)
          simp only [List.nil_append, List.cons_append]
          unfold dropDash
          split
          · rename_i heq; injection heq with h1; exact absurd h1 this
          · rfl
    · rfl
  rw [splitNameAndValue, key, splitEq_tail name hn]

theorem split_form (arg : Text) : ∃ d, (d = [] ∨ d = ['-']) ∧
    arg = d ++ (splitNameAndValue arg).1 ++ tail (splitNameAndValue arg).2 ∧ '=' ∉ (splitNameAndValue arg).1 := by
  have h : ∃ d, (d = [] ∨ d = ['-']) ∧ arg = d ++ dropDash arg := by
    unfold dropDash
    split
    · exact ⟨['-'], .inr rfl, rfl⟩
    · exact ⟨[], .inl rfl, rfl⟩
  obtain ⟨d, hd, he⟩ := h
  refine ⟨d, hd, ?_, (splitEq_form _).2⟩
  rw [List.append_assoc]
  unfold splitNameAndValue
  rw [← (splitEq_form _).1]
  exact he

/-- What an argument with dashes is, by its name and value. -/
def byName (defs : List (FlagDef S)) (name : Text) (value : Option Text) : Step S :=
  if name = [] then .stop
  else if isBuiltin name then .builtin
  else match locate defs name with
    | none => .mistake
    | some (d, negative) => deduce d negative value

theorem classify_dashes (defs : List (FlagDef S)) {d : Text} (hd : Dashes d) (name : Text) (hn : '=' ∉ name)
    (hh : name.head? ≠ some '-') (v : Option Text) (hne : d ++ name ++ tail v ≠ ['-']) :
    classify defs (d ++ name ++ tail v) = byName defs name v := by
  rcases hd with rfl | rfl
  · cases name with
    | nil =>
      cases v with
      | none => exact absurd rfl hne
      | some v => rfl
    | cons c cs =>
      have h := split_tail [] (.inl rfl) (c :: cs) hn hh (.inr (by simp)) v
      show classify defs ('-' :: c :: (cs ++ tail v)) = _
      unfold classify
      simp only [List.nil_append, List.cons_append] at h
      simp only [h]
      rfl
  · have h := split_tail ['-'] (.inr rfl) name hn hh (.inl rfl) v
    show classify defs ('-' :: '-' :: (name ++ tail v)) = _
    unfold classify
    simp only [List.cons_append, List.nil_append] at h
    simp only [h]
    rfl

theorem classify_form (defs : List (FlagDef S)) (arg : Text) :
    (Positional arg ∧ classify defs arg = .positional) ∨
    ∃ d name v, Dashes d ∧ arg = d ++ name ++ tail v ∧ '=' ∉ name ∧ classify defs arg = byName defs name v := by
  unfold classify
  split
  · rename_i c rest
    obtain ⟨d, hd, he, hn⟩ := split_form (c :: rest)
    right
    refine ⟨'-' :: d, (splitNameAndValue (c :: rest)).1, (splitNameAndValue (c :: rest)).2, ?_, ?_, hn, rfl⟩
    · rcases hd with rfl | rfl
      · exact .inl rfl
      · exact .inr rfl
    · rw [List.cons_append, List.cons_append, ← he]
  · rename_i h
    left
    refine ⟨?_, rfl⟩
    by_cases ha : arg = ['-']
    · exact .inl ha
    · right
      rintro rest rfl
      cases rest with
      | nil => exact ha rfl
      | cons c cs => exact h c cs rfl

theorem classify_positional (defs : List (FlagDef S)) {arg : Text} (h : Positional arg) : classify defs arg = .positional := by
  rcases h with rfl | h
  · rfl
  · unfold classify
    split
    · exact absurd rfl (h _)
    · rfl

theorem classify_stop (defs : List (FlagDef S)) {arg : Text} (h : EndOfFlags arg) : classify defs arg = .stop := by
  rcases h with rfl | ⟨d, v, hd, rfl⟩
  · rfl
  · have := classify_dashes defs hd [] (by simp) (by simp) (some v) (by
      rcases hd with rfl | rfl <;> simp [tail])
    simpa [tail, byName] using this

theorem classify_flag {defs : List (FlagDef S)} (hw : WellNamed defs) {f : FlagDef S} (hf : f ∈ defs) {d : Text} (hd : Dashes d)
    (v : Option Text) : classify defs (d ++ f.name ++ tail v) = deduce f false v := by
  obtain ⟨h1, h2, h3, h4, -⟩ := hw.plain f hf
  rw [classify_dashes defs hd f.name h2 h3 v]
  · unfold byName; rw [if_neg h1, h4, locate_self hw hf]; rfl
  · rcases hd with rfl | rfl <;> cases hn : f.name <;> simp_all

theorem classify_no {defs : List (FlagDef S)} (hw : WellNamed defs) {f : FlagDef S} (hf : f ∈ defs) {d : Text} (hd : Dashes d)
    (v : Option Text) : classify defs (d ++ ('n' :: 'o' :: f.name) ++ tail v) = deduce f true v := by
  obtain ⟨h1, h2, h3, -, h5⟩ := hw.plain f hf
  rw [classify_dashes defs hd ('n' :: 'o' :: f.name) (by simp [h2]) (by simp) v]
  · unfold byName; rw [if_neg (by simp), h5, locate_no hw hf]; rfl
  · rcases hd with rfl | rfl <;> simp

theorem reg_mem {defs : List (FlagDef S)} {name : Text} {k : Kind} (h : (name, k) ∈ regOf defs) :
    ∃ f ∈ defs, f.name = name ∧ f.kind = k := by
  obtain ⟨f, hf, he⟩ := List.mem_map.mp h
  injection he with h1 h2
  exact ⟨f, hf, h1, h2⟩

/-- The settings, one after the other. -/
def applyAll (defs : List (FlagDef S)) (settings : List (Text × Text)) (st : S × Bool) : S × Bool :=
  settings.foldl (fun st s => match defs.find? (fun d => decide (d.name = s.1)) with
    | some d => setFlag d s.2 st
    | none => st) st

theorem applyAll_cons {defs : List (FlagDef S)} (hw : WellNamed defs) {f : FlagDef S} (hf : f ∈ defs) (v : Text)
    (l : List (Text × Text)) (st : S × Bool) :
    applyAll defs ((f.name, v) :: l) st = applyAll defs l (setFlag f v st) := by
  unfold applyAll; rw [List.foldl_cons]; simp only [find_self hw.nodup hf]

/-- What is spelled out is done. -/
theorem parseLoop_of_spelled {defs : List (FlagDef S)} (hw : WellNamed defs) {args : List Text} {l : List (Text × Text)}
    (h : Spelled (regOf defs) args l) : ∀ st, parseLoop defs args st = some (applyAll defs l st) := by
  induction h with
  | nil => intro st; rfl
  | stop h => intro st; simp only [parseLoop, classify_stop defs h]; rfl
  | positional h _ ih => intro st; simp only [parseLoop, classify_positional defs h, ih]
  | @assign d name value k rest l hd hn hv _ ih =>
    intro st
    obtain ⟨f, hf, rfl, rfl⟩ := reg_mem hn
    have h := classify_flag hw hf hd (some value)
    have h2 : deduce f false (some value) = .assign f value := by
      unfold deduce
      by_cases hk : f.kind = .bool
      · simp [hk, hv hk]
      · simp [hk]
    rw [applyAll_cons hw hf, ← ih]
    simp only [parseLoop]
    rw [show d ++ f.name ++ '=' :: value = d ++ f.name ++ tail (some value) from rfl, h, h2]
  | @next d name value k rest l hd hn hk _ ih =>
    intro st
    obtain ⟨f, hf, rfl, rfl⟩ := reg_mem hn
    have h := classify_flag hw hf hd none
    have h2 : deduce f false none = .takesNext f := by unfold deduce; simp [hk]
    rw [applyAll_cons hw hf, ← ih]
    rw [show d ++ f.name ++ tail none = d ++ f.name from by simp [tail]] at h
    simp only [parseLoop, h, h2]
  | @on d name rest l hd hn _ ih =>
    intro st
    obtain ⟨f, hf, rfl, hk⟩ := reg_mem hn
    have h := classify_flag hw hf hd none
    have h2 : deduce f false none = .assign f ['1'] := by unfold deduce; simp [hk]
    rw [applyAll_cons hw hf, ← ih]
    rw [show d ++ f.name ++ tail none = d ++ f.name from by simp [tail]] at h
    simp only [parseLoop, h, h2]
  | @off d name rest l hd hn _ ih =>
    intro st
    obtain ⟨f, hf, rfl, hk⟩ := reg_mem hn
    have h := classify_no hw hf hd none
    have h2 : deduce f true none = .assign f ['0'] := by unfold deduce; simp [hk]
    rw [applyAll_cons hw hf, ← ih]
    rw [show d ++ ('n' :: 'o' :: f.name) ++ tail none = d ++ ('n' :: 'o' :: f.name) from by simp [tail]] at h
    simp only [parseLoop, h, h2]

theorem setFlag_false (d : FlagDef S) (v : Text) (s : S) : (setFlag d v (s, false)).2 = false := by
  unfold setFlag; split <;> rfl

theorem parseLoop_false (defs : List (FlagDef S)) (args : List Text) : ∀ (s : S) (st' : S × Bool),
    parseLoop defs args (s, false) = some st' → st'.2 = false := by
  suffices h : ∀ (n : ℕ) (args : List Text), args.length ≤ n → ∀ (s : S) (st' : S × Bool),
      parseLoop defs args (s, false) = some st' → st'.2 = false from h _ _ le_rfl
  intro n
  induction n with
  | zero =>
    intro args hl s st' h
    cases args with
    | nil => cases h; rfl
    | cons a r => simp at hl
  | succ n ih =>
    intro args hl s st' h
    cases args with
    | nil => cases h; rfl
    | cons arg rest =>
      have hl' : rest.length ≤ n := by simpa using hl
      simp only [parseLoop] at h
      split at h
      · exact ih _ hl' _ _ h
      · cases h; rfl
      · cases h
      · exact ih _ hl' _ _ h
      · rename_i d v _
        obtain ⟨s2, hs⟩ : ∃ s2, setFlag d v (s, false) = (s2, false) := ⟨_, Prod.ext rfl (setFlag_false d v s)⟩
        rw [hs] at h
        exact ih _ hl' _ _ h
      · rename_i d _
        split at h
        · cases h; rfl
        · rename_i v rest2
          obtain ⟨s2, hs⟩ : ∃ s2, setFlag d v (s, false) = (s2, false) := ⟨_, Prod.ext rfl (setFlag_false d v s)⟩
          rw [hs] at h
          exact ih _ (by simp at hl'; omega) _ _ h

theorem mem_reg {defs : List (FlagDef S)} {f : FlagDef S} (hf : f ∈ defs) : (f.name, f.kind) ∈ regOf defs :=
  List.mem_map.mpr ⟨f, hf, rfl⟩

/-- A command line that was understood spells something out. -/
theorem spelled_of_parseLoop {defs : List (FlagDef S)} (hw : WellNamed defs) (args : List Text) : ∀ (st st' : S × Bool),
    parseLoop defs args st = some st' → st'.2 = true → ∃ l, Spelled (regOf defs) args l := by
  suffices h : ∀ (n : ℕ) (args : List Text), args.length ≤ n → ∀ (st st' : S × Bool),
      parseLoop defs args st = some st' → st'.2 = true → ∃ l, Spelled (regOf defs) args l from h _ _ le_rfl
  intro n
  induction n with
  | zero =>
    intro args hl s st' h _
    cases args with
    | nil => exact ⟨_, .nil⟩
    | cons a r => simp at hl
  | succ n ih =>
    intro args hl st st' h ht
    cases args with
    | nil => exact ⟨_, .nil⟩
    | cons arg rest =>
      have hl' : rest.length ≤ n := by simpa using hl
      simp only [parseLoop] at h
      rcases classify_form defs arg with ⟨hp, hc⟩ | ⟨d, name, v, hd, rfl, hn, hc⟩
      · rw [hc] at h
        obtain ⟨l, hsp⟩ := ih _ hl' _ _ h ht
        exact ⟨l, .positional hp hsp⟩
      rw [hc] at h
      unfold byName at h
      by_cases hname : name = []
      · subst hname
        refine ⟨[], .stop ?_⟩
        cases v with
        | none =>
          rcases hd with rfl | rfl
          · -- a single dash is positional
            exact absurd hc (by simp [tail, classify, byName])
          · exact .inl rfl
        | some v => exact .inr ⟨d, v, hd, by simp [tail]⟩
      rw [if_neg hname] at h
      cases hb : isBuiltin name with
      | true => rw [hb] at h; cases h
      | false =>
        rw [hb] at h
        cases hloc : locate defs name with
        | none =>
          rw [hloc] at h
          exact absurd (parseLoop_false defs rest _ _ h) (by rw [ht]; simp)
        | some x =>
          obtain ⟨f, neg⟩ := x
          rw [hloc] at h
          obtain ⟨hf, hname'⟩ := locate_some hloc
          simp only [Bool.false_eq_true, if_false] at h
          unfold deduce at h
          by_cases hk : f.kind = .bool
          · rw [if_pos hk] at h
            have hreg : (f.name, Kind.bool) ∈ regOf defs := hk ▸ mem_reg hf
            cases v with
            | none =>
              simp only at h
              obtain ⟨l, hsp⟩ := ih _ hl' _ _ h ht
              cases neg with
              | true =>
                simp only [if_true] at hname'
                subst hname'
                exact ⟨_, by simpa [tail] using Spelled.off hd hreg hsp⟩
              | false =>
                simp only [Bool.false_eq_true, if_false] at hname'
                subst hname'
                exact ⟨_, by simpa [tail] using Spelled.on hd hreg hsp⟩
            | some v =>
              simp only at h
              by_cases hv : v = [] ∨ neg = true
              · rw [if_pos hv] at h
                exact absurd (parseLoop_false defs rest _ _ h) (by rw [ht]; simp)
              · rw [if_neg hv] at h
                push Not at hv
                have hneg : neg = false := by simpa using hv.2
                subst hneg
                simp only [Bool.false_eq_true, if_false] at hname'
                subst hname'
                obtain ⟨l, hsp⟩ := ih _ hl' _ _ h ht
                exact ⟨_, Spelled.assign hd hreg (fun _ => hv.1) hsp⟩
          · rw [if_neg hk] at h
            cases neg with
            | true =>
              exact absurd (parseLoop_false defs rest _ _ h) (by rw [ht]; simp)
            | false =>
              simp only [Bool.false_eq_true, if_false] at hname' h
              subst hname'
              cases v with
              | some v =>
                obtain ⟨l, hsp⟩ := ih _ hl' _ _ h ht
                exact ⟨_, Spelled.assign hd (mem_reg hf) (fun h => absurd h hk) hsp⟩
              | none =>
                simp only at h
                cases rest with
                | nil => cases h; cases ht
                | cons v rest =>
                  obtain ⟨l, hsp⟩ := ih _ (by simp at hl'; omega) _ _ h ht
                  exact ⟨_, by simpa [tail] using Spelled.next hd (mem_reg hf) hk hsp⟩

/-- A command line about none of abseil's own flags has a known outcome. -/
theorem parseLoop_isSome (defs : List (FlagDef S)) (args : List Text) (hb : ∀ a ∈ args, ¬ NamesBuiltin a) :
    ∀ st : S × Bool, ∃ st', parseLoop defs args st = some st' := by
  suffices h : ∀ (n : ℕ) (args : List Text), args.length ≤ n → (∀ a ∈ args, ¬ NamesBuiltin a) →
      ∀ st : S × Bool, ∃ st', parseLoop defs args st = some st' from h _ _ le_rfl hb
  intro n
  induction n with
  | zero =>
    intro args hl _ st
    cases args with
    | nil => exact ⟨_, rfl⟩
    | cons a r => simp at hl
  | succ n ih =>
    intro args hl hb st
    cases args with
    | nil => exact ⟨_, rfl⟩
    | cons arg rest =>
      have hl' : rest.length ≤ n := by simpa using hl
      have hb' : ∀ a ∈ rest, ¬ NamesBuiltin a := fun a ha => hb a (List.mem_cons_of_mem _ ha)
      simp only [parseLoop]
      cases hc : classify defs arg with
      | positional => exact ih _ hl' hb' _
      | stop => exact ⟨_, rfl⟩
      | mistake => exact ih _ hl' hb' _
      | assign d v => exact ih _ hl' hb' _
      | takesNext d =>
        cases rest with
        | nil => exact ⟨_, rfl⟩
        | cons v rest => exact ih _ (by simp at hl'; omega) (fun a ha => hb' a (List.mem_cons_of_mem _ ha)) _
      | builtin =>
        exfalso
        apply hb arg (List.mem_cons_self ..)
        rcases classify_form defs arg with ⟨-, h⟩ | ⟨d, name, v, hd, rfl, hn, h⟩
        · rw [h] at hc; cases hc
        rw [h] at hc
        unfold byName at hc
        split at hc
        · cases hc
        split at hc
        · rename_i hbn
          have htl : tail v = [] ∨ ∃ w, tail v = '=' :: w := by
            cases v with
            | none => exact .inl rfl
            | some w => exact .inr ⟨w, rfl⟩
          unfold isBuiltin at hbn
          rw [Bool.or_eq_true] at hbn
          rcases hbn with hbn | hbn
          · exact ⟨d, [], name, tail v, hd, .inl rfl, of_decide_eq_true hbn, by simp, htl⟩
          · split at hbn
            · rename_i rest' _
              exact ⟨d, ['n', 'o'], rest', tail v, hd, .inr rfl, of_decide_eq_true hbn, by simp, htl⟩
            · cases hbn
        · split at hc
          · cases hc
          · unfold deduce at hc
            split at hc
            · split at hc
              · cases hc
              · split at hc <;> cases hc
            · split at hc
              · cases hc
              · split at hc <;> cases hc

end Verif.CommandLine
