import Verif.Spec.Window
import Verif.Num.Exact

/-! Window helpers: `UpdateCurrentValue` after `AddNewValue`, reduction to sequences of additions. -/

set_option linter.unusedSectionVars false

namespace Verif
open FloatOps Spec

/-- A sequence of calls on a helper. -/
def runOps {F σ : Type} (add upd : σ → F → Res σ) (s : σ) (ops : List (WinOp F)) : Res σ :=
  ops.foldlM (fun s op => match op with | .add x => add s x | .update x => upd s x) s

theorem Res.bind_assoc {α β γ : Type} (x : Res α) (f : α → Res β) (g : β → Res γ) :
    (x >>= f) >>= g = x >>= fun a => f a >>= g := by cases x <;> rfl

theorem foldlM_snoc {α σ : Type} (f : σ → α → Res σ) (s : σ) (l : List α) (x : α) :
    (l ++ [x]).foldlM f s = l.foldlM f s >>= fun s => f s x := by
  induction l generalizing s with
  | nil =>
    show (f s x >>= pure) = f s x
    cases f s x <;> rfl
  | cons a l ih =>
    simp only [List.cons_append, List.foldlM_cons]
    cases f s a with
    | error e => rfl
    | ok s' => exact ih s'

theorem values_snoc {F : Type} (ops : List (WinOp F)) (op : WinOp F) :
    values (ops ++ [op]) = (values ops).bind (fun vs => match op with
      | .add x => some (vs ++ [x])
      | .update x => if vs = [] then none else some (vs.dropLast ++ [x])) := by
  simp only [values, List.foldlM_append, List.foldlM_cons, List.foldlM_nil]
  cases h : List.foldlM (m := Option) (fun vs op => match op with
    | .add x => some (vs ++ [x])
    | .update x => if vs = [] then none else some (vs.dropLast ++ [x])) [] ops with
  | none => rfl
  | some vs => cases op <;> simp

/-- If updating after adding is the same as having added the new value, any sequence of calls is equivalent to
adding the sequence of values. -/
theorem runOps_canonical {F σ : Type} (add upd : σ → F → Res σ) (I : σ → Prop) (s0 : σ)
    (hI : I s0) (hadd : ∀ s x s', I s → add s x = .ok s' → I s')
    (hlaw : ∀ s a b, I s → (add s a >>= fun s => upd s b) = add s b)
    (hinit : ∀ b, upd s0 b = .error .assertion) (ops : List (WinOp F)) :
    runOps add upd s0 ops = match values ops with
      | some vs => vs.foldlM add s0
      | none => .error .assertion := by
  -- additions keep the invariant, or fail
  have hfold : ∀ (vs : List F) s, vs.foldlM add s0 = .ok s → I s := by
    intro vs
    induction vs using List.reverseRecOn with
    | nil => intro s h; cases h; exact hI
    | append_singleton vs x ih =>
      intro s h
      rw [foldlM_snoc] at h
      cases hv : vs.foldlM add s0 with
      | error e => rw [hv] at h; cases h
      | ok s1 => rw [hv] at h; exact hadd s1 x s (ih _ hv) h
  induction ops using List.reverseRecOn with
  | nil => rfl
  | append_singleton ops op ih =>
    unfold runOps at *
    rw [foldlM_snoc, ih, values_snoc]
    cases hv : values ops with
    | none => rfl
    | some vs =>
      cases op with
      | add x => simp only [Option.bind_some]; rw [foldlM_snoc]
      | update x =>
        simp only [Option.bind_some]
        rcases vs.eq_nil_or_concat with rfl | ⟨ws, a, rfl⟩
        · simp only [if_pos]
          show upd s0 x = _
          exact hinit x
        · rw [List.concat_eq_append, if_neg (by simp)]
          simp only [List.dropLast_concat, foldlM_snoc, Res.bind_assoc]
          cases hw : ws.foldlM add s0 with
          | error e => rfl
          | ok s1 => exact hlaw s1 a x (hfold _ _ hw)

section
variable {F D : Type} [FloatOps F] [FloatOps D] [Wide F D]

theorem MeanVar.add_num (s : MeanVar F) (a : F) : (s.add a).num = s.num + 1 := by
  unfold MeanVar.add
  dsimp only
  split
  · split <;> rfl
  · split
    · split <;> rfl
    · rfl

theorem MeanVar.add_update (s : MeanVar F) (a b : F) : (s.add a).update b = .ok (s.add b) := by
  have h : (s.add a).num ≥ 1 := by rw [MeanVar.add_num]; omega
  simp only [MeanVar.update, assertThat, h, decide_true, if_true, bind, Except.bind, pure, Except.pure]
  congr 1
  unfold MeanVar.add
  dsimp only
  split
  · split <;> rfl
  · split
    · split <;> rfl
    · rfl

theorem Ema.update_ok (s : Ema F) (h : s.num > 0) (v w : F) :
    s.update v w = .ok { s with current :=
      if s.num = 1 then v else w *. v +. (lit F 1 -. w) *. s.previous } := by
  simp only [Ema.update, assertThat, h, decide_true, if_true, bind, Except.bind, pure, Except.pure]
  split <;> rfl

theorem Ema.add_ok (s : Ema F) (v w : F) :
    s.add v w = .ok ⟨if s.num = 0 then v else w *. v +. (lit F 1 -. w) *. s.current, s.current, s.num + 1⟩ := by
  unfold Ema.add
  rw [Ema.update_ok _ (by simp)]
  simp

theorem Ema.add_update (s : Ema F) (a b w w' : F) :
    (s.add a w >>= fun s => s.update b w') = s.add b w' := by
  rw [Ema.add_ok, Ema.add_ok]
  simp only [bind, Except.bind]
  rw [Ema.update_ok _ (by simp)]
  simp

/-- The first window entry is the one used, and the window is empty until two values were added. -/
def SlidingMin.Fresh (s : SlidingMin F) : Prop := (s.num = 0 ∨ s.windowSize = 1) → s.window = []

theorem SlidingMin.update_ok (s : SlidingMin F) (h : s.num ≥ 1) (v : F) :
    s.update v = .ok { s with
      current := v
      minimum := match s.window.getLast? with
        | none => v
        | some f => fmin f.1 v } := by
  simp only [SlidingMin.update, assertThat, h, decide_true, if_true, bind, Except.bind, pure, Except.pure]
  rfl

theorem SlidingMin.add_update (s : SlidingMin F) (hI : s.Fresh) (a b : F) :
    (s.add a >>= fun s => s.update b) = s.add b := by
  unfold SlidingMin.add
  split
  · rename_i h
    simp only [bind, Except.bind]
    rw [SlidingMin.update_ok _ (by simp)]
    simp [hI h]
  · dsimp only [bind, Except.bind]
    cases popFront s.num s.windowSize ((s.current, s.num) :: popBack s.current s.window).reverse with
    | error e => rfl
    | ok front =>
      simp only
      rw [SlidingMin.update_ok _ (by simp), SlidingMin.update_ok _ (by simp)]
      simp only
      rw [SlidingMin.update_ok _ (by simp)]

theorem SlidingMin.add_fresh (s : SlidingMin F) (hI : s.Fresh) (a : F) {s' : SlidingMin F}
    (h : s.add a = .ok s') : s'.Fresh ∧ s'.num = s.num + 1 ∧ s'.windowSize = s.windowSize := by
  unfold SlidingMin.add at h
  split at h
  · rename_i hc
    cases h
    refine ⟨?_, rfl, rfl⟩
    intro _
    exact hI hc
  · rename_i hc
    dsimp only [bind, Except.bind] at h
    cases hp : popFront s.num s.windowSize ((s.current, s.num) :: popBack s.current s.window).reverse with
    | error e => rw [hp] at h; cases h
    | ok front =>
      rw [hp] at h
      simp only at h
      rw [SlidingMin.update_ok _ (by simp)] at h
      cases h
      refine ⟨?_, rfl, rfl⟩
      intro h'
      exact absurd h' (by simp; tauto)

end
end Verif
