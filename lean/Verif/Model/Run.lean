import Verif.Num.FloatOps

/-!
# Computations with an observable trace

`Run E α` is a computation that performs observable events of type `E` (calls across an interface) and then either
returns a value or faults.  The events performed before a fault are kept.
-/

namespace Verif

/-- The events performed, in order, and the outcome.  (The effects of eval/eval.cc 38-141.) -/
structure Run (E α : Type) where
  trace : List E
  out : Res α

namespace Run
variable {E α β γ : Type}

@[ext] theorem ext' {x y : Run E α} (h1 : x.trace = y.trace) (h2 : x.out = y.out) : x = y := by
  cases x; cases y; simp_all

/-- Return without events.  (The effects of eval/eval.cc 38-141.) -/
def ret (a : α) : Run E α := ⟨[], .ok a⟩

/-- Sequencing: after a fault nothing more happens.  (The effects of eval/eval.cc 38-141.) -/
def andThen (x : Run E α) (f : α → Run E β) : Run E β :=
  match x.out with
  | .error e => ⟨x.trace, .error e⟩
  | .ok a => ⟨x.trace ++ (f a).trace, (f a).out⟩

/-- A computation without events.  (The effects of eval/eval.cc 38-141.) -/
def lift (r : Res α) : Run E α := ⟨[], r⟩

/-- Perform one event.  (The effects of eval/eval.cc 38-141.) -/
def emit (e : E) : Run E Unit := ⟨[e], .ok ()⟩

/-- Perform one event if the condition holds.  (The effects of eval/eval.cc 38-141.) -/
def emitIf (b : Bool) (e : E) : Run E Unit := if b then emit e else ret ()

/-- An interface call: the event records the outcome of the call, which is also the outcome of the computation.
(The effects of eval/eval.cc 38-141.) -/
def call (f : Res α → E) (r : Res α) : Run E α := ⟨[f r], r⟩

instance : Monad (Run E) where
  pure := ret
  bind := andThen

theorem pure_eq (a : α) : (pure a : Run E α) = ret a := rfl
theorem bind_eq (x : Run E α) (f : α → Run E β) : x >>= f = x.andThen f := rfl

theorem andThen_ok {x : Run E α} {f : α → Run E β} {a : α} (h : x.out = .ok a) :
    x.andThen f = ⟨x.trace ++ (f a).trace, (f a).out⟩ := by
  unfold andThen; rw [h]

theorem andThen_error {x : Run E α} {f : α → Run E β} {e : Fault} (h : x.out = .error e) :
    x.andThen f = ⟨x.trace, .error e⟩ := by
  unfold andThen; rw [h]

theorem andThen_assoc (x : Run E α) (f : α → Run E β) (g : β → Run E γ) :
    (x.andThen f).andThen g = x.andThen (fun a => (f a).andThen g) := by
  cases hx : x.out with
  | error e => rw [andThen_error hx, andThen_error hx]; rfl
  | ok a =>
    rw [andThen_ok hx, andThen_ok hx]
    cases hf : (f a).out with
    | error e => simp only [andThen, hf]
    | ok b => simp only [andThen, hf, List.append_assoc]

instance : LawfulMonad (Run E) := LawfulMonad.mk'
  (id_map := by
    intro α x
    show x.andThen (fun a => ret (id a)) = x
    cases hx : x.out with
    | error e => rw [andThen_error hx]; ext1 <;> simp [hx]
    | ok a => rw [andThen_ok hx]; ext1 <;> simp [hx, ret])
  (pure_bind := by
    intro α β x f
    show (ret x).andThen f = f x
    simp [andThen, ret])
  (bind_assoc := by
    intro α β γ x f g
    exact andThen_assoc x f g)

end Run
end Verif
