import Verif.Conformance.Prelude

/-!
# A mathematical library for the translated tests

The model leaves `std::sqrt`, `std::exp`, `std::log` and `std::pow` open.  The translated tests use the functions below, computed with
120 binary digits after the point and rounded once to the format.
-/

namespace Verif.Conformance
open Verif FloatOps

/-- The greatest `r` with `r * r ≤ n`, by bits; `bits` is the number of remaining bits. -/
def isqrt (n : ℕ) : ℕ → ℕ → ℕ
  | 0, r => r
  | b + 1, r => let r' := r + 2 ^ b; isqrt n b (if r' * r' ≤ n then r' else r)

/-- The scale of the fixed-point numbers. -/
def one : ℤ := 2 ^ 120

/-- A square root, to 120 digits, odd in the last place if it is not exact. -/
def sqrtQ (q : ℚ) : ℚ :=
  let n : ℕ := (q * 2 ^ 400).floor.toNat
  let r := isqrt n 300 0
  if ((r * r : ℕ) : ℚ) = q * 2 ^ 400 then (r : ℚ) / 2 ^ 200 else ((2 * r + 1 : ℕ) : ℚ) / 2 ^ 201

/-- `2 · (t + t³/3 + t⁵/5 + ...)` -/
def atanhSum (t t2 : ℤ) : ℕ → ℤ → ℤ → ℤ → ℤ
  | 0, _, _, acc => 2 * acc
  | n + 1, p, k, acc => atanhSum t t2 n (p * t2 / one) (k + 2) (acc + p / k)

/-- The logarithm of a number between 2/3 and 4/3, in fixed point. -/
def logSmall (m : ℚ) : ℤ :=
  let t := ((m - 1) / (m + 1) * (one : ℚ)).floor
  atanhSum t (t * t / one) 40 t 1 0

/-- The logarithm of 2, in fixed point: `log 2 = log (4/3) + log (3/2)`. -/
def log2 : ℤ := logSmall (4 / 3) - logSmall (2 / 3)

/-- The logarithm, in fixed point. -/
def logFixed (q : ℚ) : ℤ :=
  let k := Int.log 2 q
  let m := q / (2 : ℚ) ^ k
  if 4 / 3 < m then logSmall (m / 2) + (k + 1) * log2 else logSmall m + k * log2

/-- `1 + t + t²/2 + ...` -/
def expSum (t : ℤ) : ℕ → ℤ → ℤ → ℤ → ℤ
  | 0, _, _, acc => acc
  | n + 1, p, k, acc => expSum t n (p * t / one / k) (k + 1) (acc + p)

/-- The exponential function, from a fixed-point argument. -/
def expQ (x : ℤ) : ℚ :=
  let k := x / log2
  (expSum (x - k * log2) 40 one 1 0 : ℚ) / (one : ℚ) * (2 : ℚ) ^ k

variable {fm : Fmt}

/-- `k n`, where the kernel computes `n` first. -/
def strict {α : Type} (n : ℕ) (k : ℕ → α) : α :=
  match n with
  | 0 => k 0
  | m + 1 => k (m + 1)

/-- `k q`, where the kernel computes `q` first. -/
def strictQ {α : Type} (q : ℚ) (k : ℚ → α) : α :=
  match q.num with
  | .ofNat n => strict n fun n => strict q.den fun d => k (mkRat n d)
  | .negSucc n => strict n fun n => strict q.den fun d => k (mkRat (.negSucc n) d)

/-- `strictQ` only fixes the order of evaluation. -/
theorem strictQ_eq {α : Type} (q : ℚ) (k : ℚ → α) : strictQ q k = k q := by
  have h (n : ℕ) (k : ℕ → α) : strict n k = k n := by cases n <;> rfl
  unfold strictQ
  conv_rhs => rw [← Rat.mkRat_self q]
  split <;> rename_i n hn <;> simp only [h, hn] <;> rfl

/-- `std::sqrt`. -/
def fsqrt (x : Fl fm) : Fl fm :=
  match x with
  | .fin q => strictQ q fun q => if q < 0 then .nan else Fl.ofRat fm (sqrtQ q)
  | .inf false => .inf false
  | .negZero => .negZero
  | _ => .nan

/-- `std::log` of a positive number. -/
def flog (x : Fl fm) : Fl fm :=
  match x with
  | .fin q => strictQ q fun q => if q = 0 then .inf true else if q < 0 then .nan else Fl.ofRat fm ((logFixed q : ℚ) / (one : ℚ))
  | .inf false => .inf false
  | .negZero => .inf true
  | _ => .nan

/-- `std::exp` of a finite number. -/
def fexp (x : Fl fm) : Fl fm :=
  match x with
  | .fin q => Fl.ofRat fm (expQ (q * (one : ℚ)).floor)
  | .negZero => Fl.ofRat fm 1
  | .inf false => .inf false
  | .inf true => Fl.ofRat fm 0
  | .nan => .nan

/-- `std::pow` of a finite number; an integral exponent or a positive base. -/
def fpow (x y : Fl fm) : Fl fm :=
  match x, y with
  | .fin q, .fin r => strictQ q fun q => strictQ r fun r =>
    if r.den = 1 then Fl.ofRat fm (q ^ r.num)
    else if q ≤ 0 then .nan else Fl.ofRat fm (expQ ((r * logFixed q).floor))
  | .negZero, .fin _ => Fl.ofRat fm 0
  | .fin _, .negZero => Fl.ofRat fm 1
  | _, _ => .nan

/-- The library. -/
scoped instance : Libm (Fl fm) := ⟨fsqrt, fexp, flog, fpow⟩

example : fsqrt (f 2) = f (14142135623730950488 / 10 ^ 19) := by decide +kernel
example : fsqrt (d 2) = d (14142135623730950488016887 / 10 ^ 25) := by decide +kernel
example : flog (d 2) = d (6931471805599453094172321 / 10 ^ 25) := by decide +kernel
example : flog (d 10) = d (2302585092994045684017991 / 10 ^ 24) := by decide +kernel
example : fexp (d 1) = d (2718281828459045235360287 / 10 ^ 24) := by decide +kernel
example : fpow (d 2) (d (1 / 2)) = fsqrt (d 2) := by decide +kernel

end Verif.Conformance
