import Verif.Model.History

/-!
# What makes a price record an outlier (C20-C23)
-/

namespace Verif.Spec
open FloatOps

variable {F : Type} [FloatOps F] [Libm F]

/-- A record with a usable price and volume (`price > 0`, `volume ≥ 0`; a NaN is not rejected). -/
def usable (r : PriceRecord F) : Bool := !(r.price <=. lit F 0) && !(r.volume <. lit F 0)

/-- The allowed relative move within `dt` seconds: `(1 + max_price_deviation_per_min) * sqrt(minutes)`, with at
least one minute. -/
def allowedFactor (maxDev : F) (dt : ℤ) : F :=
  (lit F 1 +. maxDev) *. Libm.sqrt (fmax (lit F 1) (lit F dt /. lit F 60))

/-- `r` is above the band around `ref`. -/
def jumpsUp (maxDev : F) (ref r : PriceRecord F) : Bool :=
  r.price >. (ref.price *. allowedFactor maxDev (r.ts - ref.ts))

/-- `r` is below the band around `ref`. -/
def jumpsDown (maxDev : F) (ref r : PriceRecord F) : Bool :=
  r.price <. (ref.price /. allowedFactor maxDev (r.ts - ref.ts))

/-- The later record `x` confirms the jump of `r`: it lies beyond the 80/20 middle price, on the same side. -/
def confirms (maxDev : F) (ref r x : PriceRecord F) : Bool :=
  (jumpsUp maxDev ref r &&
    x.price >. (lit F (4 / 5) *. (ref.price *. allowedFactor maxDev (r.ts - ref.ts)) +.
      lit F (1 / 5) *. ref.price)) ||
  (jumpsDown maxDev ref r &&
    x.price <. (lit F (4 / 5) *. (ref.price /. allowedFactor maxDev (r.ts - ref.ts)) +.
      lit F (1 / 5) *. ref.price))

/-- A jump that fewer than 3 of the next 10 usable records confirm. -/
def isolatedJump (maxDev : F) (ref r : PriceRecord F) (later : List (PriceRecord F)) : Bool :=
  (jumpsUp maxDev ref r || jumpsDown maxDev ref r) &&
    decide ((((later.filter usable).take 10).countP (confirms maxDev ref r)) < 3)

/-- The records of `l` at positions not in `idx`, in order. -/
def keepOutside {α : Type} (l : List α) (idx : List ℕ) : List α :=
  (l.zipIdx.filter (fun p => decide (p.2 ∉ idx))).map Prod.fst

end Verif.Spec
