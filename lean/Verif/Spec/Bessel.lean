import Verif.Spec.Float
import Verif.Model.Arith

/-!
# Specification: the special values and the symmetries of the Bessel functions of integer order

Nothing in this file depends on the modelled code of the library.
-/

namespace Verif
variable {F : Fmt}

/-- the orders that the API accepts -/
def IsI32 (n : ℤ) : Prop := -2 ^ 31 ≤ n ∧ n < 2 ^ 31

/-- `b` is `(-1)^n * a`, bit for bit (a NaN result has no specified sign in Rust, so two NaNs are not compared further) -/
def AltSign (n : ℤ) (a b : Flt F) : Prop := (b = if Even n then a else -a) ∨ a.isNaN ∧ b.isNaN

/-- special values of the functions of the first kind: `f n` is the function of order `n`, `f0` and `f1` are the separate functions
of the orders 0 and 1 -/
structure IsBesselJ (f : ℤ → Flt F → Option (Flt F)) (f0 f1 : Flt F → Option (Flt F)) : Prop where
  /-- the separate functions agree with the general one -/
  order0 : ∀ x, ¬ x.isNaN → f 0 x = f0 x
  order1 : ∀ x, ¬ x.isNaN → f 1 x = f1 x
  nan : ∀ n x r, x.isNaN → f n x = some r → r.isNaN
  nan0 : ∀ x r, x.isNaN → f0 x = some r → r.isNaN
  nan1 : ∀ x r, x.isNaN → f1 x = some r → r.isNaN
  inf : ∀ n x r, IsI32 n → x.isInf → f n x = some r → r.isZero
  /-- `J_0 (0) = 1` -/
  zero : ∀ x, x.isZero → f 0 x = some (Flt.one F)
  /-- `J_n (0) = 0`, with the sign of the limit from the side of the zero argument (positive for even `n`) -/
  zero' : ∀ n x, IsI32 n → n ≠ 0 → x.isZero → f n x = some (Flt.zero F (decide (Odd n) && (x.sign ^^ decide (n < 0))))

/-- special values of the functions of the second kind -/
structure IsBesselY (f : ℤ → Flt F → Option (Flt F)) (f0 f1 : Flt F → Option (Flt F)) : Prop where
  order0 : ∀ x, ¬ x.isNaN → f 0 x = f0 x
  order1 : ∀ x, ¬ x.isNaN → f 1 x = f1 x
  nan : ∀ n x r, x.isNaN → f n x = some r → r.isNaN
  nan0 : ∀ x r, x.isNaN → f0 x = some r → r.isNaN
  nan1 : ∀ x r, x.isNaN → f1 x = some r → r.isNaN
  /-- a negative argument, `-inf` included -/
  neg : ∀ n x r, ¬ x.isNaN → ¬ x.isZero → x.sign = true → f n x = some r → r.isNaN
  inf : ∀ n, f n (Flt.inf F false) = some (Flt.zero F false)
  /-- the limit from the right, for a zero of either sign -/
  zero : ∀ n x, IsI32 n → x.isZero → f n x = some (Flt.inf F (!(decide (Odd n) && decide (n < 0))))

/-- `J_n (-x) = (-1)^n J_n x` and `J_{-n} x = (-1)^n J_n x`, for the computed values -/
structure ParityJ (f : ℤ → Flt F → Option (Flt F)) : Prop where
  arg : ∀ n x, IsI32 n → x.isFinite → ∃ r r', f n x = some r ∧ f n (-x) = some r' ∧ AltSign n r r'
  order : ∀ n x, IsI32 n → IsI32 (-n) → x.isFinite → ∃ r r', f n x = some r ∧ f (-n) x = some r' ∧ AltSign n r r'

/-- `Y_{-n} x = (-1)^n Y_n x` for the computed values -/
def ParityY (f : ℤ → Flt F → Option (Flt F)) : Prop :=
  ∀ n x, IsI32 n → IsI32 (-n) → x.isFinite → ∃ r r', f n x = some r ∧ f (-n) x = some r' ∧ AltSign n r r'

end Verif
