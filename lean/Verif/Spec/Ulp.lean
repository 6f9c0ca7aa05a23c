import Verif.Spec.Float
import Mathlib.Data.Int.Log
import Mathlib.Algebra.Order.Archimedean.Real.Basic

/-!
# Specification: units in the last place

The error of a function that is not correctly rounded is stated in units in the last place of the
exact result. Nothing in this file depends on the modelled code.
-/

namespace Verif

/-- The unit in the last place at a real number `t`: the distance between two consecutive data of
format `F` in the binade of `t`, or in the subnormal range. At zero it is taken to be zero, so that a
result within any number of units of zero is a zero. -/
noncomputable def ulpAt (F : Fmt) (t : ℝ) : ℝ :=
  if t = 0 then 0 else 2 ^ (max (Int.log 2 |t|) (1 - F.bias) - F.sb)

/-- `r` is finite and within `c` units in the last place of the exact result `t` -/
def WithinUlp {F : Fmt} (c : ℝ) (r : Flt F) (t : ℝ) : Prop :=
  r.isFinite ∧ |((r.toRat : ℚ) : ℝ) - t| ≤ c * ulpAt F t

end Verif
