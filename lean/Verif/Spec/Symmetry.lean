import Verif.Spec.Float
import Verif.Model.Arith

/-!
# Specification: odd and even functions

The negation `-x` flips the sign bit. Nothing in this file depends on the modelled code of the library.
-/

namespace Verif
variable {F : Fmt}

/-- `f` returns for every non-NaN argument, and the results for opposite arguments are opposite, bit for
bit (a NaN result has no specified sign in Rust, so two NaNs are not compared further) -/
def OddFn (f : Flt F → Option (Flt F)) : Prop :=
  ∀ x : Flt F, ¬ x.isNaN → ∃ r r', f x = some r ∧ f (-x) = some r' ∧ (r' = -r ∨ r.isNaN ∧ r'.isNaN)

/-- `f` returns for every non-NaN argument, and the results for opposite arguments are equal, bit for bit -/
def EvenFn (f : Flt F → Option (Flt F)) : Prop :=
  ∀ x : Flt F, ¬ x.isNaN → ∃ r r', f x = some r ∧ f (-x) = some r' ∧ (r' = r ∨ r.isNaN ∧ r'.isNaN)

end Verif
