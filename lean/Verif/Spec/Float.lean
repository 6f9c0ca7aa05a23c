import Mathlib.Tactic.Ring
import Mathlib.Tactic.Linarith
import Mathlib.Tactic.NormNum
import Mathlib.Tactic.Positivity
import Mathlib.Algebra.Order.Field.Rat
import Mathlib.Data.Rat.Cast.Order

/-!
# IEEE 754 binary interchange formats: independent specification

This file does not mention any function of the library.  It says what a bit pattern *means*
and what "correctly rounded" means.
-/

namespace Verif

/-- A binary interchange format: `ew` exponent bits, `sb` explicit significand bits.
The side conditions hold for every format of interest (`f16 f32 f64 f128`). -/
structure Fmt where
  /-- number of exponent bits (`Float::EXP_BITS`, float_traits.rs 68) -/
  ew : Nat
  /-- number of explicit significand bits (`Float::SIG_BITS`, float_traits.rs 65) -/
  sb : Nat
  hew : 5 ≤ ew
  hsb : 10 ≤ sb
  hfit : sb + 4 ≤ 2 ^ (ew - 1)

namespace Fmt

/-- total number of bits (`Float::BITS`, float_traits.rs 62) -/
def bits (F : Fmt) : Nat := F.ew + F.sb + 1

/-- exponent bias (`Float::EXP_BIAS`, float_traits.rs 76) -/
def bias (F : Fmt) : Nat := 2 ^ (F.ew - 1) - 1

end Fmt

/-- the four formats of float_traits.rs 283-288 -/
def f16 : Fmt := ⟨5, 10, by decide, by decide, by decide⟩
@[inherit_doc f16] def f32 : Fmt := ⟨8, 23, by decide, by decide, by decide⟩
@[inherit_doc f16] def f64 : Fmt := ⟨11, 52, by decide, by decide, by decide⟩
@[inherit_doc f16] def f128 : Fmt := ⟨15, 112, by decide, by decide, by decide⟩

/-- A floating point datum of format `F`, identified with its bit pattern. -/
structure Flt (F : Fmt) where
  /-- the bit pattern (`Float::to_bits`) -/
  toBits : BitVec F.bits
deriving DecidableEq

namespace Flt
variable {F : Fmt}

/-- Pattern with the given numeric encoding. -/
def ofNat (F : Fmt) (n : Nat) : Flt F := ⟨BitVec.ofNat F.bits n⟩

/-- the encoding as a natural number -/
def enc (x : Flt F) : Nat := x.toBits.toNat

/-- sign bit: `true` means negative -/
def sign (x : Flt F) : Bool := decide (2 ^ (F.ew + F.sb) ≤ x.enc)

/-- biased exponent field -/
def expField (x : Flt F) : Nat := x.enc / 2 ^ F.sb % 2 ^ F.ew

/-- fraction field -/
def fracField (x : Flt F) : Nat := x.enc % 2 ^ F.sb

def isNaN (x : Flt F) : Prop := x.expField = 2 ^ F.ew - 1 ∧ x.fracField ≠ 0
def isInf (x : Flt F) : Prop := x.expField = 2 ^ F.ew - 1 ∧ x.fracField = 0
def isFinite (x : Flt F) : Prop := x.expField ≠ 2 ^ F.ew - 1
/-- `+0` or `-0` -/
def isZero (x : Flt F) : Prop := x.expField = 0 ∧ x.fracField = 0

instance (x : Flt F) : Decidable x.isNaN := by unfold isNaN; infer_instance
instance (x : Flt F) : Decidable x.isInf := by unfold isInf; infer_instance
instance (x : Flt F) : Decidable x.isFinite := by unfold isFinite; infer_instance
instance (x : Flt F) : Decidable x.isZero := by unfold isZero; infer_instance

/-- The exact value of a finite datum:
`± 0.frac * 2^(1-bias)` (exponent field 0) or `± 1.frac * 2^(expField-bias)`.
(For infinities and NaNs the number returned is meaningless.) -/
def toRat (x : Flt F) : ℚ :=
  (if x.sign then -1 else 1) *
  (if x.expField = 0 then (x.fracField : ℚ) * 2 ^ ((1 : ℤ) - F.bias - F.sb)
   else ((2 ^ F.sb + x.fracField : ℕ) : ℚ) * 2 ^ ((x.expField : ℤ) - F.bias - F.sb))

/-- The value of a datum that is not a NaN, as an extended rational (`⊥` is -∞, `⊤` is +∞). -/
def ext (x : Flt F) : WithBot (WithTop ℚ) :=
  if x.isInf then (if x.sign then ⊥ else ((⊤ : WithTop ℚ) : WithBot (WithTop ℚ)))
  else ((x.toRat : WithTop ℚ) : WithBot (WithTop ℚ))

/-- Order on non-NaN data that additionally puts `-0` strictly below `+0`
(IEEE 754-2019 `minimum`/`maximum`). -/
def zle (x y : Flt F) : Prop :=
  x.ext < y.ext ∨ (x.ext = y.ext ∧ (x.sign = true ∨ y.sign = false))

end Flt

/-- IEEE overflow threshold for round-to-nearest: `2^emax * (2 - 2^-(sb+1))`,
i.e. the largest finite number plus half a unit in the last place. -/
def overflowThreshold (F : Fmt) : ℚ :=
  2 ^ (F.bias : ℤ) * (2 - 2 ^ (-(F.sb + 1) : ℤ))

/-- `r` is the correctly rounded value of the exact number `q`
under round-to-nearest, ties-to-even (IEEE 754 section 4.3.1).
Works for `q` in any ordered field (`ℚ`, or `ℝ` for square roots). The sign of an exact zero
is left open: it depends on the operation. -/
def IsRNE {F : Fmt} {K : Type} [Field K] [LinearOrder K] (q : K) (r : Flt F) : Prop :=
  if ((overflowThreshold F : ℚ) : K) ≤ |q| then
    r.isInf ∧ (r.sign = true ↔ q < 0)
  else
    r.isFinite ∧
    -- no finite datum is closer
    (∀ s : Flt F, s.isFinite → |((r.toRat : ℚ) : K) - q| ≤ |((s.toRat : ℚ) : K) - q|) ∧
    -- a different value that is equally close forces an even fraction
    (∀ s : Flt F, s.isFinite → |((r.toRat : ℚ) : K) - q| = |((s.toRat : ℚ) : K) - q| →
        s.toRat ≠ r.toRat → r.fracField % 2 = 0) ∧
    -- a nonzero number keeps its sign, even when it underflows to zero
    (q ≠ 0 → (r.sign = true ↔ q < 0))

end Verif
