import Verif.Model.Arith

/-!
# Model of the `Float` trait (libm/src/math/support/float_traits.rs)

`u32`/`i32` exponent quantities are `Nat`/`Int` here: all of them stay far inside 32 bits for the
four formats (`EXP_BITS ≤ 15`), so no wrapping can occur.
-/

namespace Verif
namespace Flt
variable {F : Fmt}

/-- `SIGN_MASK = 1 << (BITS - 1)` (float_traits.rs 224) -/
def signMask (F : Fmt) : BitVec F.bits := 1#_ <<< (F.bits - 1)
/-- `SIG_MASK = (1 << SIG_BITS) - 1` (float_traits.rs 225) -/
def sigMask (F : Fmt) : BitVec F.bits := (1#_ <<< F.sb) - 1#_
/-- `EXP_MASK = !(SIGN_MASK | SIG_MASK)` (float_traits.rs 226) -/
def expMask (F : Fmt) : BitVec F.bits := ~~~(signMask F ||| sigMask F)
/-- `IMPLICIT_BIT = 1 << SIG_BITS` (float_traits.rs 227) -/
def implicitBit (F : Fmt) : BitVec F.bits := 1#_ <<< F.sb
/-- `EXP_SAT = (1 << EXP_BITS) - 1` (float_traits.rs 60) -/
def expSat (F : Fmt) : Nat := (1 <<< F.ew) - 1
/-- `EXP_BIAS = EXP_SAT >> 1` (float_traits.rs 63) -/
def expBias (F : Fmt) : Nat := expSat F >>> 1
/-- `EXP_MAX` (float_traits.rs 66) -/
def expMax (F : Fmt) : Int := expBias F
/-- `EXP_MIN = -(EXP_MAX - 1)` (float_traits.rs 69) -/
def expMin (F : Fmt) : Int := -(expMax F - 1)
/-- `EXP_MIN_SUBNORM` (float_traits.rs 72) -/
def expMinSubnorm (F : Fmt) : Int := expMin F - F.sb

/-- `ex()` (float_traits.rs 132-134): biased exponent bits -/
def ex (x : Flt F) : Nat := (x.toBits >>> F.sb).toNat &&& expSat F
/-- `exp_unbiased()` (float_traits.rs 137-139) -/
def expUnbiased (x : Flt F) : Int := (ex x : Int) - (expBias F : Int)
/-- `frac()` (float_traits.rs 143-145) -/
def frac (x : Flt F) : BitVec F.bits := x.toBits &&& sigMask F
/-- `is_subnormal()` (float_traits.rs 127-129); note that it is also true for zero -/
def isSubnormal (x : Flt F) : Bool := (x.toBits &&& expMask F) == 0#_

/-- `from_parts(negative, exponent, significand)` (float_traits.rs 151-158) -/
def fromParts (F : Fmt) (negative : Bool) (exponent : Nat) (significand : BitVec F.bits) : Flt F :=
  let sign : BitVec F.bits := if negative then 1#_ else 0#_
  ⟨(sign <<< (F.bits - 1)) ||| (BitVec.ofNat F.bits (exponent &&& expSat F) <<< F.sb)
    ||| (significand &&& sigMask F)⟩

/-- `MIN` (float_traits.rs 211): the most negative finite number -/
def minVal (F : Fmt) : Flt F := ⟨BitVec.allOnes F.bits &&& ~~~(1#_ <<< F.sb)⟩
/-- `MAX = -MIN` (float_traits.rs 209) -/
def maxVal (F : Fmt) : Flt F := - minVal F
/-- `MIN_POSITIVE_NORMAL` (float_traits.rs 215) -/
def minPositiveNormal (F : Fmt) : Flt F := ⟨1#_ <<< F.sb⟩
/-- `EPSILON` (core constant, used through float_traits.rs 212): `2^-SIG_BITS` -/
def epsilon (F : Fmt) : Flt F := mk' F false ((F.bias - F.sb) * 2 ^ F.sb)
/-- `NEG_ONE` (float_traits.rs 202) -/
def negOne (F : Fmt) : Flt F := mk' F true (F.bias * 2 ^ F.sb)

/-- `eq_repr` (float_traits.rs 107-109) -/
def eqRepr (x y : Flt F) : Bool := if x.isNaN ∧ y.isNaN then true else x.toBits == y.toBits

/-- `normalize(significand)` (float_traits.rs 274-277):
(normalized exponent, normalized significand).
`leading_zeros` is `BITS - 1 - log2`, with `BITS` for zero; the subtraction of `EXP_BITS` wraps in
Rust, so the model uses integers for the exponent and shifts by the (nonnegative) difference. -/
def normalize (F : Fmt) (significand : BitVec F.bits) : Int × BitVec F.bits :=
  let lz := if significand.toNat = 0 then F.bits else F.bits - 1 - significand.toNat.log2
  let shift : Int := (lz : Int) - F.ew
  (1 - shift, significand <<< shift.toNat)

end Flt
end Verif
