import Verif.Theory.Flt

/-!
# Machine floating point operations

Semantics of the Rust operators on floats used by the library (`+ - * / -x`, comparisons,
`as` casts).  This is the language/hardware, not library code: IEEE 754, round to nearest even.
NaN results are the canonical quiet NaN (Rust leaves the payload open, and no theorem
depends on it).  `Verif.Theory.Arith` proves these operations against `IsRNE`.
-/

namespace Verif
namespace Flt
variable {F : Fmt}

/-- canonical quiet NaN (`Float::NAN`, float_traits.rs 56) -/
def qnan (F : Fmt) : Flt F := mk' F false (F.infEnc + 2 ^ (F.sb - 1))
/-- signed infinity (`Float::INFINITY`, `NEG_INFINITY`, float_traits.rs 54-55) -/
def inf (F : Fmt) (s : Bool) : Flt F := mk' F s F.infEnc
/-- signed zero (`Float::ZERO`, `NEG_ZERO`, float_traits.rs 50-51) -/
def zero (F : Fmt) (s : Bool) : Flt F := mk' F s 0
/-- `Float::ONE`, float_traits.rs 52 -/
def one (F : Fmt) : Flt F := mk' F false (F.bias * 2 ^ F.sb)

/-- Rust unary minus: flips the sign bit, also of NaN. -/
protected def neg (x : Flt F) : Flt F := mk' F (!x.sign) x.mb
instance : Neg (Flt F) := ⟨Flt.neg⟩

/-- IEEE addition -/
protected def add (x y : Flt F) : Flt F :=
  if x.isNaN ∨ y.isNaN then qnan F
  else if x.isInf then (if y.isInf ∧ x.sign ≠ y.sign then qnan F else x)
  else if y.isInf then y
  else
    let s := x.sval + y.sval
    if s = 0 then zero F (x.sign && y.sign)
    else roundMag F (decide (s < 0)) s.natAbs 1
instance : Add (Flt F) := ⟨Flt.add⟩

/-- IEEE subtraction -/
protected def sub (x y : Flt F) : Flt F := x + (-y)
instance : Sub (Flt F) := ⟨Flt.sub⟩

/-- IEEE multiplication -/
protected def mul (x y : Flt F) : Flt F :=
  if x.isNaN ∨ y.isNaN then qnan F
  else if (x.isInf ∧ y.isZero) ∨ (x.isZero ∧ y.isInf) then qnan F
  else if x.isInf ∨ y.isInf then inf F (x.sign ^^ y.sign)
  else roundMag F (x.sign ^^ y.sign) (x.mag * y.mag) F.oneMag
instance : Mul (Flt F) := ⟨Flt.mul⟩

/-- IEEE division -/
protected def div (x y : Flt F) : Flt F :=
  if x.isNaN ∨ y.isNaN then qnan F
  else if (x.isInf ∧ y.isInf) ∨ (x.isZero ∧ y.isZero) then qnan F
  else if x.isInf ∨ y.isZero then inf F (x.sign ^^ y.sign)
  else if y.isInf then zero F (x.sign ^^ y.sign)
  else roundMag F (x.sign ^^ y.sign) (x.mag * F.oneMag) y.mag
instance : Div (Flt F) := ⟨Flt.div⟩

/-- Rust `x < y` (false on NaN). Infinities compare through their virtual magnitude. -/
def lt (x y : Flt F) : Bool := decide (¬ x.isNaN ∧ ¬ y.isNaN ∧ x.sval < y.sval)
/-- Rust `x <= y` -/
def le (x y : Flt F) : Bool := decide (¬ x.isNaN ∧ ¬ y.isNaN ∧ x.sval ≤ y.sval)
/-- Rust `x == y` -/
def feq (x y : Flt F) : Bool := decide (¬ x.isNaN ∧ ¬ y.isNaN ∧ x.sval = y.sval)

/-- Rust `n as fXX` for an integer `n` -/
def ofInt (F : Fmt) (n : Int) : Flt F :=
  if n = 0 then zero F false else roundMag F (decide (n < 0)) (n.natAbs * F.oneMag) 1

/-- The integer part (toward zero) of a finite datum. -/
def toInt (x : Flt F) : Int :=
  if x.sign then -((x.mag / F.oneMag : Nat) : Int) else ((x.mag / F.oneMag : Nat) : Int)

/-- Rust `x as iN` with `N = w` bits: truncate, saturate, NaN gives 0. -/
def toSInt (w : Nat) (x : Flt F) : Int :=
  if x.isNaN then 0
  else if x.isInf then (if x.sign then -2 ^ (w - 1) else 2 ^ (w - 1) - 1)
  else max (-2 ^ (w - 1)) (min (2 ^ (w - 1) - 1) x.toInt)

/-- Rust `x as fYY`: conversion between formats. -/
def cast (G : Fmt) (x : Flt F) : Flt G :=
  if x.isNaN then qnan G
  else if x.isInf then inf G x.sign
  else roundMag G x.sign (x.mag * G.oneMag) F.oneMag

end Flt

@[inherit_doc] scoped infix:50 " <ᶠ " => Flt.lt
@[inherit_doc] scoped infix:50 " ≤ᶠ " => Flt.le
@[inherit_doc] scoped infix:50 " =ᶠ " => Flt.feq
/-- Rust `x > y` -/
scoped notation:50 x:51 " >ᶠ " y:51 => Flt.lt y x
/-- Rust `x >= y` -/
scoped notation:50 x:51 " ≥ᶠ " y:51 => Flt.le y x

end Verif
