import Verif.Spec.Float

/-!
# Executable round-to-nearest-even

The rounding step of the IEEE operations `+ - * /` and of int-to-float / float-to-float casts
(the semantics of the Rust operators on `f16 f32 f64 f128`; not code of the library).
Magnitudes are measured in units of the least subnormal number.
`Verif.Theory.Round` proves that this agrees with the specification `IsRNE`.
-/

namespace Verif

/-- Magnitude (in least-subnormal units) of the datum whose encoding without sign is `b`.
`b ≥` the encoding of infinity gives the continuation of the sequence (virtual values). -/
def magOf (sb b : Nat) : Nat :=
  if b < 2 ^ sb then b else (2 ^ sb + b % 2 ^ sb) * 2 ^ (b / 2 ^ sb - 1)

/-- `n / d` rounded to the nearest integer, ties to even. -/
def rneDiv (n d : Nat) : Nat :=
  let q := n / d
  let r := n % d
  if 2 * r < d then q
  else if d < 2 * r then q + 1
  else if q % 2 = 0 then q else q + 1

/-- Encoding (without sign, not saturated) nearest to the magnitude `n / d`. -/
def roundU (sb n d : Nat) : Nat :=
  let k := Nat.log2 (n / d) - sb
  k * 2 ^ sb + rneDiv n (d * 2 ^ k)

/-- encoding of `+inf` -/
def Fmt.infEnc (F : Fmt) : Nat := (2 ^ F.ew - 1) * 2 ^ F.sb

/-- Datum with sign `s` and encoding-without-sign `b`. -/
def Flt.mk' (F : Fmt) (s : Bool) (b : Nat) : Flt F :=
  ⟨BitVec.ofNat F.bits (b + if s then 2 ^ (F.ew + F.sb) else 0)⟩

/-- Round the magnitude `n / d` (in least-subnormal units) to nearest even, with sign `s`. -/
def roundMag (F : Fmt) (s : Bool) (n d : Nat) : Flt F :=
  Flt.mk' F s (min (roundU F.sb n d) F.infEnc)

end Verif
