import Verif.Model.Env

/-! # Model of libm/src/math/generic: sign, min/max and integral-rounding functions -/

namespace Verif
namespace Generic
open Flt
variable {F : Fmt}

/-- generic/fabs.rs 5-8 -/
def fabs (x : Flt F) : Flt F :=
  let absMask := ~~~(signMask F)
  ⟨x.toBits &&& absMask⟩

/-- generic/copysign.rs 5-11 -/
def copysign (x y : Flt F) : Flt F :=
  let ux := x.toBits
  let uy := y.toBits
  let ux := ux &&& ~~~(signMask F)
  let ux := ux ||| (uy &&& signMask F)
  ⟨ux⟩

/-- generic/fdim.rs 4-6 -/
def fdim (x y : Flt F) : Flt F := if x ≤ᶠ y then zero F false else x - y

/-- generic/fmin.rs 20-24 -/
def fmin (x y : Flt F) : Flt F :=
  let res := if y.isNaN || x <ᶠ y then x else y
  res * one F

/-- generic/fmax.rs 20-24 -/
def fmax (x y : Flt F) : Flt F :=
  let res := if x.isNaN || x <ᶠ y then y else x
  res * one F

/-- generic/fminimum.rs 15-28 -/
def fminimum (x y : Flt F) : Flt F :=
  let res :=
    if x.isNaN then x
    else if y.isNaN then y
    else if x <ᶠ y || (x.toBits == (zero F true).toBits && !y.sign) then x
    else y
  res * one F

/-- generic/fmaximum.rs 15-28 -/
def fmaximum (x y : Flt F) : Flt F :=
  let res :=
    if x.isNaN then x
    else if y.isNaN then y
    else if x >ᶠ y || (y.toBits == (zero F true).toBits && !x.sign) then x
    else y
  res * one F

/-- generic/fminimum_num.rs 17-27 -/
def fminimumNum (x y : Flt F) : Flt F :=
  let res :=
    if y.isNaN || x <ᶠ y || (x.toBits == (zero F true).toBits && !y.sign) then x else y
  res * one F

/-- generic/fmaximum_num.rs 17-27 -/
def fmaximumNum (x y : Flt F) : Flt F :=
  let res :=
    if x.isNaN || x <ᶠ y || (x.toBits == (zero F true).toBits && !y.sign) then y else x
  res * one F

/-- generic/floor.rs 19-69 (`ix += m` is wrapping here; `floor_add_no_overflow` shows that it
never wraps). `e.unsigned()` is only used when `e ≥ 0`. -/
def floorStatus (x : Flt F) : FpResult (Flt F) :=
  let ix := x.toBits
  let e := expUnbiased x
  if e ≥ F.sb then FpResult.ok x
  else if e ≥ 0 then
    let m := sigMask F >>> e.toNat
    if ix &&& m = 0#_ then FpResult.ok x
    else
      let ix := if x.sign then ix + m else ix
      let ix := ix &&& ~~~m
      ⟨⟨ix⟩, Status.INEXACT⟩
  else
    let status := if ix &&& sigMask F = 0#_ then Status.OK else Status.INEXACT
    let res :=
      if !x.sign then zero F false
      else if ix <<< 1 ≠ 0#_ then negOne F
      else x
    ⟨res, status⟩

/-- generic/floor.rs 14-16 -/
def floor (x : Flt F) : Flt F := (floorStatus x).val

/-- generic/ceil.rs 19-69 -/
def ceilStatus (x : Flt F) : FpResult (Flt F) :=
  let ix := x.toBits
  let e := expUnbiased x
  if e ≥ F.sb then FpResult.ok x
  else if e ≥ 0 then
    let m := sigMask F >>> e.toNat
    if ix &&& m = 0#_ then FpResult.ok x
    else
      let ix := if !x.sign then ix + m else ix
      let ix := ix &&& ~~~m
      ⟨⟨ix⟩, Status.INEXACT⟩
  else
    let status := if ix &&& sigMask F = 0#_ then Status.OK else Status.INEXACT
    let res :=
      if x.sign then zero F true
      else if ix <<< 1 ≠ 0#_ then one F
      else x
    ⟨res, status⟩

/-- generic/ceil.rs 14-16 -/
def ceil (x : Flt F) : Flt F := (ceilStatus x).val

/-- generic/trunc.rs 13-42 -/
def truncStatus (x : Flt F) : FpResult (Flt F) :=
  let xi := x.toBits
  let e := expUnbiased x
  if e ≥ F.sb then FpResult.ok x
  else
    let mask := if e < 0 then signMask F else ~~~(sigMask F >>> e.toNat)
    if xi &&& ~~~mask = 0#_ then FpResult.ok x
    else
      let status := if xi &&& sigMask F = 0#_ then Status.OK else Status.INEXACT
      let xi := xi &&& mask
      ⟨⟨xi⟩, status⟩

/-- generic/trunc.rs 8-10 -/
def trunc (x : Flt F) : Flt F := (truncStatus x).val

/-- generic/round.rs 5-10 -/
def round (x : Flt F) : Flt F :=
  let f0p5 := fromParts F false (expBias F - 1) 0#_
  let f0p25 := fromParts F false (expBias F - 2) 0#_
  trunc (x + copysign (f0p5 - f0p25 * epsilon F) x)

/-- generic/rint.rs 10-42. The rounding mode argument is ignored by the code (`_round`);
`force` is the identity except on x87 (`x86_no_sse`), which is not modelled. -/
def rintRound (x : Flt F) (_round : Round) : FpResult (Flt F) :=
  let toint := one F / epsilon F
  let e := ex x
  let positive := !x.sign
  let res :=
    if e ≥ expBias F + F.sb then x
    else
      let y := if positive then (x + toint) - toint else (x - toint) + toint
      if y =ᶠ zero F false then (if positive then zero F false else zero F true)
      else y
  FpResult.ok res

/-- rint.rs: `rintf16 rintf rint rintf128` all call `rint_round(x, Round::Nearest)` -/
def rint (x : Flt F) : Flt F := (rintRound x Round.Nearest).val

/-- roundeven.rs: `roundeven*` all call `roundeven_impl`, i.e. `rint_round(x, Round::Nearest)` -/
def roundeven (x : Flt F) : Flt F := (rintRound x Round.Nearest).val

end Generic
end Verif
