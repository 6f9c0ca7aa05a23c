import Verif.Model.Generic
import Verif.Model.Scalbn
import Verif.Model.Fmod
import Verif.Model.Big

/-!
# Model of libm/src/math/fma.rs

`none` is a panic (overflowing checked arithmetic or shift, or a panic inside `scalbn`).
The `i32` exponent arithmetic of `fma_round` is done in `Int`: `Norm.e` lies between `-2^22` and
`2^22` for every format of the library (`Verif.norm_e_range`), so the sums of at most four such
terms cannot overflow.
-/

namespace Verif
namespace Generic
open Flt
variable {F : Fmt}

/-- `IntTy::<F>::from(b)` for a `bool` -/
def bit (w : Nat) (b : Bool) : BitVec w := if b then 1#w else 0#w

/-- fma.rs 242-249 -/
structure Norm (F : Fmt) where
  m : BitVec F.bits
  e : Int
  neg : Bool

/-- fma.rs 253 -/
def expUnbias (F : Fmt) : Int := expBias F + F.sb + 1
/-- fma.rs 257 -/
def zeroInfNan (F : Fmt) : Int := expSat F - expUnbias F

/-- fma.rs 259-288 -/
def normFromFloat (x : Flt F) : Norm F :=
  let (ix, e) : BitVec F.bits × Int :=
    if ex x = 0 then
      let scale_i := F.bits - 1
      let scale_f := fromParts F false (scale_i + expBias F) 0#_
      let scaled := x * scale_f
      (scaled.toBits, if ex scaled = 0 then (2 : Int) ^ F.ew else (ex scaled : Int) - scale_i)
    else (x.toBits, ex x)
  let e := e - expUnbias F
  let ix := ix &&& sigMask F
  let ix := ix ||| implicitBit F
  let ix := ix <<< 1
  ⟨ix, e, x.sign⟩

/-- fma.rs 291-293 -/
def Norm.isZeroNanInf (n : Norm F) : Bool := n.e ≥ zeroInfNan F
/-- fma.rs 296-299 -/
def Norm.isZero (n : Norm F) : Bool := n.e > zeroInfNan F

/-- fma.rs 63-122: the aligned operands `(rlo, rhi, zlo, zhi, e)` -/
def fmaAlign (nx ny nz : Norm F) :
    BitVec F.bits × BitVec F.bits × BitVec F.bits × BitVec F.bits × Int :=
  let zero := 0#F.bits
  let one := 1#F.bits
  let rlo := Prim.lo (Prim.widenMul nx.m ny.m)
  let rhi := Prim.hi (Prim.widenMul nx.m ny.m)
  let e := nx.e + ny.e
  let d := nz.e - e
  let sbits : Int := F.bits
  if d > 0 then
    if d < sbits then
      (rlo, rhi, nz.m <<< d.toNat, nz.m >>> (sbits - d).toNat, e)
    else
      let zlo := zero
      let zhi := nz.m
      let d := d - sbits
      let e := nz.e - sbits
      if d = 0 then (rlo, rhi, zlo, zhi, e)
      else if d < sbits then
        let rlo := (rhi <<< (sbits - d).toNat) ||| (rlo >>> d.toNat)
        let rlo := rlo ||| bit _ (rlo <<< (sbits - d).toNat != zero)
        let rhi := rhi >>> d.toNat
        (rlo, rhi, zlo, zhi, e)
      else (one, zero, zlo, zhi, e)
  else
    let zhi := zero
    let d := -d
    if d = 0 then (rlo, rhi, nz.m, zhi, e)
    else if d < sbits then
      let sticky := bit _ (nz.m <<< (sbits - d).toNat != zero)
      (rlo, rhi, (nz.m >>> d.toNat) ||| sticky, zhi, e)
    else (rlo, rhi, one, zhi, e)

/-- fma.rs 126-145: the aligned sum `(rlo, rhi, neg, rhi_nonzero)` -/
def fmaSum (neg zneg : Bool) (rlo rhi zlo zhi : BitVec F.bits) :
    Option (BitVec F.bits × BitVec F.bits × Bool × Bool) :=
  let zero := 0#F.bits
  let samesign := !neg ^^ zneg
  if samesign then
    let rlo := rlo + zlo
    (chkAdd zhi (bit _ (rlo < zlo))).bind fun t =>
    (chkAdd rhi t).map fun rhi => (rlo, rhi, neg, true)
  else
    let borrow := decide (rlo < zlo)
    let rlo : BitVec F.bits := rlo - zlo
    let rhi : BitVec F.bits := rhi - (zhi + bit _ borrow)
    if rhi >>> (F.bits - 1) ≠ zero then
      let rlo := -rlo
      let t := bit F.bits (rlo != zero)
      if t.toNat ≤ (-rhi).toNat then
        let rhi := -rhi - t
        some (rlo, rhi, !neg, rhi != zero)
      else none
    else some (rlo, rhi, neg, rhi != zero)

/-- fma.rs 147-171: the left-aligned significand and its exponent; the inner `none` is the exact
zero of line 166 -/
def fmaNormalize (rlo rhi : BitVec F.bits) (rhi_nonzero : Bool) (e : Int) :
    Option (Option (BitVec F.bits × Int)) :=
  let zero := 0#F.bits
  let one := 1#F.bits
  let sbits : Int := F.bits
  if rhi_nonzero then
    let e := e + sbits
    let d : Int := (leadingZeros rhi : Int) - 1
    (shlChecked rhi d).bind fun a =>
    (shrChecked rlo (sbits - d)).bind fun b =>
    (shlChecked rlo d).map fun c =>
    some ((a ||| b) ||| bit _ (c != zero), e - d)
  else if rlo ≠ zero then
    let d : Int := (leadingZeros rlo : Int) - 1
    if d < 0 then some (some ((rlo >>> 1) ||| (rlo &&& one), e - d))
    else (shlChecked rlo d).map fun a => some (a, e - d)
  else some none

/-- `rhi.signed()`, negated if `neg`, converted to a float (fma.rs 175-182).  `rhi` has its top bit
clear, so the checked negation cannot overflow. -/
def fmaToFloat (neg : Bool) (rhi : BitVec F.bits) : Flt F :=
  ofInt F (if neg then -rhi.toInt else rhi.toInt)

/-- fma.rs 173-237 -/
def fmaFinish (neg : Bool) (rhi : BitVec F.bits) (e : Int) : Option (FpResult (Flt F)) :=
  let zero := 0#F.bits
  let one := 1#F.bits
  let r := fmaToFloat neg rhi
  let max_pow : Nat := F.bits - 1 + expBias F
  if e < -((max_pow : Int) - 2) then
    if e = -((max_pow : Int) - 1) then
      let c := fromParts F false max_pow zero
      let c := if neg then -c else c
      if r =ᶠ c then
        some ⟨copysign (minPositiveNormal F) r, Status.OK.setUnderflow true⟩
      else if rhi <<< (F.sb + 1) ≠ zero then
        let iu := (rhi >>> 1) ||| (rhi &&& one) ||| (one <<< (F.bits - 2))
        let r := fmaToFloat neg iu
        let r := ofInt F 2 * r - c
        (scalbn r e).map fun v => ⟨v, Status.OK.setUnderflow true⟩
      else (scalbn r e).map FpResult.ok
    else
      let d := F.ew - 1
      let sticky := bit F.bits (rhi <<< (F.bits - d) != zero)
      let i := ((rhi >>> d) ||| sticky) <<< d
      (scalbn (fmaToFloat neg i) e).map FpResult.ok
  else (scalbn r e).map FpResult.ok

/-- fma.rs 33-238 -/
def fmaRound (x y z : Flt F) : Option (FpResult (Flt F)) :=
  let nx := normFromFloat x
  let ny := normFromFloat y
  let nz := normFromFloat z
  if nx.isZeroNanInf || ny.isZeroNanInf then some (.ok (x * y + z))
  else if nz.isZeroNanInf then
    if nz.isZero then some (.ok (x * y)) else some (.ok z)
  else
    let (rlo, rhi, zlo, zhi, e) := fmaAlign nx ny nz
    (fmaSum (nx.neg ^^ ny.neg) nz.neg rlo rhi zlo zhi).bind fun (rlo, rhi, neg, nonzero) =>
    (fmaNormalize rlo rhi nonzero e).bind fun
      | none => some (.ok (x * y + z))
      | some (rhi, e) => fmaFinish neg rhi e

/-- fma.rs 11-19 (`fma`) and 26-28 (`fmaf128`); the aarch64 intrinsic of line 14 is not modelled -/
def fma (x y z : Flt F) : Option (Flt F) := (fmaRound x y z).map (·.val)

end Generic
end Verif
