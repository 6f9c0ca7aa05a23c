import Verif.Model.Env

/-!
# Model of frexp, ilogb, modf, nextafter (f64 and f32 versions)

The f64 and f32 sources are the same algorithm with different literals; each is transcribed with
its own literals.  `force_eval!` calls (hardware exception flags) are not modelled.
Recursion and loops take a fuel argument; running out of fuel is `none`, and the theorems show
that it never happens.
-/

namespace Verif
open Flt

/-- frexp.rs 2-21 (frexp); `fuel` bounds the depth of the recursive call on line 9 -/
def frexpFuel : Nat → Flt f64 → Option (Flt f64 × Int)
  | 0, _ => none
  | fuel + 1, x =>
    let y : BitVec 64 := x.toBits
    let ee : Int := ((y >>> 52) &&& 0x7ff#64).toNat
    if ee = 0 then
      if !(x =ᶠ zero f64 false) then
        let x1p64 := ofNat f64 0x43f0000000000000
        (frexpFuel fuel (x * x1p64)).map fun (x, e) => (x, e - 64)
      else some (x, 0)
    else if ee = 0x7ff then some (x, 0)
    else
      let e := ee - 0x3fe
      let y := y &&& 0x800fffffffffffff#64
      let y := y ||| 0x3fe0000000000000#64
      some (⟨y⟩, e)

/-- `frexp` -/
def frexp (x : Flt f64) : Option (Flt f64 × Int) := frexpFuel 2 x

/-- frexpf.rs 2-22 (frexpf) -/
def frexpfFuel : Nat → Flt f32 → Option (Flt f32 × Int)
  | 0, _ => none
  | fuel + 1, x =>
    let y : BitVec 32 := x.toBits
    let ee : Int := ((y >>> 23) &&& 0xff#32).toNat
    if ee = 0 then
      if !(x =ᶠ zero f32 false) then
        let x1p64 := ofNat f32 0x5f800000
        (frexpfFuel fuel (x * x1p64)).map fun (x, e) => (x, e - 64)
      else some (x, 0)
    else if ee = 0xff then some (x, 0)
    else
      let e := ee - 0x7e
      let y := y &&& 0x807fffff#32
      let y := y ||| 0x3f000000#32
      some (⟨y⟩, e)

/-- `frexpf` -/
def frexpf (x : Flt f32) : Option (Flt f32 × Int) := frexpfFuel 2 x

/-- the loop `while (i >> (BITS-1)) == 0 { e -= 1; i <<= 1; }` of ilogb.rs 17-20,
ilogbf.rs 17-20, remquo.rs 24-27 and 35-38, remquof.rs (same lines) -/
def normLoop {w : Nat} : Nat → BitVec w → Int → Option Int
  | 0, _, _ => none
  | fuel + 1, i, e =>
    if i >>> (w - 1) = 0#w then normLoop fuel (i <<< 1) (e - 1) else some e

/-- ilogb.rs 1-2 -/
def FP_ILOGBNAN : Int := -1 - 0x7fffffff
/-- ilogb.rs 2 -/
def FP_ILOGB0 : Int := FP_ILOGBNAN

/-- ilogb.rs 5-28 -/
def ilogb (x : Flt f64) : Option Int :=
  let i : BitVec 64 := x.toBits
  let e : Int := ((i >>> 52) &&& 0x7ff#64).toNat
  if e = 0 then
    let i := i <<< 12
    if i = 0#64 then some FP_ILOGB0
    else normLoop 64 i (-0x3ff)
  else if e = 0x7ff then
    if i <<< 12 ≠ 0#64 then some FP_ILOGBNAN else some 0x7fffffff
  else some (e - 0x3ff)

/-- ilogbf.rs 5-28 -/
def ilogbf (x : Flt f32) : Option Int :=
  let i : BitVec 32 := x.toBits
  let e : Int := ((i >>> 23) &&& 0xff#32).toNat
  if e = 0 then
    let i := i <<< 9
    if i = 0#32 then some FP_ILOGB0
    else normLoop 32 i (-0x7f)
  else if e = 0xff then
    if i <<< 9 ≠ 0#32 then some FP_ILOGBNAN else some 0x7fffffff
  else some (e - 0x7f)

/-- modf.rs 2-34: (fractional part, integral part) -/
def modf (x : Flt f64) : Flt f64 × Flt f64 :=
  let u : BitVec 64 := x.toBits
  let e : Int := ((u >>> 52) &&& 0x7ff#64).toNat - 0x3ff
  if e ≥ 52 then
    let rv2 := x
    if e = 0x400 ∧ u <<< 12 ≠ 0#64 then (x, rv2)
    else (⟨u &&& (1#64 <<< 63)⟩, rv2)
  else if e < 0 then
    (x, ⟨u &&& (1#64 <<< 63)⟩)
  else
    let mask : BitVec 64 := (BitVec.allOnes 64 >>> 12) >>> e.toNat
    if u &&& mask = 0#64 then (⟨u &&& (1#64 <<< 63)⟩, x)
    else
      let u := u &&& ~~~mask
      let rv2 : Flt f64 := ⟨u⟩
      (x - rv2, rv2)

/-- modff.rs 2-33 -/
def modff (x : Flt f32) : Flt f32 × Flt f32 :=
  let u : BitVec 32 := x.toBits
  let e : Int := ((u >>> 23) &&& 0xff#32).toNat - 0x7f
  if e ≥ 23 then
    let rv2 := x
    if e = 0x80 ∧ u <<< 9 ≠ 0#32 then (x, rv2)
    else (⟨u &&& 0x80000000#32⟩, rv2)
  else if e < 0 then
    (x, ⟨u &&& 0x80000000#32⟩)
  else
    let mask : BitVec 32 := 0x007fffff#32 >>> e.toNat
    if u &&& mask = 0#32 then (⟨u &&& 0x80000000#32⟩, x)
    else
      let u := u &&& ~~~mask
      let rv2 : Flt f32 := ⟨u⟩
      (x - rv2, rv2)

/-- checked `a - 1` of an unsigned integer: `none` is a panic (debug) or a wrap (release) -/
def checkedDec {w : Nat} (a : BitVec w) : Option (BitVec w) :=
  if a = 0#w then none else some (a - 1#w)

/-- checked `a + 1` of an unsigned integer: `none` is a panic (debug) or a wrap (release) -/
def checkedInc {w : Nat} (a : BitVec w) : Option (BitVec w) :=
  if a = BitVec.allOnes w then none else some (a + 1#w)

/-- nextafter.rs 2-37 -/
def nextafter (x y : Flt f64) : Option (Flt f64) :=
  if x.isNaN ∨ y.isNaN then some (x + y)
  else
    let ux : BitVec 64 := x.toBits
    let uy : BitVec 64 := y.toBits
    if ux = uy then some y
    else
      let ax := ux &&& (~~~1#64) / 2#64
      let ay := uy &&& (~~~1#64) / 2#64
      if ax = 0#64 then
        if ay = 0#64 then some y
        else some ⟨(uy &&& (1#64 <<< 63)) ||| 1#64⟩
      else if ay < ax ∨ (ux ^^^ uy) &&& (1#64 <<< 63) ≠ 0#64 then (checkedDec ux).map fun u => ⟨u⟩
      else (checkedInc ux).map fun u => ⟨u⟩

/-- nextafterf.rs 2-37 -/
def nextafterf (x y : Flt f32) : Option (Flt f32) :=
  if x.isNaN ∨ y.isNaN then some (x + y)
  else
    let ux : BitVec 32 := x.toBits
    let uy : BitVec 32 := y.toBits
    if ux = uy then some y
    else
      let ax := ux &&& 0x7fffffff#32
      let ay := uy &&& 0x7fffffff#32
      if ax = 0#32 then
        if ay = 0#32 then some y
        else some ⟨(uy &&& 0x80000000#32) ||| 1#32⟩
      else if ay < ax ∨ (ux ^^^ uy) &&& 0x80000000#32 ≠ 0#32 then (checkedDec ux).map fun u => ⟨u⟩
      else (checkedInc ux).map fun u => ⟨u⟩

end Verif
