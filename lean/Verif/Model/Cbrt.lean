import Verif.Model.Lit
import Verif.Model.Fma
import Verif.Model.Generic

/-!
# Model of cbrt and cbrtf

`cbrt` calls `cbrt_round` with `Round::Nearest`, the only call in the library, so `off[round]` is `off[0]` and the block
of cbrt.rs 161-178 under `round != Round::Nearest` is left out.  The hexadecimal literals `hf64!(..)` are written as the
encodings they denote.  `y.fma(..)` is the `fma` of the library (float_traits.rs 264-272 without the intrinsic): its
`none` is a panic.  The checked additions of cbrt.rs 46, 72, 191 and 194 are
written without their checks: `e` is below `0x800`, `cvt1` has the exponent field `0x3ff`, and the other two add `0x520000`
and `0x8000` to the encoding of a number.  The checked subtractions of lines 58 and 61 are on a subnormal number, which
has at least twelve leading zeros.  `ESCALE` and `rsc` are lists read with `[i]?`.
-/

namespace Verif
open Flt

namespace Cbrt
/-- cbrt.rs 17-21 -/
def escale : List (Flt f64) := [1.0, bits64 0x3ff428a2f98d728b#64, bits64 0x3ff965fea53d6e3d#64]
/-- cbrt.rs 26: `C[0]` -/
def c0 : Flt f64 := bits64 0x3fe1b0babccfef9c#64
/-- cbrt.rs 27: `C[1]` -/
def c1 : Flt f64 := bits64 0x3fe2c9a3e94d1da5#64
/-- cbrt.rs 28: `C[2]` -/
def c2 : Flt f64 := bits64 0xbfc4dc30b1a1ddba#64
/-- cbrt.rs 29: `C[3]` -/
def c3 : Flt f64 := bits64 0x3f97a8d3e4ec9b07#64
/-- cbrt.rs 32 -/
def u0 : Flt f64 := bits64 0x3fd5555555555555#64
/-- cbrt.rs 33 -/
def u1 : Flt f64 := bits64 0x3fcc71c71c71c71c#64
/-- cbrt.rs 35 -/
def rsc : List (Flt f64) := [1.0, -1.0, 0.5, -0.5, 0.25, -0.25]
/-- cbrt.rs 37: `off[0]` -/
def off0 : Flt f64 := bits64 0x3ca0000000000000#64

/-- cbrt.rs 40-64: the significand `mant` and the exponent `e + 3072` of a number that is neither zero, infinite nor NaN -/
def split (x : Flt f64) : BitVec 64 × BitVec 32 :=
  let hx := x.u64
  let mant := hx &&& 0x000fffffffffffff#64
  let e : BitVec 32 := (hx >>> 52).setWidth 32 &&& 0x7ff#32
  if (e + 1#32) &&& 0x7ff#32 < 2#32 then
    let ix := hx &&& 0x7fffffffffffffff#64
    let nz : BitVec 32 := BitVec.ofNat 32 (leadingZeros ix) - 11#32
    let mant := (mant <<< nz.toNat) &&& 0x000fffffffffffff#64
    (mant, e - (nz - 1#32) + 3072#32)
  else (mant, e + 3072#32)

/-- cbrt.rs 86-96: an approximation of the cube root of `z`, `1 <= z < 2` -/
def first (z r : Flt f64) : Flt f64 :=
  let z2 := z * z
  let a0 := c0 + z * c1
  let a2 := c2 + z * c3
  let y := a0 + z2 * a2
  let y2 := y * y
  let h := y2 * (y * r) - 1.0
  y - (h * y) * (u0 - u1 * h)

/-- cbrt.rs 105-118, 134-142: one step of the iteration `y - dy`, as the rounded difference and its error -/
def step (zz rr y : Flt f64) : Option (Flt f64 × Flt f64) :=
  let y2 := y * y
  (Generic.fma y y (-y2)).bind fun y2l =>
  let y3 := y2 * y
  (Generic.fma y y2 (-y3)).map fun t =>
  let y3l := t + y * y2l
  let h := ((y3 - zz) + y3l) * rr
  let dy := h * (y * u0)
  let y1 := y - dy
  (y1, (y - y1) - dy)

/-- cbrt.rs 122-131, 143-147: `dy` is close to half a unit, or to one and a half, up to `eps` -/
def nearHalf (dy eps : Flt f64) : Bool :=
  let ady := Generic.fabs dy
  let ady0 := Generic.fabs (ady - off0)
  let ady1 := Generic.fabs (ady - (bits64 0x3cb0000000000000#64 + off0))
  ady0 <ᶠ eps || ady1 <ᶠ eps

/-- cbrt.rs 149-159: the two known hard cases -/
def hard (zz y1 : Flt f64) : Flt f64 :=
  let azz := Generic.fabs zz
  let y1 := if azz =ᶠ bits64 0x4009b78223aa307c#64 then Generic.copysign (bits64 0x3ff79d15d0e8d59c#64) zz else y1
  if azz =ᶠ bits64 0x401a202bfc89ddff#64 then Generic.copysign (bits64 0x3ffde87aa837820f#64) zz else y1

/-- cbrt.rs 131-180: the second iteration, for results that are too close to a midpoint -/
def refine (zz rr y1 dy : Flt f64) : Option (Flt f64 × Flt f64) :=
  if nearHalf dy (bits64 0x3b40000000000000#64) then
    (step zz rr y1).map fun p =>
      if nearHalf p.2 (bits64 0x39d0000000000000#64) then (hard zz p.1, p.2) else p
  else some (y1, dy)

/-- cbrt.rs 182-198: put the exponent back and clean the cube root of a cube -/
def finish (zz y1 dy : Flt f64) (et : BitVec 32) : Flt f64 :=
  let cvt3 := y1.u64 + ((et - 342#32 - 1023#32).setWidth 64 <<< 52)
  let m0 := cvt3 <<< 30
  let m1 := m0 >>> 63
  if m0 ^^^ m1 ≤ 0x40000000#64 then
    let cvt4 := (y1.u64 + 0x520000#64) &&& 0xffffffffffff0000#64
    if Generic.fabs ((bits64 cvt4 - y1) - dy) <ᶠ bits64 0x3c30000000000000#64 || Generic.fabs zz =ᶠ 1.0 then
      bits64 ((cvt3 + 0x8000#64) &&& 0xffffffffffff0000#64)
    else bits64 cvt3
  else bits64 cvt3

/-- cbrt.rs 65-198 for a number that is neither zero, infinite nor NaN, split as `sign`, `mant` and `e` -/
def core (sign : BitVec 64) (mant : BitVec 64) (e : BitVec 32) : Option (Flt f64) :=
  let cvt1 := mant ||| (0x3ff#64 <<< 52)
  let et := e / 3#32
  let it := e % 3#32
  let zz := bits64 ((cvt1 + (it.setWidth 64 <<< 52)) ||| (sign <<< 63))
  (escale[it.toNat]?).bind fun es =>
  let isc := bits64 (es.u64 ||| (sign <<< 63))
  let z := bits64 cvt1
  let r := 1.0 / z
  (rsc[2 * it.toNat + sign.toNat]?).bind fun sc =>
  let rr := r * sc
  let y := first z r * isc
  (step zz rr y).bind fun p =>
  (refine zz rr p.1 p.2).map fun q => finish zz q.1 q.2 et
end Cbrt

/-- cbrt.rs 12-14, 16-199 -/
def cbrt (x : Flt f64) : Option (Flt f64) :=
  let hx := x.u64
  let e : BitVec 32 := (hx >>> 52).setWidth 32 &&& 0x7ff#32
  if (e + 1#32) &&& 0x7ff#32 < 2#32 ∧ (e = 0x7ff#32 ∨ hx &&& 0x7fffffffffffffff#64 = 0#64) then some (x + x)
  else
    let s := Cbrt.split x
    Cbrt.core (hx >>> 63) s.1 s.2

/-- cbrtf.rs 63-64, 70-71: one step of the iteration, with `x` and `t` as f64 -/
def Cbrtf.step (x t : Flt f64) : Flt f64 :=
  let r := t * t * t
  t * (x + x + r) / (x + r + r)

/-- cbrtf.rs 29-75; `none` would be an overflow of `hx / 3 + B1` or `hx / 3 + B2` -/
def cbrtf (x : Flt f32) : Option (Flt f32) :=
  let hx := x.u32 &&& 0x7fffffff#32
  if hx ≥ 0x7f800000#32 then some (x + x)
  else if hx = 0#32 then some x
  else
    let sub := decide (hx < 0x00800000#32)
    let ui := if sub then (x * bits32 0x4b800000#32).u32 else x.u32
    (chkAdd ((ui &&& 0x7fffffff#32) / 3#32) (if sub then 642849266#32 else 709958130#32)).map fun h =>
    let t := (bits32 ((ui &&& 0x80000000#32) ||| h)).cast f64
    let x := x.cast f64
    (Cbrtf.step x (Cbrtf.step x t)).cast f32

end Verif
