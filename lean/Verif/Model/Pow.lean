import Verif.Model.Exp
import Verif.Model.Sqrt
import Verif.Model.Generic

/-!
# Model of pow, powf and exp10

`i32` variables that hold words of a float are 32-bit words here; comparisons with `0` read them as signed
(`toInt`).  Signed additions and subtractions, and shift amounts, are checked: `none` is the panic of a debug build.
-/

namespace Verif
open Flt
open Generic (scalbn)

/-- Rust `a + b` on `i32` with overflow check -/
def iadd (a b : BitVec 32) : Option (BitVec 32) := (i32 (a.toInt + b.toInt)).map (BitVec.ofInt 32)
/-- Rust `a - b` on `i32` with overflow check -/
def isub (a b : BitVec 32) : Option (BitVec 32) := (i32 (a.toInt - b.toInt)).map (BitVec.ofInt 32)
/-- a shift amount on a 32-bit integer: out of range is a panic -/
def sh32 (s : Int) : Option Nat := if 0 ≤ s ∧ s < 32 then some s.toNat else none

namespace Pow
/-- pow.rs 62 -/
def bp : List (Flt f64) := [1.0, 1.5]
/-- pow.rs 63 -/
def dpH : List (Flt f64) := [0.0, 5.84962487220764160156e-01]
/-- pow.rs 64 -/
def dpL : List (Flt f64) := [0.0, 1.35003920212974897128e-08]
/-- pow.rs 65 -/
def two53 : Flt f64 := 9007199254740992.0
/-- pow.rs 66 -/
def huge : Flt f64 := 1.0e300
/-- pow.rs 67 -/
def tiny : Flt f64 := 1.0e-300
/-- pow.rs 70 -/
def l1 : Flt f64 := 5.99999999999994648725e-01
/-- pow.rs 71 -/
def l2 : Flt f64 := 4.28571428578550184252e-01
/-- pow.rs 72 -/
def l3 : Flt f64 := 3.33333329818377432918e-01
/-- pow.rs 73 -/
def l4 : Flt f64 := 2.72728123808534006489e-01
/-- pow.rs 74 -/
def l5 : Flt f64 := 2.30660745775561754067e-01
/-- pow.rs 75 -/
def l6 : Flt f64 := 2.06975017800338417784e-01
/-- pow.rs 76 -/
def p1 : Flt f64 := 1.66666666666666019037e-01
/-- pow.rs 77 -/
def p2 : Flt f64 := -2.77777777770155933842e-03
/-- pow.rs 78 -/
def p3 : Flt f64 := 6.61375632143793436117e-05
/-- pow.rs 79 -/
def p4 : Flt f64 := -1.65339022054652515390e-06
/-- pow.rs 80 -/
def p5 : Flt f64 := 4.13813679705723846039e-08
/-- pow.rs 81 -/
def lg2 : Flt f64 := 6.93147180559945286227e-01
/-- pow.rs 82 -/
def lg2H : Flt f64 := 6.93147182464599609375e-01
/-- pow.rs 83 -/
def lg2L : Flt f64 := -1.90465429995776804525e-09
/-- pow.rs 84 -/
def ovt : Flt f64 := 8.0085662595372944372e-017
/-- pow.rs 85 -/
def cp : Flt f64 := 9.61796693925975554329e-01
/-- pow.rs 86 -/
def cpH : Flt f64 := 9.61796700954437255859e-01
/-- pow.rs 87 -/
def cpL : Flt f64 := -7.02846165095275826516e-09
/-- pow.rs 88 -/
def ivln2 : Flt f64 := 1.44269504088896338700e+00
/-- pow.rs 89 -/
def ivln2H : Flt f64 := 1.44269502162933349609e+00
/-- pow.rs 90 -/
def ivln2L : Flt f64 := 1.92596299112661746887e-08

/-- pow.rs 128-151: 0 if `y` is not an integer, 1 if odd, 2 if even (only computed when `x < 0`) -/
def yisint (hx iy ly : BitVec 32) : Option Int :=
  if hx.toInt < 0 then
    if iy ≥ 0x43400000#32 then some 2
    else if iy ≥ 0x3ff00000#32 then
      let k : Int := (iy >>> 20).toNat - 0x3ff
      if k > 20 then
        (sh32 (52 - k)).bind fun s =>
        let j := ly >>> s
        some (if j <<< s = ly then 2 - ((j &&& 1#32).toNat : Int) else 0)
      else if ly = 0 then
        (sh32 (20 - k)).bind fun s =>
        let j := iy >>> s
        some (if j <<< s = iy then 2 - ((j &&& 1#32).toNat : Int) else 0)
      else some 0
    else some 0
  else some 0

/-- pow.rs 248-255: `(t1, t2)` for `|y| > 2^31` and `x` close to one -/
def logNear1 (ax : Flt f64) : Flt f64 × Flt f64 :=
  let t := ax - 1.0
  let w := (t * t) * (0.5 - t * (0.3333333333333333333333 - t * 0.25))
  let u := ivln2H * t
  let v := t * ivln2L - w * ivln2
  let t1 := withSetLowWord (u + v) 0
  let t2 := v - (t1 - u)
  (t1, t2)

/-- pow.rs 284-321: `(t1, t2)` from the reduced argument -/
def logCore (ax : Flt f64) (ix : BitVec 32) (k : Nat) (n : Int) : Option (Flt f64 × Flt f64) :=
  (bp[k]?).bind fun bpk =>
  (dpH[k]?).bind fun dph =>
  (dpL[k]?).bind fun dpl =>
  let u := ax - bpk
  let v := 1.0 / (ax + bpk)
  let ss := u * v
  let sh := withSetLowWord ss 0
  (uadd ((ix >>> 1) ||| 0x20000000#32) 0x00080000#32).bind fun w =>
  (uadd w (BitVec.ofNat 32 k <<< 18)).bind fun w =>
  let th := withSetHighWord 0.0 w
  let tl := ax - (th - bpk)
  let sl := v * ((u - sh * th) - sh * tl)
  let s2 := ss * ss
  let r := s2 * s2 * (l1 + s2 * (l2 + s2 * (l3 + s2 * (l4 + s2 * (l5 + s2 * l6)))))
  let r := r + sl * (sh + ss)
  let s2 := sh * sh
  let th := withSetLowWord (3.0 + s2 + r) 0
  let tl := r - ((th - 3.0) - s2)
  let u := sh * th
  let v := sl * th + tl * ss
  let ph := withSetLowWord (u + v) 0
  let pl := v - (ph - u)
  let zh := cpH * ph
  let zl := cpL * ph + pl * cp + dpl
  let t := ofInt f64 n
  let t1 := withSetLowWord (((zh + zl) + dph) + t) 0
  let t2 := zl - (((t1 - t) - dph) - zh)
  some (t1, t2)

/-- pow.rs 257-283: normalization and choice of interval, then `logCore` -/
def logAx (ax : Flt f64) (ix : BitVec 32) : Option (Flt f64 × Flt f64) :=
  let (ax, n, ix) : Flt f64 × Int × BitVec 32 :=
    if ix < 0x00100000#32 then (ax * two53, -53, getHighWord (ax * two53)) else (ax, 0, ix)
  (i32 (n + ((ix.sshiftRight 20).toInt - 0x3ff))).bind fun n =>
  let j := ix &&& 0x000fffff#32
  let ix := j ||| 0x3ff00000#32
  if j ≤ 0x3988E#32 then logCore (withSetHighWord ax ix) ix 0 n
  else if j < 0xBB67A#32 then logCore (withSetHighWord ax ix) ix 1 n
  else
    (i32 (n + 1)).bind fun n =>
    (isub ix 0x00100000#32).bind fun ix =>
    logCore (withSetHighWord ax ix) ix 0 n

/-- pow.rs 374-393 -/
def exp2Tail (s ph pl : Flt f64) (n : Int) : Option (Flt f64) :=
  let t := withSetLowWord (pl + ph) 0
  let u := t * lg2H
  let v := (pl - (t - ph)) * lg2 + t * lg2L
  let z := u + v
  let w := v - (z - u)
  let t := z * z
  let t1 := z - t * (p1 + t * (p2 + t * (p3 + t * (p4 + t * p5))))
  let r := (z * t1) / (t1 - 2.0) - (w + z * w)
  let z := 1.0 - (r - z)
  (iadd (getHighWord z) (BitVec.ofInt 32 n <<< 20)).bind fun j =>
  if (j.sshiftRight 20).toInt ≤ 0 then (scalbn z n).map fun z => s * z
  else some (s * withSetHighWord z j)

/-- pow.rs 357-372: splits off the nearest integer `n`, then `exp2Tail` -/
def exp2Split (s ph pl : Flt f64) (j : BitVec 32) : Option (Flt f64) :=
  let i := j &&& 0x7fffffff#32
  let k : Int := (i >>> 20).toNat - 0x3ff
  if i > 0x3fe00000#32 then
    (sh32 (k + 1)).bind fun sh =>
    (iadd j (0x00100000#32 >>> sh)).bind fun n =>
    let k : Int := ((n &&& 0x7fffffff#32) >>> 20).toNat - 0x3ff
    (sh32 k).bind fun shk =>
    let t := withSetHighWord 0.0 (n &&& ~~~(0x000fffff#32 >>> shk))
    (sh32 (20 - k)).bind fun sh =>
    let n : Int := (((n &&& 0x000fffff#32) ||| 0x00100000#32) >>> sh).toNat
    let n := if j.toInt < 0 then -n else n
    exp2Tail s (ph - t) pl n
  else exp2Tail s ph pl 0

/-- pow.rs 324-355: multiplies out `y * log2(x)` and filters overflow and underflow -/
def mulOut (s y t1 t2 : Flt f64) : Option (Flt f64) :=
  let y1 := withSetLowWord y 0
  let pl := (y - y1) * t1 + y * t2
  let ph := y1 * t1
  let z := pl + ph
  let j := getHighWord z
  let i := getLowWord z
  if j.toInt ≥ 0x40900000 then
    (isub j 0x40900000#32).bind fun d =>
    if d ||| i ≠ 0 then some (s * huge * huge)
    else if (pl + ovt >ᶠ z - ph) = true then some (s * huge * huge)
    else exp2Split s ph pl j
  else if j &&& 0x7fffffff#32 ≥ 0x4090cc00#32 then
    (usub j 0xc090cc00#32).bind fun d =>
    if d ||| i ≠ 0 then some (s * tiny * tiny)
    else if (pl ≤ᶠ z - ph) = true then some (s * tiny * tiny)
    else exp2Split s ph pl j
  else exp2Split s ph pl j

/-- pow.rs 226-246: huge exponents; then `mulOut` -/
def general (s x y : Flt f64) (hy ix iy : BitVec 32) : Option (Flt f64) :=
  let ax := Generic.fabs x
  if iy > 0x41e00000#32 then
    if iy > 0x43f00000#32 ∧ ix ≤ 0x3fefffff#32 then
      some (if hy.toInt < 0 then huge * huge else tiny * tiny)
    else if iy > 0x43f00000#32 ∧ ix ≥ 0x3ff00000#32 then
      some (if hy.toInt > 0 then huge * huge else tiny * tiny)
    else if ix < 0x3fefffff#32 then
      some (if hy.toInt < 0 then s * huge * huge else s * tiny * tiny)
    else if ix > 0x3ff00000#32 then
      some (if hy.toInt > 0 then s * huge * huge else s * tiny * tiny)
    else
      let (t1, t2) := logNear1 ax
      mulOut s y t1 t2
  else (logAx ax ix).bind fun (t1, t2) => mulOut s y t1 t2

/-- pow.rs 189-224: special values of `x` and the sign of the result; then `general` -/
def base (x y : Flt f64) (yisint : Int) : Option (Flt f64) :=
  let hx := getHighWord x
  let lx := getLowWord x
  let hy := getHighWord y
  let ix := hx &&& 0x7fffffff#32
  let iy := hy &&& 0x7fffffff#32
  if lx = 0 ∧ (ix = 0x7ff00000#32 ∨ ix = 0 ∨ ix = 0x3ff00000#32) then
    let z := Generic.fabs x
    let z := if hy.toInt < 0 then 1.0 / z else z
    if hx.toInt < 0 then
      if ix - 0x3ff00000#32 = 0 ∧ yisint = 0 then some ((z - z) / (z - z))
      else if yisint = 1 then some (-z)
      else some z
    else some z
  else if hx.toInt < 0 then
    if yisint = 0 then some ((x - x) / (x - x))
    else if yisint = 1 then general (-1.0) x y hy ix iy
    else general 1.0 x y hy ix iy
  else general 1.0 x y hy ix iy
end Pow

/-- pow.rs 94-187: special values of `y`; then `base`.  (`(a | b) == 0` is written `a = 0 ∧ b = 0`.) -/
def pow (x y : Flt f64) : Option (Flt f64) :=
  let hx := getHighWord x
  let lx := getLowWord x
  let hy := getHighWord y
  let ly := getLowWord y
  let ix := hx &&& 0x7fffffff#32
  let iy := hy &&& 0x7fffffff#32
  if iy ||| ly = 0 then some 1.0
  else if hx = 0x3ff00000#32 ∧ lx = 0 then some 1.0
  else if ix > 0x7ff00000#32 ∨ (ix = 0x7ff00000#32 ∧ lx ≠ 0) ∨ iy > 0x7ff00000#32 ∨ (iy = 0x7ff00000#32 ∧ ly ≠ 0) then
    some (x + y)
  else
    (Pow.yisint hx iy ly).bind fun yisint =>
    if ly = 0 ∧ iy = 0x7ff00000#32 then
      if ix - 0x3ff00000#32 = 0 ∧ lx = 0 then some 1.0
      else if ix ≥ 0x3ff00000#32 then some (if hy.toInt ≥ 0 then y else 0.0)
      else some (if hy.toInt ≥ 0 then 0.0 else -y)
    else if ly = 0 ∧ iy = 0x3ff00000#32 then some (if hy.toInt ≥ 0 then x else 1.0 / x)
    else if ly = 0 ∧ hy = 0x40000000#32 then some (x * x)
    else if ly = 0 ∧ hy = 0x3fe00000#32 ∧ hx.toInt ≥ 0 then sqrt x
    else Pow.base x y yisint

namespace Powf
/-- powf.rs 20 -/
def bp : List (Flt f32) := [1.0, 1.5]
/-- powf.rs 21 -/
def dpH : List (Flt f32) := [0.0, 5.84960938e-01]
/-- powf.rs 22 -/
def dpL : List (Flt f32) := [0.0, 1.56322085e-06]
/-- powf.rs 23 -/
def two24 : Flt f32 := 16777216.0
/-- powf.rs 24 -/
def huge : Flt f32 := 1.0e30
/-- powf.rs 25 -/
def tiny : Flt f32 := 1.0e-30
/-- powf.rs 26 -/
def l1 : Flt f32 := 6.0000002384e-01
/-- powf.rs 27 -/
def l2 : Flt f32 := 4.2857143283e-01
/-- powf.rs 28 -/
def l3 : Flt f32 := 3.3333334327e-01
/-- powf.rs 29 -/
def l4 : Flt f32 := 2.7272811532e-01
/-- powf.rs 30 -/
def l5 : Flt f32 := 2.3066075146e-01
/-- powf.rs 31 -/
def l6 : Flt f32 := 2.0697501302e-01
/-- powf.rs 32 -/
def p1 : Flt f32 := 1.6666667163e-01
/-- powf.rs 33 -/
def p2 : Flt f32 := -2.7777778450e-03
/-- powf.rs 34 -/
def p3 : Flt f32 := 6.6137559770e-05
/-- powf.rs 35 -/
def p4 : Flt f32 := -1.6533901999e-06
/-- powf.rs 36 -/
def p5 : Flt f32 := 4.1381369442e-08
/-- powf.rs 37 -/
def lg2 : Flt f32 := 6.9314718246e-01
/-- powf.rs 38 -/
def lg2H : Flt f32 := 6.93145752e-01
/-- powf.rs 39 -/
def lg2L : Flt f32 := 1.42860654e-06
/-- powf.rs 40 -/
def ovt : Flt f32 := 4.2995665694e-08
/-- powf.rs 41 -/
def cp : Flt f32 := 9.6179670095e-01
/-- powf.rs 42 -/
def cpH : Flt f32 := 9.6191406250e-01
/-- powf.rs 43 -/
def cpL : Flt f32 := -1.1736857402e-04
/-- powf.rs 44 -/
def ivln2 : Flt f32 := 1.4426950216e+00
/-- powf.rs 45 -/
def ivln2H : Flt f32 := 1.4426879883e+00
/-- powf.rs 46 -/
def ivln2L : Flt f32 := 7.0526075433e-06

/-- `f32::from_bits(is as u32 & 0xfffff000)` with `is = x.to_bits()` (powf.rs 199-200, 238-239, ...) -/
def top (x : Flt f32) : Flt f32 := bits32 (x.u32 &&& 0xfffff000#32)

/-- powf.rs 104-115 -/
def yisint (hx iy : BitVec 32) : Option Int :=
  if hx.toInt < 0 then
    if iy ≥ 0x4b800000#32 then some 2
    else if iy ≥ 0x3f800000#32 then
      let k : Int := (iy >>> 23).toNat - 0x7f
      (sh32 (23 - k)).bind fun s =>
      let j := iy >>> s
      some (if j <<< s = iy then 2 - ((j &&& 1#32).toNat : Int) else 0)
    else some 0
  else some 0

/-- powf.rs 192-201 -/
def logNear1 (ax : Flt f32) : Flt f32 × Flt f32 :=
  let t := ax - 1.0
  let w := (t * t) * (0.5 - t * (0.333333333333 - t * 0.25))
  let u := ivln2H * t
  let v := t * ivln2L - w * ivln2
  let t1 := top (u + v)
  let t2 := v - (t1 - u)
  (t1, t2)

/-- powf.rs 231-269 -/
def logCore (ax : Flt f32) (ix : BitVec 32) (k : Nat) (n : Int) : Option (Flt f32 × Flt f32) :=
  (bp[k]?).bind fun bpk =>
  (dpH[k]?).bind fun dph =>
  (dpL[k]?).bind fun dpl =>
  let u := ax - bpk
  let v := 1.0 / (ax + bpk)
  let s := u * v
  let sh := top s
  let is := ((ix >>> 1) &&& 0xfffff000#32) ||| 0x20000000#32
  (uadd is 0x00400000#32).bind fun w =>
  (uadd w (BitVec.ofNat 32 k <<< 21)).bind fun w =>
  let th := bits32 w
  let tl := ax - (th - bpk)
  let sl := v * ((u - sh * th) - sh * tl)
  let s2 := s * s
  let r := s2 * s2 * (l1 + s2 * (l2 + s2 * (l3 + s2 * (l4 + s2 * (l5 + s2 * l6)))))
  let r := r + sl * (sh + s)
  let s2 := sh * sh
  let th := top (3.0 + s2 + r)
  let tl := r - ((th - 3.0) - s2)
  let u := sh * th
  let v := sl * th + tl * s
  let ph := top (u + v)
  let pl := v - (ph - u)
  let zh := cpH * ph
  let zl := cpL * ph + pl * cp + dpl
  let t := ofInt f32 n
  let t1 := top (((zh + zl) + dph) + t)
  let t2 := zl - (((t1 - t) - dph) - zh)
  some (t1, t2)

/-- powf.rs 203-230 -/
def logAx (ax : Flt f32) (ix : BitVec 32) : Option (Flt f32 × Flt f32) :=
  let (_, n, ix) : Flt f32 × Int × BitVec 32 :=
    if ix < 0x00800000#32 then (ax * two24, -24, (ax * two24).u32) else (ax, 0, ix)
  (i32 (n + ((ix.sshiftRight 23).toInt - 0x7f))).bind fun n =>
  let j := ix &&& 0x007fffff#32
  let ix := j ||| 0x3f800000#32
  if j ≤ 0x1cc471#32 then logCore (bits32 ix) ix 0 n
  else if j < 0x5db3d7#32 then logCore (bits32 ix) ix 1 n
  else
    (i32 (n + 1)).bind fun n =>
    (isub ix 0x00800000#32).bind fun ix =>
    logCore (bits32 ix) ix 0 n

/-- powf.rs 315-334 -/
def exp2Tail (sn ph pl : Flt f32) (n : Int) : Option (Flt f32) :=
  let t := bits32 ((pl + ph).u32 &&& 0xffff8000#32)
  let u := t * lg2H
  let v := (pl - (t - ph)) * lg2 + t * lg2L
  let z := u + v
  let w := v - (z - u)
  let t := z * z
  let t1 := z - t * (p1 + t * (p2 + t * (p3 + t * (p4 + t * p5))))
  let r := (z * t1) / (t1 - 2.0) - (w + z * w)
  let z := 1.0 - (r - z)
  (iadd z.u32 (BitVec.ofInt 32 n <<< 23)).bind fun j =>
  if (j.sshiftRight 23).toInt ≤ 0 then (scalbn z n).map fun z => sn * z
  else some (sn * bits32 j)

/-- powf.rs 298-314 -/
def exp2Split (sn ph pl : Flt f32) (j : BitVec 32) : Option (Flt f32) :=
  let i := j &&& 0x7fffffff#32
  let k : Int := (i >>> 23).toNat - 0x7f
  if i > 0x3f000000#32 then
    (sh32 (k + 1)).bind fun sh =>
    (iadd j (0x00800000#32 >>> sh)).bind fun n =>
    let k : Int := ((n &&& 0x7fffffff#32) >>> 23).toNat - 0x7f
    (sh32 k).bind fun shk =>
    let t := bits32 (n &&& ~~~(0x007fffff#32 >>> shk))
    (sh32 (23 - k)).bind fun sh =>
    let n : Int := (((n &&& 0x007fffff#32) ||| 0x00800000#32) >>> sh).toNat
    let n := if j.toInt < 0 then -n else n
    exp2Tail sn (ph - t) pl n
  else exp2Tail sn ph pl 0

/-- powf.rs 272-296 -/
def mulOut (sn y t1 t2 : Flt f32) : Option (Flt f32) :=
  let y1 := top y
  let pl := (y - y1) * t1 + y * t2
  let ph := y1 * t1
  let z := pl + ph
  let j := z.u32
  if j.toInt > 0x43000000 then some (sn * huge * huge)
  else if j = 0x43000000#32 then
    if (pl + ovt >ᶠ z - ph) = true then some (sn * huge * huge) else exp2Split sn ph pl j
  else if j &&& 0x7fffffff#32 > 0x43160000#32 then some (sn * tiny * tiny)
  else if j = 0xc3160000#32 ∧ (pl ≤ᶠ z - ph) = true then some (sn * tiny * tiny)
  else exp2Split sn ph pl j

/-- powf.rs 180-190 -/
def general (sn x y : Flt f32) (hy ix iy : BitVec 32) : Option (Flt f32) :=
  let ax := Generic.fabs x
  if iy > 0x4d000000#32 then
    if ix < 0x3f7ffff8#32 then some (if hy.toInt < 0 then sn * huge * huge else sn * tiny * tiny)
    else if ix > 0x3f800007#32 then some (if hy.toInt > 0 then sn * huge * huge else sn * tiny * tiny)
    else
      let (t1, t2) := logNear1 ax
      mulOut sn y t1 t2
  else (logAx ax ix).bind fun (t1, t2) => mulOut sn y t1 t2

/-- powf.rs 147-178 -/
def base (x y : Flt f32) (yisint : Int) : Option (Flt f32) :=
  let hx := x.u32
  let hy := y.u32
  let ix := hx &&& 0x7fffffff#32
  let iy := hy &&& 0x7fffffff#32
  if ix = 0x7f800000#32 ∨ ix = 0 ∨ ix = 0x3f800000#32 then
    let z := Generic.fabs x
    let z := if hy.toInt < 0 then 1.0 / z else z
    if hx.toInt < 0 then
      if ix - 0x3f800000#32 = 0 ∧ yisint = 0 then some ((z - z) / (z - z))
      else if yisint = 1 then some (-z)
      else some z
    else some z
  else if hx.toInt < 0 then
    if yisint = 0 then some ((x - x) / (x - x))
    else if yisint = 1 then general (-1.0) x y hy ix iy
    else general 1.0 x y hy ix iy
  else general 1.0 x y hy ix iy
end Powf

/-- powf.rs 50-145 -/
def powf (x y : Flt f32) : Option (Flt f32) :=
  let hx := x.u32
  let hy := y.u32
  let ix := hx &&& 0x7fffffff#32
  let iy := hy &&& 0x7fffffff#32
  if iy = 0 then some 1.0
  else if hx = 0x3f800000#32 then some 1.0
  else if ix > 0x7f800000#32 ∨ iy > 0x7f800000#32 then some (x + y)
  else
    (Powf.yisint hx iy).bind fun yisint =>
    if iy = 0x7f800000#32 then
      if ix = 0x3f800000#32 then some 1.0
      else if ix > 0x3f800000#32 then some (if hy.toInt ≥ 0 then y else 0.0)
      else some (if hy.toInt ≥ 0 then 0.0 else -y)
    else if iy = 0x3f800000#32 then some (if hy.toInt ≥ 0 then x else 1.0 / x)
    else if hy = 0x40000000#32 then some (x * x)
    else if hy = 0x3f000000#32 ∧ hx.toInt ≥ 0 then sqrtf x
    else Powf.base x y yisint

namespace Exp10
/-- exp10.rs 3 -/
def ln10 : Flt f64 := 3.32192809488736234787031942948939
/-- exp10.rs 4-7 -/
def p10 : List (Flt f64) :=
  [1e-15, 1e-14, 1e-13, 1e-12, 1e-11, 1e-10, 1e-9, 1e-8, 1e-7, 1e-6, 1e-5, 1e-4, 1e-3, 1e-2, 1e-1,
    1e0, 1e1, 1e2, 1e3, 1e4, 1e5, 1e6, 1e7, 1e8, 1e9, 1e10, 1e11, 1e12, 1e13, 1e14, 1e15]
/-- `i!(P10, ((n as isize) + 15) as usize)`: `usize` is taken to be 64 bits wide; a negative `isize` is a huge index -/
def look (n : Flt f64) : Option (Flt f64) := (i64 (n.toSInt 64 + 15)).bind fun i => p10[(i % 2 ^ 64).toNat]?
end Exp10

/-- exp10.rs 11-23 -/
def exp10 (x : Flt f64) : Option (Flt f64) :=
  let (y, n) := modf x
  let u := n.u64
  if (u >>> 52) &&& 0x7ff < 0x3ff#64 + 4 then
    if (y =ᶠ 0.0) = true then Exp10.look n
    else (exp2 (Exp10.ln10 * y)).bind fun y => (Exp10.look n).map fun p => y * p
  else pow 10.0 x

end Verif
