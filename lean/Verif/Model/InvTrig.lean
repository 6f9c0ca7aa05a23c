import Verif.Model.Lit
import Verif.Model.Sqrt
import Verif.Model.Generic
import Verif.Model.Trig

/-!
# Model of asin, acos, atan, atan2 and their f32 versions

`force_eval!` only keeps the compiler from removing a computation whose floating-point exception flags would be lost; it
has no effect on the result and is left out.  Tables read with `i!` are lists read with `[i]?`: `none` is an index out of
bounds.  `none` is also what a failing `sqrt` would give.  The checked subtraction `ix - 0x3ff00000` of asin.rs 83 and
acos.rs 79 is written without its check: it stands under the test `ix >= 0x3ff00000`.
-/

namespace Verif
open Flt

/-! ## asin, acos -/

namespace Asin
/-- asin.rs 44, acos.rs 38 -/
def pio2Hi : Flt f64 := 1.57079632679489655800e+00
/-- asin.rs 45, acos.rs 39 -/
def pio2Lo : Flt f64 := 6.12323399573676603587e-17
/-- asin.rs 47, acos.rs 40 -/
def ps0 : Flt f64 := 1.66666666666666657415e-01
/-- asin.rs 48, acos.rs 41 -/
def ps1 : Flt f64 := -3.25565818622400915405e-01
/-- asin.rs 49, acos.rs 42 -/
def ps2 : Flt f64 := 2.01212532134862925881e-01
/-- asin.rs 50, acos.rs 43 -/
def ps3 : Flt f64 := -4.00555345006794114027e-02
/-- asin.rs 51, acos.rs 44 -/
def ps4 : Flt f64 := 7.91534994289814532176e-04
/-- asin.rs 52, acos.rs 45 -/
def ps5 : Flt f64 := 3.47933107596021167570e-05
/-- asin.rs 53, acos.rs 46 -/
def qs1 : Flt f64 := -2.40339491173441421878e+00
/-- asin.rs 54, acos.rs 47 -/
def qs2 : Flt f64 := 2.02094576023350569471e+00
/-- asin.rs 55, acos.rs 48 -/
def qs3 : Flt f64 := -6.88283971605453293030e-01
/-- asin.rs 56, acos.rs 49 -/
def qs4 : Flt f64 := 7.70381505559019352791e-02

/-- asin.rs 58-62, acos.rs 51-55 -/
def compR (z : Flt f64) : Flt f64 :=
  let p := z * (ps0 + z * (ps1 + z * (ps2 + z * (ps3 + z * (ps4 + z * ps5)))))
  let q := 1.0 + z * (qs1 + z * (qs2 + z * (qs3 + z * qs4)))
  p / q

/-- asin.rs 99-113: 1 > |x| >= 0.5, before the sign is put back -/
def big (x : Flt f64) (ix : BitVec 32) : Option (Flt f64) := do
  let z := (1.0 - Generic.fabs x) * 0.5
  let s ← sqrt z
  let r := compR z
  if ix ≥ 0x3fef3333#32 then
    some (pio2Hi - (2.0 * (s + s * r) - pio2Lo))
  else
    let f := withSetLowWord s 0
    let c := (z - f * f) / (s + f)
    some (0.5 * pio2Hi - (2.0 * s * r - (pio2Lo - 2.0 * c) - (0.5 * pio2Hi - 2.0 * f)))

end Asin

/-- asin.rs 70-115 -/
def asin (x : Flt f64) : Option (Flt f64) :=
  let hx := getHighWord x
  let ix := hx &&& 0x7fffffff
  if ix ≥ 0x3ff00000#32 then
    let lx := getLowWord x
    if (ix - 0x3ff00000#32) ||| lx = 0 then some (x * Asin.pio2Hi + bits64 0x3870000000000000)
    else some (0.0 / (x - x))
  else if ix < 0x3fe00000#32 then
    if 0x00100000#32 ≤ ix ∧ ix < 0x3e500000#32 then some x
    else some (x + x * Asin.compR (x * x))
  else (Asin.big x ix).map fun r => if hx >>> 31 ≠ 0 then -r else r

/-- acos.rs 63-112 -/
def acos (x : Flt f64) : Option (Flt f64) :=
  let x1p_120f := bits64 0x3870000000000000
  let hx : BitVec 32 := (x.u64 >>> 32).setWidth 32
  let ix := hx &&& 0x7fffffff
  if ix ≥ 0x3ff00000#32 then
    let lx : BitVec 32 := x.u64.setWidth 32
    if (ix - 0x3ff00000#32) ||| lx = 0 then
      if hx >>> 31 ≠ 0 then some (2.0 * Asin.pio2Hi + x1p_120f) else some 0.0
    else some (0.0 / (x - x))
  else if ix < 0x3fe00000#32 then
    if ix ≤ 0x3c600000#32 then some (Asin.pio2Hi + x1p_120f)
    else some (Asin.pio2Hi - (x - (Asin.pio2Lo - x * Asin.compR (x * x))))
  else if hx >>> 31 ≠ 0 then do
    let z := (1.0 + x) * 0.5
    let s ← sqrt z
    let w := Asin.compR z * s - Asin.pio2Lo
    some (2.0 * (Asin.pio2Hi - (s + w)))
  else do
    let z := (1.0 - x) * 0.5
    let s ← sqrt z
    let df := bits64 (s.u64 &&& 0xffffffff00000000)
    let c := (z - df * df) / (s + df)
    let w := Asin.compR z * s + c
    some (2.0 * (df + w))

/-! ## asinf, acosf -/

namespace Asinf
/-- asinf.rs 19 -/
def pio2 : Flt f64 := 1.570796326794896558e+00
/-- asinf.rs 22, acosf.rs 20 -/
def ps0 : Flt f32 := 1.6666586697e-01
/-- asinf.rs 23, acosf.rs 21 -/
def ps1 : Flt f32 := -4.2743422091e-02
/-- asinf.rs 24, acosf.rs 22 -/
def ps2 : Flt f32 := -8.6563630030e-03
/-- asinf.rs 25, acosf.rs 23 -/
def qs1 : Flt f32 := -7.0662963390e-01
/-- acosf.rs 18 -/
def pio2Hi : Flt f32 := 1.5707962513e+00
/-- acosf.rs 19 -/
def pio2Lo : Flt f32 := 7.5497894159e-08

/-- asinf.rs 27-31, acosf.rs 25-29 -/
def r (z : Flt f32) : Flt f32 :=
  let p := z * (ps0 + z * (ps1 + z * ps2))
  let q := 1.0 + z * qs1
  p / q

/-- asinf.rs 63-66: 1 > |x| >= 0.5, before the sign is put back -/
def big (x : Flt f32) : Option (Flt f32) := do
  let z := (1.0 - Generic.fabs x) * 0.5
  let s ← sqrt (z.cast f64)
  some ((pio2 - 2.0 * (s + s * (r z).cast f64)).cast f32)

end Asinf

/-- asinf.rs 39-68 -/
def asinf (x : Flt f32) : Option (Flt f32) :=
  let x1p_120 := bits64 0x3870000000000000
  let hx := x.u32
  let ix := hx &&& 0x7fffffff
  if ix ≥ 0x3f800000#32 then
    if ix = 0x3f800000#32 then some ((x.cast f64 * Asinf.pio2 + x1p_120).cast f32)
    else some (0.0 / (x - x))
  else if ix < 0x3f000000#32 then
    if 0x00800000#32 ≤ ix ∧ ix < 0x39800000#32 then some x
    else some (x + x * Asinf.r (x * x))
  else (Asinf.big x).map fun r => if hx >>> 31 ≠ 0 then -r else r

/-- acosf.rs 37-79 -/
def acosf (x : Flt f32) : Option (Flt f32) :=
  let x1p_120 := bits32 0x03800000
  let hx := x.u32
  let ix := hx &&& 0x7fffffff
  if ix ≥ 0x3f800000#32 then
    if ix = 0x3f800000#32 then
      if hx >>> 31 ≠ 0 then some (2.0 * Asinf.pio2Hi + x1p_120) else some 0.0
    else some (0.0 / (x - x))
  else if ix < 0x3f000000#32 then
    if ix ≤ 0x32800000#32 then some (Asinf.pio2Hi + x1p_120)
    else some (Asinf.pio2Hi - (x - (Asinf.pio2Lo - x * Asinf.r (x * x))))
  else if hx >>> 31 ≠ 0 then do
    let z := (1.0 + x) * 0.5
    let s ← sqrtf z
    let w := Asinf.r z * s - Asinf.pio2Lo
    some (2.0 * (Asinf.pio2Hi - (s + w)))
  else do
    let z := (1.0 - x) * 0.5
    let s ← sqrtf z
    let df := bits32 (s.u32 &&& 0xfffff000)
    let c := (z - df * df) / (s + df)
    let w := Asinf.r z * s + c
    some (2.0 * (df + w))

/-! ## atan, atanf -/

namespace Atan

/-- atan.rs 36-41 -/
def atanhi : List (Flt f64) :=
  [4.63647609000806093515e-01, 7.85398163397448278999e-01, 9.82793723247329054082e-01, 1.57079632679489655800e+00]

/-- atan.rs 43-48 -/
def atanlo : List (Flt f64) :=
  [2.26987774529616870924e-17, 3.06161699786838301793e-17, 1.39033110312309984516e-17, 6.12323399573676603587e-17]

/-- atan.rs 51, `AT[0]` (a constant index) -/
def at0 : Flt f64 := 3.33333333333329318027e-01
/-- atan.rs 52, `AT[1]` (a constant index) -/
def at1 : Flt f64 := -1.99999999998764832476e-01
/-- atan.rs 53, `AT[2]` (a constant index) -/
def at2 : Flt f64 := 1.42857142725034663711e-01
/-- atan.rs 54, `AT[3]` (a constant index) -/
def at3 : Flt f64 := -1.11111104054623557880e-01
/-- atan.rs 55, `AT[4]` (a constant index) -/
def at4 : Flt f64 := 9.09088713343650656196e-02
/-- atan.rs 56, `AT[5]` (a constant index) -/
def at5 : Flt f64 := -7.69187620504482999495e-02
/-- atan.rs 57, `AT[6]` (a constant index) -/
def at6 : Flt f64 := 6.66107313738753120669e-02
/-- atan.rs 58, `AT[7]` (a constant index) -/
def at7 : Flt f64 := -5.83357013379057348645e-02
/-- atan.rs 59, `AT[8]` (a constant index) -/
def at8 : Flt f64 := 4.97687799461593236017e-02
/-- atan.rs 60, `AT[9]` (a constant index) -/
def at9 : Flt f64 := -3.65315727442169155270e-02
/-- atan.rs 61, `AT[10]` (a constant index) -/
def at10 : Flt f64 := 1.62858201153657823623e-02

/-- atan.rs 83-118, the cases that do not return: the index `id` (-1 if the argument is not reduced) and the reduced
argument -/
def reduce (x : Flt f64) (ix : BitVec 32) : Int × Flt f64 :=
  if ix < 0x3fdc0000#32 then (-1, x)
  else
    let x := Generic.fabs x
    if ix < 0x3ff30000#32 then
      if ix < 0x3fe60000#32 then (0, (2.0 * x - 1.0) / (2.0 + x))
      else (1, (x - 1.0) / (x + 1.0))
    else if ix < 0x40038000#32 then (2, (x - 1.5) / (1.0 + 1.5 * x))
    else (3, -1.0 / x)

/-- atan.rs 120-124: `s1 + s2` -/
def poly (x : Flt f64) : Flt f64 :=
  let z := x * x
  let w := z * z
  let s1 := z * (at0 + w * (at2 + w * (at4 + w * (at6 + w * (at8 + w * at10)))))
  let s2 := w * (at1 + w * (at3 + w * (at5 + w * (at7 + w * at9))))
  s1 + s2

end Atan

/-- atan.rs 69-133 -/
def atan (x : Flt f64) : Option (Flt f64) :=
  let ix : BitVec 32 := (x.u64 >>> 32).setWidth 32
  let sign := ix >>> 31
  let ix := ix &&& 0x7fffffff
  if ix ≥ 0x44100000#32 then
    if x.isNaN then some x
    else do
      let hi ← Atan.atanhi[3]?
      let z := hi + bits64 0x03800000
      some (if sign ≠ 0 then -z else z)
  else if ix < 0x3fdc0000#32 ∧ ix < 0x3e400000#32 then some x
  else
    let (id, x) := Atan.reduce x ix
    if id < 0 then some (x - x * Atan.poly x)
    else do
      let hi ← Atan.atanhi[id.toNat]?
      let lo ← Atan.atanlo[id.toNat]?
      let z := hi - (x * Atan.poly x - lo - x)
      some (if sign ≠ 0 then -z else z)

namespace Atanf

/-- atanf.rs 18-23 -/
def atanHi : List (Flt f32) := [4.6364760399e-01, 7.8539812565e-01, 9.8279368877e-01, 1.5707962513e+00]

/-- atanf.rs 25-30 -/
def atanLo : List (Flt f32) := [5.0121582440e-09, 3.7748947079e-08, 3.4473217170e-08, 7.5497894159e-08]

/-- atanf.rs 33, `A_T[0]` (a constant index) -/
def at0 : Flt f32 := 3.3333328366e-01
/-- atanf.rs 33, `A_T[1]` (a constant index) -/
def at1 : Flt f32 := -1.9999158382e-01
/-- atanf.rs 33, `A_T[2]` (a constant index) -/
def at2 : Flt f32 := 1.4253635705e-01
/-- atanf.rs 33, `A_T[3]` (a constant index) -/
def at3 : Flt f32 := -1.0648017377e-01
/-- atanf.rs 33, `A_T[4]` (a constant index) -/
def at4 : Flt f32 := 6.1687607318e-02

/-- atanf.rs 57-90, the cases that do not return: the index `id` (-1 if the argument is not reduced) and the reduced
argument -/
def reduce (x : Flt f32) (ix : BitVec 32) : Int × Flt f32 :=
  if ix < 0x3ee00000#32 then (-1, x)
  else
    let x := Generic.fabs x
    if ix < 0x3f980000#32 then
      if ix < 0x3f300000#32 then (0, (2.0 * x - 1.0) / (2.0 + x))
      else (1, (x - 1.0) / (x + 1.0))
    else if ix < 0x401c0000#32 then (2, (x - 1.5) / (1.0 + 1.5 * x))
    else (3, -1.0 / x)

/-- atanf.rs 92-96: `s1 + s2` -/
def poly (x : Flt f32) : Flt f32 :=
  let z := x * x
  let w := z * z
  let s1 := z * (at0 + w * (at2 + w * at4))
  let s2 := w * (at1 + w * at3)
  s1 + s2

end Atanf

/-- atanf.rs 40-103 -/
def atanf (x : Flt f32) : Option (Flt f32) :=
  let x1p_120 := bits32 0x03800000
  let ix := x.u32
  let sign := ix >>> 31
  let ix := ix &&& 0x7fffffff
  if ix ≥ 0x4c800000#32 then
    if x.isNaN then some x
    else do
      let hi ← Atanf.atanHi[3]?
      let z := hi + x1p_120
      some (if sign ≠ 0 then -z else z)
  else if ix < 0x3ee00000#32 ∧ ix < 0x39800000#32 then some x
  else
    let (id, x) := Atanf.reduce x ix
    if id < 0 then some (x - x * Atanf.poly x)
    else do
      let hi ← Atanf.atanHi[id.toNat]?
      let lo ← Atanf.atanLo[id.toNat]?
      let z := hi - ((x * Atanf.poly x - lo) - x)
      some (if sign ≠ 0 then -z else z)

/-! ## atan2, atan2f -/

namespace Atan2
/-- atan2.rs 42 -/
def pi : Flt f64 := 3.1415926535897931160e+00
/-- atan2.rs 43 -/
def piLo : Flt f64 := 1.2246467991473531772e-16

/-- atan2.rs 97-114: neither argument is NaN, `y` is not zero, `x` is neither zero nor infinite -/
def quot (y x : Flt f64) (iy ix m : BitVec 32) : Option (Flt f64) :=
  if ix + (64#32 <<< 20) < iy ∨ iy = 0x7ff00000#32 then
    if m &&& 1#32 ≠ 0#32 then some (-pi / 2.0) else some (pi / 2.0)
  else
    (if m &&& 2#32 ≠ 0#32 ∧ iy + (64#32 <<< 20) < ix then some 0.0 else atan (Generic.fabs (y / x))).map fun z =>
      if m = 0#32 then z
      else if m = 1#32 then -z
      else if m = 2#32 then pi - (z - piLo)
      else (z - piLo) - pi

end Atan2

/-- atan2.rs 51-115 -/
def atan2 (y x : Flt f64) : Option (Flt f64) :=
  if x.isNaN ∨ y.isNaN then some (x + y)
  else
    let ix : BitVec 32 := (x.u64 >>> 32).setWidth 32
    let lx : BitVec 32 := x.u64.setWidth 32
    let iy : BitVec 32 := (y.u64 >>> 32).setWidth 32
    let ly : BitVec 32 := y.u64.setWidth 32
    if (ix - 0x3ff00000#32) ||| lx = 0#32 then atan y
    else
      let m := ((iy >>> 31) &&& 1#32) ||| ((ix >>> 30) &&& 2#32)
      let ix := ix &&& 0x7fffffff
      let iy := iy &&& 0x7fffffff
      if iy ||| ly = 0#32 then
        if m = 0#32 ∨ m = 1#32 then some y
        else if m = 2#32 then some Atan2.pi
        else some (-Atan2.pi)
      else if ix ||| lx = 0#32 then
        if m &&& 1#32 ≠ 0#32 then some (-Atan2.pi / 2.0) else some (Atan2.pi / 2.0)
      else if ix = 0x7ff00000#32 then
        if iy = 0x7ff00000#32 then
          if m = 0#32 then some (Atan2.pi / 4.0)
          else if m = 1#32 then some (-Atan2.pi / 4.0)
          else if m = 2#32 then some (3.0 * Atan2.pi / 4.0)
          else some (-3.0 * Atan2.pi / 4.0)
        else
          if m = 0#32 then some 0.0
          else if m = 1#32 then some (-0.0)
          else if m = 2#32 then some Atan2.pi
          else some (-Atan2.pi)
      else Atan2.quot y x iy ix m

namespace Atan2f
/-- atan2f.rs 18 -/
def pi : Flt f32 := 3.1415927410e+00
/-- atan2f.rs 19 -/
def piLo : Flt f32 := -8.7422776573e-08

/-- atan2f.rs 72-89: neither argument is NaN, `y` is not zero, `x` is neither zero nor infinite.  The additions are
checked u32 additions. -/
def quot (y x : Flt f32) (iy ix m : BitVec 32) : Option (Flt f32) :=
  (uadd ix (26#32 <<< 23)).bind fun t =>
  if t < iy ∨ iy = 0x7f800000#32 then
    if m &&& 1#32 ≠ 0#32 then some (-pi / 2.0) else some (pi / 2.0)
  else
    (if m &&& 2#32 ≠ 0#32 then
        (uadd iy (26#32 <<< 23)).bind fun s => if s < ix then some 0.0 else atanf (Generic.fabs (y / x))
      else atanf (Generic.fabs (y / x))).map fun z =>
    if m = 0#32 then z
    else if m = 1#32 then -z
    else if m = 2#32 then pi - (z - piLo)
    else (z - piLo) - pi

end Atan2f

/-- atan2f.rs 27-90 -/
def atan2f (y x : Flt f32) : Option (Flt f32) :=
  if x.isNaN ∨ y.isNaN then some (x + y)
  else
    let ix := x.u32
    let iy := y.u32
    if ix = 0x3f800000#32 then atanf y
    else
      let m := ((iy >>> 31) &&& 1#32) ||| ((ix >>> 30) &&& 2#32)
      let ix := ix &&& 0x7fffffff
      let iy := iy &&& 0x7fffffff
      if iy = 0#32 then
        if m = 0#32 ∨ m = 1#32 then some y
        else if m = 2#32 then some Atan2f.pi
        else some (-Atan2f.pi)
      else if ix = 0#32 then
        if m &&& 1#32 ≠ 0#32 then some (-Atan2f.pi / 2.0) else some (Atan2f.pi / 2.0)
      else if ix = 0x7f800000#32 then
        if iy = 0x7f800000#32 then
          if m = 0#32 then some (Atan2f.pi / 4.0)
          else if m = 1#32 then some (-Atan2f.pi / 4.0)
          else if m = 2#32 then some (3.0 * Atan2f.pi / 4.0)
          else some (-3.0 * Atan2f.pi / 4.0)
        else
          if m = 0#32 then some 0.0
          else if m = 1#32 then some (-0.0)
          else if m = 2#32 then some Atan2f.pi
          else some (-Atan2f.pi)
      else Atan2f.quot y x iy ix m

end Verif
