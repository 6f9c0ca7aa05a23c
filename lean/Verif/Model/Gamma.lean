import Verif.Model.Lit
import Verif.Model.Exp
import Verif.Model.Log
import Verif.Model.Pow
import Verif.Model.Trig
import Verif.Model.Generic

/-!
# Model of lgamma, lgamma_r, tgamma and their f32 versions

`none` stands for a panic of a function that is called, or for an index out of bounds.
-/

namespace Verif
open Flt

/-! ## lgamma_r.rs -/

namespace Lgamma
/-- lgamma_r.rs 83 -/
def pi : Flt f64 := 3.14159265358979311600e+00
/-- lgamma_r.rs 84 -/
def a0 : Flt f64 := 7.72156649015328655494e-02
/-- lgamma_r.rs 85 -/
def a1 : Flt f64 := 3.22467033424113591611e-01
/-- lgamma_r.rs 86 -/
def a2 : Flt f64 := 6.73523010531292681824e-02
/-- lgamma_r.rs 87 -/
def a3 : Flt f64 := 2.05808084325167332806e-02
/-- lgamma_r.rs 88 -/
def a4 : Flt f64 := 7.38555086081402883957e-03
/-- lgamma_r.rs 89 -/
def a5 : Flt f64 := 2.89051383673415629091e-03
/-- lgamma_r.rs 90 -/
def a6 : Flt f64 := 1.19270763183362067845e-03
/-- lgamma_r.rs 91 -/
def a7 : Flt f64 := 5.10069792153511336608e-04
/-- lgamma_r.rs 92 -/
def a8 : Flt f64 := 2.20862790713908385557e-04
/-- lgamma_r.rs 93 -/
def a9 : Flt f64 := 1.08011567247583939954e-04
/-- lgamma_r.rs 94 -/
def a10 : Flt f64 := 2.52144565451257326939e-05
/-- lgamma_r.rs 95 -/
def a11 : Flt f64 := 4.48640949618915160150e-05
/-- lgamma_r.rs 96 -/
def tc : Flt f64 := 1.46163214496836224576e+00
/-- lgamma_r.rs 97 -/
def tf : Flt f64 := -1.21486290535849611461e-01
/-- lgamma_r.rs 99 -/
def tt : Flt f64 := -3.63867699703950536541e-18
/-- lgamma_r.rs 100 -/
def t0 : Flt f64 := 4.83836122723810047042e-01
/-- lgamma_r.rs 101 -/
def t1 : Flt f64 := -1.47587722994593911752e-01
/-- lgamma_r.rs 102 -/
def t2 : Flt f64 := 6.46249402391333854778e-02
/-- lgamma_r.rs 103 -/
def t3 : Flt f64 := -3.27885410759859649565e-02
/-- lgamma_r.rs 104 -/
def t4 : Flt f64 := 1.79706750811820387126e-02
/-- lgamma_r.rs 105 -/
def t5 : Flt f64 := -1.03142241298341437450e-02
/-- lgamma_r.rs 106 -/
def t6 : Flt f64 := 6.10053870246291332635e-03
/-- lgamma_r.rs 107 -/
def t7 : Flt f64 := -3.68452016781138256760e-03
/-- lgamma_r.rs 108 -/
def t8 : Flt f64 := 2.25964780900612472250e-03
/-- lgamma_r.rs 109 -/
def t9 : Flt f64 := -1.40346469989232843813e-03
/-- lgamma_r.rs 110 -/
def t10 : Flt f64 := 8.81081882437654011382e-04
/-- lgamma_r.rs 111 -/
def t11 : Flt f64 := -5.38595305356740546715e-04
/-- lgamma_r.rs 112 -/
def t12 : Flt f64 := 3.15632070903625950361e-04
/-- lgamma_r.rs 113 -/
def t13 : Flt f64 := -3.12754168375120860518e-04
/-- lgamma_r.rs 114 -/
def t14 : Flt f64 := 3.35529192635519073543e-04
/-- lgamma_r.rs 115 -/
def u0 : Flt f64 := -7.72156649015328655494e-02
/-- lgamma_r.rs 116 -/
def u1 : Flt f64 := 6.32827064025093366517e-01
/-- lgamma_r.rs 117 -/
def u2 : Flt f64 := 1.45492250137234768737e+00
/-- lgamma_r.rs 118 -/
def u3 : Flt f64 := 9.77717527963372745603e-01
/-- lgamma_r.rs 119 -/
def u4 : Flt f64 := 2.28963728064692451092e-01
/-- lgamma_r.rs 120 -/
def u5 : Flt f64 := 1.33810918536787660377e-02
/-- lgamma_r.rs 121 -/
def v1 : Flt f64 := 2.45597793713041134822e+00
/-- lgamma_r.rs 122 -/
def v2 : Flt f64 := 2.12848976379893395361e+00
/-- lgamma_r.rs 123 -/
def v3 : Flt f64 := 7.69285150456672783825e-01
/-- lgamma_r.rs 124 -/
def v4 : Flt f64 := 1.04222645593369134254e-01
/-- lgamma_r.rs 125 -/
def v5 : Flt f64 := 3.21709242282423911810e-03
/-- lgamma_r.rs 126 -/
def s0 : Flt f64 := -7.72156649015328655494e-02
/-- lgamma_r.rs 127 -/
def s1 : Flt f64 := 2.14982415960608852501e-01
/-- lgamma_r.rs 128 -/
def s2 : Flt f64 := 3.25778796408930981787e-01
/-- lgamma_r.rs 129 -/
def s3 : Flt f64 := 1.46350472652464452805e-01
/-- lgamma_r.rs 130 -/
def s4 : Flt f64 := 2.66422703033638609560e-02
/-- lgamma_r.rs 131 -/
def s5 : Flt f64 := 1.84028451407337715652e-03
/-- lgamma_r.rs 132 -/
def s6 : Flt f64 := 3.19475326584100867617e-05
/-- lgamma_r.rs 133 -/
def r1 : Flt f64 := 1.39200533467621045958e+00
/-- lgamma_r.rs 134 -/
def r2 : Flt f64 := 7.21935547567138069525e-01
/-- lgamma_r.rs 135 -/
def r3 : Flt f64 := 1.71933865632803078993e-01
/-- lgamma_r.rs 136 -/
def r4 : Flt f64 := 1.86459191715652901344e-02
/-- lgamma_r.rs 137 -/
def r5 : Flt f64 := 7.77942496381893596434e-04
/-- lgamma_r.rs 138 -/
def r6 : Flt f64 := 7.32668430744625636189e-06
/-- lgamma_r.rs 139 -/
def w0 : Flt f64 := 4.18938533204672725052e-01
/-- lgamma_r.rs 140 -/
def w1 : Flt f64 := 8.33333333333329678849e-02
/-- lgamma_r.rs 141 -/
def w2 : Flt f64 := -2.77777777728775536470e-03
/-- lgamma_r.rs 142 -/
def w3 : Flt f64 := 7.93650558643019558500e-04
/-- lgamma_r.rs 143 -/
def w4 : Flt f64 := -5.95187557450339963135e-04
/-- lgamma_r.rs 144 -/
def w5 : Flt f64 := 8.36339918996282139126e-04
/-- lgamma_r.rs 145 -/
def w6 : Flt f64 := -1.63092934096575273989e-03

/-- lgamma_r.rs 148-166: sin(PI * x) for `x > 2^-100`; `div!` of the i32 `n + 1`, which is at most 8, truncates -/
def sinPi (x : Flt f64) : Flt f64 :=
  let x := 2.0 * (x * 0.5 - Generic.floor (x * 0.5))
  let n := ((x * 4.0).toSInt 32 + 1).tdiv 2
  let x := x - ofInt f64 n * 0.5
  let x := x * pi
  if n = 1 then kCos x 0.0
  else if n = 2 then kSin (-x) 0.0 0
  else if n = 3 then -kCos x 0.0
  else kSin x 0.0 0

/-- lgamma_r.rs 255-259: arm 0 of the match, the term added to `r` -/
def armA (y : Flt f64) : Flt f64 :=
  let z := y * y
  let p1 := a0 + z * (a2 + z * (a4 + z * (a6 + z * (a8 + z * a10))))
  let p2 := z * (a1 + z * (a3 + z * (a5 + z * (a7 + z * (a9 + z * a11)))))
  let p := y * p1 + p2
  p - 0.5 * y

/-- lgamma_r.rs 262-268: arm 1 -/
def armT (y : Flt f64) : Flt f64 :=
  let z := y * y
  let w := z * y
  let p1 := t0 + w * (t3 + w * (t6 + w * (t9 + w * t12)))
  let p2 := t1 + w * (t4 + w * (t7 + w * (t10 + w * t13)))
  let p3 := t2 + w * (t5 + w * (t8 + w * (t11 + w * t14)))
  let p := z * p1 - (tt - w * (p2 + y * p3))
  tf + p

/-- lgamma_r.rs 271-273: arm 2 -/
def armU (y : Flt f64) : Flt f64 :=
  let p1 := y * (u0 + y * (u1 + y * (u2 + y * (u3 + y * (u4 + y * u5)))))
  let p2 := 1.0 + y * (v1 + y * (v2 + y * (v3 + y * (v4 + y * v5))))
  (-0.5) * y + p1 / p2

/-- lgamma_r.rs 282-305: `2 <= x < 8` -/
def mid (x : Flt f64) : Option (Flt f64) :=
  let i := x.toSInt 32
  let y := x - ofInt f64 i
  let p := y * (s0 + y * (s1 + y * (s2 + y * (s3 + y * (s4 + y * (s5 + y * s6))))))
  let q := 1.0 + y * (r1 + y * (r2 + y * (r3 + y * (r4 + y * (r5 + y * r6)))))
  let r := 0.5 * y + p / q
  let z := 1.0
  let z := if i ≥ 7 then z * (y + 6.0) else z
  let z := if i ≥ 6 then z * (y + 5.0) else z
  let z := if i ≥ 5 then z * (y + 4.0) else z
  let z := if i ≥ 4 then z * (y + 3.0) else z
  if i ≥ 3 then (log (z * (y + 2.0))).map fun l => r + l else some r

/-- lgamma_r.rs 308-312: `8 <= x < 2^58`, from `x` and its logarithm -/
def big (x t : Flt f64) : Flt f64 :=
  let z := 1.0 / x
  let y := z * z
  let w := w0 + z * (w1 + y * (w2 + y * (w3 + y * (w4 + y * (w5 + y * w6)))))
  (x - 0.5) * (t - 1.0) + w

/-- lgamma_r.rs: `r` for the positive `x`, with `ix` the high word of `x` -/
def pos (x : Flt f64) : Option (Flt f64) :=
  let ix := getHighWord x &&& 0x7fffffff#32
  if (ix = 0x3ff00000#32 ∨ ix = 0x40000000#32) ∧ getLowWord x = 0#32 then some 0.0
  else if ix < 0x40000000#32 then
    if ix ≤ 0x3feccccc#32 then
      (log x).map fun l =>
        if ix ≥ 0x3fe76944#32 then -l + armA (1.0 - x)
        else if ix ≥ 0x3fcda661#32 then -l + armT (x - (tc - 1.0))
        else -l + armU x
    else if ix ≥ 0x3ffbb4c3#32 then some (0.0 + armA (2.0 - x))
    else if ix ≥ 0x3ff3b4c4#32 then some (0.0 + armT (x - tc))
    else some (0.0 + armU (x - 1.0))
  else if ix < 0x40200000#32 then mid x
  else if ix < 0x43900000#32 then (log x).map fun t => big x t
  else (log x).map fun l => x * (l - 1.0)
end Lgamma

/-- lgamma_r.rs 169-321.  The result is the pair of the logarithm and the sign.  A negative `x` is replaced by `-x`, which has
the same `ix` and low word, before the part modelled by `Lgamma.pos`. -/
def lgamma_r (x : Flt f64) : Option (Flt f64 × Int) :=
  open Lgamma in
  let ix := getHighWord x &&& 0x7fffffff#32
  if ix ≥ 0x7ff00000#32 then some (x * x, 1)
  else if ix < 0x3b900000#32 then
    if x.sign then (log (-x)).map fun l => (-l, -1) else (log x).map fun l => (-l, 1)
  else if x.sign then
    let x := -x
    let t := sinPi x
    if t =ᶠ 0.0 then some (1.0 / (x - x), 1)
    else
      let signgam : Int := if t >ᶠ 0.0 then -1 else 1
      let t := if t >ᶠ 0.0 then t else -t
      (log (pi / (t * x))).bind fun nadj =>
      (pos x).map fun r => (nadj - r, signgam)
  else (pos x).map fun r => (r, 1)

/-- lgamma.rs 6-8 -/
def lgamma (x : Flt f64) : Option (Flt f64) := (lgamma_r x).map (·.1)

/-! ## lgammaf_r.rs -/

namespace Lgammaf
/-- lgammaf_r.rs 18 -/
def pi : Flt f32 := 3.1415927410e+00
/-- lgammaf_r.rs 19 -/
def a0 : Flt f32 := 7.7215664089e-02
/-- lgammaf_r.rs 20 -/
def a1 : Flt f32 := 3.2246702909e-01
/-- lgammaf_r.rs 21 -/
def a2 : Flt f32 := 6.7352302372e-02
/-- lgammaf_r.rs 22 -/
def a3 : Flt f32 := 2.0580807701e-02
/-- lgammaf_r.rs 23 -/
def a4 : Flt f32 := 7.3855509982e-03
/-- lgammaf_r.rs 24 -/
def a5 : Flt f32 := 2.8905137442e-03
/-- lgammaf_r.rs 25 -/
def a6 : Flt f32 := 1.1927076848e-03
/-- lgammaf_r.rs 26 -/
def a7 : Flt f32 := 5.1006977446e-04
/-- lgammaf_r.rs 27 -/
def a8 : Flt f32 := 2.2086278477e-04
/-- lgammaf_r.rs 28 -/
def a9 : Flt f32 := 1.0801156895e-04
/-- lgammaf_r.rs 29 -/
def a10 : Flt f32 := 2.5214456400e-05
/-- lgammaf_r.rs 30 -/
def a11 : Flt f32 := 4.4864096708e-05
/-- lgammaf_r.rs 31 -/
def tc : Flt f32 := 1.4616321325e+00
/-- lgammaf_r.rs 32 -/
def tf : Flt f32 := -1.2148628384e-01
/-- lgammaf_r.rs 34 -/
def tt : Flt f32 := 6.6971006518e-09
/-- lgammaf_r.rs 35 -/
def t0 : Flt f32 := 4.8383611441e-01
/-- lgammaf_r.rs 36 -/
def t1 : Flt f32 := -1.4758771658e-01
/-- lgammaf_r.rs 37 -/
def t2 : Flt f32 := 6.4624942839e-02
/-- lgammaf_r.rs 38 -/
def t3 : Flt f32 := -3.2788541168e-02
/-- lgammaf_r.rs 39 -/
def t4 : Flt f32 := 1.7970675603e-02
/-- lgammaf_r.rs 40 -/
def t5 : Flt f32 := -1.0314224288e-02
/-- lgammaf_r.rs 41 -/
def t6 : Flt f32 := 6.1005386524e-03
/-- lgammaf_r.rs 42 -/
def t7 : Flt f32 := -3.6845202558e-03
/-- lgammaf_r.rs 43 -/
def t8 : Flt f32 := 2.2596477065e-03
/-- lgammaf_r.rs 44 -/
def t9 : Flt f32 := -1.4034647029e-03
/-- lgammaf_r.rs 45 -/
def t10 : Flt f32 := 8.8108185446e-04
/-- lgammaf_r.rs 46 -/
def t11 : Flt f32 := -5.3859531181e-04
/-- lgammaf_r.rs 47 -/
def t12 : Flt f32 := 3.1563205994e-04
/-- lgammaf_r.rs 48 -/
def t13 : Flt f32 := -3.1275415677e-04
/-- lgammaf_r.rs 49 -/
def t14 : Flt f32 := 3.3552918467e-04
/-- lgammaf_r.rs 50 -/
def u0 : Flt f32 := -7.7215664089e-02
/-- lgammaf_r.rs 51 -/
def u1 : Flt f32 := 6.3282704353e-01
/-- lgammaf_r.rs 52 -/
def u2 : Flt f32 := 1.4549225569e+00
/-- lgammaf_r.rs 53 -/
def u3 : Flt f32 := 9.7771751881e-01
/-- lgammaf_r.rs 54 -/
def u4 : Flt f32 := 2.2896373272e-01
/-- lgammaf_r.rs 55 -/
def u5 : Flt f32 := 1.3381091878e-02
/-- lgammaf_r.rs 56 -/
def v1 : Flt f32 := 2.4559779167e+00
/-- lgammaf_r.rs 57 -/
def v2 : Flt f32 := 2.1284897327e+00
/-- lgammaf_r.rs 58 -/
def v3 : Flt f32 := 7.6928514242e-01
/-- lgammaf_r.rs 59 -/
def v4 : Flt f32 := 1.0422264785e-01
/-- lgammaf_r.rs 60 -/
def v5 : Flt f32 := 3.2170924824e-03
/-- lgammaf_r.rs 61 -/
def s0 : Flt f32 := -7.7215664089e-02
/-- lgammaf_r.rs 62 -/
def s1 : Flt f32 := 2.1498242021e-01
/-- lgammaf_r.rs 63 -/
def s2 : Flt f32 := 3.2577878237e-01
/-- lgammaf_r.rs 64 -/
def s3 : Flt f32 := 1.4635047317e-01
/-- lgammaf_r.rs 65 -/
def s4 : Flt f32 := 2.6642270386e-02
/-- lgammaf_r.rs 66 -/
def s5 : Flt f32 := 1.8402845599e-03
/-- lgammaf_r.rs 67 -/
def s6 : Flt f32 := 3.1947532989e-05
/-- lgammaf_r.rs 68 -/
def r1 : Flt f32 := 1.3920053244e+00
/-- lgammaf_r.rs 69 -/
def r2 : Flt f32 := 7.2193557024e-01
/-- lgammaf_r.rs 70 -/
def r3 : Flt f32 := 1.7193385959e-01
/-- lgammaf_r.rs 71 -/
def r4 : Flt f32 := 1.8645919859e-02
/-- lgammaf_r.rs 72 -/
def r5 : Flt f32 := 7.7794247773e-04
/-- lgammaf_r.rs 73 -/
def r6 : Flt f32 := 7.3266842264e-06
/-- lgammaf_r.rs 74 -/
def w0 : Flt f32 := 4.1893854737e-01
/-- lgammaf_r.rs 75 -/
def w1 : Flt f32 := 8.3333335817e-02
/-- lgammaf_r.rs 76 -/
def w2 : Flt f32 := -2.7777778450e-03
/-- lgammaf_r.rs 77 -/
def w3 : Flt f32 := 7.9365057172e-04
/-- lgammaf_r.rs 78 -/
def w4 : Flt f32 := -5.9518753551e-04
/-- lgammaf_r.rs 79 -/
def w5 : Flt f32 := 8.3633989561e-04
/-- lgammaf_r.rs 80 -/
def w6 : Flt f32 := -1.6309292987e-03

/-- lgammaf_r.rs 83-101: sin(PI * x) for `x > 2^-100`; `div!` of the isize `n + 1`, which is at most 8, truncates -/
def sinPi (x : Flt f32) : Flt f32 :=
  let x := 2.0 * (x * 0.5 - Generic.floor (x * 0.5))
  let n := ((x * 4.0).toSInt 64 + 1).tdiv 2
  let y := x.cast f64 - ofInt f64 n * 0.5
  let y := y * 3.14159265358979323846
  if n = 1 then kCosf y
  else if n = 2 then kSinf (-y)
  else if n = 3 then -kCosf y
  else kSinf y

/-- lgammaf_r.rs 190-194: arm 0 of the match, the term added to `r` -/
def armA (y : Flt f32) : Flt f32 :=
  let z := y * y
  let p1 := a0 + z * (a2 + z * (a4 + z * (a6 + z * (a8 + z * a10))))
  let p2 := z * (a1 + z * (a3 + z * (a5 + z * (a7 + z * (a9 + z * a11)))))
  let p := y * p1 + p2
  p - 0.5 * y

/-- lgammaf_r.rs 197-203: arm 1 -/
def armT (y : Flt f32) : Flt f32 :=
  let z := y * y
  let w := z * y
  let p1 := t0 + w * (t3 + w * (t6 + w * (t9 + w * t12)))
  let p2 := t1 + w * (t4 + w * (t7 + w * (t10 + w * t13)))
  let p3 := t2 + w * (t5 + w * (t8 + w * (t11 + w * t14)))
  let p := z * p1 - (tt - w * (p2 + y * p3))
  tf + p

/-- lgammaf_r.rs 206-208: arm 2 -/
def armU (y : Flt f32) : Flt f32 :=
  let p1 := y * (u0 + y * (u1 + y * (u2 + y * (u3 + y * (u4 + y * u5)))))
  let p2 := 1.0 + y * (v1 + y * (v2 + y * (v3 + y * (v4 + y * v5))))
  (-0.5) * y + p1 / p2

/-- lgammaf_r.rs 217-240: `2 <= x < 8` -/
def mid (x : Flt f32) : Option (Flt f32) :=
  let i := x.toSInt 32
  let y := x - ofInt f32 i
  let p := y * (s0 + y * (s1 + y * (s2 + y * (s3 + y * (s4 + y * (s5 + y * s6))))))
  let q := 1.0 + y * (r1 + y * (r2 + y * (r3 + y * (r4 + y * (r5 + y * r6)))))
  let r := 0.5 * y + p / q
  let z := 1.0
  let z := if i ≥ 7 then z * (y + 6.0) else z
  let z := if i ≥ 6 then z * (y + 5.0) else z
  let z := if i ≥ 5 then z * (y + 4.0) else z
  let z := if i ≥ 4 then z * (y + 3.0) else z
  if i ≥ 3 then (logf (z * (y + 2.0))).map fun l => r + l else some r

/-- lgammaf_r.rs 243-247: `8 <= x < 2^58`, from `x` and its logarithm -/
def big (x t : Flt f32) : Flt f32 :=
  let z := 1.0 / x
  let y := z * z
  let w := w0 + z * (w1 + y * (w2 + y * (w3 + y * (w4 + y * (w5 + y * w6)))))
  (x - 0.5) * (t - 1.0) + w

/-- lgammaf_r.rs: `r` for the positive `x`, with `ix` the bits of `x` -/
def pos (x : Flt f32) : Option (Flt f32) :=
  let ix := x.u32 &&& 0x7fffffff#32
  if (ix = 0x3f800000#32 ∨ ix = 0x40000000#32) then some 0.0
  else if ix < 0x40000000#32 then
    if ix ≤ 0x3f666666#32 then
      (logf x).map fun l =>
        if ix ≥ 0x3f3b4a20#32 then -l + armA (1.0 - x)
        else if ix ≥ 0x3e6d3308#32 then -l + armT (x - (tc - 1.0))
        else -l + armU x
    else if ix ≥ 0x3fdda618#32 then some (0.0 + armA (2.0 - x))
    else if ix ≥ 0x3f9da620#32 then some (0.0 + armT (x - tc))
    else some (0.0 + armU (x - 1.0))
  else if ix < 0x41000000#32 then mid x
  else if ix < 0x5c800000#32 then (logf x).map fun t => big x t
  else (logf x).map fun l => x * (l - 1.0)
end Lgammaf

/-- lgammaf_r.rs 104-256.  The result is the pair of the logarithm and the sign.  A negative `x` is replaced by `-x`, which has
the same `ix` and low word, before the part modelled by `Lgammaf.pos`. -/
def lgammaf_r (x : Flt f32) : Option (Flt f32 × Int) :=
  open Lgammaf in
  let ix := x.u32 &&& 0x7fffffff#32
  if ix ≥ 0x7f800000#32 then some (x * x, 1)
  else if ix < 0x35000000#32 then
    if x.sign then (logf (-x)).map fun l => (-l, -1) else (logf x).map fun l => (-l, 1)
  else if x.sign then
    let x := -x
    let t := sinPi x
    if t =ᶠ 0.0 then some (1.0 / (x - x), 1)
    else
      let signgam : Int := if t >ᶠ 0.0 then -1 else 1
      let t := if t >ᶠ 0.0 then t else -t
      (logf (pi / (t * x))).bind fun nadj =>
      (pos x).map fun r => (nadj - r, signgam)
  else (pos x).map fun r => (r, 1)

/-- lgammaf.rs 6-8 -/
def lgammaf (x : Flt f32) : Option (Flt f32) := (lgammaf_r x).map (·.1)

/-! ## tgamma.rs -/

namespace Tgamma
/-- tgamma.rs 27 -/
def pi : Flt f64 := 3.141592653589793238462643383279502884
/-- tgamma.rs 55 -/
def gmhalf : Flt f64 := 5.524680040776729583740234375
/-- tgamma.rs 56-70 -/
def snum : List (Flt f64) :=
  [23531376880.410759688572007674451636754734846804940, 42919803642.649098768957899047001988850926355848959, 35711959237.355668049440185451547166705960488635843, 17921034426.037209699919755754458931112671403265390, 6039542586.3520280050642916443072979210699388420708, 1439720407.3117216736632230727949123939715485786772, 248874557.86205415651146038641322942321632125127801, 31426415.585400194380614231628318205362874684987640, 2876370.6289353724412254090516208496135991145378768, 186056.26539522349504029498971604569928220784236328, 8071.6720023658162106380029022722506138218516325024, 210.82427775157934587250973392071336271166969580291, 2.5066282746310002701649081771338373386264310793408]
/-- tgamma.rs 71-85 -/
def sden : List (Flt f64) :=
  [0.0, 39916800.0, 120543840.0, 150917976.0, 105258076.0, 45995730.0, 13339535.0, 2637558.0, 357423.0, 32670.0, 1925.0, 66.0, 1.0]
/-- tgamma.rs 87-111 -/
def fact : List (Flt f64) :=
  [1.0, 1.0, 2.0, 6.0, 24.0, 120.0, 720.0, 5040.0, 40320.0, 362880.0, 3628800.0, 39916800.0, 479001600.0, 6227020800.0, 87178291200.0, 1307674368000.0, 20922789888000.0, 355687428096000.0, 6402373705728000.0, 121645100408832000.0, 2432902008176640000.0, 51090942171709440000.0, 1124000727777607680000.0]

/-- tgamma.rs 30-51: sin(pi x); `div!` of the isize `n + 1`, which is at most 8, truncates -/
def sinpi (x : Flt f64) : Flt f64 :=
  let x := x * 0.5
  let x := 2.0 * (x - Generic.floor x)
  let n := ((4.0 * x).toSInt 64 + 1).tdiv 2
  let x := x - ofInt f64 n * 0.5
  let x := x * pi
  if n = 1 then kCos x 0.0
  else if n = 2 then kSin (-x) 0.0 0
  else if n = 3 then -kCos x 0.0
  else kSin x 0.0 0

/-- tgamma.rs 120-123: the loop over `(0..=N).rev()` -/
def sLow (x : Flt f64) (t : List (Flt f64)) : Flt f64 := t.foldr (fun c acc => acc * x + c) 0.0
/-- tgamma.rs 125-128: the loop over `0..=N` -/
def sHigh (x : Flt f64) (t : List (Flt f64)) : Flt f64 := t.foldl (fun acc c => acc / x + c) 0.0

/-- tgamma.rs 114-131.  The two accumulators of a loop do not depend on each other. -/
def s (x : Flt f64) : Flt f64 :=
  if x <ᶠ 8.0 then sLow x snum / sLow x sden else sHigh x snum / sHigh x sden

/-- tgamma.rs 184-208: `2^-54 <= |x| < 184`, `x` not an integer in the table's range -/
def body (x : Flt f64) : Option (Flt f64) :=
  let absx := if x.sign then -x else x
  let y := absx + gmhalf
  let dy := if absx >ᶠ gmhalf then y - absx - gmhalf else y - gmhalf - absx
  let z := absx - 0.5
  (exp (-y)).bind fun ey =>
  let r := s absx * ey
  let neg := x <ᶠ 0.0
  let r := if neg then -pi / (sinpi absx * absx * r) else r
  let dy := if neg then -dy else dy
  let z := if neg then -z else z
  let r := r + dy * (gmhalf + 0.5) * r / y
  (pow y (0.5 * z)).map fun z => r * z * z
end Tgamma

/-- tgamma.rs 135-209.  `force_eval!` is left out.  `(x as usize) - 1` is written on integers: `none` is an underflow or an
index out of bounds.  `0.0 / 0.0` of line 157 is written as the division it is. -/
def tgamma (x : Flt f64) : Option (Flt f64) :=
  open Tgamma in
  let ix := getHighWord x &&& 0x7fffffff#32
  if ix ≥ 0x7ff00000#32 then some (x + inf f64 false)
  else if ix < 0x3c900000#32 then some (1.0 / x)
  else if x =ᶠ Generic.floor x ∧ x.sign = true then some (0.0 / 0.0)
  else if x =ᶠ Generic.floor x ∧ x ≤ᶠ 23.0 then
    let i := x.toSInt 64 - 1
    if i < 0 then none else fact[i.toNat]?
  else if ix ≥ 0x40670000#32 then
    if x.sign then
      if Generic.floor x * 0.5 =ᶠ Generic.floor (x * 0.5) then some 0.0 else some (-0.0)
    else some (x * bits64 0x7fe0000000000000#64)
  else body x

/-- tgammaf.rs 5-7 -/
def tgammaf (x : Flt f32) : Option (Flt f32) := (tgamma (x.cast f64)).map (·.cast f32)

end Verif
