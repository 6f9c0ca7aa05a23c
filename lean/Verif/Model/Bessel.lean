import Verif.Model.Lit
import Verif.Model.Log
import Verif.Model.Sqrt
import Verif.Model.Trig
import Verif.Model.Generic

/-!
# Model of the Bessel functions j0, j1, jn, y0, y1, yn and their f32 versions

The arrays of coefficients are indexed with constants within their size.  They are lists here, and the nested
expressions `p[0] + z * (p[1] + ...)` are `horner z p`.  `none` stands for a panic of a function that is called, or for
the overflow of the loop counter `k` of jn.rs and jnf.rs.  A sine, a cosine or a square root that is computed before it is
known to be needed has no effect.
-/

namespace Verif
open Flt

/-- The shape of the polynomials of j0.rs, j1.rs, j0f.rs and j1f.rs: `p[0] + z * (p[1] + z * (...))` -/
def horner {F : Fmt} (z : Flt F) : List (Flt F) → Flt F
  | [] => zero F false
  | [a] => a
  | a :: l => a + z * horner z l

/-! ## j0.rs -/

namespace J0
/-- j0.rs 58 -/
def invsqrtpi : Flt f64 := 5.64189583547756279280e-01
/-- j0.rs 59 -/
def tpi : Flt f64 := 6.36619772367581382433e-01
/-- j0.rs 103 -/
def r02 : Flt f64 := 1.56249999999999947958e-02
/-- j0.rs 104 -/
def r03 : Flt f64 := -1.89979294238854721751e-04
/-- j0.rs 105 -/
def r04 : Flt f64 := 1.82954049532700665670e-06
/-- j0.rs 106 -/
def r05 : Flt f64 := -4.61832688532103189199e-09
/-- j0.rs 107 -/
def s01 : Flt f64 := 1.56191029464890010492e-02
/-- j0.rs 108 -/
def s02 : Flt f64 := 1.16926784663337450260e-04
/-- j0.rs 109 -/
def s03 : Flt f64 := 5.13546550207318111446e-07
/-- j0.rs 110 -/
def s04 : Flt f64 := 1.16614003333790000205e-09
/-- j0.rs 155 -/
def u00 : Flt f64 := -7.38042951086872317523e-02
/-- j0.rs 156 -/
def u01 : Flt f64 := 1.76666452509181115538e-01
/-- j0.rs 157 -/
def u02 : Flt f64 := -1.38185671945596898896e-02
/-- j0.rs 158 -/
def u03 : Flt f64 := 3.47453432093683650238e-04
/-- j0.rs 159 -/
def u04 : Flt f64 := -3.81407053724364161125e-06
/-- j0.rs 160 -/
def u05 : Flt f64 := 1.95590137035022920206e-08
/-- j0.rs 161 -/
def u06 : Flt f64 := -3.98205194132103398453e-11
/-- j0.rs 162 -/
def v01 : Flt f64 := 1.27304834834123699328e-02
/-- j0.rs 163 -/
def v02 : Flt f64 := 7.60068627350353253702e-05
/-- j0.rs 164 -/
def v03 : Flt f64 := 2.59150851840457805467e-07
/-- j0.rs 165 -/
def v04 : Flt f64 := 4.41110311332675467403e-10
/-- j0.rs 217-225 -/
def pr8 : List (Flt f64) :=
  [0.00000000000000000000e+00, -7.03124999999900357484e-02, -8.08167041275349795626e+00, -2.57063105679704847262e+02, -2.48521641009428822144e+03, -5.25304380490729545272e+03]
/-- j0.rs 226-232 -/
def ps8 : List (Flt f64) :=
  [1.16534364619668181717e+02, 3.83374475364121826715e+03, 4.05978572648472545552e+04, 1.16752972564375915681e+05, 4.76277284146730962675e+04]
/-- j0.rs 234-242 -/
def pr5 : List (Flt f64) :=
  [-1.14125464691894502584e-11, -7.03124940873599280078e-02, -4.15961064470587782438e+00, -6.76747652265167261021e+01, -3.31231299649172967747e+02, -3.46433388365604912451e+02]
/-- j0.rs 243-249 -/
def ps5 : List (Flt f64) :=
  [6.07539382692300335975e+01, 1.05125230595704579173e+03, 5.97897094333855784498e+03, 9.62544514357774460223e+03, 2.40605815922939109441e+03]
/-- j0.rs 251-259 -/
def pr3 : List (Flt f64) :=
  [-2.54704601771951915620e-09, -7.03119616381481654654e-02, -2.40903221549529611423e+00, -2.19659774734883086467e+01, -5.80791704701737572236e+01, -3.14479470594888503854e+01]
/-- j0.rs 260-266 -/
def ps3 : List (Flt f64) :=
  [3.58560338055209726349e+01, 3.61513983050303863820e+02, 1.19360783792111533330e+03, 1.12799679856907414432e+03, 1.73580930813335754692e+02]
/-- j0.rs 268-276 -/
def pr2 : List (Flt f64) :=
  [-8.87534333032526411254e-08, -7.03030995483624743247e-02, -1.45073846780952986357e+00, -7.63569613823527770791e+00, -1.11931668860356747786e+01, -3.23364579351335335033e+00]
/-- j0.rs 277-283 -/
def ps2 : List (Flt f64) :=
  [2.22202997532088808441e+01, 1.36206794218215208048e+02, 2.70470278658083486789e+02, 1.53875394208320329881e+02, 1.46576176948256193810e+01]
/-- j0.rs 325-333 -/
def qr8 : List (Flt f64) :=
  [0.00000000000000000000e+00, 7.32421874999935051953e-02, 1.17682064682252693899e+01, 5.57673380256401856059e+02, 8.85919720756468632317e+03, 3.70146267776887834771e+04]
/-- j0.rs 334-341 -/
def qs8 : List (Flt f64) :=
  [1.63776026895689824414e+02, 8.09834494656449805916e+03, 1.42538291419120476348e+05, 8.03309257119514397345e+05, 8.40501579819060512818e+05, -3.43899293537866615225e+05]
/-- j0.rs 343-351 -/
def qr5 : List (Flt f64) :=
  [1.84085963594515531381e-11, 7.32421766612684765896e-02, 5.83563508962056953777e+00, 1.35111577286449829671e+02, 1.02724376596164097464e+03, 1.98997785864605384631e+03]
/-- j0.rs 352-359 -/
def qs5 : List (Flt f64) :=
  [8.27766102236537761883e+01, 2.07781416421392987104e+03, 1.88472887785718085070e+04, 5.67511122894947329769e+04, 3.59767538425114471465e+04, -5.35434275601944773371e+03]
/-- j0.rs 361-369 -/
def qr3 : List (Flt f64) :=
  [4.37741014089738620906e-09, 7.32411180042911447163e-02, 3.34423137516170720929e+00, 4.26218440745412650017e+01, 1.70808091340565596283e+02, 1.66733948696651168575e+02]
/-- j0.rs 370-377 -/
def qs3 : List (Flt f64) :=
  [4.87588729724587182091e+01, 7.09689221056606015736e+02, 3.70414822620111362994e+03, 6.46042516752568917582e+03, 2.51633368920368957333e+03, -1.49247451836156386662e+02]
/-- j0.rs 379-387 -/
def qr2 : List (Flt f64) :=
  [1.50444444886983272379e-07, 7.32234265963079278272e-02, 1.99819174093815998816e+00, 1.44956029347885735348e+01, 3.16662317504781540833e+01, 1.62527075710929267416e+01]
/-- j0.rs 388-395 -/
def qs2 : List (Flt f64) :=
  [3.03655848355219184498e+01, 2.69348118608049844624e+02, 8.44783757595320139444e+02, 8.82935845112488550512e+02, 2.12666388511798828631e+02, -5.31095493882666946917e+00]

/-- j0.rs 285-314: the table `p` for the range of `x` -/
def pr (ix : BitVec 32) : List (Flt f64) :=
  if ix ≥ 0x40200000#32 then pr8 else if ix ≥ 0x40122e8b#32 then pr5 else if ix ≥ 0x4006db6d#32 then pr3 else pr2
/-- j0.rs 285-314: the table `q` for the range of `x` -/
def ps (ix : BitVec 32) : List (Flt f64) :=
  if ix ≥ 0x40200000#32 then ps8 else if ix ≥ 0x40122e8b#32 then ps5 else if ix ≥ 0x4006db6d#32 then ps3 else ps2
/-- j0.rs 397-426: the table `p` for the range of `x` -/
def qr (ix : BitVec 32) : List (Flt f64) :=
  if ix ≥ 0x40200000#32 then qr8 else if ix ≥ 0x40122e8b#32 then qr5 else if ix ≥ 0x4006db6d#32 then qr3 else qr2
/-- j0.rs 397-426: the table `q` for the range of `x` -/
def qs (ix : BitVec 32) : List (Flt f64) :=
  if ix ≥ 0x40200000#32 then qs8 else if ix ≥ 0x40122e8b#32 then qs5 else if ix ≥ 0x4006db6d#32 then qs3 else qs2

/-- j0.rs 285-314 -/
def pzero (x : Flt f64) : Flt f64 :=
  let ix := getHighWord x &&& 0x7fffffff#32
  let z := 1.0 / (x * x)
  1.0 + horner z (pr ix) / (1.0 + z * horner z (ps ix))

/-- j0.rs 397-426 -/
def qzero (x : Flt f64) : Flt f64 :=
  let ix := getHighWord x &&& 0x7fffffff#32
  let z := 1.0 / (x * x)
  (-0.125 + horner z (qr ix) / (1.0 + z * horner z (qs ix))) / x

/-- j0.rs 62-100: the factor `cc`, from the sine and cosine of `x` and the cosine of `2.0 * x` -/
def factor (ix : BitVec 32) (x : Flt f64) (y0 : Bool) (s c c2 : Flt f64) : Flt f64 :=
  let c := if y0 then -c else c
  let cc := s + c
  if ix < 0x7fe00000#32 then
    let ss := s - c
    let z := -c2
    let swap := s * c <ᶠ 0.0
    let cc' := if swap then z / ss else cc
    let ss' := if swap then ss else z / cc
    if ix < 0x48000000#32 then
      let ss := if y0 then -ss' else ss'
      pzero x * cc' - qzero x * ss
    else cc'
  else cc

/-- j0.rs 62-100.  `cos(2.0 * x)` is computed here whether or not it is used. -/
def common (ix : BitVec 32) (x : Flt f64) (y0 : Bool) : Option (Flt f64) :=
  (sin x).bind fun s => (cos x).bind fun c => (cos (2.0 * x)).bind fun c2 =>
  (sqrt x).map fun q => invsqrtpi * factor ix x y0 s c c2 / q
end J0

/-- j0.rs 114-153 -/
def j0 (x : Flt f64) : Option (Flt f64) :=
  open J0 in
  let ix := getHighWord x &&& 0x7fffffff#32
  if ix ≥ 0x7ff00000#32 then some (1.0 / (x * x))
  else
    let x := Generic.fabs x
    if ix ≥ 0x40000000#32 then common ix x false
    else if ix ≥ 0x3f200000#32 then
      let z := x * x
      let r := z * (r02 + z * (r03 + z * (r04 + z * r05)))
      let s := 1.0 + z * (s01 + z * (s02 + z * (s03 + z * s04)))
      some ((1.0 + x / 2.0) * (1.0 - x / 2.0) + z * (r / s))
    else
      let x := if ix ≥ 0x38000000#32 then 0.25 * x * x else x
      some (1.0 - x)

/-- j0.rs 169-206 -/
def y0 (x : Flt f64) : Option (Flt f64) :=
  open J0 in
  let ix := getHighWord x
  if (ix <<< 1) ||| getLowWord x = 0#32 then some (-1.0 / 0.0)
  else if ix >>> 31 ≠ 0#32 then some (0.0 / 0.0)
  else if ix ≥ 0x7ff00000#32 then some (1.0 / x)
  else if ix ≥ 0x40000000#32 then common ix x true
  else if ix ≥ 0x3e400000#32 then
    let z := x * x
    let u := u00 + z * (u01 + z * (u02 + z * (u03 + z * (u04 + z * (u05 + z * u06)))))
    let v := 1.0 + z * (v01 + z * (v02 + z * (v03 + z * v04)))
    (j0 x).bind fun j => (log x).map fun l => u / v + tpi * (j * l)
  else (log x).map fun l => u00 + tpi * l

/-! ## j1.rs -/

namespace J1
/-- j1.rs 59 -/
def invsqrtpi : Flt f64 := 5.64189583547756279280e-01
/-- j1.rs 60 -/
def tpi : Flt f64 := 6.36619772367581382433e-01
/-- j1.rs 106 -/
def r00 : Flt f64 := -6.25000000000000000000e-02
/-- j1.rs 107 -/
def r01 : Flt f64 := 1.40705666955189706048e-03
/-- j1.rs 108 -/
def r02 : Flt f64 := -1.59955631084035597520e-05
/-- j1.rs 109 -/
def r03 : Flt f64 := 4.96727999609584448412e-08
/-- j1.rs 110 -/
def s01 : Flt f64 := 1.91537599538363460805e-02
/-- j1.rs 111 -/
def s02 : Flt f64 := 1.85946785588630915560e-04
/-- j1.rs 112 -/
def s03 : Flt f64 := 1.17718464042623683263e-06
/-- j1.rs 113 -/
def s04 : Flt f64 := 5.04636257076217042715e-09
/-- j1.rs 114 -/
def s05 : Flt f64 := 1.23542274426137913908e-11
/-- j1.rs 148-154 -/
def u0 : List (Flt f64) :=
  [-1.96057090646238940668e-01, 5.04438716639811282616e-02, -1.91256895875763547298e-03, 2.35252600561610495928e-05, -9.19099158039878874504e-08]
/-- j1.rs 155-161 -/
def v0 : List (Flt f64) :=
  [1.99167318236649903973e-02, 2.02552581025135171496e-04, 1.35608801097516229404e-06, 6.22741452364621501295e-09, 1.66559246207992079114e-11]
/-- j1.rs 210-218 -/
def pr8 : List (Flt f64) :=
  [0.00000000000000000000e+00, 1.17187499999988647970e-01, 1.32394806593073575129e+01, 4.12051854307378562225e+02, 3.87474538913960532227e+03, 7.91447954031891731574e+03]
/-- j1.rs 219-225 -/
def ps8 : List (Flt f64) :=
  [1.14207370375678408436e+02, 3.65093083420853463394e+03, 3.69562060269033463555e+04, 9.76027935934950801311e+04, 3.08042720627888811578e+04]
/-- j1.rs 227-235 -/
def pr5 : List (Flt f64) :=
  [1.31990519556243522749e-11, 1.17187493190614097638e-01, 6.80275127868432871736e+00, 1.08308182990189109773e+02, 5.17636139533199752805e+02, 5.28715201363337541807e+02]
/-- j1.rs 236-242 -/
def ps5 : List (Flt f64) :=
  [5.92805987221131331921e+01, 9.91401418733614377743e+02, 5.35326695291487976647e+03, 7.84469031749551231769e+03, 1.50404688810361062679e+03]
/-- j1.rs 244-251 -/
def pr3 : List (Flt f64) :=
  [3.02503916137373618024e-09, 1.17186865567253592491e-01, 3.93297750033315640650e+00, 3.51194035591636932736e+01, 9.10550110750781271918e+01, 4.85590685197364919645e+01]
/-- j1.rs 252-258 -/
def ps3 : List (Flt f64) :=
  [3.47913095001251519989e+01, 3.36762458747825746741e+02, 1.04687139975775130551e+03, 8.90811346398256432622e+02, 1.03787932439639277504e+02]
/-- j1.rs 260-268 -/
def pr2 : List (Flt f64) :=
  [1.07710830106873743082e-07, 1.17176219462683348094e-01, 2.36851496667608785174e+00, 1.22426109148261232917e+01, 1.76939711271687727390e+01, 5.07352312588818499250e+00]
/-- j1.rs 269-275 -/
def ps2 : List (Flt f64) :=
  [2.14364859363821409488e+01, 1.25290227168402751090e+02, 2.32276469057162813669e+02, 1.17679373287147100768e+02, 8.36463893371618283368e+00]
/-- j1.rs 318-326 -/
def qr8 : List (Flt f64) :=
  [0.00000000000000000000e+00, -1.02539062499992714161e-01, -1.62717534544589987888e+01, -7.59601722513950107896e+02, -1.18498066702429587167e+04, -4.84385124285750353010e+04]
/-- j1.rs 327-334 -/
def qs8 : List (Flt f64) :=
  [1.61395369700722909556e+02, 7.82538599923348465381e+03, 1.33875336287249578163e+05, 7.19657723683240939863e+05, 6.66601232617776375264e+05, -2.94490264303834643215e+05]
/-- j1.rs 336-344 -/
def qr5 : List (Flt f64) :=
  [-2.08979931141764104297e-11, -1.02539050241375426231e-01, -8.05644828123936029840e+00, -1.83669607474888380239e+02, -1.37319376065508163265e+03, -2.61244440453215656817e+03]
/-- j1.rs 345-352 -/
def qs5 : List (Flt f64) :=
  [8.12765501384335777857e+01, 1.99179873460485964642e+03, 1.74684851924908907677e+04, 4.98514270910352279316e+04, 2.79480751638918118260e+04, -4.71918354795128470869e+03]
/-- j1.rs 354-361 -/
def qr3 : List (Flt f64) :=
  [-5.07831226461766561369e-09, -1.02537829820837089745e-01, -4.61011581139473403113e+00, -5.78472216562783643212e+01, -2.28244540737631695038e+02, -2.19210128478909325622e+02]
/-- j1.rs 362-369 -/
def qs3 : List (Flt f64) :=
  [4.76651550323729509273e+01, 6.73865112676699709482e+02, 3.38015286679526343505e+03, 5.54772909720722782367e+03, 1.90311919338810798763e+03, -1.35201191444307340817e+02]
/-- j1.rs 371-379 -/
def qr2 : List (Flt f64) :=
  [-1.78381727510958865572e-07, -1.02517042607985553460e-01, -2.75220568278187460720e+00, -1.96636162643703720221e+01, -4.23253133372830490089e+01, -2.13719211703704061733e+01]
/-- j1.rs 380-387 -/
def qs2 : List (Flt f64) :=
  [2.95333629060523854548e+01, 2.52981549982190529136e+02, 7.57502834868645436472e+02, 7.39393205320467245656e+02, 1.55949003336666123687e+02, -4.95949898822628210127e+00]

/-- j1.rs 277-306: the table `p` for the range of `x` -/
def pr (ix : BitVec 32) : List (Flt f64) :=
  if ix ≥ 0x40200000#32 then pr8 else if ix ≥ 0x40122e8b#32 then pr5 else if ix ≥ 0x4006db6d#32 then pr3 else pr2
/-- j1.rs 277-306: the table `q` for the range of `x` -/
def ps (ix : BitVec 32) : List (Flt f64) :=
  if ix ≥ 0x40200000#32 then ps8 else if ix ≥ 0x40122e8b#32 then ps5 else if ix ≥ 0x4006db6d#32 then ps3 else ps2
/-- j1.rs 389-418: the table `p` for the range of `x` -/
def qr (ix : BitVec 32) : List (Flt f64) :=
  if ix ≥ 0x40200000#32 then qr8 else if ix ≥ 0x40122e8b#32 then qr5 else if ix ≥ 0x4006db6d#32 then qr3 else qr2
/-- j1.rs 389-418: the table `q` for the range of `x` -/
def qs (ix : BitVec 32) : List (Flt f64) :=
  if ix ≥ 0x40200000#32 then qs8 else if ix ≥ 0x40122e8b#32 then qs5 else if ix ≥ 0x4006db6d#32 then qs3 else qs2

/-- j1.rs 277-306 -/
def pone (x : Flt f64) : Flt f64 :=
  let ix := getHighWord x &&& 0x7fffffff#32
  let z := 1.0 / (x * x)
  1.0 + horner z (pr ix) / (1.0 + z * horner z (ps ix))

/-- j1.rs 389-418 -/
def qone (x : Flt f64) : Flt f64 :=
  let ix := getHighWord x &&& 0x7fffffff#32
  let z := 1.0 / (x * x)
  (0.375 + horner z (qr ix) / (1.0 + z * horner z (qs ix))) / x

/-- j1.rs 62-103: the factor `cc`, from the sine and cosine of `x` and the cosine of `2.0 * x` -/
def factor (ix : BitVec 32) (x : Flt f64) (y1 sign : Bool) (s c c2 : Flt f64) : Flt f64 :=
  let s := if y1 then -s else s
  let cc := s - c
  let cc :=
    if ix < 0x7fe00000#32 then
      let ss := -s - c
      let swap := s * c >ᶠ 0.0
      let cc' := if swap then c2 / ss else cc
      let ss' := if swap then ss else c2 / cc
      if ix < 0x48000000#32 then
        let ss := if y1 then -ss' else ss'
        pone x * cc' - qone x * ss
      else cc'
    else cc
  if sign then -cc else cc

/-- j1.rs 62-103.  `cos(2.0 * x)` is computed here whether or not it is used. -/
def common (ix : BitVec 32) (x : Flt f64) (y1 sign : Bool) : Option (Flt f64) :=
  (sin x).bind fun s => (cos x).bind fun c => (cos (2.0 * x)).bind fun c2 =>
  (sqrt x).map fun q => invsqrtpi * factor ix x y1 sign s c c2 / q
end J1

/-- j1.rs 118-146 -/
def j1 (x : Flt f64) : Option (Flt f64) :=
  open J1 in
  let ix := getHighWord x &&& 0x7fffffff#32
  if ix ≥ 0x7ff00000#32 then some (1.0 / (x * x))
  else if ix ≥ 0x40000000#32 then common ix (Generic.fabs x) false x.sign
  else
    let z := if ix ≥ 0x38000000#32 then
        let z := x * x
        let r := z * (r00 + z * (r01 + z * (r02 + z * r03)))
        let s := 1.0 + z * (s01 + z * (s02 + z * (s03 + z * (s04 + z * s05))))
        r / s
      else x
    some ((0.5 + z) * x)

/-- j1.rs 165-198 -/
def y1 (x : Flt f64) : Option (Flt f64) :=
  open J1 in
  let ix := getHighWord x
  if (ix <<< 1) ||| getLowWord x = 0#32 then some (-1.0 / 0.0)
  else if ix >>> 31 ≠ 0#32 then some (0.0 / 0.0)
  else if ix ≥ 0x7ff00000#32 then some (1.0 / x)
  else if ix ≥ 0x40000000#32 then common ix x true false
  else if ix < 0x3c900000#32 then some (-tpi / x)
  else
    let z := x * x
    let u := horner z u0
    let v := 1.0 + z * horner z v0
    (j1 x).bind fun j => (log x).map fun l => x * (u / v) + tpi * (j * l - 1.0 / x)

/-! ## j0f.rs -/

namespace J0f
/-- j0f.rs 18 -/
def invsqrtpi : Flt f32 := 5.6418961287e-01
/-- j0f.rs 19 -/
def tpi : Flt f32 := 6.3661974669e-01
/-- j0f.rs 56 -/
def r02 : Flt f32 := 1.5625000000e-02
/-- j0f.rs 57 -/
def r03 : Flt f32 := -1.8997929874e-04
/-- j0f.rs 58 -/
def r04 : Flt f32 := 1.8295404516e-06
/-- j0f.rs 59 -/
def r05 : Flt f32 := -4.6183270541e-09
/-- j0f.rs 60 -/
def s01 : Flt f32 := 1.5619102865e-02
/-- j0f.rs 61 -/
def s02 : Flt f32 := 1.1692678527e-04
/-- j0f.rs 62 -/
def s03 : Flt f32 := 5.1354652442e-07
/-- j0f.rs 63 -/
def s04 : Flt f32 := 1.1661400734e-09
/-- j0f.rs 100 -/
def u00 : Flt f32 := -7.3804296553e-02
/-- j0f.rs 101 -/
def u01 : Flt f32 := 1.7666645348e-01
/-- j0f.rs 102 -/
def u02 : Flt f32 := -1.3818567619e-02
/-- j0f.rs 103 -/
def u03 : Flt f32 := 3.4745343146e-04
/-- j0f.rs 104 -/
def u04 : Flt f32 := -3.8140706238e-06
/-- j0f.rs 105 -/
def u05 : Flt f32 := 1.9559013964e-08
/-- j0f.rs 106 -/
def u06 : Flt f32 := -3.9820518410e-11
/-- j0f.rs 107 -/
def v01 : Flt f32 := 1.2730483897e-02
/-- j0f.rs 108 -/
def v02 : Flt f32 := 7.6006865129e-05
/-- j0f.rs 109 -/
def v03 : Flt f32 := 2.5915085189e-07
/-- j0f.rs 110 -/
def v04 : Flt f32 := 4.4111031494e-10
/-- j0f.rs 155-163 -/
def pr8 : List (Flt f32) :=
  [0.0000000000e+00, -7.0312500000e-02, -8.0816707611e+00, -2.5706311035e+02, -2.4852163086e+03, -5.2530439453e+03]
/-- j0f.rs 164-170 -/
def ps8 : List (Flt f32) :=
  [1.1653436279e+02, 3.8337448730e+03, 4.0597855469e+04, 1.1675296875e+05, 4.7627726562e+04]
/-- j0f.rs 171-179 -/
def pr5 : List (Flt f32) :=
  [-1.1412546255e-11, -7.0312492549e-02, -4.1596107483e+00, -6.7674766541e+01, -3.3123129272e+02, -3.4643338013e+02]
/-- j0f.rs 180-186 -/
def ps5 : List (Flt f32) :=
  [6.0753936768e+01, 1.0512523193e+03, 5.9789707031e+03, 9.6254453125e+03, 2.4060581055e+03]
/-- j0f.rs 188-196 -/
def pr3 : List (Flt f32) :=
  [-2.5470459075e-09, -7.0311963558e-02, -2.4090321064e+00, -2.1965976715e+01, -5.8079170227e+01, -3.1447946548e+01]
/-- j0f.rs 197-203 -/
def ps3 : List (Flt f32) :=
  [3.5856033325e+01, 3.6151397705e+02, 1.1936077881e+03, 1.1279968262e+03, 1.7358093262e+02]
/-- j0f.rs 205-213 -/
def pr2 : List (Flt f32) :=
  [-8.8753431271e-08, -7.0303097367e-02, -1.4507384300e+00, -7.6356959343e+00, -1.1193166733e+01, -3.2336456776e+00]
/-- j0f.rs 214-220 -/
def ps2 : List (Flt f32) :=
  [2.2220300674e+01, 1.3620678711e+02, 2.7047027588e+02, 1.5387539673e+02, 1.4657617569e+01]
/-- j0f.rs 262-270 -/
def qr8 : List (Flt f32) :=
  [0.0000000000e+00, 7.3242187500e-02, 1.1768206596e+01, 5.5767340088e+02, 8.8591972656e+03, 3.7014625000e+04]
/-- j0f.rs 271-278 -/
def qs8 : List (Flt f32) :=
  [1.6377603149e+02, 8.0983447266e+03, 1.4253829688e+05, 8.0330925000e+05, 8.4050156250e+05, -3.4389928125e+05]
/-- j0f.rs 280-288 -/
def qr5 : List (Flt f32) :=
  [1.8408595828e-11, 7.3242180049e-02, 5.8356351852e+00, 1.3511157227e+02, 1.0272437744e+03, 1.9899779053e+03]
/-- j0f.rs 289-296 -/
def qs5 : List (Flt f32) :=
  [8.2776611328e+01, 2.0778142090e+03, 1.8847289062e+04, 5.6751113281e+04, 3.5976753906e+04, -5.3543427734e+03]
/-- j0f.rs 298-306 -/
def qr3 : List (Flt f32) :=
  [4.3774099900e-09, 7.3241114616e-02, 3.3442313671e+00, 4.2621845245e+01, 1.7080809021e+02, 1.6673394775e+02]
/-- j0f.rs 307-314 -/
def qs3 : List (Flt f32) :=
  [4.8758872986e+01, 7.0968920898e+02, 3.7041481934e+03, 6.4604252930e+03, 2.5163337402e+03, -1.4924745178e+02]
/-- j0f.rs 316-324 -/
def qr2 : List (Flt f32) :=
  [1.5044444979e-07, 7.3223426938e-02, 1.9981917143e+00, 1.4495602608e+01, 3.1666231155e+01, 1.6252708435e+01]
/-- j0f.rs 325-332 -/
def qs2 : List (Flt f32) :=
  [3.0365585327e+01, 2.6934811401e+02, 8.4478375244e+02, 8.8293585205e+02, 2.1266638184e+02, -5.3109550476e+00]

/-- j0f.rs 222-251: the table `p` for the range of `x` -/
def pr (ix : BitVec 32) : List (Flt f32) :=
  if ix ≥ 0x41000000#32 then pr8 else if ix ≥ 0x409173eb#32 then pr5 else if ix ≥ 0x4036d917#32 then pr3 else pr2
/-- j0f.rs 222-251: the table `q` for the range of `x` -/
def ps (ix : BitVec 32) : List (Flt f32) :=
  if ix ≥ 0x41000000#32 then ps8 else if ix ≥ 0x409173eb#32 then ps5 else if ix ≥ 0x4036d917#32 then ps3 else ps2
/-- j0f.rs 334-363: the table `p` for the range of `x` -/
def qr (ix : BitVec 32) : List (Flt f32) :=
  if ix ≥ 0x41000000#32 then qr8 else if ix ≥ 0x409173eb#32 then qr5 else if ix ≥ 0x4036d917#32 then qr3 else qr2
/-- j0f.rs 334-363: the table `q` for the range of `x` -/
def qs (ix : BitVec 32) : List (Flt f32) :=
  if ix ≥ 0x41000000#32 then qs8 else if ix ≥ 0x409173eb#32 then qs5 else if ix ≥ 0x4036d917#32 then qs3 else qs2

/-- j0f.rs 222-251 -/
def pzerof (x : Flt f32) : Flt f32 :=
  let ix := x.u32 &&& 0x7fffffff#32
  let z := 1.0 / (x * x)
  1.0 + horner z (pr ix) / (1.0 + z * horner z (ps ix))

/-- j0f.rs 334-363 -/
def qzerof (x : Flt f32) : Flt f32 :=
  let ix := x.u32 &&& 0x7fffffff#32
  let z := 1.0 / (x * x)
  (-0.125 + horner z (qr ix) / (1.0 + z * horner z (qs ix))) / x

/-- j0f.rs 21-53: the factor `cc`, from the sine and cosine of `x` and the cosine of `2.0 * x` -/
def factor (ix : BitVec 32) (x : Flt f32) (y0 : Bool) (s c c2 : Flt f32) : Flt f32 :=
  let c := if y0 then -c else c
  let cc := s + c
  if ix < 0x7f000000#32 then
    let ss := s - c
    let z := -c2
    let swap := s * c <ᶠ 0.0
    let cc' := if swap then z / ss else cc
    let ss' := if swap then ss else z / cc
    if ix < 0x58800000#32 then
      let ss := if y0 then -ss' else ss'
      pzerof x * cc' - qzerof x * ss
    else cc'
  else cc

/-- j0f.rs 21-53.  `cos(2.0 * x)` is computed here whether or not it is used. -/
def common (ix : BitVec 32) (x : Flt f32) (y0 : Bool) : Option (Flt f32) :=
  (sinf x).bind fun s => (cosf x).bind fun c => (cosf (2.0 * x)).bind fun c2 =>
  (sqrtf x).map fun q => invsqrtpi * factor ix x y0 s c c2 / q
end J0f

/-- j0f.rs 67-98 -/
def j0f (x : Flt f32) : Option (Flt f32) :=
  open J0f in
  let ix := x.u32 &&& 0x7fffffff#32
  if ix ≥ 0x7f800000#32 then some (1.0 / (x * x))
  else
    let x := Generic.fabs x
    if ix ≥ 0x40000000#32 then common ix x false
    else if ix ≥ 0x3a000000#32 then
      let z := x * x
      let r := z * (r02 + z * (r03 + z * (r04 + z * r05)))
      let s := 1.0 + z * (s01 + z * (s02 + z * (s03 + z * s04)))
      some ((1.0 + x / 2.0) * (1.0 - x / 2.0) + z * (r / s))
    else
      let x := if ix ≥ 0x21800000#32 then 0.25 * x * x else x
      some (1.0 - x)

/-- j0f.rs 114-144 -/
def y0f (x : Flt f32) : Option (Flt f32) :=
  open J0f in
  let ix := x.u32
  if ix &&& 0x7fffffff#32 = 0#32 then some (-1.0 / 0.0)
  else if ix >>> 31 ≠ 0#32 then some (0.0 / 0.0)
  else if ix ≥ 0x7f800000#32 then some (1.0 / x)
  else if ix ≥ 0x40000000#32 then common ix x true
  else if ix ≥ 0x39000000#32 then
    let z := x * x
    let u := u00 + z * (u01 + z * (u02 + z * (u03 + z * (u04 + z * (u05 + z * u06)))))
    let v := 1.0 + z * (v01 + z * (v02 + z * (v03 + z * v04)))
    (j0f x).bind fun j => (logf x).map fun l => u / v + tpi * (j * l)
  else (logf x).map fun l => u00 + tpi * l

/-! ## j1f.rs -/

namespace J1f
/-- j1f.rs 18 -/
def invsqrtpi : Flt f32 := 5.6418961287e-01
/-- j1f.rs 19 -/
def tpi : Flt f32 := 6.3661974669e-01
/-- j1f.rs 56 -/
def r00 : Flt f32 := -6.2500000000e-02
/-- j1f.rs 57 -/
def r01 : Flt f32 := 1.4070566976e-03
/-- j1f.rs 58 -/
def r02 : Flt f32 := -1.5995563444e-05
/-- j1f.rs 59 -/
def r03 : Flt f32 := 4.9672799207e-08
/-- j1f.rs 60 -/
def s01 : Flt f32 := 1.9153760746e-02
/-- j1f.rs 61 -/
def s02 : Flt f32 := 1.8594678841e-04
/-- j1f.rs 62 -/
def s03 : Flt f32 := 1.1771846857e-06
/-- j1f.rs 63 -/
def s04 : Flt f32 := 5.0463624390e-09
/-- j1f.rs 64 -/
def s05 : Flt f32 := 1.2354227016e-11
/-- j1f.rs 97-103 -/
def u0 : List (Flt f32) :=
  [-1.9605709612e-01, 5.0443872809e-02, -1.9125689287e-03, 2.3525259166e-05, -9.1909917899e-08]
/-- j1f.rs 104-110 -/
def v0 : List (Flt f32) :=
  [1.9916731864e-02, 2.0255257550e-04, 1.3560879779e-06, 6.2274145840e-09, 1.6655924903e-11]
/-- j1f.rs 154-162 -/
def pr8 : List (Flt f32) :=
  [0.0000000000e+00, 1.1718750000e-01, 1.3239480972e+01, 4.1205184937e+02, 3.8747453613e+03, 7.9144794922e+03]
/-- j1f.rs 163-169 -/
def ps8 : List (Flt f32) :=
  [1.1420736694e+02, 3.6509309082e+03, 3.6956207031e+04, 9.7602796875e+04, 3.0804271484e+04]
/-- j1f.rs 171-179 -/
def pr5 : List (Flt f32) :=
  [1.3199052094e-11, 1.1718749255e-01, 6.8027510643e+00, 1.0830818176e+02, 5.1763616943e+02, 5.2871520996e+02]
/-- j1f.rs 180-186 -/
def ps5 : List (Flt f32) :=
  [5.9280597687e+01, 9.9140142822e+02, 5.3532670898e+03, 7.8446904297e+03, 1.5040468750e+03]
/-- j1f.rs 188-195 -/
def pr3 : List (Flt f32) :=
  [3.0250391081e-09, 1.1718686670e-01, 3.9329774380e+00, 3.5119403839e+01, 9.1055007935e+01, 4.8559066772e+01]
/-- j1f.rs 196-202 -/
def ps3 : List (Flt f32) :=
  [3.4791309357e+01, 3.3676245117e+02, 1.0468714600e+03, 8.9081134033e+02, 1.0378793335e+02]
/-- j1f.rs 204-212 -/
def pr2 : List (Flt f32) :=
  [1.0771083225e-07, 1.1717621982e-01, 2.3685150146e+00, 1.2242610931e+01, 1.7693971634e+01, 5.0735230446e+00]
/-- j1f.rs 213-219 -/
def ps2 : List (Flt f32) :=
  [2.1436485291e+01, 1.2529022980e+02, 2.3227647400e+02, 1.1767937469e+02, 8.3646392822e+00]
/-- j1f.rs 262-270 -/
def qr8 : List (Flt f32) :=
  [0.0000000000e+00, -1.0253906250e-01, -1.6271753311e+01, -7.5960174561e+02, -1.1849806641e+04, -4.8438511719e+04]
/-- j1f.rs 271-278 -/
def qs8 : List (Flt f32) :=
  [1.6139537048e+02, 7.8253862305e+03, 1.3387534375e+05, 7.1965775000e+05, 6.6660125000e+05, -2.9449025000e+05]
/-- j1f.rs 280-288 -/
def qr5 : List (Flt f32) :=
  [-2.0897993405e-11, -1.0253904760e-01, -8.0564479828e+00, -1.8366960144e+02, -1.3731937256e+03, -2.6124443359e+03]
/-- j1f.rs 289-296 -/
def qs5 : List (Flt f32) :=
  [8.1276550293e+01, 1.9917987061e+03, 1.7468484375e+04, 4.9851425781e+04, 2.7948074219e+04, -4.7191835938e+03]
/-- j1f.rs 298-305 -/
def qr3 : List (Flt f32) :=
  [-5.0783124372e-09, -1.0253783315e-01, -4.6101160049e+00, -5.7847221375e+01, -2.2824453735e+02, -2.1921012878e+02]
/-- j1f.rs 306-313 -/
def qs3 : List (Flt f32) :=
  [4.7665153503e+01, 6.7386511230e+02, 3.3801528320e+03, 5.5477290039e+03, 1.9031191406e+03, -1.3520118713e+02]
/-- j1f.rs 315-323 -/
def qr2 : List (Flt f32) :=
  [-1.7838172539e-07, -1.0251704603e-01, -2.7522056103e+00, -1.9663616180e+01, -4.2325313568e+01, -2.1371921539e+01]
/-- j1f.rs 324-331 -/
def qs2 : List (Flt f32) :=
  [2.9533363342e+01, 2.5298155212e+02, 7.5750280762e+02, 7.3939318848e+02, 1.5594900513e+02, -4.9594988823e+00]

/-- j1f.rs 221-250: the table `p` for the range of `x` -/
def pr (ix : BitVec 32) : List (Flt f32) :=
  if ix ≥ 0x41000000#32 then pr8 else if ix ≥ 0x409173eb#32 then pr5 else if ix ≥ 0x4036d917#32 then pr3 else pr2
/-- j1f.rs 221-250: the table `q` for the range of `x` -/
def ps (ix : BitVec 32) : List (Flt f32) :=
  if ix ≥ 0x41000000#32 then ps8 else if ix ≥ 0x409173eb#32 then ps5 else if ix ≥ 0x4036d917#32 then ps3 else ps2
/-- j1f.rs 333-362: the table `p` for the range of `x` -/
def qr (ix : BitVec 32) : List (Flt f32) :=
  if ix ≥ 0x41000000#32 then qr8 else if ix ≥ 0x409173eb#32 then qr5 else if ix ≥ 0x4036d917#32 then qr3 else qr2
/-- j1f.rs 333-362: the table `q` for the range of `x` -/
def qs (ix : BitVec 32) : List (Flt f32) :=
  if ix ≥ 0x41000000#32 then qs8 else if ix ≥ 0x409173eb#32 then qs5 else if ix ≥ 0x4036d917#32 then qs3 else qs2

/-- j1f.rs 221-250 -/
def ponef (x : Flt f32) : Flt f32 :=
  let ix := x.u32 &&& 0x7fffffff#32
  let z := 1.0 / (x * x)
  1.0 + horner z (pr ix) / (1.0 + z * horner z (ps ix))

/-- j1f.rs 333-362 -/
def qonef (x : Flt f32) : Flt f32 :=
  let ix := x.u32 &&& 0x7fffffff#32
  let z := 1.0 / (x * x)
  (0.375 + horner z (qr ix) / (1.0 + z * horner z (qs ix))) / x

/-- j1f.rs 21-53: the factor `cc`, from the sine and cosine of `x` and the cosine of `2.0 * x`, in f64 -/
def factor (ix : BitVec 32) (x : Flt f32) (y1 sign : Bool) (s c c2 : Flt f64) : Flt f64 :=
  let s := if y1 then -s else s
  let cc := s - c
  let cc :=
    if ix < 0x7f000000#32 then
      let ss := -s - c
      let swap := s * c >ᶠ 0.0
      let cc' := if swap then c2 / ss else cc
      let ss' := if swap then ss else c2 / cc
      if ix < 0x58800000#32 then
        let ss := if y1 then -ss' else ss'
        (ponef x).cast f64 * cc' - (qonef x).cast f64 * ss
      else cc'
    else cc
  if sign then -cc else cc

/-- j1f.rs 21-53.  `cosf(2.0 * x)` is computed here whether or not it is used. -/
def common (ix : BitVec 32) (x : Flt f32) (y1 sign : Bool) : Option (Flt f32) :=
  (sinf x).bind fun s => (cosf x).bind fun c => (cosf (2.0 * x)).bind fun c2 =>
  (sqrtf x).map fun q =>
    (invsqrtpi.cast f64 * factor ix x y1 sign (s.cast f64) (c.cast f64) (c2.cast f64) / q.cast f64).cast f32
end J1f

/-- j1f.rs 68-95 -/
def j1f (x : Flt f32) : Option (Flt f32) :=
  open J1f in
  let ix := x.u32 &&& 0x7fffffff#32
  if ix ≥ 0x7f800000#32 then some (1.0 / (x * x))
  else if ix ≥ 0x40000000#32 then common ix (Generic.fabs x) false x.sign
  else
    let z := if ix ≥ 0x39000000#32 then
        let z := x * x
        let r := z * (r00 + z * (r01 + z * (r02 + z * r03)))
        let s := 1.0 + z * (s01 + z * (s02 + z * (s03 + z * (s04 + z * s05))))
        0.5 + r / s
      else 0.5
    some (z * x)

/-- j1f.rs 114-142 -/
def y1f (x : Flt f32) : Option (Flt f32) :=
  open J1f in
  let ix := x.u32
  if ix &&& 0x7fffffff#32 = 0#32 then some (-1.0 / 0.0)
  else if ix >>> 31 ≠ 0#32 then some (0.0 / 0.0)
  else if ix ≥ 0x7f800000#32 then some (1.0 / x)
  else if ix ≥ 0x40000000#32 then common ix x true false
  else if ix < 0x33000000#32 then some (-tpi / x)
  else
    let z := x * x
    let u := horner z u0
    let v := 1.0 + z * horner z v0
    (j1f x).bind fun j => (logf x).map fun l => x * (u / v) + tpi * (j * l - 1.0 / x)

/-! ## jn.rs -/

namespace Jn
/-- jn.rs 39 -/
def invsqrtpi : Flt f64 := 5.64189583547756279280e-01
/-- jn.rs 115-121: the `while` loop, by the number of steps left -/
def fwd (x : Flt f64) : Nat → Int → Flt f64 → Flt f64 → Flt f64
  | 0, _, _, b => b
  | k + 1, i, a, b => fwd x k (i + 1) b (b * (2.0 * ofInt f64 (i + 1) / x) - a)

/-- jn.rs 132-141: the `while` loop, by the number of steps left, and the division -/
def taylor (temp : Flt f64) : Nat → Int → Flt f64 → Flt f64 → Flt f64
  | 0, _, a, b => b / a
  | k + 1, i, a, b => taylor temp k (i + 1) (a * ofInt f64 i) (b * temp)

/-- jn.rs 190-197: the `while` loop that determines `k`.  The first argument is the number of times `k` can be
incremented before the i32 overflows, which is a panic. -/
def growK (h : Flt f64) : Nat → Int → Flt f64 → Flt f64 → Flt f64 → Option Int
  | fuel, k, z, q0, q1 =>
    if q1 <ᶠ 1.0e9 then
      match fuel with
      | 0 => none
      | fuel + 1 =>
        let z := z + h
        growK h fuel (k + 1) z q1 (z * q1 - q0)
    else some k

/-- jn.rs 198-203: the `while` loop, for `i` from one less than the first argument down to 0 -/
def tLoop (x nf : Flt f64) : Nat → Flt f64 → Flt f64
  | 0, t => t
  | i + 1, t => tLoop x nf i (1.0 / (2.0 * (ofInt f64 i + nf) / x - t))

/-- jn.rs 216-222: the `while` loop, for `i` from the first argument down to 1; the result is `(a, b)` -/
def down (x : Flt f64) : Nat → Flt f64 → Flt f64 → Flt f64 × Flt f64
  | 0, a, b => (a, b)
  | i + 1, a, b => down x i b (b * (2.0 * ofInt f64 (i + 1)) / x - a)

/-- jn.rs 224-238: the same with scaling; the result is `(a, b, t)` -/
def downScaled (x : Flt f64) : Nat → Flt f64 → Flt f64 → Flt f64 → Flt f64 × Flt f64 × Flt f64
  | 0, a, b, t => (a, b, t)
  | i + 1, a, b, t =>
    let b' := b * (2.0 * ofInt f64 (i + 1)) / x - a
    if b' >ᶠ bits64 0x5f30000000000000#64 then downScaled x i (b / b') 1.0 (t / b')
    else downScaled x i b b' t

/-- jn.rs 184-246: backward recurrence -/
def backward (nm1 : Nat) (x : Flt f64) : Option (Flt f64) :=
  let nf := ofInt f64 nm1 + 1.0
  let w := 2.0 * nf / x
  let h := 2.0 / x
  let z := w + h
  (growK h 2147483646 1 z w (w * z - 1.0)).bind fun k =>
  let t := tLoop x nf (k + 1).toNat 0.0
  (log (Generic.fabs w)).bind fun lw =>
  let r := if nf * lw <ᶠ 7.09782712893383973096e+02 then
      let p := down x nm1 t 1.0
      (p.1, p.2, t)
    else downScaled x nm1 t 1.0 t
  (j0 x).bind fun z => (j1 x).map fun w =>
    if Generic.fabs z ≥ᶠ Generic.fabs w then r.2.2 * z / r.2.1 else r.2.2 * w / r.1

/-- jn.rs 89-111: `x > 2^302` -/
def far (nm1 : Nat) (x : Flt f64) : Option (Flt f64) :=
  (cos x).bind fun c => (sin x).bind fun s =>
  let temp := if nm1 % 4 = 0 then -c + s else if nm1 % 4 = 1 then -c - s else if nm1 % 4 = 2 then c - s else c + s
  (sqrt x).map fun q => invsqrtpi * temp / q

/-- jn.rs 300-322: `x > 2^302` -/
def farY (nm1 : Nat) (x : Flt f64) : Option (Flt f64) :=
  (cos x).bind fun c => (sin x).bind fun s =>
  let temp := if nm1 % 4 = 0 then -s - c else if nm1 % 4 = 1 then -s + c else if nm1 % 4 = 2 then s + c else s - c
  (sqrt x).map fun q => invsqrtpi * temp / q

/-- jn.rs 84-246: `b` for `nm1 >= 1` and `x >= 0` -/
def mag (nm1 : Nat) (x : Flt f64) : Option (Flt f64) :=
  let ix := getHighWord x
  if ix ||| getLowWord x = 0#32 ∨ ix = 0x7ff00000#32 then some 0.0
  else if ofInt f64 nm1 <ᶠ x then
    if ix ≥ 0x52d00000#32 then far nm1 x
    else (j0 x).bind fun a => (j1 x).map fun b => fwd x nm1 0 a b
  else if ix < 0x3e100000#32 then
    if nm1 > 32 then some 0.0 else some (taylor (x * 0.5) nm1 2 1.0 (x * 0.5))
  else backward nm1 x

/-- jn.rs 324-336: the `while` loop, by the number of steps left -/
def fwdY (x : Flt f64) : Nat → Int → Flt f64 → Flt f64 → Flt f64
  | 0, _, _, b => b
  | k + 1, i, a, b =>
    if getHighWord b ≠ 0xfff00000#32 then
      fwdY x k (i + 1) b ((2.0 * ofInt f64 (i + 1) / x) * b - a)
    else b

/-- jn.rs 300-336: `b` for `nm1 >= 1` -/
def magY (nm1 : Nat) (x : Flt f64) : Option (Flt f64) :=
  if getHighWord x &&& 0x7fffffff#32 ≥ 0x52d00000#32 then farY nm1 x
  else (y0 x).bind fun a => (y1 x).map fun b => fwdY x nm1 0 a b
end Jn

/-- jn.rs 43-249.  `n` is an i32.  `nm1 = |n| - 1` does not overflow.  For `n < 0` the code replaces `x` by `-x` and inverts
`sign`. -/
def jn (n : Int) (x : Flt f64) : Option (Flt f64) :=
  let ix := getHighWord x &&& 0x7fffffff#32
  let lx := getLowWord x
  if ix ||| ((lx ||| (~~~lx + 1#32)) >>> 31) > 0x7ff00000#32 then some x
  else if n = 0 then j0 x
  else
    let nm1 := n.natAbs - 1
    let sign := if n < 0 then !x.sign else x.sign
    let x := if n < 0 then -x else x
    if nm1 = 0 then j1 x
    else
      let sign := sign && decide (n % 2 ≠ 0)
      (Jn.mag nm1 (Generic.fabs x)).map fun b => if sign then -b else b

/-- jn.rs 253-339.  `n` is an i32. -/
def yn (n : Int) (x : Flt f64) : Option (Flt f64) :=
  let ix := getHighWord x &&& 0x7fffffff#32
  let lx := getLowWord x
  if ix ||| ((lx ||| (~~~lx + 1#32)) >>> 31) > 0x7ff00000#32 then some x
  else if x.sign ∧ ix ||| lx ≠ 0#32 then some (0.0 / 0.0)
  else if ix = 0x7ff00000#32 then some 0.0
  else if n = 0 then y0 x
  else
    let nm1 := n.natAbs - 1
    let sign := decide (n < 0) && decide (n % 2 ≠ 0)
    if nm1 = 0 then (y1 x).map fun y => if sign then -y else y
    else (Jn.magY nm1 x).map fun b => if sign then -b else b

/-! ## jnf.rs -/

namespace Jnf

/-- jnf.rs 61-67: the `while` loop, by the number of steps left -/
def fwd (x : Flt f32) : Nat → Int → Flt f32 → Flt f32 → Flt f32
  | 0, _, _, b => b
  | k + 1, i, a, b => fwd x k (i + 1) b (b * (2.0 * ofInt f32 (i + 1) / x) - a)

/-- jnf.rs 77-86: the `while` loop, by the number of steps left, and the division -/
def taylor (temp : Flt f32) : Nat → Int → Flt f32 → Flt f32 → Flt f32
  | 0, _, a, b => b / a
  | k + 1, i, a, b => taylor temp k (i + 1) (a * ofInt f32 i) (b * temp)

/-- jnf.rs 133-140: the `while` loop that determines `k`.  The first argument is the number of times `k` can be
incremented before the i32 overflows, which is a panic. -/
def growK (h : Flt f32) : Nat → Int → Flt f32 → Flt f32 → Flt f32 → Option Int
  | fuel, k, z, q0, q1 =>
    if q1 <ᶠ 1.0e4 then
      match fuel with
      | 0 => none
      | fuel + 1 =>
        let z := z + h
        growK h fuel (k + 1) z q1 (z * q1 - q0)
    else some k

/-- jnf.rs 141-146: the `while` loop, for `i` from one less than the first argument down to 0 -/
def tLoop (x nf : Flt f32) : Nat → Flt f32 → Flt f32
  | 0, t => t
  | i + 1, t => tLoop x nf i (1.0 / (2.0 * (ofInt f32 i + nf) / x - t))

/-- jnf.rs 159-165: the `while` loop, for `i` from the first argument down to 1; the result is `(a, b)` -/
def down (x : Flt f32) : Nat → Flt f32 → Flt f32 → Flt f32 × Flt f32
  | 0, a, b => (a, b)
  | i + 1, a, b => down x i b (2.0 * ofInt f32 (i + 1) * b / x - a)

/-- jnf.rs 167-181: the same with scaling; the result is `(a, b, t)` -/
def downScaled (x : Flt f32) : Nat → Flt f32 → Flt f32 → Flt f32 → Flt f32 × Flt f32 × Flt f32
  | 0, a, b, t => (a, b, t)
  | i + 1, a, b, t =>
    let b' := 2.0 * ofInt f32 (i + 1) * b / x - a
    if b' >ᶠ bits32 0x5d800000#32 then downScaled x i (b / b') 1.0 (t / b')
    else downScaled x i b b' t

/-- jnf.rs 127-188: backward recurrence -/
def backward (nm1 : Nat) (x : Flt f32) : Option (Flt f32) :=
  let nf := ofInt f32 nm1 + 1.0
  let w := 2.0 * nf / x
  let h := 2.0 / x
  let z := w + h
  (growK h 2147483646 1 z w (w * z - 1.0)).bind fun k =>
  let t := tLoop x nf (k + 1).toNat 0.0
  (logf (Generic.fabs w)).bind fun lw =>
  let r := if nf * lw <ᶠ 88.721679688 then
      let p := down x nm1 t 1.0
      (p.1, p.2, t)
    else downScaled x nm1 t 1.0 t
  (j0f x).bind fun z => (j1f x).map fun w =>
    if Generic.fabs z ≥ᶠ Generic.fabs w then r.2.2 * z / r.2.1 else r.2.2 * w / r.1

/-- jnf.rs 54-188: `b` for `nm1 >= 1` and `x >= 0` -/
def mag (nm1 : Nat) (x : Flt f32) : Option (Flt f32) :=
  let ix := x.u32
  if ix = 0#32 ∨ ix = 0x7f800000#32 then some 0.0
  else if ofInt f32 nm1 <ᶠ x then (j0f x).bind fun a => (j1f x).map fun b => fwd x nm1 0 a b
  else if ix < 0x35800000#32 then
    some (taylor (0.5 * x) (if nm1 > 8 then 8 else nm1) 2 1.0 (0.5 * x))
  else backward nm1 x

/-- jnf.rs 239-250: the `while` loop, by the number of steps left -/
def fwdY (x : Flt f32) : Nat → Int → Flt f32 → Flt f32 → Flt f32
  | 0, _, _, b => b
  | k + 1, i, a, b =>
    if b.u32 ≠ 0xff800000#32 then
      fwdY x k (i + 1) b ((2.0 * ofInt f32 (i + 1) / x) * b - a)
    else b

/-- jnf.rs 239-250: `b` for `nm1 >= 1` -/
def magY (nm1 : Nat) (x : Flt f32) : Option (Flt f32) :=
  (y0f x).bind fun a => (y1f x).map fun b => fwdY x nm1 0 a b
end Jnf

/-- jnf.rs 20-192.  `n` is an i32.  `nm1 = |n| - 1` does not overflow.  For `n < 0` the code replaces `x` by `-x` and inverts
`sign`. -/
def jnf (n : Int) (x : Flt f32) : Option (Flt f32) :=
  let ix := x.u32 &&& 0x7fffffff#32
  if ix > 0x7f800000#32 then some x
  else if n = 0 then j0f x
  else
    let nm1 := n.natAbs - 1
    let sign := if n < 0 then !x.sign else x.sign
    let x := if n < 0 then -x else x
    if nm1 = 0 then j1f x
    else
      let sign := sign && decide (n % 2 ≠ 0)
      (Jnf.mag nm1 (Generic.fabs x)).map fun b => if sign then -b else b

/-- jnf.rs 196-253.  `n` is an i32. -/
def ynf (n : Int) (x : Flt f32) : Option (Flt f32) :=
  let ix := x.u32 &&& 0x7fffffff#32
  if ix > 0x7f800000#32 then some x
  else if x.sign ∧ ix ≠ 0#32 then some (0.0 / 0.0)
  else if ix = 0x7f800000#32 then some 0.0
  else if n = 0 then y0f x
  else
    let nm1 := n.natAbs - 1
    let sign := decide (n < 0) && decide (n % 2 ≠ 0)
    if nm1 = 0 then (y1f x).map fun y => if sign then -y else y
    else (Jnf.magY nm1 x).map fun b => if sign then -b else b

end Verif
