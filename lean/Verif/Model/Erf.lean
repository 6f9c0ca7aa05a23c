import Verif.Model.Lit
import Verif.Model.Exp
import Verif.Model.Generic
import Verif.Model.Words

/-!
# Model of erf, erfc, erff, erfcf

`none` stands for a panic of the exponential.  `-z * z` is `(-z) * z`, as in Rust.
-/

namespace Verif
open Flt

/-! ## erf.rs -/

namespace Erf
/-- erf.rs 107 -/
def erx : Flt f64 := 8.45062911510467529297e-01
/-- erf.rs 111 -/
def efx8 : Flt f64 := 1.02703333676410069053e+00
/-- erf.rs 112 -/
def pp0 : Flt f64 := 1.28379167095512558561e-01
/-- erf.rs 113 -/
def pp1 : Flt f64 := -3.25042107247001499370e-01
/-- erf.rs 114 -/
def pp2 : Flt f64 := -2.84817495755985104766e-02
/-- erf.rs 115 -/
def pp3 : Flt f64 := -5.77027029648944159157e-03
/-- erf.rs 116 -/
def pp4 : Flt f64 := -2.37630166566501626084e-05
/-- erf.rs 117 -/
def qq1 : Flt f64 := 3.97917223959155352819e-01
/-- erf.rs 118 -/
def qq2 : Flt f64 := 6.50222499887672944485e-02
/-- erf.rs 119 -/
def qq3 : Flt f64 := 5.08130628187576562776e-03
/-- erf.rs 120 -/
def qq4 : Flt f64 := 1.32494738004321644526e-04
/-- erf.rs 121 -/
def qq5 : Flt f64 := -3.96022827877536812320e-06
/-- erf.rs 125 -/
def pa0 : Flt f64 := -2.36211856075265944077e-03
/-- erf.rs 126 -/
def pa1 : Flt f64 := 4.14856118683748331666e-01
/-- erf.rs 127 -/
def pa2 : Flt f64 := -3.72207876035701323847e-01
/-- erf.rs 128 -/
def pa3 : Flt f64 := 3.18346619901161753674e-01
/-- erf.rs 129 -/
def pa4 : Flt f64 := -1.10894694282396677476e-01
/-- erf.rs 130 -/
def pa5 : Flt f64 := 3.54783043256182359371e-02
/-- erf.rs 131 -/
def pa6 : Flt f64 := -2.16637559486879084300e-03
/-- erf.rs 132 -/
def qa1 : Flt f64 := 1.06420880400844228286e-01
/-- erf.rs 133 -/
def qa2 : Flt f64 := 5.40397917702171048937e-01
/-- erf.rs 134 -/
def qa3 : Flt f64 := 7.18286544141962662868e-02
/-- erf.rs 135 -/
def qa4 : Flt f64 := 1.26171219808761642112e-01
/-- erf.rs 136 -/
def qa5 : Flt f64 := 1.36370839120290507362e-02
/-- erf.rs 137 -/
def qa6 : Flt f64 := 1.19844998467991074170e-02
/-- erf.rs 141 -/
def ra0 : Flt f64 := -9.86494403484714822705e-03
/-- erf.rs 142 -/
def ra1 : Flt f64 := -6.93858572707181764372e-01
/-- erf.rs 143 -/
def ra2 : Flt f64 := -1.05586262253232909814e+01
/-- erf.rs 144 -/
def ra3 : Flt f64 := -6.23753324503260060396e+01
/-- erf.rs 145 -/
def ra4 : Flt f64 := -1.62396669462573470355e+02
/-- erf.rs 146 -/
def ra5 : Flt f64 := -1.84605092906711035994e+02
/-- erf.rs 147 -/
def ra6 : Flt f64 := -8.12874355063065934246e+01
/-- erf.rs 148 -/
def ra7 : Flt f64 := -9.81432934416914548592e+00
/-- erf.rs 149 -/
def sa1 : Flt f64 := 1.96512716674392571292e+01
/-- erf.rs 150 -/
def sa2 : Flt f64 := 1.37657754143519042600e+02
/-- erf.rs 151 -/
def sa3 : Flt f64 := 4.34565877475229228821e+02
/-- erf.rs 152 -/
def sa4 : Flt f64 := 6.45387271733267880336e+02
/-- erf.rs 153 -/
def sa5 : Flt f64 := 4.29008140027567833386e+02
/-- erf.rs 154 -/
def sa6 : Flt f64 := 1.08635005541779435134e+02
/-- erf.rs 155 -/
def sa7 : Flt f64 := 6.57024977031928170135e+00
/-- erf.rs 156 -/
def sa8 : Flt f64 := -6.04244152148580987438e-02
/-- erf.rs 160 -/
def rb0 : Flt f64 := -9.86494292470009928597e-03
/-- erf.rs 161 -/
def rb1 : Flt f64 := -7.99283237680523006574e-01
/-- erf.rs 162 -/
def rb2 : Flt f64 := -1.77579549177547519889e+01
/-- erf.rs 163 -/
def rb3 : Flt f64 := -1.60636384855821916062e+02
/-- erf.rs 164 -/
def rb4 : Flt f64 := -6.37566443368389627722e+02
/-- erf.rs 165 -/
def rb5 : Flt f64 := -1.02509513161107724954e+03
/-- erf.rs 166 -/
def rb6 : Flt f64 := -4.83519191608651397019e+02
/-- erf.rs 167 -/
def sb1 : Flt f64 := 3.03380607434824582924e+01
/-- erf.rs 168 -/
def sb2 : Flt f64 := 3.25792512996573918826e+02
/-- erf.rs 169 -/
def sb3 : Flt f64 := 1.53672958608443695994e+03
/-- erf.rs 170 -/
def sb4 : Flt f64 := 3.19985821950859553908e+03
/-- erf.rs 171 -/
def sb5 : Flt f64 := 2.55305040643316442583e+03
/-- erf.rs 172 -/
def sb6 : Flt f64 := 4.74528541206955367215e+02
/-- erf.rs 173 -/
def sb7 : Flt f64 := -2.24409524465858183362e+01

/-- erf.rs 175-185 -/
def erfc1 (x : Flt f64) : Flt f64 :=
  let s := Generic.fabs x - 1.0
  let p := pa0 + s * (pa1 + s * (pa2 + s * (pa3 + s * (pa4 + s * (pa5 + s * pa6)))))
  let q := 1.0 + s * (qa1 + s * (qa2 + s * (qa3 + s * (qa4 + s * (qa5 + s * qa6)))))
  1.0 - erx - p / q

/-- erf.rs 187-215: the arguments of the two exponentials for `x = |x| >= 1.25` -/
def erfcArgs (ix : BitVec 32) (x : Flt f64) : Flt f64 × Flt f64 :=
  let s := 1.0 / (x * x)
  let r := if ix < 0x4006db6d#32 then
      ra0 + s * (ra1 + s * (ra2 + s * (ra3 + s * (ra4 + s * (ra5 + s * (ra6 + s * ra7))))))
    else rb0 + s * (rb1 + s * (rb2 + s * (rb3 + s * (rb4 + s * (rb5 + s * rb6)))))
  let bigS := if ix < 0x4006db6d#32 then
      1.0 + s * (sa1 + s * (sa2 + s * (sa3 + s * (sa4 + s * (sa5 + s * (sa6 + s * (sa7 + s * sa8)))))))
    else 1.0 + s * (sb1 + s * (sb2 + s * (sb3 + s * (sb4 + s * (sb5 + s * (sb6 + s * sb7))))))
  let z := withSetLowWord x 0#32
  (-z * z - 0.5625, (z - x) * (z + x) + r / bigS)

/-- erf.rs 187-215 -/
def erfc2 (ix : BitVec 32) (x : Flt f64) : Option (Flt f64) :=
  if ix < 0x3ff40000#32 then some (erfc1 x)
  else
    let x := Generic.fabs x
    let a := erfcArgs ix x
    (exp a.1).bind fun e1 => (exp a.2).map fun e2 => e1 * e2 / x

/-- erf.rs 247-251, 291-295: `y` for `|x| < 0.84375` -/
def ratio (x : Flt f64) : Flt f64 :=
  let z := x * x
  let r := pp0 + z * (pp1 + z * (pp2 + z * (pp3 + z * pp4)))
  let s := 1.0 + z * (qq1 + z * (qq2 + z * (qq3 + z * (qq4 + z * qq5))))
  r / s

end Erf

/-- erf.rs 223-260 -/
def erf (x : Flt f64) : Option (Flt f64) :=
  open Erf in
  let sign := getHighWord x >>> 31
  let ix := getHighWord x &&& 0x7fffffff#32
  if ix ≥ 0x7ff00000#32 then some (1.0 - 2.0 * ofInt f64 sign.toNat + 1.0 / x)
  else if ix < 0x3feb0000#32 then
    if ix < 0x3e300000#32 then some (0.125 * (8.0 * x + efx8 * x))
    else some (x + x * ratio x)
  else
    (if ix < 0x40180000#32 then (erfc2 ix x).map fun e => 1.0 - e else some (1.0 - bits64 0x0010000000000000#64)).map fun y =>
      if sign ≠ 0#32 then -y else y

/-- erf.rs 268-310 -/
def erfc (x : Flt f64) : Option (Flt f64) :=
  open Erf in
  let sign := getHighWord x >>> 31
  let ix := getHighWord x &&& 0x7fffffff#32
  if ix ≥ 0x7ff00000#32 then some (2.0 * ofInt f64 sign.toNat + 1.0 / x)
  else if ix < 0x3feb0000#32 then
    if ix < 0x3c700000#32 then some (1.0 - x)
    else if sign ≠ 0#32 ∨ ix < 0x3fd00000#32 then some (1.0 - (x + x * ratio x))
    else some (0.5 - (x - 0.5 + x * ratio x))
  else if ix < 0x403c0000#32 then
    if sign ≠ 0#32 then (erfc2 ix x).map fun e => 2.0 - e else erfc2 ix x
  else if sign ≠ 0#32 then some (2.0 - bits64 0x0010000000000000#64) else some (bits64 0x0010000000000000#64 * bits64 0x0010000000000000#64)

/-! ## erff.rs -/

namespace Erff
/-- erff.rs 18 -/
def erx : Flt f32 := 8.4506291151e-01
/-- erff.rs 22 -/
def efx8 : Flt f32 := 1.0270333290e+00
/-- erff.rs 23 -/
def pp0 : Flt f32 := 1.2837916613e-01
/-- erff.rs 24 -/
def pp1 : Flt f32 := -3.2504209876e-01
/-- erff.rs 25 -/
def pp2 : Flt f32 := -2.8481749818e-02
/-- erff.rs 26 -/
def pp3 : Flt f32 := -5.7702702470e-03
/-- erff.rs 27 -/
def pp4 : Flt f32 := -2.3763017452e-05
/-- erff.rs 28 -/
def qq1 : Flt f32 := 3.9791721106e-01
/-- erff.rs 29 -/
def qq2 : Flt f32 := 6.5022252500e-02
/-- erff.rs 30 -/
def qq3 : Flt f32 := 5.0813062117e-03
/-- erff.rs 31 -/
def qq4 : Flt f32 := 1.3249473704e-04
/-- erff.rs 32 -/
def qq5 : Flt f32 := -3.9602282413e-06
/-- erff.rs 36 -/
def pa0 : Flt f32 := -2.3621185683e-03
/-- erff.rs 37 -/
def pa1 : Flt f32 := 4.1485610604e-01
/-- erff.rs 38 -/
def pa2 : Flt f32 := -3.7220788002e-01
/-- erff.rs 39 -/
def pa3 : Flt f32 := 3.1834661961e-01
/-- erff.rs 40 -/
def pa4 : Flt f32 := -1.1089469492e-01
/-- erff.rs 41 -/
def pa5 : Flt f32 := 3.5478305072e-02
/-- erff.rs 42 -/
def pa6 : Flt f32 := -2.1663755178e-03
/-- erff.rs 43 -/
def qa1 : Flt f32 := 1.0642088205e-01
/-- erff.rs 44 -/
def qa2 : Flt f32 := 5.4039794207e-01
/-- erff.rs 45 -/
def qa3 : Flt f32 := 7.1828655899e-02
/-- erff.rs 46 -/
def qa4 : Flt f32 := 1.2617121637e-01
/-- erff.rs 47 -/
def qa5 : Flt f32 := 1.3637083583e-02
/-- erff.rs 48 -/
def qa6 : Flt f32 := 1.1984500103e-02
/-- erff.rs 52 -/
def ra0 : Flt f32 := -9.8649440333e-03
/-- erff.rs 53 -/
def ra1 : Flt f32 := -6.9385856390e-01
/-- erff.rs 54 -/
def ra2 : Flt f32 := -1.0558626175e+01
/-- erff.rs 55 -/
def ra3 : Flt f32 := -6.2375331879e+01
/-- erff.rs 56 -/
def ra4 : Flt f32 := -1.6239666748e+02
/-- erff.rs 57 -/
def ra5 : Flt f32 := -1.8460508728e+02
/-- erff.rs 58 -/
def ra6 : Flt f32 := -8.1287437439e+01
/-- erff.rs 59 -/
def ra7 : Flt f32 := -9.8143291473e+00
/-- erff.rs 60 -/
def sa1 : Flt f32 := 1.9651271820e+01
/-- erff.rs 61 -/
def sa2 : Flt f32 := 1.3765776062e+02
/-- erff.rs 62 -/
def sa3 : Flt f32 := 4.3456588745e+02
/-- erff.rs 63 -/
def sa4 : Flt f32 := 6.4538726807e+02
/-- erff.rs 64 -/
def sa5 : Flt f32 := 4.2900814819e+02
/-- erff.rs 65 -/
def sa6 : Flt f32 := 1.0863500214e+02
/-- erff.rs 66 -/
def sa7 : Flt f32 := 6.5702495575e+00
/-- erff.rs 67 -/
def sa8 : Flt f32 := -6.0424413532e-02
/-- erff.rs 71 -/
def rb0 : Flt f32 := -9.8649431020e-03
/-- erff.rs 72 -/
def rb1 : Flt f32 := -7.9928326607e-01
/-- erff.rs 73 -/
def rb2 : Flt f32 := -1.7757955551e+01
/-- erff.rs 74 -/
def rb3 : Flt f32 := -1.6063638306e+02
/-- erff.rs 75 -/
def rb4 : Flt f32 := -6.3756646729e+02
/-- erff.rs 76 -/
def rb5 : Flt f32 := -1.0250950928e+03
/-- erff.rs 77 -/
def rb6 : Flt f32 := -4.8351919556e+02
/-- erff.rs 78 -/
def sb1 : Flt f32 := 3.0338060379e+01
/-- erff.rs 79 -/
def sb2 : Flt f32 := 3.2579251099e+02
/-- erff.rs 80 -/
def sb3 : Flt f32 := 1.5367296143e+03
/-- erff.rs 81 -/
def sb4 : Flt f32 := 3.1998581543e+03
/-- erff.rs 82 -/
def sb5 : Flt f32 := 2.5530502930e+03
/-- erff.rs 83 -/
def sb6 : Flt f32 := 4.7452853394e+02
/-- erff.rs 84 -/
def sb7 : Flt f32 := -2.2440952301e+01

/-- erff.rs 86-95 -/
def erfc1 (x : Flt f32) : Flt f32 :=
  let s := Generic.fabs x - 1.0
  let p := pa0 + s * (pa1 + s * (pa2 + s * (pa3 + s * (pa4 + s * (pa5 + s * pa6)))))
  let q := 1.0 + s * (qa1 + s * (qa2 + s * (qa3 + s * (qa4 + s * (qa5 + s * qa6)))))
  1.0 - erx - p / q

/-- erff.rs 97-126: the arguments of the two exponentials for `x = |x| >= 1.25` -/
def erfcArgs (ix : BitVec 32) (x : Flt f32) : Flt f32 × Flt f32 :=
  let s := 1.0 / (x * x)
  let r := if ix < 0x4036db6d#32 then
      ra0 + s * (ra1 + s * (ra2 + s * (ra3 + s * (ra4 + s * (ra5 + s * (ra6 + s * ra7))))))
    else rb0 + s * (rb1 + s * (rb2 + s * (rb3 + s * (rb4 + s * (rb5 + s * rb6)))))
  let bigS := if ix < 0x4036db6d#32 then
      1.0 + s * (sa1 + s * (sa2 + s * (sa3 + s * (sa4 + s * (sa5 + s * (sa6 + s * (sa7 + s * sa8)))))))
    else 1.0 + s * (sb1 + s * (sb2 + s * (sb3 + s * (sb4 + s * (sb5 + s * (sb6 + s * sb7))))))
  let z := bits32 (x.u32 &&& 0xffffe000#32)
  (-z * z - 0.5625, (z - x) * (z + x) + r / bigS)

/-- erff.rs 97-126 -/
def erfc2 (ix : BitVec 32) (x : Flt f32) : Option (Flt f32) :=
  if ix < 0x3fa00000#32 then some (erfc1 x)
  else
    let x := Generic.fabs x
    let a := erfcArgs ix x
    (expf a.1).bind fun e1 => (expf a.2).map fun e2 => e1 * e2 / x

/-- erff.rs 156-160, 200-204: `y` for `|x| < 0.84375` -/
def ratio (x : Flt f32) : Flt f32 :=
  let z := x * x
  let r := pp0 + z * (pp1 + z * (pp2 + z * (pp3 + z * pp4)))
  let s := 1.0 + z * (qq1 + z * (qq2 + z * (qq3 + z * (qq4 + z * qq5))))
  r / s

end Erff

/-- erff.rs 134-171 -/
def erff (x : Flt f32) : Option (Flt f32) :=
  open Erff in
  let sign := x.u32 >>> 31
  let ix := x.u32 &&& 0x7fffffff#32
  if ix ≥ 0x7f800000#32 then some (1.0 - 2.0 * ofInt f32 sign.toNat + 1.0 / x)
  else if ix < 0x3f580000#32 then
    if ix < 0x31800000#32 then some (0.125 * (8.0 * x + efx8 * x))
    else some (x + x * ratio x)
  else
    (if ix < 0x40c00000#32 then (erfc2 ix x).map fun e => 1.0 - e else some (1.0 - bits32 0x03800000#32)).map fun y =>
      if sign ≠ 0#32 then -y else y

/-- erff.rs 179-222 -/
def erfcf (x : Flt f32) : Option (Flt f32) :=
  open Erff in
  let sign := x.u32 >>> 31
  let ix := x.u32 &&& 0x7fffffff#32
  if ix ≥ 0x7f800000#32 then some (2.0 * ofInt f32 sign.toNat + 1.0 / x)
  else if ix < 0x3f580000#32 then
    if ix < 0x23800000#32 then some (1.0 - x)
    else if sign ≠ 0#32 ∨ ix < 0x3e800000#32 then some (1.0 - (x + x * ratio x))
    else some (0.5 - (x - 0.5 + x * ratio x))
  else if ix < 0x41e00000#32 then
    if sign ≠ 0#32 then (erfc2 ix x).map fun e => 2.0 - e else erfc2 ix x
  else if sign ≠ 0#32 then some (2.0 - bits32 0x03800000#32) else some (bits32 0x03800000#32 * bits32 0x03800000#32)

end Verif
