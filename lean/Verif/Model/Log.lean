import Verif.Model.Lit

/-!
# Model of log, log2, log10, log1p and their f32 versions

The four f64 files repeat the same coefficients and the same computation of `log(1+f)`'s rational part, and so do the
four f32 files; the shared part is written once and cites every copy.  `hx += ...` and `k += ...` on integers are
checked; `none` is a panic.
-/

namespace Verif
open Flt

namespace Log
/-- log.rs 63, log1p.rs 58 -/
def ln2hi : Flt f64 := 6.93147180369123816490e-01
/-- log.rs 64, log1p.rs 59 -/
def ln2lo : Flt f64 := 1.90821492927058770002e-10
/-- log.rs 65, log2.rs 24, log10.rs 26, log1p.rs 60 -/
def lg1 : Flt f64 := 6.666666666666735130e-01
/-- log.rs 66, log2.rs 25, log10.rs 27, log1p.rs 61 -/
def lg2 : Flt f64 := 3.999999999940941908e-01
/-- log.rs 67, log2.rs 26, log10.rs 28, log1p.rs 62 -/
def lg3 : Flt f64 := 2.857142874366239149e-01
/-- log.rs 68, log2.rs 27, log10.rs 29, log1p.rs 63 -/
def lg4 : Flt f64 := 2.222219843214978396e-01
/-- log.rs 69, log2.rs 28, log10.rs 30, log1p.rs 64 -/
def lg5 : Flt f64 := 1.818357216161805012e-01
/-- log.rs 70, log2.rs 29, log10.rs 31, log1p.rs 65 -/
def lg6 : Flt f64 := 1.531383769920937332e-01
/-- log.rs 71, log2.rs 30, log10.rs 32, log1p.rs 66 -/
def lg7 : Flt f64 := 1.479819860511658591e-01

/-- log.rs 109, log2.rs 82, log10.rs 85, log1p.rs 131 -/
def hfsq (f : Flt f64) : Flt f64 := 0.5 * f * f
/-- log.rs 110, log2.rs 83, log10.rs 86, log1p.rs 132 -/
def sOf (f : Flt f64) : Flt f64 := f / (2.0 + f)
/-- log.rs 111-115, log2.rs 84-88, log10.rs 87-91, log1p.rs 133-137 -/
def rOf (s : Flt f64) : Flt f64 :=
  let z := s * s
  let w := z * z
  let t1 := w * (lg2 + w * (lg4 + w * lg6))
  let t2 := z * (lg1 + w * (lg3 + w * (lg5 + w * lg7)))
  t2 + t1

/-- log.rs 101-108, log2.rs 74-81, log10.rs 77-84: `x = 2^k * (1+f)` with `1+f` between √2/2 and √2; returns `(f, k)`.
`k0` is the exponent correction for subnormal arguments. -/
def reduce (x : Flt f64) (k0 : Int) : Option (Flt f64 × Int) :=
  let ui := x.u64
  let hx := getHighWord x
  (uadd hx (0x3ff00000#32 - 0x3fe6a09e#32)).bind fun hx =>
  (i32 (k0 + ((hx >>> 20).toNat - 0x3ff))).bind fun k =>
  (uadd (hx &&& 0x000fffff#32) 0x3fe6a09e#32).bind fun hx =>
  let ui := (hx.setWidth 64 <<< 32) ||| (ui &&& 0xffffffff#64)
  some (bits64 ui - 1.0, k)

/-- log.rs 78-99, log2.rs 54-72, log10.rs 57-75: special cases, common to the three functions; `body f k` is the rest -/
def filter (x : Flt f64) (body : Flt f64 → Int → Flt f64) : Option (Flt f64) :=
  let x1p54 := bits64 0x4350000000000000
  let ui := x.u64
  let hx := getHighWord x
  if hx < 0x00100000#32 ∨ hx >>> 31 ≠ 0 then
    if ui <<< 1 = 0 then some (-1.0 / (x * x))
    else if hx >>> 31 ≠ 0 then some ((x - x) / 0.0)
    else (reduce (x * x1p54) (-54)).map fun (f, k) => body f k
  else if hx ≥ 0x7ff00000#32 then some x
  else if hx = 0x3ff00000#32 ∧ ui <<< 32 = 0 then some 0.0
  else (reduce x 0).map fun (f, k) => body f k

/-- log.rs 116-117 -/
def body (f : Flt f64) (k : Int) : Flt f64 :=
  let dk := ofInt f64 k
  sOf f * (hfsq f + rOf (sOf f)) + dk * ln2lo - hfsq f + f + dk * ln2hi

/-- log2.rs 22 -/
def ivln2hi : Flt f64 := 1.44269504072144627571e+00
/-- log2.rs 23 -/
def ivln2lo : Flt f64 := 1.67517131648865118353e-10
/-- log10.rs 22 -/
def ivln10hi : Flt f64 := 4.34294481878168880939e-01
/-- log10.rs 23 -/
def ivln10lo : Flt f64 := 2.50829467116452752298e-11
/-- log10.rs 24 -/
def log10_2hi : Flt f64 := 3.01029995663611771306e-01
/-- log10.rs 25 -/
def log10_2lo : Flt f64 := 3.69423907715893078616e-13

/-- log2.rs 91-94, log10.rs 95-98: `f - hfsq` with the low word cleared -/
def hiOf (f : Flt f64) : Flt f64 := bits64 ((f - hfsq f).u64 &&& 0xffffffff00000000)
/-- log2.rs 95, log10.rs 99 -/
def loOf (f : Flt f64) : Flt f64 := f - hiOf f - hfsq f + sOf f * (hfsq f + rOf (sOf f))

/-- log2.rs 97-106 -/
def body2 (f : Flt f64) (k : Int) : Flt f64 :=
  let hi := hiOf f
  let lo := loOf f
  let valHi := hi * ivln2hi
  let valLo := (lo + hi) * ivln2lo + lo * ivln2hi
  let y := ofInt f64 k
  let w := y + valHi
  let valLo := valLo + ((y - w) + valHi)
  valLo + w

/-- log10.rs 102-117 -/
def body10 (f : Flt f64) (k : Int) : Flt f64 :=
  let hi := hiOf f
  let lo := loOf f
  let valHi := hi * ivln10hi
  let dk := ofInt f64 k
  let y := dk * log10_2hi
  let valLo := dk * log10_2lo + (lo + hi) * ivln10lo + lo * ivln10hi
  let w := y + valHi
  let valLo := valLo + ((y - w) + valHi)
  valLo + w

/-- log1p.rs 138-139 -/
def body1p (f c : Flt f64) (k : Int) : Flt f64 :=
  let dk := ofInt f64 k
  sOf f * (hfsq f + rOf (sOf f)) + (dk * ln2lo + c) - hfsq f + f + dk * ln2hi

/-- log1p.rs 114-130 -/
def reduce1p (x : Flt f64) : Option (Flt f64 × Flt f64 × Int) :=
  let ui := (1.0 + x).u64
  let hu := getHighWord (1.0 + x)
  (uadd hu (0x3ff00000#32 - 0x3fe6a09e#32)).bind fun hu =>
  let k : Int := (hu >>> 20).toNat - 0x3ff
  let c :=
    if k < 54 then (if k ≥ 2 then 1.0 - (bits64 ui - x) else x - (bits64 ui - 1.0)) / bits64 ui
    else 0.0
  (uadd (hu &&& 0x000fffff#32) 0x3fe6a09e#32).bind fun hu =>
  let ui := (hu.setWidth 64 <<< 32) ||| (ui &&& 0xffffffff#64)
  some (bits64 ui - 1.0, c, k)
end Log

/-- log.rs 75-118 -/
def log (x : Flt f64) : Option (Flt f64) := Log.filter x Log.body
/-- log2.rs 34-107 -/
def log2 (x : Flt f64) : Option (Flt f64) := Log.filter x Log.body2
/-- log10.rs 36-118 -/
def log10 (x : Flt f64) : Option (Flt f64) := Log.filter x Log.body10

/-- log1p.rs 70-140 -/
def log1p (x : Flt f64) : Option (Flt f64) :=
  let hx := getHighWord x
  if hx < 0x3fda827a#32 ∨ hx >>> 31 > 0 then
    if hx ≥ 0xbff00000#32 then
      if (x =ᶠ -1.0) = true then some (x / 0.0) else some ((x - x) / 0.0)
    else if hx <<< 1 < 0x3ca00000#32 <<< 1 then some x
    else if hx ≤ 0xbfd2bec4#32 then some (Log.body1p x 0.0 0)
    else (Log.reduce1p x).map fun (f, c, k) => Log.body1p f c k
  else if hx ≥ 0x7ff00000#32 then some x
  else (Log.reduce1p x).map fun (f, c, k) => Log.body1p f c k

namespace Logf
/-- logf.rs 16, log1pf.rs 15 -/
def ln2hi : Flt f32 := 6.9313812256e-01
/-- logf.rs 17, log1pf.rs 16 -/
def ln2lo : Flt f32 := 9.0580006145e-06
/-- logf.rs 19, log2f.rs 21, log10f.rs 23, log1pf.rs 18 -/
def lg1 : Flt f32 := 0.66666662693
/-- logf.rs 20, log2f.rs 22, log10f.rs 24, log1pf.rs 19 -/
def lg2 : Flt f32 := 0.40000972152
/-- logf.rs 21, log2f.rs 23, log10f.rs 25, log1pf.rs 20 -/
def lg3 : Flt f32 := 0.28498786688
/-- logf.rs 22, log2f.rs 24, log10f.rs 26, log1pf.rs 21 -/
def lg4 : Flt f32 := 0.24279078841

/-- logf.rs 63, log2f.rs 80, log10f.rs 83, log1pf.rs 92 -/
def hfsq (f : Flt f32) : Flt f32 := 0.5 * f * f
/-- logf.rs 57, log2f.rs 74, log10f.rs 77, log1pf.rs 86 -/
def sOf (f : Flt f32) : Flt f32 := f / (2.0 + f)
/-- logf.rs 58-62, log2f.rs 75-79, log10f.rs 78-82, log1pf.rs 87-91 -/
def rOf (s : Flt f32) : Flt f32 :=
  let z := s * s
  let w := z * z
  let t1 := w * (lg2 + w * lg4)
  let t2 := z * (lg1 + w * lg3)
  t2 + t1

/-- logf.rs 50-56, log2f.rs 66-73, log10f.rs 69-76 -/
def reduce (x : Flt f32) (k0 : Int) : Option (Flt f32 × Int) :=
  let ix := x.u32
  (uadd ix (0x3f800000#32 - 0x3f3504f3#32)).bind fun ix =>
  (i32 (k0 + ((ix >>> 23).toNat - 0x7f))).bind fun k =>
  (uadd (ix &&& 0x007fffff#32) 0x3f3504f3#32).bind fun ix =>
  some (bits32 ix - 1.0, k)

/-- logf.rs 29-48, log2f.rs 45-64, log10f.rs 48-67 -/
def filter (x : Flt f32) (body : Flt f32 → Int → Flt f32) : Option (Flt f32) :=
  let x1p25 := bits32 0x4c000000
  let ix := x.u32
  if ix < 0x00800000#32 ∨ ix >>> 31 ≠ 0 then
    if ix <<< 1 = 0 then some (-1.0 / (x * x))
    else if ix >>> 31 ≠ 0 then some ((x - x) / 0.0)
    else (reduce (x * x1p25) (-25)).map fun (f, k) => body f k
  else if ix ≥ 0x7f800000#32 then some x
  else if ix = 0x3f800000#32 then some 0.0
  else (reduce x 0).map fun (f, k) => body f k

/-- logf.rs 64-65 -/
def body (f : Flt f32) (k : Int) : Flt f32 :=
  let dk := ofInt f32 k
  sOf f * (hfsq f + rOf (sOf f)) + dk * ln2lo - hfsq f + f + dk * ln2hi

/-- log2f.rs 18 -/
def ivln2hi : Flt f32 := 1.4428710938e+00
/-- log2f.rs 19 -/
def ivln2lo : Flt f32 := -1.7605285393e-04
/-- log10f.rs 18 -/
def ivln10hi : Flt f32 := 4.3432617188e-01
/-- log10f.rs 19 -/
def ivln10lo : Flt f32 := -3.1689971365e-05
/-- log10f.rs 20 -/
def log10_2hi : Flt f32 := 3.0102920532e-01
/-- log10f.rs 21 -/
def log10_2lo : Flt f32 := 7.9034151668e-07

/-- log2f.rs 82-85, log10f.rs 85-88 -/
def hiOf (f : Flt f32) : Flt f32 := bits32 ((f - hfsq f).u32 &&& 0xfffff000)
/-- log2f.rs 86, log10f.rs 89 -/
def loOf (f : Flt f32) : Flt f32 := f - hiOf f - hfsq f + sOf f * (hfsq f + rOf (sOf f))

/-- log2f.rs 87 -/
def body2 (f : Flt f32) (k : Int) : Flt f32 :=
  (loOf f + hiOf f) * ivln2lo + loOf f * ivln2hi + hiOf f * ivln2hi + ofInt f32 k

/-- log10f.rs 90-91 -/
def body10 (f : Flt f32) (k : Int) : Flt f32 :=
  let dk := ofInt f32 k
  dk * log10_2lo + (loOf f + hiOf f) * ivln10lo + loOf f * ivln10hi + hiOf f * ivln10hi + dk * log10_2hi

/-- log1pf.rs 93-94 -/
def body1p (f c : Flt f32) (k : Int) : Flt f32 :=
  let dk := ofInt f32 k
  sOf f * (hfsq f + rOf (sOf f)) + (dk * ln2lo + c) - hfsq f + f + dk * ln2hi

/-- log1pf.rs 69-85 -/
def reduce1p (x : Flt f32) : Option (Flt f32 × Flt f32 × Int) :=
  let ui := (1.0 + x).u32
  (uadd ui (0x3f800000#32 - 0x3f3504f3#32)).bind fun iu =>
  let k : Int := (iu >>> 23).toNat - 0x7f
  let c :=
    if k < 25 then (if k ≥ 2 then 1.0 - (bits32 ui - x) else x - (bits32 ui - 1.0)) / bits32 ui
    else 0.0
  (uadd (iu &&& 0x007fffff#32) 0x3f3504f3#32).bind fun iu =>
  some (bits32 iu - 1.0, c, k)
end Logf

/-- logf.rs 26-66 -/
def logf (x : Flt f32) : Option (Flt f32) := Logf.filter x Logf.body
/-- log2f.rs 28-88 -/
def log2f (x : Flt f32) : Option (Flt f32) := Logf.filter x Logf.body2
/-- log10f.rs 30-92 -/
def log10f (x : Flt f32) : Option (Flt f32) := Logf.filter x Logf.body10

/-- log1pf.rs 25-95 -/
def log1pf (x : Flt f32) : Option (Flt f32) :=
  let ix := x.u32
  if ix < 0x3ed413d0#32 ∨ ix >>> 31 > 0 then
    if ix ≥ 0xbf800000#32 then
      if (x =ᶠ -1.0) = true then some (x / 0.0) else some ((x - x) / 0.0)
    else if ix <<< 1 < 0x33800000#32 <<< 1 then some x
    else if ix ≤ 0xbe95f619#32 then some (Logf.body1p x 0.0 0)
    else (Logf.reduce1p x).map fun (f, c, k) => Logf.body1p f c k
  else if ix ≥ 0x7f800000#32 then some x
  else (Logf.reduce1p x).map fun (f, c, k) => Logf.body1p f c k

end Verif
