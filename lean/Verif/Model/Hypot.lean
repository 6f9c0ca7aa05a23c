import Verif.Model.Lit
import Verif.Model.Sqrt

/-! # Model of hypot and hypotf -/

namespace Verif
open Flt

/-- `SPLIT` (hypot.rs 5) -/
def hypotSplit : Flt f64 := 134217728.0 + 1.0

/-- hypot.rs 7-18 -/
def sq (x : Flt f64) : Flt f64 × Flt f64 :=
  let xc := x * hypotSplit
  let xh := x - xc + xc
  let xl := x - xh
  let hi := x * x
  let lo := xh * xh - hi + 2.0 * xh * xl + xl * xl
  (hi, lo)

/-- the scaling choice of hypot.rs 61-70: the factor applied at the end and the scaled arguments -/
def hypotScale (x y : Flt f64) (ex ey : Int) : Flt f64 × Flt f64 × Flt f64 :=
  let x1p700 := bits64 0x6bb0000000000000
  let x1p_700 := bits64 0x1430000000000000
  if ex > 0x3ff + 510 then (x1p700, x * x1p_700, y * x1p_700)
  else if ey < 0x3ff - 450 then (x1p_700, x * x1p700, y * x1p700)
  else (1.0, x, y)

/-- hypot.rs 42-73, the part after the arguments have been ordered -/
def hypotOrd (uxi uyi : BitVec 64) : Option (Flt f64) :=
  let ex : Int := (uxi >>> 52).toNat
  let ey : Int := (uyi >>> 52).toNat
  let x := bits64 uxi
  let y := bits64 uyi
  if ey = 0x7ff then some y
  else if ex = 0x7ff ∨ uyi = 0 then some x
  else if ex - ey > 64 then some (x + y)
  else
    let (z, x, y) := hypotScale x y ex ey
    let (hx, lx) := sq x
    let (hy, ly) := sq y
    (sqrt (ly + lx + hy + hx)).map (z * ·)

/-- hypot.rs 21-74 (`-1i64 as u64 >> 1` is `0x7fffffffffffffff`) -/
def hypot (x y : Flt f64) : Option (Flt f64) :=
  let uxi := x.u64 &&& 0x7fffffffffffffff
  let uyi := y.u64 &&& 0x7fffffffffffffff
  if uxi < uyi then hypotOrd uyi uxi else hypotOrd uxi uyi

/-- the scaling choice of hypotf.rs 32-41 -/
def hypotfScale (x y : Flt f32) (uxi uyi : BitVec 32) : Flt f32 × Flt f32 × Flt f32 :=
  let x1p90 := bits32 0x6c800000
  let x1p_90 := bits32 0x12800000
  if uxi ≥ (0x7f + 60 : BitVec 32) <<< 23 then (x1p90, x * x1p_90, y * x1p_90)
  else if uyi < (0x7f - 60 : BitVec 32) <<< 23 then (x1p_90, x * x1p90, y * x1p90)
  else (1.0, x, y)

/-- hypotf.rs 23-42, the part after the arguments have been ordered -/
def hypotfOrd (uxi uyi : BitVec 32) : Option (Flt f32) :=
  let x := bits32 uxi
  let y := bits32 uyi
  if uyi = (0xff : BitVec 32) <<< 23 then some y
  else if uxi ≥ (0xff : BitVec 32) <<< 23 ∨ uyi = 0 then some (x + y)
  else do
    let d ← usub uxi uyi
    if d ≥ (25 : BitVec 32) <<< 23 then some (x + y)
    else
      let (z, x, y) := hypotfScale x y uxi uyi
      (sqrtf ((x.cast f64 * x.cast f64 + y.cast f64 * y.cast f64).cast f32)).map (z * ·)

/-- hypotf.rs 6-43 -/
def hypotf (x y : Flt f32) : Option (Flt f32) :=
  let uxi := x.u32 &&& 0x7fffffff
  let uyi := y.u32 &&& 0x7fffffff
  if uxi < uyi then hypotfOrd uyi uxi else hypotfOrd uxi uyi

end Verif
