import Verif.Model.Exp
import Verif.Model.Log
import Verif.Model.Sqrt
import Verif.Model.Generic

/-!
# Model of sinh, cosh, tanh, asinh, acosh, atanh and their f32 versions

`force_eval!` only keeps the compiler from removing a computation whose floating-point exception flags would be lost; it
has no effect on the result and is left out.  `none` is what a failing callee would give.  Constant expressions such as
`0x3ff00000 - (26 << 20)` are kept as the compiler would evaluate them.
-/

namespace Verif
open Flt

/-! ## sinh, cosh, tanh -/

/-- sinh.rs 10-51 -/
def sinh (x : Flt f64) : Option (Flt f64) :=
  let ui := x.u64
  let h : Flt f64 := 0.5
  let h := if ui >>> 63 ≠ 0 then -h else h
  let ui := ui &&& 0x7fffffffffffffff
  let absx := bits64 ui
  let w : BitVec 32 := (ui >>> 32).setWidth 32
  if w < 0x40862e42#32 then
    (expm1 absx).map fun t =>
      if w < 0x3ff00000#32 then
        if w < 0x3ff00000#32 - (26#32 <<< 20) then x
        else h * (2.0 * t - t * t / (t + 1.0))
      else h * (t + t / (t + 1.0))
  else (expo2 absx).map fun e => 2.0 * h * e

/-- sinhf.rs 5-30 -/
def sinhf (x : Flt f32) : Option (Flt f32) :=
  let h : Flt f32 := 0.5
  let ix := x.u32
  let h := if ix >>> 31 ≠ 0 then -h else h
  let w := ix &&& 0x7fffffff
  let absx := bits32 w
  if w < 0x42b17217#32 then
    (expm1f absx).map fun t =>
      if w < 0x3f800000#32 then
        if w < 0x3f800000#32 - (12#32 <<< 23) then x
        else h * (2.0 * t - t * t / (t + 1.0))
      else h * (t + t / (t + 1.0))
  else (kExpo2f absx).map fun e => 2.0 * h * e

/-- cosh.rs 9-36 -/
def cosh (x : Flt f64) : Option (Flt f64) :=
  let ix := x.u64 &&& 0x7fffffffffffffff
  let x := bits64 ix
  let w := ix >>> 32
  if w < 0x3fe62e42#64 then
    if w < 0x3ff00000#64 - (26#64 <<< 20) then some 1.0
    else (expm1 x).map fun t => 1.0 + t * t / (2.0 * (1.0 + t))
  else if w < 0x40862e42#64 then (exp x).map fun t => 0.5 * (t + 1.0 / t)
  else kExpo2 x

/-- coshf.rs 9-36 -/
def coshf (x : Flt f32) : Option (Flt f32) :=
  let w := x.u32 &&& 0x7fffffff
  let x := bits32 w
  if w < 0x3f317217#32 then
    if w < 0x3f800000#32 - (12#32 <<< 23) then some 1.0
    else (expm1f x).map fun t => 1.0 + t * t / (2.0 * (1.0 + t))
  else if w < 0x42b17217#32 then (expf x).map fun t => 0.5 * (t + 1.0 / t)
  else kExpo2f x

/-- tanh.rs 12-53 -/
def tanh (x : Flt f64) : Option (Flt f64) :=
  let ui := x.u64
  let sign := ui >>> 63
  let ui := ui &&& 0x7fffffffffffffff
  let x := bits64 ui
  let w : BitVec 32 := (ui >>> 32).setWidth 32
  let t :=
    if w > 0x3fe193ea#32 then
      if w > 0x40340000#32 then some (1.0 - 0.0 / x)
      else (expm1 (2.0 * x)).map fun t => 1.0 - 2.0 / (t + 2.0)
    else if w > 0x3fd058ae#32 then (expm1 (2.0 * x)).map fun t => t / (t + 2.0)
    else if w ≥ 0x00100000#32 then (expm1 (-2.0 * x)).map fun t => -t / (t + 2.0)
    else some x
  t.map fun t => if sign ≠ 0 then -t else t

/-- tanhf.rs 7-38 -/
def tanhf (x : Flt f32) : Option (Flt f32) :=
  let ix := x.u32
  let sign := ix >>> 31
  let w := ix &&& 0x7fffffff
  let x := bits32 w
  let tt :=
    if w > 0x3f0c9f54#32 then
      if w > 0x41200000#32 then some (1.0 + 0.0 / x)
      else (expm1f (2.0 * x)).map fun t => 1.0 - 2.0 / (t + 2.0)
    else if w > 0x3e82c578#32 then (expm1f (2.0 * x)).map fun t => t / (t + 2.0)
    else if w ≥ 0x00800000#32 then (expm1f (-2.0 * x)).map fun t => -t / (t + 2.0)
    else some x
  tt.map fun t => if sign ≠ 0 then -t else t

/-! ## asinh, acosh, atanh -/

/-- asinh.rs 3, acosh.rs 3 -/
def Asinh.ln2 : Flt f64 := 0.693147180559945309417232121458176568
/-- asinhf.rs 3, acoshf.rs 3 -/
def Asinhf.ln2 : Flt f32 := 0.693147180559945309417232121458176568

/-- asinh.rs 11-36 -/
def asinh (x : Flt f64) : Option (Flt f64) :=
  let u := x.u64
  let e := (u >>> 52).toNat &&& 0x7ff
  let sign := u >>> 63
  let x := bits64 (u &&& 0x7fffffffffffffff)
  let r :=
    if e ≥ 0x3ff + 26 then (log x).map (· + Asinh.ln2)
    else if e ≥ 0x3ff + 1 then do
      let s ← sqrt (x * x + 1.0)
      log (2.0 * x + 1.0 / (s + x))
    else if e ≥ 0x3ff - 26 then do
      let s ← sqrt (x * x + 1.0)
      log1p (x + x * x / (s + 1.0))
    else some x
  r.map fun x => if sign ≠ 0 then -x else x

/-- asinhf.rs 11-35 -/
def asinhf (x : Flt f32) : Option (Flt f32) :=
  let u := x.u32
  let i := u &&& 0x7fffffff
  let sign := u >>> 31
  let x := bits32 i
  let r :=
    if i ≥ 0x3f800000#32 + (12#32 <<< 23) then (logf x).map (· + Asinhf.ln2)
    else if i ≥ 0x3f800000#32 + (1#32 <<< 23) then do
      let s ← sqrtf (x * x + 1.0)
      logf (2.0 * x + 1.0 / (s + x))
    else if i ≥ 0x3f800000#32 - (12#32 <<< 23) then do
      let s ← sqrtf (x * x + 1.0)
      log1pf (x + x * x / (s + 1.0))
    else some x
  r.map fun x => if sign ≠ 0 then -x else x

/-- acosh.rs 11-27 -/
def acosh (x : Flt f64) : Option (Flt f64) :=
  let u := x.u64
  let e := (u >>> 52).toNat &&& 0x7ff
  if e < 0x3ff + 1 then do
    let s ← sqrt ((x - 1.0) * (x - 1.0) + 2.0 * (x - 1.0))
    log1p (x - 1.0 + s)
  else if e < 0x3ff + 26 then do
    let s ← sqrt (x * x - 1.0)
    log (2.0 * x - 1.0 / (x + s))
  else (log x).map (· + Asinh.ln2)

/-- acoshf.rs 11-26 -/
def acoshf (x : Flt f32) : Option (Flt f32) :=
  let u := x.u32
  let a := u &&& 0x7fffffff
  if a < 0x3f800000#32 + (1#32 <<< 23) then do
    let s ← sqrtf ((x - 1.0) * (x - 1.0) + 2.0 * (x - 1.0))
    log1pf (x - 1.0 + s)
  else if a < 0x3f800000#32 + (12#32 <<< 23) then do
    let s ← sqrtf (x * x - 1.0)
    logf (2.0 * x - 1.0 / (x + s))
  else (logf x).map (· + Asinhf.ln2)

/-- atanh.rs 9-33 -/
def atanh (x : Flt f64) : Option (Flt f64) :=
  let u := x.u64
  let e := (u >>> 52).toNat &&& 0x7ff
  let sign := u >>> 63
  let y := bits64 (u &&& 0x7fffffffffffffff)
  let r :=
    if e < 0x3ff - 1 then
      if e < 0x3ff - 32 then some y
      else (log1p (2.0 * y + 2.0 * y * y / (1.0 - y))).map (0.5 * ·)
    else (log1p (2.0 * (y / (1.0 - y)))).map (0.5 * ·)
  r.map fun y => if sign ≠ 0 then -y else y

/-- atanhf.rs 9-33 -/
def atanhf (x : Flt f32) : Option (Flt f32) :=
  let u := x.u32
  let sign := u >>> 31
  let u := u &&& 0x7fffffff
  let x := bits32 u
  let r :=
    if u < 0x3f800000#32 - (1#32 <<< 23) then
      if u < 0x3f800000#32 - (32#32 <<< 23) then some x
      else (log1pf (2.0 * x + 2.0 * x * x / (1.0 - x))).map (0.5 * ·)
    else (log1pf (2.0 * (x / (1.0 - x)))).map (0.5 * ·)
  r.map fun x => if sign ≠ 0 then -x else x

end Verif
