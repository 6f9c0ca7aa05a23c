import Verif.Model.Env
import Verif.Model.Decomp

/-!
# Model of fmod (all formats) and remquo / remainder (f64 and f32)

`none` is a panic: an out-of-range shift amount, an overflowing checked `+`/`-`, or a loop that
runs out of fuel. The theorems show that `none` is never returned.
-/

namespace Verif
namespace Flt

/-- Rust `leading_zeros` -/
def leadingZeros {w : Nat} (v : BitVec w) : Nat := if v.toNat = 0 then w else w - 1 - v.toNat.log2

/-- Rust `v << n` with `n : i32`; panics unless `0 ≤ n < BITS` -/
def shlChecked {w : Nat} (v : BitVec w) (n : Int) : Option (BitVec w) :=
  if 0 ≤ n ∧ n < w then some (v <<< n.toNat) else none

/-- Rust `v >> n` with `n : i32`; panics unless `0 ≤ n < BITS` -/
def shrChecked {w : Nat} (v : BitVec w) (n : Int) : Option (BitVec w) :=
  if 0 ≤ n ∧ n < w then some (v >>> n.toNat) else none

/-- Rust `a - b` on unsigned integers; panics on underflow -/
def subChecked {w : Nat} (a b : BitVec w) : Option (BitVec w) :=
  if b ≤ a then some (a - b) else none

end Flt

namespace Generic
open Flt
variable {F : Fmt}

/-- generic/fmod.rs 29-36 and 38-45: normalise one argument.
`F::Int` is unsigned, so `F::Int::MAX` is all ones. -/
def fmodNorm (ix : BitVec F.bits) (ex : Int) : Option (BitVec F.bits × Int) :=
  if ex = 0 then
    let i := ix <<< (F.ew + 1)
    let ex := ex - leadingZeros i
    (shlChecked ix (-ex + 1)).map fun ix => (ix, ex)
  else
    let ix := ix &&& (BitVec.allOnes F.bits >>> F.ew)
    let ix := ix ||| (1#_ <<< F.sb)
    some (ix, ex)

/-- the loop of generic/fmod.rs 48-59, `n = ex - ey` iterations.
`none` is the early `return F::ZERO * x` of line 52. -/
def fmodLoop (iy : BitVec F.bits) : Nat → BitVec F.bits → Option (BitVec F.bits)
  | 0, ix => some ix
  | n + 1, ix =>
    let i := ix - iy
    if i >>> (F.bits - 1) = 0#_ then
      if i = 0#_ then none
      else fmodLoop iy n (i <<< 1)
    else fmodLoop iy n (ix <<< 1)

/-- generic/fmod.rs 7-87 -/
def fmod (x y : Flt F) : Option (Flt F) :=
  let ix := x.toBits
  let iy := y.toBits
  let ex : Int := Flt.ex x
  let ey : Int := Flt.ex y
  let sx := ix &&& signMask F
  if iy <<< 1 = 0#_ ∨ y.isNaN ∨ ex = expSat F then some ((x * y) / (x * y))
  else if ix <<< 1 ≤ iy <<< 1 then
    if ix <<< 1 = iy <<< 1 then some (zero F false * x) else some x
  else
    (fmodNorm ix ex).bind fun (ix, ex) =>
    (fmodNorm iy ey).bind fun (iy, ey) =>
    match fmodLoop iy (ex - ey).toNat ix with
    | none => some (zero F false * x)
    | some ix =>
      -- `ex` after the loop: `ey` if the loop ran, unchanged otherwise
      let ex := min ex ey
      let i := ix - iy
      if i >>> (F.bits - 1) = 0#_ ∧ i = 0#_ then some (zero F false * x)
      else
        let ix := if i >>> (F.bits - 1) = 0#_ then i else ix
        let shift := leadingZeros ix - F.ew
        let ix := ix <<< shift
        let ex := ex - shift
        (if ex > 0 then
          (subChecked ix (1#_ <<< F.sb)).map fun ix => ix ||| (BitVec.ofInt F.bits ex <<< F.sb)
        else shrChecked ix (-ex + 1)).map fun ix => ⟨ix ||| sx⟩

end Generic

open Flt Generic
variable {F : Fmt}

/-- remquo.rs 22-33 and 34-45 (remquof.rs 22-31, 32-41): normalise one argument; the literals
12, 63, 52 (9, 31, 23) are `EXP_BITS+1`, `BITS-1`, `SIG_BITS` -/
def remquoNorm (u : BitVec F.bits) (e : Int) : Option (BitVec F.bits × Int) :=
  if e = 0 then
    (normLoop F.bits (u <<< (F.ew + 1)) e).bind fun e =>
    (shlChecked u (-e + 1)).map fun u => (u, e)
  else
    let u := u &&& (BitVec.allOnes F.bits >>> (F.ew + 1))
    let u := u ||| (1#_ <<< F.sb)
    some (u, e)

/-- the loop of remquo.rs 52-61 (remquof.rs 50-59), `n = ex - ey` iterations; `q += 1` is checked -/
def remquoLoop (uy : BitVec F.bits) : Nat → BitVec F.bits → BitVec 32 → Option (BitVec F.bits × BitVec 32)
  | 0, u, q => some (u, q)
  | n + 1, u, q =>
    let i := u - uy
    if i >>> (F.bits - 1) = 0#_ then
      (checkedInc q).bind fun q => remquoLoop uy n (i <<< 1) (q <<< 1)
    else remquoLoop uy n (u <<< 1) (q <<< 1)

/-- the loop of remquo.rs 70-73 (remquof.rs 68-71) -/
def remquoShift : Nat → BitVec F.bits → Int → Option (BitVec F.bits × Int)
  | 0, _, _ => none
  | fuel + 1, u, e => if u >>> F.sb = 0#_ then remquoShift fuel (u <<< 1) (e - 1) else some (u, e)

/-- remquo.rs 49-75 (remquof.rs 47-73), for `ex + 1 ≠ ey` and `ex ≥ ey` -/
def remquoDiv (sentinel : Int) (u uy : BitVec F.bits) (ex ey : Int) :
    Option (BitVec F.bits × BitVec 32 × Int) :=
  (remquoLoop uy (ex - ey).toNat u 0#32).bind fun (u, q) =>
  let ex := min ex ey
  let i := u - uy
  (if i >>> (F.bits - 1) = 0#_ then (checkedInc q).map fun q => (i, q) else some (u, q)).bind fun (u, q) =>
  if u = 0#_ then some (u, q, sentinel)
  else (remquoShift F.bits u ex).map fun (u, ex) => (u, q, ex)

/-- remquo.rs 77-98 (remquof.rs 75-93): scale, and choose between `|x|` and `|x|-|y|`.
`wrap` says whether the last increment wraps (remquo) or is checked (remquof). -/
def remquoEnd (wrap : Bool) (y : Flt F) (sx sy : Bool) (u : BitVec F.bits) (q : BitVec 32) (ex ey : Int) :
    Option (Flt F × Int) :=
  (if ex > 0 then
    (subChecked u (1#_ <<< F.sb)).map fun u => u ||| (BitVec.ofInt F.bits ex <<< F.sb)
  else shrChecked u (-ex + 1)).bind fun u =>
  let x : Flt F := ⟨u⟩
  let y := if sy then -y else y
  (if ex = ey ∨ (ex + 1 = ey ∧ ((ofInt F 2 * x >ᶠ y) ∨ ((ofInt F 2 * x =ᶠ y) ∧ q % 2#32 ≠ 0#32))) then
    (if wrap then some (q + 1#32) else checkedInc q).map fun q => (x - y, q)
  else some (x, q)).map fun (x, q) =>
  let q := q &&& 0x7fffffff#32
  let quo : Int := if sx ^^ sy then -(q.toNat : Int) else q.toNat
  (if sx then -x else x, quo)

/-- remquo.rs 2-99 and remquof.rs 2-94, the same text up to the literals of the format, the
sentinel exponent of a zero remainder (-60, -30) and the last increment of `q` -/
def remquoG (sentinel : Int) (wrap : Bool) (x y : Flt F) : Option (Flt F × Int) :=
  let ux := x.toBits
  let uy := y.toBits
  let ex : Int := ((ux >>> F.sb) &&& BitVec.ofNat F.bits (2 ^ F.ew - 1)).toNat
  let ey : Int := ((uy >>> F.sb) &&& BitVec.ofNat F.bits (2 ^ F.ew - 1)).toNat
  let sx := ux >>> (F.bits - 1) != 0#_
  let sy := uy >>> (F.bits - 1) != 0#_
  if uy <<< 1 = 0#_ ∨ y.isNaN ∨ ex = (2 ^ F.ew - 1 : Nat) then some ((x * y) / (x * y), 0)
  else if ux <<< 1 = 0#_ then some (x, 0)
  else
    (remquoNorm ux ex).bind fun (u, ex) =>
    (remquoNorm uy ey).bind fun (uy, ey) =>
    if ex + 1 ≠ ey then
      if ex < ey then some (x, 0)
      else (remquoDiv sentinel u uy ex ey).bind fun (u, q, ex) => remquoEnd wrap y sx sy u q ex ey
    else remquoEnd wrap y sx sy u 0#32 ex ey

/-- remquo.rs 2-99 -/
def remquo (x y : Flt f64) : Option (Flt f64 × Int) := remquoG (-60) true x y
/-- remquof.rs 2-94 -/
def remquof (x y : Flt f32) : Option (Flt f32 × Int) := remquoG (-30) false x y
/-- remainder.rs 2-5 -/
def remainder (x y : Flt f64) : Option (Flt f64) := (remquo x y).map fun (r, _) => r
/-- remainderf.rs 2-5 -/
def remainderf (x y : Flt f32) : Option (Flt f32) := (remquof x y).map fun (r, _) => r

end Verif
