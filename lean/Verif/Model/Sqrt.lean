import Verif.Model.Big
import Verif.Model.Env

/-!
# Model of sqrt (libm/src/math/generic/sqrt.rs), all formats

The type-level parameters of `SqrtHelper` (widths of `ISet1`, `ISet2` and the three round counts) are a value of
`SqrtCfg`.  `none` is a panic: an overflowing checked addition, a `cast` that loses bits (`debug_assert!` in
int_traits.rs 393-400), or a table index out of range.
-/

namespace Verif

/-- `SqrtHelper` (sqrt.rs 298-310) -/
structure SqrtCfg where
  /-- `ISet1::BITS` -/
  w1 : Nat
  /-- `ISet2::BITS` -/
  w2 : Nat
  /-- `SET1_ROUNDS` -/
  n1 : Nat
  /-- `SET2_ROUNDS` -/
  n2 : Nat
  /-- `FINAL_ROUNDS` -/
  n3 : Nat

/-- sqrt.rs 313-318 -/
def sqrtCfg16 : SqrtCfg := ⟨16, 16, 0, 0, 2⟩
/-- sqrt.rs 320-325 -/
def sqrtCfg32 : SqrtCfg := ⟨32, 32, 0, 0, 3⟩
/-- sqrt.rs 327-333 -/
def sqrtCfg64 : SqrtCfg := ⟨32, 32, 0, 2, 2⟩
/-- sqrt.rs 336-343 -/
def sqrtCfg128 : SqrtCfg := ⟨32, 64, 1, 2, 2⟩

/-- `RSQRT_TAB` (sqrt.rs 349-366) -/
def rsqrtTab : List (BitVec 16) := [
    0xb451, 0xb2f0, 0xb196, 0xb044, 0xaef9, 0xadb6, 0xac79, 0xab43,
    0xaa14, 0xa8eb, 0xa7c8, 0xa6aa, 0xa592, 0xa480, 0xa373, 0xa26b,
    0xa168, 0xa06a, 0x9f70, 0x9e7b, 0x9d8a, 0x9c9d, 0x9bb5, 0x9ad1,
    0x99f0, 0x9913, 0x983a, 0x9765, 0x9693, 0x95c4, 0x94f8, 0x9430,
    0x936b, 0x92a9, 0x91ea, 0x912e, 0x9075, 0x8fbe, 0x8f0a, 0x8e59,
    0x8daa, 0x8cfe, 0x8c54, 0x8bac, 0x8b07, 0x8a64, 0x89c4, 0x8925,
    0x8889, 0x87ee, 0x8756, 0x86c0, 0x862b, 0x8599, 0x8508, 0x8479,
    0x83ec, 0x8361, 0x82d8, 0x8250, 0x81c9, 0x8145, 0x80c2, 0x8040,
    0xff02, 0xfd0e, 0xfb25, 0xf947, 0xf773, 0xf5aa, 0xf3ea, 0xf234,
    0xf087, 0xeee3, 0xed47, 0xebb3, 0xea27, 0xe8a3, 0xe727, 0xe5b2,
    0xe443, 0xe2dc, 0xe17a, 0xe020, 0xdecb, 0xdd7d, 0xdc34, 0xdaf1,
    0xd9b3, 0xd87b, 0xd748, 0xd61a, 0xd4f1, 0xd3cd, 0xd2ad, 0xd192,
    0xd07b, 0xcf69, 0xce5b, 0xcd51, 0xcc4a, 0xcb48, 0xca4a, 0xc94f,
    0xc858, 0xc764, 0xc674, 0xc587, 0xc49d, 0xc3b7, 0xc2d4, 0xc1f4,
    0xc116, 0xc03c, 0xbf65, 0xbe90, 0xbdbe, 0xbcef, 0xbc23, 0xbb59,
    0xba91, 0xb9cc, 0xb90a, 0xb84a, 0xb78c, 0xb6d0, 0xb617, 0xb560]

/-- `CastInto::cast` between unsigned integers (int_traits.rs 393-400): the value must be preserved -/
def castU {w : Nat} (k : Nat) (v : BitVec w) : Option (BitVec k) :=
  if v.toNat < 2 ^ k then some (v.setWidth k) else none

/-- `wmulh` (sqrt.rs 237-239): `a.widen_mul(b).hi()`.  For `u128` the double-width type is `u256`; `wmulh_u128` shows
that it gives the same result. -/
def wmulh {w : Nat} (a b : BitVec w) : BitVec w := Prim.hi (Prim.widenMul a b)

/-- the loop of `goldschmidt` (sqrt.rs 260-283): `n` iterations are left, the next one has index `i` -/
def goldschmidtLoop {w : Nat} (count : Nat) (finalSet : Bool) :
    (n i : Nat) → (r s u : BitVec w) → BitVec w × BitVec w
  | 0, _, r, s, _ => (r, s)
  | n + 1, i, r, s, u =>
    let s := wmulh s u
    let s := if i > 0 ∧ (finalSet = false ∨ i + 1 < count) then s <<< 1 else s
    let d := wmulh s r
    let u := (3#w <<< (w - 2)) - d
    let r := wmulh r u <<< 1
    goldschmidtLoop count finalSet n (i + 1) r s u

/-- `goldschmidt` (sqrt.rs 252-286) -/
def goldschmidt {w : Nat} (r s : BitVec w) (count : Nat) (finalSet : Bool) : BitVec w × BitVec w :=
  goldschmidtLoop count finalSet count 0 r s r

namespace Generic
open Flt
variable {F : Fmt}

/-- `Exp<T>` (sqrt.rs 290-295) -/
inductive SqrtExp (F : Fmt) where
  | shifted (e : BitVec 32)
  | noShift (e : BitVec F.bits)

/-- sqrt.rs 127-155: reduce to `x = 4^e * m`.  `top` is the exponent if it was shifted. -/
def sqrtReduce (ix : BitVec F.bits) (top : Option (BitVec 32)) : Option (BitVec F.bits × SqrtExp F) :=
  match top with
  | some e =>
    let m := (ix ||| implicitBit F) <<< F.ew
    let m := if e &&& 1#32 ≠ 0#32 then m >>> 1 else m
    let e := (e + (BitVec.ofNat 32 (expSat F) >>> 1)) >>> 1
    some (m, .shifted e)
  | none =>
    let even := ix &&& (1#_ <<< F.sb) ≠ 0#_
    (chkAdd (ix >>> 1) ((expMask F ^^^ (signMask F >>> 1)) >>> 1)).map fun e =>
    let e := e &&& expMask F
    let m1 := (ix <<< F.ew) ||| signMask F
    let m0 := (ix <<< (F.ew - 1)) &&& ~~~(signMask F)
    (if even then m0 else m1, .noShift e)

/-- sqrt.rs 157-176: the table lookup and the three sets of iterations; returns the final `s` -/
def sqrtIterate (c : SqrtCfg) (ix m : BitVec F.bits) : Option (BitVec F.bits) :=
  (castU 32 (ix >>> (F.sb - 6))).bind fun i =>
  (rsqrtTab[(i &&& 0b1111111#32).toNat]?).bind fun t =>
  (castU c.w1 t).bind fun t =>
  let r1 := t <<< (c.w1 - 16)
  (castU c.w1 (m >>> (F.bits - c.w1))).bind fun s1 =>
  let (r1, _) := goldschmidt r1 s1 c.n1 false
  let r2 := r1.setWidth c.w2 <<< (c.w2 - c.w1)
  (castU c.w2 (m >>> (F.bits - c.w2))).bind fun s2 =>
  let (r2, _) := goldschmidt r2 s2 c.n2 false
  let r := r2.setWidth F.bits <<< (F.bits - c.w2)
  let (_, s) := goldschmidt r m c.n3 true
  some s

/-- sqrt.rs 178-233: choose between `m` and `m + 1`, assemble, and add the `tiny` value that raises inexact -/
def sqrtFinish (mu s : BitVec F.bits) (exp : SqrtExp F) : Option (Flt F) :=
  let m := s >>> (F.ew - 2)
  let shift := 2 * F.sb - (F.bits - 2)
  let d0 := (mu <<< shift) - m * m
  let d1 := m - d0
  (chkAdd m (d1 >>> (F.bits - 1))).bind fun m =>
  let m := m &&& sigMask F
  (match exp with
    | .shifted e => (castU F.bits e).map fun (e : BitVec F.bits) => m ||| (e <<< F.sb)
    | .noShift e => some (m ||| e)).map fun (m : BitVec F.bits) =>
  let y : Flt F := ⟨m⟩
  if F.bits > 16 then
    let d2 := d1 + m + 1#_
    let tiny := if d2 = 0#_ then 0#_ else implicitBit F
    let tiny := tiny ||| ((d1 ^^^ d2) &&& signMask F)
    let t : Flt F := ⟨tiny⟩
    y + t
  else y

/-- `sqrt_round` (sqrt.rs 62-234) -/
def sqrtRound (c : SqrtCfg) (x : Flt F) : Option (FpResult (Flt F)) :=
  let ix := x.toBits
  let noshift : Bool := F.bits ≤ 32
  (if noshift then
      let expLsb : BitVec F.bits := 1#_ <<< F.sb
      some (none, decide (ix - expLsb ≥ expMask F - expLsb))
    else (castU 32 (ix >>> F.sb)).map fun top =>
      (some top, decide (top - 1#32 ≥ BitVec.ofNat 32 (expSat F) - 1#32))).bind
    fun (top, special) =>
  let go (ix : BitVec F.bits) (top : Option (BitVec 32)) : Option (FpResult (Flt F)) :=
    (sqrtReduce ix top).bind fun (m, exp) =>
    (sqrtIterate c ix m).bind fun s =>
    (sqrtFinish m s exp).map FpResult.ok
  if special then
    if ix <<< 1 = 0#_ then some (FpResult.ok x)
    else if ix = expMask F then some (FpResult.ok x)
    else if ix > expMask F then some ⟨qnan F, Status.INVALID⟩
    else
      let scaled := x * fromParts F false (F.sb + expBias F) 0#_
      let ix := scaled.toBits
      match top with
      | some _ => go ix (some (BitVec.ofNat 32 (Flt.ex scaled) - BitVec.ofNat 32 F.sb))
      | none => (castU F.bits (BitVec.ofNat 32 F.sb <<< F.sb)).bind fun v => go (ix - v) none
  else go ix top

/-- `sqrt` (sqrt.rs 48-59) -/
def sqrt (c : SqrtCfg) (x : Flt F) : Option (Flt F) := (sqrtRound c x).map FpResult.val

end Generic

/-- `sqrtf16` (math/sqrt.rs 4-12) -/
def sqrtf16 (x : Flt f16) : Option (Flt f16) := Generic.sqrt sqrtCfg16 x
/-- `sqrtf` (math/sqrt.rs 16-28), without the `select_implementation!` intrinsics -/
def sqrtf (x : Flt f32) : Option (Flt f32) := Generic.sqrt sqrtCfg32 x
/-- `sqrt` (math/sqrt.rs 32-44), without the `select_implementation!` intrinsics -/
def sqrt (x : Flt f64) : Option (Flt f64) := Generic.sqrt sqrtCfg64 x
/-- `sqrtf128` (math/sqrt.rs 49-51) -/
def sqrtf128 (x : Flt f128) : Option (Flt f128) := Generic.sqrt sqrtCfg128 x

end Verif
