import Mathlib.Data.BitVec

/-!
# Model of libm/src/math/support/big.rs and the widening traits of int_traits.rs

`none` is a panic: an overflowing checked `+`, a failed `debug_assert!` or `unimplemented!`.
-/

namespace Verif

/-- Rust checked `a + b` on an unsigned word (overflow panics in debug builds) -/
def chkAdd {w : Nat} (a b : BitVec w) : Option (BitVec w) :=
  if a.toNat + b.toNat < 2 ^ w then some (a + b) else none

/-- support/big.rs 15-18 -/
structure U256 where
  lo : BitVec 128
  hi : BitVec 128
deriving DecidableEq

/-- support/big.rs 33-36 -/
structure I256 where
  lo : BitVec 128
  hi : BitVec 128
deriving DecidableEq

namespace U256
/-- big.rs 25-27 -/
def signed (x : U256) : I256 := ⟨x.lo, x.hi⟩
/-- big.rs 53 -/
def zero : U256 := ⟨0, 0⟩
/-- big.rs 54 -/
def one : U256 := ⟨1, 0⟩
/-- big.rs 55 -/
def min : U256 := ⟨0, 0⟩
/-- big.rs 56 (and 22) -/
def max : U256 := ⟨BitVec.allOnes 128, BitVec.allOnes 128⟩
/-- big.rs 77-81 -/
def or (a b : U256) : U256 := ⟨a.lo ||| b.lo, a.hi ||| b.hi⟩
/-- big.rs 87-91 -/
def not (a : U256) : U256 := ⟨~~~a.lo, ~~~a.hi⟩
/-- big.rs 97-99: `unimplemented!` -/
def shl (_a : U256) (_r : Nat) : Option U256 := none
/-- big.rs 14: the derived `PartialOrd` compares the fields in declaration order, `lo` first -/
def derivedLt (a b : U256) : Bool := a.lo < b.lo || (a.lo == b.lo && a.hi < b.hi)
/-- big.rs 107-116 -/
def add (a b : U256) : U256 :=
  let lo := a.lo + b.lo
  let carry := decide (2 ^ 128 ≤ a.lo.toNat + b.lo.toNat)
  let hi := a.hi + (BitVec.ofBool carry).setWidth 128 + b.hi
  ⟨lo, hi⟩
/-- big.rs 121-145; the `debug_assert!` makes shifts by 256 or more a panic (in release builds
they return zero, lines 123-125) -/
def shr (a : U256) (rhs : Nat) : Option U256 :=
  if rhs ≥ 256 then none
  else if rhs = 0 then some a
  else
    let lo := if rhs < 128 then (a.lo >>> rhs) ||| (a.hi <<< (128 - rhs)) else a.hi >>> (rhs - 128)
    let hi := if rhs < 128 then a.hi >>> rhs else 0
    some ⟨lo, hi⟩
/-- big.rs 151-153 -/
def widen (x : BitVec 128) : U256 := ⟨x, 0⟩
/-- big.rs 155-157 -/
def zeroWiden (x : BitVec 128) : U256 := widen x
/-- big.rs 159-178 -/
def zeroWidenMul (x y : BitVec 128) : Option U256 :=
  let mask : BitVec 128 := 0xffffffffffffffff#128
  let l0 := x &&& mask
  let l1 := y &&& mask
  let h0 := x >>> 64
  let h1 := y >>> 64
  let p_ll := l0 * l1
  let p_lh := l0 * h1
  let p_hl := h0 * l1
  let p_hh := h0 * h1
  (chkAdd p_hl (p_ll >>> 64)).bind fun s0 =>
  (chkAdd (p_ll &&& mask) (s0 <<< 64)).bind fun s1 =>
  (chkAdd p_lh (s1 >>> 64)).bind fun s2 =>
  (chkAdd (p_ll &&& mask) (s2 <<< 64)).bind fun lo =>
  (chkAdd p_hh (s0 >>> 64)).bind fun t =>
  (chkAdd t (s2 >>> 64)).map fun hi => ⟨lo, hi⟩
/-- big.rs 180-182 -/
def widenMul (x y : BitVec 128) : Option U256 := zeroWidenMul x y
/-- big.rs 184-186 -/
def widenHi (x : BitVec 128) : Option U256 := (widen x).shl 128
/-- big.rs 220-226 -/
def getLo (x : U256) : BitVec 128 := x.lo
/-- big.rs 224-226 -/
def getHi (x : U256) : BitVec 128 := x.hi
end U256

namespace I256
/-- big.rs 41-43 -/
def unsigned (x : I256) : U256 := ⟨x.lo, x.hi⟩
/-- big.rs 68 -/
def min : I256 := ⟨0, 1#128 <<< 127⟩
/-- big.rs 69 -/
def max : I256 := ⟨BitVec.allOnes 128, BitVec.allOnes 128 <<< 1⟩
/-- big.rs 77-81 -/
def or (a b : I256) : I256 := ⟨a.lo ||| b.lo, a.hi ||| b.hi⟩
/-- big.rs 87-91 -/
def not (a : I256) : I256 := ⟨~~~a.lo, ~~~a.hi⟩
/-- big.rs 192-198: `i128::widen` -/
def widen (x : BitVec 128) : I256 :=
  let ret := (U256.zeroWiden x).signed
  if x.msb then { ret with hi := BitVec.allOnes 128 } else ret
/-- big.rs 200-202 -/
def zeroWiden (x : BitVec 128) : I256 := (U256.zeroWiden x).signed
/-- big.rs 204-206 -/
def zeroWidenMul (x y : BitVec 128) : Option I256 := (U256.zeroWidenMul x y).map U256.signed
/-- big.rs 208-210: `unimplemented!` -/
def widenMul (_x _y : BitVec 128) : Option I256 := none
/-- big.rs 232-238; the limbs are reinterpreted as `i128` (same bits) -/
def getLo (x : I256) : BitVec 128 := x.lo
/-- big.rs 236-238 -/
def getHi (x : I256) : BitVec 128 := x.hi
end I256

/-! ## The primitive double-width integers, int_traits.rs 306-359

`w` is the width of the half type; the unsigned and signed instances share bits. -/

namespace Prim
variable {w : Nat}
/-- int_traits.rs 312-314 -/
def lo (x : BitVec (2 * w)) : BitVec w := x.setWidth w
/-- int_traits.rs 315-317 for the unsigned types (logical shift) -/
def hi (x : BitVec (2 * w)) : BitVec w := (x >>> w).setWidth w
/-- int_traits.rs 315-317 for the signed types (arithmetic shift) -/
def hiS (x : BitVec (2 * w)) : BitVec w := (x.sshiftRight w).setWidth w
/-- int_traits.rs 329-331 for the unsigned types -/
def widen (x : BitVec w) : BitVec (2 * w) := x.setWidth (2 * w)
/-- int_traits.rs 329-331 for the signed types -/
def widenS (x : BitVec w) : BitVec (2 * w) := x.signExtend (2 * w)
/-- int_traits.rs 332-334 (the cast to the unsigned half type first makes it a zero extension) -/
def zeroWiden (x : BitVec w) : BitVec (2 * w) := x.setWidth (2 * w)
/-- int_traits.rs 335-337 -/
def zeroWidenMul (x y : BitVec w) : BitVec (2 * w) := zeroWiden x * zeroWiden y
/-- int_traits.rs 338-340, unsigned types -/
def widenMul (x y : BitVec w) : BitVec (2 * w) := widen x * widen y
/-- int_traits.rs 338-340, signed types -/
def widenMulS (x y : BitVec w) : BitVec (2 * w) := widenS x * widenS y
/-- int_traits.rs 341-343, unsigned types -/
def widenHi (x : BitVec w) : BitVec (2 * w) := widen x <<< w
/-- int_traits.rs 341-343, signed types -/
def widenHiS (x : BitVec w) : BitVec (2 * w) := widenS x <<< w
/-- int_traits.rs 277-279, unsigned types -/
def fromLoHi (l h : BitVec w) : BitVec (2 * w) := zeroWiden l ||| widenHi h
/-- int_traits.rs 277-279, signed types -/
def fromLoHiS (l h : BitVec w) : BitVec (2 * w) := zeroWiden l ||| widenHiS h
end Prim

end Verif
