import Verif.Model.Scalbn
import Verif.Model.Words

/-!
# Float literals

Rust float literals (`6.93147180369123816490e-01`, `1.0f32`) denote the datum nearest to the decimal number.  With this
instance the constants of the library can be copied digit for digit into the model.  `hexf F m e` is the datum nearest
to `m * 2 ^ e`, used for the `hf32!`/`hf64!` constants (whose parser is modelled and proved in `HexFloat`).
-/

namespace Verif
namespace Flt

/-- The datum nearest to the decimal number `m * 10 ^ (±e)`. -/
def ofDec (F : Fmt) (m : Nat) (neg : Bool) (e : Nat) : Flt F :=
  if neg then roundMag F false (m * F.oneMag) (10 ^ e) else roundMag F false (m * 10 ^ e * F.oneMag) 1

instance {F : Fmt} : OfScientific (Flt F) := ⟨ofDec F⟩

/-- The datum nearest to `m * 2 ^ e`. -/
def hexf (F : Fmt) (m : Nat) (e : Int) : Flt F :=
  if e < 0 then roundMag F false (m * F.oneMag) (2 ^ e.natAbs) else roundMag F false (m * 2 ^ e.natAbs * F.oneMag) 1

/-- Rust `f64::from_bits` -/
def bits64 (b : BitVec 64) : Flt f64 := ⟨b⟩
/-- Rust `f32::from_bits` -/
def bits32 (b : BitVec 32) : Flt f32 := ⟨b⟩
/-- Rust `x.to_bits()` on f64 -/
def u64 (x : Flt f64) : BitVec 64 := x.toBits
/-- Rust `x.to_bits()` on f32 -/
def u32 (x : Flt f32) : BitVec 32 := x.toBits

end Flt

/-- Rust `a + b` on `u32` with overflow checks: `none` is the panic -/
def uadd (a b : BitVec 32) : Option (BitVec 32) := if a.toNat + b.toNat < 2 ^ 32 then some (a + b) else none
/-- Rust `a - b` on `u32` with overflow checks: `none` is the panic -/
def usub (a b : BitVec 32) : Option (BitVec 32) := if b.toNat ≤ a.toNat then some (a - b) else none
/-- Rust `a + b` on `u64` with overflow checks: `none` is the panic -/
def uadd64 (a b : BitVec 64) : Option (BitVec 64) := if a.toNat + b.toNat < 2 ^ 64 then some (a + b) else none
/-- Rust `a - b` on `u64` with overflow checks: `none` is the panic -/
def usub64 (a b : BitVec 64) : Option (BitVec 64) := if b.toNat ≤ a.toNat then some (a - b) else none
/-- A Rust `i64` result with overflow checks: `none` is the panic -/
def i64 (v : Int) : Option Int := if -2 ^ 63 ≤ v ∧ v < 2 ^ 63 then some v else none

end Verif
