import Verif.Model.Generic

/-!
# Model of the 32-bit x86 replacements (libm/src/math/arch/i586.rs)

x87 excess precision is not modelled: the operators are those of `f64`.
-/

namespace Verif
namespace I586
open Flt

/-- arch/i586.rs 9-20; `fabs` is the portable one; 4503599627370496.0 has the bits 0x4330000000000000 -/
def ceil (x : Flt f64) : Flt f64 :=
  if (Generic.fabs x).toBits < (ofNat f64 0x4330000000000000).toBits then
    let truncated := ofInt f64 (toSInt 64 x)
    if truncated <ᶠ x then truncated + one f64 else truncated
  else x

/-- arch/i586.rs 26-37 -/
def floor (x : Flt f64) : Flt f64 :=
  if (Generic.fabs x).toBits < (ofNat f64 0x4330000000000000).toBits then
    let truncated := ofInt f64 (toSInt 64 x)
    if truncated >ᶠ x then truncated - one f64 else truncated
  else x

end I586
end Verif
