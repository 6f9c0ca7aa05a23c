import Verif.Model.Generic
import Verif.Model.Decomp

/-!
# Model of libm/src/math/fma_wide.rs

`none` is a panic (overflow of the checked `ui += one` / `ui -= one`).
-/

namespace Verif
namespace Generic
open Flt
variable {F B : Fmt}

/-- `fma_wide_round` (fma_wide.rs 34-91) for a format `F` and its `HFloat::D = B`.
`widen` and `narrow` are `as` casts (float_traits.rs 333-359). -/
def fmaWideRound (B : Fmt) (x y z : Flt F) (round : Round) : Option (FpResult (Flt F)) :=
  let one := 1#B.bits
  let xy : Flt B := x.cast B * y.cast B                                  -- 43
  let result : Flt B := xy + z.cast B                                    -- 44
  let ui := result.toBits                                                -- 45
  let re := ex result                                                    -- 46
  let zb : Flt B := z.cast B                                             -- 47
  let precDiff := B.sb - F.sb                                            -- 49
  let excessPrec := ui &&& ((one <<< precDiff) - one)                    -- 50
  let halfway := one <<< (precDiff - 1)                                  -- 51
  -- 55-62
  if excessPrec ≠ halfway ∨ re = expSat B
      ∨ ((result - xy =ᶠ zb) ∧ (result - zb =ᶠ xy)) ∨ round ≠ Round.Nearest then
    -- 64-80; `status` is still `OK` at line 69, so the inner block is dead code
    some ⟨result.cast F, Status.OK⟩
  else
    let neg := (ui >>> (B.bits - 1)) ≠ 0#B.bits                          -- 83
    let err := if decide neg = (zb >ᶠ xy) then xy - result + zb else zb - result + xy  -- 84
    if decide neg = (err <ᶠ zero B false) then                           -- 85
      (checkedInc ui).map fun u => FpResult.ok ((⟨u⟩ : Flt B).cast F)     -- 86, 91
    else
      (checkedDec ui).map fun u => FpResult.ok ((⟨u⟩ : Flt B).cast F)     -- 88, 91

/-- `fmaf` (fma_wide.rs 20-28), without the aarch64 intrinsic -/
def fmaf (x y z : Flt f32) : Option (Flt f32) :=
  (fmaWideRound f64 x y z Round.Nearest).map FpResult.val

end Generic
end Verif
