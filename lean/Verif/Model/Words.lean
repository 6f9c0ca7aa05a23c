import Verif.Model.Traits

/-! # Model of the word accessors of libm/src/math/mod.rs (f64 only) -/

namespace Verif
open Flt

/-- mod.rs 368-370 -/
def getHighWord (x : Flt f64) : BitVec 32 := (x.toBits >>> 32).setWidth 32
/-- mod.rs 373-375 -/
def getLowWord (x : Flt f64) : BitVec 32 := x.toBits.setWidth 32
/-- mod.rs 378-383 -/
def withSetHighWord (f : Flt f64) (hi : BitVec 32) : Flt f64 :=
  let tmp : BitVec 64 := f.toBits
  let tmp := tmp &&& 0x00000000ffffffff#64
  let tmp := tmp ||| (hi.setWidth 64 <<< 32)
  ⟨tmp⟩
/-- mod.rs 386-391 -/
def withSetLowWord (f : Flt f64) (lo : BitVec 32) : Flt f64 :=
  let tmp : BitVec 64 := f.toBits
  let tmp := tmp &&& 0xffffffff00000000#64
  let tmp := tmp ||| lo.setWidth 64
  ⟨tmp⟩
/-- mod.rs 394-396 -/
def combineWords (hi lo : BitVec 32) : Flt f64 := ⟨(hi.setWidth 64 <<< 32) ||| lo.setWidth 64⟩

end Verif
