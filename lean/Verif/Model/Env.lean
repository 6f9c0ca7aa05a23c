import Verif.Model.Traits

/-! # Model of libm/src/math/support/env.rs -/

namespace Verif

/-- `Round` (env.rs 37-46) -/
inductive Round where
  | Nearest | Negative | Positive | Zero
deriving DecidableEq

/-- `Status(u8)` (env.rs 50) -/
structure Status where
  bits : BitVec 8
deriving DecidableEq

namespace Status
/-- env.rs 54 -/
def OK : Status := ⟨0#8⟩
/-- env.rs 66 -/
def INVALID : Status := ⟨1#8⟩
/-- env.rs 74 -/
def DIVIDE_BY_ZERO : Status := ⟨1#8 <<< 2⟩
/-- env.rs 82 -/
def OVERFLOW : Status := ⟨1#8 <<< 3⟩
/-- env.rs 85 -/
def UNDERFLOW : Status := ⟨1#8 <<< 4⟩
/-- env.rs 89 -/
def INEXACT : Status := ⟨1#8 <<< 5⟩

/-- env.rs 93-95 -/
def underflow (s : Status) : Bool := (s.bits &&& UNDERFLOW.bits) != 0#8
/-- env.rs 99-101 -/
def overflow (s : Status) : Bool := (s.bits &&& OVERFLOW.bits) != 0#8
/-- env.rs 108-110 -/
def inexact (s : Status) : Bool := (s.bits &&& INEXACT.bits) != 0#8
/-- `set_flag` (env.rs 116-122), returning the updated value -/
def setFlag (s : Status) (val : Bool) (mask : Status) : Status :=
  if val then ⟨s.bits ||| mask.bits⟩ else ⟨s.bits &&& ~~~mask.bits⟩
/-- env.rs 103-105 -/
def setUnderflow (s : Status) (val : Bool) : Status := s.setFlag val UNDERFLOW
/-- env.rs 112-114 -/
def setInexact (s : Status) (val : Bool) : Status := s.setFlag val INEXACT
/-- env.rs 124-126 -/
def «with» (s rhs : Status) : Status := ⟨s.bits ||| rhs.bits⟩
end Status

/-- `FpResult<T>` (env.rs 15-30) -/
structure FpResult (α : Type) where
  val : α
  status : Status

/-- `FpResult::ok` (env.rs 27-29) -/
def FpResult.ok {α : Type} (v : α) : FpResult α := ⟨v, Status.OK⟩

end Verif
