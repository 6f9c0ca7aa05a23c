import Verif.Model.Traits

/-!
# Model of scalbn and ldexp (all formats)

`none` is a panic: an overflowing `i32` operation or a failing `debug_assert!`.
-/

namespace Verif
open Flt

/-- result of a checked `i32` operation -/
def i32 (v : Int) : Option Int := if -2 ^ 31 ≤ v ∧ v < 2 ^ 31 then some v else none

/-- Rust `v as u32` for `v : i32` -/
def asU32 (v : Int) : Nat := (v % 2 ^ 32).toNat

namespace Generic
variable {F : Fmt}

/-- generic/scalbn.rs 99-103 and 106-110: one prescaling round for `f16` -/
def scalbnPre16 (x : Flt F) (n : Int) : Option (Flt F × Int) :=
  (i32 (n + (F.sb + 1))).bind fun t =>
  let add := -(max (expMin F) (min (F.sb + 1) t))
  (i32 (expBias F - add)).bind fun e =>
  let mul := fromParts F false (asU32 e) 0#_
  (i32 (n + add)).map fun n => (x * mul, n)

/-- generic/scalbn.rs 51-117: the prescaling -/
def scalbnPre (x : Flt F) (n : Int) : Option (Flt F × Int) :=
  let fExpMax := fromParts F false (expBias F <<< 1) 0#_
  let fExpMin := fromParts F false 1 0#_
  let fPowSubnorm := fromParts F false (F.sb + 1 + expBias F) 0#_
  if n > expMax F then
    if -expMin F + F.sb + expMax F ≤ expMax F * 3 then
      (i32 (n - expMax F)).bind fun n =>
      let x := x * fExpMax
      if n > expMax F then
        (i32 (n - expMax F)).map fun n =>
        (x * fExpMax, if n > expMax F then expMax F else n)
      else some (x, n)
    else none
  else if n < expMin F then
    if F.bits > 16 then
      let mul := fExpMin * fPowSubnorm
      let add := -expMin F - (F.sb + 1)
      if -expMin F + F.sb + expMax F ≤ add * 2 + -expMin F then
        (i32 (n + add)).bind fun n =>
        let x := x * mul
        if n < expMin F then
          (i32 (n + add)).map fun n =>
          (x * mul, if n < expMin F then expMin F else n)
        else some (x, n)
      else none
    else
      (scalbnPre16 x n).bind fun (x, n) =>
      if n < expMin F then
        (scalbnPre16 x n).map fun (x, n) => (x, if n < expMin F then expMin F else n)
      else some (x, n)
  else some (x, n)

/-- generic/scalbn.rs 20-121 (`scalbnf16 scalbnf scalbn scalbnf128`) -/
def scalbn (x : Flt F) (n : Int) : Option (Flt F) :=
  (scalbnPre x n).bind fun (x, n) =>
  (i32 (expBias F + n)).map fun e =>
  let scale := fromParts F false (asU32 e) 0#_
  x * scale

/-- ldexp.rs 1-21: `ldexpf16 ldexpf ldexp ldexpf128` forward to `scalbn*` -/
def ldexp (x : Flt F) (n : Int) : Option (Flt F) := scalbn x n

end Generic
end Verif
