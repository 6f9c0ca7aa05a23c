import Verif.Model.Env
import Verif.Model.Scalbn
import Verif.Model.Fmod

/-!
# Model of libm/src/math/support/hex_float.rs

Strings are lists of bytes.  A result of type `Res α` is `none` for a panic (overflow of checked `i32`/`u32`
arithmetic, failing `assert!`/`debug_assert!`), `some (error msg)` for `Err(HexFloatParseError(msg))` and
`some (ok v)` for `Ok(v)`.
-/

namespace Verif
namespace HexFloat
open Flt

/-- outcome of a function that may panic or return `Result<_, HexFloatParseError>` -/
abbrev Res (α : Type) := Option (Except String α)

/-- `return Err(..)` -/
def err {α : Type} (s : String) : Res α := some (.error s)
/-- `Ok(..)` -/
def ok {α : Type} (a : α) : Res α := some (.ok a)
/-- `match r { Err(e) => return Err(e), Ok(v) => .. }`, propagating panics -/
def andThen {α β : Type} (r : Res α) (f : α → Res β) : Res β :=
  r.bind fun
    | .error e => err e
    | .ok a => f a
/-- a checked operation: its failure is a panic -/
def chk {α β : Type} (o : Option α) (f : α → Res β) : Res β := o.bind f

/-- hex_float.rs 327-332 -/
def decDigit (c : UInt8) : Option Nat :=
  if 48 ≤ c.toNat ∧ c.toNat ≤ 57 then some (c.toNat - 48) else none

/-- hex_float.rs 334-341 -/
def hexDigit (c : UInt8) : Option Nat :=
  if 48 ≤ c.toNat ∧ c.toNat ≤ 57 then some (c.toNat - 48)
  else if 97 ≤ c.toNat ∧ c.toNat ≤ 102 then some (c.toNat - 97 + 10)
  else if 65 ≤ c.toNat ∧ c.toNat ≤ 70 then some (c.toNat - 65 + 10)
  else none

/-- the variables of the digit loop of `parse_hex` (hex_float.rs 224-229) -/
structure DigitState where
  sig : BitVec 128
  exp : Int
  seenPoint : Bool
  someDigits : Bool
  inexact : Bool

/-- hex_float.rs 248-263: one digit -/
def digitStep (st : DigitState) (digit : Nat) : Option DigitState :=
  let hi : BitVec 128 := st.sig >>> 124
  let st' : Option DigitState :=
    if hi = 0#128 then
      some { st with someDigits := true, sig := (st.sig <<< 4) ||| BitVec.ofNat 128 digit }
    else
      (i32 (st.exp + 4)).map fun e =>
        { st with someDigits := true, exp := e, inexact := st.inexact || decide (digit ≠ 0) }
  st'.bind fun st =>
  if st.seenPoint then (i32 (st.exp - 4)).map fun e => { st with exp := e } else some st

/-- hex_float.rs 231-266: the digit loop; returns the final state and the bytes after the `p` (or the
end of the string) -/
def digitLoop : List UInt8 → DigitState → Res (DigitState × List UInt8)
  | [], st => ok (st, [])
  | c :: rest, st =>
    if c = 46 then
      if st.seenPoint then err "unexpected '.' parsing fractional digits"
      else digitLoop rest { st with seenPoint := true }
    else if c = 112 ∨ c = 80 then ok (st, rest)
    else
      match hexDigit c with
      | none => err "expected hexadecimal digit"
      | some d => chk (digitStep st d) fun st => digitLoop rest st

/-- hex_float.rs 284-294: the exponent loop; `u32::saturating_mul` and a checked `+=` -/
def expLoop : List UInt8 → (pexp : Nat) → (someDigits : Bool) → Res (Nat × Bool)
  | [], pexp, sd => ok (pexp, sd)
  | c :: rest, pexp, _ =>
    match decDigit c with
    | none => err "expected decimal digit"
    | some d =>
      let p := min (pexp * 10) (2 ^ 32 - 1)
      if p + d < 2 ^ 32 then expLoop rest (p + d) true else none

/-- an optional leading sign: is it `-`, and the bytes after it (hex_float.rs 73-76 and 279-282) -/
def splitSign : List UInt8 → Bool × List UInt8
  | [] => (false, [])
  | c :: rest => if c = 45 then (true, rest) else if c = 43 then (false, rest) else (false, c :: rest)

/-- hex_float.rs 223-325 -/
def parseHex (b : List UInt8) : Res (BitVec 128 × Int) :=
  andThen (digitLoop b ⟨0#128, 0, false, false, false⟩) fun (st, b) =>
  let sig := st.sig ||| (if st.inexact then 1#128 else 0#128)
  if ¬ st.someDigits then err "at least one digit is required"
  else
    let (negateExp, b) := splitSign b
    andThen (expLoop b 0 false) fun (pexp, sd) =>
    if ¬ sd then err "at least one exponent digit is required"
    else
      let e : Int := if negateExp then st.exp - pexp else st.exp + pexp
      let exp : Int := if e < -2 ^ 31 then -2 ^ 31 else if e > 2 ^ 31 - 1 then 2 ^ 31 - 1 else e
      ok (sig, exp)

/-- `u128_ilog2` (hex_float.rs 346-349) -/
def ilog2 (v : BitVec 128) : Option Nat := if v = 0#128 then none else some (127 - leadingZeros v)

/-- `trailing_zeros` of a `u128` -/
def trailingZeros (x : BitVec 128) : Nat :=
  ((List.range 128).find? fun i => x.getLsbD i).getD 128

/-- hex_float.rs 192-199 -/
def shrOddRounding (x : BitVec 128) (k : Nat) : BitVec 128 :=
  if k < 128 then (x >>> k) ||| (if trailingZeros x < k then 1#128 else 0#128)
  else if x ≠ 0#128 then 1#128 else 0#128

/-- hex_float.rs 202-213.  The checked additions cannot overflow because `x` was divided by 4. -/
def shr2Round (x : BitVec 128) (round : Round) : BitVec 128 :=
  let t := x.toNat % 8
  let x := x >>> (2 : Nat)
  match round with
  | .Nearest => x + BitVec.ofNat 128 (200 >>> t % 2)
  | .Negative => x
  | .Zero => x
  | .Positive => x + (if t % 4 ≠ 0 then 1#128 else 0#128)

/-- hex_float.rs 126-152: round the significand; returns it with the exponent of its last bit and the status -/
def roundSig (sigBits : Nat) (minLsb : Int) (mode : Round) (sig : BitVec 128) (exp : Int) :
    Option (BitVec 128 × Int × Status) :=
  (ilog2 sig).bind fun l =>
  let rb0 : Int := (l : Int) - sigBits
  (i32 (minLsb - rb0)).bind fun lim =>
  (if exp < lim then i32 (minLsb - exp) else some rb0).bind fun rb =>
  (i32 (exp + rb)).map fun exp =>
  if rb > 0 then
    let sig := if rb = 1 then sig <<< (1 : Nat) else if rb > 2 then shrOddRounding sig (rb - 2).toNat else sig
    let status := if sig &&& 3#128 ≠ 0#128 then Status.INEXACT else Status.OK
    (shr2Round sig mode, exp, status)
  else if rb < 0 then (sig <<< (-rb).toNat, exp, Status.OK)
  else (sig, exp, Status.OK)

/-- hex_float.rs 115-118 and 126-184 (`parse_finite`) after the call of `parse_hex` returned a nonzero `sig` -/
def encodeFinite (bits sigBits : Nat) (mode : Round) (sig : BitVec 128) (exp : Int) : Option (BitVec 128 × Status) :=
  let expBits := bits - sigBits - 1
  let maxMsb : Int := 2 ^ (expBits - 1) - 1
  let minLsb : Int := 1 - maxMsb - sigBits
  (roundSig sigBits minLsb mode sig exp).bind fun (sig, exp, status) =>
  (i32 (exp - minLsb)).bind fun uexp =>
  let uexp : BitVec 128 := BitVec.ofInt 128 uexp <<< sigBits
  -- line 163, a `debug_assert!`
  if sig ≤ 2#128 <<< sigBits then
    let inf : BitVec 128 := ((1#128 <<< expBits) - 1#128) <<< sigBits
    if sig.toNat + uexp.toNat < 2 ^ 128 ∧ sig + uexp < inf then
      let bits := sig + uexp
      let status := if status.inexact ∧ bits < 1#128 <<< sigBits then status.with Status.UNDERFLOW else status
      some (bits, status)
    else
      let status := (status.with Status.OVERFLOW).with Status.INEXACT
      some (match mode with
        | .Positive | .Nearest => inf
        | .Negative | .Zero => inf - 1#128, status)
  else none

/-- hex_float.rs 109-185 -/
def parseFinite (b : List UInt8) (bits sigBits : Nat) (mode : Round) : Res (BitVec 128 × Status) :=
  andThen (parseHex b) fun (sig, exp) =>
  if sig = 0#128 then ok (0#128, Status.OK)
  else chk (encodeFinite bits sigBits mode sig exp) ok

/-- the mode used for the absolute value (hex_float.rs 87-93) -/
def absMode (neg : Bool) : Round → Round
  | .Positive => if neg then .Negative else .Positive
  | .Negative => if neg then .Positive else .Negative
  | .Nearest => .Nearest
  | .Zero => .Zero

/-- byte equals a letter in lower case (`lo`) or upper case -/
def isLetter (lo : UInt8) (c : UInt8) : Bool := c == lo || c == lo - 32

/-- hex_float.rs 61-107 -/
def parseAny (s : List UInt8) (bits sigBits : Nat) (round : Round) : Res (BitVec 128 × Status) :=
  if sigBits > 119 ∨ bits > 128 ∨ bits < sigBits + 3 ∨ bits > sigBits + 30 then
    err "unsupported target float configuration"
  else
    let (neg, b) := splitSign s
    if sigBits = 0 then none  -- `sig_bits - 1` overflows on line 79
    else
    let signBit := 1#128 <<< (bits - 1)
    let quietBit := 1#128 <<< (sigBits - 1)
    let nan := signBit - quietBit
    let inf := nan - quietBit
    let r : Res (BitVec 128 × Status) :=
      match b with
      | [c1, c2, c3] =>
        if isLetter 105 c1 ∧ isLetter 110 c2 ∧ isLetter 102 c3 then ok (inf, Status.OK)
        else if isLetter 110 c1 ∧ isLetter 97 c2 ∧ isLetter 110 c3 then ok (nan, Status.OK)
        else if c1 = 48 ∧ isLetter 120 c2 then parseFinite [c3] bits sigBits (absMode neg round)
        else err "no hex indicator"
      | c1 :: c2 :: rest =>
        if c1 = 48 ∧ isLetter 120 c2 then parseFinite rest bits sigBits (absMode neg round)
        else err "no hex indicator"
      | _ => err "no hex indicator"
    andThen r fun (x, status) => ok (if neg then x ^^^ signBit else x, status)

/-- hex_float.rs 45-58 -/
def parseHexExact (s : List UInt8) (bits sigBits : Nat) : Res (BitVec 128) :=
  andThen (parseAny s bits sigBits .Nearest) fun (bits, status) =>
  if status = Status.OK then ok bits
  else if status.overflow then err "the value is too huge"
  else if status.underflow then err "the value is too tiny"
  else if status.inexact then err "the value is too precise"
  else none

/-- hex_float.rs 9-40: `hf16 hf32 hf64 hf128`; an `Err` is a panic (at compile time) -/
def hf (F : Fmt) (s : List UInt8) : Option (Flt F) :=
  (parseHexExact s F.bits F.sb).bind fun
    | .ok v => some ⟨v.setWidth F.bits⟩
    | .error _ => none

/-! ## Formatting -/

/-- a lower-case hexadecimal digit -/
def hexChar (d : Nat) : UInt8 := UInt8.ofNat (if d < 10 then 48 + d else 87 + d)

/-- the last `width` hexadecimal digits of `n`, most significant first: `{n:0width$x}` of a number that fits -/
def fmtHex : (width : Nat) → (n : Nat) → List UInt8
  | 0, _ => []
  | w + 1, n => fmtHex w (n / 16) ++ [hexChar (n % 16)]

/-- decimal digits of a natural number, `{n}` -/
def fmtDec (n : Nat) : List UInt8 :=
  if n < 10 then [UInt8.ofNat (48 + n)] else fmtDec (n / 10) ++ [UInt8.ofNat (48 + n % 10)]
decreasing_by omega

/-- `{e:+}` for an `i32` -/
def fmtSigned (e : Int) : List UInt8 := (if e < 0 then 45 else 43) :: fmtDec e.natAbs

/-- `fmt_any_hex` (hex_float.rs 356-387): the bytes written -/
def fmtAnyHex {F : Fmt} (x : Flt F) : List UInt8 :=
  let sgn : List UInt8 := if x.sign then [45] else []
  if x.isNaN then sgn ++ [78, 97, 78]
  else if x.isInf then sgn ++ [105, 110, 102]
  else if x =ᶠ zero F false then sgn ++ [48, 120, 48, 112, 43, 48]
  else
    let exponent := expUnbiased x
    let sig := x.toBits &&& sigMask F
    let bias : Int := expBias F
    let mshift := (4 - F.sb % 4) % 4
    let sig := sig <<< mshift
    let mwidth := (F.sb + 3) / 4
    let (exponent, leading) : Int × List UInt8 :=
      if exponent = -bias then (exponent + 1, [48, 46]) else (exponent, [49, 46])
    sgn ++ [48, 120] ++ leading ++ fmtHex mwidth sig.toNat ++ [112] ++ fmtSigned exponent

end HexFloat
end Verif
