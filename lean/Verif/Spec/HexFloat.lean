import Verif.Spec.Float
import Verif.Model.Env

/-!
# Hexadecimal literals, rounding modes and status flags: specification

Only the enumeration `Round` (the mode requested by the caller) is shared with the model.
-/

namespace Verif
namespace HexFloat

/-- a hexadecimal digit as written: its value and the case of its letter -/
structure HexDig where
  val : Fin 16
  upper : Bool

/-- ASCII code of a digit: `0`-`9`, `a`-`f`, `A`-`F` -/
def HexDig.char (d : HexDig) : UInt8 :=
  UInt8.ofNat (if d.val.val < 10 then 48 + d.val.val else if d.upper then 55 + d.val.val else 87 + d.val.val)

/-- a hexadecimal floating point literal as written: `[sign] 0x int [. frac] p [esign] edig` -/
structure Lit where
  /-- no sign, `+` (`some false`) or `-` (`some true`) -/
  sign : Option Bool
  /-- `0X` instead of `0x` -/
  upperX : Bool
  int : List HexDig
  /-- no point, or a point followed by digits -/
  frac : Option (List HexDig)
  /-- `P` instead of `p` -/
  upperP : Bool
  esign : Option Bool
  edig : List (Fin 10)

/-- ASCII text of an optional sign -/
def signBytes : Option Bool → List UInt8
  | none => []
  | some false => [43]
  | some true => [45]

/-- the digits after the point -/
def Lit.fracDigits (l : Lit) : List HexDig := l.frac.getD []

/-- at least one significand digit and at least one exponent digit -/
def Lit.WellFormed (l : Lit) : Prop := l.int ++ l.fracDigits ≠ [] ∧ l.edig ≠ []

/-- the text of the literal -/
def Lit.bytes (l : Lit) : List UInt8 :=
  signBytes l.sign ++ [48, if l.upperX then 88 else 120] ++ l.int.map HexDig.char ++
  (match l.frac with | none => [] | some ds => 46 :: ds.map HexDig.char) ++
  [if l.upperP then 80 else 112] ++ signBytes l.esign ++ l.edig.map fun d => UInt8.ofNat (48 + d.val)

/-- the number written by a list of digits in a base -/
def natOf (base : Nat) (ds : List Nat) : Nat := ds.foldl (fun n d => n * base + d) 0

/-- all significand digits read as an integer -/
def Lit.mantissa (l : Lit) : Nat := natOf 16 ((l.int ++ l.fracDigits).map fun d => d.val.val)

/-- the number after `p`, without its sign -/
def Lit.expAbs (l : Lit) : Nat := natOf 10 (l.edig.map Fin.val)

/-- the exponent -/
def Lit.exponent (l : Lit) : ℤ := if l.esign = some true then -l.expAbs else l.expAbs

/-- is the literal written with a minus sign? -/
def Lit.neg (l : Lit) : Bool := l.sign == some true

/-- the exact value of a literal: `± mantissa / 16^(digits after the point) * 2^exponent` -/
def Lit.value (l : Lit) : ℚ :=
  (if l.neg then -1 else 1) * ((l.mantissa : ℚ) / 16 ^ l.fracDigits.length * 2 ^ l.exponent)

/-- `r` is the least datum (finite or `+∞`) that is at least `q` -/
def IsUp {F : Fmt} (q : ℚ) (r : Flt F) : Prop :=
  (r.isFinite ∧ q ≤ r.toRat ∨ r.isInf ∧ r.sign = false) ∧
  ∀ s : Flt F, s.isFinite → q ≤ s.toRat → r.isFinite ∧ r.toRat ≤ s.toRat

/-- `r` is the greatest datum (finite or `-∞`) that is at most `q` -/
def IsDown {F : Fmt} (q : ℚ) (r : Flt F) : Prop :=
  (r.isFinite ∧ r.toRat ≤ q ∨ r.isInf ∧ r.sign = true) ∧
  ∀ s : Flt F, s.isFinite → s.toRat ≤ q → r.isFinite ∧ s.toRat ≤ r.toRat

/-- `r` is `q` rounded in the given IEEE rounding direction -/
def IsRounded {F : Fmt} (m : Round) (q : ℚ) (r : Flt F) : Prop :=
  match m with
  | .Nearest => IsRNE q r
  | .Positive => IsUp q r
  | .Negative => IsDown q r
  | .Zero => if 0 ≤ q then IsDown q r else IsUp q r

/-- largest finite number, `2^emax * (2 - 2^-sb)` -/
def maxFinite (F : Fmt) : ℚ := 2 ^ (F.bias : ℤ) * (2 - 2 ^ (-(F.sb : ℤ)))

/-- overflow: `q` rounded as if the exponent range were unbounded is at least `2^(emax+1)` in magnitude -/
def Overflows (F : Fmt) (m : Round) (q : ℚ) : Prop :=
  match m with
  | .Nearest => overflowThreshold F ≤ |q|
  | .Positive => maxFinite F < q ∨ q ≤ -2 ^ ((F.bias : ℤ) + 1)
  | .Negative => q < -maxFinite F ∨ 2 ^ ((F.bias : ℤ) + 1) ≤ q
  | .Zero => 2 ^ ((F.bias : ℤ) + 1) ≤ |q|

/-- the status flags for rounding `q` to `r`: INEXACT when the value changed, OVERFLOW as above, UNDERFLOW when an
inexact result is below the normal range, and nothing else -/
structure FlagsFor {F : Fmt} (m : Round) (q : ℚ) (r : Flt F) (st : Status) : Prop where
  inexact : st.inexact = true ↔ ¬ (r.isFinite ∧ r.toRat = q)
  overflow : st.overflow = true ↔ Overflows F m q
  underflow : st.underflow = true ↔ r.isFinite ∧ r.toRat ≠ q ∧ |r.toRat| < 2 ^ (1 - (F.bias : ℤ))
  nothingElse : st.bits &&& 0b11000111#8 = 0#8

end HexFloat
end Verif
