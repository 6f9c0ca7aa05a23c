import Verif.Model.Big
import Mathlib.Tactic.Ring
import Mathlib.Tactic.Linarith
import Mathlib.Tactic.NormNum

/-!
# C23: the wide integer helpers are exact

Specification: a two-limb integer denotes `lo + 2^128 * hi` (unsigned), and the signed type is its
two's-complement reading.
-/

namespace Verif

/-- the number denoted by a `u256` -/
def U256.val (x : U256) : Nat := x.lo.toNat + 2 ^ 128 * x.hi.toNat

/-- the number denoted by an `i256` (two's complement) -/
def I256.val (x : I256) : Int := x.lo.toNat + 2 ^ 128 * x.hi.toInt

namespace U256

theorem val_lt (x : U256) : x.val < 2 ^ 256 := by
  have h1 := x.lo.isLt
  have h2 := x.hi.isLt
  unfold val; omega

/-- the representation is faithful: limbs are determined by the value, and every value below
`2^256` is represented -/
theorem val_inj (x y : U256) (h : x.val = y.val) : x = y := by
  obtain ⟨xl, xh⟩ := x
  obtain ⟨yl, yh⟩ := y
  unfold val at h
  simp only at h
  have h1 := xl.isLt
  have h2 := yl.isLt
  have h3 : xl.toNat = yl.toNat := by omega
  have h4 : xh.toNat = yh.toNat := by omega
  rw [BitVec.eq_of_toNat_eq h3, BitVec.eq_of_toNat_eq h4]

/-- the widening product is exact and never panics -/
theorem widenMul_exact (x y : BitVec 128) :
    ∃ r, widenMul x y = some r ∧ r.val = x.toNat * y.toNat := by
  have key : ∀ a : BitVec 128, (a &&& 0xffffffffffffffff#128).toNat = a.toNat % 2 ^ 64 := by
    intro a
    rw [BitVec.toNat_and]
    show a.toNat &&& (2 ^ 64 - 1) = _
    exact Nat.and_two_pow_sub_one_eq_mod ..
  have ks : ∀ a : BitVec 128, (a >>> 64).toNat = a.toNat / 2 ^ 64 := by
    intro a; rw [BitVec.toNat_ushiftRight, Nat.shiftRight_eq_div_pow]
  have kl : ∀ a : BitVec 128, (a <<< 64).toNat = (a.toNat % 2 ^ 64) * 2 ^ 64 := by
    intro a
    rw [BitVec.toNat_shiftLeft, Nat.shiftLeft_eq]
    have := a.isLt
    omega
  have hx := x.isLt
  have hy := y.isLt
  have hxe : x.toNat = x.toNat % 2 ^ 64 + 2 ^ 64 * (x.toNat / 2 ^ 64) := by omega
  have hye : y.toNat = y.toNat % 2 ^ 64 + 2 ^ 64 * (y.toNat / 2 ^ 64) := by omega
  have b1 : x.toNat % 2 ^ 64 < 2 ^ 64 := by omega
  have b2 : x.toNat / 2 ^ 64 < 2 ^ 64 := by omega
  have b3 : y.toNat % 2 ^ 64 < 2 ^ 64 := by omega
  have b4 : y.toNat / 2 ^ 64 < 2 ^ 64 := by omega
  have small : ∀ a b : Nat, a < 2 ^ 64 → b < 2 ^ 64 → a * b ≤ (2 ^ 64 - 1) * (2 ^ 64 - 1) := by
    intro a b ha hb
    exact Nat.mul_le_mul (by omega) (by omega)
  have km : ∀ (a b : BitVec 128), a.toNat < 2 ^ 64 → b.toNat < 2 ^ 64 →
      (a * b).toNat = a.toNat * b.toNat := by
    intro a b ha hb
    rw [BitVec.toNat_mul, Nat.mod_eq_of_lt]
    have := small _ _ ha hb
    omega
  have m1 := small _ _ b1 b3
  have m2 := small _ _ b1 b4
  have m3 := small _ _ b2 b3
  have m4 := small _ _ b2 b4
  have e1 := km (x &&& 0xffffffffffffffff#128) (y &&& 0xffffffffffffffff#128)
    (by rw [key]; exact b1) (by rw [key]; exact b3)
  have e2 := km (x &&& 0xffffffffffffffff#128) (y >>> 64)
    (by rw [key]; exact b1) (by rw [ks]; exact b4)
  have e3 := km (x >>> 64) (y &&& 0xffffffffffffffff#128)
    (by rw [ks]; exact b2) (by rw [key]; exact b3)
  have e4 := km (x >>> 64) (y >>> 64) (by rw [ks]; exact b2) (by rw [ks]; exact b4)
  rw [key, key] at e1
  rw [key, ks] at e2
  rw [key, ks] at e3
  rw [ks, ks] at e4
  have total : x.toNat * y.toNat =
      (x.toNat % 2 ^ 64) * (y.toNat % 2 ^ 64) +
      2 ^ 64 * ((x.toNat % 2 ^ 64) * (y.toNat / 2 ^ 64)) +
      2 ^ 64 * ((x.toNat / 2 ^ 64) * (y.toNat % 2 ^ 64)) +
      2 ^ 128 * ((x.toNat / 2 ^ 64) * (y.toNat / 2 ^ 64)) := by
    conv_lhs => rw [hxe, hye]
    ring
  have hprod : x.toNat * y.toNat < 2 ^ 256 := by
    have : x.toNat * y.toNat ≤ (2 ^ 128 - 1) * (2 ^ 128 - 1) :=
      Nat.mul_le_mul (by omega) (by omega)
    omega
  unfold widenMul zeroWidenMul
  simp only
  generalize (x &&& 0xffffffffffffffff#128) * (y &&& 0xffffffffffffffff#128) = pll at *
  generalize (x &&& 0xffffffffffffffff#128) * (y >>> 64) = plh at *
  generalize (x >>> 64) * (y &&& 0xffffffffffffffff#128) = phl at *
  generalize (x >>> 64) * (y >>> 64) = phh at *
  rw [← e1, ← e2, ← e3, ← e4] at total
  rw [← e1] at m1
  rw [← e2] at m2
  rw [← e3] at m3
  rw [← e4] at m4
  clear e1 e2 e3 e4 hxe hye b1 b2 b3 b4 small km hx hy
  have addok : ∀ a b : BitVec 128, a.toNat + b.toNat < 2 ^ 128 →
      chkAdd a b = some (a + b) ∧ (a + b).toNat = a.toNat + b.toNat := by
    intro a b h
    unfold chkAdd
    rw [if_pos h]
    exact ⟨rfl, by rw [BitVec.toNat_add, Nat.mod_eq_of_lt h]⟩
  obtain ⟨h0, v0⟩ := addok phl (pll >>> 64) (by rw [ks]; omega)
  rw [h0, Option.bind_some]
  rw [ks] at v0
  generalize phl + pll >>> 64 = s0 at *
  obtain ⟨h1, v1⟩ := addok (pll &&& 0xffffffffffffffff#128) (s0 <<< 64)
    (by rw [key, kl]; omega)
  rw [h1, Option.bind_some]
  rw [key, kl] at v1
  generalize (pll &&& 0xffffffffffffffff#128) + s0 <<< 64 = s1 at *
  obtain ⟨h2, v2⟩ := addok plh (s1 >>> 64) (by rw [ks]; omega)
  rw [h2, Option.bind_some]
  rw [ks] at v2
  generalize plh + s1 >>> 64 = s2 at *
  obtain ⟨h3, v3⟩ := addok (pll &&& 0xffffffffffffffff#128) (s2 <<< 64)
    (by rw [key, kl]; omega)
  rw [h3, Option.bind_some]
  rw [key, kl] at v3
  generalize (pll &&& 0xffffffffffffffff#128) + s2 <<< 64 = lo at *
  have hfin : lo.toNat + 2 ^ 128 * (phh.toNat + s0.toNat / 2 ^ 64 + s2.toNat / 2 ^ 64) =
      x.toNat * y.toNat := by omega
  obtain ⟨h4, v4⟩ := addok phh (s0 >>> 64) (by rw [ks]; omega)
  rw [h4, Option.bind_some]
  rw [ks] at v4
  generalize phh + s0 >>> 64 = t at *
  obtain ⟨h5, v5⟩ := addok t (s2 >>> 64) (by rw [ks]; omega)
  rw [h5, Option.map_some]
  rw [ks] at v5
  refine ⟨_, rfl, ?_⟩
  unfold val
  simp only
  rw [v5, v4]
  exact hfin

/-- the halves of a product are its quotient and remainder by `2^128` -/
theorem widenMul_lo_hi (x y : BitVec 128) :
    ∃ r, widenMul x y = some r ∧ r.getLo.toNat = x.toNat * y.toNat % 2 ^ 128 ∧
      r.getHi.toNat = x.toNat * y.toNat / 2 ^ 128 := by
  obtain ⟨r, h, hv⟩ := widenMul_exact x y
  have := r.lo.isLt
  refine ⟨r, h, ?_, ?_⟩
  · rw [← hv]; unfold val getLo; omega
  · rw [← hv]; unfold val getHi; omega

example : widenMul (BitVec.allOnes 128) (BitVec.allOnes 128) = some ⟨1, BitVec.allOnes 128 - 1⟩ := by
  decide +kernel

/-- addition is addition modulo `2^256` -/
theorem add_exact (a b : U256) : (a.add b).val = (a.val + b.val) % 2 ^ 256 := by
  unfold add val
  simp only
  have h1 := a.lo.isLt
  have h2 := a.hi.isLt
  have h3 := b.lo.isLt
  have h4 := b.hi.isLt
  by_cases hc : 2 ^ 128 ≤ a.lo.toNat + b.lo.toNat
  · have hb : ((BitVec.ofBool (decide (2 ^ 128 ≤ a.lo.toNat + b.lo.toNat))).setWidth 128).toNat
        = 1 := by rw [decide_eq_true hc]; rfl
    rw [BitVec.toNat_add, BitVec.toNat_add, BitVec.toNat_add, hb]
    omega
  · have hb : ((BitVec.ofBool (decide (2 ^ 128 ≤ a.lo.toNat + b.lo.toNat))).setWidth 128).toNat
        = 0 := by rw [decide_eq_false hc]; rfl
    rw [BitVec.toNat_add, BitVec.toNat_add, BitVec.toNat_add, hb]
    omega

example : (U256.add ⟨BitVec.allOnes 128, 5⟩ ⟨1, 7⟩) = ⟨0, 13⟩ := by decide +kernel

/-- right shift by any count below 256 is division by a power of two, without a panic -/
theorem shr_exact (a : U256) (r : Nat) (hr : r < 256) :
    ∃ b, a.shr r = some b ∧ b.val = a.val / 2 ^ r := by
  have h1 := a.lo.isLt
  have h2 := a.hi.isLt
  unfold shr
  rw [if_neg (by omega)]
  by_cases h0 : r = 0
  · rw [if_pos h0]
    exact ⟨a, rfl, by rw [h0]; simp⟩
  rw [if_neg h0]
  by_cases hlt : r < 128
  · simp only [hlt, if_true]
    refine ⟨_, rfl, ?_⟩
    unfold val
    simp only
    rw [BitVec.toNat_or, BitVec.toNat_ushiftRight, BitVec.toNat_shiftLeft, Nat.shiftRight_eq_div_pow,
      Nat.shiftLeft_eq, BitVec.toNat_ushiftRight, Nat.shiftRight_eq_div_pow]
    have hp : (2 : Nat) ^ 128 = 2 ^ (128 - r) * 2 ^ r := by
      rw [← Nat.pow_add]; congr 1; omega
    have hr0 := Nat.two_pow_pos r
    have hq0 := Nat.two_pow_pos (128 - r)
    have e1 : a.hi.toNat * 2 ^ (128 - r) % 2 ^ 128 = (a.hi.toNat % 2 ^ r) * 2 ^ (128 - r) := by
      rw [hp, Nat.mul_comm (2 ^ (128 - r)) (2 ^ r), Nat.mul_mod_mul_right]
    have e2 : a.lo.toNat / 2 ^ r < 2 ^ (128 - r) := by
      rw [Nat.div_lt_iff_lt_mul hr0, ← hp]; exact h1
    rw [e1, Nat.or_comm, Nat.mul_comm (_ % _), ← Nat.two_pow_add_eq_or_of_lt e2]
    have e3 : a.lo.toNat + 2 ^ 128 * a.hi.toNat =
        a.lo.toNat + 2 ^ r * (2 ^ (128 - r) * a.hi.toNat) := by rw [hp]; ring
    rw [e3, Nat.add_mul_div_left _ _ hr0]
    have e4 := Nat.div_add_mod a.hi.toNat (2 ^ r)
    have e5 : 2 ^ (128 - r) * a.hi.toNat = 2 ^ 128 * (a.hi.toNat / 2 ^ r) +
        2 ^ (128 - r) * (a.hi.toNat % 2 ^ r) := by
      conv_lhs => rw [← e4]
      rw [hp]; ring
    rw [e5]
    omega
  · simp only [hlt, if_false]
    refine ⟨_, rfl, ?_⟩
    unfold val
    simp only
    rw [BitVec.toNat_ushiftRight, Nat.shiftRight_eq_div_pow]
    have hp : (2 : Nat) ^ r = 2 ^ 128 * 2 ^ (r - 128) := by
      rw [← Nat.pow_add, Nat.add_sub_cancel' (by omega)]
    rw [hp, ← Nat.div_div_eq_div_mul]
    have : (a.lo.toNat + 2 ^ 128 * a.hi.toNat) / 2 ^ 128 = a.hi.toNat := by omega
    rw [this]
    have h0' : (0 : BitVec 128).toNat = 0 := rfl
    rw [h0']
    omega

example : (U256.shr ⟨0x10, 3⟩ 4) = some ⟨0x30000000000000000000000000000001#128, 0⟩ := by
  decide +kernel

/-- a shift by 256 or more violates the documented precondition and is the only panic -/
theorem shr_panics_iff (a : U256) (r : Nat) : a.shr r = none ↔ 256 ≤ r := by
  constructor
  · intro h
    by_contra hc
    obtain ⟨b, hb, -⟩ := shr_exact a r (by omega)
    rw [hb] at h; cases h
  · intro h
    unfold shr; rw [if_pos h]

/-- bitwise or and complement act on the value -/
theorem or_exact (a b : U256) : (a.or b).val = a.val ||| b.val := by
  have h1 := a.lo.isLt
  have h2 := b.lo.isLt
  unfold or val
  simp only [BitVec.toNat_or]
  rw [Nat.add_comm, Nat.add_comm a.lo.toNat, Nat.add_comm b.lo.toNat,
    Nat.two_pow_add_eq_or_of_lt h1, Nat.two_pow_add_eq_or_of_lt h2,
    Nat.two_pow_add_eq_or_of_lt (Nat.or_lt_two_pow h1 h2)]
  have : 2 ^ 128 * (a.hi.toNat ||| b.hi.toNat) = 2 ^ 128 * a.hi.toNat ||| 2 ^ 128 * b.hi.toNat := by
    rw [Nat.mul_comm, Nat.mul_comm _ a.hi.toNat, Nat.mul_comm _ b.hi.toNat, ← Nat.shiftLeft_eq,
      ← Nat.shiftLeft_eq, ← Nat.shiftLeft_eq, Nat.shiftLeft_or_distrib]
  rw [this]
  apply Nat.eq_of_testBit_eq
  intro i
  simp only [Nat.testBit_or]
  generalize (2 ^ 128 * a.hi.toNat).testBit i = p
  generalize (2 ^ 128 * b.hi.toNat).testBit i = q
  generalize a.lo.toNat.testBit i = r
  generalize b.lo.toNat.testBit i = s
  revert p q r s; decide

theorem not_exact (a : U256) : (a.not).val = 2 ^ 256 - 1 - a.val := by
  have h1 := a.lo.isLt
  have h2 := a.hi.isLt
  unfold not val
  simp only [BitVec.toNat_not]
  omega

/-- `zero`, `one`, `MIN`, `MAX` denote what their names say -/
theorem consts : zero.val = 0 ∧ one.val = 1 ∧ (∀ x : U256, min.val ≤ x.val) ∧
    (∀ x : U256, x.val ≤ max.val) := by
  refine ⟨by decide +kernel, by decide +kernel, fun x => ?_, fun x => ?_⟩
  · have : min.val = 0 := by decide +kernel
    omega
  · have : max.val = 2 ^ 256 - 1 := by decide +kernel
    have := val_lt x
    omega

theorem widen_exact (x : BitVec 128) : (widen x).val = x.toNat ∧ (zeroWiden x).val = x.toNat ∧
    (widen x).getLo = x ∧ (widen x).getHi = 0 := by
  refine ⟨?_, ?_, rfl, rfl⟩ <;> · unfold val; first | unfold zeroWiden | skip
                                  unfold widen; simp

/-- reinterpreting as signed subtracts `2^256` exactly when the top bit is set, and back -/
theorem signed_exact (x : U256) :
    x.signed.val = (if x.val < 2 ^ 255 then (x.val : Int) else (x.val : Int) - 2 ^ 256) ∧
    x.signed.unsigned = x := by
  refine ⟨?_, rfl⟩
  have h1 := x.lo.isLt
  have h2 := x.hi.isLt
  unfold signed I256.val val
  simp only
  rw [BitVec.toInt_eq_toNat_cond]
  split <;> split <;> push_cast <;> omega

/-- shifting left is only there to satisfy a trait bound: it always panics -/
theorem shl_unimplemented (a : U256) (r : Nat) (x : BitVec 128) :
    a.shl r = none ∧ widenHi x = none := ⟨rfl, rfl⟩

/-- **discrepancy**: the derived comparison looks at the low limb first, so it disagrees with the
numeric order (no code in the library compares wide integers) -/
theorem derived_order_not_numeric : ∃ a b : U256, a.val < b.val ∧ derivedLt b a = true :=
  ⟨⟨1, 0⟩, ⟨0, 1⟩, by decide +kernel, by decide +kernel⟩

end U256

namespace I256

theorem val_range (x : I256) : -2 ^ 255 ≤ x.val ∧ x.val < 2 ^ 255 := by
  have h1 := x.lo.isLt
  have h2 := @BitVec.le_toInt 128 x.hi
  have h3 := @BitVec.toInt_lt 128 x.hi
  unfold val
  norm_num at *
  omega

/-- sign extension preserves the signed value; zero extension reads the operand as unsigned -/
theorem widen_exact (x : BitVec 128) :
    (widen x).val = x.toInt ∧ (zeroWiden x).val = (x.toNat : Int) := by
  have hlt := x.isLt
  refine ⟨?_, ?_⟩
  · unfold widen val
    by_cases h : x.msb
    · rw [h, if_pos rfl]
      have hm := BitVec.toInt_eq_msb_cond x
      rw [h, if_pos rfl] at hm
      rw [hm]
      have : (BitVec.allOnes 128).toInt = -1 := by decide +kernel
      simp only [this]
      show (x.toNat : Int) + _ = _
      push_cast; ring
    · have h' : x.msb = false := by simpa using h
      rw [h', if_neg (by simp)]
      have hm := BitVec.toInt_eq_msb_cond x
      rw [h', if_neg (by simp)] at hm
      rw [hm]
      show (x.toNat : Int) + 2 ^ 128 * (0#128).toInt = _
      have : (0#128).toInt = 0 := by decide
      rw [this]; ring
  · show (x.toNat : Int) + 2 ^ 128 * (0#128).toInt = _
    have : (0#128).toInt = 0 := by decide
    rw [this]; ring

/-- the zero-extended product of two `i128` bit patterns -/
theorem zeroWidenMul_exact (x y : BitVec 128) :
    ∃ r, zeroWidenMul x y = some r ∧ r.unsigned.val = x.toNat * y.toNat := by
  obtain ⟨r, h, hv⟩ := U256.widenMul_exact x y
  refine ⟨r.signed, ?_, hv⟩
  unfold zeroWidenMul
  unfold U256.widenMul at h
  rw [h]; rfl

/-- signed widening multiplication is not implemented: it always panics -/
theorem widenMul_unimplemented (x y : BitVec 128) : widenMul x y = none := rfl

/-- `MIN` is the least value. Missing from the full property `MIN ≤ x ≤ MAX`: the upper bound,
which is false of the code, see `max_not_upper_bound`. -/
theorem consts_partial (x : I256) : min.val ≤ x.val := by
  have : min.val = -2 ^ 255 := by decide +kernel
  have := (val_range x).1
  omega

/-- **discrepancy**: `i256::MAX` is `-2^128 - 1`, a negative number, so it
does not bound the values of the type -/
theorem max_not_upper_bound : max.val = -(2 ^ 128) - 1 ∧ ∃ x : I256, max.val < x.val :=
  ⟨by decide +kernel, ⟨0, 0⟩, by decide +kernel⟩

end I256

/-! ## Primitive double-width integers -/

namespace Prim
variable {w : Nat}

/-- unsigned widening multiplication is exact for every width -/
theorem widenMul_exact (x y : BitVec w) : (widenMul x y).toNat = x.toNat * y.toNat := by
  unfold widenMul widen
  rw [BitVec.toNat_mul, BitVec.toNat_setWidth, BitVec.toNat_setWidth]
  have hx := x.isLt
  have hy := y.isLt
  have hp : (2 : Nat) ^ (2 * w) = 2 ^ w * 2 ^ w := by rw [← Nat.pow_add]; congr 1; omega
  have h1 : 2 ^ w ≤ 2 ^ (2 * w) := Nat.pow_le_pow_right (by omega) (by omega)
  rw [Nat.mod_eq_of_lt (by omega : x.toNat < 2 ^ (2 * w)),
    Nat.mod_eq_of_lt (by omega : y.toNat < 2 ^ (2 * w)), Nat.mod_eq_of_lt]
  rw [hp]
  exact Nat.mul_lt_mul'' hx hy

/-- zero-extending multiplication of the signed types multiplies the unsigned readings -/
theorem zeroWidenMul_exact (x y : BitVec w) : (zeroWidenMul x y).toNat = x.toNat * y.toNat :=
  widenMul_exact x y

/-- signed widening multiplication is exact for every width -/
theorem widenMulS_exact (x y : BitVec w) (hw : 0 < w) :
    (widenMulS x y).toInt = x.toInt * y.toInt := by
  unfold widenMulS widenS
  rw [BitVec.toInt_mul, BitVec.toInt_signExtend_of_le (by omega),
    BitVec.toInt_signExtend_of_le (by omega)]
  have x1 := @BitVec.le_toInt w x
  have x2 := @BitVec.toInt_lt w x
  have y1 := @BitVec.le_toInt w y
  have y2 := @BitVec.toInt_lt w y
  obtain ⟨k, rfl⟩ : ∃ k, w = k + 1 := ⟨w - 1, by omega⟩
  simp only [Nat.add_sub_cancel] at x1 x2 y1 y2
  have hp : (2 : Int) ^ (2 * (k + 1)) = 4 * (2 ^ k * 2 ^ k) := by
    rw [show 2 * (k + 1) = k + k + 2 by ring, pow_add, pow_add]; ring
  have hpn : (2 : Nat) ^ (2 * (k + 1)) = 4 * (2 ^ k * 2 ^ k) := by exact_mod_cast hp
  have hk : (0 : Int) < 2 ^ k := by positivity
  apply Int.bmod_eq_of_le
  · rw [hpn]; push_cast
    have : -(2 ^ k * 2 ^ k) ≤ x.toInt * y.toInt := by nlinarith
    have : (0 : Int) < 2 ^ k * 2 ^ k := by positivity
    omega
  · rw [hpn]; push_cast
    have : x.toInt * y.toInt ≤ 2 ^ k * 2 ^ k := by nlinarith
    have : (0 : Int) < 2 ^ k * 2 ^ k := by positivity
    omega

/-- `lo` and `hi` are the remainder and quotient by `2^w` -/
theorem lo_hi_exact (x : BitVec (2 * w)) :
    (lo x).toNat = x.toNat % 2 ^ w ∧ (hi x).toNat = x.toNat / 2 ^ w ∧
    x.toNat = (lo x).toNat + 2 ^ w * (hi x).toNat := by
  have hx := x.isLt
  have hp : (2 : Nat) ^ (2 * w) = 2 ^ w * 2 ^ w := by rw [← Nat.pow_add]; congr 1; omega
  have h1 : (lo x).toNat = x.toNat % 2 ^ w := by unfold lo; rw [BitVec.toNat_setWidth]
  have h2 : (hi x).toNat = x.toNat / 2 ^ w := by
    unfold hi
    rw [BitVec.toNat_setWidth, BitVec.toNat_ushiftRight, Nat.shiftRight_eq_div_pow,
      Nat.mod_eq_of_lt]
    rw [Nat.div_lt_iff_lt_mul (Nat.two_pow_pos _), ← hp]; exact hx
  refine ⟨h1, h2, ?_⟩
  rw [h1, h2]
  have := Nat.div_add_mod x.toNat (2 ^ w)
  omega

/-- the high half of a signed double-width integer is the same bits -/
theorem hiS_eq (x : BitVec (2 * w)) : hiS x = hi x := by
  apply BitVec.eq_of_getLsbD_eq
  intro i hi'
  unfold hiS hi
  simp only [BitVec.getLsbD_setWidth, BitVec.getLsbD_sshiftRight, BitVec.getLsbD_ushiftRight]
  have h1 : ¬ (2 * w ≤ i) := by omega
  have h2 : w + i < 2 * w := by omega
  simp [h1, h2]

/-- building from halves and taking halves are inverse, for the unsigned and the signed types -/
theorem fromLoHi_exact (l h : BitVec w) :
    (fromLoHi l h).toNat = l.toNat + 2 ^ w * h.toNat ∧ lo (fromLoHi l h) = l ∧
    hi (fromLoHi l h) = h ∧ fromLoHiS l h = fromLoHi l h := by
  have hl := l.isLt
  have hh := h.isLt
  have hp : (2 : Nat) ^ (2 * w) = 2 ^ w * 2 ^ w := by rw [← Nat.pow_add]; congr 1; omega
  have hle : 2 ^ w ≤ 2 ^ (2 * w) := Nat.pow_le_pow_right (by omega) (by omega)
  have h1 : (fromLoHi l h).toNat = l.toNat + 2 ^ w * h.toNat := by
    unfold fromLoHi zeroWiden widenHi widen
    rw [BitVec.toNat_or, BitVec.toNat_shiftLeft, BitVec.toNat_setWidth, BitVec.toNat_setWidth,
      Nat.mod_eq_of_lt (by omega), Nat.mod_eq_of_lt (by omega : h.toNat < _), Nat.shiftLeft_eq,
      Nat.mod_eq_of_lt (by rw [hp]; exact Nat.mul_lt_mul_of_pos_right hh (Nat.two_pow_pos _)),
      Nat.mul_comm, Nat.or_comm, ← Nat.two_pow_add_eq_or_of_lt hl, Nat.add_comm]
  obtain ⟨a1, a2, -⟩ := lo_hi_exact (fromLoHi l h)
  refine ⟨h1, ?_, ?_, ?_⟩
  · apply BitVec.eq_of_toNat_eq
    rw [a1, h1, Nat.add_mul_mod_self_left, Nat.mod_eq_of_lt hl]
  · apply BitVec.eq_of_toNat_eq
    rw [a2, h1, Nat.add_mul_div_left _ _ (Nat.two_pow_pos _), Nat.div_eq_of_lt hl, Nat.zero_add]
  · unfold fromLoHiS fromLoHi
    congr 1
    unfold widenHiS widenHi widenS widen
    apply BitVec.eq_of_getLsbD_eq
    intro i hi'
    simp only [BitVec.getLsbD_shiftLeft, BitVec.getLsbD_setWidth, BitVec.getLsbD_signExtend]
    by_cases hc : i < w
    · simp [hc]
    · have h2 : i - w < w := by omega
      have h3 : i - w < 2 * w := by omega
      simp [h2, h3]

example : (widenMulS (-3#8) (-128#8)).toInt = 384 := by decide

end Prim
end Verif
