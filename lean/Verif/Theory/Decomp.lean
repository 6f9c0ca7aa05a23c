import Verif.Theory.Add
import Verif.Theory.Integral
import Verif.Props.Basic
import Verif.Model.Decomp

/-! # Generic facts behind frexp / ilogb / modf / nextafter -/

namespace Verif
namespace Flt
variable {F : Fmt}

/-- bits `>> sb & expSat` is the exponent field -/
theorem expField_bits (x : Flt F) {m : BitVec F.bits} (hm : m.toNat = 2 ^ F.ew - 1) :
    ((x.toBits >>> F.sb) &&& m).toNat = x.expField := by
  rw [BV.and_low hm, BV.shr]; rfl

theorem signMask_cases (x : Flt F) :
    (x.toBits &&& signMask F) = (if x.sign then 1#F.bits else 0#F.bits) <<< (F.bits - 1) := by
  apply BitVec.eq_of_toNat_eq
  rw [and_signMask]
  have e : (x.sign = true) ↔ 2 ^ (F.ew + F.sb) ≤ x.toBits.toNat := by
    unfold sign enc; simp
  by_cases h : x.sign = true
  · rw [if_pos h, if_pos (e.mp h), BV.one_shl (by rw [F.bits_eq]; omega), bits_sub_one]
  · rw [if_neg h, if_neg (fun h' => h (e.mpr h'))]; simp

/-- a datum with only the sign bit of `x` -/
theorem sign_only (x : Flt F) : (⟨x.toBits &&& signMask F⟩ : Flt F) = zero F x.sign := by
  apply ext_enc
  show (x.toBits &&& signMask F).toNat = _
  rw [and_signMask]
  have e : (x.sign = true) ↔ 2 ^ (F.ew + F.sb) ≤ x.toBits.toNat := by
    unfold sign enc; simp
  rw [enc_eq, mb_zero, sign_zero]
  by_cases h : x.sign = true
  · rw [if_pos h, if_pos (e.mp h)]; simp
  · rw [if_neg h, if_neg (fun h' => h (e.mpr h'))]

/-- replace the exponent field -/
theorem replace_exp (x : Flt F) {c : BitVec F.bits} {k : Nat} (hk : k < 2 ^ F.ew)
    (hc : c = BitVec.ofNat F.bits k <<< F.sb) :
    (⟨(x.toBits &&& ~~~(expMask F)) ||| c⟩ : Flt F) = fromParts F x.sign k (frac x) := by
  unfold fromParts
  simp only [Flt.mk.injEq]
  rw [← signMask_cases, expSat_eq, Nat.and_two_pow_sub_one_eq_mod, Nat.mod_eq_of_lt hk, ← hc]
  unfold expMask frac
  rw [BitVec.not_not]
  rw [BitVec.and_assoc, BitVec.and_self]
  apply BitVec.eq_of_getLsbD_eq
  intro i hi
  simp only [BitVec.getLsbD_or, BitVec.getLsbD_and]
  cases x.toBits.getLsbD i <;> cases (signMask F).getLsbD i <;> cases (sigMask F).getLsbD i <;>
    cases c.getLsbD i <;> rfl

/-- product with a power of two, when exact -/
theorem mul_pow2_exact {x y : Flt F} (hx : x.isFinite) (hy : y.isFinite) {k : Nat}
    (hm : y.mag = 2 ^ k * F.oneMag) (hlt : x.mag * 2 ^ k < 2 ^ (2 * F.bias + F.sb)) :
    (x * y).isFinite ∧ (x * y).sign = (x.sign ^^ y.sign) ∧ (x * y).mag = x.mag * 2 ^ k := by
  rw [mul_finite hx hy]
  apply roundMag_rep F.oneMag_pos (rep_shift F.sb x.mb k) hlt
  rw [hm]; show x.mag * _ = x.mag * _ * _; ring

theorem normLoop_spec {w : Nat} (fuel : Nat) (i : BitVec w) (e : Int) (h0 : 0 < i.toNat)
    (hf : w - 1 - i.toNat.log2 < fuel) :
    normLoop fuel i e = some (e - (w - 1 - i.toNat.log2 : ℕ)) := by
  induction fuel generalizing i e with
  | zero => omega
  | succ fuel ih =>
    have hw : 0 < w := by
      rcases Nat.eq_zero_or_pos w with h | h
      · subst h; have := i.isLt; omega
      · exact h
    have hlt := i.isLt
    have hl : i.toNat.log2 < w := (Nat.log2_lt h0.ne').mpr hlt
    have hiff : i >>> (w - 1) = 0#w ↔ i.toNat.log2 < w - 1 := by
      rw [← BitVec.toNat_inj, BV.shr, Nat.log2_lt h0.ne']
      simp
    unfold normLoop
    by_cases hc : i.toNat.log2 < w - 1
    · rw [if_pos (hiff.mpr hc)]
      have h2 : i.toNat < 2 ^ (w - 1) := (Nat.log2_lt h0.ne').mp hc
      have h3 : (i <<< 1).toNat = 2 * i.toNat := by
        rw [BV.shl, Nat.mod_eq_of_lt]
        · omega
        · have : 2 ^ w = 2 ^ (w - 1) * 2 := by rw [← pow_succ]; congr 1; omega
          omega
      have h4 : (2 * i.toNat).log2 = i.toNat.log2 + 1 := by
        exact Nat.log2_two_mul h0.ne'
      rw [ih _ _ (by omega) (by rw [h3, h4]; omega), h3, h4]
      congr 1
      omega
    · rw [if_neg (fun h => hc (hiff.mp h))]
      have : w - 1 - i.toNat.log2 = 0 := by omega
      rw [this]; simp

end Flt
end Verif
