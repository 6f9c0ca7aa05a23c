import Verif.Model.Generic
import Verif.Theory.Bits

/-! # C01 fabs, C02 copysign -/

namespace Verif
open Flt Generic
variable {F : Fmt}

theorem enc_fabs (x : Flt F) : (fabs x).enc = x.mb := and_not_signMask _

/-- C01 (bits): `fabs` clears the sign bit and changes nothing else. -/
theorem fabs_bits (x : Flt F) :
    (fabs x).sign = false ∧ (fabs x).expField = x.expField ∧ (fabs x).fracField = x.fracField := by
  have h := enc_fabs x
  have hl := x.mb_lt
  have hm : (fabs x).mb = x.mb := by
    unfold mb at *; rw [h]; exact Nat.mod_mod _ _
  refine ⟨?_, ?_, ?_⟩
  · unfold sign; rw [h]; simp; exact hl
  · rw [expField_eq, expField_eq, hm]
  · rw [fracField_eq, fracField_eq, hm]

example : (fabs (ofNat f32 0xffc00001)) = ofNat f32 0x7fc00001 := by decide

/-- C01 (value): on finite arguments `fabs` is the absolute value; infinities and NaNs stay so. -/
theorem fabs_value (x : Flt F) :
    (fabs x).toRat = |x.toRat| ∧ ((fabs x).isFinite ↔ x.isFinite) ∧
    ((fabs x).isInf ↔ x.isInf) ∧ ((fabs x).isNaN ↔ x.isNaN) := by
  obtain ⟨h1, h2, h3⟩ := fabs_bits x
  have hm : (fabs x).mb = x.mb := by rw [mb_eq, mb_eq, h2, h3]
  refine ⟨?_, ?_, ?_, ?_⟩
  · rw [toRat_abs, toRat_eq, sval, h1, mag, hm, mag]; simp
  · rw [isFinite_iff, isFinite_iff, hm]
  · rw [isInf_iff, isInf_iff, hm]
  · rw [isNaN_iff, isNaN_iff, hm]

example : (ofNat f64 0xc000000000000000).toRat = -2 ∧
    (fabs (ofNat f64 0xc000000000000000)).toRat = 2 := by decide +kernel

/-- C02: `copysign x y` has `y`'s sign bit and otherwise `x`'s bits (also for NaNs). -/
theorem copysign_bits (x y : Flt F) :
    (copysign x y).sign = y.sign ∧ (copysign x y).expField = x.expField ∧
    (copysign x y).fracField = x.fracField := by
  have h : (copysign x y).enc = x.mb + if y.sign then 2 ^ (F.ew + F.sb) else 0 := by
    have hx := x.mb_lt
    unfold copysign enc
    simp only
    rw [BitVec.or_comm, BV.or_disjoint (k := F.ew + F.sb), and_not_signMask, and_signMask,
      Nat.add_comm]
    · congr 1
      unfold sign enc; simp
    · rw [and_signMask]; split <;> simp
    · rw [and_not_signMask]; exact hx
  have e : copysign x y = mk' F y.sign x.mb := by
    apply ext_enc; rw [h, enc_mk' x.mb_lt]
  have hm : (copysign x y).mb = x.mb := by rw [e, mb_mk' x.mb_lt]
  refine ⟨by rw [e, sign_mk' x.mb_lt], ?_, ?_⟩
  · rw [expField_eq, expField_eq, hm]
  · rw [fracField_eq, fracField_eq, hm]

example : copysign (ofNat f32 0x3f800000) (ofNat f32 0xffc00000) = ofNat f32 0xbf800000 := by decide

theorem copysign_eq (x y : Flt F) : copysign x y = mk' F y.sign x.mb := by
  obtain ⟨h1, h2, h3⟩ := copysign_bits x y
  exact eq_mk' _ h1 (by rw [mb_eq, mb_eq, h2, h3])

theorem fabs_eq (x : Flt F) : fabs x = mk' F false x.mb := by
  obtain ⟨h1, h2, h3⟩ := fabs_bits x
  exact eq_mk' _ h1 (by rw [mb_eq, mb_eq, h2, h3])

/-- C02 (value): magnitude of `x`, sign of `y`. -/
theorem copysign_value (x y : Flt F) :
    |(copysign x y).toRat| = |x.toRat| ∧ (0 ≤ (copysign x y).toRat ↔ y.sign = false ∨ x.toRat = 0)
    := by
  have hm : (copysign x y).mag = x.mag := by rw [copysign_eq, mag_mk' x.mb_lt]; rfl
  refine ⟨by rw [toRat_abs, toRat_abs, hm], ?_⟩
  have hs : (copysign x y).sign = y.sign := (copysign_bits x y).1
  have h0 : x.toRat = 0 ↔ x.mag = 0 := by rw [toRat_eq_zero, isZero_iff_mag]
  rw [h0, toRat_eq, sval, hs, hm]
  have hu := F.ulp_pos
  cases y.sign
  · simp; positivity
  · simp only [if_true, Bool.true_eq_false, false_or]
    push_cast
    constructor
    · intro h
      by_contra hne
      have : (0 : ℚ) < x.mag := by exact_mod_cast Nat.pos_of_ne_zero hne
      nlinarith [mul_pos this hu]
    · intro h; rw [h]; simp

end Verif
