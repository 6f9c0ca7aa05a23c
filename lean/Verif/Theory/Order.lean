import Verif.Theory.Arith

/-! # The comparison operators follow the order of the extended rationals -/

namespace Verif
namespace Flt
variable {F : Fmt}

theorem mag_lt_inf {x : Flt F} (hx : x.isFinite) : x.mag < 2 ^ (2 * F.bias + F.sb) := by
  rw [← F.magOf_infEnc, mag, magOf_lt]; exact x.isFinite_iff.mp hx

theorem mag_of_inf {x : Flt F} (hx : x.isInf) : x.mag = 2 ^ (2 * F.bias + F.sb) := by
  rw [← F.magOf_infEnc, mag, x.isInf_iff.mp hx]

theorem ext_finite {x : Flt F} (hx : x.isFinite) :
    x.ext = ((x.toRat : WithTop ℚ) : WithBot (WithTop ℚ)) := by
  unfold ext; rw [if_neg (not_inf_of_finite hx)]

theorem ext_lt_iff {x y : Flt F} (hx : ¬ x.isNaN) (hy : ¬ y.isNaN) :
    x.ext < y.ext ↔ x.sval < y.sval := by
  by_cases ix : x.isInf
  · by_cases iy : y.isInf
    · have mx := mag_of_inf ix
      have my := mag_of_inf iy
      have := Nat.two_pow_pos (2 * F.bias + F.sb)
      unfold ext sval
      rw [if_pos ix, if_pos iy, mx, my]
      cases x.sign <;> cases y.sign <;> simp
    · have mx := mag_of_inf ix
      have my := mag_lt_inf (finite_of_not hy iy)
      unfold ext sval
      rw [if_pos ix, if_neg iy, mx]
      generalize 2 ^ (2 * F.bias + F.sb) = W at *
      cases x.sign <;> cases y.sign <;> simp <;> try omega
  · by_cases iy : y.isInf
    · have mx := mag_lt_inf (finite_of_not hx ix)
      have my := mag_of_inf iy
      unfold ext sval
      rw [if_neg ix, if_pos iy]
      generalize 2 ^ (2 * F.bias + F.sb) = W at *
      have hq : ((x.toRat : WithTop ℚ) : WithBot (WithTop ℚ)) < ⊤ := by
        rw [← WithBot.coe_top, WithBot.coe_lt_coe]; exact WithTop.coe_lt_top _
      cases x.sign <;> cases y.sign <;> simp [hq] <;> omega
    · unfold ext
      rw [if_neg ix, if_neg iy, WithBot.coe_lt_coe, WithTop.coe_lt_coe, toRat_lt]

theorem ext_le_iff {x y : Flt F} (hx : ¬ x.isNaN) (hy : ¬ y.isNaN) :
    x.ext ≤ y.ext ↔ x.sval ≤ y.sval := by
  rw [← not_lt, ext_lt_iff hy hx, not_lt]

theorem ext_eq_iff {x y : Flt F} (hx : ¬ x.isNaN) (hy : ¬ y.isNaN) :
    x.ext = y.ext ↔ x.sval = y.sval := by
  rw [le_antisymm_iff, le_antisymm_iff, ext_le_iff hx hy, ext_le_iff hy hx]

theorem mul_one_self {x : Flt F} (hx : ¬ x.isNaN) : x * one F = x := by
  by_cases ix : x.isInf
  · show Flt.mul x (one F) = x
    have h1 := isFinite_one (F := F)
    have h2 : ¬ (one F).isZero := by
      rw [isZero_iff_mag, mag_one]; exact F.oneMag_pos.ne'
    have h3 : ¬ x.isZero := fun h => not_inf_of_finite (finite_of_zero h) ix
    unfold Flt.mul
    rw [if_neg (by simp [hx, not_nan_of_finite h1]), if_neg (by simp [h2, h3]),
      if_pos (Or.inl ix)]
    rw [sign_one, Bool.xor_false]; exact (eq_inf ix).symm
  · have fx := finite_of_not hx ix
    rw [mul_finite fx isFinite_one, mag_one, sign_one, Bool.xor_false, roundMag_self fx F.oneMag_pos]

theorem mul_nan_left {x y : Flt F} (hx : x.isNaN) : x * y = qnan F := by
  show Flt.mul x y = _
  unfold Flt.mul; rw [if_pos (Or.inl hx)]

theorem mul_one_isNaN {x : Flt F} : (x * one F).isNaN ↔ x.isNaN := by
  by_cases h : x.isNaN
  · rw [mul_nan_left h]; simp [h]
  · rw [mul_one_self h]

/-- equal values: the same datum, or two zeros -/
theorem sval_eq_cases {x y : Flt F} (h : x.sval = y.sval) : x = y ∨ (x.isZero ∧ y.isZero) := by
  by_cases h0 : x.sval = 0
  · right; exact ⟨x.isZero_iff_sval.mpr h0, y.isZero_iff_sval.mpr (h ▸ h0)⟩
  · left
    have hm : x.mag = y.mag := by rw [← natAbs_sval, ← natAbs_sval, h]
    apply ext_mb
    · unfold sval at h h0; cases hx : x.sign <;> cases hy : y.sign <;> simp_all
    · exact magOf_inj.mp hm

end Flt
end Verif
