import Verif.Theory.Rep
import Verif.Theory.Order

/-! # Sign/magnitude forms of addition, exact operations -/

namespace Verif
namespace Flt
variable {F : Fmt}

theorem roundMag_zero (s : Bool) (d : Nat) (hd : 0 < d) : roundMag F s 0 d = zero F s := by
  rw [roundMag_exact (b := 0) hd (Nat.zero_le _) (by simp)]; rfl

/-- sum of two finite numbers of the same sign -/
theorem add_same {x y : Flt F} (hx : x.isFinite) (hy : y.isFinite) (h : y.sign = x.sign) :
    x + y = roundMag F x.sign (x.mag + y.mag) 1 := by
  rw [add_finite hx hy]
  unfold sval
  rw [h]
  cases hs : x.sign
  · simp only [Bool.false_eq_true, if_false]
    split
    · rename_i h0
      have : x.mag + y.mag = 0 := by omega
      rw [this, roundMag_zero _ _ (by norm_num)]; simp
    · have e1 : ((x.mag : Int) + y.mag).natAbs = x.mag + y.mag := by omega
      have e2 : ¬ ((x.mag : Int) + y.mag < 0) := by omega
      rw [e1, decide_eq_false e2]
  · simp only [if_true]
    split
    · rename_i h0
      have : x.mag + y.mag = 0 := by omega
      rw [this, roundMag_zero _ _ (by norm_num)]; simp
    · have e1 : (-(x.mag : Int) + -y.mag).natAbs = x.mag + y.mag := by omega
      have e2 : (-(x.mag : Int) + -y.mag) < 0 := by omega
      rw [e1, decide_eq_true e2]

/-- sum of two finite numbers of opposite sign, the first one larger -/
theorem add_opp {x y : Flt F} (hx : x.isFinite) (hy : y.isFinite) (h : y.sign = !x.sign)
    (hlt : y.mag < x.mag) : x + y = roundMag F x.sign (x.mag - y.mag) 1 := by
  rw [add_finite hx hy]
  unfold sval
  rw [h]
  cases hs : x.sign
  · simp only [Bool.false_eq_true, if_false, Bool.not_false, if_true]
    have e1 : ((x.mag : Int) + -y.mag).natAbs = x.mag - y.mag := by omega
    have e2 : ¬ ((x.mag : Int) + -y.mag < 0) := by omega
    rw [if_neg (by omega), e1, decide_eq_false e2]
  · simp only [Bool.not_true, Bool.false_eq_true, if_false, if_true]
    have e1 : (-(x.mag : Int) + y.mag).natAbs = x.mag - y.mag := by omega
    have e2 : (-(x.mag : Int) + y.mag) < 0 := by omega
    rw [if_neg (by omega), e1, decide_eq_true e2]

/-- exact cancellation gives `+0` -/
theorem add_cancel {x y : Flt F} (hx : x.isFinite) (hy : y.isFinite) (h : y.sign = !x.sign)
    (he : y.mag = x.mag) : x + y = zero F false := by
  rw [add_finite hx hy]
  unfold sval
  rw [h, he]
  cases hs : x.sign <;> simp

/-- a finite result of a rounding whose exact value is representable -/
theorem roundMag_rep {s : Bool} {n d m : Nat} (hd : 0 < d) (hr : ∃ b, magOf F.sb b = m)
    (hm : m < 2 ^ (2 * F.bias + F.sb)) (h : n = m * d) :
    (roundMag F s n d).isFinite ∧ (roundMag F s n d).sign = s ∧ (roundMag F s n d).mag = m := by
  obtain ⟨b, hb⟩ := hr
  have hlt : b < F.infEnc := lt_infEnc_of_mag (by rw [hb]; exact hm)
  rw [roundMag_exact (b := b) hd hlt.le (by rw [hb]; exact h)]
  have hlt' := hlt.trans F.infEnc_lt
  refine ⟨?_, sign_mk' hlt', by rw [mag_mk' hlt', hb]⟩
  rw [isFinite_iff, mb_mk' hlt']; exact hlt

theorem eq_of_sign_mag {x y : Flt F} (hs : x.sign = y.sign) (hm : x.mag = y.mag) : x = y :=
  ext_mb hs (magOf_inj.mp hm)

theorem mag_rep (x : Flt F) : ∃ b, magOf F.sb b = x.mag := ⟨x.mb, rfl⟩

theorem sub_eq_add_neg' (x y : Flt F) : x - y = x + (-y) := rfl

theorem oneMag_lt_inf (F : Fmt) (k : Nat) (hk : k ≤ F.bias) :
    2 ^ k * F.oneMag < 2 ^ (2 * F.bias + F.sb) := by
  have := F.sb_lt_bias
  unfold Fmt.oneMag
  rw [← pow_add]
  exact Nat.pow_lt_pow_right (by norm_num) (by omega)

end Flt
end Verif
