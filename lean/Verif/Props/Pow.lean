import Verif.Theory.Trans
import Verif.Props.Scalbn
import Verif.Props.Sign
import Verif.Props.Sqrt
import Verif.Props.Log
import Verif.Model.Pow

/-!
# C29: special values of pow and powf
-/

namespace Verif
open Flt

/-- the value is an integer -/
def IsIntVal {F : Fmt} (y : Flt F) : Prop := y.isFinite ∧ ∃ k : ℤ, y.val = k
/-- the value is an odd integer -/
def IsOddVal {F : Fmt} (y : Flt F) : Prop := y.isFinite ∧ ∃ k : ℤ, y.val = 2 * k + 1

/-- The special values of a power function (C Annex F, F.10.4.4), and the exponents for which the result is given by
one exact or correctly rounded operation.  `s`-signed constants: `inf F s`, `zero F s`, `s = true` being negative. -/
structure IsPowFn {F : Fmt} (f : Flt F → Flt F → Option (Flt F)) (sq : Flt F → Option (Flt F)) : Prop where
  /-- `pow(x, ±0) = 1`, even for a NaN -/
  y_zero : ∀ x y, y.isZero → f x y = some (one F)
  /-- `pow(1, y) = 1`, even for a NaN -/
  x_one : ∀ y, f (one F) y = some (one F)
  /-- otherwise NaN in, NaN out -/
  nan : ∀ x y, x.isNaN ∨ y.isNaN → ¬ y.isZero → x ≠ one F → ∃ r, f x y = some r ∧ r.isNaN
  /-- negative base, exponent not an integer -/
  domain : ∀ x y, x.isFinite → x.val < 0 → y.isFinite → ¬ IsIntVal y → ∃ r, f x y = some r ∧ r.isNaN
  /-- `±0` to an odd power keeps the sign -/
  zero_odd : ∀ x y, x.isZero → IsOddVal y → f x y = some (if y.sign then inf F x.sign else zero F x.sign)
  /-- `±0` to any other power -/
  zero_other : ∀ x y, x.isZero → ¬ y.isNaN → ¬ y.isZero → ¬ IsOddVal y →
    f x y = some (if y.sign then inf F false else zero F false)
  /-- `pow(-1, ±inf) = 1` -/
  neg_one_inf : ∀ y, y.isInf → f (-one F) y = some (one F)
  /-- `-1` to an odd power -/
  neg_one_odd : ∀ y, IsOddVal y → f (-one F) y = some (-one F)
  /-- `-1` to an even power -/
  neg_one_even : ∀ y, IsIntVal y → ¬ IsOddVal y → f (-one F) y = some (one F)
  /-- infinite exponent, base below one in magnitude -/
  inf_small : ∀ x y, y.isInf → x.isFinite → |x.val| < 1 → f x y = some (if y.sign then inf F false else zero F false)
  /-- infinite exponent, base above one in magnitude -/
  inf_large : ∀ x y, y.isInf → x.isInf ∨ x.isFinite ∧ 1 < |x.val| →
    f x y = some (if y.sign then zero F false else inf F false)
  /-- `±inf` to an odd power keeps the sign -/
  base_inf_odd : ∀ x y, x.isInf → IsOddVal y → f x y = some (if y.sign then zero F x.sign else inf F x.sign)
  /-- `±inf` to any other power -/
  base_inf_other : ∀ x y, x.isInf → ¬ y.isNaN → ¬ y.isZero → ¬ IsOddVal y →
    f x y = some (if y.sign then zero F false else inf F false)
  /-- `pow(x, 1) = x` -/
  y_one : ∀ x y, ¬ x.isNaN → y.isFinite → y.val = 1 → f x y = some x
  /-- `pow(x, 2) = x * x` -/
  y_two : ∀ x y, ¬ x.isNaN → y.isFinite → y.val = 2 → f x y = some (x * x)
  /-- `pow(x, -1) = 1 / x` -/
  y_neg_one : ∀ x y, ¬ x.isNaN → y.isFinite → y.val = -1 → f x y = some (one F / x)
  /-- `pow(x, 0.5)` is the square root of a nonnegative `x` -/
  y_half : ∀ x y, ¬ x.isNaN → x.sign = false → y.isFinite → y.val = 1 / 2 → f x y = sq x
  /-- where `sq` is a correctly rounded square root -/
  sqrt : IsSqrt sq

namespace Flt
variable {F : Fmt}

theorem val_mul_oneMag (y : Flt F) : y.val * (F.oneMag : ℝ) = y.sval := by
  have h : ((F.oneMag : ℚ) : ℝ) * ((F.ulp : ℚ) : ℝ) = 1 := by exact_mod_cast F.oneMag_mul_ulp
  rw [val_eq]; push_cast at h
  linear_combination (y.sval : ℝ) * h

theorem oneMag_real_pos : (0 : ℝ) < (F.oneMag : ℝ) := by exact_mod_cast F.oneMag_pos

theorem val_eq_iff_sval (y : Flt F) (q : ℝ) : y.val = q ↔ (y.sval : ℝ) = q * (F.oneMag : ℝ) := by
  rw [← val_mul_oneMag]
  have := oneMag_real_pos (F := F)
  constructor
  · intro h; rw [h]
  · intro h; exact mul_right_cancel₀ this.ne' h

theorem sval_natAbs (y : Flt F) : y.sval.natAbs = y.mag := by unfold sval; split <;> simp

theorem isIntVal_iff (y : Flt F) (hy : y.isFinite) : IsIntVal y ↔ y.mag % F.oneMag = 0 := by
  unfold IsIntVal
  rw [← Nat.dvd_iff_mod_eq_zero, ← sval_natAbs, ← Int.natCast_dvd]
  constructor
  · rintro ⟨-, k, hk⟩
    rw [val_eq_iff_sval] at hk
    exact ⟨k, by have : y.sval = k * F.oneMag := by exact_mod_cast hk
                 rw [this]; ring⟩
  · rintro ⟨k, hk⟩
    refine ⟨hy, k, ?_⟩
    rw [val_eq_iff_sval, hk]; push_cast; ring

theorem isOddVal_iff (y : Flt F) (hy : y.isFinite) : IsOddVal y ↔ y.mag % F.oneMag = 0 ∧ y.mag / F.oneMag % 2 = 1 := by
  have hp := F.oneMag_pos
  constructor
  · rintro ⟨-, k, hk⟩
    rw [val_eq_iff_sval] at hk
    have h : y.sval = (2 * k + 1) * F.oneMag := by exact_mod_cast hk
    have h2 : y.mag = (2 * k + 1).natAbs * F.oneMag := by rw [← sval_natAbs, h, Int.natAbs_mul]; rfl
    rw [h2, Nat.mul_mod_left, Nat.mul_div_cancel _ hp]
    exact ⟨rfl, by omega⟩
  · rintro ⟨h1, h2⟩
    refine ⟨hy, ?_⟩
    obtain ⟨j, hj⟩ : ∃ j, y.mag / F.oneMag = 2 * j + 1 := ⟨y.mag / F.oneMag / 2, by omega⟩
    have hm : y.mag = (2 * j + 1) * F.oneMag := by
      rw [← hj]; exact (Nat.div_mul_cancel (Nat.dvd_of_mod_eq_zero h1)).symm
    cases hs : y.sign
    · refine ⟨j, ?_⟩
      rw [val_eq_iff_sval, sval_of_nonneg hs, hm]; push_cast; ring
    · refine ⟨-j - 1, ?_⟩
      rw [val_eq_iff_sval, sval_of_neg hs, hm]; push_cast; ring

/-- integrality and parity read off the encoding: `s` is the weight of the unit bit -/
theorem int_mid (y : Flt F) {s : ℕ} (hs : s ≤ F.sb) (hE : y.mb / 2 ^ F.sb + s = F.bias + F.sb) :
    (y.mag % F.oneMag = 0 ↔ y.mb % 2 ^ s = 0) ∧ y.mag / F.oneMag % 2 = y.mb / 2 ^ s % 2 := by
  have hb := F.sb_lt_bias
  set E := y.mb / 2 ^ F.sb with hEd
  have hmb : y.mb = E * 2 ^ F.sb + y.mb % 2 ^ F.sb := by rw [hEd]; exact (Nat.div_add_mod' _ _).symm
  set m := y.mb % 2 ^ F.sb with hm
  have hml : m < 2 ^ F.sb := Nat.mod_lt _ (Nat.two_pow_pos _)
  have hmag : y.mag = (2 ^ F.sb + m) * 2 ^ (E - 1) := by
    have := magOf_split F.sb (E - 1) (2 ^ F.sb + m) (by rw [pow_succ]; omega) (Or.inl (by omega))
    rw [← this]
    unfold mag
    congr 1
    obtain ⟨e, he⟩ : ∃ e, E = e + 1 := ⟨E - 1, by omega⟩
    rw [hmb, he, Nat.add_sub_cancel]; ring
  have hone : F.oneMag = 2 ^ s * 2 ^ (E - 1) := by
    rw [← pow_add]; unfold Fmt.oneMag; congr 1; omega
  have hp := Nat.two_pow_pos (E - 1)
  rw [hmag, hone, Nat.mul_mod_mul_right, Nat.mul_div_mul_right _ _ hp]
  have hsb : 2 ^ F.sb = 2 ^ (F.sb - s) * 2 ^ s := by rw [← pow_add]; congr 1; omega
  have hps := Nat.two_pow_pos s
  refine ⟨?_, ?_⟩
  · rw [Nat.mul_eq_zero, or_iff_left hp.ne']
    rw [hmb, hsb, ← mul_assoc, Nat.mul_add_mod', Nat.mul_add_mod']
  · rw [hmb, hsb, ← mul_assoc]
    rw [Nat.add_comm, Nat.add_mul_div_right _ _ hps, Nat.add_comm (E * _ * _), Nat.add_mul_div_right _ _ hps]
    by_cases h : s = F.sb
    · have hE1 : E = F.bias := by omega
      have hodd : F.bias % 2 = 1 := by
        unfold Fmt.bias
        have := F.hew
        obtain ⟨e, he⟩ : ∃ e, F.ew - 1 = e + 1 := ⟨F.ew - 2, by omega⟩
        rw [he, pow_succ]
        have := Nat.two_pow_pos e
        omega
      rw [h, Nat.sub_self, pow_zero, mul_one, hE1]; omega
    · obtain ⟨e, he⟩ : ∃ e, F.sb - s = e + 1 := ⟨F.sb - s - 1, by omega⟩
      rw [he, pow_succ, ← mul_assoc]; omega

theorem int_small (y : Flt F) (h0 : ¬ y.isZero) (hE : y.mb / 2 ^ F.sb < F.bias) : y.mag % F.oneMag ≠ 0 := by
  have h1 : y.mb < (one F).mb := by
    rw [mb_one]; exact (Nat.div_lt_iff_lt_mul (Nat.two_pow_pos _)).1 hE
  have h2 : y.mag < F.oneMag := by rw [← mag_one]; exact magOf_lt.2 h1
  rw [Nat.mod_eq_of_lt h2]
  have h3 : 0 < y.mag := magOf_pos.2 (by rw [isZero_iff] at h0; omega)
  omega

theorem int_large (y : Flt F) (hE : F.bias + F.sb < y.mb / 2 ^ F.sb) : y.mag % F.oneMag = 0 ∧ y.mag / F.oneMag % 2 = 0 := by
  have hb := F.sb_lt_bias
  set E := y.mb / 2 ^ F.sb with hEd
  have hmb : y.mb = E * 2 ^ F.sb + y.mb % 2 ^ F.sb := by rw [hEd]; exact (Nat.div_add_mod' _ _).symm
  set m := y.mb % 2 ^ F.sb with hm
  have hml : m < 2 ^ F.sb := Nat.mod_lt _ (Nat.two_pow_pos _)
  have hmag : y.mag = (2 ^ F.sb + m) * 2 ^ (E - 1) := by
    have := magOf_split F.sb (E - 1) (2 ^ F.sb + m) (by rw [pow_succ]; omega) (Or.inl (by omega))
    rw [← this]
    unfold mag
    congr 1
    obtain ⟨e, he⟩ : ∃ e, E = e + 1 := ⟨E - 1, by omega⟩
    rw [hmb, he, Nat.add_sub_cancel]; ring
  have hone : 2 ^ (E - 1) = 2 * 2 ^ (E - F.bias - F.sb - 1) * F.oneMag := by
    unfold Fmt.oneMag; rw [← pow_succ', ← pow_add]; congr 1; omega
  rw [hmag, hone, ← mul_assoc, Nat.mul_mod_left, Nat.mul_div_cancel _ F.oneMag_pos]
  refine ⟨rfl, ?_⟩
  rw [mul_left_comm]; omega

end Flt

namespace Pow
variable {F : Fmt}

/-- the decision structure shared by `pow` and `powf`, in terms of the value classes of the arguments -/
def sk (sq : Flt F → Option (Flt F)) (gen : Flt F → Flt F → Flt F → Option (Flt F)) (yi : Flt F → Flt F → Option ℤ)
    (x y : Flt F) : Option (Flt F) :=
  if y.isZero then some (one F)
  else if x.sign = false ∧ x.mag = F.oneMag then some (one F)
  else if x.isNaN ∨ y.isNaN then some (x + y)
  else (yi x y).bind fun k =>
    if y.isInf then
      if x.mag = F.oneMag then some (one F)
      else if F.oneMag ≤ x.mag then some (if y.sign = false then y else zero F false)
      else some (if y.sign = false then zero F false else -y)
    else if y.mag = F.oneMag then some (if y.sign = false then x else one F / x)
    else if y.mag = 2 * F.oneMag ∧ y.sign = false then some (x * x)
    else if 2 * y.mag = F.oneMag ∧ y.sign = false ∧ x.sign = false then sq x
    else if x.isInf ∨ x.isZero ∨ x.mag = F.oneMag then
      let z := mk' F false x.mb
      let z := if y.sign = true then one F / z else z
      if x.sign = true then
        if x.mag = F.oneMag ∧ k = 0 then some ((z - z) / (z - z))
        else if k = 1 then some (-z)
        else some z
      else some z
    else if x.sign = true then
      if k = 0 then some ((x - x) / (x - x))
      else if k = 1 then gen (-one F) x y
      else gen (one F) x y
    else gen (one F) x y

theorem one_div_one : one F / one F = one F := by
  have h := (div_rne (x := one F) (y := one F) (by simp) (by simp) (by rw [isZero_val]; simp)).exact_real
    (z := one F) (by simp) (by simp)
  have hs : (one F / one F).sval = (one F).sval := by
    have := (val_eq_iff_sval _ _).1 h.2
    have h2 := (val_eq_iff_sval (one F) 1).1 (by simp)
    norm_num at this h2
    exact_mod_cast this.trans h2.symm
  exact sval_eq_one hs

theorem eq_of_val_one {r : Flt F} (h : r.val = 1) : r = one F := by
  have := (val_eq_iff_sval _ _).1 h
  have h2 := (val_eq_iff_sval (one F) 1).1 (by simp)
  exact sval_eq_one (by exact_mod_cast this.trans h2.symm)
theorem eq_of_val_neg_one {r : Flt F} (h : r.val = -1) : r = -one F := by
  have := (val_eq_iff_sval _ _).1 h
  have h2 := (val_eq_iff_sval (-one F) (-1)).1 (by simp)
  exact sval_eq_neg_one (by exact_mod_cast this.trans h2.symm)

theorem one_mul_one : one F * one F = one F := by
  have h := (mul_rne (x := one F) (y := one F) (by simp) (by simp)).exact_real (z := one F) (by simp) (by simp)
  exact eq_of_val_one (by rw [h.2]; simp)
theorem neg_one_mul_neg_one : -one F * -one F = one F := by
  have h := (mul_rne (x := -one F) (y := -one F) (by simp) (by simp)).exact_real (z := one F) (by simp) (by simp)
  exact eq_of_val_one (by rw [h.2]; simp)
theorem one_div_neg_one : one F / -one F = -one F := by
  have h := (div_rne (x := one F) (y := -one F) (by simp) (by simp) (by rw [isZero_val]; simp)).exact_real
    (z := -one F) (by simp) (by rw [val_neg, val_one]; norm_num)
  exact eq_of_val_neg_one (by rw [h.2, val_neg, val_one]; norm_num)
theorem zero_mul_zero (s t : Bool) : zero F s * zero F t = zero F (s ^^ t) := by
  rw [mul_finite (by simp) (by simp)]
  have := roundMag_zero (F := F) (s ^^ t) F.oneMag F.oneMag_pos
  simpa using this

theorem nan_quot (z : Flt F) : ((z - z) / (z - z)).isNaN := by
  by_cases hf : z.isFinite
  · exact make_nan (self_sub_zero hf)
  · have : (z - z) = qnan F := by
      by_cases hn : z.isNaN
      · exact sub_nan (Or.inl hn)
      · have hi : z.isInf := by rw [isFinite_iff] at hf; rw [isNaN_iff] at hn; rw [isInf_iff]; omega
        exact inf_sub_inf hi hi rfl
    rw [this, div_nan (Or.inl isNaN_qnan)]; exact isNaN_qnan

theorem abs_val_lt_one (x : Flt F) : |x.val| < 1 ↔ x.mag < F.oneMag := by
  have h := val_mul_oneMag x
  have hp := oneMag_real_pos (F := F)
  have h2 : |x.val| * (F.oneMag : ℝ) = x.mag := by
    rw [← abs_of_pos hp, ← abs_mul, h, ← sval_natAbs, Nat.cast_natAbs, Int.cast_abs]
  rw [← mul_lt_mul_iff_left₀ hp, h2, one_mul]
  exact_mod_cast Iff.rfl

theorem one_lt_abs_val (x : Flt F) : 1 < |x.val| ↔ F.oneMag < x.mag := by
  have h := val_mul_oneMag x
  have hp := oneMag_real_pos (F := F)
  have h2 : |x.val| * (F.oneMag : ℝ) = x.mag := by
    rw [← abs_of_pos hp, ← abs_mul, h, ← sval_natAbs, Nat.cast_natAbs, Int.cast_abs]
  rw [← mul_lt_mul_iff_left₀ hp, h2, one_mul]
  exact_mod_cast Iff.rfl

theorem pos_data {y : Flt F} (h : 0 < y.val) : y.sign = false ∧ (y.mag : ℝ) = y.val * F.oneMag := by
  have h1 := val_mul_oneMag y
  have hp := oneMag_real_pos (F := F)
  have h2 : (0 : ℝ) < y.sval := by rw [← h1]; exact mul_pos h hp
  cases hs : y.sign
  · rw [sval_of_nonneg hs] at h1; exact ⟨rfl, by rw [h1]; norm_cast⟩
  · rw [sval_of_neg hs] at h2
    have : (0 : ℤ) < -(y.mag : ℤ) := by exact_mod_cast h2
    omega

theorem neg_data {y : Flt F} (h : y.val < 0) : y.sign = true ∧ (y.mag : ℝ) = -y.val * F.oneMag := by
  have h1 := val_mul_oneMag y
  have hp := oneMag_real_pos (F := F)
  have h2 : (y.sval : ℝ) < 0 := by rw [← h1]; exact mul_neg_of_neg_of_pos h hp
  cases hs : y.sign
  · rw [sval_of_nonneg hs] at h2
    have : (y.mag : ℤ) < 0 := by exact_mod_cast h2
    omega
  · rw [sval_of_neg hs] at h1; exact ⟨rfl, by rw [neg_mul, h1]; push_cast; ring⟩

theorem inf_mag {x : Flt F} (h : x.isInf) : F.oneMag < x.mag := by
  rw [← mag_one]
  refine magOf_lt.2 ?_
  rw [(isInf_iff _).1 h]
  exact (isFinite_iff _).1 isFinite_one
theorem zero_mag {x : Flt F} (h : x.isZero) : x.mag = 0 := by
  unfold mag; rw [(isZero_iff _).1 h, magOf_zero]

theorem mk_inf {x : Flt F} (h : x.isInf) : mk' F false x.mb = inf F false := by
  rw [(isInf_iff _).1 h]; rfl
theorem mk_zero {x : Flt F} (h : x.isZero) : mk' F false x.mb = zero F false := by
  rw [(isZero_iff _).1 h]; rfl
theorem mk_one {x : Flt F} (h : x.mag = F.oneMag) : mk' F false x.mb = one F := by
  rw [← mag_one] at h
  rw [magOf_inj.1 h]
  exact (eq_mk' _ Flt.sign_one rfl).symm
theorem eq_of_mag_one {x : Flt F} (h : x.mag = F.oneMag) (hs : x.sign = true) : x = -one F :=
  eq_of_sign_mag (by rw [hs, Flt.sign_neg, Flt.sign_one]; rfl) (by rw [h, mag_neg, mag_one])

theorem neg_infF (s : Bool) : -inf F s = inf F (!s) := by
  apply ext_mb
  · rw [Flt.sign_neg, sign_inf, sign_inf]
  · rw [mb_neg, mb_inf, mb_inf]
theorem neg_zeroF (s : Bool) : -zero F s = zero F (!s) := by
  apply ext_mb
  · rw [Flt.sign_neg, sign_zero, sign_zero]
  · rw [mb_neg, mb_zero, mb_zero]
theorem not_nan_neg_one : ¬ (-one F).isNaN := fun h => not_nan_of_finite (isFinite_one (F := F)) ((isNaN_neg _).1 h)

theorem one_div_inf (s : Bool) : one F / inf F s = zero F s := by
  rw [div_inf isFinite_one (by simp), Flt.sign_one, sign_inf, Bool.false_xor]
theorem one_div_zero (s : Bool) : one F / zero F s = inf F s := by
  rw [Verif.div_zero (not_nan_of_finite isFinite_one) (by rw [isZero_val]; simp) (by simp), Flt.sign_one, sign_zero,
    Bool.false_xor]
theorem not_zero_of_inf {x : Flt F} (h : x.isInf) : ¬ x.isZero := fun hz => not_inf_of_finite (finite_of_zero hz) h

theorem odd_finite {y : Flt F} (h : IsOddVal y) : y.isFinite := h.1
theorem odd_not_zero {y : Flt F} (h : IsOddVal y) : ¬ y.isZero := by
  intro hz
  obtain ⟨hf, k, hk⟩ := h
  rw [isZero_val.1 hz] at hk
  have : (2 * k + 1 : ℤ) = 0 := by exact_mod_cast hk.symm
  omega
theorem odd_int {y : Flt F} (h : IsOddVal y) : IsIntVal y := by
  obtain ⟨hf, k, hk⟩ := h
  exact ⟨hf, 2 * k + 1, by rw [hk]; push_cast; ring⟩
theorem odd_one {y : Flt F} (hy : y.isFinite) (h : y.mag = F.oneMag) : IsOddVal y := by
  rw [isOddVal_iff y hy, h, Nat.mod_self, Nat.div_self F.oneMag_pos]; exact ⟨rfl, rfl⟩
theorem not_odd_two {y : Flt F} (h : y.mag = 2 * F.oneMag) : ¬ IsOddVal y := by
  intro ho
  rw [isOddVal_iff y ho.1, h, Nat.mul_div_cancel _ F.oneMag_pos] at ho
  exact absurd ho.2 (by decide)
theorem int_two {y : Flt F} (hy : y.isFinite) (h : y.mag = 2 * F.oneMag) : IsIntVal y := by
  rw [isIntVal_iff y hy, h, Nat.mul_mod_left]
theorem not_int_half {y : Flt F} (h : 2 * y.mag = F.oneMag) : ¬ IsIntVal y := by
  intro ho
  have hp := F.oneMag_pos
  rw [isIntVal_iff y ho.1, Nat.mod_eq_of_lt (by omega)] at ho
  omega

theorem sk_spec {sq : Flt F → Option (Flt F)} {gen : Flt F → Flt F → Flt F → Option (Flt F)}
    {yi : Flt F → Flt F → Option ℤ} (hsq : IsSqrt sq)
    (hyi : ∀ x y, ¬ y.isNaN → ∃ k, yi x y = some k ∧
      (x.sign = true → y.isFinite → ¬ y.isZero → (k = 1 ↔ IsOddVal y) ∧ (k = 0 ↔ ¬ IsIntVal y))) :
    IsPowFn (sk sq gen yi) sq where
  sqrt := hsq
  y_zero x y h := by unfold sk; rw [if_pos h]
  x_one y := by
    unfold sk
    by_cases h : y.isZero
    · rw [if_pos h]
    · rw [if_neg h, if_pos ⟨Flt.sign_one, mag_one⟩]
  nan x y h h0 h1 := by
    unfold sk
    rw [if_neg h0, if_neg, if_pos h, add_nan h]
    · exact ⟨_, rfl, isNaN_qnan⟩
    · intro hc
      exact h1 (eq_of_sign_mag (by rw [hc.1, Flt.sign_one]) (by rw [hc.2, mag_one]))
  domain x y hx hxn hy hni := by
    obtain ⟨hs, hm⟩ := neg_data hxn
    have hyz : ¬ y.isZero := fun h => hni ⟨hy, 0, by rw [isZero_val.1 h]; simp⟩
    obtain ⟨k, hk, hk2⟩ := hyi x y (not_nan_of_finite hy)
    have hk0 : k = 0 := (hk2 hs hy hyz).2.2 hni
    unfold sk
    rw [if_neg hyz, if_neg (fun h => by rw [hs] at h; exact absurd h.1 (by decide)),
      if_neg (fun h => h.elim (not_nan_of_finite hx) (not_nan_of_finite hy)), hk, Option.bind_some,
      if_neg (not_inf_of_finite hy), if_neg (fun h => hni (odd_int (odd_one hy h))),
      if_neg (fun h => hni (int_two hy h.1)), if_neg (fun h => by rw [hs] at h; exact absurd h.2.2 (by decide))]
    dsimp only
    by_cases hc : x.mag = F.oneMag
    · rw [if_pos (Or.inr (Or.inr hc)), if_pos hs, if_pos ⟨hc, hk0⟩]
      exact ⟨_, rfl, nan_quot _⟩
    · rw [if_neg, if_pos hs, if_pos hk0]
      · exact ⟨_, rfl, nan_quot _⟩
      · rintro (h | h | h)
        · exact not_inf_of_finite hx h
        · rw [isZero_val.1 h] at hxn; exact lt_irrefl _ hxn
        · exact hc h
  zero_odd x y hx hy := by
    obtain ⟨k, hk, hk2⟩ := hyi x y (not_nan_of_finite hy.1)
    have hxm := zero_mag hx
    have hp := F.oneMag_pos
    unfold sk
    rw [if_neg (odd_not_zero hy), if_neg (fun h => by omega),
      if_neg (fun h => h.elim (not_nan_of_finite (finite_of_zero hx)) (not_nan_of_finite hy.1)), hk, Option.bind_some,
      if_neg (not_inf_of_finite hy.1)]
    dsimp only
    by_cases h1 : y.mag = F.oneMag
    · rw [if_pos h1]
      cases hs : y.sign
      · rw [if_pos rfl, if_neg (by decide), eq_zero hx, sign_zero]
      · rw [if_neg (by decide), if_pos rfl, eq_zero hx, one_div_zero, sign_zero]
    · rw [if_neg h1, if_neg (fun h => not_odd_two h.1 hy), if_neg (fun h => not_int_half h.1 (odd_int hy)),
        if_pos (Or.inr (Or.inl hx)), mk_zero hx]
      have hz : (if y.sign = true then one F / zero F false else zero F false) =
          (if y.sign = true then inf F false else zero F false) := by rw [one_div_zero]
      rw [hz]
      cases hsx : x.sign
      · rw [if_neg (by decide)]
      · rw [if_pos rfl, if_neg (fun h => by omega), if_pos ((hk2 hsx hy.1 (odd_not_zero hy)).1.2 hy)]
        cases y.sign <;> simp [neg_infF, neg_zeroF]
  zero_other x y hx hyn hyz hyo := by
    obtain ⟨k, hk, hk2⟩ := hyi x y hyn
    have hxm := zero_mag hx
    have hp := F.oneMag_pos
    unfold sk
    rw [if_neg hyz, if_neg (fun h => by omega),
      if_neg (fun h => h.elim (not_nan_of_finite (finite_of_zero hx)) hyn), hk, Option.bind_some]
    dsimp only
    by_cases hyi : y.isInf
    · rw [if_pos hyi, if_neg (by omega), if_neg (by omega)]
      cases hs : y.sign
      · rfl
      · rw [if_neg (by decide), if_pos rfl, eq_inf hyi, hs, neg_infF]; rfl
    have hyf : y.isFinite := by rcases class_cases y with h | h | h; exacts [absurd h hyn, absurd h hyi, h]
    rw [if_neg hyi, if_neg (fun h => hyo (odd_one hyf h))]
    by_cases h2 : y.mag = 2 * F.oneMag ∧ y.sign = false
    · rw [if_pos h2, h2.2, eq_zero hx, zero_mul_zero]
      cases x.sign <;> rfl
    rw [if_neg h2]
    by_cases h3 : 2 * y.mag = F.oneMag ∧ y.sign = false ∧ x.sign = false
    · rw [if_pos h3, h3.2.1, hsq.zero x hx, eq_zero hx, h3.2.2]; rfl
    rw [if_neg h3, if_pos (Or.inr (Or.inl hx)), mk_zero hx, one_div_zero]
    cases hsx : x.sign
    · rw [if_neg (by decide)]
    · rw [if_pos rfl, if_neg (fun h => by omega), if_neg (fun h => hyo ((hk2 hsx hyf hyz).1.1 h))]
  neg_one_inf y hy := by
    obtain ⟨k, hk, -⟩ := hyi (-one F) y (not_nan_of_inf hy)
    unfold sk
    rw [if_neg (not_zero_of_inf hy), if_neg (fun h => by simp at h),
      if_neg (fun h => h.elim not_nan_neg_one (not_nan_of_inf hy)), hk, Option.bind_some,
      if_pos hy, if_pos (by rw [mag_neg, mag_one])]
  neg_one_odd y hy := by
    obtain ⟨k, hk, hk2⟩ := hyi (-one F) y (not_nan_of_finite hy.1)
    have hs1 : (-one F).sign = true := by rw [Flt.sign_neg, Flt.sign_one]; rfl
    have hm1 : (-one F).mag = F.oneMag := by rw [mag_neg, mag_one]
    have hk1 := (hk2 hs1 hy.1 (odd_not_zero hy)).1.2 hy
    unfold sk
    rw [if_neg (odd_not_zero hy), if_neg (fun h => by rw [hs1] at h; exact absurd h.1 (by decide)),
      if_neg (fun h => h.elim not_nan_neg_one (not_nan_of_finite hy.1)), hk, Option.bind_some,
      if_neg (not_inf_of_finite hy.1)]
    dsimp only
    by_cases h1 : y.mag = F.oneMag
    · rw [if_pos h1]
      cases hs : y.sign
      · rw [if_pos rfl]
      · rw [if_neg (by decide), one_div_neg_one]
    · rw [if_neg h1, if_neg (fun h => not_odd_two h.1 hy), if_neg (fun h => not_int_half h.1 (odd_int hy)),
        if_pos (Or.inr (Or.inr hm1)), mk_one hm1, one_div_one, ite_self, if_pos hs1,
        if_neg (fun h => by omega), if_pos hk1]
  neg_one_even y hy hyo := by
    obtain ⟨k, hk, hk2⟩ := hyi (-one F) y (not_nan_of_finite hy.1)
    have hs1 : (-one F).sign = true := by rw [Flt.sign_neg, Flt.sign_one]; rfl
    have hm1 : (-one F).mag = F.oneMag := by rw [mag_neg, mag_one]
    unfold sk
    by_cases hz : y.isZero
    · rw [if_pos hz]
    have hk1 : k ≠ 1 := fun h => hyo ((hk2 hs1 hy.1 hz).1.1 h)
    have hk0 : k ≠ 0 := fun h => ((hk2 hs1 hy.1 hz).2.1 h) hy
    rw [if_neg hz, if_neg (fun h => by rw [hs1] at h; exact absurd h.1 (by decide)),
      if_neg (fun h => h.elim not_nan_neg_one (not_nan_of_finite hy.1)), hk, Option.bind_some,
      if_neg (not_inf_of_finite hy.1)]
    dsimp only
    rw [if_neg (fun h => hyo (odd_one hy.1 h))]
    by_cases h2 : y.mag = 2 * F.oneMag ∧ y.sign = false
    · rw [if_pos h2, neg_one_mul_neg_one]
    rw [if_neg h2, if_neg (fun h => by rw [hs1] at h; exact absurd h.2.2 (by decide)),
        if_pos (Or.inr (Or.inr hm1)), mk_one hm1, one_div_one, ite_self, if_pos hs1,
        if_neg (fun h => hk0 h.2), if_neg hk1]
  inf_small x y hy hx h := by
    obtain ⟨k, hk, -⟩ := hyi x y (not_nan_of_inf hy)
    rw [abs_val_lt_one] at h
    unfold sk
    rw [if_neg (not_zero_of_inf hy), if_neg (fun h => by omega),
      if_neg (fun h => h.elim (not_nan_of_finite hx) (not_nan_of_inf hy)), hk, Option.bind_some,
      if_pos hy, if_neg (by omega), if_neg (by omega)]
    cases hs : y.sign
    · rfl
    · rw [if_neg (by decide), if_pos rfl, eq_inf hy, hs, neg_infF]; rfl
  inf_large x y hy h := by
    obtain ⟨k, hk, -⟩ := hyi x y (not_nan_of_inf hy)
    have hm : F.oneMag < x.mag := by
      rcases h with h | h
      · exact inf_mag h
      · exact (one_lt_abs_val x).1 h.2
    have hn : ¬ x.isNaN := by
      rcases h with h | h
      · exact not_nan_of_inf h
      · exact not_nan_of_finite h.1
    unfold sk
    rw [if_neg (not_zero_of_inf hy), if_neg (fun h => by omega),
      if_neg (fun h => h.elim hn (not_nan_of_inf hy)), hk, Option.bind_some,
      if_pos hy, if_neg (by omega), if_pos hm.le]
    cases hs : y.sign
    · rw [if_pos rfl, if_neg (by decide), eq_inf hy, hs]
    · rfl
  base_inf_odd x y hx hy := by
    obtain ⟨k, hk, hk2⟩ := hyi x y (not_nan_of_finite hy.1)
    have hxm := inf_mag hx
    unfold sk
    rw [if_neg (odd_not_zero hy), if_neg (fun h => by omega),
      if_neg (fun h => h.elim (not_nan_of_inf hx) (not_nan_of_finite hy.1)), hk, Option.bind_some,
      if_neg (not_inf_of_finite hy.1)]
    dsimp only
    by_cases h1 : y.mag = F.oneMag
    · rw [if_pos h1]
      cases hs : y.sign
      · rw [if_pos rfl, if_neg (by decide), ← eq_inf hx]
      · rw [if_neg (by decide), if_pos rfl, ← one_div_inf, ← eq_inf hx]
    · rw [if_neg h1, if_neg (fun h => not_odd_two h.1 hy), if_neg (fun h => not_int_half h.1 (odd_int hy)),
        if_pos (Or.inl hx), mk_inf hx, one_div_inf]
      cases hsx : x.sign
      · rw [if_neg (by decide)]
      · rw [if_pos rfl, if_neg (fun h => by omega), if_pos ((hk2 hsx hy.1 (odd_not_zero hy)).1.2 hy)]
        cases y.sign <;> simp [neg_infF, neg_zeroF]
  base_inf_other x y hx hyn hyz hyo := by
    obtain ⟨k, hk, hk2⟩ := hyi x y hyn
    have hxm := inf_mag hx
    unfold sk
    rw [if_neg hyz, if_neg (fun h => by omega),
      if_neg (fun h => h.elim (not_nan_of_inf hx) hyn), hk, Option.bind_some]
    dsimp only
    by_cases hyi : y.isInf
    · rw [if_pos hyi, if_neg (by omega), if_pos hxm.le]
      cases hs : y.sign
      · rw [if_pos rfl, if_neg (by decide), eq_inf hyi, hs]
      · rfl
    have hyf : y.isFinite := by rcases class_cases y with h | h | h; exacts [absurd h hyn, absurd h hyi, h]
    rw [if_neg hyi, if_neg (fun h => hyo (odd_one hyf h))]
    by_cases h2 : y.mag = 2 * F.oneMag ∧ y.sign = false
    · rw [if_pos h2, h2.2, inf_mul hx (not_nan_of_inf hx) (not_zero_of_inf hx), Bool.xor_self]; rfl
    rw [if_neg h2]
    by_cases h3 : 2 * y.mag = F.oneMag ∧ y.sign = false ∧ x.sign = false
    · rw [if_pos h3, h3.2.1, hsq.inf x hx h3.2.2, eq_inf hx, h3.2.2]; rfl
    rw [if_neg h3, if_pos (Or.inl hx), mk_inf hx, one_div_inf]
    cases hsx : x.sign
    · rw [if_neg (by decide)]
    · rw [if_pos rfl, if_neg (fun h => by omega), if_neg (fun h => hyo ((hk2 hsx hyf hyz).1.1 h))]
  y_one x y hx hy h := by
    obtain ⟨hs, hm⟩ := pos_data (y := y) (by rw [h]; norm_num)
    have hm1 : y.mag = F.oneMag := by rw [h, one_mul] at hm; exact_mod_cast hm
    obtain ⟨k, hk, -⟩ := hyi x y (not_nan_of_finite hy)
    unfold sk
    rw [if_neg (odd_not_zero (odd_one hy hm1))]
    by_cases hx1 : x.sign = false ∧ x.mag = F.oneMag
    · rw [if_pos hx1, eq_of_sign_mag (x := x) (y := one F) (by rw [hx1.1, Flt.sign_one]) (by rw [hx1.2, mag_one])]
    rw [if_neg hx1, if_neg (fun h => h.elim hx (not_nan_of_finite hy)), hk, Option.bind_some,
      if_neg (not_inf_of_finite hy), if_pos hm1, if_pos hs]
  y_neg_one x y hx hy h := by
    obtain ⟨hs, hm⟩ := neg_data (y := y) (by rw [h]; norm_num)
    have hm1 : y.mag = F.oneMag := by rw [h, _root_.neg_neg, one_mul] at hm; exact_mod_cast hm
    obtain ⟨k, hk, -⟩ := hyi x y (not_nan_of_finite hy)
    unfold sk
    rw [if_neg (odd_not_zero (odd_one hy hm1))]
    by_cases hx1 : x.sign = false ∧ x.mag = F.oneMag
    · rw [if_pos hx1, eq_of_sign_mag (x := x) (y := one F) (by rw [hx1.1, Flt.sign_one]) (by rw [hx1.2, mag_one]),
        one_div_one]
    rw [if_neg hx1, if_neg (fun h => h.elim hx (not_nan_of_finite hy)), hk, Option.bind_some,
      if_neg (not_inf_of_finite hy), if_pos hm1, if_neg (by rw [hs]; decide)]
  y_two x y hx hy h := by
    obtain ⟨hs, hm⟩ := pos_data (y := y) (by rw [h]; norm_num)
    have hm1 : y.mag = 2 * F.oneMag := by rw [h] at hm; exact_mod_cast hm
    have hp := F.oneMag_pos
    have hz : ¬ y.isZero := fun h => by have := zero_mag h; omega
    obtain ⟨k, hk, -⟩ := hyi x y (not_nan_of_finite hy)
    unfold sk
    rw [if_neg hz]
    by_cases hx1 : x.sign = false ∧ x.mag = F.oneMag
    · rw [if_pos hx1, eq_of_sign_mag (x := x) (y := one F) (by rw [hx1.1, Flt.sign_one]) (by rw [hx1.2, mag_one]),
        one_mul_one]
    rw [if_neg hx1, if_neg (fun h => h.elim hx (not_nan_of_finite hy)), hk, Option.bind_some,
      if_neg (not_inf_of_finite hy), if_neg (by omega), if_pos ⟨hm1, hs⟩]
  y_half x y hx hxs hy h := by
    obtain ⟨hs, hm⟩ := pos_data (y := y) (by rw [h]; norm_num)
    have hm1 : 2 * y.mag = F.oneMag := by
      rw [h] at hm
      have : (2 : ℝ) * y.mag = F.oneMag := by rw [hm]; ring
      exact_mod_cast this
    have hp := F.oneMag_pos
    have hz : ¬ y.isZero := fun h => by have := zero_mag h; omega
    obtain ⟨k, hk, -⟩ := hyi x y (not_nan_of_finite hy)
    unfold sk
    rw [if_neg hz]
    by_cases hx1 : x.sign = false ∧ x.mag = F.oneMag
    · have e := eq_of_sign_mag (x := x) (y := one F) (by rw [hx1.1, Flt.sign_one]) (by rw [hx1.2, mag_one])
      rw [if_pos hx1, e]
      obtain ⟨r, h1, h2⟩ := hsq.exact (x := one F) (q := one F) (by simp) (by simp) Flt.sign_one (by simp)
        (by rw [isZero_val]; simp) (by simp)
      rw [h1]
      congr 1
      refine (sval_eq_one ?_).symm
      have h3 : r.val = (one F).val := by unfold val; rw [h2]
      have h4 := val_mul_oneMag r
      rw [h3, val_mul_oneMag] at h4
      exact_mod_cast h4.symm
    rw [if_neg hx1, if_neg (fun h => h.elim hx (not_nan_of_finite hy)), hk, Option.bind_some,
      if_neg (not_inf_of_finite hy), if_neg (by omega), if_neg (fun h => by omega), if_pos ⟨hm1, hs, hxs⟩]


theorem sh32_some {s : ℤ} {n : ℕ} (h : s = n) (hn : n < 32) : sh32 s = some n := by
  unfold sh32; rw [if_pos ⟨by omega, by omega⟩, h]; rfl

theorem sub_zero_iff (a b : BitVec 32) : a - b = 0 ↔ a = b := by
  rw [← BitVec.toNat_inj, ← BitVec.toNat_inj, BitVec.toNat_sub, show (0 : BitVec 32).toNat = 0 by rfl]
  have := a.isLt
  have := b.isLt
  omega

theorem hi_toInt_neg (x : Flt f64) : (getHighWord x).toInt < 0 ↔ x.sign = true := by
  have h := hi_toNat x
  have hm := mb64_lt x
  rw [BitVec.toInt_eq_toNat_cond]
  cases hs : x.sign
  · rw [hs, if_neg (by decide)] at h
    rw [if_pos (by omega)]; simp
  · rw [hs, if_pos rfl] at h
    rw [if_neg (by omega)]; simp only [iff_true]; push_cast; omega

theorem u32_toInt_neg (x : Flt f32) : x.u32.toInt < 0 ↔ x.sign = true := by
  have h := u32_toNat x
  have hm := mb32_lt x
  rw [BitVec.toInt_eq_toNat_cond]
  cases hs : x.sign
  · rw [hs, if_neg (by decide)] at h
    rw [if_pos (by omega)]; simp
  · rw [hs, if_pos rfl] at h
    rw [if_neg (by omega)]; simp only [iff_true]; push_cast; omega

theorem shr_shl_eq (v : BitVec 32) (s : ℕ) : (v >>> s) <<< s = v ↔ v.toNat % 2 ^ s = 0 := by
  rw [← BitVec.toNat_inj, BitVec.toNat_shiftLeft, BitVec.toNat_ushiftRight, Nat.shiftLeft_eq, Nat.shiftRight_eq_div_pow]
  have h := Nat.div_add_mod' v.toNat (2 ^ s)
  have h1 : v.toNat / 2 ^ s * 2 ^ s < 2 ^ 32 := by have := v.isLt; omega
  rw [Nat.mod_eq_of_lt h1]
  omega

theorem and_one (v : BitVec 32) : (v &&& 1#32).toNat = v.toNat % 2 := by
  rw [BitVec.toNat_and, show (1#32).toNat = 1 by rfl, Nat.and_one_is_mod]

theorem yisint_spec (x y : Flt f64) :
    ∃ k, yisint (getHighWord x) (getHighWord y &&& 0x7fffffff#32) (getLowWord y) = some k ∧
      (x.sign = true → y.isFinite → ¬ y.isZero → (k = 1 ↔ IsOddVal y) ∧ (k = 0 ↔ ¬ IsIntVal y)) := by
  have hiy := hi_abs y
  have hly := lo_toNat y
  have hm := mb64_lt y
  generalize getHighWord y &&& 0x7fffffff#32 = iy at *
  generalize getLowWord y = ly at *
  unfold yisint
  by_cases hs : x.sign = true
  swap
  · rw [if_neg (fun h => hs ((hi_toInt_neg x).1 h))]
    exact ⟨0, rfl, fun h => absurd h hs⟩
  rw [if_pos ((hi_toInt_neg x).2 hs)]
  have hE : y.mb / 2 ^ 52 = iy.toNat / 2 ^ 20 := by omega
  by_cases h1 : iy ≥ 0x43400000#32
  · rw [if_pos h1]
    refine ⟨2, rfl, fun _ hy hz => ?_⟩
    rw [ge_iff_le, BitVec.le_def, show (0x43400000#32).toNat = 0x43400000 by rfl] at h1
    rw [isOddVal_iff y hy, isIntVal_iff y hy]
    have := int_large y (by rw [f64_sb, f64_bias]; omega)
    simp [this.1, this.2]
  rw [if_neg h1]
  rw [ge_iff_le, BitVec.le_def, show (0x43400000#32).toNat = 0x43400000 by rfl] at h1
  by_cases h2 : iy ≥ 0x3ff00000#32
  swap
  · rw [if_neg h2]
    refine ⟨0, rfl, fun _ hy hz => ?_⟩
    rw [ge_iff_le, BitVec.le_def, show (0x3ff00000#32).toNat = 0x3ff00000 by rfl] at h2
    rw [isOddVal_iff y hy, isIntVal_iff y hy]
    have := int_small y hz (by rw [f64_sb, f64_bias]; omega)
    simp [this]
  rw [if_pos h2]
  rw [ge_iff_le, BitVec.le_def, show (0x3ff00000#32).toNat = 0x3ff00000 by rfl] at h2
  have hk : (iy >>> 20).toNat = y.mb / 2 ^ 52 := by
    rw [BitVec.toNat_ushiftRight, Nat.shiftRight_eq_div_pow]; omega
  dsimp only
  rw [hk]
  obtain ⟨s, hs52, hsE⟩ : ∃ s : ℕ, s ≤ 52 ∧ y.mb / 2 ^ 52 + s = 1023 + 52 := ⟨1075 - y.mb / 2 ^ 52, by omega, by omega⟩
  have hI := int_mid y (s := s) (by rw [f64_sb]; exact hs52) (by rw [f64_sb, f64_bias]; exact hsE)
  have fin : ∀ {P : Prop} [Decidable P] {v : ℕ}, (P ↔ y.mb % 2 ^ s = 0) → v % 2 = y.mb / 2 ^ s % 2 →
      (y.isFinite → ((if P then (2 : ℤ) - ((v % 2 : ℕ) : ℤ) else 0) = 1 ↔ IsOddVal y) ∧
        ((if P then (2 : ℤ) - ((v % 2 : ℕ) : ℤ) else 0) = 0 ↔ ¬ IsIntVal y)) := by
    intro P _ v hP hv hy
    rw [isOddVal_iff y hy, isIntVal_iff y hy, hI.1, hI.2, ← hP, hv]
    by_cases h : P
    · simp only [h, if_true, true_and, not_true, iff_false]; omega
    · simp only [h, if_false, false_and]; simp
  by_cases h3 : ((y.mb / 2 ^ 52 : ℕ) : ℤ) - 0x3ff > 20
  · rw [if_pos h3, sh32_some (n := s) (by omega) (by omega), Option.bind_some]
    refine ⟨_, rfl, fun _ hy hz => ?_⟩
    rw [and_one, BitVec.toNat_ushiftRight, Nat.shiftRight_eq_div_pow]
    have h32 : 2 ^ 32 = 2 ^ (32 - s) * 2 ^ s := by rw [← pow_add]; congr 1; omega
    refine fin ?_ ?_ hy
    · rw [shr_shl_eq, hly, Nat.mod_mod_of_dvd _ ⟨2 ^ (32 - s), by rw [mul_comm]; exact h32⟩]
    · rw [hly, h32, mul_comm, Nat.mod_mul_right_div_self, Nat.mod_mod_of_dvd]
      exact dvd_pow_self _ (by omega)
  · rw [if_neg h3]
    obtain ⟨t, ht⟩ : ∃ t, s = 32 + t := ⟨s - 32, by omega⟩
    have hmod : y.mb % 2 ^ s = y.mb % 2 ^ 32 + 2 ^ 32 * (y.mb / 2 ^ 32 % 2 ^ t) := by
      rw [ht, pow_add, Nat.mod_mul]
    have hdiv : y.mb / 2 ^ s = y.mb / 2 ^ 32 / 2 ^ t := by rw [ht, pow_add, Nat.div_div_eq_div_mul]
    by_cases h4 : ly = 0
    · rw [if_pos h4, sh32_some (n := t) (by omega) (by omega), Option.bind_some]
      refine ⟨_, rfl, fun _ hy hz => ?_⟩
      have hl0 : y.mb % 2 ^ 32 = 0 := by rw [← hly, h4]; rfl
      rw [and_one, BitVec.toNat_ushiftRight, Nat.shiftRight_eq_div_pow]
      refine fin ?_ ?_ hy
      · rw [shr_shl_eq, hiy, hmod, hl0]; omega
      · rw [hiy, hdiv]
    · rw [if_neg h4]
      refine ⟨0, rfl, fun _ hy hz => ?_⟩
      have hl0 : y.mb % 2 ^ 32 ≠ 0 := by
        rw [← hly]; intro h; exact h4 (BitVec.eq_of_toNat_eq h)
      rw [isOddVal_iff y hy, isIntVal_iff y hy, hI.1]
      have : y.mb % 2 ^ s ≠ 0 := by rw [hmod]; omega
      simp [this]

end Pow

theorem Powf.yisint_spec (x y : Flt f32) :
    ∃ k, Powf.yisint x.u32 (y.u32 &&& 0x7fffffff#32) = some k ∧
      (x.sign = true → y.isFinite → ¬ y.isZero → (k = 1 ↔ IsOddVal y) ∧ (k = 0 ↔ ¬ IsIntVal y)) := by
  have hiy := u32_abs y
  have hm := mb32_lt y
  generalize y.u32 &&& 0x7fffffff#32 = iy at *
  unfold Powf.yisint
  by_cases hs : x.sign = true
  swap
  · rw [if_neg (fun h => hs ((Pow.u32_toInt_neg x).1 h))]
    exact ⟨0, rfl, fun h => absurd h hs⟩
  rw [if_pos ((Pow.u32_toInt_neg x).2 hs)]
  by_cases h1 : iy ≥ 0x4b800000#32
  · rw [if_pos h1]
    refine ⟨2, rfl, fun _ hy hz => ?_⟩
    rw [ge_iff_le, BitVec.le_def, show (0x4b800000#32).toNat = 0x4b800000 by rfl] at h1
    rw [isOddVal_iff y hy, isIntVal_iff y hy]
    have := int_large y (by rw [f32_sb, f32_bias]; omega)
    simp [this.1, this.2]
  rw [if_neg h1]
  rw [ge_iff_le, BitVec.le_def, show (0x4b800000#32).toNat = 0x4b800000 by rfl] at h1
  by_cases h2 : iy ≥ 0x3f800000#32
  swap
  · rw [if_neg h2]
    refine ⟨0, rfl, fun _ hy hz => ?_⟩
    rw [ge_iff_le, BitVec.le_def, show (0x3f800000#32).toNat = 0x3f800000 by rfl] at h2
    rw [isOddVal_iff y hy, isIntVal_iff y hy]
    have := int_small y hz (by rw [f32_sb, f32_bias]; omega)
    simp [this]
  rw [if_pos h2]
  rw [ge_iff_le, BitVec.le_def, show (0x3f800000#32).toNat = 0x3f800000 by rfl] at h2
  have hk : (iy >>> 23).toNat = y.mb / 2 ^ 23 := by
    rw [BitVec.toNat_ushiftRight, Nat.shiftRight_eq_div_pow]; omega
  dsimp only
  rw [hk]
  obtain ⟨s, hs52, hsE⟩ : ∃ s : ℕ, s ≤ 23 ∧ y.mb / 2 ^ 23 + s = 127 + 23 := ⟨150 - y.mb / 2 ^ 23, by omega, by omega⟩
  have hI := int_mid y (s := s) (by rw [f32_sb]; exact hs52) (by rw [f32_sb, f32_bias]; exact hsE)
  rw [Pow.sh32_some (n := s) (by omega) (by omega), Option.bind_some]
  refine ⟨_, rfl, fun _ hy hz => ?_⟩
  rw [Pow.and_one, BitVec.toNat_ushiftRight, Nat.shiftRight_eq_div_pow, isOddVal_iff y hy, isIntVal_iff y hy, hI.1, hI.2]
  have hP := Pow.shr_shl_eq iy s
  rw [hiy] at hP ⊢
  by_cases h : y.mb % 2 ^ s = 0
  · simp only [h, hP.2 h, if_true, true_and, not_true, iff_false]; omega
  · rw [if_neg (fun h' => h (hP.1 h'))]; simp [h]

namespace Pow
theorem mb_iff_mag (x : Flt F) {b m : ℕ} (h : magOf F.sb b = m) : x.mb = b ↔ x.mag = m := by
  unfold mag; rw [← h]; exact magOf_inj.symm
theorem mb_ge_iff_mag (x : Flt F) {b m : ℕ} (h : magOf F.sb b = m) : b ≤ x.mb ↔ m ≤ x.mag := by
  unfold mag; rw [← h]; exact magOf_le.symm

theorem base_eq (x y : Flt f64) (k : ℤ) : base x y k =
    if x.isInf ∨ x.isZero ∨ x.mag = f64.oneMag then
      let z := mk' f64 false x.mb
      let z := if y.sign = true then one f64 / z else z
      if x.sign = true then
        if x.mag = f64.oneMag ∧ k = 0 then some ((z - z) / (z - z))
        else if k = 1 then some (-z)
        else some z
      else some z
    else if x.sign = true then
      if k = 0 then some ((x - x) / (x - x))
      else if k = 1 then general (-one f64) x y (getHighWord y) (getHighWord x &&& 0x7fffffff#32) (getHighWord y &&& 0x7fffffff#32)
      else general (one f64) x y (getHighWord y) (getHighWord x &&& 0x7fffffff#32) (getHighWord y &&& 0x7fffffff#32)
    else general (one f64) x y (getHighWord y) (getHighWord x &&& 0x7fffffff#32) (getHighWord y &&& 0x7fffffff#32) := by
  have hl := lo_toNat x
  have hh := hi_abs x
  have hm := mb64_lt x
  have hl0 : getLowWord x = 0 ↔ x.mb % 2 ^ 32 = 0 := by rw [← BitVec.toNat_inj, hl]; rfl
  have ho := mb_iff_mag x (b := 0x3ff0000000000000) (m := f64.oneMag) (by decide +kernel)
  unfold base
  dsimp only
  rw [show (1.0 : Flt f64) = one f64 by decide +kernel, fabs_eq]
  have c1 : getHighWord x &&& 0x7fffffff#32 = 0x7ff00000#32 ↔ x.mb / 2 ^ 32 = 0x7ff00000 := by
    rw [← BitVec.toNat_inj, hh]; rfl
  have c2 : getHighWord x &&& 0x7fffffff#32 = 0 ↔ x.mb / 2 ^ 32 = 0 := by rw [← BitVec.toNat_inj, hh]; rfl
  have c3 : getHighWord x &&& 0x7fffffff#32 = 0x3ff00000#32 ↔ x.mb / 2 ^ 32 = 0x3ff00000 := by
    rw [← BitVec.toNat_inj, hh]; rfl
  have c4 : (getHighWord x &&& 0x7fffffff#32) - 0x3ff00000#32 = 0 ↔ x.mb / 2 ^ 32 = 0x3ff00000 := by
    rw [← c3]; exact sub_zero_iff _ _
  have cc : (getLowWord x = 0 ∧ (getHighWord x &&& 0x7fffffff#32 = 0x7ff00000#32 ∨ getHighWord x &&& 0x7fffffff#32 = 0 ∨
      getHighWord x &&& 0x7fffffff#32 = 0x3ff00000#32)) ↔ (x.isInf ∨ x.isZero ∨ x.mag = f64.oneMag) := by
    rw [c1, c2, c3, hl0, isInf64, isZero_iff, ← ho]
    omega
  by_cases h : x.isInf ∨ x.isZero ∨ x.mag = f64.oneMag
  · rw [if_pos (cc.2 h), if_pos h]
    have hl1 : x.mb % 2 ^ 32 = 0 := hl0.1 (cc.2 h).1
    refine if_congr (hi_toInt_neg x) (if_congr (and_congr ?_ Iff.rfl) ?_ (if_congr Iff.rfl ?_ ?_)) ?_
    · rw [c4, ← ho]; omega
    all_goals congr 1
    · rw [if_congr (hi_toInt_neg y) rfl rfl]
    · rw [if_congr (hi_toInt_neg y) rfl rfl]
    · rw [if_congr (hi_toInt_neg y) rfl rfl]
    · rw [if_congr (hi_toInt_neg y) rfl rfl]
  · rw [if_neg (fun hc => h (cc.1 hc)), if_neg h]
    exact if_congr (hi_toInt_neg x) rfl rfl

theorem pow_eq (x y : Flt f64) : pow x y =
    sk sqrt (fun s x y => general s x y (getHighWord y) (getHighWord x &&& 0x7fffffff#32) (getHighWord y &&& 0x7fffffff#32))
      (fun x y => yisint (getHighWord x) (getHighWord y &&& 0x7fffffff#32) (getLowWord y)) x y := by
  have hl := lo_toNat x
  have hh := hi_abs x
  have hm := mb64_lt x
  have hly := lo_toNat y
  have hhy := hi_abs y
  have hmy := mb64_lt y
  have hl0 : getLowWord x = 0 ↔ x.mb % 2 ^ 32 = 0 := by rw [← BitVec.toNat_inj, hl]; rfl
  have hly0 : getLowWord y = 0 ↔ y.mb % 2 ^ 32 = 0 := by rw [← BitVec.toNat_inj, hly]; rfl
  have ho : ∀ x : Flt f64, x.mb = 0x3ff0000000000000 ↔ x.mag = f64.oneMag := fun x => mb_iff_mag x (by decide +kernel)
  have ht := mb_iff_mag y (b := 0x4000000000000000) (m := 2 * f64.oneMag) (by decide +kernel)
  have hhf := mb_iff_mag y (b := 0x3fe0000000000000) (m := f64.oneMag / 2) (by decide +kernel)
  have hge := mb_ge_iff_mag x (b := 0x3ff0000000000000) (m := f64.oneMag) (by decide +kernel)
  have hev : f64.oneMag % 2 = 0 := by decide +kernel
  have hw : ∀ (z : Flt f64) (v : BitVec 32), getHighWord z = v ↔ z.mb / 2 ^ 32 + (if z.sign then 2 ^ 31 else 0) = v.toNat := by
    intro z v; rw [← BitVec.toNat_inj, hi_toNat]
  have sg : ∀ z : Flt f64, (getHighWord z).toInt ≥ 0 ↔ z.sign = false := by
    intro z; rw [ge_iff_le, ← not_lt, hi_toInt_neg, Bool.not_eq_true]
  unfold pow sk
  dsimp only
  rw [show (1.0 : Flt f64) = one f64 by decide +kernel, show (0.0 : Flt f64) = zero f64 false by decide +kernel]
  refine if_congr ?_ rfl (if_congr ?_ rfl (if_congr ?_ rfl ?_))
  · rw [← BitVec.toNat_inj, BitVec.toNat_or, hhy, hly, isZero_iff, show (0 : BitVec 32).toNat = 0 by rfl, Nat.or_eq_zero_iff]
    omega
  · rw [hw, hl0, ← ho, show (0x3ff00000#32).toNat = 0x3ff00000 by rfl]
    cases x.sign
    · simp <;> omega
    · simp <;> omega
  · rw [gt_iff_lt, gt_iff_lt, BitVec.lt_def, BitVec.lt_def, hh, hhy, isNaN64, isNaN64, ← BitVec.toNat_inj, ← BitVec.toNat_inj,
      hh, hhy, ne_eq, ne_eq, hl0, hly0, show (0x7ff00000#32).toNat = 0x7ff00000 by rfl]
    omega
  refine congrArg (Option.bind _) (funext fun k => ?_)
  have ciy : ∀ v : BitVec 32, getHighWord y &&& 0x7fffffff#32 = v ↔ y.mb / 2 ^ 32 = v.toNat := by
    intro v; rw [← BitVec.toNat_inj, hhy]
  refine if_congr ?_ (if_congr ?_ rfl (if_congr ?_ ?_ ?_)) (if_congr ?_ ?_ (if_congr ?_ rfl (if_congr ?_ rfl (base_eq x y k))))
  · rw [hly0, ciy, isInf64, show (0x7ff00000#32).toNat = 0x7ff00000 by rfl]; omega
  · rw [hl0, sub_zero_iff, ← BitVec.toNat_inj, hh, ← ho, show (0x3ff00000#32).toNat = 0x3ff00000 by rfl]; omega
  · rw [ge_iff_le, BitVec.le_def, hh, ← hge, show (0x3ff00000#32).toNat = 0x3ff00000 by rfl]; omega
  · rw [if_congr (sg y) rfl rfl]
  · rw [if_congr (sg y) rfl rfl]
  · rw [hly0, ciy, ← ho, show (0x3ff00000#32).toNat = 0x3ff00000 by rfl]; omega
  · rw [if_congr (sg y) rfl rfl]
  · rw [hly0, hw, ← ht, show (0x40000000#32).toNat = 0x40000000 by rfl]
    cases y.sign
    · simp <;> omega
    · simp <;> omega
  · rw [hly0, hw, sg x, show (2 * y.mag = f64.oneMag ↔ y.mag = f64.oneMag / 2) by omega, ← hhf,
      show (0x3fe00000#32).toNat = 0x3fe00000 by rfl]
    cases y.sign
    · simp only [Bool.false_eq_true, if_false, true_and]
      rw [← and_assoc]
      exact and_congr_left' (by omega)
    · exact ⟨fun h => by have := h.2.1; rw [if_pos rfl] at this; omega, fun h => absurd h.2.1 (by decide)⟩

end Pow

namespace Powf
theorem base_eq (x y : Flt f32) (k : ℤ) : base x y k =
    if x.isInf ∨ x.isZero ∨ x.mag = f32.oneMag then
      let z := mk' f32 false x.mb
      let z := if y.sign = true then one f32 / z else z
      if x.sign = true then
        if x.mag = f32.oneMag ∧ k = 0 then some ((z - z) / (z - z))
        else if k = 1 then some (-z)
        else some z
      else some z
    else if x.sign = true then
      if k = 0 then some ((x - x) / (x - x))
      else if k = 1 then general (-one f32) x y y.u32 (x.u32 &&& 0x7fffffff#32) (y.u32 &&& 0x7fffffff#32)
      else general (one f32) x y y.u32 (x.u32 &&& 0x7fffffff#32) (y.u32 &&& 0x7fffffff#32)
    else general (one f32) x y y.u32 (x.u32 &&& 0x7fffffff#32) (y.u32 &&& 0x7fffffff#32) := by
  have hh := u32_abs x
  have ho := Pow.mb_iff_mag x (b := 0x3f800000) (m := f32.oneMag) (by decide +kernel)
  have hc : ∀ v : BitVec 32, x.u32 &&& 0x7fffffff#32 = v ↔ x.mb = v.toNat := by
    intro v; rw [← BitVec.toNat_inj, hh]
  unfold base
  dsimp only
  rw [show (1.0 : Flt f32) = one f32 by decide +kernel, fabs_eq]
  refine if_congr ?_ ?_ (if_congr (Pow.u32_toInt_neg x) rfl rfl)
  · rw [hc, hc, hc, isInf32, isZero_iff, ← ho]; exact Iff.rfl
  · refine if_congr (Pow.u32_toInt_neg x) (if_congr (and_congr ?_ Iff.rfl) ?_ (if_congr Iff.rfl ?_ ?_)) ?_
    · rw [Pow.sub_zero_iff, hc, ← ho]; exact Iff.rfl
    all_goals congr 1
    · rw [if_congr (Pow.u32_toInt_neg y) rfl rfl]
    · rw [if_congr (Pow.u32_toInt_neg y) rfl rfl]
    · rw [if_congr (Pow.u32_toInt_neg y) rfl rfl]
    · rw [if_congr (Pow.u32_toInt_neg y) rfl rfl]

theorem powf_eq (x y : Flt f32) : powf x y =
    Pow.sk sqrtf (fun s x y => general s x y y.u32 (x.u32 &&& 0x7fffffff#32) (y.u32 &&& 0x7fffffff#32))
      (fun x y => yisint x.u32 (y.u32 &&& 0x7fffffff#32)) x y := by
  have hh := u32_abs x
  have hm := mb32_lt x
  have hhy := u32_abs y
  have hmy := mb32_lt y
  have ho : ∀ x : Flt f32, x.mb = 0x3f800000 ↔ x.mag = f32.oneMag := fun x => Pow.mb_iff_mag x (by decide +kernel)
  have ht := Pow.mb_iff_mag y (b := 0x40000000) (m := 2 * f32.oneMag) (by decide +kernel)
  have hhf := Pow.mb_iff_mag y (b := 0x3f000000) (m := f32.oneMag / 2) (by decide +kernel)
  have hge := Pow.mb_ge_iff_mag x (b := 0x3f800000) (m := f32.oneMag) (by decide +kernel)
  have hev : f32.oneMag % 2 = 0 := by decide +kernel
  have hc : ∀ (x : Flt f32) (v : BitVec 32), x.u32 &&& 0x7fffffff#32 = v ↔ x.mb = v.toNat := by
    intro x v; rw [← BitVec.toNat_inj, u32_abs]
  have hw : ∀ (z : Flt f32) (v : BitVec 32), z.u32 = v ↔ z.mb + (if z.sign then 2 ^ 31 else 0) = v.toNat := by
    intro z v; rw [← BitVec.toNat_inj, u32_toNat]
  have sg : ∀ z : Flt f32, z.u32.toInt ≥ 0 ↔ z.sign = false := by
    intro z; rw [ge_iff_le, ← not_lt, Pow.u32_toInt_neg, Bool.not_eq_true]
  unfold powf Pow.sk
  dsimp only
  rw [show (1.0 : Flt f32) = one f32 by decide +kernel, show (0.0 : Flt f32) = zero f32 false by decide +kernel]
  refine if_congr ?_ rfl (if_congr ?_ rfl (if_congr ?_ rfl ?_))
  · rw [hc, isZero_iff]; exact Iff.rfl
  · rw [hw, ← ho, show (0x3f800000#32).toNat = 0x3f800000 by rfl]
    cases x.sign
    · simp
    · simp <;> omega
  · rw [gt_iff_lt, gt_iff_lt, BitVec.lt_def, BitVec.lt_def, hh, hhy, isNaN32, isNaN32]; exact Iff.rfl
  refine congrArg (Option.bind _) (funext fun k => ?_)
  by_cases hi : y.isInf
  · rw [if_pos hi, if_pos ((hc _ _).2 ((isInf32 y).1 hi))]
    by_cases h1 : x.mag = f32.oneMag
    · rw [if_pos h1, if_pos ((hc _ _).2 ((ho x).2 h1))]
    · have h2 : ¬ x.mb = 0x3f800000 := fun h => h1 ((ho x).1 h)
      rw [if_neg h1, if_neg (fun h => h2 ((hc _ _).1 h))]
      refine if_congr ?_ ?_ ?_
      · rw [gt_iff_lt, BitVec.lt_def, hh, ← hge, show (0x3f800000#32).toNat = 0x3f800000 by rfl]; omega
      · rw [if_congr (sg y) rfl rfl]
      · rw [if_congr (sg y) rfl rfl]
  rw [if_neg hi, if_neg (fun h => hi ((isInf32 y).2 ((hc _ _).1 h)))]
  refine if_congr ?_ ?_ (if_congr ?_ rfl (if_congr ?_ rfl (base_eq x y k)))
  · rw [hc, ← ho]; exact Iff.rfl
  · rw [if_congr (sg y) rfl rfl]
  · rw [hw, ← ht, show (0x40000000#32).toNat = 0x40000000 by rfl]
    cases y.sign
    · simp
    · simp <;> omega
  · rw [hw, sg x, show (2 * y.mag = f32.oneMag ↔ y.mag = f32.oneMag / 2) by omega, ← hhf,
      show (0x3f000000#32).toNat = 0x3f000000 by rfl]
    cases y.sign
    · simp only [Bool.false_eq_true, if_false, true_and, add_zero]
    · exact ⟨fun h => by have := h.1; rw [if_pos rfl] at this; omega, fun h => absurd h.2.1 (by decide)⟩

end Powf

/-- C29 for `pow` -/
theorem pow_special : IsPowFn pow sqrt := by
  have h := Pow.sk_spec (F := f64) sqrt_correct
    (gen := fun s x y => Pow.general s x y (getHighWord y) (getHighWord x &&& 0x7fffffff#32) (getHighWord y &&& 0x7fffffff#32))
    (yi := fun x y => Pow.yisint (getHighWord x) (getHighWord y &&& 0x7fffffff#32) (getLowWord y))
    (fun x y _ => Pow.yisint_spec x y)
  have e : pow = Pow.sk sqrt _ _ := funext fun x => funext fun y => Pow.pow_eq x y
  rw [e]
  exact h

/-- C29 for `powf` -/
theorem powf_special : IsPowFn powf sqrtf := by
  have h := Pow.sk_spec (F := f32) sqrtf_correct
    (gen := fun s x y => Powf.general s x y y.u32 (x.u32 &&& 0x7fffffff#32) (y.u32 &&& 0x7fffffff#32))
    (yi := fun x y => Powf.yisint x.u32 (y.u32 &&& 0x7fffffff#32))
    (fun x y _ => Powf.yisint_spec x y)
  have e : powf = Pow.sk sqrtf _ _ := funext fun x => funext fun y => Powf.powf_eq x y
  rw [e]
  exact h

/-- the hypotheses are met: `3` is an odd exponent, `4` an even one, `2.5` not an integer -/
example : IsOddVal (bits64 0x4008000000000000) ∧ IsIntVal (bits64 0x4010000000000000) ∧
    ¬ IsOddVal (bits64 0x4010000000000000) ∧ ¬ IsIntVal (bits64 0x4004000000000000) := by
  rw [isOddVal_iff _ (by decide +kernel), isIntVal_iff _ (by decide +kernel), isOddVal_iff _ (by decide +kernel),
    isIntVal_iff _ (by decide +kernel)]
  decide +kernel

end Verif
