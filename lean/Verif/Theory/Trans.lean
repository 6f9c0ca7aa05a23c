import Verif.Theory.Word
import Verif.Theory.Err64
import Verif.Model.Lit
import Mathlib.Analysis.SpecialFunctions.Log.Deriv
import Mathlib.Analysis.SpecialFunctions.Pow.Real

/-!
# Helpers for the elementary functions: saturating conversions, word tests, sharp bounds on `log 2`
-/

namespace Verif
open Flt
variable {F : Fmt}

namespace Flt

/-- the integer part never exceeds the value in magnitude -/
theorem toInt_abs_le (x : Flt F) : |(x.toInt : ℝ)| ≤ |x.val| := by
  have h : |(x.toInt : ℝ)| = ((x.mag / F.oneMag : ℕ) : ℝ) := by
    unfold toInt
    split
    · rw [Int.cast_neg, abs_neg, Int.cast_natCast, abs_of_nonneg (by positivity)]
    · rw [Int.cast_natCast, abs_of_nonneg (by positivity)]
  rw [h, val_abs]
  have h1 : ((x.mag / F.oneMag : ℕ) : ℝ) * F.oneMag ≤ x.mag := by
    exact_mod_cast Nat.div_mul_le_self _ _
  have hu : ((F.ulp : ℚ) : ℝ) * F.oneMag = 1 := by
    have := F.oneMag_mul_ulp
    rw [mul_comm] at this
    exact_mod_cast this
  have hp : (0 : ℝ) < ((F.ulp : ℚ) : ℝ) := by rw [ulp_real]; exact zp _
  calc ((x.mag / F.oneMag : ℕ) : ℝ) = ((x.mag / F.oneMag : ℕ) : ℝ) * F.oneMag * ((F.ulp : ℚ) : ℝ) := by
        rw [mul_assoc, mul_comm (F.oneMag : ℝ), hu, mul_one]
    _ ≤ _ := mul_le_mul_of_nonneg_right h1 hp.le

theorem toSInt_ge (w : ℕ) (x : Flt F) : -2 ^ (w - 1) ≤ x.toSInt w := by
  have : (0 : ℤ) < 2 ^ (w - 1) := by positivity
  unfold toSInt
  split_ifs <;> omega

theorem toSInt_lt (w : ℕ) (x : Flt F) : x.toSInt w < 2 ^ (w - 1) := by
  have : (0 : ℤ) < 2 ^ (w - 1) := by positivity
  unfold toSInt
  split_ifs <;> omega

theorem toSInt_abs {w : ℕ} {x : Flt F} {n : ℕ} (hx : x.isFinite) (h : |x.val| ≤ n) : |x.toSInt w| ≤ n := by
  have h1 : |x.toInt| ≤ (n : ℤ) := by
    have := (toInt_abs_le x).trans h
    exact_mod_cast this
  have : (0 : ℤ) < 2 ^ (w - 1) := by positivity
  unfold toSInt
  rw [if_neg (not_nan_of_finite hx), if_neg (not_inf_of_finite hx)]
  rw [abs_le] at *
  omega

theorem hi_abs' (x : Flt f64) : (getHighWord x &&& 0x7fffffff).toNat = x.mb / 2 ^ 32 := hi_abs x
theorem u32_abs' (x : Flt f32) : (x.u32 &&& 0x7fffffff).toNat = x.mb := u32_abs x

/-- A decimal literal is the correctly rounded decimal number. -/
theorem ofDec_isRNE (F : Fmt) (m : ℕ) (neg : Bool) (e : ℕ) :
    IsRNE ((m : ℚ) * 10 ^ (if neg then -(e : ℤ) else e)) (ofDec F m neg e) := by
  have hu := F.oneMag_mul_ulp
  unfold ofDec
  cases neg
  · simp only [Bool.false_eq_true, if_false]
    apply roundMag_isRNE (by norm_num)
    · rw [abs_of_nonneg (by positivity)]
      push_cast
      rw [div_one, zpow_natCast]
      linear_combination (-(m : ℚ) * 10 ^ e) * hu
    · intro _; simp
  · simp only [if_true]
    apply roundMag_isRNE (by positivity)
    · rw [abs_of_nonneg (by positivity)]
      push_cast
      rw [zpow_neg, zpow_natCast]
      field_simp
      linear_combination (-(m : ℚ)) * hu
    · intro _; simp

end Flt

namespace Num
open Real

theorem log2_near : |log 2 - 0.693147180559945309417232121458| ≤ 1 / 2 ^ 75 := by
  have h := abs_log_sub_add_sum_range_le (x := (1 / 2 : ℝ)) (by norm_num) 79
  have h2 : log (1 - 1 / 2) = - log 2 := by
    rw [show (1 : ℝ) - 1 / 2 = 2⁻¹ by norm_num, log_inv]
  rw [h2] at h
  rw [abs_le] at *
  norm_num [Finset.sum_range_succ] at h ⊢
  constructor <;> linarith [h.1, h.2]

theorem log2_gt : 0.6931471805599453094171 < log 2 := by
  have := abs_le.1 log2_near
  norm_num at *; linarith [this.1]
theorem log2_lt : log 2 < 0.6931471805599453094173 := by
  have := abs_le.1 log2_near
  norm_num at *; linarith [this.2]

/-- `t ≤ log m + n log 2` style thresholds -/
theorem exp_lt_two_zpow {t : ℝ} {n : ℤ} (h : t < n * log 2) : exp t < 2 ^ n := by
  have : (2 : ℝ) ^ n = exp (n * log 2) := by
    rw [← Real.rpow_intCast, Real.rpow_def_of_pos (by norm_num), mul_comm]
  rw [this]; exact exp_lt_exp.2 h
theorem two_zpow_lt_exp {t : ℝ} {n : ℤ} (h : n * log 2 < t) : (2 : ℝ) ^ n < exp t := by
  have : (2 : ℝ) ^ n = exp (n * log 2) := by
    rw [← Real.rpow_intCast, Real.rpow_def_of_pos (by norm_num), mul_comm]
  rw [this]; exact exp_lt_exp.2 h

end Num
end Verif
