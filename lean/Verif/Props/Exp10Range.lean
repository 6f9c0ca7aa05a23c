import Verif.Props.PowSign
import Verif.Props.Signs
import Verif.Props.Exp10Acc
import Verif.Props.ExpRange

/-! # C79: exp10 and exp10f are never negative -/

namespace Verif
open Flt

namespace Signs
variable {F : Fmt}

/-- from `10^-40` on the accuracy decides -/
theorem ten_pos [StdFmt F] {c t : ℝ} (h0 : 0 ≤ c) (hc : c ≤ 6) {r : Flt F} (h : WithinUlp c r ((10 : ℝ) ^ t)) (ht : -40 ≤ t) : 0 < r.toRat := by
  have p : (0 : ℝ) < 10 ^ t := Real.rpow_pos_of_pos (by norm_num) _
  refine (Range.sign_of h fun _ => mul_ulp_lt h0 hc ?_).1.2 p
  rw [abs_of_pos p]
  have h1 := (Real.rpow_le_rpow_left_iff (x := (10 : ℝ)) (by norm_num)).2 ht
  refine lt_of_lt_of_le ?_ h1
  rw [Real.rpow_neg (by norm_num)]
  have h2 := fmt (F := F)
  have h3 := zp (1 - (F.bias : ℤ) - F.sb)
  have h5 : c * (2 : ℝ) ^ (1 - (F.bias : ℤ) - F.sb) ≤ 6 * 2 ^ (-140 : ℤ) := mul_le_mul hc h2 h3.le (by norm_num)
  refine h5.trans_lt ?_
  norm_num

end Signs

/-- C79 for `exp10` -/
theorem exp10_nonneg (x : Flt f64) (xf : x.isFinite) (hx : (10 : ℝ) ^ ((x.toRat : ℚ) : ℝ) < ((overflowThreshold f64 : ℚ) : ℝ)) :
    ∃ r, exp10 x = some r ∧ r.isFinite ∧ 0 ≤ r.toRat := by
  obtain ⟨r, h1, h2⟩ := exp10_accurate x xf hx
  refine ⟨r, h1, h2.1, ?_⟩
  rcases le_or_gt (-40) x.val with h | h
  · exact (Signs.ten_pos (by norm_num) (by norm_num) h2 h).le
  · rw [Exp10.big_path xf (by rw [abs_of_neg (by linarith)]; linarith)] at h1
    obtain ⟨r', h3, h4⟩ := Pow.general_some (s := 1.0) (x := 10.0) (y := x) (by decide +kernel) xf (by decide +kernel) (by decide +kernel)
    rw [show getHighWord (10.0 : Flt f64) &&& 0x7fffffff#32 = 1076101120#32 by decide +kernel] at h3
    rw [h1] at h3
    cases h3
    have h5 := (h4 (by decide +kernel)).resolve_left (not_nan_of_finite h2.1)
    have h6 : 0 ≤ ((r.toRat : ℚ) : ℝ) := val_nonneg h5
    exact_mod_cast h6

/-- C79 for `exp10f` -/
theorem exp10f_nonneg (x : Flt f32) (xf : x.isFinite) (hx : (10 : ℝ) ^ ((x.toRat : ℚ) : ℝ) < ((overflowThreshold f32 : ℚ) : ℝ)) :
    ∃ r, exp10f x = some r ∧ r.isFinite ∧ 0 ≤ r.toRat := by
  obtain ⟨r, h1, h2⟩ := exp10f_accurate x xf hx
  refine ⟨r, h1, h2.1, ?_⟩
  rcases le_or_gt (-40) x.val with h | h
  · exact (Signs.ten_pos (by norm_num) (by norm_num) h2 h).le
  · have h8 : 8 ≤ |x.val| := by rw [abs_of_neg (by linarith)]; linarith
    rw [Exp10f.big_path xf h8] at h1
    obtain ⟨cf, cv⟩ := Hypotf.widen xf
    have hx2 : |x.val| ≤ 2 ^ 128 := by
      have := PowT.abs_lt_top xf (by rw [f32_bias]; norm_num)
      rw [f32_bias] at this
      refine this.le.trans (by norm_num)
    have hR := mul_rne (x := Exp10f.ln10f64) (by decide +kernel) cf
    rw [cv, Exp10f.ln_val] at hR
    obtain ⟨yf, -⟩ := hR.fin (by
      rw [← thr64, abs_mul]
      have h3 : |(((7480317065143153 : ℤ) : ℝ) * 2 ^ (-51 : ℤ))| ≤ 4 := by norm_num [abs_of_pos]
      have h4 := mul_le_mul h3 hx2 (abs_nonneg _) (by norm_num)
      refine h4.trans_lt ?_
      have : (2 : ℝ) ^ (1024 : ℤ) = 2 ^ (24 : ℤ) * 2 ^ (1000 : ℤ) := by rw [← zpow_add₀ (by norm_num)]; norm_num
      rw [this]
      have h5 : (2 : ℝ) ^ (128 : ℤ) ≤ 2 ^ (1000 : ℤ) := zpow_le_zpow_right₀ (by norm_num) (by norm_num)
      clear this
      have h6 := zp 1000
      generalize (2 : ℝ) ^ (1000 : ℤ) = T at *
      norm_num at h5 ⊢; linarith)
    have hz0 := hR.le_of_le yf (s := (0.0 : Flt f64)) (by decide +kernel) (by
      rw [Pow.v_0]
      have : (0 : ℝ) < ((7480317065143153 : ℤ) : ℝ) * 2 ^ (-51 : ℤ) := by norm_num
      nlinarith)
    rw [Pow.v_0] at hz0
    obtain ⟨q, h3, h4, h5⟩ := exp2_nonneg _ yf (by
      refine lt_of_le_of_lt (Real.rpow_le_one_of_one_le_of_nonpos (by norm_num) hz0) ?_
      rw [← thr64]
      have : (1 : ℝ) < 2 ^ (1000 : ℤ) := one_lt_zpow₀ (by norm_num) (by norm_num)
      have h6 : (2 : ℝ) ^ (1024 : ℤ) = 2 ^ (24 : ℤ) * 2 ^ (1000 : ℤ) := by rw [← zpow_add₀ (by norm_num)]; norm_num
      rw [h6]
      clear h6
      generalize (2 : ℝ) ^ (1000 : ℤ) = B at *
      norm_num; linarith)
    rw [h3] at h1
    cases h1
    have h6 : (0 : ℝ) ≤ q.val := by show (0 : ℝ) ≤ ((q.toRat : ℚ) : ℝ); exact_mod_cast h5
    have h7 := (cast_rne (G := f32) h4).ge_of_ge h2.1 (s := (0.0 : Flt f32)) (by decide +kernel) (by rw [Powf.v_0]; exact h6)
    rw [Powf.v_0] at h7
    have h9 : (0 : ℝ) ≤ (((q.cast f32).toRat : ℚ) : ℝ) := h7
    exact_mod_cast h9

/-! ## concrete cases: a subnormal result through `pow`, and an argument that underflows -/

example : exp10 (-310.0) = some (bits64 0x000012688b70e62b) := by decide +kernel
example : exp10f (-46.0) = some (zero f32 false) := by decide +kernel

end Verif
