import Verif.Theory.Rem32
import Verif.Theory.KernF
import Verif.Theory.Ulp
import Mathlib.Analysis.SpecialFunctions.Trigonometric.Bounds

/-!
# The kernels of `sinf`, `cosf` and `tanf` after an approximate reduction, in units in the last place
-/

namespace Verif
open Flt

theorem sin_lower {r : ℝ} (h : |r| ≤ 0.7856) : 0.89 * |r| ≤ |Real.sin r| := by
  have h1 := Poly.sin_series 2 (x := r) (h.trans (by norm_num))
  have hr2 : r ^ 2 ≤ 0.6172 := by rw [← sq_abs]; nlinarith [abs_nonneg r]
  have e : Poly.ev (Poly.sinc 2) (r ^ 2) = 1 - r ^ 2 / 6 := by
    rw [show Poly.sinc 2 = [1, -1/6] by decide +kernel]
    simp only [Poly.ev]; push_cast; ring
  rw [e] at h1
  rw [show Nat.factorial (2 * 2 + 1) = 120 from rfl] at h1
  have h2 : |r * (1 - r ^ 2 / 6)| = |r| * (1 - r ^ 2 / 6) := by
    rw [abs_mul, abs_of_nonneg (a := 1 - r ^ 2 / 6) (by linarith)]
  have h3 : |r * (1 - r ^ 2 / 6)| - |Real.sin r| ≤ |r| * ((r ^ 2) ^ 2 / ((120 : ℕ) : ℝ)) := by
    have := abs_sub_abs_le_abs_sub (r * (1 - r ^ 2 / 6)) (Real.sin r)
    rw [abs_sub_comm] at this
    exact this.trans h1
  rw [h2] at h3
  push_cast at h3
  have h4 : 0.89 ≤ (1 - r ^ 2 / 6) - (r ^ 2) ^ 2 / 120 := by
    have := sq_nonneg r
    nlinarith
  have := mul_le_mul_of_nonneg_left h4 (abs_nonneg r)
  linarith

theorem cos_lower {r : ℝ} (h : |r| ≤ 0.7856) : 0.7 ≤ Real.cos r := by
  have h1 := Poly.cos_series 3 (x := r) (h.trans (by norm_num))
  have hr2 : r ^ 2 ≤ 0.6172 := by rw [← sq_abs]; nlinarith [abs_nonneg r]
  have e : Poly.ev (Poly.cosc 3) (r ^ 2) = 1 - r ^ 2 / 2 + (r ^ 2) ^ 2 / 24 := by
    rw [show Poly.cosc 3 = [1, -1/2, 1/24] by decide +kernel]
    simp only [Poly.ev]; push_cast; ring
  rw [e, show Nat.factorial (2 * 3) = 720 from rfl] at h1
  push_cast at h1
  have h2 := (abs_le.1 h1).1
  have h0 := sq_nonneg r
  generalize r ^ 2 = u at *
  have h3 : u ^ 3 ≤ 0.6172 * u ^ 2 := by nlinarith [sq_nonneg u]
  have h4 := sq_nonneg (u - 0.6172)
  nlinarith

private theorem big32 {t : ℝ} (h : |t| ≤ 2 ^ 60) : |t| < 2 ^ ((f32.bias : ℤ) - 1) := by
  rw [f32_bias]
  refine h.trans_lt ?_
  norm_num

namespace Near
variable {y : Flt f64} {r : ℝ} (h : Near y r)
include h

theorem y_hi : |y.val| ≤ |r| * (1 + 1.05 / 2 ^ 26) := by
  have := abs_sub_abs_le_abs_sub y.val r
  have := h.rel
  linarith

theorem y_le : |y.val| ≤ 3219 / 4096 := by
  have := h.y_hi
  have := h.hi
  norm_num at *
  linarith [abs_nonneg r, abs_nonneg y.val]

theorem y_lo : 1 / 2 ^ 33 ≤ |y.val| := by
  have h1 := abs_sub_abs_le_abs_sub r y.val
  rw [abs_sub_comm] at h1
  have h2 := h.rel
  have h3 := h.lo
  norm_num at *
  linarith [abs_nonneg r, abs_nonneg y.val]

theorem y_tiny : (2 : ℝ) ^ (-900 : ℤ) ≤ |y.val| := by
  refine le_trans ?_ h.y_lo
  rw [show (1 : ℝ) / 2 ^ 33 = 2 ^ (-33 : ℤ) by norm_num]
  exact zpow_le_zpow_right₀ (by norm_num) (by norm_num)

theorem r_ne : r ≠ 0 := by
  intro h0
  have := h.lo
  rw [h0] at this
  norm_num at this

theorem sin_ne : Real.sin r ≠ 0 := by
  intro h0
  have h1 := sin_lower (r := r) (h.hi.trans (by norm_num))
  have := h.lo
  rw [h0, abs_zero] at h1
  norm_num at *
  linarith [abs_nonneg r, abs_nonneg y.val]

theorem sin : WithinUlp 0.8 (kSinf y) (Real.sin r) := by
  obtain ⟨q, hq, he⟩ := kSinf_acc h.fin h.y_le h.y_tiny
  have h1 := sin_lower (r := r) (h.hi.trans (by norm_num))
  have h2 := Real.abs_sin_sub_sin_le y.val r
  refine WithinUlp.of_rne_rel hq h.sin_ne (big32 ((Real.abs_sin_le_one r).trans (by norm_num))) (by rw [f32_bias]; norm_num)
    (ε := 1.19 / 2 ^ 26) ?_ (by norm_num) (by rw [f32_sb]; norm_num) (by rw [f32_sb]; norm_num)
  have e : q - Real.sin r = (q - Real.sin y.val) + (Real.sin y.val - Real.sin r) := by ring
  rw [e]
  refine (abs_add_le _ _).trans ?_
  have h3 := h.rel
  have h4 := h.y_hi
  have h5 := abs_nonneg r
  norm_num at *
  linarith [abs_nonneg r, abs_nonneg y.val]

theorem cos : WithinUlp 0.8 (kCosf y) (Real.cos r) := by
  obtain ⟨q, hq, he⟩ := kCosf_acc h.fin h.y_le
  have h1 := cos_lower (r := r) (h.hi.trans (by norm_num))
  have h2 := Real.abs_cos_sub_cos_le y.val r
  have hc : |Real.cos r| = Real.cos r := abs_of_nonneg (by linarith)
  refine WithinUlp.of_rne_rel hq (by linarith) (big32 ((Real.abs_cos_le_one r).trans (by norm_num))) (by rw [f32_bias]; norm_num)
    (ε := 1.2 / 2 ^ 26) ?_ (by norm_num) (by rw [f32_sb]; norm_num) (by rw [f32_sb]; norm_num)
  have e : q - Real.cos r = (q - Real.cos y.val) + (Real.cos y.val - Real.cos r) := by ring
  rw [e, hc]
  refine (abs_add_le _ _).trans ?_
  have h3 := h.rel
  have h4 := h.hi
  norm_num at *
  linarith [abs_nonneg r, abs_nonneg y.val]

end Near

theorem KTanf.poly_tan_small {x : ℝ} (hx : |x| ≤ 1 / 512) :
    |x * Poly.ev KTanf.poly (x ^ 2) * Real.cos x - Real.sin x| ≤ 1 / 2 ^ 35 * |x| := by
  have hu : x ^ 2 ≤ 1 / 2 ^ 18 := by rw [← sq_abs]; nlinarith [abs_nonneg x]
  have h1 := Poly.sin_series 9 (x := x) (hx.trans (by norm_num))
  have h0 := Poly.cos_series 9 (x := x) (hx.trans (by norm_num))
  have h2 := Poly.bound (p := Poly.add (Poly.mul KTanf.poly (Poly.cosc 9)) (Poly.smul (-1) (Poly.sinc 9))) (a := 0) (h := 1 / 2 ^ 18 / 2) (B := 1 / 2 ^ 36) (n := 1)
    (by decide +kernel) (by norm_num) (by norm_num) (x ^ 2) (by push_cast; positivity) (by push_cast; linarith)
  have h6 := Poly.bound (p := KTanf.poly) (a := 0) (h := 5 / 16) (B := 3) (n := 1)
    (by decide +kernel) (by norm_num) (by norm_num) (x ^ 2) (by push_cast; positivity) (by push_cast; linarith)
  rw [Poly.ev_add, Poly.ev_smul, Poly.ev_mul] at h2
  push_cast at h2 h6
  have h3 : (x ^ 2) ^ 9 / (Nat.factorial (2 * 9 + 1) : ℝ) ≤ 1 / 2 ^ 50 := by
    have : (x ^ 2) ^ 9 ≤ 1 := pow_le_one₀ (by positivity) (by linarith)
    rw [show Nat.factorial (2 * 9 + 1) = 121645100408832000 from rfl]
    push_cast
    linarith
  have h3' : (x ^ 2) ^ 9 / (Nat.factorial (2 * 9) : ℝ) ≤ 1 / 2 ^ 50 := by
    have : (x ^ 2) ^ 9 ≤ 1 := pow_le_one₀ (by positivity) (by linarith)
    rw [show Nat.factorial (2 * 9) = 6402373705728000 from rfl]
    push_cast
    linarith
  have e1 : x * Poly.ev KTanf.poly (x ^ 2) * Real.cos x - Real.sin x =
      x * (Poly.ev KTanf.poly (x ^ 2) * Poly.ev (Poly.cosc 9) (x ^ 2) + -1 * Poly.ev (Poly.sinc 9) (x ^ 2))
      + -(Real.sin x - x * Poly.ev (Poly.sinc 9) (x ^ 2)) + x * (Poly.ev KTanf.poly (x ^ 2) * (Real.cos x - Poly.ev (Poly.cosc 9) (x ^ 2))) := by ring
  rw [e1]
  refine (abs_add_three _ _ _).trans ?_
  rw [abs_mul, abs_neg, abs_mul x (_ * _), abs_mul (Poly.ev KTanf.poly (x ^ 2)) (_ - _)]
  have h4 := mul_le_mul_of_nonneg_left h2 (abs_nonneg x)
  have h5 := mul_le_mul_of_nonneg_left h3 (abs_nonneg x)
  have := abs_nonneg x
  have h7 := mul_le_mul_of_nonneg_left (mul_le_mul h6 (h0.trans h3') (abs_nonneg _) (by norm_num)) (abs_nonneg x)
  linarith

namespace Near
variable {y : Flt f64} {r : ℝ} (h : Near y r)
include h

theorem tan_core : ∃ q : Flt f64, (∀ odd, kTanf y odd = (if odd then -1.0 / q else q).cast f32) ∧ q.isFinite ∧
    |q.val * Real.cos r - Real.sin r| ≤ 3.5 / 2 ^ 27 * |Real.sin r| := by
  obtain ⟨q, hq, qf, qe, qb⟩ := KTanf.sum h.fin h.y_le h.y_tiny
  refine ⟨q, hq, qf, ?_⟩
  have h1 := sin_lower (r := r) (h.hi.trans (by norm_num))
  have h4 := h.y_hi
  have h5 := abs_nonneg r
  set p := y.val * Poly.ev KTanf.poly (y.val ^ 2) with hp
  have hpb : |p| ≤ 3 * |y.val| := by
    have := abs_sub_abs_le_abs_sub p q.val
    rw [abs_sub_comm] at this
    have := abs_nonneg y.val
    norm_num at *
    linarith [abs_nonneg r, abs_nonneg y.val]
  have hs := Real.abs_sin_sub_sin_le y.val r
  have hc := Real.abs_cos_sub_cos_le r y.val
  rw [abs_sub_comm r] at hc
  have e : q.val * Real.cos r - Real.sin r = (q.val - p) * Real.cos r + p * (Real.cos r - Real.cos y.val) +
      (p * Real.cos y.val - Real.sin y.val) + (Real.sin y.val - Real.sin r) := by ring
  have hc1 := Real.abs_cos_le_one r
  have k1 : |(q.val - p) * Real.cos r| ≤ 3917 / 2 ^ 63 * |y.val| := by
    rw [abs_mul]
    calc _ ≤ |q.val - p| * 1 := mul_le_mul_of_nonneg_left hc1 (abs_nonneg _)
      _ ≤ _ := by rw [mul_one]; exact qe
  have k2 : |p * (Real.cos r - Real.cos y.val)| ≤ 3 * |y.val| * |y.val - r| := by
    rw [abs_mul]; exact mul_le_mul hpb hc (abs_nonneg _) (by positivity)
  have key : |q.val * Real.cos r - Real.sin r| ≤ 3917 / 2 ^ 63 * |y.val| + 3 * |y.val| * |y.val - r| +
      |p * Real.cos y.val - Real.sin y.val| + |y.val - r| := by
    rw [e]
    refine (abs_add_le _ _).trans ?_
    have := abs_add_three ((q.val - p) * Real.cos r) (p * (Real.cos r - Real.cos y.val)) (p * Real.cos y.val - Real.sin y.val)
    linarith
  by_cases hsm : |r| < 1 / 2 ^ 10
  · have hy : |y.val| ≤ 1 / 512 := by norm_num at *; linarith [abs_nonneg r, abs_nonneg y.val]
    have k3 := KTanf.poly_tan_small hy
    rw [← hp] at k3
    have h3 := h.rel
    have k4 : 3 * |y.val| * |y.val - r| ≤ 3 / 512 * (1.05 / 2 ^ 26 * |r|) := by
      refine mul_le_mul (by linarith) h3 (abs_nonneg _) (by norm_num)
    norm_num at *
    linarith [abs_nonneg r, abs_nonneg y.val]
  · have k3 := KTanf.poly_tan h.y_le
    rw [← hp] at k3
    have h3 := h.abs
    have hy := h.y_le
    rw [not_lt] at hsm
    have k4 : 3 * |y.val| * |y.val - r| ≤ 3 * |y.val| * (1 / 2 ^ 42) := by
      exact mul_le_mul_of_nonneg_left h3 (by linarith [abs_nonneg y.val])
    norm_num at *
    linarith [abs_nonneg r, abs_nonneg y.val]

theorem tan_even : WithinUlp 0.95 (kTanf y false) (Real.tan r) := by
  obtain ⟨q, hq, qf, qe⟩ := h.tan_core
  have hcp := cos_lower (r := r) (h.hi.trans (by norm_num))
  have hc0 : 0 < Real.cos r := by linarith
  have ht : |Real.tan r| = |Real.sin r| / Real.cos r := by
    rw [Real.tan_eq_sin_div_cos, abs_div, abs_of_pos hc0]
  rw [hq false, if_neg (by simp)]
  refine WithinUlp.of_rne_rel (cast_rne qf) ?_ ?_ (by rw [f32_bias]; norm_num)
    (ε := 3.5 / 2 ^ 27) ?_ (by norm_num) (by rw [f32_sb]; norm_num) (by rw [f32_sb]; norm_num)
  · rw [Real.tan_eq_sin_div_cos]; exact div_ne_zero h.sin_ne hc0.ne'
  · refine big32 ?_
    rw [ht, div_le_iff₀ hc0]
    have := Real.abs_sin_le_one r
    norm_num
    linarith
  · rw [ht]
    have e : q.val - Real.tan r = (q.val * Real.cos r - Real.sin r) / Real.cos r := by
      rw [Real.tan_eq_sin_div_cos]; field_simp
    rw [e, abs_div, abs_of_pos hc0, ← mul_div_assoc]
    exact div_le_div_of_nonneg_right qe hc0.le

theorem tan_odd : WithinUlp 0.95 (kTanf y true) (-(Real.cos r / Real.sin r)) := by
  obtain ⟨q, hq, qf, qe⟩ := h.tan_core
  have hcp := cos_lower (r := r) (h.hi.trans (by norm_num))
  have hc0 : 0 < Real.cos r := by linarith
  have hs0 : 0 < |Real.sin r| := abs_pos.2 h.sin_ne
  have hs1 := Real.abs_sin_le_one r
  have hcc : |Real.cos r| = Real.cos r := abs_of_pos hc0
  have hsl := sin_lower (r := r) (h.hi.trans (by norm_num))
  have hrl := h.lo
  -- the quotient has a lower bound
  have hql : (1 - 3.5 / 2 ^ 27) * |Real.sin r| ≤ |q.val| * Real.cos r := by
    have := abs_sub_abs_le_abs_sub (Real.sin r) (q.val * Real.cos r)
    rw [abs_sub_comm, abs_mul, hcc] at this
    linarith
  have hqp : 1 / 2 ^ 33 ≤ |q.val| := by
    have h6 : |q.val| * Real.cos r ≤ |q.val| * 1 := mul_le_mul_of_nonneg_left (Real.cos_le_one r) (abs_nonneg _)
    norm_num at *
    linarith [abs_nonneg r, abs_nonneg y.val]
  have hq0 : 0 < |q.val| := lt_of_lt_of_le (by norm_num) hqp
  have hqu : |q.val| ≤ 2 := by
    have := abs_sub_abs_le_abs_sub (q.val * Real.cos r) (Real.sin r)
    rw [abs_mul, hcc] at this
    have h7 : |q.val| * 0.7 ≤ |q.val| * Real.cos r := mul_le_mul_of_nonneg_left hcp (abs_nonneg _)
    norm_num at *
    linarith [abs_nonneg r, abs_nonneg y.val]
  have hqne : q.val ≠ 0 := abs_pos.1 hq0
  have h1v : (-1.0 : Flt f64).val = -1 := by
    rw [show (-1.0 : Flt f64) = -one f64 by decide +kernel, val_neg, val_one]
  have h1f : (-1.0 : Flt f64).isFinite := by decide +kernel
  have hav : |(-1.0 : Flt f64).val / q.val| = 1 / |q.val| := by rw [h1v, abs_div, abs_neg, abs_one]
  have hdl : 1 / 2 ≤ 1 / |q.val| := one_div_le_one_div_of_le hq0 hqu
  have hdu : 1 / |q.val| ≤ 2 ^ 33 := by
    rw [div_le_iff₀ hq0]; norm_num at *; linarith [abs_nonneg r, abs_nonneg y.val]
  obtain ⟨df, de⟩ := div_rel64 h1f qf hqne (by
    rw [hav]
    have h7 : (2 : ℝ) ^ (-1022 : ℤ) ≤ 2 ^ (-1 : ℤ) := zpow_le_zpow_right₀ (by norm_num) (by norm_num)
    generalize (2 : ℝ) ^ (-1022 : ℤ) = T at *
    norm_num at h7 hdl ⊢
    linarith) (by
    rw [hav]
    have h7 : (2 : ℝ) ^ (40 : ℤ) ≤ 2 ^ (1023 : ℤ) := zpow_le_zpow_right₀ (by norm_num) (by norm_num)
    generalize (2 : ℝ) ^ (1023 : ℤ) = T at *
    norm_num at h7 hdu ⊢
    linarith)
  rw [hav] at de
  have htv : |(-(Real.cos r / Real.sin r))| = Real.cos r / |Real.sin r| := by rw [abs_neg, abs_div, hcc]
  have hqi : 1 / |q.val| ≤ (1 + 3.51 / 2 ^ 27) * (Real.cos r / |Real.sin r|) := by
    rw [div_le_iff₀ hq0]
    have : (1 + 3.51 / 2 ^ 27) * (Real.cos r / |Real.sin r|) * |q.val| = (1 + 3.51 / 2 ^ 27) * (|q.val| * Real.cos r) / |Real.sin r| := by ring
    rw [this, le_div_iff₀ hs0]
    norm_num at *
    linarith [abs_nonneg r, abs_nonneg y.val]
  rw [hq true, if_pos rfl]
  refine WithinUlp.of_rne_rel (cast_rne df) ?_ ?_ (by rw [f32_bias]; norm_num)
    (ε := 3.55 / 2 ^ 27) ?_ (by norm_num) (by rw [f32_sb]; norm_num) (by rw [f32_sb]; norm_num)
  · exact neg_ne_zero.2 (div_ne_zero hc0.ne' h.sin_ne)
  · refine big32 ?_
    rw [htv, div_le_iff₀ hs0]
    have := Real.cos_le_one r
    norm_num at *
    linarith [abs_nonneg r, abs_nonneg y.val]
  · rw [htv]
    have hd : |(-1.0 : Flt f64).val / q.val - -(Real.cos r / Real.sin r)| ≤ 3.5 / 2 ^ 27 * (1 / |q.val|) := by
      have e : (-1.0 : Flt f64).val / q.val - -(Real.cos r / Real.sin r) = (q.val * Real.cos r - Real.sin r) / (q.val * Real.sin r) := by
        rw [h1v]
        have := h.sin_ne
        field_simp
        ring
      rw [e, abs_div, abs_mul, div_le_iff₀ (mul_pos hq0 hs0)]
      calc _ ≤ _ := qe
        _ = _ := by field_simp
    have e : (-1.0 / q : Flt f64).val - -(Real.cos r / Real.sin r) =
        ((-1.0 / q : Flt f64).val - (-1.0 : Flt f64).val / q.val) + ((-1.0 : Flt f64).val / q.val - -(Real.cos r / Real.sin r)) := by ring
    rw [e]
    refine (abs_add_le _ _).trans ?_
    have hpos : 0 < Real.cos r / |Real.sin r| := div_pos hc0 hs0
    norm_num at *
    linarith [abs_nonneg r, abs_nonneg y.val]

end Near

end Verif
