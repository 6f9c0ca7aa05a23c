import Verif.Theory.KernD
import Verif.Theory.TrigF
import Verif.Theory.Ulp

/-!
# `k_sin` and `k_cos` on a reduced argument, in units in the last place
-/

namespace Verif
open Flt

theorem le_ulpAt_of_le {F : Fmt} {t : ℝ} {k : ℤ} (h : 2 ^ k ≤ |t|) : 2 ^ (k - F.sb) ≤ ulpAt F t := by
  have h0 : t ≠ 0 := by rintro rfl; rw [abs_zero] at h; exact absurd h (not_le.2 (zp _))
  rw [ulpAt, if_neg h0]
  apply zpow_le_zpow_right₀ (by norm_num)
  have : k ≤ Int.log 2 |t| := by rw [← Int.zpow_le_iff_le_log (by norm_num) (abs_pos.2 h0)]; exact_mod_cast h
  omega

/-- `a + b` is an accurate value of the reduced argument `r`, and `b` is the tail of `a` -/
structure NearD (a b : Flt f64) (r : ℝ) : Prop where
  af : a.isFinite
  bf : b.isFinite
  tail : |b.val| ≤ 13 / 2 ^ 56 * |a.val|
  err : |a.val + b.val - r| ≤ 1 / 2 ^ 62 * |r|
  hi : |r| ≤ 0.7855
  lo : 1 / 2 ^ 100 ≤ |r|

namespace NearD
variable {a b : Flt f64} {r : ℝ} (h : NearD a b r)
include h

theorem a_hi : |a.val| ≤ |r| * (1 + 7 / 2 ^ 54) := by
  have h1 := h.err
  have h2 := h.tail
  have h3 : |a.val| ≤ |a.val + b.val - r| + |r| + |b.val| := by
    have := abs_add_three (a.val + b.val - r) r (-b.val)
    rw [abs_neg] at this
    refine le_trans (le_of_eq ?_) this
    congr 1; ring
  have := abs_nonneg r
  have := abs_nonneg a.val
  nlinarith

theorem a_lo : |r| * (1 - 7 / 2 ^ 54) ≤ |a.val| := by
  have h1 := h.err
  have h2 := h.tail
  have h3 : |r| ≤ |a.val + b.val - r| + |a.val| + |b.val| := by
    have := abs_add_three (-(a.val + b.val - r)) a.val b.val
    rw [abs_neg] at this
    refine le_trans (le_of_eq ?_) this
    congr 1; ring
  have := abs_nonneg r
  have := abs_nonneg a.val
  have := h.a_hi
  nlinarith

theorem a_le : |a.val| ≤ 3219 / 4096 := by
  have h1 := h.a_hi
  have h2 := h.hi
  norm_num at h1 h2 ⊢
  nlinarith [abs_nonneg r]

theorem a_tiny : (2 : ℝ) ^ (-900 : ℤ) ≤ |a.val| := by
  have h1 := h.a_lo
  have h2 := h.lo
  have h3 : (2 : ℝ) ^ (-900 : ℤ) ≤ 1 / 2 ^ 101 := by
    rw [one_div, ← zpow_natCast, ← zpow_neg]; exact zpow_le_zpow_right₀ (by norm_num) (by norm_num)
  refine h3.trans ?_
  norm_num at h1 h2 ⊢
  linarith

theorem r_ne' : r ≠ 0 := by
  rintro rfl
  have := h.lo
  rw [abs_zero] at this
  norm_num at this

theorem sin_ne' : Real.sin r ≠ 0 := by
  have h1 := sin_lower (h.hi.trans (by norm_num))
  have h2 := abs_pos.2 h.r_ne'
  intro h0
  rw [h0, abs_zero] at h1
  linarith

omit h in
private theorem big64 {t : ℝ} (h : |t| ≤ 1) : |t| < 2 ^ ((f64.bias : ℤ) - 1) := by
  rw [f64_bias]
  exact h.trans_lt (one_lt_zpow₀ (by norm_num) (by norm_num))

omit h in
theorem sin_half (h1 : |r| ≤ 0.7855) (h2 : 0.531 ≤ |r|) : 2 ^ (-1 : ℤ) ≤ |Real.sin r| := by
  have hp : |r| ≤ Real.pi := h1.trans (by linarith [Real.two_le_pi])
  rw [Real.abs_sin_eq_sin_abs_of_abs_le_pi hp]
  have h3 := Real.sin_le_sin_of_le_of_le_pi_div_two (x := 0.531) (y := |r|) (by linarith [Real.two_le_pi]) (by linarith [Real.two_le_pi]) h2
  refine le_trans ?_ h3
  have h4 := Poly.sin_series 2 (x := (0.531 : ℝ)) (by rw [abs_of_pos] <;> norm_num)
  rw [show Poly.sinc 2 = [1, -1/6] by decide +kernel] at h4
  simp only [Poly.ev] at h4
  rw [show Nat.factorial (2 * 2 + 1) = 120 from rfl] at h4
  push_cast at h4
  have h5 := (abs_le.1 h4).1
  rw [abs_of_pos (show (0 : ℝ) < 0.531 by norm_num)] at h5
  norm_num at h5 ⊢
  linarith

private theorem sin_q (iy : ℤ) (h01 : iy = 0 ∧ b.val = 0 ∨ iy = 1) : ∃ q : ℝ, IsRNE q (kSin a b iy) ∧
    |q - (a.val * Poly.ev KernD.sinPoly (a.val ^ 2) + b.val * (1 - a.val ^ 2 / 2))| ≤
      (if |a.val| ≤ 17 / 32 then 0.195 / 2 ^ 53 else 0.4445 / 2 ^ 53) * |a.val| := by
  have hn := abs_nonneg a.val
  have htail := h.tail
  split_ifs with hs
  · rcases h01 with ⟨rfl, h0⟩ | rfl
    · obtain ⟨q, h1, h2⟩ := KernD.sin0_small (y := b) h.af (hs.trans (by norm_num)) h.a_tiny
      refine ⟨q, h1, ?_⟩
      rw [h0, zero_mul, add_zero]; exact h2.trans (mul_le_mul_of_nonneg_right (by norm_num) hn)
    · obtain ⟨q, h1, h2⟩ := KernD.sin1_small (y := b) h.af (hs.trans (by norm_num)) h.a_tiny h.bf htail
      exact ⟨q, h1, h2.trans (mul_le_mul_of_nonneg_right (by norm_num) hn)⟩
  · rcases h01 with ⟨rfl, h0⟩ | rfl
    · obtain ⟨q, h1, h2⟩ := KernD.sin0 (y := b) h.af (h.a_le.trans (by norm_num)) h.a_tiny
      refine ⟨q, h1, ?_⟩
      rw [h0, zero_mul, add_zero]; exact h2.trans (mul_le_mul_of_nonneg_right (by norm_num) hn)
    · obtain ⟨q, h1, h2⟩ := KernD.sin1 (y := b) h.af (h.a_le.trans (by norm_num)) h.a_tiny h.bf htail
      exact ⟨q, h1, h2.trans (mul_le_mul_of_nonneg_right (by norm_num) hn)⟩

/-- the value that `k_sin` rounds, for both forms of the kernel -/
theorem sin_val (iy : ℤ) (h01 : iy = 0 ∧ b.val = 0 ∨ iy = 1) : ∃ q : ℝ, IsRNE q (kSin a b iy) ∧
    |q - Real.sin r| ≤ (if |a.val| ≤ 17 / 32 then 0.263 / 2 ^ 53 else 0.512 / 2 ^ 53) * |a.val| := by
  obtain ⟨q, hq, he⟩ := h.sin_q iy h01
  refine ⟨q, hq, ?_⟩
  have h1 := KernD.poly_sin h.a_le
  have h2 := KernD.sin_add_small h.a_le h.tail
  have h3 := (Real.abs_sin_sub_sin_le (a.val + b.val) r).trans h.err
  have h4 : (a.val ^ 4 / 24 + 1 / 2 ^ 50) * |b.val| ≤ 0.0261 / 2 ^ 53 * |a.val| := by
    have ha2 : a.val ^ 2 ≤ 10361961 / 16777216 := by rw [← sq_abs]; nlinarith [abs_nonneg a.val, h.a_le]
    have ha4 : a.val ^ 4 ≤ 0.3815 := by rw [show a.val ^ 4 = a.val ^ 2 * a.val ^ 2 by ring]; nlinarith [sq_nonneg a.val]
    calc _ ≤ (0.3815 / 24 + 1 / 2 ^ 50) * (13 / 2 ^ 56 * |a.val|) :=
          mul_le_mul (by linarith) h.tail (abs_nonneg _) (by norm_num)
      _ ≤ _ := by nlinarith [abs_nonneg a.val]
  have h5 := h.a_lo
  have h6 : 1 / 2 ^ 62 * |r| ≤ 0.0021 / 2 ^ 53 * |a.val| := by nlinarith [abs_nonneg r]
  have e : q - Real.sin r = (q - (a.val * Poly.ev KernD.sinPoly (a.val ^ 2) + b.val * (1 - a.val ^ 2 / 2)))
      + (a.val * Poly.ev KernD.sinPoly (a.val ^ 2) - Real.sin a.val)
      + (-(Real.sin (a.val + b.val) - (Real.sin a.val + b.val * (1 - a.val ^ 2 / 2))) + (Real.sin (a.val + b.val) - Real.sin r)) := by ring
  rw [e]
  refine (abs_add_three _ _ _).trans ?_
  have h7 := abs_add_le (-(Real.sin (a.val + b.val) - (Real.sin a.val + b.val * (1 - a.val ^ 2 / 2)))) (Real.sin (a.val + b.val) - Real.sin r)
  rw [abs_neg] at h7
  have hn := abs_nonneg a.val
  have h8 : |a.val * Poly.ev KernD.sinPoly (a.val ^ 2) - Real.sin a.val| ≤ 0.0391 / 2 ^ 53 * |a.val| := h1.trans (mul_le_mul_of_nonneg_right (by norm_num) hn)
  split_ifs at he ⊢ <;> linarith

theorem sin_ulp (iy : ℤ) (h01 : iy = 0 ∧ b.val = 0 ∨ iy = 1) : WithinUlp 1 (kSin a b iy) (Real.sin r) := by
  obtain ⟨q, hq, he⟩ := h.sin_val iy h01
  have hb := big64 (Real.abs_sin_le_one r)
  split_ifs at he with hs
  · have h1 := sin_lower (h.hi.trans (by norm_num))
    refine WithinUlp.of_rne_rel hq h.sin_ne' hb (by rw [f64_bias]; norm_num) (ε := 0.296 / 2 ^ 53) ?_ (by norm_num) (by rw [f64_sb]; norm_num)
      (by rw [f64_sb]; norm_num)
    have h2 := h.a_hi
    refine he.trans ?_
    nlinarith [abs_nonneg r]
  · have h2 := h.a_hi
    have h3 : 0.531 ≤ |r| := by nlinarith [abs_nonneg r]
    have h4 := le_ulpAt_of_le (F := f64) (sin_half h.hi h3)
    rw [f64_sb] at h4
    refine WithinUlp.of_rne hq h.sin_ne' hb (by rw [f64_bias]; norm_num) (δ := 0.45) ?_ (by norm_num) (by norm_num)
    have h5 := h.a_le
    refine he.trans ?_
    norm_num at h4 ⊢
    linarith

theorem cos_ulp : WithinUlp 1 (kCos a b) (Real.cos r) := by
  obtain ⟨q, hq, he⟩ := KernD.cos_core h.af h.a_le h.bf h.tail
  have hb := big64 (Real.abs_cos_le_one r)
  have hc := cos_lower (h.hi.trans (by norm_num))
  have h4 := le_ulpAt_of_le (F := f64) (t := Real.cos r) (k := -1) (by rw [abs_of_pos (by linarith)]; norm_num; linarith)
  rw [f64_sb] at h4
  have h1 := KernD.poly_cos h.a_le
  have h2 := KernD.cos_add_small h.a_le h.tail
  have h3 := (Real.abs_cos_sub_cos_le (a.val + b.val) r).trans h.err
  refine WithinUlp.of_rne hq (by linarith) hb (by rw [f64_bias]; norm_num) (δ := 0.4999) ?_ (by norm_num) (by norm_num)
  have h5 : (a.val ^ 2 / 6 * |a.val| + 1 / 2 ^ 50) * |b.val| ≤ 0.1034 / 2 ^ 53 := by
    have ha := h.a_le
    have hn := abs_nonneg a.val
    have hb : |b.val| ≤ 13 / 2 ^ 56 * (3219 / 4096) := h.tail.trans (by nlinarith)
    have ha2 : a.val ^ 2 ≤ 10361961 / 16777216 := by rw [← sq_abs]; nlinarith [abs_nonneg a.val, h.a_le]
    have ha3 : a.val ^ 2 / 6 * |a.val| ≤ 10361961 / 16777216 / 6 * (3219 / 4096) := mul_le_mul (by linarith) ha hn (by norm_num)
    calc _ ≤ (10361961 / 16777216 / 6 * (3219 / 4096) + 1 / 2 ^ 50) * (13 / 2 ^ 56 * (3219 / 4096)) :=
          mul_le_mul (by linarith) hb (abs_nonneg _) (by norm_num)
      _ ≤ _ := by norm_num
  have e : q - Real.cos r = (q - (Poly.ev KernD.cosPoly (a.val ^ 2) - a.val * b.val))
      + (Poly.ev KernD.cosPoly (a.val ^ 2) - Real.cos a.val)
      + (-(Real.cos (a.val + b.val) - (Real.cos a.val - a.val * b.val)) + (Real.cos (a.val + b.val) - Real.cos r)) := by ring
  rw [e]
  refine (abs_add_three _ _ _).trans ?_
  have h7 := abs_add_le (-(Real.cos (a.val + b.val) - (Real.cos a.val - a.val * b.val))) (Real.cos (a.val + b.val) - Real.cos r)
  rw [abs_neg] at h7
  have h8 := h.hi
  norm_num at *
  linarith

end NearD
end Verif
