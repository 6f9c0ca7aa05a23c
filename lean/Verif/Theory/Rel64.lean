import Verif.Theory.Err64
import Verif.Theory.As

/-!
# Relative error calculus for binary64
-/

namespace Verif
open Flt

/-- `a` is finite and within the relative error `e` of the real number `v` -/
structure RA (a : Flt f64) (v e : ℝ) : Prop where
  fin : a.isFinite
  err : |a.val - v| ≤ e * |v|

namespace RA
variable {a b : Flt f64} {v w e f g : ℝ}

theorem exact (ha : a.isFinite) (hv : a.val = v) : RA a v 0 := ⟨ha, by rw [hv]; simp⟩

theorem weaken (h : RA a v e) (he : e ≤ g) : RA a v g :=
  ⟨h.fin, h.err.trans (mul_le_mul_of_nonneg_right he (abs_nonneg _))⟩

theorem congr (h : RA a v e) (hv : v = w) : RA a w e := hv ▸ h

/-- combining the error of the exact operation on the computed operands with the rounding -/
theorem of_rne {q : ℝ} {r : Flt f64} (h : IsRNE q r) (hq : |q - v| ≤ e * |v|) (he0 : 0 ≤ e) (he1 : e ≤ 1 / 4)
    (hlo : (2 : ℝ) ^ (-1000 : ℤ) ≤ |v|) (hhi : |v| ≤ 2 ^ (1000 : ℤ)) (hg : e + (1 + e) * (1 / 2 ^ 53) ≤ g) : RA r v g := by
  have h1 : |q| ≤ (1 + e) * |v| := by
    have := abs_add_le (q - v) v
    rw [sub_add_cancel] at this
    linarith
  have h2 : (1 - e) * |v| ≤ |q| := by
    have := abs_sub_abs_le_abs_sub v q
    rw [abs_sub_comm] at this
    linarith
  have l1 : (2 : ℝ) ^ (-1022 : ℤ) ≤ |q| := by
    have : (2 : ℝ) ^ (-1022 : ℤ) ≤ (1 - e) * 2 ^ (-1000 : ℤ) := by
      rw [show (-1022 : ℤ) = -22 + -1000 by norm_num, zpow_add₀ (by norm_num)]
      exact mul_le_mul_of_nonneg_right (by norm_num; linarith) (zp _).le
    exact this.trans ((mul_le_mul_of_nonneg_left hlo (by linarith)).trans h2)
  have l2 : |q| ≤ 3 / 2 * 2 ^ (1023 : ℤ) := by
    have : (2 : ℝ) ^ (1023 : ℤ) = 2 ^ 23 * 2 ^ (1000 : ℤ) := by
      rw [show (1023 : ℤ) = 23 + 1000 by norm_num, zpow_add₀ (by norm_num)]; norm_num
    rw [this]
    have hT := zp 1000
    have h3 : (1 + e) * |v| ≤ 5 / 4 * |v| := mul_le_mul_of_nonneg_right (by linarith) (abs_nonneg _)
    clear this
    generalize (2 : ℝ) ^ (1000 : ℤ) = T at *
    linarith
  obtain ⟨f1, f2⟩ := h.rel64 l1 l2
  refine ⟨f1, ?_⟩
  have h3 : (2 : ℝ) ^ (-53 : ℤ) = 1 / 2 ^ 53 := by norm_num
  rw [h3] at f2
  have h4 := abs_add_le (r.val - q) (q - v)
  rw [sub_add_sub_cancel] at h4
  have h5 : |q| * (1 / 2 ^ 53) ≤ (1 + e) * |v| * (1 / 2 ^ 53) := mul_le_mul_of_nonneg_right h1 (by norm_num)
  have h6 : (e + (1 + e) * (1 / 2 ^ 53)) * |v| ≤ g * |v| := mul_le_mul_of_nonneg_right hg (abs_nonneg _)
  linarith

theorem mul (ha : RA a v e) (hb : RA b w f) (he : 0 ≤ e) (hf : 0 ≤ f) (h14 : e + f + e * f ≤ 1 / 4)
    (hlo : (2 : ℝ) ^ (-1000 : ℤ) ≤ |v * w|) (hhi : |v * w| ≤ 2 ^ (1000 : ℤ))
    (hg : (e + f + e * f) + (1 + (e + f + e * f)) * (1 / 2 ^ 53) ≤ g) : RA (a * b) (v * w) g := by
  refine of_rne (mul_rne ha.fin hb.fin) ?_ (by positivity) h14 hlo hhi hg
  have h1 : a.val * b.val - v * w = (a.val - v) * (b.val - w) + (a.val - v) * w + v * (b.val - w) := by ring
  rw [h1]
  have e1 := ha.err
  have e2 := hb.err
  have := abs_add_three ((a.val - v) * (b.val - w)) ((a.val - v) * w) (v * (b.val - w))
  refine this.trans ?_
  rw [abs_mul, abs_mul, abs_mul, abs_mul v w]
  have k1 : |a.val - v| * |b.val - w| ≤ (e * |v|) * (f * |w|) := mul_le_mul e1 e2 (abs_nonneg _) (by positivity)
  have k2 : |a.val - v| * |w| ≤ (e * |v|) * |w| := mul_le_mul_of_nonneg_right e1 (abs_nonneg _)
  have k3 : |v| * |b.val - w| ≤ |v| * (f * |w|) := mul_le_mul_of_nonneg_left e2 (abs_nonneg _)
  linarith

/-- addition of numbers of the same sign -/
theorem add (ha : RA a v e) (hb : RA b w e) (hvw : 0 ≤ v * w) (he : 0 ≤ e) (h14 : e ≤ 1 / 4)
    (hlo : (2 : ℝ) ^ (-1000 : ℤ) ≤ |v + w|) (hhi : |v + w| ≤ 2 ^ (1000 : ℤ))
    (hg : e + (1 + e) * (1 / 2 ^ 53) ≤ g) : RA (a + b) (v + w) g := by
  refine of_rne (add_rne ha.fin hb.fin) ?_ he h14 hlo hhi hg
  have h1 : a.val + b.val - (v + w) = (a.val - v) + (b.val - w) := by ring
  rw [h1]
  have h2 : |v + w| = |v| + |w| := by
    rcases lt_or_ge v 0 with hv | hv
    · have hw : w ≤ 0 := by by_contra h; nlinarith
      rw [abs_of_neg hv, abs_of_nonpos hw, abs_of_nonpos (by linarith)]; ring
    · rcases eq_or_lt_of_le hv with h0 | h0
      · rw [← h0]; simp
      · have hw : 0 ≤ w := by by_contra h; nlinarith
        rw [abs_of_nonneg hv, abs_of_nonneg hw, abs_of_nonneg (by linarith)]
  have := abs_add_le (a.val - v) (b.val - w)
  rw [h2]
  linarith [ha.err, hb.err]

theorem div (ha : RA a v e) (hb : RA b w f) (hw : w ≠ 0) (he : 0 ≤ e) (hf : 0 ≤ f) (hf1 : f ≤ 1 / 4) (h14 : (e + f) / (1 - f) ≤ 1 / 4)
    (hlo : (2 : ℝ) ^ (-1000 : ℤ) ≤ |v / w|) (hhi : |v / w| ≤ 2 ^ (1000 : ℤ))
    (hg : (e + f) / (1 - f) + (1 + (e + f) / (1 - f)) * (1 / 2 ^ 53) ≤ g) : RA (a / b) (v / w) g := by
  have hw' : 0 < |w| := abs_pos.2 hw
  have hb1 : (1 - f) * |w| ≤ |b.val| := by
    have := abs_sub_abs_le_abs_sub w b.val
    rw [abs_sub_comm] at this
    linarith [hb.err]
  have hb0 : 0 < |b.val| := lt_of_lt_of_le (by nlinarith) hb1
  have hbv : b.val ≠ 0 := abs_pos.1 hb0
  refine of_rne (div_rne ha.fin hb.fin (by rwa [isZero_val])) ?_ (by
    apply div_nonneg <;> linarith) h14 hlo hhi hg
  have h1 : a.val / b.val - v / w = ((a.val - v) * w - v * (b.val - w)) / (b.val * w) := by field_simp; ring
  rw [h1, abs_div, abs_mul, abs_div, div_le_iff₀ (by positivity)]
  have h2 : |(a.val - v) * w - v * (b.val - w)| ≤ (e + f) * (|v| * |w|) := by
    have h3 := abs_sub ((a.val - v) * w) (v * (b.val - w))
    rw [abs_mul, abs_mul] at h3
    have k2 : |a.val - v| * |w| ≤ (e * |v|) * |w| := mul_le_mul_of_nonneg_right ha.err (abs_nonneg _)
    have k3 : |v| * |b.val - w| ≤ |v| * (f * |w|) := mul_le_mul_of_nonneg_left hb.err (abs_nonneg _)
    linarith
  refine h2.trans ?_
  have h5 : (e + f) / (1 - f) * (|v| / |w|) * (|b.val| * |w|) = (e + f) * |v| * (|b.val| / (1 - f)) := by
    have : (1 - f) ≠ 0 := by linarith
    field_simp
  rw [h5]
  have h6 : |w| ≤ |b.val| / (1 - f) := by rw [le_div_iff₀ (by linarith)]; linarith
  have h7 : 0 ≤ (e + f) * |v| := by positivity
  calc (e + f) * (|v| * |w|) = (e + f) * |v| * |w| := by ring
    _ ≤ _ := mul_le_mul_of_nonneg_left h6 h7

end RA
end Verif
