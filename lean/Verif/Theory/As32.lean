import Verif.Theory.As

/-!
# `As` chains for `f32`
-/

namespace Verif
open Flt

namespace As32
variable {t : ℝ} {a b : Flt f32} {v w e f B C g D : ℝ}

private theorem hu : (2 : ℝ) ^ (-1 - (f32.sb : ℤ)) = 1 / 2 ^ 24 := by rw [f32_sb]; norm_num
private theorem big (x : ℝ) (h : x ≤ 2 ^ 60) : x ≤ 3 / 2 * 2 ^ (f32.bias : ℤ) := by
  have h1 : (2 : ℝ) ^ (60 : ℕ) = 2 ^ (60 : ℤ) := (zpow_natCast 2 60).symm
  have h2 : (2 : ℝ) ^ (60 : ℤ) ≤ 2 ^ (127 : ℤ) := zpow_le_zpow_right₀ (by norm_num) (by norm_num)
  have h3 : (2 : ℝ) ^ (f32.bias : ℤ) = 2 ^ (127 : ℤ) := by rw [f32_bias]; rfl
  rw [h3]
  have := Flt.zp 127
  rw [h1] at h
  clear h1 h3
  generalize (2 : ℝ) ^ (60 : ℤ) = A at *
  generalize (2 : ℝ) ^ (127 : ℤ) = T at *
  linarith

theorem add (ht0 : 0 ≤ t) (ht : t ≤ 1) (ha : As t a v e B) (hb : As t b w f C) (h0 : 0 ≤ B + C) (hO : B + C ≤ 2 ^ 60)
    (hg : e + f + (B + C) * (1 / 2 ^ 24) ≤ g) (hD : (B + C) * (1 + 1 / 2 ^ 24) ≤ D) : As t (a + b) (v + w) g D :=
  ha.add' hb ht0 _ hu (big _ ((mul_le_of_le_one_right h0 ht).trans hO)) hg hD

theorem sub (ht0 : 0 ≤ t) (ht : t ≤ 1) (ha : As t a v e B) (hb : As t b w f C) (h0 : 0 ≤ B + C) (hO : B + C ≤ 2 ^ 60)
    (hg : e + f + (B + C) * (1 / 2 ^ 24) ≤ g) (hD : (B + C) * (1 + 1 / 2 ^ 24) ≤ D) : As t (a - b) (v - w) g D :=
  ha.sub' hb ht0 _ hu (big _ ((mul_le_of_le_one_right h0 ht).trans hO)) hg hD

theorem mul (ht0 : 2 ^ (-40 : ℤ) ≤ t) (ht : t ≤ 1) (ha : As t a v e B) (hb : As 1 b w f C) (hB : 0 ≤ B) (hC : 0 ≤ C) (he : 0 ≤ e)
    (hO : B * C ≤ 2 ^ 60) (hg : B * f + e * (C + f) + B * C * (1 / 2 ^ 24) + 1 / 2 ^ 100 ≤ g)
    (hD : B * C * (1 + 1 / 2 ^ 24) + 1 / 2 ^ 100 ≤ D) : As t (a * b) (v * w) g D := by
  have hp : 0 < t := (Flt.zp _).trans_le ht0
  refine ha.mul' hb hp.le (by norm_num) (mul_one t) _ (1 / 2 ^ 100) hu (by decide) ?_
    (big _ ((mul_le_of_le_one_right (by positivity) ht).trans hO)) hB he hg hD
  have : (2 : ℝ) ^ (-(f32.bias : ℤ) - f32.sb) ≤ 1 / 2 ^ 100 * 2 ^ (-40 : ℤ) := by
    rw [f32_bias, f32_sb, show (1 : ℝ) / 2 ^ 100 = 2 ^ (-100 : ℤ) by rw [zpow_neg]; norm_num, ← zpow_add₀ (by norm_num)]
    exact zpow_le_zpow_right₀ (by norm_num) (by norm_num)
  exact this.trans (mul_le_mul_of_nonneg_left ht0 (by positivity))

theorem mulr (ht0 : 2 ^ (-40 : ℤ) ≤ t) (ht : t ≤ 1) (ha : As 1 a v e B) (hb : As t b w f C) (hB : 0 ≤ B) (hC : 0 ≤ C) (he : 0 ≤ e)
    (hO : B * C ≤ 2 ^ 60) (hg : B * f + e * (C + f) + B * C * (1 / 2 ^ 24) + 1 / 2 ^ 100 ≤ g)
    (hD : B * C * (1 + 1 / 2 ^ 24) + 1 / 2 ^ 100 ≤ D) : As t (a * b) (v * w) g D := by
  have hp : 0 < t := (Flt.zp _).trans_le ht0
  refine ha.mul' hb (by norm_num) hp.le (one_mul t) _ (1 / 2 ^ 100) hu (by decide) ?_
    (big _ ((mul_le_of_le_one_right (by positivity) ht).trans hO)) hB he hg hD
  have : (2 : ℝ) ^ (-(f32.bias : ℤ) - f32.sb) ≤ 1 / 2 ^ 100 * 2 ^ (-40 : ℤ) := by
    rw [f32_bias, f32_sb, show (1 : ℝ) / 2 ^ 100 = 2 ^ (-100 : ℤ) by rw [zpow_neg]; norm_num, ← zpow_add₀ (by norm_num)]
    exact zpow_le_zpow_right₀ (by norm_num) (by norm_num)
  exact this.trans (mul_le_mul_of_nonneg_left ht0 (by positivity))

theorem div (ht0 : 2 ^ (-40 : ℤ) ≤ t) (ht : t ≤ 1) (ha : As t a v e B) (hb : As 1 b w f C) (L : ℝ) (hL : L ≤ |b.val|) (hB : 0 ≤ B)
    (he : 0 ≤ e) (hf : 0 ≤ f) (hL0 : f < L) (hO : B / L ≤ 2 ^ 60)
    (hg : e / L + (B + e) * f / (L * (L - f)) + B / L * (1 / 2 ^ 24) + 1 / 2 ^ 100 ≤ g)
    (hD : B / L * (1 + 1 / 2 ^ 24) + 1 / 2 ^ 100 ≤ D) : As t (a / b) (v / w) g D := by
  have hp : 0 < t := (Flt.zp _).trans_le ht0
  have hLp : 0 < L := hf.trans_lt hL0
  refine ha.div' hb L (by rw [mul_one]; exact hL) hp.le (by norm_num) (div_one t) _ (1 / 2 ^ 100) hu (by decide) ?_
    (big _ ((mul_le_of_le_one_right (by positivity) ht).trans hO)) hB he hf hL0 hg hD
  have : (2 : ℝ) ^ (-(f32.bias : ℤ) - f32.sb) ≤ 1 / 2 ^ 100 * 2 ^ (-40 : ℤ) := by
    rw [f32_bias, f32_sb, show (1 : ℝ) / 2 ^ 100 = 2 ^ (-100 : ℤ) by rw [zpow_neg]; norm_num, ← zpow_add₀ (by norm_num)]
    exact zpow_le_zpow_right₀ (by norm_num) (by norm_num)
  exact this.trans (mul_le_mul_of_nonneg_left ht0 (by positivity))

end As32

theorem one_lo32 : (2 : ℝ) ^ (-40 : ℤ) ≤ 1 := zpow_le_one_of_nonpos₀ (by norm_num) (by norm_num)

end Verif
