import Verif.Theory.Ap

/-!
# Error analysis relative to a scale

`As t a v e B`: the float `a` is finite, differs from the real `v` by at most `e * t` and is at most `B * t` in
magnitude.  With `t = |x|` this is relative error.
-/

namespace Verif
open Flt

structure As {F : Fmt} (t : ℝ) (a : Flt F) (v e B : ℝ) : Prop where
  fin : a.isFinite
  err : |a.val - v| ≤ e * t
  bd : |a.val| ≤ B * t

/-- rounding is relative, up to half of the smallest subnormal -/
theorem IsRNE.mixed {F : Fmt} {q : ℝ} {r : Flt F} (h : IsRNE q r) (h2 : |q| ≤ 3 / 2 * 2 ^ (F.bias : ℤ)) (hb : 3 ≤ F.bias) :
    r.isFinite ∧ |r.val - q| ≤ |q| * 2 ^ (-1 - (F.sb : ℤ)) + 2 ^ (-(F.bias : ℤ) - F.sb) := by
  rcases le_or_gt ((2 : ℝ) ^ (1 - (F.bias : ℤ))) |q| with h1 | h1
  · obtain ⟨a, b⟩ := h.rel h1 h2
    exact ⟨a, b.trans (le_add_of_nonneg_right (Flt.zp _).le)⟩
  · obtain ⟨a, b⟩ := h.err (2 - (F.bias : ℤ)) (h1.le.trans (zpow_le_zpow_right₀ (by norm_num) (by omega))) le_rfl (by omega)
    refine ⟨a, b.trans ?_⟩
    rw [show (2 - (F.bias : ℤ) - 2 - F.sb) = -(F.bias : ℤ) - F.sb by ring]
    exact le_add_of_nonneg_left (mul_nonneg (abs_nonneg _) (Flt.zp _).le)

namespace As
variable {F : Fmt} {t s r : ℝ} {a b : Flt F} {v w e f B C g D : ℝ}

theorem exact (ha : a.isFinite) (hv : a.val = v) (hB : |v| ≤ B * t) : As t a v 0 B := ⟨ha, by rw [hv]; simp, by rw [hv]; exact hB⟩

theorem weaken (h : As t a v e B) (ht : 0 ≤ t) (he : e ≤ g) (hB : B ≤ D) : As t a v g D :=
  ⟨h.fin, h.err.trans (mul_le_mul_of_nonneg_right he ht), h.bd.trans (mul_le_mul_of_nonneg_right hB ht)⟩

theorem change (h : As t a v e B) (hw : |v - w| ≤ f * t) (ht : 0 ≤ t) (hg : e + f ≤ g) : As t a w g B :=
  ⟨h.fin, by
    have := abs_sub_le a.val v w
    have := h.err
    have := mul_le_mul_of_nonneg_right hg ht
    linarith, h.bd⟩

theorem neg (h : As t a v e B) : As t (-a) (-v) e B := by
  refine ⟨(Flt.isFinite_neg a).2 h.fin, ?_, ?_⟩
  · rw [Flt.val_neg, show -a.val - -v = -(a.val - v) by ring, abs_neg]; exact h.err
  · rw [Flt.val_neg, abs_neg]; exact h.bd

theorem add' (ha : As t a v e B) (hb : As t b w f C) (ht : 0 ≤ t) (u : ℝ) (hu : (2 : ℝ) ^ (-1 - (F.sb : ℤ)) = u)
    (hO : (B + C) * t ≤ 3 / 2 * 2 ^ (F.bias : ℤ))
    (hg : e + f + (B + C) * u ≤ g) (hD : (B + C) * (1 + u) ≤ D) : As t (a + b) (v + w) g D := by
  have h1 := abs_add_le a.val b.val
  have h2 := ha.bd
  have h3 := hb.bd
  obtain ⟨hf, he⟩ := add_rel ha.fin hb.fin (by linarith)
  rw [hu] at he
  have h0 : 0 ≤ u := by rw [← hu]; exact (Flt.zp _).le
  have h4 : |a.val + b.val| * u ≤ (B + C) * t * u := mul_le_mul_of_nonneg_right (by linarith) h0
  have h5 := mul_le_mul_of_nonneg_right hg ht
  have h6 := mul_le_mul_of_nonneg_right hD ht
  refine ⟨hf, ?_, ?_⟩
  · have e1 : (a + b).val - (v + w) = ((a + b).val - (a.val + b.val)) + (a.val - v) + (b.val - w) := by ring
    rw [e1]
    have := abs_add_three ((a + b).val - (a.val + b.val)) (a.val - v) (b.val - w)
    have := ha.err
    have := hb.err
    linarith
  · have := abs_sub_abs_le_abs_sub (a + b).val (a.val + b.val)
    linarith

theorem sub' (ha : As t a v e B) (hb : As t b w f C) (ht : 0 ≤ t) (u : ℝ) (hu : (2 : ℝ) ^ (-1 - (F.sb : ℤ)) = u)
    (hO : (B + C) * t ≤ 3 / 2 * 2 ^ (F.bias : ℤ))
    (hg : e + f + (B + C) * u ≤ g) (hD : (B + C) * (1 + u) ≤ D) : As t (a - b) (v - w) g D := by
  have h1 := abs_sub a.val b.val
  have h2 := ha.bd
  have h3 := hb.bd
  obtain ⟨hf, he⟩ := sub_rel ha.fin hb.fin (by linarith)
  rw [hu] at he
  have h0 : 0 ≤ u := by rw [← hu]; exact (Flt.zp _).le
  have h4 : |a.val - b.val| * u ≤ (B + C) * t * u := mul_le_mul_of_nonneg_right (by linarith) h0
  have h5 := mul_le_mul_of_nonneg_right hg ht
  have h6 := mul_le_mul_of_nonneg_right hD ht
  refine ⟨hf, ?_, ?_⟩
  · have e1 : (a - b).val - (v - w) = ((a - b).val - (a.val - b.val)) + (a.val - v) + -(b.val - w) := by ring
    rw [e1]
    have := abs_add_three ((a - b).val - (a.val - b.val)) (a.val - v) (-(b.val - w))
    rw [abs_neg] at this
    have := ha.err
    have := hb.err
    linarith
  · have := abs_sub_abs_le_abs_sub (a - b).val (a.val - b.val)
    linarith

theorem mul' (ha : As t a v e B) (hb : As s b w f C) (ht : 0 ≤ t) (hs : 0 ≤ s) (hr : t * s = r) (u n : ℝ)
    (hu : (2 : ℝ) ^ (-1 - (F.sb : ℤ)) = u) (hbb : 3 ≤ F.bias) (hn : (2 : ℝ) ^ (-(F.bias : ℤ) - F.sb) ≤ n * r)
    (hO : B * C * r ≤ 3 / 2 * 2 ^ (F.bias : ℤ)) (hB : 0 ≤ B) (he0 : 0 ≤ e)
    (hg : B * f + e * (C + f) + B * C * u + n ≤ g) (hD : B * C * (1 + u) + n ≤ D) : As r (a * b) (v * w) g D := by
  have h2 := ha.bd
  have h3 := hb.bd
  have hr0 : 0 ≤ r := by rw [← hr]; positivity
  have h1 : |a.val * b.val| ≤ B * C * r := by
    rw [abs_mul, ← hr, show B * C * (t * s) = (B * t) * (C * s) by ring]
    exact mul_le_mul h2 h3 (abs_nonneg _) (by positivity)
  obtain ⟨hf, he⟩ := (mul_rne ha.fin hb.fin).mixed (h1.trans hO) hbb
  rw [hu] at he
  have h0 : 0 ≤ u := by rw [← hu]; exact (Flt.zp _).le
  have h4 : |a.val * b.val| * u ≤ B * C * r * u := mul_le_mul_of_nonneg_right h1 h0
  have h7 := mul_le_mul_of_nonneg_right hg hr0
  have h8 := mul_le_mul_of_nonneg_right hD hr0
  refine ⟨hf, ?_, ?_⟩
  · have e1 : (a * b).val - v * w = ((a * b).val - a.val * b.val) + a.val * (b.val - w) + (a.val - v) * w := by ring
    rw [e1]
    have h4 := abs_add_three ((a * b).val - a.val * b.val) (a.val * (b.val - w)) ((a.val - v) * w)
    have h5 := ha.err
    have h6 := hb.err
    have hw : |w| ≤ (C + f) * s := by
      have := abs_sub_abs_le_abs_sub w b.val
      rw [abs_sub_comm] at this
      linarith
    have m1 : |a.val * (b.val - w)| ≤ (B * t) * (f * s) := by
      rw [abs_mul]; exact mul_le_mul h2 h6 (abs_nonneg _) (by positivity)
    have m2 : |(a.val - v) * w| ≤ (e * t) * ((C + f) * s) := by
      rw [abs_mul]; exact mul_le_mul h5 hw (abs_nonneg _) (by positivity)
    have m3 : (B * t) * (f * s) + (e * t) * ((C + f) * s) = (B * f + e * (C + f)) * r := by rw [← hr]; ring
    linarith
  · have := abs_sub_abs_le_abs_sub (a * b).val (a.val * b.val)
    linarith

/-- division by something that is at least `L * s` -/
theorem div' (ha : As t a v e B) (hb : As s b w f C) (L : ℝ) (hL : L * s ≤ |b.val|) (ht : 0 ≤ t) (hs : 0 < s) (hr : t / s = r) (u n : ℝ)
    (hu : (2 : ℝ) ^ (-1 - (F.sb : ℤ)) = u) (hbb : 3 ≤ F.bias) (hn : (2 : ℝ) ^ (-(F.bias : ℤ) - F.sb) ≤ n * r)
    (hO : B / L * r ≤ 3 / 2 * 2 ^ (F.bias : ℤ)) (hB : 0 ≤ B) (he0 : 0 ≤ e) (hf0 : 0 ≤ f) (hL0 : f < L)
    (hg : e / L + (B + e) * f / (L * (L - f)) + B / L * u + n ≤ g) (hD : B / L * (1 + u) + n ≤ D) : As r (a / b) (v / w) g D := by
  have h2 := ha.bd
  have hLp : 0 < L := hf0.trans_lt hL0
  have hb0 : 0 < |b.val| := lt_of_lt_of_le (by positivity) hL
  have hbne : b.val ≠ 0 := by intro h; rw [h] at hb0; simp at hb0
  have hr0 : 0 ≤ r := by rw [← hr]; positivity
  have h1 : |a.val / b.val| ≤ B / L * r := by
    rw [abs_div, ← hr, show B / L * (t / s) = (B * t) / (L * s) by field_simp]
    exact div_le_div₀ (by positivity) h2 (by positivity) hL
  obtain ⟨hf, he⟩ := (div_rne ha.fin hb.fin (fun h => hbne (isZero_val.1 h))).mixed (h1.trans hO) hbb
  rw [hu] at he
  have h0 : 0 ≤ u := by rw [← hu]; exact (Flt.zp _).le
  have h4 : |a.val / b.val| * u ≤ B / L * r * u := mul_le_mul_of_nonneg_right h1 h0
  have h7 := mul_le_mul_of_nonneg_right hg hr0
  have h8 := mul_le_mul_of_nonneg_right hD hr0
  have h5 := ha.err
  have h6 := hb.err
  have hw : (L - f) * s ≤ |w| := by
    have := abs_sub_abs_le_abs_sub b.val w
    linarith
  have hw0 : 0 < |w| := lt_of_lt_of_le (mul_pos (by linarith) hs) hw
  have hwne : w ≠ 0 := by intro h; rw [h] at hw0; simp at hw0
  refine ⟨hf, ?_, ?_⟩
  · have e1 : (a / b).val - v / w = ((a / b).val - a.val / b.val) + (a.val - v) / b.val + v * (w - b.val) / (b.val * w) := by
      field_simp; ring
    rw [e1]
    have h4 := abs_add_three ((a / b).val - a.val / b.val) ((a.val - v) / b.val) (v * (w - b.val) / (b.val * w))
    have hv : |v| ≤ (B + e) * t := by
      have := abs_sub_abs_le_abs_sub v a.val
      rw [abs_sub_comm] at this
      linarith
    have m1 : |(a.val - v) / b.val| ≤ (e * t) / (L * s) := by
      rw [abs_div]; exact div_le_div₀ (by positivity) h5 (by positivity) hL
    have m2 : |v * (w - b.val) / (b.val * w)| ≤ ((B + e) * t) * (f * s) / ((L * s) * ((L - f) * s)) := by
      rw [abs_div, abs_mul, abs_mul, abs_sub_comm w]
      apply div_le_div₀ (by positivity) (mul_le_mul hv h6 (abs_nonneg _) (by positivity))
      · have := mul_pos (sub_pos.2 hL0) hs
        positivity
      · exact mul_le_mul hL hw (mul_nonneg (by linarith) hs.le) (abs_nonneg _)
    have hLf : L - f ≠ 0 := by linarith
    have m3 : (e * t) / (L * s) + ((B + e) * t) * (f * s) / ((L * s) * ((L - f) * s)) = (e / L + (B + e) * f / (L * (L - f))) * r := by
      rw [← hr]; field_simp
    linarith
  · have := abs_sub_abs_le_abs_sub (a / b).val (a.val / b.val)
    linarith

end As

/-! ## doubles, scale between `2^-900` and 1 -/
namespace As64
variable {t : ℝ} {a b : Flt f64} {v w e f B C g D : ℝ}

private theorem hu : (2 : ℝ) ^ (-1 - (f64.sb : ℤ)) = 1 / 2 ^ 53 := by rw [f64_sb]; norm_num
private theorem big (x : ℝ) (h : x ≤ 2 ^ 100) : x ≤ 3 / 2 * 2 ^ (f64.bias : ℤ) := by
  have h1 : (2 : ℝ) ^ (100 : ℕ) = 2 ^ (100 : ℤ) := (zpow_natCast 2 100).symm
  have h2 : (2 : ℝ) ^ (100 : ℤ) ≤ 2 ^ (1023 : ℤ) := zpow_le_zpow_right₀ (by norm_num) (by norm_num)
  have h3 : (2 : ℝ) ^ (f64.bias : ℤ) = 2 ^ (1023 : ℤ) := by rw [f64_bias]; rfl
  rw [h3]
  have := Flt.zp 1023
  rw [h1] at h
  clear h1 h3
  generalize (2 : ℝ) ^ (100 : ℤ) = A at *
  generalize (2 : ℝ) ^ (1023 : ℤ) = T at *
  linarith

theorem add (ht0 : 0 ≤ t) (ht : t ≤ 1) (ha : As t a v e B) (hb : As t b w f C) (h0 : 0 ≤ B + C) (hO : B + C ≤ 2 ^ 100)
    (hg : e + f + (B + C) * (1 / 2 ^ 53) ≤ g) (hD : (B + C) * (1 + 1 / 2 ^ 53) ≤ D) : As t (a + b) (v + w) g D :=
  ha.add' hb ht0 _ hu (big _ ((mul_le_of_le_one_right h0 ht).trans hO)) hg hD

theorem sub (ht0 : 0 ≤ t) (ht : t ≤ 1) (ha : As t a v e B) (hb : As t b w f C) (h0 : 0 ≤ B + C) (hO : B + C ≤ 2 ^ 100)
    (hg : e + f + (B + C) * (1 / 2 ^ 53) ≤ g) (hD : (B + C) * (1 + 1 / 2 ^ 53) ≤ D) : As t (a - b) (v - w) g D :=
  ha.sub' hb ht0 _ hu (big _ ((mul_le_of_le_one_right h0 ht).trans hO)) hg hD

theorem mul (ht0 : 2 ^ (-900 : ℤ) ≤ t) (ht : t ≤ 1) (ha : As t a v e B) (hb : As 1 b w f C) (hB : 0 ≤ B) (hC : 0 ≤ C) (he : 0 ≤ e)
    (hO : B * C ≤ 2 ^ 100) (hg : B * f + e * (C + f) + B * C * (1 / 2 ^ 53) + 1 / 2 ^ 170 ≤ g)
    (hD : B * C * (1 + 1 / 2 ^ 53) + 1 / 2 ^ 170 ≤ D) : As t (a * b) (v * w) g D := by
  have hp : 0 < t := (Flt.zp _).trans_le ht0
  refine ha.mul' hb hp.le (by norm_num) (mul_one t) _ (1 / 2 ^ 170) hu (by decide) ?_
    (big _ ((mul_le_of_le_one_right (by positivity) ht).trans hO)) hB he hg hD
  have : (2 : ℝ) ^ (-(f64.bias : ℤ) - f64.sb) ≤ 1 / 2 ^ 170 * 2 ^ (-900 : ℤ) := by
    rw [f64_bias, f64_sb, show (1 : ℝ) / 2 ^ 170 = 2 ^ (-170 : ℤ) by rw [zpow_neg]; norm_num, ← zpow_add₀ (by norm_num)]
    exact zpow_le_zpow_right₀ (by norm_num) (by norm_num)
  exact this.trans (mul_le_mul_of_nonneg_left ht0 (by positivity))

theorem mulr (ht0 : 2 ^ (-900 : ℤ) ≤ t) (ht : t ≤ 1) (ha : As 1 a v e B) (hb : As t b w f C) (hB : 0 ≤ B) (hC : 0 ≤ C) (he : 0 ≤ e)
    (hO : B * C ≤ 2 ^ 100) (hg : B * f + e * (C + f) + B * C * (1 / 2 ^ 53) + 1 / 2 ^ 170 ≤ g)
    (hD : B * C * (1 + 1 / 2 ^ 53) + 1 / 2 ^ 170 ≤ D) : As t (a * b) (v * w) g D := by
  have hp : 0 < t := (Flt.zp _).trans_le ht0
  refine ha.mul' hb (by norm_num) hp.le (one_mul t) _ (1 / 2 ^ 170) hu (by decide) ?_
    (big _ ((mul_le_of_le_one_right (by positivity) ht).trans hO)) hB he hg hD
  have : (2 : ℝ) ^ (-(f64.bias : ℤ) - f64.sb) ≤ 1 / 2 ^ 170 * 2 ^ (-900 : ℤ) := by
    rw [f64_bias, f64_sb, show (1 : ℝ) / 2 ^ 170 = 2 ^ (-170 : ℤ) by rw [zpow_neg]; norm_num, ← zpow_add₀ (by norm_num)]
    exact zpow_le_zpow_right₀ (by norm_num) (by norm_num)
  exact this.trans (mul_le_mul_of_nonneg_left ht0 (by positivity))

theorem div (ht0 : 2 ^ (-900 : ℤ) ≤ t) (ht : t ≤ 1) (ha : As t a v e B) (hb : As 1 b w f C) (L : ℝ) (hL : L ≤ |b.val|) (hB : 0 ≤ B)
    (he : 0 ≤ e) (hf : 0 ≤ f) (hL0 : f < L) (hO : B / L ≤ 2 ^ 100)
    (hg : e / L + (B + e) * f / (L * (L - f)) + B / L * (1 / 2 ^ 53) + 1 / 2 ^ 170 ≤ g)
    (hD : B / L * (1 + 1 / 2 ^ 53) + 1 / 2 ^ 170 ≤ D) : As t (a / b) (v / w) g D := by
  have hp : 0 < t := (Flt.zp _).trans_le ht0
  have hLp : 0 < L := hf.trans_lt hL0
  refine ha.div' hb L (by rw [mul_one]; exact hL) hp.le (by norm_num) (div_one t) _ (1 / 2 ^ 170) hu (by decide) ?_
    (big _ ((mul_le_of_le_one_right (by positivity) ht).trans hO)) hB he hf hL0 hg hD
  have : (2 : ℝ) ^ (-(f64.bias : ℤ) - f64.sb) ≤ 1 / 2 ^ 170 * 2 ^ (-900 : ℤ) := by
    rw [f64_bias, f64_sb, show (1 : ℝ) / 2 ^ 170 = 2 ^ (-170 : ℤ) by rw [zpow_neg]; norm_num, ← zpow_add₀ (by norm_num)]
    exact zpow_le_zpow_right₀ (by norm_num) (by norm_num)
  exact this.trans (mul_le_mul_of_nonneg_left ht0 (by positivity))

end As64

theorem one_lo : (2 : ℝ) ^ (-900 : ℤ) ≤ 1 := zpow_le_one_of_nonpos₀ (by norm_num) (by norm_num)

theorem Ap.as {a : Flt f64} {v e B : ℝ} (h : Ap a v e B) : As 1 a v e B := ⟨h.fin, by rw [mul_one]; exact h.err, by rw [mul_one]; exact h.bd⟩
theorem As.ap {a : Flt f64} {v e B : ℝ} (h : As 1 a v e B) : Ap a v e B := ⟨h.fin, by have := h.err; rwa [mul_one] at this, by have := h.bd; rwa [mul_one] at this⟩

end Verif
