import Verif.Theory.As

/-!
# `As` chains valid in both formats

Only `2^-24` relative rounding error and `2^-140` absolute error near zero are used, so that a chain holds in `f32` and
in `f64`.
-/

namespace Verif
open Flt

/-- at least the precision and range of `f32` -/
def Fmt.W (F : Fmt) : Prop := 23 ≤ F.sb ∧ 127 ≤ F.bias

theorem W32 : f32.W := ⟨by rw [f32_sb], by rw [f32_bias]⟩
theorem W64 : f64.W := ⟨by rw [f64_sb]; norm_num, by rw [f64_bias]; norm_num⟩

theorem As.rebound {F : Fmt} {t : ℝ} {a : Flt F} {v e B V C : ℝ} (h : As t a v e B) (ht : 0 ≤ t) (hv : |v| ≤ V * t) (hC : V + e ≤ C) :
    As t a v e C := ⟨h.fin, h.err, by
  have := abs_sub_abs_le_abs_sub a.val v
  have := h.err
  have := mul_le_mul_of_nonneg_right hC ht
  linarith⟩

theorem As.zero {F : Fmt} {t : ℝ} {a : Flt F} {v e B : ℝ} (h : As t a v e B) : As t a 0 B B := ⟨h.fin, by rw [sub_zero]; exact h.bd, h.bd⟩

/-- a wider scale -/
theorem As.scale {F : Fmt} {t s : ℝ} {a : Flt F} {v e B : ℝ} (h : As t a v e B) (hts : t ≤ s) (he : 0 ≤ e) (hB : 0 ≤ B) : As s a v e B :=
  ⟨h.fin, h.err.trans (mul_le_mul_of_nonneg_left hts he), h.bd.trans (mul_le_mul_of_nonneg_left hts hB)⟩

namespace AsW
variable {F : Fmt} {t : ℝ} {a b : Flt F} {v w e f B C g D : ℝ}

theorem hu (hF : F.W) : (2 : ℝ) ^ (-1 - (F.sb : ℤ)) ≤ 1 / 2 ^ 24 := by
  rw [show (1 : ℝ) / 2 ^ 24 = 2 ^ (-24 : ℤ) by rw [zpow_neg]; norm_num]
  exact zpow_le_zpow_right₀ (by norm_num) (by have := hF.1; omega)

theorem big (hF : F.W) (x : ℝ) (h : x ≤ 2 ^ 120) : x ≤ 3 / 2 * 2 ^ (F.bias : ℤ) := by
  have h1 : (2 : ℝ) ^ (120 : ℕ) = 2 ^ (120 : ℤ) := (zpow_natCast 2 120).symm
  have h2 : (2 : ℝ) ^ (120 : ℤ) ≤ 2 ^ (F.bias : ℤ) := zpow_le_zpow_right₀ (by norm_num) (by have := hF.2; omega)
  have := Flt.zp (F.bias : ℤ)
  rw [h1] at h
  clear h1
  generalize (2 : ℝ) ^ (120 : ℤ) = A at *
  generalize (2 : ℝ) ^ (F.bias : ℤ) = T at *
  linarith

theorem big' (hF : F.W) (x : ℝ) (h0 : 0 ≤ x) (ht0 : 0 ≤ t) (ht : t ≤ 2 ^ 12) (h : x ≤ 2 ^ 60) : x * t ≤ 3 / 2 * 2 ^ (F.bias : ℤ) := by
  refine big hF _ ((mul_le_mul h ht ht0 (by norm_num)).trans ?_)
  norm_num

theorem low (hF : F.W) (ht0 : 2 ^ (-60 : ℤ) ≤ t) : (2 : ℝ) ^ (-(F.bias : ℤ) - F.sb) ≤ 1 / 2 ^ 80 * t := by
  have : (2 : ℝ) ^ (-(F.bias : ℤ) - F.sb) ≤ 1 / 2 ^ 80 * 2 ^ (-60 : ℤ) := by
    rw [show (1 : ℝ) / 2 ^ 80 = 2 ^ (-80 : ℤ) by rw [zpow_neg]; norm_num, ← zpow_add₀ (by norm_num)]
    exact zpow_le_zpow_right₀ (by norm_num) (by have := hF.1; have := hF.2; omega)
  exact this.trans (mul_le_mul_of_nonneg_left ht0 (by positivity))

theorem add (hF : F.W) (ht0 : 0 ≤ t) (ht : t ≤ 2 ^ 12) (ha : As t a v e B) (hb : As t b w f C) (h0 : 0 ≤ B + C) (hO : B + C ≤ 2 ^ 60)
    (hg : e + f + (B + C) * (1 / 2 ^ 24) ≤ g) (hD : (B + C) * (1 + 1 / 2 ^ 24) ≤ D) : As t (a + b) (v + w) g D := by
  have := mul_le_mul_of_nonneg_left (hu hF) h0
  refine ha.add' hb ht0 _ rfl (big' hF _ h0 ht0 ht hO) ?_ ?_
  · linarith
  · rw [mul_add] at hD ⊢; linarith

theorem sub (hF : F.W) (ht0 : 0 ≤ t) (ht : t ≤ 2 ^ 12) (ha : As t a v e B) (hb : As t b w f C) (h0 : 0 ≤ B + C) (hO : B + C ≤ 2 ^ 60)
    (hg : e + f + (B + C) * (1 / 2 ^ 24) ≤ g) (hD : (B + C) * (1 + 1 / 2 ^ 24) ≤ D) : As t (a - b) (v - w) g D := by
  have := mul_le_mul_of_nonneg_left (hu hF) h0
  refine ha.sub' hb ht0 _ rfl (big' hF _ h0 ht0 ht hO) ?_ ?_
  · linarith
  · rw [mul_add] at hD ⊢; linarith

theorem mul (hF : F.W) (ht0 : 2 ^ (-60 : ℤ) ≤ t) (ht : t ≤ 2 ^ 12) (ha : As t a v e B) (hb : As 1 b w f C) (hB : 0 ≤ B) (hC : 0 ≤ C) (he : 0 ≤ e)
    (hO : B * C ≤ 2 ^ 60) (hg : B * f + e * (C + f) + B * C * (1 / 2 ^ 24) + 1 / 2 ^ 80 ≤ g)
    (hD : B * C * (1 + 1 / 2 ^ 24) + 1 / 2 ^ 80 ≤ D) : As t (a * b) (v * w) g D := by
  have hp : 0 < t := (Flt.zp _).trans_le ht0
  have hBC : 0 ≤ B * C := mul_nonneg hB hC
  have := mul_le_mul_of_nonneg_left (hu hF) hBC
  refine ha.mul' hb hp.le (by norm_num) (mul_one t) _ (1 / 2 ^ 80) rfl (by have := hF.2; omega) (low hF ht0)
    (big' hF _ hBC hp.le ht hO) hB he ?_ ?_
  · linarith
  · rw [mul_add] at hD ⊢; linarith

theorem mulr (hF : F.W) (ht0 : 2 ^ (-60 : ℤ) ≤ t) (ht : t ≤ 2 ^ 12) (ha : As 1 a v e B) (hb : As t b w f C) (hB : 0 ≤ B) (hC : 0 ≤ C) (he : 0 ≤ e)
    (hO : B * C ≤ 2 ^ 60) (hg : B * f + e * (C + f) + B * C * (1 / 2 ^ 24) + 1 / 2 ^ 80 ≤ g)
    (hD : B * C * (1 + 1 / 2 ^ 24) + 1 / 2 ^ 80 ≤ D) : As t (a * b) (v * w) g D := by
  have hp : 0 < t := (Flt.zp _).trans_le ht0
  have hBC : 0 ≤ B * C := mul_nonneg hB hC
  have := mul_le_mul_of_nonneg_left (hu hF) hBC
  refine ha.mul' hb (by norm_num) hp.le (one_mul t) _ (1 / 2 ^ 80) rfl (by have := hF.2; omega) (low hF ht0)
    (big' hF _ hBC hp.le ht hO) hB he ?_ ?_
  · linarith
  · rw [mul_add] at hD ⊢; linarith

theorem div (hF : F.W) (ht0 : 2 ^ (-60 : ℤ) ≤ t) (ht : t ≤ 2 ^ 12) (ha : As t a v e B) (hb : As 1 b w f C) (L : ℝ) (hL : L ≤ |b.val|) (hB : 0 ≤ B)
    (he : 0 ≤ e) (hf : 0 ≤ f) (hL0 : f < L) (hO : B / L ≤ 2 ^ 60)
    (hg : e / L + (B + e) * f / (L * (L - f)) + B / L * (1 / 2 ^ 24) + 1 / 2 ^ 80 ≤ g)
    (hD : B / L * (1 + 1 / 2 ^ 24) + 1 / 2 ^ 80 ≤ D) : As t (a / b) (v / w) g D := by
  have hp : 0 < t := (Flt.zp _).trans_le ht0
  have hLp : 0 < L := hf.trans_lt hL0
  have hBC : 0 ≤ B / L := div_nonneg hB hLp.le
  have := mul_le_mul_of_nonneg_left (hu hF) hBC
  refine ha.div' hb L (by rw [mul_one]; exact hL) hp.le (by norm_num) (div_one t) _ (1 / 2 ^ 80) rfl (by have := hF.2; omega) (low hF ht0)
    (big' hF _ hBC hp.le ht hO) hB he hf hL0 ?_ ?_
  · linarith
  · rw [mul_add] at hD ⊢; linarith

theorem one_lo : (2 : ℝ) ^ (-60 : ℤ) ≤ 1 := zpow_le_one_of_nonpos₀ (by norm_num) (by norm_num)
theorem one_hi : (1 : ℝ) ≤ 2 ^ 12 := by norm_num

/-- what is used of a function that clears low bits of a float: relative error `τ`, and a finite result -/
def Cuts (T : Flt F → Flt F) (τ : ℝ) : Prop := ∀ a : Flt F, a.isFinite → (T a).isFinite ∧ |(T a).val - a.val| ≤ τ * |a.val| + 1 / 2 ^ 130

theorem cut {T : Flt F → Flt F} {τ : ℝ} (hT : Cuts T τ) (hτ : 0 ≤ τ) (ht0 : 2 ^ (-60 : ℤ) ≤ t) (ha : As t a v e B)
    (hg : e + τ * B + 1 / 2 ^ 70 ≤ g) (hD : B + τ * B + 1 / 2 ^ 70 ≤ D) : As t (T a) v g D := by
  obtain ⟨h1, h2⟩ := hT a ha.fin
  have hp : 0 < t := (Flt.zp _).trans_le ht0
  have h3 : (1 : ℝ) / 2 ^ 130 ≤ 1 / 2 ^ 70 * t := by
    have : (1 : ℝ) / 2 ^ 130 = 1 / 2 ^ 70 * 2 ^ (-60 : ℤ) := by rw [zpow_neg]; norm_num
    rw [this]
    exact mul_le_mul_of_nonneg_left ht0 (by positivity)
  have h4 : τ * |a.val| ≤ τ * (B * t) := mul_le_mul_of_nonneg_left ha.bd hτ
  have h5 := mul_le_mul_of_nonneg_right hg hp.le
  have h6 := mul_le_mul_of_nonneg_right hD hp.le
  have h7 := abs_sub_le (T a).val a.val v
  have h8 := abs_sub_abs_le_abs_sub (T a).val a.val
  have := ha.err
  have := ha.bd
  exact ⟨h1, by nlinarith, by nlinarith⟩

end AsW
end Verif
