import Verif.Theory.LogCore
import Verif.Theory.AsW

/-!
# The logarithms near 1: `s * (hfsq + R)` with an error relative to `f`
-/

namespace Verif
open Flt

theorem As.one_of {F : Fmt} {t c : ℝ} {a : Flt F} {v e B g D : ℝ} (h : As t a v e B) (he : 0 ≤ e) (hB : 0 ≤ B) (ht : t ≤ c) (hg : e * c ≤ g) (hD : B * c ≤ D) :
    As 1 a v g D :=
  ⟨h.fin, by rw [mul_one]; exact h.err.trans ((mul_le_mul_of_nonneg_left ht he).trans hg), by
    rw [mul_one]; exact h.bd.trans ((mul_le_mul_of_nonneg_left ht hB).trans hD)⟩

theorem log_lower {f : ℝ} (h : |f| ≤ 0.2) : 0.909 * |f| ≤ |Real.log (1 + f)| := by
  obtain ⟨h1, h2⟩ := abs_le.1 h
  norm_num at h1 h2
  rcases le_total 0 f with h0 | h0
  · have h3 := Real.le_log_one_add_of_nonneg h0
    rw [abs_of_nonneg h0]
    refine le_trans ?_ (h3.trans (le_abs_self _))
    rw [le_div_iff₀ (by linarith)]
    norm_num
    nlinarith
  · have h3 := Real.log_le_sub_one_of_pos (x := 1 + f) (by linarith)
    rw [abs_of_nonpos h0, abs_of_nonpos (by linarith)]
    norm_num
    linarith

namespace Log
variable {f : Flt f64}

set_option maxHeartbeats 1000000 in
theorem core3 (ff : f.isFinite) (h : |f.val| ≤ 0.2) (h0 : 2 ^ (-900 : ℤ) ≤ |f.val|) (h0' : 2 ^ (-100 : ℤ) ≤ |f.val|) :
    As |f.val| (hfsq f) (f.val ^ 2 / 2) (6561 / 2 ^ 69) (6561 / 2 ^ 16) ∧ As |f.val| (sOf f * (hfsq f + rOf (sOf f))) (w f.val) (3885 / 2 ^ 68) (1043 / 2 ^ 16) := by
  have hhf2 : As |f.val| ((0.5 : Flt f64) * f) (f.val / 2) 0 (1 / 2 ^ 1) := by
    obtain ⟨a, b⟩ := half_exact ff (h.trans (by norm_num)) (Or.inr h0')
    exact .exact a b (by rw [abs_div]; norm_num; linarith)
  have hf : As |f.val| f f.val 0 1 := .exact ff rfl (by rw [one_mul])
  have hf1 : As 1 f f.val 0 (205 / 2 ^ 10) := .exact ff rfl (h.trans (by norm_num))
  have ht2 : |f.val| ≤ 205 / 2 ^ 10 := h.trans (by norm_num)
  have ht : (2 : ℝ) ^ (-900 : ℤ) ≤ |f.val| := h0
  have ht0 : 0 ≤ |f.val| := abs_nonneg _
  have ht1 : |f.val| ≤ 1 := h.trans (by norm_num)
  rw [show f.val ^ 2 / 2 = f.val / 2 * f.val by ring]
  unfold w
  rw [← poly_val, show f.val ^ 2 / 2 = f.val / 2 * f.val by ring]
  unfold rOf hfsq sOf
  dsimp only
  generalize |f.val| = t at ht ht0 ht1 hf hhf2 ht2 ⊢
  have htwo : As 1 (2.0 : Flt f64) (2.0 : Flt f64).val 0 2 := .exact (by decide +kernel) rfl (by rw [KTanD.two_val, abs_le]; constructor <;> norm_num)
  have hlg1 : As 1 lg1 lg1.val 0 (2731 / 2 ^ 12) := .exact (by decide +kernel) rfl (by rw [lg1_val, abs_le]; constructor <;> norm_num)
  have hlg2 : As 1 lg2 lg2.val 0 (3277 / 2 ^ 13) := .exact (by decide +kernel) rfl (by rw [lg2_val, abs_le]; constructor <;> norm_num)
  have hlg3 : As 1 lg3 lg3.val 0 (2341 / 2 ^ 13) := .exact (by decide +kernel) rfl (by rw [lg3_val, abs_le]; constructor <;> norm_num)
  have hlg4 : As 1 lg4 lg4.val 0 (3641 / 2 ^ 14) := .exact (by decide +kernel) rfl (by rw [lg4_val, abs_le]; constructor <;> norm_num)
  have hlg5 : As 1 lg5 lg5.val 0 (5959 / 2 ^ 15) := .exact (by decide +kernel) rfl (by rw [lg5_val, abs_le]; constructor <;> norm_num)
  have hlg6 : As 1 lg6 lg6.val 0 (5019 / 2 ^ 15) := .exact (by decide +kernel) rfl (by rw [lg6_val, abs_le]; constructor <;> norm_num)
  have hlg7 : As 1 lg7 lg7.val 0 (2425 / 2 ^ 14) := .exact (by decide +kernel) rfl (by rw [lg7_val, abs_le]; constructor <;> norm_num)
  have hh := As64.mul ht ht1 hhf2 hf1 (by norm_num) (by norm_num) (by norm_num) (by norm_num) (g := (6561 / 2 ^ 69)) (D := (6561 / 2 ^ 16)) (by norm_num) (by norm_num)
  have hd := As64.add zero_le_one le_rfl htwo hf1 (by norm_num) (by norm_num) (g := (2253 / 2 ^ 63)) (D := (4507 / 2 ^ 11)) (by norm_num) (by norm_num)
  have hL : (229 / 2 ^ 7 : ℝ) ≤ |((2.0 : Flt f64) + f).val| := by
    have h1 := abs_le.1 hd.err
    have h2 := abs_le.1 h
    rw [KTanD.two_val] at h1
    refine le_trans ?_ (le_abs_self _)
    generalize (2.0 : Flt f64) + f = c at *
    norm_num at h1 h2 ⊢
    linarith [h1.1, h2.1]
  have hs := As64.div ht ht1 hf hd (229 / 2 ^ 7) hL (by norm_num) (by norm_num) (by norm_num) (by norm_num) (by norm_num) (g := (2553 / 2 ^ 64)) (D := (4579 / 2 ^ 13)) (by norm_num) (by norm_num)
  have hs1 := As.one_of hs (by norm_num) (by norm_num) ht2 (g := (4089 / 2 ^ 67)) (D := (3667 / 2 ^ 15)) (by norm_num) (by norm_num)
  have hz := As64.mul ht ht1 hs hs1 (by norm_num) (by norm_num) (by norm_num) (by norm_num) (g := (5597 / 2 ^ 67)) (D := (1025 / 2 ^ 14)) (by norm_num) (by norm_num)
  have hz1 := As.one_of hz (by norm_num) (by norm_num) ht2 (g := (2241 / 2 ^ 68)) (D := (6567 / 2 ^ 19)) (by norm_num) (by norm_num)
  have hw := As64.mul one_lo le_rfl hz1 hz1 (by norm_num) (by norm_num) (by norm_num) (by norm_num) (g := (1961 / 2 ^ 73)) (D := (5265 / 2 ^ 25)) (by norm_num) (by norm_num)
  have ha6 := As64.mul one_lo le_rfl hw hlg6 (by norm_num) (by norm_num) (by norm_num) (by norm_num) (g := (2605 / 2 ^ 76)) (D := (1613 / 2 ^ 26)) (by norm_num) (by norm_num)
  have hb4 := As64.add zero_le_one le_rfl hlg4 ha6 (by norm_num) (by norm_num) (g := (7293 / 2 ^ 68)) (D := (7283 / 2 ^ 15)) (by norm_num) (by norm_num)
  have ha4 := As64.mul one_lo le_rfl hw hb4 (by norm_num) (by norm_num) (by norm_num) (by norm_num) (g := (8145 / 2 ^ 77)) (D := (4681 / 2 ^ 27)) (by norm_num) (by norm_num)
  have hb2 := As64.add zero_le_one le_rfl hlg2 ha4 (by norm_num) (by norm_num) (g := (6563 / 2 ^ 67)) (D := (6555 / 2 ^ 14)) (by norm_num) (by norm_num)
  have hwt := As64.mul ht ht1 hz hz1 (by norm_num) (by norm_num) (by norm_num) (by norm_num) (g := (2449 / 2 ^ 71)) (D := (3287 / 2 ^ 22)) (by norm_num) (by norm_num)
  have hT1 := As64.mul ht ht1 hwt hb2 (by norm_num) (by norm_num) (by norm_num) (by norm_num) (g := (2289 / 2 ^ 72)) (D := (5261 / 2 ^ 24)) (by norm_num) (by norm_num)
  have ha7 := As64.mul one_lo le_rfl hw hlg7 (by norm_num) (by norm_num) (by norm_num) (by norm_num) (g := (2517 / 2 ^ 76)) (D := (6235 / 2 ^ 28)) (by norm_num) (by norm_num)
  have hb5 := As64.add zero_le_one le_rfl hlg5 ha7 (by norm_num) (by norm_num) (g := (2985 / 2 ^ 67)) (D := (745 / 2 ^ 12)) (by norm_num) (by norm_num)
  have ha5 := As64.mul one_lo le_rfl hw hb5 (by norm_num) (by norm_num) (by norm_num) (by norm_num) (g := (3333 / 2 ^ 76)) (D := (7661 / 2 ^ 28)) (by norm_num) (by norm_num)
  have hb3 := As64.add zero_le_one le_rfl hlg3 ha5 (by norm_num) (by norm_num) (g := (4689 / 2 ^ 67)) (D := (4683 / 2 ^ 14)) (by norm_num) (by norm_num)
  have ha3 := As64.mul one_lo le_rfl hw hb3 (by norm_num) (by norm_num) (by norm_num) (by norm_num) (g := (5237 / 2 ^ 76)) (D := (1505 / 2 ^ 25)) (by norm_num) (by norm_num)
  have hb1 := As64.add zero_le_one le_rfl hlg1 ha3 (by norm_num) (by norm_num) (g := (1367 / 2 ^ 64)) (D := (5463 / 2 ^ 13)) (by norm_num) (by norm_num)
  have hT2 := As64.mul ht ht1 hz hb1 (by norm_num) (by norm_num) (by norm_num) (by norm_num) (g := (5101 / 2 ^ 67)) (D := (5469 / 2 ^ 17)) (by norm_num) (by norm_num)
  have hR := As64.add ht0 ht1 hT2 hT1 (by norm_num) (by norm_num) (g := (2931 / 2 ^ 66)) (D := (5511 / 2 ^ 17)) (by norm_num) (by norm_num)
  have hg := As64.add ht0 ht1 hh hR (by norm_num) (by norm_num) (g := (1229 / 2 ^ 64)) (D := (4659 / 2 ^ 15)) (by norm_num) (by norm_num)
  have hE := As64.mulr ht ht1 hs1 hg (by norm_num) (by norm_num) (by norm_num) (by norm_num) (g := (3885 / 2 ^ 68)) (D := (1043 / 2 ^ 16)) (by norm_num) (by norm_num)
  have hQ := As64.sub ht0 ht1 hE hh (by norm_num) (by norm_num) (g := (1371 / 2 ^ 65)) (D := (7605 / 2 ^ 16)) (by norm_num) (by norm_num)
  rw [KTanD.two_val] at hE
  exact ⟨hh, hE⟩
end Log

namespace Logf
variable {f : Flt f32}

set_option maxHeartbeats 1000000 in
theorem core3 (ff : f.isFinite) (h : |f.val| ≤ 0.2) (h0 : 2 ^ (-40 : ℤ) ≤ |f.val|) (h0' : 2 ^ (-100 : ℤ) ≤ |f.val|) :
    As |f.val| (hfsq f) (f.val ^ 2 / 2) (6561 / 2 ^ 40) (6561 / 2 ^ 16) ∧ As |f.val| (sOf f * (hfsq f + rOf (sOf f))) (w f.val) (3885 / 2 ^ 39) (1043 / 2 ^ 16) := by
  have hhf2 : As |f.val| ((0.5 : Flt f32) * f) (f.val / 2) 0 (1 / 2 ^ 1) := by
    obtain ⟨a, b⟩ := half_exact ff (h.trans (by norm_num)) (Or.inr h0')
    exact .exact a b (by rw [abs_div]; norm_num; linarith)
  have hf : As |f.val| f f.val 0 1 := .exact ff rfl (by rw [one_mul])
  have hf1 : As 1 f f.val 0 (205 / 2 ^ 10) := .exact ff rfl (h.trans (by norm_num))
  have ht2 : |f.val| ≤ 205 / 2 ^ 10 := h.trans (by norm_num)
  have ht : (2 : ℝ) ^ (-40 : ℤ) ≤ |f.val| := h0
  have ht0 : 0 ≤ |f.val| := abs_nonneg _
  have ht1 : |f.val| ≤ 1 := h.trans (by norm_num)
  rw [show f.val ^ 2 / 2 = f.val / 2 * f.val by ring]
  unfold w
  rw [← poly_val, show f.val ^ 2 / 2 = f.val / 2 * f.val by ring]
  unfold rOf hfsq sOf
  dsimp only
  generalize |f.val| = t at ht ht0 ht1 hf hhf2 ht2 ⊢
  have htwo : As 1 (2.0 : Flt f32) (2.0 : Flt f32).val 0 2 := .exact (by decide +kernel) rfl (by rw [two_val, abs_le]; constructor <;> norm_num)
  have hlg1 : As 1 lg1 lg1.val 0 (2731 / 2 ^ 12) := .exact (by decide +kernel) rfl (by rw [lg1_val, abs_le]; constructor <;> norm_num)
  have hlg2 : As 1 lg2 lg2.val 0 (3277 / 2 ^ 13) := .exact (by decide +kernel) rfl (by rw [lg2_val, abs_le]; constructor <;> norm_num)
  have hlg3 : As 1 lg3 lg3.val 0 (2335 / 2 ^ 13) := .exact (by decide +kernel) rfl (by rw [lg3_val, abs_le]; constructor <;> norm_num)
  have hlg4 : As 1 lg4 lg4.val 0 (1989 / 2 ^ 13) := .exact (by decide +kernel) rfl (by rw [lg4_val, abs_le]; constructor <;> norm_num)
  have hh := As32.mul ht ht1 hhf2 hf1 (by norm_num) (by norm_num) (by norm_num) (by norm_num) (g := (6561 / 2 ^ 40)) (D := (6561 / 2 ^ 16)) (by norm_num) (by norm_num)
  have hd := As32.add zero_le_one le_rfl htwo hf1 (by norm_num) (by norm_num) (g := (2253 / 2 ^ 34)) (D := (4507 / 2 ^ 11)) (by norm_num) (by norm_num)
  have hL : (229 / 2 ^ 7 : ℝ) ≤ |((2.0 : Flt f32) + f).val| := by
    have h1 := abs_le.1 hd.err
    have h2 := abs_le.1 h
    rw [two_val] at h1
    refine le_trans ?_ (le_abs_self _)
    generalize (2.0 : Flt f32) + f = c at *
    norm_num at h1 h2 ⊢
    linarith [h1.1, h2.1]
  have hs := As32.div ht ht1 hf hd (229 / 2 ^ 7) hL (by norm_num) (by norm_num) (by norm_num) (by norm_num) (by norm_num) (g := (2553 / 2 ^ 35)) (D := (4579 / 2 ^ 13)) (by norm_num) (by norm_num)
  have hs1 := As.one_of hs (by norm_num) (by norm_num) ht2 (g := (4089 / 2 ^ 38)) (D := (3667 / 2 ^ 15)) (by norm_num) (by norm_num)
  have hz := As32.mul ht ht1 hs hs1 (by norm_num) (by norm_num) (by norm_num) (by norm_num) (g := (5597 / 2 ^ 38)) (D := (1025 / 2 ^ 14)) (by norm_num) (by norm_num)
  have hz1 := As.one_of hz (by norm_num) (by norm_num) ht2 (g := (2241 / 2 ^ 39)) (D := (6567 / 2 ^ 19)) (by norm_num) (by norm_num)
  have hw := As32.mul one_lo32 le_rfl hz1 hz1 (by norm_num) (by norm_num) (by norm_num) (by norm_num) (g := (1961 / 2 ^ 44)) (D := (5265 / 2 ^ 25)) (by norm_num) (by norm_num)
  have ha4 := As32.mul one_lo32 le_rfl hw hlg4 (by norm_num) (by norm_num) (by norm_num) (by norm_num) (g := (4129 / 2 ^ 47)) (D := (2557 / 2 ^ 26)) (by norm_num) (by norm_num)
  have hb2 := As32.add zero_le_one le_rfl hlg2 ha4 (by norm_num) (by norm_num) (g := (6563 / 2 ^ 38)) (D := (6555 / 2 ^ 14)) (by norm_num) (by norm_num)
  have hwt := As32.mul ht ht1 hz hz1 (by norm_num) (by norm_num) (by norm_num) (by norm_num) (g := (2449 / 2 ^ 42)) (D := (3287 / 2 ^ 22)) (by norm_num) (by norm_num)
  have hT1 := As32.mul ht ht1 hwt hb2 (by norm_num) (by norm_num) (by norm_num) (by norm_num) (g := (2289 / 2 ^ 43)) (D := (5261 / 2 ^ 24)) (by norm_num) (by norm_num)
  have ha3 := As32.mul one_lo32 le_rfl hw hlg3 (by norm_num) (by norm_num) (by norm_num) (by norm_num) (g := (4847 / 2 ^ 47)) (D := (6003 / 2 ^ 27)) (by norm_num) (by norm_num)
  have hb1 := As32.add zero_le_one le_rfl hlg1 ha3 (by norm_num) (by norm_num) (g := (1367 / 2 ^ 35)) (D := (5463 / 2 ^ 13)) (by norm_num) (by norm_num)
  have hT2 := As32.mul ht ht1 hz hb1 (by norm_num) (by norm_num) (by norm_num) (by norm_num) (g := (5101 / 2 ^ 38)) (D := (5469 / 2 ^ 17)) (by norm_num) (by norm_num)
  have hR := As32.add ht0 ht1 hT2 hT1 (by norm_num) (by norm_num) (g := (2931 / 2 ^ 37)) (D := (5511 / 2 ^ 17)) (by norm_num) (by norm_num)
  have hg := As32.add ht0 ht1 hh hR (by norm_num) (by norm_num) (g := (1229 / 2 ^ 35)) (D := (4659 / 2 ^ 15)) (by norm_num) (by norm_num)
  have hE := As32.mulr ht ht1 hs1 hg (by norm_num) (by norm_num) (by norm_num) (by norm_num) (g := (3885 / 2 ^ 39)) (D := (1043 / 2 ^ 16)) (by norm_num) (by norm_num)
  have hQ := As32.sub ht0 ht1 hE hh (by norm_num) (by norm_num) (g := (1371 / 2 ^ 36)) (D := (7605 / 2 ^ 16)) (by norm_num) (by norm_num)
  rw [two_val] at hE
  exact ⟨hh, hE⟩
end Logf

end Verif
