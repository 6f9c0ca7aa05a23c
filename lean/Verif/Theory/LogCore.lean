import Verif.Theory.LogRed
import Verif.Theory.TanBig
import Verif.Theory.Ap32
import Verif.Theory.As32

/-!
# The logarithms: `s * (hfsq + R)` in floating point
-/

namespace Verif
open Flt

namespace Log
/-- `log (1+f) - f + f²/2` with the polynomial of the source, in exact arithmetic -/
noncomputable def w (f : ℝ) : ℝ := f / (2 + f) * (f ^ 2 / 2 + (f / (2 + f)) ^ 2 * Poly.ev poly ((f / (2 + f)) ^ 2))

theorem s_bd {f V : ℝ} (h1 : -(2 * V / (1 + V)) ≤ f) (h2 : f ≤ 2 * V / (1 - V)) (hV0 : 0 ≤ V) (hV : V < 1) : |f / (2 + f)| ≤ V := by
  have p1 : 0 < 1 + V := by linarith
  have p2 : 0 < 1 - V := by linarith
  rw [le_div_iff₀ p2] at h2
  have h1' : 2 * V / (1 + V) ≥ -f := by linarith
  rw [ge_iff_le, le_div_iff₀ p1] at h1'
  have h3 : 0 < 2 + f := by
    have : -f ≤ 2 * V / (1 + V) := by linarith
    have : 2 * V / (1 + V) < 2 := by rw [div_lt_iff₀ p1]; linarith
    linarith
  rw [abs_div, abs_of_pos h3, div_le_iff₀ h3, abs_le]
  constructor <;> linarith

theorem s_bd1 {f : ℝ} (h1 : -0.29291 ≤ f) (h2 : f ≤ 0.41423) : |f / (2 + f)| ≤ 0.1717 :=
  s_bd (by norm_num; norm_num at h1; linarith) (by norm_num; norm_num at h2; linarith) (by norm_num) (by norm_num)
theorem s_bd2 {f : ℝ} (h3 : -0.2215 ≤ f) (h4 : f ≤ 0.285) : |f / (2 + f)| ≤ 0.12475 :=
  s_bd (by norm_num; norm_num at h3; linarith) (by norm_num; norm_num at h4; linarith) (by norm_num) (by norm_num)

theorem w_log {f : ℝ} (h1 : -0.29291 ≤ f) (h2 : f ≤ 0.41423) : |f - f ^ 2 / 2 + w f - Real.log (1 + f)| ≤ 1 / 2 ^ 60 := by
  have hs := s_bd1 h1 h2
  have h := approx (f := f) (s := f / (2 + f)) (by norm_num at h1; linarith) rfl (hs.trans (by norm_num))
  have h0 : (2 : ℝ) + f ≠ 0 := by norm_num at h1; linarith
  have e : f - f ^ 2 / 2 + w f = 2 * (f / (2 + f)) + f / (2 + f) * ((f / (2 + f)) ^ 2 * Poly.ev poly ((f / (2 + f)) ^ 2)) := by
    unfold w
    generalize Poly.ev poly ((f / (2 + f)) ^ 2) = P
    field_simp
    ring
  rw [e]
  refine h.trans ((mul_le_mul_of_nonneg_right hs (by norm_num)).trans (by norm_num))

variable {f : Flt f64}

theorem s_gen (ff : f.isFinite) (V L : ℝ) (k j : ℤ) (hs : |f.val / (2 + f.val)| ≤ V) (hL : 0 < L) (h0 : L ≤ 2 + f.val - 2 ^ (k - 54)) (h1 : 2 + f.val ≤ 2 ^ k)
    (hk : k ≤ 2) (hj0 : -100 ≤ j) (hj : j ≤ 0) (hV : V * (1 + 2 ^ (k - 54) / L) ≤ 2 ^ j) :
    (sOf f).isFinite ∧ |(sOf f).val - f.val / (2 + f.val)| ≤ V * (2 ^ (k - 54) / L) + 2 ^ (j - 54) := by
  have hp : (0 : ℝ) < 2 ^ (k - 54) := by positivity
  have h2 : 0 < 2 + f.val := by linarith
  have a := add_err64 (x := (2.0 : Flt f64)) (y := f) (by decide +kernel) ff k (by rw [KTanD.two_val, abs_of_pos h2]; exact h1) (by omega)
  rw [KTanD.two_val] at a
  obtain ⟨af, av⟩ := a
  unfold sOf
  generalize (2.0 : Flt f64) + f = a at *
  have ha : L ≤ a.val := by linarith [(abs_le.1 av).1]
  have ha0 : (0 : ℝ) < a.val := by linarith
  have e : f.val / a.val - f.val / (2 + f.val) = f.val / (2 + f.val) * ((2 + f.val - a.val) / a.val) := by field_simp
  have q : |f.val / a.val - f.val / (2 + f.val)| ≤ V * (2 ^ (k - 54) / L) := by
    rw [e, abs_mul]
    refine mul_le_mul hs ?_ (abs_nonneg _) ((abs_nonneg _).trans hs)
    rw [abs_div, abs_of_pos ha0, abs_sub_comm]
    exact div_le_div₀ hp.le av hL ha
  have hq : |f.val / a.val| ≤ 2 ^ j := by
    have := abs_add_le (f.val / a.val - f.val / (2 + f.val)) (f.val / (2 + f.val))
    rw [_root_.sub_add_cancel] at this
    linarith
  obtain ⟨df, dv⟩ := div_err64 ff af ha0.ne' j hq (by omega) (by omega)
  refine ⟨df, ?_⟩
  have := abs_sub_le (f / a).val (f.val / a.val) (f.val / (2 + f.val))
  linarith

theorem s_err1 (ff : f.isFinite) (h1 : -0.29291 ≤ f.val) (h2 : f.val ≤ 0.41423) :
    (sOf f).isFinite ∧ |(sOf f).val - f.val / (2 + f.val)| ≤ (4863 / 2 ^ 67) := by
  have hs := s_bd1 h1 h2
  norm_num at h1 h2
  rcases le_total 0 f.val with h | h
  · have := s_gen ff _ 1.999 2 (-2) hs (by norm_num) (by norm_num; linarith) (by norm_num; linarith) (by norm_num) (by norm_num) (by norm_num) (by norm_num)
    exact ⟨this.1, this.2.trans (by norm_num)⟩
  · have := s_gen ff _ 1.707 1 (-2) hs (by norm_num) (by norm_num; linarith) (by norm_num; linarith) (by norm_num) (by norm_num) (by norm_num) (by norm_num)
    exact ⟨this.1, this.2.trans (by norm_num)⟩

theorem s_err2 (ff : f.isFinite) (h3 : -0.2215 ≤ f.val) (h4 : f.val ≤ 0.285) :
    (sOf f).isFinite ∧ |(sOf f).val - f.val / (2 + f.val)| ≤ (3069 / 2 ^ 67) := by
  have hs := s_bd2 h3 h4
  norm_num at h3 h4
  rcases le_total 0 f.val with h | h
  · have := s_gen ff _ 1.999 2 (-3) hs (by norm_num) (by norm_num; linarith) (by norm_num; linarith) (by norm_num) (by norm_num) (by norm_num) (by norm_num)
    exact ⟨this.1, this.2.trans (by norm_num)⟩
  · have := s_gen ff _ 1.778 1 (-3) hs (by norm_num) (by norm_num; linarith) (by norm_num; linarith) (by norm_num) (by norm_num) (by norm_num) (by norm_num)
    exact ⟨this.1, this.2.trans (by norm_num)⟩

theorem half_exact (ff : f.isFinite) (h : |f.val| ≤ 1) (h0 : f.val = 0 ∨ 2 ^ (-100 : ℤ) ≤ |f.val|) :
    ((0.5 : Flt f64) * f).isFinite ∧ ((0.5 : Flt f64) * f).val = f.val / 2 := by
  have m := mul_rne (x := (0.5 : Flt f64)) (y := f) (by decide +kernel) ff
  rw [half64_val] at m
  obtain ⟨c, cf, cv⟩ : ∃ c : Flt f64, c.isFinite ∧ c.val = f.val / 2 := by
    rcases h0 with h0 | h0
    · exact ⟨f, ff, by rw [h0]; norm_num⟩
    · have e : |f.val * 2 ^ (-1 : ℤ)| = |f.val| / 2 := by rw [abs_mul]; norm_num; ring
      obtain ⟨c, cf, cv⟩ := scale_exact64 (x := f) (-1) (by
        rw [e, le_div_iff₀ (by norm_num)]
        refine le_trans ?_ h0
        rw [show (2 : ℝ) ^ (-1022 : ℤ) * 2 = 2 ^ (-1022 + 1 : ℤ) by rw [zpow_add₀ (by norm_num)]; norm_num]
        exact zpow_le_zpow_right₀ (by norm_num) (by norm_num)) (by
        rw [e]
        refine lt_of_le_of_lt (b := (1 : ℝ)) (by linarith) ?_
        exact one_lt_zpow₀ (by norm_num) (by norm_num))
      exact ⟨c, cf, by rw [cv]; norm_num; ring⟩
  have := m.exact_real cf (by rw [cv]; ring)
  exact ⟨this.1, by rw [this.2]; ring⟩

theorem h_err (ff : f.isFinite) (V : ℝ) (h : |f.val| ≤ V) (hV : V ≤ 1) (h0 : f.val = 0 ∨ 2 ^ (-100 : ℤ) ≤ |f.val|) (k : ℤ) (hk : V ^ 2 / 2 ≤ 2 ^ k)
    (hk1 : -100 ≤ k) (hk2 : k ≤ 0) : (hfsq f).isFinite ∧ |(hfsq f).val - f.val ^ 2 / 2| ≤ 2 ^ (k - 54) := by
  obtain ⟨hf, hv⟩ := half_exact ff (h.trans hV) h0
  have e : f.val / 2 * f.val = f.val ^ 2 / 2 := by ring
  have h3 : |f.val / 2 * f.val| ≤ 2 ^ k := by
    have h4 := pow_le_pow_left₀ (abs_nonneg _) h 2
    rw [sq_abs] at h4
    have h5 := _root_.sq_nonneg f.val
    rw [e, abs_of_nonneg (by linarith)]
    linarith
  have := mul_err64 hf ff k (by rw [hv]; exact h3) (by omega) (by omega)
  rwa [hv, e] at this

theorem poly_val (s : ℝ) : s * s * (lg1.val + s * s * (s * s) * (lg3.val + s * s * (s * s) * (lg5.val + s * s * (s * s) * lg7.val))) + s * s * (s * s) * (lg2.val + s * s * (s * s) * (lg4.val + s * s * (s * s) * lg6.val)) = s ^ 2 * Poly.ev poly (s ^ 2) := by
  simp only [poly, Poly.ev, lg1_val, lg2_val, lg3_val, lg4_val, lg5_val, lg6_val, lg7_val]
  push_cast
  norm_num
  ring

set_option maxHeartbeats 1000000 in
theorem core1 (ff : f.isFinite) (h1 : -0.29291 ≤ f.val) (h2 : f.val ≤ 0.41423) (h0 : f.val = 0 ∨ 2 ^ (-100 : ℤ) ≤ |f.val|) :
    Ap (hfsq f) (f.val ^ 2 / 2) (1 / 2 ^ 57) (5623 / 2 ^ 16) ∧ Ap (sOf f * (hfsq f + rOf (sOf f))) (w f.val) (2965 / 2 ^ 68) (4765 / 2 ^ 18) := by
  have h : |f.val| ≤ 0.41423 := by rw [abs_le]; norm_num at h1 h2 ⊢; constructor <;> linarith
  have sb := s_bd1 h1 h2
  obtain ⟨sf, sv⟩ := s_err1 ff h1 h2
  obtain ⟨hf, hv⟩ := h_err ff 0.41423 h (by norm_num) h0 (-3) (by norm_num) (by norm_num) (by norm_num)
  have hs : Ap (sOf f) (f.val / (2 + f.val)) (4863 / 2 ^ 67) (5627 / 2 ^ 15) := ⟨sf, sv, by
    have := abs_add_le ((sOf f).val - f.val / (2 + f.val)) (f.val / (2 + f.val))
    rw [_root_.sub_add_cancel] at this
    norm_num at sb sv ⊢; linarith⟩
  have hh : Ap (hfsq f) (f.val ^ 2 / 2) (1 / 2 ^ 57) (5623 / 2 ^ 16) := ⟨hf, hv.trans (by norm_num), by
    have := abs_add_le ((hfsq f).val - f.val ^ 2 / 2) (f.val ^ 2 / 2)
    rw [_root_.sub_add_cancel] at this
    have h3 := pow_le_pow_left₀ (abs_nonneg _) h 2
    rw [abs_of_nonneg (by positivity : 0 ≤ f.val ^ 2 / 2)] at this
    rw [sq_abs] at h3
    norm_num at h3 hv ⊢; linarith⟩
  refine ⟨hh, ?_⟩
  unfold w
  rw [← poly_val]
  unfold rOf
  dsimp only
  generalize sOf f = s at *
  generalize hfsq f = hq at *
  clear h h1 h2 sb hv sv
  have hlg1 : Ap lg1 lg1.val 0 (2731 / 2 ^ 12) := .exact (by decide +kernel) rfl (by rw [lg1_val, abs_le]; constructor <;> norm_num)
  have hlg2 : Ap lg2 lg2.val 0 (3277 / 2 ^ 13) := .exact (by decide +kernel) rfl (by rw [lg2_val, abs_le]; constructor <;> norm_num)
  have hlg3 : Ap lg3 lg3.val 0 (2341 / 2 ^ 13) := .exact (by decide +kernel) rfl (by rw [lg3_val, abs_le]; constructor <;> norm_num)
  have hlg4 : Ap lg4 lg4.val 0 (3641 / 2 ^ 14) := .exact (by decide +kernel) rfl (by rw [lg4_val, abs_le]; constructor <;> norm_num)
  have hlg5 : Ap lg5 lg5.val 0 (5959 / 2 ^ 15) := .exact (by decide +kernel) rfl (by rw [lg5_val, abs_le]; constructor <;> norm_num)
  have hlg6 : Ap lg6 lg6.val 0 (5019 / 2 ^ 15) := .exact (by decide +kernel) rfl (by rw [lg6_val, abs_le]; constructor <;> norm_num)
  have hlg7 : Ap lg7 lg7.val 0 (2425 / 2 ^ 14) := .exact (by decide +kernel) rfl (by rw [lg7_val, abs_le]; constructor <;> norm_num)
  have hz := Ap.mul hs hs (-5) (by norm_num) (by norm_num) (by norm_num) (g := (7705 / 2 ^ 69)) (D := (7731 / 2 ^ 18)) (by norm_num) (by norm_num)
  have hw := Ap.mul hz hz (-10) (by norm_num) (by norm_num) (by norm_num) (g := (973 / 2 ^ 70)) (D := (57 / 2 ^ 16)) (by norm_num) (by norm_num)
  have ha6 := Ap.mul hw hlg6 (-12) (by norm_num) (by norm_num) (by norm_num) (g := (2641 / 2 ^ 74)) (D := (4471 / 2 ^ 25)) (by norm_num) (by norm_num)
  have hb4 := Ap.add hlg4 ha6 (-2) (by norm_num) (by norm_num) (g := (2069 / 2 ^ 67)) (D := (7287 / 2 ^ 15)) (by norm_num) (by norm_num)
  have ha4 := Ap.mul hw hb4 (-12) (by norm_num) (by norm_num) (by norm_num) (g := (7897 / 2 ^ 75)) (D := (3245 / 2 ^ 24)) (by norm_num) (by norm_num)
  have hb2 := Ap.add hlg2 ha4 (-1) (by norm_num) (by norm_num) (g := (4127 / 2 ^ 67)) (D := (3279 / 2 ^ 13)) (by norm_num) (by norm_num)
  have ht1 := Ap.mul hw hb2 (-11) (by norm_num) (by norm_num) (by norm_num) (g := (7203 / 2 ^ 74)) (D := (5841 / 2 ^ 24)) (by norm_num) (by norm_num)
  have ha7 := Ap.mul hw hlg7 (-12) (by norm_num) (by norm_num) (by norm_num) (g := (5121 / 2 ^ 75)) (D := (135 / 2 ^ 20)) (by norm_num) (by norm_num)
  have hb5 := Ap.add hlg5 ha7 (-2) (by norm_num) (by norm_num) (g := (4137 / 2 ^ 68)) (D := (1491 / 2 ^ 13)) (by norm_num) (by norm_num)
  have ha5 := Ap.mul hw hb5 (-12) (by norm_num) (by norm_num) (by norm_num) (g := (415 / 2 ^ 71)) (D := (83 / 2 ^ 19)) (by norm_num) (by norm_num)
  have hb3 := Ap.add hlg3 ha5 (-1) (by norm_num) (by norm_num) (g := (2061 / 2 ^ 66)) (D := (4685 / 2 ^ 14)) (by norm_num) (by norm_num)
  have ha3 := Ap.mul hw hb3 (-11) (by norm_num) (by norm_num) (by norm_num) (g := (5423 / 2 ^ 74)) (D := (4173 / 2 ^ 24)) (by norm_num) (by norm_num)
  have hb1 := Ap.add hlg1 ha3 (0) (by norm_num) (by norm_num) (g := (2059 / 2 ^ 65)) (D := (5465 / 2 ^ 13)) (by norm_num) (by norm_num)
  have ht2 := Ap.mul hz hb1 (-5) (by norm_num) (by norm_num) (by norm_num) (g := (223 / 2 ^ 64)) (D := (2579 / 2 ^ 17)) (by norm_num) (by norm_num)
  have hR := Ap.add ht2 ht1 (-5) (by norm_num) (by norm_num) (g := (4193 / 2 ^ 68)) (D := (2625 / 2 ^ 17)) (by norm_num) (by norm_num)
  have hg := Ap.add hh hR (-3) (by norm_num) (by norm_num) (g := (4145 / 2 ^ 67)) (D := (867 / 2 ^ 13)) (by norm_num) (by norm_num)
  have hE := Ap.mul hs hg (-5) (by norm_num) (by norm_num) (by norm_num) (g := (2965 / 2 ^ 68)) (D := (4765 / 2 ^ 18)) (by norm_num) (by norm_num)
  exact hE

set_option maxHeartbeats 1000000 in
theorem core2 (ff : f.isFinite) (h3 : -0.2215 ≤ f.val) (h4 : f.val ≤ 0.285) (h0 : f.val = 0 ∨ 2 ^ (-100 : ℤ) ≤ |f.val|) :
    Ap (hfsq f) (f.val ^ 2 / 2) (1 / 2 ^ 58) (1331 / 2 ^ 15) ∧ Ap (sOf f * (hfsq f + rOf (sOf f))) (w f.val) (3781 / 2 ^ 70) (6685 / 2 ^ 20) := by
  have h : |f.val| ≤ 0.285 := by rw [abs_le]; norm_num at h3 h4 ⊢; constructor <;> linarith
  have sb := s_bd2 h3 h4
  obtain ⟨sf, sv⟩ := s_err2 ff h3 h4
  obtain ⟨hf, hv⟩ := h_err ff 0.285 h (by norm_num) h0 (-4) (by norm_num) (by norm_num) (by norm_num)
  have hs : Ap (sOf f) (f.val / (2 + f.val)) (3069 / 2 ^ 67) (511 / 2 ^ 12) := ⟨sf, sv, by
    have := abs_add_le ((sOf f).val - f.val / (2 + f.val)) (f.val / (2 + f.val))
    rw [_root_.sub_add_cancel] at this
    norm_num at sb sv ⊢; linarith⟩
  have hh : Ap (hfsq f) (f.val ^ 2 / 2) (1 / 2 ^ 58) (1331 / 2 ^ 15) := ⟨hf, hv.trans (by norm_num), by
    have := abs_add_le ((hfsq f).val - f.val ^ 2 / 2) (f.val ^ 2 / 2)
    rw [_root_.sub_add_cancel] at this
    have h3 := pow_le_pow_left₀ (abs_nonneg _) h 2
    rw [abs_of_nonneg (by positivity : 0 ≤ f.val ^ 2 / 2)] at this
    rw [sq_abs] at h3
    norm_num at h3 hv ⊢; linarith⟩
  refine ⟨hh, ?_⟩
  unfold w
  rw [← poly_val]
  unfold rOf
  dsimp only
  generalize sOf f = s at *
  generalize hfsq f = hq at *
  clear h h3 h4 sb hv sv
  have hlg1 : Ap lg1 lg1.val 0 (2731 / 2 ^ 12) := .exact (by decide +kernel) rfl (by rw [lg1_val, abs_le]; constructor <;> norm_num)
  have hlg2 : Ap lg2 lg2.val 0 (3277 / 2 ^ 13) := .exact (by decide +kernel) rfl (by rw [lg2_val, abs_le]; constructor <;> norm_num)
  have hlg3 : Ap lg3 lg3.val 0 (2341 / 2 ^ 13) := .exact (by decide +kernel) rfl (by rw [lg3_val, abs_le]; constructor <;> norm_num)
  have hlg4 : Ap lg4 lg4.val 0 (3641 / 2 ^ 14) := .exact (by decide +kernel) rfl (by rw [lg4_val, abs_le]; constructor <;> norm_num)
  have hlg5 : Ap lg5 lg5.val 0 (5959 / 2 ^ 15) := .exact (by decide +kernel) rfl (by rw [lg5_val, abs_le]; constructor <;> norm_num)
  have hlg6 : Ap lg6 lg6.val 0 (5019 / 2 ^ 15) := .exact (by decide +kernel) rfl (by rw [lg6_val, abs_le]; constructor <;> norm_num)
  have hlg7 : Ap lg7 lg7.val 0 (2425 / 2 ^ 14) := .exact (by decide +kernel) rfl (by rw [lg7_val, abs_le]; constructor <;> norm_num)
  have hz := Ap.mul hs hs (-6) (by norm_num) (by norm_num) (by norm_num) (g := (7151 / 2 ^ 70)) (D := (8161 / 2 ^ 19)) (by norm_num) (by norm_num)
  have hw := Ap.mul hz hz (-12) (by norm_num) (by norm_num) (by norm_num) (g := (1909 / 2 ^ 73)) (D := (8131 / 2 ^ 25)) (by norm_num) (by norm_num)
  have ha6 := Ap.mul hw hlg6 (-14) (by norm_num) (by norm_num) (by norm_num) (g := (5191 / 2 ^ 77)) (D := (2491 / 2 ^ 26)) (by norm_num) (by norm_num)
  have hb4 := Ap.add hlg4 ha6 (-2) (by norm_num) (by norm_num) (g := (4107 / 2 ^ 68)) (D := (1821 / 2 ^ 13)) (by norm_num) (by norm_num)
  have ha4 := Ap.mul hw hb4 (-14) (by norm_num) (by norm_num) (by norm_num) (g := (1953 / 2 ^ 75)) (D := (3615 / 2 ^ 26)) (by norm_num) (by norm_num)
  have hb2 := Ap.add hlg2 ha4 (-1) (by norm_num) (by norm_num) (g := (513 / 2 ^ 64)) (D := (6555 / 2 ^ 14)) (by norm_num) (by norm_num)
  have ht1 := Ap.mul hw hb2 (-13) (by norm_num) (by norm_num) (by norm_num) (g := (1783 / 2 ^ 74)) (D := (6507 / 2 ^ 26)) (by norm_num) (by norm_num)
  have ha7 := Ap.mul hw hlg7 (-14) (by norm_num) (by norm_num) (by norm_num) (g := (5033 / 2 ^ 77)) (D := (2407 / 2 ^ 26)) (by norm_num) (by norm_num)
  have hb5 := Ap.add hlg5 ha7 (-2) (by norm_num) (by norm_num) (g := (2053 / 2 ^ 67)) (D := (5961 / 2 ^ 15)) (by norm_num) (by norm_num)
  have ha5 := Ap.mul hw hb5 (-14) (by norm_num) (by norm_num) (by norm_num) (g := (3289 / 2 ^ 76)) (D := (5917 / 2 ^ 27)) (by norm_num) (by norm_num)
  have hb3 := Ap.add hlg3 ha5 (-1) (by norm_num) (by norm_num) (g := (4103 / 2 ^ 67)) (D := (4683 / 2 ^ 14)) (by norm_num) (by norm_num)
  have ha3 := Ap.mul hw hb3 (-13) (by norm_num) (by norm_num) (by norm_num) (g := (5387 / 2 ^ 76)) (D := (4649 / 2 ^ 26)) (by norm_num) (by norm_num)
  have hb1 := Ap.add hlg1 ha3 (0) (by norm_num) (by norm_num) (g := (2051 / 2 ^ 65)) (D := (5463 / 2 ^ 13)) (by norm_num) (by norm_num)
  have ht2 := Ap.mul hz hb1 (-6) (by norm_num) (by norm_num) (by norm_num) (g := (6815 / 2 ^ 70)) (D := (5443 / 2 ^ 19)) (by norm_num) (by norm_num)
  have hR := Ap.add ht2 ht1 (-6) (by norm_num) (by norm_num) (g := (7951 / 2 ^ 70)) (D := (2747 / 2 ^ 18)) (by norm_num) (by norm_num)
  have hg := Ap.add hh hR (-4) (by norm_num) (by norm_num) (g := (1009 / 2 ^ 66)) (D := (3349 / 2 ^ 16)) (by norm_num) (by norm_num)
  have hE := Ap.mul hs hg (-7) (by norm_num) (by norm_num) (by norm_num) (g := (3781 / 2 ^ 70)) (D := (6685 / 2 ^ 20)) (by norm_num) (by norm_num)
  exact hE
end Log

namespace Logf
theorem two_val : (2.0 : Flt f32).val = 2 := by
  rw [val_const32 (x := (2.0 : Flt f32)) 1 150 1 (by decide +kernel) (by norm_num)]; norm_num
theorem half_val : (0.5 : Flt f32).val = 1 / 2 := by
  rw [val_const32 (x := (0.5 : Flt f32)) 1 148 (-1) (by decide +kernel) (by norm_num)]; norm_num
/-- `log (1+f) - f + f²/2` with the polynomial of the source, in exact arithmetic -/
noncomputable def w (f : ℝ) : ℝ := f / (2 + f) * (f ^ 2 / 2 + (f / (2 + f)) ^ 2 * Poly.ev poly ((f / (2 + f)) ^ 2))

theorem s_bd {f V : ℝ} (h1 : -(2 * V / (1 + V)) ≤ f) (h2 : f ≤ 2 * V / (1 - V)) (hV0 : 0 ≤ V) (hV : V < 1) : |f / (2 + f)| ≤ V := by
  have p1 : 0 < 1 + V := by linarith
  have p2 : 0 < 1 - V := by linarith
  rw [le_div_iff₀ p2] at h2
  have h1' : 2 * V / (1 + V) ≥ -f := by linarith
  rw [ge_iff_le, le_div_iff₀ p1] at h1'
  have h3 : 0 < 2 + f := by
    have : -f ≤ 2 * V / (1 + V) := by linarith
    have : 2 * V / (1 + V) < 2 := by rw [div_lt_iff₀ p1]; linarith
    linarith
  rw [abs_div, abs_of_pos h3, div_le_iff₀ h3, abs_le]
  constructor <;> linarith

theorem s_bd1 {f : ℝ} (h1 : -0.29291 ≤ f) (h2 : f ≤ 0.41423) : |f / (2 + f)| ≤ 0.1717 :=
  s_bd (by norm_num; norm_num at h1; linarith) (by norm_num; norm_num at h2; linarith) (by norm_num) (by norm_num)
theorem s_bd2 {f : ℝ} (h3 : -0.2215 ≤ f) (h4 : f ≤ 0.285) : |f / (2 + f)| ≤ 0.12475 :=
  s_bd (by norm_num; norm_num at h3; linarith) (by norm_num; norm_num at h4; linarith) (by norm_num) (by norm_num)

theorem w_log {f : ℝ} (h1 : -0.29291 ≤ f) (h2 : f ≤ 0.41423) : |f - f ^ 2 / 2 + w f - Real.log (1 + f)| ≤ 1 / 2 ^ 36 := by
  have hs := s_bd1 h1 h2
  have h := approx (f := f) (s := f / (2 + f)) (by norm_num at h1; linarith) rfl (hs.trans (by norm_num))
  have h0 : (2 : ℝ) + f ≠ 0 := by norm_num at h1; linarith
  have e : f - f ^ 2 / 2 + w f = 2 * (f / (2 + f)) + f / (2 + f) * ((f / (2 + f)) ^ 2 * Poly.ev poly ((f / (2 + f)) ^ 2)) := by
    unfold w
    generalize Poly.ev poly ((f / (2 + f)) ^ 2) = P
    field_simp
    ring
  rw [e]
  refine h.trans ((mul_le_mul_of_nonneg_right hs (by norm_num)).trans (by norm_num))

variable {f : Flt f32}

theorem s_gen (ff : f.isFinite) (V L : ℝ) (k j : ℤ) (hs : |f.val / (2 + f.val)| ≤ V) (hL : 0 < L) (h0 : L ≤ 2 + f.val - 2 ^ (k - 25)) (h1 : 2 + f.val ≤ 2 ^ k)
    (hk : k ≤ 2) (hj0 : -100 ≤ j) (hj : j ≤ 0) (hV : V * (1 + 2 ^ (k - 25) / L) ≤ 2 ^ j) :
    (sOf f).isFinite ∧ |(sOf f).val - f.val / (2 + f.val)| ≤ V * (2 ^ (k - 25) / L) + 2 ^ (j - 25) := by
  have hp : (0 : ℝ) < 2 ^ (k - 25) := by positivity
  have h2 : 0 < 2 + f.val := by linarith
  have a := add_err32 (x := (2.0 : Flt f32)) (y := f) (by decide +kernel) ff k (by rw [Logf.two_val, abs_of_pos h2]; exact h1) (by omega)
  rw [Logf.two_val] at a
  obtain ⟨af, av⟩ := a
  unfold sOf
  generalize (2.0 : Flt f32) + f = a at *
  have ha : L ≤ a.val := by linarith [(abs_le.1 av).1]
  have ha0 : (0 : ℝ) < a.val := by linarith
  have e : f.val / a.val - f.val / (2 + f.val) = f.val / (2 + f.val) * ((2 + f.val - a.val) / a.val) := by field_simp
  have q : |f.val / a.val - f.val / (2 + f.val)| ≤ V * (2 ^ (k - 25) / L) := by
    rw [e, abs_mul]
    refine mul_le_mul hs ?_ (abs_nonneg _) ((abs_nonneg _).trans hs)
    rw [abs_div, abs_of_pos ha0, abs_sub_comm]
    exact div_le_div₀ hp.le av hL ha
  have hq : |f.val / a.val| ≤ 2 ^ j := by
    have := abs_add_le (f.val / a.val - f.val / (2 + f.val)) (f.val / (2 + f.val))
    rw [_root_.sub_add_cancel] at this
    linarith
  obtain ⟨df, dv⟩ := div_err32 ff af ha0.ne' j hq (by omega) (by omega)
  refine ⟨df, ?_⟩
  have := abs_sub_le (f / a).val (f.val / a.val) (f.val / (2 + f.val))
  linarith

theorem s_err1 (ff : f.isFinite) (h1 : -0.29291 ≤ f.val) (h2 : f.val ≤ 0.41423) :
    (sOf f).isFinite ∧ |(sOf f).val - f.val / (2 + f.val)| ≤ (4863 / 2 ^ 38) := by
  have hs := s_bd1 h1 h2
  norm_num at h1 h2
  rcases le_total 0 f.val with h | h
  · have := s_gen ff _ 1.999 2 (-2) hs (by norm_num) (by norm_num; linarith) (by norm_num; linarith) (by norm_num) (by norm_num) (by norm_num) (by norm_num)
    exact ⟨this.1, this.2.trans (by norm_num)⟩
  · have := s_gen ff _ 1.707 1 (-2) hs (by norm_num) (by norm_num; linarith) (by norm_num; linarith) (by norm_num) (by norm_num) (by norm_num) (by norm_num)
    exact ⟨this.1, this.2.trans (by norm_num)⟩

theorem s_err2 (ff : f.isFinite) (h3 : -0.2215 ≤ f.val) (h4 : f.val ≤ 0.285) :
    (sOf f).isFinite ∧ |(sOf f).val - f.val / (2 + f.val)| ≤ (3069 / 2 ^ 38) := by
  have hs := s_bd2 h3 h4
  norm_num at h3 h4
  rcases le_total 0 f.val with h | h
  · have := s_gen ff _ 1.999 2 (-3) hs (by norm_num) (by norm_num; linarith) (by norm_num; linarith) (by norm_num) (by norm_num) (by norm_num) (by norm_num)
    exact ⟨this.1, this.2.trans (by norm_num)⟩
  · have := s_gen ff _ 1.778 1 (-3) hs (by norm_num) (by norm_num; linarith) (by norm_num; linarith) (by norm_num) (by norm_num) (by norm_num) (by norm_num)
    exact ⟨this.1, this.2.trans (by norm_num)⟩

theorem half_exact (ff : f.isFinite) (h : |f.val| ≤ 1) (h0 : f.val = 0 ∨ 2 ^ (-100 : ℤ) ≤ |f.val|) :
    ((0.5 : Flt f32) * f).isFinite ∧ ((0.5 : Flt f32) * f).val = f.val / 2 := by
  have m := mul_rne (x := (0.5 : Flt f32)) (y := f) (by decide +kernel) ff
  rw [half_val] at m
  obtain ⟨c, cf, cv⟩ : ∃ c : Flt f32, c.isFinite ∧ c.val = f.val / 2 := by
    rcases h0 with h0 | h0
    · exact ⟨f, ff, by rw [h0]; norm_num⟩
    · have e : |f.val * 2 ^ (-1 : ℤ)| = |f.val| / 2 := by rw [abs_mul]; norm_num; ring
      obtain ⟨c, cf, cv⟩ := scale_exact32 (x := f) (-1) (by
        rw [e, le_div_iff₀ (by norm_num)]
        refine le_trans ?_ h0
        rw [show (2 : ℝ) ^ (-126 : ℤ) * 2 = 2 ^ (-126 + 1 : ℤ) by rw [zpow_add₀ (by norm_num)]; norm_num]
        exact zpow_le_zpow_right₀ (by norm_num) (by norm_num)) (by
        rw [e]
        refine lt_of_le_of_lt (b := (1 : ℝ)) (by linarith) ?_
        exact one_lt_zpow₀ (by norm_num) (by norm_num))
      exact ⟨c, cf, by rw [cv]; norm_num; ring⟩
  have := m.exact_real cf (by rw [cv]; ring)
  exact ⟨this.1, by rw [this.2]; ring⟩

theorem h_err (ff : f.isFinite) (V : ℝ) (h : |f.val| ≤ V) (hV : V ≤ 1) (h0 : f.val = 0 ∨ 2 ^ (-100 : ℤ) ≤ |f.val|) (k : ℤ) (hk : V ^ 2 / 2 ≤ 2 ^ k)
    (hk1 : -100 ≤ k) (hk2 : k ≤ 0) : (hfsq f).isFinite ∧ |(hfsq f).val - f.val ^ 2 / 2| ≤ 2 ^ (k - 25) := by
  obtain ⟨hf, hv⟩ := half_exact ff (h.trans hV) h0
  have e : f.val / 2 * f.val = f.val ^ 2 / 2 := by ring
  have h3 : |f.val / 2 * f.val| ≤ 2 ^ k := by
    have h4 := pow_le_pow_left₀ (abs_nonneg _) h 2
    rw [sq_abs] at h4
    have h5 := _root_.sq_nonneg f.val
    rw [e, abs_of_nonneg (by linarith)]
    linarith
  have := mul_err32 hf ff k (by rw [hv]; exact h3) (by omega) (by omega)
  rwa [hv, e] at this

theorem poly_val (s : ℝ) : s * s * (lg1.val + s * s * (s * s) * lg3.val) + s * s * (s * s) * (lg2.val + s * s * (s * s) * lg4.val) = s ^ 2 * Poly.ev poly (s ^ 2) := by
  simp only [poly, Poly.ev, lg1_val, lg2_val, lg3_val, lg4_val]
  push_cast
  norm_num
  ring

set_option maxHeartbeats 1000000 in
theorem core1 (ff : f.isFinite) (h1 : -0.29291 ≤ f.val) (h2 : f.val ≤ 0.41423) (h0 : f.val = 0 ∨ 2 ^ (-100 : ℤ) ≤ |f.val|) :
    Ap32 (hfsq f) (f.val ^ 2 / 2) (1 / 2 ^ 28) (5623 / 2 ^ 16) ∧ Ap32 (sOf f * (hfsq f + rOf (sOf f))) (w f.val) (2965 / 2 ^ 39) (4765 / 2 ^ 18) := by
  have h : |f.val| ≤ 0.41423 := by rw [abs_le]; norm_num at h1 h2 ⊢; constructor <;> linarith
  have sb := s_bd1 h1 h2
  obtain ⟨sf, sv⟩ := s_err1 ff h1 h2
  obtain ⟨hf, hv⟩ := h_err ff 0.41423 h (by norm_num) h0 (-3) (by norm_num) (by norm_num) (by norm_num)
  have hs : Ap32 (sOf f) (f.val / (2 + f.val)) (4863 / 2 ^ 38) (5627 / 2 ^ 15) := ⟨sf, sv, by
    have := abs_add_le ((sOf f).val - f.val / (2 + f.val)) (f.val / (2 + f.val))
    rw [_root_.sub_add_cancel] at this
    norm_num at sb sv ⊢; linarith⟩
  have hh : Ap32 (hfsq f) (f.val ^ 2 / 2) (1 / 2 ^ 28) (5623 / 2 ^ 16) := ⟨hf, hv.trans (by norm_num), by
    have := abs_add_le ((hfsq f).val - f.val ^ 2 / 2) (f.val ^ 2 / 2)
    rw [_root_.sub_add_cancel] at this
    have h3 := pow_le_pow_left₀ (abs_nonneg _) h 2
    rw [abs_of_nonneg (by positivity : 0 ≤ f.val ^ 2 / 2)] at this
    rw [sq_abs] at h3
    norm_num at h3 hv ⊢; linarith⟩
  refine ⟨hh, ?_⟩
  unfold w
  rw [← poly_val]
  unfold rOf
  dsimp only
  generalize sOf f = s at *
  generalize hfsq f = hq at *
  clear h h1 h2 sb hv sv
  have hlg1 : Ap32 lg1 lg1.val 0 (2731 / 2 ^ 12) := .exact (by decide +kernel) rfl (by rw [lg1_val, abs_le]; constructor <;> norm_num)
  have hlg2 : Ap32 lg2 lg2.val 0 (3277 / 2 ^ 13) := .exact (by decide +kernel) rfl (by rw [lg2_val, abs_le]; constructor <;> norm_num)
  have hlg3 : Ap32 lg3 lg3.val 0 (2335 / 2 ^ 13) := .exact (by decide +kernel) rfl (by rw [lg3_val, abs_le]; constructor <;> norm_num)
  have hlg4 : Ap32 lg4 lg4.val 0 (1989 / 2 ^ 13) := .exact (by decide +kernel) rfl (by rw [lg4_val, abs_le]; constructor <;> norm_num)
  have hz := Ap32.mul hs hs (-5) (by norm_num) (by norm_num) (by norm_num) (g := (7705 / 2 ^ 40)) (D := (7731 / 2 ^ 18)) (by norm_num) (by norm_num)
  have hw := Ap32.mul hz hz (-10) (by norm_num) (by norm_num) (by norm_num) (g := (973 / 2 ^ 41)) (D := (57 / 2 ^ 16)) (by norm_num) (by norm_num)
  have ha4 := Ap32.mul hw hlg4 (-12) (by norm_num) (by norm_num) (by norm_num) (g := (1009 / 2 ^ 43)) (D := (3543 / 2 ^ 24)) (by norm_num) (by norm_num)
  have hb2 := Ap32.add hlg2 ha4 (-1) (by norm_num) (by norm_num) (g := (129 / 2 ^ 33)) (D := (3279 / 2 ^ 13)) (by norm_num) (by norm_num)
  have ht1 := Ap32.mul hw hb2 (-11) (by norm_num) (by norm_num) (by norm_num) (g := (7203 / 2 ^ 45)) (D := (5841 / 2 ^ 24)) (by norm_num) (by norm_num)
  have ha3 := Ap32.mul hw hlg3 (-11) (by norm_num) (by norm_num) (by norm_num) (g := (2475 / 2 ^ 44)) (D := (65 / 2 ^ 18)) (by norm_num) (by norm_num)
  have hb1 := Ap32.add hlg1 ha3 (0) (by norm_num) (by norm_num) (g := (1029 / 2 ^ 35)) (D := (5465 / 2 ^ 13)) (by norm_num) (by norm_num)
  have ht2 := Ap32.mul hz hb1 (-5) (by norm_num) (by norm_num) (by norm_num) (g := (223 / 2 ^ 35)) (D := (2579 / 2 ^ 17)) (by norm_num) (by norm_num)
  have hR := Ap32.add ht2 ht1 (-5) (by norm_num) (by norm_num) (g := (4193 / 2 ^ 39)) (D := (2625 / 2 ^ 17)) (by norm_num) (by norm_num)
  have hg := Ap32.add hh hR (-3) (by norm_num) (by norm_num) (g := (4145 / 2 ^ 38)) (D := (867 / 2 ^ 13)) (by norm_num) (by norm_num)
  have hE := Ap32.mul hs hg (-5) (by norm_num) (by norm_num) (by norm_num) (g := (2965 / 2 ^ 39)) (D := (4765 / 2 ^ 18)) (by norm_num) (by norm_num)
  exact hE

set_option maxHeartbeats 1000000 in
theorem core2 (ff : f.isFinite) (h3 : -0.2215 ≤ f.val) (h4 : f.val ≤ 0.285) (h0 : f.val = 0 ∨ 2 ^ (-100 : ℤ) ≤ |f.val|) :
    Ap32 (hfsq f) (f.val ^ 2 / 2) (1 / 2 ^ 29) (1331 / 2 ^ 15) ∧ Ap32 (sOf f * (hfsq f + rOf (sOf f))) (w f.val) (3781 / 2 ^ 41) (6685 / 2 ^ 20) := by
  have h : |f.val| ≤ 0.285 := by rw [abs_le]; norm_num at h3 h4 ⊢; constructor <;> linarith
  have sb := s_bd2 h3 h4
  obtain ⟨sf, sv⟩ := s_err2 ff h3 h4
  obtain ⟨hf, hv⟩ := h_err ff 0.285 h (by norm_num) h0 (-4) (by norm_num) (by norm_num) (by norm_num)
  have hs : Ap32 (sOf f) (f.val / (2 + f.val)) (3069 / 2 ^ 38) (511 / 2 ^ 12) := ⟨sf, sv, by
    have := abs_add_le ((sOf f).val - f.val / (2 + f.val)) (f.val / (2 + f.val))
    rw [_root_.sub_add_cancel] at this
    norm_num at sb sv ⊢; linarith⟩
  have hh : Ap32 (hfsq f) (f.val ^ 2 / 2) (1 / 2 ^ 29) (1331 / 2 ^ 15) := ⟨hf, hv.trans (by norm_num), by
    have := abs_add_le ((hfsq f).val - f.val ^ 2 / 2) (f.val ^ 2 / 2)
    rw [_root_.sub_add_cancel] at this
    have h3 := pow_le_pow_left₀ (abs_nonneg _) h 2
    rw [abs_of_nonneg (by positivity : 0 ≤ f.val ^ 2 / 2)] at this
    rw [sq_abs] at h3
    norm_num at h3 hv ⊢; linarith⟩
  refine ⟨hh, ?_⟩
  unfold w
  rw [← poly_val]
  unfold rOf
  dsimp only
  generalize sOf f = s at *
  generalize hfsq f = hq at *
  clear h h3 h4 sb hv sv
  have hlg1 : Ap32 lg1 lg1.val 0 (2731 / 2 ^ 12) := .exact (by decide +kernel) rfl (by rw [lg1_val, abs_le]; constructor <;> norm_num)
  have hlg2 : Ap32 lg2 lg2.val 0 (3277 / 2 ^ 13) := .exact (by decide +kernel) rfl (by rw [lg2_val, abs_le]; constructor <;> norm_num)
  have hlg3 : Ap32 lg3 lg3.val 0 (2335 / 2 ^ 13) := .exact (by decide +kernel) rfl (by rw [lg3_val, abs_le]; constructor <;> norm_num)
  have hlg4 : Ap32 lg4 lg4.val 0 (1989 / 2 ^ 13) := .exact (by decide +kernel) rfl (by rw [lg4_val, abs_le]; constructor <;> norm_num)
  have hz := Ap32.mul hs hs (-6) (by norm_num) (by norm_num) (by norm_num) (g := (7151 / 2 ^ 41)) (D := (8161 / 2 ^ 19)) (by norm_num) (by norm_num)
  have hw := Ap32.mul hz hz (-12) (by norm_num) (by norm_num) (by norm_num) (g := (1909 / 2 ^ 44)) (D := (8131 / 2 ^ 25)) (by norm_num) (by norm_num)
  have ha4 := Ap32.mul hw hlg4 (-14) (by norm_num) (by norm_num) (by norm_num) (g := (7929 / 2 ^ 48)) (D := (7897 / 2 ^ 27)) (by norm_num) (by norm_num)
  have hb2 := Ap32.add hlg2 ha4 (-1) (by norm_num) (by norm_num) (g := (513 / 2 ^ 35)) (D := (6555 / 2 ^ 14)) (by norm_num) (by norm_num)
  have ht1 := Ap32.mul hw hb2 (-13) (by norm_num) (by norm_num) (by norm_num) (g := (1783 / 2 ^ 45)) (D := (6507 / 2 ^ 26)) (by norm_num) (by norm_num)
  have ha3 := Ap32.mul hw hlg3 (-13) (by norm_num) (by norm_num) (by norm_num) (g := (2433 / 2 ^ 46)) (D := (1159 / 2 ^ 24)) (by norm_num) (by norm_num)
  have hb1 := Ap32.add hlg1 ha3 (0) (by norm_num) (by norm_num) (g := (4101 / 2 ^ 37)) (D := (5463 / 2 ^ 13)) (by norm_num) (by norm_num)
  have ht2 := Ap32.mul hz hb1 (-6) (by norm_num) (by norm_num) (by norm_num) (g := (6815 / 2 ^ 41)) (D := (5443 / 2 ^ 19)) (by norm_num) (by norm_num)
  have hR := Ap32.add ht2 ht1 (-6) (by norm_num) (by norm_num) (g := (7951 / 2 ^ 41)) (D := (2747 / 2 ^ 18)) (by norm_num) (by norm_num)
  have hg := Ap32.add hh hR (-4) (by norm_num) (by norm_num) (g := (1009 / 2 ^ 37)) (D := (3349 / 2 ^ 16)) (by norm_num) (by norm_num)
  have hE := Ap32.mul hs hg (-7) (by norm_num) (by norm_num) (by norm_num) (g := (3781 / 2 ^ 41)) (D := (6685 / 2 ^ 20)) (by norm_num) (by norm_num)
  exact hE
end Logf

end Verif
