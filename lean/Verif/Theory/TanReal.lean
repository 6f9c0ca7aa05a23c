import Verif.Theory.TanPoly

/-!
# Real analysis for `k_tan`: the tangent of a sum, and bounds of the tangent
-/

namespace Verif.TanR
open Verif

theorem cos_lo {x c : ℝ} (hx : |x| ≤ c) : 1 - c ^ 2 / 2 ≤ Real.cos x := by
  have h1 := Real.one_sub_sq_div_two_le_cos (x := x)
  have h2 : x ^ 2 ≤ c ^ 2 := by rw [← sq_abs]; exact pow_le_pow_left₀ (abs_nonneg _) hx 2
  linarith

theorem tan_sub {u v : ℝ} (hu : Real.cos u ≠ 0) (hv : Real.cos v ≠ 0) :
    Real.tan u - Real.tan v = Real.sin (u - v) / (Real.cos u * Real.cos v) := by
  rw [Real.tan_eq_sin_div_cos, Real.tan_eq_sin_div_cos, Real.sin_sub]
  field_simp

theorem tan_lip {u v c : ℝ} (hc : c < 1) (hc0 : 0 ≤ c) (hu : |u| ≤ c) (hv : |v| ≤ c) :
    |Real.tan u - Real.tan v| ≤ |u - v| / (1 - c ^ 2 / 2) ^ 2 := by
  have hp : 0 < 1 - c ^ 2 / 2 := by nlinarith
  have h1 := cos_lo hu
  have h2 := cos_lo hv
  rw [tan_sub (by linarith) (by linarith), abs_div, abs_of_pos (mul_pos (hp.trans_le h1) (hp.trans_le h2))]
  refine div_le_div₀ (abs_nonneg _) Real.abs_sin_le_abs (by positivity) ?_
  rw [pow_two]
  exact mul_le_mul h1 h2 hp.le (hp.le.trans h1)

/-- the tangent of an argument with a small tail -/
theorem tan_add_small {a b : ℝ} (ha : |a| ≤ 3219 / 4096) (hb : |b| ≤ 1 / 2 ^ 52) :
    |Real.tan (a + b) - Real.tan a - b * (1 + Real.tan a ^ 2)| ≤ 1 / 2 ^ 45 * |b| := by
  have hc := cos_lo ha
  have hc0 : 0 < Real.cos a := by linarith
  set T := Real.tan a with hT
  have hcT : Real.sin a = T * Real.cos a := by rw [hT, Real.tan_mul_cos hc0.ne']
  have hT1 : |T| ≤ 3 / 2 := by
    have h1 : |Real.sin a| ≤ 1 := Real.abs_sin_le_one a
    rw [hcT, abs_mul, abs_of_pos hc0] at h1
    nlinarith [abs_nonneg T]
  have h1T : 1 + T ^ 2 = 1 / Real.cos a ^ 2 := by
    have := Real.sin_sq_add_cos_sq a
    rw [hcT] at this
    field_simp
    linarith
  set S := Real.sin b with hS
  set D := Real.cos b - T * S with hD
  have hbb : |b| * |b| ≤ 1 / 2 ^ 52 * |b| := mul_le_mul_of_nonneg_right hb (abs_nonneg b)
  have hS1 : |S| ≤ |b| := Real.abs_sin_le_abs
  have hC1 : |Real.cos b - 1| ≤ |b| := by
    rw [abs_le]
    have h1 := Real.one_sub_sq_div_two_le_cos (x := b)
    have h2 := Real.cos_le_one b
    rw [← sq_abs, pow_two] at h1
    constructor <;> nlinarith [abs_nonneg b]
  have hD1 : |D - 1| ≤ 3 * |b| := by
    have e : D - 1 = (Real.cos b - 1) + -(T * S) := by rw [hD]; ring
    rw [e]
    refine (abs_add_le _ _).trans ?_
    rw [abs_neg, abs_mul]
    have := mul_le_mul hT1 hS1 (abs_nonneg _) (by norm_num)
    nlinarith [abs_nonneg b]
  have hD0 : 1 / 2 ≤ D := by
    have := (abs_le.1 hD1).1
    norm_num at hb
    linarith
  have hSb : |S - b| ≤ |b| * |b| := by
    have h1 := Poly.sin_series 1 (x := b) (hb.trans (by norm_num))
    rw [show Poly.sinc 1 = [1] by decide +kernel] at h1
    simp only [Poly.ev] at h1
    rw [show Nat.factorial (2 * 1 + 1) = 6 from rfl] at h1
    push_cast at h1
    have e : Real.sin b - b * (1 + b ^ 2 * 0) = S - b := by rw [hS]; ring
    rw [e] at h1
    refine h1.trans ?_
    rw [pow_one, ← sq_abs b]
    have := abs_nonneg b
    have : |b| ≤ 1 := hb.trans (by norm_num)
    nlinarith [mul_nonneg (abs_nonneg b) (abs_nonneg b)]
  have hcos : Real.cos (a + b) = Real.cos a * D := by rw [Real.cos_add, hcT, hD]; ring
  have hne : Real.cos (a + b) ≠ 0 := by rw [hcos]; exact mul_ne_zero hc0.ne' (by linarith)
  have e : Real.tan (a + b) - T - b * (1 + T ^ 2) = (1 + T ^ 2) * (S - b * D) / D := by
    rw [hT, tan_sub hne hc0.ne', ← hT, hcos, h1T, show a + b - a = b by ring, ← hS]
    have : D ≠ 0 := by linarith
    field_simp
  rw [e, abs_div, abs_mul, abs_of_pos (by linarith : 0 < D)]
  have h5 : |S - b * D| ≤ 4 / 2 ^ 52 * |b| := by
    have e2 : S - b * D = (S - b) + -(b * (D - 1)) := by ring
    rw [e2]
    refine (abs_add_le _ _).trans ?_
    rw [abs_neg, abs_mul]
    have := mul_le_mul_of_nonneg_left hD1 (abs_nonneg b)
    nlinarith [abs_nonneg b]
  have h6 : |1 + T ^ 2| ≤ 13 / 4 := by
    rw [abs_of_pos (by positivity), ← sq_abs]
    nlinarith [abs_nonneg T]
  rw [div_le_iff₀ (by linarith)]
  have h7 := mul_le_mul h6 h5 (abs_nonneg _) (by norm_num)
  refine h7.trans ?_
  have := abs_nonneg b
  have h8 : 1 / 2 ^ 45 * |b| * (1 / 2) ≤ 1 / 2 ^ 45 * |b| * D := mul_le_mul_of_nonneg_left hD0 (by positivity)
  refine le_trans ?_ h8
  norm_num
  linarith

theorem abs_tan {r : ℝ} (h : |r| ≤ 0.7855) : |Real.tan r| = Real.tan |r| := by
  rcases le_total 0 r with h0 | h0
  · rw [abs_of_nonneg h0] at h ⊢
    exact abs_of_nonneg (Real.tan_nonneg_of_nonneg_of_le_pi_div_two h0 (by linarith [Real.two_le_pi]))
  · rw [abs_of_nonpos h0] at h ⊢
    rw [Real.tan_neg, abs_of_nonpos]
    have := Real.tan_nonneg_of_nonneg_of_le_pi_div_two (x := -r) (by linarith) (by linarith [Real.two_le_pi])
    rw [Real.tan_neg] at this
    linarith

theorem tan_ge_of {c v : ℝ} (hc : 0 ≤ c) (hc1 : c ≤ 0.7855) (h : v * Real.cos c ≤ Real.sin c) {r : ℝ} (h1 : c ≤ |r|) (h2 : |r| ≤ 0.7855) : v ≤ |Real.tan r| := by
  rw [abs_tan h2]
  have hcc := cos_lo (x := c) (c := 0.7855) (by rwa [abs_of_nonneg hc])
  have hc0 : 0 < Real.cos c := by norm_num at hcc; linarith
  have h3 : v ≤ Real.tan c := by rw [Real.tan_eq_sin_div_cos, le_div_iff₀ hc0]; exact h
  refine h3.trans ?_
  have hp := Real.two_le_pi
  exact Real.strictMonoOn_tan.monotoneOn ⟨by linarith, by linarith⟩ ⟨by linarith, by linarith⟩ h1

theorem tan_half {r : ℝ} (h1 : 0.46385 ≤ |r|) (h2 : |r| ≤ 0.7855) : 0.5001 ≤ |Real.tan r| := by
  refine tan_ge_of (c := 0.46385) (by norm_num) (by norm_num) ?_ h1 h2
  have h4 := Poly.sin_series 3 (x := (0.46385 : ℝ)) (by rw [abs_of_pos] <;> norm_num)
  have h5 := Poly.cos_series 3 (x := (0.46385 : ℝ)) (by rw [abs_of_pos] <;> norm_num)
  rw [show Poly.sinc 3 = [1, -1/6, 1/120] by decide +kernel] at h4
  rw [show Poly.cosc 3 = [1, -1/2, 1/24] by decide +kernel] at h5
  simp only [Poly.ev] at h4 h5
  rw [show Nat.factorial (2 * 3 + 1) = 5040 from rfl] at h4
  rw [show Nat.factorial (2 * 3) = 720 from rfl] at h5
  push_cast at h4 h5
  have h6 := (abs_le.1 h4).1
  have h7 := (abs_le.1 h5).2
  rw [abs_of_pos (show (0 : ℝ) < 0.46385 by norm_num)] at h6
  norm_num at h6 h7 ⊢
  linarith

theorem tan_mid {r : ℝ} (h1 : 0.5995 ≤ |r|) (h2 : |r| ≤ 0.7855) : 0.683 ≤ |Real.tan r| := by
  refine tan_ge_of (c := 0.5995) (by norm_num) (by norm_num) ?_ h1 h2
  have h4 := Poly.sin_series 3 (x := (0.5995 : ℝ)) (by rw [abs_of_pos] <;> norm_num)
  have h5 := Poly.cos_series 3 (x := (0.5995 : ℝ)) (by rw [abs_of_pos] <;> norm_num)
  rw [show Poly.sinc 3 = [1, -1/6, 1/120] by decide +kernel] at h4
  rw [show Poly.cosc 3 = [1, -1/2, 1/24] by decide +kernel] at h5
  simp only [Poly.ev] at h4 h5
  rw [show Nat.factorial (2 * 3 + 1) = 5040 from rfl] at h4
  rw [show Nat.factorial (2 * 3) = 720 from rfl] at h5
  push_cast at h4 h5
  have h6 := (abs_le.1 h4).1
  have h7 := (abs_le.1 h5).2
  rw [abs_of_pos (show (0 : ℝ) < 0.5995 by norm_num)] at h6
  norm_num at h6 h7 ⊢
  linarith

theorem le_tan {r : ℝ} (h : |r| ≤ 0.7855) : |r| ≤ |Real.tan r| := by
  rw [abs_tan h]
  exact Real.le_tan (abs_nonneg r) (by linarith [Real.two_le_pi])

theorem poly_tan {x : ℝ} (hx : |x| ≤ 691 / 1024) :
    |x * Poly.ev KTanD.poly (x ^ 2) - Real.tan x| ≤ 25 / 2 ^ 62 * |x| := by
  have h1 := KTanD.poly_tan hx
  have hc := cos_lo hx
  have hc0 : 0 < Real.cos x := by linarith
  have e : x * Poly.ev KTanD.poly (x ^ 2) * Real.cos x - Real.sin x = (x * Poly.ev KTanD.poly (x ^ 2) - Real.tan x) * Real.cos x := by
    rw [sub_mul, Real.tan_mul_cos hc0.ne']
  rw [e, abs_mul, abs_of_pos hc0] at h1
  have h2 : |x * Poly.ev KTanD.poly (x ^ 2) - Real.tan x| * (1 - (691 / 1024) ^ 2 / 2) ≤ 19 / 2 ^ 62 * |x| :=
    (mul_le_mul_of_nonneg_left hc (abs_nonneg _)).trans h1
  norm_num at h2 ⊢
  have := abs_nonneg x
  linarith

theorem ev_bound (K : ℚ) (X : ℚ) (hK : Poly.check KTanD.poly 0 (X ^ 2 / 2) K 1 = true) (hX : 0 < X) {x : ℝ} (hx : |x| ≤ X) :
    |Poly.ev KTanD.poly (x ^ 2)| ≤ K := by
  have h2 : x ^ 2 ≤ (X : ℝ) ^ 2 := by rw [← sq_abs]; exact pow_le_pow_left₀ (abs_nonneg _) hx 2
  exact Poly.bound hK (by positivity) one_pos (x ^ 2) (by push_cast; positivity) (by push_cast; linarith)

/-- what `k_tan` makes of a reduced argument `a + b`, before its rounding errors -/
theorem main {a b r : ℝ} (K X c : ℚ) (hK : Poly.check KTanD.poly 0 (X ^ 2 / 2) K 1 = true) (hX : 0 < X) (hX1 : X ≤ 691 / 1024)
    (hK1 : 1 ≤ K) (hcc : X ^ 2 * ((K + 1 / 2 ^ 50) ^ 2 - 1) + 1 / 2 ^ 45 ≤ c)
    (hx : |a| ≤ X) (tail : |b| ≤ 13 / 2 ^ 56 * |a|) (err : |a + b - r| ≤ 1 / 2 ^ 62 * |r|) (hr : |r| ≤ 0.7855) (hra : |r| ≤ 1.001 * |a|) :
    |a * Poly.ev KTanD.poly (a ^ 2) + b * (1 + a ^ 2) - Real.tan r| ≤ (13 / 2 ^ 56 * c + 28 / 2 ^ 62) * |a| := by
  have hXr : (X : ℝ) ≤ 691 / 1024 := by exact_mod_cast (Rat.cast_le (K := ℝ)).2 hX1 |>.trans (by norm_num)
  have hx1 : |a| ≤ 691 / 1024 := hx.trans hXr
  have hn := abs_nonneg a
  have h1 := poly_tan hx1
  have h2 := ev_bound K X hK hX hx
  have hb : |b| ≤ 1 / 2 ^ 52 := by norm_num at tail ⊢; linarith
  have h3 := tan_add_small (hx1.trans (by norm_num)) hb
  have hcr : (X : ℝ) ^ 2 * (((K : ℝ) + 1 / 2 ^ 50) ^ 2 - 1) + 1 / 2 ^ 45 ≤ c := by
    have := (Rat.cast_le (K := ℝ)).2 hcc
    push_cast at this
    exact this
  have hKr : (1 : ℝ) ≤ K := by exact_mod_cast hK1
  have hc0 : (0 : ℝ) ≤ c := by
    refine le_trans ?_ hcr
    have hk : 0 ≤ ((K : ℝ) + 1 / 2 ^ 50) ^ 2 - 1 := by nlinarith [show (0 : ℝ) ≤ 1 / 2 ^ 50 by positivity]
    positivity
  have hT : |Real.tan a| ≤ (K + 1 / 2 ^ 50) * |a| := by
    have e : Real.tan a = a * Poly.ev KTanD.poly (a ^ 2) + -(a * Poly.ev KTanD.poly (a ^ 2) - Real.tan a) := by ring
    rw [e]
    refine (abs_add_le _ _).trans ?_
    rw [abs_neg, abs_mul]
    have := mul_le_mul_of_nonneg_left h2 hn
    norm_num at h1 ⊢
    linarith
  have h4 : |b * (1 + Real.tan a ^ 2) - b * (1 + a ^ 2)| ≤ |b| * (c - 1 / 2 ^ 45) := by
    rw [← mul_sub, abs_mul]
    refine mul_le_mul_of_nonneg_left ?_ (abs_nonneg b)
    have ha : |a| ≤ |Real.tan a| := le_tan (hx1.trans (by norm_num))
    have e : 1 + Real.tan a ^ 2 - (1 + a ^ 2) = |Real.tan a| ^ 2 - |a| ^ 2 := by rw [sq_abs, sq_abs]; ring
    rw [e, abs_of_nonneg (by nlinarith)]
    have h5 : |Real.tan a| ^ 2 ≤ ((K + 1 / 2 ^ 50) * |a|) ^ 2 := pow_le_pow_left₀ (abs_nonneg _) hT 2
    have h6 : |a| ^ 2 ≤ (X : ℝ) ^ 2 := pow_le_pow_left₀ hn hx 2
    have hk : 0 ≤ ((K : ℝ) + 1 / 2 ^ 50) ^ 2 - 1 := by nlinarith [show (0 : ℝ) ≤ 1 / 2 ^ 50 by positivity]
    have := mul_le_mul_of_nonneg_right h6 hk
    rw [mul_pow] at h5
    linarith
  have h5 := tan_lip (u := a + b) (v := r) (c := 0.79) (by norm_num) (by norm_num)
    ((abs_add_le _ _).trans (by norm_num at hb hx1 ⊢; linarith)) (hr.trans (by norm_num))
  have h6 : |a + b - r| / (1 - 0.79 ^ 2 / 2) ^ 2 ≤ 2.2 / 2 ^ 62 * |a| := by
    rw [div_le_iff₀ (by norm_num)]
    norm_num at err hra ⊢
    linarith
  have e : a * Poly.ev KTanD.poly (a ^ 2) + b * (1 + a ^ 2) - Real.tan r = (a * Poly.ev KTanD.poly (a ^ 2) - Real.tan a)
      + -((b * (1 + Real.tan a ^ 2) - b * (1 + a ^ 2)) + (Real.tan (a + b) - Real.tan a - b * (1 + Real.tan a ^ 2)))
      + (Real.tan (a + b) - Real.tan r) := by ring
  rw [e]
  refine (abs_add_three _ _ _).trans ?_
  rw [abs_neg]
  have h7 := abs_add_le (b * (1 + Real.tan a ^ 2) - b * (1 + a ^ 2)) (Real.tan (a + b) - Real.tan a - b * (1 + Real.tan a ^ 2))
  have h8 : |b| * c ≤ 13 / 2 ^ 56 * |a| * c := mul_le_mul_of_nonneg_right tail hc0
  norm_num at h1 h3 h4 h5 h6 h7 h8 ⊢
  linarith

end Verif.TanR
