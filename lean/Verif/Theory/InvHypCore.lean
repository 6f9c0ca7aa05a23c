import Verif.Theory.HypCore
import Verif.Props.Sqrt
import Verif.Props.LogAcc
import Verif.Props.Log1pAcc
import Mathlib.Analysis.SpecialFunctions.Arsinh
import Mathlib.Analysis.SpecialFunctions.Arcosh
import Mathlib.Analysis.SpecialFunctions.Artanh

/-!
# The formulas of asinh, acosh and atanh

The relative errors of the formulas the code uses, over an accurate logarithm and a correctly rounded square root, in either
format.
-/

namespace Verif
open Flt
namespace IHyp
open HypC

/-! ## Reals -/

/-- the logarithm near one -/
theorem log_near {w : ℝ} (h : |w| ≤ 1 / 2 ^ 12) : |Real.log (1 + w)| ≤ 1.001 * |w| := by
  have h1 := log_one_add_near (h.trans (by norm_num))
  have h2 : w ^ 2 ≤ 1 / 2 ^ 12 * |w| := by
    rw [← sq_abs, pow_two]; exact mul_le_mul_of_nonneg_right h (abs_nonneg _)
  have h3 := abs_add_le (Real.log (1 + w) - w) w
  rw [_root_.sub_add_cancel] at h3
  have := abs_nonneg w
  norm_num at h2 ⊢; linarith

/-- a relative error of the argument of a logarithm -/
theorem log_rel {v T ε : ℝ} (hT : 0 < T) (h : |v - T| ≤ ε * T) (hε : ε ≤ 1 / 2 ^ 12) : |Real.log v - Real.log T| ≤ 1.001 * ε := by
  have h1 : |(v - T) / T| ≤ ε := by rw [abs_div, abs_of_pos hT, div_le_iff₀ hT]; exact h
  have h2 := log_near (h1.trans hε)
  have e : 1 + (v - T) / T = v / T := by field_simp; ring
  have hv : 0 < v := by
    have h4 : ε * T ≤ 1 / 2 ^ 12 * T := mul_le_mul_of_nonneg_right hε hT.le
    have h5 := neg_abs_le (v - T)
    norm_num at h4; linarith
  rw [e, Real.log_div hv.ne' hT.ne'] at h2
  linarith

/-- a relative error of the argument of `log (1 + ·)` does not grow -/
theorem log1p_rel {v T ε : ℝ} (hT : 0 < T) (h : |v - T| ≤ ε * T) (h0 : 0 ≤ ε) (hε : ε ≤ 1 / 2 ^ 12) :
    |Real.log (1 + v) - Real.log (1 + T)| ≤ 1.001 * ε * |Real.log (1 + T)| := by
  have t1 : 0 < 1 + T := by linarith
  have h3 : T / (1 + T) ≤ Real.log (1 + T) := by
    have := Real.one_sub_inv_le_log_of_pos t1
    have e : T / (1 + T) = 1 - (1 + T)⁻¹ := by field_simp; ring
    rw [e]; exact this
  have h1 : |(v - T) / (1 + T)| ≤ ε * (T / (1 + T)) := by
    rw [abs_div, abs_of_pos t1, mul_div_assoc']; exact div_le_div_of_nonneg_right h t1.le
  have h4 : T / (1 + T) ≤ 1 := by rw [div_le_one t1]; linarith
  have h5 : ε * (T / (1 + T)) ≤ ε := mul_le_of_le_one_right h0 h4
  have h2 := log_near (h1.trans (h5.trans hε))
  have e : 1 + (v - T) / (1 + T) = (1 + v) / (1 + T) := by field_simp; ring
  have hv : 0 < 1 + v := by
    have h6 : ε * T ≤ 1 / 2 ^ 12 * T := mul_le_mul_of_nonneg_right hε hT.le
    have h7 := neg_abs_le (v - T)
    norm_num at h6; linarith
  rw [e, Real.log_div hv.ne' t1.ne'] at h2
  have lp : 0 < Real.log (1 + T) := Real.log_pos (by linarith)
  rw [abs_of_pos lp]
  have h8 := mul_le_mul_of_nonneg_left h3 h0
  linarith

theorem sqrt_rel {v T ε γ : ℝ} (hT : 0 < T) (hv : 0 ≤ v) (h : |v - T| ≤ ε * T) (h0 : 0 ≤ ε) (h1 : ε ≤ 1) (hg : ε ≤ γ * (2 - ε)) : |√v - √T| ≤ γ * |√T| := by
  have s1 := Real.mul_self_sqrt hT.le
  have s2 := Real.mul_self_sqrt hv
  have p1 := Real.sqrt_pos.2 hT
  have p2 := Real.sqrt_nonneg v
  have p3 : (1 - ε) * √T ≤ √v := by
    refine Real.le_sqrt_of_sq_le ?_
    have e1 : ((1 - ε) * √T) ^ 2 = (1 - ε) ^ 2 * T := by rw [mul_pow, Real.sq_sqrt hT.le]
    have e2 := neg_abs_le (v - T)
    have e3 : (1 - ε) ^ 2 * T ≤ (1 - ε) * T := mul_le_mul_of_nonneg_right (by nlinarith) hT.le
    rw [e1]; linarith
  rw [abs_of_pos p1]
  have e : (√v - √T) * (√v + √T) = v - T := by ring_nf; rw [pow_two, pow_two, s1, s2]
  have e2 : |√v - √T| * (√v + √T) ≤ ε * T := by
    rw [← abs_of_pos (a := √v + √T) (by linarith), ← abs_mul, e]; exact h
  have p4 : (2 - ε) * √T ≤ √v + √T := by linarith
  have p5 : |√v - √T| * ((2 - ε) * √T) ≤ ε * T := (mul_le_mul_of_nonneg_left p4 (abs_nonneg _)).trans e2
  have p6 : ε * T ≤ γ * (2 - ε) * T := mul_le_mul_of_nonneg_right hg hT.le
  have q : 0 < (2 - ε) * √T := mul_pos (by linarith) p1
  refine le_of_mul_le_mul_right (a := (2 - ε) * √T) ?_ q
  refine p5.trans (p6.trans_eq ?_)
  linear_combination (-(γ * (2 - ε))) * s1

theorem arsinh_S (X : ℝ) : Real.arsinh X = Real.log (X + √(X * X + 1)) := by
  rw [Real.arsinh]; congr 3; ring

theorem arsinh_tiny {X δ : ℝ} (h0 : 0 ≤ X) (hX : X ≤ 1 / 4) (hd : X ^ 2 ≤ 4 * δ) : |X - Real.arsinh X| ≤ δ * |Real.arsinh X| := by
  have y0 : 0 ≤ Real.arsinh X := Real.arsinh_nonneg_iff.2 h0
  have y1 : Real.arsinh X ≤ X := by
    have := Real.self_le_sinh_iff.2 y0
    rwa [Real.sinh_arsinh] at this
  have h := sinh_near (x := Real.arsinh X) (by rw [abs_of_nonneg y0]; linarith)
  rw [Real.sinh_arsinh, abs_of_nonneg y0] at h
  rw [abs_of_nonneg y0]
  refine h.trans ?_
  have h2 : Real.arsinh X ^ 2 ≤ X ^ 2 := pow_le_pow_left₀ y0 y1 2
  have h3 := mul_le_mul_of_nonneg_right (h2.trans hd) y0
  have h4 : Real.arsinh X ^ 3 = Real.arsinh X ^ 2 * Real.arsinh X := by ring
  have h5 : 0 ≤ δ := by have := sq_nonneg X; linarith
  have := mul_nonneg h5 y0
  linarith

theorem artanh_log {X : ℝ} (h0 : 0 ≤ X) (h1 : X < 1) : Real.artanh X = 1 / 2 * Real.log (1 + 2 * X / (1 - X)) := by
  rw [Real.artanh_eq_half_log ⟨by linarith, h1.le⟩]
  congr 2
  have : 1 - X ≠ 0 := by linarith
  field_simp; ring

theorem artanh_tiny {X δ : ℝ} (h0 : 0 ≤ X) (hX : X ≤ 1 / 4) (hd : 2 * X ^ 2 ≤ δ) : |X - Real.artanh X| ≤ δ * |Real.artanh X| := by
  have y0 : 0 ≤ Real.artanh X := Real.artanh_nonneg h0
  have b1 := Real.abs_log_sub_add_sum_range_le (x := X) (by rw [abs_of_nonneg h0]; linarith) 2
  have b2 := Real.abs_log_sub_add_sum_range_le (x := -X) (by rw [abs_neg, abs_of_nonneg h0]; linarith) 2
  simp only [Finset.sum_range_succ, Finset.sum_range_zero, abs_neg, abs_of_nonneg h0] at b1 b2
  have hq : X ^ (2 + 1) / (1 - X) ≤ 4 / 3 * X ^ 2 * X := by
    rw [div_le_iff₀ (by linarith)]
    have : 0 ≤ X ^ 3 := by positivity
    nlinarith
  have e : Real.artanh X = 1 / 2 * (Real.log (1 - -X) - Real.log (1 - X)) := by
    rw [Real.artanh_eq_half_log ⟨by linarith, by linarith⟩, Real.log_div (by linarith) (by linarith), sub_neg_eq_add]
  have b3 := abs_le.1 (b1.trans hq)
  have b4 := abs_le.1 (b2.trans hq)
  norm_num at b3 b4
  have k : |X - Real.artanh X| ≤ 4 / 3 * X ^ 2 * X := by
    rw [e, abs_le]; norm_num
    constructor <;> linarith [b3.1, b3.2, b4.1, b4.2]
  have k2 : X ^ 2 * X ≤ 1 / 16 * X := mul_le_mul_of_nonneg_right (by nlinarith) h0
  have k3 : 11 / 12 * X ≤ Real.artanh X := by
    have := (abs_le.1 k).2
    linarith
  rw [abs_of_nonneg y0]
  refine k.trans ?_
  have h4 := mul_le_mul_of_nonneg_left k3 (show 0 ≤ δ by have := sq_nonneg X; linarith)
  have h5 := mul_le_mul_of_nonneg_right hd h0
  linarith

/-! ## Floats -/

section
variable {F : Fmt} [StdFmt F] {one two half x z r s : Flt F} {T X Z ε δ : ℝ} {lg l1 sq : Flt F → Option (Flt F)}

theorem pos_of_val (h : 0 < x.val) : x.sign = false := sign_of_pos h

/-- the square root of an inexact operand -/
theorem sqrt_rl (hq : IsSqrt sq) (hx : Rl x T ε) (h0 : 0 ≤ ε) (lo : 1 / 2 ^ 125 ≤ T) (hi : T ≤ 2 ^ 126) (γ : ℝ) (hg : ε ≤ γ * (2 - ε)) (hε : ε ≤ 1 / 2 ^ 19)
    (hγ : γ ≤ 1 / 2 ^ 19) {η : ℝ} (ho : γ + (1 + γ) * uu F ≤ η) : ∃ r, sq x = some r ∧ Rl r (√T) η := by
  have hT : 0 < T := lt_of_lt_of_le (by positivity) lo
  have e := hx.err
  rw [abs_of_pos hT] at e
  have v0 : 0 < x.val := by
    have := neg_abs_le (x.val - T)
    have h4 : ε * T ≤ 1 / 2 ^ 19 * T := mul_le_mul_of_nonneg_right hε hT.le
    norm_num at h4; linarith
  obtain ⟨r, hr, -, hn⟩ := hq.pos x hx.fin (pos_of_val v0) (fun h => by rw [isZero_val.1 h] at v0; exact lt_irrefl _ v0)
  refine ⟨r, hr, Rl.rnd hn (sqrt_rel hT v0.le e h0 (hε.trans (by norm_num)) hg) hγ ?_ ?_ ho⟩
  · refine lo_std.trans ?_
    rw [abs_of_pos (Real.sqrt_pos.2 hT)]
    refine Real.le_sqrt_of_sq_le (le_trans ?_ lo)
    norm_num
  · rw [abs_of_pos (Real.sqrt_pos.2 hT)]
    refine le_trans (Real.sqrt_le_iff.2 ⟨by positivity, hi.trans (?_ : (2 : ℝ) ^ 126 ≤ (2 ^ 63) ^ 2)⟩) ?_
    · norm_num
    · have := hi_std (F := F)
      generalize (2 : ℝ) ^ (F.bias : ℤ) = B at *
      norm_num at this ⊢; linarith

/-- the logarithm of an inexact operand -/
theorem log_rl (hl : AccuratePos 0.99 lg Real.log) {c d : ℝ} (h : Rl z Z (c * uu F)) (c0 : 0 ≤ c) (c1 : c ≤ 10) (hZ : 2.7183 ≤ Z) (hd : 1.001 * c + 1.981 ≤ d) :
    ∃ r, lg z = some r ∧ Rl r (Real.log Z) (d * uu F) := by
  have hu0 := uu_pos (F := F)
  have hu1 := uu_le (F := F)
  have hu2 := uu_sq (F := F)
  have Z0 : 0 < Z := by linarith
  have e := h.err
  rw [abs_of_pos Z0] at e
  have cu : c * uu F ≤ 10 * uu F := mul_le_mul_of_nonneg_right c1 hu0.le
  have cu0 : 0 ≤ c * uu F := mul_nonneg c0 hu0.le
  have L : 1 ≤ Real.log Z := by
    rw [Real.le_log_iff_exp_le Z0]
    have := Real.exp_one_lt_d9
    norm_num at this hZ ⊢; linarith
  have D := log_rel Z0 e (by norm_num at hu1 ⊢; linarith)
  have v0 : 0 < z.val := by
    have := neg_abs_le (z.val - Z)
    have h4 : c * uu F * Z ≤ 1 / 2 ^ 20 * Z := mul_le_mul_of_nonneg_right (by norm_num at hu1 ⊢; linarith) Z0.le
    norm_num at h4; linarith
  obtain ⟨r, hr, w⟩ := hl z h.fin v0
  change WithinUlp 0.99 r (Real.log z.val) at w
  refine ⟨r, hr, ?_⟩
  have L2 : 1 / 2 ≤ Real.log z.val := by have := (abs_le.1 D).1; norm_num at hu1; linarith
  refine (Rl.of_ulp w (by norm_num) (low1.trans (by rw [abs_of_pos (by linarith)]; norm_num at L2 ⊢; linarith))).trans (δ := 1.001 * (c * uu F)) (by linarith) ?_ ?_
  · rw [abs_of_pos (a := Real.log Z) (by linarith)]
    exact D.trans (le_mul_of_one_le_right (by linarith) L)
  · have h1 := mul_le_mul_of_nonneg_right hd hu0.le
    have h2 : uu F * (c * uu F) ≤ uu F * (1 / 2 ^ 20) := mul_le_mul_of_nonneg_left (by norm_num at hu1 ⊢; linarith) hu0.le
    norm_num at h1 h2 ⊢
    nlinarith

/-- `log (1 + ·)` of an inexact operand -/
theorem log1p_rl (hl : AccurateAboveNegOne 0.99 l1 (fun t => Real.log (1 + t))) {c d : ℝ} (h : Rl z Z (c * uu F)) (c0 : 0 ≤ c) (c1 : c ≤ 10) (hZ : 1 / 2 ^ 100 ≤ Z)
    (hd : 1.001 * c + 1.981 ≤ d) : ∃ r, l1 z = some r ∧ Rl r (Real.log (1 + Z)) (d * uu F) := by
  have hu0 := uu_pos (F := F)
  have hu1 := uu_le (F := F)
  have hu2 := uu_sq (F := F)
  have Z0 : 0 < Z := lt_of_lt_of_le (by positivity) hZ
  have e := h.err
  rw [abs_of_pos Z0] at e
  have cu : c * uu F ≤ 10 * uu F := mul_le_mul_of_nonneg_right c1 hu0.le
  have cu0 : 0 ≤ c * uu F := mul_nonneg c0 hu0.le
  have D := log1p_rel Z0 e cu0 (by norm_num at hu1 ⊢; linarith)
  have v0 : 1 / 2 * Z ≤ z.val := by
    have := neg_abs_le (z.val - Z)
    have h4 : c * uu F * Z ≤ 1 / 2 ^ 20 * Z := mul_le_mul_of_nonneg_right (by norm_num at hu1 ⊢; linarith) Z0.le
    norm_num at h4; linarith
  obtain ⟨r, hr, w⟩ := hl z h.fin (by change -1 < z.val; linarith)
  change WithinUlp 0.99 r (Real.log (1 + z.val)) at w
  refine ⟨r, hr, ?_⟩
  have L2 : 1 / 2 ^ 126 ≤ Real.log (1 + z.val) := by
    have h1 : (1 : ℝ) + 1 / 2 ^ 102 ≤ 1 + z.val := by norm_num at hZ ⊢; linarith
    have h2 := Real.log_le_log (by norm_num) h1
    have h3 := Real.one_sub_inv_le_log_of_pos (x := 1 + 1 / 2 ^ 102) (by norm_num)
    refine le_trans ?_ h2
    refine le_trans ?_ h3
    norm_num
  refine (Rl.of_ulp w (by norm_num) (low1.trans (by rw [abs_of_pos (lt_of_lt_of_le (by positivity) L2)]; exact L2))).trans (δ := 1.001 * (c * uu F)) (by linarith) D ?_
  have h1 := mul_le_mul_of_nonneg_right hd hu0.le
  have h2 : uu F * (c * uu F) ≤ uu F * (1 / 2 ^ 20) := mul_le_mul_of_nonneg_left (by norm_num at hu1 ⊢; linarith) hu0.le
  norm_num at h1 h2 ⊢
  nlinarith

theorem hi_of {t : ℝ} (h : t ≤ 2 ^ 126) : t ≤ 1.99999 * 2 ^ (F.bias : ℤ) := by
  have := hi_std (F := F)
  generalize (2 : ℝ) ^ (F.bias : ℤ) = B at *
  norm_num at this h ⊢; linarith

theorem hi_of' {t : ℝ} (h : t ≤ 2 ^ 126) : t ≤ 0.99999 * 2 ^ (F.bias : ℤ) := by
  have := hi_std (F := F)
  generalize (2 : ℝ) ^ (F.bias : ℤ) = B at *
  norm_num at this h ⊢; linarith

/-- `sqrt (x^2 + 1)` -/
theorem root (hq : IsSqrt sq) (of : one.isFinite) (ov : one.val = 1) (xf : x.isFinite) (hX : 1 / 2 ^ 40 ≤ x.val) (hX1 : x.val ≤ 2 ^ 26) :
    Rl (x * x) (x.val * x.val) (uu F) ∧ ∃ s, sq (x * x + one) = some s ∧ Rl s (√(x.val * x.val + 1)) (2.003 * uu F) := by
  have hu0 := uu_pos (F := F)
  have hu1 := uu_le (F := F)
  have hu2 := uu_sq (F := F)
  have x0 : 0 < x.val := lt_of_lt_of_le (by positivity) hX
  have p1 : (1 / 2 ^ 40 : ℝ) * (1 / 2 ^ 40) ≤ x.val * x.val := mul_le_mul hX hX (by positivity) x0.le
  have p2 : x.val * x.val ≤ 2 ^ 26 * 2 ^ 26 := mul_le_mul hX1 hX1 x0.le (by positivity)
  have a := mul_u xf xf (by rw [abs_of_pos (mul_pos x0 x0)]; refine le_trans ?_ p1; norm_num) (by
    rw [abs_of_pos (mul_pos x0 x0)]; exact hi_of (p2.trans (by norm_num)))
  refine ⟨a, ?_⟩
  have oe := Rl.exact of
  rw [ov] at oe
  generalize hA : x.val * x.val = A at *
  have A0 : 0 < A := by rw [← hA]; exact mul_pos x0 x0
  have b := a.add oe (lo_std.trans (by rw [abs_of_pos (by linarith)]; norm_num; linarith)) (by
    rw [abs_of_pos (by linarith)]; refine hi_of ?_; norm_num at p2 ⊢; linarith) (uu F) (by
    rw [abs_of_pos A0, abs_of_pos (a := A + 1) (by linarith), abs_one]; nlinarith) (by norm_num at hu1 ⊢; linarith) (η := 2.001 * uu F) (by norm_num at hu2 ⊢; linarith)
  exact sqrt_rl hq b (by linarith) (by norm_num; linarith) (by norm_num at p2 ⊢; linarith) (1.001 * uu F) (by norm_num at hu2 ⊢; nlinarith) (by norm_num at hu1 ⊢; linarith)
    (by norm_num at hu1 ⊢; linarith) (by norm_num at hu2 ⊢; nlinarith)

/-- `log (2 x + 1 / (sqrt (x^2 + 1) + x))` -/
theorem asinh_mid (hq : IsSqrt sq) (hl : AccuratePos 0.99 lg Real.log) (of : one.isFinite) (ov : one.val = 1) (tf : two.isFinite) (tv : two.val = 2) (xf : x.isFinite)
    (hX : 2 ≤ x.val) (hX1 : x.val ≤ 2 ^ 26) : ∃ s, sq (x * x + one) = some s ∧ ∃ r, lg (two * x + one / (s + x)) = some r ∧ Rl r (Real.arsinh x.val) (3.3 * uu F) := by
  have hu0 := uu_pos (F := F)
  have hu1 := uu_le (F := F)
  have hu2 := uu_sq (F := F)
  obtain ⟨-, s, hs, rs⟩ := root (x := x) hq of ov xf (le_trans (by norm_num) hX) hX1
  refine ⟨s, hs, ?_⟩
  have oe := Rl.exact of
  rw [ov] at oe
  have xe := Rl.exact xf
  have d0 := dbl (x := x) xf tf tv (by rw [abs_of_pos (by linarith)]; norm_num; linarith) (by rw [abs_of_pos (by linarith)]; exact hi_of' (hX1.trans (by norm_num)))
  have de := Rl.exact d0.1
  rw [d0.2] at de
  have e1 := arsinh_S x.val
  generalize hv : x.val = X at *
  have sp : 0 ≤ X * X + 1 := by nlinarith
  have s1 := Real.mul_self_sqrt sp
  have s2 : X ≤ √(X * X + 1) := Real.le_sqrt_of_sq_le (by nlinarith)
  have s3 : √(X * X + 1) ≤ 1.2 * X := Real.sqrt_le_iff.2 ⟨by linarith, by nlinarith⟩
  generalize hS : √(X * X + 1) = S at *
  have S0 : 0 < S + X := by linarith
  have bX : X ≤ 2 ^ 100 := hX1.trans (by norm_num)
  have c := rs.add xe (lo_std.trans (by rw [abs_of_pos S0]; norm_num; linarith)) (by rw [abs_of_pos S0]; refine hi_of ?_; norm_num at hX1 ⊢; linarith) (1.1 * uu F) (by
    rw [abs_of_pos S0, abs_of_pos (a := S) (by linarith)]
    have := mul_le_mul_of_nonneg_left s3 hu0.le
    have := mul_pos hu0 (show 0 < X by linarith)
    nlinarith) (by norm_num at hu1 ⊢; linarith) (η := 2.101 * uu F) (by norm_num at hu2 ⊢; nlinarith)
  have Q0 : 0 < 1 / (S + X) := by positivity
  have Q1 : 1 / (S + X) ≤ 1 / 4 := one_div_le_one_div_of_le (by norm_num) (by linarith)
  have Q2 : 1 / (S + X) = S - X := by
    rw [div_eq_iff S0.ne']; nlinarith
  have Q3 : 1 / 2 ^ 125 ≤ 1 / (S + X) := one_div_le_one_div_of_le S0 (by norm_num at hX1 ⊢; linarith)
  have q := oe.div c S0.ne' (lo_std.trans (by rw [abs_of_pos Q0]; exact Q3)) (by rw [abs_of_pos Q0]; exact hi_of (Q1.trans (by norm_num))) (by norm_num at hu1 ⊢; linarith)
    (2.102 * uu F) (by norm_num at hu2 ⊢; nlinarith) (by norm_num at hu1 ⊢; linarith) (η := 3.12 * uu F) (by norm_num at hu2 ⊢; nlinarith)
  have z := de.add q (lo_std.trans (by rw [abs_of_pos (by linarith)]; refine le_trans (?_ : _ ≤ (1 : ℝ)) (by linarith); norm_num)) (by
      rw [abs_of_pos (by linarith)]; refine hi_of (le_trans (show _ ≤ (2 : ℝ) * 2 ^ 26 + 1 / 4 by linarith) ?_); norm_num)
    (0.19 * uu F) (by
      rw [abs_of_pos Q0, abs_of_pos (a := 2 * X + _) (by linarith), zero_mul, zero_add]
      generalize 1 / (S + X) = Q at *
      have : 17 * Q ≤ 2 * X + Q := by linarith
      have := mul_le_mul_of_nonneg_left this hu0.le
      have := mul_pos hu0 Q0
      linarith) (by norm_num at hu1 ⊢; linarith) (η := 1.2 * uu F) (by norm_num at hu2 ⊢; nlinarith)
  obtain ⟨r, hr, w⟩ := log_rl hl z (by norm_num) (by norm_num) (by linarith) (d := 3.3) (by norm_num)
  refine ⟨r, hr, ?_⟩
  rw [e1, show X + S = 2 * X + 1 / (S + X) by rw [Q2]; ring]
  exact w

/-- `log1p (x + x^2 / (sqrt (x^2 + 1) + 1))` -/
theorem asinh_small (hq : IsSqrt sq) (hl : AccurateAboveNegOne 0.99 l1 (fun t => Real.log (1 + t))) (of : one.isFinite) (ov : one.val = 1) (xf : x.isFinite)
    (hX : 1 / 2 ^ 30 ≤ x.val) (hX1 : x.val ≤ 2) : ∃ s, sq (x * x + one) = some s ∧ ∃ r, l1 (x + x * x / (s + one)) = some r ∧ Rl r (Real.arsinh x.val) (4.7 * uu F) := by
  have hu0 := uu_pos (F := F)
  have hu1 := uu_le (F := F)
  have hu2 := uu_sq (F := F)
  obtain ⟨ra, s, hs, rs⟩ := root (x := x) hq of ov xf (le_trans (by norm_num) hX) (hX1.trans (by norm_num))
  refine ⟨s, hs, ?_⟩
  have oe := Rl.exact of
  rw [ov] at oe
  have xe := Rl.exact xf
  have e1 := arsinh_S x.val
  generalize hv : x.val = X at *
  have X0 : 0 < X := lt_of_lt_of_le (by positivity) hX
  have sp : 0 ≤ X * X + 1 := by nlinarith
  have s1 := Real.mul_self_sqrt sp
  have s2 : 1 ≤ √(X * X + 1) := Real.le_sqrt_of_sq_le (by nlinarith)
  have s3 : √(X * X + 1) ≤ 1 + 0.62 * X := Real.sqrt_le_iff.2 ⟨by linarith, by nlinarith⟩
  generalize hS : √(X * X + 1) = S at *
  have c := rs.add oe (lo_std.trans (by rw [abs_of_pos (by linarith)]; norm_num; linarith)) (by rw [abs_of_pos (by linarith)]; refine hi_of ?_; norm_num; linarith) (1.39 * uu F) (by
    rw [abs_of_pos (a := S + 1) (by linarith), abs_of_pos (a := S) (by linarith), abs_one]
    have := mul_le_mul_of_nonneg_left (show S ≤ 2.24 by norm_num at s3 ⊢; linarith) hu0.le
    nlinarith) (by norm_num at hu1 ⊢; linarith) (η := 2.391 * uu F) (by norm_num at hu2 ⊢; nlinarith)
  have Q2 : X * X / (S + 1) = S - 1 := by
    rw [div_eq_iff (by linarith)]; nlinarith
  have Q0 : 0 < X * X / (S + 1) := by positivity
  have Q3 : 1 / 2 ^ 125 ≤ X * X / (S + 1) := by
    rw [le_div_iff₀ (by linarith)]
    have p1 : (1 / 2 ^ 30 : ℝ) * (1 / 2 ^ 30) ≤ X * X := mul_le_mul hX hX (by positivity) X0.le
    refine le_trans ?_ p1
    norm_num; linarith
  have Q1 : X * X / (S + 1) ≤ 0.62 * X := by rw [Q2]; linarith
  have q := ra.div c (by linarith) (lo_std.trans (by rw [abs_of_pos Q0]; exact Q3)) (by rw [abs_of_pos Q0]; refine hi_of (Q1.trans ?_); norm_num; linarith) (by norm_num at hu1 ⊢; linarith)
    (3.392 * uu F) (by norm_num at hu2 ⊢; nlinarith) (by norm_num at hu1 ⊢; linarith) (η := 4.394 * uu F) (by norm_num at hu2 ⊢; nlinarith)
  have z := xe.add q (lo_std.trans (by rw [abs_of_pos (by linarith)]; norm_num at hX ⊢; linarith)) (by rw [abs_of_pos (by linarith)]; refine hi_of ?_; norm_num; linarith)
    (1.69 * uu F) (by
      rw [abs_of_pos Q0, abs_of_pos (a := X + _) (by linarith), zero_mul, zero_add]
      generalize X * X / (S + 1) = Q at *
      have := mul_le_mul_of_nonneg_left Q1 hu0.le
      have := mul_pos hu0 Q0
      nlinarith) (by norm_num at hu1 ⊢; linarith) (η := 2.7 * uu F) (by norm_num at hu2 ⊢; nlinarith)
  obtain ⟨r, hr, w⟩ := log1p_rl hl z (by norm_num) (by norm_num) (by norm_num at hX ⊢; linarith) (d := 4.7) (by norm_num)
  refine ⟨r, hr, ?_⟩
  rw [e1, show X + S = 1 + (X + X * X / (S + 1)) by rw [Q2]; ring]
  exact w

/-- `log x + ln 2` -/
theorem log_big (hl : AccuratePos 0.99 lg Real.log) {l2 : Flt F} (lf : l2.isFinite) (lv : |l2.val - Real.log 2| ≤ uu F * Real.log 2) (xf : x.isFinite) (hX : 2 ^ 11 ≤ x.val) :
    ∃ r, lg x = some r ∧ Rl (r + l2) (Real.log (2 * x.val)) (2.99 * uu F) := by
  have hu0 := uu_pos (F := F)
  have hu1 := uu_le (F := F)
  have hu2 := uu_sq (F := F)
  have g1 := Num.log2_gt
  have g2 := Num.log2_lt
  have x0 : 0 < x.val := lt_of_lt_of_le (by positivity) hX
  have xm := val_lt_top xf
  rw [abs_of_pos x0, top2] at xm
  have oe := Rl.exact lf
  obtain ⟨r, hr, w⟩ := hl x xf x0
  change WithinUlp 0.99 r (Real.log x.val) at w
  refine ⟨r, hr, ?_⟩
  have L1 : 7 ≤ Real.log x.val := by
    have h := Real.log_le_log (by positivity) hX
    rw [Real.log_pow] at h
    norm_num at h g1 ⊢; linarith
  have L2 : Real.log x.val ≤ x.val / 100 := by
    have e : Real.log x.val = Real.log (x.val / 2 ^ 10) + 10 * Real.log 2 := by
      rw [Real.log_div x0.ne' (by norm_num), Real.log_pow]; push_cast; ring
    have h := Real.log_le_sub_one_of_pos (x := x.val / 2 ^ 10) (by positivity)
    rw [e]
    norm_num at h hX g2 ⊢; linarith
  have rl := Rl.of_ulp w (by norm_num) (low1.trans (by rw [abs_of_pos (by linarith)]; refine le_trans (?_ : _ ≤ (1 : ℝ)) (by linarith); norm_num))
  rw [Real.log_mul (by norm_num) x0.ne', add_comm]
  have l0 : 0 < Real.log 2 := Real.log_pos (by norm_num)
  have l1' : Real.log 2 ≤ 1 := by norm_num at g2 ⊢; linarith
  have re : Rl l2 (Real.log 2) (uu F) := ⟨lf, by rw [abs_of_pos l0]; exact lv⟩
  generalize Real.log x.val = L at *
  generalize Real.log 2 = M at *
  refine rl.add re (lo_std.trans ?_) ?_ (1.98 * uu F) ?_ (by norm_num at hu1 ⊢; linarith) (by norm_num at hu2 ⊢; linarith)
  · rw [abs_of_pos (by linarith)]; refine le_trans (?_ : _ ≤ (1 : ℝ)) (by linarith); norm_num
  · rw [abs_of_pos (by linarith)]
    generalize (2 : ℝ) ^ (F.bias : ℤ) = B at *
    norm_num at hX ⊢; linarith
  · rw [abs_of_pos (a := L) (by linarith), abs_of_pos l0, abs_of_pos (a := L + M) (by linarith)]
    have := mul_pos hu0 l0
    norm_num; linarith

theorem arsinh_big (hX : 2 ^ 11 ≤ X) (hu : 1 ≤ 2 * (uu F * (X * X))) : |Real.log (2 * X) - Real.arsinh X| ≤ 0.51 * uu F * |Real.arsinh X| := by
  have X0 : 0 < X := lt_of_lt_of_le (by positivity) hX
  have sp : 0 ≤ X * X + 1 := by positivity
  have s1 := Real.mul_self_sqrt sp
  have s2 : X ≤ √(X * X + 1) := Real.le_sqrt_of_sq_le (by nlinarith)
  rw [arsinh_S]
  generalize √(X * X + 1) = S at *
  have hu0 := uu_pos (F := F)
  have L : 1 ≤ Real.log (X + S) := by
    rw [Real.le_log_iff_exp_le (by linarith)]
    have := Real.exp_one_lt_d9
    norm_num at this hX ⊢; linarith
  rw [abs_of_pos (a := Real.log (X + S)) (by linarith), abs_sub_comm, ← Real.log_div (by linarith) (by linarith)]
  have q1 : 1 ≤ (X + S) / (2 * X) := by rw [le_div_iff₀ (by linarith)]; linarith
  rw [abs_of_nonneg (Real.log_nonneg q1)]
  have q2 := Real.log_le_sub_one_of_pos (x := (X + S) / (2 * X)) (by linarith)
  have q3 : (X + S) / (2 * X) - 1 ≤ 0.5 * uu F := by
    rw [sub_le_iff_le_add, div_le_iff₀ (by linarith)]
    have k : (S - X) * (S + X) = 1 := by linarith
    have k2 : (S - X) * (2 * X) ≤ 1 := by rw [← k]; exact mul_le_mul_of_nonneg_left (by linarith) (by linarith)
    have k3 : (S - X) * (2 * X) ≤ 2 * (uu F * (X * X)) := k2.trans hu
    have k4 : S - X ≤ uu F * X := by
      refine le_of_mul_le_mul_right (a := 2 * X) (k3.trans_eq ?_) (by linarith)
      ring
    norm_num; linarith
  have := mul_le_mul_of_nonneg_left L (show 0 ≤ 0.51 * uu F by linarith)
  linarith

theorem arcosh_big (hX : 2 ^ 11 ≤ X) (hu : 1 ≤ 2 * (uu F * (X * X))) : |Real.log (2 * X) - Real.arcosh X| ≤ 0.51 * uu F * |Real.arcosh X| := by
  have X0 : 0 < X := lt_of_lt_of_le (by positivity) hX
  have sp : 0 ≤ X ^ 2 - 1 := by norm_num at hX; nlinarith
  have s1 := Real.mul_self_sqrt sp
  have s2 : √(X ^ 2 - 1) ≤ X := Real.sqrt_le_iff.2 ⟨X0.le, by linarith⟩
  have s3 : 0.999 * X ≤ √(X ^ 2 - 1) := Real.le_sqrt_of_sq_le (by norm_num at hX ⊢; nlinarith)
  rw [Real.arcosh]
  generalize √(X ^ 2 - 1) = S at *
  have hu0 := uu_pos (F := F)
  have L : 1 ≤ Real.log (X + S) := by
    rw [Real.le_log_iff_exp_le (by linarith)]
    have := Real.exp_one_lt_d9
    norm_num at this hX ⊢; linarith
  have P : 0 < X + S := by linarith
  rw [abs_of_pos (a := Real.log (X + S)) (by linarith), ← Real.log_div (by linarith) (by linarith)]
  have q1 : 1 ≤ 2 * X / (X + S) := by rw [le_div_iff₀ P]; linarith
  rw [abs_of_nonneg (Real.log_nonneg q1)]
  have q2 := Real.log_le_sub_one_of_pos (x := 2 * X / (X + S)) (by linarith)
  have q3 : 2 * X / (X + S) - 1 ≤ 0.51 * uu F := by
    rw [sub_le_iff_le_add, div_le_iff₀ P]
    have k : (X - S) * (X + S) = 1 := by linarith
    have k2 : (X - S) * (1.999 * X) ≤ 1 := by rw [← k]; exact mul_le_mul_of_nonneg_left (by linarith) (by linarith)
    have k3 : (X - S) * (1.999 * X) ≤ 2 * (uu F * (X * X)) := k2.trans hu
    have k4 : X - S ≤ 1.002 * (uu F * X) := by
      refine le_of_mul_le_mul_right (a := 1.999 * X) (k3.trans ?_) (by linarith)
      have := mul_pos hu0 (mul_pos X0 X0)
      norm_num; linarith
    have k5 := mul_le_mul_of_nonneg_left s3 hu0.le
    have := mul_pos hu0 X0
    norm_num at k4 k5 ⊢; linarith
  have := mul_le_mul_of_nonneg_left L (show 0 ≤ 0.51 * uu F by linarith)
  linarith

/-- `log1p (d + sqrt (d^2 + 2 d))`, for `d = x - 1` -/
theorem acosh_small (hq : IsSqrt sq) (hl : AccurateAboveNegOne 0.99 l1 (fun t => Real.log (1 + t))) {d : Flt F} (tf : two.isFinite) (tv : two.val = 2) (df : d.isFinite)
    (hX : 1 / 2 ^ 60 ≤ d.val) (hX1 : d.val ≤ 1) : ∃ s, sq (d * d + two * d) = some s ∧ ∃ r, l1 (d + s) = some r ∧ Rl r (Real.arcosh (1 + d.val)) (4.7 * uu F) := by
  have hu0 := uu_pos (F := F)
  have hu1 := uu_le (F := F)
  have hu2 := uu_sq (F := F)
  have D0 : 0 < d.val := lt_of_lt_of_le (by positivity) hX
  have p1 : (1 / 2 ^ 60 : ℝ) * (1 / 2 ^ 60) ≤ d.val * d.val := mul_le_mul hX hX (by positivity) D0.le
  have p2 : d.val * d.val ≤ 1 * d.val := mul_le_mul_of_nonneg_right hX1 D0.le
  have a := mul_u df df (by rw [abs_of_pos (mul_pos D0 D0)]; refine le_trans ?_ p1; norm_num) (by
    rw [abs_of_pos (mul_pos D0 D0)]; refine hi_of (p2.trans ?_); norm_num; linarith)
  have d0 := dbl (x := d) df tf tv (by rw [abs_of_pos D0]; refine le_trans ?_ hX; norm_num) (by rw [abs_of_pos D0]; exact hi_of' (hX1.trans (by norm_num)))
  have de := Rl.exact d0.1
  rw [d0.2] at de
  have xe := Rl.exact df
  generalize hv : d.val = D at *
  have DD := mul_pos D0 D0
  have b := a.add de (lo_std.trans (by rw [abs_of_pos (by linarith)]; refine le_trans (?_ : _ ≤ (1 : ℝ) / 2 ^ 60) (by linarith); norm_num)) (by
    rw [abs_of_pos (by linarith)]; refine hi_of (le_trans (show _ ≤ (3 : ℝ) by linarith) (by norm_num))) (0.334 * uu F) (by
    rw [abs_of_pos DD, abs_of_pos (a := D * D + 2 * D) (by linarith), zero_mul, add_zero]
    have h3 := mul_le_mul_of_nonneg_left p2 hu0.le
    have := mul_pos hu0 DD
    have := mul_pos hu0 D0
    nlinarith) (by norm_num at hu1 ⊢; linarith) (η := 1.335 * uu F) (by norm_num at hu2 ⊢; linarith)
  obtain ⟨s, hs, rs⟩ := sqrt_rl hq b (by linarith) (le_trans (show _ ≤ (1 : ℝ) / 2 ^ 60 by norm_num) (by linarith)) (le_trans (show _ ≤ (3 : ℝ) by linarith) (by norm_num)) (0.668 * uu F)
    (by norm_num at hu2 ⊢; nlinarith) (by norm_num at hu1 ⊢; linarith) (by norm_num at hu1 ⊢; linarith) (η := 1.669 * uu F) (by norm_num at hu2 ⊢; nlinarith)
  refine ⟨s, hs, ?_⟩
  have e1 : Real.arcosh (1 + D) = Real.log (1 + (D + √(D * D + 2 * D))) := by
    rw [Real.arcosh, add_assoc]; congr 4; ring
  have S0 : 0 ≤ √(D * D + 2 * D) := Real.sqrt_nonneg _
  have S1 : √(D * D + 2 * D) ≤ 2 := Real.sqrt_le_iff.2 ⟨by norm_num, by linarith⟩
  rw [e1]
  generalize √(D * D + 2 * D) = S at *
  have z := xe.add rs (lo_std.trans (by rw [abs_of_pos (by linarith)]; refine le_trans (?_ : _ ≤ (1 : ℝ) / 2 ^ 60) (by linarith); norm_num)) (by
    rw [abs_of_pos (by linarith)]; refine hi_of (le_trans (show _ ≤ (3 : ℝ) by linarith) (by norm_num))) (1.669 * uu F) (by
    rw [abs_of_nonneg S0, abs_of_pos (a := D + S) (by linarith), zero_mul, zero_add]
    have := mul_pos hu0 D0
    nlinarith) (by norm_num at hu1 ⊢; linarith) (η := 2.67 * uu F) (by norm_num at hu2 ⊢; nlinarith)
  exact log1p_rl hl z (by norm_num) (by norm_num) (le_trans (show _ ≤ (1 : ℝ) / 2 ^ 60 by norm_num) (by linarith)) (d := 4.7) (by norm_num)


/-- `log (2 x - 1 / (x + sqrt (x^2 - 1)))` -/
theorem acosh_mid (hq : IsSqrt sq) (hl : AccuratePos 0.99 lg Real.log) (of : one.isFinite) (ov : one.val = 1) (tf : two.isFinite) (tv : two.val = 2) (xf : x.isFinite)
    (hX : 2 ≤ x.val) (hX1 : x.val ≤ 2 ^ 26) : ∃ s, sq (x * x - one) = some s ∧ ∃ r, lg (two * x - one / (x + s)) = some r ∧ Rl r (Real.arcosh x.val) (3.3 * uu F) := by
  have hu0 := uu_pos (F := F)
  have hu1 := uu_le (F := F)
  have hu2 := uu_sq (F := F)
  have x0 : 0 < x.val := by linarith
  have p1 : (2 : ℝ) * 2 ≤ x.val * x.val := mul_le_mul hX hX (by positivity) x0.le
  have p2 : x.val * x.val ≤ 2 ^ 26 * 2 ^ 26 := mul_le_mul hX1 hX1 x0.le (by positivity)
  have a := mul_u xf xf (by rw [abs_of_pos (mul_pos x0 x0)]; refine le_trans ?_ p1; norm_num) (by
    rw [abs_of_pos (mul_pos x0 x0)]; exact hi_of (p2.trans (by norm_num)))
  have oe := Rl.exact of
  rw [ov] at oe
  have xe := Rl.exact xf
  have d0 := dbl (x := x) xf tf tv (by rw [abs_of_pos (by linarith)]; refine le_trans ?_ hX; norm_num) (by rw [abs_of_pos (by linarith)]; exact hi_of' (hX1.trans (by norm_num)))
  have de := Rl.exact d0.1
  rw [d0.2] at de
  have e1 : Real.arcosh x.val = Real.log (x.val + √(x.val * x.val - 1)) := by rw [Real.arcosh, pow_two]
  generalize hv : x.val = X at *
  have XX := mul_pos x0 x0
  have b := a.sub oe (lo_std.trans (by rw [abs_of_pos (by linarith)]; refine le_trans (?_ : _ ≤ (1 : ℝ)) (by linarith); norm_num)) (by
    rw [abs_of_pos (by linarith)]; refine hi_of (le_trans (show _ ≤ (2 : ℝ) ^ 26 * 2 ^ 26 by linarith) ?_); norm_num) (1.334 * uu F) (by
    rw [abs_of_pos XX, abs_of_pos (a := X * X - 1) (by linarith), zero_mul, add_zero]
    have h3 := mul_le_mul_of_nonneg_left p1 hu0.le
    nlinarith) (by norm_num at hu1 ⊢; linarith) (η := 2.335 * uu F) (by norm_num at hu2 ⊢; linarith)
  obtain ⟨s, hs, rs⟩ := sqrt_rl hq b (by linarith) (le_trans (show _ ≤ (1 : ℝ) by norm_num) (by linarith)) (le_trans (show _ ≤ (2 : ℝ) ^ 26 * 2 ^ 26 by linarith) (by norm_num)) (1.168 * uu F)
    (by norm_num at hu2 ⊢; nlinarith) (by norm_num at hu1 ⊢; linarith) (by norm_num at hu1 ⊢; linarith) (η := 2.169 * uu F) (by norm_num at hu2 ⊢; nlinarith)
  refine ⟨s, hs, ?_⟩
  have sp : 0 ≤ X * X - 1 := by linarith
  have s1 := Real.mul_self_sqrt sp
  have s2 : √(X * X - 1) ≤ X := Real.sqrt_le_iff.2 ⟨by linarith, by nlinarith⟩
  have s3 : 0.85 * X ≤ √(X * X - 1) := Real.le_sqrt_of_sq_le (by nlinarith)
  generalize hS : √(X * X - 1) = S at *
  have S0 : 0 < X + S := by linarith
  have c := xe.add rs (lo_std.trans (by rw [abs_of_pos S0]; refine le_trans (?_ : _ ≤ (1 : ℝ)) (by linarith); norm_num)) (by
    rw [abs_of_pos S0]; refine hi_of (le_trans (show _ ≤ (2 : ℝ) ^ 26 * 2 by linarith) ?_); norm_num) (1.085 * uu F) (by
    rw [abs_of_pos S0, abs_of_pos (a := S) (by linarith), zero_mul, zero_add]
    have := mul_le_mul_of_nonneg_left s2 hu0.le
    nlinarith) (by norm_num at hu1 ⊢; linarith) (η := 2.086 * uu F) (by norm_num at hu2 ⊢; nlinarith)
  have Q0 : 0 < 1 / (X + S) := by positivity
  have Q1 : 1 / (X + S) ≤ 1 / 3.7 := one_div_le_one_div_of_le (by norm_num) (by linarith)
  have Q2 : 1 / (X + S) = X - S := by
    rw [div_eq_iff S0.ne']; nlinarith
  have Q3 : 1 / 2 ^ 125 ≤ 1 / (X + S) := one_div_le_one_div_of_le S0 (le_trans (show _ ≤ (2 : ℝ) ^ 26 * 2 by linarith) (by norm_num))
  have Q4 : 3.7 ≤ 2 * X - 1 / (X + S) := by rw [Q2]; linarith
  have q := oe.div c S0.ne' (lo_std.trans (by rw [abs_of_pos Q0]; exact Q3)) (by rw [abs_of_pos Q0]; exact hi_of (Q1.trans (by norm_num))) (by norm_num at hu1 ⊢; linarith)
    (2.087 * uu F) (by norm_num at hu2 ⊢; nlinarith) (by norm_num at hu1 ⊢; linarith) (η := 3.09 * uu F) (by norm_num at hu2 ⊢; nlinarith)
  have z := de.sub q (lo_std.trans (by rw [abs_of_pos (by linarith)]; refine le_trans ?_ Q4; norm_num)) (by
      rw [abs_of_pos (by linarith)]; refine hi_of (le_trans (show _ ≤ (2 : ℝ) * 2 ^ 26 by linarith) ?_); norm_num)
    (0.23 * uu F) (by
      rw [abs_of_pos Q0, abs_of_pos (a := 2 * X - _) (by linarith), zero_mul, zero_add]
      generalize 1 / (X + S) = Q at *
      have : 13.6 * Q ≤ 2 * X - Q := by norm_num at Q1 Q4 ⊢; linarith
      have := mul_le_mul_of_nonneg_left this hu0.le
      have := mul_pos hu0 Q0
      linarith) (by norm_num at hu1 ⊢; linarith) (η := 1.24 * uu F) (by norm_num at hu2 ⊢; nlinarith)
  obtain ⟨r, hr, w⟩ := log_rl hl z (by norm_num) (by norm_num) (by linarith) (d := 3.3) (by norm_num)
  refine ⟨r, hr, ?_⟩
  rw [e1, show X + S = 2 * X - 1 / (X + S) by rw [Q2]; ring]
  exact w

/-- `log1p (...) / 2` -/
theorem atanh_half (hl : AccurateAboveNegOne 0.99 l1 (fun t => Real.log (1 + t))) (hf : half.isFinite) (hv : half.val = 1 / 2) {c d : ℝ} (h : Rl z Z (c * uu F)) (c0 : 0 ≤ c)
    (c1 : c ≤ 10) (hZ : 1 / 2 ^ 100 ≤ Z) (hZ1 : Z ≤ 2 ^ 100) (hd : 1.001 * c + 1.981 ≤ d) (d1 : d ≤ 10) : ∃ r, l1 z = some r ∧ Rl (half * r) (1 / 2 * Real.log (1 + Z)) (d * uu F) := by
  obtain ⟨r, hr, w⟩ := log1p_rl hl h c0 c1 hZ hd
  refine ⟨r, hr, ?_⟩
  have hu0 := uu_pos (F := F)
  have hu1 := uu_le (F := F)
  have Z0 : 0 < Z := lt_of_lt_of_le (by positivity) hZ
  have L2 : 1 / 2 ^ 110 ≤ Real.log (1 + Z) := by
    have h1 : (1 : ℝ) + 1 / 2 ^ 102 ≤ 1 + Z := by norm_num at hZ ⊢; linarith
    have h2 := Real.log_le_log (by norm_num) h1
    have h3 := Real.one_sub_inv_le_log_of_pos (x := 1 + 1 / 2 ^ 102) (by norm_num)
    refine le_trans ?_ h2
    refine le_trans ?_ h3
    norm_num
  have L3 : Real.log (1 + Z) ≤ 2 ^ 100 := by
    have := Real.log_le_sub_one_of_pos (x := 1 + Z) (by linarith)
    linarith
  have L0 : 0 < Real.log (1 + Z) := lt_of_lt_of_le (by positivity) L2
  have du : d * uu F ≤ 1 / 2 := by
    have := mul_le_mul_of_nonneg_right d1 hu0.le
    norm_num at hu1 ⊢; linarith
  have v1 := w.ge L0.le
  have v2 := w.le L0.le
  have v3 := mul_le_mul_of_nonneg_right du L0.le
  generalize Real.log (1 + Z) = L at *
  have h1 : 1 / 2 * L ≤ r.val := by linarith
  have h2 : r.val ≤ 3 / 2 * L := by linarith
  have m := hlv (x := r) w.fin hf hv (by rw [abs_of_pos (by linarith)]; norm_num at L2 ⊢; linarith) (by
    rw [abs_of_pos (by linarith)]
    have := hi_of (F := F) (t := r.val) (by norm_num at L3 ⊢; linarith)
    have := zp (F.bias : ℤ)
    generalize (2 : ℝ) ^ (F.bias : ℤ) = B at *
    norm_num at *; linarith)
  have := w.scale m.1 m.2
  rw [show 1 / 2 * L = L * 2 ^ (-1 : ℤ) by norm_num; ring]
  exact this

/-- `log1p (2 (x / (1 - x))) / 2` -/
theorem atanh_large (hl : AccurateAboveNegOne 0.99 l1 (fun t => Real.log (1 + t))) (of : one.isFinite) (ov : one.val = 1) (tf : two.isFinite) (tv : two.val = 2) (hf : half.isFinite)
    (hv : half.val = 1 / 2) (xf : x.isFinite) (hX : 1 / 2 ≤ x.val) (hX1 : x.val ≤ 1 - 1 / 2 ^ 60) :
    ∃ r, l1 (two * (x / (one - x))) = some r ∧ Rl (half * r) (Real.artanh x.val) (3 * uu F) := by
  have hu0 := uu_pos (F := F)
  have hu1 := uu_le (F := F)
  have hu2 := uu_sq (F := F)
  have x1 : x.val < 1 := lt_of_le_of_lt hX1 (by norm_num)
  obtain ⟨df, dv⟩ := sterbenz_val of xf (by rw [ov, abs_of_pos (a := 1 - x.val) (by linarith), abs_one]; linarith) (by
      rw [ov, abs_of_pos (a := 1 - x.val) (by linarith), abs_of_pos (a := x.val) (by linarith)]; linarith) (by
      rw [ov, abs_one]; exact low1.trans (by norm_num)) (by
      rw [abs_of_pos (a := x.val) (by linarith)]; refine low1.trans (le_trans ?_ hX); norm_num)
  rw [ov] at dv
  have de := Rl.exact df
  have xe := Rl.exact xf
  rw [dv] at de
  have e1 := artanh_log (X := x.val) (by linarith) x1
  rw [e1]
  generalize x.val = X at *
  have p : 0 < 1 - X := by linarith
  have Q1 : 1 / 2 ≤ X / (1 - X) := by rw [le_div_iff₀ p]; linarith
  have Q0 : 0 < X / (1 - X) := by linarith
  have Q2 : X / (1 - X) ≤ 2 ^ 60 := by
    rw [div_le_iff₀ p]
    have : (1 : ℝ) / 2 ^ 60 ≤ 1 - X := by linarith
    have := mul_le_mul_of_nonneg_left this (show (0 : ℝ) ≤ 2 ^ 60 by positivity)
    rw [mul_one_div_cancel (by positivity)] at this
    linarith
  have q := xe.div de p.ne' (lo_std.trans (by rw [abs_of_pos Q0]; refine le_trans ?_ Q1; norm_num)) (by rw [abs_of_pos Q0]; exact hi_of (Q2.trans (by norm_num))) (by norm_num)
    0 (by norm_num) (by norm_num) (η := uu F) (by norm_num)
  obtain ⟨v1, v2⟩ := rng (q.mono (by linarith)) Q0.le
  have m := dbl q.fin tf tv (by rw [abs_of_pos (by linarith)]; refine le_trans (?_ : _ ≤ (1 : ℝ) / 4) (by norm_num at Q1 v1 ⊢; linarith); norm_num) (by
    rw [abs_of_pos (by linarith)]; refine hi_of' (v2.trans (le_trans (show _ ≤ (1.000001 : ℝ) * 2 ^ 60 by linarith) ?_)); norm_num)
  have z := q.scale (k := 1) m.1 (by rw [m.2, zpow_one, mul_comm])
  rw [zpow_one] at z
  obtain ⟨r, hr, w⟩ := atanh_half hl hf hv (z.mono (δ := 1 * uu F) (by linarith)) (by norm_num) (by norm_num) (le_trans (show _ ≤ (1 : ℝ) by norm_num) (by linarith)) (le_trans
    (show _ ≤ (2 : ℝ) ^ 60 * 2 by linarith) (by norm_num)) (d := 3) (by norm_num) (by norm_num)
  refine ⟨r, hr, ?_⟩
  rw [show 2 * X / (1 - X) = X / (1 - X) * 2 by ring]
  exact w

/-- `log1p (2 x + 2 x^2 / (1 - x)) / 2` -/
theorem atanh_small (hl : AccurateAboveNegOne 0.99 l1 (fun t => Real.log (1 + t))) (of : one.isFinite) (ov : one.val = 1) (tf : two.isFinite) (tv : two.val = 2) (hf : half.isFinite)
    (hv : half.val = 1 / 2) (xf : x.isFinite) (hX : 1 / 2 ^ 40 ≤ x.val) (hX1 : x.val ≤ 1 / 2) :
    ∃ r, l1 (two * x + two * x * x / (one - x)) = some r ∧ Rl (half * r) (Real.artanh x.val) (4.5 * uu F) := by
  have hu0 := uu_pos (F := F)
  have hu1 := uu_le (F := F)
  have hu2 := uu_sq (F := F)
  have x0 : 0 < x.val := lt_of_lt_of_le (by positivity) hX
  have p1 : (1 / 2 ^ 40 : ℝ) * (1 / 2 ^ 40) ≤ x.val * x.val := mul_le_mul hX hX (by positivity) x0.le
  have p2 : x.val * x.val ≤ 1 / 2 * x.val := mul_le_mul_of_nonneg_right hX1 x0.le
  have oe := Rl.exact of
  rw [ov] at oe
  have xe := Rl.exact xf
  have d0 := dbl (x := x) xf tf tv (by rw [abs_of_pos x0]; refine le_trans ?_ hX; norm_num) (by rw [abs_of_pos x0]; exact hi_of' (hX1.trans (by norm_num)))
  have de := Rl.exact d0.1
  have a0 := mul_u d0.1 xf
  rw [d0.2] at de a0
  have e1 := artanh_log (X := x.val) (by linarith) (by linarith)
  rw [e1]
  generalize x.val = X at *
  have XX := mul_pos x0 x0
  have a := a0 (by rw [abs_of_pos (by linarith)]; refine le_trans (?_ : _ ≤ (1 / 2 ^ 40 : ℝ) * (1 / 2 ^ 40)) (by linarith); norm_num) (by
    rw [abs_of_pos (by linarith)]; refine hi_of (le_trans (show _ ≤ (1 : ℝ) by linarith) (by norm_num)))
  have p : 1 / 2 ≤ 1 - X := by linarith
  have b := oe.sub xe (lo_std.trans (by rw [abs_of_pos (by linarith)]; refine le_trans ?_ p; norm_num)) (by rw [abs_of_pos (by linarith)]; refine hi_of (le_trans (show _ ≤ (1 : ℝ) by linarith) (by norm_num)))
    0 (by simp) (by norm_num) (η := uu F) (by norm_num)
  have Q0 : 0 < 2 * X * X / (1 - X) := div_pos (by linarith) (by linarith)
  have Q1 : 2 * X * X / (1 - X) ≤ 2 * X := by rw [div_le_iff₀ (by linarith)]; nlinarith
  have Q3 : (1 / 2 ^ 40 : ℝ) * (1 / 2 ^ 40) ≤ 2 * X * X / (1 - X) := by
    rw [le_div_iff₀ (by linarith)]
    refine le_trans (mul_le_of_le_one_right (by positivity) (by linarith)) (by linarith)
  have q := a.div b (by linarith) (lo_std.trans (by rw [abs_of_pos Q0]; refine le_trans ?_ Q3; norm_num)) (by rw [abs_of_pos Q0]; refine hi_of (le_trans (show _ ≤ (1 : ℝ) by linarith) (by norm_num)))
    (by norm_num at hu1 ⊢; linarith) (2.001 * uu F) (by norm_num at hu2 ⊢; nlinarith) (by norm_num at hu1 ⊢; linarith) (η := 3.002 * uu F) (by norm_num at hu2 ⊢; nlinarith)
  have e2 : 2 * X + 2 * X * X / (1 - X) = 2 * X / (1 - X) := by
    have : 1 - X ≠ 0 := by linarith
    field_simp; ring
  have z := de.add q (lo_std.trans (by rw [abs_of_pos (by linarith)]; refine le_trans (?_ : _ ≤ (1 : ℝ) / 2 ^ 40) (by linarith); norm_num)) (by
      rw [abs_of_pos (by linarith)]; refine hi_of (le_trans (show _ ≤ (2 : ℝ) by linarith) (by norm_num)))
    (1.502 * uu F) (by
      rw [abs_of_pos Q0, abs_of_pos (a := 2 * X + _) (by linarith), zero_mul, zero_add]
      generalize 2 * X * X / (1 - X) = Q at *
      have := mul_le_mul_of_nonneg_left Q1 hu0.le
      have := mul_pos hu0 x0
      nlinarith) (by norm_num at hu1 ⊢; linarith) (η := 2.504 * uu F) (by norm_num at hu2 ⊢; nlinarith)
  obtain ⟨r, hr, w⟩ := atanh_half hl hf hv z (by norm_num) (by norm_num) (le_trans (show _ ≤ (1 : ℝ) / 2 ^ 40 by norm_num) (by linarith)) (le_trans
    (show _ ≤ (2 : ℝ) by linarith) (by norm_num)) (d := 4.5) (by norm_num) (by norm_num)
  refine ⟨r, hr, ?_⟩
  rw [← e2]
  exact w

end
end IHyp
end Verif
