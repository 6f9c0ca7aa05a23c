import Verif.Theory.InvKern
import Verif.Theory.SinSeries
import Verif.Theory.UlpTop
import Mathlib.Analysis.SpecialFunctions.Trigonometric.InverseDeriv
import Mathlib.Analysis.Calculus.MeanValue

/-!
# The rational functions of `asin`, `acos` against the real arcsine

The derivative of the arcsine is compared with a polynomial `s` through `s² (1 - z) = 1 + small`.
-/

namespace Verif
open Flt

namespace Poly
/-- coefficients of `(1 - z)^(-1/2)` -/
def isq : ℕ → ℚ → ℚ → List ℚ
  | 0, _, _ => []
  | n + 1, i, c => c :: isq n (i + 1) (c * (2 * i + 1) / (2 * i + 2))

/-- the integral of `x^(2k) p(x²)`, divided by `x^(2k+1)` -/
def integ : ℚ → List ℚ → List ℚ
  | _, [] => []
  | k, c :: p => c / (2 * k + 1) :: integ (k + 1) p

theorem integ_deriv (p : List ℚ) (k : ℕ) (x : ℝ) : HasDerivAt (fun x : ℝ => x ^ (2 * k + 1) * ev (integ k p) (x ^ 2)) (x ^ (2 * k) * ev p (x ^ 2)) x := by
  induction p generalizing k with
  | nil => simpa [integ, ev] using hasDerivAt_const x (0 : ℝ)
  | cons c p ih =>
    have h1 := ih (k + 1)
    have h2 : HasDerivAt (fun x : ℝ => ((c / (2 * k + 1) : ℚ) : ℝ) * x ^ (2 * k + 1)) (((c / (2 * k + 1) : ℚ) : ℝ) * ((2 * k + 1 : ℕ) * x ^ (2 * k))) x := by
      have := (hasDerivAt_pow (2 * k + 1) x).const_mul ((c / (2 * k + 1) : ℚ) : ℝ)
      simpa using this
    have h3 := h2.add h1
    refine (h3.congr_deriv ?_).congr_of_eventuallyEq (Filter.Eventually.of_forall fun y => ?_)
    · simp only [ev]
      push_cast
      have : (2 * (k : ℝ) + 1) ≠ 0 := by positivity
      field_simp
      ring
    · simp only [integ, ev, Pi.add_apply]
      push_cast
      ring

/-- the arcsine from an approximate square root of `1 / (1 - z)` -/
theorem arcsin_near {s : List ℚ} {ε : ℚ} (hs : bnd (1 / 4) (add s [-1]) ≤ 1 / 2) (hw : bnd (1 / 4) (add (mul (mul s s) [1, -1]) [-1]) ≤ ε) {x : ℝ} (hx : |x| ≤ 1 / 2) :
    |Real.arcsin x - x * ev (integ 0 s) (x ^ 2)| ≤ ε * 1.16 * |x| := by
  have key : ∀ t ∈ Set.Icc (-(1 / 2) : ℝ) (1 / 2), ‖1 / √(1 - t ^ 2) - ev s (t ^ 2)‖ ≤ ε * 1.16 := by
    intro t ht
    have hz0 := _root_.sq_nonneg t
    have hz : t ^ 2 ≤ 1 / 4 := by nlinarith [ht.1, ht.2]
    have hza : |t ^ 2| ≤ ((1 / 4 : ℚ) : ℝ) := by rw [abs_of_nonneg hz0]; push_cast; exact hz
    have h1 := ev_le_bnd _ _ _ hza |>.trans (by exact_mod_cast hs : ((bnd (1 / 4) (add s [-1]) : ℚ) : ℝ) ≤ ((1 / 2 : ℚ) : ℝ))
    have h2 := ev_le_bnd _ _ _ hza |>.trans (by exact_mod_cast hw : ((bnd (1 / 4) (add (mul (mul s s) [1, -1]) [-1]) : ℚ) : ℝ) ≤ (ε : ℝ))
    simp only [ev_add, ev_mul, ev] at h1 h2
    push_cast at h1 h2
    generalize ev s (t ^ 2) = A at *
    generalize t ^ 2 = z at *
    have hA : 0 ≤ A := by linarith [(abs_le.1 h1).1]
    have hr2 := Real.sq_sqrt (by linarith : 0 ≤ 1 - z)
    have hr : 0.8625 ≤ √(1 - z) := Real.le_sqrt_of_sq_le (by norm_num; linarith)
    generalize √(1 - z) = r at *
    have hr0 : 0 < r := by norm_num at hr; linarith
    have e1 : A * A * (1 + z * (-1 + z * 0)) + (-1 + z * 0) = (A * r - 1) * (A * r + 1) := by
      have : z = 1 - r ^ 2 := by linarith
      rw [this]; ring
    rw [e1, abs_mul, abs_of_pos (by positivity : 0 < A * r + 1)] at h2
    have h3 : |A * r - 1| ≤ ε := by
      have := mul_nonneg hA hr0.le
      nlinarith [abs_nonneg (A * r - 1)]
    have e2 : 1 / r - A = -((A * r - 1) / r) := by field_simp; ring
    rw [Real.norm_eq_abs, e2, abs_neg, abs_div, abs_of_pos hr0, div_le_iff₀ hr0]
    have hε := (abs_nonneg _).trans h3
    refine h3.trans ?_
    have : (1 : ℝ) ≤ 1.16 * r := by norm_num at hr ⊢; linarith
    calc (ε : ℝ) = ε * 1 := by ring
      _ ≤ ε * (1.16 * r) := mul_le_mul_of_nonneg_left this hε
      _ = _ := by ring
  have hd : ∀ t ∈ Set.Icc (-(1 / 2) : ℝ) (1 / 2), HasDerivWithinAt (fun t => Real.arcsin t - t * ev (integ 0 s) (t ^ 2)) (1 / √(1 - t ^ 2) - ev s (t ^ 2)) (Set.Icc (-(1 / 2) : ℝ) (1 / 2)) t := by
    intro t ht
    have h1 := Real.hasDerivAt_arcsin (x := t) (by intro h; linarith [ht.1]) (by intro h; linarith [ht.2])
    have h2 := integ_deriv s 0 t
    simp only [Nat.cast_zero, Nat.mul_zero, _root_.zero_add, pow_one, pow_zero, one_mul] at h2
    exact (h1.sub h2).hasDerivWithinAt
  have := Convex.norm_image_sub_le_of_norm_hasDerivWithin_le hd key (convex_Icc _ _) (x := 0) (y := x) (by constructor <;> norm_num) (by rw [abs_le] at hx; exact hx)
  simpa [Real.norm_eq_abs] using this
end Poly

namespace Asin
/-- the derivative of the arcsine, as a polynomial in `x²` -/
def ds : List ℚ := Poly.isq 37 0 1
def errPoly : List ℚ := Poly.add (0 :: pl) (Poly.smul (-1) (Poly.mul (Poly.add (Poly.integ 0 ds) [-1]) ql))
theorem ds_check : Poly.bnd (1 / 4) (Poly.add ds [-1]) ≤ 1 / 2 ∧ Poly.bnd (1 / 4) (Poly.add (Poly.mul (Poly.mul ds ds) [1, -1]) [-1]) ≤ (7 / 2 ^ 79) := by decide +kernel
theorem err_check : Poly.check errPoly 0 (1 / 512) (393 / 2 ^ 69) 64 = true := by decide +kernel

/-- the rational function with exact arithmetic -/
theorem approx {x : ℝ} (h : |x| ≤ 1 / 2) : |x + x * (x ^ 2 * Poly.ev pl (x ^ 2) / Poly.ev ql (x ^ 2)) - Real.arcsin x| ≤ |x| * (197 / 2 ^ 67) := by
  have hz0 : 0 ≤ x ^ 2 := _root_.sq_nonneg x
  have hz : x ^ 2 ≤ 1 / 4 := by
    have : |x| ^ 2 ≤ (1 / 2) ^ 2 := pow_le_pow_left₀ (abs_nonneg _) h 2
    rw [sq_abs] at this; norm_num at this ⊢; linarith
  have h1 := Poly.arcsin_near ds_check.1 ds_check.2 h
  have h2 := Poly.bound err_check (by norm_num) (by norm_num) (x ^ 2) (by push_cast; exact hz0) (by push_cast; norm_num at hz ⊢; linarith)
  rw [errPoly, Poly.ev_add, Poly.ev_smul, Poly.ev_mul, Poly.ev_add] at h2
  simp only [Poly.ev.eq_2 _ 0, Poly.ev.eq_2 _ (-1), Poly.ev.eq_1] at h2
  push_cast at h1 h2
  have hq := ql_ge hz0 hz
  have hq0 : (1 / 2 ^ 1) ≤ Poly.ev ql (x ^ 2) := by linarith
  set P := Poly.ev pl (x ^ 2)
  set Q := Poly.ev ql (x ^ 2)
  set T := Poly.ev (Poly.integ 0 ds) (x ^ 2)
  have hqp : 0 < Q := lt_of_lt_of_le (by norm_num) hq0
  have e : x + x * (x ^ 2 * P / Q) - Real.arcsin x = x * ((0 + x ^ 2 * P + -1 * ((T + (-1 + x ^ 2 * 0)) * Q)) / Q) - (Real.arcsin x - x * T) := by
    field_simp
    ring
  rw [e]
  refine (abs_sub _ _).trans ?_
  rw [abs_mul, abs_div, abs_of_pos hqp]
  have h3 := mul_le_mul_of_nonneg_left (div_le_div₀ (by norm_num) h2 (by norm_num) hq0) (abs_nonneg x)
  refine (add_le_add h3 h1).trans ?_
  have e2 : |x| * ((393 / 2 ^ 69) / (1 / 2 ^ 1)) + (7 / 2 ^ 79) * 1.16 * |x| = |x| * ((393 / 2 ^ 69) / (1 / 2 ^ 1) + (7 / 2 ^ 79) * 1.16) := by ring
  rw [e2]
  exact mul_le_mul_of_nonneg_left (by norm_num) (abs_nonneg _)
end Asin

namespace Asinf
/-- the derivative of the arcsine, as a polynomial in `x²` -/
def ds : List ℚ := Poly.isq 18 0 1
def errPoly : List ℚ := Poly.add (0 :: pl) (Poly.smul (-1) (Poly.mul (Poly.add (Poly.integ 0 ds) [-1]) ql))
theorem ds_check : Poly.bnd (1 / 4) (Poly.add ds [-1]) ≤ 1 / 2 ∧ Poly.bnd (1 / 4) (Poly.add (Poly.mul (Poly.mul ds ds) [1, -1]) [-1]) ≤ (5 / 2 ^ 40) := by decide +kernel
theorem err_check : Poly.check errPoly 0 (1 / 512) (243 / 2 ^ 35) 64 = true := by decide +kernel

/-- the rational function with exact arithmetic -/
theorem approx {x : ℝ} (h : |x| ≤ 1 / 2) : |x + x * (x ^ 2 * Poly.ev pl (x ^ 2) / Poly.ev ql (x ^ 2)) - Real.arcsin x| ≤ |x| * (75 / 2 ^ 33) := by
  have hz0 : 0 ≤ x ^ 2 := _root_.sq_nonneg x
  have hz : x ^ 2 ≤ 1 / 4 := by
    have : |x| ^ 2 ≤ (1 / 2) ^ 2 := pow_le_pow_left₀ (abs_nonneg _) h 2
    rw [sq_abs] at this; norm_num at this ⊢; linarith
  have h1 := Poly.arcsin_near ds_check.1 ds_check.2 h
  have h2 := Poly.bound err_check (by norm_num) (by norm_num) (x ^ 2) (by push_cast; exact hz0) (by push_cast; norm_num at hz ⊢; linarith)
  rw [errPoly, Poly.ev_add, Poly.ev_smul, Poly.ev_mul, Poly.ev_add] at h2
  simp only [Poly.ev.eq_2 _ 0, Poly.ev.eq_2 _ (-1), Poly.ev.eq_1] at h2
  push_cast at h1 h2
  have hq := ql_ge hz0 hz
  have hq0 : (13 / 2 ^ 4) ≤ Poly.ev ql (x ^ 2) := by linarith
  set P := Poly.ev pl (x ^ 2)
  set Q := Poly.ev ql (x ^ 2)
  set T := Poly.ev (Poly.integ 0 ds) (x ^ 2)
  have hqp : 0 < Q := lt_of_lt_of_le (by norm_num) hq0
  have e : x + x * (x ^ 2 * P / Q) - Real.arcsin x = x * ((0 + x ^ 2 * P + -1 * ((T + (-1 + x ^ 2 * 0)) * Q)) / Q) - (Real.arcsin x - x * T) := by
    field_simp
    ring
  rw [e]
  refine (abs_sub _ _).trans ?_
  rw [abs_mul, abs_div, abs_of_pos hqp]
  have h3 := mul_le_mul_of_nonneg_left (div_le_div₀ (by norm_num) h2 (by norm_num) hq0) (abs_nonneg x)
  refine (add_le_add h3 h1).trans ?_
  have e2 : |x| * ((243 / 2 ^ 35) / (13 / 2 ^ 4)) + (5 / 2 ^ 40) * 1.16 * |x| = |x| * ((243 / 2 ^ 35) / (13 / 2 ^ 4) + (5 / 2 ^ 40) * 1.16) := by ring
  rw [e2]
  exact mul_le_mul_of_nonneg_left (by norm_num) (abs_nonneg _)
end Asinf

end Verif
