import Mathlib.Analysis.SpecialFunctions.Gamma.BohrMollerup
import Mathlib.Analysis.SpecialFunctions.Gamma.Beta
import Mathlib.Analysis.SpecialFunctions.Trigonometric.Bounds
import Mathlib.Tactic.NormNum.NatFactorial

/-! # Facts about the real Gamma function used for `tgamma` and `lgamma` -/

namespace Verif
namespace GammaR

theorem big {x : ℝ} (hx : 184 ≤ x) : 2 ^ 1116 ≤ Real.Gamma x := by
  have h1 : Real.Gamma 184 = (Nat.factorial 183 : ℝ) := by
    rw [show (184 : ℝ) = ((183 : ℕ) : ℝ) + 1 by norm_num, Real.Gamma_nat_eq_factorial]
  have h2 : (2 : ℝ) ^ 1116 ≤ (Nat.factorial 183 : ℝ) := by
    have : 2 ^ 1116 ≤ Nat.factorial 183 := by decide +kernel
    exact_mod_cast this
  have h3 := Real.Gamma_strictMonoOn_Ici.monotoneOn (a := 184) (b := x) (by norm_num [Set.mem_Ici]) (by rw [Set.mem_Ici]; linarith) hx
  linarith

theorem big' {x : ℝ} (hx : 185 ≤ x) : 2 ^ 1123 ≤ Real.Gamma x := by
  have h1 : Real.Gamma 185 = (Nat.factorial 184 : ℝ) := by
    rw [show (185 : ℝ) = ((184 : ℕ) : ℝ) + 1 by norm_num, Real.Gamma_nat_eq_factorial]
  have h2 : (2 : ℝ) ^ 1123 ≤ (Nat.factorial 184 : ℝ) := by
    have : 2 ^ 1123 ≤ Nat.factorial 184 := by decide +kernel
    exact_mod_cast this
  have h3 := Real.Gamma_strictMonoOn_Ici.monotoneOn (a := 185) (b := x) (by norm_num [Set.mem_Ici]) (by rw [Set.mem_Ici]; linarith) hx
  linarith

theorem sin_pi (x : ℝ) : Real.sin (Real.pi * x) = (-1) ^ ⌊x⌋ * Real.sin (Real.pi * Int.fract x) := by
  have : Real.pi * x = Real.pi * Int.fract x + ⌊x⌋ * Real.pi := by
    rw [Int.fract]; ring
  rw [this, Real.sin_add_int_mul_pi]

theorem sin_fract_pos {x : ℝ} (hx : Int.fract x ≠ 0) : 0 < Real.sin (Real.pi * Int.fract x) := by
  have h0 : 0 < Int.fract x := lt_of_le_of_ne (Int.fract_nonneg _) (Ne.symm hx)
  have h1 := Int.fract_lt_one x
  exact Real.sin_pos_of_pos_of_lt_pi (mul_pos Real.pi_pos h0) (by nlinarith [Real.pi_pos])

/-- the sine of `π x` is at least twice the distance of `x` to the integers -/
theorem sin_ge {f d : ℝ} (hd : 0 ≤ d) (h0 : d ≤ f) (h1 : f ≤ 1 - d) : 2 * d ≤ Real.sin (Real.pi * f) := by
  have hp := Real.pi_pos
  have key : ∀ g : ℝ, 0 ≤ g → g ≤ 1 / 2 → 2 * g ≤ Real.sin (Real.pi * g) := by
    intro g g0 g1
    have := Real.mul_le_sin (x := Real.pi * g) (by positivity) (by nlinarith)
    have e : 2 / Real.pi * (Real.pi * g) = 2 * g := by field_simp
    linarith
  rcases le_total f (1 / 2) with h | h
  · have := key f (by linarith) h
    linarith
  · have := key (1 - f) (by linarith) (by linarith)
    have e : Real.pi * (1 - f) = Real.pi - Real.pi * f := by ring
    rw [e, Real.sin_pi_sub] at this
    linarith

theorem reflect {x : ℝ} (hs : Real.sin (Real.pi * x) ≠ 0) (hx : x < 1) :
    Real.Gamma x = Real.pi / (Real.sin (Real.pi * x) * Real.Gamma (1 - x)) := by
  have h := Real.Gamma_mul_Gamma_one_sub x
  have hg : 0 < Real.Gamma (1 - x) := Real.Gamma_pos_of_pos (by linarith)
  rw [eq_div_iff (mul_ne_zero hs hg.ne')]
  rw [eq_div_iff hs] at h
  linarith

/-- for a negative non-integer, `Γ x` is positive exactly when `⌊x⌋` is even -/
theorem sign {x : ℝ} (hx : x < 1) (hf : Int.fract x ≠ 0) : (0 < Real.Gamma x ↔ Even ⌊x⌋) ∧ (Real.Gamma x < 0 ↔ ¬ Even ⌊x⌋) := by
  have hp := sin_fract_pos hf
  have hg : 0 < Real.Gamma (1 - x) := Real.Gamma_pos_of_pos (by linarith)
  have hs := sin_pi x
  rcases Int.even_or_odd ⌊x⌋ with he | ho
  · rw [Even.neg_one_zpow he, one_mul] at hs
    have : 0 < Real.Gamma x := by
      rw [reflect (by rw [hs]; exact hp.ne') hx, hs]
      exact div_pos Real.pi_pos (mul_pos hp hg)
    simp only [he, this, not_true_eq_false, true_iff, iff_false, not_lt, true_and]
    exact this.le
  · rw [Odd.neg_one_zpow ho, neg_one_mul] at hs
    have h : Real.Gamma x < 0 := by
      rw [reflect (by rw [hs]; linarith [hp]) hx, hs]
      exact div_neg_of_pos_of_neg Real.pi_pos (by nlinarith [mul_pos hp hg])
    have ne : ¬ Even ⌊x⌋ := Int.not_even_iff_odd.2 ho
    simp only [ne, h, not_false_eq_true, true_iff, iff_false, not_lt, and_true]
    exact h.le

/-- `|Γ x|` is below half the smallest binary64 subnormal for `x ≤ -184` at least `2^-45` away from the integers -/
theorem tiny {x : ℝ} (hx : x ≤ -184) (h0 : 1 / 2 ^ 45 ≤ Int.fract x) (h1 : Int.fract x ≤ 1 - 1 / 2 ^ 45) : |Real.Gamma x| < 1 / 2 ^ 1075 := by
  have hp := sin_ge (by norm_num) h0 h1
  have hpos : (0 : ℝ) < 2 * (1 / 2 ^ 45) := by norm_num
  have hs := sin_pi x
  have hg := big' (x := 1 - x) (by linarith)
  have ha : |Real.sin (Real.pi * x)| = Real.sin (Real.pi * Int.fract x) := by
    rw [hs, abs_mul, abs_zpow, abs_neg, abs_one, one_zpow, one_mul, abs_of_nonneg (by linarith)]
  have hne : Real.sin (Real.pi * x) ≠ 0 := by
    intro h
    rw [h, abs_zero] at ha
    linarith
  rw [reflect hne (by linarith), abs_div, abs_mul, ha, abs_of_pos Real.pi_pos, abs_of_pos (lt_of_lt_of_le (by positivity) hg)]
  have hq : (2 : ℝ) * (1 / 2 ^ 45) * 2 ^ 1123 ≤ Real.sin (Real.pi * Int.fract x) * Real.Gamma (1 - x) :=
    mul_le_mul hp hg (by positivity) (by linarith)
  rw [div_lt_div_iff₀ (lt_of_lt_of_le (by positivity) hq) (by positivity)]
  have h4 := Real.pi_le_four
  have e : (4 : ℝ) * 2 ^ 1075 < 2 * (1 / 2 ^ 45) * 2 ^ 1123 := by
    rw [show (2 : ℝ) * (1 / 2 ^ 45) * 2 ^ 1123 = 2 ^ 1079 by
      rw [show (2 : ℝ) ^ 1123 = 2 ^ 45 * 2 ^ 1078 by rw [← pow_add]]; field_simp, show (4 : ℝ) * 2 ^ 1075 = 2 ^ 1077 by rw [show (4 : ℝ) = 2 ^ 2 by norm_num, ← pow_add]]
    exact pow_lt_pow_right₀ (by norm_num) (by norm_num)
  have : Real.pi * 2 ^ 1075 ≤ 4 * 2 ^ 1075 := mul_le_mul_of_nonneg_right h4 (by positivity)
  rw [one_mul]
  exact (this.trans_lt e).trans_le hq

end GammaR
end Verif
