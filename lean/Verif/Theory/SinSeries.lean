import Verif.Theory.PolyBd
import Mathlib.Analysis.SpecialFunctions.Trigonometric.Series
import Mathlib.Analysis.SpecificLimits.Normed

/-!
# Sine and cosine against their Taylor polynomials
-/

namespace Verif
namespace Poly
open Finset

theorem ev_map_range (f : ℕ → ℚ) (n : ℕ) (x : ℝ) : ev ((List.range n).map f) x = ∑ i ∈ range n, (f i : ℝ) * x ^ i := by
  induction n generalizing f with
  | zero => simp [ev]
  | succ n ih =>
    rw [List.range_succ_eq_map, List.map_cons, List.map_map, ev, ih, sum_range_succ', mul_sum]
    simp only [Function.comp, pow_zero, mul_one]
    rw [add_comm]
    congr 1
    apply sum_congr rfl
    intro i _
    rw [Nat.succ_eq_add_one, pow_succ]; ring

/-- the Taylor polynomial of `sin x / x` in `x²` -/
def sinc (n : ℕ) : List ℚ := (List.range n).map fun i => (-1) ^ i / (Nat.factorial (2 * i + 1) : ℚ)

/-- the Taylor polynomial of `cos x` in `x²` -/
def cosc (n : ℕ) : List ℚ := (List.range n).map fun i => (-1) ^ i / (Nat.factorial (2 * i) : ℚ)

private theorem fact_step (u : ℝ) (h0 : 0 ≤ u) (h1 : u ≤ 1) (k i : ℕ) :
    u ^ (i + 1) / (Nat.factorial (2 * (i + 1) + k) : ℝ) ≤ u ^ i / (Nat.factorial (2 * i + k) : ℝ) := by
  apply div_le_div₀ (by positivity) (pow_le_pow_of_le_one h0 h1 (by omega)) (by positivity)
  exact_mod_cast Nat.factorial_le (by omega)

theorem sin_series (n : ℕ) {x : ℝ} (h : |x| ≤ 1) :
    |Real.sin x - x * ev (sinc n) (x ^ 2)| ≤ |x| * ((x ^ 2) ^ n / (Nat.factorial (2 * n + 1) : ℝ)) := by
  have hu : x ^ 2 ≤ 1 := by rw [← sq_abs]; nlinarith [abs_nonneg x]
  set f : ℕ → ℝ := fun i => (x ^ 2) ^ i / (Nat.factorial (2 * i + 1) : ℝ) with hf
  have ha : Antitone f := antitone_nat_of_succ_le fun i => fact_step _ (sq_nonneg x) hu 1 i
  have hs : Summable f := by
    have := Real.summable_pow_div_factorial (x ^ 2)
    refine Summable.of_nonneg_of_le (fun i => by positivity) (fun i => ?_) this
    apply div_le_div_of_nonneg_left (by positivity) (by positivity)
    exact_mod_cast Nat.factorial_le (by omega)
  have h1 := alternating_series_error_bound f ha hs n
  have h2 : Real.sin x = x * ∑' i : ℕ, (-1) ^ i * f i := by
    rw [← tsum_mul_left, ← (Real.hasSum_sin x).tsum_eq]
    apply tsum_congr
    intro i
    rw [hf]; simp only; rw [pow_succ x (2 * i), pow_mul]; ring
  have h3 : ev (sinc n) (x ^ 2) = ∑ i ∈ range n, (-1) ^ i * f i := by
    rw [sinc, ev_map_range]
    apply sum_congr rfl
    intro i _
    rw [hf]; push_cast; ring
  rw [h2, h3, ← mul_sub, abs_mul]
  exact mul_le_mul_of_nonneg_left h1 (abs_nonneg _)

theorem cos_series (n : ℕ) {x : ℝ} (h : |x| ≤ 1) :
    |Real.cos x - ev (cosc n) (x ^ 2)| ≤ (x ^ 2) ^ n / (Nat.factorial (2 * n) : ℝ) := by
  have hu : x ^ 2 ≤ 1 := by rw [← sq_abs]; nlinarith [abs_nonneg x]
  set f : ℕ → ℝ := fun i => (x ^ 2) ^ i / (Nat.factorial (2 * i) : ℝ) with hf
  have ha : Antitone f := antitone_nat_of_succ_le fun i => fact_step _ (sq_nonneg x) hu 0 i
  have hs : Summable f := by
    have := Real.summable_pow_div_factorial (x ^ 2)
    refine Summable.of_nonneg_of_le (fun i => by positivity) (fun i => ?_) this
    apply div_le_div_of_nonneg_left (by positivity) (by positivity)
    exact_mod_cast Nat.factorial_le (by omega)
  have h1 := alternating_series_error_bound f ha hs n
  have h2 : Real.cos x = ∑' i : ℕ, (-1) ^ i * f i := by
    rw [← (Real.hasSum_cos x).tsum_eq]
    apply tsum_congr
    intro i
    rw [hf]; simp only; rw [pow_mul]; ring
  have h3 : ev (cosc n) (x ^ 2) = ∑ i ∈ range n, (-1) ^ i * f i := by
    rw [cosc, ev_map_range]
    apply sum_congr rfl
    intro i _
    rw [hf]; push_cast; ring
  rw [h2, h3]
  exact h1

end Poly
end Verif
