import Verif.Theory.PowCut

/-!
# The product `y * log2 x` inside pow, and the reduced argument of the exponential
-/

namespace Verif
open Flt
namespace PowT
open AsW
variable {F : Fmt}

theorem rnd (hF : F.W) {q : ℝ} {r : Flt F} (h : IsRNE q r) (hq : |q| ≤ 3 / 2 * 2 ^ (F.bias : ℤ)) :
    r.isFinite ∧ |r.val - q| ≤ |q| * (1 / 2 ^ 24) + 1 / 2 ^ 130 := by
  obtain ⟨a, b⟩ := h.mixed hq (by have := hF.2; omega)
  refine ⟨a, b.trans (add_le_add (mul_le_mul_of_nonneg_left (hu hF) (abs_nonneg _)) ?_)⟩
  rw [show (1 : ℝ) / 2 ^ 130 = 2 ^ (-130 : ℤ) by rw [zpow_neg]; norm_num]
  exact zpow_le_zpow_right₀ (by norm_num) (by have := hF.1; have := hF.2; omega)

theorem abs_lt_top {x : Flt F} (hx : x.isFinite) (hb : 1 ≤ F.bias) : |x.val| < 2 * 2 ^ (F.bias : ℤ) := by
  have h := (isFinite_iff x).1 hx
  rw [F.infEnc_eq] at h
  have := val_lt_of_mb (x := x) (E := 2 * F.bias + 1) (by omega) h
  rw [show (((2 * F.bias + 1 : ℕ) : ℤ) - F.bias) = 1 + F.bias by push_cast; ring, zpow_add₀ (by norm_num), zpow_one] at this
  exact this

/-- the rounding error of the pieces of the product is small whenever the product is in the range of the exponential -/
theorem mul_core (hF : F.W) {T : Flt F → Flt F} (hT : Cuts T (1 / 2 ^ 11)) {y t1 t2 : Flt F} (hy : y.isFinite) (h1 : t1.isFinite)
    (h2 : t2.isFinite) (h21 : |t2.val| ≤ |t1.val| / 4) (ht1 : |t1.val| ≤ 2 ^ 14) (hM : |y.val| * |t1.val| ≤ 2 ^ 110) :
    ((y - T y) * t1 + y * t2).isFinite ∧ (T y * t1).isFinite ∧ ((y - T y) * t1 + y * t2 + T y * t1).isFinite ∧
    (|((y - T y) * t1 + y * t2 + T y * t1).val| ≤ 1101 →
      |((y - T y) * t1 + y * t2).val| ≤ 512 ∧ |(T y * t1).val| ≤ 1600 ∧
      |((y - T y) * t1 + y * t2 + T y * t1).val - (((y - T y) * t1 + y * t2).val + (T y * t1).val)| ≤ 1 / 2 ^ 12) := by
  obtain ⟨c1, c2⟩ := hT y hy
  have hb : 1 ≤ F.bias := by have := hF.2; omega
  have hP : (2 : ℝ) ^ 120 ≤ 3 / 2 * 2 ^ (F.bias : ℤ) := big hF _ le_rfl
  obtain ⟨M, eM⟩ : ∃ M, M = |y.val| * |t1.val| := ⟨_, rfl⟩
  rw [← eM] at hM
  have hM0 : 0 ≤ M := by rw [eM]; positivity
  have hyt := abs_lt_top hy hb
  -- the low part of y
  obtain ⟨d1, d2⟩ := rnd hF (sub_rne hy c1) (by
    rw [abs_sub_comm]
    linarith)
  have d3 : |(y - T y).val| ≤ 1 / 2 ^ 10 * |y.val| + 1 / 2 ^ 128 := by
    have := abs_sub_abs_le_abs_sub (y - T y).val (y.val - (T y).val)
    rw [abs_sub_comm] at c2
    have := abs_nonneg y.val
    linarith
  have e1 : |(y - T y).val * t1.val| ≤ 1 / 2 ^ 10 * M + 1 / 2 ^ 114 := by
    rw [abs_mul, eM]
    have := mul_le_mul_of_nonneg_right d3 (abs_nonneg t1.val)
    linarith
  obtain ⟨a1, a2⟩ := rnd hF (mul_rne d1 h1) (by linarith)
  have e2 : |y.val * t2.val| ≤ 1 / 4 * M := by
    rw [abs_mul, eM]
    have := mul_le_mul_of_nonneg_left h21 (abs_nonneg y.val)
    linarith
  obtain ⟨b1, b2⟩ := rnd hF (mul_rne hy h2) (by linarith)
  have e3 : |(T y).val * t1.val - y.val * t1.val| ≤ 1 / 2 ^ 11 * M + 1 / 2 ^ 116 := by
    rw [← sub_mul, abs_mul, eM]
    have := mul_le_mul_of_nonneg_right c2 (abs_nonneg t1.val)
    linarith
  have e4 : |(T y).val * t1.val| ≤ 1025 / 2 ^ 10 * M + 1 / 2 ^ 116 := by
    have := abs_sub_abs_le_abs_sub ((T y).val * t1.val) (y.val * t1.val)
    have k : |y.val * t1.val| = M := by rw [abs_mul, eM]
    linarith
  have e5 : 1023 / 2 ^ 10 * M - 1 / 2 ^ 116 ≤ |(T y).val * t1.val| := by
    have := abs_sub_abs_le_abs_sub (y.val * t1.val) ((T y).val * t1.val)
    rw [abs_sub_comm] at e3
    have k : |y.val * t1.val| = M := by rw [abs_mul, eM]
    linarith
  obtain ⟨p1, p2⟩ := rnd hF (mul_rne c1 h1) (by linarith)
  have f1 : |((y - T y) * t1).val| ≤ 1 / 2 ^ 9 * M + 1 / 2 ^ 110 := by
    have := abs_sub_abs_le_abs_sub ((y - T y) * t1).val ((y - T y).val * t1.val)
    linarith
  have f2 : |(y * t2).val| ≤ 129 / 2 ^ 9 * M + 1 / 2 ^ 110 := by
    have := abs_sub_abs_le_abs_sub (y * t2).val (y.val * t2.val)
    linarith
  have f3 : |(T y * t1).val| ≤ 513 / 2 ^ 9 * M + 1 / 2 ^ 110 := by
    have := abs_sub_abs_le_abs_sub (T y * t1).val ((T y).val * t1.val)
    linarith
  have f4 : 511 / 2 ^ 9 * M - 1 / 2 ^ 110 ≤ |(T y * t1).val| := by
    have := abs_sub_abs_le_abs_sub ((T y).val * t1.val) (T y * t1).val
    rw [abs_sub_comm] at p2
    linarith
  have f5 := abs_add_le ((y - T y) * t1).val (y * t2).val
  obtain ⟨q1, q2⟩ := rnd hF (add_rne a1 b1) (by linarith)
  have g1 : |((y - T y) * t1 + y * t2).val| ≤ 33 / 2 ^ 7 * M + 1 / 2 ^ 100 := by
    have := abs_sub_abs_le_abs_sub ((y - T y) * t1 + y * t2).val (((y - T y) * t1).val + (y * t2).val)
    linarith
  have g2 := abs_add_le ((y - T y) * t1 + y * t2).val (T y * t1).val
  obtain ⟨z1, z2⟩ := rnd hF (add_rne q1 p1) (by linarith)
  refine ⟨q1, p1, z1, fun hz => ?_⟩
  have g3 := abs_sub_abs_le_abs_sub (T y * t1).val (-((y - T y) * t1 + y * t2).val)
  rw [abs_neg, sub_neg_eq_add, add_comm] at g3
  have g4 := abs_sub_abs_le_abs_sub (((y - T y) * t1 + y * t2).val + (T y * t1).val) ((y - T y) * t1 + y * t2 + T y * t1).val
  rw [abs_sub_comm] at g4
  have hM2 : M ≤ 1500 := by linarith
  refine ⟨by linarith, by linarith, by linarith⟩

/-- the reduced argument -/
theorem red_core (hF : F.W) {ph pl z t : Flt F} (hph : ph.isFinite) (hpl : pl.isFinite) (ht : t.isFinite) (h1 : |pl.val| ≤ 512)
    (h2 : |z.val - (pl.val + ph.val)| ≤ 1 / 2 ^ 12) (h3 : |z.val - t.val| ≤ 1 / 2) :
    Bd (ph - t) 2048 ∧ |pl.val + (ph - t).val| ≤ 129 / 2 ^ 8 := by
  have h4 : |pl.val + (ph.val - t.val)| ≤ 1 / 2 + 1 / 2 ^ 12 := by
    have := abs_sub_le (pl.val + ph.val) z.val t.val
    rw [abs_sub_comm] at h2
    rw [show pl.val + (ph.val - t.val) = pl.val + ph.val - t.val by ring]
    linarith
  have h5 : |ph.val - t.val| ≤ 513 := by
    have := abs_sub_abs_le_abs_sub (ph.val - t.val) (-pl.val)
    rw [abs_neg, sub_neg_eq_add, add_comm (ph.val - t.val) pl.val] at this
    linarith
  obtain ⟨a, b⟩ := rnd hF (sub_rne hph ht) (h5.trans (big hF _ (by norm_num)))
  have h6 : |(ph - t).val - (ph.val - t.val)| ≤ 1 / 2 ^ 14 := by linarith
  refine ⟨.mk a ?_, ?_⟩
  · have := abs_sub_abs_le_abs_sub (ph - t).val (ph.val - t.val)
    linarith
  · have := abs_sub_abs_le_abs_sub (pl.val + (ph - t).val) (pl.val + (ph.val - t.val))
    rw [show pl.val + (ph - t).val - (pl.val + (ph.val - t.val)) = (ph - t).val - (ph.val - t.val) by ring] at this
    linarith

end PowT
end Verif
