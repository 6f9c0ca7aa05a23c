import Verif.Theory.ExpEnd
import Verif.Theory.SinSeries
import Verif.Theory.Trans
import Verif.Props.Exp
import Mathlib.Analysis.Complex.ExponentialBounds

/-!
# The rational approximation of `exp` (exp.rs 145-149) against the exponential function
-/

namespace Verif
open Flt

namespace Exp
theorem ln2hi_val : ln2hi.val = (2977044471 : ℝ) * 2 ^ (-32 : ℤ) := by
  rw [val_const64 (x := ln2hi) (2977044471) 1042 (-32) (by decide +kernel) (by norm_num)]; norm_num
theorem ln2lo_val : ln2lo.val = (3691024475790907 : ℝ) * 2 ^ (-84 : ℤ) := by
  rw [val_const64 (x := ln2lo) (3691024475790907) 990 (-84) (by decide +kernel) (by norm_num)]; norm_num
theorem invln2_val : invln2.val = (3248660424278399 : ℝ) * 2 ^ (-51 : ℤ) := by
  rw [val_const64 (x := invln2) (3248660424278399) 1023 (-51) (by decide +kernel) (by norm_num)]; norm_num
theorem p1_val : p1.val = (3002399751580319 : ℝ) * 2 ^ (-54 : ℤ) := by
  rw [val_const64 (x := p1) (3002399751580319) 1020 (-54) (by decide +kernel) (by norm_num)]; norm_num
theorem p2_val : p2.val = (-6405119469862291 : ℝ) * 2 ^ (-61 : ℤ) := by
  rw [val_const64 (x := p2) (-6405119469862291) 1013 (-61) (by decide +kernel) (by norm_num)]; norm_num
theorem p3_val : p3.val = (1220022702274443 : ℝ) * 2 ^ (-64 : ℤ) := by
  rw [val_const64 (x := p3) (1220022702274443) 1010 (-64) (by decide +kernel) (by norm_num)]; norm_num
theorem p4_val : p4.val = (-7807914560613361 : ℝ) * 2 ^ (-72 : ℤ) := by
  rw [val_const64 (x := p4) (-7807914560613361) 1002 (-72) (by decide +kernel) (by norm_num)]; norm_num
theorem p5_val : p5.val = (390835970239053 : ℝ) * 2 ^ (-73 : ℤ) := by
  rw [val_const64 (x := p5) (390835970239053) 1001 (-73) (by decide +kernel) (by norm_num)]; norm_num
/-- the coefficients `p1 … p5` of exp.rs 74-78 -/
def poly : List ℚ := [3002399751580319 / 2 ^ 54, -6405119469862291 / 2 ^ 61, 1220022702274443 / 2 ^ 64, -7807914560613361 / 2 ^ 72, 390835970239053 / 2 ^ 73]
/-- `2 + r² P(r²)` as a polynomial in `r` -/
def rpoly : List ℚ := 2 :: (poly.map fun c => [0, c]).flatten
/-- the Taylor polynomial of the exponential function -/
def taylor : List ℚ := (List.range 16).map fun i => 1 / (i.factorial : ℚ)
/-- numerator of the error: `T(r) (R(r) - r) - (R(r) + r)` -/
def errPoly : List ℚ := Poly.add (Poly.mul taylor (Poly.add rpoly [0, -1])) (Poly.smul (-1) (Poly.add rpoly [0, 1]))

theorem err_check : Poly.check errPoly (-3467 / 10000) (3467 / 640000) (2 / 2 ^ 60) 64 = true := by decide +kernel

theorem rpoly_ev (r : ℝ) : Poly.ev rpoly r = 2 + r ^ 2 * Poly.ev poly (r ^ 2) := by
  simp only [rpoly, poly, List.map, List.flatten, List.append, List.cons_append, List.nil_append, Poly.ev]
  push_cast
  ring

theorem poly_bd {z : ℝ} (h0 : 0 ≤ z) (h1 : z ≤ 0.1203) : 0.1663 ≤ Poly.ev poly z ∧ Poly.ev poly z ≤ 0.167 := by
  have hc : Poly.check (Poly.add poly [-16665 / 100000]) 0 (1203 / 20000) (34 / 100000) 1 = true := by decide +kernel
  have := Poly.bound hc (by norm_num) (by norm_num) z (by simpa using h0) (by push_cast; norm_num; norm_num at h1; linarith)
  rw [Poly.ev_add] at this
  simp only [Poly.ev] at this ⊢
  push_cast at this ⊢
  have := abs_le.1 this
  norm_num at this ⊢
  constructor <;> linarith [this.1, this.2]

/-- the rational function of exp.rs 145-149 with exact arithmetic -/
theorem approx {r : ℝ} (hr : |r| ≤ 0.3467) :
    |1 + r + r * (r - r ^ 2 * Poly.ev poly (r ^ 2)) / (2 - (r - r ^ 2 * Poly.ev poly (r ^ 2))) - Real.exp r| ≤ 2 / 2 ^ 60 := by
  have hr2 := abs_le.1 hr
  have hz : r ^ 2 ≤ 0.1203 := by
    have : |r| ^ 2 ≤ 0.3467 ^ 2 := pow_le_pow_left₀ (abs_nonneg _) hr 2
    rw [sq_abs] at this; norm_num at this ⊢; linarith
  obtain ⟨b1, b2⟩ := poly_bd (_root_.sq_nonneg r) hz
  have he := Poly.bound err_check (by norm_num) (by norm_num) r (by push_cast; norm_num at hr2 ⊢; linarith [hr2.1]) (by push_cast; norm_num at hr2 ⊢; linarith [hr2.2])
  have ht : Poly.ev taylor r = ∑ i ∈ Finset.range 16, r ^ i / i.factorial := by
    rw [taylor, Poly.ev_map_range]
    refine Finset.sum_congr rfl fun i _ => ?_
    push_cast; ring
  have hb := Real.exp_bound (x := r) (by norm_num at hr ⊢; linarith) (n := 16) (by norm_num)
  rw [← ht] at hb
  have hb2 : |r| ^ 16 * ((Nat.succ 16 : ℕ) / ((Nat.factorial 16 : ℕ) * (16 : ℕ)) : ℝ) ≤ 1 / 2 ^ 66 := by
    have : |r| ^ 16 ≤ 0.3467 ^ 16 := pow_le_pow_left₀ (abs_nonneg _) hr 16
    refine (mul_le_mul_of_nonneg_right this (by positivity)).trans ?_
    norm_num [Nat.factorial]
  have hb3 := hb.trans hb2
  rw [errPoly, Poly.ev_add, Poly.ev_mul, Poly.ev_smul, Poly.ev_add, Poly.ev_add, rpoly_ev] at he
  simp only [Poly.ev] at he
  push_cast at he
  set P := Poly.ev poly (r ^ 2)
  set T := Poly.ev taylor r
  set z := r ^ 2 with hzdef
  have z0 : 0 ≤ z := _root_.sq_nonneg r
  have zP : z * P ≤ 0.1203 * 0.167 := mul_le_mul hz b2 (by linarith) (by norm_num)
  have zP0 : 0 ≤ z * P := mul_nonneg z0 (by linarith)
  norm_num at zP
  have d0 : 1.65 ≤ 2 + z * P - r := by norm_num at hr2 ⊢; linarith [hr2.2]
  have d1 : 2 + z * P - r ≤ 2.4 := by norm_num at hr2 ⊢; linarith [hr2.1]
  have e1 : 1 + r + r * (r - z * P) / (2 - (r - z * P)) = (2 + z * P + r) / (2 + z * P - r) := by
    have : (2 : ℝ) - (r - z * P) ≠ 0 := by norm_num at d0; linarith
    have : (2 : ℝ) + z * P - r ≠ 0 := by norm_num at d0; linarith
    field_simp; ring
  rw [e1]
  have dp : (0 : ℝ) < 2 + z * P - r := by norm_num at d0; linarith
  have e2 : (2 + z * P + r) / (2 + z * P - r) - Real.exp r =
      -((T * (2 + z * P - r) - (2 + z * P + r)) + (Real.exp r - T) * (2 + z * P - r)) / (2 + z * P - r) := by
    field_simp; ring
  rw [e2, abs_div, abs_neg, abs_of_pos dp, div_le_iff₀ dp]
  refine (abs_add_le _ _).trans ?_
  rw [abs_mul, abs_of_pos dp]
  have h1 : |Real.exp r - T| * (2 + z * P - r) ≤ 1 / 2 ^ 66 * 2.4 := mul_le_mul hb3 d1 dp.le (by norm_num)
  have h2 : |T * (2 + z * P - r) - (2 + z * P + r)| ≤ 2 / 2 ^ 60 := by
    refine le_trans (le_of_eq ?_) he
    congr 1; ring
  norm_num at d0 h1 h2 ⊢
  linarith

end Exp
end Verif
