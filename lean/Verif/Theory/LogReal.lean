import Verif.Theory.SinSeries
import Verif.Theory.Trans
import Verif.Props.Log
import Mathlib.Analysis.SpecialFunctions.Log.Deriv

/-!
# The polynomials of the logarithms against the series of `log ((1+s)/(1-s))`
-/

namespace Verif
open Flt

namespace Poly
open Finset

/-- coefficients of `(log ((1+s)/(1-s)) - 2s) / s³` in `s²` -/
def logc (n : ℕ) : List ℚ := (List.range n).map fun i : ℕ => 2 / (2 * (i : ℚ) + 3)

theorem log_series (n : ℕ) {s : ℝ} (h : |s| ≤ 1 / 2) :
    |Real.log (1 + s) - Real.log (1 - s) - (2 * s + s * (s ^ 2 * ev (logc n) (s ^ 2)))| ≤ |s| * (s ^ 2) ^ (n + 1) := by
  have hz : s ^ 2 ≤ 1 / 4 := by rw [← sq_abs]; nlinarith [abs_nonneg s]
  have hz0 : 0 ≤ s ^ 2 := _root_.sq_nonneg s
  have hs := Real.hasSum_log_sub_log_of_abs_lt_one (x := s) (lt_of_le_of_lt h (by norm_num))
  have ht := (hasSum_nat_add_iff' (n + 1)).2 hs
  have e1 : ∑ i ∈ range (n + 1), (2 : ℝ) * (1 / (2 * (i : ℝ) + 1)) * s ^ (2 * i + 1) = 2 * s + s * (s ^ 2 * ev (logc n) (s ^ 2)) := by
    rw [sum_range_succ', logc, ev_map_range, mul_sum, mul_sum, add_comm]
    congr 1
    · norm_num
    · refine sum_congr rfl fun i _ => ?_
      push_cast
      have : s ^ (2 * (i + 1) + 1) = s * (s ^ 2 * (s ^ 2) ^ i) := by rw [pow_succ, pow_mul, pow_succ]; ring
      rw [this]
      have : (2 : ℝ) * ((i : ℝ) + 1) + 1 = 2 * i + 3 := by ring
      rw [this]; ring
  rw [e1] at ht
  rw [← ht.tsum_eq, ← Real.norm_eq_abs]
  have hg : HasSum (fun k : ℕ => 2 / 3 * (|s| * (s ^ 2) ^ (n + 1)) * (1 / 4 : ℝ) ^ k) (2 / 3 * (|s| * (s ^ 2) ^ (n + 1)) * (1 - 1 / 4)⁻¹) :=
    (hasSum_geometric_of_lt_one (by norm_num) (by norm_num)).mul_left _
  refine (tsum_of_norm_bounded hg fun k => ?_).trans ?_
  · rw [Real.norm_eq_abs, abs_mul, abs_pow]
    have e2 : |s| ^ (2 * (k + (n + 1)) + 1) = |s| * ((s ^ 2) ^ (n + 1) * (s ^ 2) ^ k) := by
      rw [pow_succ, pow_mul, sq_abs, pow_add]; ring
    rw [e2]
    have e3 : |(2 : ℝ) * (1 / (2 * ((k + (n + 1) : ℕ) : ℝ) + 1))| ≤ 2 / 3 := by
      rw [abs_of_nonneg (by positivity), mul_one_div]
      refine div_le_div_of_nonneg_left (by norm_num) (by norm_num) ?_
      push_cast
      have : (0 : ℝ) ≤ k := Nat.cast_nonneg k
      have : (0 : ℝ) ≤ n := Nat.cast_nonneg n
      linarith
    have e4 : (s ^ 2) ^ k ≤ (1 / 4 : ℝ) ^ k := pow_le_pow_left₀ hz0 hz k
    have e5 : (0 : ℝ) ≤ |s| * (s ^ 2) ^ (n + 1) := by positivity
    calc _ ≤ 2 / 3 * (|s| * ((s ^ 2) ^ (n + 1) * (s ^ 2) ^ k)) := mul_le_mul_of_nonneg_right e3 (by positivity)
      _ = 2 / 3 * (|s| * (s ^ 2) ^ (n + 1)) * (s ^ 2) ^ k := by ring
      _ ≤ _ := mul_le_mul_of_nonneg_left e4 (by positivity)
  · have e5 : (0 : ℝ) ≤ |s| * (s ^ 2) ^ (n + 1) := by positivity
    norm_num
    linarith

/-- `1 + f = (1+s)/(1-s)` for `s = f/(2+f)` -/
theorem log_one_add {f s : ℝ} (hf : -1 < f) (hs : s = f / (2 + f)) : Real.log (1 + s) - Real.log (1 - s) = Real.log (1 + f) := by
  have h2 : (2 : ℝ) + f ≠ 0 := by linarith
  have e1 : 1 + s = 2 * (1 + f) / (2 + f) := by rw [hs]; field_simp; ring
  have e2 : 1 - s = 2 / (2 + f) := by rw [hs]; field_simp; ring
  have p1 : 0 < 1 + s := by rw [e1]; apply div_pos <;> linarith
  have p2 : 0 < 1 - s := by rw [e2]; apply div_pos <;> linarith
  rw [← Real.log_div p1.ne' p2.ne', e1, e2]
  congr 1
  field_simp
end Poly

namespace Log
theorem ln2hi_val : ln2hi.val = (2977044471 : ℝ) * 2 ^ (-32 : ℤ) := by
  rw [val_const64 (x := ln2hi) (2977044471) 1042 (-32) (by decide +kernel) (by norm_num)]; norm_num
theorem ln2lo_val : ln2lo.val = (3691024475790907 : ℝ) * 2 ^ (-84 : ℤ) := by
  rw [val_const64 (x := ln2lo) (3691024475790907) 990 (-84) (by decide +kernel) (by norm_num)]; norm_num
theorem lg1_val : lg1.val = (6004799503160723 : ℝ) * 2 ^ (-53 : ℤ) := by
  rw [val_const64 (x := lg1) (6004799503160723) 1021 (-53) (by decide +kernel) (by norm_num)]; norm_num
theorem lg2_val : lg2.val = (1801439850921601 : ℝ) * 2 ^ (-52 : ℤ) := by
  rw [val_const64 (x := lg2) (1801439850921601) 1022 (-52) (by decide +kernel) (by norm_num)]; norm_num
theorem lg3_val : lg3.val = (5146971033736025 : ℝ) * 2 ^ (-54 : ℤ) := by
  rw [val_const64 (x := lg3) (5146971033736025) 1020 (-54) (by decide +kernel) (by norm_num)]; norm_num
theorem lg4_val : lg4.val = (8006390766270639 : ℝ) * 2 ^ (-55 : ℤ) := by
  rw [val_const64 (x := lg4) (8006390766270639) 1019 (-55) (by decide +kernel) (by norm_num)]; norm_num
theorem lg5_val : lg5.val = (3275661152453103 : ℝ) * 2 ^ (-54 : ℤ) := by
  rw [val_const64 (x := lg5) (3275661152453103) 1020 (-54) (by decide +kernel) (by norm_num)]; norm_num
theorem lg6_val : lg6.val = (5517391500461727 : ℝ) * 2 ^ (-55 : ℤ) := by
  rw [val_const64 (x := lg6) (5517391500461727) 1019 (-55) (by decide +kernel) (by norm_num)]; norm_num
theorem lg7_val : lg7.val = (1332903234475153 : ℝ) * 2 ^ (-53 : ℤ) := by
  rw [val_const64 (x := lg7) (1332903234475153) 1021 (-53) (by decide +kernel) (by norm_num)]; norm_num
/-- the coefficients `lg1` … of log.rs 65-71 -/
def poly : List ℚ := [6004799503160723 / 2 ^ 53, 1801439850921601 / 2 ^ 52, 5146971033736025 / 2 ^ 54, 8006390766270639 / 2 ^ 55, 3275661152453103 / 2 ^ 54, 5517391500461727 / 2 ^ 55, 1332903234475153 / 2 ^ 53]
def errPoly : List ℚ := Poly.add (0 :: poly) (Poly.smul (-1) (0 :: Poly.logc 12))
theorem err_check : Poly.check errPoly 0 (2952 / 12800000) (1 / 2 ^ 58) 64 = true := by decide +kernel

/-- the polynomial with exact arithmetic -/
theorem approx {f s : ℝ} (hf : -1 < f) (hs : s = f / (2 + f)) (h : |s| ≤ 0.1718) :
    |2 * s + s * (s ^ 2 * Poly.ev poly (s ^ 2)) - Real.log (1 + f)| ≤ |s| * (1 / 2 ^ 58 * 1.01) := by
  have hz0 : 0 ≤ s ^ 2 := _root_.sq_nonneg s
  have hz : s ^ 2 ≤ 0.02952 := by
    have : |s| ^ 2 ≤ 0.1718 ^ 2 := pow_le_pow_left₀ (abs_nonneg _) h 2
    rw [sq_abs] at this; norm_num at this ⊢; linarith
  have h1 := Poly.log_series 12 (s := s) (h.trans (by norm_num))
  rw [Poly.log_one_add hf hs] at h1
  have h2 := Poly.bound err_check (by norm_num) (by norm_num) (s ^ 2) (by push_cast; exact hz0) (by push_cast; norm_num at hz ⊢; linarith)
  rw [errPoly, Poly.ev_add, Poly.ev_smul] at h2
  simp only [Poly.ev.eq_2 _ 0] at h2
  push_cast at h2
  have h3 : (s ^ 2) ^ (12 + 1) ≤ 1 / 2 ^ 58 * 0.01 := (pow_le_pow_left₀ hz0 hz _).trans (by norm_num)
  set P := Poly.ev poly (s ^ 2)
  set T := Poly.ev (Poly.logc 12) (s ^ 2)
  have e : 2 * s + s * (s ^ 2 * P) - Real.log (1 + f) = s * (0 + s ^ 2 * P + -1 * (0 + s ^ 2 * T)) - (Real.log (1 + f) - (2 * s + s * (s ^ 2 * T))) := by ring
  rw [e]
  refine (abs_sub _ _).trans ?_
  rw [abs_mul]
  have a1 := mul_le_mul_of_nonneg_left h2 (abs_nonneg s)
  have a2 := h1.trans (mul_le_mul_of_nonneg_left h3 (abs_nonneg s))
  have : |s| * (1 / 2 ^ 58 * 1.01) = |s| * (1 / 2 ^ 58) + |s| * (1 / 2 ^ 58 * 0.01) := by ring
  rw [this]
  exact add_le_add a1 a2
end Log

namespace Logf
theorem ln2hi_val : ln2hi.val = (90851 : ℝ) * 2 ^ (-17 : ℤ) := by
  rw [val_const32 (x := ln2hi) (90851) 132 (-17) (by decide +kernel) (by norm_num)]; norm_num
theorem ln2lo_val : ln2lo.val = (9959377 : ℝ) * 2 ^ (-40 : ℤ) := by
  rw [val_const32 (x := ln2lo) (9959377) 109 (-40) (by decide +kernel) (by norm_num)]; norm_num
theorem lg1_val : lg1.val = (5592405 : ℝ) * 2 ^ (-23 : ℤ) := by
  rw [val_const32 (x := lg1) (5592405) 126 (-23) (by decide +kernel) (by norm_num)]; norm_num
theorem lg2_val : lg2.val = (13422099 : ℝ) * 2 ^ (-25 : ℤ) := by
  rw [val_const32 (x := lg2) (13422099) 124 (-25) (by decide +kernel) (by norm_num)]; norm_num
theorem lg3_val : lg3.val = (4781303 : ℝ) * 2 ^ (-24 : ℤ) := by
  rw [val_const32 (x := lg3) (4781303) 125 (-24) (by decide +kernel) (by norm_num)]; norm_num
theorem lg4_val : lg4.val = (8146707 : ℝ) * 2 ^ (-25 : ℤ) := by
  rw [val_const32 (x := lg4) (8146707) 124 (-25) (by decide +kernel) (by norm_num)]; norm_num
/-- the coefficients `lg1` … of logf.rs 19-22 -/
def poly : List ℚ := [5592405 / 2 ^ 23, 13422099 / 2 ^ 25, 4781303 / 2 ^ 24, 8146707 / 2 ^ 25]
def errPoly : List ℚ := Poly.add (0 :: poly) (Poly.smul (-1) (0 :: Poly.logc 8))
theorem err_check : Poly.check errPoly 0 (2952 / 12800000) (1 / 2 ^ 34) 64 = true := by decide +kernel

/-- the polynomial with exact arithmetic -/
theorem approx {f s : ℝ} (hf : -1 < f) (hs : s = f / (2 + f)) (h : |s| ≤ 0.1718) :
    |2 * s + s * (s ^ 2 * Poly.ev poly (s ^ 2)) - Real.log (1 + f)| ≤ |s| * (1 / 2 ^ 34 * 1.01) := by
  have hz0 : 0 ≤ s ^ 2 := _root_.sq_nonneg s
  have hz : s ^ 2 ≤ 0.02952 := by
    have : |s| ^ 2 ≤ 0.1718 ^ 2 := pow_le_pow_left₀ (abs_nonneg _) h 2
    rw [sq_abs] at this; norm_num at this ⊢; linarith
  have h1 := Poly.log_series 8 (s := s) (h.trans (by norm_num))
  rw [Poly.log_one_add hf hs] at h1
  have h2 := Poly.bound err_check (by norm_num) (by norm_num) (s ^ 2) (by push_cast; exact hz0) (by push_cast; norm_num at hz ⊢; linarith)
  rw [errPoly, Poly.ev_add, Poly.ev_smul] at h2
  simp only [Poly.ev.eq_2 _ 0] at h2
  push_cast at h2
  have h3 : (s ^ 2) ^ (8 + 1) ≤ 1 / 2 ^ 34 * 0.01 := (pow_le_pow_left₀ hz0 hz _).trans (by norm_num)
  set P := Poly.ev poly (s ^ 2)
  set T := Poly.ev (Poly.logc 8) (s ^ 2)
  have e : 2 * s + s * (s ^ 2 * P) - Real.log (1 + f) = s * (0 + s ^ 2 * P + -1 * (0 + s ^ 2 * T)) - (Real.log (1 + f) - (2 * s + s * (s ^ 2 * T))) := by ring
  rw [e]
  refine (abs_sub _ _).trans ?_
  rw [abs_mul]
  have a1 := mul_le_mul_of_nonneg_left h2 (abs_nonneg s)
  have a2 := h1.trans (mul_le_mul_of_nonneg_left h3 (abs_nonneg s))
  have : |s| * (1 / 2 ^ 34 * 1.01) = |s| * (1 / 2 ^ 34) + |s| * (1 / 2 ^ 34 * 0.01) := by ring
  rw [this]
  exact add_le_add a1 a2
end Logf

end Verif
