import Verif.Theory.ExpReal
import Verif.Theory.LogCore

/-!
# The rational approximation of `expm1` (expm1.rs 95-99) against the exponential function
-/

namespace Verif
open Flt

namespace Expm1
theorem ln2hi_val : ln2hi.val = (2977044471 : ℝ) * 2 ^ (-32 : ℤ) := by
  rw [val_const64 (x := ln2hi) (2977044471) 1042 (-32) (by decide +kernel) (by norm_num)]; norm_num
theorem ln2lo_val : ln2lo.val = (3691024475790907 : ℝ) * 2 ^ (-84 : ℤ) := by
  rw [val_const64 (x := ln2lo) (3691024475790907) 990 (-84) (by decide +kernel) (by norm_num)]; norm_num
theorem invln2_val : invln2.val = (3248660424278399 : ℝ) * 2 ^ (-51 : ℤ) := by
  rw [val_const64 (x := invln2) (3248660424278399) 1023 (-51) (by decide +kernel) (by norm_num)]; norm_num
theorem q1_val : q1.val = (-1200959900632125 : ℝ) * 2 ^ (-55 : ℤ) := by
  rw [val_const64 (x := q1) (-1200959900632125) 1019 (-55) (by decide +kernel) (by norm_num)]; norm_num
theorem q2_val : q2.val = (7320136536970629 : ℝ) * 2 ^ (-62 : ℤ) := by
  rw [val_const64 (x := q2) (7320136536970629) 1012 (-62) (by decide +kernel) (by norm_num)]; norm_num
theorem q3_val : q3.val = (-5856108965714871 : ℝ) * 2 ^ (-66 : ℤ) := by
  rw [val_const64 (x := q3) (-5856108965714871) 1008 (-66) (by decide +kernel) (by norm_num)]; norm_num
theorem q4_val : q4.val = (4732068380955193 : ℝ) * 2 ^ (-70 : ℤ) := by
  rw [val_const64 (x := q4) (4732068380955193) 1004 (-70) (by decide +kernel) (by norm_num)]; norm_num
theorem q5_val : q5.val = (-7597313661453101 : ℝ) * 2 ^ (-75 : ℤ) := by
  rw [val_const64 (x := q5) (-7597313661453101) 999 (-75) (by decide +kernel) (by norm_num)]; norm_num
/-- `1, q1 …` of expm1.rs, the coefficients of `r1` in `hxs` -/
def poly : List ℚ := [1, -1200959900632125 / 2 ^ 55, 7320136536970629 / 2 ^ 62, -5856108965714871 / 2 ^ 66, 4732068380955193 / 2 ^ 70, -7597313661453101 / 2 ^ 75]
/-- the same in `r`, with `hxs = r²/2` -/
def rpoly : List ℚ := [1, 0, -1200959900632125 / 2 ^ 55 / 2 ^ 1, 0, 7320136536970629 / 2 ^ 62 / 2 ^ 2, 0, -5856108965714871 / 2 ^ 66 / 2 ^ 3, 0, 4732068380955193 / 2 ^ 70 / 2 ^ 4, 0, -7597313661453101 / 2 ^ 75 / 2 ^ 5]
/-- `6 - r t` with `t = 3 - r1 r / 2` -/
def dpoly : List ℚ := Poly.add [6, -3] (0 :: 0 :: Poly.smul (1 / 2) rpoly)
/-- the Taylor polynomial of `(exp r - 1) / r` -/
def taylor : List ℚ := (List.range 16).map fun i => 1 / ((i + 1).factorial : ℚ)
/-- numerator of the relative error -/
def errPoly : List ℚ := Poly.add (Poly.mul taylor dpoly) [-6]

theorem err_check : Poly.check errPoly (-3467 / 10000) (3467 / 640000) (2 / 2 ^ 60) 64 = true := by decide +kernel

theorem rpoly_ev (r : ℝ) : Poly.ev rpoly r = Poly.ev poly (r ^ 2 / 2) := by
  simp only [rpoly, poly, Poly.ev]
  push_cast
  ring

/-- `r1` -/
noncomputable def R (r : ℝ) : ℝ := Poly.ev poly (r ^ 2 / 2)
/-- `t` -/
noncomputable def T (r : ℝ) : ℝ := 3 - R r * (r / 2)
/-- the quotient -/
noncomputable def W (r : ℝ) : ℝ := (R r - T r) / (6 - r * T r)

theorem dpoly_ev (r : ℝ) : Poly.ev dpoly r = 6 - r * T r := by
  rw [dpoly, Poly.ev_add]
  simp only [Poly.ev, Poly.ev_smul, rpoly_ev]
  unfold T R
  push_cast
  ring

theorem R_bd {r : ℝ} (hr : |r| ≤ 0.3467) : 0.99 ≤ R r ∧ R r ≤ 1 := by
  have hz : r ^ 2 / 2 ≤ 0.0602 := by
    have : |r| ^ 2 ≤ 0.3467 ^ 2 := pow_le_pow_left₀ (abs_nonneg _) hr 2
    rw [sq_abs] at this; norm_num at this ⊢; linarith
  have z0 : 0 ≤ r ^ 2 / 2 := by positivity
  have hc : Poly.check (Poly.add (List.tail poly) [167 / 10000]) 0 (0602 / 20000) (167 / 10000) 1 = true := by decide +kernel
  have := Poly.bound hc (by norm_num) (by norm_num) (r ^ 2 / 2) (by simpa using z0) (by push_cast; norm_num; norm_num at hz; linarith)
  unfold R
  generalize r ^ 2 / 2 = z at *
  have e : Poly.ev poly z = 1 + z * Poly.ev (List.tail poly) z := by
    simp only [poly, List.tail, Poly.ev]; push_cast; ring
  rw [e]
  rw [Poly.ev_add] at this
  generalize Poly.ev (List.tail poly) z = q at *
  simp only [Poly.ev] at this
  push_cast at this
  have := abs_le.1 this
  norm_num at this hz ⊢
  have h1 : q ≤ 0 := by linarith [this.2]
  have h2 : -167 / 5000 ≤ q := by linarith [this.1]
  constructor
  · have := mul_le_mul hz (neg_le_neg h2) (by linarith) (by norm_num)
    linarith
  · have := mul_nonneg z0 (neg_nonneg.2 h1)
    linarith

theorem D_bd {r : ℝ} (hr : |r| ≤ 0.3467) : 4.95 ≤ 6 - r * T r ∧ 6 - r * T r ≤ 7.1004 := by
  obtain ⟨a, b⟩ := R_bd hr
  have hr2 := abs_le.1 hr
  have e : 6 - r * T r = 6 - 3 * r + R r * (r ^ 2 / 2) := by unfold T; ring
  have hz : r ^ 2 / 2 ≤ 0.0602 := by
    have : |r| ^ 2 ≤ 0.3467 ^ 2 := pow_le_pow_left₀ (abs_nonneg _) hr 2
    rw [sq_abs] at this; norm_num at this ⊢; linarith
  have z0 : 0 ≤ r ^ 2 / 2 := by positivity
  have h1 := mul_nonneg (show 0 ≤ R r by norm_num at a; linarith) z0
  have h2 : R r * (r ^ 2 / 2) ≤ 1 * 0.0602 := mul_le_mul b hz z0 (by norm_num)
  rw [e]
  generalize R r * (r ^ 2 / 2) = q at *
  norm_num at hr2 h2 ⊢
  constructor <;> linarith [hr2.1, hr2.2]

/-- the approximation of `exp r - 1` with exact arithmetic -/
theorem approx {r : ℝ} (hr : |r| ≤ 0.3467) :
    |r - (r * (r * (r / 2) * W r) - r * (r / 2)) - (Real.exp r - 1)| ≤ 2 / 2 ^ 62 * |r| := by
  have hr2 := abs_le.1 hr
  obtain ⟨d0, d1⟩ := D_bd hr
  have he := Poly.bound err_check (by norm_num) (by norm_num) r (by push_cast; norm_num at hr2 ⊢; linarith [hr2.1]) (by push_cast; norm_num at hr2 ⊢; linarith [hr2.2])
  have ht : 1 + r * Poly.ev taylor r = ∑ i ∈ Finset.range 17, r ^ i / i.factorial := by
    rw [Finset.sum_range_succ', taylor, Poly.ev_map_range, Finset.mul_sum, add_comm]
    congr 1
    · refine Finset.sum_congr rfl fun i _ => ?_
      push_cast; ring
    · norm_num
  have hb := Real.exp_bound (x := r) (by norm_num at hr ⊢; linarith) (n := 17) (by norm_num)
  rw [← ht] at hb
  have hb2 : |r| ^ 17 * ((Nat.succ 17 : ℕ) / ((Nat.factorial 17 : ℕ) * (17 : ℕ)) : ℝ) ≤ 1 / 2 ^ 66 * |r| := by
    have h1 : |r| ^ 16 ≤ 0.3467 ^ 16 := pow_le_pow_left₀ (abs_nonneg _) hr 16
    have h2 : |r| ^ 17 = |r| ^ 16 * |r| := by ring
    rw [h2, mul_right_comm]
    refine mul_le_mul_of_nonneg_right ?_ (abs_nonneg _)
    refine (mul_le_mul_of_nonneg_right h1 (by positivity)).trans ?_
    norm_num [Nat.factorial]
  have hb3 := hb.trans hb2
  rw [errPoly, Poly.ev_add, Poly.ev_mul, dpoly_ev] at he
  simp only [Poly.ev] at he
  push_cast at he
  have dp : (0 : ℝ) < 6 - r * T r := by norm_num at d0; linarith
  have e1 : r - (r * (r * (r / 2) * W r) - r * (r / 2)) = 6 * r / (6 - r * T r) := by
    unfold W
    rw [eq_div_iff dp.ne']
    have : ∀ A : ℝ, A / (6 - r * T r) * (6 - r * T r) = A := fun A => div_mul_cancel₀ A dp.ne'
    have h := this (R r - T r)
    generalize (R r - T r) / (6 - r * T r) = w at *
    have e2 : (r - (r * (r * (r / 2) * w) - r * (r / 2))) * (6 - r * T r) = (r + r * (r / 2)) * (6 - r * T r) - r * (r * (r / 2)) * (w * (6 - r * T r)) := by ring
    rw [e2, h]
    unfold T
    ring
  rw [e1]
  set Dn := 6 - r * T r
  set P := Poly.ev taylor r
  have e3 : 6 * r / Dn - (Real.exp r - 1) = -(r * (P * Dn + -6) + (Real.exp r - (1 + r * P)) * Dn) / Dn := by
    rw [eq_div_iff dp.ne', sub_mul, div_mul_cancel₀ _ dp.ne']; ring
  rw [e3, abs_div, abs_neg, abs_of_pos dp, div_le_iff₀ dp]
  refine (abs_add_le _ _).trans ?_
  rw [abs_mul, abs_mul, abs_of_pos dp]
  have h1 : |Real.exp r - (1 + r * P)| * Dn ≤ 1 / 2 ^ 66 * |r| * 7.11 := mul_le_mul hb3 (d1.trans (by norm_num)) dp.le (by positivity)
  have h2 : |P * Dn + -6| ≤ 2 / 2 ^ 60 := by
    refine le_trans (le_of_eq ?_) he
    congr 1; ring
  have h3 := mul_le_mul_of_nonneg_left h2 (abs_nonneg r)
  have h4 : 2 / 2 ^ 62 * |r| * 4.95 ≤ 2 / 2 ^ 62 * |r| * Dn := mul_le_mul_of_nonneg_left d0 (by positivity)
  have a0 := abs_nonneg r
  norm_num at h1 h3 h4 ⊢
  linarith

/-- a lower bound of `|exp r - 1|` -/
theorem lower {r : ℝ} (hr : |r| ≤ 0.3467) : 0.845 * |r| ≤ |Real.exp r - 1| := by
  obtain ⟨d0, d1⟩ := D_bd hr
  have ha := approx hr
  have dp : (0 : ℝ) < 6 - r * T r := by norm_num at d0; linarith
  have e1 : r - (r * (r * (r / 2) * W r) - r * (r / 2)) = 6 * r / (6 - r * T r) := by
    unfold W
    rw [eq_div_iff dp.ne']
    have : ∀ A : ℝ, A / (6 - r * T r) * (6 - r * T r) = A := fun A => div_mul_cancel₀ A dp.ne'
    have h := this (R r - T r)
    generalize (R r - T r) / (6 - r * T r) = w at *
    have e2 : (r - (r * (r * (r / 2) * w) - r * (r / 2))) * (6 - r * T r) = (r + r * (r / 2)) * (6 - r * T r) - r * (r * (r / 2)) * (w * (6 - r * T r)) := by ring
    rw [e2, h]
    unfold T
    ring
  rw [e1] at ha
  have h1 : 0.84501 * |r| ≤ |6 * r / (6 - r * T r)| := by
    rw [abs_div, abs_of_pos dp, le_div_iff₀ dp, abs_mul]
    have := mul_le_mul_of_nonneg_left d1 (show 0 ≤ 0.84501 * |r| by positivity)
    have a0 := abs_nonneg r
    norm_num at this ⊢
    linarith
  have h2 := abs_sub_abs_le_abs_sub (6 * r / (6 - r * T r)) (Real.exp r - 1)
  have a0 := abs_nonneg r
  norm_num at ha h1 ⊢
  linarith
end Expm1

namespace Expm1f
theorem ln2hi_val : ln2hi.val = (90851 : ℝ) * 2 ^ (-17 : ℤ) := by
  rw [val_const32 (x := ln2hi) (90851) 132 (-17) (by decide +kernel) (by norm_num)]; norm_num
theorem ln2lo_val : ln2lo.val = (9959377 : ℝ) * 2 ^ (-40 : ℤ) := by
  rw [val_const32 (x := ln2lo) (9959377) 109 (-40) (by decide +kernel) (by norm_num)]; norm_num
theorem invln2_val : invln2.val = (12102203 : ℝ) * 2 ^ (-23 : ℤ) := by
  rw [val_const32 (x := invln2) (12102203) 126 (-23) (by decide +kernel) (by norm_num)]; norm_num
theorem q1_val : q1.val = (-1118477 : ℝ) * 2 ^ (-25 : ℤ) := by
  rw [val_const32 (x := q1) (-1118477) 124 (-25) (by decide +kernel) (by norm_num)]; norm_num
theorem q2_val : q2.val = (848641 : ℝ) * 2 ^ (-29 : ℤ) := by
  rw [val_const32 (x := q2) (848641) 120 (-29) (by decide +kernel) (by norm_num)]; norm_num
/-- `1, q1 …` of expm1f.rs, the coefficients of `r1` in `hxs` -/
def poly : List ℚ := [1, -1118477 / 2 ^ 25, 848641 / 2 ^ 29]
/-- the same in `r`, with `hxs = r²/2` -/
def rpoly : List ℚ := [1, 0, -1118477 / 2 ^ 25 / 2 ^ 1, 0, 848641 / 2 ^ 29 / 2 ^ 2]
/-- `6 - r t` with `t = 3 - r1 r / 2` -/
def dpoly : List ℚ := Poly.add [6, -3] (0 :: 0 :: Poly.smul (1 / 2) rpoly)
/-- the Taylor polynomial of `(exp r - 1) / r` -/
def taylor : List ℚ := (List.range 10).map fun i => 1 / ((i + 1).factorial : ℚ)
/-- numerator of the relative error -/
def errPoly : List ℚ := Poly.add (Poly.mul taylor dpoly) [-6]

theorem err_check : Poly.check errPoly (-3477 / 10000) (3477 / 640000) (2 / 2 ^ 29) 64 = true := by decide +kernel

theorem rpoly_ev (r : ℝ) : Poly.ev rpoly r = Poly.ev poly (r ^ 2 / 2) := by
  simp only [rpoly, poly, Poly.ev]
  push_cast
  ring

/-- `r1` -/
noncomputable def R (r : ℝ) : ℝ := Poly.ev poly (r ^ 2 / 2)
/-- `t` -/
noncomputable def T (r : ℝ) : ℝ := 3 - R r * (r / 2)
/-- the quotient -/
noncomputable def W (r : ℝ) : ℝ := (R r - T r) / (6 - r * T r)

theorem dpoly_ev (r : ℝ) : Poly.ev dpoly r = 6 - r * T r := by
  rw [dpoly, Poly.ev_add]
  simp only [Poly.ev, Poly.ev_smul, rpoly_ev]
  unfold T R
  push_cast
  ring

theorem R_bd {r : ℝ} (hr : |r| ≤ 0.3477) : 0.99 ≤ R r ∧ R r ≤ 1 := by
  have hz : r ^ 2 / 2 ≤ 0.0605 := by
    have : |r| ^ 2 ≤ 0.3477 ^ 2 := pow_le_pow_left₀ (abs_nonneg _) hr 2
    rw [sq_abs] at this; norm_num at this ⊢; linarith
  have z0 : 0 ≤ r ^ 2 / 2 := by positivity
  have hc : Poly.check (Poly.add (List.tail poly) [167 / 10000]) 0 (0605 / 20000) (167 / 10000) 1 = true := by decide +kernel
  have := Poly.bound hc (by norm_num) (by norm_num) (r ^ 2 / 2) (by simpa using z0) (by push_cast; norm_num; norm_num at hz; linarith)
  unfold R
  generalize r ^ 2 / 2 = z at *
  have e : Poly.ev poly z = 1 + z * Poly.ev (List.tail poly) z := by
    simp only [poly, List.tail, Poly.ev]; push_cast; ring
  rw [e]
  rw [Poly.ev_add] at this
  generalize Poly.ev (List.tail poly) z = q at *
  simp only [Poly.ev] at this
  push_cast at this
  have := abs_le.1 this
  norm_num at this hz ⊢
  have h1 : q ≤ 0 := by linarith [this.2]
  have h2 : -167 / 5000 ≤ q := by linarith [this.1]
  constructor
  · have := mul_le_mul hz (neg_le_neg h2) (by linarith) (by norm_num)
    linarith
  · have := mul_nonneg z0 (neg_nonneg.2 h1)
    linarith

theorem D_bd {r : ℝ} (hr : |r| ≤ 0.3477) : 4.95 ≤ 6 - r * T r ∧ 6 - r * T r ≤ 7.104 := by
  obtain ⟨a, b⟩ := R_bd hr
  have hr2 := abs_le.1 hr
  have e : 6 - r * T r = 6 - 3 * r + R r * (r ^ 2 / 2) := by unfold T; ring
  have hz : r ^ 2 / 2 ≤ 0.0605 := by
    have : |r| ^ 2 ≤ 0.3477 ^ 2 := pow_le_pow_left₀ (abs_nonneg _) hr 2
    rw [sq_abs] at this; norm_num at this ⊢; linarith
  have z0 : 0 ≤ r ^ 2 / 2 := by positivity
  have h1 := mul_nonneg (show 0 ≤ R r by norm_num at a; linarith) z0
  have h2 : R r * (r ^ 2 / 2) ≤ 1 * 0.0605 := mul_le_mul b hz z0 (by norm_num)
  rw [e]
  generalize R r * (r ^ 2 / 2) = q at *
  norm_num at hr2 h2 ⊢
  constructor <;> linarith [hr2.1, hr2.2]

/-- the approximation of `exp r - 1` with exact arithmetic -/
theorem approx {r : ℝ} (hr : |r| ≤ 0.3477) :
    |r - (r * (r * (r / 2) * W r) - r * (r / 2)) - (Real.exp r - 1)| ≤ 1 / 2 ^ 30 * |r| := by
  have hr2 := abs_le.1 hr
  obtain ⟨d0, d1⟩ := D_bd hr
  have he := Poly.bound err_check (by norm_num) (by norm_num) r (by push_cast; norm_num at hr2 ⊢; linarith [hr2.1]) (by push_cast; norm_num at hr2 ⊢; linarith [hr2.2])
  have ht : 1 + r * Poly.ev taylor r = ∑ i ∈ Finset.range 11, r ^ i / i.factorial := by
    rw [Finset.sum_range_succ', taylor, Poly.ev_map_range, Finset.mul_sum, add_comm]
    congr 1
    · refine Finset.sum_congr rfl fun i _ => ?_
      push_cast; ring
    · norm_num
  have hb := Real.exp_bound (x := r) (by norm_num at hr ⊢; linarith) (n := 11) (by norm_num)
  rw [← ht] at hb
  have hb2 : |r| ^ 11 * ((Nat.succ 11 : ℕ) / ((Nat.factorial 11 : ℕ) * (11 : ℕ)) : ℝ) ≤ 1 / 2 ^ 36 * |r| := by
    have h1 : |r| ^ 10 ≤ 0.3477 ^ 10 := pow_le_pow_left₀ (abs_nonneg _) hr 10
    have h2 : |r| ^ 11 = |r| ^ 10 * |r| := by ring
    rw [h2, mul_right_comm]
    refine mul_le_mul_of_nonneg_right ?_ (abs_nonneg _)
    refine (mul_le_mul_of_nonneg_right h1 (by positivity)).trans ?_
    norm_num [Nat.factorial]
  have hb3 := hb.trans hb2
  rw [errPoly, Poly.ev_add, Poly.ev_mul, dpoly_ev] at he
  simp only [Poly.ev] at he
  push_cast at he
  have dp : (0 : ℝ) < 6 - r * T r := by norm_num at d0; linarith
  have e1 : r - (r * (r * (r / 2) * W r) - r * (r / 2)) = 6 * r / (6 - r * T r) := by
    unfold W
    rw [eq_div_iff dp.ne']
    have : ∀ A : ℝ, A / (6 - r * T r) * (6 - r * T r) = A := fun A => div_mul_cancel₀ A dp.ne'
    have h := this (R r - T r)
    generalize (R r - T r) / (6 - r * T r) = w at *
    have e2 : (r - (r * (r * (r / 2) * w) - r * (r / 2))) * (6 - r * T r) = (r + r * (r / 2)) * (6 - r * T r) - r * (r * (r / 2)) * (w * (6 - r * T r)) := by ring
    rw [e2, h]
    unfold T
    ring
  rw [e1]
  set Dn := 6 - r * T r
  set P := Poly.ev taylor r
  have e3 : 6 * r / Dn - (Real.exp r - 1) = -(r * (P * Dn + -6) + (Real.exp r - (1 + r * P)) * Dn) / Dn := by
    rw [eq_div_iff dp.ne', sub_mul, div_mul_cancel₀ _ dp.ne']; ring
  rw [e3, abs_div, abs_neg, abs_of_pos dp, div_le_iff₀ dp]
  refine (abs_add_le _ _).trans ?_
  rw [abs_mul, abs_mul, abs_of_pos dp]
  have h1 : |Real.exp r - (1 + r * P)| * Dn ≤ 1 / 2 ^ 36 * |r| * 7.11 := mul_le_mul hb3 (d1.trans (by norm_num)) dp.le (by positivity)
  have h2 : |P * Dn + -6| ≤ 2 / 2 ^ 29 := by
    refine le_trans (le_of_eq ?_) he
    congr 1; ring
  have h3 := mul_le_mul_of_nonneg_left h2 (abs_nonneg r)
  have h4 : 1 / 2 ^ 30 * |r| * 4.95 ≤ 1 / 2 ^ 30 * |r| * Dn := mul_le_mul_of_nonneg_left d0 (by positivity)
  have a0 := abs_nonneg r
  norm_num at h1 h3 h4 ⊢
  linarith

/-- a lower bound of `|exp r - 1|` -/
theorem lower {r : ℝ} (hr : |r| ≤ 0.3477) : 0.8445 * |r| ≤ |Real.exp r - 1| := by
  obtain ⟨d0, d1⟩ := D_bd hr
  have ha := approx hr
  have dp : (0 : ℝ) < 6 - r * T r := by norm_num at d0; linarith
  have e1 : r - (r * (r * (r / 2) * W r) - r * (r / 2)) = 6 * r / (6 - r * T r) := by
    unfold W
    rw [eq_div_iff dp.ne']
    have : ∀ A : ℝ, A / (6 - r * T r) * (6 - r * T r) = A := fun A => div_mul_cancel₀ A dp.ne'
    have h := this (R r - T r)
    generalize (R r - T r) / (6 - r * T r) = w at *
    have e2 : (r - (r * (r * (r / 2) * w) - r * (r / 2))) * (6 - r * T r) = (r + r * (r / 2)) * (6 - r * T r) - r * (r * (r / 2)) * (w * (6 - r * T r)) := by ring
    rw [e2, h]
    unfold T
    ring
  rw [e1] at ha
  have h1 : 0.84458 * |r| ≤ |6 * r / (6 - r * T r)| := by
    rw [abs_div, abs_of_pos dp, le_div_iff₀ dp, abs_mul]
    have := mul_le_mul_of_nonneg_left d1 (show 0 ≤ 0.84458 * |r| by positivity)
    have a0 := abs_nonneg r
    norm_num at this ⊢
    linarith
  have h2 := abs_sub_abs_le_abs_sub (6 * r / (6 - r * T r)) (Real.exp r - 1)
  have a0 := abs_nonneg r
  norm_num at ha h1 ⊢
  linarith
end Expm1f

end Verif
