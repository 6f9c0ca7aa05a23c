import Verif.Theory.Expm1Real
import Verif.Theory.TanBig
import Verif.Theory.As32
import Verif.Theory.Ap32

/-!
# `expm1`, `expm1f`: the kernel in floating point
-/

namespace Verif
open Flt

namespace Expm1
theorem half_val' : (0.5 : Flt f64).val = 1 / 2 := by
  rw [val_const64 1 1073 (-1) (by decide +kernel) (by norm_num)]; norm_num
theorem one_val : (1.0 : Flt f64).val = 1 := by
  rw [val_const64 1 1074 0 (by decide +kernel) (by norm_num)]; norm_num
theorem three_val : (3.0 : Flt f64).val = 3 := by
  rw [val_const64 3 1074 0 (by decide +kernel) (by norm_num)]; norm_num
theorem six_val : (6.0 : Flt f64).val = 6 := by
  rw [val_const64 3 1075 1 (by decide +kernel) (by norm_num)]; norm_num

theorem half_ap {x : Flt f64} (xf : x.isFinite) (bx : |x.val| ≤ 1) : (0.5 * x).isFinite ∧ |(0.5 * x).val - x.val / 2| ≤ (1 / 2 ^ 150) ∧ (2 ^ (-100 : ℤ) ≤ |x.val| → (0.5 * x).val = x.val / 2) := by
  by_cases h : 2 ^ (-100 : ℤ) ≤ |x.val|
  · obtain ⟨a, b⟩ := Log.half_exact xf bx (Or.inr h)
    exact ⟨a, by rw [b, sub_self, abs_zero]; norm_num, fun _ => b⟩
  · refine ⟨?_, ?_, fun h' => absurd h' h⟩
    all_goals
      rw [not_le] at h
      have m := mul_rne (x := (0.5 : Flt f64)) (by decide +kernel) xf
      rw [half_val'] at m
      have hq : |1 / 2 * x.val| ≤ 2 ^ (-101 : ℤ) := by
        rw [abs_mul, abs_of_pos (by norm_num)]
        norm_num at h ⊢; linarith
      obtain ⟨a, b⟩ := m.err64 (-101) hq (by norm_num) (by norm_num)
    · exact a
    · rw [show x.val / 2 = 1 / 2 * x.val by ring]; exact b.trans (by norm_num)

/-- `hxs` -/
noncomputable def hxs (x : Flt f64) : Flt f64 := x * (0.5 * x)
/-- `r1` -/
noncomputable def r1 (x : Flt f64) : Flt f64 := 1.0 + hxs x * (q1 + hxs x * (q2 + hxs x * (q3 + hxs x * (q4 + hxs x * q5))))
/-- `t` -/
noncomputable def tt (x : Flt f64) : Flt f64 := 3.0 - r1 x * (0.5 * x)
/-- the quotient in `e` -/
noncomputable def quo (x : Flt f64) : Flt f64 := (r1 x - tt x) / (6.0 - x * tt x)

theorem h_ap {x : Flt f64} (xf : x.isFinite) (bx : |x.val| ≤ (355 / 2 ^ 10)) : Ap (0.5 * x) (x.val / 2) (1 / 2 ^ 150) (355 / 2 ^ 11) := by
  obtain ⟨a, b, c⟩ := half_ap xf (bx.trans (by norm_num))
  refine ⟨a, b, ?_⟩
  by_cases h : 2 ^ (-100 : ℤ) ≤ |x.val|
  · rw [c h, abs_div, abs_two]; norm_num at bx ⊢; linarith
  · have := abs_sub_abs_le_abs_sub (0.5 * x).val (x.val / 2)
    rw [abs_div, abs_two] at this
    norm_num at h b ⊢; linarith

theorem z_ap {x : Flt f64} (xf : x.isFinite) (bx : |x.val| ≤ (355 / 2 ^ 10)) : Ap (hxs x) (x.val * (x.val / 2)) (4097 / 2 ^ 70) (7877 / 2 ^ 17) := by
  have hx : Ap x x.val 0 (355 / 2 ^ 10) := .exact xf rfl bx
  have hh := h_ap xf bx
  have hz := Ap.mul hx hh (-4) (by norm_num) (by norm_num) (by norm_num) (g := (4097 / 2 ^ 70)) (D := (7877 / 2 ^ 17)) (by norm_num) (by norm_num)
  exact hz

theorem R_eq (v : ℝ) : R v = 1 + v * (v / 2) * (q1.val + (v * (v / 2)) * (q2.val + (v * (v / 2)) * (q3.val + (v * (v / 2)) * (q4.val + (v * (v / 2)) * q5.val)))) := by
  unfold R
  simp only [poly, Poly.ev, q1_val, q2_val, q3_val, q4_val, q5_val]
  push_cast
  norm_num
  ring

set_option maxHeartbeats 1000000 in
theorem W_ap {x : Flt f64} (xf : x.isFinite) (bx : |x.val| ≤ (355 / 2 ^ 10)) : Ap (quo x) (W x.val) (4249 / 2 ^ 64) (385 / 2 ^ 10) := by
  have hx : Ap x x.val 0 (355 / 2 ^ 10) := .exact xf rfl bx
  have hh := h_ap xf bx
  have hz := z_ap xf bx
  have bx' : |x.val| ≤ 0.3467 := bx.trans (by norm_num)
  have hq1 : Ap q1 q1.val 0 (2185 / 2 ^ 16) := .exact (by decide +kernel) rfl (by rw [q1_val, abs_le]; constructor <;> norm_num)
  have hq2 : Ap q2 q2.val 0 (3329 / 2 ^ 21) := .exact (by decide +kernel) rfl (by rw [q2_val, abs_le]; constructor <;> norm_num)
  have hq3 : Ap q3 q3.val 0 (5327 / 2 ^ 26) := .exact (by decide +kernel) rfl (by rw [q3_val, abs_le]; constructor <;> norm_num)
  have hq4 : Ap q4 q4.val 0 (269 / 2 ^ 26) := .exact (by decide +kernel) rfl (by rw [q4_val, abs_le]; constructor <;> norm_num)
  have hq5 : Ap q5 q5.val 0 (3455 / 2 ^ 34) := .exact (by decide +kernel) rfl (by rw [q5_val, abs_le]; constructor <;> norm_num)
  have hone : Ap (1.0 : Flt f64) (1.0 : Flt f64).val 0 1 := .exact (by decide +kernel) rfl (by rw [one_val, abs_le]; constructor <;> norm_num)
  have hthree : Ap (3.0 : Flt f64) (3.0 : Flt f64).val 0 3 := .exact (by decide +kernel) rfl (by rw [three_val, abs_le]; constructor <;> norm_num)
  have hsix : Ap (6.0 : Flt f64) (6.0 : Flt f64).val 0 6 := .exact (by decide +kernel) rfl (by rw [six_val, abs_le]; constructor <;> norm_num)
  have ha5 := Ap.mul hz hq5 (-26) (by norm_num) (by norm_num) (by norm_num) (g := (59 / 2 ^ 85)) (D := (6645 / 2 ^ 39)) (by norm_num) (by norm_num)
  have hb4 := Ap.add hq4 ha5 (-17) (by norm_num) (by norm_num) (g := (4111 / 2 ^ 83)) (D := (4317 / 2 ^ 30)) (by norm_num) (by norm_num)
  have ha4 := Ap.mul hz hb4 (-21) (by norm_num) (by norm_num) (by norm_num) (g := (319 / 2 ^ 82)) (D := (519 / 2 ^ 31)) (by norm_num) (by norm_num)
  have hb3 := Ap.add hq3 ha4 (-13) (by norm_num) (by norm_num) (g := (517 / 2 ^ 76)) (D := (167 / 2 ^ 21)) (by norm_num) (by norm_num)
  have ha3 := Ap.mul hz hb3 (-17) (by norm_num) (by norm_num) (by norm_num) (g := (5373 / 2 ^ 82)) (D := (5139 / 2 ^ 30)) (by norm_num) (by norm_num)
  have hb2 := Ap.add hq2 ha3 (-9) (by norm_num) (by norm_num) (g := (2069 / 2 ^ 74)) (D := (6679 / 2 ^ 22)) (by norm_num) (by norm_num)
  have ha2 := Ap.mul hz hb2 (-13) (by norm_num) (by norm_num) (by norm_num) (g := (1427 / 2 ^ 76)) (D := (6423 / 2 ^ 26)) (by norm_num) (by norm_num)
  have hb1 := Ap.add hq1 ha2 (-4) (by norm_num) (by norm_num) (g := (4119 / 2 ^ 70)) (D := (4383 / 2 ^ 17)) (by norm_num) (by norm_num)
  have ha1 := Ap.mul hz hb1 (-8) (by norm_num) (by norm_num) (by norm_num) (g := (5125 / 2 ^ 73)) (D := (4215 / 2 ^ 21)) (by norm_num) (by norm_num)
  have hr := Ap.add hone ha1 (1) (by norm_num) (by norm_num) (g := (4117 / 2 ^ 65)) (D := (4105 / 2 ^ 12)) (by norm_num) (by norm_num)
  replace hr : Ap (r1 x) (R x.val) (4117 / 2 ^ 65) (4105 / 2 ^ 12) := by
    rw [one_val] at hr; rw [R_eq]; exact hr
  have hrh := Ap.mul hr hh (-2) (by norm_num) (by norm_num) (by norm_num) (g := (4903 / 2 ^ 67)) (D := (5693 / 2 ^ 15)) (by norm_num) (by norm_num)
  have ht := Ap.sub hthree hrh (2) (by norm_num) (by norm_num) (g := (4709 / 2 ^ 64)) (D := (1625 / 2 ^ 9)) (by norm_num) (by norm_num)
  replace ht : Ap (tt x) (T x.val) (4709 / 2 ^ 64) (1625 / 2 ^ 9) := by
    rw [three_val] at ht; exact ht
  have hn : Ap (r1 x - tt x) (R x.val - T x.val) (679 / 2 ^ 60) (2249 / 2 ^ 10) := by
    have h1 := abs_le.1 hr.err
    have h2 := abs_le.1 hr.bd
    have h3 := abs_le.1 ht.err
    have h4 := abs_le.1 ht.bd
    obtain ⟨r1a, r1b⟩ := R_bd bx'
    have hT : 2.8 ≤ T x.val := by
      have := abs_le.1 bx'
      have h := mul_le_mul_of_nonneg_left (show x.val / 2 ≤ 0.174 by norm_num at this ⊢; linarith [this.2]) (show 0 ≤ R x.val by norm_num at r1a; linarith)
      have h' := mul_le_mul_of_nonneg_right r1b (show (0:ℝ) ≤ 0.174 by norm_num)
      unfold T; norm_num at h h' ⊢; linarith
    norm_num at h1 h2 h3 h4 r1a hT
    obtain ⟨nf, ne⟩ := sub_err64 hr.fin ht.fin 2 (by rw [abs_le]; norm_num; constructor <;> linarith [h1.1, h1.2, h2.1, h2.2, h3.1, h3.2, h4.1, h4.2]) (by norm_num)
    have ne2 := abs_le.1 ne
    norm_num at ne2
    refine ⟨nf, ?_, ?_⟩
    · rw [abs_le]; norm_num; constructor <;> linarith [h1.1, h1.2, h3.1, h3.2, ne2.1, ne2.2]
    · rw [abs_le]; norm_num; constructor <;> linarith [h1.1, h1.2, h2.1, h2.2, h3.1, h3.2, h4.1, h4.2, ne2.1, ne2.2]
  have hxt := Ap.mul hx ht (1) (by norm_num) (by norm_num) (by norm_num) (g := (3681 / 2 ^ 64)) (D := (4507 / 2 ^ 12)) (by norm_num) (by norm_num)
  have hd := Ap.sub hsix hxt (3) (by norm_num) (by norm_num) (g := (5937 / 2 ^ 63)) (D := (7271 / 2 ^ 10)) (by norm_num) (by norm_num)
  replace hd : Ap (6.0 - x * tt x) (6 - x.val * T x.val) (5937 / 2 ^ 63) (7271 / 2 ^ 10) := by
    rw [six_val] at hd; exact hd
  have hL : ((39 / 2 ^ 3) : ℝ) ≤ |(6.0 - x * tt x).val| := by
    have h1 := (D_bd bx').1
    have h2 := abs_le.1 hd.err
    refine le_trans ?_ (le_abs_self _)
    norm_num at h1 h2 ⊢
    linarith [h2.1, h2.2]
  have hw := (As64.div one_lo le_rfl hn.as hd.as (39 / 2 ^ 3) hL (by norm_num) (by norm_num) (by norm_num) (by norm_num) (by norm_num) (g := (4249 / 2 ^ 64)) (D := (3691 / 2 ^ 13)) (by norm_num) (by norm_num)).ap
  refine ⟨hw.fin, hw.err, ?_⟩
  have hWb : |W x.val| ≤ 3 / 8 := by
    obtain ⟨d0, d1⟩ := D_bd bx'
    obtain ⟨a, b⟩ := R_bd bx'
    have dp : (0 : ℝ) < 6 - x.val * T x.val := by norm_num at d0; linarith
    unfold W
    rw [abs_div, abs_of_pos dp, div_le_iff₀ dp]
    have hb := abs_le.1 bx'
    have e1 : R x.val - T x.val = R x.val * (1 + x.val / 2) - 3 := by unfold T; ring
    have e2 : 6 - x.val * T x.val = 6 - 3 * x.val + R x.val * (x.val ^ 2 / 2) := by unfold T; ring
    have z0 := mul_nonneg (show 0 ≤ R x.val by norm_num at a; linarith) (show 0 ≤ x.val ^ 2 / 2 by positivity)
    have h1 := mul_le_mul_of_nonneg_right a (show 0 ≤ 1 + x.val / 2 by norm_num at hb; linarith [hb.1])
    have h2 := mul_le_mul_of_nonneg_right b (show 0 ≤ 1 + x.val / 2 by norm_num at hb; linarith [hb.1])
    rw [e1, e2]
    generalize R x.val * (1 + x.val / 2) = P at *
    generalize R x.val * (x.val ^ 2 / 2) = P' at *
    norm_num at hb h1 h2
    rw [abs_le]
    constructor <;> linarith [hb.1, hb.2]
  have h1 := abs_sub_abs_le_abs_sub (quo x).val (W x.val)
  have h2 : |(quo x).val - W x.val| ≤ _ := hw.err
  norm_num at h1 h2 hWb ⊢
  linarith

/-- the correction `e` before the split on `k` -/
noncomputable def ee (x c : Flt f64) : Flt f64 := x * (hxs x * quo x - c) - c - hxs x

theorem ee_ap {x c : Flt f64} (xf : x.isFinite) (bx : |x.val| ≤ (355 / 2 ^ 10)) (cf : c.isFinite) (bc : |c.val| ≤ (1 / 2 ^ 54)) :
    Ap (ee x c) (x.val * (x.val * (x.val / 2) * W x.val - c.val) - c.val - x.val * (x.val / 2)) (2745 / 2 ^ 67) (4453 / 2 ^ 16) := by
  have hx : Ap x x.val 0 (355 / 2 ^ 10) := .exact xf rfl bx
  have hc : Ap c c.val 0 (1 / 2 ^ 54) := .exact cf rfl bc
  have hz := z_ap xf bx
  have hW := W_ap xf bx
  have he1 := Ap.mul hz hW (-5) (by norm_num) (by norm_num) (by norm_num) (g := (4983 / 2 ^ 68)) (D := (1481 / 2 ^ 16)) (by norm_num) (by norm_num)
  have he2 := Ap.sub he1 hc (-5) (by norm_num) (by norm_num) (g := (5495 / 2 ^ 68)) (D := (5925 / 2 ^ 18)) (by norm_num) (by norm_num)
  have he3 := Ap.mul hx he2 (-6) (by norm_num) (by norm_num) (by norm_num) (g := (4323 / 2 ^ 69)) (D := (4109 / 2 ^ 19)) (by norm_num) (by norm_num)
  have he4 := Ap.sub he3 hc (-6) (by norm_num) (by norm_num) (g := (4835 / 2 ^ 69)) (D := (2055 / 2 ^ 18)) (by norm_num) (by norm_num)
  have he5 := Ap.sub he4 hz (-3) (by norm_num) (by norm_num) (g := (2745 / 2 ^ 67)) (D := (4453 / 2 ^ 16)) (by norm_num) (by norm_num)
  exact he5

/-- the subtrahend when there is no reduction, relative to the argument -/
theorem s_rel {x : Flt f64} (xf : x.isFinite) (bx : |x.val| ≤ (355 / 2 ^ 10)) (h0 : 2 ^ (-900 : ℤ) ≤ |x.val|) :
    (x * (hxs x * quo x) - hxs x).isFinite ∧
      |(x * (hxs x * quo x) - hxs x).val - (x.val * (x.val * (x.val / 2) * W x.val) - x.val * (x.val / 2))| ≤ (17825 / 2 ^ 68) * |x.val| := by
  have t0 : 0 ≤ |x.val| := abs_nonneg _
  have t1 : |x.val| ≤ 1 := bx.trans (by norm_num)
  have hx : As |x.val| x x.val 0 1 := .exact xf rfl (by rw [one_mul])
  have hz := z_ap xf bx
  have hW := W_ap xf bx
  have he1 := Ap.mul hz hW (-5) (by norm_num) (by norm_num) (by norm_num) (g := (4983 / 2 ^ 68)) (D := (1481 / 2 ^ 16)) (by norm_num) (by norm_num)
  have hzr := As64.mul h0 t1 hx (h_ap xf bx).as (by norm_num) (by norm_num) (by norm_num) (by norm_num) (g := (22721 / 2 ^ 70)) (D := (22721 / 2 ^ 17)) (by norm_num) (by norm_num)
  have hxr := As64.mul h0 t1 hx he1.as (by norm_num) (by norm_num) (by norm_num) (by norm_num) (g := (22895 / 2 ^ 70)) (D := (23697 / 2 ^ 20)) (by norm_num) (by norm_num)
  have hs := As64.sub t0 t1 hxr hzr (by norm_num) (by norm_num) (g := (17825 / 2 ^ 68)) (D := (6421 / 2 ^ 15)) (by norm_num) (by norm_num)
  exact ⟨hs.fin, hs.err⟩
end Expm1

namespace Expm1f
theorem half_val' : (0.5 : Flt f32).val = 1 / 2 := by
  rw [val_const32 1 148 (-1) (by decide +kernel) (by norm_num)]; norm_num
theorem one_val : (1.0 : Flt f32).val = 1 := by
  rw [val_const32 1 149 0 (by decide +kernel) (by norm_num)]; norm_num
theorem three_val : (3.0 : Flt f32).val = 3 := by
  rw [val_const32 3 149 0 (by decide +kernel) (by norm_num)]; norm_num
theorem six_val : (6.0 : Flt f32).val = 6 := by
  rw [val_const32 3 150 1 (by decide +kernel) (by norm_num)]; norm_num

theorem half_ap {x : Flt f32} (xf : x.isFinite) (bx : |x.val| ≤ 1) : (0.5 * x).isFinite ∧ |(0.5 * x).val - x.val / 2| ≤ (1 / 2 ^ 120) ∧ (2 ^ (-100 : ℤ) ≤ |x.val| → (0.5 * x).val = x.val / 2) := by
  by_cases h : 2 ^ (-100 : ℤ) ≤ |x.val|
  · obtain ⟨a, b⟩ := Logf.half_exact xf bx (Or.inr h)
    exact ⟨a, by rw [b, sub_self, abs_zero]; norm_num, fun _ => b⟩
  · refine ⟨?_, ?_, fun h' => absurd h' h⟩
    all_goals
      rw [not_le] at h
      have m := mul_rne (x := (0.5 : Flt f32)) (by decide +kernel) xf
      rw [half_val'] at m
      have hq : |1 / 2 * x.val| ≤ 2 ^ (-101 : ℤ) := by
        rw [abs_mul, abs_of_pos (by norm_num)]
        norm_num at h ⊢; linarith
      obtain ⟨a, b⟩ := m.err32 (-101) hq (by norm_num) (by norm_num)
    · exact a
    · rw [show x.val / 2 = 1 / 2 * x.val by ring]; exact b.trans (by norm_num)

/-- `hxs` -/
noncomputable def hxs (x : Flt f32) : Flt f32 := x * (0.5 * x)
/-- `r1` -/
noncomputable def r1 (x : Flt f32) : Flt f32 := 1.0 + hxs x * (q1 + hxs x * q2)
/-- `t` -/
noncomputable def tt (x : Flt f32) : Flt f32 := 3.0 - r1 x * (0.5 * x)
/-- the quotient in `e` -/
noncomputable def quo (x : Flt f32) : Flt f32 := (r1 x - tt x) / (6.0 - x * tt x)

theorem h_ap {x : Flt f32} (xf : x.isFinite) (bx : |x.val| ≤ (89 / 2 ^ 8)) : Ap32 (0.5 * x) (x.val / 2) (1 / 2 ^ 120) (89 / 2 ^ 9) := by
  obtain ⟨a, b, c⟩ := half_ap xf (bx.trans (by norm_num))
  refine ⟨a, b, ?_⟩
  by_cases h : 2 ^ (-100 : ℤ) ≤ |x.val|
  · rw [c h, abs_div, abs_two]; norm_num at bx ⊢; linarith
  · have := abs_sub_abs_le_abs_sub (0.5 * x).val (x.val / 2)
    rw [abs_div, abs_two] at this
    norm_num at h b ⊢; linarith

theorem z_ap {x : Flt f32} (xf : x.isFinite) (bx : |x.val| ≤ (89 / 2 ^ 8)) : Ap32 (hxs x) (x.val * (x.val / 2)) (4097 / 2 ^ 41) (3961 / 2 ^ 16) := by
  have hx : Ap32 x x.val 0 (89 / 2 ^ 8) := .exact xf rfl bx
  have hh := h_ap xf bx
  have hz := Ap32.mul hx hh (-4) (by norm_num) (by norm_num) (by norm_num) (g := (4097 / 2 ^ 41)) (D := (3961 / 2 ^ 16)) (by norm_num) (by norm_num)
  exact hz

theorem R_eq (v : ℝ) : R v = 1 + v * (v / 2) * (q1.val + (v * (v / 2)) * q2.val) := by
  unfold R
  simp only [poly, Poly.ev, q1_val, q2_val]
  push_cast
  norm_num
  ring

set_option maxHeartbeats 1000000 in
theorem W_ap {x : Flt f32} (xf : x.isFinite) (bx : |x.val| ≤ (89 / 2 ^ 8)) : Ap32 (quo x) (W x.val) (2125 / 2 ^ 34) (385 / 2 ^ 10) := by
  have hx : Ap32 x x.val 0 (89 / 2 ^ 8) := .exact xf rfl bx
  have hh := h_ap xf bx
  have hz := z_ap xf bx
  have bx' : |x.val| ≤ 0.3477 := bx.trans (by norm_num)
  have hq1 : Ap32 q1 q1.val 0 (2185 / 2 ^ 16) := .exact (by decide +kernel) rfl (by rw [q1_val, abs_le]; constructor <;> norm_num)
  have hq2 : Ap32 q2 q2.val 0 (6631 / 2 ^ 22) := .exact (by decide +kernel) rfl (by rw [q2_val, abs_le]; constructor <;> norm_num)
  have hone : Ap32 (1.0 : Flt f32) (1.0 : Flt f32).val 0 1 := .exact (by decide +kernel) rfl (by rw [one_val, abs_le]; constructor <;> norm_num)
  have hthree : Ap32 (3.0 : Flt f32) (3.0 : Flt f32).val 0 3 := .exact (by decide +kernel) rfl (by rw [three_val, abs_le]; constructor <;> norm_num)
  have hsix : Ap32 (6.0 : Flt f32) (6.0 : Flt f32).val 0 6 := .exact (by decide +kernel) rfl (by rw [six_val, abs_le]; constructor <;> norm_num)
  have ha2 := Ap32.mul hz hq2 (-13) (by norm_num) (by norm_num) (by norm_num) (g := (7413 / 2 ^ 50)) (D := (6413 / 2 ^ 26)) (by norm_num) (by norm_num)
  have hb1 := Ap32.add hq1 ha2 (-4) (by norm_num) (by norm_num) (g := (4111 / 2 ^ 41)) (D := (4383 / 2 ^ 17)) (by norm_num) (by norm_num)
  have ha1 := Ap32.mul hz hb1 (-8) (by norm_num) (by norm_num) (by norm_num) (g := (1283 / 2 ^ 42)) (D := (4239 / 2 ^ 21)) (by norm_num) (by norm_num)
  have hr := Ap32.add hone ha1 (1) (by norm_num) (by norm_num) (g := (4117 / 2 ^ 36)) (D := (4105 / 2 ^ 12)) (by norm_num) (by norm_num)
  replace hr : Ap32 (r1 x) (R x.val) (4117 / 2 ^ 36) (4105 / 2 ^ 12) := by
    rw [one_val] at hr; rw [R_eq]; exact hr
  have hrh := Ap32.mul hr hh (-2) (by norm_num) (by norm_num) (by norm_num) (g := (4911 / 2 ^ 38)) (D := (5709 / 2 ^ 15)) (by norm_num) (by norm_num)
  have ht := Ap32.sub hthree hrh (2) (by norm_num) (by norm_num) (g := (2355 / 2 ^ 34)) (D := (6501 / 2 ^ 11)) (by norm_num) (by norm_num)
  replace ht : Ap32 (tt x) (T x.val) (2355 / 2 ^ 34) (6501 / 2 ^ 11) := by
    rw [three_val] at ht; exact ht
  have hn : Ap32 (r1 x - tt x) (R x.val - T x.val) (5433 / 2 ^ 34) (2249 / 2 ^ 10) := by
    have h1 := abs_le.1 hr.err
    have h2 := abs_le.1 hr.bd
    have h3 := abs_le.1 ht.err
    have h4 := abs_le.1 ht.bd
    obtain ⟨r1a, r1b⟩ := R_bd bx'
    have hT : 2.8 ≤ T x.val := by
      have := abs_le.1 bx'
      have h := mul_le_mul_of_nonneg_left (show x.val / 2 ≤ 0.174 by norm_num at this ⊢; linarith [this.2]) (show 0 ≤ R x.val by norm_num at r1a; linarith)
      have h' := mul_le_mul_of_nonneg_right r1b (show (0:ℝ) ≤ 0.174 by norm_num)
      unfold T; norm_num at h h' ⊢; linarith
    norm_num at h1 h2 h3 h4 r1a hT
    obtain ⟨nf, ne⟩ := sub_err32 hr.fin ht.fin 2 (by rw [abs_le]; norm_num; constructor <;> linarith [h1.1, h1.2, h2.1, h2.2, h3.1, h3.2, h4.1, h4.2]) (by norm_num)
    have ne2 := abs_le.1 ne
    norm_num at ne2
    refine ⟨nf, ?_, ?_⟩
    · rw [abs_le]; norm_num; constructor <;> linarith [h1.1, h1.2, h3.1, h3.2, ne2.1, ne2.2]
    · rw [abs_le]; norm_num; constructor <;> linarith [h1.1, h1.2, h2.1, h2.2, h3.1, h3.2, h4.1, h4.2, ne2.1, ne2.2]
  have hxt := Ap32.mul hx ht (1) (by norm_num) (by norm_num) (by norm_num) (g := (7371 / 2 ^ 36)) (D := (4521 / 2 ^ 12)) (by norm_num) (by norm_num)
  have hd := Ap32.sub hsix hxt (3) (by norm_num) (by norm_num) (g := (5939 / 2 ^ 34)) (D := (7275 / 2 ^ 10)) (by norm_num) (by norm_num)
  replace hd : Ap32 (6.0 - x * tt x) (6 - x.val * T x.val) (5939 / 2 ^ 34) (7275 / 2 ^ 10) := by
    rw [six_val] at hd; exact hd
  have hL : ((39 / 2 ^ 3) : ℝ) ≤ |(6.0 - x * tt x).val| := by
    have h1 := (D_bd bx').1
    have h2 := abs_le.1 hd.err
    refine le_trans ?_ (le_abs_self _)
    norm_num at h1 h2 ⊢
    linarith [h2.1, h2.2]
  have hw := (As32.div one_lo32 le_rfl hn.as hd.as (39 / 2 ^ 3) hL (by norm_num) (by norm_num) (by norm_num) (by norm_num) (by norm_num) (g := (2125 / 2 ^ 34)) (D := (3691 / 2 ^ 13)) (by norm_num) (by norm_num)).ap32
  refine ⟨hw.fin, hw.err, ?_⟩
  have hWb : |W x.val| ≤ 3 / 8 := by
    obtain ⟨d0, d1⟩ := D_bd bx'
    obtain ⟨a, b⟩ := R_bd bx'
    have dp : (0 : ℝ) < 6 - x.val * T x.val := by norm_num at d0; linarith
    unfold W
    rw [abs_div, abs_of_pos dp, div_le_iff₀ dp]
    have hb := abs_le.1 bx'
    have e1 : R x.val - T x.val = R x.val * (1 + x.val / 2) - 3 := by unfold T; ring
    have e2 : 6 - x.val * T x.val = 6 - 3 * x.val + R x.val * (x.val ^ 2 / 2) := by unfold T; ring
    have z0 := mul_nonneg (show 0 ≤ R x.val by norm_num at a; linarith) (show 0 ≤ x.val ^ 2 / 2 by positivity)
    have h1 := mul_le_mul_of_nonneg_right a (show 0 ≤ 1 + x.val / 2 by norm_num at hb; linarith [hb.1])
    have h2 := mul_le_mul_of_nonneg_right b (show 0 ≤ 1 + x.val / 2 by norm_num at hb; linarith [hb.1])
    rw [e1, e2]
    generalize R x.val * (1 + x.val / 2) = P at *
    generalize R x.val * (x.val ^ 2 / 2) = P' at *
    norm_num at hb h1 h2
    rw [abs_le]
    constructor <;> linarith [hb.1, hb.2]
  have h1 := abs_sub_abs_le_abs_sub (quo x).val (W x.val)
  have h2 : |(quo x).val - W x.val| ≤ _ := hw.err
  norm_num at h1 h2 hWb ⊢
  linarith

/-- the correction `e` before the split on `k` -/
noncomputable def ee (x c : Flt f32) : Flt f32 := x * (hxs x * quo x - c) - c - hxs x

theorem ee_ap {x c : Flt f32} (xf : x.isFinite) (bx : |x.val| ≤ (89 / 2 ^ 8)) (cf : c.isFinite) (bc : |c.val| ≤ (1 / 2 ^ 25)) :
    Ap32 (ee x c) (x.val * (x.val * (x.val / 2) * W x.val - c.val) - c.val - x.val * (x.val / 2)) (43 / 2 ^ 32) (35 / 2 ^ 9) := by
  have hx : Ap32 x x.val 0 (89 / 2 ^ 8) := .exact xf rfl bx
  have hc : Ap32 c c.val 0 (1 / 2 ^ 25) := .exact cf rfl bc
  have hz := z_ap xf bx
  have hW := W_ap xf bx
  have he1 := Ap32.mul hz hW (-5) (by norm_num) (by norm_num) (by norm_num) (g := (313 / 2 ^ 35)) (D := (5957 / 2 ^ 18)) (by norm_num) (by norm_num)
  have he2 := Ap32.sub he1 hc (-5) (by norm_num) (by norm_num) (g := (345 / 2 ^ 35)) (D := (2979 / 2 ^ 17)) (by norm_num) (by norm_num)
  have he3 := Ap32.mul hx he2 (-6) (by norm_num) (by norm_num) (by norm_num) (g := (4351 / 2 ^ 40)) (D := (4143 / 2 ^ 19)) (by norm_num) (by norm_num)
  have he4 := Ap32.sub he3 hc (-6) (by norm_num) (by norm_num) (g := (4863 / 2 ^ 40)) (D := (259 / 2 ^ 15)) (by norm_num) (by norm_num)
  have he5 := Ap32.sub he4 hz (-3) (by norm_num) (by norm_num) (g := (43 / 2 ^ 32)) (D := (35 / 2 ^ 9)) (by norm_num) (by norm_num)
  exact he5

/-- the subtrahend when there is no reduction, relative to the argument -/
theorem s_rel {x : Flt f32} (xf : x.isFinite) (bx : |x.val| ≤ (89 / 2 ^ 8)) (h0 : 2 ^ (-40 : ℤ) ≤ |x.val|) :
    (x * (hxs x * quo x) - hxs x).isFinite ∧
      |(x * (hxs x * quo x) - hxs x).val - (x.val * (x.val * (x.val / 2) * W x.val) - x.val * (x.val / 2))| ≤ (8945 / 2 ^ 38) * |x.val| := by
  have t0 : 0 ≤ |x.val| := abs_nonneg _
  have t1 : |x.val| ≤ 1 := bx.trans (by norm_num)
  have hx : As |x.val| x x.val 0 1 := .exact xf rfl (by rw [one_mul])
  have hz := z_ap xf bx
  have hW := W_ap xf bx
  have he1 := Ap32.mul hz hW (-5) (by norm_num) (by norm_num) (by norm_num) (g := (313 / 2 ^ 35)) (D := (5957 / 2 ^ 18)) (by norm_num) (by norm_num)
  have hzr := As32.mul h0 t1 hx (h_ap xf bx).as (by norm_num) (by norm_num) (by norm_num) (by norm_num) (g := (22785 / 2 ^ 41)) (D := (22785 / 2 ^ 17)) (by norm_num) (by norm_num)
  have hxr := As32.mul h0 t1 hx he1.as (by norm_num) (by norm_num) (by norm_num) (by norm_num) (g := (23011 / 2 ^ 41)) (D := (23829 / 2 ^ 20)) (by norm_num) (by norm_num)
  have hs := As32.sub t0 t1 hxr hzr (by norm_num) (by norm_num) (g := (8945 / 2 ^ 38)) (D := (6441 / 2 ^ 15)) (by norm_num) (by norm_num)
  exact ⟨hs.fin, hs.err⟩
end Expm1f

end Verif
