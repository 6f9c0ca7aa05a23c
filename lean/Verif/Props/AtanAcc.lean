import Verif.Theory.AtanAcc

/-!
# `atan`, `atanf`: within one unit in the last place of the real arctangent
-/

namespace Verif
open Flt InvTrig

theorem WithinUlp.flip {F : Fmt} {c : ℝ} {r x : Flt F} {g : ℝ → ℝ} (hg : ∀ t, g (-t) = -g t) (h : WithinUlp c r (g |x.val|)) : WithinUlp c (flip x.sign r) (g x.val) := by
  unfold Flt.flip
  by_cases hs : x.sign = true
  · rw [if_pos hs]
    have hx : x.val ≤ 0 := val_nonpos hs
    have : g x.val = -g |x.val| := by rw [abs_of_nonpos hx, hg]; ring
    rw [this]
    exact h.neg
  · rw [if_neg hs]
    rw [abs_of_nonneg (val_nonneg (by simpa using hs))] at h
    exact h

theorem arctan_red0 {a : ℝ} (h : 0 ≤ a) : Real.arctan a = Real.arctan (1 / 2) + Real.arctan ((2 * a - 1) / (2 + a)) := by
  have e : (2 * a - 1) / (2 + a) = (a + -(1 / 2)) / (1 - a * -(1 / 2)) := by
    have h2 : (2 : ℝ) + a ≠ 0 := by linarith
    have h3 : (1 - a * -(1 / 2) : ℝ) ≠ 0 := by linarith
    rw [div_eq_div_iff h2 h3]; ring
  have := Real.arctan_add (x := a) (y := -(1 / 2)) (by linarith)
  rw [e, ← this, Real.arctan_neg]; ring
theorem arctan_red1 {a : ℝ} (h : 0 ≤ a) : Real.arctan a = Real.pi / 4 + Real.arctan ((a - 1) / (a + 1)) := by
  have e : (a - 1) / (a + 1) = (a + -1) / (1 - a * -1) := by
    have h2 : a + 1 ≠ 0 := by linarith
    have h3 : (1 - a * -1 : ℝ) ≠ 0 := by linarith
    rw [div_eq_div_iff h2 h3]; ring
  have := Real.arctan_add (x := a) (y := -1) (by linarith)
  rw [e, ← this, Real.arctan_neg, Real.arctan_one]; ring
theorem arctan_red2 {a : ℝ} (h : 0 ≤ a) : Real.arctan a = Real.arctan (3 / 2) + Real.arctan ((a - 1.5) / (1 + 1.5 * a)) := by
  have e : (a - 1.5) / (1 + 1.5 * a) = (a + -(3 / 2)) / (1 - a * -(3 / 2)) := by norm_num; field_simp; ring
  have := Real.arctan_add (x := a) (y := -(3 / 2)) (by linarith)
  rw [e, ← this, Real.arctan_neg]; ring
theorem arctan_red3 {a : ℝ} (h : 0 < a) : Real.arctan a = Real.pi / 2 + Real.arctan (-1 / a) := by
  have := Real.arctan_inv_of_pos h
  rw [neg_div, Real.arctan_neg, one_div, this]; ring

theorem abs_arctan_ge {t d : ℝ} (hd : 0 ≤ d) (h : d ≤ Real.arctan t) : d ≤ |Real.arctan t| := h.trans (le_abs_self _)

theorem arctan_half_bds : 0.4636 ≤ Real.arctan (1 / 2) ∧ Real.arctan (1 / 2) ≤ 0.4637 := by
  have a := abs_le.1 arctan_half_near
  norm_num at a ⊢
  constructor <;> linarith [a.1, a.2]
theorem arctan_th_bds : 0.98 ≤ Real.arctan (3 / 2) ∧ Real.arctan (3 / 2) ≤ 0.99 := by
  rw [arctan_three_halves]
  have a := abs_le.1 arctan_half_near
  have b := abs_le.1 arctan_eighth_near
  have p1 := Real.pi_gt_d20
  have p2 := Real.pi_lt_d20
  norm_num at a b p1 p2 ⊢
  constructor <;> linarith [a.1, a.2, b.1, b.2]
/-- lower bounds of the result at the ends of the pieces -/
theorem arctan_ge_a {a : ℝ} (h : 7 / 16 ≤ a) : 2 ^ (-2 : ℤ) ≤ |Real.arctan a| := by
  refine abs_arctan_ge (by positivity) (le_trans ?_ (Real.arctan_mono h))
  have := abs_le.1 (arctan_small (s := 7 / 16) (by norm_num [abs_of_pos]))
  rw [abs_of_pos (by norm_num)] at this
  norm_num at this ⊢
  linarith [this.1]
theorem arctan_ge_b {a : ℝ} (h : 0.56 ≤ a) : 2 ^ (-1 : ℤ) ≤ |Real.arctan a| := by
  refine abs_arctan_ge (by positivity) (le_trans ?_ (Real.arctan_mono h))
  have e := arctan_red0 (a := 0.56) (by norm_num)
  have := abs_le.1 (arctan_small (s := (2 * 0.56 - 1) / (2 + 0.56)) (by norm_num [abs_of_pos]))
  rw [e]
  have b := arctan_half_bds.1
  rw [abs_of_pos (by norm_num)] at this
  norm_num at this b ⊢
  linarith [this.1]
theorem arctan_ge_f {a : ℝ} (h : 1.6 ≤ a) : 2 ^ (0 : ℤ) ≤ |Real.arctan a| := by
  refine abs_arctan_ge (by positivity) (le_trans ?_ (Real.arctan_mono h))
  have e := arctan_red2 (a := 1.6) (by norm_num)
  have := abs_le.1 (arctan_small (s := (1.6 - 1.5) / (1 + 1.5 * 1.6)) (by norm_num [abs_of_pos]))
  rw [e]
  have b := arctan_th_bds.1
  rw [abs_of_pos (by norm_num)] at this
  norm_num at this b ⊢
  linarith [this.1]

namespace Atan
theorem thr0 : (bits64 0x3fdc000000000000).val = 7 / 16 := by
  rw [val_const64 7 1070 (-4) (by decide +kernel) (by norm_num)]; norm_num
theorem ge0 {a : Flt f64} (h : 0x3fdc0000 * 2 ^ 32 ≤ a.mb) : 7 / 16 ≤ |a.val| := by
  have := abs_val_mono (x := bits64 0x3fdc000000000000) (c := a) (le_trans (by decide +kernel) h)
  rwa [thr0, abs_of_pos (by norm_num : (0 : ℝ) < 7 / 16)] at this
theorem le0 {a : Flt f64} (h : a.mb < 0x3fdc0000 * 2 ^ 32) : |a.val| ≤ 7 / 16 := by
  have := abs_val_mono (x := a) (c := bits64 0x3fdc000000000000) (h.le.trans (by decide +kernel))
  rwa [thr0, abs_of_pos (by norm_num : (0 : ℝ) < 7 / 16)] at this
theorem thr1 : (bits64 0x3fe6000000000000).val = 11 / 16 := by
  rw [val_const64 11 1070 (-4) (by decide +kernel) (by norm_num)]; norm_num
theorem ge1 {a : Flt f64} (h : 0x3fe60000 * 2 ^ 32 ≤ a.mb) : 11 / 16 ≤ |a.val| := by
  have := abs_val_mono (x := bits64 0x3fe6000000000000) (c := a) (le_trans (by decide +kernel) h)
  rwa [thr1, abs_of_pos (by norm_num : (0 : ℝ) < 11 / 16)] at this
theorem le1 {a : Flt f64} (h : a.mb < 0x3fe60000 * 2 ^ 32) : |a.val| ≤ 11 / 16 := by
  have := abs_val_mono (x := a) (c := bits64 0x3fe6000000000000) (h.le.trans (by decide +kernel))
  rwa [thr1, abs_of_pos (by norm_num : (0 : ℝ) < 11 / 16)] at this
theorem thr2 : (bits64 0x3ff3000000000000).val = 19 / 16 := by
  rw [val_const64 19 1070 (-4) (by decide +kernel) (by norm_num)]; norm_num
theorem ge2 {a : Flt f64} (h : 0x3ff30000 * 2 ^ 32 ≤ a.mb) : 19 / 16 ≤ |a.val| := by
  have := abs_val_mono (x := bits64 0x3ff3000000000000) (c := a) (le_trans (by decide +kernel) h)
  rwa [thr2, abs_of_pos (by norm_num : (0 : ℝ) < 19 / 16)] at this
theorem le2 {a : Flt f64} (h : a.mb < 0x3ff30000 * 2 ^ 32) : |a.val| ≤ 19 / 16 := by
  have := abs_val_mono (x := a) (c := bits64 0x3ff3000000000000) (h.le.trans (by decide +kernel))
  rwa [thr2, abs_of_pos (by norm_num : (0 : ℝ) < 19 / 16)] at this
theorem thr3 : (bits64 0x4003800000000000).val = 39 / 16 := by
  rw [val_const64 39 1070 (-4) (by decide +kernel) (by norm_num)]; norm_num
theorem ge3 {a : Flt f64} (h : 0x40038000 * 2 ^ 32 ≤ a.mb) : 39 / 16 ≤ |a.val| := by
  have := abs_val_mono (x := bits64 0x4003800000000000) (c := a) (le_trans (by decide +kernel) h)
  rwa [thr3, abs_of_pos (by norm_num : (0 : ℝ) < 39 / 16)] at this
theorem le3 {a : Flt f64} (h : a.mb < 0x40038000 * 2 ^ 32) : |a.val| ≤ 39 / 16 := by
  have := abs_val_mono (x := a) (c := bits64 0x4003800000000000) (h.le.trans (by decide +kernel))
  rwa [thr3, abs_of_pos (by norm_num : (0 : ℝ) < 39 / 16)] at this

/-- the branches above `7/16` -/
theorem big_acc {a : Flt f64} (af : a.isFinite) (h0 : 0 ≤ a.val) (h1 : 0x3fdc0000 * 2 ^ 32 ≤ a.mb) :
    ∃ r, ((Atan.atanhi[(atanArg a).1]?).bind fun hi => (Atan.atanlo[(atanArg a).1]?).map fun lo => atanVal hi lo (atanArg a).2) = some r ∧ WithinUlp 0.99 r (Real.arctan a.val) := by
  have ha : |a.val| = a.val := abs_of_nonneg h0
  have g0 := ge0 h1
  rw [ha] at g0
  unfold atanArg
  by_cases c2 : a.mb < 0x3ff30000 * 2 ^ 32
  · have l2 := le2 c2
    rw [ha] at l2
    by_cases c1 : a.mb < 0x3fe60000 * 2 ^ 32
    · have l1 := le1 c1
      rw [ha] at l1
      rw [if_pos c2, if_pos c1]
      refine ⟨_, rfl, ?_⟩
      by_cases s : a.val ≤ 0.56
      · obtain ⟨yf, hT, he⟩ := red_a af g0 s
        exact val_a yf hT he (arctan_red0 h0) (arctan_ge_a g0)
      · push Not at s
        obtain ⟨yf, hT, he⟩ := red_b af s.le l1
        exact val_b yf hT he (arctan_red0 h0) (arctan_ge_b s.le)
    · push Not at c1
      have g1 := ge1 c1
      rw [ha] at g1
      rw [if_pos c2, if_neg (not_lt.2 c1)]
      refine ⟨_, rfl, ?_⟩
      have hb := arctan_ge_b (a := a.val) (le_trans (by norm_num) g1)
      by_cases s : a.val ≤ 1
      · obtain ⟨yf, hT, he⟩ := red_c af g1 s
        exact val_c yf hT he (arctan_red1 h0) hb
      · push Not at s
        obtain ⟨yf, hT, he⟩ := red_d af s.le l2
        exact val_d yf hT he (arctan_red1 h0) hb
  · rw [if_neg c2]
    push Not at c2
    have g2 := ge2 c2
    rw [ha] at g2
    by_cases c3 : a.mb < 0x40038000 * 2 ^ 32
    · have l3 := le3 c3
      rw [ha] at l3
      rw [if_pos c3]
      refine ⟨_, rfl, ?_⟩
      by_cases s : a.val ≤ 1.6
      · obtain ⟨yf, hT, he⟩ := red_e af g2 s
        exact val_e yf hT he (arctan_red2 h0) (arctan_ge_b (le_trans (by norm_num) g2))
      · push Not at s
        obtain ⟨yf, hT, he⟩ := red_f af s.le l3
        exact val_f yf hT he (arctan_red2 h0) (arctan_ge_f s.le)
    · rw [if_neg c3]
      push Not at c3
      have g3 := ge3 c3
      rw [ha] at g3
      refine ⟨_, rfl, ?_⟩
      obtain ⟨yf, hT, he⟩ := red_g af g3
      exact val_g yf hT he (arctan_red3 (lt_of_lt_of_le (by norm_num) g3)) (arctan_ge_f (le_trans (by norm_num) g3))


/-- the polynomial branch -/
theorem mid_acc {x : Flt f64} (xf : x.isFinite) (h1 : 2 ^ (-27 : ℤ) ≤ |x.val|) (h2 : |x.val| ≤ 7 / 16) : WithinUlp 0.99 (x - x * Atan.poly x) (Real.arctan x.val) := by
  have hP := Atan.poly_as xf h2
  have hpe := hP.err
  have hpb := hP.bd
  rw [mul_one] at hpe hpb
  have hx0 : 0 < |x.val| := lt_of_lt_of_le (by positivity) h1
  have hmb : |x.val * (Atan.poly x).val| ≤ |x.val| * (4739 / 2 ^ 16) := by rw [abs_mul]; exact mul_le_mul_of_nonneg_left hpb hx0.le
  obtain ⟨mf, me⟩ := (mul_rne xf hP.fin).mixed (hmb.trans (le_trans (b := 1) (by norm_num at h2 ⊢; linarith) (by rw [f64_bias]; exact le_trans (by norm_num) (mul_le_mul_of_nonneg_left (two_le_zp (by norm_num)) (by norm_num))))) (by rw [f64_bias]; norm_num)
  have me2 : |(x * Atan.poly x).val - x.val * (Atan.poly x).val| ≤ |x.val| * (4739 / 2 ^ 16 * (1 / 2 ^ 53) + 1 / 2 ^ 53 / 2 ^ 10) := by
    refine me.trans ?_
    rw [mul_add, ← mul_assoc]
    refine add_le_add (mul_le_mul hmb (by rw [f64_sb]; norm_num) (by positivity) (by positivity)) ?_
    have h3 : (2 : ℝ) ^ (-(f64.bias : ℤ) - f64.sb) ≤ 2 ^ (-27 : ℤ) * (1 / 2 ^ 53 / 2 ^ 10) := by
      rw [f64_bias, f64_sb]
      have : (1 / 2 ^ 53 / 2 ^ 10 : ℝ) = 2 ^ (-63 : ℤ) := by norm_num
      rw [this, ← zpow_add₀ (by norm_num)]
      exact zpow_le_zpow_right₀ (by norm_num) (by norm_num)
    exact h3.trans (mul_le_mul_of_nonneg_right h1 (by norm_num))
  have ha := approx h2
  have hlow : 0.927 * |x.val| ≤ |Real.arctan x.val| := by
    have h3 := abs_sub_abs_le_abs_sub x.val (Real.arctan x.val)
    have h4 : |x.val - Real.arctan x.val| ≤ |x.val| * 0.073 := by
      have e : x.val - Real.arctan x.val = (x.val - x.val * (x.val ^ 2 * Poly.ev pl (x.val ^ 2)) - Real.arctan x.val) - x.val * ((Atan.poly x).val - x.val ^ 2 * Poly.ev pl (x.val ^ 2)) + x.val * (Atan.poly x).val := by ring
      rw [e]
      refine (abs_add_le _ _).trans ((add_le_add (abs_sub _ _) le_rfl).trans ?_)
      rw [abs_mul, abs_mul]
      have a1 := mul_le_mul_of_nonneg_left hpe hx0.le
      have a2 := mul_le_mul_of_nonneg_left hpb hx0.le
      norm_num at ha a1 a2 ⊢
      linarith
    norm_num at h4 ⊢
    linarith
  have hne : Real.arctan x.val ≠ 0 := by
    intro h0; rw [h0, abs_zero] at hlow; norm_num at hlow; linarith
  have htot : |x.val - (x * Atan.poly x).val - Real.arctan x.val| ≤ |x.val| * (0.4515 * (1 / 2 ^ 53)) := by
    have e : x.val - (x * Atan.poly x).val - Real.arctan x.val = (x.val - x.val * (x.val ^ 2 * Poly.ev pl (x.val ^ 2)) - Real.arctan x.val)
        - x.val * ((Atan.poly x).val - x.val ^ 2 * Poly.ev pl (x.val ^ 2)) - ((x * Atan.poly x).val - x.val * (Atan.poly x).val) := by ring
    rw [e]
    refine (abs_sub _ _).trans ((add_le_add (abs_sub _ _) le_rfl).trans ?_)
    rw [abs_mul]
    have h4 := mul_le_mul_of_nonneg_left hpe hx0.le
    have h5 : |x.val| * (0.4515 * (1 / 2 ^ 53)) = |x.val| * (0.4515 * (1 / 2 ^ 53) - (5083 / 2 ^ 67) - (1 / 2 ^ 57 * 1.01) - (4739 / 2 ^ 16 * (1 / 2 ^ 53) + 1 / 2 ^ 53 / 2 ^ 10)) + |x.val| * (5083 / 2 ^ 67) + |x.val| * (1 / 2 ^ 57 * 1.01) + |x.val| * (4739 / 2 ^ 16 * (1 / 2 ^ 53) + 1 / 2 ^ 53 / 2 ^ 10) := by ring
    have h6 : 0 ≤ |x.val| * (0.4515 * (1 / 2 ^ 53) - (5083 / 2 ^ 67) - (1 / 2 ^ 57 * 1.01) - (4739 / 2 ^ 16 * (1 / 2 ^ 53) + 1 / 2 ^ 53 / 2 ^ 10)) := mul_nonneg hx0.le (by norm_num)
    rw [h5]
    linarith
  refine WithinUlp.of_rne_rel (sub_rne xf mf) hne (arctan_lt_bias (by rw [f64_bias]; norm_num) _) (by rw [f64_bias]; norm_num) (ε := 0.489 * (1 / 2 ^ 53)) ?_ (by norm_num) (by rw [f64_sb]; norm_num) (by rw [f64_sb]; norm_num)
  refine htot.trans ?_
  have := mul_le_mul_of_nonneg_left hlow (by norm_num : (0 : ℝ) ≤ 0.489 * (1 / 2 ^ 53))
  refine le_trans ?_ this
  rw [show 0.489 * (1 / 2 ^ 53) * (0.927 * |x.val|) = |x.val| * (0.489 * 0.927 * (1 / 2 ^ 53)) by ring]
  exact mul_le_mul_of_nonneg_left (by norm_num) hx0.le

/-- below the polynomial branch the argument itself is returned -/
theorem tiny_acc {x : Flt f64} (xf : x.isFinite) (h : |x.val| ≤ 2 ^ (-27 : ℤ)) : WithinUlp 0.99 x (Real.arctan x.val) := by
  have hs := arctan_small (s := x.val) (h.trans (by norm_num))
  have hz : x.val ^ 2 ≤ 1 / 2 ^ 54 := by
    have : |x.val| ^ 2 ≤ (2 ^ (-27 : ℤ)) ^ 2 := pow_le_pow_left₀ (abs_nonneg _) h 2
    rw [sq_abs] at this; norm_num at this ⊢; linarith
  have hz0 := _root_.sq_nonneg x.val
  have h4 : x.val ^ 2 * (1 / 3 + x.val ^ 2) ≤ 0.34 * (1 / 2 ^ 54) := by
    rw [mul_comm]
    exact mul_le_mul (by norm_num at hz ⊢; linarith) hz hz0 (by norm_num)
  have h5 := mul_le_mul_of_nonneg_left h4 (abs_nonneg x.val)
  have hlow : 0.9 * |x.val| ≤ |Real.arctan x.val| := by
    have h3 := abs_sub_abs_le_abs_sub x.val (Real.arctan x.val)
    rw [abs_sub_comm x.val] at h3
    norm_num at h5 ⊢
    have := abs_nonneg x.val
    linarith
  refine WithinUlp.of_rel xf (ε := 0.4 * (1 / 2 ^ 54)) ?_ (by norm_num) (by rw [f64_sb]; norm_num)
  rw [abs_sub_comm]
  refine (hs.trans h5).trans (le_trans ?_ (mul_le_mul_of_nonneg_left hlow (by norm_num)))
  rw [show 0.4 * (1 / 2 ^ 54) * (0.9 * |x.val|) = |x.val| * (0.4 * 0.9 * (1 / 2 ^ 54)) by ring]
  exact mul_le_mul_of_nonneg_left (by norm_num) (abs_nonneg _)

/-- far out the result is constant -/
theorem far_acc {X : ℝ} (h : 2 ^ (66 : ℤ) ≤ X) : WithinUlp 0.99 (1.57079632679489655800e+00 + bits64 0x03800000 : Flt f64) (Real.arctan X) := by
  have e : (1.57079632679489655800e+00 + bits64 0x03800000 : Flt f64) = (1.57079632679489655800e+00 : Flt f64) := by decide +kernel
  have hp : 0 < X := lt_of_lt_of_le (by positivity) h
  rw [e]
  refine WithinUlp.of_abs 0 (by decide +kernel) (arctan_ge_f (le_trans (by norm_num) h)) (a := 0.99 * 2 ^ (0 - 52 : ℤ)) ?_ (by rw [f64_sb]; norm_num) (by norm_num)
  rw [hi3_val, arctan_red3 hp]
  have h1 := arctan_abs_le (-1 / X)
  have h2 : |-1 / X| ≤ 1 / 2 ^ 66 := by
    rw [abs_div, abs_neg, abs_one, abs_of_pos hp]
    exact one_div_le_one_div_of_le (by positivity) (by exact_mod_cast h)
  have h3 := abs_le.1 (h1.trans h2)
  have h4 : Real.arctan (-1 / X) ≤ 0 := by
    rw [← Real.arctan_zero]
    exact Real.arctan_mono (div_nonpos_of_nonpos_of_nonneg (by norm_num) hp.le)
  have p1 := Real.pi_gt_d20
  have p2 := Real.pi_lt_d20
  rw [abs_le]
  norm_num at h3 p1 p2 ⊢
  constructor <;> linarith [h3.1]
end Atan

/-- atan -/
theorem atan_accurate : AccurateTo 0.99 atan Real.arctan := by
  intro x xf
  change ∃ r, atan x = some r ∧ WithinUlp 0.99 r (Real.arctan x.val)
  rw [atan_eq]
  have tv : (bits64 0x3e40000000000000).val = 2 ^ (-27 : ℤ) := by
    rw [val_const64 1 1047 (-27) (by decide +kernel) (by norm_num)]; norm_num
  have bv : (bits64 0x4410000000000000).val = 2 ^ (66 : ℤ) := by
    rw [val_const64 1 1140 (66) (by decide +kernel) (by norm_num)]; norm_num
  by_cases h1 : 0x44100000 * 2 ^ 32 ≤ x.mb
  · rw [if_pos h1, if_neg (not_nan_of_finite xf)]
    refine ⟨_, rfl, WithinUlp.flip (g := Real.arctan) Real.arctan_neg (Atan.far_acc ?_)⟩
    have := abs_val_mono (x := bits64 0x4410000000000000) (c := x) (le_trans (by decide +kernel) h1)
    rwa [bv, abs_of_pos (a := (2 : ℝ) ^ (66 : ℤ)) (by positivity)] at this
  rw [if_neg h1]
  by_cases h2 : x.mb < 0x3e400000 * 2 ^ 32
  · rw [if_pos h2]
    refine ⟨_, rfl, Atan.tiny_acc xf ?_⟩
    have := abs_val_mono (x := x) (c := bits64 0x3e40000000000000) (h2.le.trans (by decide +kernel))
    rwa [tv, abs_of_pos (a := (2 : ℝ) ^ (-27 : ℤ)) (by positivity)] at this
  rw [if_neg h2]
  push Not at h2
  by_cases h3 : x.mb < 0x3fdc0000 * 2 ^ 32
  · rw [if_pos h3]
    refine ⟨_, rfl, Atan.mid_acc xf ?_ (Atan.le0 h3)⟩
    have := abs_val_mono (x := bits64 0x3e40000000000000) (c := x) (le_trans (by decide +kernel) h2)
    rwa [tv, abs_of_pos (a := (2 : ℝ) ^ (-27 : ℤ)) (by positivity)] at this
  · rw [if_neg h3]
    push Not at h3
    obtain ⟨r, hr, hw⟩ := Atan.big_acc (a := x.ab) ((ab_isFinite x).2 xf) (by rw [ab_val]; exact abs_nonneg _) (by rwa [ab_mb])
    rw [ab_val] at hw
    refine ⟨flip x.sign r, ?_, WithinUlp.flip (g := Real.arctan) Real.arctan_neg hw⟩
    obtain ⟨hi, hh⟩ := at_some (l := Atan.atanhi) (atanArg_lt x.ab)
    obtain ⟨lo, hl⟩ := at_some (l := Atan.atanlo) (atanArg_lt x.ab)
    rw [hh, hl] at hr ⊢
    simp only [Option.bind_some, Option.map_some, Option.some.injEq] at hr ⊢
    rw [hr]

namespace Atanf
theorem thr0 : (bits32 0x3ee00000).val = 7 / 16 := by
  rw [val_const32 7 145 (-4) (by decide +kernel) (by norm_num)]; norm_num
theorem ge0 {a : Flt f32} (h : 0x3ee00000 ≤ a.mb) : 7 / 16 ≤ |a.val| := by
  have := abs_val_mono (x := bits32 0x3ee00000) (c := a) (le_trans (by decide +kernel) h)
  rwa [thr0, abs_of_pos (by norm_num : (0 : ℝ) < 7 / 16)] at this
theorem le0 {a : Flt f32} (h : a.mb < 0x3ee00000) : |a.val| ≤ 7 / 16 := by
  have := abs_val_mono (x := a) (c := bits32 0x3ee00000) (h.le.trans (by decide +kernel))
  rwa [thr0, abs_of_pos (by norm_num : (0 : ℝ) < 7 / 16)] at this
theorem thr1 : (bits32 0x3f300000).val = 11 / 16 := by
  rw [val_const32 11 145 (-4) (by decide +kernel) (by norm_num)]; norm_num
theorem ge1 {a : Flt f32} (h : 0x3f300000 ≤ a.mb) : 11 / 16 ≤ |a.val| := by
  have := abs_val_mono (x := bits32 0x3f300000) (c := a) (le_trans (by decide +kernel) h)
  rwa [thr1, abs_of_pos (by norm_num : (0 : ℝ) < 11 / 16)] at this
theorem le1 {a : Flt f32} (h : a.mb < 0x3f300000) : |a.val| ≤ 11 / 16 := by
  have := abs_val_mono (x := a) (c := bits32 0x3f300000) (h.le.trans (by decide +kernel))
  rwa [thr1, abs_of_pos (by norm_num : (0 : ℝ) < 11 / 16)] at this
theorem thr2 : (bits32 0x3f980000).val = 19 / 16 := by
  rw [val_const32 19 145 (-4) (by decide +kernel) (by norm_num)]; norm_num
theorem ge2 {a : Flt f32} (h : 0x3f980000 ≤ a.mb) : 19 / 16 ≤ |a.val| := by
  have := abs_val_mono (x := bits32 0x3f980000) (c := a) (le_trans (by decide +kernel) h)
  rwa [thr2, abs_of_pos (by norm_num : (0 : ℝ) < 19 / 16)] at this
theorem le2 {a : Flt f32} (h : a.mb < 0x3f980000) : |a.val| ≤ 19 / 16 := by
  have := abs_val_mono (x := a) (c := bits32 0x3f980000) (h.le.trans (by decide +kernel))
  rwa [thr2, abs_of_pos (by norm_num : (0 : ℝ) < 19 / 16)] at this
theorem thr3 : (bits32 0x401c0000).val = 39 / 16 := by
  rw [val_const32 39 145 (-4) (by decide +kernel) (by norm_num)]; norm_num
theorem ge3 {a : Flt f32} (h : 0x401c0000 ≤ a.mb) : 39 / 16 ≤ |a.val| := by
  have := abs_val_mono (x := bits32 0x401c0000) (c := a) (le_trans (by decide +kernel) h)
  rwa [thr3, abs_of_pos (by norm_num : (0 : ℝ) < 39 / 16)] at this
theorem le3 {a : Flt f32} (h : a.mb < 0x401c0000) : |a.val| ≤ 39 / 16 := by
  have := abs_val_mono (x := a) (c := bits32 0x401c0000) (h.le.trans (by decide +kernel))
  rwa [thr3, abs_of_pos (by norm_num : (0 : ℝ) < 39 / 16)] at this

/-- the branches above `7/16` -/
theorem big_acc {a : Flt f32} (af : a.isFinite) (h0 : 0 ≤ a.val) (h1 : 0x3ee00000 ≤ a.mb) :
    ∃ r, ((Atanf.atanHi[(atanfArg a).1]?).bind fun hi => (Atanf.atanLo[(atanfArg a).1]?).map fun lo => atanfVal hi lo (atanfArg a).2) = some r ∧ WithinUlp 0.99 r (Real.arctan a.val) := by
  have ha : |a.val| = a.val := abs_of_nonneg h0
  have g0 := ge0 h1
  rw [ha] at g0
  unfold atanfArg
  by_cases c2 : a.mb < 0x3f980000
  · have l2 := le2 c2
    rw [ha] at l2
    by_cases c1 : a.mb < 0x3f300000
    · have l1 := le1 c1
      rw [ha] at l1
      rw [if_pos c2, if_pos c1]
      refine ⟨_, rfl, ?_⟩
      by_cases s : a.val ≤ 0.56
      · obtain ⟨yf, hT, he⟩ := red_a af g0 s
        exact val_a yf hT he (arctan_red0 h0) (arctan_ge_a g0)
      · push Not at s
        obtain ⟨yf, hT, he⟩ := red_b af s.le l1
        exact val_b yf hT he (arctan_red0 h0) (arctan_ge_b s.le)
    · push Not at c1
      have g1 := ge1 c1
      rw [ha] at g1
      rw [if_pos c2, if_neg (not_lt.2 c1)]
      refine ⟨_, rfl, ?_⟩
      have hb := arctan_ge_b (a := a.val) (le_trans (by norm_num) g1)
      by_cases s : a.val ≤ 1
      · obtain ⟨yf, hT, he⟩ := red_c af g1 s
        exact val_c yf hT he (arctan_red1 h0) hb
      · push Not at s
        obtain ⟨yf, hT, he⟩ := red_d af s.le l2
        exact val_d yf hT he (arctan_red1 h0) hb
  · rw [if_neg c2]
    push Not at c2
    have g2 := ge2 c2
    rw [ha] at g2
    by_cases c3 : a.mb < 0x401c0000
    · have l3 := le3 c3
      rw [ha] at l3
      rw [if_pos c3]
      refine ⟨_, rfl, ?_⟩
      by_cases s : a.val ≤ 1.6
      · obtain ⟨yf, hT, he⟩ := red_e af g2 s
        exact val_e yf hT he (arctan_red2 h0) (arctan_ge_b (le_trans (by norm_num) g2))
      · push Not at s
        obtain ⟨yf, hT, he⟩ := red_f af s.le l3
        exact val_f yf hT he (arctan_red2 h0) (arctan_ge_f s.le)
    · rw [if_neg c3]
      push Not at c3
      have g3 := ge3 c3
      rw [ha] at g3
      refine ⟨_, rfl, ?_⟩
      obtain ⟨yf, hT, he⟩ := red_g af g3
      exact val_g yf hT he (arctan_red3 (lt_of_lt_of_le (by norm_num) g3)) (arctan_ge_f (le_trans (by norm_num) g3))


/-- the polynomial branch -/
theorem mid_acc {x : Flt f32} (xf : x.isFinite) (h1 : 2 ^ (-12 : ℤ) ≤ |x.val|) (h2 : |x.val| ≤ 7 / 16) : WithinUlp 0.99 (x - x * Atanf.poly x) (Real.arctan x.val) := by
  have hP := Atanf.poly_as xf h2
  have hpe := hP.err
  have hpb := hP.bd
  rw [mul_one] at hpe hpb
  have hx0 : 0 < |x.val| := lt_of_lt_of_le (by positivity) h1
  have hmb : |x.val * (Atanf.poly x).val| ≤ |x.val| * (37901 / 2 ^ 19) := by rw [abs_mul]; exact mul_le_mul_of_nonneg_left hpb hx0.le
  obtain ⟨mf, me⟩ := (mul_rne xf hP.fin).mixed (hmb.trans (le_trans (b := 1) (by norm_num at h2 ⊢; linarith) (by rw [f32_bias]; exact le_trans (by norm_num) (mul_le_mul_of_nonneg_left (two_le_zp (by norm_num)) (by norm_num))))) (by rw [f32_bias]; norm_num)
  have me2 : |(x * Atanf.poly x).val - x.val * (Atanf.poly x).val| ≤ |x.val| * (37901 / 2 ^ 19 * (1 / 2 ^ 24) + 1 / 2 ^ 24 / 2 ^ 10) := by
    refine me.trans ?_
    rw [mul_add, ← mul_assoc]
    refine add_le_add (mul_le_mul hmb (by rw [f32_sb]; norm_num) (by positivity) (by positivity)) ?_
    have h3 : (2 : ℝ) ^ (-(f32.bias : ℤ) - f32.sb) ≤ 2 ^ (-12 : ℤ) * (1 / 2 ^ 24 / 2 ^ 10) := by
      rw [f32_bias, f32_sb]
      have : (1 / 2 ^ 24 / 2 ^ 10 : ℝ) = 2 ^ (-34 : ℤ) := by norm_num
      rw [this, ← zpow_add₀ (by norm_num)]
      exact zpow_le_zpow_right₀ (by norm_num) (by norm_num)
    exact h3.trans (mul_le_mul_of_nonneg_right h1 (by norm_num))
  have ha := approx h2
  have hlow : 0.927 * |x.val| ≤ |Real.arctan x.val| := by
    have h3 := abs_sub_abs_le_abs_sub x.val (Real.arctan x.val)
    have h4 : |x.val - Real.arctan x.val| ≤ |x.val| * 0.073 := by
      have e : x.val - Real.arctan x.val = (x.val - x.val * (x.val ^ 2 * Poly.ev pl (x.val ^ 2)) - Real.arctan x.val) - x.val * ((Atanf.poly x).val - x.val ^ 2 * Poly.ev pl (x.val ^ 2)) + x.val * (Atanf.poly x).val := by ring
      rw [e]
      refine (abs_add_le _ _).trans ((add_le_add (abs_sub _ _) le_rfl).trans ?_)
      rw [abs_mul, abs_mul]
      have a1 := mul_le_mul_of_nonneg_left hpe hx0.le
      have a2 := mul_le_mul_of_nonneg_left hpb hx0.le
      norm_num at ha a1 a2 ⊢
      linarith
    norm_num at h4 ⊢
    linarith
  have hne : Real.arctan x.val ≠ 0 := by
    intro h0; rw [h0, abs_zero] at hlow; norm_num at hlow; linarith
  have htot : |x.val - (x * Atanf.poly x).val - Real.arctan x.val| ≤ |x.val| * (0.4515 * (1 / 2 ^ 24)) := by
    have e : x.val - (x * Atanf.poly x).val - Real.arctan x.val = (x.val - x.val * (x.val ^ 2 * Poly.ev pl (x.val ^ 2)) - Real.arctan x.val)
        - x.val * ((Atanf.poly x).val - x.val ^ 2 * Poly.ev pl (x.val ^ 2)) - ((x * Atanf.poly x).val - x.val * (Atanf.poly x).val) := by ring
    rw [e]
    refine (abs_sub _ _).trans ((add_le_add (abs_sub _ _) le_rfl).trans ?_)
    rw [abs_mul]
    have h4 := mul_le_mul_of_nonneg_left hpe hx0.le
    have h5 : |x.val| * (0.4515 * (1 / 2 ^ 24)) = |x.val| * (0.4515 * (1 / 2 ^ 24) - (1269 / 2 ^ 36) - (69 / 2 ^ 34 * 1.01) - (37901 / 2 ^ 19 * (1 / 2 ^ 24) + 1 / 2 ^ 24 / 2 ^ 10)) + |x.val| * (1269 / 2 ^ 36) + |x.val| * (69 / 2 ^ 34 * 1.01) + |x.val| * (37901 / 2 ^ 19 * (1 / 2 ^ 24) + 1 / 2 ^ 24 / 2 ^ 10) := by ring
    have h6 : 0 ≤ |x.val| * (0.4515 * (1 / 2 ^ 24) - (1269 / 2 ^ 36) - (69 / 2 ^ 34 * 1.01) - (37901 / 2 ^ 19 * (1 / 2 ^ 24) + 1 / 2 ^ 24 / 2 ^ 10)) := mul_nonneg hx0.le (by norm_num)
    rw [h5]
    linarith
  refine WithinUlp.of_rne_rel (sub_rne xf mf) hne (arctan_lt_bias (by rw [f32_bias]; norm_num) _) (by rw [f32_bias]; norm_num) (ε := 0.489 * (1 / 2 ^ 24)) ?_ (by norm_num) (by rw [f32_sb]; norm_num) (by rw [f32_sb]; norm_num)
  refine htot.trans ?_
  have := mul_le_mul_of_nonneg_left hlow (by norm_num : (0 : ℝ) ≤ 0.489 * (1 / 2 ^ 24))
  refine le_trans ?_ this
  rw [show 0.489 * (1 / 2 ^ 24) * (0.927 * |x.val|) = |x.val| * (0.489 * 0.927 * (1 / 2 ^ 24)) by ring]
  exact mul_le_mul_of_nonneg_left (by norm_num) hx0.le

/-- below the polynomial branch the argument itself is returned -/
theorem tiny_acc {x : Flt f32} (xf : x.isFinite) (h : |x.val| ≤ 2 ^ (-12 : ℤ)) : WithinUlp 0.99 x (Real.arctan x.val) := by
  have hs := arctan_small (s := x.val) (h.trans (by norm_num))
  have hz : x.val ^ 2 ≤ 1 / 2 ^ 24 := by
    have : |x.val| ^ 2 ≤ (2 ^ (-12 : ℤ)) ^ 2 := pow_le_pow_left₀ (abs_nonneg _) h 2
    rw [sq_abs] at this; norm_num at this ⊢; linarith
  have hz0 := _root_.sq_nonneg x.val
  have h4 : x.val ^ 2 * (1 / 3 + x.val ^ 2) ≤ 0.34 * (1 / 2 ^ 24) := by
    rw [mul_comm]
    exact mul_le_mul (by norm_num at hz ⊢; linarith) hz hz0 (by norm_num)
  have h5 := mul_le_mul_of_nonneg_left h4 (abs_nonneg x.val)
  have hlow : 0.9 * |x.val| ≤ |Real.arctan x.val| := by
    have h3 := abs_sub_abs_le_abs_sub x.val (Real.arctan x.val)
    rw [abs_sub_comm x.val] at h3
    norm_num at h5 ⊢
    have := abs_nonneg x.val
    linarith
  refine WithinUlp.of_rel xf (ε := 0.4 * (1 / 2 ^ 24)) ?_ (by norm_num) (by rw [f32_sb]; norm_num)
  rw [abs_sub_comm]
  refine (hs.trans h5).trans (le_trans ?_ (mul_le_mul_of_nonneg_left hlow (by norm_num)))
  rw [show 0.4 * (1 / 2 ^ 24) * (0.9 * |x.val|) = |x.val| * (0.4 * 0.9 * (1 / 2 ^ 24)) by ring]
  exact mul_le_mul_of_nonneg_left (by norm_num) (abs_nonneg _)

/-- far out the result is constant -/
theorem far_acc {X : ℝ} (h : 2 ^ (26 : ℤ) ≤ X) : WithinUlp 0.99 (1.5707962513e+00 + bits32 0x03800000 : Flt f32) (Real.arctan X) := by
  have e : (1.5707962513e+00 + bits32 0x03800000 : Flt f32) = (1.5707962513e+00 : Flt f32) := by decide +kernel
  have hp : 0 < X := lt_of_lt_of_le (by positivity) h
  rw [e]
  refine WithinUlp.of_abs 0 (by decide +kernel) (arctan_ge_f (le_trans (by norm_num) h)) (a := 0.99 * 2 ^ (0 - 23 : ℤ)) ?_ (by rw [f32_sb]; norm_num) (by norm_num)
  rw [hi3_val, arctan_red3 hp]
  have h1 := arctan_abs_le (-1 / X)
  have h2 : |-1 / X| ≤ 1 / 2 ^ 26 := by
    rw [abs_div, abs_neg, abs_one, abs_of_pos hp]
    exact one_div_le_one_div_of_le (by positivity) (by exact_mod_cast h)
  have h3 := abs_le.1 (h1.trans h2)
  have h4 : Real.arctan (-1 / X) ≤ 0 := by
    rw [← Real.arctan_zero]
    exact Real.arctan_mono (div_nonpos_of_nonpos_of_nonneg (by norm_num) hp.le)
  have p1 := Real.pi_gt_d20
  have p2 := Real.pi_lt_d20
  rw [abs_le]
  norm_num at h3 p1 p2 ⊢
  constructor <;> linarith [h3.1]
end Atanf

/-- atanf -/
theorem atanf_accurate : AccurateTo 0.99 atanf Real.arctan := by
  intro x xf
  change ∃ r, atanf x = some r ∧ WithinUlp 0.99 r (Real.arctan x.val)
  rw [atanf_eq]
  have tv : (bits32 0x39800000).val = 2 ^ (-12 : ℤ) := by
    rw [val_const32 1 137 (-12) (by decide +kernel) (by norm_num)]; norm_num
  have bv : (bits32 0x4c800000).val = 2 ^ (26 : ℤ) := by
    rw [val_const32 1 175 (26) (by decide +kernel) (by norm_num)]; norm_num
  by_cases h1 : 0x4c800000 ≤ x.mb
  · rw [if_pos h1, if_neg (not_nan_of_finite xf)]
    refine ⟨_, rfl, WithinUlp.flip (g := Real.arctan) Real.arctan_neg (Atanf.far_acc ?_)⟩
    have := abs_val_mono (x := bits32 0x4c800000) (c := x) (le_trans (by decide +kernel) h1)
    rwa [bv, abs_of_pos (a := (2 : ℝ) ^ (26 : ℤ)) (by positivity)] at this
  rw [if_neg h1]
  by_cases h2 : x.mb < 0x39800000
  · rw [if_pos h2]
    refine ⟨_, rfl, Atanf.tiny_acc xf ?_⟩
    have := abs_val_mono (x := x) (c := bits32 0x39800000) (h2.le.trans (by decide +kernel))
    rwa [tv, abs_of_pos (a := (2 : ℝ) ^ (-12 : ℤ)) (by positivity)] at this
  rw [if_neg h2]
  push Not at h2
  by_cases h3 : x.mb < 0x3ee00000
  · rw [if_pos h3]
    refine ⟨_, rfl, Atanf.mid_acc xf ?_ (Atanf.le0 h3)⟩
    have := abs_val_mono (x := bits32 0x39800000) (c := x) (le_trans (by decide +kernel) h2)
    rwa [tv, abs_of_pos (a := (2 : ℝ) ^ (-12 : ℤ)) (by positivity)] at this
  · rw [if_neg h3]
    push Not at h3
    obtain ⟨r, hr, hw⟩ := Atanf.big_acc (a := x.ab) ((ab_isFinite x).2 xf) (by rw [ab_val]; exact abs_nonneg _) (by rwa [ab_mb])
    rw [ab_val] at hw
    refine ⟨flip x.sign r, ?_, WithinUlp.flip (g := Real.arctan) Real.arctan_neg hw⟩
    obtain ⟨hi, hh⟩ := at_some (l := Atanf.atanHi) (atanfArg_lt x.ab)
    obtain ⟨lo, hl⟩ := at_some (l := Atanf.atanLo) (atanfArg_lt x.ab)
    rw [hh, hl] at hr ⊢
    simp only [Option.bind_some, Option.map_some, Option.some.injEq] at hr ⊢
    rw [hr]

/-- the claim at a value on the third branch -/
example : ∃ r, atan (2.0 : Flt f64) = some r ∧ WithinUlp 0.99 r (Real.arctan 2) := by
  have h : (2.0 : Flt f64).val = 2 := by
    rw [val_const64 (x := (2.0 : Flt f64)) 1 1075 1 (by decide +kernel) (by norm_num)]; norm_num
  have := atan_accurate (2.0 : Flt f64) (by decide +kernel)
  change ∃ r, _ ∧ WithinUlp 0.99 r (Real.arctan (2.0 : Flt f64).val) at this
  rwa [h] at this

end Verif
