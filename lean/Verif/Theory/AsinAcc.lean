import Verif.Theory.AsinSqrt
import Verif.Props.AtanAcc
import Verif.Theory.Hypotf

/-!
# `asin`, `acos`, `asinf`, `acosf`: accuracy
-/

namespace Verif
open Flt InvTrig

/-- A function of floats returns, for every argument from -1 to 1, a finite float within `c` units in the last place of
the real function `g`. -/
def AccurateOnUnit {F : Fmt} (c : ℝ) (f : Flt F → Option (Flt F)) (g : ℝ → ℝ) : Prop :=
  ∀ x : Flt F, x.isFinite → |((x.toRat : ℚ) : ℝ)| ≤ 1 → ∃ r, f x = some r ∧ WithinUlp c r (g ((x.toRat : ℚ) : ℝ))

theorem mb_le_of_val {F : Fmt} {x c : Flt F} (h : |c.val| ≤ |x.val|) : c.mb ≤ x.mb := by
  by_contra hc
  have h1 : x.mag < c.mag := (magOf_lt (sb := F.sb)).2 (by omega)
  rw [val_abs, val_abs] at h
  have h2 : (x.mag : ℝ) < c.mag := by exact_mod_cast h1
  have hu : (0 : ℝ) < ((F.ulp : ℚ) : ℝ) := by exact_mod_cast F.ulp_pos
  nlinarith

theorem arcsin_lt_bias {F : Fmt} (h : 4 ≤ F.bias) (X : ℝ) : |Real.arcsin X| < 2 ^ ((F.bias : ℤ) - 1) := by
  have h1 := Real.arcsin_le_pi_div_two X
  have h2 := Real.neg_pi_div_two_le_arcsin X
  have h3 := Real.pi_lt_four
  have h4 : (2 : ℝ) ^ (2 : ℤ) ≤ 2 ^ ((F.bias : ℤ) - 1) := zpow_le_zpow_right₀ (by norm_num) (by omega)
  norm_num at h4
  rw [abs_lt]; constructor <;> linarith

theorem small_lt_bias {F : Fmt} (h : 4 ≤ F.bias) {t : ℝ} (ht : |t| < 4) : |t| < 2 ^ ((F.bias : ℤ) - 1) := by
  have h4 : (2 : ℝ) ^ (2 : ℤ) ≤ 2 ^ ((F.bias : ℤ) - 1) := zpow_le_zpow_right₀ (by norm_num) (by omega)
  norm_num at h4
  linarith

theorem arcsin_tiny {x : ℝ} (h : |x| ≤ 2 ^ (-10 : ℤ)) : |x - Real.arcsin x| ≤ |x| * (0.17 * x ^ 2) := by
  have h10 : |x| ≤ 1 / 1024 := h.trans (by norm_num)
  have hx2 : x ^ 2 ≤ 1 / 2 ^ 20 := by
    have := pow_le_pow_left₀ (abs_nonneg x) h10 2
    rw [sq_abs] at this; norm_num at this ⊢; linarith
  have key : ∀ y : ℝ, 0 ≤ y → y ≤ 1 / 1024 → Real.arcsin y - y ≤ y * (0.17 * y ^ 2) := by
    intro y h0 h1
    rcases h0.eq_or_lt with rfl | hp
    · simp
    have t0 := Real.arcsin_pos.2 hp
    have hs := Real.sin_arcsin (x := y) (by linarith) (by linarith)
    have hb : Real.arcsin y ≤ 1.001 * y := by
      have := arcsin_cube (x := y) (by rw [abs_of_pos hp]; linarith)
      rw [abs_of_pos hp] at this
      have h2 := (abs_le.1 this).1
      have h3 : y * y ^ 2 ≤ 0.001 * y := by
        have : y ^ 2 ≤ (1 / 1024) ^ 2 := pow_le_pow_left₀ h0 h1 2
        norm_num at this ⊢; nlinarith
      norm_num at h3 ⊢; linarith
    have hc := Real.sin_gt_sub_cube t0
    rw [hs] at hc
    have hcube : Real.arcsin y ^ 3 ≤ (1.001 * y) ^ 3 := pow_le_pow_left₀ t0.le hb 3
    have : 0 < y ^ 3 := pow_pos hp 3
    norm_num at hcube ⊢
    nlinarith
  have hge := arcsin_abs_ge (x := x) (by linarith)
  rcases le_total 0 x with h0 | h0
  · rw [abs_of_nonneg h0] at h10 hge ⊢
    rw [abs_of_nonneg (Real.arcsin_nonneg.2 h0)] at hge
    rw [abs_of_nonpos (by linarith)]
    linarith [key x h0 h10]
  · rw [abs_of_nonpos h0] at h10 hge ⊢
    rw [abs_of_nonpos (Real.arcsin_nonpos.2 h0)] at hge
    have k := key (-x) (by linarith) h10
    rw [Real.arcsin_neg] at k
    rw [abs_of_nonneg (by linarith)]
    have e : (-x) ^ 2 = x ^ 2 := by ring
    rw [e] at k
    linarith


namespace Asin
/-- the rational function of the code, with exact arithmetic, at `σ` -/
noncomputable def rho (σ : ℝ) : ℝ := σ ^ 2 * Poly.ev pl (σ ^ 2) / Poly.ev ql (σ ^ 2)

theorem rho_approx {x : ℝ} (h : |x| ≤ 1 / 2) : |x + x * rho x - Real.arcsin x| ≤ |x| * (197 / 2 ^ 67) := approx h
theorem sq_le_q {x : ℝ} (h : |x| ≤ 1 / 2) : x ^ 2 ≤ 1 / 4 := by
  have : |x| ^ 2 ≤ (1 / 2) ^ 2 := pow_le_pow_left₀ (abs_nonneg _) h 2
  rw [sq_abs] at this; norm_num at this ⊢; linarith
theorem rho_bd {x : ℝ} (h : |x| ≤ 1 / 2) : |rho x| ≤ 97 / 2048 := ratio_bd (_root_.sq_nonneg x) (sq_le_q h)
theorem arcsin_le_c {x : ℝ} (h : |x| ≤ 1 / 2) : |Real.arcsin x| ≤ 1.0475 * |x| := by
  have h1 := rho_approx h
  have h2 := rho_bd h
  have e : Real.arcsin x = x + x * rho x - (x + x * rho x - Real.arcsin x) := by ring
  rw [e]
  refine (abs_sub _ _).trans ((add_le_add ((abs_add_le _ _).trans (add_le_add le_rfl (le_of_eq (abs_mul _ _)))) h1).trans ?_)
  have := mul_le_mul_of_nonneg_left h2 (abs_nonneg x)
  norm_num at this ⊢
  have := abs_nonneg x
  linarith
theorem kern_rt {z : Flt f64} (hf : z.isFinite) (h0 : 0 ≤ z.val) (h1 : z.val ≤ 1 / 4) : Ap (compR z) (rho (√z.val)) (2377 / 2 ^ 66) (1589249 / 2 ^ 25) := by
  unfold rho
  rw [Real.sq_sqrt h0]
  exact kern hf h0 h1

theorem kern_sq {x : Flt f64} (xf : x.isFinite) (h : |x.val| ≤ 1 / 2) : Ap (compR (x * x)) (rho x.val) (2633 / 2 ^ 66) (1589249 / 2 ^ 25) := by
  have hq := sq_le_q h
  have hq0 := _root_.sq_nonneg x.val
  have e : x.val * x.val = x.val ^ 2 := by ring
  obtain ⟨zf, ze⟩ := mul_err64 xf xf (-2) (by rw [e, abs_of_nonneg hq0]; norm_num at hq ⊢; linarith) (by norm_num) (by norm_num)
  have qv : (0.25 : Flt f64).val = 1 / 4 := by
    rw [val_const64 1 1072 (-2) (by decide +kernel) (by norm_num)]; norm_num
  have z1 := (mul_rne xf xf).le_of_le zf (s := (0.25 : Flt f64)) (by decide +kernel) (by rw [qv, e]; exact hq)
  rw [qv] at z1
  have zv : (zero f64 false).val = 0 := isZero_val.1 (by decide +kernel)
  have z0 := (mul_rne xf xf).ge_of_ge zf (s := zero f64 false) (by decide +kernel) (by rw [zv, e]; exact hq0)
  rw [zv] at z0
  refine (kern zf z0 z1).change (f := 1 / 4 * 2 ^ (-2 - 54 : ℤ)) ?_ (by norm_num)
  rw [e] at ze
  exact (ratio_lip hq0 hq z0 z1).trans (mul_le_mul_of_nonneg_left ze (by norm_num))

/-- the rational branch of the arcsine -/
theorem small_acc {x : Flt f64} (xf : x.isFinite) (h1 : 2 ^ (-26 : ℤ) ≤ |x.val|) (h2 : |x.val| ≤ 1 / 2) : WithinUlp 0.99 (x + x * compR (x * x)) (Real.arcsin x.val) := by
  have hP := kern_sq xf h2
  have hpe := hP.err
  have hpb := hP.bd
  have hx0 : 0 < |x.val| := lt_of_lt_of_le (by positivity) h1
  generalize compR (x * x) = R at *
  have hmb : |x.val * R.val| ≤ |x.val| * (1589249 / 2 ^ 25) := by rw [abs_mul]; exact mul_le_mul_of_nonneg_left hpb hx0.le
  obtain ⟨mf, me⟩ := (mul_rne xf hP.fin).mixed (hmb.trans (le_trans (b := 1) (by norm_num at h2 ⊢; linarith) (by rw [f64_bias]; exact le_trans (by norm_num) (mul_le_mul_of_nonneg_left (two_le_zp (by norm_num)) (by norm_num))))) (by rw [f64_bias]; norm_num)
  have me2 : |(x * R).val - x.val * R.val| ≤ |x.val| * ((1589249 / 2 ^ 25) * (1 / 2 ^ 53) + 1 / 2 ^ 53 / 2 ^ 10) := by
    refine me.trans ?_
    rw [mul_add, ← mul_assoc]
    refine add_le_add (mul_le_mul hmb (by rw [f64_sb]; norm_num) (by positivity) (by positivity)) ?_
    have h3 : (2 : ℝ) ^ (-(f64.bias : ℤ) - f64.sb) ≤ 2 ^ (-26 : ℤ) * (1 / 2 ^ 53 / 2 ^ 10) := by
      rw [f64_bias, f64_sb]
      have : (1 / 2 ^ 53 / 2 ^ 10 : ℝ) = 2 ^ (-63 : ℤ) := by norm_num
      rw [this, ← zpow_add₀ (by norm_num)]
      exact zpow_le_zpow_right₀ (by norm_num) (by norm_num)
    exact h3.trans (mul_le_mul_of_nonneg_right h1 (by norm_num))
  have ha := rho_approx h2
  have hlow := arcsin_abs_ge (x := x.val) (h2.trans (by norm_num))
  have hne : Real.arcsin x.val ≠ 0 := by
    intro h0; rw [h0, abs_zero] at hlow; linarith
  have htot : |x.val + (x * R).val - Real.arcsin x.val| ≤ 0.489 * (1 / 2 ^ 53) * |x.val| := by
    have e : x.val + (x * R).val - Real.arcsin x.val = (x.val + x.val * rho x.val - Real.arcsin x.val)
        + x.val * (R.val - rho x.val) + ((x * R).val - x.val * R.val) := by ring
    rw [e]
    refine (abs_add_three _ _ _).trans ?_
    rw [abs_mul]
    have h4 := mul_le_mul_of_nonneg_left hpe hx0.le
    norm_num at ha h4 me2 ⊢
    linarith
  refine WithinUlp.of_rne_rel (add_rne xf mf) hne (arcsin_lt_bias (by rw [f64_bias]; norm_num) _) (by rw [f64_bias]; norm_num) (ε := 0.489 * (1 / 2 ^ 53)) ?_ (by norm_num) (by rw [f64_sb]; norm_num) (by rw [f64_sb]; norm_num)
  exact htot.trans (mul_le_mul_of_nonneg_left hlow (by norm_num))

/-- a small argument, returned as it is -/
theorem tiny_acc {x r : Flt f64} (rf : r.isFinite) (hr : r.val = x.val) (h : |x.val| ≤ 2 ^ (-26 : ℤ)) : WithinUlp 0.99 r (Real.arcsin x.val) := by
  have hs := arcsin_tiny (x := x.val) (h.trans (zpow_le_zpow_right₀ (by norm_num) (by norm_num)))
  have hz : x.val ^ 2 ≤ 1 / 2 ^ 52 := by
    have : |x.val| ^ 2 ≤ (2 ^ (-26 : ℤ)) ^ 2 := pow_le_pow_left₀ (abs_nonneg _) h 2
    rw [sq_abs] at this; norm_num at this ⊢; linarith
  have h5 := mul_le_mul_of_nonneg_left (mul_le_mul_of_nonneg_left hz (by norm_num : (0 : ℝ) ≤ 0.17)) (abs_nonneg x.val)
  have hlow := arcsin_abs_ge (x := x.val) (h.trans (zp_le_quarter (by norm_num) |>.trans (by norm_num)))
  refine WithinUlp.of_rel rf (ε := 0.17 * (1 / 2 ^ 52)) ?_ (by norm_num) (by rw [f64_sb]; norm_num)
  rw [hr]
  refine (hs.trans h5).trans ?_
  rw [mul_comm]
  exact mul_le_mul_of_nonneg_left hlow (by norm_num)

/-- below the normal numbers the square vanishes -/
theorem sub_val {x : Flt f64} (xf : x.isFinite) (h : |x.val| < 2 ^ (-1022 : ℤ)) : (x + x * compR (x * x)).isFinite ∧ (x + x * compR (x * x)).val = x.val := by
  have hq0 := mul_self_nonneg x.val
  have hq : x.val * x.val ≤ 2 ^ (-1022 : ℤ) * 2 ^ (-1022 : ℤ) := by
    rw [← abs_mul_abs_self]
    exact mul_le_mul h.le h.le (abs_nonneg _) (by positivity)
  have hq1 : x.val * x.val ≤ 1 / 4 * 2 ^ (1 - (f64.bias : ℤ) - f64.sb) := by
    refine hq.trans ?_
    rw [f64_bias, f64_sb, ← zpow_add₀ (by norm_num), show (1 / 4 : ℝ) = 2 ^ (-2 : ℤ) by norm_num, ← zpow_add₀ (by norm_num)]
    exact zpow_le_zpow_right₀ (by norm_num) (by norm_num)
  have hm := mul_rne xf xf
  obtain ⟨zf, ze⟩ := mul_err64 xf xf (-1021) (by
    rw [abs_of_nonneg hq0]
    refine hq.trans ?_
    rw [← zpow_add₀ (by norm_num)]
    exact zpow_le_zpow_right₀ (by norm_num) (by norm_num)) (by norm_num) (by norm_num)
  have hz : (x * x).isZero := by
    by_contra hc
    have h1 := val_ge_min hc
    have e : (2 : ℝ) ^ (-1021 - 54 : ℤ) = 1 / 2 * 2 ^ (1 - (f64.bias : ℤ) - f64.sb) := by
      rw [f64_bias, f64_sb, show (1 / 2 : ℝ) = 2 ^ (-1 : ℤ) by norm_num, ← zpow_add₀ (by norm_num)]
      norm_num
    rw [e] at ze
    have hp : (0 : ℝ) < 2 ^ (1 - (f64.bias : ℤ) - f64.sb) := by positivity
    have h2 := abs_sub_abs_le_abs_sub (x * x).val (x.val * x.val)
    rw [abs_of_nonneg hq0] at h2
    generalize (2 : ℝ) ^ (1 - (f64.bias : ℤ) - f64.sb) = t at *
    linarith
  have hR : ∀ s, (compR (zero f64 s)).isFinite ∧ (compR (zero f64 s)).isZero := by decide +kernel
  obtain ⟨s, hs⟩ : ∃ s, x * x = zero f64 s := ⟨(x * x).sign, ext_mb (by rw [sign_zero]) (by rw [mb_zero]; exact (isZero_iff _).1 hz)⟩
  rw [hs]
  obtain ⟨Rf, Rz⟩ := hR s
  generalize compR (zero f64 s) = R at *
  have zv : (zero f64 false).val = 0 := isZero_val.1 (by decide +kernel)
  obtain ⟨mf, mv⟩ := (mul_rne xf Rf).exact_real (z := zero f64 false) (by decide +kernel) (by rw [zv, isZero_val.1 Rz, mul_zero])
  have := (add_rne xf mf).exact_real (z := x) xf (by rw [mv, isZero_val.1 Rz]; ring)
  refine ⟨this.1, ?_⟩
  rw [this.2, mv, isZero_val.1 Rz]; ring

theorem pi_split : |pio2Hi.val + pio2Lo.val - Real.pi / 2| ≤ 1 / 2 ^ 66 := by
  have p1 := Real.pi_gt_d20
  have p2 := Real.pi_lt_d20
  rw [pio2Hi_val, pio2Lo_val, abs_le]
  norm_num at p1 p2 ⊢
  constructor <;> linarith
theorem hi_fin : pio2Hi.isFinite := by decide +kernel
theorem lo_ap : Ap pio2Lo pio2Lo.val 0 (1 / 2 ^ 53) := .exact (by decide +kernel) rfl (by rw [pio2Lo_val, abs_le]; constructor <;> norm_num)

/-- the middle branch of the arccosine -/
theorem acos_mid {x : Flt f64} (xf : x.isFinite) (h : |x.val| ≤ 1 / 2) : WithinUlp 0.99 (pio2Hi - (x - (pio2Lo - x * compR (x * x)))) (Real.arccos x.val) := by
  have hx : Ap x x.val 0 (1 / 2) := .exact xf rfl h
  have hR := kern_sq xf h
  have hm := Ap.mul hx hR (-5) (by norm_num) (by norm_num) (by norm_num) (g := (2889 / 2 ^ 67)) (D := (794625 / 2 ^ 25)) (by norm_num) (by norm_num)
  have hl := Ap.sub lo_ap hm (-5) (by norm_num) (by norm_num) (g := (3145 / 2 ^ 67)) (D := (99329 / 2 ^ 22)) (by norm_num) (by norm_num)
  have hy := Ap.sub hx hl 0 (by norm_num) (by norm_num) (g := (11337 / 2 ^ 67)) (D := 1) (by norm_num) (by norm_num)
  have ha := rho_approx h
  have hc := arcsin_le_c h
  have hp := pi_split
  have p1 := Real.pi_gt_d20
  have p2 := Real.pi_lt_d20
  have hc2 := abs_le.1 hc
  have t1 : (1 : ℝ) ≤ Real.arccos x.val := by
    rw [Real.arccos]; norm_num at hc2 p1 h ⊢; linarith [hc2.2]
  have t2 : Real.arccos x.val < 4 := by
    rw [Real.arccos]; norm_num at hc2 p2 h ⊢; linarith [hc2.1]
  have ta : |Real.arccos x.val| = Real.arccos x.val := abs_of_pos (by linarith)
  refine WithinUlp.of_rne_abs2 0 (sub_rne hi_fin hy.fin) (by rw [ta]; norm_num; exact t1) (small_lt_bias (by rw [f64_bias]; norm_num) (by rw [ta]; exact t2)) (by rw [f64_bias]; norm_num) (a := 0.97 * (1 / 2 ^ 53)) ?_ (δ := 0.485) (by rw [f64_sb]; norm_num) (by norm_num) (by norm_num) (by norm_num)
  have e : pio2Hi.val - (x - (pio2Lo - x * compR (x * x))).val - Real.arccos x.val = (pio2Hi.val + pio2Lo.val - Real.pi / 2) - ((x - (pio2Lo - x * compR (x * x))).val - (x.val - (pio2Lo.val - x.val * rho x.val))) - (x.val + x.val * rho x.val - Real.arcsin x.val) := by
    rw [Real.arccos]; ring
  rw [e]
  refine (abs_sub _ _).trans ((add_le_add (abs_sub _ _) le_rfl).trans ?_)
  have := hy.err
  norm_num at this hp ha h ⊢
  linarith

/-- the branch below `-1/2` of the arccosine -/
theorem acos_neg {z s : Flt f64} (zf : z.isFinite) (sf : s.isFinite) (h0 : 0 ≤ z.val) (h1 : z.val ≤ 1 / 4) (hu : √z.val ≤ 1 / 2) (hs : |s.val - √z.val| ≤ 2 ^ (-1 - 54 : ℤ)) (hs1 : |s.val| ≤ 1 / 2) :
    WithinUlp 0.99 (2.0 * (pio2Hi - (s + (compR z * s - pio2Lo)))) (2 * (Real.pi / 2 - Real.arcsin (√z.val))) := by
  have hS : Ap s (√z.val) (1 / 2 ^ 55) (1 / 2) := ⟨sf, hs.trans (by norm_num), hs1⟩
  have hR := kern_rt zf h0 h1
  have hm := Ap.mul hR hS (-5) (by norm_num) (by norm_num) (by norm_num) (g := (90465 / 2 ^ 72)) (D := (794625 / 2 ^ 25)) (by norm_num) (by norm_num)
  have hw := Ap.sub hm lo_ap (-5) (by norm_num) (by norm_num) (g := (98657 / 2 ^ 72)) (D := (99329 / 2 ^ 22)) (by norm_num) (by norm_num)
  have hy := Ap.add hS hw 0 (by norm_num) (by norm_num) (g := (122969 / 2 ^ 70)) (D := (68641 / 2 ^ 17)) (by norm_num) (by norm_num)
  have hσ0 := Real.sqrt_nonneg z.val
  set σ := √z.val
  have hσ : |σ| ≤ 1 / 2 := by rw [abs_of_nonneg hσ0]; exact hu
  have ha := rho_approx hσ
  have hc := arcsin_le_c hσ
  have hp := pi_split
  have p1 := Real.pi_gt_d20
  have p2 := Real.pi_lt_d20
  have hc2 := abs_le.1 hc
  have t1 : (1 : ℝ) ≤ Real.pi / 2 - Real.arcsin σ := by
    norm_num at hc2 p1 hσ ⊢; linarith [hc2.2]
  have t2 : Real.pi / 2 - Real.arcsin σ < 4 := by
    norm_num at hc2 p2 hσ ⊢; linarith [hc2.1]
  have ta : |Real.pi / 2 - Real.arcsin σ| = Real.pi / 2 - Real.arcsin σ := abs_of_pos (by linarith)
  have hW : WithinUlp 0.99 (pio2Hi - (s + (compR z * s - pio2Lo))) (Real.pi / 2 - Real.arcsin σ) := by
    refine WithinUlp.of_rne_abs2 0 (sub_rne hi_fin hy.fin) (by rw [ta]; norm_num; linarith) (small_lt_bias (by rw [f64_bias]; norm_num) (by rw [ta]; exact t2)) (by rw [f64_bias]; norm_num) (a := 0.98 * (1 / 2 ^ 53)) ?_ (δ := 0.49) (by rw [f64_sb]; norm_num) (by norm_num) (by norm_num) (by norm_num)
    have e : pio2Hi.val - (s + (compR z * s - pio2Lo)).val - (Real.pi / 2 - Real.arcsin σ) = (pio2Hi.val + pio2Lo.val - Real.pi / 2) - ((s + (compR z * s - pio2Lo)).val - (σ + (rho σ * σ - pio2Lo.val))) - (σ + σ * rho σ - Real.arcsin σ) := by ring
    rw [e]
    refine (abs_sub _ _).trans ((add_le_add (abs_sub _ _) le_rfl).trans ?_)
    have := hy.err
    norm_num at this hp ha hσ ⊢
    linarith
  have hyb := hy.bd
  have hhi : pio2Hi.val ≤ 1.6 ∧ 1.5 ≤ pio2Hi.val := by rw [pio2Hi_val]; constructor <;> norm_num
  obtain ⟨yf, ye⟩ := sub_err64 hi_fin hy.fin 2 (by
    have := abs_le.1 hyb; norm_num at this hhi ⊢; rw [abs_le]; constructor <;> linarith [hhi.1, hhi.2]) (by norm_num)
  have hy1 : 0.5 ≤ (pio2Hi - (s + (compR z * s - pio2Lo))).val ∧ (pio2Hi - (s + (compR z * s - pio2Lo))).val ≤ 3 := by
    have a := abs_le.1 hyb; have b := abs_le.1 ye
    norm_num at a b hhi ⊢
    constructor <;> linarith [hhi.1, hhi.2]
  norm_num at hy1
  have hab : |(pio2Hi - (s + (compR z * s - pio2Lo))).val| = (pio2Hi - (s + (compR z * s - pio2Lo))).val := abs_of_pos (by linarith [hy1.1])
  obtain ⟨df, dv⟩ := dbl yf (by rw [hab]; norm_num; linarith [hy1.1]) (by rw [hab]; linarith [hy1.2])
  exact hW.double (by rw [ta, f64_bias]; exact (zpow_le_one_of_nonpos₀ (by norm_num) (by norm_num)).trans t1) df dv

/-- the branch above `1/2` of the arccosine -/
theorem acos_pos {z s f c : Flt f64} (zf : z.isFinite) (sf : s.isFinite) (ff : f.isFinite) (cf : c.isFinite) (h0 : 0 ≤ z.val) (h1 : z.val ≤ 1 / 4) (hl : 2 ^ (-28 : ℤ) ≤ √z.val) (hu : √z.val ≤ 1 / 2)
    (hs : |s.val - √z.val| ≤ √z.val * 2 ^ (-53 : ℤ)) (hc : |c.val - (√z.val - f.val)| ≤ √z.val * (3 / 2 ^ 19 / 2 ^ 53)) (hf : |√z.val - f.val| ≤ √z.val * (1 / 2 ^ 19)) :
    WithinUlp 0.99 (2.0 * (f + (compR z * s + c))) (2 * Real.arcsin (√z.val)) := by
  have hR := kern_rt zf h0 h1
  have hσa : |√z.val| ≤ 1 / 2 := by rw [abs_of_nonneg (Real.sqrt_nonneg _)]; exact hu
  have hRe := hR.err
  have hRb := hR.bd
  set σ := √z.val with hσ
  have hσ0 : 0 < σ := lt_of_lt_of_le (by positivity) hl
  have ha := rho_approx hσa
  have hrb := rho_bd hσa
  rw [abs_of_pos hσ0] at ha
  generalize compR z = R at *
  have hs2 := abs_le.1 hs
  norm_num at hs2
  have hs0 : 0 < s.val := by linarith [hs2.1]
  have hs3 : s.val ≤ 1.001 * σ := by norm_num; linarith [hs2.2]
  have B0 : (4 : ℝ) ≤ 3 / 2 * 2 ^ (f64.bias : ℤ) := by
    rw [f64_bias]
    have h4 : (4 : ℝ) ≤ 2 ^ ((1023 : ℕ) : ℤ) := by
      rw [show (4 : ℝ) = 2 ^ (2 : ℤ) by norm_num]
      exact zpow_le_zpow_right₀ (by norm_num) (by norm_num)
    generalize (2 : ℝ) ^ ((1023 : ℕ) : ℤ) = t at h4
    linarith
  have tiny := tiny2 hl
  -- R s
  have m1 : |R.val * s.val| ≤ σ * 0.0475 := by
    rw [abs_mul, abs_of_pos hs0]
    refine (mul_le_mul hRb hs3 hs0.le (by norm_num)).trans ?_
    norm_num; linarith
  obtain ⟨mf, me⟩ := (mul_rne hR.fin sf).mixed (m1.trans (le_trans (b := 4) (by norm_num; linarith) B0)) (by rw [f64_bias]; norm_num)
  have me2 : |(R * s).val - R.val * s.val| ≤ σ * (0.0476 / 2 ^ 53) := by
    refine me.trans ?_
    have := mul_le_mul_of_nonneg_right m1 (by positivity : (0 : ℝ) ≤ 2 ^ (-1 - (f64.sb : ℤ)))
    refine (add_le_add this tiny).trans ?_
    rw [f64_sb]; norm_num; linarith
  have m2 : |R.val * s.val - rho σ * σ| ≤ σ * (1.001 * (2377 / 2 ^ 66) + 0.0474 / 2 ^ 53) := by
    have e : R.val * s.val - rho σ * σ = (R.val - rho σ) * s.val + rho σ * (s.val - σ) := by ring
    rw [e]
    refine (abs_add_le _ _).trans ?_
    rw [abs_mul, abs_mul, abs_of_pos hs0]
    have a := mul_le_mul hRe hs3 hs0.le (by norm_num)
    have b := mul_le_mul hrb hs (abs_nonneg _) (by norm_num)
    refine (add_le_add a b).trans ?_
    norm_num; linarith
  have m3 : |(R * s).val - rho σ * σ| ≤ σ * (1.001 * (2377 / 2 ^ 66) + 0.095 / 2 ^ 53) := by
    have := abs_sub_le (R * s).val (R.val * s.val) (rho σ * σ)
    norm_num at me2 m2 ⊢; linarith
  -- w
  have w0 : |(R * s).val + c.val - (rho σ * σ + (σ - f.val))| ≤ σ * (1.001 * (2377 / 2 ^ 66) + 0.095 / 2 ^ 53 + 3 / 2 ^ 19 / 2 ^ 53) := by
    have e : (R * s).val + c.val - (rho σ * σ + (σ - f.val)) = ((R * s).val - rho σ * σ) + (c.val - (σ - f.val)) := by ring
    rw [e]
    refine (abs_add_le _ _).trans ((add_le_add m3 hc).trans (le_of_eq (by ring)))
  have w1 : |rho σ * σ + (σ - f.val)| ≤ σ * 0.0486 := by
    refine (abs_add_le _ _).trans ?_
    rw [abs_mul, abs_of_pos hσ0]
    have := mul_le_mul_of_nonneg_right hrb hσ0.le
    norm_num at this hf ⊢; linarith
  have w2 : |(R * s).val + c.val| ≤ σ * 0.049 := by
    have a := abs_le.1 w0; have b := abs_le.1 w1
    norm_num at a b ⊢
    rw [abs_le]; constructor <;> linarith [a.1, a.2, b.1, b.2]
  obtain ⟨wf, we⟩ := (add_rne mf cf).mixed (w2.trans (le_trans (b := 4) (by norm_num; linarith) B0)) (by rw [f64_bias]; norm_num)
  have we2 : |(R * s + c).val - ((R * s).val + c.val)| ≤ σ * (0.0491 / 2 ^ 53) := by
    refine we.trans ?_
    have := mul_le_mul_of_nonneg_right w2 (by positivity : (0 : ℝ) ≤ 2 ^ (-1 - (f64.sb : ℤ)))
    refine (add_le_add this tiny).trans ?_
    rw [f64_sb]; norm_num; linarith
  have ge := arcsin_ge hσ0.le (by linarith)
  have tpos : 0 < Real.arcsin σ := by linarith
  have htot : |f.val + (R * s + c).val - Real.arcsin σ| ≤ 0.489 * (1 / 2 ^ 53) * σ := by
    have e : f.val + (R * s + c).val - Real.arcsin σ = ((R * s + c).val - ((R * s).val + c.val)) + ((R * s).val + c.val - (rho σ * σ + (σ - f.val))) + (σ + σ * rho σ - Real.arcsin σ) := by ring
    rw [e]
    refine (abs_add_three _ _ _).trans ?_
    norm_num at we2 w0 ha ⊢
    linarith
  have hW : WithinUlp 0.99 (f + (R * s + c)) (Real.arcsin σ) := by
    refine WithinUlp.of_rne_rel (add_rne ff wf) tpos.ne' (arcsin_lt_bias (by rw [f64_bias]; norm_num) _) (by rw [f64_bias]; norm_num) (ε := 0.489 * (1 / 2 ^ 53)) ?_ (by norm_num) (by rw [f64_sb]; norm_num) (by rw [f64_sb]; norm_num)
    rw [abs_of_pos tpos]
    exact htot.trans (mul_le_mul_of_nonneg_left ge (by norm_num))
  have hc1 := arcsin_le_c hσa
  rw [abs_of_pos hσ0, abs_of_pos tpos] at hc1
  have q1 : |f.val + (R * s + c).val| ≤ 1.1 * σ := by
    have a := abs_le.1 htot
    norm_num at a hc1 ⊢
    rw [abs_le]; constructor <;> linarith [a.1, a.2]
  have q0 : 0.9 * σ ≤ f.val + (R * s + c).val := by
    have a := abs_le.1 htot
    norm_num at a ⊢
    linarith [a.1]
  obtain ⟨yf, ye⟩ := (add_rne ff wf).mixed (q1.trans (le_trans (b := 4) (by norm_num; linarith) B0)) (by rw [f64_bias]; norm_num)
  have ye2 : |(f + (R * s + c)).val - (f.val + (R * s + c).val)| ≤ σ * 0.01 := by
    refine ye.trans ?_
    have := mul_le_mul_of_nonneg_right q1 (by positivity : (0 : ℝ) ≤ 2 ^ (-1 - (f64.sb : ℤ)))
    refine (add_le_add this tiny).trans ?_
    rw [f64_sb]; norm_num; linarith
  have ya := abs_le.1 ye2
  have qa := abs_le.1 q1
  norm_num at ya qa q0
  have yp : 0.8 * σ ≤ (f + (R * s + c)).val := by norm_num; linarith [ya.1]
  norm_num at yp
  obtain ⟨df, dv⟩ := dbl yf (by
    rw [abs_of_pos (by linarith)]
    refine le_trans ?_ yp
    norm_num at hl ⊢; linarith) (by rw [abs_of_pos (by linarith)]; linarith [ya.2])
  refine hW.double ?_ df dv
  rw [abs_of_pos tpos, f64_bias]
  exact ((zpow_le_zpow_right₀ (by norm_num) (by norm_num)).trans hl).trans ge
end Asin

namespace Asinf
/-- the rational function of the code, with exact arithmetic, at `σ` -/
noncomputable def rho (σ : ℝ) : ℝ := σ ^ 2 * Poly.ev pl (σ ^ 2) / Poly.ev ql (σ ^ 2)

theorem rho_approx {x : ℝ} (h : |x| ≤ 1 / 2) : |x + x * rho x - Real.arcsin x| ≤ |x| * (75 / 2 ^ 33) := approx h
theorem sq_le_q {x : ℝ} (h : |x| ≤ 1 / 2) : x ^ 2 ≤ 1 / 4 := by
  have : |x| ^ 2 ≤ (1 / 2) ^ 2 := pow_le_pow_left₀ (abs_nonneg _) h 2
  rw [sq_abs] at this; norm_num at this ⊢; linarith
theorem rho_bd {x : ℝ} (h : |x| ≤ 1 / 2) : |rho x| ≤ 97 / 2048 := ratio_bd (_root_.sq_nonneg x) (sq_le_q h)
theorem arcsin_le_c {x : ℝ} (h : |x| ≤ 1 / 2) : |Real.arcsin x| ≤ 1.0475 * |x| := by
  have h1 := rho_approx h
  have h2 := rho_bd h
  have e : Real.arcsin x = x + x * rho x - (x + x * rho x - Real.arcsin x) := by ring
  rw [e]
  refine (abs_sub _ _).trans ((add_le_add ((abs_add_le _ _).trans (add_le_add le_rfl (le_of_eq (abs_mul _ _)))) h1).trans ?_)
  have := mul_le_mul_of_nonneg_left h2 (abs_nonneg x)
  norm_num at this ⊢
  have := abs_nonneg x
  linarith
theorem kern_rt {z : Flt f32} (hf : z.isFinite) (h0 : 0 ≤ z.val) (h1 : z.val ≤ 1 / 4) : Ap32 (r z) (rho (√z.val)) (19 / 2 ^ 31) (1589249 / 2 ^ 25) := by
  unfold rho
  rw [Real.sq_sqrt h0]
  exact kern hf h0 h1

theorem kern_sq {x : Flt f32} (xf : x.isFinite) (h : |x.val| ≤ 1 / 2) : Ap32 (r (x * x)) (rho x.val) (23 / 2 ^ 31) (1589249 / 2 ^ 25) := by
  have hq := sq_le_q h
  have hq0 := _root_.sq_nonneg x.val
  have e : x.val * x.val = x.val ^ 2 := by ring
  obtain ⟨zf, ze⟩ := mul_err32 xf xf (-2) (by rw [e, abs_of_nonneg hq0]; norm_num at hq ⊢; linarith) (by norm_num) (by norm_num)
  have qv : (0.25 : Flt f32).val = 1 / 4 := by
    rw [val_const32 1 147 (-2) (by decide +kernel) (by norm_num)]; norm_num
  have z1 := (mul_rne xf xf).le_of_le zf (s := (0.25 : Flt f32)) (by decide +kernel) (by rw [qv, e]; exact hq)
  rw [qv] at z1
  have zv : (zero f32 false).val = 0 := isZero_val.1 (by decide +kernel)
  have z0 := (mul_rne xf xf).ge_of_ge zf (s := zero f32 false) (by decide +kernel) (by rw [zv, e]; exact hq0)
  rw [zv] at z0
  refine (kern zf z0 z1).change (f := 1 / 4 * 2 ^ (-2 - 25 : ℤ)) ?_ (by norm_num)
  rw [e] at ze
  exact (ratio_lip hq0 hq z0 z1).trans (mul_le_mul_of_nonneg_left ze (by norm_num))

/-- the rational branch of the arcsine -/
theorem small_acc {x : Flt f32} (xf : x.isFinite) (h1 : 2 ^ (-12 : ℤ) ≤ |x.val|) (h2 : |x.val| ≤ 1 / 2) : WithinUlp 0.99 (x + x * r (x * x)) (Real.arcsin x.val) := by
  have hP := kern_sq xf h2
  have hpe := hP.err
  have hpb := hP.bd
  have hx0 : 0 < |x.val| := lt_of_lt_of_le (by positivity) h1
  generalize r (x * x) = R at *
  have hmb : |x.val * R.val| ≤ |x.val| * (1589249 / 2 ^ 25) := by rw [abs_mul]; exact mul_le_mul_of_nonneg_left hpb hx0.le
  obtain ⟨mf, me⟩ := (mul_rne xf hP.fin).mixed (hmb.trans (le_trans (b := 1) (by norm_num at h2 ⊢; linarith) (by rw [f32_bias]; exact le_trans (by norm_num) (mul_le_mul_of_nonneg_left (two_le_zp (by norm_num)) (by norm_num))))) (by rw [f32_bias]; norm_num)
  have me2 : |(x * R).val - x.val * R.val| ≤ |x.val| * ((1589249 / 2 ^ 25) * (1 / 2 ^ 24) + 1 / 2 ^ 24 / 2 ^ 10) := by
    refine me.trans ?_
    rw [mul_add, ← mul_assoc]
    refine add_le_add (mul_le_mul hmb (by rw [f32_sb]; norm_num) (by positivity) (by positivity)) ?_
    have h3 : (2 : ℝ) ^ (-(f32.bias : ℤ) - f32.sb) ≤ 2 ^ (-12 : ℤ) * (1 / 2 ^ 24 / 2 ^ 10) := by
      rw [f32_bias, f32_sb]
      have : (1 / 2 ^ 24 / 2 ^ 10 : ℝ) = 2 ^ (-34 : ℤ) := by norm_num
      rw [this, ← zpow_add₀ (by norm_num)]
      exact zpow_le_zpow_right₀ (by norm_num) (by norm_num)
    exact h3.trans (mul_le_mul_of_nonneg_right h1 (by norm_num))
  have ha := rho_approx h2
  have hlow := arcsin_abs_ge (x := x.val) (h2.trans (by norm_num))
  have hne : Real.arcsin x.val ≠ 0 := by
    intro h0; rw [h0, abs_zero] at hlow; linarith
  have htot : |x.val + (x * R).val - Real.arcsin x.val| ≤ 0.489 * (1 / 2 ^ 24) * |x.val| := by
    have e : x.val + (x * R).val - Real.arcsin x.val = (x.val + x.val * rho x.val - Real.arcsin x.val)
        + x.val * (R.val - rho x.val) + ((x * R).val - x.val * R.val) := by ring
    rw [e]
    refine (abs_add_three _ _ _).trans ?_
    rw [abs_mul]
    have h4 := mul_le_mul_of_nonneg_left hpe hx0.le
    norm_num at ha h4 me2 ⊢
    linarith
  refine WithinUlp.of_rne_rel (add_rne xf mf) hne (arcsin_lt_bias (by rw [f32_bias]; norm_num) _) (by rw [f32_bias]; norm_num) (ε := 0.489 * (1 / 2 ^ 24)) ?_ (by norm_num) (by rw [f32_sb]; norm_num) (by rw [f32_sb]; norm_num)
  exact htot.trans (mul_le_mul_of_nonneg_left hlow (by norm_num))

/-- a small argument, returned as it is -/
theorem tiny_acc {x r : Flt f32} (rf : r.isFinite) (hr : r.val = x.val) (h : |x.val| ≤ 2 ^ (-12 : ℤ)) : WithinUlp 0.99 r (Real.arcsin x.val) := by
  have hs := arcsin_tiny (x := x.val) (h.trans (zpow_le_zpow_right₀ (by norm_num) (by norm_num)))
  have hz : x.val ^ 2 ≤ 1 / 2 ^ 24 := by
    have : |x.val| ^ 2 ≤ (2 ^ (-12 : ℤ)) ^ 2 := pow_le_pow_left₀ (abs_nonneg _) h 2
    rw [sq_abs] at this; norm_num at this ⊢; linarith
  have h5 := mul_le_mul_of_nonneg_left (mul_le_mul_of_nonneg_left hz (by norm_num : (0 : ℝ) ≤ 0.17)) (abs_nonneg x.val)
  have hlow := arcsin_abs_ge (x := x.val) (h.trans (zp_le_quarter (by norm_num) |>.trans (by norm_num)))
  refine WithinUlp.of_rel rf (ε := 0.17 * (1 / 2 ^ 24)) ?_ (by norm_num) (by rw [f32_sb]; norm_num)
  rw [hr]
  refine (hs.trans h5).trans ?_
  rw [mul_comm]
  exact mul_le_mul_of_nonneg_left hlow (by norm_num)

/-- below the normal numbers the square vanishes -/
theorem sub_val {x : Flt f32} (xf : x.isFinite) (h : |x.val| < 2 ^ (-126 : ℤ)) : (x + x * r (x * x)).isFinite ∧ (x + x * r (x * x)).val = x.val := by
  have hq0 := mul_self_nonneg x.val
  have hq : x.val * x.val ≤ 2 ^ (-126 : ℤ) * 2 ^ (-126 : ℤ) := by
    rw [← abs_mul_abs_self]
    exact mul_le_mul h.le h.le (abs_nonneg _) (by positivity)
  have hq1 : x.val * x.val ≤ 1 / 4 * 2 ^ (1 - (f32.bias : ℤ) - f32.sb) := by
    refine hq.trans ?_
    rw [f32_bias, f32_sb, ← zpow_add₀ (by norm_num), show (1 / 4 : ℝ) = 2 ^ (-2 : ℤ) by norm_num, ← zpow_add₀ (by norm_num)]
    exact zpow_le_zpow_right₀ (by norm_num) (by norm_num)
  have hm := mul_rne xf xf
  obtain ⟨zf, ze⟩ := mul_err32 xf xf (-125) (by
    rw [abs_of_nonneg hq0]
    refine hq.trans ?_
    rw [← zpow_add₀ (by norm_num)]
    exact zpow_le_zpow_right₀ (by norm_num) (by norm_num)) (by norm_num) (by norm_num)
  have hz : (x * x).isZero := by
    by_contra hc
    have h1 := val_ge_min hc
    have e : (2 : ℝ) ^ (-125 - 25 : ℤ) = 1 / 2 * 2 ^ (1 - (f32.bias : ℤ) - f32.sb) := by
      rw [f32_bias, f32_sb, show (1 / 2 : ℝ) = 2 ^ (-1 : ℤ) by norm_num, ← zpow_add₀ (by norm_num)]
      norm_num
    rw [e] at ze
    have hp : (0 : ℝ) < 2 ^ (1 - (f32.bias : ℤ) - f32.sb) := by positivity
    have h2 := abs_sub_abs_le_abs_sub (x * x).val (x.val * x.val)
    rw [abs_of_nonneg hq0] at h2
    generalize (2 : ℝ) ^ (1 - (f32.bias : ℤ) - f32.sb) = t at *
    linarith
  have hR : ∀ s, (r (zero f32 s)).isFinite ∧ (r (zero f32 s)).isZero := by decide +kernel
  obtain ⟨s, hs⟩ : ∃ s, x * x = zero f32 s := ⟨(x * x).sign, ext_mb (by rw [sign_zero]) (by rw [mb_zero]; exact (isZero_iff _).1 hz)⟩
  rw [hs]
  obtain ⟨Rf, Rz⟩ := hR s
  generalize r (zero f32 s) = R at *
  have zv : (zero f32 false).val = 0 := isZero_val.1 (by decide +kernel)
  obtain ⟨mf, mv⟩ := (mul_rne xf Rf).exact_real (z := zero f32 false) (by decide +kernel) (by rw [zv, isZero_val.1 Rz, mul_zero])
  have := (add_rne xf mf).exact_real (z := x) xf (by rw [mv, isZero_val.1 Rz]; ring)
  refine ⟨this.1, ?_⟩
  rw [this.2, mv, isZero_val.1 Rz]; ring

theorem pi_split : |pio2Hi.val + pio2Lo.val - Real.pi / 2| ≤ 1 / 2 ^ 45 := by
  have p1 := Real.pi_gt_d20
  have p2 := Real.pi_lt_d20
  rw [pio2Hi_val, pio2Lo_val, abs_le]
  norm_num at p1 p2 ⊢
  constructor <;> linarith
theorem hi_fin : pio2Hi.isFinite := by decide +kernel
theorem lo_ap : Ap32 pio2Lo pio2Lo.val 0 (1 / 2 ^ 23) := .exact (by decide +kernel) rfl (by rw [pio2Lo_val, abs_le]; constructor <;> norm_num)

/-- the middle branch of the arccosine -/
theorem acos_mid {x : Flt f32} (xf : x.isFinite) (h : |x.val| ≤ 1 / 2) : WithinUlp 0.99 (pio2Hi - (x - (pio2Lo - x * r (x * x)))) (Real.arccos x.val) := by
  have hx : Ap32 x x.val 0 (1 / 2) := .exact xf rfl h
  have hR := kern_sq xf h
  have hm := Ap32.mul hx hR (-5) (by norm_num) (by norm_num) (by norm_num) (g := (27 / 2 ^ 32)) (D := (794625 / 2 ^ 25)) (by norm_num) (by norm_num)
  have hl := Ap32.sub lo_ap hm (-5) (by norm_num) (by norm_num) (g := (31 / 2 ^ 32)) (D := (99329 / 2 ^ 22)) (by norm_num) (by norm_num)
  have hy := Ap32.sub hx hl 0 (by norm_num) (by norm_num) (g := (159 / 2 ^ 32)) (D := 1) (by norm_num) (by norm_num)
  have ha := rho_approx h
  have hc := arcsin_le_c h
  have hp := pi_split
  have p1 := Real.pi_gt_d20
  have p2 := Real.pi_lt_d20
  have hc2 := abs_le.1 hc
  have t1 : (1 : ℝ) ≤ Real.arccos x.val := by
    rw [Real.arccos]; norm_num at hc2 p1 h ⊢; linarith [hc2.2]
  have t2 : Real.arccos x.val < 4 := by
    rw [Real.arccos]; norm_num at hc2 p2 h ⊢; linarith [hc2.1]
  have ta : |Real.arccos x.val| = Real.arccos x.val := abs_of_pos (by linarith)
  refine WithinUlp.of_rne_abs2 0 (sub_rne hi_fin hy.fin) (by rw [ta]; norm_num; exact t1) (small_lt_bias (by rw [f32_bias]; norm_num) (by rw [ta]; exact t2)) (by rw [f32_bias]; norm_num) (a := 0.97 * (1 / 2 ^ 24)) ?_ (δ := 0.485) (by rw [f32_sb]; norm_num) (by norm_num) (by norm_num) (by norm_num)
  have e : pio2Hi.val - (x - (pio2Lo - x * r (x * x))).val - Real.arccos x.val = (pio2Hi.val + pio2Lo.val - Real.pi / 2) - ((x - (pio2Lo - x * r (x * x))).val - (x.val - (pio2Lo.val - x.val * rho x.val))) - (x.val + x.val * rho x.val - Real.arcsin x.val) := by
    rw [Real.arccos]; ring
  rw [e]
  refine (abs_sub _ _).trans ((add_le_add (abs_sub _ _) le_rfl).trans ?_)
  have := hy.err
  norm_num at this hp ha h ⊢
  linarith

/-- the branch below `-1/2` of the arccosine -/
theorem acos_neg {z s : Flt f32} (zf : z.isFinite) (sf : s.isFinite) (h0 : 0 ≤ z.val) (h1 : z.val ≤ 1 / 4) (hu : √z.val ≤ 1 / 2) (hs : |s.val - √z.val| ≤ 2 ^ (-1 - 25 : ℤ)) (hs1 : |s.val| ≤ 1 / 2) :
    WithinUlp 0.99 (2.0 * (pio2Hi - (s + (r z * s - pio2Lo)))) (2 * (Real.pi / 2 - Real.arcsin (√z.val))) := by
  have hS : Ap32 s (√z.val) (1 / 2 ^ 26) (1 / 2) := ⟨sf, hs.trans (by norm_num), hs1⟩
  have hR := kern_rt zf h0 h1
  have hm := Ap32.mul hR hS (-5) (by norm_num) (by norm_num) (by norm_num) (g := (106625 / 2 ^ 44)) (D := (794625 / 2 ^ 25)) (by norm_num) (by norm_num)
  have hw := Ap32.sub hm lo_ap (-5) (by norm_num) (by norm_num) (g := (123009 / 2 ^ 44)) (D := (99329 / 2 ^ 22)) (by norm_num) (by norm_num)
  have hy := Ap32.add hS hw 0 (by norm_num) (by norm_num) (g := (113681 / 2 ^ 41)) (D := (68641 / 2 ^ 17)) (by norm_num) (by norm_num)
  have hσ0 := Real.sqrt_nonneg z.val
  set σ := √z.val
  have hσ : |σ| ≤ 1 / 2 := by rw [abs_of_nonneg hσ0]; exact hu
  have ha := rho_approx hσ
  have hc := arcsin_le_c hσ
  have hp := pi_split
  have p1 := Real.pi_gt_d20
  have p2 := Real.pi_lt_d20
  have hc2 := abs_le.1 hc
  have t1 : (1 : ℝ) ≤ Real.pi / 2 - Real.arcsin σ := by
    norm_num at hc2 p1 hσ ⊢; linarith [hc2.2]
  have t2 : Real.pi / 2 - Real.arcsin σ < 4 := by
    norm_num at hc2 p2 hσ ⊢; linarith [hc2.1]
  have ta : |Real.pi / 2 - Real.arcsin σ| = Real.pi / 2 - Real.arcsin σ := abs_of_pos (by linarith)
  have hW : WithinUlp 0.99 (pio2Hi - (s + (r z * s - pio2Lo))) (Real.pi / 2 - Real.arcsin σ) := by
    refine WithinUlp.of_rne_abs2 0 (sub_rne hi_fin hy.fin) (by rw [ta]; norm_num; linarith) (small_lt_bias (by rw [f32_bias]; norm_num) (by rw [ta]; exact t2)) (by rw [f32_bias]; norm_num) (a := 0.98 * (1 / 2 ^ 24)) ?_ (δ := 0.49) (by rw [f32_sb]; norm_num) (by norm_num) (by norm_num) (by norm_num)
    have e : pio2Hi.val - (s + (r z * s - pio2Lo)).val - (Real.pi / 2 - Real.arcsin σ) = (pio2Hi.val + pio2Lo.val - Real.pi / 2) - ((s + (r z * s - pio2Lo)).val - (σ + (rho σ * σ - pio2Lo.val))) - (σ + σ * rho σ - Real.arcsin σ) := by ring
    rw [e]
    refine (abs_sub _ _).trans ((add_le_add (abs_sub _ _) le_rfl).trans ?_)
    have := hy.err
    norm_num at this hp ha hσ ⊢
    linarith
  have hyb := hy.bd
  have hhi : pio2Hi.val ≤ 1.6 ∧ 1.5 ≤ pio2Hi.val := by rw [pio2Hi_val]; constructor <;> norm_num
  obtain ⟨yf, ye⟩ := sub_err32 hi_fin hy.fin 2 (by
    have := abs_le.1 hyb; norm_num at this hhi ⊢; rw [abs_le]; constructor <;> linarith [hhi.1, hhi.2]) (by norm_num)
  have hy1 : 0.5 ≤ (pio2Hi - (s + (r z * s - pio2Lo))).val ∧ (pio2Hi - (s + (r z * s - pio2Lo))).val ≤ 3 := by
    have a := abs_le.1 hyb; have b := abs_le.1 ye
    norm_num at a b hhi ⊢
    constructor <;> linarith [hhi.1, hhi.2]
  norm_num at hy1
  have hab : |(pio2Hi - (s + (r z * s - pio2Lo))).val| = (pio2Hi - (s + (r z * s - pio2Lo))).val := abs_of_pos (by linarith [hy1.1])
  obtain ⟨df, dv⟩ := dbl yf (by rw [hab]; norm_num; linarith [hy1.1]) (by rw [hab]; linarith [hy1.2])
  exact hW.double (by rw [ta, f32_bias]; exact (zpow_le_one_of_nonpos₀ (by norm_num) (by norm_num)).trans t1) df dv

/-- the branch above `1/2` of the arccosine -/
theorem acos_pos {z s f c : Flt f32} (zf : z.isFinite) (sf : s.isFinite) (ff : f.isFinite) (cf : c.isFinite) (h0 : 0 ≤ z.val) (h1 : z.val ≤ 1 / 4) (hl : 2 ^ (-28 : ℤ) ≤ √z.val) (hu : √z.val ≤ 1 / 2)
    (hs : |s.val - √z.val| ≤ √z.val * 2 ^ (-24 : ℤ)) (hc : |c.val - (√z.val - f.val)| ≤ √z.val * (3 / 2 ^ 10 / 2 ^ 24)) (hf : |√z.val - f.val| ≤ √z.val * (1 / 2 ^ 10)) :
    WithinUlp 0.99 (2.0 * (f + (r z * s + c))) (2 * Real.arcsin (√z.val)) := by
  have hR := kern_rt zf h0 h1
  have hσa : |√z.val| ≤ 1 / 2 := by rw [abs_of_nonneg (Real.sqrt_nonneg _)]; exact hu
  have hRe := hR.err
  have hRb := hR.bd
  set σ := √z.val with hσ
  have hσ0 : 0 < σ := lt_of_lt_of_le (by positivity) hl
  have ha := rho_approx hσa
  have hrb := rho_bd hσa
  rw [abs_of_pos hσ0] at ha
  generalize r z = R at *
  have hs2 := abs_le.1 hs
  norm_num at hs2
  have hs0 : 0 < s.val := by linarith [hs2.1]
  have hs3 : s.val ≤ 1.001 * σ := by norm_num; linarith [hs2.2]
  have B0 : (4 : ℝ) ≤ 3 / 2 * 2 ^ (f32.bias : ℤ) := by
    rw [f32_bias]
    have h4 : (4 : ℝ) ≤ 2 ^ ((127 : ℕ) : ℤ) := by
      rw [show (4 : ℝ) = 2 ^ (2 : ℤ) by norm_num]
      exact zpow_le_zpow_right₀ (by norm_num) (by norm_num)
    generalize (2 : ℝ) ^ ((127 : ℕ) : ℤ) = t at h4
    linarith
  have tiny := tiny2 hl
  -- R s
  have m1 : |R.val * s.val| ≤ σ * 0.0475 := by
    rw [abs_mul, abs_of_pos hs0]
    refine (mul_le_mul hRb hs3 hs0.le (by norm_num)).trans ?_
    norm_num; linarith
  obtain ⟨mf, me⟩ := (mul_rne hR.fin sf).mixed (m1.trans (le_trans (b := 4) (by norm_num; linarith) B0)) (by rw [f32_bias]; norm_num)
  have me2 : |(R * s).val - R.val * s.val| ≤ σ * (0.0476 / 2 ^ 24) := by
    refine me.trans ?_
    have := mul_le_mul_of_nonneg_right m1 (by positivity : (0 : ℝ) ≤ 2 ^ (-1 - (f32.sb : ℤ)))
    refine (add_le_add this tiny).trans ?_
    rw [f32_sb]; norm_num; linarith
  have m2 : |R.val * s.val - rho σ * σ| ≤ σ * (1.001 * (19 / 2 ^ 31) + 0.0474 / 2 ^ 24) := by
    have e : R.val * s.val - rho σ * σ = (R.val - rho σ) * s.val + rho σ * (s.val - σ) := by ring
    rw [e]
    refine (abs_add_le _ _).trans ?_
    rw [abs_mul, abs_mul, abs_of_pos hs0]
    have a := mul_le_mul hRe hs3 hs0.le (by norm_num)
    have b := mul_le_mul hrb hs (abs_nonneg _) (by norm_num)
    refine (add_le_add a b).trans ?_
    norm_num; linarith
  have m3 : |(R * s).val - rho σ * σ| ≤ σ * (1.001 * (19 / 2 ^ 31) + 0.095 / 2 ^ 24) := by
    have := abs_sub_le (R * s).val (R.val * s.val) (rho σ * σ)
    norm_num at me2 m2 ⊢; linarith
  -- w
  have w0 : |(R * s).val + c.val - (rho σ * σ + (σ - f.val))| ≤ σ * (1.001 * (19 / 2 ^ 31) + 0.095 / 2 ^ 24 + 3 / 2 ^ 10 / 2 ^ 24) := by
    have e : (R * s).val + c.val - (rho σ * σ + (σ - f.val)) = ((R * s).val - rho σ * σ) + (c.val - (σ - f.val)) := by ring
    rw [e]
    refine (abs_add_le _ _).trans ((add_le_add m3 hc).trans (le_of_eq (by ring)))
  have w1 : |rho σ * σ + (σ - f.val)| ≤ σ * 0.0486 := by
    refine (abs_add_le _ _).trans ?_
    rw [abs_mul, abs_of_pos hσ0]
    have := mul_le_mul_of_nonneg_right hrb hσ0.le
    norm_num at this hf ⊢; linarith
  have w2 : |(R * s).val + c.val| ≤ σ * 0.049 := by
    have a := abs_le.1 w0; have b := abs_le.1 w1
    norm_num at a b ⊢
    rw [abs_le]; constructor <;> linarith [a.1, a.2, b.1, b.2]
  obtain ⟨wf, we⟩ := (add_rne mf cf).mixed (w2.trans (le_trans (b := 4) (by norm_num; linarith) B0)) (by rw [f32_bias]; norm_num)
  have we2 : |(R * s + c).val - ((R * s).val + c.val)| ≤ σ * (0.0491 / 2 ^ 24) := by
    refine we.trans ?_
    have := mul_le_mul_of_nonneg_right w2 (by positivity : (0 : ℝ) ≤ 2 ^ (-1 - (f32.sb : ℤ)))
    refine (add_le_add this tiny).trans ?_
    rw [f32_sb]; norm_num; linarith
  have ge := arcsin_ge hσ0.le (by linarith)
  have tpos : 0 < Real.arcsin σ := by linarith
  have htot : |f.val + (R * s + c).val - Real.arcsin σ| ≤ 0.489 * (1 / 2 ^ 24) * σ := by
    have e : f.val + (R * s + c).val - Real.arcsin σ = ((R * s + c).val - ((R * s).val + c.val)) + ((R * s).val + c.val - (rho σ * σ + (σ - f.val))) + (σ + σ * rho σ - Real.arcsin σ) := by ring
    rw [e]
    refine (abs_add_three _ _ _).trans ?_
    norm_num at we2 w0 ha ⊢
    linarith
  have hW : WithinUlp 0.99 (f + (R * s + c)) (Real.arcsin σ) := by
    refine WithinUlp.of_rne_rel (add_rne ff wf) tpos.ne' (arcsin_lt_bias (by rw [f32_bias]; norm_num) _) (by rw [f32_bias]; norm_num) (ε := 0.489 * (1 / 2 ^ 24)) ?_ (by norm_num) (by rw [f32_sb]; norm_num) (by rw [f32_sb]; norm_num)
    rw [abs_of_pos tpos]
    exact htot.trans (mul_le_mul_of_nonneg_left ge (by norm_num))
  have hc1 := arcsin_le_c hσa
  rw [abs_of_pos hσ0, abs_of_pos tpos] at hc1
  have q1 : |f.val + (R * s + c).val| ≤ 1.1 * σ := by
    have a := abs_le.1 htot
    norm_num at a hc1 ⊢
    rw [abs_le]; constructor <;> linarith [a.1, a.2]
  have q0 : 0.9 * σ ≤ f.val + (R * s + c).val := by
    have a := abs_le.1 htot
    norm_num at a ⊢
    linarith [a.1]
  obtain ⟨yf, ye⟩ := (add_rne ff wf).mixed (q1.trans (le_trans (b := 4) (by norm_num; linarith) B0)) (by rw [f32_bias]; norm_num)
  have ye2 : |(f + (R * s + c)).val - (f.val + (R * s + c).val)| ≤ σ * 0.01 := by
    refine ye.trans ?_
    have := mul_le_mul_of_nonneg_right q1 (by positivity : (0 : ℝ) ≤ 2 ^ (-1 - (f32.sb : ℤ)))
    refine (add_le_add this tiny).trans ?_
    rw [f32_sb]; norm_num; linarith
  have ya := abs_le.1 ye2
  have qa := abs_le.1 q1
  norm_num at ya qa q0
  have yp : 0.8 * σ ≤ (f + (R * s + c)).val := by norm_num; linarith [ya.1]
  norm_num at yp
  obtain ⟨df, dv⟩ := dbl yf (by
    rw [abs_of_pos (by linarith)]
    refine le_trans ?_ yp
    norm_num at hl ⊢; linarith) (by rw [abs_of_pos (by linarith)]; linarith [ya.2])
  refine hW.double ?_ df dv
  rw [abs_of_pos tpos, f32_bias]
  exact ((zpow_le_zpow_right₀ (by norm_num) (by norm_num)).trans hl).trans ge
end Asinf

end Verif
