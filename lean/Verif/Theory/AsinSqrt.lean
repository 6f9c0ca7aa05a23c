import Verif.Theory.AsinKern
import Verif.Theory.LogHi
import Verif.Theory.AtanAcc
import Verif.Props.Sqrt
import Verif.Props.InvTrig

/-!
# The half-angle reduction of `asin`, `acos`

For `1/2 ≤ |x| < 1` the functions work with `z = (1 - |x|) / 2`, exact, and its square root.
-/

namespace Verif
open Flt

theorem arcsin_half {a : ℝ} (h0 : 0 ≤ a) (h1 : a ≤ 1) : Real.arcsin a = Real.pi / 2 - 2 * Real.arcsin (√((1 - a) / 2)) := by
  have hz : 0 ≤ (1 - a) / 2 := by linarith
  have hs := Real.sq_sqrt hz
  have hs0 := Real.sqrt_nonneg ((1 - a) / 2)
  have hs1 : √((1 - a) / 2) ≤ 1 := Real.sqrt_le_iff.2 ⟨zero_le_one, by linarith⟩
  set s := √((1 - a) / 2)
  have hθ0 := Real.arcsin_nonneg.2 hs0
  have hθ1 := Real.arcsin_le_pi_div_two s
  have e : Real.sin (Real.pi / 2 - 2 * Real.arcsin s) = a := by
    rw [Real.sin_pi_div_two_sub, Real.cos_two_mul', Real.cos_sq', Real.sin_arcsin (by linarith) hs1]
    linarith
  have h := Real.arcsin_sin (x := Real.pi / 2 - 2 * Real.arcsin s) (by linarith) (by linarith)
  rw [e] at h
  exact h

theorem arccos_half {a : ℝ} (h0 : 0 ≤ a) (h1 : a ≤ 1) : Real.arccos a = 2 * Real.arcsin (√((1 - a) / 2)) := by
  rw [Real.arccos, arcsin_half h0 h1]; ring

theorem arccos_neg_half {a : ℝ} (h0 : 0 ≤ a) (h1 : a ≤ 1) : Real.arccos (-a) = 2 * (Real.pi / 2 - Real.arcsin (√((1 - a) / 2))) := by
  rw [Real.arccos, Real.arcsin_neg, arcsin_half h0 h1]; ring

theorem arcsin_ge {x : ℝ} (h0 : 0 ≤ x) (h1 : x ≤ 1) : x ≤ Real.arcsin x := by
  have h := Real.sin_le (Real.arcsin_nonneg.2 h0)
  rwa [Real.sin_arcsin (by linarith) h1] at h

theorem abs_arcsin (x : ℝ) : |Real.arcsin x| = Real.arcsin |x| := by
  rcases le_total 0 x with h | h
  · rw [abs_of_nonneg h, abs_of_nonneg (Real.arcsin_nonneg.2 h)]
  · rw [abs_of_nonpos h, abs_of_nonpos (Real.arcsin_nonpos.2 h), Real.arcsin_neg]

theorem arcsin_abs_ge {x : ℝ} (h : |x| ≤ 1) : |x| ≤ |Real.arcsin x| := by
  rw [abs_arcsin]; exact arcsin_ge (abs_nonneg _) h

theorem arcsin_cube {x : ℝ} (h : |x| ≤ 1 / 2) : |x - Real.arcsin x| ≤ |x| * x ^ 2 := by
  have key : ∀ y : ℝ, 0 ≤ y → y ≤ 1 / 2 → Real.arcsin y - y ≤ y * y ^ 2 := by
    intro y h0 h1
    rcases h0.eq_or_lt with rfl | hp
    · simp
    have t0 := Real.arcsin_pos.2 hp
    have t1 := Real.arcsin_le_pi_div_two y
    have hs := Real.sin_arcsin (x := y) (by linarith) (by linarith)
    have hm := Real.mul_le_sin t0.le t1
    rw [hs] at hm
    have hpi := Real.pi_lt_d2
    have hpi0 := Real.pi_gt_d2
    have hb : Real.arcsin y ≤ 1.575 * y := by
      rw [div_mul_eq_mul_div, div_le_iff₀ (by linarith)] at hm
      norm_num at hpi ⊢
      nlinarith
    have hc := Real.sin_gt_sub_cube t0
    rw [hs] at hc
    have hcube : Real.arcsin y ^ 3 ≤ (1.575 * y) ^ 3 := pow_le_pow_left₀ t0.le hb 3
    have : 0 < y ^ 3 := pow_pos hp 3
    norm_num at hcube ⊢
    nlinarith
  have hge := arcsin_abs_ge (h.trans (by norm_num))
  rcases le_total 0 x with h0 | h0
  · rw [abs_of_nonneg h0] at h hge ⊢
    rw [abs_of_nonneg (Real.arcsin_nonneg.2 h0)] at hge
    rw [abs_of_nonpos (by linarith)]
    linarith [key x h0 h]
  · rw [abs_of_nonpos h0] at h hge ⊢
    rw [abs_of_nonpos (Real.arcsin_nonpos.2 h0)] at hge
    have k := key (-x) (by linarith) h
    rw [Real.arcsin_neg] at k
    rw [abs_of_nonneg (by linarith)]
    have e : (-x) ^ 2 = x ^ 2 := by ring
    rw [e] at k
    linarith

theorem ulpAt_double {F : Fmt} {t : ℝ} (h : 2 ^ (1 - (F.bias : ℤ)) ≤ |t|) : ulpAt F (2 * t) = 2 * ulpAt F t := by
  have hp : 0 < |t| := lt_of_lt_of_le (zp _) h
  have ht : t ≠ 0 := abs_pos.1 hp
  unfold ulpAt
  rw [if_neg ht, if_neg (by simpa using ht)]
  have e : |2 * t| = |t| * (2 : ℕ) ^ (1 : ℤ) := by rw [abs_mul]; norm_num; ring
  have e1 : (1 - (F.bias : ℤ)) ≤ Int.log 2 |t| := (Int.zpow_le_iff_le_log (by norm_num) hp).1 (by exact_mod_cast h)
  have e2 : Int.log 2 |2 * t| = Int.log 2 |t| + 1 := by
    have hlog := Int.zpow_log_le_self (b := 2) (r := |t|) (by norm_num) hp
    have hlt := Int.lt_zpow_succ_log_self (b := 2) (by norm_num) |t|
    have h2 : |2 * t| = 2 * |t| := by rw [abs_mul]; norm_num
    have hp2 : 0 < |2 * t| := by rw [h2]; linarith
    apply le_antisymm
    · have : Int.log 2 |2 * t| < Int.log 2 |t| + 1 + 1 := by
        refine (Int.lt_zpow_iff_log_lt (by norm_num) hp2).1 ?_
        rw [h2, zpow_add_one₀ (by norm_num)]
        push_cast at hlt ⊢
        linarith
      omega
    · refine (Int.zpow_le_iff_le_log (by norm_num) hp2).1 ?_
      rw [h2, zpow_add_one₀ (by norm_num)]
      push_cast at hlog ⊢
      linarith
  rw [e2, max_eq_left (by omega), max_eq_left e1, show Int.log 2 |t| + 1 - (F.sb : ℤ) = (Int.log 2 |t| - F.sb) + 1 by ring, zpow_add_one₀ (by norm_num)]
  ring

/-- doubling keeps the error in units in the last place -/
theorem WithinUlp.double {F : Fmt} {c t : ℝ} {r s : Flt F} (h : WithinUlp c r t) (ht : 2 ^ (1 - (F.bias : ℤ)) ≤ |t|) (hs : s.isFinite) (hv : s.val = 2 * r.val) : WithinUlp c s (2 * t) := by
  rw [WithinUlp.def'] at h ⊢
  refine ⟨hs, ?_⟩
  rw [hv, ulpAt_double ht, ← mul_sub, abs_mul, abs_of_pos (by norm_num : (0 : ℝ) < 2)]
  linarith [h.2]


namespace Asin
theorem two_val : (2.0 : Flt f64).val = 2 := by
  rw [val_const64 1 1075 1 (by decide +kernel) (by norm_num)]; norm_num
theorem dbl {y : Flt f64} (yf : y.isFinite) (h1 : 2 ^ (-100 : ℤ) ≤ |y.val|) (h2 : |y.val| ≤ 4) : ((2.0 : Flt f64) * y).isFinite ∧ ((2.0 : Flt f64) * y).val = 2 * y.val := by
  have m := mul_rne (x := (2.0 : Flt f64)) (y := y) (by decide +kernel) yf
  rw [two_val] at m
  have hb : |y.val * 2 ^ (1 : ℤ)| ≤ 8 := by rw [abs_mul]; norm_num; linarith
  obtain ⟨c, cf, cv⟩ := scale_exact64 (x := y) 1 (by
    rw [abs_mul]
    have : (2 : ℝ) ^ (-1022 : ℤ) ≤ 2 ^ (-100 : ℤ) := zpow_le_zpow_right₀ (by norm_num) (by norm_num)
    have h3 := abs_nonneg y.val
    norm_num at *; linarith) (lt_of_le_of_lt hb (lt_of_lt_of_le (by norm_num : (8 : ℝ) < 2 ^ (4 : ℤ)) (zpow_le_zpow_right₀ (by norm_num) (by norm_num))))
  have := m.exact_real cf (by rw [cv]; norm_num; ring)
  exact this

/-- `z = (1 - A) / 2`, its square root -/
theorem half_setup {d : Flt f64} {A : ℝ} {n : ℤ} (hd : IsRNE (1 - A) d) (hA : A = n * 2 ^ (-53 : ℤ)) (h1 : 1 / 2 ≤ A) (h2 : A < 1) :
    (d * 0.5).isFinite ∧ (d * 0.5).val = (1 - A) / 2 ∧ 2 ^ (-54 : ℤ) ≤ (1 - A) / 2 ∧ (1 - A) / 2 ≤ 1 / 4 := by
  have hn1 : 2 ^ 52 ≤ n := by
    have : (2 : ℝ) ^ 52 ≤ n := by
      rw [hA] at h1
      norm_num at h1 ⊢
      linarith
    exact_mod_cast this
  have hn2 : n + 1 ≤ 2 ^ 53 := by
    have : (n : ℝ) < 2 ^ 53 := by
      rw [hA] at h2
      norm_num at h2 ⊢
      linarith
    exact_mod_cast this
  have hlow : 2 ^ (-53 : ℤ) ≤ 1 - A := by
    have : (n : ℝ) + 1 ≤ 2 ^ 53 := by exact_mod_cast hn2
    rw [hA]; norm_num at this ⊢; linarith
  obtain ⟨c, cf, cv⟩ := exists_val64' (n := 2 ^ 53 - n) (k := -53) (by rw [abs_le]; constructor <;> omega) (by norm_num) (by norm_num)
  obtain ⟨df, dv⟩ := hd.exact_real cf (by rw [cv, hA]; push_cast; norm_num; ring)
  have h5 : (0.5 : Flt f64).val = 2 ^ (-1 : ℤ) := by
    rw [val_const64 1 1073 (-1) (by decide +kernel) (by norm_num)]; norm_num
  have m := mul_rne (y := (0.5 : Flt f64)) df (by decide +kernel)
  rw [h5] at m
  have e : d.val * 2 ^ (-1 : ℤ) = (1 - A) / 2 := by rw [dv]; norm_num; ring
  have hl2 : 2 ^ (-54 : ℤ) ≤ (1 - A) / 2 := by norm_num at hlow ⊢; linarith
  have hpos : 0 < (1 - A) / 2 := by linarith
  obtain ⟨c2, cf2, cv2⟩ := scale_exact64 (x := d) (-1) (by
    rw [e, abs_of_pos hpos]
    exact le_trans (zpow_le_zpow_right₀ (by norm_num) (by norm_num)) hl2) (by
    rw [e, abs_of_pos hpos]
    exact lt_of_lt_of_le (by linarith : (1 - A) / 2 < 1) (one_le_zpow₀ (by norm_num) (by norm_num)))
  obtain ⟨zf, zv⟩ := m.exact_real cf2 cv2
  exact ⟨zf, by rw [zv, e], hl2, by linarith⟩

theorem sqrt_setup {z : Flt f64} (zf : z.isFinite) (h0 : 2 ^ (-54 : ℤ) ≤ z.val) (h1 : z.val ≤ 1 / 4) :
    ∃ s, sqrt z = some s ∧ s.isFinite ∧ |s.val - √z.val| ≤ √z.val * 2 ^ (-53 : ℤ) ∧ |s.val - √z.val| ≤ 2 ^ (-1 - 54 : ℤ) ∧ s.val ≤ 1 / 2 ∧ 2 ^ (-28 : ℤ) ≤ √z.val ∧ √z.val ≤ 1 / 2 ∧ IsRNE (√z.val) s := by
  have hp : 0 < z.val := lt_of_lt_of_le (zp _) h0
  have hs : z.sign = false := by
    by_contra hc
    have : z.val ≤ 0 := val_nonpos (by simpa using hc)
    linarith
  obtain ⟨s, hs1, -, hr⟩ := sqrt_correct.pos z zf hs (fun h => hp.ne' (isZero_val.1 h))
  change IsRNE (√z.val) s at hr
  have hu : √z.val ≤ 1 / 2 := by
    rw [Real.sqrt_le_left (by norm_num)]; norm_num; exact h1
  have hl : 2 ^ (-28 : ℤ) ≤ √z.val := by
    refine Real.le_sqrt_of_sq_le (le_trans ?_ h0)
    norm_num
  have hpos : 0 < √z.val := lt_of_lt_of_le (zp _) hl
  have habs := abs_of_pos hpos
  obtain ⟨sf, he⟩ := hr.err64 (-1) (by rw [habs]; norm_num; linarith) (by norm_num) (by norm_num)
  have hrel := (hr.rel (by
    rw [habs, f64_bias]
    exact (zpow_le_zpow_right₀ (by norm_num) (by norm_num)).trans hl) (by
    rw [habs, f64_bias]
    exact le_trans (by linarith : √z.val ≤ 1) (le_trans (by norm_num) (mul_le_mul_of_nonneg_left (two_le_zp (by norm_num)) (by norm_num))))).2
  rw [habs, f64_sb] at hrel
  have hh : (0.5 : Flt f64).val = 1 / 2 := by
    rw [val_const64 1 1073 (-1) (by decide +kernel) (by norm_num)]; norm_num
  have hle := hr.le_of_le sf (s := (0.5 : Flt f64)) (by decide +kernel) (by rw [hh]; exact hu)
  rw [hh] at hle
  refine ⟨s, hs1, sf, ?_, ?_, hle, hl, hu, hr⟩
  · refine hrel.trans (le_of_eq ?_); norm_num
  · refine he.trans (le_of_eq ?_); norm_num

theorem tiny2 {σ : ℝ} (hl : 2 ^ (-28 : ℤ) ≤ σ) : (2 : ℝ) ^ (-(f64.bias : ℤ) - f64.sb) ≤ σ * (1 / 2 ^ 78) := by
  rw [f64_bias, f64_sb]
  refine le_trans (b := (2 : ℝ) ^ (-28 : ℤ) * (1 / 2 ^ 78)) ?_ (mul_le_mul_of_nonneg_right hl (by norm_num))
  rw [show (2 : ℝ) ^ (-28 : ℤ) * (1 / 2 ^ 78) = 2 ^ (-106 : ℤ) by norm_num]
  exact zpow_le_zpow_right₀ (by norm_num) (by norm_num)

/-- the leading part `f` of the root and the correction `c` -/
theorem csplit {z s f : Flt f64} (zf : z.isFinite) (sf : s.isFinite) (h0 : 2 ^ (-54 : ℤ) ≤ z.val) (h1 : z.val ≤ 1 / 4) (hl : 2 ^ (-28 : ℤ) ≤ √z.val) (hu : √z.val ≤ 1 / 2)
    (hs : |s.val - √z.val| ≤ √z.val * 2 ^ (-53 : ℤ)) (ff : f.isFinite) (hf : |f.val - s.val| ≤ 1 / 2 ^ 20 * |s.val|) (hg : ∃ n k : ℤ, |n| ≤ 2 ^ 21 ∧ f.val = n * 2 ^ k) :
    ((z - f * f) / (s + f)).isFinite ∧ |((z - f * f) / (s + f)).val - (√z.val - f.val)| ≤ √z.val * (3 / 2 ^ 19 / 2 ^ 53) ∧ |√z.val - f.val| ≤ √z.val * (1 / 2 ^ 19) := by
  have hz0 : 0 < z.val := lt_of_lt_of_le (zp _) h0
  have hsq := Real.sq_sqrt hz0.le
  set σ := √z.val with hσ
  have hσ0 : 0 < σ := lt_of_lt_of_le (zp _) hl
  have hs2 := abs_le.1 hs
  norm_num at hs2
  have hs0 : 0 < s.val := by linarith [hs2.1]
  rw [abs_of_pos hs0] at hf
  have hf2 := abs_le.1 hf
  norm_num at hf2
  have hd : |σ - f.val| ≤ σ * (1 / 2 ^ 19) := by
    rw [abs_le]; norm_num; constructor <;> linarith [hs2.1, hs2.2, hf2.1, hf2.2]
  have hd2 := abs_le.1 hd
  norm_num at hd2
  have hf0 : 0 < f.val := by linarith [hd2.2]
  have hflo : 0.999 * σ ≤ f.val := by norm_num; linarith [hd2.2]
  have hfhi : f.val ≤ 1.001 * σ := by norm_num; linarith [hd2.1]
  norm_num at hflo hfhi
  -- the square is exact
  have hfsq : 2 ^ (-60 : ℤ) ≤ f.val * f.val := by
    have : (2 : ℝ) ^ (-28 : ℤ) * 0.9 ≤ f.val := by norm_num at hl ⊢; linarith
    have := mul_le_mul this this (by positivity) hf0.le
    norm_num at this ⊢; linarith
  have hfsq1 : f.val * f.val ≤ 0.3 := by norm_num; nlinarith
  obtain ⟨n, k, hn, hnk⟩ := hg
  obtain ⟨c0, c0f, c0v⟩ := exists_val64' (n := n * n) (k := 0) (by
    rw [abs_mul]
    calc |n| * |n| ≤ 2 ^ 21 * 2 ^ 21 := mul_le_mul hn hn (abs_nonneg _) (by norm_num)
      _ ≤ _ := by norm_num) (by norm_num) (by norm_num)
  have ec : c0.val * 2 ^ (2 * k) = f.val * f.val := by
    rw [c0v, hnk, two_mul, zpow_add₀ (by norm_num)]; push_cast; ring
  obtain ⟨c1, c1f, c1v⟩ := scale_exact64 (x := c0) (2 * k) (by
    rw [ec, abs_of_pos (mul_pos hf0 hf0)]
    exact le_trans (zpow_le_zpow_right₀ (by norm_num) (by norm_num)) hfsq) (by
    rw [ec, abs_of_pos (mul_pos hf0 hf0)]
    exact lt_of_lt_of_le (by norm_num at hfsq1 ⊢; linarith : f.val * f.val < 1) (one_le_zpow₀ (by norm_num) (by norm_num)))
  obtain ⟨qf, qv2⟩ := (mul_rne ff ff).exact_real c1f (by rw [c1v, ec])
  -- the difference is exact
  have hdiff : z.val - f.val * f.val = (σ - f.val) * (σ + f.val) := by rw [← hsq]; ring
  have hdb : |z.val - f.val * f.val| ≤ z.val / 4 := by
    rw [hdiff, abs_mul, abs_of_pos (by linarith : 0 < σ + f.val)]
    have := mul_le_mul hd (by linarith : σ + f.val ≤ 3 * σ) (by linarith) (by positivity)
    refine this.trans ?_
    rw [← hsq]; norm_num
    nlinarith
  have hdb2 := abs_le.1 hdb
  obtain ⟨nf, nv⟩ := sterbenz_val zf qf (by rw [qv2, abs_of_pos hz0]; linarith) (by rw [qv2, abs_of_pos (mul_pos hf0 hf0)]; linarith [hdb2.2]) (by
    rw [abs_of_pos hz0, f64_bias]; exact (zpow_le_zpow_right₀ (by norm_num) (by norm_num)).trans h0) (by
    rw [qv2, abs_of_pos (mul_pos hf0 hf0), f64_bias]; exact (zpow_le_zpow_right₀ (by norm_num) (by norm_num)).trans hfsq)
  rw [qv2, hdiff] at nv
  -- the denominator
  have B0 : (4 : ℝ) ≤ 3 / 2 * 2 ^ (f64.bias : ℤ) := by
    rw [f64_bias]
    have h4 : (4 : ℝ) ≤ 2 ^ ((1023 : ℕ) : ℤ) := by
      rw [show (4 : ℝ) = 2 ^ (2 : ℤ) by norm_num]
      exact zpow_le_zpow_right₀ (by norm_num) (by norm_num)
    generalize (2 : ℝ) ^ ((1023 : ℕ) : ℤ) = t at h4
    linarith
  have hsf : |s.val + f.val| ≤ 2.1 * σ := by rw [abs_of_pos (by linarith)]; norm_num; linarith [hs2.2]
  obtain ⟨Df, De⟩ := (add_rne sf ff).mixed (by norm_num at hsf; linarith) (by rw [f64_bias]; norm_num)
  have tiny : (2 : ℝ) ^ (-(f64.bias : ℤ) - f64.sb) ≤ σ * (1 / 2 ^ 70) := by
    rw [f64_bias, f64_sb]
    refine le_trans (b := (2 : ℝ) ^ (-28 : ℤ) * (1 / 2 ^ 70)) ?_ (mul_le_mul_of_nonneg_right hl (by norm_num))
    rw [show (2 : ℝ) ^ (-28 : ℤ) * (1 / 2 ^ 70) = 2 ^ (-98 : ℤ) by norm_num]
    exact zpow_le_zpow_right₀ (by norm_num) (by norm_num)
  have De2 : |(s + f).val - (σ + f.val)| ≤ σ * (3.2 / 2 ^ 53) := by
    have e : (s + f).val - (σ + f.val) = ((s + f).val - (s.val + f.val)) + (s.val - σ) := by ring
    rw [e]
    refine (abs_add_le _ _).trans ((add_le_add De hs).trans ?_)
    rw [f64_sb]
    have := mul_le_mul_of_nonneg_right hsf (by positivity : (0 : ℝ) ≤ 2 ^ (-1 - ((52 : ℕ) : ℤ)))
    rw [f64_sb] at tiny
    norm_num at this tiny ⊢
    linarith
  have De3 := abs_le.1 De2
  norm_num at De3
  have hD1 : 1.9 * σ ≤ (s + f).val := by norm_num; linarith [De3.1]
  have hq0 : (σ - f.val) * (σ + f.val) / (σ + f.val) = σ - f.val := by field_simp
  have hqe := quot_err (N := (σ - f.val) * (σ + f.val)) (D := σ + f.val) (D' := (s + f).val) (T := σ * (1 / 2 ^ 19)) (by rw [hq0]; exact hd) (by linarith) (by norm_num; linarith : 0 < 1.9 * σ) hD1 De2
  rw [hq0] at hqe
  have hqe2 : |(σ - f.val) * (σ + f.val) / (s + f).val - (σ - f.val)| ≤ σ * (1.7 / 2 ^ 19 / 2 ^ 53) := by
    refine hqe.trans (le_of_eq_of_le (b := σ * (1 / 2 ^ 19 * (3.2 / 2 ^ 53) / 1.9)) (by field_simp) ?_)
    exact mul_le_mul_of_nonneg_left (by norm_num) hσ0.le
  have hqb : |(σ - f.val) * (σ + f.val) / (s + f).val| ≤ σ * (1.001 / 2 ^ 19) := by
    have a := abs_le.1 hqe2
    have b := abs_le.1 hd
    norm_num at a b ⊢
    rw [abs_le]; constructor <;> linarith [a.1, a.2, b.1, b.2]
  have hDne : (s + f).val ≠ 0 := by intro h; norm_num at hD1; linarith
  have dr := div_rne nf Df (fun h => hDne (isZero_val.1 h))
  rw [nv] at dr
  obtain ⟨cf, ce⟩ := dr.mixed (hqb.trans (le_trans (b := 4) (by norm_num; linarith) B0)) (by rw [f64_bias]; norm_num)
  refine ⟨cf, ?_, hd⟩
  have e : ((z - f * f) / (s + f)).val - (σ - f.val) = (((z - f * f) / (s + f)).val - (σ - f.val) * (σ + f.val) / (s + f).val) + ((σ - f.val) * (σ + f.val) / (s + f).val - (σ - f.val)) := by ring
  rw [e]
  refine (abs_add_le _ _).trans ((add_le_add ce hqe2).trans ?_)
  have := mul_le_mul_of_nonneg_right hqb (by positivity : (0 : ℝ) ≤ 2 ^ (-1 - (f64.sb : ℤ)))
  have t2 : (2 : ℝ) ^ (-(f64.bias : ℤ) - f64.sb) ≤ σ * (1 / 2 ^ 78) := tiny2 hl
  rw [f64_sb] at this t2 ⊢
  norm_num at this t2 ⊢
  linarith
end Asin

namespace Asinf
theorem two_val : (2.0 : Flt f32).val = 2 := by
  rw [val_const32 1 150 1 (by decide +kernel) (by norm_num)]; norm_num
theorem dbl {y : Flt f32} (yf : y.isFinite) (h1 : 2 ^ (-100 : ℤ) ≤ |y.val|) (h2 : |y.val| ≤ 4) : ((2.0 : Flt f32) * y).isFinite ∧ ((2.0 : Flt f32) * y).val = 2 * y.val := by
  have m := mul_rne (x := (2.0 : Flt f32)) (y := y) (by decide +kernel) yf
  rw [two_val] at m
  have hb : |y.val * 2 ^ (1 : ℤ)| ≤ 8 := by rw [abs_mul]; norm_num; linarith
  obtain ⟨c, cf, cv⟩ := scale_exact32 (x := y) 1 (by
    rw [abs_mul]
    have : (2 : ℝ) ^ (-126 : ℤ) ≤ 2 ^ (-100 : ℤ) := zpow_le_zpow_right₀ (by norm_num) (by norm_num)
    have h3 := abs_nonneg y.val
    norm_num at *; linarith) (lt_of_le_of_lt hb (lt_of_lt_of_le (by norm_num : (8 : ℝ) < 2 ^ (4 : ℤ)) (zpow_le_zpow_right₀ (by norm_num) (by norm_num))))
  have := m.exact_real cf (by rw [cv]; norm_num; ring)
  exact this

/-- `z = (1 - A) / 2`, its square root -/
theorem half_setup {d : Flt f32} {A : ℝ} {n : ℤ} (hd : IsRNE (1 - A) d) (hA : A = n * 2 ^ (-24 : ℤ)) (h1 : 1 / 2 ≤ A) (h2 : A < 1) :
    (d * 0.5).isFinite ∧ (d * 0.5).val = (1 - A) / 2 ∧ 2 ^ (-25 : ℤ) ≤ (1 - A) / 2 ∧ (1 - A) / 2 ≤ 1 / 4 := by
  have hn1 : 2 ^ 23 ≤ n := by
    have : (2 : ℝ) ^ 23 ≤ n := by
      rw [hA] at h1
      norm_num at h1 ⊢
      linarith
    exact_mod_cast this
  have hn2 : n + 1 ≤ 2 ^ 24 := by
    have : (n : ℝ) < 2 ^ 24 := by
      rw [hA] at h2
      norm_num at h2 ⊢
      linarith
    exact_mod_cast this
  have hlow : 2 ^ (-24 : ℤ) ≤ 1 - A := by
    have : (n : ℝ) + 1 ≤ 2 ^ 24 := by exact_mod_cast hn2
    rw [hA]; norm_num at this ⊢; linarith
  obtain ⟨c, cf, cv⟩ := exists_val32' (n := 2 ^ 24 - n) (k := -24) (by rw [abs_le]; constructor <;> omega) (by norm_num) (by norm_num)
  obtain ⟨df, dv⟩ := hd.exact_real cf (by rw [cv, hA]; push_cast; norm_num; ring)
  have h5 : (0.5 : Flt f32).val = 2 ^ (-1 : ℤ) := by
    rw [val_const32 1 148 (-1) (by decide +kernel) (by norm_num)]; norm_num
  have m := mul_rne (y := (0.5 : Flt f32)) df (by decide +kernel)
  rw [h5] at m
  have e : d.val * 2 ^ (-1 : ℤ) = (1 - A) / 2 := by rw [dv]; norm_num; ring
  have hl2 : 2 ^ (-25 : ℤ) ≤ (1 - A) / 2 := by norm_num at hlow ⊢; linarith
  have hpos : 0 < (1 - A) / 2 := by linarith
  obtain ⟨c2, cf2, cv2⟩ := scale_exact32 (x := d) (-1) (by
    rw [e, abs_of_pos hpos]
    exact le_trans (zpow_le_zpow_right₀ (by norm_num) (by norm_num)) hl2) (by
    rw [e, abs_of_pos hpos]
    exact lt_of_lt_of_le (by linarith : (1 - A) / 2 < 1) (one_le_zpow₀ (by norm_num) (by norm_num)))
  obtain ⟨zf, zv⟩ := m.exact_real cf2 cv2
  exact ⟨zf, by rw [zv, e], hl2, by linarith⟩

theorem sqrt_setup {z : Flt f32} (zf : z.isFinite) (h0 : 2 ^ (-25 : ℤ) ≤ z.val) (h1 : z.val ≤ 1 / 4) :
    ∃ s, sqrtf z = some s ∧ s.isFinite ∧ |s.val - √z.val| ≤ √z.val * 2 ^ (-24 : ℤ) ∧ |s.val - √z.val| ≤ 2 ^ (-1 - 25 : ℤ) ∧ s.val ≤ 1 / 2 ∧ 2 ^ (-28 : ℤ) ≤ √z.val ∧ √z.val ≤ 1 / 2 ∧ IsRNE (√z.val) s := by
  have hp : 0 < z.val := lt_of_lt_of_le (zp _) h0
  have hs : z.sign = false := by
    by_contra hc
    have : z.val ≤ 0 := val_nonpos (by simpa using hc)
    linarith
  obtain ⟨s, hs1, -, hr⟩ := sqrtf_correct.pos z zf hs (fun h => hp.ne' (isZero_val.1 h))
  change IsRNE (√z.val) s at hr
  have hu : √z.val ≤ 1 / 2 := by
    rw [Real.sqrt_le_left (by norm_num)]; norm_num; exact h1
  have hl : 2 ^ (-28 : ℤ) ≤ √z.val := by
    refine Real.le_sqrt_of_sq_le (le_trans ?_ h0)
    norm_num
  have hpos : 0 < √z.val := lt_of_lt_of_le (zp _) hl
  have habs := abs_of_pos hpos
  obtain ⟨sf, he⟩ := hr.err32 (-1) (by rw [habs]; norm_num; linarith) (by norm_num) (by norm_num)
  have hrel := (hr.rel (by
    rw [habs, f32_bias]
    exact (zpow_le_zpow_right₀ (by norm_num) (by norm_num)).trans hl) (by
    rw [habs, f32_bias]
    exact le_trans (by linarith : √z.val ≤ 1) (le_trans (by norm_num) (mul_le_mul_of_nonneg_left (two_le_zp (by norm_num)) (by norm_num))))).2
  rw [habs, f32_sb] at hrel
  have hh : (0.5 : Flt f32).val = 1 / 2 := by
    rw [val_const32 1 148 (-1) (by decide +kernel) (by norm_num)]; norm_num
  have hle := hr.le_of_le sf (s := (0.5 : Flt f32)) (by decide +kernel) (by rw [hh]; exact hu)
  rw [hh] at hle
  refine ⟨s, hs1, sf, ?_, ?_, hle, hl, hu, hr⟩
  · refine hrel.trans (le_of_eq ?_); norm_num
  · refine he.trans (le_of_eq ?_); norm_num

theorem tiny2 {σ : ℝ} (hl : 2 ^ (-28 : ℤ) ≤ σ) : (2 : ℝ) ^ (-(f32.bias : ℤ) - f32.sb) ≤ σ * (1 / 2 ^ 70) := by
  rw [f32_bias, f32_sb]
  refine le_trans (b := (2 : ℝ) ^ (-28 : ℤ) * (1 / 2 ^ 70)) ?_ (mul_le_mul_of_nonneg_right hl (by norm_num))
  rw [show (2 : ℝ) ^ (-28 : ℤ) * (1 / 2 ^ 70) = 2 ^ (-98 : ℤ) by norm_num]
  exact zpow_le_zpow_right₀ (by norm_num) (by norm_num)

/-- the leading part `f` of the root and the correction `c` -/
theorem csplit {z s f : Flt f32} (zf : z.isFinite) (sf : s.isFinite) (h0 : 2 ^ (-25 : ℤ) ≤ z.val) (h1 : z.val ≤ 1 / 4) (hl : 2 ^ (-28 : ℤ) ≤ √z.val) (hu : √z.val ≤ 1 / 2)
    (hs : |s.val - √z.val| ≤ √z.val * 2 ^ (-24 : ℤ)) (ff : f.isFinite) (hf : |f.val - s.val| ≤ 1 / 2 ^ 11 * |s.val|) (hg : ∃ n k : ℤ, |n| ≤ 2 ^ 12 ∧ f.val = n * 2 ^ k) :
    ((z - f * f) / (s + f)).isFinite ∧ |((z - f * f) / (s + f)).val - (√z.val - f.val)| ≤ √z.val * (3 / 2 ^ 10 / 2 ^ 24) ∧ |√z.val - f.val| ≤ √z.val * (1 / 2 ^ 10) := by
  have hz0 : 0 < z.val := lt_of_lt_of_le (zp _) h0
  have hsq := Real.sq_sqrt hz0.le
  set σ := √z.val with hσ
  have hσ0 : 0 < σ := lt_of_lt_of_le (zp _) hl
  have hs2 := abs_le.1 hs
  norm_num at hs2
  have hs0 : 0 < s.val := by linarith [hs2.1]
  rw [abs_of_pos hs0] at hf
  have hf2 := abs_le.1 hf
  norm_num at hf2
  have hd : |σ - f.val| ≤ σ * (1 / 2 ^ 10) := by
    rw [abs_le]; norm_num; constructor <;> linarith [hs2.1, hs2.2, hf2.1, hf2.2]
  have hd2 := abs_le.1 hd
  norm_num at hd2
  have hf0 : 0 < f.val := by linarith [hd2.2]
  have hflo : 0.999 * σ ≤ f.val := by norm_num; linarith [hd2.2]
  have hfhi : f.val ≤ 1.001 * σ := by norm_num; linarith [hd2.1]
  norm_num at hflo hfhi
  -- the square is exact
  have hfsq : 2 ^ (-60 : ℤ) ≤ f.val * f.val := by
    have : (2 : ℝ) ^ (-28 : ℤ) * 0.9 ≤ f.val := by norm_num at hl ⊢; linarith
    have := mul_le_mul this this (by positivity) hf0.le
    norm_num at this ⊢; linarith
  have hfsq1 : f.val * f.val ≤ 0.3 := by norm_num; nlinarith
  obtain ⟨n, k, hn, hnk⟩ := hg
  obtain ⟨c0, c0f, c0v⟩ := exists_val32' (n := n * n) (k := 0) (by
    rw [abs_mul]
    calc |n| * |n| ≤ 2 ^ 12 * 2 ^ 12 := mul_le_mul hn hn (abs_nonneg _) (by norm_num)
      _ ≤ _ := by norm_num) (by norm_num) (by norm_num)
  have ec : c0.val * 2 ^ (2 * k) = f.val * f.val := by
    rw [c0v, hnk, two_mul, zpow_add₀ (by norm_num)]; push_cast; ring
  obtain ⟨c1, c1f, c1v⟩ := scale_exact32 (x := c0) (2 * k) (by
    rw [ec, abs_of_pos (mul_pos hf0 hf0)]
    exact le_trans (zpow_le_zpow_right₀ (by norm_num) (by norm_num)) hfsq) (by
    rw [ec, abs_of_pos (mul_pos hf0 hf0)]
    exact lt_of_lt_of_le (by norm_num at hfsq1 ⊢; linarith : f.val * f.val < 1) (one_le_zpow₀ (by norm_num) (by norm_num)))
  obtain ⟨qf, qv2⟩ := (mul_rne ff ff).exact_real c1f (by rw [c1v, ec])
  -- the difference is exact
  have hdiff : z.val - f.val * f.val = (σ - f.val) * (σ + f.val) := by rw [← hsq]; ring
  have hdb : |z.val - f.val * f.val| ≤ z.val / 4 := by
    rw [hdiff, abs_mul, abs_of_pos (by linarith : 0 < σ + f.val)]
    have := mul_le_mul hd (by linarith : σ + f.val ≤ 3 * σ) (by linarith) (by positivity)
    refine this.trans ?_
    rw [← hsq]; norm_num
    nlinarith
  have hdb2 := abs_le.1 hdb
  obtain ⟨nf, nv⟩ := sterbenz_val zf qf (by rw [qv2, abs_of_pos hz0]; linarith) (by rw [qv2, abs_of_pos (mul_pos hf0 hf0)]; linarith [hdb2.2]) (by
    rw [abs_of_pos hz0, f32_bias]; exact (zpow_le_zpow_right₀ (by norm_num) (by norm_num)).trans h0) (by
    rw [qv2, abs_of_pos (mul_pos hf0 hf0), f32_bias]; exact (zpow_le_zpow_right₀ (by norm_num) (by norm_num)).trans hfsq)
  rw [qv2, hdiff] at nv
  -- the denominator
  have B0 : (4 : ℝ) ≤ 3 / 2 * 2 ^ (f32.bias : ℤ) := by
    rw [f32_bias]
    have h4 : (4 : ℝ) ≤ 2 ^ ((127 : ℕ) : ℤ) := by
      rw [show (4 : ℝ) = 2 ^ (2 : ℤ) by norm_num]
      exact zpow_le_zpow_right₀ (by norm_num) (by norm_num)
    generalize (2 : ℝ) ^ ((127 : ℕ) : ℤ) = t at h4
    linarith
  have hsf : |s.val + f.val| ≤ 2.1 * σ := by rw [abs_of_pos (by linarith)]; norm_num; linarith [hs2.2]
  obtain ⟨Df, De⟩ := (add_rne sf ff).mixed (by norm_num at hsf; linarith) (by rw [f32_bias]; norm_num)
  have tiny : (2 : ℝ) ^ (-(f32.bias : ℤ) - f32.sb) ≤ σ * (1 / 2 ^ 70) := by
    rw [f32_bias, f32_sb]
    refine le_trans (b := (2 : ℝ) ^ (-28 : ℤ) * (1 / 2 ^ 70)) ?_ (mul_le_mul_of_nonneg_right hl (by norm_num))
    rw [show (2 : ℝ) ^ (-28 : ℤ) * (1 / 2 ^ 70) = 2 ^ (-98 : ℤ) by norm_num]
    exact zpow_le_zpow_right₀ (by norm_num) (by norm_num)
  have De2 : |(s + f).val - (σ + f.val)| ≤ σ * (3.2 / 2 ^ 24) := by
    have e : (s + f).val - (σ + f.val) = ((s + f).val - (s.val + f.val)) + (s.val - σ) := by ring
    rw [e]
    refine (abs_add_le _ _).trans ((add_le_add De hs).trans ?_)
    rw [f32_sb]
    have := mul_le_mul_of_nonneg_right hsf (by positivity : (0 : ℝ) ≤ 2 ^ (-1 - ((23 : ℕ) : ℤ)))
    rw [f32_sb] at tiny
    norm_num at this tiny ⊢
    linarith
  have De3 := abs_le.1 De2
  norm_num at De3
  have hD1 : 1.9 * σ ≤ (s + f).val := by norm_num; linarith [De3.1]
  have hq0 : (σ - f.val) * (σ + f.val) / (σ + f.val) = σ - f.val := by field_simp
  have hqe := quot_err (N := (σ - f.val) * (σ + f.val)) (D := σ + f.val) (D' := (s + f).val) (T := σ * (1 / 2 ^ 10)) (by rw [hq0]; exact hd) (by linarith) (by norm_num; linarith : 0 < 1.9 * σ) hD1 De2
  rw [hq0] at hqe
  have hqe2 : |(σ - f.val) * (σ + f.val) / (s + f).val - (σ - f.val)| ≤ σ * (1.7 / 2 ^ 10 / 2 ^ 24) := by
    refine hqe.trans (le_of_eq_of_le (b := σ * (1 / 2 ^ 10 * (3.2 / 2 ^ 24) / 1.9)) (by field_simp) ?_)
    exact mul_le_mul_of_nonneg_left (by norm_num) hσ0.le
  have hqb : |(σ - f.val) * (σ + f.val) / (s + f).val| ≤ σ * (1.001 / 2 ^ 10) := by
    have a := abs_le.1 hqe2
    have b := abs_le.1 hd
    norm_num at a b ⊢
    rw [abs_le]; constructor <;> linarith [a.1, a.2, b.1, b.2]
  have hDne : (s + f).val ≠ 0 := by intro h; norm_num at hD1; linarith
  have dr := div_rne nf Df (fun h => hDne (isZero_val.1 h))
  rw [nv] at dr
  obtain ⟨cf, ce⟩ := dr.mixed (hqb.trans (le_trans (b := 4) (by norm_num; linarith) B0)) (by rw [f32_bias]; norm_num)
  refine ⟨cf, ?_, hd⟩
  have e : ((z - f * f) / (s + f)).val - (σ - f.val) = (((z - f * f) / (s + f)).val - (σ - f.val) * (σ + f.val) / (s + f).val) + ((σ - f.val) * (σ + f.val) / (s + f).val - (σ - f.val)) := by ring
  rw [e]
  refine (abs_add_le _ _).trans ((add_le_add ce hqe2).trans ?_)
  have := mul_le_mul_of_nonneg_right hqb (by positivity : (0 : ℝ) ≤ 2 ^ (-1 - (f32.sb : ℤ)))
  have t2 : (2 : ℝ) ^ (-(f32.bias : ℤ) - f32.sb) ≤ σ * (1 / 2 ^ 70) := tiny2 hl
  rw [f32_sb] at this t2 ⊢
  norm_num at this t2 ⊢
  linarith
end Asinf

end Verif
