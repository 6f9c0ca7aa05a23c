import Verif.Theory.Cut

/-!
# The compensated reciprocal of `k_tan` (k_tan.rs 99-107)
-/

namespace Verif.TanInv
open Verif Flt

/-- the last lines of `k_tan`: `-1 / (x + r)` -/
noncomputable def inv (x r : Flt f64) : Flt f64 :=
  let w := x + r
  let w0 := KTan.zeroLowWord w
  let v := r - (w0 - x)
  let a := -1.0 / w
  let a0 := KTan.zeroLowWord a
  a0 + a * (1.0 + a0 * w0 + a0 * v)

/-- the error analysis, with every quantity scaled by the exact sum -/
theorem core_e {om om0 nu al al0 e1 m e : ℝ} (h1 : |om - 1| ≤ 1 / 2 ^ 53) (h2 : |om0 - om| ≤ 1 / 2 ^ 20 * |om|)
    (h3 : |nu - (1 - om0)| ≤ 1 / 2 ^ 53 * |1 - om0|) (h4 : |al * om + 1| ≤ 1 / 2 ^ 53) (h5 : |al0 - al| ≤ 1 / 2 ^ 20 * |al|)
    (h6 : |e1 - (1 + al0 * om0)| ≤ 1 / 2 ^ 53 * |1 + al0 * om0|) (h7 : |m - al0 * nu| ≤ 1 / 2 ^ 53 * |al0 * nu| + 1 / 2 ^ 300)
    (h8 : |e - (e1 + m)| ≤ 1 / 2 ^ 53 * |e1 + m|) :
    |e| ≤ 3 / 2 / 2 ^ 20 ∧ |e - (1 + al0)| ≤ 14 / 2 ^ 73 ∧ |al| ≤ 1 + 1 / 2 ^ 50 ∧ |1 + al| ≤ 3 / 2 ^ 53 ∧ |1 + al0| ≤ 5 / 4 / 2 ^ 20 := by
  have hz : (0 : ℝ) ≤ 1 / 2 ^ 300 ∧ (1 : ℝ) / 2 ^ 300 ≤ 1 / 2 ^ 80 :=
    ⟨by positivity, one_div_le_one_div_of_le (by positivity) (pow_le_pow_right₀ (by norm_num) (by norm_num))⟩
  generalize (1 : ℝ) / 2 ^ 300 = z at *
  obtain ⟨hz0, hz1⟩ := hz
  have om1 : |om| ≤ 1 + 1 / 2 ^ 53 := by
    have := abs_add_le (om - 1) 1; rw [sub_add_cancel, abs_one] at this; linarith
  have omlo : 1 - 1 / 2 ^ 53 ≤ |om| := by
    have := (abs_le.1 h1).1; exact le_trans (by linarith) (le_abs_self om)
  have ala : |al| ≤ 1 + 1 / 2 ^ 50 := by
    have k1 : |al| * |om| ≤ 1 + 1 / 2 ^ 53 := by
      rw [← abs_mul]
      have := abs_add_le (al * om + 1) (-1); rw [abs_neg, abs_one] at this
      rw [show al * om + 1 + -1 = al * om by ring] at this
      linarith
    have k2 := mul_le_mul_of_nonneg_left omlo (abs_nonneg al)
    have := abs_nonneg al
    norm_num at k1 k2 ⊢
    linarith
  have al1 : |1 + al| ≤ 3 / 2 ^ 53 := by
    have e : 1 + al = (al * om + 1) + -(al * (om - 1)) := by ring
    rw [e]
    refine (abs_add_le _ _).trans ?_
    rw [abs_neg, abs_mul]
    have := mul_le_mul ala h1 (abs_nonneg _) (by norm_num)
    norm_num at this h4 ⊢
    linarith
  have al01 : |1 + al0| ≤ 5 / 4 / 2 ^ 20 := by
    have e : 1 + al0 = (1 + al) + (al0 - al) := by ring
    rw [e]
    refine (abs_add_le _ _).trans ?_
    norm_num at ala al1 h5 ⊢
    linarith
  have al0a : |al0| ≤ 1 + 5 / 4 / 2 ^ 20 := by
    have := abs_add_le (1 + al0) (-1); rw [abs_neg, abs_one, show 1 + al0 + -1 = al0 by ring] at this
    linarith
  have o1 : |1 - om0| ≤ 5 / 4 / 2 ^ 20 := by
    have e : 1 - om0 = -(om - 1) + -(om0 - om) := by ring
    rw [e]
    refine (abs_add_le _ _).trans ?_
    rw [abs_neg, abs_neg]
    norm_num at h1 h2 om1 ⊢
    linarith
  have nua : |nu| ≤ 3 / 2 / 2 ^ 20 := by
    have := abs_add_le (nu - (1 - om0)) (1 - om0); rw [sub_add_cancel] at this
    norm_num at this h3 o1 ⊢
    linarith
  have q1 : |1 + al0 * om0| ≤ 3 / 2 ^ 20 := by
    have e : 1 + al0 * om0 = (1 + al0) + -(al0 * (1 - om0)) := by ring
    rw [e]
    refine (abs_add_le _ _).trans ?_
    rw [abs_neg, abs_mul]
    have := mul_le_mul al0a o1 (abs_nonneg _) (by norm_num)
    norm_num at this al01 ⊢
    linarith
  have q2 : |al0 * nu| ≤ 2 / 2 ^ 20 := by
    rw [abs_mul]
    have := mul_le_mul al0a nua (abs_nonneg _) (by norm_num)
    norm_num at this ⊢
    linarith
  have q3 : |e1 + m| ≤ 6 / 2 ^ 20 := by
    have e : e1 + m = (e1 - (1 + al0 * om0)) + (m - al0 * nu) + ((1 + al0 * om0) + al0 * nu) := by ring
    rw [e]
    refine (abs_add_three _ _ _).trans ?_
    have := abs_add_le (1 + al0 * om0) (al0 * nu)
    norm_num at this h6 h7 q1 q2 hz1 ⊢
    linarith
  have eta : |e - (1 + al0)| ≤ 14 / 2 ^ 73 := by
    have e' : e - (1 + al0) = ((e - (e1 + m)) + (e1 - (1 + al0 * om0))) + (m - al0 * nu) + al0 * (nu - (1 - om0)) := by ring
    rw [e']
    refine (abs_add_three _ _ _).trans ?_
    have k1 := abs_add_le (e - (e1 + m)) (e1 - (1 + al0 * om0))
    rw [abs_mul]
    have k2 := mul_le_mul al0a (h3.trans (mul_le_mul_of_nonneg_left o1 (by norm_num))) (abs_nonneg _) (by norm_num)
    norm_num at k1 k2 h6 h7 h8 q1 q2 q3 hz1 ⊢
    linarith
  have k1 : |e| ≤ 3 / 2 / 2 ^ 20 := by
    have := abs_add_le (e - (1 + al0)) (1 + al0); rw [sub_add_cancel] at this
    norm_num at this eta al01 ⊢
    linarith
  exact ⟨k1, eta, ala, al1, al01⟩

theorem core {al al0 e p : ℝ} (h : |e| ≤ 3 / 2 / 2 ^ 20 ∧ |e - (1 + al0)| ≤ 14 / 2 ^ 73 ∧ |al| ≤ 1 + 1 / 2 ^ 50 ∧ |1 + al| ≤ 3 / 2 ^ 53 ∧ |1 + al0| ≤ 5 / 4 / 2 ^ 20)
    (h9 : |p - al * e| ≤ 1 / 2 ^ 53 * |al * e| + 1 / 2 ^ 300) : |al0 + p + 1| ≤ 1 / 2 ^ 66 := by
  obtain ⟨k1, eta, ala, al1, al01⟩ := h
  have hz1 : (1 : ℝ) / 2 ^ 300 ≤ 1 / 2 ^ 80 :=
    one_div_le_one_div_of_le (by positivity) (pow_le_pow_right₀ (by norm_num) (by norm_num))
  generalize (1 : ℝ) / 2 ^ 300 = z at *
  have ea : |al * e| ≤ 2 / 2 ^ 20 := by
    rw [abs_mul]
    have := mul_le_mul ala k1 (abs_nonneg _) (by norm_num)
    norm_num at this ⊢
    linarith
  have e' : al0 + p + 1 = (1 + al) * (1 + al0) + al * (e - (1 + al0)) + (p - al * e) := by ring
  rw [e']
  refine (abs_add_three _ _ _).trans ?_
  have k2 := mul_le_mul al1 al01 (abs_nonneg _) (by norm_num)
  have k3 := mul_le_mul ala eta (abs_nonneg _) (by norm_num)
  rw [← abs_mul] at k2 k3
  generalize |al * e| = t1 at *
  generalize |(1 + al) * (1 + al0)| = t2 at *
  generalize |al * (e - (1 + al0))| = t3 at *
  norm_num at k2 k3 h9 ea hz1 ⊢
  linarith

theorem top64 : (2 : ℝ) ^ (1023 : ℤ) ≤ 3 / 2 * 2 ^ ((1023 : ℕ) : ℤ) := le_mul_of_one_le_left (zp _).le (by norm_num)

theorem mixed64 {q : ℝ} {r : Flt f64} (h : IsRNE q r) (hq : |q| ≤ 2 ^ (1023 : ℤ)) :
    r.isFinite ∧ |r.val - q| ≤ 1 / 2 ^ 53 * |q| + 1 / 2 ^ 400 := by
  have := h.mixed (by rw [f64_bias]; refine hq.trans ?_; exact top64) (by rw [f64_bias]; norm_num)
  refine ⟨this.1, this.2.trans ?_⟩
  rw [f64_bias, f64_sb]
  have h1 : (2 : ℝ) ^ (-((1023 : ℕ) : ℤ) - ((52 : ℕ) : ℤ)) ≤ 1 / 2 ^ 400 := by
    rw [one_div, ← zpow_natCast, ← zpow_neg]
    exact zpow_le_zpow_right₀ (by norm_num) (by norm_num)
  have h2 : (2 : ℝ) ^ (-1 - ((52 : ℕ) : ℤ)) = 1 / 2 ^ 53 := by
    rw [one_div, ← zpow_natCast, ← zpow_neg]; norm_num
  rw [h2]
  linarith

theorem rel64 {x y : Flt f64} (hx : x.isFinite) (hy : y.isFinite) (h : |x.val + y.val| ≤ 2 ^ (1023 : ℤ)) :
    (x + y).isFinite ∧ |(x + y).val - (x.val + y.val)| ≤ 1 / 2 ^ 53 * |x.val + y.val| := by
  have := add_rel hx hy (by rw [f64_bias]; refine h.trans ?_; exact top64)
  rw [f64_sb] at this
  have h2 : (2 : ℝ) ^ (-1 - ((52 : ℕ) : ℤ)) = 1 / 2 ^ 53 := by
    rw [one_div, ← zpow_natCast, ← zpow_neg]; norm_num
  rw [h2, mul_comm] at this
  exact this

theorem rels64 {x y : Flt f64} (hx : x.isFinite) (hy : y.isFinite) (h : |x.val - y.val| ≤ 2 ^ (1023 : ℤ)) :
    (x - y).isFinite ∧ |(x - y).val - (x.val - y.val)| ≤ 1 / 2 ^ 53 * |x.val - y.val| := by
  have := sub_rel hx hy (by rw [f64_bias]; refine h.trans ?_; exact top64)
  rw [f64_sb] at this
  have h2 : (2 : ℝ) ^ (-1 - ((52 : ℕ) : ℤ)) = 1 / 2 ^ 53 := by
    rw [one_div, ← zpow_natCast, ← zpow_neg]; norm_num
  rw [h2, mul_comm] at this
  exact this

theorem one_val : (1.0 : Flt f64).val = 1 := by
  have := val_const64 (x := (1.0 : Flt f64)) 1 1074 0 (by decide +kernel) (by norm_num)
  rw [this]; norm_num

theorem mone_val : (-1.0 : Flt f64).val = -1 := by
  rw [val_neg, one_val]

/-- the reciprocal, before its last rounding -/
theorem inv_spec {x r : Flt f64} (hx : x.isFinite) (hr : r.isFinite) (lo : 1 / 2 ^ 110 ≤ |x.val|) (hi : |x.val| ≤ 1)
    (hxr : |r.val| ≤ 0.2 * |x.val|) : ∃ q : ℝ, IsRNE q (inv x r) ∧ |q * (x.val + r.val) + 1| ≤ 1 / 2 ^ 66 := by
  have big : ∀ t : ℝ, |t| ≤ 2 ^ 200 → |t| ≤ 2 ^ (1023 : ℤ) := fun t ht => ht.trans (by
    rw [← zpow_natCast]; exact zpow_le_zpow_right₀ (by norm_num) (by norm_num))
  have nrm : ∀ t : ℝ, 1 / 2 ^ 120 ≤ |t| → 2 ^ (-1022 : ℤ) ≤ |t| := fun t ht => le_trans (by
    rw [one_div, ← zpow_natCast, ← zpow_neg]; exact zpow_le_zpow_right₀ (by norm_num) (by norm_num)) ht
  set W := x.val + r.val with hW
  have hn := abs_nonneg x.val
  have W1 : |W| ≤ 1.2 * |x.val| := (abs_add_le _ _).trans (by linarith)
  have W0 : 0.8 * |x.val| ≤ |W| := by
    have := abs_sub_abs_le_abs_sub x.val (-r.val)
    rw [abs_neg, sub_neg_eq_add] at this
    linarith
  have Wp : 0 < |W| := by norm_num at lo W0; linarith
  have Wne : W ≠ 0 := abs_pos.1 Wp
  obtain ⟨wf, we⟩ := rel64 hx hr (big _ (W1.trans (by norm_num; linarith)))
  set w := x + r with hw
  have w1 : |w.val| ≤ 1.3 * |x.val| := by
    have := abs_add_le (w.val - W) W; rw [sub_add_cancel] at this
    norm_num at this we W1 ⊢; linarith
  have w2 : 0.7 * |x.val| ≤ |w.val| := by
    have := abs_sub_abs_le_abs_sub W w.val
    rw [abs_sub_comm] at this
    norm_num at this we W0 W1 ⊢; linarith
  have wp : 0 < |w.val| := by norm_num at lo w2; linarith
  have wne : w.val ≠ 0 := abs_pos.1 wp
  obtain ⟨w0f, w0e, n1, k1, hn1, hw0⟩ := zeroLowWord_spec wf (nrm _ (by norm_num at lo w2 ⊢; linarith))
  set w0 := KTan.zeroLowWord w with hw0d
  have w01 : |w0.val - x.val| ≤ 0.21 * |x.val| := by
    have e : w0.val - x.val = (w0.val - w.val) + (w.val - W) + r.val := by rw [hW]; ring
    rw [e]
    refine (abs_add_three _ _ _).trans ?_
    norm_num at w0e we w1 W1 hxr ⊢
    linarith
  have w02 : 0.79 * |x.val| ≤ |w0.val| := by
    have := abs_sub_abs_le_abs_sub x.val w0.val
    rw [abs_sub_comm] at this
    norm_num at this w01 ⊢; linarith
  obtain ⟨df, de⟩ := sterbenz_val w0f hx (by linarith) (by linarith) (by
      rw [f64_bias]; exact nrm _ (by norm_num at lo w02 ⊢; linarith)) (by rw [f64_bias]; exact nrm _ (by norm_num at lo ⊢; linarith))
  have e2 : r.val - (w0 - x).val = W - w0.val := by rw [de, hW]; ring
  have wW : |W - w0.val| ≤ 2 ^ 200 := by
    have e : W - w0.val = -((w0.val - w.val) + (w.val - W)) := by ring
    rw [e, abs_neg]
    refine (abs_add_le _ _).trans ?_
    norm_num at w0e we w1 W1 ⊢
    linarith
  obtain ⟨vf, ve⟩ := rels64 hr df (big _ (by rw [e2]; exact wW))
  rw [e2] at ve
  set v := r - (w0 - x) with hv
  have wz : ¬ w.isZero := fun h => wne (isZero_val.1 h)
  have hdiv := div_rne (x := (-1.0 : Flt f64)) (y := w) (by decide +kernel) wf wz
  rw [mone_val] at hdiv
  have d1 : |(-1 : ℝ) / w.val| ≤ 2 ^ 112 := by
    rw [abs_div, abs_neg, abs_one, div_le_iff₀ wp]
    norm_num at lo w2 ⊢; linarith
  have d2 : 0.5 ≤ |(-1 : ℝ) / w.val| := by
    rw [abs_div, abs_neg, abs_one, le_div_iff₀ wp]
    norm_num at w1 ⊢; linarith
  obtain ⟨af, ae⟩ := hdiv.rel (by rw [f64_bias]; exact nrm _ (le_trans (by norm_num) d2))
    (by rw [f64_bias]; refine (big _ (d1.trans (by norm_num))).trans ?_; exact top64)
  have h53 : (2 : ℝ) ^ (-1 - (f64.sb : ℤ)) = 1 / 2 ^ 53 := by
    rw [f64_sb, one_div, ← zpow_natCast, ← zpow_neg]; norm_num
  rw [h53] at ae
  set a := -1.0 / w with ha
  have ae' : |a.val * w.val + 1| ≤ 1 / 2 ^ 53 := by
    have e : a.val * w.val + 1 = (a.val - -1 / w.val) * w.val := by field_simp; ring
    rw [e, abs_mul]
    calc _ ≤ |(-1 : ℝ) / w.val| * (1 / 2 ^ 53) * |w.val| := mul_le_mul_of_nonneg_right ae (abs_nonneg _)
      _ = _ := by rw [abs_div, abs_neg, abs_one]; field_simp
  have a1 : |a.val| ≤ 2 ^ 113 := by
    have := abs_add_le (a.val - -1 / w.val) (-1 / w.val); rw [sub_add_cancel] at this
    norm_num at this ae d1 ⊢; linarith
  have a2 : 0.4 ≤ |a.val| := by
    have := abs_sub_abs_le_abs_sub (-1 / w.val) a.val
    rw [abs_sub_comm] at this
    norm_num at this ae d2 ⊢; linarith
  obtain ⟨a0f, a0e, n2, k2, hn2, ha0⟩ := zeroLowWord_spec af (nrm _ (le_trans (by norm_num) a2))
  set a0 := KTan.zeroLowWord a with ha0d
  have a01 : |a0.val| ≤ 2 ^ 114 := by
    have := abs_add_le (a0.val - a.val) a.val; rw [sub_add_cancel] at this
    norm_num at this a0e a1 ⊢; linarith
  have a02 : 0.3 ≤ |a0.val| := by
    have := abs_sub_abs_le_abs_sub a.val a0.val
    rw [abs_sub_comm] at this
    norm_num at this a0e a2 ⊢; linarith
  -- the product of the heads is exact
  have w0b : |w0.val| ≤ 2 := by
    have := abs_add_le (w0.val - x.val) x.val; rw [sub_add_cancel] at this
    norm_num at this w01 ⊢; linarith
  have aw : |a.val * w.val| ≤ 2 := by
    have := abs_add_le (a.val * w.val + 1) (-1)
    rw [abs_neg, abs_one, show a.val * w.val + 1 + -1 = a.val * w.val by ring] at this
    norm_num at this ae' ⊢; linarith
  have pb0 : 1 / 2 ^ 20 ≤ |a0.val * w0.val| ∧ |a0.val * w0.val| ≤ 2 ^ 20 := by
    rw [abs_mul]
    rw [abs_mul] at aw
    have t1 : |a0.val| ≤ 2 * |a.val| := by
      have := abs_add_le (a0.val - a.val) a.val; rw [sub_add_cancel] at this
      norm_num at this a0e ⊢; linarith [abs_nonneg a.val]
    have t2 : |w0.val| ≤ 2 * |w.val| := by
      have := abs_add_le (w0.val - w.val) w.val; rw [sub_add_cancel] at this
      norm_num at this w0e ⊢; linarith [abs_nonneg w.val]
    have t3 : |a.val| ≤ 2 * |a0.val| := by
      have := abs_sub_abs_le_abs_sub a.val a0.val
      rw [abs_sub_comm] at this
      norm_num at this a0e ⊢; linarith [abs_nonneg a.val]
    have t4 : |w.val| ≤ 2 * |w0.val| := by
      have := abs_sub_abs_le_abs_sub w.val w0.val
      rw [abs_sub_comm] at this
      norm_num at this w0e ⊢; linarith [abs_nonneg w.val]
    have t5 : 1 / 2 ≤ |a.val| * |w.val| := by
      rw [← abs_mul]
      have := abs_sub_abs_le_abs_sub (-1) (a.val * w.val)
      rw [abs_neg, abs_one, abs_sub_comm, sub_neg_eq_add] at this
      norm_num at this ae' ⊢; linarith
    constructor
    · have := mul_le_mul t3 t4 (abs_nonneg _) (mul_nonneg zero_le_two (abs_nonneg _))
      norm_num at this t5 ⊢; linarith
    · have := mul_le_mul t1 t2 (abs_nonneg _) (mul_nonneg zero_le_two (abs_nonneg _))
      norm_num at this aw ⊢; linarith
  obtain ⟨pf, pe⟩ : (a0 * w0).isFinite ∧ (a0 * w0).val = a0.val * w0.val := by
    have e : a0.val * w0.val = ((n2 * n1 : ℤ) : ℝ) * 2 ^ (k2 + k1) := by
      rw [ha0, hw0, zpow_add₀ (by norm_num)]; push_cast; ring
    have hnn : |n2 * n1| ≤ 2 ^ 42 := by
      rw [abs_mul]
      calc |n2| * |n1| ≤ 2 ^ 21 * 2 ^ 21 := mul_le_mul hn2 hn1 (abs_nonneg _) (by norm_num)
        _ = _ := by norm_num
    have hkk : -70 ≤ k2 + k1 := by
      by_contra hc
      have t1 : (2 : ℝ) ^ (k2 + k1) ≤ 2 ^ (-71 : ℤ) := zpow_le_zpow_right₀ (by norm_num) (by omega)
      have t2 := pb0.1
      have t3 : |((n2 * n1 : ℤ) : ℝ)| ≤ 2 ^ 42 := by rw [← Int.cast_abs]; exact_mod_cast hnn
      rw [e, abs_mul, abs_of_pos (zp _)] at t2
      have := mul_le_mul t3 t1 (zp _).le (by norm_num)
      rw [zpow_neg] at this
      norm_num at this t2
      linarith
    obtain ⟨c, cf, cv⟩ := exists_val (F := f64) (n := n2 * n1) (k := k2 + k1) (hnn.trans (by rw [f64_sb]; norm_num))
      (by rw [f64_bias, f64_sb]; push_cast; omega) (by
        have t2 := pb0.2
        rw [e, abs_mul, abs_of_pos (zp _)] at t2
        refine t2.trans_lt ?_
        rw [f64_bias, ← zpow_natCast]
        exact zpow_lt_zpow_right₀ (by norm_num) (by norm_num))
    exact (mul_rne a0f w0f).exact_real cf (by rw [cv, e])
  obtain ⟨e1f, e1e⟩ := rel64 (x := (1.0 : Flt f64)) (by decide +kernel) pf (big _ (by
    rw [one_val, pe]; refine (abs_add_le _ _).trans ?_; rw [abs_one]; have := pb0.2; norm_num at this ⊢; linarith))
  rw [one_val, pe] at e1e
  set e1 := 1.0 + a0 * w0 with he1
  have e1b : |e1.val| ≤ 2 ^ 22 := by
    have := abs_add_le (e1.val - (1 + a0.val * w0.val)) (1 + a0.val * w0.val); rw [sub_add_cancel] at this
    have t := abs_add_le 1 (a0.val * w0.val)
    rw [abs_one] at t
    have := pb0.2
    norm_num at *; linarith
  have vb : |v.val| ≤ 2 := by
    have t1 : |W - w0.val| ≤ 1 := by
      have e : W - w0.val = -((w0.val - w.val) + (w.val - W)) := by ring
      rw [e, abs_neg]
      refine (abs_add_le _ _).trans ?_
      norm_num at w0e we w1 W1 ⊢
      linarith
    have := abs_add_le (v.val - (W - w0.val)) (W - w0.val); rw [sub_add_cancel] at this
    norm_num at this ve ⊢; linarith
  have avb : |a0.val * v.val| ≤ 2 ^ 115 := by
    rw [abs_mul]
    have := mul_le_mul a01 vb (abs_nonneg _) (by positivity)
    norm_num at this ⊢; linarith
  obtain ⟨mf, me⟩ := mixed64 (mul_rne a0f vf) (big _ (avb.trans (by norm_num)))
  set m := a0 * v with hm
  have hz : (0 : ℝ) ≤ 1 / 2 ^ 400 ∧ (1 : ℝ) / 2 ^ 400 ≤ 1 / 2 ^ 301 :=
    ⟨by positivity, one_div_le_one_div_of_le (by positivity) (pow_le_pow_right₀ (by norm_num) (by norm_num))⟩
  have hz3 : (1 : ℝ) / 2 ^ 301 * 2 = 1 / 2 ^ 300 := by rw [pow_succ]; field_simp
  have hz4 : (1 : ℝ) / 2 ^ 301 ≤ 1 := by
    rw [div_le_one (by positivity)]; exact one_le_pow₀ (by norm_num)
  generalize hzd : (1 : ℝ) / 2 ^ 400 = z at *
  generalize (1 : ℝ) / 2 ^ 301 = z2 at *
  have mb : |m.val| ≤ 2 ^ 117 := by
    have := abs_add_le (m.val - a0.val * v.val) (a0.val * v.val); rw [sub_add_cancel] at this
    norm_num at this me avb ⊢; linarith
  obtain ⟨ef, ee⟩ := rel64 e1f mf (big _ ((abs_add_le _ _).trans (by norm_num at e1b mb ⊢; linarith)))
  set e := e1 + m with he
  have hem : |e1.val + m.val| ≤ 2 ^ 118 := (abs_add_le _ _).trans (by norm_num at e1b mb ⊢; linarith)
  have key := core_e (om := w.val / W) (om0 := w0.val / W) (nu := v.val / W) (al := a.val * W) (al0 := a0.val * W) (e1 := e1.val) (m := m.val)
    (e := e.val) ?_ ?_ ?_ ?_ ?_ ?_ ?_ ?_
  rotate_left
  · rw [show w.val / W - 1 = (w.val - W) / W by field_simp, abs_div, div_le_iff₀ Wp]; exact we
  · rw [← sub_div, abs_div, abs_div, ← mul_div_assoc]; exact div_le_div_of_nonneg_right w0e Wp.le
  · rw [show v.val / W - (1 - w0.val / W) = (v.val - (W - w0.val)) / W by field_simp, show 1 - w0.val / W = (W - w0.val) / W by field_simp, abs_div, abs_div, ← mul_div_assoc]
    exact div_le_div_of_nonneg_right ve Wp.le
  · rw [show a.val * W * (w.val / W) = a.val * w.val by field_simp]; exact ae'
  · rw [← sub_mul, abs_mul, abs_mul, ← mul_assoc]; exact mul_le_mul_of_nonneg_right a0e Wp.le
  · rw [show a0.val * W * (w0.val / W) = a0.val * w0.val by field_simp]; exact e1e
  · rw [show a0.val * W * (v.val / W) = a0.val * v.val by field_simp]; linarith
  · exact ee
  have eb : |e.val| ≤ 1 := key.1.trans (by norm_num)
  obtain ⟨pf', pe'⟩ := mixed64 (mul_rne af ef) (big _ (by
    rw [abs_mul]
    have := mul_le_mul a1 eb (abs_nonneg _) (by positivity)
    norm_num at this ⊢; linarith))
  rw [hzd] at pe'
  set p := a * e with hp
  refine ⟨a0.val + p.val, add_rne a0f pf', ?_⟩
  have key2 := core (p := p.val * W) key ?_
  · rw [show (a0.val + p.val) * W + 1 = a0.val * W + p.val * W + 1 by ring]; exact key2
  · rw [show p.val * W - a.val * W * e.val = (p.val - a.val * e.val) * W by ring, abs_mul, show a.val * W * e.val = a.val * e.val * W by ring, abs_mul (_ * _) W]
    have t := mul_le_mul_of_nonneg_right pe' Wp.le
    have : z * |W| ≤ z2 * 2 := mul_le_mul hz.2 (by norm_num at W1 ⊢; linarith) Wp.le (by linarith)
    linarith

end Verif.TanInv
