import Verif.Theory.LogAs
import Verif.Theory.PowTot2
import Verif.Theory.PowfTot
import Verif.Theory.TrigD

/-!
# `log` and `logf`: the sum `P + f + k·ln2hi`
-/

namespace Verif
open Flt

theorem WithinUlp.of_rne_abs {F : Fmt} {q t δ c a : ℝ} {r : Flt F} (j : ℤ) (h : IsRNE q r) (hj : 2 ^ j ≤ |t|) (hb : |t| < 2 ^ ((F.bias : ℤ) - 1)) (hF : 2 ≤ F.bias)
    (hq : |q - t| ≤ a) (ha : a ≤ δ * 2 ^ (j - F.sb)) (h0 : 0 ≤ δ) (hδ : δ ≤ 1 / 2) (hc : 1 / 2 + δ ≤ c) : WithinUlp c r t := by
  have ht : t ≠ 0 := by
    rintro rfl
    rw [abs_zero] at hj
    exact absurd hj (not_le.2 (by positivity))
  exact WithinUlp.of_rne h ht hb hF (hq.trans (ha.trans (mul_le_mul_of_nonneg_left (le_ulpAt_of_le hj) h0))) hδ hc

theorem WithinUlp.of_abs {F : Fmt} {t c a : ℝ} {r : Flt F} (j : ℤ) (hr : r.isFinite) (hj : 2 ^ j ≤ |t|)
    (hq : |r.val - t| ≤ a) (ha : a ≤ c * 2 ^ (j - F.sb)) (h0 : 0 ≤ c) : WithinUlp c r t := by
  rw [WithinUlp.def']
  exact ⟨hr, hq.trans (ha.trans (mul_le_mul_of_nonneg_left (le_ulpAt_of_le hj) h0))⟩

theorem WithinUlp.congr {F : Fmt} {t c : ℝ} {r s : Flt F} (h : WithinUlp c r t) (hs : s.isFinite) (hv : s.val = r.val) : WithinUlp c s t := by
  rw [WithinUlp.def'] at *
  exact ⟨hs, by rw [hv]; exact h.2⟩

/-- `log (1+f)` on the reduced range -/
theorem log_red_bd {f : ℝ} (h1 : -0.29291 ≤ f) (h2 : f ≤ 0.41423) : |Real.log (1 + f)| ≤ 0.3467 := by
  norm_num at h1 h2
  have l1 := Num.log2_gt
  have l2 := Num.log2_lt
  have hp : 0 < 1 + f := by linarith
  have e : Real.log ((1 + f) ^ 2) = 2 * Real.log (1 + f) := by rw [Real.log_pow]; norm_num
  have a1 : Real.log ((1 + f) ^ 2) ≤ Real.log 2 + 0.0001 := by
    have : Real.log ((1 + f) ^ 2 / 2) ≤ (1 + f) ^ 2 / 2 - 1 := Real.log_le_sub_one_of_pos (by positivity)
    rw [Real.log_div (by positivity) (by norm_num)] at this
    norm_num; nlinarith
  have a2 : -(Real.log 2 + 0.0001) ≤ Real.log ((1 + f) ^ 2) := by
    have : Real.log (1 / (2 * (1 + f) ^ 2)) ≤ 1 / (2 * (1 + f) ^ 2) - 1 := Real.log_le_sub_one_of_pos (by positivity)
    rw [one_div, Real.log_inv, Real.log_mul (by norm_num) (by positivity)] at this
    have h3 : (2 * (1 + f) ^ 2)⁻¹ ≤ 1.0001 := by
      rw [inv_le_comm₀ (by positivity) (by norm_num)]
      norm_num; nlinarith
    have e4 : (1.0001 : ℝ) = 1 + 0.0001 := by norm_num
    rw [e4] at h3
    linarith
  rw [abs_le]
  norm_num at *
  constructor <;> linarith

/-- bounds of `exp 0.25` -/
theorem log_quarter {f : ℝ} (h1 : -0.29291 ≤ f) (h2 : f ≤ 0.41423) (h : |Real.log (1 + f)| ≤ 0.2502) : -0.2215 ≤ f ∧ f ≤ 0.285 := by
  norm_num at h1 h2
  obtain ⟨a, b⟩ := abs_le.1 h
  have hp : 0 < 1 + f := by linarith
  constructor
  · rw [Real.le_log_iff_exp_le hp] at a
    have h3 : (0.7785 : ℝ) ≤ Real.exp (-0.2502) := by
      have := Real.add_one_le_exp (-0.0010008)
      have e : Real.exp (-0.2502) = Real.exp (-0.0010008) ^ 250 := by rw [← Real.exp_nat_mul]; norm_num
      rw [e]
      refine le_trans ?_ (pow_le_pow_left₀ (by norm_num) this 250)
      norm_num
    have e4 : (0.7785 : ℝ) = 1 - 0.2215 := by norm_num
    rw [e4] at h3
    linarith
  · rw [Real.log_le_iff_le_exp hp] at b
    have h3 : Real.exp 0.2502 ≤ (1.285 : ℝ) := by
      have := Real.exp_bound_div_one_sub_of_interval' (x := 0.0010008) (by norm_num) (by norm_num)
      have e : Real.exp 0.2502 = Real.exp 0.0010008 ^ 250 := by rw [← Real.exp_nat_mul]; norm_num
      rw [e]
      refine (pow_le_pow_left₀ (Real.exp_pos _).le this.le 250).trans ?_
      norm_num
    have e4 : (1.285 : ℝ) = 1 + 0.285 := by norm_num
    rw [e4] at h3
    linarith

namespace Log
variable {f m : Flt f64} {k : ℤ} {μ : ℝ}

/-- the terms of the sum other than `f` and `k·ln2hi` -/
def pre (f m : Flt f64) : Flt f64 := sOf f * (hfsq f + rOf (sOf f)) + m - hfsq f

/-- log.rs 116-117 with `m` for `k·ln2lo`, log1p.rs 138-139 with `m` for `k·ln2lo + c` -/
def sum (f m : Flt f64) (k : ℤ) : Flt f64 := pre f m + f + ofInt f64 k * ln2hi

theorem ln2_split : |ln2hi.val + ln2lo.val - Real.log 2| ≤ 1 / 2 ^ 74 := by
  have l := abs_le.1 Num.log2_near
  rw [ln2hi_val, ln2lo_val, abs_le]
  norm_num at *
  constructor <;> linarith

theorem hi_exact (hk : |k| ≤ 1100) : (ofInt f64 k * ln2hi).isFinite ∧ (ofInt f64 k * ln2hi).val = k * ln2hi.val := by
  obtain ⟨a, b⟩ := Pow.ofInt_val (n := k) (hk.trans (by norm_num))
  obtain ⟨c, cf, cv⟩ := exists_val64' (n := k * 2977044471) (k := -32) (by rw [abs_mul]; norm_num; linarith) (by norm_num) (by norm_num)
  have := (mul_rne a (y := ln2hi) (by decide +kernel)).exact_real cf (by rw [b, ln2hi_val, cv]; push_cast; ring)
  exact ⟨this.1, by rw [this.2, b]⟩

theorem pre_real {q x : ℝ} {a : ℝ} (h1 : -0.29291 ≤ x) (h2 : x ≤ 0.41423) (h : |q - (w x + μ - x ^ 2 / 2)| ≤ a) :
    |q + x - (Real.log (1 + x) + μ)| ≤ a + (1 / 2 ^ 60) := by
  have a1 := w_log h1 h2
  have e : q + x - (Real.log (1 + x) + μ) = (q - (w x + μ - x ^ 2 / 2)) + (x - x ^ 2 / 2 + w x - Real.log (1 + x)) := by ring
  rw [e]
  refine (abs_add_le _ _).trans ?_
  have : ((1 / 2 ^ 60) : ℝ) = 1 / 2 ^ 60 := by norm_num
  rw [this]
  exact add_le_add h a1

theorem pre1 (ff : f.isFinite) (h1 : -0.29291 ≤ f.val) (h2 : f.val ≤ 0.41423) (h0 : f.val = 0 ∨ 2 ^ (-100 : ℤ) ≤ |f.val|) (hm : Ap m μ (1 / 2 ^ 63) (1 / 2 ^ 22)) :
    (pre f m).isFinite ∧ |(pre f m).val + f.val - (Real.log (1 + f.val) + μ)| ≤ (7861 / 2 ^ 68) := by
  obtain ⟨hh, hE⟩ := core1 ff h1 h2 h0
  have ha := Ap.add hE hm (-5) (by norm_num) (by norm_num) (g := (3509 / 2 ^ 68)) (D := (2383 / 2 ^ 17)) (by norm_num) (by norm_num)
  have hP := Ap.sub ha hh (-3) (by norm_num) (by norm_num) (g := (7605 / 2 ^ 68)) (D := (6815 / 2 ^ 16)) (by norm_num) (by norm_num)
  refine ⟨hP.fin, (pre_real h1 h2 hP.err).trans (by norm_num)⟩

theorem pre2 (ff : f.isFinite) (h3 : -0.2215 ≤ f.val) (h4 : f.val ≤ 0.285) (h0 : f.val = 0 ∨ 2 ^ (-100 : ℤ) ≤ |f.val|) (hm : Ap m μ (1 / 2 ^ 63) (1 / 2 ^ 22)) :
    (pre f m).isFinite ∧ |(pre f m).val + f.val - (Real.log (1 + f.val) + μ)| ≤ (6819 / 2 ^ 69) := by
  obtain ⟨hh, hE⟩ := core2 ff h3 h4 h0
  have h1 : -0.29291 ≤ f.val := le_trans (by norm_num) h3
  have h2 : f.val ≤ 0.41423 := h4.trans (by norm_num)
  have ha := Ap.add hE hm (-7) (by norm_num) (by norm_num) (g := (4421 / 2 ^ 70)) (D := (3343 / 2 ^ 19)) (by norm_num) (by norm_num)
  have hP := Ap.sub ha hh (-4) (by norm_num) (by norm_num) (g := (6307 / 2 ^ 69)) (D := (385 / 2 ^ 13)) (by norm_num) (by norm_num)
  refine ⟨hP.fin, (pre_real h1 h2 hP.err).trans (by norm_num)⟩

theorem pre3 (ff : f.isFinite) (h : |f.val| ≤ 0.2) (h0 : 1 / 2 ^ 53 ≤ |f.val|) (hz : m.isFinite ∧ m.val = 0) :
    (pre f m).isFinite ∧ |(pre f m).val + f.val - Real.log (1 + f.val)| ≤ (6353 / 2 ^ 67) * |Real.log (1 + f.val)| := by
  obtain ⟨hh, hE⟩ := core3 ff h (le_trans ((zpow_le_zpow_right₀ (by norm_num) (by norm_num : (-900 : ℤ) ≤ -53)).trans (by norm_num)) h0)
    (le_trans (by norm_num) h0)
  have ht0 : 0 ≤ |f.val| := abs_nonneg _
  have ht1 : |f.val| ≤ 1 := h.trans (by norm_num)
  have hE' : As |f.val| (sOf f * (hfsq f + rOf (sOf f)) + m) (w f.val) (3885 / 2 ^ 68) (1043 / 2 ^ 16) := by
    have := (add_rne hE.fin hz.1).exact_real hE.fin (by rw [hz.2, _root_.add_zero])
    have hv : (sOf f * (hfsq f + rOf (sOf f)) + m).val = (sOf f * (hfsq f + rOf (sOf f))).val := by rw [this.2, hz.2, _root_.add_zero]
    exact ⟨this.1, by rw [hv]; exact hE.err, by rw [hv]; exact hE.bd⟩
  have hQ := As64.sub ht0 ht1 hE' hh (by norm_num) (by norm_num) (g := (1371 / 2 ^ 65)) (D := (7605 / 2 ^ 16)) (by norm_num) (by norm_num)
  refine ⟨hQ.fin, ?_⟩
  have b := hQ.err
  change |(pre f m).val - _| ≤ _ at b
  have hf := abs_le.1 h
  have hs : |f.val / (2 + f.val)| ≤ 0.56 * |f.val| := by
    norm_num at hf
    rw [abs_div, abs_of_pos (by linarith : 0 < 2 + f.val), div_le_iff₀ (by linarith)]
    norm_num
    nlinarith
  have a := approx (f := f.val) (s := f.val / (2 + f.val)) (by norm_num at hf; linarith) rfl (hs.trans (by norm_num at h ⊢; linarith))
  have h2 : (2 : ℝ) + f.val ≠ 0 := by norm_num at hf; linarith
  have e : f.val - f.val ^ 2 / 2 + w f.val = 2 * (f.val / (2 + f.val)) + f.val / (2 + f.val) * ((f.val / (2 + f.val)) ^ 2 * Poly.ev poly ((f.val / (2 + f.val)) ^ 2)) := by
    unfold w
    generalize Poly.ev poly ((f.val / (2 + f.val)) ^ 2) = P
    field_simp
    ring
  rw [← e] at a
  have a' := a.trans (mul_le_mul_of_nonneg_right hs (by norm_num))
  have l := log_lower h
  have e2 : (pre f m).val + f.val - Real.log (1 + f.val) = ((pre f m).val - (w f.val - f.val ^ 2 / 2)) + (f.val - f.val ^ 2 / 2 + w f.val - Real.log (1 + f.val)) := by ring
  rw [e2]
  refine (abs_add_le _ _).trans ((add_le_add b a').trans ?_)
  refine le_trans ?_ (mul_le_mul_of_nonneg_left l (by norm_num))
  rw [show 0.56 * |f.val| * (1 / 2 ^ 58 * 1.01) = (0.56 * (1 / 2 ^ 58 * 1.01)) * |f.val| by ring, ← add_mul, ← mul_assoc ((6353 / 2 ^ 67) : ℝ) 0.909]
  refine mul_le_mul_of_nonneg_right ?_ ht0
  norm_num

theorem sum_zero (ff : f.isFinite) (h1 : -0.29291 ≤ f.val) (h2 : f.val ≤ 0.41423) (h0 : 1 / 2 ^ 53 ≤ |f.val|) (hm0 : m.isFinite ∧ m.val = 0) :
    WithinUlp 0.99 (sum f m 0) (Real.log (1 + f.val)) := by
  have h0' : f.val = 0 ∨ 2 ^ (-100 : ℤ) ≤ |f.val| := Or.inr (le_trans (by norm_num) h0)
  have hb := log_red_bd h1 h2
  have hm : Ap m 0 (1 / 2 ^ 63) (1 / 2 ^ 22) := ⟨hm0.1, by rw [hm0.2]; norm_num, by rw [hm0.2]; norm_num⟩
  obtain ⟨pf, pe⟩ := pre1 ff h1 h2 h0' hm
  have pe' : |(pre f m).val + f.val - Real.log (1 + f.val)| ≤ (7861 / 2 ^ 68) := by simpa using pe
  have hbig : |Real.log (1 + f.val)| < 2 ^ ((f64.bias : ℤ) - 1) := by
    refine lt_of_le_of_lt hb (lt_of_lt_of_le (b := (1 : ℝ)) (by norm_num) (one_le_zpow₀ (by norm_num) (by rw [f64_bias]; norm_num)))
  have rq := add_rne pf ff
  have key : WithinUlp 0.99 (pre f m + f) (Real.log (1 + f.val)) := by
    by_cases c1 : |f.val| ≤ 0.2
    · obtain ⟨-, pe3⟩ := pre3 ff c1 h0 hm0
      have l := log_lower c1
      have hp : 0 < |Real.log (1 + f.val)| := lt_of_lt_of_le (mul_pos (by norm_num) (lt_of_lt_of_le (by norm_num) h0)) l
      exact WithinUlp.of_rne_rel rq (abs_pos.1 hp) hbig (by rw [f64_bias]; norm_num) pe3 (by norm_num) (by rw [f64_sb]; norm_num) (by rw [f64_sb]; norm_num)
    · by_cases c2 : -0.2215 ≤ f.val ∧ f.val ≤ 0.285
      · obtain ⟨-, pe2⟩ := pre2 ff c2.1 c2.2 h0' hm
        have pe2' : |(pre f m).val + f.val - Real.log (1 + f.val)| ≤ (6819 / 2 ^ 69) := by simpa using pe2
        have ht : (2 : ℝ) ^ (-3 : ℤ) ≤ |Real.log (1 + f.val)| := by
          norm_num at h1 h2 c1
          rcases le_total 0 f.val with hh | hh
          · rw [abs_of_nonneg hh] at c1
            have h3 := Real.log_le_log (by norm_num) (by linarith : (1.2 : ℝ) ≤ 1 + f.val)
            have h4 := log_lower (f := 0.2) (by norm_num)
            rw [abs_of_nonneg (by norm_num : (0 : ℝ) ≤ 0.2), abs_of_nonneg (Real.log_nonneg (by norm_num))] at h4
            refine le_trans ?_ (le_abs_self _)
            norm_num at h3 h4 ⊢; linarith
          · rw [abs_of_nonpos hh] at c1
            have h3 := Real.log_le_sub_one_of_pos (x := 1 + f.val) (by linarith)
            refine le_trans ?_ (neg_le_abs _)
            norm_num; linarith
        exact WithinUlp.of_rne_abs (δ := 0.49) (-3) rq ht hbig (by rw [f64_bias]; norm_num) pe2' (by rw [f64_sb]; norm_num) (by norm_num) (by norm_num) (by norm_num)
      · have ht : (2 : ℝ) ^ (-2 : ℤ) ≤ |Real.log (1 + f.val)| := by
          by_contra hc
          push Not at hc
          exact c2 (log_quarter h1 h2 (hc.le.trans (by norm_num)))
        exact WithinUlp.of_rne_abs (δ := 0.49) (-2) rq ht hbig (by rw [f64_bias]; norm_num) pe' (by rw [f64_sb]; norm_num) (by norm_num) (by norm_num) (by norm_num)
  have hz := hi_exact (k := 0) (by norm_num)
  have hx := (add_rne key.1 hz.1).exact_real key.1 (by rw [hz.2]; simp)
  change WithinUlp 0.99 (pre f m + f + _) _
  exact key.congr hx.1 (by rw [hx.2, hz.2]; simp)

theorem sum_ne {k : ℤ} (ff : f.isFinite) (h1 : -0.29291 ≤ f.val) (h2 : f.val ≤ 0.41423) (h0 : f.val = 0 ∨ 1 / 2 ^ 53 ≤ |f.val|) (hk : |k| ≤ 1100) (hk0 : k ≠ 0)
    (hm : Ap m μ (1 / 2 ^ 63) (1 / 2 ^ 22)) (hμ : |μ| ≤ 0.0015) (hμ1 : |k| = 1 → |μ| ≤ 0.00002) : WithinUlp 0.99 (sum f m k) (Real.log (1 + f.val) + μ + k * ln2hi.val) := by
  have h0' : f.val = 0 ∨ 2 ^ (-100 : ℤ) ≤ |f.val| := h0.imp_right (le_trans (by norm_num))
  have hb := log_red_bd h1 h2
  obtain ⟨pf, pe⟩ := pre1 ff h1 h2 h0' hm
  obtain ⟨mf, mv⟩ := hi_exact hk
  have hk1 : (1 : ℝ) ≤ |(k : ℝ)| := by exact_mod_cast Int.one_le_abs hk0
  have hk2 : |(k : ℝ)| ≤ 1100 := by exact_mod_cast hk
  have hl0 : (0.693 : ℝ) ≤ ln2hi.val ∧ ln2hi.val ≤ 0.694 := by rw [ln2hi_val]; norm_num
  have hkl : |(k : ℝ) * ln2hi.val| = |(k : ℝ)| * ln2hi.val := by rw [abs_mul, abs_of_pos (a := ln2hi.val) (by have := hl0.1; norm_num at this; linarith)]
  have htu : |Real.log (1 + f.val) + μ + k * ln2hi.val| ≤ 0.3467 + 0.0015 + 1100 * 0.694 := by
    refine (abs_add_three _ _ _).trans (add_le_add (add_le_add hb hμ) ?_)
    rw [hkl]
    exact mul_le_mul hk2 hl0.2 (le_trans (by norm_num) hl0.1) (by norm_num)
  have htl : |(k : ℝ)| * ln2hi.val - 0.3482 ≤ |Real.log (1 + f.val) + μ + k * ln2hi.val| := by
    have := abs_sub_abs_le_abs_sub ((k : ℝ) * ln2hi.val) (-(Real.log (1 + f.val) + μ))
    rw [abs_neg, hkl, sub_neg_eq_add, add_comm ((k : ℝ) * ln2hi.val)] at this
    have h3 := abs_add_le (Real.log (1 + f.val)) μ
    norm_num at hb hμ h3 ⊢
    linarith
  have hbig : |Real.log (1 + f.val) + μ + k * ln2hi.val| < 2 ^ ((f64.bias : ℤ) - 1) := by
    refine lt_of_le_of_lt htu (lt_of_lt_of_le (b := (2 : ℝ) ^ (10 : ℤ)) (by norm_num) (zpow_le_zpow_right₀ (by norm_num) (by rw [f64_bias]; norm_num)))
  have hq0 : |(pre f m).val + f.val| ≤ 0.349 := by
    have e : (pre f m).val + f.val = ((pre f m).val + f.val - (Real.log (1 + f.val) + μ)) + Real.log (1 + f.val) + μ := by ring
    rw [e]
    refine (abs_add_three _ _ _).trans ?_
    norm_num at pe hb hμ ⊢
    linarith
  obtain ⟨qf, qe⟩ := add_err64 pf ff (-1) (by norm_num at hq0 ⊢; linarith) (by norm_num)
  have qe1 : |(pre f m + f).val + k * ln2hi.val - (Real.log (1 + f.val) + μ + k * ln2hi.val)| ≤ (16053 / 2 ^ 68) := by
    have e : (pre f m + f).val + k * ln2hi.val - (Real.log (1 + f.val) + μ + k * ln2hi.val) = ((pre f m + f).val - ((pre f m).val + f.val)) +
      ((pre f m).val + f.val - (Real.log (1 + f.val) + μ)) := by ring
    rw [e]
    refine (abs_add_le _ _).trans ((add_le_add qe pe).trans (by norm_num))
  have rr := add_rne qf mf
  rw [mv] at rr
  change WithinUlp 0.99 (pre f m + f + _) _
  by_cases c1 : 2 ^ (-1 : ℤ) ≤ |Real.log (1 + f.val) + μ + k * ln2hi.val|
  · exact WithinUlp.of_rne_abs (δ := 0.49) (-1) rr c1 hbig (by rw [f64_bias]; norm_num) qe1 (by rw [f64_sb]; norm_num) (by norm_num) (by norm_num) (by norm_num)
  · push Not at c1
    have hk1' : |(k : ℝ)| < 2 := by
      by_contra hc
      push Not at hc
      have : 2 * ln2hi.val ≤ |(k : ℝ)| * ln2hi.val := mul_le_mul_of_nonneg_right hc (le_trans (by norm_num) hl0.1)
      have h5 := hl0.1
      norm_num at c1 h5 htl
      linarith
    have ht2 : (2 : ℝ) ^ (-2 : ℤ) ≤ |Real.log (1 + f.val) + μ + k * ln2hi.val| := by
      have : 1 * ln2hi.val ≤ |(k : ℝ)| * ln2hi.val := mul_le_mul_of_nonneg_right hk1 (le_trans (by norm_num) hl0.1)
      have h5 := hl0.1
      norm_num at h5 htl ⊢
      linarith
    by_cases c2 : 2 ^ (-2 : ℤ) ≤ |(pre f m + f).val|
    · obtain ⟨n, hn⟩ := grid64 _ (-2) c2
      have es : (pre f m + f).val + k * ln2hi.val = ((n + k * 2977044471 * 2 ^ 22 : ℤ) : ℝ) * 2 ^ (-54 : ℤ) := by
        rw [hn, ln2hi_val, show (-2 - 52 : ℤ) = -54 by norm_num, show (2 : ℝ) ^ (-32 : ℤ) = 2 ^ 22 * 2 ^ (-54 : ℤ) by norm_num]; push_cast; ring
      have hN : |n + k * 2977044471 * 2 ^ 22| ≤ 2 ^ 53 := by
        by_contra hc
        push Not at hc
        have hc' : (2 ^ 53 + 1 : ℝ) ≤ |((n + k * 2977044471 * 2 ^ 22 : ℤ) : ℝ)| := by exact_mod_cast hc
        have : |(pre f m + f).val + k * ln2hi.val| ≤ |Real.log (1 + f.val) + μ + k * ln2hi.val| + (16053 / 2 ^ 68) := by
          have := abs_add_le ((pre f m + f).val + k * ln2hi.val - (Real.log (1 + f.val) + μ + k * ln2hi.val)) (Real.log (1 + f.val) + μ + k * ln2hi.val)
          rw [_root_.sub_add_cancel] at this
          linarith
        rw [es, abs_mul, abs_of_pos (by positivity : (0 : ℝ) < 2 ^ (-54 : ℤ))] at this
        have h3 := mul_le_mul_of_nonneg_right hc' (by positivity : (0 : ℝ) ≤ 2 ^ (-54 : ℤ))
        have h4 := (h3.trans this).trans (add_le_add_left c1.le _)
        norm_num at h4
      obtain ⟨c, cf, cv⟩ := exists_val64' (n := n + k * 2977044471 * 2 ^ 22) (k := -54) hN (by norm_num) (by norm_num)
      obtain ⟨rf, rv⟩ := rr.exact_real cf (by rw [cv, es])
      exact WithinUlp.of_abs (a := (16053 / 2 ^ 68)) (-2) rf ht2 (by rw [rv]; exact qe1) (by rw [f64_sb]; norm_num) (by norm_num)
    · push Not at c2
      have rq := add_rne pf ff
      have hq1 : |(pre f m).val + f.val| ≤ 2 ^ (-2 : ℤ) := by
        by_contra hc
        push Not at hc
        obtain ⟨c, cf, cv⟩ := exists_val64' (n := 1) (k := -2) (by norm_num) (by norm_num) (by norm_num)
        obtain ⟨c', cf', cv'⟩ := exists_val64' (n := -1) (k := -2) (by norm_num) (by norm_num) (by norm_num)
        rcases le_total 0 ((pre f m).val + f.val) with hs | hs
        · rw [abs_of_nonneg hs] at hc
          have := rq.ge_of_ge qf cf (by rw [cv]; push_cast; linarith)
          rw [cv] at this
          push_cast at this
          linarith [le_abs_self (pre f m + f).val]
        · rw [abs_of_nonpos hs] at hc
          have := rq.le_of_le qf cf' (by rw [cv']; push_cast; linarith)
          rw [cv'] at this
          push_cast at this
          linarith [neg_le_abs (pre f m + f).val]
      have hf2 : -0.2215 ≤ f.val ∧ f.val ≤ 0.285 := by
        have hsm' : |μ| ≤ 0.00002 := hμ1 (by
          have h6 : |k| < 2 := by exact_mod_cast hk1'
          have h7 := Int.one_le_abs hk0
          omega)
        refine log_quarter h1 h2 ?_
        have e : Real.log (1 + f.val) = -((pre f m).val + f.val - (Real.log (1 + f.val) + μ)) + ((pre f m).val + f.val) + -μ := by ring
        rw [e]
        refine (abs_add_three _ _ _).trans ?_
        rw [abs_neg, abs_neg]
        norm_num [-abs_mul] at pe hq1 hsm' ⊢
        linarith
      obtain ⟨-, pe2⟩ := pre2 ff hf2.1 hf2.2 h0' hm
      obtain ⟨-, qe2⟩ := add_err64 pf ff (-2) hq1 (by norm_num)
      have qe3 : |(pre f m + f).val + k * ln2hi.val - (Real.log (1 + f.val) + μ + k * ln2hi.val)| ≤ (15011 / 2 ^ 69) := by
        have e : (pre f m + f).val + k * ln2hi.val - (Real.log (1 + f.val) + μ + k * ln2hi.val) = ((pre f m + f).val - ((pre f m).val + f.val)) +
          ((pre f m).val + f.val - (Real.log (1 + f.val) + μ)) := by ring
        rw [e]
        refine (abs_add_le _ _).trans ((add_le_add qe2 pe2).trans (by norm_num))
      exact WithinUlp.of_rne_abs (δ := 0.47) (-2) rr ht2 hbig (by rw [f64_bias]; norm_num) qe3 (by rw [f64_sb]; norm_num) (by norm_num) (by norm_num) (by norm_num)

/-- `k = 0` with a correction `m`, away from 1 -/
theorem sum_far (ff : f.isFinite) (h1 : -0.29291 ≤ f.val) (h2 : f.val ≤ 0.41423) (h0 : f.val = 0 ∨ 1 / 2 ^ 53 ≤ |f.val|)
    (hm : Ap m μ (1 / 2 ^ 63) (1 / 2 ^ 22)) (hμ : |μ| ≤ 0.0015) (hf : 2 ^ (-2 : ℤ) ≤ |Real.log (1 + f.val) + μ|) : WithinUlp 0.99 (sum f m 0) (Real.log (1 + f.val) + μ) := by
  have h0' : f.val = 0 ∨ 2 ^ (-100 : ℤ) ≤ |f.val| := h0.imp_right (le_trans (by norm_num))
  have hb := log_red_bd h1 h2
  obtain ⟨pf, pe⟩ := pre1 ff h1 h2 h0' hm
  have hbig : |Real.log (1 + f.val) + μ| < 2 ^ ((f64.bias : ℤ) - 1) := by
    refine lt_of_le_of_lt ((abs_add_le _ _).trans (add_le_add hb hμ)) (lt_of_lt_of_le (b := (1 : ℝ)) (by norm_num) (one_le_zpow₀ (by norm_num) (by rw [f64_bias]; norm_num)))
  have key : WithinUlp 0.99 (pre f m + f) (Real.log (1 + f.val) + μ) :=
    WithinUlp.of_rne_abs (δ := 0.49) (-2) (add_rne pf ff) hf hbig (by rw [f64_bias]; norm_num) pe (by rw [f64_sb]; norm_num) (by norm_num) (by norm_num) (by norm_num)
  have hz := hi_exact (k := 0) (by norm_num)
  have hx := (add_rne key.1 hz.1).exact_real key.1 (by rw [hz.2]; simp)
  exact key.congr hx.1 (by change (pre f m + f + _).val = _; rw [hx.2, hz.2]; simp)

/-- far from 1, where the exact value may differ a little from the one the terms add up to -/
theorem sum_big {k : ℤ} {t : ℝ} (ff : f.isFinite) (h1 : -0.29291 ≤ f.val) (h2 : f.val ≤ 0.41423) (h0 : f.val = 0 ∨ 1 / 2 ^ 53 ≤ |f.val|) (hk : |k| ≤ 1100) (hk0 : 16 ≤ |k|)
    (hm : Ap m μ (1 / 2 ^ 63) (1 / 2 ^ 22)) (hμ : |μ| ≤ 0.0015) (ht : |Real.log (1 + f.val) + μ + k * ln2hi.val - t| ≤ 1 / 2 ^ 52) : WithinUlp 0.99 (sum f m k) t := by
  have h0' : f.val = 0 ∨ 2 ^ (-100 : ℤ) ≤ |f.val| := h0.imp_right (le_trans (by norm_num))
  have hb := log_red_bd h1 h2
  obtain ⟨pf, pe⟩ := pre1 ff h1 h2 h0' hm
  obtain ⟨mf, mv⟩ := hi_exact hk
  have hk1 : (16 : ℝ) ≤ |(k : ℝ)| := by exact_mod_cast hk0
  have hk2 : |(k : ℝ)| ≤ 1100 := by exact_mod_cast hk
  have hl0 : (0.693 : ℝ) ≤ ln2hi.val ∧ ln2hi.val ≤ 0.694 := by rw [ln2hi_val]; norm_num
  have hkl : |(k : ℝ) * ln2hi.val| = |(k : ℝ)| * ln2hi.val := by rw [abs_mul, abs_of_pos (a := ln2hi.val) (by have := hl0.1; norm_num at this; linarith)]
  have hu : |(k : ℝ)| * ln2hi.val ≤ 1100 * 0.694 := mul_le_mul hk2 hl0.2 (le_trans (by norm_num) hl0.1) (by norm_num)
  have hl : 16 * 0.693 ≤ |(k : ℝ)| * ln2hi.val := mul_le_mul hk1 hl0.1 (by norm_num) (abs_nonneg _)
  rw [← hkl] at hu hl
  generalize (k : ℝ) * ln2hi.val = K at *
  have htt : |t - K| ≤ 0.3500 := by
    rw [abs_le] at hb hμ ht ⊢
    norm_num at hb hμ ht ⊢
    constructor <;> linarith
  have hq0 : |(pre f m).val + f.val| ≤ 0.349 := by
    have e : (pre f m).val + f.val = ((pre f m).val + f.val - (Real.log (1 + f.val) + μ)) + Real.log (1 + f.val) + μ := by ring
    rw [e]
    refine (abs_add_three _ _ _).trans ?_
    norm_num at pe hb hμ ⊢
    linarith
  obtain ⟨qf, qe⟩ := add_err64 pf ff (-1) (by norm_num at hq0 ⊢; linarith) (by norm_num)
  have qe1 : |(pre f m + f).val + K - t| ≤ 3 / 2 ^ 53 := by
    have e : (pre f m + f).val + K - t = ((pre f m + f).val - ((pre f m).val + f.val)) +
      ((pre f m).val + f.val - (Real.log (1 + f.val) + μ)) + (Real.log (1 + f.val) + μ + K - t) := by ring
    rw [e]
    refine (abs_add_three _ _ _).trans ((add_le_add (add_le_add qe pe) ht).trans (by norm_num))
  have rr := add_rne qf mf
  rw [mv] at rr
  have l1 := abs_sub_abs_le_abs_sub t K
  have l2 := abs_sub_abs_le_abs_sub K t
  rw [abs_sub_comm K t] at l2
  exact WithinUlp.of_rne_abs (δ := 0.49) 3 rr (by norm_num at hl htt ⊢; linarith)
    (lt_of_lt_of_le (b := (2 : ℝ) ^ (10 : ℤ)) (by norm_num at hu htt ⊢; linarith) (zpow_le_zpow_right₀ (by norm_num) (by rw [f64_bias]; norm_num)))
    (by rw [f64_bias]; norm_num) qe1 (by rw [f64_sb]; norm_num) (by norm_num) (by norm_num) (by norm_num)

theorem lo_ap (hk : |k| ≤ 1100) : Ap (ofInt f64 k * ln2lo) (k * (Real.log 2 - ln2hi.val)) (4401 / 2 ^ 76) (7213 / 2 ^ 35) := by
  have hdk : Ap (ofInt f64 k) k 0 1100 := by
    obtain ⟨a, b⟩ := Pow.ofInt_val (n := k) (hk.trans (by norm_num))
    exact .exact a b (by exact_mod_cast hk)
  have hlo : Ap ln2lo ln2lo.val 0 (3357 / 2 ^ 44) := .exact (by decide +kernel) rfl (by rw [ln2lo_val, abs_le]; constructor <;> norm_num)
  have hm := Ap.mul hdk hlo (-22) (by norm_num) (by norm_num) (by norm_num) (g := (1 / 2 ^ 76)) (D := (7213 / 2 ^ 35)) (by norm_num) (by norm_num)
  refine hm.change (f := (275 / 2 ^ 72)) ?_ (by norm_num)
  rw [← mul_sub, abs_mul]
  have : |(k : ℝ)| ≤ 1100 := by exact_mod_cast hk
  have h2 := ln2_split
  rw [show ln2hi.val + ln2lo.val - Real.log 2 = ln2lo.val - (Real.log 2 - ln2hi.val) by ring] at h2
  exact (mul_le_mul this h2 (abs_nonneg _) (by norm_num)).trans (by norm_num)

theorem hi_lo_bd : |Real.log 2 - ln2hi.val| ≤ 0.000001 := by
  have hh := ln2_split
  rw [abs_le] at hh ⊢
  rw [ln2hi_val] at *
  rw [ln2lo_val] at hh
  norm_num at *
  constructor <;> linarith

theorem lo_bd (hk : |k| ≤ 1100) : |(k : ℝ) * (Real.log 2 - ln2hi.val)| ≤ 0.00147 := by
  rw [abs_mul]
  have : |(k : ℝ)| ≤ 1100 := by exact_mod_cast hk
  exact (mul_le_mul this hi_lo_bd (abs_nonneg _) (by norm_num)).trans (by norm_num)

theorem lo_bd1 (hk : |k| = 1) : |(k : ℝ) * (Real.log 2 - ln2hi.val)| ≤ 0.00001 := by
  rw [abs_mul]
  have : |(k : ℝ)| = 1 := by exact_mod_cast hk
  rw [this, one_mul]
  exact hi_lo_bd.trans (by norm_num)

theorem body_zero (ff : f.isFinite) (h1 : -0.29291 ≤ f.val) (h2 : f.val ≤ 0.41423) (h0 : 1 / 2 ^ 53 ≤ |f.val|) :
    WithinUlp 0.99 (body f 0) (Real.log (1 + f.val)) :=
  sum_zero (m := ofInt f64 0 * ln2lo) ff h1 h2 h0 ⟨by decide +kernel, isZero_val.1 (by decide +kernel)⟩

theorem body_ne (ff : f.isFinite) (h1 : -0.29291 ≤ f.val) (h2 : f.val ≤ 0.41423) (h0 : f.val = 0 ∨ 1 / 2 ^ 53 ≤ |f.val|) (hk : |k| ≤ 1100) (hk0 : k ≠ 0) :
    WithinUlp 0.99 (body f k) (Real.log (1 + f.val) + k * Real.log 2) := by
  have := sum_ne (k := k) ff h1 h2 h0 hk hk0 ((lo_ap hk).weaken (by norm_num) (by norm_num)) ((lo_bd hk).trans (by norm_num)) (fun h => (lo_bd1 h).trans (by norm_num))
  rwa [show Real.log (1 + f.val) + k * (Real.log 2 - ln2hi.val) + k * ln2hi.val = Real.log (1 + f.val) + k * Real.log 2 by ring] at this
end Log

namespace Logf
variable {f m : Flt f32} {k : ℤ} {μ : ℝ}

/-- the terms of the sum other than `f` and `k·ln2hi` -/
def pre (f m : Flt f32) : Flt f32 := sOf f * (hfsq f + rOf (sOf f)) + m - hfsq f

/-- log.rs 116-117 with `m` for `k·ln2lo`, log1p.rs 138-139 with `m` for `k·ln2lo + c` -/
def sum (f m : Flt f32) (k : ℤ) : Flt f32 := pre f m + f + ofInt f32 k * ln2hi

theorem ln2_split : |ln2hi.val + ln2lo.val - Real.log 2| ≤ 1 / 2 ^ 40 := by
  have l := abs_le.1 Num.log2_near
  rw [ln2hi_val, ln2lo_val, abs_le]
  norm_num at *
  constructor <;> linarith

theorem hi_exact (hk : |k| ≤ 160) : (ofInt f32 k * ln2hi).isFinite ∧ (ofInt f32 k * ln2hi).val = k * ln2hi.val := by
  obtain ⟨a, b⟩ := Powf.ofInt_val (n := k) (hk.trans (by norm_num))
  obtain ⟨c, cf, cv⟩ := exists_val32' (n := k * 90851) (k := -17) (by rw [abs_mul]; norm_num; linarith) (by norm_num) (by norm_num)
  have := (mul_rne a (y := ln2hi) (by decide +kernel)).exact_real cf (by rw [b, ln2hi_val, cv]; push_cast; ring)
  exact ⟨this.1, by rw [this.2, b]⟩

theorem pre_real {q x : ℝ} {a : ℝ} (h1 : -0.29291 ≤ x) (h2 : x ≤ 0.41423) (h : |q - (w x + μ - x ^ 2 / 2)| ≤ a) :
    |q + x - (Real.log (1 + x) + μ)| ≤ a + (1 / 2 ^ 36) := by
  have a1 := w_log h1 h2
  have e : q + x - (Real.log (1 + x) + μ) = (q - (w x + μ - x ^ 2 / 2)) + (x - x ^ 2 / 2 + w x - Real.log (1 + x)) := by ring
  rw [e]
  refine (abs_add_le _ _).trans ?_
  have : ((1 / 2 ^ 36) : ℝ) = 1 / 2 ^ 36 := by norm_num
  rw [this]
  exact add_le_add h a1

theorem pre1 (ff : f.isFinite) (h1 : -0.29291 ≤ f.val) (h2 : f.val ≤ 0.41423) (h0 : f.val = 0 ∨ 2 ^ (-100 : ℤ) ≤ |f.val|) (hm : Ap32 m μ (3 / 2 ^ 33) (1573 / 2 ^ 20)) :
    (pre f m).isFinite ∧ |(pre f m).val + f.val - (Real.log (1 + f.val) + μ)| ≤ (7773 / 2 ^ 39) := by
  obtain ⟨hh, hE⟩ := core1 ff h1 h2 h0
  have ha := Ap32.add hE hm (-5) (by norm_num) (by norm_num) (g := (3669 / 2 ^ 39)) (D := (5159 / 2 ^ 18)) (by norm_num) (by norm_num)
  have hP := Ap32.sub ha hh (-3) (by norm_num) (by norm_num) (g := (7765 / 2 ^ 39)) (D := (6913 / 2 ^ 16)) (by norm_num) (by norm_num)
  refine ⟨hP.fin, (pre_real h1 h2 hP.err).trans (by norm_num)⟩

theorem pre2 (ff : f.isFinite) (h3 : -0.2215 ≤ f.val) (h4 : f.val ≤ 0.285) (h0 : f.val = 0 ∨ 2 ^ (-100 : ℤ) ≤ |f.val|) (hm : Ap32 m μ (3 / 2 ^ 33) (1573 / 2 ^ 20)) :
    (pre f m).isFinite ∧ |(pre f m).val + f.val - (Real.log (1 + f.val) + μ)| ≤ (6899 / 2 ^ 40) := by
  obtain ⟨hh, hE⟩ := core2 ff h3 h4 h0
  have h1 : -0.29291 ≤ f.val := le_trans (by norm_num) h3
  have h2 : f.val ≤ 0.41423 := h4.trans (by norm_num)
  have ha := Ap32.add hE hm (-6) (by norm_num) (by norm_num) (g := (5573 / 2 ^ 41)) (D := (2065 / 2 ^ 18)) (by norm_num) (by norm_num)
  have hP := Ap32.sub ha hh (-4) (by norm_num) (by norm_num) (g := (6883 / 2 ^ 40)) (D := (6357 / 2 ^ 17)) (by norm_num) (by norm_num)
  refine ⟨hP.fin, (pre_real h1 h2 hP.err).trans (by norm_num)⟩

theorem pre3 (ff : f.isFinite) (h : |f.val| ≤ 0.2) (h0 : 1 / 2 ^ 24 ≤ |f.val|) (hz : m.isFinite ∧ m.val = 0) :
    (pre f m).isFinite ∧ |(pre f m).val + f.val - Real.log (1 + f.val)| ≤ (6045 / 2 ^ 38) * |Real.log (1 + f.val)| := by
  obtain ⟨hh, hE⟩ := core3 ff h (le_trans ((zpow_le_zpow_right₀ (by norm_num) (by norm_num : (-40 : ℤ) ≤ -24)).trans (by norm_num)) h0)
    (le_trans (by norm_num) h0)
  have ht0 : 0 ≤ |f.val| := abs_nonneg _
  have ht1 : |f.val| ≤ 1 := h.trans (by norm_num)
  have hE' : As |f.val| (sOf f * (hfsq f + rOf (sOf f)) + m) (w f.val) (3885 / 2 ^ 39) (1043 / 2 ^ 16) := by
    have := (add_rne hE.fin hz.1).exact_real hE.fin (by rw [hz.2, _root_.add_zero])
    have hv : (sOf f * (hfsq f + rOf (sOf f)) + m).val = (sOf f * (hfsq f + rOf (sOf f))).val := by rw [this.2, hz.2, _root_.add_zero]
    exact ⟨this.1, by rw [hv]; exact hE.err, by rw [hv]; exact hE.bd⟩
  have hQ := As32.sub ht0 ht1 hE' hh (by norm_num) (by norm_num) (g := (1371 / 2 ^ 36)) (D := (7605 / 2 ^ 16)) (by norm_num) (by norm_num)
  refine ⟨hQ.fin, ?_⟩
  have b := hQ.err
  change |(pre f m).val - _| ≤ _ at b
  have hf := abs_le.1 h
  have hs : |f.val / (2 + f.val)| ≤ 0.56 * |f.val| := by
    norm_num at hf
    rw [abs_div, abs_of_pos (by linarith : 0 < 2 + f.val), div_le_iff₀ (by linarith)]
    norm_num
    nlinarith
  have a := approx (f := f.val) (s := f.val / (2 + f.val)) (by norm_num at hf; linarith) rfl (hs.trans (by norm_num at h ⊢; linarith))
  have h2 : (2 : ℝ) + f.val ≠ 0 := by norm_num at hf; linarith
  have e : f.val - f.val ^ 2 / 2 + w f.val = 2 * (f.val / (2 + f.val)) + f.val / (2 + f.val) * ((f.val / (2 + f.val)) ^ 2 * Poly.ev poly ((f.val / (2 + f.val)) ^ 2)) := by
    unfold w
    generalize Poly.ev poly ((f.val / (2 + f.val)) ^ 2) = P
    field_simp
    ring
  rw [← e] at a
  have a' := a.trans (mul_le_mul_of_nonneg_right hs (by norm_num))
  have l := log_lower h
  have e2 : (pre f m).val + f.val - Real.log (1 + f.val) = ((pre f m).val - (w f.val - f.val ^ 2 / 2)) + (f.val - f.val ^ 2 / 2 + w f.val - Real.log (1 + f.val)) := by ring
  rw [e2]
  refine (abs_add_le _ _).trans ((add_le_add b a').trans ?_)
  refine le_trans ?_ (mul_le_mul_of_nonneg_left l (by norm_num))
  rw [show 0.56 * |f.val| * (1 / 2 ^ 34 * 1.01) = (0.56 * (1 / 2 ^ 34 * 1.01)) * |f.val| by ring, ← add_mul, ← mul_assoc ((6045 / 2 ^ 38) : ℝ) 0.909]
  refine mul_le_mul_of_nonneg_right ?_ ht0
  norm_num

theorem sum_zero (ff : f.isFinite) (h1 : -0.29291 ≤ f.val) (h2 : f.val ≤ 0.41423) (h0 : 1 / 2 ^ 24 ≤ |f.val|) (hm0 : m.isFinite ∧ m.val = 0) :
    WithinUlp 0.99 (sum f m 0) (Real.log (1 + f.val)) := by
  have h0' : f.val = 0 ∨ 2 ^ (-100 : ℤ) ≤ |f.val| := Or.inr (le_trans (by norm_num) h0)
  have hb := log_red_bd h1 h2
  have hm : Ap32 m 0 (3 / 2 ^ 33) (1573 / 2 ^ 20) := ⟨hm0.1, by rw [hm0.2]; norm_num, by rw [hm0.2]; norm_num⟩
  obtain ⟨pf, pe⟩ := pre1 ff h1 h2 h0' hm
  have pe' : |(pre f m).val + f.val - Real.log (1 + f.val)| ≤ (7773 / 2 ^ 39) := by simpa using pe
  have hbig : |Real.log (1 + f.val)| < 2 ^ ((f32.bias : ℤ) - 1) := by
    refine lt_of_le_of_lt hb (lt_of_lt_of_le (b := (1 : ℝ)) (by norm_num) (one_le_zpow₀ (by norm_num) (by rw [f32_bias]; norm_num)))
  have rq := add_rne pf ff
  have key : WithinUlp 0.99 (pre f m + f) (Real.log (1 + f.val)) := by
    by_cases c1 : |f.val| ≤ 0.2
    · obtain ⟨-, pe3⟩ := pre3 ff c1 h0 hm0
      have l := log_lower c1
      have hp : 0 < |Real.log (1 + f.val)| := lt_of_lt_of_le (mul_pos (by norm_num) (lt_of_lt_of_le (by norm_num) h0)) l
      exact WithinUlp.of_rne_rel rq (abs_pos.1 hp) hbig (by rw [f32_bias]; norm_num) pe3 (by norm_num) (by rw [f32_sb]; norm_num) (by rw [f32_sb]; norm_num)
    · by_cases c2 : -0.2215 ≤ f.val ∧ f.val ≤ 0.285
      · obtain ⟨-, pe2⟩ := pre2 ff c2.1 c2.2 h0' hm
        have pe2' : |(pre f m).val + f.val - Real.log (1 + f.val)| ≤ (6899 / 2 ^ 40) := by simpa using pe2
        have ht : (2 : ℝ) ^ (-3 : ℤ) ≤ |Real.log (1 + f.val)| := by
          norm_num at h1 h2 c1
          rcases le_total 0 f.val with hh | hh
          · rw [abs_of_nonneg hh] at c1
            have h3 := Real.log_le_log (by norm_num) (by linarith : (1.2 : ℝ) ≤ 1 + f.val)
            have h4 := log_lower (f := 0.2) (by norm_num)
            rw [abs_of_nonneg (by norm_num : (0 : ℝ) ≤ 0.2), abs_of_nonneg (Real.log_nonneg (by norm_num))] at h4
            refine le_trans ?_ (le_abs_self _)
            norm_num at h3 h4 ⊢; linarith
          · rw [abs_of_nonpos hh] at c1
            have h3 := Real.log_le_sub_one_of_pos (x := 1 + f.val) (by linarith)
            refine le_trans ?_ (neg_le_abs _)
            norm_num; linarith
        exact WithinUlp.of_rne_abs (δ := 0.49) (-3) rq ht hbig (by rw [f32_bias]; norm_num) pe2' (by rw [f32_sb]; norm_num) (by norm_num) (by norm_num) (by norm_num)
      · have ht : (2 : ℝ) ^ (-2 : ℤ) ≤ |Real.log (1 + f.val)| := by
          by_contra hc
          push Not at hc
          exact c2 (log_quarter h1 h2 (hc.le.trans (by norm_num)))
        exact WithinUlp.of_rne_abs (δ := 0.49) (-2) rq ht hbig (by rw [f32_bias]; norm_num) pe' (by rw [f32_sb]; norm_num) (by norm_num) (by norm_num) (by norm_num)
  have hz := hi_exact (k := 0) (by norm_num)
  have hx := (add_rne key.1 hz.1).exact_real key.1 (by rw [hz.2]; simp)
  change WithinUlp 0.99 (pre f m + f + _) _
  exact key.congr hx.1 (by rw [hx.2, hz.2]; simp)

theorem sum_ne {k : ℤ} (ff : f.isFinite) (h1 : -0.29291 ≤ f.val) (h2 : f.val ≤ 0.41423) (h0 : f.val = 0 ∨ 1 / 2 ^ 24 ≤ |f.val|) (hk : |k| ≤ 160) (hk0 : k ≠ 0)
    (hm : Ap32 m μ (3 / 2 ^ 33) (1573 / 2 ^ 20)) (hμ : |μ| ≤ 0.0015) (hμ1 : |k| = 1 → |μ| ≤ 0.00002) : WithinUlp 0.99 (sum f m k) (Real.log (1 + f.val) + μ + k * ln2hi.val) := by
  have h0' : f.val = 0 ∨ 2 ^ (-100 : ℤ) ≤ |f.val| := h0.imp_right (le_trans (by norm_num))
  have hb := log_red_bd h1 h2
  obtain ⟨pf, pe⟩ := pre1 ff h1 h2 h0' hm
  obtain ⟨mf, mv⟩ := hi_exact hk
  have hk1 : (1 : ℝ) ≤ |(k : ℝ)| := by exact_mod_cast Int.one_le_abs hk0
  have hk2 : |(k : ℝ)| ≤ 160 := by exact_mod_cast hk
  have hl0 : (0.693 : ℝ) ≤ ln2hi.val ∧ ln2hi.val ≤ 0.694 := by rw [ln2hi_val]; norm_num
  have hkl : |(k : ℝ) * ln2hi.val| = |(k : ℝ)| * ln2hi.val := by rw [abs_mul, abs_of_pos (a := ln2hi.val) (by have := hl0.1; norm_num at this; linarith)]
  have htu : |Real.log (1 + f.val) + μ + k * ln2hi.val| ≤ 0.3467 + 0.0015 + 160 * 0.694 := by
    refine (abs_add_three _ _ _).trans (add_le_add (add_le_add hb hμ) ?_)
    rw [hkl]
    exact mul_le_mul hk2 hl0.2 (le_trans (by norm_num) hl0.1) (by norm_num)
  have htl : |(k : ℝ)| * ln2hi.val - 0.3482 ≤ |Real.log (1 + f.val) + μ + k * ln2hi.val| := by
    have := abs_sub_abs_le_abs_sub ((k : ℝ) * ln2hi.val) (-(Real.log (1 + f.val) + μ))
    rw [abs_neg, hkl, sub_neg_eq_add, add_comm ((k : ℝ) * ln2hi.val)] at this
    have h3 := abs_add_le (Real.log (1 + f.val)) μ
    norm_num at hb hμ h3 ⊢
    linarith
  have hbig : |Real.log (1 + f.val) + μ + k * ln2hi.val| < 2 ^ ((f32.bias : ℤ) - 1) := by
    refine lt_of_le_of_lt htu (lt_of_lt_of_le (b := (2 : ℝ) ^ (10 : ℤ)) (by norm_num) (zpow_le_zpow_right₀ (by norm_num) (by rw [f32_bias]; norm_num)))
  have hq0 : |(pre f m).val + f.val| ≤ 0.349 := by
    have e : (pre f m).val + f.val = ((pre f m).val + f.val - (Real.log (1 + f.val) + μ)) + Real.log (1 + f.val) + μ := by ring
    rw [e]
    refine (abs_add_three _ _ _).trans ?_
    norm_num at pe hb hμ ⊢
    linarith
  obtain ⟨qf, qe⟩ := add_err32 pf ff (-1) (by norm_num at hq0 ⊢; linarith) (by norm_num)
  have qe1 : |(pre f m + f).val + k * ln2hi.val - (Real.log (1 + f.val) + μ + k * ln2hi.val)| ≤ (15965 / 2 ^ 39) := by
    have e : (pre f m + f).val + k * ln2hi.val - (Real.log (1 + f.val) + μ + k * ln2hi.val) = ((pre f m + f).val - ((pre f m).val + f.val)) +
      ((pre f m).val + f.val - (Real.log (1 + f.val) + μ)) := by ring
    rw [e]
    refine (abs_add_le _ _).trans ((add_le_add qe pe).trans (by norm_num))
  have rr := add_rne qf mf
  rw [mv] at rr
  change WithinUlp 0.99 (pre f m + f + _) _
  by_cases c1 : 2 ^ (-1 : ℤ) ≤ |Real.log (1 + f.val) + μ + k * ln2hi.val|
  · exact WithinUlp.of_rne_abs (δ := 0.49) (-1) rr c1 hbig (by rw [f32_bias]; norm_num) qe1 (by rw [f32_sb]; norm_num) (by norm_num) (by norm_num) (by norm_num)
  · push Not at c1
    have hk1' : |(k : ℝ)| < 2 := by
      by_contra hc
      push Not at hc
      have : 2 * ln2hi.val ≤ |(k : ℝ)| * ln2hi.val := mul_le_mul_of_nonneg_right hc (le_trans (by norm_num) hl0.1)
      have h5 := hl0.1
      norm_num at c1 h5 htl
      linarith
    have ht2 : (2 : ℝ) ^ (-2 : ℤ) ≤ |Real.log (1 + f.val) + μ + k * ln2hi.val| := by
      have : 1 * ln2hi.val ≤ |(k : ℝ)| * ln2hi.val := mul_le_mul_of_nonneg_right hk1 (le_trans (by norm_num) hl0.1)
      have h5 := hl0.1
      norm_num at h5 htl ⊢
      linarith
    by_cases c2 : 2 ^ (-2 : ℤ) ≤ |(pre f m + f).val|
    · obtain ⟨n, hn⟩ := grid32 _ (-2) c2
      have es : (pre f m + f).val + k * ln2hi.val = ((n + k * 90851 * 2 ^ 8 : ℤ) : ℝ) * 2 ^ (-25 : ℤ) := by
        rw [hn, ln2hi_val, show (-2 - 23 : ℤ) = -25 by norm_num, show (2 : ℝ) ^ (-17 : ℤ) = 2 ^ 8 * 2 ^ (-25 : ℤ) by norm_num]; push_cast; ring
      have hN : |n + k * 90851 * 2 ^ 8| ≤ 2 ^ 24 := by
        by_contra hc
        push Not at hc
        have hc' : (2 ^ 24 + 1 : ℝ) ≤ |((n + k * 90851 * 2 ^ 8 : ℤ) : ℝ)| := by exact_mod_cast hc
        have : |(pre f m + f).val + k * ln2hi.val| ≤ |Real.log (1 + f.val) + μ + k * ln2hi.val| + (15965 / 2 ^ 39) := by
          have := abs_add_le ((pre f m + f).val + k * ln2hi.val - (Real.log (1 + f.val) + μ + k * ln2hi.val)) (Real.log (1 + f.val) + μ + k * ln2hi.val)
          rw [_root_.sub_add_cancel] at this
          linarith
        rw [es, abs_mul, abs_of_pos (by positivity : (0 : ℝ) < 2 ^ (-25 : ℤ))] at this
        have h3 := mul_le_mul_of_nonneg_right hc' (by positivity : (0 : ℝ) ≤ 2 ^ (-25 : ℤ))
        have h4 := (h3.trans this).trans (add_le_add_left c1.le _)
        norm_num at h4
      obtain ⟨c, cf, cv⟩ := exists_val32' (n := n + k * 90851 * 2 ^ 8) (k := -25) hN (by norm_num) (by norm_num)
      obtain ⟨rf, rv⟩ := rr.exact_real cf (by rw [cv, es])
      exact WithinUlp.of_abs (a := (15965 / 2 ^ 39)) (-2) rf ht2 (by rw [rv]; exact qe1) (by rw [f32_sb]; norm_num) (by norm_num)
    · push Not at c2
      have rq := add_rne pf ff
      have hq1 : |(pre f m).val + f.val| ≤ 2 ^ (-2 : ℤ) := by
        by_contra hc
        push Not at hc
        obtain ⟨c, cf, cv⟩ := exists_val32' (n := 1) (k := -2) (by norm_num) (by norm_num) (by norm_num)
        obtain ⟨c', cf', cv'⟩ := exists_val32' (n := -1) (k := -2) (by norm_num) (by norm_num) (by norm_num)
        rcases le_total 0 ((pre f m).val + f.val) with hs | hs
        · rw [abs_of_nonneg hs] at hc
          have := rq.ge_of_ge qf cf (by rw [cv]; push_cast; linarith)
          rw [cv] at this
          push_cast at this
          linarith [le_abs_self (pre f m + f).val]
        · rw [abs_of_nonpos hs] at hc
          have := rq.le_of_le qf cf' (by rw [cv']; push_cast; linarith)
          rw [cv'] at this
          push_cast at this
          linarith [neg_le_abs (pre f m + f).val]
      have hf2 : -0.2215 ≤ f.val ∧ f.val ≤ 0.285 := by
        have hsm' : |μ| ≤ 0.00002 := hμ1 (by
          have h6 : |k| < 2 := by exact_mod_cast hk1'
          have h7 := Int.one_le_abs hk0
          omega)
        refine log_quarter h1 h2 ?_
        have e : Real.log (1 + f.val) = -((pre f m).val + f.val - (Real.log (1 + f.val) + μ)) + ((pre f m).val + f.val) + -μ := by ring
        rw [e]
        refine (abs_add_three _ _ _).trans ?_
        rw [abs_neg, abs_neg]
        norm_num [-abs_mul] at pe hq1 hsm' ⊢
        linarith
      obtain ⟨-, pe2⟩ := pre2 ff hf2.1 hf2.2 h0' hm
      obtain ⟨-, qe2⟩ := add_err32 pf ff (-2) hq1 (by norm_num)
      have qe3 : |(pre f m + f).val + k * ln2hi.val - (Real.log (1 + f.val) + μ + k * ln2hi.val)| ≤ (15091 / 2 ^ 40) := by
        have e : (pre f m + f).val + k * ln2hi.val - (Real.log (1 + f.val) + μ + k * ln2hi.val) = ((pre f m + f).val - ((pre f m).val + f.val)) +
          ((pre f m).val + f.val - (Real.log (1 + f.val) + μ)) := by ring
        rw [e]
        refine (abs_add_le _ _).trans ((add_le_add qe2 pe2).trans (by norm_num))
      exact WithinUlp.of_rne_abs (δ := 0.47) (-2) rr ht2 hbig (by rw [f32_bias]; norm_num) qe3 (by rw [f32_sb]; norm_num) (by norm_num) (by norm_num) (by norm_num)

/-- `k = 0` with a correction `m`, away from 1 -/
theorem sum_far (ff : f.isFinite) (h1 : -0.29291 ≤ f.val) (h2 : f.val ≤ 0.41423) (h0 : f.val = 0 ∨ 1 / 2 ^ 24 ≤ |f.val|)
    (hm : Ap32 m μ (3 / 2 ^ 33) (1573 / 2 ^ 20)) (hμ : |μ| ≤ 0.0015) (hf : 2 ^ (-2 : ℤ) ≤ |Real.log (1 + f.val) + μ|) : WithinUlp 0.99 (sum f m 0) (Real.log (1 + f.val) + μ) := by
  have h0' : f.val = 0 ∨ 2 ^ (-100 : ℤ) ≤ |f.val| := h0.imp_right (le_trans (by norm_num))
  have hb := log_red_bd h1 h2
  obtain ⟨pf, pe⟩ := pre1 ff h1 h2 h0' hm
  have hbig : |Real.log (1 + f.val) + μ| < 2 ^ ((f32.bias : ℤ) - 1) := by
    refine lt_of_le_of_lt ((abs_add_le _ _).trans (add_le_add hb hμ)) (lt_of_lt_of_le (b := (1 : ℝ)) (by norm_num) (one_le_zpow₀ (by norm_num) (by rw [f32_bias]; norm_num)))
  have key : WithinUlp 0.99 (pre f m + f) (Real.log (1 + f.val) + μ) :=
    WithinUlp.of_rne_abs (δ := 0.49) (-2) (add_rne pf ff) hf hbig (by rw [f32_bias]; norm_num) pe (by rw [f32_sb]; norm_num) (by norm_num) (by norm_num) (by norm_num)
  have hz := hi_exact (k := 0) (by norm_num)
  have hx := (add_rne key.1 hz.1).exact_real key.1 (by rw [hz.2]; simp)
  exact key.congr hx.1 (by change (pre f m + f + _).val = _; rw [hx.2, hz.2]; simp)

/-- far from 1, where the exact value may differ a little from the one the terms add up to -/
theorem sum_big {k : ℤ} {t : ℝ} (ff : f.isFinite) (h1 : -0.29291 ≤ f.val) (h2 : f.val ≤ 0.41423) (h0 : f.val = 0 ∨ 1 / 2 ^ 24 ≤ |f.val|) (hk : |k| ≤ 160) (hk0 : 16 ≤ |k|)
    (hm : Ap32 m μ (3 / 2 ^ 33) (1573 / 2 ^ 20)) (hμ : |μ| ≤ 0.0015) (ht : |Real.log (1 + f.val) + μ + k * ln2hi.val - t| ≤ 1 / 2 ^ 23) : WithinUlp 0.99 (sum f m k) t := by
  have h0' : f.val = 0 ∨ 2 ^ (-100 : ℤ) ≤ |f.val| := h0.imp_right (le_trans (by norm_num))
  have hb := log_red_bd h1 h2
  obtain ⟨pf, pe⟩ := pre1 ff h1 h2 h0' hm
  obtain ⟨mf, mv⟩ := hi_exact hk
  have hk1 : (16 : ℝ) ≤ |(k : ℝ)| := by exact_mod_cast hk0
  have hk2 : |(k : ℝ)| ≤ 160 := by exact_mod_cast hk
  have hl0 : (0.693 : ℝ) ≤ ln2hi.val ∧ ln2hi.val ≤ 0.694 := by rw [ln2hi_val]; norm_num
  have hkl : |(k : ℝ) * ln2hi.val| = |(k : ℝ)| * ln2hi.val := by rw [abs_mul, abs_of_pos (a := ln2hi.val) (by have := hl0.1; norm_num at this; linarith)]
  have hu : |(k : ℝ)| * ln2hi.val ≤ 160 * 0.694 := mul_le_mul hk2 hl0.2 (le_trans (by norm_num) hl0.1) (by norm_num)
  have hl : 16 * 0.693 ≤ |(k : ℝ)| * ln2hi.val := mul_le_mul hk1 hl0.1 (by norm_num) (abs_nonneg _)
  rw [← hkl] at hu hl
  generalize (k : ℝ) * ln2hi.val = K at *
  have htt : |t - K| ≤ 0.3500 := by
    rw [abs_le] at hb hμ ht ⊢
    norm_num at hb hμ ht ⊢
    constructor <;> linarith
  have hq0 : |(pre f m).val + f.val| ≤ 0.349 := by
    have e : (pre f m).val + f.val = ((pre f m).val + f.val - (Real.log (1 + f.val) + μ)) + Real.log (1 + f.val) + μ := by ring
    rw [e]
    refine (abs_add_three _ _ _).trans ?_
    norm_num at pe hb hμ ⊢
    linarith
  obtain ⟨qf, qe⟩ := add_err32 pf ff (-1) (by norm_num at hq0 ⊢; linarith) (by norm_num)
  have qe1 : |(pre f m + f).val + K - t| ≤ 3 / 2 ^ 24 := by
    have e : (pre f m + f).val + K - t = ((pre f m + f).val - ((pre f m).val + f.val)) +
      ((pre f m).val + f.val - (Real.log (1 + f.val) + μ)) + (Real.log (1 + f.val) + μ + K - t) := by ring
    rw [e]
    refine (abs_add_three _ _ _).trans ((add_le_add (add_le_add qe pe) ht).trans (by norm_num))
  have rr := add_rne qf mf
  rw [mv] at rr
  have l1 := abs_sub_abs_le_abs_sub t K
  have l2 := abs_sub_abs_le_abs_sub K t
  rw [abs_sub_comm K t] at l2
  exact WithinUlp.of_rne_abs (δ := 0.49) 3 rr (by norm_num at hl htt ⊢; linarith)
    (lt_of_lt_of_le (b := (2 : ℝ) ^ (10 : ℤ)) (by norm_num at hu htt ⊢; linarith) (zpow_le_zpow_right₀ (by norm_num) (by rw [f32_bias]; norm_num)))
    (by rw [f32_bias]; norm_num) qe1 (by rw [f32_sb]; norm_num) (by norm_num) (by norm_num) (by norm_num)

theorem lo_ap (hk : |k| ≤ 160) : Ap32 (ofInt f32 k * ln2lo) (k * (Real.log 2 - ln2hi.val)) (7 / 2 ^ 35) (6079 / 2 ^ 22) := by
  have hdk : Ap32 (ofInt f32 k) k 0 160 := by
    obtain ⟨a, b⟩ := Powf.ofInt_val (n := k) (hk.trans (by norm_num))
    exact .exact a b (by exact_mod_cast hk)
  have hlo : Ap32 ln2lo ln2lo.val 0 (4863 / 2 ^ 29) := .exact (by decide +kernel) rfl (by rw [ln2lo_val, abs_le]; constructor <;> norm_num)
  have hm := Ap32.mul hdk hlo (-9) (by norm_num) (by norm_num) (by norm_num) (g := (1 / 2 ^ 34)) (D := (6079 / 2 ^ 22)) (by norm_num) (by norm_num)
  refine hm.change (f := (5 / 2 ^ 35)) ?_ (by norm_num)
  rw [← mul_sub, abs_mul]
  have : |(k : ℝ)| ≤ 160 := by exact_mod_cast hk
  have h2 := ln2_split
  rw [show ln2hi.val + ln2lo.val - Real.log 2 = ln2lo.val - (Real.log 2 - ln2hi.val) by ring] at h2
  exact (mul_le_mul this h2 (abs_nonneg _) (by norm_num)).trans (by norm_num)

theorem hi_lo_bd : |Real.log 2 - ln2hi.val| ≤ 0.0000091 := by
  have hh := ln2_split
  rw [abs_le] at hh ⊢
  rw [ln2hi_val] at *
  rw [ln2lo_val] at hh
  norm_num at *
  constructor <;> linarith

theorem lo_bd (hk : |k| ≤ 160) : |(k : ℝ) * (Real.log 2 - ln2hi.val)| ≤ 0.00147 := by
  rw [abs_mul]
  have : |(k : ℝ)| ≤ 160 := by exact_mod_cast hk
  exact (mul_le_mul this hi_lo_bd (abs_nonneg _) (by norm_num)).trans (by norm_num)

theorem lo_bd1 (hk : |k| = 1) : |(k : ℝ) * (Real.log 2 - ln2hi.val)| ≤ 0.00001 := by
  rw [abs_mul]
  have : |(k : ℝ)| = 1 := by exact_mod_cast hk
  rw [this, one_mul]
  exact hi_lo_bd.trans (by norm_num)

theorem body_zero (ff : f.isFinite) (h1 : -0.29291 ≤ f.val) (h2 : f.val ≤ 0.41423) (h0 : 1 / 2 ^ 24 ≤ |f.val|) :
    WithinUlp 0.99 (body f 0) (Real.log (1 + f.val)) :=
  sum_zero (m := ofInt f32 0 * ln2lo) ff h1 h2 h0 ⟨by decide +kernel, isZero_val.1 (by decide +kernel)⟩

theorem body_ne (ff : f.isFinite) (h1 : -0.29291 ≤ f.val) (h2 : f.val ≤ 0.41423) (h0 : f.val = 0 ∨ 1 / 2 ^ 24 ≤ |f.val|) (hk : |k| ≤ 160) (hk0 : k ≠ 0) :
    WithinUlp 0.99 (body f k) (Real.log (1 + f.val) + k * Real.log 2) := by
  have := sum_ne (k := k) ff h1 h2 h0 hk hk0 ((lo_ap hk).weaken (by norm_num) (by norm_num)) ((lo_bd hk).trans (by norm_num)) (fun h => (lo_bd1 h).trans (by norm_num))
  rwa [show Real.log (1 + f.val) + k * (Real.log 2 - ln2hi.val) + k * ln2hi.val = Real.log (1 + f.val) + k * Real.log 2 by ring] at this
end Logf

end Verif
