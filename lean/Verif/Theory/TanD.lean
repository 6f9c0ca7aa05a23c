import Mathlib.Analysis.Real.Pi.Bounds
import Verif.Theory.TanReal
import Verif.Theory.TanInv
import Verif.Theory.SymF
import Verif.Props.Trig

/-!
# `k_tan` on a reduced argument, in units in the last place
-/

namespace Verif
open Flt

theorem KTan.small_eq {x y : Flt f64} {odd : ℤ} (h : x.mb < 0x3FE59428 * 2 ^ 32) :
    kTan x y odd = if odd = 0 then x + KTanD.rr x y else TanInv.inv x (KTanD.rr x y) := by
  have hb : ¬ (getHighWord x &&& 0x7fffffff#32 ≥ 0x3FE59428#32) := by
    rw [Trig.ix_ge]; simp only [BitVec.reduceToNat]; omega
  unfold kTan
  simp only [hb, decide_false, Bool.false_and, Bool.false_eq_true, if_false]
  rfl

/-- the reflected branch of `k_tan`, for an argument `x = π/4 - |x'|` and `s = ±1` -/
noncomputable def KTanD.refl (x s : Flt f64) : Flt f64 :=
  let r := KTanD.rr x 0.0
  let w := x + r
  s - 2.0 * (x + (r - w * w / (w + s)))

theorem KTan.big_eq {x y : Flt f64} {odd : ℤ} (h : 0x3FE59428 * 2 ^ 32 ≤ x.mb) :
    kTan x y odd = if x.sign = true
      then -KTanD.refl ((KTan.pio4 - -x) + (KTan.pio4lo - -y)) (1.0 - 2.0 * ofInt f64 odd)
      else KTanD.refl ((KTan.pio4 - x) + (KTan.pio4lo - y)) (1.0 - 2.0 * ofInt f64 odd) := by
  have hb : getHighWord x &&& 0x7fffffff#32 ≥ 0x3FE59428#32 := by
    rw [Trig.ix_ge]; simp only [BitVec.reduceToNat]; omega
  have hs : (getHighWord x >>> 31 ≠ 0) ↔ x.sign = true := by
    have := hi_sign x
    constructor
    · intro hne
      by_contra hc
      rw [if_neg hc] at this
      exact hne (BitVec.eq_of_toNat_eq this)
    · intro hc h0
      rw [if_pos hc, h0] at this
      exact absurd this (by decide)
  unfold kTan
  by_cases hsg : x.sign = true
  · have := hs.2 hsg
    simp only [hb, this, ne_eq, not_false_eq_true, decide_true, Bool.true_and, if_true, hsg]
    rfl
  · have : ¬ (getHighWord x >>> 31 ≠ 0) := fun h => hsg (hs.1 h)
    simp only [hb, this, decide_true, decide_false, Bool.true_and, Bool.false_eq_true, if_true, if_false, hsg]
    rfl

namespace WithinUlp

/-- no binade is crossed -/
theorem of_bin {q t δ c : ℝ} {r : Flt f64} (h : IsRNE q r) (k : ℤ) (hk : -1000 ≤ k) (hk2 : k ≤ 1000) (ht : 2 ^ k ≤ |t|) (hq : |q| ≤ 2 ^ (k + 1))
    (he : |q - t| ≤ δ * 2 ^ (k - 52)) (hc : 1 / 2 + δ ≤ c) (hδ : 0 ≤ δ) : WithinUlp c r t := by
  rw [def']
  obtain ⟨rf, re⟩ := h.err (k + 1) hq (by rw [f64_bias]; omega) (by rw [f64_bias]; omega)
  refine ⟨rf, ?_⟩
  have h1 := le_ulpAt_of_le (F := f64) ht
  rw [f64_sb] at h1 re
  have e : (2 : ℝ) ^ (k + 1 - 2 - ((52 : ℕ) : ℤ)) = 1 / 2 * 2 ^ (k - 52) := by
    rw [show k + 1 - 2 - ((52 : ℕ) : ℤ) = -1 + (k - 52) by push_cast; ring, zpow_add₀ (by norm_num)]; norm_num
  rw [e] at re
  push_cast at h1
  have e2 : r.val - t = (r.val - q) + (q - t) := by ring
  rw [e2]
  refine (abs_add_le _ _).trans ?_
  have h2 := zp (k - 52)
  calc _ ≤ (1 / 2 + δ) * 2 ^ (k - 52) := by linarith
    _ ≤ c * ulpAt f64 t := mul_le_mul hc h1 h2.le (by linarith)

/-- near one, where the spacing changes -/
theorem near_one {q t : ℝ} {r : Flt f64} (h : IsRNE q r) (t1 : 1 / 2 ≤ |t|) (t2 : |t| ≤ 1.9) (he : |q - t| ≤ 3 / 4 * 2 ^ (-53 : ℤ)) :
    WithinUlp 1.5 r t := by
  have z : (2 : ℝ) ^ (-53 : ℤ) = 1 / 2 ^ 53 := by rw [zpow_neg, one_div]; norm_cast
  have z2 : (2 : ℝ) ^ (-52 : ℤ) = 1 / 2 ^ 52 := by rw [zpow_neg, one_div]; norm_cast
  rcases le_or_gt 1 |t| with h1 | h1
  · refine of_bin h 0 (by norm_num) (by norm_num) (by simpa using h1) ?_ (δ := 3 / 4) ?_ (by norm_num) (by norm_num)
    · have := abs_add_le (q - t) t
      rw [sub_add_cancel] at this
      rw [z] at he
      norm_num at he this t2 ⊢
      linarith
    · refine he.trans ?_
      rw [z, show (0 : ℤ) - 52 = -52 by norm_num, z2]; norm_num
  · rcases le_or_gt |q| 1 with h2 | h2
    · exact of_bin h (-1) (by norm_num) (by norm_num) (by norm_num at t1 ⊢; exact t1) (by simpa using h2) (δ := 3 / 4)
        (by rw [show (-1 : ℤ) - 52 = -53 by norm_num]; exact he) (by norm_num) (by norm_num)
    · rw [def']
      obtain ⟨rf, rmin, -⟩ := h.finite (by
        have := abs_add_le (q - t) t
        rw [sub_add_cancel] at this
        have h3 : |q| ≤ 2 := by rw [z] at he; norm_num at he this t2 ⊢; linarith
        refine h3.trans ?_
        rw [f64_bias]
        have : (2 : ℝ) ^ (1 : ℤ) ≤ 2 ^ ((1023 : ℕ) : ℤ) := zpow_le_zpow_right₀ (by norm_num) (by norm_num)
        rw [zpow_one] at this
        exact this.trans (le_mul_of_one_le_left (zp _).le (by norm_num)))
      refine ⟨rf, ?_⟩
      have hle : |r.val - q| ≤ |q - t| := by
        have ht := abs_lt.1 h1
        rcases le_total 0 q with h0 | h0
        · rw [abs_of_nonneg h0] at h2
          refine (rmin 1.0 (by decide +kernel)).trans ?_
          rw [TanInv.one_val, abs_of_neg (by linarith), abs_of_pos (by linarith)]
          linarith
        · rw [abs_of_nonpos h0] at h2
          refine (rmin (-1.0) (by decide +kernel)).trans ?_
          rw [TanInv.mone_val, abs_of_pos (by linarith), abs_of_neg (by linarith)]
          linarith
      have h3 := le_ulpAt_of_le (F := f64) (t := t) (k := -1) (by norm_num at t1 ⊢; exact t1)
      rw [f64_sb, show (-1 : ℤ) - ((52 : ℕ) : ℤ) = -53 by norm_num] at h3
      have e2 : r.val - t = (r.val - q) + (q - t) := by ring
      rw [e2]
      refine (abs_add_le _ _).trans ?_
      norm_num at he h3 ⊢
      linarith

end WithinUlp

namespace NearD
variable {a b : Flt f64} {r : ℝ} (h : NearD a b r)
include h

theorem neg' : NearD (-a) (-b) (-r) where
  af := (Flt.isFinite_neg a).2 h.af
  bf := (Flt.isFinite_neg b).2 h.bf
  tail := by rw [val_neg, val_neg, abs_neg, abs_neg]; exact h.tail
  err := by
    rw [val_neg, val_neg, abs_neg, show -a.val + -b.val - -r = -(a.val + b.val - r) by ring, abs_neg]; exact h.err
  hi := by rw [abs_neg]; exact h.hi
  lo := by rw [abs_neg]; exact h.lo

theorem r_le : |r| ≤ 1.001 * |a.val| := by
  have h1 := h.a_lo
  have h2 := abs_nonneg r
  norm_num at h1 ⊢
  linarith

/-- the sum that `k_tan` rounds or inverts, with its error -/
theorem tan_sum (hs : |a.val| ≤ 691 / 1024) : (KTanD.rr a b).isFinite ∧ |(KTanD.rr a b).val| ≤ 0.19 * |a.val| ∧
    |a.val + (KTanD.rr a b).val - Real.tan r| ≤ (if |a.val| ≤ 475 / 1024 then 0.4685 / 2 ^ 53 else if |a.val| ≤ 614 / 1024 then 0.9195 / 2 ^ 53 else 1.3190 / 2 ^ 53) * |a.val| := by
  have hn := abs_nonneg a.val
  have e : a.val + (KTanD.rr a b).val - Real.tan r =
      ((KTanD.rr a b).val - (a.val * Poly.ev KTanD.poly (a.val ^ 2) - a.val + b.val * (1 + a.val ^ 2))) +
      (a.val * Poly.ev KTanD.poly (a.val ^ 2) + b.val * (1 + a.val ^ 2) - Real.tan r) := by ring
  rw [e]
  split_ifs with h1 h2
  · obtain ⟨c1, c2, c3⟩ := KTanD.chain1 h.af (h1.trans (by norm_num)) h.a_tiny h.bf h.tail
    have m := TanR.main (10787 / 10000) (475 / 1024) (353 / 10000) (by decide +kernel) (by norm_num) (by norm_num) (by norm_num) (by norm_num)
      (h1.trans (by norm_num)) h.tail h.err h.hi h.r_le
    refine ⟨c1, c3.trans (by norm_num; linarith), (abs_add_le _ _).trans ?_⟩
    norm_num at c2 m ⊢
    linarith
  · obtain ⟨c1, c2, c3⟩ := KTanD.chain2 h.af (h2.trans (by norm_num)) h.a_tiny h.bf h.tail
    have m := TanR.main (11403 / 10000) (614 / 1024) (27 / 250) (by decide +kernel) (by norm_num) (by norm_num) (by norm_num) (by norm_num)
      (h2.trans (by norm_num)) h.tail h.err h.hi h.r_le
    refine ⟨c1, c3.trans (by norm_num; linarith), (abs_add_le _ _).trans ?_⟩
    norm_num at c2 m ⊢
    linarith
  · obtain ⟨c1, c2, c3⟩ := KTanD.chain3 h.af (hs.trans (by norm_num)) h.a_tiny h.bf h.tail
    have m := TanR.main (11859 / 10000) (691 / 1024) (1851 / 10000) (by decide +kernel) (by norm_num) (by norm_num) (by norm_num) (by norm_num)
      (hs.trans (by norm_num)) h.tail h.err h.hi h.r_le
    refine ⟨c1, c3.trans (by norm_num; linarith), (abs_add_le _ _).trans ?_⟩
    norm_num at c2 m ⊢
    linarith

theorem r_le_tan : |r| ≤ |Real.tan r| := TanR.le_tan h.hi

theorem tan_ne : Real.tan r ≠ 0 := by
  have h1 := h.r_le_tan
  have h2 := abs_pos.2 h.r_ne'
  exact abs_pos.1 (by linarith)

theorem tan_le (hs : |a.val| ≤ 691 / 1024) : |Real.tan r| ≤ 0.804 := by
  obtain ⟨c1, c2, c3⟩ := h.tan_sum hs
  have hn := abs_nonneg a.val
  have c4 : |a.val + (KTanD.rr a b).val - Real.tan r| ≤ 2 / 2 ^ 53 * |a.val| := c3.trans (mul_le_mul_of_nonneg_right (by split_ifs <;> norm_num) hn)
  have k1 := abs_sub_abs_le_abs_sub (Real.tan r) (a.val + (KTanD.rr a b).val)
  rw [abs_sub_comm] at k1
  have k2 := abs_add_le a.val (KTanD.rr a b).val
  norm_num at c2 c4 k1 k2 hs ⊢
  linarith

theorem tan_small_even (hs : |a.val| ≤ 691 / 1024) : WithinUlp 1.5 (a + KTanD.rr a b) (Real.tan r) := by
  obtain ⟨c1, c2, c3⟩ := h.tan_sum hs
  have hq := add_rne h.af c1
  have h1 := h.r_le_tan
  have h2 := h.a_hi
  have h3 := h.a_lo
  have hn := abs_nonneg r
  split_ifs at c3 with k1 k2
  · refine (WithinUlp.of_rne_rel hq h.tan_ne ?_ (by rw [f64_bias]; norm_num) (ε := 0.469 / 2 ^ 53) ?_ (by norm_num) (by rw [f64_sb]; norm_num)
      (by rw [f64_sb]; norm_num))
    · refine (h.tan_le hs).trans_lt ?_
      rw [f64_bias]
      exact lt_trans (by norm_num) (one_lt_zpow₀ (by norm_num) (by norm_num))
    · norm_num at c3 h2 ⊢
      linarith
  all_goals
    have k3 : 0.46385 ≤ |r| := by norm_num at k1 h2 ⊢; linarith
    have k4 := TanR.tan_half k3 h.hi
    refine WithinUlp.of_bin hq (-1) (by norm_num) (by norm_num) (by norm_num at k4 ⊢; linarith) ?_ (δ := 0.9) ?_ (by norm_num) (by norm_num)
    · have := abs_add_le a.val (KTanD.rr a b).val
      norm_num at this c2 hs ⊢
      linarith
    · refine c3.trans ?_
      norm_num at hs ⊢
      linarith

theorem tan_small_odd (hs : |a.val| ≤ 691 / 1024) : WithinUlp 1.5 (TanInv.inv a (KTanD.rr a b)) (-(1 / Real.tan r)) := by
  obtain ⟨c1, c2, c3⟩ := h.tan_sum hs
  have h0 := h.tan_ne
  have h1 := h.r_le_tan
  have h2 := h.a_hi
  have h3 := h.a_lo
  have hlo := h.lo
  have hn := abs_nonneg r
  have hna := abs_nonneg a.val
  obtain ⟨q, hq, qe⟩ := TanInv.inv_spec h.af c1 (by norm_num at hlo h3 ⊢; linarith) (hs.trans (by norm_num)) (c2.trans (by norm_num; linarith))
  have ht2 := h.tan_le hs
  set t := Real.tan r with ht
  set W := a.val + (KTanD.rr a b).val with hW
  have htp : 0 < |t| := abs_pos.2 h0
  have e53 : ∀ c : ℝ, 0 ≤ c → c ≤ 1.319 / 2 ^ 53 → |W - t| ≤ c * |a.val| → |W - t| ≤ c * 1.001 * |t| ∧ |t| * (1 - 1 / 2 ^ 50) ≤ |W| := by
    intro c hc0 hc hw
    have k1 : |a.val| ≤ 1.001 * |t| := by norm_num at h2 ⊢; linarith
    have k2 := mul_le_mul_of_nonneg_left k1 hc0
    refine ⟨by linarith, ?_⟩
    have := abs_sub_abs_le_abs_sub t W
    rw [abs_sub_comm] at this
    have k3 := mul_le_mul_of_nonneg_right hc htp.le
    norm_num at k3 ⊢
    linarith
  have key : ∀ c : ℝ, 0 ≤ c → c ≤ 1.319 / 2 ^ 53 → |W - t| ≤ c * |a.val| → |q - -(1 / t)| ≤ (c * 1.002 + 2 / 2 ^ 66) * (1 / |t|) := by
    intro c hc0 hc hw
    obtain ⟨k1, k2⟩ := e53 c hc0 hc hw
    have hWp : 0 < |W| := lt_of_lt_of_le (mul_pos htp (by norm_num)) k2
    have hW0 : W ≠ 0 := abs_pos.1 hWp
    have e : q - -(1 / t) = ((q * W + 1) * t + (W - t)) / (W * t) := by field_simp; ring
    rw [e, abs_div, abs_mul W t, div_le_iff₀ (mul_pos hWp htp)]
    refine (abs_add_le _ _).trans ?_
    rw [abs_mul]
    have k3 : |q * W + 1| * |t| ≤ 1 / 2 ^ 66 * |t| := mul_le_mul_of_nonneg_right qe htp.le
    have k4 : (c * 1.002 + 2 / 2 ^ 66) * (1 / |t|) * (|W| * |t|) = (c * 1.002 + 2 / 2 ^ 66) * |W| := by field_simp
    rw [k4]
    have k5 : (c * 1.002 + 2 / 2 ^ 66) * (|t| * (1 - 1 / 2 ^ 50)) ≤ (c * 1.002 + 2 / 2 ^ 66) * |W| := mul_le_mul_of_nonneg_left k2 (by positivity)
    have k6 : 0 ≤ c * |t| := by positivity
    norm_num at k1 k3 k5 ⊢
    nlinarith
  have hti : |-(1 / t)| = 1 / |t| := by rw [abs_neg, abs_div, abs_one]
  split_ifs at c3 with k1 k2
  · have kk := key _ (by norm_num) (by norm_num) c3
    refine (WithinUlp.of_rne_rel hq (by rw [neg_ne_zero]; exact one_div_ne_zero h0) ?_ (by rw [f64_bias]; norm_num) (ε := 0.47 / 2 ^ 53) ?_ (by norm_num) (by rw [f64_sb]; norm_num)
      (by rw [f64_sb]; norm_num))
    · rw [hti, f64_bias]
      have : 1 / |t| ≤ 2 ^ 100 := by
        rw [div_le_iff₀ htp]
        norm_num at hlo ⊢
        linarith
      refine this.trans_lt ?_
      rw [← zpow_natCast]
      exact zpow_lt_zpow_right₀ (by norm_num) (by norm_num)
    · rw [hti]
      refine kk.trans (mul_le_mul_of_nonneg_right (by norm_num) (by positivity))
  all_goals
    have k3 : 0.46385 ≤ |r| := by norm_num at k1 h2 ⊢; linarith
    have k4 := TanR.tan_half k3 h.hi
  · have kk := key _ (by norm_num) (by norm_num) c3
    have k5 : 1 / |t| ≤ 1.9997 := by
      rw [div_le_iff₀ htp]
      norm_num at k4 ⊢
      linarith
    have k6 : |q - -(1 / t)| ≤ 0.95 * (1 / 2 ^ 52) := by
      refine kk.trans ?_
      norm_num at k5 ⊢
      linarith
    refine WithinUlp.of_bin hq 0 (by norm_num) (by norm_num) ?_ ?_ (δ := 0.95) ?_ (by norm_num) (by norm_num)
    · rw [hti, zpow_zero, le_div_iff₀ htp]
      linarith
    · have := abs_add_le (q - -(1 / t)) (-(1 / t))
      rw [sub_add_cancel, hti] at this
      norm_num at this k6 k5 ⊢
      linarith
    · rw [show (2 : ℝ) ^ ((0 : ℤ) - 52) = 1 / 2 ^ 52 by rw [zero_sub, zpow_neg, one_div]; norm_cast]; exact k6
  · have kk := key _ (by norm_num) (by norm_num) c3
    have k3' : 0.5995 ≤ |r| := by norm_num at k2 h2 ⊢; linarith
    have k4' := TanR.tan_mid k3' h.hi
    have k5 : 1 / |t| ≤ 1.4642 := by
      rw [div_le_iff₀ htp]
      norm_num at k4' ⊢
      linarith
    have k6 : |q - -(1 / t)| ≤ 0.98 * (1 / 2 ^ 52) := by
      refine kk.trans ?_
      norm_num at k5 ⊢
      linarith
    refine WithinUlp.of_bin hq 0 (by norm_num) (by norm_num) ?_ ?_ (δ := 0.98) ?_ (by norm_num) (by norm_num)
    · rw [hti, zpow_zero, le_div_iff₀ htp]
      linarith
    · have := abs_add_le (q - -(1 / t)) (-(1 / t))
      rw [sub_add_cancel, hti] at this
      norm_num at this k6 k5 ⊢
      linarith
    · rw [show (2 : ℝ) ^ ((0 : ℤ) - 52) = 1 / 2 ^ 52 by rw [zero_sub, zpow_neg, one_div]; norm_cast]; exact k6

end NearD

end Verif
