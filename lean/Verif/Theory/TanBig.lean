import Verif.Theory.TanD

/-!
# The reflected branch of `k_tan` (k_tan.rs 67-77 and 93-98)
-/

namespace Verif
open Flt

theorem KTanD.two_val : (2.0 : Flt f64).val = 2 := by
  have := val_const64 (x := (2.0 : Flt f64)) 1 1075 1 (by decide +kernel) (by norm_num)
  rw [this]; norm_num

theorem KTanD.refl_spec {x s : Flt f64} {ρ σ : ℝ} (xf : x.isFinite) (hx : |x.val| ≤ 57 / 512) (hρ : |x.val - ρ| ≤ 0.113 / 2 ^ 53)
    (sf : s.isFinite) (sv : s.val = σ) (hσ : σ = 1 ∨ σ = -1) :
    ∃ q, IsRNE q (KTanD.refl x s) ∧ |q - (σ - 2 * (Real.tan ρ - Real.tan ρ ^ 2 / (Real.tan ρ + σ)))| ≤ 3 / 4 * 2 ^ (-53 : ℤ) ∧ ¬ (x + KTanD.rr x 0.0 + s).isZero := by
  have hσa : |σ| = 1 := by rcases hσ with rfl | rfl <;> simp
  have hy0 : (0.0 : Flt f64).val = 0 := isZero_val.1 (by decide +kernel)
  obtain ⟨rf, re, rb⟩ := KTanD.chain0 (y := 0.0) xf (hx.trans (by norm_num)) (by decide +kernel) hy0
  rw [hy0, zero_mul, add_zero] at re
  set T := Real.tan ρ with hT
  set P := x.val * Poly.ev KTanD.poly (x.val ^ 2) with hP
  have hxo : As 1 x x.val 0 (57 / 2 ^ 9) := .exact xf rfl (by rw [mul_one]; exact hx.trans (by norm_num))
  have hR : As 1 (KTanD.rr x 0.0) (P - x.val) (7817 / 2 ^ 75) (7759 / 2 ^ 24) := ⟨rf, re, rb⟩
  have hs : As 1 s σ 0 1 := .exact sf sv (by rw [hσa, mul_one])
  have hPT : |P - T| ≤ 1201 / 10000 / 2 ^ 53 * 1 := by
    have k1 := TanR.poly_tan (hx.trans (by norm_num))
    have hr : |ρ| ≤ 0.1114 := by
      have := abs_sub_abs_le_abs_sub ρ x.val
      rw [abs_sub_comm] at this
      norm_num at this hρ hx ⊢; linarith
    have k2 := TanR.tan_lip (u := x.val) (v := ρ) (c := 0.1114) (by norm_num) (by norm_num) (hx.trans (by norm_num)) hr
    have k3 : |x.val - ρ| / (1 - 0.1114 ^ 2 / 2) ^ 2 ≤ 0.1145 / 2 ^ 53 := by
      rw [div_le_iff₀ (by norm_num)]
      norm_num at hρ ⊢; linarith
    have e : P - T = (P - Real.tan x.val) + (Real.tan x.val - T) := by ring
    rw [e]
    refine (abs_add_le _ _).trans ?_
    norm_num at k1 k2 k3 hx ⊢
    linarith
  have hw0 := As64.add zero_le_one le_rfl hxo hR (by norm_num) (by norm_num) (g := (7449 / 2 ^ 69)) (D := (7327 / 2 ^ 16)) (by norm_num) (by norm_num)
  have hw : As 1 (x + KTanD.rr x 0.0) T (1915 / 2 ^ 66) (7327 / 2 ^ 16) :=
    hw0.change (w := T) (f := 1201 / 10000 / 2 ^ 53) (by rw [show x.val + (P - x.val) - T = P - T by ring]; exact hPT) zero_le_one (by norm_num)
  have hww := As64.mul one_lo le_rfl hw hw (by norm_num) (by norm_num) (by norm_num) (by norm_num) (g := (4245 / 2 ^ 69)) (D := (3277 / 2 ^ 18)) (by norm_num) (by norm_num)
  have hws := As64.add zero_le_one le_rfl hw hs (by norm_num) (by norm_num) (g := (689 / 2 ^ 62)) (D := (2277 / 2 ^ 11)) (by norm_num) (by norm_num)
  have hL : 227 / 2 ^ 8 ≤ |(x + KTanD.rr x 0.0 + s).val| := by
    have k1 := hws.err
    have k2 := hw.err
    have k3 := hw.bd
    have k4 := abs_sub_abs_le_abs_sub σ (x + KTanD.rr x 0.0 + s).val
    have k5 : |σ - (x + KTanD.rr x 0.0 + s).val| ≤ |(x + KTanD.rr x 0.0 + s).val - (T + σ)| + |(x + KTanD.rr x 0.0).val - T| + |(x + KTanD.rr x 0.0).val| := by
      have := abs_add_three (-((x + KTanD.rr x 0.0 + s).val - (T + σ))) ((x + KTanD.rr x 0.0).val - T) (-(x + KTanD.rr x 0.0).val)
      rw [abs_neg, abs_neg] at this
      refine le_trans (le_of_eq ?_) this
      congr 1; ring
    rw [hσa] at k4
    norm_num at k1 k2 k3 k4 k5 ⊢
    linarith
  have hdv := As64.div one_lo le_rfl hww hws (227 / 2 ^ 8) hL (by norm_num) (by norm_num) (by norm_num) (by norm_num) (by norm_num) (g := (3557 / 2 ^ 68)) (D := (231 / 2 ^ 14)) (by norm_num) (by norm_num)
  have hi1 := As64.sub zero_le_one le_rfl hR hdv (by norm_num) (by norm_num) (g := (8191 / 2 ^ 69)) (D := (7635 / 2 ^ 19)) (by norm_num) (by norm_num)
  have hi2 := As64.add zero_le_one le_rfl hxo hi1 (by norm_num) (by norm_num) (g := (4111 / 2 ^ 67)) (D := (2063 / 2 ^ 14)) (by norm_num) (by norm_num)
  set u := x + (KTanD.rr x 0.0 - (x + KTanD.rr x 0.0) * (x + KTanD.rr x 0.0) / (x + KTanD.rr x 0.0 + s)) with hu
  have h2 := mul_rne (x := (2.0 : Flt f64)) (y := u) (by decide +kernel) hi2.fin
  rw [KTanD.two_val] at h2
  have hub := hi2.bd
  have huf : |2 * u.val| ≤ 1 := by rw [abs_mul, abs_two]; norm_num at hub ⊢; linarith
  obtain ⟨tf, -⟩ := h2.err 0 (by simpa using huf) (by rw [f64_bias]; norm_num) (by rw [f64_bias]; norm_num)
  have h3 := scale_err (x := u) (r := 2.0 * u) 1 (by rw [zpow_one, mul_comm]; exact h2) tf
  rw [zpow_one, f64_bias, f64_sb] at h3
  have z : (2 : ℝ) ^ (-((1023 : ℕ) : ℤ) - ((52 : ℕ) : ℤ)) ≤ 1 / 2 ^ 80 := by
    rw [one_div, ← zpow_natCast, ← zpow_neg]; exact zpow_le_zpow_right₀ (by norm_num) (by norm_num)
  replace h3 := h3.trans z
  refine ⟨s.val - (2.0 * u).val, sub_rne sf tf, ?_, ?_⟩
  · have k1 := hi2.err
    have e : s.val - (2.0 * u).val - (σ - 2 * (T - T ^ 2 / (T + σ))) =
        -((2.0 * u).val - u.val * 2) + -(2 * (u.val - (x.val + (P - x.val - T * T / (T + σ))))) + -(2 * (P - T)) := by rw [sv]; ring
    rw [e]
    refine (abs_add_three _ _ _).trans ?_
    rw [abs_neg, abs_neg, abs_neg, abs_mul, abs_mul, abs_two]
    rw [show (2 : ℝ) ^ (-53 : ℤ) = 1 / 2 ^ 53 by rw [zpow_neg, one_div]; norm_cast]
    norm_num at k1 h3 hPT ⊢
    linarith
  · intro h0
    rw [isZero_val.1 h0, abs_zero] at hL
    norm_num at hL

theorem KTanD.pi_quarter : |KTan.pio4.val + KTan.pio4lo.val - Real.pi / 4| ≤ 1 / 2 ^ 66 := by
  have p1 := Real.pi_gt_d20
  have p2 := Real.pi_lt_d20
  rw [KTan.pio4_val, KTan.pio4lo_val, zpow_neg, zpow_neg, abs_le]
  norm_num at p1 p2 ⊢
  constructor <;> linarith

theorem KTanD.odd_sign {odd : ℤ} (h : odd = 0 ∨ odd = 1) : (1.0 - 2.0 * ofInt f64 odd : Flt f64).isFinite ∧
    (1.0 - 2.0 * ofInt f64 odd : Flt f64).val = if odd = 0 then 1 else -1 := by
  rcases h with rfl | rfl
  · refine ⟨by decide +kernel, ?_⟩
    rw [val_const64 1 1074 0 (by decide +kernel) (by norm_num)]; norm_num
  · refine ⟨by decide +kernel, ?_⟩
    rw [val_const64 (-1) 1074 0 (by decide +kernel) (by norm_num)]; norm_num

namespace NearD
variable {a b : Flt f64} {r : ℝ} (h : NearD a b r)
include h

/-- the reflected argument -/
theorem refl_arg (ha : 0.6743 ≤ a.val) : ((KTan.pio4 - a) + (KTan.pio4lo - b)).isFinite ∧
    |((KTan.pio4 - a) + (KTan.pio4lo - b)).val| ≤ 57 / 512 ∧ |((KTan.pio4 - a) + (KTan.pio4lo - b)).val - (Real.pi / 4 - r)| ≤ 0.113 / 2 ^ 53 := by
  have hp := KTanD.pi_quarter
  have p1 := Real.pi_gt_d6
  have p2 := Real.pi_lt_d6
  have hal := h.a_hi
  have hhi := h.hi
  have hap : |a.val| = a.val := abs_of_pos (by linarith)
  have ha2 : a.val ≤ 0.78551 := by rw [hap] at hal; norm_num at hal hhi ⊢; linarith [abs_nonneg r]
  have htl := h.tail
  rw [hap] at htl
  have q1 : |KTan.pio4lo.val| ≤ 1 / 2 ^ 54 := by
    rw [KTan.pio4lo_val, zpow_neg, abs_of_pos (by positivity)]; norm_num
  have q0 := abs_le.1 hp
  have q2 := abs_le.1 q1
  have pl : 0.7853 ≤ KTan.pio4.val ∧ KTan.pio4.val ≤ 0.7854 := by
    rw [KTan.pio4_val, zpow_neg]; norm_num
  have hsub : |KTan.pio4.val - a.val| ≤ 0.12 := by rw [abs_le]; constructor <;> linarith
  have nrm : ∀ t : ℝ, 1 / 2 ≤ |t| → 2 ^ (1 - (f64.bias : ℤ)) ≤ |t| := fun t ht => le_trans (by
    rw [f64_bias, one_div, ← zpow_neg_one]; exact zpow_le_zpow_right₀ (by norm_num) (by norm_num)) ht
  have hpa : |KTan.pio4.val| = KTan.pio4.val := abs_of_pos (by linarith)
  obtain ⟨f1, v1⟩ := sterbenz_val (x := KTan.pio4) (y := a) (by decide +kernel) h.af (by rw [hpa]; linarith) (by rw [hap]; linarith)
    (nrm _ (by rw [hpa]; linarith)) (nrm _ (by rw [hap]; linarith))
  have hs2 : |KTan.pio4lo.val - b.val| ≤ 1 / 2 ^ 51 := by
    refine (abs_sub _ _).trans ?_
    norm_num at q1 htl ⊢
    linarith
  have big : (1 : ℝ) ≤ 2 ^ (1023 : ℤ) := one_le_zpow₀ (by norm_num) (by norm_num)
  obtain ⟨f2, v2⟩ := TanInv.rels64 (x := KTan.pio4lo) (y := b) (by decide +kernel) h.bf (hs2.trans (le_trans (by norm_num) big))
  have v2' : |(KTan.pio4lo - b).val - (KTan.pio4lo.val - b.val)| ≤ 1 / 2 ^ 100 := by
    norm_num at v2 hs2 ⊢; linarith
  have herr := h.err
  have herr2 : |a.val + b.val - r| ≤ 0.7855 / 2 ^ 62 := by norm_num at herr hhi ⊢; linarith
  -- the exact sum
  have hsum : |(KTan.pio4 - a).val + (KTan.pio4lo - b).val - (Real.pi / 4 - r)| ≤ 0.85 / 2 ^ 62 := by
    rw [v1]
    have e : KTan.pio4.val - a.val + (KTan.pio4lo - b).val - (Real.pi / 4 - r) = (KTan.pio4.val + KTan.pio4lo.val - Real.pi / 4)
        + ((KTan.pio4lo - b).val - (KTan.pio4lo.val - b.val)) + -(a.val + b.val - r) := by ring
    rw [e]
    refine (abs_add_three _ _ _).trans ?_
    rw [abs_neg]
    norm_num at hp v2' herr2 ⊢
    linarith
  have hrr := abs_le.1 herr2
  have htb := abs_le.1 htl
  have hra : 0.67429 ≤ r ∧ r ≤ 0.7855 := by
    have := le_abs_self r
    norm_num at hrr htb ⊢
    constructor <;> linarith
  have hB : |(KTan.pio4 - a).val + (KTan.pio4lo - b).val| ≤ 0.11111 := by
    have := abs_le.1 hsum
    rw [abs_le]
    norm_num at this p1 p2 hra ⊢
    constructor <;> linarith
  obtain ⟨f3, v3⟩ := TanInv.rel64 f1 f2 (hB.trans (le_trans (by norm_num) big))
  refine ⟨f3, ?_, ?_⟩
  · have := abs_add_le (((KTan.pio4 - a) + (KTan.pio4lo - b)).val - ((KTan.pio4 - a).val + (KTan.pio4lo - b).val)) ((KTan.pio4 - a).val + (KTan.pio4lo - b).val)
    rw [sub_add_cancel] at this
    norm_num at this v3 hB ⊢
    linarith
  · have := abs_add_le (((KTan.pio4 - a) + (KTan.pio4lo - b)).val - ((KTan.pio4 - a).val + (KTan.pio4lo - b).val)) ((KTan.pio4 - a).val + (KTan.pio4lo - b).val - (Real.pi / 4 - r))
    rw [sub_add_sub_cancel] at this
    norm_num at this v3 hB hsum ⊢
    linarith

theorem tan_big_pos (ha : 0.6743 ≤ a.val) {odd : ℤ} (ho : odd = 0 ∨ odd = 1) :
    WithinUlp 1.5 (KTanD.refl ((KTan.pio4 - a) + (KTan.pio4lo - b)) (1.0 - 2.0 * ofInt f64 odd)) (if odd = 0 then Real.tan r else -(1 / Real.tan r)) := by
  obtain ⟨f, bd, er⟩ := h.refl_arg ha
  obtain ⟨sf, sv⟩ := KTanD.odd_sign ho
  obtain ⟨q, hq, qe, -⟩ := KTanD.refl_spec f bd er sf sv (by split_ifs <;> simp)
  have p1 := Real.pi_gt_d6
  have p2 := Real.pi_lt_d6
  have hρ : |Real.pi / 4 - r| ≤ 0.1114 := by
    have := abs_sub_abs_le_abs_sub (Real.pi / 4 - r) ((KTan.pio4 - a) + (KTan.pio4lo - b)).val
    rw [abs_sub_comm (Real.pi / 4 - r) (Flt.val _)] at this
    have er' := er.trans (show (0.113 : ℝ) / 2 ^ 53 ≤ 0.00001 by norm_num)
    have e5 : (57 : ℝ) / 512 + 0.00001 ≤ 0.1114 := by norm_num
    linarith
  have hc := TanR.cos_lo hρ
  have hc0 : Real.cos (Real.pi / 4 - r) ≠ 0 := by norm_num at hc; linarith
  have hr := abs_le.1 hρ
  have hcr : Real.cos r ≠ 0 := by
    have := TanR.cos_lo h.hi
    norm_num at this; linarith
  set T := Real.tan (Real.pi / 4 - r) with hT
  have hTb : |T| ≤ 0.1130 := by
    have := TanR.tan_lip (u := Real.pi / 4 - r) (v := 0) (c := 0.1114) (by norm_num) (by norm_num) hρ (by norm_num)
    rw [Real.tan_zero, sub_zero, sub_zero] at this
    refine this.trans ?_
    rw [div_le_iff₀ (by norm_num)]
    norm_num at hρ ⊢; linarith
  have hTl := abs_le.1 hTb
  have e4 : Real.tan r = (1 - T) / (1 + T) := by
    have hss : Real.sin (Real.pi / 4) = Real.cos (Real.pi / 4) := by rw [Real.sin_pi_div_four, Real.cos_pi_div_four]
    have hs4 : Real.cos (Real.pi / 4) ≠ 0 := by rw [Real.cos_pi_div_four]; positivity
    rw [hT]
    generalize hg : Real.pi / 4 - r = g at *
    rw [show r = Real.pi / 4 - g by rw [← hg]; ring, Real.tan_eq_sin_div_cos, Real.tan_eq_sin_div_cos, Real.sin_sub, Real.cos_sub, hss, ← mul_sub, ← mul_add, mul_div_mul_left _ _ hs4]
    rw [one_sub_div hc0, one_add_div hc0, div_div_div_cancel_right₀ hc0]
  have hodd : (if odd = 0 then Real.tan r else -(1 / Real.tan r)) = (if odd = 0 then (1 : ℝ) else -1) - 2 * (T - T ^ 2 / (T + if odd = 0 then (1 : ℝ) else -1)) := by
    rw [e4]
    have n1 : 1 + T ≠ 0 := by linarith
    have n2 : 1 - T ≠ 0 := by linarith
    have n3 : T + 1 ≠ 0 := by linarith
    have n4 : T + -1 ≠ 0 := by linarith
    split_ifs
    · field_simp; ring
    · field_simp; ring
  rw [← hodd] at qe
  have hv : 1 / 2 ≤ |if odd = 0 then Real.tan r else -(1 / Real.tan r)| ∧ |if odd = 0 then Real.tan r else -(1 / Real.tan r)| ≤ 1.9 := by
    have t1 : 0.79 ≤ Real.tan r := by rw [e4, le_div_iff₀ (by linarith)]; linarith
    have t2 : Real.tan r ≤ 1.26 := by rw [e4, div_le_iff₀ (by linarith)]; linarith
    split_ifs
    · rw [abs_of_pos (by linarith)]; constructor <;> linarith
    · rw [abs_neg, abs_of_pos (by positivity), le_div_iff₀ (by linarith), div_le_iff₀ (by linarith)]; constructor <;> linarith
  exact WithinUlp.near_one hq hv.1 hv.2 qe

/-- `k_tan` within one and a half units in the last place -/
theorem tan_ulp {odd : ℤ} (ho : odd = 0 ∨ odd = 1) : WithinUlp 1.5 (kTan a b odd) (if odd = 0 then Real.tan r else -(1 / Real.tan r)) := by
  have cv : (⟨(0x3FE5942800000000#64 : BitVec 64)⟩ : Flt f64).val = 1414184 * 2 ^ (-21 : ℤ) := val_const64 1414184 1053 (-21) (by decide +kernel) (by norm_num)
  rcases lt_or_ge a.mb (0x3FE59428 * 2 ^ 32) with hm | hm
  · rw [KTan.small_eq hm]
    have hs : |a.val| ≤ 691 / 1024 := by
      have := val_mono (x := (⟨(0x3FE5942800000000#64 : BitVec 64)⟩ : Flt f64)) (y := a) (hm.le.trans (by decide +kernel))
      rw [cv, zpow_neg] at this
      refine this.trans ?_
      rw [abs_of_pos (by positivity)]; norm_num
    split_ifs
    · exact h.tan_small_even hs
    · exact h.tan_small_odd hs
  · rw [KTan.big_eq hm]
    have hl : 0.6743 ≤ |a.val| := by
      have := val_mono (x := a) (y := (⟨(0x3FE5942800000000#64 : BitVec 64)⟩ : Flt f64)) (le_trans (by decide +kernel) hm)
      rw [cv, zpow_neg] at this
      refine le_trans ?_ this
      rw [abs_of_pos (by positivity)]; norm_num
    split_ifs with h1 h2 h2
    · have := h.neg'.tan_big_pos (by rw [val_neg, ← abs_of_nonpos (val_nonpos h1)]; exact hl) ho
      rw [if_pos h2, Real.tan_neg] at this
      have := this.neg
      rwa [_root_.neg_neg] at this
    · have := h.neg'.tan_big_pos (by rw [val_neg, ← abs_of_nonpos (val_nonpos h1)]; exact hl) ho
      rw [if_neg h2, Real.tan_neg] at this
      have := this.neg
      rwa [_root_.neg_neg, one_div_neg_eq_neg_one_div] at this
    · have := h.tan_big_pos (by rwa [abs_of_nonneg (val_nonneg (by simpa using h1))] at hl) ho
      rwa [if_pos h2] at this
    · have := h.tan_big_pos (by rwa [abs_of_nonneg (val_nonneg (by simpa using h1))] at hl) ho
      rwa [if_neg h2] at this

end NearD

end Verif
