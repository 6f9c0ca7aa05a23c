import Verif.Props.Exp2Acc
import Verif.Props.PowTotal
import Verif.Theory.Pow10

/-!
# C30: saturation of `exp10f` and `exp10`
-/

namespace Verif
open Flt

namespace Num

theorem log10_near : |Real.log 10 - 2.302585092994045684017991454684364| ≤ 1 / 2 ^ 68 := by
  have h := Real.abs_log_sub_add_sum_range_le (x := (1 / 5 : ℝ)) (by norm_num [abs_of_pos]) 34
  have h2 : Real.log (1 - 1 / 5) = 3 * Real.log 2 - Real.log 10 := by
    rw [show (1 : ℝ) - 1 / 5 = 2 ^ 3 / 10 by norm_num, Real.log_div (by norm_num) (by norm_num), Real.log_pow]; norm_num
  rw [h2, abs_of_pos (by norm_num : (0 : ℝ) < 1 / 5)] at h
  have h3 := abs_le.1 log2_near
  rw [abs_le] at *
  norm_num [Finset.sum_range_succ] at h h3 ⊢
  constructor <;> linarith [h.1, h.2, h3.1, h3.2]
end Num

/-- the smallest unit is the only thing an ulp can exceed relative precision by -/
theorem ulpAt_le_add {F : Fmt} {t : ℝ} (h : 0 < t) : ulpAt F t ≤ t / 2 ^ F.sb + 2 ^ (1 - (F.bias : ℤ) - F.sb) := by
  rw [ulpAt, if_neg h.ne', abs_of_pos h]
  rcases max_choice (Int.log 2 t) (1 - (F.bias : ℤ)) with e | e <;> rw [e]
  · refine le_trans ?_ (le_add_of_nonneg_right (zp _).le)
    rw [zpow_sub₀ (by norm_num), zpow_natCast]
    exact div_le_div_of_nonneg_right (Int.zpow_log_le_self (by norm_num) h) (by positivity)
  · exact le_add_of_nonneg_left (by positivity)

/-- the exponential reaches infinity from the threshold on -/
theorem isRNE_inf {F : Fmt} {q : ℝ} (h : ((overflowThreshold F : ℚ) : ℝ) ≤ q) (hq : 0 < q) : IsRNE q (inf F false) := by
  unfold IsRNE
  rw [abs_of_pos hq, if_pos h]
  exact ⟨isInf_inf _, by simp [hq.le]⟩

theorem rne_to_zero {F : Fmt} {q : ℝ} {r : Flt F} (h : IsRNE q r) (h0 : 0 < q) (hq : q < 2 ^ (-(F.bias : ℤ) - F.sb)) : r = zero F false := by
  have hp := zp (-(F.bias : ℤ) - F.sb)
  have e : (2 : ℝ) ^ (1 - (F.bias : ℤ) - F.sb) = 2 * 2 ^ (-(F.bias : ℤ) - F.sb) := by
    rw [← zpow_one_add₀ (by norm_num)]; congr 1; ring
  have hs := h.sign_pos h0
  obtain ⟨rf, h1⟩ := h.fin (by
    rw [abs_of_pos h0, overflow_real]
    refine hq.trans_le ?_
    have h3 : (2 : ℝ) ^ (-(F.bias : ℤ) - F.sb) ≤ 2 ^ ((F.bias : ℤ) - F.sb) := zpow_le_zpow_right₀ (by norm_num) (by omega)
    have h4 : (1 : ℝ) ≤ 2 ^ (F.sb + 1) - 1 / 2 := by
      have : (2 : ℝ) ^ 1 ≤ 2 ^ (F.sb + 1) := pow_le_pow_right₀ (by norm_num) (by omega)
      linarith
    exact h3.trans (le_mul_of_one_le_left (zp _).le h4))
  have h2 := h1 (zero F false) (isFinite_zero _)
  rw [val_zero, zero_sub, abs_neg, abs_of_pos h0] at h2
  have h3 := (abs_le.1 h2).2
  have h4 := val_abs r
  rw [abs_of_nonneg (val_nonneg hs), ulp_real, e] at h4
  have h5 : (r.mag : ℝ) < 1 := by
    by_contra hc
    push Not at hc
    have := mul_le_mul_of_nonneg_right hc (show (0 : ℝ) ≤ 2 * 2 ^ (-(F.bias : ℤ) - F.sb) by positivity)
    linarith
  have h6 : r.mag < 1 := by exact_mod_cast h5
  rw [eq_zero ((isZero_iff_mag r).2 (by omega)), hs]

theorem isModf_ge {F : Fmt} {x f i : Flt F} (h : IsModf x f i) {n : ℤ} (hn : (n : ℝ) ≤ |x.val|) : (n : ℝ) ≤ |i.val| := by
  obtain ⟨-, -, -, -, h2, -⟩ := h
  have hn' : (n : ℚ) ≤ |x.toRat| := by unfold val at hn; exact_mod_cast hn
  have : (n : ℚ) ≤ |i.toRat| := by
    rw [h2]
    split_ifs with h
    · rw [abs_of_neg h] at hn'
      have h0 : ⌈x.toRat⌉ ≤ -n := Int.ceil_le.2 (by push_cast; linarith)
      have h0' : ((⌈x.toRat⌉ : ℤ) : ℚ) ≤ -n := by exact_mod_cast h0
      exact le_trans (by linarith) (neg_le_abs _)
    · push Not at h
      rw [abs_of_nonneg h] at hn'
      have h0 : n ≤ ⌊x.toRat⌋ := Int.le_floor.2 hn'
      have h0' : (n : ℚ) ≤ ((⌊x.toRat⌋ : ℤ) : ℚ) := by exact_mod_cast h0
      exact h0'.trans (le_abs_self _)
  unfold val
  exact_mod_cast this

namespace Exp10f

theorem ln_val : ln10f64.val = (7480317065143153 : ℤ) * 2 ^ (-51 : ℤ) := val_const64 _ 1023 _ (by decide +kernel) (by norm_num)

theorem big_path {x : Flt f32} (hx : x.isFinite) (h : 8 ≤ |x.val|) :
    exp10f x = (exp2 (ln10f64 * x.cast f64)).map fun r => r.cast f32 := by
  unfold exp10f
  dsimp only
  rw [if_neg]
  intro hc
  have hv := val_lt_of_mb (F := f32) (x := (modff x).2) (E := 130) (by norm_num) (by rw [f32_sb]; exact exp_lt hc)
  rw [f32_bias] at hv
  have := isModf_ge (modff_finite x hx) (n := 8) (by push_cast; exact h)
  norm_num at hv this
  linarith

end Exp10f

theorem exp10f_special : IsExpFn exp10f (fun t => (10 : ℝ) ^ t) where
  toIsExpSpecial := exp10f_special_partial
  saturate x r hx hr h := by
    have p : (0 : ℝ) < 10 ^ x.val := Real.rpow_pos_of_pos (by norm_num) _
    have l1 := abs_le.1 Num.log10_near
    have k1 := Num.log2_gt
    have k2 := Num.log2_lt
    have lp : 0 < Real.log 10 := by norm_num at l1; linarith
    obtain ⟨cf, cv⟩ := Hypotf.widen hx
    have hx2 : |x.val| ≤ 2 ^ 128 := by
      have := PowT.abs_lt_top hx (by rw [f32_bias]; norm_num)
      rw [f32_bias] at this
      refine this.le.trans (by norm_num)
    have hR := mul_rne (x := Exp10f.ln10f64) (by decide +kernel) cf
    rw [cv, Exp10f.ln_val] at hR
    obtain ⟨yf, -⟩ := hR.fin (by
      rw [← thr64, abs_mul]
      have h3 : |(((7480317065143153 : ℤ) : ℝ) * 2 ^ (-51 : ℤ))| ≤ 4 := by norm_num [abs_of_pos]
      have h4 := mul_le_mul h3 hx2 (abs_nonneg _) (by norm_num)
      refine h4.trans_lt ?_
      have : (2 : ℝ) ^ (1024 : ℤ) = 2 ^ (24 : ℤ) * 2 ^ (1000 : ℤ) := by rw [← zpow_add₀ (by norm_num)]; norm_num
      rw [this]
      have h5 : (2 : ℝ) ^ (128 : ℤ) ≤ 2 ^ (1000 : ℤ) := zpow_le_zpow_right₀ (by norm_num) (by norm_num)
      clear this
      have h6 := zp 1000
      generalize (2 : ℝ) ^ (1000 : ℤ) = T at *
      norm_num at h5 ⊢; linarith)
    rcases h with h | h
    · obtain ⟨h1, rfl⟩ := rne_inf hr h p.le
      rw [← thr32, Real.rpow_def_of_pos (by norm_num)] at h1
      have v1 : (bits32 0x421a209a).val = (5050445 : ℤ) * 2 ^ (-17 : ℤ) := val_const32 _ 132 _ (by decide +kernel) (by norm_num)
      have v2 : (bits32 0x421a209b).val = (10100891 : ℤ) * 2 ^ (-18 : ℤ) := val_const32 _ 131 _ (by decide +kernel) (by norm_num)
      have hv : (bits32 0x421a209a).val < x.val := by
        by_contra hc
        push Not at hc
        have := Num.exp_lt_thr (n := 128) (k := 25) (t := Real.log 10 * (bits32 0x421a209a).val) (by norm_num) (by
          rw [v1]; norm_num at l1 k1 ⊢; linarith)
        exact absurd h1 (not_le.2 ((Real.exp_le_exp.2 (mul_le_mul_of_nonneg_left hc lp.le)).trans_lt this))
      have hs : x.sign = false := by
        by_contra hs
        have := val_nonpos (x := x) (by simpa using hs)
        rw [v1] at hv; norm_num at hv; linarith
      have hv2 : (bits32 0x421a209b).val ≤ x.val := by
        have hm : 0x421a209a < x.mb := by
          by_contra hc
          exact absurd (val_le_of_mb (c := bits32 0x421a209a) (not_lt.1 hc) (by decide +kernel)) (not_le.2 hv)
        have := val_mono (x := x) (y := bits32 0x421a209b) (by
          rw [show (bits32 0x421a209b).mb = 0x421a209b by decide +kernel]; omega)
        rwa [abs_of_nonneg (val_nonneg hs), abs_of_nonneg (val_nonneg (by decide +kernel))] at this
      rw [v2] at hv2
      rw [Exp10f.big_path hx (by rw [abs_of_nonneg (val_nonneg hs)]; norm_num at hv2 ⊢; linarith)]
      have hy := hR.ge_of_ge yf (s := bits64 0x4060000008000000) (by decide +kernel) (by
        rw [val_const64 (x := bits64 0x4060000008000000) (2 ^ 25 + 1) 1056 (-18) (by decide +kernel) (by norm_num)]
        norm_num at hv2 ⊢; linarith)
      rw [val_const64 (x := bits64 0x4060000008000000) (2 ^ 25 + 1) 1056 (-18) (by decide +kernel) (by norm_num)] at hy
      generalize Exp10f.ln10f64 * x.cast f64 = y at *
      have q : (0 : ℝ) < 2 ^ y.val := Real.rpow_pos_of_pos (by norm_num) _
      rcases le_or_gt ((overflowThreshold f64 : ℚ) : ℝ) ((2 : ℝ) ^ y.val) with ho | ho
      · rw [exp2_special.saturate y (inf f64 false) yf (isRNE_inf ho q) (Or.inl (isInf_inf _))]
        decide +kernel
      · obtain ⟨r, e, w, -⟩ := exp2_accurate_pos y yf ho
        rw [e, Option.map_some]
        congr 1
        rw [WithinUlp.def'] at w
        have hu := ulpAt_le_add (F := f64) q
        rw [f64_sb, f64_bias] at hu
        have hu2 : (2 : ℝ) ^ (1 - ((1023 : ℕ) : ℤ) - ((52 : ℕ) : ℤ)) ≤ 1 := zpow_le_one_of_nonpos₀ (by norm_num) (by norm_num)
        have hw := (abs_le.1 w.2).1
        apply rne_overflow (cast_rne (G := f32) w.1)
        rw [f32_bias]
        have hT : (2 : ℝ) ^ (128 : ℤ) * (1 + 1 / 2 ^ 19) ≤ 2 ^ y.val := by
          rw [two_rpow_eq]
          have h3 : (128 : ℤ) * Real.log 2 + 1 / 2 ^ 19 ≤ y.val * Real.log 2 := by
            have := mul_le_mul_of_nonneg_right hy (show 0 ≤ Real.log 2 by norm_num at k1; linarith)
            norm_num at this k1 ⊢; linarith
          refine le_trans ?_ (Real.exp_le_exp.2 h3)
          rw [Real.exp_add, mul_comm ((128 : ℤ) : ℝ), Real.exp_mul, Real.exp_log (by norm_num), Real.rpow_intCast]
          refine mul_le_mul_of_nonneg_left ?_ (zp _).le
          have := Real.add_one_le_exp ((1 : ℝ) / 2 ^ 19)
          linarith
        generalize (2 : ℝ) ^ y.val = t at *
        generalize ulpAt f64 t = u at *
        generalize (2 : ℝ) ^ (1 - ((1023 : ℕ) : ℤ) - ((52 : ℕ) : ℤ)) = g at *
        norm_num at hw hu hT ⊢; linarith
    · obtain ⟨h1, rfl⟩ := rne_zero hr h p
      rw [f32_bias, f32_sb, Real.rpow_def_of_pos (by norm_num)] at h1
      have v1 : (bits32 0xc2349e35).val = (-11836981 : ℤ) * 2 ^ (-18 : ℤ) := val_const32 _ 131 _ (by decide +kernel) (by norm_num)
      have v2 : (bits32 0xc2349e36).val = (-5918491 : ℤ) * 2 ^ (-17 : ℤ) := val_const32 _ 132 _ (by decide +kernel) (by norm_num)
      have hv : x.val < (bits32 0xc2349e35).val := by
        by_contra hc
        push Not at hc
        have := Num.two_zpow_lt_exp (n := -150) (t := Real.log 10 * (bits32 0xc2349e35).val) (by
          rw [v1]; norm_num at l1 k1 ⊢; linarith)
        exact absurd h1 (not_le.2 (this.trans_le (Real.exp_le_exp.2 (mul_le_mul_of_nonneg_left hc lp.le))))
      have hs : x.sign = true := by
        by_contra hs
        have := val_nonneg (x := x) (by simpa using hs)
        rw [v1] at hv; norm_num at hv; linarith
      have hv2 : x.val ≤ (bits32 0xc2349e36).val := by
        have hm : 0x42349e35 < x.mb := by
          by_contra hc
          exact absurd (val_ge_of_mb' (c := bits32 0xc2349e35) (by
            rw [show (bits32 0xc2349e35).mb = 0x42349e35 by decide +kernel]; omega) (by decide +kernel)) (not_le.2 hv)
        have := val_mono (x := x) (y := bits32 0xc2349e36) (by
          rw [show (bits32 0xc2349e36).mb = 0x42349e36 by decide +kernel]; omega)
        rw [abs_of_nonpos (val_nonpos hs), abs_of_nonpos (val_nonpos (by decide +kernel))] at this
        linarith
      rw [v2] at hv2
      rw [Exp10f.big_path hx (by rw [abs_of_nonpos (val_nonpos hs)]; norm_num at hv2 ⊢; linarith)]
      have hy := hR.le_of_le yf (s := bits64 0xc062c00010000000) (by decide +kernel) (by
        rw [val_const64 (x := bits64 0xc062c00010000000) (-(150 * 2 ^ 17 + 1)) 1057 (-17) (by decide +kernel) (by norm_num)]
        norm_num at hv2 ⊢; linarith)
      rw [val_const64 (x := bits64 0xc062c00010000000) (-(150 * 2 ^ 17 + 1)) 1057 (-17) (by decide +kernel) (by norm_num)] at hy
      generalize Exp10f.ln10f64 * x.cast f64 = y at *
      have q : (0 : ℝ) < 2 ^ y.val := Real.rpow_pos_of_pos (by norm_num) _
      have hT : (2 : ℝ) ^ y.val ≤ 2 ^ (-150 : ℤ) * (1 - 1 / 2 ^ 19) := by
        rw [two_rpow_eq]
        have h3 : y.val * Real.log 2 ≤ (-150 : ℤ) * Real.log 2 + -(1 / 2 ^ 18) := by
          have := mul_le_mul_of_nonneg_right hy (show 0 ≤ Real.log 2 by norm_num at k1; linarith)
          norm_num at this k1 ⊢; linarith
        refine (Real.exp_le_exp.2 h3).trans ?_
        rw [Real.exp_add, mul_comm ((-150 : ℤ) : ℝ), Real.exp_mul, Real.exp_log (by norm_num), Real.rpow_intCast]
        refine mul_le_mul_of_nonneg_left ?_ (zp _).le
        have h4 := (abs_le.1 (Real.abs_exp_sub_one_sub_id_le (x := -(1 / 2 ^ 18)) (by norm_num))).2
        generalize Real.exp (-(1 / 2 ^ 18)) = A at *
        norm_num at h4 ⊢; linarith
      obtain ⟨r, e, w, sr⟩ := exp2_accurate_pos y yf (by
        rw [← thr64]
        refine hT.trans_lt ?_
        have h5 : (2 : ℝ) ^ (-150 : ℤ) ≤ 1 := zpow_le_one_of_nonpos₀ (by norm_num) (by norm_num)
        have h6 : (2 : ℝ) ^ (10 : ℤ) ≤ 2 ^ (1024 : ℤ) := zpow_le_zpow_right₀ (by norm_num) (by norm_num)
        generalize (2 : ℝ) ^ (1024 : ℤ) = A at *
        generalize (2 : ℝ) ^ (-150 : ℤ) = B at *
        norm_num at h6 ⊢; linarith)
      rw [e, Option.map_some]
      congr 1
      rw [WithinUlp.def'] at w
      have hu := ulpAt_le_add (F := f64) q
      rw [f64_sb, f64_bias] at hu
      have hu2 : (2 : ℝ) ^ (1 - ((1023 : ℕ) : ℤ) - ((52 : ℕ) : ℤ)) ≤ 2 ^ (-150 : ℤ) * 2 ^ (-100 : ℤ) := by
        rw [← zpow_add₀ (by norm_num)]
        exact zpow_le_zpow_right₀ (by norm_num) (by norm_num)
      have hw := (abs_le.1 w.2).2
      rcases (val_nonneg sr).eq_or_lt with h0 | h0
      · rw [eq_zero (isZero_val.2 h0.symm), sr]; decide +kernel
      · refine rne_to_zero (cast_rne (G := f32) w.1) h0 ?_
        rw [f32_bias, f32_sb, show (-((127 : ℕ) : ℤ) - ((23 : ℕ) : ℤ)) = -150 by norm_num]
        have hp := zp (-150)
        generalize (2 : ℝ) ^ y.val = t at *
        generalize ulpAt f64 t = u at *
        generalize (2 : ℝ) ^ (1 - ((1023 : ℕ) : ℤ) - ((52 : ℕ) : ℤ)) = g at *
        have h7 : (2 : ℝ) ^ (-150 : ℤ) * 2 ^ (-100 : ℤ) ≤ 2 ^ (-150 : ℤ) * (1 / 2 ^ 30) := mul_le_mul_of_nonneg_left (by norm_num) hp.le
        generalize (2 : ℝ) ^ (-150 : ℤ) * 2 ^ (-100 : ℤ) = g2 at *
        generalize (2 : ℝ) ^ (-150 : ℤ) = T at *
        norm_num at hw hu hT h7 ⊢; linarith

namespace Exp10

theorem big_path {x : Flt f64} (hx : x.isFinite) (h : 16 ≤ |x.val|) :
    exp10 x = Pow.general 1.0 10.0 x (getHighWord x) 0x40240000#32 (getHighWord x &&& 0x7fffffff#32) := by
  rw [← Pow10.pow_ten hx (by linarith)]
  unfold exp10
  dsimp only
  rw [if_neg]
  intro hc
  have hv := val_lt_of_mb (F := f64) (x := (modf x).2) (E := 1027) (by norm_num) (by rw [f64_sb]; exact (exp_lt _).1 hc)
  rw [f64_bias] at hv
  have := isModf_ge (modf_finite x hx) (n := 16) (by push_cast; exact h)
  norm_num at hv this
  linarith

theorem of_mulOut {x r : Flt f64} (hx : x.isFinite) (h : 16 ≤ |x.val|) (hr : r = if x.sign then zero f64 false else inf f64 false)
    (h2 : x.mb / 2 ^ 52 ≤ 1054 → Pow.mulOut 1.0 x Pow10.t1 Pow10.t2 = some r) : exp10 x = some r := by
  have hm : 1027 * 2 ^ 52 ≤ x.mb := by
    by_contra hc
    have := val_lt_of_mb (F := f64) (x := x) (E := 1027) (by norm_num) (by rw [f64_sb]; omega)
    rw [f64_bias] at this
    norm_num at this; linarith
  have hb := (isFinite64 x).1 hx
  have hI := Pow.hi_toInt x
  have hA := hi_abs' x
  rw [show (0x7fffffff : BitVec 32) = 0x7fffffff#32 from rfl] at hA
  rw [big_path hx h]
  unfold Pow.general
  dsimp only
  by_cases c : getHighWord x &&& 0x7fffffff#32 > 0x41e00000#32
  · rw [if_pos c, if_neg (fun h => absurd h.2 (by decide))]
    have e1 : Pow.huge * Pow.huge = inf f64 false := by decide +kernel
    have e2 : Pow.tiny * Pow.tiny = zero f64 false := by decide +kernel
    have e3 : (1.0 : Flt f64) * Pow.huge * Pow.huge = inf f64 false := by decide +kernel
    have e4 : (1.0 : Flt f64) * Pow.tiny * Pow.tiny = zero f64 false := by decide +kernel
    rw [e1, e2, e3, e4]
    cases hs : x.sign
    · rw [hs] at hI hr
      simp only [Bool.false_eq_true, if_false] at hI hr
      have hp : (getHighWord x).toInt > 0 := by rw [hI]; omega
      simp only [hp, if_true]
      rw [hr]
      split
      · rfl
      · rw [if_neg (by decide), if_pos (by decide)]
    · rw [hs] at hI hr
      simp only [if_true] at hI hr
      have hp : ¬ (getHighWord x).toInt > 0 := by rw [hI]; omega
      simp only [hp, if_false]
      rw [hr]
      split
      · rfl
      · rw [if_neg (by decide), if_pos (by decide)]
  · rw [if_neg c, Pow10.logAx10, Option.bind_some]
    refine h2 ?_
    have : (getHighWord x &&& 0x7fffffff#32).toNat ≤ 0x41e00000 := by
      by_contra hc
      exact c (BitVec.lt_def.2 (by rw [show (0x41e00000#32).toNat = 0x41e00000 from rfl]; omega))
    omega

end Exp10

/-- C30 for `exp10`, with saturation -/
theorem exp10_special_full : IsExpFn exp10 (fun t => (10 : ℝ) ^ t) where
  toIsExpSpecial := exp10_special
  saturate x r hx hr h := by
    have p : (0 : ℝ) < 10 ^ x.val := Real.rpow_pos_of_pos (by norm_num) _
    have l1 := abs_le.1 Num.log10_near
    have k1 := Num.log2_gt
    have k2 := Num.log2_lt
    have lp : 0 < Real.log 10 := by norm_num at l1; linarith
    rcases h with h | h
    · obtain ⟨h1, rfl⟩ := rne_inf hr h p.le
      rw [← thr64, Real.rpow_def_of_pos (by norm_num)] at h1
      have v1 : (bits64 0x40734413509f79fe).val = (2711437152599295 : ℤ) * 2 ^ (-43 : ℤ) := val_const64 _ 1031 _ (by decide +kernel) (by norm_num)
      have v2 : (bits64 0x40734413509f7a01).val = (5422874305198593 : ℤ) * 2 ^ (-44 : ℤ) := val_const64 _ 1030 _ (by decide +kernel) (by norm_num)
      have hv : (bits64 0x40734413509f79fe).val < x.val := by
        by_contra hc
        push Not at hc
        have := Num.exp_lt_thr (n := 1024) (k := 54) (t := Real.log 10 * (bits64 0x40734413509f79fe).val) (by norm_num) (by
          rw [v1]; norm_num at l1 k1 ⊢; linarith)
        exact absurd h1 (not_le.2 ((Real.exp_le_exp.2 (mul_le_mul_of_nonneg_left hc lp.le)).trans_lt this))
      have hs : x.sign = false := by
        by_contra hs
        have := val_nonpos (x := x) (by simpa using hs)
        rw [v1] at hv; norm_num at hv; linarith
      have hm : 0x40734413509f79fe < x.mb := by
        by_contra hc
        exact absurd (val_le_of_mb (c := bits64 0x40734413509f79fe) (not_lt.1 hc) (by decide +kernel)) (not_le.2 hv)
      by_cases e1 : x.mb = 0x40734413509f79ff
      · rw [ext_mb (x := x) (y := bits64 0x40734413509f79ff) (by rw [hs]; decide +kernel) (by rw [e1]; decide +kernel)]
        decide +kernel
      by_cases e2 : x.mb = 0x40734413509f7a00
      · rw [ext_mb (x := x) (y := bits64 0x40734413509f7a00) (by rw [hs]; decide +kernel) (by rw [e2]; decide +kernel)]
        decide +kernel
      have hv2 : (bits64 0x40734413509f7a01).val ≤ x.val := by
        have := val_mono (x := x) (y := bits64 0x40734413509f7a01) (by
          rw [show (bits64 0x40734413509f7a01).mb = 0x40734413509f7a01 by decide +kernel]; omega)
        rwa [abs_of_nonneg (val_nonneg hs), abs_of_nonneg (val_nonneg (by decide +kernel))] at this
      rw [v2] at hv2
      refine Exp10.of_mulOut hx (by rw [abs_of_nonneg (val_nonneg hs)]; norm_num at hv2 ⊢; linarith) (by rw [hs]; rfl) ?_
      exact fun hb => Pow10.mulOut_inf hx hb (by push_cast at hv2; exact hv2)
    · obtain ⟨h1, rfl⟩ := rne_zero hr h p
      rw [f64_bias, f64_sb, Real.rpow_def_of_pos (by norm_num)] at h1
      have v1 : (bits64 0xc07439b746e36b52).val = (-2846479432660393 : ℤ) * 2 ^ (-43 : ℤ) := val_const64 _ 1031 _ (by decide +kernel) (by norm_num)
      have v2 : (bits64 0xc07439b746e36b54).val = (-1423239716330197 : ℤ) * 2 ^ (-42 : ℤ) := val_const64 _ 1032 _ (by decide +kernel) (by norm_num)
      have hv : x.val < (bits64 0xc07439b746e36b52).val := by
        by_contra hc
        push Not at hc
        have := Num.two_zpow_lt_exp (n := -1075) (t := Real.log 10 * (bits64 0xc07439b746e36b52).val) (by
          rw [v1]; norm_num at l1 k1 ⊢; linarith)
        exact absurd h1 (not_le.2 (this.trans_le (Real.exp_le_exp.2 (mul_le_mul_of_nonneg_left hc lp.le))))
      have hs : x.sign = true := by
        by_contra hs
        have := val_nonneg (x := x) (by simpa using hs)
        rw [v1] at hv; norm_num at hv; linarith
      have hm : 0x407439b746e36b52 < x.mb := by
        by_contra hc
        exact absurd (val_ge_of_mb' (c := bits64 0xc07439b746e36b52) (by
          rw [show (bits64 0xc07439b746e36b52).mb = 0x407439b746e36b52 by decide +kernel]; omega) (by decide +kernel)) (not_le.2 hv)
      by_cases e1 : x.mb = 0x407439b746e36b53
      · rw [ext_mb (x := x) (y := bits64 0xc07439b746e36b53) (by rw [hs]; decide +kernel) (by rw [e1]; decide +kernel)]
        decide +kernel
      have hv2 : x.val ≤ (bits64 0xc07439b746e36b54).val := by
        have := val_mono (x := x) (y := bits64 0xc07439b746e36b54) (by
          rw [show (bits64 0xc07439b746e36b54).mb = 0x407439b746e36b54 by decide +kernel]; omega)
        rw [abs_of_nonpos (val_nonpos hs), abs_of_nonpos (val_nonpos (by decide +kernel))] at this
        linarith
      rw [v2] at hv2
      refine Exp10.of_mulOut hx (by rw [abs_of_nonpos (val_nonpos hs)]; norm_num at hv2 ⊢; linarith) (by rw [hs]; rfl) ?_
      exact fun hb => Pow10.mulOut_zero hx hb (by norm_num at hv2 ⊢; linarith)

/-- the saturation clauses speak about calls that exist -/
example : exp10 308.3 = some (inf f64 false) ∧ exp10 (-324.0) = some (zero f64 false) ∧
    exp10f 38.6 = some (inf f32 false) ∧ exp10f (-46.0) = some (zero f32 false) := by decide +kernel

end Verif
