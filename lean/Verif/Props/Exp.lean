import Verif.Theory.Trans
import Verif.Props.Scalbn
import Verif.Props.Modf
import Verif.Model.Exp

/-!
# C30: special values and saturation of the exponential family
-/

namespace Verif
open Flt
open Generic (scalbn)

/-- Special values of an exponential `f`: it never fails, NaN gives NaN, the limits at the infinities are exact and
zero gives exactly one. -/
structure IsExpSpecial {F : Fmt} (f : Flt F → Option (Flt F)) : Prop where
  total : ∀ x, ∃ r, f x = some r
  nan : ∀ x : Flt F, x.isNaN → ∃ r, f x = some r ∧ r.isNaN
  pinf : f (inf F false) = some (inf F false)
  ninf : f (inf F true) = some (zero F false)
  zero : ∀ x : Flt F, x.isZero → f x = some (one F)

/-- The full claim (`g` is the exact function): in addition, wherever the exact result rounds to infinity or to zero
`f` returns just that. -/
structure IsExpFn {F : Fmt} (f : Flt F → Option (Flt F)) (g : ℝ → ℝ) : Prop extends IsExpSpecial f where
  saturate : ∀ (x r : Flt F), x.isFinite → IsRNE (g x.val) r → r.isInf ∨ r.isZero → f x = some r

namespace Flt
variable {F : Fmt}

theorem rne_inf {q : ℝ} {r : Flt F} (h : IsRNE q r) (hr : r.isInf) (hq : 0 ≤ q) :
    ((overflowThreshold F : ℚ) : ℝ) ≤ q ∧ r = inf F false := by
  unfold IsRNE at h
  rw [abs_of_nonneg hq] at h
  split_ifs at h with h0
  · refine ⟨h0, ?_⟩
    rw [eq_inf hr]
    congr 1
    have := h.2
    rw [← Bool.not_eq_true, this]; linarith
  · exact absurd hr (not_inf_of_finite h.1)

theorem rne_zero {q : ℝ} {r : Flt F} (h : IsRNE q r) (hr : r.isZero) (hq : 0 < q) :
    q ≤ 2 ^ (-(F.bias : ℤ) - F.sb) ∧ r = zero F false := by
  unfold IsRNE at h
  rw [abs_of_pos hq] at h
  have hrv : r.val = 0 := isZero_val.1 hr
  split_ifs at h with h0
  · exact absurd h.1 (fun h1 => by rw [isInf_iff] at h1; rw [isZero_iff] at hr; have := F.infEnc_pos; omega)
  · obtain ⟨h1, h2, -, h4⟩ := h
    constructor
    · obtain ⟨c, hc, hcv⟩ := exists_val (F := F) (n := 1) (k := 1 - (F.bias : ℤ) - F.sb) (by
        rw [abs_one]; exact_mod_cast Nat.one_le_two_pow) le_rfl (by
        rw [Int.cast_one, abs_one, one_mul]
        apply zpow_lt_zpow_right₀ (by norm_num)
        have := F.hsb
        omega)
      have := h2 c hc
      change |r.val - q| ≤ |c.val - q| at this
      rw [hrv, hcv, zero_sub, abs_neg, abs_of_pos hq, Int.cast_one, one_mul] at this
      have e : (2 : ℝ) ^ (1 - (F.bias : ℤ) - F.sb) = 2 * 2 ^ (-(F.bias : ℤ) - F.sb) := by
        rw [← zpow_one_add₀ (by norm_num)]; congr 1; ring
      rw [e] at this
      have hp := zp (-(F.bias : ℤ) - F.sb)
      generalize (2 : ℝ) ^ (-(F.bias : ℤ) - F.sb) = T at *
      rcases abs_cases (2 * T - q) with ⟨h5, _⟩ | ⟨h5, _⟩ <;> rw [h5] at this <;> linarith
    · rw [eq_zero hr]
      congr 1
      have := h4 hq.ne'
      rw [← Bool.not_eq_true, this]; linarith

theorem thr64 : 2 ^ (1024 : ℤ) * (1 - 1 / 2 ^ 54) = ((overflowThreshold f64 : ℚ) : ℝ) := by
  unfold overflowThreshold
  rw [f64_bias, f64_sb]
  push_cast
  rw [show (1024 : ℤ) = 1023 + 1 by norm_num, zpow_add₀ (by norm_num)]
  norm_num
  ring_nf

theorem thr32 : 2 ^ (128 : ℤ) * (1 - 1 / 2 ^ 25) = ((overflowThreshold f32 : ℚ) : ℝ) := by
  unfold overflowThreshold
  rw [f32_bias, f32_sb]
  push_cast
  rw [show (128 : ℤ) = 127 + 1 by norm_num, zpow_add₀ (by norm_num)]
  norm_num

theorem scalbn_total (hF : IsLibFmt F) (x : Flt F) (n : Int) (h1 : -2 ^ 31 ≤ n) (h2 : n < 2 ^ 31) :
    ∃ r, scalbn x n = some r := by
  by_cases hx : x.isFinite
  · obtain ⟨r, h, _⟩ := scalbn_finite hF x hx n h1 h2; exact ⟨r, h⟩
  · by_cases hi : x.isInf
    · exact ⟨x, (scalbn_special hF x n h1 h2).1 (Or.inr hi)⟩
    · obtain ⟨r, h, _⟩ := (scalbn_special hF x n h1 h2).2 (by
        rw [isFinite_iff] at hx; rw [isInf_iff] at hi; rw [isNaN_iff]; omega)
      exact ⟨r, h⟩

end Flt

namespace Num
open Real
/-- logarithm of an overflow threshold -/
theorem exp_lt_thr {t : ℝ} {n : ℤ} {k : ℕ} (hk : 1 ≤ k) (h : t < n * log 2 - 1 / 2 ^ (k - 1)) :
    Real.exp t < 2 ^ n * (1 - 1 / 2 ^ k) := by
  have h1 : Real.exp (t + 1 / 2 ^ (k - 1)) < 2 ^ n := exp_lt_two_zpow (by linarith)
  rw [Real.exp_add] at h1
  have h2 : (1 : ℝ) / 2 ^ (k - 1) + 1 ≤ Real.exp (1 / 2 ^ (k - 1)) := add_one_le_exp _
  obtain ⟨j, rfl⟩ : ∃ j, k = j + 1 := ⟨k - 1, by omega⟩
  simp only [Nat.add_sub_cancel] at *
  have hj : (1 : ℝ) ≤ 2 ^ j := one_le_pow₀ (by norm_num)
  rw [pow_succ]
  have hu : (0 : ℝ) < 1 / 2 ^ j := by positivity
  have hu1 : (1 : ℝ) / 2 ^ j ≤ 1 := by rw [div_le_one (by positivity)]; exact hj
  have e : (1 : ℝ) / (2 ^ j * 2) = 1 / 2 ^ j / 2 := by field_simp
  rw [e]
  set u : ℝ := 1 / 2 ^ j
  have ht := Real.exp_pos t
  have h3 : Real.exp t * (1 + u) < 2 ^ n := lt_of_le_of_lt (mul_le_mul_of_nonneg_left (by linarith) ht.le) h1
  have h4 : 1 ≤ (1 + u) * (1 - u / 2) := by nlinarith
  calc Real.exp t ≤ Real.exp t * ((1 + u) * (1 - u / 2)) := le_mul_of_one_le_right ht.le h4
    _ = Real.exp t * (1 + u) * (1 - u / 2) := by ring
    _ < _ := mul_lt_mul_of_pos_right h3 (by linarith)
end Num

/-! ## exp, expf -/

namespace Flt
variable {F : Fmt}
theorem rne_overflow {q : ℝ} {r : Flt F} (h : IsRNE q r) (hq : 2 ^ ((F.bias : ℤ) + 1) ≤ q) : r = inf F false := by
  have h0 : 0 < q := (zp _).trans_le hq
  have ht : ((overflowThreshold F : ℚ) : ℝ) ≤ q := by
    refine le_trans ?_ hq
    unfold overflowThreshold
    push_cast
    rw [zpow_add₀ (by norm_num), zpow_one]
    have := zp (F.bias : ℤ)
    apply mul_le_mul_of_nonneg_left _ this.le
    have := zp (-((F.sb : ℤ) + 1))
    linarith
  unfold IsRNE at h
  rw [if_pos (by rw [abs_of_pos h0]; exact ht)] at h
  rw [eq_inf h.1]
  congr 1
  rw [← Bool.not_eq_true, h.2]; linarith

theorem eq_of_not_finite {x : Flt F} (h : ¬ x.isFinite) (hn : ¬ x.isNaN) : x = inf F x.sign :=
  eq_inf (by rw [isFinite_iff] at h; rw [isNaN_iff] at hn; rw [isInf_iff]; omega)

/-- monotonicity of encodings for nonnegative data -/
theorem val_le_of_mb {x c : Flt F} (h : x.mb ≤ c.mb) (hc : c.sign = false) : x.val ≤ c.val := by
  have := val_mono h
  rw [abs_of_nonneg (val_nonneg hc)] at this
  exact (le_abs_self _).trans this
theorem val_ge_of_mb' {x c : Flt F} (h : x.mb ≤ c.mb) (hc : c.sign = true) : c.val ≤ x.val := by
  have := val_mono h
  have h1 : 0 ≤ (-c).val := val_nonneg (by rw [sign_neg, hc]; rfl)
  rw [val_neg] at h1
  rw [abs_of_nonpos (a := c.val) (by linarith)] at this
  have := neg_abs_le x.val
  linarith
end Flt

namespace Exp
theorem v_max : ((709.782712893383973096 : Flt f64)).val = (6243314768165359 : ℝ) * 2 ^ (-43 : ℤ) := by
  rw [val_const64 (6243314768165359) 1031 (-43) (by decide +kernel) (by norm_num)]; norm_num
theorem v_min : ((-745.13321910194110842 : Flt f64)).val = (-6554261109157969 : ℝ) * 2 ^ (-43 : ℤ) := by
  rw [val_const64 (-6554261109157969) 1031 (-43) (by decide +kernel) (by norm_num)]; norm_num
theorem v_sub : ((-708.39641853226410622 : Flt f64)).val = (-3115560397004393 : ℝ) * 2 ^ (-42 : ℤ) := by
  rw [val_const64 (-3115560397004393) 1032 (-42) (by decide +kernel) (by norm_num)]; norm_num
theorem v_big : ((bits64 0x7fe0000000000000 : Flt f64)).val = (1 : ℝ) * 2 ^ (1023 : ℤ) := by
  rw [val_const64 (1) 2097 (1023) (by decide +kernel) (by norm_num)]; norm_num

theorem kernel_total (x hi lo : Flt f64) (k : Int) (h1 : -2 ^ 31 ≤ k) (h2 : k < 2 ^ 31) : ∃ r, kernel x hi lo k = some r := by
  unfold kernel
  dsimp only
  split
  · exact ⟨_, rfl⟩
  · exact scalbn_total (Or.inr (Or.inr (Or.inl rfl))) _ _ h1 h2

theorem reduce_total (x : Flt f64) (hx : BitVec 32) (s : Int) (hs : s = 0 ∨ s = 1) : ∃ r, reduce x hx s = some r := by
  unfold reduce
  split
  · obtain ⟨k, hk, h1, h2⟩ : ∃ k, redK x hx s = some k ∧ -2 ^ 31 ≤ k ∧ k < 2 ^ 31 := by
      unfold redK
      split
      · rcases hs with rfl | rfl
        · exact ⟨_, rfl, toSInt_ge 32 _, toSInt_lt 32 _⟩
        · exact ⟨_, rfl, toSInt_ge 32 _, toSInt_lt 32 _⟩
      · refine ⟨_, rfl, ?_, ?_⟩ <;> omega
    rw [hk]
    exact kernel_total _ _ _ _ h1 h2
  · split
    · exact kernel_total _ _ _ _ (by norm_num) (by norm_num)
    · exact ⟨_, rfl⟩

theorem eq (x : Flt f64) : exp x =
    if 0x4086232b ≤ x.mb / 2 ^ 32 ∧ x.isNaN then some x
    else if 0x4086232b ≤ x.mb / 2 ^ 32 ∧ (709.782712893383973096 <ᶠ x) = true then some (x * bits64 0x7fe0000000000000)
    else if 0x4086232b ≤ x.mb / 2 ^ 32 ∧ (x <ᶠ -708.39641853226410622) = true ∧ (x <ᶠ -745.13321910194110842) = true then
      some 0.0
    else reduce x (getHighWord x &&& 0x7fffffff) (if x.sign then 1 else 0) := by
  have hs : (((getHighWord x >>> 31).toNat : ℕ) : ℤ) = if x.sign then 1 else 0 := by rw [hi_sign]; split <;> rfl
  unfold exp
  simp only [ge_iff_le, BitVec.le_def, hi_abs', hs]
  rfl

theorem big_mb {x : Flt f64} {c : Flt f64} (h : |c.val| < |x.val|) : c.mb < x.mb := by
  by_contra h1
  exact absurd (val_mono (not_lt.1 h1)) (not_le.2 h)
end Exp

theorem exp_special : IsExpFn exp Real.exp where
  total x := by
    rw [Exp.eq]
    split_ifs
    all_goals first | exact ⟨_, rfl⟩ | exact Exp.reduce_total _ _ _ (Or.inl rfl) | exact Exp.reduce_total _ _ _ (Or.inr rfl)
  nan x hx := by
    rw [Exp.eq, if_pos]
    · exact ⟨x, rfl, hx⟩
    · refine ⟨?_, hx⟩
      rw [isNaN64] at hx; omega
  pinf := by decide +kernel
  ninf := by decide +kernel
  zero x hx := by
    rw [eq_zero hx]
    cases x.sign <;> decide +kernel
  saturate x r hx hr h := by
    have hn := not_nan_of_finite hx
    have p := Real.exp_pos x.val
    have l1 := Num.log2_gt
    have l2 := Num.log2_lt
    rcases h with h | h
    · obtain ⟨h1, rfl⟩ := rne_inf hr h p.le
      rw [← thr64] at h1
      have hv : (709.782712893383973096 : Flt f64).val < x.val := by
        by_contra hc
        push Not at hc
        have := Num.exp_lt_thr (n := 1024) (k := 54) (t := (709.782712893383973096 : Flt f64).val) (by norm_num) (by
          rw [Exp.v_max]; norm_num; linarith)
        have := (Real.exp_le_exp.2 hc).trans_lt this
        exact absurd h1 (not_le.2 this)
      have hm : (709.782712893383973096 : Flt f64).mb < x.mb := by
        apply Exp.big_mb
        rw [abs_of_nonneg (val_nonneg (by decide +kernel))]
        exact hv.trans_le (le_abs_self _)
      rw [show (709.782712893383973096 : Flt f64).mb = 0x40862e42fefa39ef by decide +kernel] at hm
      rw [Exp.eq, if_neg (fun h => hn h.2), if_pos ⟨by omega, lt_iff.2 ⟨by decide +kernel, hn, val_lt_iff.1 hv⟩⟩]
      congr 1
      apply rne_overflow (mul_rne hx (by decide +kernel))
      rw [Exp.v_big, f64_bias]
      rw [Exp.v_max] at hv
      norm_num at hv
      have e : ((2 : ℝ) ^ (((1023 : ℕ) : ℤ) + 1)) = 2 * 2 ^ (1023 : ℤ) := by rw [zpow_add₀ (by norm_num), mul_comm]; norm_num
      rw [e]
      have := zp 1023
      generalize (2 : ℝ) ^ (1023 : ℤ) = T at *
      nlinarith
    · obtain ⟨h1, rfl⟩ := rne_zero hr h p
      rw [f64_bias, f64_sb] at h1
      have hv : x.val < (-745.13321910194110842 : Flt f64).val := by
        by_contra hc
        push Not at hc
        have := Num.two_zpow_lt_exp (n := -1075) (t := (-745.13321910194110842 : Flt f64).val) (by
          rw [Exp.v_min]; norm_num; linarith)
        have := this.trans_le (Real.exp_le_exp.2 hc)
        exact absurd h1 (not_le.2 this)
      have hm : (745.13321910194110842 : Flt f64).mb < x.mb := by
        apply Exp.big_mb
        have e : (-745.13321910194110842 : Flt f64).val = - (745.13321910194110842 : Flt f64).val := val_neg _
        rw [abs_of_nonneg (val_nonneg (by decide +kernel))]
        rw [e] at hv
        have := neg_abs_le x.val
        linarith
      rw [show (745.13321910194110842 : Flt f64).mb = 0x40874910d52d3051 by decide +kernel] at hm
      have hlt := val_lt_iff.1 hv
      have hlt2 : (-745.13321910194110842 : Flt f64).sval < (-708.39641853226410622 : Flt f64).sval := by decide +kernel
      have hpos : (-745.13321910194110842 : Flt f64).sval < (709.782712893383973096 : Flt f64).sval := by decide +kernel
      rw [Exp.eq, if_neg (fun h => hn h.2), if_neg, if_pos ⟨by omega, lt_iff.2 ⟨hn, by decide +kernel, hlt.trans hlt2⟩,
        lt_iff.2 ⟨hn, by decide +kernel, hlt⟩⟩]
      · decide +kernel
      · rintro ⟨_, h3⟩
        exact absurd ((lt_iff.1 h3).2.2) (not_lt.2 (hlt.trans hpos).le)

namespace Expf
theorem v_max : ((bits32 0x42b17217 : Flt f32)).val = (11629079 : ℝ) * 2 ^ (-17 : ℤ) := by
  rw [val_const32 (11629079) 132 (-17) (by decide +kernel) (by norm_num)]; norm_num
theorem v_min : ((bits32 0xc2cff1b4 : Flt f32)).val = (-3406957 : ℝ) * 2 ^ (-15 : ℤ) := by
  rw [val_const32 (-3406957) 134 (-15) (by decide +kernel) (by norm_num)]; norm_num
theorem v_big : ((bits32 0x7f000000 : Flt f32)).val = (1 : ℝ) * 2 ^ (127 : ℤ) := by
  rw [val_const32 (1) 276 (127) (by decide +kernel) (by norm_num)]; norm_num

theorem kernel_total (x hi lo : Flt f32) (k : Int) (h1 : -2 ^ 31 ≤ k) (h2 : k < 2 ^ 31) : ∃ r, kernel x hi lo k = some r := by
  unfold kernel
  dsimp only
  split
  · exact ⟨_, rfl⟩
  · exact scalbn_total (Or.inr (Or.inl rfl)) _ _ h1 h2

theorem reduce_total (x : Flt f32) (hx : BitVec 32) (s : Int) (hs : s = 0 ∨ s = 1) : ∃ r, reduce x hx s = some r := by
  unfold reduce
  split
  · obtain ⟨k, hk, h1, h2⟩ : ∃ k, redK x hx s = some k ∧ -2 ^ 31 ≤ k ∧ k < 2 ^ 31 := by
      unfold redK
      split
      · rcases hs with rfl | rfl
        · exact ⟨_, rfl, toSInt_ge 32 _, toSInt_lt 32 _⟩
        · exact ⟨_, rfl, toSInt_ge 32 _, toSInt_lt 32 _⟩
      · refine ⟨_, rfl, ?_, ?_⟩ <;> omega
    rw [hk]
    exact kernel_total _ _ _ _ h1 h2
  · split
    · exact kernel_total _ _ _ _ (by norm_num) (by norm_num)
    · exact ⟨_, rfl⟩

theorem eq (x : Flt f32) : expf x =
    if 0x42aeac50 ≤ x.mb ∧ 0x7f800000 < x.mb then some x
    else if 0x42aeac50 ≤ x.mb ∧ 0x42b17218 ≤ x.mb ∧ x.sign = false then some (x * bits32 0x7f000000)
    else if 0x42aeac50 ≤ x.mb ∧ x.sign = true ∧ 0x42cff1b5 ≤ x.mb then some 0.0
    else reduce x (x.u32 &&& 0x7fffffff) (if x.sign then 1 else 0) := by
  have hs : (((x.u32 >>> 31).toNat : ℕ) : ℤ) = if x.sign then 1 else 0 := by rw [u32_sign]; split <;> rfl
  have hs' : decide ((if x.sign = true then (1 : ℤ) else 0) ≠ 0) = x.sign := by cases x.sign <;> rfl
  unfold expf
  simp only [ge_iff_le, gt_iff_lt, BitVec.le_def, BitVec.lt_def, u32_abs', hs, hs']
  rfl
end Expf

theorem expf_special : IsExpFn expf Real.exp where
  total x := by
    rw [Expf.eq]
    split_ifs
    all_goals first | exact ⟨_, rfl⟩ | exact Expf.reduce_total _ _ _ (Or.inl rfl) | exact Expf.reduce_total _ _ _ (Or.inr rfl)
  nan x hx := by
    rw [Expf.eq, if_pos]
    · exact ⟨x, rfl, hx⟩
    · rw [isNaN32] at hx; omega
  pinf := by decide +kernel
  ninf := by decide +kernel
  zero x hx := by
    rw [eq_zero hx]
    cases x.sign <;> decide +kernel
  saturate x r hx hr h := by
    have hn := (isNaN32 x).not.1 (not_nan_of_finite hx)
    have p := Real.exp_pos x.val
    have l1 := Num.log2_gt
    have l2 := Num.log2_lt
    rcases h with h | h
    · obtain ⟨h1, rfl⟩ := rne_inf hr h p.le
      rw [← thr32] at h1
      have hv : (bits32 0x42b17217).val < x.val := by
        by_contra hc
        push Not at hc
        have := Num.exp_lt_thr (n := 128) (k := 25) (t := (bits32 0x42b17217).val) (by norm_num) (by
          rw [Expf.v_max]; norm_num; linarith)
        have := (Real.exp_le_exp.2 hc).trans_lt this
        exact absurd h1 (not_le.2 this)
      have hm : 0x42b17217 < x.mb := by
        by_contra hc
        exact absurd (val_le_of_mb (c := bits32 0x42b17217) (not_lt.1 hc) (by decide +kernel)) (not_le.2 hv)
      have hs : x.sign = false := by
        by_contra hc
        have : 0 ≤ (-x).val := val_nonneg (by rw [sign_neg]; simp at hc; rw [hc]; rfl)
        rw [val_neg] at this
        rw [Expf.v_max] at hv; norm_num at hv; linarith
      rw [Expf.eq, if_neg (fun h => hn h.2), if_pos ⟨by omega, by omega, hs⟩]
      congr 1
      apply rne_overflow (mul_rne hx (by decide +kernel))
      rw [Expf.v_big, f32_bias]
      rw [Expf.v_max] at hv
      norm_num at hv ⊢
      nlinarith
    · obtain ⟨h1, rfl⟩ := rne_zero hr h p
      rw [f32_bias, f32_sb] at h1
      have hv : x.val < (bits32 0xc2cff1b4).val := by
        by_contra hc
        push Not at hc
        have := Num.two_zpow_lt_exp (n := -150) (t := (bits32 0xc2cff1b4).val) (by
          rw [Expf.v_min]; norm_num; linarith)
        have := this.trans_le (Real.exp_le_exp.2 hc)
        exact absurd h1 (not_le.2 this)
      have hm : 0x42cff1b4 < x.mb := by
        by_contra hc
        exact absurd (val_ge_of_mb' (c := bits32 0xc2cff1b4) (not_lt.1 hc) (by decide +kernel)) (not_le.2 hv)
      have hs : x.sign = true := by
        by_contra hc
        have : 0 ≤ x.val := val_nonneg (by simpa using hc)
        rw [Expf.v_min] at hv; norm_num at hv; linarith
      rw [Expf.eq, if_neg (fun h => hn h.2), if_neg (by simp [hs]), if_pos ⟨by omega, hs, by omega⟩]
      decide +kernel

end Verif
