import Verif.Theory.Expm1End
import Verif.Props.ExpfAcc
import Verif.Props.ExpAcc

/-!
# C66: accuracy of `expm1`, `expm1f`

Specification: `WithinUlp` (Spec/Float.lean), `AccurateBelow` (C58) and the real number `e^x - 1`.
-/

namespace Verif
open Flt

/-- within `c` units in the last place of `g`, for every finite argument up to `b` -/
def AccurateUpTo {F : Fmt} (c b : ℝ) (f : Flt F → Option (Flt F)) (g : ℝ → ℝ) : Prop :=
  ∀ x : Flt F, x.isFinite → (x.toRat : ℝ) ≤ b → ∃ r, f x = some r ∧ WithinUlp c r (g (x.toRat : ℝ))

namespace Expm1
theorem t_c1 : (bits64 0x3fd62e4300000000 : Flt f64).val = (1453635 : ℝ) * 2 ^ (-22 : ℤ) := by
  rw [val_const64 (x := bits64 0x3fd62e4300000000) 1453635 1052 (-22) (by decide +kernel) (by norm_num)]; norm_num
theorem t_c2 : (bits64 0x3ff0a2b200000000 : Flt f64).val = (545113 : ℝ) * 2 ^ (-19 : ℤ) := by
  rw [val_const64 (x := bits64 0x3ff0a2b200000000) 545113 1055 (-19) (by decide +kernel) (by norm_num)]; norm_num
theorem t_c3 : (bits64 0x3c90000000000000 : Flt f64).val = (1 : ℝ) * 2 ^ (-54 : ℤ) := by
  rw [val_const64 (x := bits64 0x3c90000000000000) 1 1020 (-54) (by decide +kernel) (by norm_num)]; norm_num
theorem t_c4 : (bits64 0x4043687a00000000 : Flt f64).val = (635965 : ℝ) * 2 ^ (-14 : ℤ) := by
  rw [val_const64 (x := bits64 0x4043687a00000000) 635965 1060 (-14) (by decide +kernel) (by norm_num)]; norm_num

/-- the exponent of the reduction -/
noncomputable def kk (x : Flt f64) : ℤ :=
  if x.mb / 2 ^ 32 < 0x3ff0a2b2 then (if x.sign then -1 else 1) else (invln2 * x + (if x.sign then -0.5 else 0.5)).toSInt 32

noncomputable def hi (x : Flt f64) (k : ℤ) : Flt f64 := x - ofInt f64 k * ln2hi
noncomputable def lo (k : ℤ) : Flt f64 := ofInt f64 k * ln2lo
noncomputable def arg (x : Flt f64) (k : ℤ) : Flt f64 := hi x k - lo k
noncomputable def cor (x : Flt f64) (k : ℤ) : Flt f64 := hi x k - arg x k - lo k

theorem eq' (x : Flt f64) : expm1 x =
    if 0x4043687a ≤ x.mb / 2 ^ 32 ∧ x.isNaN then some x
    else if 0x4043687a ≤ x.mb / 2 ^ 32 ∧ x.sign = true then some (-1.0)
    else if 0x4043687a ≤ x.mb / 2 ^ 32 ∧ (oThreshold <ᶠ x) = true then some (x * bits64 0x7fe0000000000000)
    else if 0x3fd62e42 < x.mb / 2 ^ 32 then kernel (arg x (kk x)) (cor x (kk x)) (kk x)
    else if x.mb / 2 ^ 32 < 0x3c900000 then some x
    else kernel x 0.0 0 := by
  have hm := mb64_lt x
  have h1 : (((x.u64 >>> 32) &&& 0x7fffffff).setWidth 32).toNat = x.mb / 2 ^ 32 := by
    rw [BitVec.toNat_setWidth, BitVec.toNat_and, BitVec.toNat_ushiftRight, u64_toNat, Nat.shiftRight_eq_div_pow]
    have e : (0x7fffffff : BitVec 64).toNat = 2 ^ 31 - 1 := rfl
    rw [e, Nat.and_two_pow_sub_one_eq_mod]
    split <;> omega
  have h2 : (((x.u64 >>> 63).toNat : ℕ) : ℤ) ≠ 0 ↔ x.sign = true := by
    rw [u64_sign]
    cases x.sign <;> simp
  have h4 : (((x.u64 >>> 63).toNat : ℕ) : ℤ) = 0 ↔ x.sign = false := by
    rw [u64_sign]
    cases x.sign <;> simp
  have hr : reduce x (((x.u64 >>> 32) &&& 0x7fffffff).setWidth 32) ((x.u64 >>> 63).toNat) =
      if 0x3fd62e42 < x.mb / 2 ^ 32 then kernel (arg x (kk x)) (cor x (kk x)) (kk x)
      else if x.mb / 2 ^ 32 < 0x3c900000 then some x
      else kernel x 0.0 0 := by
    unfold reduce split
    simp only [gt_iff_lt, BitVec.lt_def, h1, h2, h4]
    by_cases a : 0x3fd62e42 < x.mb / 2 ^ 32
    · rw [if_pos a, if_pos (by exact a)]
      by_cases b : x.mb / 2 ^ 32 < 0x3ff0a2b2
      · rw [if_pos (by exact b)]
        cases hs : x.sign
        · have ek : kk x = 1 := by unfold kk; rw [if_pos b, hs]; rfl
          have e1 : ofInt f64 1 * ln2hi = ln2hi := by decide +kernel
          have e2 : ofInt f64 1 * ln2lo = ln2lo := by decide +kernel
          unfold cor arg hi lo
          rw [ek, e1, e2]
          rfl
        · have ek : kk x = -1 := by unfold kk; rw [if_pos b, hs]; rfl
          have e1 : -(ofInt f64 (-1) * ln2hi) = ln2hi := by decide +kernel
          have e2 : ofInt f64 (-1) * ln2lo = -ln2lo := by decide +kernel
          unfold cor arg hi lo
          have e0 : x - ofInt f64 (-1) * ln2hi = x + ln2hi := by rw [sub_eq_add_neg', e1]
          rw [ek, e0, e2]
          rfl
      · rw [if_neg (by exact b)]
        have ek : kk x = (invln2 * x + (if x.sign then -0.5 else 0.5)).toSInt 32 := by unfold kk; rw [if_neg b]
        unfold cor arg hi lo
        rw [ek]
    · rw [if_neg a, if_neg (by exact a)]
      rfl
  unfold expm1
  simp only [ge_iff_le, BitVec.le_def, h1, h2, hr]
  rfl

/-- the exponent is the right one -/
theorem kk_spec {x : Flt f64} (xf : x.isFinite) (h0 : 0x3fd62e42 < x.mb / 2 ^ 32) (hmag : |x.val| ≤ 710) : kk x ≠ 0 ∧ |kk x| ≤ 1100 ∧ |x.val - kk x * Real.log 2| ≤ 0.34659 ∧
    |kk x * ln2hi.val| ≤ 2 * |x.val| := by
  have l1 := Num.log2_gt
  have l2 := Num.log2_lt
  have hh := ln2hi_val
  norm_num at l1 l2 hh
  have hlo : |(bits64 0x3fd62e4300000000).val| ≤ |x.val| := val_mono (by
    rw [show (bits64 0x3fd62e4300000000).mb = 0x3fd62e4300000000 by decide +kernel]
    omega)
  rw [t_c1, abs_of_pos (by positivity)] at hlo
  norm_num at hlo
  unfold kk
  by_cases c : x.mb / 2 ^ 32 < 0x3ff0a2b2
  · rw [if_pos c]
    have h3 : |x.val| ≤ |(bits64 0x3ff0a2b200000000).val| := val_mono (by
      rw [show (bits64 0x3ff0a2b200000000).mb = 0x3ff0a2b200000000 by decide +kernel]
      omega)
    rw [t_c2, abs_of_pos (a := (_ * _ : ℝ)) (by positivity)] at h3
    norm_num at h3
    cases hs : x.sign
    · have xp := val_nonneg hs
      rw [abs_of_nonneg xp] at h3 hlo ⊢
      norm_num
      rw [abs_le, abs_of_pos (by rw [hh]; norm_num), hh]
      refine ⟨⟨?_, ?_⟩, ?_⟩ <;> linarith
    · have xp := val_nonpos hs
      rw [abs_of_nonpos xp] at h3 hlo ⊢
      norm_num
      rw [abs_le, abs_of_pos (by rw [hh]; norm_num), hh]
      refine ⟨⟨?_, ?_⟩, ?_⟩ <;> linarith
  · rw [if_neg c]
    have h3 : |(bits64 0x3ff0a2b200000000).val| ≤ |x.val| := val_mono (by
      rw [show (bits64 0x3ff0a2b200000000).mb = 0x3ff0a2b200000000 by decide +kernel]
      omega)
    rw [t_c2, abs_of_pos (by positivity)] at h3
    norm_num at h3
    obtain ⟨k, hk, k1, k2, k3, k4⟩ := Exp.redK_big xf (by norm_num; linarith) (hmag.trans (by norm_num))
    have e1 : invln2 = Exp.invln2 := by decide +kernel
    rw [e1, hk]
    have e2 : ln2hi = Exp.ln2hi := by decide +kernel
    rw [e2]
    exact ⟨k1, k2, k3, k4⟩

/-- the reduction -/
theorem red {x : Flt f64} {k : ℤ} (xf : x.isFinite) (hk : |k| ≤ 1100) (h1 : k ≠ 0) (hr : |x.val - k * Real.log 2| ≤ 0.34659)
    (hx : |k * ln2hi.val| ≤ 2 * |x.val|) : Red (arg x k) (cor x k) (x.val - k * Real.log 2) := by
  have e2 : ln2hi = Exp.ln2hi := by decide +kernel
  have e3 : ln2lo = Exp.ln2lo := by decide +kernel
  rw [e2] at hx
  obtain ⟨r1, r2, r3, r4, r5, r6, r7, r8⟩ := Exp.reduce_err xf hk h1 hr hx
  rw [← e2, ← e3] at r1 r4 r5 r8
  rw [← e2] at r2 r6
  rw [← e3] at r3 r7
  change (hi x k).isFinite at r2
  change (lo k).isFinite at r3
  change (arg x k).isFinite at r1
  change |(arg x k).val| ≤ _ at r4
  change |(arg x k).val - ((hi x k).val - (lo k).val)| ≤ _ at r5
  change |(lo k).val| ≤ _ at r7
  change |(hi x k).val - (lo k).val - _| ≤ _ at r8
  have a5 := abs_le.1 r5
  have a7 := abs_le.1 r7
  norm_num at a5 a7
  have d1 := sub_rne r2 r1
  obtain ⟨df, de⟩ := d1.err64 (-21) (by rw [abs_le]; norm_num; constructor <;> linarith [a5.1, a5.2, a7.1, a7.2]) (by norm_num) (by norm_num)
  have b := abs_le.1 de
  norm_num at b
  have d2 := sub_rne df r3
  obtain ⟨cf, ce⟩ := d2.err64 (-53) (by rw [abs_le]; norm_num; constructor <;> linarith [a5.1, a5.2, b.1, b.2]) (by norm_num) (by norm_num)
  change (cor x k).isFinite at cf
  change |(cor x k).val - _| ≤ _ at ce
  have c := abs_le.1 ce
  have a8 := abs_le.1 r8
  norm_num at c a8
  refine ⟨r1, r4.trans (by norm_num), cf, ?_, ?_, hr.trans (by norm_num)⟩
  · rw [abs_le]; norm_num; constructor <;> linarith [a5.1, a5.2, b.1, b.2, c.1, c.2]
  · rw [abs_le]; norm_num; constructor <;> linarith [a5.1, a5.2, b.1, b.2, c.1, c.2, a8.1, a8.2]

/-- everything up to the overflow threshold -/
theorem acc {x : Flt f64} (xf : x.isFinite) (hx : x.val ≤ oThreshold.val) : ∃ r, expm1 x = some r ∧ WithinUlp 1.45 r (Real.exp x.val - 1) := by
  have l1 := Num.log2_gt
  have l2 := Num.log2_lt
  norm_num at l1 l2
  rw [v_max] at hx
  norm_num at hx
  have hmb := (isFinite64 x).1 xf
  rw [eq', if_neg (by rintro ⟨-, h⟩; exact not_nan_of_finite xf h)]
  by_cases hA : 0x4043687a ≤ x.mb / 2 ^ 32 ∧ x.sign = true
  · rw [if_pos hA]
    refine ⟨_, rfl, ?_⟩
    have h1 : |(bits64 0x4043687a00000000).val| ≤ |x.val| := val_mono (by
      rw [show (bits64 0x4043687a00000000).mb = 0x4043687a00000000 by decide +kernel]
      omega)
    rw [t_c4, abs_of_pos (a := (_ * _ : ℝ)) (by positivity), abs_of_nonpos (val_nonpos hA.2)] at h1
    norm_num at h1
    have h2 := Num.exp_lt_two_zpow (n := -55) (t := x.val) (by push_cast; norm_num; linarith)
    have h3 := Real.exp_pos x.val
    norm_num at h2
    have ov : (-1.0 : Flt f64).val = -1 := by rw [show (-1.0 : Flt f64) = -(1.0 : Flt f64) from rfl, val_neg, one_val]
    refine WithinUlp.of_abs (-1) (by decide +kernel) ?_ (a := 1 / 2 ^ 55) ?_ (by rw [f64_sb]; norm_num) (by norm_num)
    · refine le_trans ?_ (neg_le_abs _)
      norm_num; linarith
    · rw [ov, abs_le]; norm_num; constructor <;> linarith
  rw [if_neg hA, if_neg (by
    rintro ⟨-, h⟩
    have := val_lt_iff.2 (lt_iff.1 h).2.2
    rw [v_max] at this; norm_num at this; linarith)]
  by_cases h0 : 0x3fd62e42 < x.mb / 2 ^ 32
  · rw [if_pos h0]
    have hlo : -39 ≤ x.val := by
      cases hs : x.sign
      · have := val_nonneg hs; linarith
      · have h1 : |x.val| ≤ |(bits64 0x4043687a00000000).val| := val_mono (by
          rw [show (bits64 0x4043687a00000000).mb = 0x4043687a00000000 by decide +kernel]
          by_contra hc
          exact hA ⟨by omega, hs⟩)
        rw [t_c4, abs_of_pos (a := (_ * _ : ℝ)) (by positivity)] at h1
        norm_num at h1
        have := neg_abs_le x.val
        linarith
    obtain ⟨k1, k2, k3, k4⟩ := kk_spec xf h0 (by rw [abs_le]; constructor <;> linarith)
    have R := red xf k2 k1 k3 k4
    generalize kk x = k at *
    have k5 := abs_le.1 k3
    norm_num at k5
    have hlk : (-60 : ℝ) < k := by
      by_contra hc
      rw [not_lt] at hc
      have : (k : ℝ) * Real.log 2 ≤ -60 * Real.log 2 := mul_le_mul_of_nonneg_right hc (by linarith)
      linarith [k5.2]
    have huk : (k : ℝ) < 1025 := by
      by_contra hc
      rw [not_lt] at hc
      have : 1025 * Real.log 2 ≤ (k : ℝ) * Real.log 2 := mul_le_mul_of_nonneg_right hc (by linarith)
      linarith [k5.1]
    have hlk' : (-60 : ℤ) < k := by exact_mod_cast hlk
    have huk' : k < 1025 := by exact_mod_cast huk
    have e : Real.exp (x.val - k * Real.log 2) * 2 ^ k = Real.exp x.val := by
      have : (2 : ℝ) ^ k = Real.exp (k * Real.log 2) := by
        rw [← Real.log_zpow, Real.exp_log (zp k)]
      rw [this, ← Real.exp_add]; congr 1; ring
    rw [← e]
    refine R.kernel (by omega) (by omega) k1 ?_
    intro hk
    have hρ : x.val - k * Real.log 2 ≤ -(2.3 / 10 ^ 14) := by
      rw [hk]; norm_num; linarith
    generalize x.val - k * Real.log 2 = ρ at *
    have h3 := Real.add_one_le_exp (-ρ)
    have h5 : Real.exp ρ * Real.exp (-ρ) = 1 := by rw [← Real.exp_add]; simp
    have h6 : Real.exp ρ * (1 + 2.3 / 10 ^ 14) ≤ 1 := by
      rw [← h5]; exact mul_le_mul_of_nonneg_left (by norm_num at hρ ⊢; linarith) (Real.exp_pos _).le
    norm_num at h6 ⊢; linarith
  rw [if_neg h0]
  by_cases h1 : x.mb / 2 ^ 32 < 0x3c900000
  · rw [if_pos h1]
    refine ⟨_, rfl, ?_⟩
    have h3 : |x.val| ≤ |(bits64 0x3c90000000000000).val| := val_mono (by
      rw [show (bits64 0x3c90000000000000).mb = 0x3c90000000000000 by decide +kernel]
      omega)
    rw [t_c3, abs_of_pos (a := (_ * _ : ℝ)) (by positivity)] at h3
    norm_num at h3
    have e1 := Real.abs_exp_sub_one_sub_id_le (x := x.val) (h3.trans (by norm_num))
    have e2 : x.val ^ 2 ≤ (1 / 2 ^ 54) * |x.val| := by
      rw [← sq_abs, pow_two]
      exact mul_le_mul_of_nonneg_right (h3.trans (by norm_num)) (abs_nonneg _)
    have e3 : |x.val| ≤ 1.001 * |Real.exp x.val - 1| := by
      have h4 := abs_sub_abs_le_abs_sub x.val (Real.exp x.val - 1)
      rw [abs_sub_comm x.val] at h4
      have h5 := abs_nonneg (Real.exp x.val - 1)
      norm_num at e2 ⊢; linarith
    refine WithinUlp.of_rel xf (ε := 1.001 / 2 ^ 54) ?_ (by norm_num) (by rw [f64_sb]; norm_num)
    rw [abs_sub_comm]
    refine (e1.trans e2).trans ?_
    norm_num at e3 ⊢; linarith
  · rw [if_neg h1]
    have h3 : |x.val| ≤ |(bits64 0x3fd62e4300000000).val| := val_mono (by
      rw [show (bits64 0x3fd62e4300000000).mb = 0x3fd62e4300000000 by decide +kernel]
      omega)
    have h4 : |(bits64 0x3c90000000000000).val| ≤ |x.val| := val_mono (by
      rw [show (bits64 0x3c90000000000000).mb = 0x3c90000000000000 by decide +kernel]
      omega)
    rw [t_c1, abs_of_pos (a := (_ * _ : ℝ)) (by positivity)] at h3
    rw [t_c3, abs_of_pos (a := (_ * _ : ℝ)) (by positivity)] at h4
    exact kernel_zero xf (h3.trans (by norm_num)) (le_trans (by
      refine (zpow_le_zpow_right₀ (a := (2 : ℝ)) (n := -54) (by norm_num) (by norm_num)).trans ?_
      norm_num) h4)
end Expm1

namespace Expm1f
theorem t_c1 : (bits32 0x3eb17219 : Flt f32).val = (11629081 : ℝ) * 2 ^ (-25 : ℤ) := by
  rw [val_const32 (x := bits32 0x3eb17219) 11629081 124 (-25) (by decide +kernel) (by norm_num)]; norm_num
theorem t_c2 : (bits32 0x3f851592 : Flt f32).val = (4360905 : ℝ) * 2 ^ (-22 : ℤ) := by
  rw [val_const32 (x := bits32 0x3f851592) 4360905 127 (-22) (by decide +kernel) (by norm_num)]; norm_num
theorem t_c3 : (bits32 0x33000000 : Flt f32).val = (1 : ℝ) * 2 ^ (-25 : ℤ) := by
  rw [val_const32 (x := bits32 0x33000000) 1 124 (-25) (by decide +kernel) (by norm_num)]; norm_num
theorem t_c4 : (bits32 0x4195b844 : Flt f32).val = (2453009 : ℝ) * 2 ^ (-17 : ℤ) := by
  rw [val_const32 (x := bits32 0x4195b844) 2453009 132 (-17) (by decide +kernel) (by norm_num)]; norm_num
theorem ln2_err (k : ℝ) (hk : |k| ≤ 151) : |k * (Real.log 2 - ln2hi.val - ln2lo.val)| ≤ 1.12 / 10 ^ 10 := by
  have l1 := Num.log2_gt
  have l2 := Num.log2_lt
  rw [abs_mul]
  have : |Real.log 2 - ln2hi.val - ln2lo.val| ≤ 7.4 / 10 ^ 13 := by
    rw [ln2hi_val, ln2lo_val, abs_le]
    norm_num at l1 l2 ⊢
    constructor <;> linarith
  refine (mul_le_mul hk this (abs_nonneg _) (by norm_num)).trans ?_
  norm_num

/-- expm1f.rs 66-86 -/
theorem reduce_err {x : Flt f32} {k : ℤ} (xf : x.isFinite) (hk : |k| ≤ 151) (h1 : k ≠ 0) (hr : |x.val - k * Real.log 2| ≤ 0.34661)
    (hx : |k * ln2hi.val| ≤ 2 * |x.val|) :
    let hi := x - ofInt f32 k * ln2hi
    let lo := ofInt f32 k * ln2lo
    (hi - lo).isFinite ∧ hi.isFinite ∧ lo.isFinite ∧ |(hi - lo).val| ≤ 712 / 2048 ∧ |(hi - lo).val - (hi.val - lo.val)| ≤ 1 / 2 ^ 26 ∧
      |hi.val| ≤ 0.348 ∧ |lo.val| ≤ 1.4 / 10 ^ 3 ∧ |hi.val - lo.val - (x.val - k * Real.log 2)| ≤ 1 / 2 ^ 32 := by
  intro hi lo
  have hkr : |(k : ℝ)| ≤ 151 := by exact_mod_cast hk
  have hk1 : (1 : ℝ) ≤ |(k : ℝ)| := by exact_mod_cast Int.one_le_abs h1
  obtain ⟨kf, kv⟩ := Powf.ofInt_val (n := k) (hk.trans (by norm_num))
  -- the product with the leading part of ln 2 is exact
  have hm := mul_rne kf (y := ln2hi) (by decide +kernel)
  obtain ⟨c, cf, cv⟩ := exists_val (F := f32) (n := k * 90851) (k := -17) (by
    rw [abs_mul, f32_sb]
    exact (mul_le_mul_of_nonneg_right hk (abs_nonneg _)).trans (by norm_num)) (by rw [f32_bias, f32_sb]; norm_num) (by
    rw [f32_bias]; push_cast; rw [abs_mul]
    refine (mul_le_mul_of_nonneg_right (mul_le_mul_of_nonneg_right hkr (abs_nonneg _)) (zp _).le).trans_lt ?_
    refine lt_of_lt_of_le ?_ (zpow_le_zpow_right₀ (a := (2 : ℝ)) (m := 20) (by norm_num) (by norm_num))
    norm_num)
  obtain ⟨mf, mv⟩ := hm.exact_real cf (by rw [cv, kv, ln2hi_val]; push_cast; ring)
  rw [kv] at mv
  have ehi := ln2hi_val
  have elo := ln2lo_val
  have l1 := Num.log2_gt
  have l2 := Num.log2_lt
  have hle : |k * (Real.log 2 - ln2hi.val - ln2lo.val)| ≤ 1.12 / 10 ^ 10 := ln2_err k hkr
  have hlo0 : |k * ln2lo.val| ≤ 1.37 / 10 ^ 3 := by
    rw [abs_mul, elo]
    refine (mul_le_mul_of_nonneg_right hkr (abs_nonneg _)).trans ?_
    rw [abs_of_pos (by norm_num)]; norm_num
  have e1 : x.val - k * ln2hi.val = (x.val - k * Real.log 2) + (k * (Real.log 2 - ln2hi.val - ln2lo.val) + k * ln2lo.val) := by ring
  have hb : |x.val - k * ln2hi.val| ≤ 0.348 := by
    rw [e1]
    have h3 := abs_add_le (x.val - k * Real.log 2) (k * (Real.log 2 - ln2hi.val - ln2lo.val) + k * ln2lo.val)
    have h4 := abs_add_le (k * (Real.log 2 - ln2hi.val - ln2lo.val)) (k * ln2lo.val)
    norm_num [-abs_mul] at hr hle hlo0 ⊢
    linarith
  have hy : 0.693 ≤ |k * ln2hi.val| := by
    rw [abs_mul]
    have : (0.693 : ℝ) ≤ |ln2hi.val| := by rw [ehi, abs_of_pos (by norm_num)]; norm_num
    refine this.trans (le_mul_of_one_le_left (abs_nonneg _) hk1)
  -- so is the difference
  have hst : hi.isFinite ∧ hi.val = x.val - k * ln2hi.val := by
    have := sterbenz_val xf mf (by
        rw [mv]
        exact Exp.sterb_side (hb.trans_lt (lt_of_lt_of_le (by norm_num) hy)) hx) (by
        rw [mv]; exact hb.trans (le_trans (by norm_num) hy)) (by
        rw [f32_bias]
        refine (zpow_le_zpow_right₀ (a := (2 : ℝ)) (n := -2) (by norm_num) (by norm_num)).trans ?_
        norm_num [-abs_mul] at hy ⊢; linarith) (by
        rw [f32_bias, mv]
        refine (zpow_le_zpow_right₀ (a := (2 : ℝ)) (n := -2) (by norm_num) (by norm_num)).trans ?_
        norm_num [-abs_mul] at hy ⊢; linarith)
    rw [mv] at this
    exact this
  obtain ⟨hf, hv⟩ := hst
  have lr := mul_rne kf (y := ln2lo) (by decide +kernel)
  rw [kv] at lr
  obtain ⟨lf, le⟩ := lr.err (-9) (hlo0.trans (by norm_num)) (by rw [f32_bias]; norm_num) (by rw [f32_bias]; norm_num)
  rw [f32_sb] at le
  change lo.isFinite at lf
  change |lo.val - k * ln2lo.val| ≤ _ at le
  have hlo : |lo.val| ≤ 1.4 / 10 ^ 3 := by
    have := abs_add_le (lo.val - k * ln2lo.val) (k * ln2lo.val)
    rw [_root_.sub_add_cancel] at this
    norm_num [-abs_mul] at le hlo0 ⊢; linarith
  rw [← hv] at hb
  have hd := sub_rne hf lf
  have e2 : x.val - k * ln2hi.val - lo.val - (x.val - k * Real.log 2) = k * (Real.log 2 - ln2hi.val - ln2lo.val) - (lo.val - k * ln2lo.val) := by ring
  have hr2 : |hi.val - lo.val - (x.val - k * Real.log 2)| ≤ 1 / 2 ^ 32 := by
    rw [hv, e2]
    refine (abs_sub _ _).trans ?_
    norm_num [-abs_mul] at hle le ⊢; linarith
  have hs : |hi.val - lo.val| ≤ 0.34662 := by
    have := abs_add_le (hi.val - lo.val - (x.val - k * Real.log 2)) (x.val - k * Real.log 2)
    rw [_root_.sub_add_cancel] at this
    norm_num at this hr hr2 ⊢; linarith
  obtain ⟨df, de⟩ := hd.err (-1) (hs.trans (by norm_num)) (by rw [f32_bias]; norm_num) (by rw [f32_bias]; norm_num)
  rw [f32_sb] at de
  refine ⟨df, hf, lf, ?_, de.trans (by norm_num), hb, hlo, ?_⟩
  · have := abs_add_le ((hi - lo).val - (hi.val - lo.val)) (hi.val - lo.val)
    rw [_root_.sub_add_cancel] at this
    norm_num [-abs_mul] at hs de ⊢; linarith
  · exact hr2


/-- the exponent of the reduction -/
noncomputable def kk (x : Flt f32) : ℤ :=
  if x.mb < 0x3f851592 then (if x.sign then -1 else 1) else (invln2 * x + (if x.sign then -0.5 else 0.5)).toSInt 32

noncomputable def hi (x : Flt f32) (k : ℤ) : Flt f32 := x - ofInt f32 k * ln2hi
noncomputable def lo (k : ℤ) : Flt f32 := ofInt f32 k * ln2lo
noncomputable def arg (x : Flt f32) (k : ℤ) : Flt f32 := hi x k - lo k
noncomputable def cor (x : Flt f32) (k : ℤ) : Flt f32 := hi x k - arg x k - lo k

theorem eq' (x : Flt f32) : expm1f x =
    if 0x4195b844 ≤ x.mb ∧ 0x7f800000 < x.mb then some x
    else if 0x4195b844 ≤ x.mb ∧ x.sign = true then some (-1.0)
    else if 0x4195b844 ≤ x.mb ∧ (oThreshold <ᶠ x) = true then some (x * bits32 0x7f000000)
    else if 0x3eb17218 < x.mb then kernel (arg x (kk x)) (cor x (kk x)) (kk x)
    else if x.mb < 0x33000000 then some x
    else kernel x 0.0 0 := by
  have h2 : (x.u32 >>> 31 = 0) ↔ x.sign = false := by
    rw [← BitVec.toNat_inj, u32_sign]
    cases x.sign <;> simp
  have h3 : decide (x.u32 >>> 31 ≠ 0) = x.sign := by
    cases h : x.sign
    · exact decide_eq_false (fun hc => hc (h2.2 h))
    · exact decide_eq_true (fun hc => by rw [h2.1 hc] at h; cases h)
  have hr : reduce x (x.u32 &&& 0x7fffffff) x.sign =
      if 0x3eb17218 < x.mb then kernel (arg x (kk x)) (cor x (kk x)) (kk x)
      else if x.mb < 0x33000000 then some x
      else kernel x 0.0 0 := by
    unfold reduce split
    simp only [gt_iff_lt, BitVec.lt_def, u32_abs']
    by_cases a : 0x3eb17218 < x.mb
    · rw [if_pos a, if_pos (by exact a)]
      by_cases b : x.mb < 0x3f851592
      · rw [if_pos (by exact b)]
        cases hs : x.sign
        · have ek : kk x = 1 := by unfold kk; rw [if_pos b, hs]; rfl
          have e1 : ofInt f32 1 * ln2hi = ln2hi := by decide +kernel
          have e2 : ofInt f32 1 * ln2lo = ln2lo := by decide +kernel
          unfold cor arg hi lo
          rw [ek, e1, e2]
          rfl
        · have ek : kk x = -1 := by unfold kk; rw [if_pos b, hs]; rfl
          have e1 : -(ofInt f32 (-1) * ln2hi) = ln2hi := by decide +kernel
          have e2 : ofInt f32 (-1) * ln2lo = -ln2lo := by decide +kernel
          unfold cor arg hi lo
          have e0 : x - ofInt f32 (-1) * ln2hi = x + ln2hi := by rw [sub_eq_add_neg', e1]
          rw [ek, e0, e2]
          rfl
      · rw [if_neg (by exact b)]
        have ek : kk x = (invln2 * x + (if x.sign then -0.5 else 0.5)).toSInt 32 := by unfold kk; rw [if_neg b]
        unfold cor arg hi lo
        rw [ek]
    · rw [if_neg a, if_neg (by exact a)]
      rfl
  unfold expm1f
  simp only [ge_iff_le, gt_iff_lt, BitVec.le_def, BitVec.lt_def, u32_abs', h3, hr]
  rfl

/-- the exponent is the right one -/
theorem kk_spec {x : Flt f32} (xf : x.isFinite) (h0 : 0x3eb17218 < x.mb) (hmag : |x.val| ≤ 104) : kk x ≠ 0 ∧ |kk x| ≤ 151 ∧ |x.val - kk x * Real.log 2| ≤ 0.3466 ∧
    |kk x * ln2hi.val| ≤ 2 * |x.val| := by
  have l1 := Num.log2_gt
  have l2 := Num.log2_lt
  have hh := ln2hi_val
  norm_num at l1 l2 hh
  have hlo : |(bits32 0x3eb17219).val| ≤ |x.val| := val_mono (by
    rw [show (bits32 0x3eb17219).mb = 0x3eb17219 by decide +kernel]
    omega)
  rw [t_c1, abs_of_pos (by positivity)] at hlo
  norm_num at hlo
  unfold kk
  by_cases c : x.mb < 0x3f851592
  · rw [if_pos c]
    have h3 : |x.val| ≤ |(bits32 0x3f851592).val| := val_mono (by
      rw [show (bits32 0x3f851592).mb = 0x3f851592 by decide +kernel]
      omega)
    rw [t_c2, abs_of_pos (a := (_ * _ : ℝ)) (by positivity)] at h3
    norm_num at h3
    cases hs : x.sign
    · have xp := val_nonneg hs
      rw [abs_of_nonneg xp] at h3 hlo ⊢
      norm_num
      rw [abs_le, abs_of_pos (by rw [hh]; norm_num), hh]
      refine ⟨⟨?_, ?_⟩, ?_⟩ <;> linarith
    · have xp := val_nonpos hs
      rw [abs_of_nonpos xp] at h3 hlo ⊢
      norm_num
      rw [abs_le, abs_of_pos (by rw [hh]; norm_num), hh]
      refine ⟨⟨?_, ?_⟩, ?_⟩ <;> linarith
  · rw [if_neg c]
    have h3 : |(bits32 0x3f851592).val| ≤ |x.val| := val_mono (by
      rw [show (bits32 0x3f851592).mb = 0x3f851592 by decide +kernel]
      omega)
    rw [t_c2, abs_of_pos (by positivity)] at h3
    norm_num at h3
    obtain ⟨k, hk, k1, k2, k3, k4⟩ := Expf.redK_big xf (by norm_num; linarith) (hmag.trans (by norm_num))
    have e1 : invln2 = Expf.invln2 := by decide +kernel
    rw [e1, hk]
    refine ⟨k1, k2, k3, le_trans ?_ k4⟩
    rw [abs_mul, abs_mul]
    refine mul_le_mul_of_nonneg_left ?_ (abs_nonneg _)
    rw [hh, Expf.ln2hi_val, abs_of_pos (by norm_num), abs_of_pos (by norm_num)]
    norm_num

/-- the reduction -/
theorem red {x : Flt f32} {k : ℤ} (xf : x.isFinite) (hk : |k| ≤ 151) (h1 : k ≠ 0) (hr : |x.val - k * Real.log 2| ≤ 0.3466)
    (hx : |k * ln2hi.val| ≤ 2 * |x.val|) : Red (arg x k) (cor x k) (x.val - k * Real.log 2) := by
  obtain ⟨r1, r2, r3, r4, r5, r6, r7, r8⟩ := reduce_err xf hk h1 (hr.trans (by norm_num)) hx
  change (hi x k).isFinite at r2
  change (lo k).isFinite at r3
  change (arg x k).isFinite at r1
  change |(arg x k).val| ≤ _ at r4
  change |(arg x k).val - ((hi x k).val - (lo k).val)| ≤ _ at r5
  change |(lo k).val| ≤ _ at r7
  change |(hi x k).val - (lo k).val - _| ≤ _ at r8
  have a5 := abs_le.1 r5
  have a7 := abs_le.1 r7
  norm_num at a5 a7
  have d1 := sub_rne r2 r1
  obtain ⟨df, de⟩ := d1.err32 (-9) (by rw [abs_le]; norm_num; constructor <;> linarith [a5.1, a5.2, a7.1, a7.2]) (by norm_num) (by norm_num)
  have b := abs_le.1 de
  norm_num at b
  have d2 := sub_rne df r3
  obtain ⟨cf, ce⟩ := d2.err32 (-25) (by rw [abs_le]; norm_num; constructor <;> linarith [a5.1, a5.2, b.1, b.2]) (by norm_num) (by norm_num)
  change (cor x k).isFinite at cf
  change |(cor x k).val - _| ≤ _ at ce
  have c := abs_le.1 ce
  have a8 := abs_le.1 r8
  norm_num at c a8
  refine ⟨r1, r4.trans (by norm_num), cf, ?_, ?_, hr.trans (by norm_num)⟩
  · rw [abs_le]; norm_num; constructor <;> linarith [a5.1, a5.2, b.1, b.2, c.1, c.2]
  · rw [abs_le]; norm_num; constructor <;> linarith [a5.1, a5.2, b.1, b.2, c.1, c.2, a8.1, a8.2]

/-- everything up to the overflow threshold -/
theorem acc {x : Flt f32} (xf : x.isFinite) (hx : x.val ≤ oThreshold.val) : ∃ r, expm1f x = some r ∧ WithinUlp 1.45 r (Real.exp x.val - 1) := by
  have l1 := Num.log2_gt
  have l2 := Num.log2_lt
  norm_num at l1 l2
  rw [v_max] at hx
  norm_num at hx
  have hmb := (isFinite32 x).1 xf
  rw [eq', if_neg (by rintro ⟨-, h⟩; omega)]
  by_cases hA : 0x4195b844 ≤ x.mb ∧ x.sign = true
  · rw [if_pos hA]
    refine ⟨_, rfl, ?_⟩
    have h1 : |(bits32 0x4195b844).val| ≤ |x.val| := val_mono (by
      rw [show (bits32 0x4195b844).mb = 0x4195b844 by decide +kernel]
      omega)
    rw [t_c4, abs_of_pos (a := (_ * _ : ℝ)) (by positivity), abs_of_nonpos (val_nonpos hA.2)] at h1
    norm_num at h1
    have h2 := Num.exp_lt_two_zpow (n := -26) (t := x.val) (by push_cast; norm_num; linarith)
    have h3 := Real.exp_pos x.val
    norm_num at h2
    have ov : (-1.0 : Flt f32).val = -1 := by rw [show (-1.0 : Flt f32) = -(1.0 : Flt f32) from rfl, val_neg, one_val]
    refine WithinUlp.of_abs (-1) (by decide +kernel) ?_ (a := 1 / 2 ^ 26) ?_ (by rw [f32_sb]; norm_num) (by norm_num)
    · refine le_trans ?_ (neg_le_abs _)
      norm_num; linarith
    · rw [ov, abs_le]; norm_num; constructor <;> linarith
  rw [if_neg hA, if_neg (by
    rintro ⟨-, h⟩
    have := val_lt_iff.2 (lt_iff.1 h).2.2
    rw [v_max] at this; norm_num at this; linarith)]
  by_cases h0 : 0x3eb17218 < x.mb
  · rw [if_pos h0]
    have hlo : -19 ≤ x.val := by
      cases hs : x.sign
      · have := val_nonneg hs; linarith
      · have h1 : |x.val| ≤ |(bits32 0x4195b844).val| := val_mono (by
          rw [show (bits32 0x4195b844).mb = 0x4195b844 by decide +kernel]
          by_contra hc
          exact hA ⟨by omega, hs⟩)
        rw [t_c4, abs_of_pos (a := (_ * _ : ℝ)) (by positivity)] at h1
        norm_num at h1
        have := neg_abs_le x.val
        linarith
    obtain ⟨k1, k2, k3, k4⟩ := kk_spec xf h0 (by rw [abs_le]; constructor <;> linarith)
    have R := red xf k2 k1 k3 k4
    generalize kk x = k at *
    have k5 := abs_le.1 k3
    norm_num at k5
    have hlk : (-40 : ℝ) < k := by
      by_contra hc
      rw [not_lt] at hc
      have : (k : ℝ) * Real.log 2 ≤ -40 * Real.log 2 := mul_le_mul_of_nonneg_right hc (by linarith)
      linarith [k5.2]
    have huk : (k : ℝ) < 129 := by
      by_contra hc
      rw [not_lt] at hc
      have : 129 * Real.log 2 ≤ (k : ℝ) * Real.log 2 := mul_le_mul_of_nonneg_right hc (by linarith)
      linarith [k5.1]
    have hlk' : (-40 : ℤ) < k := by exact_mod_cast hlk
    have huk' : k < 129 := by exact_mod_cast huk
    have e : Real.exp (x.val - k * Real.log 2) * 2 ^ k = Real.exp x.val := by
      have : (2 : ℝ) ^ k = Real.exp (k * Real.log 2) := by
        rw [← Real.log_zpow, Real.exp_log (zp k)]
      rw [this, ← Real.exp_add]; congr 1; ring
    rw [← e]
    refine R.kernel (by omega) (by omega) k1 ?_
    intro hk
    have hρ : x.val - k * Real.log 2 ≤ -(1.1 / 10 ^ 3) := by
      rw [hk]; norm_num; linarith
    generalize x.val - k * Real.log 2 = ρ at *
    have h3 := Real.add_one_le_exp (-ρ)
    have h5 : Real.exp ρ * Real.exp (-ρ) = 1 := by rw [← Real.exp_add]; simp
    have h6 : Real.exp ρ * (1 + 1.1 / 10 ^ 3) ≤ 1 := by
      rw [← h5]; exact mul_le_mul_of_nonneg_left (by norm_num at hρ ⊢; linarith) (Real.exp_pos _).le
    norm_num at h6 ⊢; linarith
  rw [if_neg h0]
  by_cases h1 : x.mb < 0x33000000
  · rw [if_pos h1]
    refine ⟨_, rfl, ?_⟩
    have h3 : |x.val| ≤ |(bits32 0x33000000).val| := val_mono (by
      rw [show (bits32 0x33000000).mb = 0x33000000 by decide +kernel]
      omega)
    rw [t_c3, abs_of_pos (a := (_ * _ : ℝ)) (by positivity)] at h3
    norm_num at h3
    have e1 := Real.abs_exp_sub_one_sub_id_le (x := x.val) (h3.trans (by norm_num))
    have e2 : x.val ^ 2 ≤ (1 / 2 ^ 25) * |x.val| := by
      rw [← sq_abs, pow_two]
      exact mul_le_mul_of_nonneg_right (h3.trans (by norm_num)) (abs_nonneg _)
    have e3 : |x.val| ≤ 1.001 * |Real.exp x.val - 1| := by
      have h4 := abs_sub_abs_le_abs_sub x.val (Real.exp x.val - 1)
      rw [abs_sub_comm x.val] at h4
      have h5 := abs_nonneg (Real.exp x.val - 1)
      norm_num at e2 ⊢; linarith
    refine WithinUlp.of_rel xf (ε := 1.001 / 2 ^ 25) ?_ (by norm_num) (by rw [f32_sb]; norm_num)
    rw [abs_sub_comm]
    refine (e1.trans e2).trans ?_
    norm_num at e3 ⊢; linarith
  · rw [if_neg h1]
    have h3 : |x.val| ≤ |(bits32 0x3eb17219).val| := val_mono (by
      rw [show (bits32 0x3eb17219).mb = 0x3eb17219 by decide +kernel]
      omega)
    have h4 : |(bits32 0x33000000).val| ≤ |x.val| := val_mono (by
      rw [show (bits32 0x33000000).mb = 0x33000000 by decide +kernel]
      omega)
    rw [t_c1, abs_of_pos (a := (_ * _ : ℝ)) (by positivity)] at h3
    rw [t_c3, abs_of_pos (a := (_ * _ : ℝ)) (by positivity)] at h4
    exact kernel_zero xf (h3.trans (by norm_num)) (le_trans (by
      refine (zpow_le_zpow_right₀ (a := (2 : ℝ)) (n := -25) (by norm_num) (by norm_num)).trans ?_
      norm_num) h4)
end Expm1f

/-- C66: `expm1` is within 1.45 units in the last place of `e^x - 1` whenever the latter does not overflow -/
theorem expm1_accurate : AccurateBelow 1.45 expm1 (fun t => Real.exp t - 1) := by
  intro x xf hx
  change ∃ r, expm1 x = some r ∧ WithinUlp 1.45 r (Real.exp x.val - 1)
  change Real.exp x.val - 1 < _ at hx
  have l2 := Num.log2_lt
  refine Expm1.acc xf ?_
  by_contra hc
  push Not at hc
  have hm : Expm1.oThreshold.mb < x.mb := by
    apply Exp.big_mb
    rw [abs_of_nonneg (val_nonneg (by decide +kernel))]
    exact hc.trans_le (le_abs_self _)
  rw [show Expm1.oThreshold.mb = 0x40862e42fefa39ef by decide +kernel] at hm
  have h3 : |(bits64 0x40862e42fefa39f0).val| ≤ |x.val| := val_mono (by
    rw [show (bits64 0x40862e42fefa39f0).mb = 0x40862e42fefa39f0 by decide +kernel]; omega)
  have xp : 0 ≤ x.val := le_trans (val_nonneg (by decide +kernel)) hc.le
  rw [Exp.v_next, abs_of_pos (a := (_ * _ : ℝ)) (by positivity), abs_of_nonneg xp] at h3
  have h4 := Num.two_zpow_lt_exp (n := 1024) (t := x.val) (by
    refine lt_of_lt_of_le ?_ h3
    norm_num at l2 ⊢; linarith)
  rw [← thr64] at hx
  have hp : (2 : ℝ) ^ (100 : ℤ) ≤ 2 ^ (1024 : ℤ) := zpow_le_zpow_right₀ (by norm_num) (by norm_num)
  generalize (2 : ℝ) ^ (1024 : ℤ) = T at *
  norm_num at hp hx
  linarith

/-- C66: `expm1f` is within 1.45 units in the last place of `e^x - 1` for every argument up to its overflow threshold
(`expm1f_early_overflow`, C30: above it the code returns infinity for some arguments whose value is finite) -/
theorem expm1f_accurate : AccurateUpTo 1.45 88.7216796875 expm1f (fun t => Real.exp t - 1) := by
  intro x xf hx
  change x.val ≤ _ at hx
  exact Expm1f.acc xf (by rw [Expm1f.v_max]; norm_num at hx ⊢; linarith)

/-- the hypotheses hold of ordinary arguments -/
example : ∃ r, expm1 (one f64) = some r ∧ WithinUlp 1.45 r (Real.exp 1 - 1) := by
  have e : (one f64).val = 1 := val_one
  have := Expm1.acc (x := one f64) isFinite_one (by rw [e, Expm1.v_max]; norm_num)
  rwa [e] at this
example : ∃ r, expm1f (-one f32) = some r ∧ WithinUlp 1.45 r (Real.exp (-1) - 1) := by
  have e : (-one f32).val = -1 := by rw [val_neg, val_one]
  have := expm1f_accurate (-one f32) (by decide +kernel) (by change (-one f32).val ≤ _; rw [e]; norm_num)
  change ∃ r, expm1f (-one f32) = some r ∧ WithinUlp 1.45 r (Real.exp (-one f32).val - 1) at this
  rwa [e] at this

end Verif
