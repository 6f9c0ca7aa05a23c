import Verif.Theory.InvHypCore
import Verif.Props.HypAcc
import Verif.Props.InvHyp
import Verif.Props.Cbrt

/-!
# C68: accuracy of `asinh`, `acosh`, `atanh` and their f32 versions

Specification: `WithinUlp` (Spec/Float.lean), `AccurateTo` (C45), `AccurateFromOne` and `AccurateInUnit` below, and Mathlib's
inverse hyperbolic functions `Real.arsinh`, `Real.arcosh`, `Real.artanh`.
-/

namespace Verif
open Flt

/-- For every finite argument `x ≥ 1` the function returns a finite float within `c` units in the last place of `g x`. -/
def AccurateFromOne {F : Fmt} (c : ℝ) (f : Flt F → Option (Flt F)) (g : ℝ → ℝ) : Prop :=
  ∀ x : Flt F, x.isFinite → 1 ≤ ((x.toRat : ℚ) : ℝ) → ∃ r, f x = some r ∧ WithinUlp c r (g ((x.toRat : ℚ) : ℝ))

/-- For every argument `-1 < x < 1` the function returns a finite float within `c` units in the last place of `g x`. -/
def AccurateInUnit {F : Fmt} (c : ℝ) (f : Flt F → Option (Flt F)) (g : ℝ → ℝ) : Prop :=
  ∀ x : Flt F, x.isFinite → |((x.toRat : ℚ) : ℝ)| < 1 → ∃ r, f x = some r ∧ WithinUlp c r (g ((x.toRat : ℚ) : ℝ))

namespace IHyp
theorem vlt {F : Fmt} {x : Flt F} {E : ℕ} {k : ℤ} (hs : x.sign = false) (hE : 1 ≤ E) (hk : (E : ℤ) - F.bias = k) (h : x.mb < E * 2 ^ F.sb) : x.val < 2 ^ k := by
  have := val_lt_of_mb hE h
  rwa [abs_of_nonneg (val_nonneg hs), hk] at this
theorem vge {F : Fmt} {x : Flt F} {E : ℕ} {k : ℤ} (hs : x.sign = false) (hE : 1 ≤ E) (hk : (E : ℤ) - F.bias = k) (h : E * 2 ^ F.sb ≤ x.mb) : 2 ^ k ≤ x.val := by
  have := val_ge_of_mb hE h
  rwa [abs_of_nonneg (val_nonneg hs), hk] at this
theorem artanh_odd (t : ℝ) : Real.artanh (-t) = -Real.artanh t := by
  unfold Real.artanh
  rw [show (1 + -t) / (1 - -t) = ((1 + t) / (1 - t))⁻¹ by rw [inv_div, sub_neg_eq_add, ← sub_eq_add_neg], Real.sqrt_inv, Real.log_inv]
end IHyp

namespace IHypA
open HypC IHyp
theorem c_ln2 : Asinh.ln2.val = (6243314768165359 : ℝ) * 2 ^ (-53 : ℤ) := by
  rw [val_const64 (x := Asinh.ln2) 6243314768165359 1021 (-53) (by decide +kernel) (by norm_num)]; norm_num
theorem one_v : (1.0 : Flt f64).val = 1 := by rw [show (1.0 : Flt f64) = one f64 by decide +kernel, val_one]
theorem uu_v : uu f64 = 1 / 2 ^ 53 := by rw [uu, f64_sb]; norm_num
theorem ln2_err : |Asinh.ln2.val - Real.log 2| ≤ uu f64 * Real.log 2 := by
  have g1 := Num.log2_gt
  have g2 := Num.log2_lt
  rw [c_ln2, uu_v, abs_le]
  norm_num at g1 g2 ⊢
  constructor <;> linarith

theorem big {x : Flt f64} (xf : x.isFinite) (hs : x.sign = false) (h : 4724276009111650304 ≤ x.mb) : ∃ r, log x = some r ∧
    WithinUlp 4.7 (r + Asinh.ln2) (Real.arsinh x.val) ∧ WithinUlp 4.7 (r + Asinh.ln2) (Real.arcosh x.val) := by
  have x1 := vge (E := 1049) (k := 26) hs (by norm_num) (by decide) (by rw [f64_sb]; omega)
  have x2 : (2 : ℝ) ^ 11 ≤ x.val := by refine le_trans ?_ x1; norm_num
  obtain ⟨r, hr, w⟩ := log_big log_accurate (l2 := Asinh.ln2) (by decide +kernel) ln2_err xf x2
  have hu0 := uu_pos (F := f64)
  have hu2 := uu_sq (F := f64)
  have hb : 1 ≤ 2 * (uu f64 * (x.val * x.val)) := by
    have := mul_le_mul x1 x1 (by positivity) (val_nonneg hs)
    rw [uu_v]
    norm_num at this ⊢; linarith
  refine ⟨r, hr, ?_, ?_⟩
  · exact ((w.trans (by linarith) (arsinh_big x2 hb) (γ := 4.7 * uu f64) (by norm_num at hu2 ⊢; nlinarith))).ulp (by norm_num)
  · exact ((w.trans (by linarith) (arcosh_big x2 hb) (γ := 4.7 * uu f64) (by norm_num at hu2 ⊢; nlinarith))).ulp (by norm_num)

theorem asinh_acc {x : Flt f64} (xf : x.isFinite) (hs : x.sign = false) : ∃ r, asinh x = some r ∧ WithinUlp 4.7 r (Real.arsinh x.val) := by
  have xn := val_nonneg hs
  have of : (1.0 : Flt f64).isFinite := by decide +kernel
  have tf : (2.0 : Flt f64).isFinite := by decide +kernel
  have ov := one_v
  have tv : (2.0 : Flt f64).val = 2 := Expm1.two_val
  have hu0 := uu_pos (F := f64)
  rw [Hyp.asinh_eq, hs, ab_of_pos hs]
  simp only [show (flip false : Flt f64 → Flt f64) = id from funext flip_false, Option.map_id, id_eq]
  unfold Hyp.asinhA
  dsimp only
  by_cases h1 : 4724276009111650304 ≤ x.mb
  · obtain ⟨r, hr, w, -⟩ := big xf hs h1
    rw [if_pos (show x.mb / 2 ^ 52 ≥ 0x3ff + 26 by rw [ge_iff_le, Nat.le_div_iff_mul_le (by norm_num)]; omega), hr]
    exact ⟨_, rfl, w⟩
  rw [if_neg (show ¬ x.mb / 2 ^ 52 ≥ 0x3ff + 26 by rw [ge_iff_le, Nat.le_div_iff_mul_le (by norm_num)]; omega)]
  by_cases h2 : 4611686018427387904 ≤ x.mb
  · have x1 := vge (E := 1024) (k := 1) hs (by norm_num) (by decide) (by rw [f64_sb]; omega)
    have x2 := vlt (E := 1049) (k := 26) hs (by norm_num) (by decide) (by rw [f64_sb]; omega)
    obtain ⟨s, h3, r, h4, w⟩ := asinh_mid sqrt_correct log_accurate of ov tf tv xf (by norm_num at x1; exact x1) (by norm_num at x2 ⊢; linarith)
    rw [if_pos (show x.mb / 2 ^ 52 ≥ 0x3ff + 1 by rw [ge_iff_le, Nat.le_div_iff_mul_le (by norm_num)]; omega), h3]
    exact ⟨r, h4, (w.mono (by linarith)).ulp (by norm_num)⟩
  rw [if_neg (show ¬ x.mb / 2 ^ 52 ≥ 0x3ff + 1 by rw [ge_iff_le, Nat.le_div_iff_mul_le (by norm_num)]; omega)]
  by_cases h3 : 4490088828488384512 ≤ x.mb
  · have x1 := vge (E := 997) (k := -26) hs (by norm_num) (by decide) (by rw [f64_sb]; omega)
    have x2 := vlt (E := 1024) (k := 1) hs (by norm_num) (by decide) (by rw [f64_sb]; omega)
    obtain ⟨s, h3, r, h4, w⟩ := asinh_small sqrt_correct log1p_accurate of ov xf (by norm_num at x1 ⊢; linarith) (by norm_num at x2 ⊢; linarith)
    rw [if_pos (show x.mb / 2 ^ 52 ≥ 0x3ff - 26 by rw [ge_iff_le, Nat.le_div_iff_mul_le (by norm_num)]; omega), h3]
    exact ⟨r, h4, w.ulp (by norm_num)⟩
  rw [if_neg (show ¬ x.mb / 2 ^ 52 ≥ 0x3ff - 26 by rw [ge_iff_le, Nat.le_div_iff_mul_le (by norm_num)]; omega)]
  have x2 := vlt (E := 997) (k := -26) hs (by norm_num) (by decide) (by rw [f64_sb]; omega)
  refine ⟨x, rfl, Rl.ulp ⟨xf, arsinh_tiny xn (by norm_num at x2 ⊢; linarith) ?_⟩ (by norm_num)⟩
  have := pow_le_pow_left₀ xn x2.le 2
  refine this.trans ?_
  rw [uu_v]; norm_num

theorem acosh_acc {x : Flt f64} (xf : x.isFinite) (hx : 1 ≤ x.val) : ∃ r, acosh x = some r ∧ WithinUlp 4.7 r (Real.arcosh x.val) := by
  have hs := sign_of_pos (lt_of_lt_of_le one_pos hx)
  have xn := val_nonneg hs
  have of : (one f64).isFinite := by decide +kernel
  have tf : (2.0 : Flt f64).isFinite := by decide +kernel
  have ov : (one f64).val = 1 := val_one
  have tv : (2.0 : Flt f64).val = 2 := Expm1.two_val
  have hu0 := uu_pos (F := f64)
  rcases eq_or_lt_of_le hx with e | e
  · have xe : x = one f64 := Cbrtf.eq_of_val (fun h => by rw [isZero_val.1 h] at hx; linarith) (by rw [ov, ← e])
    rw [← e, Real.arcosh_zero, xe, acosh_domain_partial.one]
    exact ⟨_, rfl, by have := WithinUlp.exact (r := zero f64 false) (c := 4.7) (by norm_num) (by decide +kernel); rwa [val_zero] at this⟩
  rw [InvHyp.acosh_eq]
  by_cases h1 : x.mb < 4611686018427387904
  · rw [if_pos (by omega)]
    have x2 := vlt (E := 1024) (k := 1) hs (by norm_num) (by decide) (by rw [f64_sb]; omega)
    rw [zpow_one] at x2
    obtain ⟨df, dv⟩ := sterbenz_val xf of (by rw [ov, abs_of_nonneg (a := x.val - 1) (by linarith), abs_of_pos (a := x.val) (by linarith)]; linarith) (by
      rw [ov, abs_of_nonneg (a := x.val - 1) (by linarith), abs_one]; linarith) (by
      rw [abs_of_pos (a := x.val) (by linarith)]; refine low1.trans (le_trans ?_ hx); norm_num) (by
      rw [ov, abs_one]; exact low1.trans (by norm_num))
    rw [ov] at dv
    have k : (1 : ℝ) / 2 ^ 60 ≤ x.val - 1 := by
      have hm : 4607182418800017408 < x.mb := by
        by_contra hc
        have := le_of_mb (c := one f64) hs (by decide +kernel) (by rw [show (one f64).mb = 4607182418800017408 by decide +kernel]; omega)
        rw [ov] at this; linarith
      have := le_of_mb (x := bits64 0x3ff0000000000001) (c := x) (by decide +kernel) hs (by rw [show (bits64 0x3ff0000000000001 : Flt f64).mb = 4607182418800017409 by decide +kernel]; omega)
      rw [val_const64 (x := bits64 0x3ff0000000000001) 4503599627370497 1022 (-52) (by decide +kernel) (by norm_num)] at this
      norm_num at this ⊢; linarith
    obtain ⟨s, h3, r, h4, w⟩ := acosh_small sqrt_correct log1p_accurate tf tv df (by rw [dv]; exact k) (by rw [dv]; linarith)
    rw [h3]
    rw [dv, add_sub_cancel] at w
    exact ⟨r, h4, w.ulp (by norm_num)⟩
  rw [if_neg (by omega)]
  by_cases h2 : x.mb < 4724276009111650304
  · have x1 := vge (E := 1024) (k := 1) hs (by norm_num) (by decide) (by rw [f64_sb]; omega)
    have x2 := vlt (E := 1049) (k := 26) hs (by norm_num) (by decide) (by rw [f64_sb]; omega)
    obtain ⟨s, h3, r, h4, w⟩ := acosh_mid sqrt_correct log_accurate of ov tf tv xf (by norm_num at x1; exact x1) (by norm_num at x2 ⊢; linarith)
    rw [if_pos (by omega), h3]
    exact ⟨r, h4, (w.mono (by linarith)).ulp (by norm_num)⟩
  rw [if_neg (by omega)]
  obtain ⟨r, hr, -, w⟩ := big xf hs (by omega)
  rw [hr]
  exact ⟨_, rfl, w⟩

theorem atanh_acc {x : Flt f64} (xf : x.isFinite) (hs : x.sign = false) (hx : x.val < 1) : ∃ r, atanh x = some r ∧ WithinUlp 4.5 r (Real.artanh x.val) := by
  have xn := val_nonneg hs
  have of : (1.0 : Flt f64).isFinite := by decide +kernel
  have tf : (2.0 : Flt f64).isFinite := by decide +kernel
  have hf : (0.5 : Flt f64).isFinite := by decide +kernel
  have ov := one_v
  have tv : (2.0 : Flt f64).val = 2 := Expm1.two_val
  have hv : (0.5 : Flt f64).val = 1 / 2 := Expm1.half_val'
  have hu0 := uu_pos (F := f64)
  rw [Hyp.atanh_eq, hs, ab_of_pos hs]
  simp only [show (flip false : Flt f64 → Flt f64) = id from funext flip_false, Option.map_id, id_eq]
  unfold Hyp.atanhA
  dsimp only
  by_cases h1 : x.mb < 4602678819172646912
  · rw [if_pos (show x.mb / 2 ^ 52 < 0x3ff - 1 by rw [Nat.div_lt_iff_lt_mul (by norm_num)]; omega)]
    have x2 := vlt (E := 1022) (k := -1) hs (by norm_num) (by decide) (by rw [f64_sb]; omega)
    by_cases h2 : x.mb < 4463067230724161536
    · rw [if_pos (show x.mb / 2 ^ 52 < 0x3ff - 32 by rw [Nat.div_lt_iff_lt_mul (by norm_num)]; omega)]
      have x3 := vlt (E := 991) (k := -32) hs (by norm_num) (by decide) (by rw [f64_sb]; omega)
      refine ⟨x, rfl, Rl.ulp ⟨xf, artanh_tiny xn (by norm_num at x3 ⊢; linarith) ?_⟩ (by norm_num)⟩
      have := pow_le_pow_left₀ xn x3.le 2
      refine (mul_le_mul_of_nonneg_left this (by norm_num)).trans ?_
      rw [uu_v]; norm_num
    · rw [if_neg (show ¬ x.mb / 2 ^ 52 < 0x3ff - 32 by rw [Nat.div_lt_iff_lt_mul (by norm_num)]; omega)]
      have x1 := vge (E := 991) (k := -32) hs (by norm_num) (by decide) (by rw [f64_sb]; omega)
      obtain ⟨r, h4, w⟩ := atanh_small log1p_accurate of ov tf tv hf hv xf (by norm_num at x1 ⊢; linarith) (by norm_num at x2 ⊢; linarith)
      rw [h4]
      exact ⟨_, rfl, w.ulp (by norm_num)⟩
  · rw [if_neg (show ¬ x.mb / 2 ^ 52 < 0x3ff - 1 by rw [Nat.div_lt_iff_lt_mul (by norm_num)]; omega)]
    have x1 := vge (E := 1022) (k := -1) hs (by norm_num) (by decide) (by rw [f64_sb]; omega)
    have k : x.val ≤ 1 - 1 / 2 ^ 60 := by
      have hm : x.mb < 4607182418800017408 := by
        by_contra hc
        have := le_of_mb (x := one f64) (c := x) (by decide +kernel) hs (by rw [show (one f64).mb = 4607182418800017408 by decide +kernel]; omega)
        rw [val_one] at this; linarith
      have := le_of_mb (c := bits64 0x3fefffffffffffff) hs (by decide +kernel) (by rw [show (bits64 0x3fefffffffffffff : Flt f64).mb = 4607182418800017407 by decide +kernel]; omega)
      rw [val_const64 (x := bits64 0x3fefffffffffffff) 9007199254740991 1021 (-53) (by decide +kernel) (by norm_num)] at this
      norm_num at this ⊢; linarith
    obtain ⟨r, h4, w⟩ := atanh_large log1p_accurate of ov tf tv hf hv xf (by norm_num at x1 ⊢; linarith) k
    rw [h4]
    exact ⟨_, rfl, (w.mono (by linarith)).ulp (by norm_num)⟩

end IHypA

namespace IHypAf
open HypC IHyp
theorem c_ln2 : Asinhf.ln2.val = (11629080 : ℝ) * 2 ^ (-24 : ℤ) := by
  rw [val_const32 (x := Asinhf.ln2) 11629080 125 (-24) (by decide +kernel) (by norm_num)]; norm_num
theorem one_v : (1.0 : Flt f32).val = 1 := by rw [show (1.0 : Flt f32) = one f32 by decide +kernel, val_one]
theorem uu_v : uu f32 = 1 / 2 ^ 24 := by rw [uu, f32_sb]; norm_num
theorem ln2_err : |Asinhf.ln2.val - Real.log 2| ≤ uu f32 * Real.log 2 := by
  have g1 := Num.log2_gt
  have g2 := Num.log2_lt
  rw [c_ln2, uu_v, abs_le]
  norm_num at g1 g2 ⊢
  constructor <;> linarith

theorem big {x : Flt f32} (xf : x.isFinite) (hs : x.sign = false) (h : 1166016512 ≤ x.mb) : ∃ r, logf x = some r ∧
    WithinUlp 4.7 (r + Asinhf.ln2) (Real.arsinh x.val) ∧ WithinUlp 4.7 (r + Asinhf.ln2) (Real.arcosh x.val) := by
  have x1 := vge (E := 139) (k := 12) hs (by norm_num) (by decide) (by rw [f32_sb]; omega)
  have x2 : (2 : ℝ) ^ 11 ≤ x.val := by refine le_trans ?_ x1; norm_num
  obtain ⟨r, hr, w⟩ := log_big logf_accurate (l2 := Asinhf.ln2) (by decide +kernel) ln2_err xf x2
  have hu0 := uu_pos (F := f32)
  have hu2 := uu_sq (F := f32)
  have hb : 1 ≤ 2 * (uu f32 * (x.val * x.val)) := by
    have := mul_le_mul x1 x1 (by positivity) (val_nonneg hs)
    rw [uu_v]
    norm_num at this ⊢; linarith
  refine ⟨r, hr, ?_, ?_⟩
  · exact ((w.trans (by linarith) (arsinh_big x2 hb) (γ := 4.7 * uu f32) (by norm_num at hu2 ⊢; nlinarith))).ulp (by norm_num)
  · exact ((w.trans (by linarith) (arcosh_big x2 hb) (γ := 4.7 * uu f32) (by norm_num at hu2 ⊢; nlinarith))).ulp (by norm_num)

theorem asinh_acc {x : Flt f32} (xf : x.isFinite) (hs : x.sign = false) : ∃ r, asinhf x = some r ∧ WithinUlp 4.7 r (Real.arsinh x.val) := by
  have xn := val_nonneg hs
  have of : (1.0 : Flt f32).isFinite := by decide +kernel
  have tf : (2.0 : Flt f32).isFinite := by decide +kernel
  have ov := one_v
  have tv : (2.0 : Flt f32).val = 2 := Expm1f.two_val
  have hu0 := uu_pos (F := f32)
  have um : x.u32.toNat = x.mb := by rw [u32_toNat, hs]; simp
  rw [Hyp.asinhf_eq, hs, ab_of_pos hs]
  simp only [show (flip false : Flt f32 → Flt f32) = id from funext flip_false, Option.map_id, id_eq]
  unfold Hyp.asinhfA
  dsimp only
  by_cases h1 : 1166016512 ≤ x.mb
  · obtain ⟨r, hr, w, -⟩ := big xf hs h1
    rw [if_pos (show x.u32 ≥ 0x3f800000#32 + (12#32 <<< 23) by rw [ge_iff_le, BitVec.le_def, um]; change 1166016512 ≤ x.mb; omega), hr]
    exact ⟨_, rfl, w⟩
  rw [if_neg (show ¬ x.u32 ≥ 0x3f800000#32 + (12#32 <<< 23) by rw [ge_iff_le, BitVec.le_def, um]; change ¬ 1166016512 ≤ x.mb; omega)]
  by_cases h2 : 1073741824 ≤ x.mb
  · have x1 := vge (E := 128) (k := 1) hs (by norm_num) (by decide) (by rw [f32_sb]; omega)
    have x2 := vlt (E := 139) (k := 12) hs (by norm_num) (by decide) (by rw [f32_sb]; omega)
    obtain ⟨s, h3, r, h4, w⟩ := asinh_mid sqrtf_correct logf_accurate of ov tf tv xf (by norm_num at x1; exact x1) (by norm_num at x2 ⊢; linarith)
    rw [if_pos (show x.u32 ≥ 0x3f800000#32 + (1#32 <<< 23) by rw [ge_iff_le, BitVec.le_def, um]; change 1073741824 ≤ x.mb; omega), h3]
    exact ⟨r, h4, (w.mono (by linarith)).ulp (by norm_num)⟩
  rw [if_neg (show ¬ x.u32 ≥ 0x3f800000#32 + (1#32 <<< 23) by rw [ge_iff_le, BitVec.le_def, um]; change ¬ 1073741824 ≤ x.mb; omega)]
  by_cases h3 : 964689920 ≤ x.mb
  · have x1 := vge (E := 115) (k := -12) hs (by norm_num) (by decide) (by rw [f32_sb]; omega)
    have x2 := vlt (E := 128) (k := 1) hs (by norm_num) (by decide) (by rw [f32_sb]; omega)
    obtain ⟨s, h3, r, h4, w⟩ := asinh_small sqrtf_correct log1pf_accurate of ov xf (by norm_num at x1 ⊢; linarith) (by norm_num at x2 ⊢; linarith)
    rw [if_pos (show x.u32 ≥ 0x3f800000#32 - (12#32 <<< 23) by rw [ge_iff_le, BitVec.le_def, um]; change 964689920 ≤ x.mb; omega), h3]
    exact ⟨r, h4, w.ulp (by norm_num)⟩
  rw [if_neg (show ¬ x.u32 ≥ 0x3f800000#32 - (12#32 <<< 23) by rw [ge_iff_le, BitVec.le_def, um]; change ¬ 964689920 ≤ x.mb; omega)]
  have x2 := vlt (E := 115) (k := -12) hs (by norm_num) (by decide) (by rw [f32_sb]; omega)
  refine ⟨x, rfl, Rl.ulp ⟨xf, arsinh_tiny xn (by norm_num at x2 ⊢; linarith) ?_⟩ (by norm_num)⟩
  have := pow_le_pow_left₀ xn x2.le 2
  refine this.trans ?_
  rw [uu_v]; norm_num

theorem acosh_acc {x : Flt f32} (xf : x.isFinite) (hx : 1 ≤ x.val) : ∃ r, acoshf x = some r ∧ WithinUlp 4.7 r (Real.arcosh x.val) := by
  have hs := sign_of_pos (lt_of_lt_of_le one_pos hx)
  have xn := val_nonneg hs
  have of : (one f32).isFinite := by decide +kernel
  have tf : (2.0 : Flt f32).isFinite := by decide +kernel
  have ov : (one f32).val = 1 := val_one
  have tv : (2.0 : Flt f32).val = 2 := Expm1f.two_val
  have hu0 := uu_pos (F := f32)
  rcases eq_or_lt_of_le hx with e | e
  · have xe : x = one f32 := Cbrtf.eq_of_val (fun h => by rw [isZero_val.1 h] at hx; linarith) (by rw [ov, ← e])
    rw [← e, Real.arcosh_zero, xe, acoshf_domain_partial.one]
    exact ⟨_, rfl, by have := WithinUlp.exact (r := zero f32 false) (c := 4.7) (by norm_num) (by decide +kernel); rwa [val_zero] at this⟩
  rw [InvHyp.acoshf_eq]
  by_cases h1 : x.mb < 1073741824
  · rw [if_pos (by omega)]
    have x2 := vlt (E := 128) (k := 1) hs (by norm_num) (by decide) (by rw [f32_sb]; omega)
    rw [zpow_one] at x2
    obtain ⟨df, dv⟩ := sterbenz_val xf of (by rw [ov, abs_of_nonneg (a := x.val - 1) (by linarith), abs_of_pos (a := x.val) (by linarith)]; linarith) (by
      rw [ov, abs_of_nonneg (a := x.val - 1) (by linarith), abs_one]; linarith) (by
      rw [abs_of_pos (a := x.val) (by linarith)]; refine low1.trans (le_trans ?_ hx); norm_num) (by
      rw [ov, abs_one]; exact low1.trans (by norm_num))
    rw [ov] at dv
    have k : (1 : ℝ) / 2 ^ 60 ≤ x.val - 1 := by
      have hm : 1065353216 < x.mb := by
        by_contra hc
        have := le_of_mb (c := one f32) hs (by decide +kernel) (by rw [show (one f32).mb = 1065353216 by decide +kernel]; omega)
        rw [ov] at this; linarith
      have := le_of_mb (x := bits32 0x3f800001) (c := x) (by decide +kernel) hs (by rw [show (bits32 0x3f800001 : Flt f32).mb = 1065353217 by decide +kernel]; omega)
      rw [val_const32 (x := bits32 0x3f800001) 8388609 126 (-23) (by decide +kernel) (by norm_num)] at this
      norm_num at this ⊢; linarith
    obtain ⟨s, h3, r, h4, w⟩ := acosh_small sqrtf_correct log1pf_accurate tf tv df (by rw [dv]; exact k) (by rw [dv]; linarith)
    rw [h3]
    rw [dv, add_sub_cancel] at w
    exact ⟨r, h4, w.ulp (by norm_num)⟩
  rw [if_neg (by omega)]
  by_cases h2 : x.mb < 1166016512
  · have x1 := vge (E := 128) (k := 1) hs (by norm_num) (by decide) (by rw [f32_sb]; omega)
    have x2 := vlt (E := 139) (k := 12) hs (by norm_num) (by decide) (by rw [f32_sb]; omega)
    obtain ⟨s, h3, r, h4, w⟩ := acosh_mid sqrtf_correct logf_accurate of ov tf tv xf (by norm_num at x1; exact x1) (by norm_num at x2 ⊢; linarith)
    rw [if_pos (by omega), h3]
    exact ⟨r, h4, (w.mono (by linarith)).ulp (by norm_num)⟩
  rw [if_neg (by omega)]
  obtain ⟨r, hr, -, w⟩ := big xf hs (by omega)
  rw [hr]
  exact ⟨_, rfl, w⟩

theorem atanh_acc {x : Flt f32} (xf : x.isFinite) (hs : x.sign = false) (hx : x.val < 1) : ∃ r, atanhf x = some r ∧ WithinUlp 4.5 r (Real.artanh x.val) := by
  have xn := val_nonneg hs
  have of : (1.0 : Flt f32).isFinite := by decide +kernel
  have tf : (2.0 : Flt f32).isFinite := by decide +kernel
  have hf : (0.5 : Flt f32).isFinite := by decide +kernel
  have ov := one_v
  have tv : (2.0 : Flt f32).val = 2 := Expm1f.two_val
  have hv : (0.5 : Flt f32).val = 1 / 2 := Expm1f.half_val'
  have hu0 := uu_pos (F := f32)
  have um : x.u32.toNat = x.mb := by rw [u32_toNat, hs]; simp
  rw [Hyp.atanhf_eq, hs, ab_of_pos hs]
  simp only [show (flip false : Flt f32 → Flt f32) = id from funext flip_false, Option.map_id, id_eq]
  unfold Hyp.atanhfA
  dsimp only
  by_cases h1 : x.mb < 1056964608
  · rw [if_pos (show x.u32 < 0x3f800000#32 - (1#32 <<< 23) by rw [BitVec.lt_def, um]; change x.mb < 1056964608; omega)]
    have x2 := vlt (E := 126) (k := -1) hs (by norm_num) (by decide) (by rw [f32_sb]; omega)
    by_cases h2 : x.mb < 796917760
    · rw [if_pos (show x.u32 < 0x3f800000#32 - (32#32 <<< 23) by rw [BitVec.lt_def, um]; change x.mb < 796917760; omega)]
      have x3 := vlt (E := 95) (k := -32) hs (by norm_num) (by decide) (by rw [f32_sb]; omega)
      refine ⟨x, rfl, Rl.ulp ⟨xf, artanh_tiny xn (by norm_num at x3 ⊢; linarith) ?_⟩ (by norm_num)⟩
      have := pow_le_pow_left₀ xn x3.le 2
      refine (mul_le_mul_of_nonneg_left this (by norm_num)).trans ?_
      rw [uu_v]; norm_num
    · rw [if_neg (show ¬ x.u32 < 0x3f800000#32 - (32#32 <<< 23) by rw [BitVec.lt_def, um]; change ¬ x.mb < 796917760; omega)]
      have x1 := vge (E := 95) (k := -32) hs (by norm_num) (by decide) (by rw [f32_sb]; omega)
      obtain ⟨r, h4, w⟩ := atanh_small log1pf_accurate of ov tf tv hf hv xf (by norm_num at x1 ⊢; linarith) (by norm_num at x2 ⊢; linarith)
      rw [h4]
      exact ⟨_, rfl, w.ulp (by norm_num)⟩
  · rw [if_neg (show ¬ x.u32 < 0x3f800000#32 - (1#32 <<< 23) by rw [BitVec.lt_def, um]; change ¬ x.mb < 1056964608; omega)]
    have x1 := vge (E := 126) (k := -1) hs (by norm_num) (by decide) (by rw [f32_sb]; omega)
    have k : x.val ≤ 1 - 1 / 2 ^ 60 := by
      have hm : x.mb < 1065353216 := by
        by_contra hc
        have := le_of_mb (x := one f32) (c := x) (by decide +kernel) hs (by rw [show (one f32).mb = 1065353216 by decide +kernel]; omega)
        rw [val_one] at this; linarith
      have := le_of_mb (c := bits32 0x3f7fffff) hs (by decide +kernel) (by rw [show (bits32 0x3f7fffff : Flt f32).mb = 1065353215 by decide +kernel]; omega)
      rw [val_const32 (x := bits32 0x3f7fffff) 16777215 125 (-24) (by decide +kernel) (by norm_num)] at this
      norm_num at this ⊢; linarith
    obtain ⟨r, h4, w⟩ := atanh_large log1pf_accurate of ov tf tv hf hv xf (by norm_num at x1 ⊢; linarith) k
    rw [h4]
    exact ⟨_, rfl, (w.mono (by linarith)).ulp (by norm_num)⟩

end IHypAf

/-- C68: `asinh` is within 4.7 units in the last place of the inverse hyperbolic sine, for every finite argument -/
theorem asinh_accurate : AccurateTo 4.7 asinh Real.arsinh := fun x xf =>
  OddFn.acc asinh_odd Real.arsinh_neg (P := fun _ => True) (fun _ => Iff.rfl) (fun _ yf hs _ => IHypA.asinh_acc yf hs) x xf trivial

/-- C68 -/
theorem asinhf_accurate : AccurateTo 4.7 asinhf Real.arsinh := fun x xf =>
  OddFn.acc asinhf_odd Real.arsinh_neg (P := fun _ => True) (fun _ => Iff.rfl) (fun _ yf hs _ => IHypAf.asinh_acc yf hs) x xf trivial

/-- C68: `acosh` is within 4.7 units in the last place of the inverse hyperbolic cosine, for every finite argument from one up -/
theorem acosh_accurate : AccurateFromOne 4.7 acosh Real.arcosh := fun _ xf hx => IHypA.acosh_acc xf hx

/-- C68 -/
theorem acoshf_accurate : AccurateFromOne 4.7 acoshf Real.arcosh := fun _ xf hx => IHypAf.acosh_acc xf hx

/-- C68: `atanh` is within 4.5 units in the last place of the inverse hyperbolic tangent, for every argument inside (-1, 1) -/
theorem atanh_accurate : AccurateInUnit 4.5 atanh Real.artanh := fun x xf hx =>
  OddFn.acc atanh_odd IHyp.artanh_odd (P := fun t => |t| < 1) (fun t => by rw [abs_neg]) (fun _ yf hs h => IHypA.atanh_acc yf hs (abs_lt.1 h).2) x xf hx

/-- C68 -/
theorem atanhf_accurate : AccurateInUnit 4.5 atanhf Real.artanh := fun x xf hx =>
  OddFn.acc atanhf_odd IHyp.artanh_odd (P := fun t => |t| < 1) (fun t => by rw [abs_neg]) (fun _ yf hs h => IHypAf.atanh_acc yf hs (abs_lt.1 h).2) x xf hx

/-- the hypotheses hold of ordinary arguments -/
example : ∃ r, acosh (2.0 : Flt f64) = some r ∧ WithinUlp 4.7 r (Real.arcosh 2) := by
  have e : (2.0 : Flt f64).val = 2 := Expm1.two_val
  have := acosh_accurate (2.0 : Flt f64) (by decide +kernel) (by change 1 ≤ (2.0 : Flt f64).val; rw [e]; norm_num)
  change ∃ r, acosh (2.0 : Flt f64) = some r ∧ WithinUlp 4.7 r (Real.arcosh (2.0 : Flt f64).val) at this
  rwa [e] at this
example : ∃ r, atanhf (-(0.5 : Flt f32)) = some r ∧ WithinUlp 4.5 r (Real.artanh (-(1 / 2))) := by
  have e : (-(0.5 : Flt f32)).val = -(1 / 2) := by rw [val_neg, Expm1f.half_val']
  have := atanhf_accurate (-(0.5 : Flt f32)) (by decide +kernel) (by change |(-(0.5 : Flt f32)).val| < 1; rw [e]; norm_num)
  change ∃ r, atanhf (-(0.5 : Flt f32)) = some r ∧ WithinUlp 4.5 r (Real.artanh (-(0.5 : Flt f32)).val) at this
  rwa [e] at this

end Verif
