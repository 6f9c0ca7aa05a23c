import Verif.Theory.Log2Body
import Verif.Props.LogAcc
import Mathlib.Analysis.SpecialFunctions.Log.Base

/-!
# C62: `log2`, `log10`, `log2f` and `log10f` are accurate to little more than one unit in the last place

The exact value is Mathlib's `Real.logb` of the argument.
-/

namespace Verif
open Flt

theorem log_far {x : ℝ} (h1 : -0.29291 ≤ x) (h : 0.2 < |x|) : 0.1818 ≤ |Real.log (1 + x)| := by
  norm_num at h1 h
  rcases le_total 0 x with h0 | h0
  · rw [abs_of_nonneg h0] at h
    refine le_trans ?_ ((Real.le_log_one_add_of_nonneg h0).trans (le_abs_self _))
    rw [le_div_iff₀ (by linarith)]
    norm_num; linarith
  · rw [abs_of_nonpos h0] at h
    have := Real.log_le_sub_one_of_pos (x := 1 + x) (by linarith)
    rw [abs_of_nonpos (by linarith)]
    norm_num; linarith

theorem log2_bds : 0.693147 < Real.log 2 ∧ Real.log 2 < 0.693148 := by
  have h1 := Num.log2_gt
  have h2 := Num.log2_lt
  norm_num at h1 h2 ⊢
  constructor <;> linarith
theorem log10_bds : 2.302585 < Real.log 10 ∧ Real.log 10 < 2.302586 := by
  have := abs_le.1 Num.log10_near
  norm_num at this ⊢
  constructor <;> linarith [this.1, this.2]

theorem logb2_eq {a : ℝ} (h : 0 < a) (k : ℤ) : Real.logb 2 (a * 2 ^ k) = Real.log a / Real.log 2 + k := by
  have := log2_bds.1
  unfold Real.logb
  rw [log_mul_zpow h, add_div, mul_div_assoc, div_self (by norm_num at this; linarith), mul_one]
theorem logb10_eq {a : ℝ} (h : 0 < a) (k : ℤ) : Real.logb 10 (a * 2 ^ k) = Real.log a / Real.log 10 + k * (Real.log 2 / Real.log 10) := by
  unfold Real.logb
  rw [log_mul_zpow h, add_div, mul_div_assoc]

/-- the size of the reduced logarithm to base 2 -/
theorem lred2 {x : ℝ} (h1 : -0.29291 ≤ x) (h2 : x ≤ 0.41423) : |Real.log (1 + x) / Real.log 2| ≤ 0.5003 := by
  have l := log2_bds.1
  have hb := log_red_bd h1 h2
  have hp : 0 < Real.log 2 := by norm_num at l; linarith
  rw [abs_div, abs_of_pos hp, div_le_iff₀ hp]
  norm_num at l hb ⊢; linarith
theorem lred10 {x : ℝ} (h1 : -0.29291 ≤ x) (h2 : x ≤ 0.41423) : |Real.log (1 + x) / Real.log 10| ≤ 0.1506 := by
  have l := log10_bds.1
  have hb := log_red_bd h1 h2
  have hp : 0 < Real.log 10 := by norm_num at l; linarith
  rw [abs_div, abs_of_pos hp, div_le_iff₀ hp]
  norm_num at l hb ⊢; linarith
theorem lfar2 {x : ℝ} (h1 : -0.29291 ≤ x) (h : 0.2 < |x|) : 2 ^ (-2 : ℤ) ≤ |Real.log (1 + x) / Real.log 2| := by
  obtain ⟨l, l'⟩ := log2_bds
  have hb := log_far h1 h
  have hp : 0 < Real.log 2 := by norm_num at l; linarith
  rw [abs_div, abs_of_pos hp, le_div_iff₀ hp]
  norm_num at l' hb ⊢; linarith
theorem lfar10 {x : ℝ} (h1 : -0.29291 ≤ x) (h : 0.2 < |x|) : 2 ^ (-4 : ℤ) ≤ |Real.log (1 + x) / Real.log 10| := by
  obtain ⟨l, l'⟩ := log10_bds
  have hb := log_far h1 h
  have hp : 0 < Real.log 10 := by norm_num at l; linarith
  rw [abs_div, abs_of_pos hp, le_div_iff₀ hp]
  norm_num at l' hb ⊢; linarith
theorem lratio : 0.30102 < Real.log 2 / Real.log 10 ∧ Real.log 2 / Real.log 10 < 0.30104 := by
  obtain ⟨l, l'⟩ := log10_bds
  obtain ⟨m, m'⟩ := log2_bds
  norm_num at l l' m m'
  rw [lt_div_iff₀ (by linarith), div_lt_iff₀ (by linarith)]
  norm_num
  constructor <;> linarith
/-- away from 1 the logarithm is not small -/
theorem lne2 {x : ℝ} {k : ℤ} (h1 : -0.29291 ≤ x) (h2 : x ≤ 0.41423) (hk : k ≠ 0) : 0.4997 ≤ |Real.log (1 + x) / Real.log 2 + k| := by
  have a := lred2 h1 h2
  have b : (1 : ℝ) ≤ |(k : ℝ)| := by exact_mod_cast Int.one_le_abs hk
  have c := abs_sub_abs_le_abs_sub (k : ℝ) (-(Real.log (1 + x) / Real.log 2))
  rw [abs_neg, sub_neg_eq_add, _root_.add_comm (k : ℝ)] at c
  norm_num at a c ⊢; linarith
theorem lne10 {x : ℝ} {k : ℤ} (h1 : -0.29291 ≤ x) (h2 : x ≤ 0.41423) (hk : k ≠ 0) : 0.1504 ≤ |Real.log (1 + x) / Real.log 10 + k * (Real.log 2 / Real.log 10)| := by
  have a := lred10 h1 h2
  have b : (1 : ℝ) ≤ |(k : ℝ)| := by exact_mod_cast Int.one_le_abs hk
  have c := abs_sub_abs_le_abs_sub (k * (Real.log 2 / Real.log 10)) (-(Real.log (1 + x) / Real.log 10))
  have r := lratio.1
  norm_num at r
  rw [abs_neg, sub_neg_eq_add, _root_.add_comm (k * (Real.log 2 / Real.log 10)), abs_mul, abs_of_pos (a := Real.log 2 / Real.log 10) (by linarith)] at c
  norm_num at a c ⊢
  nlinarith
theorem lbig2 {F : Fmt} {x : ℝ} {k : ℤ} (h1 : -0.29291 ≤ x) (h2 : x ≤ 0.41423) (hk : |k| ≤ 1100) (hF : 12 ≤ (F.bias : ℤ) - 1) :
    |Real.log (1 + x) / Real.log 2 + k| < 2 ^ ((F.bias : ℤ) - 1) := by
  have a := lred2 h1 h2
  have b : |(k : ℝ)| ≤ 1100 := by exact_mod_cast hk
  refine lt_of_lt_of_le (b := (2 : ℝ) ^ (12 : ℤ)) ?_ (zpow_le_zpow_right₀ (by norm_num) hF)
  refine (abs_add_le _ _).trans_lt ?_
  norm_num at a ⊢; linarith
theorem lbig10 {F : Fmt} {x : ℝ} {k : ℤ} (h1 : -0.29291 ≤ x) (h2 : x ≤ 0.41423) (hk : |k| ≤ 1100) (hF : 12 ≤ (F.bias : ℤ) - 1) :
    |Real.log (1 + x) / Real.log 10 + k * (Real.log 2 / Real.log 10)| < 2 ^ ((F.bias : ℤ) - 1) := by
  have a := lred10 h1 h2
  have b : |(k : ℝ)| ≤ 1100 := by exact_mod_cast hk
  obtain ⟨r, r'⟩ := lratio
  norm_num at r r'
  refine lt_of_lt_of_le (b := (2 : ℝ) ^ (12 : ℤ)) ?_ (zpow_le_zpow_right₀ (by norm_num) hF)
  refine (abs_add_le _ _).trans_lt ?_
  rw [abs_mul, abs_of_pos (a := Real.log 2 / Real.log 10) (by linarith)]
  norm_num at a ⊢; nlinarith [abs_nonneg (k : ℝ)]

theorem log2_accurate : AccuratePos 1.11 log2 (Real.logb 2) := by
  intro x xf hx
  change ∃ r, log2 x = some r ∧ WithinUlp 1.11 r (Real.logb 2 x.val)
  change 0 < x.val at hx
  by_cases h1 : x.val = 1
  · refine ⟨_, Log.filter_one h1 _, ?_⟩
    have hz : (0.0 : Flt f64).val = 0 := isZero_val.1 (by decide +kernel)
    rw [h1, Real.logb_one, ← hz]
    exact WithinUlp.exact (by norm_num) (by decide +kernel)
  · obtain ⟨f, k, hr, ff, hv, b1, b2, b3, b4⟩ := Log.filter_pos xf hx h1 Log.body2
    refine ⟨_, hr, ?_⟩
    have hp : 0 < 1 + f.val := by norm_num at b1; linarith
    rw [hv, logb2_eq hp]
    have hbig := lbig2 (F := f64) b1 b2 b4 (by rw [f64_bias]; norm_num)
    by_cases hk : k = 0
    · subst hk
      have b3 : 1 / 2 ^ 53 ≤ |f.val| := by
        rcases b3 with b3 | b3
        · exfalso; apply h1; rw [hv, b3]; norm_num
        · exact b3
      have ez : Real.log (1 + f.val) / Real.log 2 + ((0 : ℤ) : ℝ) = Real.log (1 + f.val) / Real.log 2 := by push_cast; ring
      by_cases hs : |f.val| ≤ 0.2
      · obtain ⟨q, hq, he⟩ := Log.rel2 ff hs b3
        rw [ez] at hbig ⊢
        refine WithinUlp.of_rne_rel hq ?_ hbig (by rw [f64_bias]; norm_num) he (by norm_num) (by rw [f64_sb]; norm_num) (by rw [f64_sb]; norm_num)
        have := log_lower hs
        have h3 : 0 < |f.val| := lt_of_lt_of_le (by positivity) b3
        have h4 : 0 < |Real.log (1 + f.val)| := lt_of_lt_of_le (mul_pos (by norm_num) h3) this
        exact div_ne_zero (abs_pos.1 h4) (Real.log_pos (by norm_num)).ne'
      · push Not at hs
        obtain ⟨q, hq, he⟩ := Log.abs2 (k := 0) (by norm_num) ff b1 b2 (Or.inr b3)
        refine WithinUlp.of_rne_abs2 (-2) hq ?_ hbig (by rw [f64_bias]; norm_num) he (δ := 0.605) (by rw [f64_sb]; norm_num) (by norm_num) (by norm_num) (by norm_num)
        rw [ez]
        exact lfar2 b1 hs
    · obtain ⟨q, hq, he⟩ := Log.abs2 b4 ff b1 b2 b3
      have hk' : |(k : ℝ)| ≤ 1100 := by exact_mod_cast b4
      refine WithinUlp.of_rne_abs2 (-2) hq (le_trans (by norm_num) (lne2 b1 b2 hk)) hbig (by rw [f64_bias]; norm_num) he (δ := 0.605) ?_ (by norm_num) (by norm_num) (by norm_num)
      rw [f64_sb]; norm_num

theorem log10_accurate : AccuratePos 1.31 log10 (Real.logb 10) := by
  intro x xf hx
  change ∃ r, log10 x = some r ∧ WithinUlp 1.31 r (Real.logb 10 x.val)
  change 0 < x.val at hx
  by_cases h1 : x.val = 1
  · refine ⟨_, Log.filter_one h1 _, ?_⟩
    have hz : (0.0 : Flt f64).val = 0 := isZero_val.1 (by decide +kernel)
    rw [h1, Real.logb_one, ← hz]
    exact WithinUlp.exact (by norm_num) (by decide +kernel)
  · obtain ⟨f, k, hr, ff, hv, b1, b2, b3, b4⟩ := Log.filter_pos xf hx h1 Log.body10
    refine ⟨_, hr, ?_⟩
    have hp : 0 < 1 + f.val := by norm_num at b1; linarith
    rw [hv, logb10_eq hp]
    have hbig := lbig10 (F := f64) b1 b2 b4 (by rw [f64_bias]; norm_num)
    by_cases hk : k = 0
    · subst hk
      have b3 : 1 / 2 ^ 53 ≤ |f.val| := by
        rcases b3 with b3 | b3
        · exfalso; apply h1; rw [hv, b3]; norm_num
        · exact b3
      have ez : Real.log (1 + f.val) / Real.log 10 + ((0 : ℤ) : ℝ) * (Real.log 2 / Real.log 10) = Real.log (1 + f.val) / Real.log 10 := by push_cast; ring
      by_cases hs : |f.val| ≤ 0.2
      · obtain ⟨q, hq, he⟩ := Log.rel10 ff hs b3
        rw [ez] at hbig ⊢
        refine WithinUlp.of_rne_rel hq ?_ hbig (by rw [f64_bias]; norm_num) he (by norm_num) (by rw [f64_sb]; norm_num) (by rw [f64_sb]; norm_num)
        have := log_lower hs
        have h3 : 0 < |f.val| := lt_of_lt_of_le (by positivity) b3
        have h4 : 0 < |Real.log (1 + f.val)| := lt_of_lt_of_le (mul_pos (by norm_num) h3) this
        exact div_ne_zero (abs_pos.1 h4) (Real.log_pos (by norm_num)).ne'
      · push Not at hs
        obtain ⟨q, hq, he⟩ := Log.abs10 (k := 0) (by norm_num) ff b1 b2 (Or.inr b3)
        refine WithinUlp.of_rne_abs2 (-4) hq ?_ hbig (by rw [f64_bias]; norm_num) he (δ := 0.805) (by rw [f64_sb]; norm_num) (by norm_num) (by norm_num) (by norm_num)
        rw [ez]
        exact lfar10 b1 hs
    · obtain ⟨q, hq, he⟩ := Log.abs10 b4 ff b1 b2 b3
      have hk' : |(k : ℝ)| ≤ 1100 := by exact_mod_cast b4
      refine WithinUlp.of_rne_abs2 (-3) hq (le_trans (by norm_num) (lne10 b1 b2 hk)) hbig (by rw [f64_bias]; norm_num) he (δ := 0.6) ?_ (by norm_num) (by norm_num) (by norm_num)
      rw [f64_sb]; norm_num; linarith

namespace Logf
variable {f : Flt f32} {k : ℤ}

/-- without an exponent the last addition changes nothing -/
theorem zero_add_y {s y : Flt f32} (sf : s.isFinite) (yf : y.isFinite) (y0 : y.val = 0) : (s + y).isFinite ∧ (s + y).val = s.val := by
  have := (add_rne sf yf).exact_real sf (by rw [y0, _root_.add_zero])
  rwa [y0, _root_.add_zero] at this

theorem body2_zero (ff : f.isFinite) (b1 : -0.29291 ≤ f.val) (b2 : f.val ≤ 0.41423) (b3 : 1 / 2 ^ 25 ≤ |f.val|) :
    WithinUlp 1.06 (body2 f 0) (Real.log (1 + f.val) / Real.log 2) := by
  have hbig : |Real.log (1 + f.val) / Real.log 2| < 2 ^ ((f32.bias : ℤ) - 1) := by
    have := lbig2 (F := f32) (k := 0) b1 b2 (by norm_num) (by rw [f32_bias]; norm_num)
    rwa [Int.cast_zero, _root_.add_zero] at this
  by_cases hs : |f.val| ≤ 0.2
  · obtain ⟨q, r, hq, bf, bv, he⟩ := rel2 ff hs b3
    refine WithinUlp.congr (r := r) (WithinUlp.of_rne_rel hq ?_ hbig (by rw [f32_bias]; norm_num) he (by norm_num) (by rw [f32_sb]; norm_num) (by rw [f32_sb]; norm_num)) bf bv
    have := log_lower hs
    have h3 : 0 < |f.val| := lt_of_lt_of_le (by positivity) b3
    have h4 : 0 < |Real.log (1 + f.val)| := lt_of_lt_of_le (mul_pos (by norm_num) h3) this
    exact div_ne_zero (abs_pos.1 h4) (Real.log_pos (by norm_num)).ne'
  · push Not at hs
    obtain ⟨v, vf, e, he⟩ := abs2 (k := 0) (by norm_num) ff b1 b2 (Or.inr b3)
    obtain ⟨hf, hv⟩ := vh2_exact ff b1 b2 (Or.inr b3)
    rw [← hv] at he
    
    have hw := WithinUlp.of_rne_abs2 (-2) (add_rne vf hf) (lfar2 b1 hs) hbig (by rw [f32_bias]; norm_num) he (δ := 0.553) (c := 1.06) (by rw [f32_sb]; norm_num) (by norm_num) (by norm_num) (by norm_num)
    rw [e]
    have := zero_add_y hw.1 (y := ofInt f32 0) (by decide +kernel) (isZero_val.1 (by decide +kernel))
    exact hw.congr this.1 this.2

theorem body10_zero (ff : f.isFinite) (b1 : -0.29291 ≤ f.val) (b2 : f.val ≤ 0.41423) (b3 : 1 / 2 ^ 25 ≤ |f.val|) :
    WithinUlp 1.22 (body10 f 0) (Real.log (1 + f.val) / Real.log 10) := by
  have hbig : |Real.log (1 + f.val) / Real.log 10| < 2 ^ ((f32.bias : ℤ) - 1) := by
    have := lbig10 (F := f32) (k := 0) b1 b2 (by norm_num) (by rw [f32_bias]; norm_num)
    rwa [Int.cast_zero, zero_mul, _root_.add_zero] at this
  by_cases hs : |f.val| ≤ 0.2
  · obtain ⟨q, r, hq, bf, bv, he⟩ := rel10 ff hs b3
    refine WithinUlp.congr (r := r) (WithinUlp.of_rne_rel hq ?_ hbig (by rw [f32_bias]; norm_num) he (by norm_num) (by rw [f32_sb]; norm_num) (by rw [f32_sb]; norm_num)) bf bv
    have := log_lower hs
    have h3 : 0 < |f.val| := lt_of_lt_of_le (by positivity) b3
    have h4 : 0 < |Real.log (1 + f.val)| := lt_of_lt_of_le (mul_pos (by norm_num) h3) this
    exact div_ne_zero (abs_pos.1 h4) (Real.log_pos (by norm_num)).ne'
  · push Not at hs
    obtain ⟨v, vf, e, he⟩ := abs10 (k := 0) (by norm_num) ff b1 b2 (Or.inr b3)
    obtain ⟨hf, hv⟩ := vh10_exact ff b1 b2 (Or.inr b3)
    rw [← hv] at he
    simp only [Int.cast_zero, zero_mul, _root_.add_zero, abs_zero] at he
    have hw := WithinUlp.of_rne_abs2 (-4) (add_rne vf hf) (lfar10 b1 hs) hbig (by rw [f32_bias]; norm_num) he (δ := 0.718) (c := 1.22) (by rw [f32_sb]; norm_num) (by norm_num) (by norm_num) (by norm_num)
    rw [e]
    have := zero_add_y hw.1 (y := ofInt f32 0 * log10_2hi) (by decide +kernel) (isZero_val.1 (by decide +kernel))
    exact hw.congr this.1 this.2

/-- the reduced argument is not half way between two powers of two -/
theorem lmid (h1 : -4913932 / 2 ^ 24 ≤ f.val) (h2 : f.val ≤ 3474674 / 2 ^ 23) : |Real.log (1 + f.val) / Real.log 2| ≤ 0.5 - 1 / 2 ^ 25 := by
  obtain ⟨l, l'⟩ := log2_bds
  norm_num at l l' h1 h2
  have hp : 0 < 1 + f.val := by linarith
  have e : Real.log ((1 + f.val) ^ 2) = 2 * Real.log (1 + f.val) := by rw [Real.log_pow]; norm_num
  have a1 : Real.log ((1 + f.val) ^ 2 / 2) ≤ (1 + f.val) ^ 2 / 2 - 1 := Real.log_le_sub_one_of_pos (by positivity)
  have a2 := Real.log_le_sub_one_of_pos (x := 1 / (2 * (1 + f.val) ^ 2)) (by positivity)
  rw [Real.log_div (by positivity) (by norm_num), e] at a1
  rw [Real.log_div (by norm_num) (by positivity), Real.log_one, Real.log_mul (by norm_num) (by positivity), e] at a2
  have a3 : 1 / (2 * (1 + f.val) ^ 2) ≤ 1 - 0.0000001 := by
    rw [div_le_iff₀ (by positivity)]
    norm_num
    nlinarith
  have a4 : (1 + f.val) ^ 2 / 2 ≤ 1 - 0.0000001 := by norm_num; nlinarith
  rw [abs_div, abs_of_pos (by linarith : 0 < Real.log 2), div_le_iff₀ (by linarith), abs_le]
  generalize 1 / (2 * (1 + f.val) ^ 2) = u at *
  norm_num at a3 a4 ⊢
  constructor <;> linarith

set_option maxRecDepth 100000 in
/-- the one reduced argument below the square root of one half -/
theorem body2_end (hk : |k| ≤ 160) (hk0 : k ≠ 0) (ff : f.isFinite) (h : f.val = -4913933 / 2 ^ 24) :
    WithinUlp 1.06 (body2 f k) (Real.log (1 + f.val) / Real.log 2 + k) := by
  have hf : f = bits32 0xbe95f61a := by
    have h2 : f.val = (bits32 0xbe95f61a : Flt f32).val := by
      rw [h, val_const32 (x := bits32 0xbe95f61a) (-4913933) 125 (-24) (by decide +kernel) (by norm_num)]; norm_num
    exact _root_.Verif.eq_of_val h2 (by rw [← h2, h]; norm_num)
  have e : body2 f k = bits32 0xbf000000 + ofInt f32 k := by
    have : (loOf f + hiOf f) * ivln2lo + loOf f * ivln2hi + hiOf f * ivln2hi = bits32 0xbf000000 := by rw [hf]; decide +kernel
    unfold body2
    rw [this]
  have hm : (bits32 0xbf000000 : Flt f32).val = -1 / 2 := by
    rw [val_const32 (x := bits32 0xbf000000) (-1) 148 (-1) (by decide +kernel) (by norm_num)]; norm_num
  obtain ⟨kf, kv⟩ := Powf.ofInt_val (n := k) (hk.trans (by norm_num))
  obtain ⟨c, cf, cv⟩ := exists_val32' (n := 2 * k - 1) (k := -1) (by rw [abs_le] at hk ⊢; constructor <;> omega) (by omega) (by omega)
  obtain ⟨rf, rv⟩ := (add_rne (x := bits32 0xbf000000) (by decide +kernel) kf).exact_real cf (by rw [cv, hm, kv]; push_cast; norm_num; ring)
  rw [hm, kv] at rv
  rw [← e] at rf rv
  obtain ⟨l, l'⟩ := log2_bds
  have hL : |Real.log (1 + f.val) / Real.log 2 + 1 / 2| ≤ 0.0000000248 := by
    norm_num at l l'
    have hp : 0 < 1 + f.val := by rw [h]; norm_num
    have e : Real.log (1 + f.val) / Real.log 2 + 1 / 2 = (Real.log (2 * (1 + f.val) ^ 2) / 2) / Real.log 2 := by
      rw [Real.log_mul (by norm_num) (by positivity), Real.log_pow]
      field_simp
      push_cast
      ring
    have a1 := Real.log_le_sub_one_of_pos (x := 2 * (1 + f.val) ^ 2) (by positivity)
    have a2 := Real.one_sub_inv_le_log_of_pos (x := 2 * (1 + f.val) ^ 2) (by positivity)
    have a3 : (2 * (1 + f.val) ^ 2)⁻¹ ≤ 1 + 0.00000003422855 := by
      rw [h]; norm_num
    have a4 : 2 * (1 + f.val) ^ 2 ≤ 1 := by rw [h]; norm_num
    rw [e, abs_div, abs_of_pos (by linarith : 0 < Real.log 2), div_le_iff₀ (by linarith), abs_le]
    generalize (2 * (1 + f.val) ^ 2)⁻¹ = u at *
    norm_num at a3 ⊢
    constructor <;> linarith
  refine WithinUlp.of_abs (-2) rf (le_trans (by norm_num) (lne2 (by rw [h]; norm_num) (by rw [h]; norm_num) hk0)) (a := 0.0000000248) ?_ (by rw [f32_sb]; norm_num) (by norm_num)
  rw [rv, show -1 / 2 + (k : ℝ) - (Real.log (1 + f.val) / Real.log 2 + k) = -(Real.log (1 + f.val) / Real.log 2 + 1 / 2) by ring, abs_neg]
  exact hL

theorem body2_ne (hk : |k| ≤ 160) (hk0 : k ≠ 0) (ff : f.isFinite) (h1 : -4913933 / 2 ^ 24 ≤ f.val) (h2 : f.val ≤ 3474674 / 2 ^ 23) (h0 : f.val = 0 ∨ 1 / 2 ^ 24 ≤ |f.val|)
    (hg : ∃ n : ℤ, f.val = n * (1 / 2 ^ 24)) : WithinUlp 1.06 (body2 f k) (Real.log (1 + f.val) / Real.log 2 + k) := by
  by_cases hend : f.val = -4913933 / 2 ^ 24
  · exact body2_end hk hk0 ff hend
  have h1' : -4913932 / 2 ^ 24 ≤ f.val := by
    obtain ⟨n, hn⟩ := hg
    rw [hn] at h1 hend ⊢
    have h3 : -4913933 ≤ n := by
      have : (-4913933 : ℝ) ≤ n := by norm_num at h1; linarith
      exact_mod_cast this
    have h4 : n ≠ -4913933 := by rintro rfl; apply hend; norm_num
    have h5 : (-4913932 : ℝ) ≤ n := by exact_mod_cast (by omega : (-4913932 : ℤ) ≤ n)
    norm_num; linarith
  have b1 : -0.29291 ≤ f.val := le_trans (by norm_num) h1
  have b2 : f.val ≤ 0.41423 := h2.trans (by norm_num)
  have b3 : f.val = 0 ∨ 1 / 2 ^ 25 ≤ |f.val| := h0.imp_right (fun h => le_trans (by norm_num) h)
  have hm := lmid h1' h2
  obtain ⟨v, vf, e, he⟩ := abs2 hk ff b1 b2 b3
  obtain ⟨hf, hv⟩ := vh2_exact ff b1 b2 b3
  rw [← hv] at he
  rw [e]
  obtain ⟨kf, kv⟩ := Powf.ofInt_val (n := k) (hk.trans (by norm_num))
  have hq : |v.val + (hiOf f * ivln2hi).val| ≤ 2 ^ (-1 : ℤ) := by
    have := abs_sub_abs_le_abs_sub (v.val + (hiOf f * ivln2hi).val) (Real.log (1 + f.val) / Real.log 2)
    norm_num at this hm he ⊢; linarith
  obtain ⟨sf, se⟩ := add_err32 vf hf (-1) hq (by norm_num)
  generalize v + hiOf f * ivln2hi = s at *
  have hb : |Real.log (1 + f.val) / Real.log 2 + k| < 2 ^ ((f32.bias : ℤ) - 1) := lbig2 b1 b2 (hk.trans (by norm_num)) (by rw [f32_bias]; norm_num)
  have hhalf : (2 : ℝ) ^ (-1 : ℤ) ≤ |Real.log (1 + f.val) / Real.log 2 + k| := by
    have b : (1 : ℝ) ≤ |(k : ℝ)| := by exact_mod_cast Int.one_le_abs hk0
    have c := abs_sub_abs_le_abs_sub (k : ℝ) (-(Real.log (1 + f.val) / Real.log 2))
    rw [abs_neg, sub_neg_eq_add, _root_.add_comm (k : ℝ)] at c
    norm_num at hm c ⊢; linarith
  refine WithinUlp.of_rne_abs2 (-1) (add_rne sf kf) hhalf hb (by rw [f32_bias]; norm_num) (a := (4519 / 2 ^ 38) + 2 ^ (-1 - 25 : ℤ)) (δ := 0.53) ?_ (by rw [f32_sb]; norm_num) (by norm_num) (by norm_num) (by norm_num)
  rw [kv, show s.val + (k : ℝ) - (Real.log (1 + f.val) / Real.log 2 + k) = s.val - Real.log (1 + f.val) / Real.log 2 by ring]
  refine (abs_sub_le s.val (v.val + (hiOf f * ivln2hi).val) _).trans ?_
  rw [_root_.add_comm]
  exact add_le_add he se

theorem body10_ne (hk : |k| ≤ 160) (hk0 : k ≠ 0) (ff : f.isFinite) (b1 : -0.29291 ≤ f.val) (b2 : f.val ≤ 0.41423) (b3 : f.val = 0 ∨ 1 / 2 ^ 25 ≤ |f.val|) :
    WithinUlp 1.22 (body10 f k) (Real.log (1 + f.val) / Real.log 10 + k * (Real.log 2 / Real.log 10)) := by
  obtain ⟨v, vf, e, he⟩ := abs10 hk ff b1 b2 b3
  obtain ⟨hf, hv⟩ := vh10_exact ff b1 b2 b3
  obtain ⟨yf, yv⟩ := y10_exact (k := k) hk
  rw [← hv, ← yv] at he
  rw [e]
  have hk' : |(k : ℝ)| ≤ 160 := by exact_mod_cast hk
  have hb : |Real.log (1 + f.val) / Real.log 10 + k * (Real.log 2 / Real.log 10)| < 2 ^ ((f32.bias : ℤ) - 1) := lbig10 b1 b2 (hk.trans (by norm_num)) (by rw [f32_bias]; norm_num)
  have hne := lne10 b1 b2 hk0
  have hq : |v.val + (hiOf f * ivln10hi).val| ≤ 2 ^ (-2 : ℤ) := by
    have s := l10_split
    have r := lred10 b1 b2
    have x := lratio
    have e1 : v.val + (hiOf f * ivln10hi).val = (v.val + (hiOf f * ivln10hi).val + (ofInt f32 k * log10_2hi).val - (Real.log (1 + f.val) / Real.log 10 + k * (Real.log 2 / Real.log 10)))
        + Real.log (1 + f.val) / Real.log 10 - k * (log10_2hi.val - Real.log 2 / Real.log 10) := by rw [yv]; ring
    have s2 : |log10_2hi.val - Real.log 2 / Real.log 10| ≤ 0.000001 := by
      rw [log10_2lo_val] at s
      rw [abs_le] at s ⊢
      norm_num at s ⊢
      constructor <;> linarith [s.1, s.2]
    rw [e1]
    refine (abs_sub _ _).trans ((add_le_add_left (abs_add_le _ _) _).trans ?_)
    rw [abs_mul]
    have := mul_le_mul hk' s2 (abs_nonneg _) (by norm_num)
    norm_num at he r this hk' ⊢
    linarith
  generalize ht : Real.log (1 + f.val) / Real.log 10 + k * (Real.log 2 / Real.log 10) = t at *
  have he' : |v.val + (hiOf f * ivln10hi).val + (ofInt f32 k * log10_2hi).val - t| ≤ 0.0902 / 2 ^ 24 := by
    refine he.trans ?_
    norm_num; linarith
  have hygrid : ∃ n : ℤ, (ofInt f32 k * log10_2hi).val = n * (2 : ℝ) ^ (-26 : ℤ) := by
    refine ⟨k * 78913 * 256, ?_⟩
    rw [yv, log10_2hi_val]; push_cast; norm_num; ring
  have sadd := fun j hj hj2 => add_err32 vf hf j hj hj2
  generalize ofInt f32 k * log10_2hi = y at *
  have srn := add_rne vf hf
  generalize v + hiOf f * ivln10hi = s at *
  obtain ⟨sf, se⟩ := sadd (-2) hq (by norm_num)
  have tri : ∀ d, |s.val - (v.val + (hiOf f * ivln10hi).val)| ≤ d → |s.val + y.val - t| ≤ 0.0902 / 2 ^ 24 + d := fun d hd => by
    have e2 : s.val + y.val - t = (v.val + (hiOf f * ivln10hi).val + y.val - t) + (s.val - (v.val + (hiOf f * ivln10hi).val)) := by ring
    rw [e2]
    exact (abs_add_le _ _).trans (add_le_add he' hd)
  by_cases ht4 : (2 : ℝ) ^ (-2 : ℤ) ≤ |t|
  · exact WithinUlp.of_rne_abs2 (-2) (add_rne sf yf) ht4 hb (by rw [f32_bias]; norm_num) (tri _ se) (δ := 0.6) (by rw [f32_sb]; norm_num) (by norm_num) (by norm_num) (by norm_num)
  push Not at ht4
  have ht8 : (2 : ℝ) ^ (-3 : ℤ) ≤ |t| := le_trans (by norm_num) hne
  by_cases hq8 : |v.val + (hiOf f * ivln10hi).val| ≤ 2 ^ (-3 : ℤ)
  · have se := (sadd (-3) hq8 (by norm_num)).2
    exact WithinUlp.of_rne_abs2 (-3) (add_rne sf yf) ht8 hb (by rw [f32_bias]; norm_num) (tri _ se) (δ := 0.7) (by rw [f32_sb]; norm_num) (by norm_num) (by norm_num) (by norm_num)
  · push Not at hq8
    have hs8 : (2 : ℝ) ^ (-3 : ℤ) ≤ |s.val| := by
      obtain ⟨c, cf, cv⟩ := exists_val32' (n := 1) (k := -3) (by norm_num) (by norm_num) (by norm_num)
      rw [Int.cast_one, one_mul] at cv
      rcases le_total 0 (v.val + (hiOf f * ivln10hi).val) with h0 | h0
      · rw [abs_of_nonneg h0] at hq8
        rw [← cv]
        exact (srn.ge_of_ge sf cf (by rw [cv]; exact hq8.le)).trans (le_abs_self _)
      · rw [abs_of_nonpos h0] at hq8
        rw [← cv]
        have := srn.le_of_le sf ((isFinite_neg c).2 cf) (by rw [val_neg, cv]; linarith)
        rw [val_neg] at this
        exact le_trans (by linarith) (neg_le_abs _)
    obtain ⟨n, hn⟩ := grid32 s (-3) hs8
    obtain ⟨m, hm⟩ := hygrid
    have hsum : s.val + y.val = ((n + m : ℤ) : ℝ) * 2 ^ (-26 : ℤ) := by
      rw [hn, hm]; push_cast; norm_num; ring
    have hN : |n + m| ≤ 2 ^ 24 := by
      have h3 := tri _ se
      have h4 := abs_sub_abs_le_abs_sub (s.val + y.val) t
      rw [hsum] at h3 h4
      rw [abs_mul, abs_of_pos (a := (2 : ℝ) ^ (-26 : ℤ)) (by positivity)] at h4
      have h5 : |((n + m : ℤ) : ℝ)| < 2 ^ 24 + 1 := by
        generalize |((n + m : ℤ) : ℝ)| = N at *
        norm_num at h3 h4 ht4 ⊢
        linarith
      have h6 : |n + m| < 2 ^ 24 + 1 := by exact_mod_cast h5
      omega
    obtain ⟨c, cf, cv⟩ := exists_val32' hN (k := -26) (by norm_num) (by norm_num)
    obtain ⟨rf, rv⟩ := (add_rne sf yf).exact_real cf (by rw [cv, hsum])
    exact WithinUlp.of_abs (-3) rf ht8 (a := 0.0902 / 2 ^ 24 + 2 ^ (-2 - 25 : ℤ)) (by rw [rv]; exact tri _ se) (by rw [f32_sb]; norm_num) (by norm_num)
end Logf

theorem log2f_accurate : AccuratePos 1.06 log2f (Real.logb 2) := by
  intro x xf hx
  change ∃ r, log2f x = some r ∧ WithinUlp 1.06 r (Real.logb 2 x.val)
  change 0 < x.val at hx
  by_cases h1 : x.val = 1
  · refine ⟨_, Logf.filter_one h1 _, ?_⟩
    have hz : (0.0 : Flt f32).val = 0 := isZero_val.1 (by decide +kernel)
    rw [h1, Real.logb_one, ← hz]
    exact WithinUlp.exact (by norm_num) (by decide +kernel)
  · obtain ⟨f, k, hr, ff, hv, b1, b2, b3, b4, hg⟩ := Logf.filter_tight xf hx h1 Logf.body2
    refine ⟨_, hr, ?_⟩
    have hp : 0 < 1 + f.val := by norm_num at b1; linarith
    rw [hv, logb2_eq hp]
    by_cases hk : k = 0
    · subst hk
      have b3 : 1 / 2 ^ 24 ≤ |f.val| := by
        rcases b3 with b3 | b3
        · exfalso; apply h1; rw [hv, b3]; norm_num
        · exact b3
      have := Logf.body2_zero ff (le_trans (by norm_num) b1) (b2.trans (by norm_num)) (le_trans (by norm_num) b3)
      rwa [Int.cast_zero, _root_.add_zero]
    · exact Logf.body2_ne b4 hk ff b1 b2 b3 hg

theorem log10f_accurate : AccuratePos 1.22 log10f (Real.logb 10) := by
  intro x xf hx
  change ∃ r, log10f x = some r ∧ WithinUlp 1.22 r (Real.logb 10 x.val)
  change 0 < x.val at hx
  by_cases h1 : x.val = 1
  · refine ⟨_, Logf.filter_one h1 _, ?_⟩
    have hz : (0.0 : Flt f32).val = 0 := isZero_val.1 (by decide +kernel)
    rw [h1, Real.logb_one, ← hz]
    exact WithinUlp.exact (by norm_num) (by decide +kernel)
  · obtain ⟨f, k, hr, ff, hv, b1, b2, b3, b4⟩ := Logf.filter_pos xf hx h1 Logf.body10
    refine ⟨_, hr, ?_⟩
    have hp : 0 < 1 + f.val := by norm_num at b1; linarith
    rw [hv, logb10_eq hp]
    by_cases hk : k = 0
    · subst hk
      have b3 : 1 / 2 ^ 24 ≤ |f.val| := by
        rcases b3 with b3 | b3
        · exfalso; apply h1; rw [hv, b3]; norm_num
        · exact b3
      have := Logf.body10_zero ff (le_trans (by norm_num) b1) (b2.trans (by norm_num)) (le_trans (by norm_num) b3)
      rwa [Int.cast_zero, zero_mul, _root_.add_zero]
    · exact Logf.body10_ne b4 hk ff b1 b2 (b3.imp_right (fun h => le_trans (by norm_num) h))

/-- the claim at values that are not powers -/
example : ∃ r, log2 (3.0 : Flt f64) = some r ∧ WithinUlp 1.11 r (Real.logb 2 3) := by
  have h : (3.0 : Flt f64).val = 3 := by
    rw [val_const64 (x := (3.0 : Flt f64)) 3 1074 0 (by decide +kernel) (by norm_num)]; norm_num
  have := log2_accurate (3.0 : Flt f64) (by decide +kernel) (by change 0 < (3.0 : Flt f64).val; rw [h]; norm_num)
  change ∃ r, _ ∧ WithinUlp 1.11 r (Real.logb 2 (3.0 : Flt f64).val) at this
  rwa [h] at this
example : ∃ r, log10f (50.0 : Flt f32) = some r ∧ WithinUlp 1.22 r (Real.logb 10 50) := by
  have h : (50.0 : Flt f32).val = 50 := by
    rw [val_const32 (x := (50.0 : Flt f32)) 25 150 1 (by decide +kernel) (by norm_num)]; norm_num
  have := log10f_accurate (50.0 : Flt f32) (by decide +kernel) (by change 0 < (50.0 : Flt f32).val; rw [h]; norm_num)
  change ∃ r, _ ∧ WithinUlp 1.22 r (Real.logb 10 (50.0 : Flt f32).val) at this
  rwa [h] at this

end Verif
