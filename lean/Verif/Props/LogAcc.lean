import Verif.Theory.LogBody

/-!
# C60: `log` and `logf` are accurate to one unit in the last place

The exact value is Mathlib's `Real.log` of the argument.
-/

namespace Verif
open Flt

/-- `f` computes `g` to within `c` units in the last place at every finite positive argument -/
def AccuratePos {F : Fmt} (c : ℝ) (f : Flt F → Option (Flt F)) (g : ℝ → ℝ) : Prop :=
  ∀ x : Flt F, x.isFinite → 0 < ((x.toRat : ℚ) : ℝ) → ∃ r, f x = some r ∧ WithinUlp c r (g ((x.toRat : ℚ) : ℝ))

theorem sign_of_pos {F : Fmt} {x : Flt F} (h : 0 < x.val) : x.sign = false := by
  by_contra hc
  exact absurd h (not_lt.2 (val_nonpos (by simpa using hc)))

theorem ulp_le_of_pos {F : Fmt} {x : Flt F} (h : 0 < x.val) : (2 : ℝ) ^ (1 - (F.bias : ℤ) - F.sb) ≤ x.val := by
  rw [val_eq, ulp_real] at *
  have hp : (0 : ℝ) < 2 ^ (1 - (F.bias : ℤ) - F.sb) := by positivity
  have h1 : (0 : ℝ) < x.sval := by
    by_contra hc
    push Not at hc
    exact absurd h (not_lt.2 (mul_nonpos_of_nonpos_of_nonneg hc hp.le))
  have h2 : (1 : ℝ) ≤ x.sval := by exact_mod_cast h1
  exact le_mul_of_one_le_left hp.le h2

theorem log_mul_zpow {a : ℝ} (h : 0 < a) (k : ℤ) : Real.log (a * 2 ^ k) = Real.log a + k * Real.log 2 := by
  rw [Real.log_mul h.ne' (by positivity), Real.log_zpow]

namespace Log
theorem one_iff {x : Flt f64} (hs : x.sign = false) : x.mb = 0x3ff0000000000000 ↔ x.val = 1 := by
  constructor
  · intro h
    have : x = one f64 := ext_mb (by rw [hs]; decide +kernel) (by rw [h]; decide +kernel)
    rw [this, val_one]
  · intro h
    have : x = one f64 := sval_eq_one (by
      have h2 : x.val = (one f64).val := by rw [h, val_one]
      rw [val_eq, val_eq] at h2
      have hp : (((f64.ulp : ℚ) : ℝ)) ≠ 0 := by rw [ulp_real]; positivity
      exact_mod_cast mul_right_cancel₀ hp h2)
    rw [this]; decide +kernel

theorem filter_one {x : Flt f64} (h : x.val = 1) (body : Flt f64 → Int → Flt f64) : filter x body = some 0.0 := by
  have hs := sign_of_pos (x := x) (by rw [h]; norm_num)
  have hm := (one_iff hs).2 h
  rw [filter_eq, hm, if_neg (by rw [hs]; decide), if_neg (by decide), if_pos rfl]

/-- what the shared start of log.rs, log2.rs and log10.rs does with a positive finite argument other than 1 -/
theorem filter_pos {x : Flt f64} (xf : x.isFinite) (hx : 0 < x.val) (h1 : x.val ≠ 1) (body : Flt f64 → Int → Flt f64) :
    ∃ f k, filter x body = some (body f k) ∧ f.isFinite ∧ x.val = (1 + f.val) * 2 ^ k ∧ -0.29291 ≤ f.val ∧ f.val ≤ 0.41423 ∧
      (f.val = 0 ∨ 1 / 2 ^ 53 ≤ |f.val|) ∧ |k| ≤ 1100 := by
  have hs := sign_of_pos hx
  have hfin := (isFinite64 x).1 xf
  have hm0 : x.mb ≠ 0 := by
    intro hc
    have : x.isZero := by rw [isZero_iff]; exact hc
    rw [isZero_val] at this
    linarith
  have ho := mt (one_iff hs).1 h1
  rw [filter_eq]
  by_cases c1 : x.mb / 2 ^ 32 < 0x00100000
  · rw [if_pos (Or.inl c1), if_neg hm0, if_neg (by rw [hs]; decide)]
    have hlo := ulp_le_of_pos hx
    rw [f64_bias, f64_sb] at hlo
    have hup : x.val ≤ 2 ^ (-1022 : ℤ) := by
      have := val_mono (x := mk' f64 false (2 ^ 52)) (y := x) (by rw [mb_mk' (by decide)]; omega)
      rw [abs_of_pos hx, val_const64 (x := mk' f64 false (2 ^ 52)) 1 52 (-1022) (by decide +kernel) (by norm_num), Int.cast_one, one_mul] at this
      rwa [abs_of_pos (by positivity)] at this
    have hv54 : (bits64 0x4350000000000000 : Flt f64).val = 2 ^ (54 : ℤ) := by
      rw [val_const64 (x := bits64 0x4350000000000000) 1 1128 54 (by decide +kernel) (by norm_num)]; norm_num
    have e1 : (2 : ℝ) ^ (-1074 : ℤ) * 2 ^ (54 : ℤ) = 2 ^ (-1020 : ℤ) := by rw [← zpow_add₀ (by norm_num)]; norm_num
    have e2 : (2 : ℝ) ^ (-1022 : ℤ) * 2 ^ (54 : ℤ) = 2 ^ (-968 : ℤ) := by rw [← zpow_add₀ (by norm_num)]; norm_num
    have g1 : (2 : ℝ) ^ (-1020 : ℤ) ≤ x.val * 2 ^ (54 : ℤ) := by
      rw [← e1]; exact mul_le_mul_of_nonneg_right hlo (by positivity)
    have g2 : x.val * 2 ^ (54 : ℤ) ≤ 2 ^ (-968 : ℤ) := by
      rw [← e2]; exact mul_le_mul_of_nonneg_right hup (by positivity)
    have g0 : |x.val * 2 ^ (54 : ℤ)| = x.val * 2 ^ (54 : ℤ) := abs_of_pos (by positivity)
    obtain ⟨c, cf, cv⟩ := scale_exact64 (x := x) 54 (by rw [g0]; exact le_trans (zpow_le_zpow_right₀ (by norm_num) (by norm_num)) g1)
      (by rw [g0]; exact lt_of_le_of_lt g2 (zpow_lt_zpow_right₀ (by norm_num) (by norm_num)))
    obtain ⟨yf, yv⟩ := (mul_rne (y := bits64 0x4350000000000000) xf (by decide +kernel)).exact_real cf (by rw [cv, hv54])
    rw [hv54] at yv
    generalize x * bits64 0x4350000000000000 = y at yf yv ⊢
    have hy : 0 < y.val := by rw [yv]; positivity
    have hys := sign_of_pos hy
    have hyf := (isFinite64 y).1 yf
    have hym : 2 ^ 52 ≤ y.mb := by
      by_contra hc
      have := val_mono (x := mk' f64 false (2 ^ 52)) (y := y) (by rw [mb_mk' (by decide)]; omega)
      rw [abs_of_pos hy, val_const64 (x := mk' f64 false (2 ^ 52)) 1 52 (-1022) (by decide +kernel) (by norm_num), Int.cast_one, one_mul,
        abs_of_pos (by positivity), yv] at this
      exact absurd (g1.trans this) (not_le.2 (zpow_lt_zpow_right₀ (by norm_num) (by norm_num)))
    obtain ⟨f, k, hr, ff, hv, b1, b2, b3, b4, b5⟩ := reduce_spec hys hym (by omega) (-54) (by norm_num)
    rw [hr]
    refine ⟨f, -54 + k, rfl, ff, ?_, le_trans (by norm_num) b1, b2.trans (by norm_num), b3, by rw [abs_le]; constructor <;> omega⟩
    rw [zpow_add₀ (by norm_num), mul_comm ((2 : ℝ) ^ (-54 : ℤ)), ← mul_assoc, ← hv, yv, mul_assoc, ← zpow_add₀ (by norm_num)]
    norm_num
  · rw [if_neg (by rintro (hc | hc); exact c1 hc; rw [hs] at hc; cases hc), if_neg (by omega), if_neg ho]
    obtain ⟨f, k, hr, ff, hv, b1, b2, b3, b4, b5⟩ := reduce_spec hs (by omega) (by omega) 0 (by norm_num)
    rw [hr, _root_.zero_add]
    refine ⟨f, k, rfl, ff, hv, le_trans (by norm_num) b1, b2.trans (by norm_num), b3, by rw [abs_le]; constructor <;> omega⟩
end Log

theorem log_accurate : AccuratePos 0.99 log Real.log := by
  intro x xf hx
  change ∃ r, log x = some r ∧ WithinUlp 0.99 r (Real.log x.val)
  change 0 < x.val at hx
  by_cases h1 : x.val = 1
  · refine ⟨_, Log.filter_one h1 _, ?_⟩
    have hz : (0.0 : Flt f64).val = 0 := isZero_val.1 (by decide +kernel)
    rw [h1, Real.log_one, ← hz]
    exact WithinUlp.exact (by norm_num) (by decide +kernel)
  · obtain ⟨f, k, hr, ff, hv, b1, b2, b3, b4⟩ := Log.filter_pos xf hx h1 Log.body
    refine ⟨_, hr, ?_⟩
    have hp : 0 < 1 + f.val := by norm_num at b1; linarith
    rw [hv, log_mul_zpow hp]
    by_cases hk : k = 0
    · subst hk
      rcases b3 with b3 | b3
      · exfalso; apply h1; rw [hv, b3]; norm_num
      · have := Log.body_zero ff b1 b2 b3
        simpa using this
    · exact Log.body_ne ff b1 b2 b3 b4 hk

namespace Logf
theorem one_iff {x : Flt f32} (hs : x.sign = false) : x.mb = 0x3f800000 ↔ x.val = 1 := by
  constructor
  · intro h
    have : x = one f32 := ext_mb (by rw [hs]; decide +kernel) (by rw [h]; decide +kernel)
    rw [this, val_one]
  · intro h
    have : x = one f32 := sval_eq_one (by
      have h2 : x.val = (one f32).val := by rw [h, val_one]
      rw [val_eq, val_eq] at h2
      have hp : (((f32.ulp : ℚ) : ℝ)) ≠ 0 := by rw [ulp_real]; positivity
      exact_mod_cast mul_right_cancel₀ hp h2)
    rw [this]; decide +kernel

theorem filter_one {x : Flt f32} (h : x.val = 1) (body : Flt f32 → Int → Flt f32) : filter x body = some 0.0 := by
  have hs := sign_of_pos (x := x) (by rw [h]; norm_num)
  have hm := (one_iff hs).2 h
  rw [filter_eq, hm, if_neg (by rw [hs]; decide), if_neg (by decide), if_pos rfl]

/-- what the shared start of logf.rs, log2f.rs and log10f.rs does with a positive finite argument other than 1 -/
theorem filter_tight {x : Flt f32} (xf : x.isFinite) (hx : 0 < x.val) (h1 : x.val ≠ 1) (body : Flt f32 → Int → Flt f32) :
    ∃ f k, filter x body = some (body f k) ∧ f.isFinite ∧ x.val = (1 + f.val) * 2 ^ k ∧ -4913933 / 2 ^ 24 ≤ f.val ∧ f.val ≤ 3474674 / 2 ^ 23 ∧
      (f.val = 0 ∨ 1 / 2 ^ 24 ≤ |f.val|) ∧ |k| ≤ 160 ∧ ∃ n : ℤ, f.val = n * (1 / 2 ^ 24) := by
  have hs := sign_of_pos hx
  have hfin := (isFinite32 x).1 xf
  have hm0 : x.mb ≠ 0 := by
    intro hc
    have : x.isZero := by rw [isZero_iff]; exact hc
    rw [isZero_val] at this
    linarith
  have ho := mt (one_iff hs).1 h1
  rw [filter_eq]
  by_cases c1 : x.mb < 0x00800000
  · rw [if_pos (Or.inl c1), if_neg hm0, if_neg (by rw [hs]; decide)]
    have hlo := ulp_le_of_pos hx
    rw [f32_bias, f32_sb] at hlo
    have hup : x.val ≤ 2 ^ (-126 : ℤ) := by
      have := val_mono (x := mk' f32 false (2 ^ 23)) (y := x) (by rw [mb_mk' (by decide)]; omega)
      rw [abs_of_pos hx, val_const32 (x := mk' f32 false (2 ^ 23)) 1 23 (-126) (by decide +kernel) (by norm_num), Int.cast_one, one_mul] at this
      rwa [abs_of_pos (by positivity)] at this
    have hv54 : (bits32 0x4c000000 : Flt f32).val = 2 ^ (25 : ℤ) := by
      rw [val_const32 (x := bits32 0x4c000000) 1 174 25 (by decide +kernel) (by norm_num)]; norm_num
    have e1 : (2 : ℝ) ^ (-149 : ℤ) * 2 ^ (25 : ℤ) = 2 ^ (-124 : ℤ) := by rw [← zpow_add₀ (by norm_num)]; norm_num
    have e2 : (2 : ℝ) ^ (-126 : ℤ) * 2 ^ (25 : ℤ) = 2 ^ (-101 : ℤ) := by rw [← zpow_add₀ (by norm_num)]; norm_num
    have g1 : (2 : ℝ) ^ (-124 : ℤ) ≤ x.val * 2 ^ (25 : ℤ) := by
      rw [← e1]; exact mul_le_mul_of_nonneg_right hlo (by positivity)
    have g2 : x.val * 2 ^ (25 : ℤ) ≤ 2 ^ (-101 : ℤ) := by
      rw [← e2]; exact mul_le_mul_of_nonneg_right hup (by positivity)
    have g0 : |x.val * 2 ^ (25 : ℤ)| = x.val * 2 ^ (25 : ℤ) := abs_of_pos (by positivity)
    obtain ⟨c, cf, cv⟩ := scale_exact32 (x := x) 25 (by rw [g0]; exact le_trans (zpow_le_zpow_right₀ (by norm_num) (by norm_num)) g1)
      (by rw [g0]; exact lt_of_le_of_lt g2 (zpow_lt_zpow_right₀ (by norm_num) (by norm_num)))
    obtain ⟨yf, yv⟩ := (mul_rne (y := bits32 0x4c000000) xf (by decide +kernel)).exact_real cf (by rw [cv, hv54])
    rw [hv54] at yv
    generalize x * bits32 0x4c000000 = y at yf yv ⊢
    have hy : 0 < y.val := by rw [yv]; positivity
    have hys := sign_of_pos hy
    have hyf := (isFinite32 y).1 yf
    have hym : 2 ^ 23 ≤ y.mb := by
      by_contra hc
      have := val_mono (x := mk' f32 false (2 ^ 23)) (y := y) (by rw [mb_mk' (by decide)]; omega)
      rw [abs_of_pos hy, val_const32 (x := mk' f32 false (2 ^ 23)) 1 23 (-126) (by decide +kernel) (by norm_num), Int.cast_one, one_mul,
        abs_of_pos (by positivity), yv] at this
      exact absurd (g1.trans this) (not_le.2 (zpow_lt_zpow_right₀ (by norm_num) (by norm_num)))
    obtain ⟨f, k, hr, ff, hv, b1, b2, b3, b4, b5, b6⟩ := reduce_spec hys hym (by omega) (-25) (by norm_num)
    rw [hr]
    refine ⟨f, -25 + k, rfl, ff, ?_, b1, b2, b3, by rw [abs_le]; constructor <;> omega, b6⟩
    rw [zpow_add₀ (by norm_num), mul_comm ((2 : ℝ) ^ (-25 : ℤ)), ← mul_assoc, ← hv, yv, mul_assoc, ← zpow_add₀ (by norm_num)]
    norm_num
  · rw [if_neg (by rintro (hc | hc); exact c1 hc; rw [hs] at hc; cases hc), if_neg (by omega), if_neg ho]
    obtain ⟨f, k, hr, ff, hv, b1, b2, b3, b4, b5, b6⟩ := reduce_spec hs (by omega) (by omega) 0 (by norm_num)
    rw [hr, _root_.zero_add]
    refine ⟨f, k, rfl, ff, hv, b1, b2, b3, by rw [abs_le]; constructor <;> omega, b6⟩

theorem filter_pos {x : Flt f32} (xf : x.isFinite) (hx : 0 < x.val) (h1 : x.val ≠ 1) (body : Flt f32 → Int → Flt f32) :
    ∃ f k, filter x body = some (body f k) ∧ f.isFinite ∧ x.val = (1 + f.val) * 2 ^ k ∧ -0.29291 ≤ f.val ∧ f.val ≤ 0.41423 ∧
      (f.val = 0 ∨ 1 / 2 ^ 24 ≤ |f.val|) ∧ |k| ≤ 160 := by
  obtain ⟨f, k, a, b, c, d, e, g, h, -⟩ := filter_tight xf hx h1 body
  exact ⟨f, k, a, b, c, le_trans (by norm_num) d, e.trans (by norm_num), g, h⟩
end Logf

theorem logf_accurate : AccuratePos 0.99 logf Real.log := by
  intro x xf hx
  change ∃ r, logf x = some r ∧ WithinUlp 0.99 r (Real.log x.val)
  change 0 < x.val at hx
  by_cases h1 : x.val = 1
  · refine ⟨_, Logf.filter_one h1 _, ?_⟩
    have hz : (0.0 : Flt f32).val = 0 := isZero_val.1 (by decide +kernel)
    rw [h1, Real.log_one, ← hz]
    exact WithinUlp.exact (by norm_num) (by decide +kernel)
  · obtain ⟨f, k, hr, ff, hv, b1, b2, b3, b4⟩ := Logf.filter_pos xf hx h1 Logf.body
    refine ⟨_, hr, ?_⟩
    have hp : 0 < 1 + f.val := by norm_num at b1; linarith
    rw [hv, log_mul_zpow hp]
    by_cases hk : k = 0
    · subst hk
      rcases b3 with b3 | b3
      · exfalso; apply h1; rw [hv, b3]; norm_num
      · have := Logf.body_zero ff b1 b2 b3
        simpa using this
    · exact Logf.body_ne ff b1 b2 b3 b4 hk

/-- the hypotheses hold of ordinary arguments: `log 2` is within 0.99 units in the last place of the logarithm of 2 -/
example : ∃ r, log (2.0 : Flt f64) = some r ∧ WithinUlp 0.99 r (Real.log 2) := by
  have := log_accurate (2.0 : Flt f64) (by decide +kernel) (by change 0 < (2.0 : Flt f64).val; rw [KTanD.two_val]; norm_num)
  have e : (((2.0 : Flt f64).toRat : ℚ) : ℝ) = 2 := KTanD.two_val
  rwa [e] at this
/-- and of the smallest subnormal -/
example : ∃ r, logf (mk' f32 false 1) = some r ∧ WithinUlp 0.99 r (Real.log ((mk' f32 false 1).toRat : ℝ)) :=
  logf_accurate (mk' f32 false 1) (by decide +kernel) (by
    change 0 < (mk' f32 false 1).val
    rw [val_const32 (x := mk' f32 false 1) 1 0 (-149) (by decide +kernel) (by norm_num)]; positivity)
end Verif
