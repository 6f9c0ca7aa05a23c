import Verif.Theory.Hypot2

/-! # hypotf: accuracy -/

namespace Verif
namespace Hypotf
open Flt Hypot

/-- widening is exact -/
theorem widen {x : Flt f32} (hx : x.isFinite) : (x.cast f64).isFinite ∧ (x.cast f64).val = x.val := by
  have h := cast_rne (G := f64) hx
  obtain ⟨c, cf, cv⟩ : ∃ c : Flt f64, c.isFinite ∧ c.val = x.val := by
    rcases eq_or_ne x.val 0 with h0 | h0
    · exact ⟨zero f64 false, isFinite_zero _, by rw [val_zero, h0]⟩
    · have hpos : 0 < |x.val| := abs_pos.2 h0
      obtain ⟨k, k1, k2⟩ := exists_mem_Ico_zpow (y := (2 : ℝ)) hpos (by norm_num)
      obtain ⟨n, hn⟩ := grid32 x k k1
      have hk1 : -149 ≤ k := by
        have h1 := val_ge_min (x := x) (fun hz => h0 (isZero_val.1 hz))
        rw [f32_bias, f32_sb] at h1
        by_contra hc
        have : (2 : ℝ) ^ (k + 1) ≤ 2 ^ (1 - ((127 : ℕ) : ℤ) - (23 : ℕ)) := zpow_le_zpow_right₀ (by norm_num) (by push_cast; omega)
        linarith
      have hk2 : k < 128 := by
        have h1 := val_lt_top32 hx
        by_contra hc
        have : (2 : ℝ) ^ (127 + 1 : ℤ) ≤ 2 ^ k := zpow_le_zpow_right₀ (by norm_num) (by omega)
        norm_num at this h1
        linarith
      have hz := zp (k - 23)
      obtain ⟨c, cf, cv⟩ := exists_val64' (n := n) (k := k - 23) (by
        rw [hn, abs_mul, abs_of_pos hz, show k + 1 = 24 + (k - 23) by ring, zadd] at k2
        have h3 := (lt_of_mul_lt_mul_right k2 hz.le).le
        have h4 : |n| ≤ 2 ^ 24 := by exact_mod_cast h3
        omega) (by omega) (by omega)
      exact ⟨c, cf, by rw [cv, hn]⟩
  exact h.exact_real cf cv

/-- the product of two widened f32 values is exact in f64 -/
theorem sq_exact {x : Flt f32} (hx : x.isFinite) (h1 : 2 ^ (-60 : ℤ) ≤ x.val) (h2 : x.val < 2 ^ (60 : ℤ)) :
    (x.cast f64 * x.cast f64).isFinite ∧ (x.cast f64 * x.cast f64).val = x.val ^ 2 := by
  obtain ⟨wf, wv⟩ := widen hx
  have hx0 : 0 < x.val := (zp _).trans_le h1
  obtain ⟨n, e, hv, n1, n2, -, -⟩ := norm_form32 (x := x) (by
    rw [abs_of_pos hx0]; exact (zpow_le_zpow_right₀ (by norm_num) (by norm_num)).trans h1) hx
  have hE := zp e
  have hn : 0 < n := by
    rw [hv] at hx0
    have := pos_of_mul_pos_left hx0 hE.le
    exact_mod_cast this
  rw [abs_of_pos hn] at n1 n2
  have n1' : (2 : ℝ) ^ (23 : ℤ) ≤ n := by exact_mod_cast n1
  have n2' : (n : ℝ) < 2 ^ (24 : ℤ) := by exact_mod_cast n2
  have e1 : -90 ≤ e := by
    by_contra hc
    have h3 : x.val < 2 ^ (24 + e) := by rw [hv, zadd]; exact mul_lt_mul_of_pos_right n2' hE
    have h4 : (2 : ℝ) ^ (24 + e) ≤ 2 ^ (-60 : ℤ) := zpow_le_zpow_right₀ (by norm_num) (by omega)
    linarith
  have e2 : e ≤ 40 := by
    by_contra hc
    have h3 : 2 ^ (23 + e) ≤ x.val := by rw [hv, zadd]; exact mul_le_mul_of_nonneg_right n1' hE.le
    have h4 : (2 : ℝ) ^ (60 : ℤ) ≤ 2 ^ (23 + e) := zpow_le_zpow_right₀ (by norm_num) (by omega)
    linarith
  obtain ⟨c, cf, cv⟩ := exists_val64' (n := n * n) (k := 2 * e) (by rw [abs_of_pos (by positivity)]; nlinarith) (by omega)
    (by omega)
  have := (mul_rne wf wf).exact_real cf (by
    rw [cv, wv, hv, two_mul, zadd]; push_cast; ring)
  rwa [wv, ← pow_two] at this

/-- the argument handed to `sqrtf` -/
theorem sum_sq {x y : Flt f32} (hx : x.isFinite) (hy : y.isFinite) (h1 : 2 ^ (-60 : ℤ) ≤ y.val) (hyx : y.val ≤ x.val)
    (h2 : x.val < 2 ^ (60 : ℤ)) :
    ((x.cast f64 * x.cast f64 + y.cast f64 * y.cast f64).cast f32).isFinite ∧
    |((x.cast f64 * x.cast f64 + y.cast f64 * y.cast f64).cast f32).val - (x.val ^ 2 + y.val ^ 2)| ≤
      7 / 4 * 2 ^ (-24 : ℤ) * (x.val ^ 2 + y.val ^ 2) := by
  obtain ⟨xf, xv⟩ := sq_exact hx (h1.trans hyx) h2
  obtain ⟨yf, yv⟩ := sq_exact hy h1 (hyx.trans_lt h2)
  have hy0 : 0 < y.val := (zp _).trans_le h1
  have hX : x.val ^ 2 ≤ 2 ^ (120 : ℤ) := by
    calc x.val ^ 2 ≤ (2 ^ (60 : ℤ)) ^ 2 := pow_le_pow_left₀ (by linarith) h2.le 2
      _ = _ := by rw [← zpow_natCast, ← zpow_mul]; norm_num
  have hYX : y.val ^ 2 ≤ x.val ^ 2 := pow_le_pow_left₀ hy0.le hyx 2
  have hY0 : (2 : ℝ) ^ (-120 : ℤ) ≤ y.val ^ 2 := by
    calc (2 : ℝ) ^ (-120 : ℤ) = (2 ^ (-60 : ℤ)) ^ 2 := by rw [← zpow_natCast, ← zpow_mul]; norm_num
      _ ≤ _ := pow_le_pow_left₀ (zp _).le h1 2
  have hYp : 0 < y.val ^ 2 := (zp _).trans_le hY0
  have s0 : |x.val ^ 2 + y.val ^ 2| = x.val ^ 2 + y.val ^ 2 := abs_of_pos (by linarith)
  obtain ⟨sf, se⟩ := add_rel64 xf yf (by
    rw [xv, yv, s0]
    have h3 : (2 : ℝ) ^ (121 : ℤ) ≤ 2 ^ (1023 : ℤ) := zpow_le_zpow_right₀ (by norm_num) (by norm_num)
    have h4 : (2 : ℝ) ^ (121 : ℤ) = 2 ^ (120 : ℤ) * 2 := by rw [show (121 : ℤ) = 120 + 1 by norm_num, zadd]; norm_num
    generalize (2 : ℝ) ^ (1023 : ℤ) = T at *
    linarith [zp 120])
  rw [xv, yv, s0] at se
  set s := x.cast f64 * x.cast f64 + y.cast f64 * y.cast f64 with hs
  generalize x.val ^ 2 = X at *
  generalize y.val ^ 2 = Y at *
  have se' := abs_le.1 se
  norm_num at se' hX hY0
  have sp : 0 < s.val := by linarith
  obtain ⟨cf, ce⟩ := (cast_rne (G := f32) sf).rel32 (by
    rw [abs_of_pos sp]; norm_num; linarith) (by
    rw [abs_of_pos sp]; norm_num; linarith)
  rw [abs_of_pos sp] at ce
  have ce' := abs_le.1 ce
  norm_num at ce'
  refine ⟨cf, ?_⟩
  norm_num
  rw [abs_le]
  constructor <;> linarith

theorem sqrt_step {s : Flt f32} (hs : s.isFinite) {S : ℝ} (h1 : 2 ^ (-122 : ℤ) ≤ S) (h2 : S ≤ 2 ^ (122 : ℤ))
    (h : |s.val - S| ≤ 7 / 4 * 2 ^ (-24 : ℤ) * S) :
    ∃ r, sqrtf s = some r ∧ r.sign = false ∧ r.isFinite ∧ 0 < r.val ∧ |r.val - √S| ≤ 39 / 40 * 2 ^ (-23 : ℤ) * √S := by
  have hS : 0 < S := (zp _).trans_le h1
  have h' := abs_le.1 h
  have hs0 : 0 < s.val := by norm_num at h'; linarith
  have hsign : s.sign = false := by
    by_contra hc
    have : s.sign = true := by simpa using hc
    have h3 : s.sval ≤ 0 := by unfold sval; rw [this]; simp
    rw [val_eq] at hs0
    have h4 : (0 : ℝ) < ((f32.ulp : ℚ) : ℝ) := by exact_mod_cast f32.ulp_pos
    have h5 : (s.sval : ℝ) ≤ 0 := by exact_mod_cast h3
    nlinarith
  obtain ⟨r, hr, hrs, hrr⟩ := sqrtf_correct.pos s hs hsign (fun hz => hs0.ne' (isZero_val.1 hz))
  have hsq : √S ^ 2 = S := Real.sq_sqrt hS.le
  have hsq2 : √s.val ^ 2 = s.val := Real.sq_sqrt hs0.le
  have n1 := sqrt_near (a := √s.val) (b := √S) (u := 2 ^ (-24 : ℤ)) (Real.sqrt_nonneg _) (Real.sqrt_nonneg _) (zp _).le
    (by norm_num) (by rw [hsq, hsq2]; exact h)
  have lo : (2 : ℝ) ^ (-61 : ℤ) ≤ √S := by
    apply Real.le_sqrt_of_sq_le
    refine le_trans (le_of_eq ?_) h1
    rw [← zpow_natCast, ← zpow_mul]; norm_num
  have hi : √S ≤ 2 ^ (61 : ℤ) := by
    apply Real.sqrt_le_iff.2 ⟨(zp _).le, h2.trans ?_⟩
    rw [← zpow_natCast, ← zpow_mul]; exact zpow_le_zpow_right₀ (by norm_num) (by norm_num)
  have n2 := abs_le.1 n1
  have hb : 0 < √S := (zp _).trans_le lo
  norm_num at n2 lo hi
  have a1 : √S / 2 ≤ √s.val := by linarith
  have a2 : √s.val ≤ √S * 2 := by linarith
  change IsRNE (√s.val) r at hrr
  obtain ⟨rf, re⟩ := hrr.rel32 (by
    rw [abs_of_nonneg (Real.sqrt_nonneg _)]; norm_num; linarith) (by
    rw [abs_of_nonneg (Real.sqrt_nonneg _)]; norm_num; linarith)
  rw [abs_of_nonneg (Real.sqrt_nonneg _)] at re
  have re' := abs_le.1 re
  norm_num at re'
  refine ⟨r, hr, hrs, rf, by linarith, ?_⟩
  norm_num
  rw [abs_le]
  constructor <;> linarith

/-- the accuracy claim for f32 -/
def Acc32 (r : Flt f32) (h : ℝ) : Prop :=
  (r.isFinite ∧ |r.val - h| ≤ 2 ^ (-23 : ℤ) * h + 2 ^ (-150 : ℤ)) ∨ (r.isInf ∧ (1 - 2 ^ (-22 : ℤ)) * 2 ^ (128 : ℤ) ≤ h)

theorem thr32 : ((overflowThreshold f32 : ℚ) : ℝ) = 2 ^ (128 : ℤ) * (1 - 2 ^ (-25 : ℤ)) := by
  unfold overflowThreshold
  rw [f32_bias, f32_sb]
  push_cast
  norm_num

/-- scaling back -/
theorem unscale {r0 z : Flt f32} {j : ℤ} (hz : z.isFinite) (hzv : z.val = 2 ^ j) (hr : r0.isFinite) (h0 : 0 < r0.val)
    {h : ℝ} (hh : 0 ≤ h) (he : |r0.val - h| ≤ 39 / 40 * 2 ^ (-23 : ℤ) * h) :
    (z * r0).sign = false ∧ Acc32 (z * r0) (h * 2 ^ j) := by
  have hrne : IsRNE (r0.val * 2 ^ j) (z * r0) := by
    have := mul_rne hz hr
    rwa [hzv, mul_comm] at this
  have hj := zp j
  have hpos : 0 < r0.val * 2 ^ j := mul_pos h0 hj
  have he' : |r0.val * 2 ^ j - h * 2 ^ j| ≤ 39 / 40 * 2 ^ (-23 : ℤ) * (h * 2 ^ j) := by
    rw [← sub_mul, abs_mul, abs_of_pos hj]
    calc |r0.val - h| * 2 ^ j ≤ 39 / 40 * 2 ^ (-23 : ℤ) * h * 2 ^ j := mul_le_mul_of_nonneg_right he hj.le
      _ = _ := by ring
  have hb := abs_le.1 he'
  have hh' : 0 ≤ h * 2 ^ j := by positivity
  generalize h * 2 ^ j = H at *
  by_cases hf : (z * r0).isFinite
  · have hs := scale_err32 j hrne hf
    refine ⟨?_, Or.inl ⟨hf, ?_⟩⟩
    · have h3 := hrne
      unfold IsRNE at h3
      split at h3
      · exact absurd hf (not_finite_of_inf h3.1)
      · have := h3.2.2.2 hpos.ne'
        by_contra hc
        have hc' : (z * r0).sign = true := by simpa using hc
        linarith [this.1 hc']
    · have hs' := abs_le.1 hs
      norm_num at hs' hb ⊢
      rw [abs_le]
      constructor <;> linarith
  · unfold IsRNE at hrne
    split at hrne
    case isFalse h' => exact absurd hrne.1 hf
    case isTrue h' =>
      refine ⟨?_, Or.inr ⟨hrne.1, ?_⟩⟩
      · by_contra hc
        have hc' : (z * r0).sign = true := by simpa using hc
        linarith [hrne.2.1 hc']
      · rw [abs_of_pos hpos, thr32] at h'
        norm_num at h' hb ⊢
        linarith

theorem c90 : (bits32 0x6c800000).isFinite ∧ (bits32 0x6c800000).val = 2 ^ (90 : ℤ) := by
  refine ⟨by decide +kernel, ?_⟩
  rw [val_const32 1 239 90 (by decide +kernel) (by norm_num)]; simp
theorem c_90 : (bits32 0x12800000).isFinite ∧ (bits32 0x12800000).val = 2 ^ (-90 : ℤ) := by
  refine ⟨by decide +kernel, ?_⟩
  rw [val_const32 1 59 (-90) (by decide +kernel) (by norm_num)]; simp
theorem c1 : (1.0 : Flt f32).isFinite ∧ (1.0 : Flt f32).val = 2 ^ (0 : ℤ) := by
  refine ⟨by decide +kernel, ?_⟩
  rw [val_const32 1 149 0 (by decide +kernel) (by norm_num)]; simp

theorem mul_pow {x z : Flt f32} {j : ℤ} (hx : x.isFinite) (hz : z.isFinite) (hzv : z.val = 2 ^ j)
    (h1 : 2 ^ (-126 - j) ≤ x.val) (h2 : x.val < 2 ^ (128 - j)) : (x * z).isFinite ∧ (x * z).val = x.val * 2 ^ j := by
  have hj := zp j
  have hx0 : 0 < x.val := (zp _).trans_le h1
  have e : |x.val * 2 ^ j| = x.val * 2 ^ j := abs_of_pos (mul_pos hx0 hj)
  obtain ⟨c, cf, cv⟩ := scale_exact32 (x := x) j (by
    rw [e, show (-126 : ℤ) = (-126 - j) + j by ring, zadd]; exact mul_le_mul_of_nonneg_right h1 hj.le) (by
    rw [e, show (128 : ℤ) = (128 - j) + j by ring, zadd]; exact mul_lt_mul_of_pos_right h2 hj)
  have := (mul_rne hx hz).exact_real cf (by rw [cv, hzv])
  rwa [hzv] at this

/-- what the scaling achieves -/
structure Scaled (x y : Flt f32) (o : Flt f32 × Flt f32 × Flt f32) (j : ℤ) : Prop where
  zf : o.1.isFinite
  zv : o.1.val = 2 ^ j
  xf : o.2.1.isFinite
  yf : o.2.2.isFinite
  xv : o.2.1.val * 2 ^ j = x.val
  yv : o.2.2.val * 2 ^ j = y.val
  lo : 2 ^ (-60 : ℤ) ≤ o.2.2.val
  le : o.2.2.val ≤ o.2.1.val
  hi : o.2.1.val < 2 ^ (60 : ℤ)

theorem u32_pos {X : Flt f32} (hs : X.sign = false) : X.u32.toNat = X.mb := by rw [u32_toNat, hs]; simp

theorem scale_spec {X Y : Flt f32} (hX : X.isFinite) (hY : Y.isFinite) (sX : X.sign = false) (sY : Y.sign = false)
    (hle : Y.mb ≤ X.mb) (h0 : 0 < Y.mb) (hd : X.mb - Y.mb < 25 * 2 ^ 23) :
    ∃ j, Scaled X Y (hypotfScale X Y X.u32 Y.u32) j := by
  have x0 := val_nonneg sX
  have y0 := val_nonneg sY
  have hvle : Y.val ≤ X.val := by have := val_mono hle; rwa [abs_of_nonneg x0, abs_of_nonneg y0] at this
  have hXt : X.val < 2 ^ (128 : ℤ) := by have := val_lt_top32 hX; rwa [abs_of_nonneg x0] at this
  have hYm : (2 : ℝ) ^ (-149 : ℤ) ≤ Y.val := by
    have := val_ge_min (x := Y) (fun h => by rw [isZero_iff] at h; omega)
    rwa [f32_bias, f32_sb, abs_of_nonneg y0] at this
  have ge : ∀ (Z : Flt f32) (E : ℕ), Z.sign = false → 1 ≤ E → E * 2 ^ 23 ≤ Z.mb → (2 : ℝ) ^ ((E : ℤ) - 127) ≤ Z.val := by
    intro Z E sZ hE h
    have := val_ge_of_mb (x := Z) hE (by rw [f32_sb]; omega)
    rwa [f32_bias, abs_of_nonneg (val_nonneg sZ)] at this
  have lt : ∀ (Z : Flt f32) (E : ℕ), Z.sign = false → 1 ≤ E → Z.mb < E * 2 ^ 23 → Z.val < (2 : ℝ) ^ ((E : ℤ) - 127) := by
    intro Z E sZ hE h
    have := val_lt_of_mb (x := Z) hE (by rw [f32_sb]; omega)
    rwa [f32_bias, abs_of_nonneg (val_nonneg sZ)] at this
  have t1 : ((0x7f + 60 : BitVec 32) <<< 23).toNat = 187 * 2 ^ 23 := by decide
  have t2 : ((0x7f - 60 : BitVec 32) <<< 23).toNat = 67 * 2 ^ 23 := by decide
  unfold hypotfScale
  simp only [ge_iff_le, BitVec.le_def, BitVec.lt_def, t1, t2, u32_pos sX, u32_pos sY]
  split
  case isTrue h =>
    have g1 := ge X 187 sX (by norm_num) (by omega)
    have g2 := ge Y 162 sY (by norm_num) (by omega)
    have hx1 : (2 : ℝ) ^ (-126 - -90 : ℤ) ≤ X.val := (zpow_le_zpow_right₀ (by norm_num) (by norm_num)).trans g1
    have hy1 : (2 : ℝ) ^ (-126 - -90 : ℤ) ≤ Y.val := (zpow_le_zpow_right₀ (by norm_num) (by norm_num)).trans g2
    have hx2 : X.val < 2 ^ (128 - -90 : ℤ) := hXt.trans_le (zpow_le_zpow_right₀ (by norm_num) (by norm_num))
    obtain ⟨a, b⟩ := mul_pow hX c_90.1 c_90.2 hx1 hx2
    obtain ⟨c, d⟩ := mul_pow hY c_90.1 c_90.2 hy1 (hvle.trans_lt hx2)
    have hone : (2 : ℝ) ^ (-90 : ℤ) * 2 ^ (90 : ℤ) = 1 := by rw [← zadd]; norm_num
    refine ⟨90, c90.1, c90.2, a, c, ?_, ?_, ?_, ?_, ?_⟩
    · show (X * _).val * _ = _
      rw [b, mul_assoc, hone, mul_one]
    · show (Y * _).val * _ = _
      rw [d, mul_assoc, hone, mul_one]
    · show _ ≤ (Y * _).val
      rw [d]
      calc (2 : ℝ) ^ (-60 : ℤ) ≤ 2 ^ ((162 : ℕ) - 127 : ℤ) * 2 ^ (-90 : ℤ) := by
            rw [← zadd]; exact zpow_le_zpow_right₀ (by norm_num) (by norm_num)
        _ ≤ _ := mul_le_mul_of_nonneg_right g2 (zp _).le
    · show (Y * _).val ≤ (X * _).val
      rw [b, d]; exact mul_le_mul_of_nonneg_right hvle (zp _).le
    · show (X * _).val < _
      rw [b]
      calc X.val * 2 ^ (-90 : ℤ) < 2 ^ (128 : ℤ) * 2 ^ (-90 : ℤ) := mul_lt_mul_of_pos_right hXt (zp _)
        _ ≤ _ := by rw [← zadd]; exact zpow_le_zpow_right₀ (by norm_num) (by norm_num)
  case isFalse h =>
    split
    case isTrue h' =>
      have g1 := lt X 92 sX (by norm_num) (by omega)
      have hy1 : (2 : ℝ) ^ (-126 - 90 : ℤ) ≤ Y.val := (zpow_le_zpow_right₀ (by norm_num) (by norm_num)).trans hYm
      have hx2 : X.val < 2 ^ (128 - 90 : ℤ) := g1.trans_le (zpow_le_zpow_right₀ (by norm_num) (by norm_num))
      obtain ⟨a, b⟩ := mul_pow hX c90.1 c90.2 (hy1.trans hvle) hx2
      obtain ⟨c, d⟩ := mul_pow hY c90.1 c90.2 hy1 (hvle.trans_lt hx2)
      have hone : (2 : ℝ) ^ (90 : ℤ) * 2 ^ (-90 : ℤ) = 1 := by rw [← zadd]; norm_num
      refine ⟨-90, c_90.1, c_90.2, a, c, ?_, ?_, ?_, ?_, ?_⟩
      · show (X * _).val * _ = _
        rw [b, mul_assoc, hone, mul_one]
      · show (Y * _).val * _ = _
        rw [d, mul_assoc, hone, mul_one]
      · show _ ≤ (Y * _).val
        rw [d]
        calc (2 : ℝ) ^ (-60 : ℤ) ≤ 2 ^ (-149 : ℤ) * 2 ^ (90 : ℤ) := by
              rw [← zadd]; exact zpow_le_zpow_right₀ (by norm_num) (by norm_num)
          _ ≤ _ := mul_le_mul_of_nonneg_right hYm (zp _).le
      · show (Y * _).val ≤ (X * _).val
        rw [b, d]; exact mul_le_mul_of_nonneg_right hvle (zp _).le
      · show (X * _).val < _
        rw [b]
        calc X.val * 2 ^ (90 : ℤ) < 2 ^ ((92 : ℕ) - 127 : ℤ) * 2 ^ (90 : ℤ) := mul_lt_mul_of_pos_right g1 (zp _)
          _ ≤ _ := by rw [← zadd]; exact zpow_le_zpow_right₀ (by norm_num) (by norm_num)
    case isFalse h' =>
      have g1 := lt X 187 sX (by norm_num) (by omega)
      have g2 := ge Y 67 sY (by norm_num) (by omega)
      refine ⟨0, c1.1, c1.2, hX, hY, by simp, by simp, ?_, hvle, ?_⟩
      · exact (zpow_le_zpow_right₀ (by norm_num) (by norm_num)).trans g2
      · exact g1.trans_le (zpow_le_zpow_right₀ (by norm_num) (by norm_num))

theorem gap {a b c k : ℕ} (h : c * k ≤ a - b) (hk : 0 < c * k) : (b / k + c) * k ≤ a := by
  have h1 := Nat.div_mul_le_self b k
  rw [Nat.add_mul]
  generalize c * k = c at *
  omega

theorem ord_acc {X Y : Flt f32} (hX : X.isFinite) (hY : Y.isFinite) (sX : X.sign = false) (sY : Y.sign = false)
    (hle : Y.mb ≤ X.mb) :
    ∃ r, hypotfOrd X.u32 Y.u32 = some r ∧ r.sign = false ∧ Acc32 r (√(X.val ^ 2 + Y.val ^ 2)) := by
  have x0 := val_nonneg sX
  have y0 := val_nonneg sY
  have hXm := (isFinite32 X).1 hX
  have hYm := (isFinite32 Y).1 hY
  have hu : Y.u32 = 0 ↔ Y.mb = 0 := by
    rw [← BitVec.toNat_inj, u32_pos sY]; simp
  have ti : ((0xff : BitVec 32) <<< 23).toNat = 0x7f800000 := by decide
  have t25 : ((25 : BitVec 32) <<< 23).toNat = 25 * 2 ^ 23 := by decide
  have hui : Y.u32 ≠ (0xff : BitVec 32) <<< 23 := by
    intro h
    rw [← BitVec.toNat_inj, ti, u32_pos sY] at h
    omega
  unfold hypotfOrd usub
  simp only [bits32_u32]
  rw [if_neg hui]
  by_cases h0 : Y.mb = 0
  · rw [if_pos (Or.inr (hu.2 h0))]
    have hYz : Y.isZero := (isZero_iff Y).2 h0
    have hYv : Y.val = 0 := isZero_val.1 hYz
    have e : X + Y = X := by
      by_cases hz : X.isZero
      · rw [eq_zero hz, eq_zero hYz, sX, sY]; decide
      · exact add_zero' (not_nan_of_finite hX) hz hYz
    refine ⟨X, by rw [e], sX, Or.inl ⟨hX, ?_⟩⟩
    rw [hYv]
    norm_num [Real.sqrt_sq x0]
    positivity
  rw [if_neg (by rw [hu, ge_iff_le, BitVec.le_def, ti, u32_pos sX]; omega)]
  simp only [u32_pos sX, u32_pos sY, hle, if_true, Option.bind_eq_bind, Option.bind_some, ge_iff_le, BitVec.le_def, t25]
  have hsub : (X.u32 - Y.u32).toNat = X.mb - Y.mb := by
    rw [BitVec.toNat_sub, u32_pos sX, u32_pos sY]
    have := mb32_lt X
    have := mb32_lt Y
    omega
  rw [hsub]
  by_cases hd : 25 * 2 ^ 23 ≤ X.mb - Y.mb
  · rw [if_pos hd]
    have hsmall : Y.val ≤ 2 ^ (-24 : ℤ) * X.val := by
      have hE : 1 ≤ Y.mb / 2 ^ 23 + 1 := by omega
      have a := val_lt_of_mb (x := Y) hE (by rw [f32_sb]; omega)
      have hb : (Y.mb / 2 ^ 23 + 25) * 2 ^ f32.sb ≤ X.mb := by
        rw [f32_sb]
        exact gap hd (by norm_num)
      have b := val_ge_of_mb (x := X) (Nat.le_add_left 1 (Y.mb / 2 ^ 23 + 24)) hb
      rw [f32_bias, abs_of_nonneg y0] at a
      rw [f32_bias, abs_of_nonneg x0] at b
      have e : (2 : ℝ) ^ (((Y.mb / 2 ^ 23 + 25 : ℕ) : ℤ) - (127 : ℕ)) =
          2 ^ (((Y.mb / 2 ^ 23 + 1 : ℕ) : ℤ) - (127 : ℕ)) * 2 ^ (24 : ℤ) := by
        rw [← zadd]; congr 1; push_cast; ring
      rw [e] at b
      norm_num at a b ⊢
      linarith
    refine ⟨X + Y, rfl, ?_⟩
    obtain ⟨b1, b2⟩ := hyp_bounds x0 y0
    have hr := add_rne hX hY
    have hYpos : 0 < Y.val := lt_of_le_of_ne y0 (fun h => h0 ((isZero_iff Y).1 (isZero_val.2 h.symm)))
    have hpos : 0 < X.val + Y.val := by linarith
    unfold IsRNE at hr
    generalize √(X.val ^ 2 + Y.val ^ 2) = h at *
    split at hr
    case isTrue ht =>
      refine ⟨?_, Or.inr ⟨hr.1, ?_⟩⟩
      · by_contra hc
        have hc' : (X + Y).sign = true := by simpa using hc
        linarith [hr.2.1 hc']
      · rw [abs_of_pos hpos, thr32] at ht
        norm_num at ht hsmall ⊢
        linarith
    case isFalse ht =>
      refine ⟨?_, Or.inl ⟨hr.1, ?_⟩⟩
      · by_contra hc
        have hc' : (X + Y).sign = true := by simpa using hc
        linarith [(hr.2.2.2 hpos.ne').1 hc']
      · have := hr.2.1 X hX
        change |(X + Y).val - (X.val + Y.val)| ≤ |X.val - (X.val + Y.val)| at this
        rw [show X.val - (X.val + Y.val) = -Y.val by ring, abs_neg, abs_of_nonneg y0] at this
        have h4 := abs_le.1 this
        norm_num at hsmall ⊢
        rw [abs_le]
        constructor <;> linarith
  · rw [if_neg hd]
    obtain ⟨j, hs⟩ := scale_spec hX hY sX sY hle (by omega) (by omega)
    generalize hypotfScale X Y X.u32 Y.u32 = o at *
    obtain ⟨z, x, y⟩ := o
    obtain ⟨zf, zv, xf, yf, xv, yv, lo, le, hi⟩ := hs
    simp only at *
    obtain ⟨sf, se⟩ := sum_sq xf yf lo le hi
    have hypos : 0 < y.val := (zp _).trans_le lo
    have hxx : x.val ^ 2 ≤ 2 ^ (120 : ℤ) := by
      calc x.val ^ 2 ≤ (2 ^ (60 : ℤ)) ^ 2 := pow_le_pow_left₀ (by linarith) hi.le 2
        _ = _ := by rw [← zpow_natCast, ← zpow_mul]; norm_num
    have hyx : y.val ^ 2 ≤ x.val ^ 2 := pow_le_pow_left₀ hypos.le le 2
    have hyy : (2 : ℝ) ^ (-122 : ℤ) ≤ y.val ^ 2 := by
      calc (2 : ℝ) ^ (-122 : ℤ) ≤ (2 ^ (-60 : ℤ)) ^ 2 := by
            rw [← zpow_natCast, ← zpow_mul]; exact zpow_le_zpow_right₀ (by norm_num) (by norm_num)
        _ ≤ _ := pow_le_pow_left₀ (zp _).le lo 2
    obtain ⟨r, hr, rs, rf, r0, re⟩ := sqrt_step sf (S := x.val ^ 2 + y.val ^ 2) (by
      have : 0 ≤ x.val ^ 2 := sq_nonneg _
      linarith) (by norm_num at hxx ⊢; linarith) se
    rw [hr]
    refine ⟨z * r, rfl, ?_⟩
    have := unscale zf zv rf r0 (Real.sqrt_nonneg _) re
    have e : √(X.val ^ 2 + Y.val ^ 2) = √(x.val ^ 2 + y.val ^ 2) * 2 ^ j := by
      rw [← xv, ← yv]
      have : (x.val * 2 ^ j) ^ 2 + (y.val * 2 ^ j) ^ 2 = (x.val ^ 2 + y.val ^ 2) * (2 ^ j) ^ 2 := by ring
      rw [this, Real.sqrt_mul (by positivity), Real.sqrt_sq (zp j).le]
    rw [e]
    exact this

end Hypotf
end Verif
