import Verif.Theory.Hypot

/-! # hypot: the scaled computation and the whole function -/

namespace Verif
namespace Hypot
open Flt

theorem exp_field {X : Flt f64} (hs : X.sign = false) : ((X.u64 >>> 52).toNat : ℤ) = (X.mb / 2 ^ 52 : ℕ) := by
  rw [BV.shr, u64_toNat, hs]; simp

theorem c700 : (bits64 0x6bb0000000000000).isFinite ∧ (bits64 0x6bb0000000000000).val = 2 ^ (700 : ℤ) := by
  refine ⟨by decide +kernel, ?_⟩
  rw [val_const64 1 1774 700 (by decide +kernel) (by norm_num)]; simp
theorem c_700 : (bits64 0x1430000000000000).isFinite ∧ (bits64 0x1430000000000000).val = 2 ^ (-700 : ℤ) := by
  refine ⟨by decide +kernel, ?_⟩
  rw [val_const64 1 374 (-700) (by decide +kernel) (by norm_num)]; simp
theorem c1 : (1.0 : Flt f64).isFinite ∧ (1.0 : Flt f64).val = 2 ^ (0 : ℤ) := by
  refine ⟨by decide +kernel, ?_⟩
  rw [val_const64 1 1074 0 (by decide +kernel) (by norm_num)]; simp

/-- multiplying by a power of two inside the normal range -/
theorem mul_pow {x z : Flt f64} {j : ℤ} (hx : x.isFinite) (hz : z.isFinite) (hzv : z.val = 2 ^ j)
    (h1 : 2 ^ (-1022 - j) ≤ x.val) (h2 : x.val < 2 ^ (1024 - j)) : (x * z).isFinite ∧ (x * z).val = x.val * 2 ^ j := by
  have hj := zp j
  have hx0 : 0 < x.val := (zp _).trans_le h1
  have e : |x.val * 2 ^ j| = x.val * 2 ^ j := abs_of_pos (mul_pos hx0 hj)
  obtain ⟨c, cf, cv⟩ := scale_exact64 (x := x) j (by
    rw [e, show (-1022 : ℤ) = (-1022 - j) + j by ring, zadd]; exact mul_le_mul_of_nonneg_right h1 hj.le) (by
    rw [e, show (1024 : ℤ) = (1024 - j) + j by ring, zadd]; exact mul_lt_mul_of_pos_right h2 hj)
  have := (mul_rne hx hz).exact_real cf (by rw [cv, hzv])
  rwa [hzv] at this

/-- what the scaling achieves -/
structure Scaled (x y : Flt f64) (o : Flt f64 × Flt f64 × Flt f64) (j : ℤ) : Prop where
  zf : o.1.isFinite
  zv : o.1.val = 2 ^ j
  xf : o.2.1.isFinite
  yf : o.2.2.isFinite
  xv : o.2.1.val * 2 ^ j = x.val
  yv : o.2.2.val * 2 ^ j = y.val
  lo : 2 ^ (-475 : ℤ) ≤ o.2.2.val
  le : o.2.2.val ≤ o.2.1.val
  hi : o.2.1.val < 2 ^ (511 : ℤ)

theorem scale_spec {X Y : Flt f64} (hX : X.isFinite) (hY : Y.isFinite) (sX : X.sign = false) (sY : Y.sign = false)
    (hle : Y.mb ≤ X.mb) (h0 : 0 < Y.mb) (hd : ((X.mb / 2 ^ 52 : ℕ) : ℤ) - (Y.mb / 2 ^ 52 : ℕ) ≤ 64) :
    ∃ j, Scaled X Y (hypotScale X Y (X.mb / 2 ^ 52 : ℕ) (Y.mb / 2 ^ 52 : ℕ)) j := by
  have x0 := val_nonneg sX
  have y0 := val_nonneg sY
  have hvle : Y.val ≤ X.val := by have := val_mono hle; rwa [abs_of_nonneg x0, abs_of_nonneg y0] at this
  have hXt : X.val < 2 ^ (1024 : ℤ) := by have := val_lt_top64 hX; rwa [abs_of_nonneg x0] at this
  have hYm : (2 : ℝ) ^ (-1074 : ℤ) ≤ Y.val := by
    have := val_ge_min (x := Y) (fun h => by rw [isZero_iff] at h; omega)
    rwa [f64_bias, f64_sb, abs_of_nonneg y0] at this
  have ge : ∀ (Z : Flt f64) (E : ℕ), Z.sign = false → 1 ≤ E → E ≤ Z.mb / 2 ^ 52 → (2 : ℝ) ^ ((E : ℤ) - 1023) ≤ Z.val := by
    intro Z E sZ hE h
    have := val_ge_of_mb (x := Z) hE (by rw [f64_sb]; omega)
    rwa [f64_bias, abs_of_nonneg (val_nonneg sZ)] at this
  have lt : ∀ (Z : Flt f64) (E : ℕ), Z.sign = false → 1 ≤ E → Z.mb / 2 ^ 52 < E → Z.val < (2 : ℝ) ^ ((E : ℤ) - 1023) := by
    intro Z E sZ hE h
    have := val_lt_of_mb (x := Z) hE (by rw [f64_sb]; omega)
    rwa [f64_bias, abs_of_nonneg (val_nonneg sZ)] at this
  unfold hypotScale
  simp only
  generalize hex : X.mb / 2 ^ 52 = ex at *
  generalize hey : Y.mb / 2 ^ 52 = ey at *
  split
  case isTrue h =>
    have g1 := ge X 1534 sX (by norm_num) (by omega)
    have g2 := ge Y 1470 sY (by norm_num) (by omega)
    have hx1 : (2 : ℝ) ^ (-1022 - -700 : ℤ) ≤ X.val := (zpow_le_zpow_right₀ (by norm_num) (by norm_num)).trans g1
    have hy1 : (2 : ℝ) ^ (-1022 - -700 : ℤ) ≤ Y.val := (zpow_le_zpow_right₀ (by norm_num) (by norm_num)).trans g2
    have hx2 : X.val < 2 ^ (1024 - -700 : ℤ) := hXt.trans_le (zpow_le_zpow_right₀ (by norm_num) (by norm_num))
    obtain ⟨a, b⟩ := mul_pow hX c_700.1 c_700.2 hx1 hx2
    obtain ⟨c, d⟩ := mul_pow hY c_700.1 c_700.2 hy1 (hvle.trans_lt hx2)
    have hone : (2 : ℝ) ^ (-700 : ℤ) * 2 ^ (700 : ℤ) = 1 := by rw [← zadd]; norm_num
    refine ⟨700, c700.1, c700.2, a, c, ?_, ?_, ?_, ?_, ?_⟩
    · show (X * _).val * _ = _
      rw [b, mul_assoc, hone, mul_one]
    · show (Y * _).val * _ = _
      rw [d, mul_assoc, hone, mul_one]
    · show _ ≤ (Y * _).val
      rw [d]
      calc (2 : ℝ) ^ (-475 : ℤ) ≤ 2 ^ ((1470 : ℕ) - 1023 : ℤ) * 2 ^ (-700 : ℤ) := by
            rw [← zadd]; exact zpow_le_zpow_right₀ (by norm_num) (by norm_num)
        _ ≤ _ := mul_le_mul_of_nonneg_right g2 (zp _).le
    · show (Y * _).val ≤ (X * _).val
      rw [b, d]; exact mul_le_mul_of_nonneg_right hvle (zp _).le
    · show (X * _).val < _
      rw [b]
      calc X.val * 2 ^ (-700 : ℤ) < 2 ^ (1024 : ℤ) * 2 ^ (-700 : ℤ) := mul_lt_mul_of_pos_right hXt (zp _)
        _ ≤ _ := by rw [← zadd]; exact zpow_le_zpow_right₀ (by norm_num) (by norm_num)
  case isFalse h =>
    split
    case isTrue h' =>
      have g1 := lt X 637 sX (by norm_num) (by omega)
      have hy1 : (2 : ℝ) ^ (-1022 - 700 : ℤ) ≤ Y.val := (zpow_le_zpow_right₀ (by norm_num) (by norm_num)).trans hYm
      have hx2 : X.val < 2 ^ (1024 - 700 : ℤ) := g1.trans_le (zpow_le_zpow_right₀ (by norm_num) (by norm_num))
      obtain ⟨a, b⟩ := mul_pow hX c700.1 c700.2 (hy1.trans hvle) hx2
      obtain ⟨c, d⟩ := mul_pow hY c700.1 c700.2 hy1 (hvle.trans_lt hx2)
      have hone : (2 : ℝ) ^ (700 : ℤ) * 2 ^ (-700 : ℤ) = 1 := by rw [← zadd]; norm_num
      refine ⟨-700, c_700.1, c_700.2, a, c, ?_, ?_, ?_, ?_, ?_⟩
      · show (X * _).val * _ = _
        rw [b, mul_assoc, hone, mul_one]
      · show (Y * _).val * _ = _
        rw [d, mul_assoc, hone, mul_one]
      · show _ ≤ (Y * _).val
        rw [d]
        calc (2 : ℝ) ^ (-475 : ℤ) ≤ 2 ^ (-1074 : ℤ) * 2 ^ (700 : ℤ) := by
              rw [← zadd]; exact zpow_le_zpow_right₀ (by norm_num) (by norm_num)
          _ ≤ _ := mul_le_mul_of_nonneg_right hYm (zp _).le
      · show (Y * _).val ≤ (X * _).val
        rw [b, d]; exact mul_le_mul_of_nonneg_right hvle (zp _).le
      · show (X * _).val < _
        rw [b]
        calc X.val * 2 ^ (700 : ℤ) < 2 ^ ((637 : ℕ) - 1023 : ℤ) * 2 ^ (700 : ℤ) := mul_lt_mul_of_pos_right g1 (zp _)
          _ ≤ _ := by rw [← zadd]; exact zpow_le_zpow_right₀ (by norm_num) (by norm_num)
    case isFalse h' =>
      have g1 := lt X 1534 sX (by norm_num) (by omega)
      have g2 := ge Y 573 sY (by norm_num) (by omega)
      refine ⟨0, c1.1, c1.2, hX, hY, by simp, by simp, ?_, hvle, ?_⟩
      · exact (zpow_le_zpow_right₀ (by norm_num) (by norm_num)).trans g2
      · exact g1.trans_le (zpow_le_zpow_right₀ (by norm_num) (by norm_num))

/-- `√(x² + y²)` lies between the larger argument and the sum -/
theorem hyp_bounds {a b : ℝ} (ha : 0 ≤ a) (hb : 0 ≤ b) : a ≤ √(a ^ 2 + b ^ 2) ∧ √(a ^ 2 + b ^ 2) ≤ a + b := by
  constructor
  · apply Real.le_sqrt_of_sq_le; nlinarith
  · apply Real.sqrt_le_iff.2; constructor <;> nlinarith

theorem ord_acc {X Y : Flt f64} (hX : X.isFinite) (hY : Y.isFinite) (sX : X.sign = false) (sY : Y.sign = false)
    (hle : Y.mb ≤ X.mb) :
    ∃ r, hypotOrd X.u64 Y.u64 = some r ∧ r.sign = false ∧ Acc64 r (√(X.val ^ 2 + Y.val ^ 2)) := by
  have x0 := val_nonneg sX
  have y0 := val_nonneg sY
  have hXm := (isFinite64 X).1 hX
  have hYm := (isFinite64 Y).1 hY
  have hu : Y.u64 = 0 ↔ Y.mb = 0 := by
    rw [← BitVec.toNat_inj, u64_toNat, sY]; simp
  unfold hypotOrd
  simp only [exp_field sX, exp_field sY, bits64_u64]
  rw [if_neg (by omega)]
  by_cases h0 : Y.mb = 0
  · rw [if_pos (Or.inr (hu.2 h0))]
    refine ⟨X, rfl, sX, Or.inl ⟨hX, ?_⟩⟩
    have : Y.val = 0 := isZero_val.1 ((isZero_iff Y).2 h0)
    rw [this]
    norm_num [Real.sqrt_sq x0]
    positivity
  rw [if_neg (by rw [hu]; omega)]
  by_cases hd : ((X.mb / 2 ^ 52 : ℕ) : ℤ) - (Y.mb / 2 ^ 52 : ℕ) > 64
  · rw [if_pos hd]
    -- Y is negligible
    have hsmall : Y.val ≤ 2 ^ (-60 : ℤ) * X.val := by
      have hE : 1 ≤ Y.mb / 2 ^ 52 + 1 := by omega
      have a := val_lt_of_mb (x := Y) hE (by rw [f64_sb]; omega)
      have b := val_ge_of_mb (x := X) (E := Y.mb / 2 ^ 52 + 65) (by omega) (by rw [f64_sb]; omega)
      rw [f64_bias, abs_of_nonneg y0] at a
      rw [f64_bias, abs_of_nonneg x0] at b
      have e : (2 : ℝ) ^ (((Y.mb / 2 ^ 52 + 65 : ℕ) : ℤ) - (1023 : ℕ)) =
          2 ^ (((Y.mb / 2 ^ 52 + 1 : ℕ) : ℤ) - (1023 : ℕ)) * 2 ^ (64 : ℤ) := by
        rw [← zadd]; congr 1; push_cast; ring
      rw [e] at b
      norm_num at a b ⊢
      linarith
    refine ⟨X + Y, rfl, ?_⟩
    obtain ⟨b1, b2⟩ := hyp_bounds x0 y0
    have hr := add_rne hX hY
    have hYpos : 0 < Y.val := lt_of_le_of_ne y0 (fun h => h0 ((isZero_iff Y).1 (isZero_val.2 h.symm)))
    have hpos : 0 < X.val + Y.val := by linarith
    unfold IsRNE at hr
    generalize √(X.val ^ 2 + Y.val ^ 2) = h at *
    split at hr
    case isTrue ht =>
      refine ⟨?_, Or.inr ⟨hr.1, ?_⟩⟩
      · by_contra hc
        have hc' : (X + Y).sign = true := by simpa using hc
        linarith [hr.2.1 hc']
      · rw [abs_of_pos hpos] at ht
        have h3 : ((overflowThreshold f64 : ℚ) : ℝ) = 2 ^ (1024 : ℤ) * (1 - 2 ^ (-54 : ℤ)) := by
          unfold overflowThreshold
          rw [f64_bias, f64_sb, show (1024 : ℤ) = 1023 + 1 by norm_num, zadd]
          generalize hw : (1023 : ℤ) = w
          push_cast
          rw [hw]
          norm_num
          ring
        rw [h3] at ht
        generalize (2 : ℝ) ^ (1024 : ℤ) = T at *
        norm_num at ht hsmall ⊢
        linarith
    case isFalse ht =>
      refine ⟨?_, Or.inl ⟨hr.1, ?_⟩⟩
      · by_contra hc
        have hc' : (X + Y).sign = true := by simpa using hc
        linarith [(hr.2.2.2 hpos.ne').1 hc']
      · have := hr.2.1 X hX
        change |(X + Y).val - (X.val + Y.val)| ≤ |X.val - (X.val + Y.val)| at this
        rw [show X.val - (X.val + Y.val) = -Y.val by ring, abs_neg, abs_of_nonneg y0] at this
        have h4 := abs_le.1 this
        have ht := zp (-1075)
        generalize (2 : ℝ) ^ (-1075 : ℤ) = t at *
        norm_num at hsmall ⊢
        rw [abs_le]
        constructor <;> linarith
  · rw [if_neg hd]
    obtain ⟨j, hs⟩ := scale_spec hX hY sX sY hle (by omega) (by omega)
    generalize hypotScale X Y (X.mb / 2 ^ 52 : ℕ) (Y.mb / 2 ^ 52 : ℕ) = o at *
    obtain ⟨z, x, y⟩ := o
    obtain ⟨zf, zv, xf, yf, xv, yv, lo, le, hi⟩ := hs
    simp only at *
    obtain ⟨sf, se⟩ := sum_sq xf yf lo le hi
    have hypos : 0 < y.val := (zp _).trans_le lo
    have hxx : x.val ^ 2 ≤ 2 ^ (1022 : ℤ) := by
      calc x.val ^ 2 ≤ (2 ^ (511 : ℤ)) ^ 2 := pow_le_pow_left₀ (by linarith) hi.le 2
        _ = _ := by rw [← zpow_natCast, ← zpow_mul]; norm_num
    have hyx : y.val ^ 2 ≤ x.val ^ 2 := pow_le_pow_left₀ hypos.le le 2
    have hyy : (2 : ℝ) ^ (-960 : ℤ) ≤ y.val ^ 2 := by
      calc (2 : ℝ) ^ (-960 : ℤ) ≤ (2 ^ (-475 : ℤ)) ^ 2 := by
            rw [← zpow_natCast, ← zpow_mul]; exact zpow_le_zpow_right₀ (by norm_num) (by norm_num)
        _ ≤ _ := pow_le_pow_left₀ (zp _).le lo 2
    obtain ⟨r, hr, rs, rf, r0, re⟩ := sqrt_step sf (S := x.val ^ 2 + y.val ^ 2) (by
      have : 0 ≤ x.val ^ 2 := sq_nonneg _
      linarith) (by
      rw [show (1023 : ℤ) = 1022 + 1 by norm_num, zadd]
      generalize (2 : ℝ) ^ (1022 : ℤ) = T at *
      linarith) se
    rw [hr]
    refine ⟨z * r, rfl, ?_⟩
    have := unscale zf zv rf r0 (Real.sqrt_nonneg _) re
    have e : √(X.val ^ 2 + Y.val ^ 2) = √(x.val ^ 2 + y.val ^ 2) * 2 ^ j := by
      rw [← xv, ← yv]
      have : (x.val * 2 ^ j) ^ 2 + (y.val * 2 ^ j) ^ 2 = (x.val ^ 2 + y.val ^ 2) * (2 ^ j) ^ 2 := by ring
      rw [this, Real.sqrt_mul (by positivity), Real.sqrt_sq (zp j).le]
    rw [e]
    exact this

end Hypot
end Verif
