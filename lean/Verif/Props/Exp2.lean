import Verif.Props.Exp
import Mathlib.Tactic.IntervalCases

/-!
# C30, continued: exp2, exp2f, exp10f, expm1, expm1f
-/

namespace Verif
open Flt
open Generic (scalbn)

namespace Exp2
theorem v_max : ((bits64 0x408fffffffffffff : Flt f64)).val = (9007199254740991 : ℝ) * 2 ^ (-43 : ℤ) := by
  rw [val_const64 (9007199254740991) 1031 (-43) (by decide +kernel) (by norm_num)]; norm_num
theorem v_min : ((-1075.0 : Flt f64)).val = (-1075 : ℝ) * 2 ^ (0 : ℤ) := by
  rw [val_const64 (-1075) 1074 (0) (by decide +kernel) (by norm_num)]; norm_num

theorem tbl_len : tbl.length = 512 := by decide +kernel

/-- C36 for `exp2`: both table accesses are in bounds, and nothing else fails -/
theorem core_total (x : Flt f64) : ∃ r, core x = some r := by
  unfold core
  dsimp only
  generalize ((x + redux).u64).setWidth 32 + 128#32 = i0
  have h : (i0 % 256#32).toNat < 256 := by
    rw [BitVec.toNat_umod]; exact Nat.mod_lt _ (by decide)
  rw [List.getElem?_eq_getElem (by rw [tbl_len]; omega), List.getElem?_eq_getElem (by rw [tbl_len]; omega)]
  simp only [Option.bind_some]
  have h1 : ∀ v : BitVec 32, -2 ^ 31 ≤ v.toInt.tdiv 256 ∧ v.toInt.tdiv 256 < 2 ^ 31 := by
    intro v
    have a := BitVec.le_toInt v
    have b := BitVec.toInt_lt (x := v)
    norm_num at a b
    rcases le_or_gt 0 v.toInt with h | h
    · have := Int.tdiv_nonneg h (by norm_num : (0 : ℤ) ≤ 256)
      have := Int.tdiv_le_self (b := 256) h
      norm_num; omega
    · have e : v.toInt.tdiv 256 = - ((-v.toInt).tdiv 256) := by rw [Int.neg_tdiv, Int.neg_neg]
      have := Int.tdiv_nonneg (a := -v.toInt) (by omega) (by norm_num : (0 : ℤ) ≤ 256)
      have := Int.tdiv_le_self (a := -v.toInt) (b := 256) (by omega)
      norm_num; omega
  exact scalbn_total (Or.inr (Or.inr (Or.inl rfl))) _ _ (h1 _).1 (h1 _).2

theorem eq (x : Flt f64) : exp2 x =
    if 0x408ff000 ≤ x.mb / 2 ^ 32 ∧ 0x40900000 ≤ x.mb / 2 ^ 32 ∧ x.sign = false then some (x * bits64 0x7fe0000000000000)
    else if 0x408ff000 ≤ x.mb / 2 ^ 32 ∧ 0x7ff00000 ≤ x.mb / 2 ^ 32 then some (-1.0 / x)
    else if 0x408ff000 ≤ x.mb / 2 ^ 32 ∧ x.sign = true ∧ (x ≤ᶠ -1075.0) = true then some 0.0
    else if x.mb / 2 ^ 32 < 0x408ff000 ∧ x.mb / 2 ^ 32 < 0x3c900000 then some (1.0 + x)
    else core x := by
  have hm := mb64_lt x
  have h1 : ((x.u64 >>> 32) &&& 0x7fffffff).toNat = x.mb / 2 ^ 32 := by
    rw [BitVec.toNat_and, BitVec.toNat_ushiftRight, u64_toNat, Nat.shiftRight_eq_div_pow]
    have e : (0x7fffffff : BitVec 64).toNat = 2 ^ 31 - 1 := rfl
    rw [e, Nat.and_two_pow_sub_one_eq_mod]
    split <;> omega
  have h2 : x.u64 >>> 63 = 0 ↔ x.sign = false := by
    rw [← BitVec.toNat_inj, u64_sign]
    cases x.sign <;> simp
  have h3 : ¬ x.sign = false ↔ x.sign = true := by simp
  unfold exp2
  simp only [ge_iff_le, BitVec.le_def, BitVec.lt_def, h1, h2, ne_eq, h3]
  rfl
end Exp2

/-- `2^x` as a power of the constant 2 -/
theorem exp2_special : IsExpFn exp2 (fun t => (2 : ℝ) ^ t) where
  total x := by
    rw [Exp2.eq]
    split_ifs
    all_goals first | exact ⟨_, rfl⟩ | exact Exp2.core_total _
  nan x hx := by
    rw [Exp2.eq]
    have h := (isNaN64 x).1 hx
    by_cases hs : x.sign = false
    · rw [if_pos ⟨by omega, by omega, hs⟩]
      exact ⟨_, rfl, by rw [mul_nan (Or.inl hx)]; exact isNaN_qnan⟩
    · rw [if_neg (fun h => hs h.2.2), if_pos ⟨by omega, by omega⟩]
      exact ⟨_, rfl, by rw [div_nan (Or.inr hx)]; exact isNaN_qnan⟩
  pinf := by decide +kernel
  ninf := by decide +kernel
  zero x hx := by
    rw [eq_zero hx]
    cases x.sign <;> decide +kernel
  saturate x r hx hr h := by
    have hn := not_nan_of_finite hx
    have hf := (isFinite64 x).1 hx
    have p : (0 : ℝ) < 2 ^ x.val := Real.rpow_pos_of_pos (by norm_num) _
    have l1 := Num.log2_gt
    have l2 := Num.log2_lt
    rcases h with h | h
    · obtain ⟨h1, rfl⟩ := rne_inf hr h p.le
      rw [← thr64, Real.rpow_def_of_pos (by norm_num)] at h1
      have hv : (bits64 0x408fffffffffffff).val < x.val := by
        by_contra hc
        push Not at hc
        have := Num.exp_lt_thr (n := 1024) (k := 54) (t := Real.log 2 * (bits64 0x408fffffffffffff).val) (by norm_num) (by
          rw [Exp2.v_max]; norm_num; linarith)
        have := (Real.exp_le_exp.2 (mul_le_mul_of_nonneg_left hc (by linarith))).trans_lt this
        exact absurd h1 (not_le.2 this)
      have hm : 0x408fffffffffffff < x.mb := by
        by_contra hc
        exact absurd (val_le_of_mb (c := bits64 0x408fffffffffffff) (not_lt.1 hc) (by decide +kernel)) (not_le.2 hv)
      have hs : x.sign = false := by
        by_contra hc
        have : 0 ≤ (-x).val := val_nonneg (by rw [Flt.sign_neg]; simp at hc; rw [hc]; rfl)
        rw [val_neg] at this
        rw [Exp2.v_max] at hv; norm_num at hv; linarith
      rw [Exp2.eq, if_pos ⟨by omega, by omega, hs⟩]
      congr 1
      apply rne_overflow (mul_rne hx (by decide +kernel))
      rw [Exp.v_big, f64_bias]
      rw [Exp2.v_max] at hv
      norm_num at hv
      have e : ((2 : ℝ) ^ (((1023 : ℕ) : ℤ) + 1)) = 2 * 2 ^ (1023 : ℤ) := by
        rw [zpow_add₀ (by norm_num), mul_comm]; norm_num
      rw [e]
      have := zp 1023
      generalize (2 : ℝ) ^ (1023 : ℤ) = T at *
      nlinarith
    · obtain ⟨h1, rfl⟩ := rne_zero hr h p
      rw [f64_bias, f64_sb, ← Real.rpow_intCast, Real.rpow_le_rpow_left_iff (by norm_num)] at h1
      push_cast at h1
      have hv : x.val ≤ (-1075.0 : Flt f64).val := by rw [Exp2.v_min]; norm_num; linarith
      have hm : 0x4090cc0000000000 ≤ x.mb := by
        by_contra hc
        have : (bits64 0xc090cbffffffffff).val ≤ x.val :=
          val_ge_of_mb' (c := bits64 0xc090cbffffffffff) (by
            rw [show (bits64 0xc090cbffffffffff).mb = 0x4090cbffffffffff by decide +kernel]; omega) (by decide +kernel)
        have h3 : (-1075.0 : Flt f64).val < (bits64 0xc090cbffffffffff).val := val_lt_iff.2 (by decide +kernel)
        exact absurd (h3.trans_le this) (not_lt.2 hv)
      have hs : x.sign = true := by
        by_contra hc
        have : 0 ≤ x.val := val_nonneg (by simpa using hc)
        linarith
      rw [Exp2.eq, if_neg (by simp [hs]), if_neg (by omega), if_pos ⟨by omega, hs,
        le_iff.2 ⟨hn, by decide +kernel, val_le_iff.1 hv⟩⟩]
      decide +kernel

namespace Exp2f
theorem v_max : ((bits32 0x42ffffff : Flt f32)).val = (16777215 : ℝ) * 2 ^ (-17 : ℤ) := by
  rw [val_const32 (16777215) 132 (-17) (by decide +kernel) (by norm_num)]; norm_num
theorem v_redux : ((redux : Flt f32)).val = (3 : ℝ) * 2 ^ (18 : ℤ) := by
  rw [val_const32 (3) 167 (18) (by decide +kernel) (by norm_num)]; norm_num

theorem tbl_len : tbl.length = 16 := by decide +kernel

/-- C36 for `exp2f`: the table access is in bounds and no sum overflows -/
theorem core_total (x : Flt f32) (hx : x.isFinite) (hb : |x.val| ≤ 256) : ∃ r, core x = some r := by
  have hr := add_err32 hx (by decide +kernel : redux.isFinite) 20 (by
    rw [v_redux]; rw [abs_le] at *; norm_num; constructor <;> linarith [hb.1, hb.2]) (by norm_num)
  have hpos : 0 < (x + redux).val := by
    have h1 := (abs_le.1 hr.2).1
    have h2 := (abs_le.1 hb).1
    rw [v_redux] at h1
    norm_num at h1; linarith
  have hs : (x + redux).sign = false := by
    by_contra hc
    have : 0 ≤ (-(x + redux)).val := val_nonneg (by rw [Flt.sign_neg]; simp at hc; rw [hc]; rfl)
    rw [val_neg] at this
    linarith
  have hu : (x + redux).u32.toNat < 2 ^ 31 := by
    rw [u32_toNat, hs]; simpa using mb32_lt (x + redux)
  unfold core
  dsimp only
  generalize (x + redux).u32 = ui at *
  have a1 : uadd ui 8#32 = some (ui + 8#32) := by
    unfold uadd; rw [if_pos]; simp; omega
  rw [a1]
  simp only [Option.bind_some]
  have a2 : uadd 0x3ff#32 ((ui + 8#32) / 16#32) = some (0x3ff#32 + (ui + 8#32) / 16#32) := by
    unfold uadd; rw [if_pos]
    have h := (ui + 8#32).isLt
    rw [BitVec.toNat_udiv]
    have e1 : (16#32).toNat = 16 := rfl
    have e2 : (0x3ff#32).toNat = 0x3ff := rfl
    rw [e1, e2]
    omega
  rw [a2]
  simp only [Option.bind_some]
  have h : ((ui + 8#32) &&& 15#32).toNat < 16 := by
    rw [BitVec.toNat_and]
    exact lt_of_le_of_lt Nat.and_le_right (by decide)
  rw [List.getElem?_eq_getElem (by rw [tbl_len]; exact h)]
  exact ⟨_, rfl⟩

theorem eq (x : Flt f32) : exp2f x =
    if 0x42fc0000 < x.mb ∧ 0x7f800000 < x.mb then some x
    else if 0x42fc0000 < x.mb ∧ 0x43000000 ≤ x.mb ∧ x.sign = false then some (x * bits32 0x7f000000)
    else if 0x42fc0000 < x.mb ∧ x.sign = true ∧ 0x43160000 ≤ x.mb then some 0.0
    else if ¬ 0x42fc0000 < x.mb ∧ x.mb ≤ 0x33000000 then some (1.0 + x)
    else core x := by
  have hm := mb32_lt x
  have hu := u32_toNat x
  have e1 : (0x43000000#32).toNat = 0x43000000 := rfl
  have e2 : (0x80000000#32).toNat = 0x80000000 := rfl
  have e3 : (0xc3160000#32).toNat = 0xc3160000 := rfl
  have h1 : (0x43000000#32 ≤ x.u32 ∧ x.u32 < 0x80000000#32) ↔ (0x43000000 ≤ x.mb ∧ x.sign = false) := by
    rw [BitVec.le_def, BitVec.lt_def, e1, e2]
    cases hs : x.sign
    · rw [hs, if_neg (by decide)] at hu
      exact ⟨fun h => ⟨by omega, rfl⟩, fun h => ⟨by omega, by omega⟩⟩
    · rw [hs, if_pos rfl] at hu
      exact ⟨fun h => by omega, fun h => by cases h.2⟩
  have h2 : (0x80000000#32 ≤ x.u32 ∧ 0xc3160000#32 ≤ x.u32) ↔ (x.sign = true ∧ 0x43160000 ≤ x.mb) := by
    rw [BitVec.le_def, BitVec.le_def, e2, e3]
    cases hs : x.sign
    · rw [hs, if_neg (by decide)] at hu
      exact ⟨fun h => by omega, fun h => by cases h.1⟩
    · rw [hs, if_pos rfl] at hu
      exact ⟨fun h => ⟨rfl, by omega⟩, fun h => ⟨by omega, by omega⟩⟩
  have h0 : 0x42fc0000#32 < (x.u32 &&& 0x7fffffff) ↔ 0x42fc0000 < x.mb := by
    rw [BitVec.lt_def, u32_abs']; rfl
  unfold exp2f
  dsimp only
  refine if_congr (and_congr h0 ?_) rfl (if_congr (and_congr h0 h1) rfl (if_congr (and_congr h0 h2) rfl
    (if_congr (and_congr h0.not ?_) rfl rfl)))
  · rw [gt_iff_lt, BitVec.lt_def, u32_abs']; rfl
  · rw [BitVec.le_def, u32_abs']; rfl
end Exp2f

theorem exp2f_special : IsExpFn exp2f (fun t => (2 : ℝ) ^ t) where
  total x := by
    rw [Exp2f.eq]
    split_ifs with h1 h2 h3 h4
    · exact ⟨_, rfl⟩
    · exact ⟨_, rfl⟩
    · exact ⟨_, rfl⟩
    · exact ⟨_, rfl⟩
    · have hm : x.mb < 0x43160000 := by
        by_contra hc
        cases hs : x.sign
        · exact h2 ⟨by omega, by omega, hs⟩
        · exact h3 ⟨by omega, hs, by omega⟩
      apply Exp2f.core_total
      · rw [isFinite32]; omega
      · have := val_lt_of_mb (F := f32) (x := x) (E := 135) (by norm_num) (by rw [f32_sb]; omega)
        rw [f32_bias] at this; norm_num at this; exact this.le
  nan x hx := by
    have h := (isNaN32 x).1 hx
    rw [Exp2f.eq, if_pos ⟨by omega, h⟩]
    exact ⟨_, rfl, hx⟩
  pinf := by decide +kernel
  ninf := by decide +kernel
  zero x hx := by
    rw [eq_zero hx]
    cases x.sign <;> decide +kernel
  saturate x r hx hr h := by
    have hn := not_nan_of_finite hx
    have hf := (isFinite32 x).1 hx
    have p : (0 : ℝ) < 2 ^ x.val := Real.rpow_pos_of_pos (by norm_num) _
    have l1 := Num.log2_gt
    have l2 := Num.log2_lt
    rcases h with h | h
    · obtain ⟨h1, rfl⟩ := rne_inf hr h p.le
      rw [← thr32, Real.rpow_def_of_pos (by norm_num)] at h1
      have hv : (bits32 0x42ffffff).val < x.val := by
        by_contra hc
        push Not at hc
        have := Num.exp_lt_thr (n := 128) (k := 25) (t := Real.log 2 * (bits32 0x42ffffff).val) (by norm_num) (by
          rw [Exp2f.v_max]; norm_num; linarith)
        have := (Real.exp_le_exp.2 (mul_le_mul_of_nonneg_left hc (by linarith))).trans_lt this
        exact absurd h1 (not_le.2 this)
      have hm : 0x42ffffff < x.mb := by
        by_contra hc
        exact absurd (val_le_of_mb (c := bits32 0x42ffffff) (not_lt.1 hc) (by decide +kernel)) (not_le.2 hv)
      have hs : x.sign = false := by
        by_contra hc
        have : 0 ≤ (-x).val := val_nonneg (by rw [Flt.sign_neg]; simp at hc; rw [hc]; rfl)
        rw [val_neg] at this
        rw [Exp2f.v_max] at hv; norm_num at hv; linarith
      rw [Exp2f.eq, if_neg (by omega), if_pos ⟨by omega, by omega, hs⟩]
      congr 1
      apply rne_overflow (mul_rne hx (by decide +kernel))
      rw [Expf.v_big, f32_bias]
      rw [Exp2f.v_max] at hv
      norm_num at hv ⊢
      nlinarith
    · obtain ⟨h1, rfl⟩ := rne_zero hr h p
      rw [f32_bias, f32_sb, ← Real.rpow_intCast, Real.rpow_le_rpow_left_iff (by norm_num)] at h1
      push_cast at h1
      have hv : x.val ≤ -150 := by norm_num at h1; exact h1
      have hm : 0x43160000 ≤ x.mb := by
        by_contra hc
        have : (bits32 0xc315ffff).val ≤ x.val :=
          val_ge_of_mb' (c := bits32 0xc315ffff) (by
            rw [show (bits32 0xc315ffff).mb = 0x4315ffff by decide +kernel]; omega) (by decide +kernel)
        rw [v_c315] at this
        norm_num at this; linarith
      have hs : x.sign = true := by
        by_contra hc
        have : 0 ≤ x.val := val_nonneg (by simpa using hc)
        linarith
      rw [Exp2f.eq, if_neg (by omega), if_neg (by simp [hs]), if_pos ⟨by omega, hs, by omega⟩]
      decide +kernel
where
  v_c315 : ((bits32 0xc315ffff : Flt f32)).val = (-9830399 : ℝ) * 2 ^ (-16 : ℤ) := by
    rw [val_const32 (-9830399) 133 (-16) (by decide +kernel) (by norm_num)]; norm_num
  

/-! ## expm1, expm1f -/

/-- The claim about `expm1`: never fails; NaN gives NaN; `±0` is returned unchanged; `+inf` gives `+inf` and `-inf` gives
`-1`; overflow exactly as correct rounding of `e^x - 1` demands; and `-1` from `-n log 2` downwards. -/
structure IsExpm1Fn {F : Fmt} (f : Flt F → Option (Flt F)) (n : ℕ) : Prop where
  total : ∀ x, ∃ r, f x = some r
  nan : ∀ x : Flt F, x.isNaN → ∃ r, f x = some r ∧ r.isNaN
  pinf : f (inf F false) = some (inf F false)
  ninf : f (inf F true) = some (-one F)
  zero : ∀ x : Flt F, x.isZero → f x = some x
  overflow : ∀ (x r : Flt F), x.isFinite → IsRNE (Real.exp x.val - 1) r → r.isInf → f x = some r
  lower : ∀ x : Flt F, x.isFinite → x.val ≤ -n * Real.log 2 → f x = some (-one F)

namespace Expm1
theorem v_max : ((oThreshold : Flt f64)).val = (6243314768165359 : ℝ) * 2 ^ (-43 : ℤ) := by
  rw [val_const64 (6243314768165359) 1031 (-43) (by decide +kernel) (by norm_num)]; norm_num
theorem v_lo : ((bits64 0x40436879ffffffff : Flt f64)).val = (5462897752801279 : ℝ) * 2 ^ (-47 : ℤ) := by
  rw [val_const64 (5462897752801279) 1027 (-47) (by decide +kernel) (by norm_num)]; norm_num

theorem scale_total (x e : Flt f64) (k : Int) (hk : |k| ≤ 2 ^ 20) : ∃ r, scale x e k = some r := by
  rw [abs_le] at hk
  unfold scale
  rw [i32_some (by omega) (by omega)]
  simp only [Option.bind_some]
  split
  · exact ⟨_, rfl⟩
  · rw [i32_some (by omega) (by omega)]
    simp only [Option.bind_some]
    split <;> exact ⟨_, rfl⟩

theorem kernel_total (x c : Flt f64) (k : Int) (hk : |k| ≤ 2 ^ 20) : ∃ r, kernel x c k = some r := by
  unfold kernel
  dsimp only
  split_ifs
  all_goals first | exact ⟨_, rfl⟩ | exact scale_total _ _ _ hk

theorem reduce_total (x : Flt f64) (hx : x.isFinite) (hb : |x.val| ≤ 1024) (w : BitVec 32) (s : Int) :
    ∃ r, reduce x w s = some r := by
  unfold reduce
  split
  · have h : |(split x w s).2.2| ≤ 2 ^ 20 := by
      unfold split
      split
      · split <;> simp
      · dsimp only
        have hm := mul_err64 (x := invln2) (y := x) (by decide +kernel) hx 11 (by
          have : |invln2.val| ≤ 2 := by
            have := val_lt_of_mb (F := f64) (x := invln2) (E := 1024) (by norm_num) (by decide +kernel)
            rw [f64_bias] at this; norm_num at this; exact this.le
          rw [abs_mul]
          calc _ ≤ (2 : ℝ) * 1024 := mul_le_mul this hb (abs_nonneg _) (by norm_num)
            _ = _ := by norm_num) (by norm_num) (by norm_num)
        obtain ⟨hf, he⟩ := hm
        have hb1 : |(invln2 * x).val| ≤ 4096 := by
          have : |invln2.val| ≤ 2 := by
            have := val_lt_of_mb (F := f64) (x := invln2) (E := 1024) (by norm_num) (by decide +kernel)
            rw [f64_bias] at this; norm_num at this; exact this.le
          have h2 : |invln2.val * x.val| ≤ 2048 := by
            rw [abs_mul]
            calc _ ≤ (2 : ℝ) * 1024 := mul_le_mul this hb (abs_nonneg _) (by norm_num)
              _ = _ := by norm_num
          norm_num at he
          rw [abs_le] at *
          constructor <;> linarith [he.1, he.2, h2.1, h2.2]
        generalize hc : (if s ≠ 0 then (-0.5 : Flt f64) else 0.5) = c
        have hcf : c.isFinite ∧ |c.val| ≤ 1 := by
          rw [← hc]
          split
          · refine ⟨by decide +kernel, ?_⟩
            have := val_lt_of_mb (F := f64) (x := -0.5) (E := 1023) (by norm_num) (by decide +kernel)
            rw [f64_bias] at this; norm_num at this; norm_num; exact this.le
          · refine ⟨by decide +kernel, ?_⟩
            have := val_lt_of_mb (F := f64) (x := 0.5) (E := 1023) (by norm_num) (by decide +kernel)
            rw [f64_bias] at this; norm_num at this; norm_num; exact this.le
        have ha := add_err64 hf hcf.1 13 (by
          have := hcf.2
          rw [abs_le] at *; norm_num; constructor <;> linarith [hb1.1, hb1.2, this.1, this.2]) (by norm_num)
        have hb2 : |(invln2 * x + c).val| ≤ ((2 ^ 20 : ℕ) : ℝ) := by
          have h1 := ha.2
          have h2 := hcf.2
          norm_num at h1 ⊢
          rw [abs_le] at *
          constructor <;> linarith [h1.1, h1.2, hb1.1, hb1.2, h2.1, h2.2]
        have := toSInt_abs (w := 32) ha.1 hb2
        exact_mod_cast this
    exact kernel_total _ _ _ h
  · split
    · exact ⟨_, rfl⟩
    · exact kernel_total _ _ _ (by norm_num)

theorem eq (x : Flt f64) : ∃ (w : BitVec 32) (s : Int), expm1 x =
    if 0x4043687A ≤ x.mb / 2 ^ 32 ∧ x.isNaN then some x
    else if 0x4043687A ≤ x.mb / 2 ^ 32 ∧ x.sign = true then some (-1.0)
    else if 0x4043687A ≤ x.mb / 2 ^ 32 ∧ (oThreshold <ᶠ x) = true then some (x * bits64 0x7fe0000000000000)
    else reduce x w s := by
  have hm := mb64_lt x
  have h1 : (((x.u64 >>> 32) &&& 0x7fffffff).setWidth 32).toNat = x.mb / 2 ^ 32 := by
    rw [BitVec.toNat_setWidth, BitVec.toNat_and, BitVec.toNat_ushiftRight, u64_toNat, Nat.shiftRight_eq_div_pow]
    have e : (0x7fffffff : BitVec 64).toNat = 2 ^ 31 - 1 := rfl
    rw [e, Nat.and_two_pow_sub_one_eq_mod]
    split <;> omega
  have h2 : (((x.u64 >>> 63).toNat : ℕ) : ℤ) ≠ 0 ↔ x.sign = true := by
    rw [u64_sign]
    cases x.sign <;> simp
  refine ⟨((x.u64 >>> 32) &&& 0x7fffffff).setWidth 32, (x.u64 >>> 63).toNat, ?_⟩
  unfold expm1
  simp only [ge_iff_le, BitVec.le_def, h1, h2]
  rfl
end Expm1

theorem expm1_special : IsExpm1Fn expm1 56 where
  total x := by
    obtain ⟨w, s, h⟩ := Expm1.eq x
    rw [h]
    split_ifs with h1 h2 h3
    · exact ⟨_, rfl⟩
    · exact ⟨_, rfl⟩
    · exact ⟨_, rfl⟩
    · have hn : ¬ x.isNaN := by
        intro hc
        have := (isNaN64 x).1 hc
        exact h1 ⟨by omega, hc⟩
      have hm : x.mb < 1033 * 2 ^ 52 := by
        by_contra hc
        apply h3
        refine ⟨by omega, lt_iff.2 ⟨by decide +kernel, hn, ?_⟩⟩
        have hs : x.sign = false := by
          by_contra hs
          exact h2 ⟨by omega, by simpa using hs⟩
        have : (bits64 0x4090000000000000).val ≤ x.val := by
          have := val_mono (x := x) (y := bits64 0x4090000000000000) (by
            rw [show (bits64 0x4090000000000000).mb = 1033 * 2 ^ 52 by decide +kernel]; omega)
          rwa [abs_of_nonneg (val_nonneg hs), abs_of_nonneg (val_nonneg (by decide +kernel))] at this
        exact lt_of_lt_of_le (by decide +kernel) (val_le_iff.1 this)
      apply Expm1.reduce_total
      · rw [isFinite64]; omega
      · have := val_lt_of_mb (F := f64) (x := x) (E := 1033) (by norm_num) (by rw [f64_sb]; omega)
        rw [f64_bias] at this; norm_num at this; exact this.le
  nan x hx := by
    obtain ⟨w, s, h⟩ := Expm1.eq x
    have h1 := (isNaN64 x).1 hx
    rw [h, if_pos ⟨by omega, hx⟩]
    exact ⟨_, rfl, hx⟩
  pinf := by decide +kernel
  ninf := by decide +kernel
  zero x hx := by
    rw [eq_zero hx]
    cases x.sign <;> decide +kernel
  overflow x r hx hr h := by
    have hn := not_nan_of_finite hx
    have hq : 0 ≤ Real.exp x.val - 1 := by
      by_contra hc
      push Not at hc
      have := (hr.finite (by
        have := Real.exp_pos x.val
        rw [abs_of_neg hc]
        have h1 : (1 : ℝ) ≤ 2 ^ (f64.bias : ℤ) := by
          rw [f64_bias]; exact_mod_cast Nat.one_le_two_pow
        linarith)).1
      exact absurd h (not_inf_of_finite this)
    obtain ⟨h1, rfl⟩ := rne_inf hr h hq
    have l1 := Num.log2_gt
    rw [← thr64] at h1
    have hv : Expm1.oThreshold.val < x.val := by
      by_contra hc
      push Not at hc
      have := Num.exp_lt_thr (n := 1024) (k := 54) (t := Expm1.oThreshold.val) (by norm_num) (by
        rw [Expm1.v_max]; norm_num; linarith)
      have := (Real.exp_le_exp.2 hc).trans_lt this
      linarith
    have hm : Expm1.oThreshold.mb < x.mb := by
      apply Exp.big_mb
      rw [abs_of_nonneg (val_nonneg (by decide +kernel))]
      exact hv.trans_le (le_abs_self _)
    rw [show Expm1.oThreshold.mb = 0x40862e42fefa39ef by decide +kernel] at hm
    have hs : ¬ x.sign = true := by
      intro hc
      have : 0 ≤ (-x).val := val_nonneg (by rw [Flt.sign_neg, hc]; rfl)
      rw [val_neg] at this
      rw [Expm1.v_max] at hv; norm_num at hv; linarith
    obtain ⟨w, s, h'⟩ := Expm1.eq x
    rw [h', if_neg (fun h => hn h.2), if_neg (fun h => hs h.2), if_pos ⟨by omega, lt_iff.2 ⟨by decide +kernel, hn, val_lt_iff.1 hv⟩⟩]
    congr 1
    apply rne_overflow (mul_rne hx (by decide +kernel))
    rw [Exp.v_big, f64_bias]
    rw [Expm1.v_max] at hv
    norm_num at hv
    have e : ((2 : ℝ) ^ (((1023 : ℕ) : ℤ) + 1)) = 2 * 2 ^ (1023 : ℤ) := by
      rw [zpow_add₀ (by norm_num), mul_comm]; norm_num
    rw [e]
    have := zp 1023
    generalize (2 : ℝ) ^ (1023 : ℤ) = T at *
    nlinarith
  lower x hx h := by
    have hn := not_nan_of_finite hx
    have l1 := Num.log2_gt
    push_cast at h
    have hs : x.sign = true := by
      by_contra hc
      have : 0 ≤ x.val := val_nonneg (by simpa using hc)
      linarith
    have hm : 0x40436879ffffffff < x.mb := by
      by_contra hc
      have := val_mono (x := bits64 0x40436879ffffffff) (y := x) (not_lt.1 hc)
      rw [Expm1.v_lo] at this
      rw [abs_le] at this
      norm_num at this
      linarith [this.1]
    obtain ⟨w, s, h'⟩ := Expm1.eq x
    rw [h', if_neg (fun h => hn h.2), if_pos ⟨by omega, hs⟩]
    decide +kernel

namespace Expm1f
theorem v_max : ((oThreshold : Flt f32)).val = (90851 : ℝ) * 2 ^ (-10 : ℤ) := by
  rw [val_const32 (90851) 139 (-10) (by decide +kernel) (by norm_num)]; norm_num
theorem v_lo : ((bits32 0x4195b843 : Flt f32)).val = (9812035 : ℝ) * 2 ^ (-19 : ℤ) := by
  rw [val_const32 (9812035) 130 (-19) (by decide +kernel) (by norm_num)]; norm_num

theorem scale_total (x e : Flt f32) (k : Int) (hk : |k| ≤ 2 ^ 20) : ∃ r, scale x e k = some r := by
  rw [abs_le] at hk
  unfold scale
  rw [i32_some (by omega) (by omega)]
  simp only [Option.bind_some]
  split
  · exact ⟨_, rfl⟩
  · rw [i32_some (by omega) (by omega)]
    simp only [Option.bind_some]
    split <;> exact ⟨_, rfl⟩

theorem kernel_total (x c : Flt f32) (k : Int) (hk : |k| ≤ 2 ^ 20) : ∃ r, kernel x c k = some r := by
  unfold kernel
  dsimp only
  split_ifs
  all_goals first | exact ⟨_, rfl⟩ | exact scale_total _ _ _ hk

theorem reduce_total (x : Flt f32) (hx : x.isFinite) (hb : |x.val| ≤ 1024) (w : BitVec 32) (s : Bool) :
    ∃ r, reduce x w s = some r := by
  unfold reduce
  split
  · have h : |(split x w s).2.2| ≤ 2 ^ 20 := by
      unfold split
      split
      · split <;> simp
      · dsimp only
        have hi : |invln2.val| ≤ 2 := by
          have := val_lt_of_mb (F := f32) (x := invln2) (E := 128) (by norm_num) (by decide +kernel)
          rw [f32_bias] at this; norm_num at this; exact this.le
        have h2 : |invln2.val * x.val| ≤ 2048 := by
          rw [abs_mul]
          calc _ ≤ (2 : ℝ) * 1024 := mul_le_mul hi hb (abs_nonneg _) (by norm_num)
            _ = _ := by norm_num
        have hm := mul_err32 (x := invln2) (y := x) (by decide +kernel) hx 11 (h2.trans (by norm_num)) (by norm_num) (by norm_num)
        obtain ⟨hf, he⟩ := hm
        have hb1 : |(invln2 * x).val| ≤ 4096 := by
          norm_num at he
          rw [abs_le] at *
          constructor <;> linarith [he.1, he.2, h2.1, h2.2]
        generalize hc : (if s then (-0.5 : Flt f32) else 0.5) = c
        have hcf : c.isFinite ∧ |c.val| ≤ 1 := by
          rw [← hc]
          split
          · refine ⟨by decide +kernel, ?_⟩
            have := val_lt_of_mb (F := f32) (x := -0.5) (E := 127) (by norm_num) (by decide +kernel)
            rw [f32_bias] at this; norm_num at this; norm_num; exact this.le
          · refine ⟨by decide +kernel, ?_⟩
            have := val_lt_of_mb (F := f32) (x := 0.5) (E := 127) (by norm_num) (by decide +kernel)
            rw [f32_bias] at this; norm_num at this; norm_num; exact this.le
        have ha := add_err32 hf hcf.1 13 (by
          have := hcf.2
          rw [abs_le] at *; norm_num; constructor <;> linarith [hb1.1, hb1.2, this.1, this.2]) (by norm_num)
        have hb2 : |(invln2 * x + c).val| ≤ ((2 ^ 20 : ℕ) : ℝ) := by
          have h1 := ha.2
          have h2 := hcf.2
          norm_num at h1 ⊢
          rw [abs_le] at *
          constructor <;> linarith [h1.1, h1.2, hb1.1, hb1.2, h2.1, h2.2]
        have := toSInt_abs (w := 32) ha.1 hb2
        exact_mod_cast this
    exact kernel_total _ _ _ h
  · split
    · exact ⟨_, rfl⟩
    · exact kernel_total _ _ _ (by norm_num)

theorem eq (x : Flt f32) : ∃ (w : BitVec 32) (s : Bool), expm1f x =
    if 0x4195b844 ≤ x.mb ∧ 0x7f800000 < x.mb then some x
    else if 0x4195b844 ≤ x.mb ∧ x.sign = true then some (-1.0)
    else if 0x4195b844 ≤ x.mb ∧ (oThreshold <ᶠ x) = true then some (x * bits32 0x7f000000)
    else reduce x w s := by
  have h2 : (x.u32 >>> 31 = 0) ↔ x.sign = false := by
    rw [← BitVec.toNat_inj, u32_sign]
    cases x.sign <;> simp
  have h3 : decide (x.u32 >>> 31 ≠ 0) = x.sign := by
    cases h : x.sign
    · exact decide_eq_false (fun hc => hc (h2.2 h))
    · exact decide_eq_true (fun hc => by rw [h2.1 hc] at h; cases h)
  refine ⟨x.u32 &&& 0x7fffffff, x.sign, ?_⟩
  unfold expm1f
  simp only [ge_iff_le, gt_iff_lt, BitVec.le_def, BitVec.lt_def, u32_abs', h3]
  rfl
end Expm1f

theorem expm1f_special : IsExpm1Fn expm1f 27 where
  total x := by
    obtain ⟨w, s, h⟩ := Expm1f.eq x
    rw [h]
    split_ifs with h1 h2 h3
    · exact ⟨_, rfl⟩
    · exact ⟨_, rfl⟩
    · exact ⟨_, rfl⟩
    · have hn : ¬ x.isNaN := by
        intro hc
        have := (isNaN32 x).1 hc
        exact h1 ⟨by omega, this⟩
      have hm : x.mb < 137 * 2 ^ 23 := by
        by_contra hc
        apply h3
        refine ⟨by omega, lt_iff.2 ⟨by decide +kernel, hn, ?_⟩⟩
        have hs : x.sign = false := by
          by_contra hs
          exact h2 ⟨by omega, by simpa using hs⟩
        have : (bits32 0x44800000).val ≤ x.val := by
          have := val_mono (x := x) (y := bits32 0x44800000) (by
            rw [show (bits32 0x44800000).mb = 137 * 2 ^ 23 by decide +kernel]; omega)
          rwa [abs_of_nonneg (val_nonneg hs), abs_of_nonneg (val_nonneg (by decide +kernel))] at this
        exact lt_of_lt_of_le (by decide +kernel) (val_le_iff.1 this)
      apply Expm1f.reduce_total
      · rw [isFinite32]; omega
      · have := val_lt_of_mb (F := f32) (x := x) (E := 137) (by norm_num) (by rw [f32_sb]; omega)
        rw [f32_bias] at this; norm_num at this; exact this.le
  nan x hx := by
    obtain ⟨w, s, h⟩ := Expm1f.eq x
    have h1 := (isNaN32 x).1 hx
    rw [h, if_pos ⟨by omega, h1⟩]
    exact ⟨_, rfl, hx⟩
  pinf := by decide +kernel
  ninf := by decide +kernel
  zero x hx := by
    rw [eq_zero hx]
    cases x.sign <;> decide +kernel
  overflow x r hx hr h := by
    have hn := not_nan_of_finite hx
    have hn' := (isNaN32 x).not.1 hn
    have hq : 0 ≤ Real.exp x.val - 1 := by
      by_contra hc
      push Not at hc
      have := (hr.finite (by
        have := Real.exp_pos x.val
        rw [abs_of_neg hc]
        have h1 : (1 : ℝ) ≤ 2 ^ (f32.bias : ℤ) := by
          rw [f32_bias]; norm_num
        linarith)).1
      exact absurd h (not_inf_of_finite this)
    obtain ⟨h1, rfl⟩ := rne_inf hr h hq
    have l1 := Num.log2_gt
    rw [← thr32] at h1
    have hv : Expm1f.oThreshold.val < x.val := by
      by_contra hc
      push Not at hc
      have := Num.exp_lt_thr (n := 128) (k := 25) (t := Expm1f.oThreshold.val) (by norm_num) (by
        rw [Expm1f.v_max]; norm_num; linarith)
      have := (Real.exp_le_exp.2 hc).trans_lt this
      linarith
    have hm : Expm1f.oThreshold.mb < x.mb := by
      by_contra hc
      exact absurd (val_le_of_mb (c := Expm1f.oThreshold) (not_lt.1 hc) (by decide +kernel)) (not_le.2 hv)
    rw [show Expm1f.oThreshold.mb = 0x42b17180 by decide +kernel] at hm
    have hs : ¬ x.sign = true := by
      intro hc
      have : 0 ≤ (-x).val := val_nonneg (by rw [Flt.sign_neg, hc]; rfl)
      rw [val_neg] at this
      rw [Expm1f.v_max] at hv; norm_num at hv; linarith
    obtain ⟨w, s, h'⟩ := Expm1f.eq x
    rw [h', if_neg (fun h => hn' h.2), if_neg (fun h => hs h.2), if_pos ⟨by omega, lt_iff.2 ⟨by decide +kernel, hn, val_lt_iff.1 hv⟩⟩]
    congr 1
    apply rne_overflow (mul_rne hx (by decide +kernel))
    rw [Expf.v_big, f32_bias]
    rw [Expm1f.v_max] at hv
    norm_num at hv ⊢
    nlinarith
  lower x hx h := by
    have hn := (isNaN32 x).not.1 (not_nan_of_finite hx)
    have l1 := Num.log2_gt
    push_cast at h
    have hs : x.sign = true := by
      by_contra hc
      have : 0 ≤ x.val := val_nonneg (by simpa using hc)
      linarith
    have hm : 0x4195b843 < x.mb := by
      by_contra hc
      have := val_mono (x := bits32 0x4195b843) (y := x) (not_lt.1 hc)
      rw [Expm1f.v_lo] at this
      rw [abs_le] at this
      norm_num at this
      linarith [this.1]
    obtain ⟨w, s, h'⟩ := Expm1f.eq x
    rw [h', if_neg (fun h => hn h.2), if_pos ⟨by omega, hs⟩]
    decide +kernel

/-- Defect: between its overflow cut-off `88.72168` and `log(2^128)`, about 0.0011 further, `expm1f` returns infinity
although the exact value is below the largest finite number. -/
theorem expm1f_early_overflow : expm1f (bits32 0x42b17181) = some (inf f32 false) ∧
    Real.exp (bits32 0x42b17181).val - 1 < (bits32 0x7f7fffff).val := by
  refine ⟨by decide +kernel, ?_⟩
  have l1 := Num.log2_gt
  have := Num.exp_lt_thr (n := 128) (k := 24) (t := (bits32 0x42b17181).val) (by norm_num) (by
    rw [v_a]; norm_num; linarith)
  rw [v_b]
  norm_num at this ⊢
  linarith
where
  v_a : ((bits32 0x42b17181 : Flt f32)).val = (11628929 : ℝ) * 2 ^ (-17 : ℤ) := by
    rw [val_const32 (11628929) 132 (-17) (by decide +kernel) (by norm_num)]; norm_num
  v_b : ((bits32 0x7f7fffff : Flt f32)).val = (16777215 : ℝ) * 2 ^ (104 : ℤ) := by
    rw [val_const32 (16777215) 253 (104) (by decide +kernel) (by norm_num)]; norm_num
  

/-! ## exp10f -/
namespace Exp10f

/-- C36 for `exp10f`: an argument of magnitude below 8 indexes inside the table -/
theorem look_total (n : Flt f32) (hf : n.isFinite) (hn : |n.val| < 8) : ∃ r, look n = some r := by
  have h1 : |n.toSInt 64| ≤ 7 := by
    have h2 : |n.toInt| ≤ (7 : ℤ) := by
      have := (toInt_abs_le n).trans_lt hn
      have : |n.toInt| < 8 := by exact_mod_cast this
      omega
    unfold toSInt
    rw [if_neg (not_nan_of_finite hf), if_neg (not_inf_of_finite hf)]
    rw [abs_le] at *
    norm_num
    omega
  rw [abs_le] at h1
  unfold look
  have e : i64 (n.toSInt 64 + 7) = some (n.toSInt 64 + 7) := by
    unfold i64; rw [if_pos (by omega)]
  rw [e]
  simp only [Option.bind_some]
  rw [List.getElem?_eq_getElem (by
    rw [show p10.length = 15 by decide +kernel]
    omega)]
  exact ⟨_, rfl⟩

theorem exp_lt {n : Flt f32} (h : (n.u32 >>> 23) &&& 0xff < 0x7f#32 + 3) : n.mb < 130 * 2 ^ 23 := by
  rw [BitVec.lt_def, BitVec.toNat_and, BitVec.toNat_ushiftRight, u32_toNat, Nat.shiftRight_eq_div_pow] at h
  have e : (0xff : BitVec 32).toNat = 2 ^ 8 - 1 := rfl
  rw [e, Nat.and_two_pow_sub_one_eq_mod] at h
  have e2 : (0x7f#32 + 3 : BitVec 32).toNat = 130 := rfl
  rw [e2] at h
  have := mb32_lt n
  split at h <;> omega
end Exp10f

/-- special values and totality; saturation of `exp10f` is not covered here -/
theorem exp10f_special_partial : IsExpSpecial exp10f where
  total x := by
    unfold exp10f
    dsimp only
    split
    · rename_i h
      have hm := Exp10f.exp_lt h
      have hf : (modff x).2.isFinite := by rw [isFinite32]; omega
      have hv := val_lt_of_mb (F := f32) (x := (modff x).2) (E := 130) (by norm_num) (by rw [f32_sb]; exact hm)
      rw [f32_bias] at hv; norm_num at hv
      obtain ⟨r, hr⟩ := Exp10f.look_total _ hf hv
      split
      · exact ⟨r, hr⟩
      · obtain ⟨e, he⟩ := exp2f_special.total (Exp10f.ln10f32 * (modff x).1)
        rw [he, hr]
        exact ⟨_, rfl⟩
    · obtain ⟨e, he⟩ := exp2_special.total (Exp10f.ln10f64 * x.cast f64)
      rw [he]
      exact ⟨_, rfl⟩
  nan x hx := by
    unfold exp10f
    have h2 : (modff x).2 = x := by
      rw [modff_nonfinite x (fun h => not_nan_of_finite h hx), if_pos hx]
    dsimp only
    rw [if_neg]
    · have hc : (x.cast f64).isNaN := by
        unfold Flt.cast; rw [if_pos hx]; exact isNaN_qnan
      obtain ⟨e, he, hn⟩ := exp2_special.nan (Exp10f.ln10f64 * x.cast f64) (by
        rw [mul_nan (Or.inr hc)]; exact isNaN_qnan)
      rw [he]
      refine ⟨_, rfl, ?_⟩
      show (Flt.cast f32 e).isNaN
      unfold Flt.cast; rw [if_pos hn]; exact isNaN_qnan
    · intro h
      have := Exp10f.exp_lt h
      rw [h2] at this
      have := (isNaN32 x).1 hx
      omega
  pinf := by decide +kernel
  ninf := by decide +kernel
  zero x hx := by
    rw [eq_zero hx]
    cases x.sign <;> decide +kernel

theorem eq_of_val {F : Fmt} {x c : Flt F} (h : x.val = c.val) (h0 : c.val ≠ 0) : x = c := by
  have h1 : x.sval = c.sval := toRat_inj.1 (by unfold val at h; exact_mod_cast h)
  have hc0 : c.sval ≠ 0 := fun hc => h0 (by rw [val_eq, hc]; simp)
  have a := sval_neg_iff x (h1 ▸ hc0)
  have b := sval_neg_iff c hc0
  have hs : x.sign = c.sign := by
    have e : x.toRat = c.toRat := toRat_inj.2 h1
    rw [e] at a
    exact Bool.eq_iff_iff.2 (a.trans b.symm)
  have hm : x.mag = c.mag := by
    unfold sval at h1; rw [hs] at h1; split at h1 <;> omega
  exact eq_of_sign_mag hs hm

/-- `exp10f` of an integer between -7 and 7 is the correctly rounded power of ten -/
theorem exp10f_integer (x : Flt f32) (n : ℤ) (hn : |n| ≤ 7) (hx : x.val = n) :
    ∃ r, exp10f x = some r ∧ IsRNE ((10 : ℚ) ^ n) r := by
  by_cases h0 : n = 0
  · subst h0
    refine ⟨_, exp10f_special_partial.zero x (isZero_val.2 (by simpa using hx)), ?_⟩
    have := ofDec_isRNE f32 1 false 0
    rw [show one f32 = ofDec f32 1 false 0 by decide +kernel]
    simpa using this
  · rw [abs_le] at hn
    have hc : (ofInt f32 n).val = n := by
      obtain ⟨c, hc1, hc2⟩ := exists_val32' (n := n) (k := 0) (by rw [abs_le]; omega) (by norm_num) (by norm_num)
      exact ((ofInt_rne n).exact_real hc1 (by simpa using hc2)).2
    have hx' : x = ofInt f32 n := eq_of_val (hx.trans hc.symm) (by rw [hc]; exact_mod_cast h0)
    obtain ⟨h1, h2⟩ := hn
    have cases : ∀ (m : ℕ) (b : Bool), n = (if b then -(m : ℤ) else m) → exp10f (ofInt f32 n) = some (ofDec f32 1 b m) →
        ∃ r, exp10f x = some r ∧ IsRNE ((10 : ℚ) ^ n) r := by
      intro m b hm he
      refine ⟨_, hx' ▸ he, ?_⟩
      have := ofDec_isRNE f32 1 b m
      rw [Nat.cast_one, one_mul, ← hm] at this
      exact this
    interval_cases n
    · exact cases 7 true rfl (by decide +kernel)
    · exact cases 6 true rfl (by decide +kernel)
    · exact cases 5 true rfl (by decide +kernel)
    · exact cases 4 true rfl (by decide +kernel)
    · exact cases 3 true rfl (by decide +kernel)
    · exact cases 2 true rfl (by decide +kernel)
    · exact cases 1 true rfl (by decide +kernel)
    · exact absurd rfl h0
    · exact cases 1 false rfl (by decide +kernel)
    · exact cases 2 false rfl (by decide +kernel)
    · exact cases 3 false rfl (by decide +kernel)
    · exact cases 4 false rfl (by decide +kernel)
    · exact cases 5 false rfl (by decide +kernel)
    · exact cases 6 false rfl (by decide +kernel)
    · exact cases 7 false rfl (by decide +kernel)

/-- the hypotheses of `exp10f_integer` and of the saturation clauses are met -/
example : (bits32 0x40a00000).val = (5 : ℤ) ∧ (bits32 0x42b17219).isFinite ∧ ¬ (bits32 0x42b17219).isZero := by
  refine ⟨?_, by decide +kernel, by decide +kernel⟩
  rw [val_const32 5 149 0 (by decide +kernel) (by norm_num)]; norm_num

end Verif
