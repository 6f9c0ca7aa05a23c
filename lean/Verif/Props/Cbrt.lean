import Verif.Theory.CbrtF2
import Verif.Theory.CbrtEnd
import Verif.Theory.SymF
import Mathlib.Analysis.SpecialFunctions.Pow.Real

/-!
# C49, C32: the cube root

`cbrt` and `cbrtf` never panic, return NaN for NaN and the argument itself for zeros and infinities, are odd, and for every other
argument are within 0.500001 units in the last place of the real cube root; the cube root of a cube is exact.
-/

namespace Verif
open Flt

/-- what a cube root function must do, with an error of at most `c` units in the last place -/
structure IsCbrt {F : Fmt} (c : ℝ) (f : Flt F → Option (Flt F)) : Prop where
  total : ∀ x, ∃ r, f x = some r
  nan : ∀ x, x.isNaN → ∃ r, f x = some r ∧ r.isNaN
  inf : ∀ x, x.isInf → f x = some x
  zero : ∀ x, x.isZero → f x = some x
  /-- close to the real number whose cube is the argument -/
  acc : ∀ x, x.isFinite → ∃ r, f x = some r ∧ ∀ t : ℝ, t ^ 3 = ((x.toRat : ℚ) : ℝ) → WithinUlp c r t
  /-- the cube root of the cube of a float is that float -/
  exact : ∀ x y, x.isFinite → ¬ x.isZero → y.isFinite → y.toRat ^ 3 = x.toRat → f x = some y

namespace Cbrtf

theorem cbrtf_special (x : Flt f32) : (x.isNaN ∨ x.isInf → cbrtf x = some (x + x)) ∧ (x.isZero → cbrtf x = some x) := by
  constructor
  · intro h
    have h1 : (x.u32 &&& 0x7fffffff#32) ≥ 0x7f800000#32 := by
      rw [ge_iff_le, BitVec.le_def, u32_abs]
      simp only [BitVec.ofNat_eq_ofNat, BitVec.reduceToNat]
      rw [isNaN32, isInf32] at h
      omega
    unfold cbrtf
    simp only [if_pos h1]
  · intro h
    rw [eq_zero h]
    cases x.sign <;> decide +kernel

theorem exists_cbrt (v : ℝ) : ∃ t : ℝ, t ^ 3 = v := by
  have h : ∀ w : ℝ, 0 ≤ w → ∃ t : ℝ, t ^ 3 = w := fun w hw =>
    ⟨w ^ (1 / 3 : ℝ), by rw [← Real.rpow_natCast, ← Real.rpow_mul hw]; norm_num⟩
  rcases le_total 0 v with hv | hv
  · exact h v hv
  · obtain ⟨t, ht⟩ := h (-v) (by linarith)
    exact ⟨-t, by rw [Odd.neg_pow (by decide), ht]; ring⟩

theorem eq_of_val {F : Fmt} {x y : Flt F} (h0 : ¬ x.isZero) (hv : x.val = y.val) : x = y := by
  have hs : x.sval = y.sval := le_antisymm (val_le_iff.1 hv.le) (val_le_iff.1 hv.ge)
  rcases sval_eq_cases hs with h | h
  · exact h
  · exact absurd h.1 h0

theorem div_ne {F : Fmt} {x y : Flt F} (h : (x / y).isFinite) : ¬ y.isZero := by
  intro hy
  by_cases hx : x.isNaN
  · rw [div_nan (Or.inl hx)] at h
    exact not_nan_of_finite h isNaN_qnan
  · by_cases hz : x.isZero
    · rw [zero_div_zero hz hy] at h
      exact not_nan_of_finite h isNaN_qnan
    · rw [div_zero hx hz hy] at h
      exact not_inf_of_finite h (isInf_inf _)

theorem step_rel {x x' t t' : Flt f64} (hx : SRel true x x') (ht : SRel true t t') (h : (step x t).isFinite) :
    SRel true (step x t) (step x' t') := by
  have h0 : ¬ (x + t * t * t + t * t * t).isZero := div_ne h
  have hr : SRel true (t * t * t) (t' * t' * t') := SRel.mul (s := false) (t := true) (SRel.mul (s := true) (t := true) ht ht) ht
  have hn : SRel false (t * (x + x + t * t * t)) (t' * (x' + x' + t' * t' * t')) :=
    SRel.mul (s := true) (t := true) ht ((hx.add hx).add hr)
  exact SRel.div (s := false) (t := true) hn ((hx.add hr).add hr) h0

end Cbrtf

/-- **C49** -/
theorem cbrtf_spec : IsCbrt 0.500001 cbrtf where
  total x := by
    rcases class_cases x with h | h | h
    · exact ⟨_, (Cbrtf.cbrtf_special x).1 (Or.inl h)⟩
    · exact ⟨_, (Cbrtf.cbrtf_special x).1 (Or.inr h)⟩
    · by_cases h0 : x.isZero
      · exact ⟨_, (Cbrtf.cbrtf_special x).2 h0⟩
      · obtain ⟨t, -, -, h, -⟩ := Cbrtf.main h h0
        exact ⟨_, h⟩
  nan x h := ⟨_, (Cbrtf.cbrtf_special x).1 (Or.inl h), by rw [add_nan (Or.inl h)]; exact isNaN_qnan⟩
  inf x h := by
    rw [(Cbrtf.cbrtf_special x).1 (Or.inr h), inf_add h (fun hn => by rw [isNaN32] at hn; rw [isInf32] at h; omega) (fun _ => rfl)]
  zero x h := (Cbrtf.cbrtf_special x).2 h
  acc x h := by
    by_cases h0 : x.isZero
    · refine ⟨_, (Cbrtf.cbrtf_special x).2 h0, fun t ht => ?_⟩
      have e := isZero_val.1 h0
      have : t = x.val := by
        have h1 : t ^ 3 = 0 := by rw [← e]; exact ht
        rw [e]; exact pow_eq_zero_iff (by norm_num) |>.1 h1
      rw [this]
      exact WithinUlp.exact (by norm_num) h
    · obtain ⟨t, -, -, hr, hc⟩ := Cbrtf.main h h0
      refine ⟨_, hr, fun c hcc => ?_⟩
      obtain ⟨-, r1, r2⟩ := hc c hcc
      obtain ⟨g1, g2⟩ := Cbrtf.range h h0 hcc
      refine WithinUlp.of_rne_rel (cast_rne r1) ?_ ?_ (by decide) r2 (by norm_num) ?_ ?_
      · rw [← abs_pos]; exact lt_of_lt_of_le (by positivity) g1
      · rw [f32_bias]
        exact lt_of_le_of_lt g2 (zpow_lt_zpow_right₀ (by norm_num) (by norm_num))
      · rw [f32_sb]; norm_num
      · rw [f32_sb]; norm_num
  exact x y hx x0 hy hxy := by
    obtain ⟨t, -, -, hr, hc⟩ := Cbrtf.main hx x0
    rw [hr]
    have hyv : y.val ^ 3 = x.val := by
      show ((y.toRat : ℚ) : ℝ) ^ 3 = ((x.toRat : ℚ) : ℝ)
      exact_mod_cast hxy
    obtain ⟨-, r1, r2⟩ := hc _ hyv
    obtain ⟨g1, g2⟩ := Cbrtf.range hx x0 hyv
    obtain ⟨k1, k2⟩ := rne_of_near (cast_rne (G := f32) r1) hy (by
      have := abs_sub_abs_le_abs_sub (Cbrtf.step (x.cast f64) (Cbrtf.step (x.cast f64) (t.cast f64))).val y.val
      have h3 : (1 / 2 ^ 45 - 1 / 2 ^ 46 + 1 / 2 ^ 48 : ℝ) * |y.val| ≤ 1 * |y.val| := mul_le_mul_of_nonneg_right (by norm_num) (abs_nonneg _)
      have h4 : (2 : ℝ) ^ (43 : ℤ) * 2 ≤ 3 / 2 * 2 ^ (f32.bias : ℤ) := by rw [f32_bias]; norm_num
      linarith) r2 (by rw [f32_sb]; norm_num)
    rw [← Cbrtf.eq_of_val (x := y) (fun h => ?_) k2.symm]
    rw [isZero_val.1 h, abs_zero] at g1
    exact absurd g1 (not_le.2 (zp _))

/-- **C32** -/
theorem cbrtf_odd : OddFn cbrtf := by
  intro x hx
  by_cases hi : x.isInf
  · rw [eq_inf hi]
    cases x.sign
    · exact InvTrig.odd_of (r := inf f32 false) (r' := inf f32 true) (by decide +kernel) (by decide +kernel) (by decide +kernel)
    · exact InvTrig.odd_of (r := inf f32 true) (r' := inf f32 false) (by decide +kernel) (by decide +kernel) (by decide +kernel)
  by_cases hz : x.isZero
  · rw [eq_zero hz]
    cases x.sign
    · exact InvTrig.odd_of (r := zero f32 false) (r' := zero f32 true) (by decide +kernel) (by decide +kernel) (by decide +kernel)
    · exact InvTrig.odd_of (r := zero f32 true) (r' := zero f32 false) (by decide +kernel) (by decide +kernel) (by decide +kernel)
  have hf : x.isFinite := by
    rw [isNaN32] at hx; rw [isInf32] at hi; rw [isFinite32]; omega
  obtain ⟨t, tf, ht, h1, h2⟩ := Cbrtf.main hf hz
  obtain ⟨t', tf', ht', h1', h2'⟩ := Cbrtf.main (x := -x) (by simpa using hf) (by simpa using hz)
  rw [Cbrtf.tmag_neg, Flt.sign_neg] at ht'
  have htt : t' = -t := by
    have hlt : Cbrtf.tmag x < 2 ^ (f32.ew + f32.sb) := by
      rw [f32_es]; exact Cbrtf.tmag_lt hf
    rw [ht, ht']
    apply ext_mb
    · rw [Flt.sign_neg, sign_mk' hlt, sign_mk' hlt]
    · rw [mb_neg, mb_mk' hlt, mb_mk' hlt]
  rw [htt] at h1'
  obtain ⟨c, hc⟩ := Cbrtf.exists_cbrt x.val
  obtain ⟨f1, f2⟩ := h2 c hc
  have rx : SRel true (x.cast f64) ((-x).cast f64) := (SRel.neg x).cast
  have rt : SRel true (t.cast f64) ((-t).cast f64) := (SRel.neg t).cast
  have s1 := Cbrtf.step_rel rx rt f1
  have s2 := (Cbrtf.step_rel rx s1 f2.fin).cast (G := f32)
  rw [h1, h1']
  refine Erf.odd_nonzero s2 ?_
  obtain ⟨r, hr, hacc⟩ := cbrtf_spec.acc x hf
  rw [h1, Option.some.injEq] at hr
  subst hr
  refine (hacc c hc).ne_zero (by norm_num) ?_
  rw [f32_bias]
  exact le_trans (zpow_le_zpow_right₀ (by norm_num) (by norm_num)) (Cbrtf.range hf hz hc).1

namespace Cbrt

theorem cbrt_special (x : Flt f64) (h : x.isNaN ∨ x.isInf ∨ x.isZero) : cbrt x = some (x + x) := by
  unfold cbrt
  simp only
  rw [if_pos]
  rw [isNaN64, isInf64, isZero_iff] at h
  refine ⟨(special_cond x).2 (by omega), ?_⟩
  by_cases h0 : x.mb = 0
  · right
    apply BitVec.eq_of_toNat_eq
    rw [u64_abs, h0]; rfl
  · left
    apply BitVec.eq_of_toNat_eq
    rw [exp_field]
    have := mb64_lt x
    simp only [BitVec.reduceToNat]
    omega

theorem cbrt_zero (x : Flt f64) (h : x.isZero) : cbrt x = some x := by
  rw [eq_zero h]
  cases x.sign <;> decide +kernel

theorem root_unique {t a : ℝ} (h : t ^ 3 = a ^ 3) : t = a := (Odd.strictMono_pow (n := 3) (by decide)).injective h

theorem near_ulp {C y : ℝ} {k : ℤ} (hC1 : 1 ≤ |C|) (hn : |y - C| ≤ 1 / 2 ^ 53 + 1 / 2 ^ 73) (hk : -358 ≤ k) :
    |y * 2 ^ k - C * 2 ^ k| ≤ 0.500001 * ulpAt f64 (C * 2 ^ k) := by
  have hp := zp k
  have hne : C * 2 ^ k ≠ 0 := mul_ne_zero (fun h => by rw [h] at hC1; norm_num at hC1) hp.ne'
  have hl : k ≤ Int.log 2 |C * 2 ^ k| := by
    rw [← Int.zpow_le_iff_le_log (by norm_num) (abs_pos.2 hne), abs_mul, abs_of_pos hp]
    push_cast
    exact le_mul_of_one_le_left hp.le hC1
  have hu : (2 : ℝ) ^ (k - 52) ≤ ulpAt f64 (C * 2 ^ k) := by
    unfold ulpAt
    rw [if_neg hne, f64_sb]
    exact zpow_le_zpow_right₀ (by norm_num) (by have := le_max_left (Int.log 2 |C * 2 ^ k|) (1 - f64.bias); push_cast; omega)
  rw [← sub_mul, abs_mul, abs_of_pos hp]
  have h1 := mul_le_mul_of_nonneg_right hn hp.le
  have h2 : (2 : ℝ) ^ (k - 52) = 2 ^ k * (1 / 2 ^ 52) := by rw [zpow_sub₀ (by norm_num)]; norm_num; ring
  rw [h2] at hu
  have h3 := mul_le_mul_of_nonneg_left hu (show (0 : ℝ) ≤ 0.500001 by norm_num)
  refine h1.trans (le_trans ?_ h3)
  rw [show (0.500001 : ℝ) * (2 ^ k * (1 / 2 ^ 52)) = 0.500001 * (1 / 2 ^ 52) * 2 ^ k by ring]
  exact mul_le_mul_of_nonneg_right (by norm_num) hp.le

end Cbrt

/-- **C49** -/
theorem cbrt_spec : IsCbrt 0.500001 cbrt where
  total x := by
    rcases class_cases x with h | h | h
    · exact ⟨_, Cbrt.cbrt_special x (Or.inl h)⟩
    · exact ⟨_, Cbrt.cbrt_special x (Or.inr (Or.inl h))⟩
    · by_cases h0 : x.isZero
      · exact ⟨_, Cbrt.cbrt_zero x h0⟩
      · obtain ⟨C, k, y1, r, R⟩ := Cbrt.result h h0
        exact ⟨_, R.eq⟩
  nan x h := ⟨_, Cbrt.cbrt_special x (Or.inl h), by rw [add_nan (Or.inl h)]; exact isNaN_qnan⟩
  inf x h := by
    rw [Cbrt.cbrt_special x (Or.inr (Or.inl h)), inf_add h (fun hn => by rw [isNaN64] at hn; rw [isInf64] at h; omega) (fun _ => rfl)]
  zero x h := Cbrt.cbrt_zero x h
  acc x h := by
    by_cases h0 : x.isZero
    · refine ⟨_, Cbrt.cbrt_zero x h0, fun t ht => ?_⟩
      have e := isZero_val.1 h0
      have : t = x.val := by
        have h1 : t ^ 3 = 0 := by rw [← e]; exact ht
        rw [e]; exact pow_eq_zero_iff (by norm_num) |>.1 h1
      rw [this]
      exact WithinUlp.exact (by norm_num) h
    · obtain ⟨C, k, y1, r, R⟩ := Cbrt.result h h0
      refine ⟨_, R.eq, fun t ht => ⟨R.fin, ?_⟩⟩
      rw [Cbrt.root_unique (ht.trans R.cube)]
      show |r.val - _| ≤ _
      rw [R.val]
      exact Cbrt.near_ulp R.C1 R.good.near R.k1
  exact x y hx x0 hy hxy := by
    obtain ⟨C, k, y1, r, R⟩ := Cbrt.result hx x0
    have hyv : y.val = C * 2 ^ k := by
      apply Cbrt.root_unique
      rw [← R.cube]
      show ((y.toRat : ℚ) : ℝ) ^ 3 = ((x.toRat : ℚ) : ℝ)
      exact_mod_cast hxy
    have hp := zp k
    have hya : 2 ^ k ≤ |y.val| := by
      rw [hyv, abs_mul, abs_of_pos hp]
      exact le_mul_of_one_le_left hp.le R.C1
    obtain ⟨n, hn⟩ := grid y k hya
    have hC : C = n * 2 ^ (-52 : ℤ) := by
      have h1 : C * 2 ^ k = n * 2 ^ (-52 : ℤ) * 2 ^ k := by
        rw [← hyv, hn, f64_sb, mul_assoc, ← zpow_add₀ (by norm_num)]
        congr 2
        push_cast
        ring
      exact mul_right_cancel₀ hp.ne' h1
    have hnb : |n| ≤ 2 ^ 53 := by
      have h2 := R.C2
      rw [hC, abs_mul, abs_of_pos (zp (-52))] at h2
      have h3 : |(n : ℝ)| ≤ 2 ^ 53 := by
        have h4 := mul_le_mul_of_nonneg_right h2 (show (0 : ℝ) ≤ 2 ^ 52 by norm_num)
        rw [mul_assoc, show (2 : ℝ) ^ (-52 : ℤ) * 2 ^ 52 = 1 by norm_num, mul_one] at h4
        exact h4.trans (by norm_num)
      exact_mod_cast h3
    obtain ⟨w, wf, wv⟩ := exists_val64' hnb (show (-1074 : ℤ) ≤ -52 by norm_num) (by norm_num)
    have e1 := R.good.exact w wf (by rw [wv, hC])
    rw [R.eq, Option.some.injEq]
    symm
    refine Cbrtf.eq_of_val (fun h => ?_) ?_
    · rw [isZero_val.1 h, abs_zero] at hya
      exact absurd hya (not_le.2 hp)
    · rw [R.val, e1, wv, ← hC, hyv]

/-- **C32** -/
theorem cbrt_odd : OddFn cbrt := by
  intro x hx
  by_cases hi : x.isInf
  · rw [eq_inf hi]
    cases x.sign
    · exact InvTrig.odd_of (r := inf f64 false) (r' := inf f64 true) (by decide +kernel) (by decide +kernel) (by decide +kernel)
    · exact InvTrig.odd_of (r := inf f64 true) (r' := inf f64 false) (by decide +kernel) (by decide +kernel) (by decide +kernel)
  by_cases hz : x.isZero
  · rw [eq_zero hz]
    cases x.sign
    · exact InvTrig.odd_of (r := zero f64 false) (r' := zero f64 true) (by decide +kernel) (by decide +kernel) (by decide +kernel)
    · exact InvTrig.odd_of (r := zero f64 true) (r' := zero f64 false) (by decide +kernel) (by decide +kernel) (by decide +kernel)
  have hf : x.isFinite := by
    rw [isNaN64] at hx; rw [isInf64] at hi; rw [isFinite64]; omega
  obtain ⟨C, k, y1, r, R⟩ := Cbrt.result hf hz
  exact InvTrig.odd_of R.eq R.neg rfl

/-- the hypotheses are met: 2.0 is the cube root of 8.0, -3.0 that of -27.0, and the least number has a cube root -/
example : cbrt (bits64 0x4020000000000000#64) = some (bits64 0x4000000000000000#64) ∧
    cbrt (bits64 0xc03b000000000000#64) = some (bits64 0xc008000000000000#64) ∧ (cbrt (bits64 1#64)).isSome := by decide +kernel

/-- the hypotheses are met: 2.0 is the cube root of 8.0, -3.0 that of -27.0; a subnormal and a large argument -/
example : cbrtf (bits32 0x41000000#32) = some (bits32 0x40000000#32) ∧ cbrtf (bits32 0xc1d80000#32) = some (bits32 0xc0400000#32) ∧
    (cbrtf (bits32 0x00000001#32)).isSome ∧ (bits32 0x7f7fffff#32).isFinite := by decide +kernel

end Verif
