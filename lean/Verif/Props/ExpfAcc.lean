import Verif.Theory.ExpF
import Verif.Props.ExpAcc

/-!
# C58: accuracy of `expf`
-/

namespace Verif
open Flt
open Generic (scalbn)

namespace Expf
theorem v_c1 : (bits32 0x3eb17219 : Flt f32).val = (11629081 : ℝ) * 2 ^ (-25 : ℤ) := by
  rw [val_const32 (x := bits32 0x3eb17219) (11629081) 124 (-25) (by decide +kernel) (by norm_num)]; norm_num
theorem v_c1u : (bits32 0x3eb17218 : Flt f32).val = (1453635 : ℝ) * 2 ^ (-22 : ℤ) := by
  rw [val_const32 (x := bits32 0x3eb17218) (1453635) 127 (-22) (by decide +kernel) (by norm_num)]; norm_num
theorem v_c2 : (bits32 0x3f851593 : Flt f32).val = (8721811 : ℝ) * 2 ^ (-23 : ℤ) := by
  rw [val_const32 (x := bits32 0x3f851593) (8721811) 126 (-23) (by decide +kernel) (by norm_num)]; norm_num
theorem v_c2u : (bits32 0x3f851592 : Flt f32).val = (4360905 : ℝ) * 2 ^ (-22 : ℤ) := by
  rw [val_const32 (x := bits32 0x3f851592) (4360905) 127 (-22) (by decide +kernel) (by norm_num)]; norm_num
theorem v_c3 : (bits32 0x39000000 : Flt f32).val = (1 : ℝ) * 2 ^ (-13 : ℤ) := by
  rw [val_const32 (x := bits32 0x39000000) (1) 136 (-13) (by decide +kernel) (by norm_num)]; norm_num
theorem v_next : (bits32 0x42b17218 : Flt f32).val = (1453635 : ℝ) * 2 ^ (-14 : ℤ) := by
  rw [val_const32 (x := bits32 0x42b17218) (1453635) 135 (-14) (by decide +kernel) (by norm_num)]; norm_num
theorem v_pred1 : (bits32 0x3f7fffff : Flt f32).val = (16777215 : ℝ) * 2 ^ (-24 : ℤ) := by
  rw [val_const32 (x := bits32 0x3f7fffff) (16777215) 125 (-24) (by decide +kernel) (by norm_num)]; norm_num
theorem v_zmin : (bits32 0x42cff1b5 : Flt f32).val = (13627829 : ℝ) * 2 ^ (-17 : ℤ) := by
  rw [val_const32 (x := bits32 0x42cff1b5) (13627829) 132 (-17) (by decide +kernel) (by norm_num)]; norm_num

theorem redK_big {x : Flt f32} (xf : x.isFinite) (h0 : 1.0397 ≤ |x.val|) (h1 : |x.val| ≤ 104) :
    ∃ k : ℤ, (invln2 * x + (if x.sign then (-0.5) else 0.5)).toSInt 32 = k ∧ k ≠ 0 ∧ |k| ≤ 151 ∧ |x.val - k * Real.log 2| ≤ 0.3466 ∧
      |k * ln2hi.val| ≤ 2 * |x.val| := by
  have l1 := Num.log2_gt
  have l2 := Num.log2_lt
  have hi := invln2_val
  have hh := ln2hi_val
  norm_num at l1 l2 hi hh h0 h1
  have pr := mul_rne (x := invln2) (by decide +kernel) xf
  obtain ⟨pf, pe⟩ := pr.err 8 (by rw [abs_mul, hi, abs_of_pos (by norm_num)]; norm_num; linarith) (by rw [f32_bias]; norm_num) (by rw [f32_bias]; norm_num)
  obtain ⟨hf, hv⟩ : ((if x.sign then (-0.5) else 0.5 : Flt f32)).isFinite ∧ (if x.sign then (-0.5) else 0.5 : Flt f32).val = if x.sign then -(1 / 2) else 1 / 2 := by
    have e : (0.5 : Flt f32).val = 1 / 2 := by
      rw [val_const32 (x := (0.5 : Flt f32)) 1 148 (-1) (by decide +kernel) (by norm_num)]; norm_num
    split
    · exact ⟨by decide +kernel, by rw [show (-0.5 : Flt f32) = -(0.5 : Flt f32) from rfl, val_neg, e]⟩
    · exact ⟨by decide +kernel, e⟩
  set h : Flt f32 := if x.sign then (-0.5) else 0.5 with hdef
  have sr := add_rne pf hf
  have pe2 := abs_le.1 pe
  rw [f32_sb] at pe2
  have hx2 := abs_le.1 h1
  have sb : |(invln2 * x).val + h.val| ≤ 2 ^ (8 : ℤ) := by
    rw [hv, abs_le]
    rw [hi] at pe2
    norm_num at pe2 ⊢
    split <;> constructor <;> linarith [hx2.1, hx2.2, pe2.1, pe2.2]
  obtain ⟨sf, se⟩ := sr.err 8 sb (by rw [f32_bias]; norm_num) (by rw [f32_bias]; norm_num)
  rw [f32_sb] at se
  have se2 := abs_le.1 se
  rw [hv] at se2
  set s := invln2 * x + h with sdef
  have key : ∃ σ : ℝ, (σ = 1 ∨ σ = -1) ∧ |x.val| = σ * x.val ∧ |s.val| = σ * s.val ∧ (s.toSInt 32 : ℝ) = σ * ⌊|s.val|⌋ ∧
      |(|s.val| - (invln2.val * |x.val| + 1 / 2))| ≤ 1 / 2 ^ 16 := by
    have hsf : |s.val| < 2 ^ (32 - 1) := by
      rw [abs_lt]
      rw [hi] at pe2
      norm_num at pe2 se2 ⊢
      cases hxs : x.sign <;> rw [hxs] at se2 <;> norm_num at se2 <;> constructor <;> linarith [hx2.1, hx2.2, pe2.1, pe2.2, se2.1, se2.2]
    cases hxs : x.sign
    · have xp := val_nonneg hxs
      rw [abs_of_nonneg xp] at h0 h1
      rw [hxs] at se2
      rw [hi] at pe2
      norm_num at pe2 se2
      have sp : 0 < s.val := by linarith [pe2.1, se2.1]
      refine ⟨1, Or.inl rfl, by rw [abs_of_nonneg xp, one_mul], by rw [abs_of_pos sp, one_mul], ?_, ?_⟩
      · rw [toSInt_floor sf sp.le (by rwa [abs_of_pos sp] at hsf), abs_of_pos sp, one_mul]
      · rw [abs_of_nonneg xp, abs_of_pos sp, hi, abs_le]
        norm_num
        constructor <;> linarith [pe2.1, pe2.2, se2.1, se2.2]
    · have xp := val_nonpos hxs
      rw [abs_of_nonpos xp] at h0 h1
      rw [hxs] at se2
      rw [hi] at pe2
      norm_num at pe2 se2
      have sp : s.val < 0 := by linarith [pe2.2, se2.2]
      have ss : s.sign = true := by
        by_contra hc
        have := val_nonneg (x := s) (by simpa using hc)
        linarith
      refine ⟨-1, Or.inr rfl, by rw [abs_of_nonpos xp]; ring, by rw [abs_of_neg sp]; ring, ?_, ?_⟩
      · rw [toSInt_eq sf hsf, if_pos ss]; push_cast; ring
      · rw [abs_of_nonpos xp, abs_of_neg sp, hi, abs_le]
        norm_num
        constructor <;> linarith [pe2.1, pe2.2, se2.1, se2.2]
  obtain ⟨σ, hσ, ex, es, ek, hd⟩ := key
  have hσ2 : |σ| = 1 := by rcases hσ with rfl | rfl <;> simp
  have f1 := Int.floor_le |s.val|
  have f2 := Int.lt_floor_add_one |s.val|
  set m := ⌊|s.val|⌋
  have hd2 := abs_le.1 hd
  rw [hi] at hd2
  norm_num at hd2
  have ax := abs_nonneg x.val
  have m1 : (1 : ℝ) ≤ m := by
    have : (0 : ℤ) < m := by
      have : (0 : ℝ) < m := by linarith [hd2.1]
      exact_mod_cast this
    exact_mod_cast this
  have m2 : (m : ℝ) ≤ 151 := by linarith [hd2.2]
  have ak : |((s.toSInt 32 : ℤ) : ℝ)| = m := by rw [ek, abs_mul, hσ2, one_mul, abs_of_nonneg (by linarith)]
  have rr : |(|x.val| - m * Real.log 2)| ≤ 0.3466 := by
    have e : |x.val| - m * Real.log 2 = (|x.val| * invln2.val - m) * Real.log 2 + |x.val| * (1 - invln2.val * Real.log 2) := by ring
    rw [e]
    refine (abs_add_le _ _).trans ?_
    rw [abs_mul, abs_mul, abs_abs, abs_of_pos (show 0 < Real.log 2 by linarith)]
    have b1 : |(|x.val| * invln2.val - m)| ≤ 1 / 2 + 1 / 2 ^ 16 := by
      rw [hi, abs_le]
      norm_num
      constructor <;> linarith [hd2.1, hd2.2]
    have b2 : |1 - invln2.val * Real.log 2| ≤ 1 / 2 ^ 26 := by
      rw [hi, abs_le]
      norm_num
      constructor <;> linarith
    have b3 : |(|x.val| * invln2.val - m)| * Real.log 2 ≤ (1 / 2 + 1 / 2 ^ 16) * 0.693147181 :=
      mul_le_mul b1 (by norm_num; linarith) (by linarith) (by norm_num)
    have b4 : |x.val| * |1 - invln2.val * Real.log 2| ≤ 104 * (1 / 2 ^ 26) := mul_le_mul h1 b2 (abs_nonneg _) (by norm_num)
    norm_num at b3 b4 ⊢
    linarith
  refine ⟨_, rfl, ?_, ?_, ?_, ?_⟩
  · intro h
    rw [h] at ak
    simp at ak
    linarith
  · have : |((s.toSInt 32 : ℤ) : ℝ)| ≤ 151 := by rw [ak]; exact m2
    exact_mod_cast this
  · have e : x.val - (s.toSInt 32 : ℤ) * Real.log 2 = σ * (|x.val| - m * Real.log 2) := by
      rw [ek, ex]
      rcases hσ with rfl | rfl <;> ring
    rw [e, abs_mul, hσ2, one_mul]
    exact rr
  · rw [abs_mul, ak, hh, abs_of_pos (by norm_num)]
    have := (abs_le.1 rr).1
    have h5 : (m : ℝ) * 0.693145 ≤ m * Real.log 2 := mul_le_mul_of_nonneg_left (by norm_num; linarith) (by linarith)
    norm_num at this h5 ⊢
    linarith

theorem scale_ulp {y : Flt f32} {q ρ t : ℝ} {k : ℤ} (hy : IsRNE q y) (hq : |q - Real.exp ρ| ≤ 0.85 / 2 ^ 24) (hρ : |ρ| ≤ 0.34661)
    (ht : t = ρ + k * Real.log 2) (hk1 : |k| ≤ 151) (hk : k ≤ 127 ∨ k = 128 ∧ t ≤ 88.722832) :
    ∃ r, (if k = 0 then some y else scalbn y k) = some r ∧ WithinUlp 1.35 r (Real.exp t) ∧ 0 ≤ r.val := by
  obtain ⟨a, b⟩ := exp_range (r := ρ) (hρ.trans (by norm_num))
  have hq' : |q - Real.exp ρ| ≤ 0.85 * 2 ^ (-1 - (f32.sb : ℤ)) := by
    rw [f32_sb]; refine hq.trans ?_; norm_num
  have hE1 : 0.6 ≤ Real.exp ρ := by norm_num at a ⊢; linarith
  have hE2 : Real.exp ρ ≤ 1.6 := by norm_num at b ⊢; linarith
  obtain ⟨yf, -⟩ := near_scaled hy (by rw [f32_bias]; norm_num) (by rw [f32_sb]; norm_num) hE1 hE2 (by norm_num) (by norm_num) hq'
  have et : Real.exp t = Real.exp ρ * 2 ^ k := by
    rw [ht, Real.exp_add]
    congr 1
    rw [mul_comm, Real.exp_mul, Real.exp_log (by norm_num), Real.rpow_intCast]
  have z0 : (0.0 : Flt f32).val = 0 := Powf.v_0
  have y0 : 0 ≤ y.val := by
    have := hy.ge_of_ge yf (s := (0.0 : Flt f32)) (by decide +kernel) (by
      rw [z0]
      have := (abs_le.1 hq).1
      norm_num at this hE1 ⊢; linarith)
    rwa [z0] at this
  have main0 : ∀ r : Flt f32, IsRNE (y.val * 2 ^ k) r → WithinUlp 1.35 r (Real.exp t) := fun r hr => by
    rw [et]
    have := WithinUlp.scaled hy hr (by rw [f32_bias]; norm_num) (by rw [f32_sb]; norm_num) hE1 hE2 (δ := 0.85) (by norm_num) (by norm_num) hq' (by
      rw [f32_bias]
      rcases hk with hk | ⟨rfl, hk⟩
      · left; exact_mod_cast hk
      · right
        refine ⟨by norm_num, ?_⟩
        have l1 := Num.log2_gt
        have hρ2 : ρ ≤ -(1 / 10 ^ 6) := by
          have : ρ = t - 128 * Real.log 2 := by rw [ht]; push_cast; ring
          rw [this]
          norm_num at l1 hk ⊢; linarith
        have h1 := Real.abs_exp_sub_one_sub_id_le (x := -(1 / 10 ^ 6)) (by norm_num)
        have h2 := Real.exp_le_exp.2 hρ2
        have h3 := (abs_le.1 h1).2
        have h4 := (abs_le.1 hq).2
        have := hy.le_of_le yf (s := bits32 0x3f7fffff) (by decide +kernel) (by
          rw [v_pred1]
          generalize Real.exp (-(1 / 10 ^ 6)) = B at *
          generalize Real.exp ρ = A at *
          norm_num at h2 h3 h4 ⊢; linarith)
        rw [v_pred1] at this
        refine this.trans_lt ?_
        norm_num)
    norm_num at this ⊢
    exact this
  have main : ∀ r : Flt f32, IsRNE (y.val * 2 ^ k) r → WithinUlp 1.35 r (Real.exp t) ∧ 0 ≤ r.val := fun r hr => by
    have h := main0 r hr
    refine ⟨h, ?_⟩
    have := hr.ge_of_ge h.1 (s := (0.0 : Flt f32)) (by decide +kernel) (by rw [z0]; exact mul_nonneg y0 (zp _).le)
    rwa [z0] at this
  by_cases h0 : k = 0
  · rw [if_pos h0]
    refine ⟨y, rfl, main y ?_⟩
    have h := mul_rne yf (y := one f32) isFinite_one
    rw [mul_one_self (not_nan_of_finite yf), val_one, mul_one] at h
    rw [h0, zpow_zero, mul_one]; exact h
  · rw [if_neg h0]
    obtain ⟨r, h1, h2, -⟩ := scalbn_finite (F := f32) (Or.inr (Or.inl rfl)) y yf k (by rw [abs_le] at hk1; omega) (by rw [abs_le] at hk1; omega)
    refine ⟨r, h1, main r ?_⟩
    have := isRNE_real h2
    push_cast at this
    exact this

theorem reduce_eq (x : Flt f32) (s : Int) : reduce x (x.u32 &&& 0x7fffffff) s =
    if 0x3eb17218 < x.mb then
      (redK x (x.u32 &&& 0x7fffffff) s).bind fun k =>
        kernel (x - ofInt f32 k * ln2hi - ofInt f32 k * ln2lo) (x - ofInt f32 k * ln2hi) (ofInt f32 k * ln2lo) k
    else if 0x39000000 < x.mb then kernel x x 0.0 0
    else some (1.0 + x) := by
  unfold reduce
  simp only [gt_iff_lt, BitVec.lt_def, u32_abs']
  rfl

theorem redK_eq (x : Flt f32) (s : Int) : redK x (x.u32 &&& 0x7fffffff) s =
    if 0x3f851592 < x.mb then (half[s.toNat]?).map fun h => (invln2 * x + h).toSInt 32 else some (1 - s - s) := by
  unfold redK
  simp only [gt_iff_lt, BitVec.lt_def, u32_abs']
  rfl

theorem reduce_acc {x : Flt f32} (xf : x.isFinite) (h1 : -104 ≤ x.val) (h2 : x.val ≤ 88.722832) :
    ∃ r, reduce x (x.u32 &&& 0x7fffffff) (if x.sign then 1 else 0) = some r ∧ WithinUlp 1.35 r (Real.exp x.val) ∧ 0 ≤ r.val := by
  have l1 := Num.log2_gt
  have l2 := Num.log2_lt
  have hh := ln2hi_val
  norm_num at l1 l2 hh
  have hmag : |x.val| ≤ 104 := by rw [abs_le]; norm_num at h1 h2; constructor <;> linarith
  rw [reduce_eq]
  by_cases c1 : 0x3eb17218 < x.mb
  on_goal 2 => by_cases c2 : 0x39000000 < x.mb
  · -- argument reduction
    rw [if_pos c1]
    have hlo : |(bits32 0x3eb17219).val| ≤ |x.val| := val_mono (by
      rw [show (bits32 0x3eb17219).mb = 0x3eb17219 by decide +kernel]
      omega)
    rw [v_c1, abs_of_pos (by positivity)] at hlo
    norm_num at hlo
    have hk : ∃ k : ℤ, redK x (x.u32 &&& 0x7fffffff) (if x.sign then 1 else 0) = some k ∧ k ≠ 0 ∧ |k| ≤ 151 ∧
        |x.val - k * Real.log 2| ≤ 0.3466 ∧ |k * ln2hi.val| ≤ 2 * |x.val| := by
      rw [redK_eq]
      by_cases c3 : 0x3f851592 < x.mb
      · rw [if_pos c3]
        have h3 : |(bits32 0x3f851593).val| ≤ |x.val| := val_mono (by
          rw [show (bits32 0x3f851593).mb = 0x3f851593 by decide +kernel]
          omega)
        rw [v_c2, abs_of_pos (by positivity)] at h3
        norm_num at h3
        obtain ⟨k, hk, h4⟩ := redK_big xf (by norm_num; linarith) hmag
        refine ⟨k, ?_, h4⟩
        rw [← hk]
        cases x.sign <;> rfl
      · rw [if_neg c3]
        have h3 : |x.val| ≤ |(bits32 0x3f851592).val| := val_mono (by
          rw [show (bits32 0x3f851592).mb = 0x3f851592 by decide +kernel]
          omega)
        rw [v_c2u, abs_of_pos (a := (_ * _ : ℝ)) (by positivity)] at h3
        norm_num at h3
        refine ⟨_, rfl, ?_⟩
        cases hs : x.sign
        · have xp := val_nonneg hs
          rw [abs_of_nonneg xp] at h3 hlo ⊢
          norm_num
          rw [abs_le, abs_of_pos (by rw [hh]; norm_num), hh]
          refine ⟨⟨?_, ?_⟩, ?_⟩ <;> linarith
        · have xp := val_nonpos hs
          rw [abs_of_nonpos xp] at h3 hlo ⊢
          norm_num
          rw [abs_le, abs_of_pos (by rw [hh]; norm_num), hh]
          refine ⟨⟨?_, ?_⟩, ?_⟩ <;> linarith
    obtain ⟨k, ek, k0, k1, k2, k3⟩ := hk
    rw [ek]
    replace k2 : |x.val - k * Real.log 2| ≤ 0.34661 := k2.trans (by norm_num)
    obtain ⟨r1, r2, r3, r4, r5, r6, r7, r8⟩ := reduce_err xf k1 k0 k2 k3
    obtain ⟨q, q1, q2⟩ := near r1 r2 r3 r4 r5 r6 r7 r8
    have := scale_ulp (t := x.val) (k := k) q1 q2 k2 (by ring) k1 (by
      rcases lt_or_ge k 128 with hk | hk
      · left; omega
      · right
        refine ⟨?_, h2⟩
        by_contra hc
        have hk5 : (129 : ℝ) ≤ k := by exact_mod_cast (by omega : (129 : ℤ) ≤ k)
        have := (abs_le.1 k2).1
        have h6 : (129 : ℝ) * Real.log 2 ≤ k * Real.log 2 := mul_le_mul_of_nonneg_right hk5 (by linarith)
        norm_num at this h2; linarith)
    exact this
  · rw [if_neg c1, if_pos c2]
    have hup : |x.val| ≤ |(bits32 0x3eb17218).val| := val_mono (by
      rw [show (bits32 0x3eb17218).mb = 0x3eb17218 by decide +kernel]
      omega)
    rw [v_c1u, abs_of_pos (a := (_ * _ : ℝ)) (by positivity)] at hup
    norm_num at hup
    have z0 : ((0.0 : Flt f32)).val = 0 := Powf.v_0
    obtain ⟨q, q1, q2⟩ := near (x := x) (hi := x) (lo := 0.0) (ρ := x.val) xf xf (by decide +kernel) (by norm_num; linarith) (by rw [z0]; simp)
      (by norm_num; linarith) (by rw [z0]; simp) (by rw [z0]; simp)
    exact scale_ulp (t := x.val) (k := 0) q1 q2 (by norm_num; linarith) (by simp) (by norm_num) (by norm_num)
  · rw [if_neg c1, if_neg c2]
    have hup : |x.val| ≤ |(bits32 0x39000000).val| := val_mono (by
      rw [show (bits32 0x39000000).mb = 0x39000000 by decide +kernel]
      omega)
    rw [v_c3, abs_of_pos (a := (_ * _ : ℝ)) (by positivity)] at hup
    have h := add_rne (x := (1.0 : Flt f32)) (by decide +kernel) xf
    rw [Powf.v_one] at h
    have hs : |x.val| ^ 2 ≤ (1 * 2 ^ (-13 : ℤ)) ^ 2 := pow_le_pow_left₀ (abs_nonneg _) hup 2
    have := scale_ulp (t := x.val) (ρ := x.val) (k := 0) h (by
      have h1 := Real.abs_exp_sub_one_sub_id_le (x := x.val) (hup.trans (by norm_num))
      rw [sq_abs] at hs
      rw [abs_sub_comm, show Real.exp x.val - (1 + x.val) = Real.exp x.val - 1 - x.val by ring]
      refine (h1.trans hs).trans ?_
      norm_num) (hup.trans (by norm_num)) (by simp) (by norm_num) (by norm_num)
    exact this
end Expf

theorem expf_accurate_pos (x : Flt f32) (xf : x.isFinite) (hx : Real.exp x.val < ((overflowThreshold f32 : ℚ) : ℝ)) :
    ∃ r, expf x = some r ∧ WithinUlp 1.35 r (Real.exp x.val) ∧ 0 ≤ r.val := by
  have hn := (isNaN32 x).not.1 (not_nan_of_finite xf)
  have l1 := Num.log2_gt
  have l2 := Num.log2_lt
  have hv : ¬ (0x42b17218 ≤ x.mb ∧ x.sign = false) := by
    rintro ⟨hm, hs⟩
    have h3 : |(bits32 0x42b17218).val| ≤ |x.val| := val_mono (by
      rw [show (bits32 0x42b17218).mb = 0x42b17218 by decide +kernel]; omega)
    rw [Expf.v_next, abs_of_pos (a := (_ * _ : ℝ)) (by positivity), abs_of_nonneg (val_nonneg hs)] at h3
    have h4 := Num.two_zpow_lt_exp (n := 128) (t := x.val) (by
      refine lt_of_lt_of_le ?_ h3
      norm_num at l2 ⊢; linarith)
    rw [← thr32] at hx
    have := h4.trans hx
    have hp : (0 : ℝ) < 2 ^ (128 : ℤ) := zp _
    have h5 : (2 : ℝ) ^ (128 : ℤ) * (1 - 1 / 2 ^ 25) ≤ 2 ^ (128 : ℤ) * 1 := mul_le_mul_of_nonneg_left (by norm_num) hp.le
    rw [mul_one] at h5
    exact absurd this (not_lt.2 h5)
  rw [Expf.eq, if_neg (fun h => hn h.2), if_neg (fun h => hv h.2)]
  by_cases h0 : 0x42aeac50 ≤ x.mb ∧ x.sign = true ∧ 0x42cff1b5 ≤ x.mb
  · rw [if_pos h0]
    refine ⟨_, rfl, ?_, (show (0.0 : Flt f32).val = 0 from Powf.v_0).ge⟩
    have h1 : |(bits32 0x42cff1b5).val| ≤ |x.val| := val_mono (by
      rw [show (bits32 0x42cff1b5).mb = 0x42cff1b5 by decide +kernel]; exact h0.2.2)
    rw [Expf.v_zmin, abs_of_pos (a := (_ * _ : ℝ)) (by positivity), abs_of_nonpos (val_nonpos h0.2.1)] at h1
    have h2 := Num.exp_lt_two_zpow (n := -149) (t := x.val) (by
      norm_num at l2 h1 ⊢; linarith)
    rw [WithinUlp.def']
    refine ⟨by decide +kernel, ?_⟩
    rw [show (0.0 : Flt f32).val = 0 from Powf.v_0, zero_sub, abs_neg, abs_of_pos (Real.exp_pos _)]
    have h3 : (2 : ℝ) ^ (1 - (f32.bias : ℤ) - f32.sb) ≤ ulpAt f32 (Real.exp x.val) := by
      rw [ulpAt, if_neg (Real.exp_pos _).ne']
      exact zpow_le_zpow_right₀ (by norm_num) (by have := le_max_right (Int.log 2 |Real.exp x.val|) (1 - (f32.bias : ℤ)); omega)
    rw [f32_bias, f32_sb] at h3
    have h4 : Real.exp x.val ≤ ulpAt f32 (Real.exp x.val) := h2.le.trans (le_trans (by norm_num) h3)
    refine h4.trans (le_mul_of_one_le_left (h4.trans' (Real.exp_pos _).le) (by norm_num))
  · rw [if_neg h0]
    refine Expf.reduce_acc xf ?_ ?_
    · cases hs : x.sign
      · exact le_trans (by norm_num) (val_nonneg hs)
      · have hm : x.mb ≤ 0x42cff1b5 := by
          by_contra hc
          exact h0 ⟨by omega, hs, by omega⟩
        have h3 : |x.val| ≤ |(bits32 0x42cff1b5).val| := val_mono (by
          rw [show (bits32 0x42cff1b5).mb = 0x42cff1b5 by decide +kernel]; exact hm)
        rw [Expf.v_zmin, abs_of_pos (a := (_ * _ : ℝ)) (by positivity), abs_of_nonpos (val_nonpos hs)] at h3
        norm_num at h3 ⊢; linarith
    · cases hs : x.sign
      · have hm : x.mb ≤ 0x42b17217 := by
          by_contra hc
          exact hv ⟨by omega, hs⟩
        have h3 : |x.val| ≤ |(bits32 0x42b17217).val| := val_mono (by
          rw [show (bits32 0x42b17217).mb = 0x42b17217 by decide +kernel]; exact hm)
        rw [Expf.v_max, abs_of_pos (a := (_ * _ : ℝ)) (by positivity), abs_of_nonneg (val_nonneg hs)] at h3
        norm_num at h3 ⊢; linarith
      · exact le_trans (val_nonpos hs) (by norm_num)

/-- C58 -/
theorem expf_accurate : AccurateBelow 1.35 expf Real.exp := fun x xf hx => by
  obtain ⟨r, h1, h2, -⟩ := expf_accurate_pos x xf hx
  exact ⟨r, h1, h2⟩

/-- the hypotheses hold of ordinary arguments: `expf 1` is within 1.35 units in the last place of `e` -/
example : ∃ r, expf (one f32) = some r ∧ WithinUlp 1.35 r (Real.exp 1) := by
  have e : ((one f32).toRat : ℝ) = 1 := by have := val_one (F := f32); exact this
  have := expf_accurate (one f32) isFinite_one (by
    rw [← thr32, e]
    have h := Num.exp_lt_two_zpow (n := 10) (t := 1) (by have := Num.log2_gt; norm_num at this ⊢; linarith)
    refine h.trans ?_
    norm_num)
  rwa [e] at this

end Verif
