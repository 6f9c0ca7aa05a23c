import Verif.Theory.ExpRed
import Verif.Props.Exp

/-!
# C58: accuracy of `exp`
-/

namespace Verif
open Flt
open Generic (scalbn)

/-- For every finite argument at which the exact value `g x` does not round to infinity, the function returns a finite float within
`c` units in the last place of `g x`. -/
def AccurateBelow {F : Fmt} (c : ℝ) (f : Flt F → Option (Flt F)) (g : ℝ → ℝ) : Prop :=
  ∀ x : Flt F, x.isFinite → g ((x.toRat : ℚ) : ℝ) < ((overflowThreshold F : ℚ) : ℝ) → ∃ r, f x = some r ∧ WithinUlp c r (g ((x.toRat : ℚ) : ℝ))

namespace Exp
theorem v_c1 : (bits64 0x3fd62e4300000000 : Flt f64).val = (1453635 : ℝ) * 2 ^ (-22 : ℤ) := by
  rw [val_const64 (x := bits64 0x3fd62e4300000000) (1453635) 1052 (-22) (by decide +kernel) (by norm_num)]; norm_num
theorem v_c2 : (bits64 0x3ff0a2b200000000 : Flt f64).val = (545113 : ℝ) * 2 ^ (-19 : ℤ) := by
  rw [val_const64 (x := bits64 0x3ff0a2b200000000) (545113) 1055 (-19) (by decide +kernel) (by norm_num)]; norm_num
theorem v_c3 : (bits64 0x3e30000100000000 : Flt f64).val = (1048577 : ℝ) * 2 ^ (-48 : ℤ) := by
  rw [val_const64 (x := bits64 0x3e30000100000000) (1048577) 1026 (-48) (by decide +kernel) (by norm_num)]; norm_num
theorem v_next : (bits64 0x40862e42fefa39f0 : Flt f64).val = (390207173010335 : ℝ) * 2 ^ (-39 : ℤ) := by
  rw [val_const64 (x := bits64 0x40862e42fefa39f0) (390207173010335) 1035 (-39) (by decide +kernel) (by norm_num)]; norm_num
theorem v_pred1 : (bits64 0x3fefffffffffffff : Flt f64).val = (9007199254740991 : ℝ) * 2 ^ (-53 : ℤ) := by
  rw [val_const64 (x := bits64 0x3fefffffffffffff) (9007199254740991) 1021 (-53) (by decide +kernel) (by norm_num)]; norm_num

theorem redK_big {x : Flt f64} (xf : x.isFinite) (h0 : 1.0397 ≤ |x.val|) (h1 : |x.val| ≤ 746) :
    ∃ k : ℤ, (invln2 * x + (if x.sign then (-0.5) else 0.5)).toSInt 32 = k ∧ k ≠ 0 ∧ |k| ≤ 1100 ∧ |x.val - k * Real.log 2| ≤ 0.34659 ∧
      |k * ln2hi.val| ≤ 2 * |x.val| := by
  have l1 := Num.log2_gt
  have l2 := Num.log2_lt
  have hi := invln2_val
  have hh := ln2hi_val
  norm_num at l1 l2 hi hh h0 h1
  have pr := mul_rne (x := invln2) (by decide +kernel) xf
  obtain ⟨pf, pe⟩ := pr.err 11 (by rw [abs_mul, hi, abs_of_pos (by norm_num)]; norm_num; linarith) (by rw [f64_bias]; norm_num) (by rw [f64_bias]; norm_num)
  obtain ⟨hf, hv⟩ : ((if x.sign then (-0.5) else 0.5 : Flt f64)).isFinite ∧ (if x.sign then (-0.5) else 0.5 : Flt f64).val = if x.sign then -(1 / 2) else 1 / 2 := by
    have e : (0.5 : Flt f64).val = 1 / 2 := by
      rw [val_const64 (x := (0.5 : Flt f64)) 1 1073 (-1) (by decide +kernel) (by norm_num)]; norm_num
    split
    · exact ⟨by decide +kernel, by rw [show (-0.5 : Flt f64) = -(0.5 : Flt f64) from rfl, val_neg, e]⟩
    · exact ⟨by decide +kernel, e⟩
  set h : Flt f64 := if x.sign then (-0.5) else 0.5 with hdef
  have sr := add_rne pf hf
  have pe2 := abs_le.1 pe
  rw [f64_sb] at pe2
  have hx2 := abs_le.1 h1
  have sb : |(invln2 * x).val + h.val| ≤ 2 ^ (11 : ℤ) := by
    rw [hv, abs_le]
    rw [hi] at pe2
    norm_num at pe2 ⊢
    split <;> constructor <;> linarith [hx2.1, hx2.2, pe2.1, pe2.2]
  obtain ⟨sf, se⟩ := sr.err 11 sb (by rw [f64_bias]; norm_num) (by rw [f64_bias]; norm_num)
  rw [f64_sb] at se
  have se2 := abs_le.1 se
  rw [hv] at se2
  set s := invln2 * x + h with sdef
  have key : ∃ σ : ℝ, (σ = 1 ∨ σ = -1) ∧ |x.val| = σ * x.val ∧ |s.val| = σ * s.val ∧ (s.toSInt 32 : ℝ) = σ * ⌊|s.val|⌋ ∧
      |(|s.val| - (invln2.val * |x.val| + 1 / 2))| ≤ 1 / 2 ^ 41 := by
    have hsf : |s.val| < 2 ^ (32 - 1) := by
      rw [abs_lt]
      rw [hi] at pe2
      norm_num at pe2 se2 ⊢
      cases hxs : x.sign <;> rw [hxs] at se2 <;> norm_num at se2 <;> constructor <;> linarith [hx2.1, hx2.2, pe2.1, pe2.2, se2.1, se2.2]
    cases hxs : x.sign
    · have xp := val_nonneg hxs
      rw [abs_of_nonneg xp] at h0 h1
      rw [hxs] at se2
      rw [hi] at pe2
      norm_num at pe2 se2
      have sp : 0 < s.val := by linarith [pe2.1, se2.1]
      refine ⟨1, Or.inl rfl, by rw [abs_of_nonneg xp, one_mul], by rw [abs_of_pos sp, one_mul], ?_, ?_⟩
      · rw [toSInt_floor sf sp.le (by rwa [abs_of_pos sp] at hsf), abs_of_pos sp, one_mul]
      · rw [abs_of_nonneg xp, abs_of_pos sp, hi, abs_le]
        norm_num
        constructor <;> linarith [pe2.1, pe2.2, se2.1, se2.2]
    · have xp := val_nonpos hxs
      rw [abs_of_nonpos xp] at h0 h1
      rw [hxs] at se2
      rw [hi] at pe2
      norm_num at pe2 se2
      have sp : s.val < 0 := by linarith [pe2.2, se2.2]
      have ss : s.sign = true := by
        by_contra hc
        have := val_nonneg (x := s) (by simpa using hc)
        linarith
      refine ⟨-1, Or.inr rfl, by rw [abs_of_nonpos xp]; ring, by rw [abs_of_neg sp]; ring, ?_, ?_⟩
      · rw [toSInt_eq sf hsf, if_pos ss]; push_cast; ring
      · rw [abs_of_nonpos xp, abs_of_neg sp, hi, abs_le]
        norm_num
        constructor <;> linarith [pe2.1, pe2.2, se2.1, se2.2]
  obtain ⟨σ, hσ, ex, es, ek, hd⟩ := key
  have hσ2 : |σ| = 1 := by rcases hσ with rfl | rfl <;> simp
  have f1 := Int.floor_le |s.val|
  have f2 := Int.lt_floor_add_one |s.val|
  set m := ⌊|s.val|⌋
  have hd2 := abs_le.1 hd
  rw [hi] at hd2
  norm_num at hd2
  have ax := abs_nonneg x.val
  have m1 : (1 : ℝ) ≤ m := by
    have : (0 : ℤ) < m := by
      have : (0 : ℝ) < m := by linarith [hd2.1]
      exact_mod_cast this
    exact_mod_cast this
  have m2 : (m : ℝ) ≤ 1100 := by linarith [hd2.2]
  have ak : |((s.toSInt 32 : ℤ) : ℝ)| = m := by rw [ek, abs_mul, hσ2, one_mul, abs_of_nonneg (by linarith)]
  have rr : |(|x.val| - m * Real.log 2)| ≤ 0.34659 := by
    have e : |x.val| - m * Real.log 2 = (|x.val| * invln2.val - m) * Real.log 2 + |x.val| * (1 - invln2.val * Real.log 2) := by ring
    rw [e]
    refine (abs_add_le _ _).trans ?_
    rw [abs_mul, abs_mul, abs_abs, abs_of_pos (show 0 < Real.log 2 by linarith)]
    have b1 : |(|x.val| * invln2.val - m)| ≤ 1 / 2 + 1 / 2 ^ 41 := by
      rw [hi, abs_le]
      norm_num
      constructor <;> linarith [hd2.1, hd2.2]
    have b2 : |1 - invln2.val * Real.log 2| ≤ 1 / 2 ^ 50 := by
      rw [hi, abs_le]
      norm_num
      constructor <;> linarith
    have b3 : |(|x.val| * invln2.val - m)| * Real.log 2 ≤ (1 / 2 + 1 / 2 ^ 41) * 0.693147181 :=
      mul_le_mul b1 (by norm_num; linarith) (by linarith) (by norm_num)
    have b4 : |x.val| * |1 - invln2.val * Real.log 2| ≤ 746 * (1 / 2 ^ 50) := mul_le_mul h1 b2 (abs_nonneg _) (by norm_num)
    norm_num at b3 b4 ⊢
    linarith
  refine ⟨_, rfl, ?_, ?_, ?_, ?_⟩
  · intro h
    rw [h] at ak
    simp at ak
    linarith
  · have : |((s.toSInt 32 : ℤ) : ℝ)| ≤ 1100 := by rw [ak]; exact m2
    exact_mod_cast this
  · have e : x.val - (s.toSInt 32 : ℤ) * Real.log 2 = σ * (|x.val| - m * Real.log 2) := by
      rw [ek, ex]
      rcases hσ with rfl | rfl <;> ring
    rw [e, abs_mul, hσ2, one_mul]
    exact rr
  · rw [abs_mul, ak, hh, abs_of_pos (by norm_num)]
    have := (abs_le.1 rr).1
    have h5 : (m : ℝ) * 0.6931471803 ≤ m * Real.log 2 := mul_le_mul_of_nonneg_left (by norm_num; linarith) (by linarith)
    norm_num at this h5 ⊢
    linarith

theorem scale_ulp {y : Flt f64} {q ρ t : ℝ} {k : ℤ} (hy : IsRNE q y) (hq : |q - Real.exp ρ| ≤ 0.8 / 2 ^ 53) (hρ : |ρ| ≤ 0.34659)
    (ht : t = ρ + k * Real.log 2) (hk1 : |k| ≤ 1100) (hk : k ≤ 1023 ∨ k = 1024 ∧ t ≤ 709.782712893383977) :
    ∃ r, (if k = 0 then some y else scalbn y k) = some r ∧ WithinUlp 1.3 r (Real.exp t) ∧ 0 ≤ r.val := by
  obtain ⟨a, b⟩ := exp_range (r := ρ) (hρ.trans (by norm_num))
  have hq' : |q - Real.exp ρ| ≤ 0.8 * 2 ^ (-1 - (f64.sb : ℤ)) := by
    rw [f64_sb]; refine hq.trans ?_; norm_num
  have hE1 : 0.6 ≤ Real.exp ρ := by norm_num at a ⊢; linarith
  have hE2 : Real.exp ρ ≤ 1.6 := by norm_num at b ⊢; linarith
  obtain ⟨yf, -⟩ := near_scaled hy (by rw [f64_bias]; norm_num) (by rw [f64_sb]; norm_num) hE1 hE2 (by norm_num) (by norm_num) hq'
  have et : Real.exp t = Real.exp ρ * 2 ^ k := by
    rw [ht, Real.exp_add]
    congr 1
    rw [mul_comm, Real.exp_mul, Real.exp_log (by norm_num), Real.rpow_intCast]
  have z0 : (0.0 : Flt f64).val = 0 := Pow.v_0
  have y0 : 0 ≤ y.val := by
    have := hy.ge_of_ge yf (s := (0.0 : Flt f64)) (by decide +kernel) (by
      rw [z0]
      have := (abs_le.1 hq).1
      norm_num at this hE1 ⊢; linarith)
    rwa [z0] at this
  have main0 : ∀ r : Flt f64, IsRNE (y.val * 2 ^ k) r → WithinUlp 1.3 r (Real.exp t) := fun r hr => by
    rw [et]
    have := WithinUlp.scaled hy hr (by rw [f64_bias]; norm_num) (by rw [f64_sb]; norm_num) hE1 hE2 (δ := 0.8) (by norm_num) (by norm_num) hq' (by
      rw [f64_bias]
      rcases hk with hk | ⟨rfl, hk⟩
      · left; exact_mod_cast hk
      · right
        refine ⟨by norm_num, ?_⟩
        have l1 := Num.log2_gt
        have hρ2 : ρ ≤ -(1 / 10 ^ 14) := by
          have : ρ = t - 1024 * Real.log 2 := by rw [ht]; push_cast; ring
          rw [this]
          norm_num at l1 hk ⊢; linarith
        have h1 := Real.abs_exp_sub_one_sub_id_le (x := -(1 / 10 ^ 14)) (by norm_num)
        have h2 := Real.exp_le_exp.2 hρ2
        have h3 := (abs_le.1 h1).2
        have h4 := (abs_le.1 hq).2
        have := hy.le_of_le yf (s := bits64 0x3fefffffffffffff) (by decide +kernel) (by
          rw [v_pred1]
          generalize Real.exp (-(1 / 10 ^ 14)) = B at *
          generalize Real.exp ρ = A at *
          norm_num at h2 h3 h4 ⊢; linarith)
        rw [v_pred1] at this
        refine this.trans_lt ?_
        norm_num)
    norm_num at this ⊢
    exact this
  have main : ∀ r : Flt f64, IsRNE (y.val * 2 ^ k) r → WithinUlp 1.3 r (Real.exp t) ∧ 0 ≤ r.val := fun r hr => by
    have h := main0 r hr
    refine ⟨h, ?_⟩
    have := hr.ge_of_ge h.1 (s := (0.0 : Flt f64)) (by decide +kernel) (by rw [z0]; exact mul_nonneg y0 (zp _).le)
    rwa [z0] at this
  by_cases h0 : k = 0
  · rw [if_pos h0]
    refine ⟨y, rfl, main y ?_⟩
    have h := mul_rne yf (y := one f64) isFinite_one
    rw [mul_one_self (not_nan_of_finite yf), val_one, mul_one] at h
    rw [h0, zpow_zero, mul_one]; exact h
  · rw [if_neg h0]
    obtain ⟨r, h1, h2, -⟩ := scalbn_finite (F := f64) (Or.inr (Or.inr (Or.inl rfl))) y yf k (by rw [abs_le] at hk1; omega) (by rw [abs_le] at hk1; omega)
    refine ⟨r, h1, main r ?_⟩
    have := isRNE_real h2
    push_cast at this
    exact this

theorem reduce_eq (x : Flt f64) (s : Int) : reduce x (getHighWord x &&& 0x7fffffff) s =
    if 0x3fd62e42 < x.mb / 2 ^ 32 then
      (redK x (getHighWord x &&& 0x7fffffff) s).bind fun k =>
        kernel (x - ofInt f64 k * ln2hi - ofInt f64 k * ln2lo) (x - ofInt f64 k * ln2hi) (ofInt f64 k * ln2lo) k
    else if 0x3e300000 < x.mb / 2 ^ 32 then kernel x x 0.0 0
    else some (1.0 + x) := by
  unfold reduce
  simp only [gt_iff_lt, BitVec.lt_def, hi_abs']
  rfl

theorem redK_eq (x : Flt f64) (s : Int) : redK x (getHighWord x &&& 0x7fffffff) s =
    if 0x3ff0a2b2 ≤ x.mb / 2 ^ 32 then (half[s.toNat]?).map fun h => (invln2 * x + h).toSInt 32 else some (1 - s - s) := by
  unfold redK
  simp only [ge_iff_le, BitVec.le_def, hi_abs']
  rfl

theorem reduce_acc {x : Flt f64} (xf : x.isFinite) (h1 : -745.2 ≤ x.val) (h2 : x.val ≤ 709.782712893383977) :
    ∃ r, reduce x (getHighWord x &&& 0x7fffffff) (if x.sign then 1 else 0) = some r ∧ WithinUlp 1.3 r (Real.exp x.val) ∧ 0 ≤ r.val := by
  have l1 := Num.log2_gt
  have l2 := Num.log2_lt
  have hh := ln2hi_val
  norm_num at l1 l2 hh
  have hmag : |x.val| ≤ 746 := by rw [abs_le]; norm_num at h1 h2; constructor <;> linarith
  rw [reduce_eq]
  by_cases c1 : 0x3fd62e42 < x.mb / 2 ^ 32
  on_goal 2 => by_cases c2 : 0x3e300000 < x.mb / 2 ^ 32
  · -- argument reduction
    rw [if_pos c1]
    have hlo : |(bits64 0x3fd62e4300000000).val| ≤ |x.val| := val_mono (by
      rw [show (bits64 0x3fd62e4300000000).mb = 0x3fd62e4300000000 by decide +kernel]
      omega)
    rw [v_c1, abs_of_pos (by positivity)] at hlo
    norm_num at hlo
    have hk : ∃ k : ℤ, redK x (getHighWord x &&& 0x7fffffff) (if x.sign then 1 else 0) = some k ∧ k ≠ 0 ∧ |k| ≤ 1100 ∧
        |x.val - k * Real.log 2| ≤ 0.34659 ∧ |k * ln2hi.val| ≤ 2 * |x.val| := by
      rw [redK_eq]
      by_cases c3 : 0x3ff0a2b2 ≤ x.mb / 2 ^ 32
      · rw [if_pos c3]
        have h3 : |(bits64 0x3ff0a2b200000000).val| ≤ |x.val| := val_mono (by
          rw [show (bits64 0x3ff0a2b200000000).mb = 0x3ff0a2b200000000 by decide +kernel]
          omega)
        rw [v_c2, abs_of_pos (by positivity)] at h3
        norm_num at h3
        obtain ⟨k, hk, h4⟩ := redK_big xf (by norm_num; linarith) hmag
        refine ⟨k, ?_, h4⟩
        rw [← hk]
        cases x.sign <;> rfl
      · rw [if_neg c3]
        have h3 : |x.val| ≤ |(bits64 0x3ff0a2b200000000).val| := val_mono (by
          rw [show (bits64 0x3ff0a2b200000000).mb = 0x3ff0a2b200000000 by decide +kernel]
          omega)
        rw [v_c2, abs_of_pos (a := (_ * _ : ℝ)) (by positivity)] at h3
        norm_num at h3
        refine ⟨_, rfl, ?_⟩
        cases hs : x.sign
        · have xp := val_nonneg hs
          rw [abs_of_nonneg xp] at h3 hlo ⊢
          norm_num
          rw [abs_le, abs_of_pos (by rw [hh]; norm_num), hh]
          refine ⟨⟨?_, ?_⟩, ?_⟩ <;> linarith
        · have xp := val_nonpos hs
          rw [abs_of_nonpos xp] at h3 hlo ⊢
          norm_num
          rw [abs_le, abs_of_pos (by rw [hh]; norm_num), hh]
          refine ⟨⟨?_, ?_⟩, ?_⟩ <;> linarith
    obtain ⟨k, ek, k0, k1, k2, k3⟩ := hk
    rw [ek]
    obtain ⟨r1, r2, r3, r4, r5, r6, r7, r8⟩ := reduce_err xf k1 k0 k2 k3
    obtain ⟨q, q1, q2⟩ := near r1 r2 r3 r4 r5 r6 r7 r8
    have := scale_ulp (t := x.val) (k := k) q1 q2 k2 (by ring) k1 (by
      rcases lt_or_ge k 1024 with hk | hk
      · left; omega
      · right
        refine ⟨?_, h2⟩
        by_contra hc
        have hk5 : (1025 : ℝ) ≤ k := by exact_mod_cast (by omega : (1025 : ℤ) ≤ k)
        have := (abs_le.1 k2).1
        have h6 : (1025 : ℝ) * Real.log 2 ≤ k * Real.log 2 := mul_le_mul_of_nonneg_right hk5 (by linarith)
        norm_num at this h2; linarith)
    exact this
  · rw [if_neg c1, if_pos c2]
    have hup : |x.val| ≤ |(bits64 0x3fd62e4300000000).val| := val_mono (by
      rw [show (bits64 0x3fd62e4300000000).mb = 0x3fd62e4300000000 by decide +kernel]
      omega)
    rw [v_c1, abs_of_pos (a := (_ * _ : ℝ)) (by positivity)] at hup
    norm_num at hup
    have z0 : ((0.0 : Flt f64)).val = 0 := Pow.v_0
    obtain ⟨q, q1, q2⟩ := near (x := x) (hi := x) (lo := 0.0) (ρ := x.val) xf xf (by decide +kernel) (by norm_num; linarith) (by rw [z0]; simp)
      (by norm_num; linarith) (by rw [z0]; simp) (by rw [z0]; simp)
    exact scale_ulp (t := x.val) (k := 0) q1 q2 (by norm_num; linarith) (by simp) (by norm_num) (by norm_num)
  · rw [if_neg c1, if_neg c2]
    have hup : |x.val| ≤ |(bits64 0x3e30000100000000).val| := val_mono (by
      rw [show (bits64 0x3e30000100000000).mb = 0x3e30000100000000 by decide +kernel]
      omega)
    rw [v_c3, abs_of_pos (a := (_ * _ : ℝ)) (by positivity)] at hup
    have h := add_rne (x := (1.0 : Flt f64)) (by decide +kernel) xf
    rw [TanInv.one_val] at h
    have hs : |x.val| ^ 2 ≤ (1048577 * 2 ^ (-48 : ℤ)) ^ 2 := pow_le_pow_left₀ (abs_nonneg _) hup 2
    have := scale_ulp (t := x.val) (ρ := x.val) (k := 0) h (by
      have h1 := Real.abs_exp_sub_one_sub_id_le (x := x.val) (hup.trans (by norm_num))
      rw [sq_abs] at hs
      rw [abs_sub_comm, show Real.exp x.val - (1 + x.val) = Real.exp x.val - 1 - x.val by ring]
      refine (h1.trans hs).trans ?_
      norm_num) (hup.trans (by norm_num)) (by simp) (by norm_num) (by norm_num)
    exact this
end Exp

theorem exp_accurate_pos (x : Flt f64) (xf : x.isFinite) (hx : Real.exp x.val < ((overflowThreshold f64 : ℚ) : ℝ)) :
    ∃ r, exp x = some r ∧ WithinUlp 1.3 r (Real.exp x.val) ∧ 0 ≤ r.val := by
  have hn := not_nan_of_finite xf
  have l1 := Num.log2_gt
  have l2 := Num.log2_lt
  have hv : x.val ≤ (709.782712893383973096 : Flt f64).val := by
    by_contra hc
    push Not at hc
    have hm : (709.782712893383973096 : Flt f64).mb < x.mb := by
      apply Exp.big_mb
      rw [abs_of_nonneg (val_nonneg (by decide +kernel))]
      exact hc.trans_le (le_abs_self _)
    rw [show (709.782712893383973096 : Flt f64).mb = 0x40862e42fefa39ef by decide +kernel] at hm
    have h3 : |(bits64 0x40862e42fefa39f0).val| ≤ |x.val| := val_mono (by
      rw [show (bits64 0x40862e42fefa39f0).mb = 0x40862e42fefa39f0 by decide +kernel]; omega)
    have xp : 0 ≤ x.val := le_trans (val_nonneg (by decide +kernel)) hc.le
    rw [Exp.v_next, abs_of_pos (a := (_ * _ : ℝ)) (by positivity), abs_of_nonneg xp] at h3
    have h4 := Num.two_zpow_lt_exp (n := 1024) (t := x.val) (by
      refine lt_of_lt_of_le ?_ h3
      norm_num at l2 ⊢; linarith)
    rw [← thr64] at hx
    have := h4.trans hx
    have hp : (0 : ℝ) < 2 ^ (1024 : ℤ) := zp _
    have h5 : (2 : ℝ) ^ (1024 : ℤ) * (1 - 1 / 2 ^ 54) ≤ 2 ^ (1024 : ℤ) * 1 := mul_le_mul_of_nonneg_left (by norm_num) hp.le
    rw [mul_one] at h5
    exact absurd this (not_lt.2 h5)
  rw [Exp.eq, if_neg (fun h => hn h.2), if_neg (fun h => absurd (lt_iff.1 h.2).2.2 (not_lt.2 (by
    by_contra hc
    exact absurd (val_lt_iff.2 (not_le.1 hc)) (not_lt.2 hv))))]
  by_cases h0 : 0x4086232b ≤ x.mb / 2 ^ 32 ∧ (x <ᶠ -708.39641853226410622) = true ∧ (x <ᶠ -745.13321910194110842) = true
  · rw [if_pos h0]
    refine ⟨_, rfl, ?_, (show (0.0 : Flt f64).val = 0 from Pow.v_0).ge⟩
    have h1 := val_lt_iff.2 (lt_iff.1 h0.2.2).2.2
    rw [Exp.v_min] at h1
    have h2 := Num.exp_lt_two_zpow (n := -1074) (t := x.val) (by
      refine h1.trans ?_
      norm_num at l2 ⊢; linarith)
    rw [WithinUlp.def']
    refine ⟨by decide +kernel, ?_⟩
    rw [show (0.0 : Flt f64).val = 0 from Pow.v_0, zero_sub, abs_neg, abs_of_pos (Real.exp_pos _)]
    have h3 : (2 : ℝ) ^ (1 - (f64.bias : ℤ) - f64.sb) ≤ ulpAt f64 (Real.exp x.val) := by
      rw [ulpAt, if_neg (Real.exp_pos _).ne']
      exact zpow_le_zpow_right₀ (by norm_num) (by have := le_max_right (Int.log 2 |Real.exp x.val|) (1 - (f64.bias : ℤ)); omega)
    rw [f64_bias, f64_sb] at h3
    have h4 : Real.exp x.val ≤ ulpAt f64 (Real.exp x.val) := h2.le.trans (le_trans (by norm_num) h3)
    refine h4.trans (le_mul_of_one_le_left (h4.trans' (Real.exp_pos _).le) (by norm_num))
  · rw [if_neg h0]
    rw [Exp.v_max] at hv
    refine Exp.reduce_acc xf ?_ (hv.trans (by norm_num))
    by_contra hc
    push Not at hc
    apply h0
    have hm : (745.13321910194110842 : Flt f64).mb < x.mb := by
      apply Exp.big_mb
      have e : (-745.13321910194110842 : Flt f64).val = - (745.13321910194110842 : Flt f64).val := val_neg _
      have e2 := Exp.v_min
      rw [e] at e2
      rw [abs_of_nonneg (val_nonneg (by decide +kernel))]
      have := neg_abs_le x.val
      norm_num at e2 hc
      linarith
    rw [show (745.13321910194110842 : Flt f64).mb = 0x40874910d52d3051 by decide +kernel] at hm
    have hlt : x.val < (-745.13321910194110842 : Flt f64).val := by
      rw [Exp.v_min]; norm_num at hc ⊢; linarith
    have hlt2 : (-745.13321910194110842 : Flt f64).sval < (-708.39641853226410622 : Flt f64).sval := by decide +kernel
    exact ⟨by omega, lt_iff.2 ⟨hn, by decide +kernel, (val_lt_iff.1 hlt).trans hlt2⟩, lt_iff.2 ⟨hn, by decide +kernel, val_lt_iff.1 hlt⟩⟩

/-- C58 -/
theorem exp_accurate : AccurateBelow 1.3 exp Real.exp := fun x xf hx => by
  obtain ⟨r, h1, h2, -⟩ := exp_accurate_pos x xf hx
  exact ⟨r, h1, h2⟩

/-- the hypotheses hold of ordinary arguments: `exp 1` is within 1.3 units in the last place of `e` -/
example : ∃ r, exp (one f64) = some r ∧ WithinUlp 1.3 r (Real.exp 1) := by
  have := exp_accurate (one f64) isFinite_one (by
    rw [← thr64]
    have e : ((one f64).toRat : ℝ) = 1 := by have := val_one (F := f64); exact this
    rw [e]
    have h := Num.exp_lt_two_zpow (n := 10) (t := 1) (by have := Num.log2_gt; norm_num at this ⊢; linarith)
    refine h.trans ?_
    have : (2 : ℝ) ^ (1024 : ℤ) = 2 ^ (10 : ℤ) * 2 ^ (1014 : ℤ) := by rw [← zpow_add₀ (by norm_num)]; norm_num
    rw [this, mul_assoc]
    have h5 : (2 : ℝ) ≤ 2 ^ (1014 : ℤ) := by
      have := zpow_le_zpow_right₀ (a := (2 : ℝ)) (m := 1) (n := 1014) (by norm_num) (by norm_num)
      rwa [zpow_one] at this
    clear this
    generalize (2 : ℝ) ^ (1014 : ℤ) = T at *
    norm_num; linarith)
  have e : ((one f64).toRat : ℝ) = 1 := by have := val_one (F := f64); exact this
  rwa [e] at this

end Verif
