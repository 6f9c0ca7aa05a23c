import Verif.Theory.PowCut
import Verif.Theory.As
import Verif.Theory.TrigConst

/-!
# Exact differences, and floats whose low word is cleared
-/

namespace Verif
open Flt

/-- Sterbenz's lemma, on values -/
theorem sterbenz_val {F : Fmt} {x y : Flt F} (hx : x.isFinite) (hy : y.isFinite) (h1 : |x.val - y.val| ≤ |x.val|) (h2 : |x.val - y.val| ≤ |y.val|)
    (n1 : 2 ^ (1 - (F.bias : ℤ)) ≤ |x.val|) (n2 : 2 ^ (1 - (F.bias : ℤ)) ≤ |y.val|) : (x - y).isFinite ∧ (x - y).val = x.val - y.val := by
  wlog h : |y.val| ≤ |x.val| generalizing x y with H
  · obtain ⟨h3, h4⟩ := H hy hx (by rwa [abs_sub_comm]) (by rwa [abs_sub_comm]) n2 n1 (le_of_not_ge h)
    have h5 := sub_rne hx hy
    have h6 := h5.exact_real (z := -(y - x)) ((Flt.isFinite_neg _).2 h3) (by rw [val_neg, h4]; ring)
    exact h6
  · have hp : 0 < |y.val| := (zp _).trans_le n2
    obtain ⟨k, k1, k2⟩ := exists_mem_Ico_zpow (y := (2 : ℝ)) hp (by norm_num)
    have hk1 : 1 - (F.bias : ℤ) ≤ k := by
      by_contra hc
      have : (2 : ℝ) ^ (k + 1) ≤ 2 ^ (1 - (F.bias : ℤ)) := zpow_le_zpow_right₀ (by norm_num) (by omega)
      linarith
    obtain ⟨n, hn⟩ := grid y k k1
    obtain ⟨m, hm⟩ := grid x k (k1.trans h)
    have hz : (0 : ℝ) < 2 ^ (k - F.sb) := zp _
    have e : x.val - y.val = ((m - n : ℤ) : ℝ) * 2 ^ (k - F.sb) := by rw [hn, hm]; push_cast; ring
    have h3 : |x.val - y.val| < 2 ^ (k + 1) := h2.trans_lt k2
    have h4 : |m - n| ≤ 2 ^ (F.sb + 1) := by
      rw [e, abs_mul, abs_of_pos hz] at h3
      have e2 : (2 : ℝ) ^ (k + 1) = 2 ^ (F.sb + 1) * 2 ^ (k - F.sb) := by
        rw [← zpow_natCast, ← zpow_add₀ (by norm_num)]; congr 1; push_cast; omega
      rw [e2] at h3
      have := lt_of_mul_lt_mul_right h3 hz.le
      exact le_of_lt (by exact_mod_cast this)
    obtain ⟨c, cf, cv⟩ := exists_val (F := F) h4 (k := k - F.sb) (by omega) (by
      have h5 := val_lt_top hx
      rw [← abs_of_pos hz, ← abs_mul, ← e]
      exact h1.trans_lt h5)
    exact (sub_rne hx hy).exact_real cf (by rw [cv, e])

theorem zeroLowWord_eq (x : Flt f64) : KTan.zeroLowWord x = withSetLowWord x 0 := by
  unfold withSetLowWord KTan.zeroLowWord
  show (⟨(show BitVec 64 from x.toBits) &&& 0xffffffff00000000#64⟩ : Flt f64) = (⟨((show BitVec 64 from x.toBits) &&& 0xffffffff00000000#64) ||| (0#32).setWidth 64⟩ : Flt f64)
  rw [show ((0#32).setWidth 64) = 0#64 by decide, BitVec.or_zero]

/-- clearing the low word of a normal float -/
theorem zeroLowWord_spec {x : Flt f64} (hx : x.isFinite) (hn : 2 ^ (-1022 : ℤ) ≤ |x.val|) :
    (KTan.zeroLowWord x).isFinite ∧ |(KTan.zeroLowWord x).val - x.val| ≤ 1 / 2 ^ 20 * |x.val| ∧
      ∃ n k : ℤ, |n| ≤ 2 ^ 21 ∧ (KTan.zeroLowWord x).val = n * 2 ^ k := by
  rw [zeroLowWord_eq]
  obtain ⟨hs, hm⟩ := low_word_cut x
  set y := withSetLowWord x 0 with hy
  have hf : y.isFinite := by rw [isFinite64] at hx ⊢; rw [hm]; omega
  have hmb : 2 ^ 52 ≤ x.mb := by
    by_contra hc
    have := val_lt_of_mb (x := x) (E := 1) le_rfl (by rw [f64_sb]; omega)
    rw [f64_bias] at this
    push_cast at this
    exact absurd hn (not_le.2 this)
  obtain ⟨c1, c2, -, -⟩ := magOf_chop 52 x.mb 32 hmb (by norm_num)
  have hym : y.mag = x.mag - x.mag % 2 ^ (32 + (x.mb / 2 ^ 52 - 1)) := by
    show magOf f64.sb y.mb = magOf f64.sb x.mb - magOf f64.sb x.mb % _
    rw [hm, f64_sb]; exact c2
  have hxm : x.mag = (2 ^ 52 + x.mb % 2 ^ 52) * 2 ^ (x.mb / 2 ^ 52 - 1) := by
    show magOf f64.sb x.mb = _
    rw [magOf, f64_sb, if_neg (by omega)]
  have hle : y.mag ≤ x.mag := by rw [hym]; omega
  refine ⟨hf, ?_, ?_⟩
  · rw [abs_sub_of_sign hs hle, Flt.abs_val_div x]
    have hp : (0 : ℝ) < f64.oneMag := (by exact_mod_cast f64.oneMag_pos)
    rw [← mul_div_assoc]
    refine div_le_div_of_nonneg_right ?_ hp.le
    have h1 : (x.mag - y.mag) * 2 ^ 20 ≤ x.mag := by
      have e : x.mag - y.mag = x.mb % 2 ^ 32 * 2 ^ (x.mb / 2 ^ 52 - 1) := by
        have : x.mag % 2 ^ (32 + (x.mb / 2 ^ 52 - 1)) = x.mb % 2 ^ 32 * 2 ^ (x.mb / 2 ^ 52 - 1) := by
          have := c1; rw [← f64_sb] at this; rw [f64_sb] at this; exact this
        rw [hym, ← this]
        have := Nat.mod_le x.mag (2 ^ (32 + (x.mb / 2 ^ 52 - 1)))
        omega
      rw [e, hxm]
      calc x.mb % 2 ^ 32 * 2 ^ (x.mb / 2 ^ 52 - 1) * 2 ^ 20 = x.mb % 2 ^ 32 * 2 ^ 20 * 2 ^ (x.mb / 2 ^ 52 - 1) := by ring
        _ ≤ _ := Nat.mul_le_mul_right _ (by omega)
    have h2 : ((x.mag - y.mag : ℕ) : ℝ) * 2 ^ 20 ≤ x.mag := by exact_mod_cast h1
    norm_num at h2 ⊢
    linarith
  · obtain ⟨m, hm1, hm2⟩ : ∃ m : ℕ, m ≤ 2 ^ 21 ∧ y.mag = m * 2 ^ (32 + (x.mb / 2 ^ 52 - 1)) := by
      refine ⟨x.mag / 2 ^ (32 + (x.mb / 2 ^ 52 - 1)), ?_, ?_⟩
      · apply Nat.div_le_of_le_mul
        rw [hxm]
        calc (2 ^ 52 + x.mb % 2 ^ 52) * 2 ^ (x.mb / 2 ^ 52 - 1) ≤ 2 ^ 53 * 2 ^ (x.mb / 2 ^ 52 - 1) := Nat.mul_le_mul_right _ (by omega)
          _ = _ := by rw [← pow_add, ← pow_add]; congr 1; omega
      · rw [hym]
        have := Nat.div_add_mod' x.mag (2 ^ (32 + (x.mb / 2 ^ 52 - 1)))
        omega
    have hv : |y.val| = (m : ℝ) * 2 ^ ((32 + (x.mb / 2 ^ 52 - 1) : ℕ) : ℤ) * 2 ^ (-1074 : ℤ) := by
      rw [val_abs, hm2, ulp_real, f64_bias, f64_sb, zpow_natCast]
      push_cast
      norm_num
    set k : ℤ := ((32 + (x.mb / 2 ^ 52 - 1) : ℕ) : ℤ) + -1074 with hk
    have hv' : |y.val| = (m : ℝ) * 2 ^ k := by rw [hv, mul_assoc, ← zpow_add₀ (by norm_num)]
    rcases abs_choice y.val with h | h
    · exact ⟨m, k, by rw [Nat.abs_cast]; exact_mod_cast hm1, by rw [← h, hv', Int.cast_natCast]⟩
    · refine ⟨-m, k, by rw [abs_neg, Nat.abs_cast]; exact_mod_cast hm1, ?_⟩
      have : y.val = -|y.val| := by rw [h]; ring
      rw [this, hv']; push_cast; ring

theorem zeroLowWord_neg (x : Flt f64) : KTan.zeroLowWord (-x) = -KTan.zeroLowWord x := by
  rw [zeroLowWord_eq, zeroLowWord_eq]
  obtain ⟨h1, h2⟩ := low_word_cut x
  obtain ⟨h3, h4⟩ := low_word_cut (-x)
  apply Flt.ext_mb
  · rw [h3, sign_neg, sign_neg, h1]
  · rw [h4, mb_neg, mb_neg, h2]

end Verif
