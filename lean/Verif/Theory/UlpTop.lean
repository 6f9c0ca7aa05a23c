import Verif.Theory.Ulp

/-!
# Rounding a number close to the exact result, up to the overflow threshold
-/

namespace Verif
open Flt

variable {F : Fmt}

theorem overflow_real (F : Fmt) : ((overflowThreshold F : ℚ) : ℝ) = (2 ^ (F.sb + 1) - 1 / 2) * 2 ^ ((F.bias : ℤ) - F.sb) := by
  unfold overflowThreshold
  push_cast
  rw [zpow_neg, zpow_sub₀ (by norm_num), zpow_add_one₀ (by norm_num), zpow_natCast, zpow_natCast, pow_succ]
  field_simp

/-- below the overflow threshold a rounded number is finite and nearest -/
theorem IsRNE.fin {q : ℝ} {r : Flt F} (h : IsRNE q r) (hq : |q| < ((overflowThreshold F : ℚ) : ℝ)) :
    r.isFinite ∧ ∀ s : Flt F, s.isFinite → |r.val - q| ≤ |s.val - q| := by
  unfold IsRNE at h
  rw [if_neg (not_le.2 hq)] at h
  exact ⟨h.1, h.2.1⟩

/-- absolute error in the top binade, up to the overflow threshold -/
theorem IsRNE.err_thr {q : ℝ} {r : Flt F} (h : IsRNE q r) (hq : |q| < ((overflowThreshold F : ℚ) : ℝ)) :
    r.isFinite ∧ |r.val - q| ≤ 2 ^ ((F.bias : ℤ) - 1 - F.sb) := by
  obtain ⟨hf, hn⟩ := h.fin hq
  refine ⟨hf, ?_⟩
  rw [overflow_real] at hq
  set e : ℤ := F.bias - F.sb with he
  have hz : (0 : ℝ) < 2 ^ e := zp e
  have key : ∃ n : ℤ, |q / 2 ^ e - n| ≤ 1 / 2 ∧ |(n : ℝ)| < 2 ^ (F.sb + 1) := by
    have hq2 : |q / 2 ^ e| < 2 ^ (F.sb + 1) - 1 / 2 := by
      rw [abs_div, abs_of_pos hz, div_lt_iff₀ hz]; exact hq
    generalize q / 2 ^ e = v at hq2
    refine ⟨round v, abs_sub_round v, ?_⟩
    have := abs_sub_abs_le_abs_sub ((round v : ℤ) : ℝ) v
    have h2 := abs_sub_round v
    rw [abs_sub_comm] at this
    linarith
  obtain ⟨n, n1, n2⟩ := key
  obtain ⟨c, hc, hv⟩ := exists_val (F := F) (n := n) (k := e) (by
      exact_mod_cast n2.le) (by have := F.sb_lt_bias; omega) (by
    calc |(n : ℝ)| * 2 ^ e < 2 ^ (F.sb + 1) * 2 ^ e := mul_lt_mul_of_pos_right n2 hz
      _ = 2 ^ ((F.bias : ℤ) + 1) := by rw [← zpow_natCast, ← zpow_add₀ (by norm_num)]; congr 1; push_cast; ring)
  refine (hn c hc).trans ?_
  have : |c.val - q| = |q / 2 ^ e - n| * 2 ^ e := by
    rw [hv, abs_sub_comm]
    nth_rw 3 [← abs_of_pos hz]
    rw [← abs_mul, sub_mul, div_mul_cancel₀ _ hz.ne']
  rw [this]
  calc |q / 2 ^ e - n| * 2 ^ e ≤ 1 / 2 * 2 ^ e := by gcongr
    _ = 2 ^ ((F.bias : ℤ) - 1 - F.sb) := by
      rw [he, show (F.bias : ℤ) - 1 - (F.sb : ℤ) = -1 + (F.bias - F.sb) by ring, zpow_add₀ (by norm_num)]; norm_num

namespace WithinUlp
/-- rounding a number close to the exact result, neither of which overflows -/
theorem of_rne_thr {q t δ c : ℝ} {r : Flt F} (h : IsRNE q r) (ht : t ≠ 0) (hb : |t| < 2 ^ ((F.bias : ℤ) + 1)) (hF : 2 ≤ F.bias)
    (hb2 : |q| < ((overflowThreshold F : ℚ) : ℝ))
    (hq : |q - t| ≤ δ * ulpAt F t) (hδ : δ ≤ 1 / 2) (hc : 1 / 2 + δ ≤ c) : WithinUlp c r t := by
  have htp : 0 < |t| := abs_pos.2 ht
  rw [def']
  set k := max (Int.log 2 |t|) (1 - F.bias) with hk
  have hu : ulpAt F t = 2 ^ (k - F.sb) := if_neg ht
  have hlt : |t| < 2 ^ (k + 1) := by
    have := lt_ulpAt (F := F) ht
    rw [hu, ← zpow_natCast, ← zpow_add₀ (by norm_num : (2 : ℝ) ≠ 0)] at this
    push_cast at this
    rwa [show ((F.sb : ℤ) + 1 + (k - F.sb)) = k + 1 by ring] at this
  have hlog : Int.log 2 |t| < (F.bias : ℤ) + 1 := by
    have h1 : ((2 : ℕ) : ℝ) ^ Int.log 2 |t| ≤ |t| := Int.zpow_log_le_self (by norm_num) htp
    have h2 := h1.trans_lt hb
    exact (zpow_lt_zpow_iff_right₀ (by norm_num : (1 : ℝ) < 2)).1 (by exact_mod_cast h2)
  have hkb : k ≤ F.bias := by
    rw [hk]; exact max_le (by omega) (by omega)
  have hkl : 1 - (F.bias : ℤ) ≤ k := le_max_right _ _
  have hup : 0 < ulpAt F t := by rw [hu]; exact zp _
  obtain ⟨rf, rmin⟩ := h.fin hb2
  refine ⟨rf, ?_⟩
  have e : (2 : ℝ) ^ (k + 1 - 2 - F.sb : ℤ) = 1 / 2 * ulpAt F t := by
    rw [hu, show (k + 1 - 2 - F.sb : ℤ) = -1 + (k - F.sb) by ring, zpow_add₀ (by norm_num)]
    norm_num
  have fin : |r.val - q| ≤ 1 / 2 * ulpAt F t → |r.val - t| ≤ c * ulpAt F t := fun re => by
    have e2 : r.val - t = (r.val - q) + (q - t) := by ring
    rw [e2]
    refine (abs_add_le _ _).trans ?_
    have := mul_le_mul_of_nonneg_right hc hup.le
    linarith
  rcases hkb.lt_or_eq with hkb | hkb
  · by_cases hqk : |q| ≤ 2 ^ (k + 1)
    · obtain ⟨-, re⟩ := h.err (k + 1) hqk (by omega) (by omega)
      rw [e] at re
      exact fin re
    · rw [not_le] at hqk
      obtain ⟨c0, cf, cv⟩ := exists_val (F := F) (n := 1) (k := k + 1) (by
        rw [abs_one]; exact one_le_pow₀ (by norm_num)) (by omega) (by
        rw [Int.cast_one, abs_one, one_mul]; exact zpow_lt_zpow_right₀ (by norm_num) (by omega))
      rw [Int.cast_one, one_mul] at cv
      have hle : |r.val - q| ≤ |q - t| := by
        rcases le_total 0 q with h0 | h0
        · refine (rmin c0 cf).trans ?_
          rw [abs_of_nonneg h0] at hqk
          have := (abs_lt.1 hlt).2
          rw [cv, abs_of_neg (by linarith), abs_of_pos (by linarith)]
          linarith
        · refine (rmin (-c0) ((Flt.isFinite_neg c0).2 cf)).trans ?_
          rw [abs_of_nonpos h0] at hqk
          have := (abs_lt.1 hlt).1
          rw [val_neg, cv, abs_of_pos (by linarith), abs_of_neg (by linarith)]
          linarith
      have h5 : δ * ulpAt F t ≤ 1 / 2 * ulpAt F t := mul_le_mul_of_nonneg_right hδ hup.le
      exact fin (by linarith)
  · obtain ⟨-, re⟩ := h.err_thr hb2
    refine fin (re.trans (le_of_eq ?_))
    rw [← e, hkb]; congr 1; ring

/-- rounding a number with a small relative error -/
theorem of_rne_thr_rel {q t ε c : ℝ} {r : Flt F} (h : IsRNE q r) (ht : t ≠ 0) (hb : |t| < 2 ^ ((F.bias : ℤ) + 1)) (hF : 2 ≤ F.bias)
    (hb2 : |q| < ((overflowThreshold F : ℚ) : ℝ))
    (hq : |q - t| ≤ ε * |t|) (h0 : 0 ≤ ε) (hδ : ε * 2 ^ (F.sb + 1) ≤ 1 / 2) (hc : 1 / 2 + ε * 2 ^ (F.sb + 1) ≤ c) : WithinUlp c r t := by
  refine of_rne_thr h ht hb hF hb2 (δ := ε * 2 ^ (F.sb + 1)) (hq.trans ?_) hδ hc
  rw [mul_assoc]
  exact mul_le_mul_of_nonneg_left (le_ulpAt t) h0
end WithinUlp

end Verif
