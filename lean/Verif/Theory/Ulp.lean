import Verif.Spec.Ulp
import Verif.Theory.Err64

/-! # Units in the last place: from roundings to ulps -/

namespace Verif
open Flt

variable {F : Fmt}

theorem ulpAt_zero : ulpAt F 0 = 0 := if_pos rfl
theorem ulpAt_neg (t : ℝ) : ulpAt F (-t) = ulpAt F t := by
  unfold ulpAt; rw [abs_neg]; simp only [neg_eq_zero]
theorem ulpAt_nonneg (t : ℝ) : 0 ≤ ulpAt F t := by
  unfold ulpAt; split
  · exact le_rfl
  · exact (zp _).le

/-- a relative error in units in the last place -/
theorem lt_ulpAt {t : ℝ} (h : t ≠ 0) : |t| < 2 ^ (F.sb + 1) * ulpAt F t := by
  unfold ulpAt
  rw [if_neg h]
  have h1 : |t| < ((2 : ℕ) : ℝ) ^ (Int.log 2 |t| + 1) := Int.lt_zpow_succ_log_self (by norm_num) _
  refine h1.trans_le ?_
  rw [← zpow_natCast, ← zpow_add₀ (by norm_num : (2 : ℝ) ≠ 0)]
  push_cast
  exact zpow_le_zpow_right₀ (by norm_num) (by have := le_max_left (Int.log 2 |t|) (1 - (F.bias : ℤ)); omega)

theorem le_ulpAt (t : ℝ) : |t| ≤ 2 ^ (F.sb + 1) * ulpAt F t := by
  rcases eq_or_ne t 0 with h | h
  · rw [h, ulpAt_zero]; simp
  · exact (lt_ulpAt h).le

namespace WithinUlp

theorem def' {c : ℝ} {r : Flt F} {t : ℝ} : WithinUlp c r t ↔ r.isFinite ∧ |r.val - t| ≤ c * ulpAt F t := Iff.rfl

theorem mono {c d : ℝ} {r : Flt F} {t : ℝ} (h : WithinUlp c r t) (hcd : c ≤ d) : WithinUlp d r t :=
  ⟨h.1, h.2.trans (mul_le_mul_of_nonneg_right hcd (ulpAt_nonneg t))⟩

theorem neg {c : ℝ} {r : Flt F} {t : ℝ} (h : WithinUlp c r t) : WithinUlp c (-r) (-t) := by
  rw [def'] at h ⊢
  refine ⟨(Flt.isFinite_neg r).2 h.1, ?_⟩
  rw [ulpAt_neg, val_neg, show -r.val - -t = -(r.val - t) by ring, abs_neg]
  exact h.2

theorem exact {c : ℝ} {r : Flt F} (hc : 0 ≤ c) (h : r.isFinite) : WithinUlp c r r.val := by
  rw [def']
  refine ⟨h, ?_⟩
  rw [sub_self, abs_zero]
  exact mul_nonneg hc (ulpAt_nonneg _)

/-- a result with a relative error -/
theorem of_rel {r : Flt F} {t ε c : ℝ} (hr : r.isFinite) (h : |r.val - t| ≤ ε * |t|) (h0 : 0 ≤ ε) (hc : ε * 2 ^ (F.sb + 1) ≤ c) :
    WithinUlp c r t := by
  rw [def']
  refine ⟨hr, h.trans ?_⟩
  calc ε * |t| ≤ ε * (2 ^ (F.sb + 1) * ulpAt F t) := mul_le_mul_of_nonneg_left (le_ulpAt t) h0
    _ = ε * 2 ^ (F.sb + 1) * ulpAt F t := by ring
    _ ≤ _ := mul_le_mul_of_nonneg_right hc (ulpAt_nonneg t)

/-- rounding a number close to the exact result -/
theorem of_rne {q t δ c : ℝ} {r : Flt F} (h : IsRNE q r) (ht : t ≠ 0) (hb : |t| < 2 ^ ((F.bias : ℤ) - 1)) (hF : 2 ≤ F.bias)
    (hq : |q - t| ≤ δ * ulpAt F t) (hδ : δ ≤ 1 / 2) (hc : 1 / 2 + δ ≤ c) : WithinUlp c r t := by
  have htp : 0 < |t| := abs_pos.2 ht
  rw [def']
  set k := max (Int.log 2 |t|) (1 - F.bias) with hk
  have hu : ulpAt F t = 2 ^ (k - F.sb) := if_neg ht
  have hlt : |t| < 2 ^ (k + 1) := by
    have := lt_ulpAt (F := F) ht
    rw [hu, ← zpow_natCast, ← zpow_add₀ (by norm_num : (2 : ℝ) ≠ 0)] at this
    push_cast at this
    rwa [show ((F.sb : ℤ) + 1 + (k - F.sb)) = k + 1 by ring] at this
  have hlog : Int.log 2 |t| < (F.bias : ℤ) - 1 := by
    have h1 : ((2 : ℕ) : ℝ) ^ Int.log 2 |t| ≤ |t| := Int.zpow_log_le_self (by norm_num) htp
    have h2 := h1.trans_lt hb
    exact (zpow_lt_zpow_iff_right₀ (by norm_num : (1 : ℝ) < 2)).1 (by exact_mod_cast h2)
  have hkb : k + 1 ≤ F.bias - 1 := by
    rw [hk]
    have : max (Int.log 2 |t|) (1 - (F.bias : ℤ)) ≤ F.bias - 2 := max_le (by omega) (by omega)
    omega
  have hkl : 1 - (F.bias : ℤ) ≤ k := le_max_right _ _
  have hup : 0 < ulpAt F t := by rw [hu]; exact zp _
  by_cases hqk : |q| ≤ 2 ^ (k + 1)
  · obtain ⟨rf, re⟩ := h.err (k + 1) hqk (by omega) (by omega)
    refine ⟨rf, ?_⟩
    have e : (2 : ℝ) ^ (k + 1 - 2 - F.sb : ℤ) = 1 / 2 * ulpAt F t := by
      rw [hu, show (k + 1 - 2 - F.sb : ℤ) = -1 + (k - F.sb) by ring, zpow_add₀ (by norm_num)]
      norm_num
    rw [e] at re
    have e2 : r.val - t = (r.val - q) + (q - t) := by ring
    rw [e2]
    refine (abs_add_le _ _).trans ?_
    have := mul_le_mul_of_nonneg_right hc hup.le
    linarith
  · rw [not_le] at hqk
    have hδ0 : 0 ≤ δ := by
      by_contra hn
      rw [not_le] at hn
      have := mul_neg_of_neg_of_pos hn hup
      have := abs_nonneg (q - t)
      linarith
    -- `q` is just above the binade
    have hqb : |q| ≤ 3 / 2 * 2 ^ (F.bias : ℤ) := by
      have h1 : |q| ≤ |t| + δ * ulpAt F t := by
        have := abs_sub_abs_le_abs_sub q t; linarith
      have h2 : ulpAt F t ≤ 2 ^ (k + 1) := by
        rw [hu]; exact zpow_le_zpow_right₀ (by norm_num) (by omega)
      have h3 : (2 : ℝ) ^ (k + 1) ≤ 2 ^ ((F.bias : ℤ) - 1) := zpow_le_zpow_right₀ (by norm_num) hkb
      have h4 : (2 : ℝ) ^ (F.bias : ℤ) = 2 ^ ((F.bias : ℤ) - 1) * 2 := by
        rw [← zpow_add_one₀ (by norm_num)]; congr 1; ring
      have h5 : δ * ulpAt F t ≤ 1 / 2 * ulpAt F t := mul_le_mul_of_nonneg_right hδ hup.le
      rw [h4]
      have := zp ((F.bias : ℤ) - 1)
      linarith
    obtain ⟨rf, rmin, -⟩ := h.finite hqb
    refine ⟨rf, ?_⟩
    obtain ⟨c0, cf, cv⟩ := exists_val (F := F) (n := 1) (k := k + 1) (by
      rw [abs_one]; exact one_le_pow₀ (by norm_num)) (by omega) (by
      rw [Int.cast_one, abs_one, one_mul]; exact zpow_lt_zpow_right₀ (by norm_num) (by omega))
    rw [Int.cast_one, one_mul] at cv
    have hle : |r.val - q| ≤ |q - t| := by
      rcases le_total 0 q with h0 | h0
      · refine (rmin c0 cf).trans ?_
        rw [abs_of_nonneg h0] at hqk
        have := (abs_lt.1 hlt).2
        rw [cv, abs_of_neg (by linarith), abs_of_pos (by linarith)]
        linarith
      · refine (rmin (-c0) ((Flt.isFinite_neg c0).2 cf)).trans ?_
        rw [abs_of_nonpos h0] at hqk
        have := (abs_lt.1 hlt).1
        rw [val_neg, cv, abs_of_pos (by linarith), abs_of_neg (by linarith)]
        linarith
    have e2 : r.val - t = (r.val - q) + (q - t) := by ring
    rw [e2]
    refine (abs_add_le _ _).trans ?_
    have := mul_le_mul_of_nonneg_right hc hup.le
    have h5 : δ * ulpAt F t ≤ 1 / 2 * ulpAt F t := mul_le_mul_of_nonneg_right hδ hup.le
    linarith

/-- rounding a number with a small relative error -/
theorem of_rne_rel {q t ε c : ℝ} {r : Flt F} (h : IsRNE q r) (ht : t ≠ 0) (hb : |t| < 2 ^ ((F.bias : ℤ) - 1)) (hF : 2 ≤ F.bias)
    (hq : |q - t| ≤ ε * |t|) (h0 : 0 ≤ ε) (hδ : ε * 2 ^ (F.sb + 1) ≤ 1 / 2) (hc : 1 / 2 + ε * 2 ^ (F.sb + 1) ≤ c) : WithinUlp c r t := by
  refine of_rne h ht hb hF (δ := ε * 2 ^ (F.sb + 1)) (hq.trans ?_) hδ hc
  rw [mul_assoc]
  exact mul_le_mul_of_nonneg_left (le_ulpAt t) h0

end WithinUlp

end Verif
