import Verif.Theory.TrigD

/-!
# The last steps of an exponential: a value near one, scaled by a power of two

`y` is the rounded value of `q`, and `q` is within `δ / 2` units of the exact value `E`; the result is `y * 2^k` rounded
once more, which changes it only in the subnormal range.
-/

namespace Verif
open Flt

variable {F : Fmt}

/-- `y = round q` against `E` -/
theorem near_scaled {q E δ : ℝ} {y : Flt F} (hy : IsRNE q y) (hF : 4 ≤ F.bias) (hS : 3 ≤ F.sb) (hE1 : 0.6 ≤ E) (hE2 : E ≤ 1.6) (hδ : 0 ≤ δ) (hδ1 : δ < 1)
    (hq : |q - E| ≤ δ * 2 ^ (-1 - (F.sb : ℤ))) :
    y.isFinite ∧ 1 / 2 ≤ y.val ∧ y.val < 2 ∧ |y.val - E| ≤ (1 + δ) * 2 ^ (-1 - (F.sb : ℤ)) ∧
      (E < 1 ∨ y.val < 1 → |y.val - E| ≤ (1 / 2 + δ) * 2 ^ (-1 - (F.sb : ℤ))) := by
  have hu := zp (-1 - (F.sb : ℤ))
  have hu1 : (2 : ℝ) ^ (-1 - (F.sb : ℤ)) ≤ 1 / 16 := by
    have : (2 : ℝ) ^ (-1 - (F.sb : ℤ)) ≤ 2 ^ (-4 : ℤ) := zpow_le_zpow_right₀ (by norm_num) (by omega)
    norm_num at this ⊢; linarith
  have eu : (2 : ℝ) ^ (1 - 2 - (F.sb : ℤ)) = 2 ^ (-1 - (F.sb : ℤ)) := by congr 1
  have eu2 : (2 : ℝ) ^ (0 - 2 - (F.sb : ℤ)) = 1 / 2 * 2 ^ (-1 - (F.sb : ℤ)) := by
    rw [show (0 - 2 - (F.sb : ℤ)) = -1 + (-1 - (F.sb : ℤ)) by ring, zpow_add₀ (by norm_num)]; norm_num
  obtain ⟨one, of, ov⟩ := exists_val (F := F) (n := 1) (k := 0) (by rw [abs_one]; exact one_le_pow₀ (by norm_num)) (by omega) (by
    rw [zpow_zero, Int.cast_one, abs_one, one_mul]; exact one_lt_zpow₀ (by norm_num) (by omega))
  rw [Int.cast_one, one_mul, zpow_zero] at ov
  have hq2 := abs_le.1 hq
  have hqd : δ * 2 ^ (-1 - (F.sb : ℤ)) ≤ 2 ^ (-1 - (F.sb : ℤ)) := by
    have := mul_le_mul_of_nonneg_right hδ1.le hu.le; rwa [one_mul] at this
  set u := (2 : ℝ) ^ (-1 - (F.sb : ℤ)) with hudef
  have q0 : 0 < q := by linarith
  obtain ⟨yf, ye⟩ := hy.err 1 (by rw [abs_of_pos q0, zpow_one]; linarith) (by omega) (by omega)
  rw [eu] at ye
  have ye2 := abs_le.1 ye
  have h2 : |y.val - E| ≤ (1 + δ) * u := by
    have := abs_add_le (y.val - q) (q - E)
    rw [sub_add_sub_cancel] at this
    linarith
  have small : q ≤ 1 → |y.val - E| ≤ (1 / 2 + δ) * u := fun h1 => by
    obtain ⟨-, ye3⟩ := hy.err 0 (by rw [abs_of_pos q0, zpow_zero]; exact h1) (by omega) (by omega)
    rw [eu2] at ye3
    have := abs_add_le (y.val - q) (q - E)
    rw [sub_add_sub_cancel] at this
    linarith
  have hlo : (2 : ℝ) ^ (-1 : ℤ) ≤ q := by norm_num; linarith
  refine ⟨yf, ?_, by linarith, h2, fun h => ?_⟩
  · obtain ⟨hf, hfv, hfv2⟩ := exists_val (F := F) (n := 1) (k := -1) (by rw [abs_one]; exact one_le_pow₀ (by norm_num)) (by have := F.one_le_sb; omega) (by
      rw [Int.cast_one, abs_one, one_mul]; exact zpow_lt_zpow_right₀ (by norm_num) (by omega))
    have := hy.ge_of_ge yf hfv (by rw [hfv2]; simpa using hlo)
    rw [hfv2] at this
    norm_num at this ⊢; linarith
  · rcases le_or_gt q 1 with h1 | h1
    · exact small h1
    · have hy1 : 1 ≤ y.val := by
        have := hy.ge_of_ge yf of (by rw [ov]; exact h1.le)
        rwa [ov] at this
      have hE : E < 1 := by
        rcases h with h | h
        · exact h
        · linarith
      obtain ⟨n, hn⟩ := grid y 0 (by rw [zpow_zero, abs_of_pos (by linarith)]; exact hy1)
      have hnear : |y.val - q| ≤ |one.val - q| := by
        obtain ⟨-, rmin, -⟩ := hy.finite (by
          rw [abs_of_pos q0]
          have h3 : q ≤ 2 := by linarith
          refine h3.trans ?_
          have : (2 : ℝ) ^ (1 : ℤ) ≤ 2 ^ (F.bias : ℤ) := zpow_le_zpow_right₀ (by norm_num) (by omega)
          rw [zpow_one] at this
          exact this.trans (le_mul_of_one_le_left (zp _).le (by norm_num)))
        exact rmin one of
      rw [ov, abs_of_neg (by linarith : 1 - q < 0)] at hnear
      have hy2 : y.val - 1 < 2 * u := by
        have := (abs_le.1 hnear).2
        have : δ * u < u := by have := mul_lt_mul_of_pos_right hδ1 hu; rwa [one_mul] at this
        linarith
      have e2 : (2 : ℝ) ^ (0 - (F.sb : ℤ)) = 2 * u := by
        rw [hudef, ← zpow_one_add₀ (by norm_num)]; congr 1; ring
      have e3 : (2 : ℝ) ^ F.sb * (2 * u) = 1 := by
        rw [← e2, ← zpow_natCast, ← zpow_add₀ (by norm_num)]; simp
      have hn1 : n = 2 ^ F.sb := by
        rw [hn, e2] at hy1 hy2
        have a1 : ((2 ^ F.sb : ℤ) : ℝ) * (2 * u) ≤ (n : ℝ) * (2 * u) := by push_cast; linarith
        have a2 : (n : ℝ) * (2 * u) < ((2 ^ F.sb + 1 : ℤ) : ℝ) * (2 * u) := by push_cast; linarith
        have b1 := le_of_mul_le_mul_right a1 (by linarith)
        have b2 := lt_of_mul_lt_mul_right a2 (by linarith)
        have c1 : (2 ^ F.sb : ℤ) ≤ n := by exact_mod_cast b1
        have c2 : n < (2 ^ F.sb + 1 : ℤ) := by exact_mod_cast b2
        omega
      have : y.val = 1 := by rw [hn, hn1, e2]; push_cast; exact e3
      rw [this, abs_of_pos (by linarith)]
      linarith

/-- the scaled result -/
theorem WithinUlp.scaled_of {q E δ c : ℝ} {y r : Flt F} {k : ℤ} (hy : IsRNE q y) (hr : IsRNE (y.val * 2 ^ k) r) (hF : 4 ≤ F.bias) (hS : 3 ≤ F.sb) (hE1 : 0.6 ≤ E) (hE2 : E ≤ 1.6)
    (hδ : 0 ≤ δ) (hδ1 : δ < 1) (hq : |q - E| ≤ δ * 2 ^ (-1 - (F.sb : ℤ))) (hk : k ≤ F.bias ∨ k = F.bias + 1 ∧ y.val < 1)
    (hc1 : 1 / 2 + δ ≤ c) (hc2 : 3 / 4 + δ / 2 ≤ c) :
    WithinUlp c r (E * 2 ^ k) := by
  obtain ⟨yf, y1, y2, e1, e2⟩ := near_scaled hy hF hS hE1 hE2 (by linarith) hδ1 hq
  have hu := zp (-1 - (F.sb : ℤ))
  have hM := zp k
  have ht : |E * 2 ^ k| = E * 2 ^ k := abs_of_pos (by positivity)
  have ulp1 : 2 ^ (-1 - (F.sb : ℤ)) * 2 ^ k ≤ ulpAt F (E * 2 ^ k) := by
    have := le_ulpAt_of_le (F := F) (t := E * 2 ^ k) (k := k - 1) (by
      rw [ht, zpow_sub_one₀ (by norm_num), mul_comm]
      exact mul_le_mul_of_nonneg_right (by linarith) hM.le)
    refine le_trans (le_of_eq ?_) this
    rw [← zpow_add₀ (by norm_num)]; congr 1; ring
  have ulp2 : 1 ≤ E → 2 * 2 ^ (-1 - (F.sb : ℤ)) * 2 ^ k ≤ ulpAt F (E * 2 ^ k) := fun h => by
    have := le_ulpAt_of_le (F := F) (t := E * 2 ^ k) (k := k) (by
      rw [ht]; exact le_mul_of_one_le_left hM.le h)
    refine le_trans (le_of_eq ?_) this
    rw [mul_assoc, ← zpow_add₀ (by norm_num), ← zpow_one_add₀ (by norm_num)]; congr 1; ring
  have ulp3 : 2 ^ (1 - (F.bias : ℤ) - F.sb) ≤ ulpAt F (E * 2 ^ k) := by
    rw [ulpAt, if_neg (by positivity)]
    exact zpow_le_zpow_right₀ (by norm_num) (by have := le_max_right (Int.log 2 |E * 2 ^ k|) (1 - (F.bias : ℤ)); omega)
  rw [def']
  -- the exact case
  have exact : (2 - (F.bias : ℤ) ≤ k ∨ k = 1 - (F.bias : ℤ) ∧ 1 ≤ y.val) → r.isFinite ∧ r.val = y.val * 2 ^ k := fun h => by
    have htop : |y.val * 2 ^ k| < 2 ^ ((F.bias : ℤ) + 1) := by
      rw [abs_of_pos (mul_pos (by linarith) hM)]
      rcases hk with hk | ⟨rfl, hk⟩
      · calc y.val * 2 ^ k < 2 * 2 ^ k := mul_lt_mul_of_pos_right y2 hM
          _ = 2 ^ (k + 1) := by rw [zpow_add₀ (by norm_num), zpow_one, mul_comm]
          _ ≤ _ := zpow_le_zpow_right₀ (by norm_num) (by omega)
      · calc y.val * 2 ^ ((F.bias : ℤ) + 1) < 1 * 2 ^ ((F.bias : ℤ) + 1) := mul_lt_mul_of_pos_right hk hM
          _ = _ := one_mul _
    have hya : |y.val| = y.val := abs_of_pos (by linarith)
    have main : ∀ j : ℤ, 2 ^ j ≤ |y.val| → y.val < 2 ^ (j + 1) → 1 - (F.bias : ℤ) ≤ j + k → ∃ c : Flt F, c.isFinite ∧ c.val = y.val * 2 ^ k := fun j hj1 hj2 hj3 => by
      obtain ⟨n, hn⟩ := grid y j hj1
      have en : y.val * 2 ^ k = n * 2 ^ (j - F.sb + k) := by rw [hn, mul_assoc, ← zpow_add₀ (by norm_num)]
      have hz := zp (j - F.sb)
      have hn2 : |n| ≤ 2 ^ (F.sb + 1) := by
        have h1 : |(n : ℝ)| * 2 ^ (j - F.sb) < 2 ^ (F.sb + 1) * 2 ^ (j - F.sb) := by
          rw [← abs_of_pos hz, ← abs_mul, ← hn, abs_of_pos hz, hya, ← zpow_natCast, ← zpow_add₀ (by norm_num)]
          refine hj2.trans_le (le_of_eq ?_)
          congr 1; push_cast; ring
        have h2 := lt_of_mul_lt_mul_right h1 hz.le
        exact le_of_lt (by exact_mod_cast h2)
      obtain ⟨c, cf, cv⟩ := exists_val (F := F) hn2 (k := j - F.sb + k) (by omega) (by
        rw [← abs_of_pos (zp (j - F.sb + k)), ← abs_mul, ← en]; exact htop)
      exact ⟨c, cf, by rw [cv, en]⟩
    rcases le_or_gt 1 y.val with h1 | h1
    · obtain ⟨c, cf, cv⟩ := main 0 (by rw [zpow_zero, hya]; exact h1) (by norm_num; exact y2) (by omega)
      exact hr.exact_real cf cv
    · obtain ⟨c, cf, cv⟩ := main (-1) (by rw [hya]; norm_num; linarith) (by norm_num; exact h1) (by
        rcases h with h | h
        · omega
        · linarith [h.2])
      exact hr.exact_real cf cv
  by_cases hex : 2 - (F.bias : ℤ) ≤ k ∨ k = 1 - (F.bias : ℤ) ∧ 1 ≤ y.val
  · obtain ⟨rf, rv⟩ := exact hex
    refine ⟨rf, ?_⟩
    rw [rv, ← sub_mul, abs_mul, abs_of_pos hM]
    rcases lt_or_ge E 1 with h1 | h1
    · calc |y.val - E| * 2 ^ k ≤ (1 / 2 + δ) * 2 ^ (-1 - (F.sb : ℤ)) * 2 ^ k := mul_le_mul_of_nonneg_right (e2 (Or.inl h1)) hM.le
        _ = (1 / 2 + δ) * (2 ^ (-1 - (F.sb : ℤ)) * 2 ^ k) := by ring
        _ ≤ (1 / 2 + δ) * ulpAt F (E * 2 ^ k) := mul_le_mul_of_nonneg_left ulp1 (by linarith)
        _ ≤ _ := mul_le_mul_of_nonneg_right hc1 (ulpAt_nonneg _)
    · calc |y.val - E| * 2 ^ k ≤ (1 + δ) * 2 ^ (-1 - (F.sb : ℤ)) * 2 ^ k := mul_le_mul_of_nonneg_right e1 hM.le
        _ = (1 / 2 + δ / 2) * (2 * 2 ^ (-1 - (F.sb : ℤ)) * 2 ^ k) := by ring
        _ ≤ (1 / 2 + δ / 2) * ulpAt F (E * 2 ^ k) := mul_le_mul_of_nonneg_left (ulp2 h1) (by linarith)
        _ ≤ _ := mul_le_mul_of_nonneg_right (by linarith) (ulpAt_nonneg _)
  · rw [not_or, not_and, not_le, not_le] at hex
    obtain ⟨k1, k2⟩ := hex
    have hyk : |y.val * 2 ^ k| ≤ 2 ^ (2 - (F.bias : ℤ)) := by
      rw [abs_of_pos (mul_pos (by linarith) hM)]
      calc y.val * 2 ^ k ≤ 2 * 2 ^ k := mul_le_mul_of_nonneg_right y2.le hM.le
        _ = 2 ^ (k + 1) := by rw [zpow_add₀ (by norm_num), zpow_one, mul_comm]
        _ ≤ _ := zpow_le_zpow_right₀ (by norm_num) (by omega)
    obtain ⟨rf, re⟩ := hr.err (2 - (F.bias : ℤ)) hyk le_rfl (by omega)
    refine ⟨rf, ?_⟩
    have hm := zp (1 - (F.bias : ℤ) - F.sb)
    have em : (2 : ℝ) ^ (2 - (F.bias : ℤ) - 2 - F.sb) = 1 / 2 * 2 ^ (1 - (F.bias : ℤ) - F.sb) := by
      rw [show (2 - (F.bias : ℤ) - 2 - F.sb) = -1 + (1 - (F.bias : ℤ) - F.sb) by ring, zpow_add₀ (by norm_num)]; norm_num
    rw [em] at re
    have hE3 : |y.val - E| * 2 ^ k ≤ (1 / 4 + δ / 2) * 2 ^ (1 - (F.bias : ℤ) - F.sb) := by
      rcases eq_or_ne k (1 - (F.bias : ℤ)) with hk1 | hk1
      · have e4 : (2 : ℝ) ^ (-1 - (F.sb : ℤ)) * 2 ^ k = 1 / 2 * 2 ^ (1 - (F.bias : ℤ) - F.sb) := by
          rw [hk1, ← zpow_add₀ (by norm_num), show (-1 - (F.sb : ℤ) + (1 - (F.bias : ℤ))) = -1 + (1 - (F.bias : ℤ) - F.sb) by ring, zpow_add₀ (by norm_num)]; norm_num
        calc |y.val - E| * 2 ^ k ≤ (1 / 2 + δ) * 2 ^ (-1 - (F.sb : ℤ)) * 2 ^ k := mul_le_mul_of_nonneg_right (e2 (Or.inr (k2 hk1))) hM.le
          _ = (1 / 2 + δ) * (2 ^ (-1 - (F.sb : ℤ)) * 2 ^ k) := by ring
          _ = _ := by rw [e4]; ring
      · have e4 : (2 : ℝ) ^ (-1 - (F.sb : ℤ)) * 2 ^ k ≤ 1 / 4 * 2 ^ (1 - (F.bias : ℤ) - F.sb) := by
          have : (2 : ℝ) ^ (-1 - (F.sb : ℤ) + k) ≤ 2 ^ (-2 + (1 - (F.bias : ℤ) - F.sb)) := zpow_le_zpow_right₀ (by norm_num) (by omega)
          rw [zpow_add₀ (by norm_num), zpow_add₀ (a := (2 : ℝ)) (by norm_num) (-2)] at this
          norm_num at this ⊢; exact this
        calc |y.val - E| * 2 ^ k ≤ (1 + δ) * 2 ^ (-1 - (F.sb : ℤ)) * 2 ^ k := mul_le_mul_of_nonneg_right e1 hM.le
          _ = (1 + δ) * (2 ^ (-1 - (F.sb : ℤ)) * 2 ^ k) := by ring
          _ ≤ (1 + δ) * (1 / 4 * 2 ^ (1 - (F.bias : ℤ) - F.sb)) := mul_le_mul_of_nonneg_left e4 (by linarith)
          _ = (1 / 4 + δ / 4) * 2 ^ (1 - (F.bias : ℤ) - F.sb) := by ring
          _ ≤ _ := mul_le_mul_of_nonneg_right (by linarith) hm.le
    have e5 : r.val - E * 2 ^ k = (r.val - y.val * 2 ^ k) + (y.val - E) * 2 ^ k := by ring
    rw [e5]
    refine (abs_add_le _ _).trans ?_
    rw [abs_mul, abs_of_pos hM]
    calc |r.val - y.val * 2 ^ k| + |y.val - E| * 2 ^ k ≤ 1 / 2 * 2 ^ (1 - (F.bias : ℤ) - F.sb) + (1 / 4 + δ / 2) * 2 ^ (1 - (F.bias : ℤ) - F.sb) := add_le_add re hE3
      _ = (3 / 4 + δ / 2) * 2 ^ (1 - (F.bias : ℤ) - F.sb) := by ring
      _ ≤ c * 2 ^ (1 - (F.bias : ℤ) - F.sb) := mul_le_mul_of_nonneg_right hc2 hm.le
      _ ≤ _ := mul_le_mul_of_nonneg_left ulp3 (by linarith)

theorem WithinUlp.scaled {q E δ : ℝ} {y r : Flt F} {k : ℤ} (hy : IsRNE q y) (hr : IsRNE (y.val * 2 ^ k) r) (hF : 4 ≤ F.bias) (hS : 3 ≤ F.sb) (hE1 : 0.6 ≤ E) (hE2 : E ≤ 1.6)
    (hδ : 1 / 2 ≤ δ) (hδ1 : δ < 1) (hq : |q - E| ≤ δ * 2 ^ (-1 - (F.sb : ℤ))) (hk : k ≤ F.bias ∨ k = F.bias + 1 ∧ y.val < 1) :
    WithinUlp (1 / 2 + δ) r (E * 2 ^ k) :=
  WithinUlp.scaled_of hy hr hF hS hE1 hE2 (by linarith) hδ1 hq hk le_rfl (by linarith)

end Verif
