import Verif.Theory.Cut
import Verif.Props.Cbrt

/-!
# Rounding to a grid by adding a large constant

`c = 1.5 * 2^K`: the sum `x + c` holds `x` rounded to a multiple of `2^(K - sb)`, and the low bits of its encoding hold the
multiple. Used by `exp2` and `exp2f`.
-/

namespace Verif
open Flt

variable {F : Fmt}

theorem mb_of_val {s : Flt F} {K : ℤ} {f : ℕ} (hf : f < 2 ^ F.sb) (hK1 : 1 - (F.bias : ℤ) ≤ K) (hK2 : K ≤ F.bias)
    (hv : s.val = ((2 ^ F.sb + f : ℕ) : ℝ) * 2 ^ (K - F.sb)) : s.sign = false ∧ (s.mb : ℤ) = (K + F.bias) * 2 ^ F.sb + f := by
  obtain ⟨E, hE⟩ : ∃ E : ℕ, (E : ℤ) = K + F.bias := ⟨(K + F.bias).toNat, by omega⟩
  have hE1 : 1 ≤ E := by omega
  have hb : E * 2 ^ F.sb + f < F.infEnc := by
    rw [F.infEnc_eq]
    have : (E + 1) * 2 ^ F.sb ≤ (2 * F.bias + 1) * 2 ^ F.sb := Nat.mul_le_mul_right _ (by omega)
    rw [Nat.add_mul, one_mul] at this
    omega
  have hb2 := hb.trans F.infEnc_lt
  have hmag : magOf F.sb (E * 2 ^ F.sb + f) = (2 ^ F.sb + f) * 2 ^ (E - 1) := by
    have h := magOf_split F.sb (E - 1) (2 ^ F.sb + f) (by rw [pow_succ]; omega) (Or.inl (by omega))
    have e : (E - 1) * 2 ^ F.sb + (2 ^ F.sb + f) = E * 2 ^ F.sb + f := by
      have : E * 2 ^ F.sb = (E - 1) * 2 ^ F.sb + 2 ^ F.sb := by
        conv_lhs => rw [show E = (E - 1) + 1 by omega, Nat.add_mul, one_mul]
      omega
    rwa [e] at h
  set m := mk' F false (E * 2 ^ F.sb + f) with hm
  have hms : m.sign = false := by rw [hm]; exact sign_mk' hb2
  have hmv : m.val = s.val := by
    have h0 := val_abs m
    rw [abs_of_nonneg (val_nonneg hms), hm, mag_mk' hb2, hmag, ulp_real] at h0
    rw [hm, h0, hv]
    push_cast
    rw [mul_assoc, ← zpow_natCast, ← zpow_natCast (2 : ℝ) (E - 1), ← zpow_add₀ (by norm_num)]
    congr 2
    push_cast [hE1]
    omega
  have hne : ¬ m.isZero := by
    intro h
    have := isZero_val.1 h
    rw [hmv, hv] at this
    have : (0 : ℝ) < ((2 ^ F.sb + f : ℕ) : ℝ) * 2 ^ (K - F.sb) := mul_pos (by positivity) (zp _)
    linarith
  have hsm := Cbrtf.eq_of_val hne hmv
  rw [← hsm]
  refine ⟨hms, ?_⟩
  rw [hm, mb_mk' hb2]
  push_cast
  rw [hE]

/-- `x + c` with `c = 1.5 * 2^K` -/
theorem magic_add {x c : Flt F} {K : ℤ} (xf : x.isFinite) (cf : c.isFinite) (hc : c.val = 3 * 2 ^ (K - 1)) (hx : |x.val| ≤ 2 ^ (K - 2))
    (hK1 : 2 - (F.bias : ℤ) ≤ K) (hK2 : K < F.bias) :
    ∃ n : ℤ, |n * 2 ^ (K - F.sb) - x.val| ≤ 1 / 2 * 2 ^ (K - F.sb) ∧ (x + c).isFinite ∧ (x + c).sign = false ∧
      ((x + c).mb : ℤ) = (K + F.bias) * 2 ^ F.sb + 2 ^ (F.sb - 1) + n ∧ (x + c).val = c.val + n * 2 ^ (K - F.sb) := by
  have hs := F.one_le_sb
  have hz := zp (K - F.sb)
  have hz2 := zp (K - 2)
  have e1 : (2 : ℝ) ^ (K - 1) = 2 * 2 ^ (K - 2) := by
    rw [← zpow_one_add₀ (by norm_num)]; congr 1; ring
  have e2 : (2 : ℝ) ^ K = 4 * 2 ^ (K - 2) := by
    rw [show K = 2 + (K - 2) by ring, zpow_add₀ (by norm_num)]; norm_num
  have e3 : (2 : ℝ) ^ (K + 1) = 8 * 2 ^ (K - 2) := by
    rw [zpow_add_one₀ (by norm_num), e2]; ring
  have hx2 := abs_le.1 hx
  have r := add_rne xf cf
  obtain ⟨sf, se⟩ := r.err (K + 1) (by rw [hc, e1, e3, abs_le]; constructor <;> linarith [hx2.1, hx2.2]) (by omega) (by omega)
  have e4 : (2 : ℝ) ^ (K + 1 - 2 - F.sb) = 1 / 2 * 2 ^ (K - F.sb) := by
    rw [show (K + 1 - 2 - F.sb : ℤ) = -1 + (K - F.sb) by ring, zpow_add₀ (by norm_num)]; norm_num
  rw [e4] at se
  have se2 := abs_le.1 se
  have e5 : (2 : ℝ) ^ (K - F.sb) ≤ 2 ^ (K - 2) :=
    zpow_le_zpow_right₀ (by norm_num) (by have := F.hsb; omega)
  rw [hc] at se2
  obtain ⟨m, hm⟩ := grid (x + c) K (by
    rw [e2]
    refine le_trans ?_ (le_abs_self _)
    linarith [hx2.1, se2.1])
  have e6 : (2 : ℝ) ^ K = 2 ^ F.sb * 2 ^ (K - F.sb) := by
    rw [← zpow_natCast, ← zpow_add₀ (by norm_num)]; congr 1; ring
  have e7 : (2 : ℝ) ^ (K - 1) = 2 ^ (F.sb - 1) * 2 ^ (K - F.sb) := by
    rw [← zpow_natCast, ← zpow_add₀ (by norm_num)]; congr 1; push_cast [hs]; ring
  have e8 : (2 : ℕ) ^ F.sb = 2 * 2 ^ (F.sb - 1) := by rw [← pow_succ']; congr 1; omega
  have m1 : (2 ^ F.sb : ℤ) ≤ m := by
    have : ((2 ^ F.sb : ℤ) : ℝ) * 2 ^ (K - F.sb) ≤ m * 2 ^ (K - F.sb) := by
      push_cast
      rw [← e6, ← hm, e2]
      linarith [hx2.1, se2.1]
    exact_mod_cast le_of_mul_le_mul_right this hz
  have m2 : m < (2 * 2 ^ F.sb : ℤ) := by
    have : (m : ℝ) * 2 ^ (K - F.sb) < ((2 * 2 ^ F.sb : ℤ) : ℝ) * 2 ^ (K - F.sb) := by
      push_cast
      rw [mul_assoc, ← e6, ← hm, e2]
      linarith [hx2.2, se2.2]
    exact_mod_cast lt_of_mul_lt_mul_right this hz.le
  obtain ⟨f, hf⟩ : ∃ f : ℕ, (f : ℤ) = m - 2 ^ F.sb := ⟨(m - 2 ^ F.sb).toNat, by omega⟩
  obtain ⟨b1, b2⟩ := mb_of_val (s := x + c) (K := K) (f := f) (by
    have : (f : ℤ) < 2 ^ F.sb := by omega
    exact_mod_cast this) (by omega) (by omega) (by
    rw [hm]
    congr 1
    have : ((2 ^ F.sb + f : ℕ) : ℤ) = m := by push_cast; omega
    exact_mod_cast this.symm)
  have hcv : c.val = (3 * 2 ^ (F.sb - 1) : ℝ) * 2 ^ (K - F.sb) := by rw [hc, e7, mul_assoc]
  refine ⟨m - 3 * 2 ^ (F.sb - 1), ?_, sf, b1, ?_, ?_⟩
  · have : ((m - 3 * 2 ^ (F.sb - 1) : ℤ) : ℝ) * 2 ^ (K - F.sb) - x.val = (x + c).val - (x.val + c.val) := by
      rw [hm, hcv]; push_cast; ring
    rw [this]; exact se
  · rw [b2, hf]
    have : (2 : ℤ) ^ F.sb = 2 * 2 ^ (F.sb - 1) := by exact_mod_cast e8
    rw [this]; ring
  · rw [hm, hcv]; push_cast; ring

/-- subtracting the constant again, and subtracting the multiple from `x`, is exact -/
theorem magic_sub {x c : Flt F} {K : ℤ} (xf : x.isFinite) (cf : c.isFinite) (hc : c.val = 3 * 2 ^ (K - 1)) (hx : |x.val| ≤ 2 ^ (K - 2))
    (hK1 : 3 - (F.bias : ℤ) + F.sb ≤ K) (hK2 : K < F.bias) :
    ∃ n : ℤ, |x.val - n * 2 ^ (K - F.sb)| ≤ 1 / 2 * 2 ^ (K - F.sb) ∧ (x + c).isFinite ∧ (x + c).sign = false ∧
      ((x + c).mb : ℤ) = (K + F.bias) * 2 ^ F.sb + 2 ^ (F.sb - 1) + n ∧
      (x - (x + c - c)).isFinite ∧ (x - (x + c - c)).val = x.val - n * 2 ^ (K - F.sb) := by
  obtain ⟨n, h1, h2, h3, h4, h5⟩ := magic_add xf cf hc hx (by omega) hK2
  have hs := F.one_le_sb
  have hz := zp (K - F.sb)
  have hz2 := zp (K - 2)
  have e2 : (2 : ℝ) ^ (K - 2) * 4 = 2 ^ F.sb * 2 ^ (K - F.sb) := by
    rw [← zpow_natCast, ← zpow_add₀ (by norm_num), show (4 : ℝ) = 2 ^ (2 : ℤ) by norm_num, ← zpow_add₀ (by norm_num)]; congr 1; ring
  have h1a := abs_le.1 h1
  have hx2 := abs_le.1 hx
  have h2s : (2 : ℝ) ^ 1 ≤ 2 ^ F.sb := pow_le_pow_right₀ (by norm_num) hs
  rw [pow_one] at h2s
  have nb : |(n : ℝ)| ≤ 2 ^ F.sb := by
    have : |(n : ℝ)| * 2 ^ (K - F.sb) ≤ 2 ^ F.sb * 2 ^ (K - F.sb) := by
      rw [← abs_of_pos hz, ← abs_mul, abs_of_pos hz, ← e2, abs_le]
      have h6 : 2 * (2 : ℝ) ^ (K - F.sb) ≤ 2 ^ F.sb * 2 ^ (K - F.sb) := mul_le_mul_of_nonneg_right h2s hz.le
      rw [← e2] at h6
      constructor <;> linarith [h1a.1, h1a.2, hx2.1, hx2.2]
    exact le_of_mul_le_mul_right this hz
  obtain ⟨w, wf, wv⟩ := exists_val (F := F) (n := n) (k := K - F.sb) (by
      have : (|n| : ℤ) ≤ 2 ^ F.sb := by exact_mod_cast nb
      have : (2 : ℤ) ^ F.sb ≤ 2 ^ (F.sb + 1) := pow_le_pow_right₀ (by norm_num) (by omega)
      omega) (by omega) (by
    calc |(n : ℝ)| * 2 ^ (K - F.sb) ≤ 2 ^ F.sb * 2 ^ (K - F.sb) := mul_le_mul_of_nonneg_right nb hz.le
      _ = 2 ^ K := by rw [← zpow_natCast, ← zpow_add₀ (by norm_num)]; congr 1; ring
      _ < _ := zpow_lt_zpow_right₀ (by norm_num) (by omega))
  obtain ⟨uf, uv⟩ := (sub_rne h2 cf).exact_real wf (by rw [wv, h5]; ring)
  rw [h5, show c.val + (n : ℝ) * 2 ^ (K - F.sb) - c.val = n * 2 ^ (K - F.sb) by ring] at uv
  refine ⟨n, by rwa [abs_sub_comm] at h1, h2, h3, h4, ?_⟩
  rw [← uv]
  by_cases h0 : n = 0
  · rw [h0, Int.cast_zero, zero_mul] at uv
    have := (sub_rne xf uf).exact_real xf (by rw [uv, sub_zero])
    exact this
  · have hn1 : (1 : ℝ) ≤ |(n : ℝ)| := by
      have : (1 : ℤ) ≤ |n| := Int.one_le_abs h0
      exact_mod_cast this
    have ha : (2 : ℝ) ^ (K - F.sb) ≤ |(x + c - c).val| := by
      rw [uv, abs_mul, abs_of_pos hz]; exact le_mul_of_one_le_left hz.le hn1
    have hd : |x.val - (x + c - c).val| ≤ 1 / 2 * 2 ^ (K - F.sb) := by rw [uv, abs_sub_comm]; exact h1
    have hxa : 1 / 2 * 2 ^ (K - F.sb) ≤ |x.val| := by
      have := abs_sub_abs_le_abs_sub (x + c - c).val x.val
      rw [abs_sub_comm] at this
      linarith
    have hlow : (2 : ℝ) ^ (1 - (F.bias : ℤ)) ≤ 1 / 2 * 2 ^ (K - F.sb) := by
      have e : 1 / 2 * (2 : ℝ) ^ (K - F.sb) = 2 ^ (K - F.sb - 1) := by rw [zpow_sub_one₀ (by norm_num)]; ring
      rw [e]; exact zpow_le_zpow_right₀ (by norm_num) (by omega)
    exact sterbenz_val xf uf (by linarith) (by linarith) (by linarith) (by linarith)

end Verif
