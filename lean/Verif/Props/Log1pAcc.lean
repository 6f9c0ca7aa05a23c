import Verif.Props.LogAcc
import Verif.Theory.UlpTop

/-!
# C61: `log1p` and `log1pf` are accurate to one unit in the last place

The exact value is Mathlib's `Real.log` of one plus the argument.
-/

namespace Verif
open Flt

/-- `f` computes `g` to within `c` units in the last place at every finite argument above minus one -/
def AccurateAboveNegOne {F : Fmt} (c : ℝ) (f : Flt F → Option (Flt F)) (g : ℝ → ℝ) : Prop :=
  ∀ x : Flt F, x.isFinite → -1 < ((x.toRat : ℚ) : ℝ) → ∃ r, f x = some r ∧ WithinUlp c r (g ((x.toRat : ℚ) : ℝ))

theorem log_one_add_near {x : ℝ} (h : |x| ≤ 1 / 2 ^ 10) : |Real.log (1 + x) - x| ≤ 0.51 * x ^ 2 := by
  have h1 := Real.abs_log_sub_add_sum_range_le (x := -x) (by rw [abs_neg]; exact lt_of_le_of_lt h (by norm_num)) 2
  rw [sub_neg_eq_add, abs_neg] at h1
  simp only [Finset.sum_range_succ, Finset.sum_range_zero] at h1
  norm_num at h1
  have h2 : |x| ^ 3 / (1 - |x|) ≤ 0.002 * x ^ 2 := by
    rw [div_le_iff₀ (by norm_num at h; linarith), ← sq_abs, pow_succ]
    have : 0 ≤ |x| ^ 2 := by positivity
    have h3 : |x| ≤ 0.002 * (1 - |x|) := by norm_num at h ⊢; linarith
    calc |x| ^ 2 * |x| ≤ |x| ^ 2 * (0.002 * (1 - |x|)) := mul_le_mul_of_nonneg_left h3 this
      _ = _ := by ring
  have h4 := h1.trans h2
  rw [abs_le] at h4 ⊢
  have := _root_.sq_nonneg x
  norm_num at h4 ⊢
  constructor <;> linarith

namespace Log
/-- log1p.rs 121-128, log1pf.rs 76-83: the correction for the rounding of `1 + x` -/
def corr (x : Flt f64) (k : ℤ) : Flt f64 :=
  if k < 54 then (if k ≥ 2 then 1.0 - ((1.0 + x) - x) else x - ((1.0 + x) - 1.0)) / (1.0 + x) else 0.0

theorem reduce1p_eq {x : Flt f64} (hs : (1.0 + x).sign = false) : reduce1p x = (reduce (1.0 + x) 0).map fun (f, k) => (f, corr x k, k) := by
  have hm := mb64_lt (1.0 + x)
  have hu := hi_toNat (1.0 + x)
  rw [hs, if_neg (by decide)] at hu
  unfold reduce1p reduce corr
  dsimp only
  have a1 : uadd (getHighWord (1.0 + x)) (0x3ff00000#32 - 0x3fe6a09e#32) =
      some (getHighWord (1.0 + x) + (0x3ff00000#32 - 0x3fe6a09e#32)) := by
    unfold uadd; rw [if_pos]
    rw [show (0x3ff00000#32 - 0x3fe6a09e#32).toNat = 614242 by rfl]
    omega
  rw [a1, Option.bind_some, Option.bind_some]
  generalize getHighWord (1.0 + x) + (0x3ff00000#32 - 0x3fe6a09e#32) = w
  have a2 : uadd (w &&& 0x000fffff#32) 0x3fe6a09e#32 = some ((w &&& 0x000fffff#32) + 0x3fe6a09e#32) := by
    unfold uadd; rw [if_pos]
    have e : (0x000fffff#32).toNat = 0x000fffff := rfl
    have : (w &&& 0x000fffff#32).toNat ≤ (0x000fffff#32).toNat := by rw [BitVec.toNat_and]; exact Nat.and_le_right
    rw [e] at this
    rw [show (0x3fe6a09e#32).toNat = 0x3fe6a09e by rfl]
    omega
  have h3 : (w >>> 20).toNat < 2 ^ 12 := by
    rw [BitVec.toNat_ushiftRight, Nat.shiftRight_eq_div_pow]; have := w.isLt; omega
  rw [a2, i32_some (by omega) (by omega), _root_.zero_add]
  simp only [Option.bind_some, Option.map_some, bits64_u64]

theorem one_add_fin {x : Flt f64} (xf : x.isFinite) (hx : -1 < x.val) : (1.0 + x).isFinite ∧ |(1.0 + x).val - (1 + x.val)| ≤ |x.val - (1 + x.val)| ∧
    IsRNE (1 + x.val) (1.0 + x) := by
  have r := add_rne (x := (1.0 : Flt f64)) (by decide +kernel) xf
  rw [Cbrt.one_v] at r
  have hm := (isFinite64 x).1 xf
  have h1 := val_mono (x := mk' f64 false 0x7fefffffffffffff) (y := x) (by rw [mb_mk' (by decide)]; omega)
  rw [abs_of_nonneg (val_nonneg (x := mk' f64 false 0x7fefffffffffffff) (by decide +kernel)), val_const64 (x := mk' f64 false 0x7fefffffffffffff) 9007199254740991 2045 971 (by decide +kernel) (by norm_num)] at h1
  have h2 : |1 + x.val| < ((overflowThreshold f64 : ℚ) : ℝ) := by
    rw [overflow_real, f64_bias, f64_sb, abs_of_pos (by linarith)]
    have e : (((1023 : ℕ) : ℤ) - ((52 : ℕ) : ℤ)) = 971 := by norm_num
    rw [e]
    have h5 : (4 : ℝ) ≤ 2 ^ (971 : ℤ) := by
      have := zpow_le_zpow_right₀ (a := (2 : ℝ)) (m := 2) (n := 971) (by norm_num) (by norm_num)
      refine le_trans (by norm_num) this
    generalize (2 : ℝ) ^ (971 : ℤ) = T at *
    have := le_abs_self x.val
    push_cast at h1
    norm_num
    linarith
  obtain ⟨a, b⟩ := r.fin h2
  exact ⟨a, b x xf, r⟩

/-- below `2^53` (roughly), the correction is the rounding error of `1 + x`, exactly -/
theorem corr_exact {x : Flt f64} {k : ℤ} (xf : x.isFinite) (hx : -1 < x.val) (hx2 : 1 / 4 ≤ |x.val|) (hu : (1.0 + x).val ≤ 2 ^ 54) (hk1 : 2 ≤ k → 5 / 2 ≤ (1.0 + x).val)
    (hk2 : k < 2 → (1.0 + x).val ≤ 3) :
    (if k ≥ 2 then 1.0 - ((1.0 + x) - x) else x - ((1.0 + x) - 1.0)).isFinite ∧
    (if k ≥ 2 then 1.0 - ((1.0 + x) - x) else x - ((1.0 + x) - 1.0)).val = 1 + x.val - (1.0 + x).val ∧ |1 + x.val - (1.0 + x).val| ≤ (2 : ℝ) ^ (-52 : ℤ) * (1.0 + x).val := by
  obtain ⟨uf, hcand, r⟩ := one_add_fin xf hx
  have onef : (1.0 : Flt f64).isFinite := by decide +kernel
  -- the rounding error
  obtain ⟨nx, hnx⟩ := grid64 x (-2) (by refine le_trans (by norm_num) hx2)
  by_cases cs : x.val ≤ -(1 / 2)
  · -- exact addition
    have hab : |1 + x.val| ≤ 2 ^ (-1 : ℤ) := by rw [abs_of_pos (by linarith)]; norm_num; linarith
    obtain ⟨c, cf, cv⟩ := exists_val64' (n := nx + 2 ^ 54) (k := -54) (by
        have h3 : (nx : ℝ) + 2 ^ 54 = (1 + x.val) * 2 ^ 54 := by rw [hnx]; norm_num; ring
        have h4 : |(nx : ℝ) + 2 ^ 54| ≤ 2 ^ 53 := by
          rw [h3, abs_mul]; norm_num at hab ⊢; linarith
        exact_mod_cast h4) (by norm_num) (by norm_num)
    have cv' : c.val = 1 + x.val := by rw [cv, hnx]; push_cast; norm_num; ring
    obtain ⟨-, uv⟩ := r.exact_real cf cv'
    have hk : ¬ k ≥ 2 := by
      intro h
      have := hk1 h
      rw [uv] at this; linarith
    rw [if_neg hk]
    obtain ⟨af, av⟩ := (sub_rne uf onef).exact_real xf (by rw [uv, Cbrt.one_v]; ring)
    obtain ⟨bf, bv⟩ := (sub_rne xf af).exact_real (z := zero f64 false) (isFinite_zero _) (by rw [val_zero, av, uv, Cbrt.one_v]; ring)
    refine ⟨bf, by rw [bv, av, Cbrt.one_v]; ring, ?_⟩
    rw [uv]
    have : (0 : ℝ) < 1 + x.val := by linarith
    rw [sub_self, abs_zero]; exact mul_nonneg (zpow_nonneg (by norm_num) _) this.le
  · push Not at cs
    have hrel : |(1.0 + x).val - (1 + x.val)| ≤ |1 + x.val| * 2 ^ (-53 : ℤ) := by
      have h1 : |(1.0 : Flt f64).val + x.val| ≤ 3 / 2 * 2 ^ (1023 : ℤ) := by
        rw [Cbrt.one_v, abs_of_pos (by linarith)]
        rw [show x.val - (1 + x.val) = -1 by ring, abs_neg, abs_one, abs_le] at hcand
        have h2 : 1 + x.val ≤ 2 ^ 55 := by
          norm_num at hu ⊢; linarith [hcand.1]
        refine h2.trans (le_trans (b := 1 * (2 : ℝ) ^ (55 : ℤ)) (by norm_num) (mul_le_mul (by norm_num) (zpow_le_zpow_right₀ (by norm_num) (by norm_num)) (by positivity) (by norm_num)))
      have := (add_rel64 onef xf h1).2
      rwa [Cbrt.one_v] at this
    have hcase : (if k ≥ 2 then 1.0 - ((1.0 + x) - x) else x - ((1.0 + x) - 1.0)).isFinite ∧
        (if k ≥ 2 then 1.0 - ((1.0 + x) - x) else x - ((1.0 + x) - 1.0)).val = 1 + x.val - (1.0 + x).val := by
      by_cases hk : k ≥ 2
      · rw [if_pos hk]
        have hu2 := hk1 hk
        have hx1 : 1 ≤ x.val := by
          rw [abs_of_pos (a := 1 + x.val) (by linarith), abs_le] at hrel
          norm_num at hrel hu2
          linarith [hrel.2]
        obtain ⟨n1, hn1⟩ := grid64 x 0 (by rw [abs_of_pos (by linarith)]; simpa using hx1)
        obtain ⟨n2, hn2⟩ := grid64 (1.0 + x) 0 (by rw [abs_of_pos (by linarith)]; norm_num at hu2 ⊢; linarith)
        rw [show (0 - 52 : ℤ) = -52 by norm_num] at hn1 hn2
        have hn : ((n2 - n1 : ℤ) : ℝ) * 2 ^ (-52 : ℤ) = (1.0 + x).val - x.val := by rw [hn1, hn2]; push_cast; ring
        have hd : |(1.0 + x).val - x.val - 1| ≤ 1 := by
          rw [show x.val - (1 + x.val) = -1 by ring, abs_neg, abs_one] at hcand
          rwa [show (1.0 + x).val - x.val - 1 = (1.0 + x).val - (1 + x.val) by ring]
        obtain ⟨c, cf, cv⟩ := exists_val64' (n := n2 - n1) (k := -52) (by
            have h4 : |((n2 - n1 : ℤ) : ℝ)| ≤ 2 ^ 53 := by
              have h5 : ((n2 - n1 : ℤ) : ℝ) = ((1.0 + x).val - x.val) * 2 ^ 52 := by rw [← hn, mul_assoc]; norm_num
              rw [h5, abs_mul, abs_of_pos (a := (2 : ℝ) ^ 52) (by positivity)]
              have : |(1.0 + x).val - x.val| ≤ 2 := by rw [abs_le] at hd ⊢; constructor <;> linarith
              exact (mul_le_mul_of_nonneg_right this (by positivity)).trans (by norm_num)
            exact_mod_cast h4) (by norm_num) (by norm_num)
        obtain ⟨af, av⟩ := (sub_rne uf xf).exact_real cf (by rw [cv, hn])
        obtain ⟨d, df, dv⟩ := exists_val64' (n := 2 ^ 52 - (n2 - n1)) (k := -52) (by
            have h4 : |((2 ^ 52 - (n2 - n1) : ℤ) : ℝ)| ≤ 2 ^ 53 := by
              have h5 : ((2 ^ 52 - (n2 - n1) : ℤ) : ℝ) = -((1.0 + x).val - x.val - 1) * 2 ^ 52 := by
                rw [show -((1.0 + x).val - x.val - 1) = 1 - ((1.0 + x).val - x.val) by ring, ← hn, sub_mul, mul_assoc]; push_cast; norm_num
              rw [h5, abs_mul, abs_neg, abs_of_pos (a := (2 : ℝ) ^ 52) (by positivity)]
              exact (mul_le_mul_of_nonneg_right hd (by positivity)).trans (by norm_num)
            exact_mod_cast h4) (by norm_num) (by norm_num)
        obtain ⟨bf, bv⟩ := (sub_rne onef af).exact_real df (by
          rw [dv, av, Cbrt.one_v, ← hn]; push_cast; rw [sub_mul]; norm_num)
        exact ⟨bf, by rw [bv, av, Cbrt.one_v]; ring⟩
      · rw [if_neg hk]
        have hu2 := hk2 (by omega)
        have hlow : 1 / 2 ≤ (1.0 + x).val := by
          have := r.ge_of_ge uf (show (0.5 : Flt f64).isFinite by decide +kernel) (by rw [half64_val]; norm_num at cs ⊢; linarith)
          rw [half64_val] at this; norm_num at this ⊢; linarith
        have hA : ((1.0 + x) - 1.0).isFinite ∧ ((1.0 + x) - 1.0).val = (1.0 + x).val - 1 := by
          by_cases c2 : (1.0 + x).val ≤ 2
          · obtain ⟨n2, hn2⟩ := grid64 (1.0 + x) (-1) (by rw [abs_of_pos (by linarith)]; norm_num at hlow ⊢; linarith)
            rw [show (-1 - 52 : ℤ) = -53 by norm_num] at hn2
            obtain ⟨c, cf, cv⟩ := exists_val64' (n := n2 - 2 ^ 53) (k := -53) (by
              have h4 : |((n2 - 2 ^ 53 : ℤ) : ℝ)| ≤ 2 ^ 53 := by
                have h5 : ((n2 - 2 ^ 53 : ℤ) : ℝ) = ((1.0 + x).val - 1) * 2 ^ 53 := by rw [hn2, sub_mul, mul_assoc]; push_cast; norm_num
                rw [h5, abs_mul, abs_of_pos (a := (2 : ℝ) ^ 53) (by positivity)]
                have : |(1.0 + x).val - 1| ≤ 1 := by rw [abs_le]; constructor <;> linarith
                exact (mul_le_mul_of_nonneg_right this (by positivity)).trans (by norm_num)
              exact_mod_cast h4) (by norm_num) (by norm_num)
            obtain ⟨af, av⟩ := (sub_rne uf onef).exact_real cf (by rw [cv, Cbrt.one_v, hn2]; push_cast; rw [sub_mul]; norm_num)
            exact ⟨af, by rw [av, Cbrt.one_v]⟩
          · push Not at c2
            obtain ⟨n2, hn2⟩ := grid64 (1.0 + x) 1 (by rw [abs_of_pos (by linarith)]; norm_num; linarith)
            rw [show (1 - 52 : ℤ) = -51 by norm_num] at hn2
            obtain ⟨c, cf, cv⟩ := exists_val64' (n := n2 - 2 ^ 51) (k := -51) (by
              have h4 : |((n2 - 2 ^ 51 : ℤ) : ℝ)| ≤ 2 ^ 53 := by
                have h5 : ((n2 - 2 ^ 51 : ℤ) : ℝ) = ((1.0 + x).val - 1) * 2 ^ 51 := by rw [hn2, sub_mul, mul_assoc]; push_cast; norm_num
                rw [h5, abs_mul, abs_of_pos (a := (2 : ℝ) ^ 51) (by positivity)]
                have : |(1.0 + x).val - 1| ≤ 2 := by rw [abs_le]; constructor <;> linarith
                exact (mul_le_mul_of_nonneg_right this (by positivity)).trans (by norm_num)
              exact_mod_cast h4) (by norm_num) (by norm_num)
            obtain ⟨af, av⟩ := (sub_rne uf onef).exact_real cf (by rw [cv, Cbrt.one_v, hn2]; push_cast; rw [sub_mul]; norm_num)
            exact ⟨af, by rw [av, Cbrt.one_v]⟩
        obtain ⟨af, av⟩ := hA
        obtain ⟨n2, hn2⟩ := grid64 (1.0 + x) (-2) (by rw [abs_of_pos (by linarith)]; norm_num at hlow ⊢; linarith)
        rw [show (-2 - 52 : ℤ) = -54 by norm_num] at hn2 hnx
        have h5 : ((nx - n2 + 2 ^ 54 : ℤ) : ℝ) * 2 ^ (-54 : ℤ) = 1 + x.val - (1.0 + x).val := by
          rw [hn2, hnx]; push_cast; rw [add_mul, sub_mul]; norm_num; ring
        obtain ⟨c, cf, cv⟩ := exists_val64' (n := nx - n2 + 2 ^ 54) (k := -54) (by
            have h4 : |((nx - n2 + 2 ^ 54 : ℤ) : ℝ)| ≤ 2 ^ 53 := by
              have h6 : ((nx - n2 + 2 ^ 54 : ℤ) : ℝ) = (1 + x.val - (1.0 + x).val) * 2 ^ 54 := by rw [← h5, mul_assoc]; norm_num
              rw [h6, abs_mul, abs_of_pos (a := (2 : ℝ) ^ 54) (by positivity), abs_sub_comm]
              have h7 : |1 + x.val| ≤ 5 := by
                rw [show x.val - (1 + x.val) = -1 by ring, abs_neg, abs_one, abs_le] at hcand
                rw [abs_le]; constructor <;> linarith
              have : |(1.0 + x).val - (1 + x.val)| ≤ 5 * 2 ^ (-53 : ℤ) := hrel.trans (mul_le_mul_of_nonneg_right h7 (by positivity))
              exact (mul_le_mul_of_nonneg_right this (by positivity)).trans (by norm_num)
            exact_mod_cast h4) (by norm_num) (by norm_num)
        obtain ⟨bf, bv⟩ := (sub_rne xf af).exact_real cf (by rw [cv, av, h5]; ring)
        exact ⟨bf, by rw [bv, av]; ring⟩
    refine ⟨hcase.1, hcase.2, ?_⟩
    rw [abs_sub_comm]
    rw [abs_of_pos (a := 1 + x.val) (by linarith)] at hrel
    refine hrel.trans ?_
    rw [abs_le] at hrel
    norm_num at hrel ⊢
    linarith [hrel.1]

theorem one_add_low {x : Flt f64} (xf : x.isFinite) (hx : -1 < x.val) (hx2 : 1 / 4 ≤ |x.val|) : (2 : ℝ) ^ (-54 : ℤ) ≤ (1.0 + x).val := by
  obtain ⟨uf, -, r⟩ := one_add_fin xf hx
  obtain ⟨n, hn⟩ := grid64 x (-2) (by refine le_trans (by norm_num) hx2)
  rw [show (-2 - 52 : ℤ) = -54 by norm_num] at hn
  obtain ⟨c, cf, cv⟩ := exists_val64' (n := 1) (k := -54) (by norm_num) (by norm_num) (by norm_num)
  have h1 : ((n + 2 ^ 54 : ℤ) : ℝ) * 2 ^ (-54 : ℤ) = 1 + x.val := by
    rw [hn]; push_cast; rw [add_mul]; norm_num; ring
  have h2 : (0 : ℝ) < ((n + 2 ^ 54 : ℤ) : ℝ) := by
    by_contra hc
    push Not at hc
    have := mul_nonpos_of_nonpos_of_nonneg hc (by positivity : (0 : ℝ) ≤ 2 ^ (-54 : ℤ))
    linarith
  have h3 : (1 : ℝ) ≤ ((n + 2 ^ 54 : ℤ) : ℝ) := by exact_mod_cast h2
  have := r.ge_of_ge uf cf (by rw [cv, ← h1, Int.cast_one]; exact mul_le_mul_of_nonneg_right h3 (by positivity))
  rwa [cv, Int.cast_one, one_mul] at this

theorem corr_near {x : Flt f64} {k : ℤ} (xf : x.isFinite) (hx : -1 < x.val) (hx2 : 1 / 4 ≤ |x.val|) (hk : k < 54) (hu : (1.0 + x).val ≤ 2 ^ 54) (hk1 : 2 ≤ k → 5 / 2 ≤ (1.0 + x).val)
    (hk2 : k < 2 → (1.0 + x).val ≤ 3) : Ap (corr x k) (Real.log ((1 + x.val) / (1.0 + x).val)) (1 / 2 ^ 103) (1 / 2 ^ 51) ∧
      |Real.log ((1 + x.val) / (1.0 + x).val)| ≤ 1 / 2 ^ 51 := by
  obtain ⟨uf, -, r⟩ := one_add_fin xf hx
  obtain ⟨ef, ev, eb⟩ := corr_exact xf hx hx2 hu hk1 hk2
  have up : 0 < (1.0 + x).val := lt_of_lt_of_le (by positivity) (one_add_low xf hx hx2)
  rw [corr, if_pos hk]
  generalize (if k ≥ 2 then 1.0 - ((1.0 + x) - x) else x - ((1.0 + x) - 1.0)) = e at *
  have hd : |e.val / (1.0 + x).val| ≤ 2 ^ (-52 : ℤ) := by
    rw [abs_div, abs_of_pos up, div_le_iff₀ up, ev]; exact eb
  obtain ⟨cf, ce⟩ := div_err64 ef uf up.ne' (-52) hd (by norm_num) (by norm_num)
  have hq : (1 + x.val) / (1.0 + x).val = 1 + e.val / (1.0 + x).val := by
    rw [ev]; field_simp; ring
  rw [hq]
  generalize e.val / (1.0 + x).val = d at *
  have hl := log_one_add_near (x := d) (hd.trans (by norm_num))
  have hd2 : d ^ 2 ≤ (2 ^ (-52 : ℤ)) ^ 2 := by rw [← sq_abs]; exact pow_le_pow_left₀ (abs_nonneg _) hd 2
  generalize d ^ 2 = D at *
  rw [abs_le] at hl hd ce
  norm_num at hl hd ce hd2
  refine ⟨⟨cf, ?_, ?_⟩, ?_⟩ <;> rw [abs_le] <;> norm_num <;> constructor <;> linarith

/-- the reduced sum, whatever the argument -/
theorem reduce1p_acc {x : Flt f64} (xf : x.isFinite) (hx : -1 < x.val) (hx2 : 0.2928 ≤ -x.val ∨ 0.4142 ≤ x.val) :
    ∃ r, ((reduce1p x).map fun (f, c, k) => body1p f c k) = some r ∧ WithinUlp 0.99 r (Real.log (1 + x.val)) := by
  have hx3 : 1 / 4 ≤ |x.val| := by
    rcases hx2 with h | h
    · have := neg_le_abs x.val; norm_num at h ⊢; linarith
    · have := le_abs_self x.val; norm_num at h ⊢; linarith
  obtain ⟨uf, hcand, r⟩ := one_add_fin xf hx
  rw [show x.val - (1 + x.val) = -1 by ring, abs_neg, abs_one] at hcand
  have ul := one_add_low xf hx hx3
  have up : 0 < (1.0 + x).val := lt_of_lt_of_le (by positivity) ul
  have us := sign_of_pos up
  have ufin := (isFinite64 _).1 uf
  have um : 2 ^ 52 ≤ (1.0 + x).mb := by
    by_contra hc
    have := val_mono (x := mk' f64 false (2 ^ 52)) (y := 1.0 + x) (by rw [mb_mk' (by decide)]; omega)
    rw [abs_of_pos up, val_const64 (x := mk' f64 false (2 ^ 52)) 1 52 (-1022) (by decide +kernel) (by norm_num), Int.cast_one, one_mul,
      abs_of_pos (by positivity)] at this
    exact absurd (ul.trans this) (not_le.2 (zpow_lt_zpow_right₀ (by norm_num) (by norm_num)))
  obtain ⟨f, k, hr, ff, hv, b1, b2, b3, b4, b5⟩ := reduce_spec us um (by omega) 0 (by norm_num)
  rw [reduce1p_eq us, hr, _root_.zero_add]
  refine ⟨_, rfl, ?_⟩
  change WithinUlp 0.99 (sum f (ofInt f64 k * ln2lo + corr x k) k) _
  have hp : 0 < 1 + f.val := by norm_num at b1; linarith
  have b1' : -0.29291 ≤ f.val := le_trans (by norm_num) b1
  have b2' : f.val ≤ 0.41423 := b2.trans (by norm_num)
  have hk : |k| ≤ 1100 := by rw [abs_le]; constructor <;> omega
  have hlog : Real.log (1 + x.val) = Real.log (1 + f.val) + (k * (Real.log 2 - ln2hi.val) + Real.log ((1 + x.val) / (1.0 + x).val)) + k * ln2hi.val := by
    have h1 : 1 + x.val = (1.0 + x).val * ((1 + x.val) / (1.0 + x).val) := by field_simp
    have h2 : (1 + x.val) / (1.0 + x).val ≠ 0 := by
      have : 0 < 1 + x.val := by linarith
      exact (div_pos this up).ne'
    conv_lhs => rw [h1, Real.log_mul up.ne' h2, hv, log_mul_zpow hp, ← hv]
    ring
  by_cases hc : k < 54
  · have hpw : (2 : ℝ) ^ k ≤ 2 ^ (53 : ℤ) := zpow_le_zpow_right₀ (by norm_num) (by omega)
    obtain ⟨cA, cB⟩ := corr_near (k := k) xf hx hx3 hc (by
        rw [hv]
        refine (mul_le_mul (b := (2 : ℝ)) (by norm_num at b2; linarith) hpw (by positivity) (by norm_num)).trans (by norm_num))
      (fun h => by
        have h2 : (2 : ℝ) ^ (2 : ℤ) ≤ 2 ^ k := zpow_le_zpow_right₀ (by norm_num) h
        rw [hv]
        refine le_trans ?_ (mul_le_mul (a := (0.7 : ℝ)) (by norm_num at b1 ⊢; linarith) h2 (by positivity) hp.le)
        norm_num)
      (fun h => by
        have h2 : (2 : ℝ) ^ k ≤ 2 ^ (1 : ℤ) := zpow_le_zpow_right₀ (by norm_num) (by omega)
        rw [hv]
        refine (mul_le_mul (b := (1.5 : ℝ)) (by norm_num at b2 ⊢; linarith) h2 (by positivity) (by norm_num)).trans (by norm_num))
    have hm := Ap.add (lo_ap hk) cA (-22) (by norm_num) (by norm_num) (g := (1 / 2 ^ 63)) (D := (1 / 2 ^ 22)) (by norm_num) (by norm_num)
    have hμ : |(k : ℝ) * (Real.log 2 - ln2hi.val) + Real.log ((1 + x.val) / (1.0 + x).val)| ≤ 0.0015 :=
      (abs_add_le _ _).trans ((add_le_add (lo_bd hk) cB).trans (by norm_num))
    have hμ1 : |k| = 1 → |(k : ℝ) * (Real.log 2 - ln2hi.val) + Real.log ((1 + x.val) / (1.0 + x).val)| ≤ 0.00002 := fun h =>
      (abs_add_le _ _).trans ((add_le_add (lo_bd1 h) cB).trans (by norm_num))
    by_cases hk0 : k = 0
    · subst hk0
      have hfar : 2 ^ (-2 : ℤ) ≤ |Real.log (1 + x.val)| := by
        rcases hx2 with h | h
        · have h2 := Real.log_le_sub_one_of_pos (x := 1 + x.val) (by linarith)
          have := neg_le_abs (Real.log (1 + x.val))
          norm_num at h ⊢; linarith
        · have h2 := Real.one_sub_inv_le_log_of_pos (x := 1 + x.val) (by linarith)
          have := le_abs_self (Real.log (1 + x.val))
          have h3 : (1 + x.val)⁻¹ ≤ 0.7072 := by
            rw [inv_le_comm₀ (by linarith) (by norm_num)]
            norm_num at h ⊢; linarith
          norm_num at h h3 ⊢; linarith
      have e : Real.log (1 + x.val) = Real.log (1 + f.val) + (((0 : ℤ) : ℝ) * (Real.log 2 - ln2hi.val) + Real.log ((1 + x.val) / (1.0 + x).val)) := by
        rw [hlog]; simp
      rw [e] at hfar ⊢
      exact sum_far ff b1' b2' b3 hm hμ hfar
    · rw [hlog]
      exact sum_ne ff b1' b2' b3 hk hk0 hm hμ hμ1
  · push Not at hc
    have hz : corr x k = 0.0 := by rw [corr, if_neg (by omega)]
    have hzv : (0.0 : Flt f64).val = 0 := isZero_val.1 (by decide +kernel)
    rw [hz]
    have cA : Ap (0.0 : Flt f64) 0 0 0 := .exact (by decide +kernel) hzv (by simp)
    have hm := Ap.add (lo_ap hk) cA (-22) (by norm_num) (by norm_num) (g := (1 / 2 ^ 63)) (D := (1 / 2 ^ 22)) (by norm_num) (by norm_num)
    refine sum_big ff b1' b2' b3 hk (by rw [abs_of_pos (by omega)]; omega) hm (by rw [_root_.add_zero]; exact (lo_bd hk).trans (by norm_num)) ?_
    rw [hlog, _root_.add_zero]
    have hub : (2 : ℝ) ^ 53 ≤ (1.0 + x).val := by
      have h2 : (2 : ℝ) ^ (54 : ℤ) ≤ 2 ^ k := zpow_le_zpow_right₀ (by norm_num) hc
      rw [hv]
      refine le_trans ?_ (mul_le_mul (a := (0.5 : ℝ)) (by norm_num at b1 ⊢; linarith) h2 (by positivity) hp.le)
      norm_num
    have hd : |(1 + x.val - (1.0 + x).val) / (1.0 + x).val| ≤ 1 / 2 ^ 53 := by
      rw [abs_div, abs_of_pos up, div_le_div_iff₀ up (by positivity), abs_sub_comm]
      exact mul_le_mul hcand hub (by positivity) (by norm_num)
    have hq : (1 + x.val) / (1.0 + x).val = 1 + (1 + x.val - (1.0 + x).val) / (1.0 + x).val := by
      field_simp; ring
    rw [hq]
    generalize (1 + x.val - (1.0 + x).val) / (1.0 + x).val = d at *
    have hl := log_one_add_near (x := d) (hd.trans (by norm_num))
    have hd2 : d ^ 2 ≤ (1 / 2 ^ 53) ^ 2 := by rw [← sq_abs]; exact pow_le_pow_left₀ (abs_nonneg _) hd 2
    generalize d ^ 2 = D at *
    rw [show ∀ a b c e : ℝ, a + b + c - (a + (b + e) + c) = -e by intros; ring, abs_neg]
    rw [abs_le] at hl hd ⊢
    norm_num at hl hd hd2 ⊢
    constructor <;> linarith
end Log

namespace Logf
/-- log1p.rs 121-128, log1pf.rs 76-83: the correction for the rounding of `1 + x` -/
def corr (x : Flt f32) (k : ℤ) : Flt f32 :=
  if k < 25 then (if k ≥ 2 then 1.0 - ((1.0 + x) - x) else x - ((1.0 + x) - 1.0)) / (1.0 + x) else 0.0

theorem reduce1p_eq {x : Flt f32} (hs : (1.0 + x).sign = false) : reduce1p x = (reduce (1.0 + x) 0).map fun (f, k) => (f, corr x k, k) := by
  have hm := mb32_lt (1.0 + x)
  have hu := u32_toNat (1.0 + x)
  rw [hs, if_neg (by decide)] at hu
  unfold reduce1p reduce corr
  dsimp only
  have a1 : uadd (1.0 + x).u32 (0x3f800000#32 - 0x3f3504f3#32) = some ((1.0 + x).u32 + (0x3f800000#32 - 0x3f3504f3#32)) := by
    unfold uadd; rw [if_pos]
    rw [show (0x3f800000#32 - 0x3f3504f3#32).toNat = 4913933 by rfl]
    omega
  rw [a1, Option.bind_some, Option.bind_some]
  generalize (1.0 + x).u32 + (0x3f800000#32 - 0x3f3504f3#32) = w
  have a2 : uadd (w &&& 0x007fffff#32) 0x3f3504f3#32 = some ((w &&& 0x007fffff#32) + 0x3f3504f3#32) := by
    unfold uadd; rw [if_pos]
    have e : (0x007fffff#32).toNat = 0x007fffff := rfl
    have : (w &&& 0x007fffff#32).toNat ≤ (0x007fffff#32).toNat := by rw [BitVec.toNat_and]; exact Nat.and_le_right
    rw [e] at this
    rw [show (0x3f3504f3#32).toNat = 0x3f3504f3 by rfl]
    omega
  have h3 : (w >>> 23).toNat < 2 ^ 9 := by
    rw [BitVec.toNat_ushiftRight, Nat.shiftRight_eq_div_pow]; have := w.isLt; omega
  rw [a2, i32_some (by omega) (by omega), _root_.zero_add]
  simp only [Option.bind_some, Option.map_some, bits32_u32]

theorem one_add_fin {x : Flt f32} (xf : x.isFinite) (hx : -1 < x.val) : (1.0 + x).isFinite ∧ |(1.0 + x).val - (1 + x.val)| ≤ |x.val - (1 + x.val)| ∧
    IsRNE (1 + x.val) (1.0 + x) := by
  have r := add_rne (x := (1.0 : Flt f32)) (by decide +kernel) xf
  rw [Powf.v_one] at r
  have hm := (isFinite32 x).1 xf
  have h1 := val_mono (x := mk' f32 false 0x7f7fffff) (y := x) (by rw [mb_mk' (by decide)]; omega)
  rw [abs_of_nonneg (val_nonneg (x := mk' f32 false 0x7f7fffff) (by decide +kernel)), val_const32 (x := mk' f32 false 0x7f7fffff) 16777215 253 104 (by decide +kernel) (by norm_num)] at h1
  have h2 : |1 + x.val| < ((overflowThreshold f32 : ℚ) : ℝ) := by
    rw [overflow_real, f32_bias, f32_sb, abs_of_pos (by linarith)]
    have e : (((127 : ℕ) : ℤ) - ((23 : ℕ) : ℤ)) = 104 := by norm_num
    rw [e]
    have h5 : (4 : ℝ) ≤ 2 ^ (104 : ℤ) := by
      have := zpow_le_zpow_right₀ (a := (2 : ℝ)) (m := 2) (n := 104) (by norm_num) (by norm_num)
      refine le_trans (by norm_num) this
    generalize (2 : ℝ) ^ (104 : ℤ) = T at *
    have := le_abs_self x.val
    push_cast at h1
    norm_num
    linarith
  obtain ⟨a, b⟩ := r.fin h2
  exact ⟨a, b x xf, r⟩

/-- below `2^24` (roughly), the correction is the rounding error of `1 + x`, exactly -/
theorem corr_exact {x : Flt f32} {k : ℤ} (xf : x.isFinite) (hx : -1 < x.val) (hx2 : 1 / 4 ≤ |x.val|) (hu : (1.0 + x).val ≤ 2 ^ 25) (hk1 : 2 ≤ k → 5 / 2 ≤ (1.0 + x).val)
    (hk2 : k < 2 → (1.0 + x).val ≤ 3) :
    (if k ≥ 2 then 1.0 - ((1.0 + x) - x) else x - ((1.0 + x) - 1.0)).isFinite ∧
    (if k ≥ 2 then 1.0 - ((1.0 + x) - x) else x - ((1.0 + x) - 1.0)).val = 1 + x.val - (1.0 + x).val ∧ |1 + x.val - (1.0 + x).val| ≤ (2 : ℝ) ^ (-23 : ℤ) * (1.0 + x).val := by
  obtain ⟨uf, hcand, r⟩ := one_add_fin xf hx
  have onef : (1.0 : Flt f32).isFinite := by decide +kernel
  -- the rounding error
  obtain ⟨nx, hnx⟩ := grid32 x (-2) (by refine le_trans (by norm_num) hx2)
  by_cases cs : x.val ≤ -(1 / 2)
  · -- exact addition
    have hab : |1 + x.val| ≤ 2 ^ (-1 : ℤ) := by rw [abs_of_pos (by linarith)]; norm_num; linarith
    obtain ⟨c, cf, cv⟩ := exists_val32' (n := nx + 2 ^ 25) (k := -25) (by
        have h3 : (nx : ℝ) + 2 ^ 25 = (1 + x.val) * 2 ^ 25 := by rw [hnx]; norm_num; ring
        have h4 : |(nx : ℝ) + 2 ^ 25| ≤ 2 ^ 24 := by
          rw [h3, abs_mul]; norm_num at hab ⊢; linarith
        exact_mod_cast h4) (by norm_num) (by norm_num)
    have cv' : c.val = 1 + x.val := by rw [cv, hnx]; push_cast; norm_num; ring
    obtain ⟨-, uv⟩ := r.exact_real cf cv'
    have hk : ¬ k ≥ 2 := by
      intro h
      have := hk1 h
      rw [uv] at this; linarith
    rw [if_neg hk]
    obtain ⟨af, av⟩ := (sub_rne uf onef).exact_real xf (by rw [uv, Powf.v_one]; ring)
    obtain ⟨bf, bv⟩ := (sub_rne xf af).exact_real (z := zero f32 false) (isFinite_zero _) (by rw [val_zero, av, uv, Powf.v_one]; ring)
    refine ⟨bf, by rw [bv, av, Powf.v_one]; ring, ?_⟩
    rw [uv]
    have : (0 : ℝ) < 1 + x.val := by linarith
    rw [sub_self, abs_zero]; exact mul_nonneg (zpow_nonneg (by norm_num) _) this.le
  · push Not at cs
    have hrel : |(1.0 + x).val - (1 + x.val)| ≤ |1 + x.val| * 2 ^ (-24 : ℤ) := by
      have h1 : |(1.0 : Flt f32).val + x.val| ≤ 3 / 2 * 2 ^ (127 : ℤ) := by
        rw [Powf.v_one, abs_of_pos (by linarith)]
        rw [show x.val - (1 + x.val) = -1 by ring, abs_neg, abs_one, abs_le] at hcand
        have h2 : 1 + x.val ≤ 2 ^ 26 := by
          norm_num at hu ⊢; linarith [hcand.1]
        refine h2.trans (le_trans (b := 1 * (2 : ℝ) ^ (26 : ℤ)) (by norm_num) (mul_le_mul (by norm_num) (zpow_le_zpow_right₀ (by norm_num) (by norm_num)) (by positivity) (by norm_num)))
      have := (add_rel32 onef xf h1).2
      rwa [Powf.v_one] at this
    have hcase : (if k ≥ 2 then 1.0 - ((1.0 + x) - x) else x - ((1.0 + x) - 1.0)).isFinite ∧
        (if k ≥ 2 then 1.0 - ((1.0 + x) - x) else x - ((1.0 + x) - 1.0)).val = 1 + x.val - (1.0 + x).val := by
      by_cases hk : k ≥ 2
      · rw [if_pos hk]
        have hu2 := hk1 hk
        have hx1 : 1 ≤ x.val := by
          rw [abs_of_pos (a := 1 + x.val) (by linarith), abs_le] at hrel
          norm_num at hrel hu2
          linarith [hrel.2]
        obtain ⟨n1, hn1⟩ := grid32 x 0 (by rw [abs_of_pos (by linarith)]; simpa using hx1)
        obtain ⟨n2, hn2⟩ := grid32 (1.0 + x) 0 (by rw [abs_of_pos (by linarith)]; norm_num at hu2 ⊢; linarith)
        rw [show (0 - 23 : ℤ) = -23 by norm_num] at hn1 hn2
        have hn : ((n2 - n1 : ℤ) : ℝ) * 2 ^ (-23 : ℤ) = (1.0 + x).val - x.val := by rw [hn1, hn2]; push_cast; ring
        have hd : |(1.0 + x).val - x.val - 1| ≤ 1 := by
          rw [show x.val - (1 + x.val) = -1 by ring, abs_neg, abs_one] at hcand
          rwa [show (1.0 + x).val - x.val - 1 = (1.0 + x).val - (1 + x.val) by ring]
        obtain ⟨c, cf, cv⟩ := exists_val32' (n := n2 - n1) (k := -23) (by
            have h4 : |((n2 - n1 : ℤ) : ℝ)| ≤ 2 ^ 24 := by
              have h5 : ((n2 - n1 : ℤ) : ℝ) = ((1.0 + x).val - x.val) * 2 ^ 23 := by rw [← hn, mul_assoc]; norm_num
              rw [h5, abs_mul, abs_of_pos (a := (2 : ℝ) ^ 23) (by positivity)]
              have : |(1.0 + x).val - x.val| ≤ 2 := by rw [abs_le] at hd ⊢; constructor <;> linarith
              exact (mul_le_mul_of_nonneg_right this (by positivity)).trans (by norm_num)
            exact_mod_cast h4) (by norm_num) (by norm_num)
        obtain ⟨af, av⟩ := (sub_rne uf xf).exact_real cf (by rw [cv, hn])
        obtain ⟨d, df, dv⟩ := exists_val32' (n := 2 ^ 23 - (n2 - n1)) (k := -23) (by
            have h4 : |((2 ^ 23 - (n2 - n1) : ℤ) : ℝ)| ≤ 2 ^ 24 := by
              have h5 : ((2 ^ 23 - (n2 - n1) : ℤ) : ℝ) = -((1.0 + x).val - x.val - 1) * 2 ^ 23 := by
                rw [show -((1.0 + x).val - x.val - 1) = 1 - ((1.0 + x).val - x.val) by ring, ← hn, sub_mul, mul_assoc]; push_cast; norm_num
              rw [h5, abs_mul, abs_neg, abs_of_pos (a := (2 : ℝ) ^ 23) (by positivity)]
              exact (mul_le_mul_of_nonneg_right hd (by positivity)).trans (by norm_num)
            exact_mod_cast h4) (by norm_num) (by norm_num)
        obtain ⟨bf, bv⟩ := (sub_rne onef af).exact_real df (by
          rw [dv, av, Powf.v_one, ← hn]; push_cast; rw [sub_mul]; norm_num)
        exact ⟨bf, by rw [bv, av, Powf.v_one]; ring⟩
      · rw [if_neg hk]
        have hu2 := hk2 (by omega)
        have hlow : 1 / 2 ≤ (1.0 + x).val := by
          have := r.ge_of_ge uf (show (0.5 : Flt f32).isFinite by decide +kernel) (by rw [half_val]; norm_num at cs ⊢; linarith)
          rw [half_val] at this; norm_num at this ⊢; linarith
        have hA : ((1.0 + x) - 1.0).isFinite ∧ ((1.0 + x) - 1.0).val = (1.0 + x).val - 1 := by
          by_cases c2 : (1.0 + x).val ≤ 2
          · obtain ⟨n2, hn2⟩ := grid32 (1.0 + x) (-1) (by rw [abs_of_pos (by linarith)]; norm_num at hlow ⊢; linarith)
            rw [show (-1 - 23 : ℤ) = -24 by norm_num] at hn2
            obtain ⟨c, cf, cv⟩ := exists_val32' (n := n2 - 2 ^ 24) (k := -24) (by
              have h4 : |((n2 - 2 ^ 24 : ℤ) : ℝ)| ≤ 2 ^ 24 := by
                have h5 : ((n2 - 2 ^ 24 : ℤ) : ℝ) = ((1.0 + x).val - 1) * 2 ^ 24 := by rw [hn2, sub_mul, mul_assoc]; push_cast; norm_num
                rw [h5, abs_mul, abs_of_pos (a := (2 : ℝ) ^ 24) (by positivity)]
                have : |(1.0 + x).val - 1| ≤ 1 := by rw [abs_le]; constructor <;> linarith
                exact (mul_le_mul_of_nonneg_right this (by positivity)).trans (by norm_num)
              exact_mod_cast h4) (by norm_num) (by norm_num)
            obtain ⟨af, av⟩ := (sub_rne uf onef).exact_real cf (by rw [cv, Powf.v_one, hn2]; push_cast; rw [sub_mul]; norm_num)
            exact ⟨af, by rw [av, Powf.v_one]⟩
          · push Not at c2
            obtain ⟨n2, hn2⟩ := grid32 (1.0 + x) 1 (by rw [abs_of_pos (by linarith)]; norm_num; linarith)
            rw [show (1 - 23 : ℤ) = -22 by norm_num] at hn2
            obtain ⟨c, cf, cv⟩ := exists_val32' (n := n2 - 2 ^ 22) (k := -22) (by
              have h4 : |((n2 - 2 ^ 22 : ℤ) : ℝ)| ≤ 2 ^ 24 := by
                have h5 : ((n2 - 2 ^ 22 : ℤ) : ℝ) = ((1.0 + x).val - 1) * 2 ^ 22 := by rw [hn2, sub_mul, mul_assoc]; push_cast; norm_num
                rw [h5, abs_mul, abs_of_pos (a := (2 : ℝ) ^ 22) (by positivity)]
                have : |(1.0 + x).val - 1| ≤ 2 := by rw [abs_le]; constructor <;> linarith
                exact (mul_le_mul_of_nonneg_right this (by positivity)).trans (by norm_num)
              exact_mod_cast h4) (by norm_num) (by norm_num)
            obtain ⟨af, av⟩ := (sub_rne uf onef).exact_real cf (by rw [cv, Powf.v_one, hn2]; push_cast; rw [sub_mul]; norm_num)
            exact ⟨af, by rw [av, Powf.v_one]⟩
        obtain ⟨af, av⟩ := hA
        obtain ⟨n2, hn2⟩ := grid32 (1.0 + x) (-2) (by rw [abs_of_pos (by linarith)]; norm_num at hlow ⊢; linarith)
        rw [show (-2 - 23 : ℤ) = -25 by norm_num] at hn2 hnx
        have h5 : ((nx - n2 + 2 ^ 25 : ℤ) : ℝ) * 2 ^ (-25 : ℤ) = 1 + x.val - (1.0 + x).val := by
          rw [hn2, hnx]; push_cast; rw [add_mul, sub_mul]; norm_num; ring
        obtain ⟨c, cf, cv⟩ := exists_val32' (n := nx - n2 + 2 ^ 25) (k := -25) (by
            have h4 : |((nx - n2 + 2 ^ 25 : ℤ) : ℝ)| ≤ 2 ^ 24 := by
              have h6 : ((nx - n2 + 2 ^ 25 : ℤ) : ℝ) = (1 + x.val - (1.0 + x).val) * 2 ^ 25 := by rw [← h5, mul_assoc]; norm_num
              rw [h6, abs_mul, abs_of_pos (a := (2 : ℝ) ^ 25) (by positivity), abs_sub_comm]
              have h7 : |1 + x.val| ≤ 5 := by
                rw [show x.val - (1 + x.val) = -1 by ring, abs_neg, abs_one, abs_le] at hcand
                rw [abs_le]; constructor <;> linarith
              have : |(1.0 + x).val - (1 + x.val)| ≤ 5 * 2 ^ (-24 : ℤ) := hrel.trans (mul_le_mul_of_nonneg_right h7 (by positivity))
              exact (mul_le_mul_of_nonneg_right this (by positivity)).trans (by norm_num)
            exact_mod_cast h4) (by norm_num) (by norm_num)
        obtain ⟨bf, bv⟩ := (sub_rne xf af).exact_real cf (by rw [cv, av, h5]; ring)
        exact ⟨bf, by rw [bv, av]; ring⟩
    refine ⟨hcase.1, hcase.2, ?_⟩
    rw [abs_sub_comm]
    rw [abs_of_pos (a := 1 + x.val) (by linarith)] at hrel
    refine hrel.trans ?_
    rw [abs_le] at hrel
    norm_num at hrel ⊢
    linarith [hrel.1]

theorem one_add_low {x : Flt f32} (xf : x.isFinite) (hx : -1 < x.val) (hx2 : 1 / 4 ≤ |x.val|) : (2 : ℝ) ^ (-25 : ℤ) ≤ (1.0 + x).val := by
  obtain ⟨uf, -, r⟩ := one_add_fin xf hx
  obtain ⟨n, hn⟩ := grid32 x (-2) (by refine le_trans (by norm_num) hx2)
  rw [show (-2 - 23 : ℤ) = -25 by norm_num] at hn
  obtain ⟨c, cf, cv⟩ := exists_val32' (n := 1) (k := -25) (by norm_num) (by norm_num) (by norm_num)
  have h1 : ((n + 2 ^ 25 : ℤ) : ℝ) * 2 ^ (-25 : ℤ) = 1 + x.val := by
    rw [hn]; push_cast; rw [add_mul]; norm_num; ring
  have h2 : (0 : ℝ) < ((n + 2 ^ 25 : ℤ) : ℝ) := by
    by_contra hc
    push Not at hc
    have := mul_nonpos_of_nonpos_of_nonneg hc (by positivity : (0 : ℝ) ≤ 2 ^ (-25 : ℤ))
    linarith
  have h3 : (1 : ℝ) ≤ ((n + 2 ^ 25 : ℤ) : ℝ) := by exact_mod_cast h2
  have := r.ge_of_ge uf cf (by rw [cv, ← h1, Int.cast_one]; exact mul_le_mul_of_nonneg_right h3 (by positivity))
  rwa [cv, Int.cast_one, one_mul] at this

theorem corr_near {x : Flt f32} {k : ℤ} (xf : x.isFinite) (hx : -1 < x.val) (hx2 : 1 / 4 ≤ |x.val|) (hk : k < 25) (hu : (1.0 + x).val ≤ 2 ^ 25) (hk1 : 2 ≤ k → 5 / 2 ≤ (1.0 + x).val)
    (hk2 : k < 2 → (1.0 + x).val ≤ 3) : Ap32 (corr x k) (Real.log ((1 + x.val) / (1.0 + x).val)) (1 / 2 ^ 45) (1 / 2 ^ 22) ∧
      |Real.log ((1 + x.val) / (1.0 + x).val)| ≤ 1 / 2 ^ 22 := by
  obtain ⟨uf, -, r⟩ := one_add_fin xf hx
  obtain ⟨ef, ev, eb⟩ := corr_exact xf hx hx2 hu hk1 hk2
  have up : 0 < (1.0 + x).val := lt_of_lt_of_le (by positivity) (one_add_low xf hx hx2)
  rw [corr, if_pos hk]
  generalize (if k ≥ 2 then 1.0 - ((1.0 + x) - x) else x - ((1.0 + x) - 1.0)) = e at *
  have hd : |e.val / (1.0 + x).val| ≤ 2 ^ (-23 : ℤ) := by
    rw [abs_div, abs_of_pos up, div_le_iff₀ up, ev]; exact eb
  obtain ⟨cf, ce⟩ := div_err32 ef uf up.ne' (-23) hd (by norm_num) (by norm_num)
  have hq : (1 + x.val) / (1.0 + x).val = 1 + e.val / (1.0 + x).val := by
    rw [ev]; field_simp; ring
  rw [hq]
  generalize e.val / (1.0 + x).val = d at *
  have hl := log_one_add_near (x := d) (hd.trans (by norm_num))
  have hd2 : d ^ 2 ≤ (2 ^ (-23 : ℤ)) ^ 2 := by rw [← sq_abs]; exact pow_le_pow_left₀ (abs_nonneg _) hd 2
  generalize d ^ 2 = D at *
  rw [abs_le] at hl hd ce
  norm_num at hl hd ce hd2
  refine ⟨⟨cf, ?_, ?_⟩, ?_⟩ <;> rw [abs_le] <;> norm_num <;> constructor <;> linarith

/-- the reduced sum, whatever the argument -/
theorem reduce1p_acc {x : Flt f32} (xf : x.isFinite) (hx : -1 < x.val) (hx2 : 0.2928 ≤ -x.val ∨ 0.4142 ≤ x.val) :
    ∃ r, ((reduce1p x).map fun (f, c, k) => body1p f c k) = some r ∧ WithinUlp 0.99 r (Real.log (1 + x.val)) := by
  have hx3 : 1 / 4 ≤ |x.val| := by
    rcases hx2 with h | h
    · have := neg_le_abs x.val; norm_num at h ⊢; linarith
    · have := le_abs_self x.val; norm_num at h ⊢; linarith
  obtain ⟨uf, hcand, r⟩ := one_add_fin xf hx
  rw [show x.val - (1 + x.val) = -1 by ring, abs_neg, abs_one] at hcand
  have ul := one_add_low xf hx hx3
  have up : 0 < (1.0 + x).val := lt_of_lt_of_le (by positivity) ul
  have us := sign_of_pos up
  have ufin := (isFinite32 _).1 uf
  have um : 2 ^ 23 ≤ (1.0 + x).mb := by
    by_contra hc
    have := val_mono (x := mk' f32 false (2 ^ 23)) (y := 1.0 + x) (by rw [mb_mk' (by decide)]; omega)
    rw [abs_of_pos up, val_const32 (x := mk' f32 false (2 ^ 23)) 1 23 (-126) (by decide +kernel) (by norm_num), Int.cast_one, one_mul,
      abs_of_pos (by positivity)] at this
    exact absurd (ul.trans this) (not_le.2 (zpow_lt_zpow_right₀ (by norm_num) (by norm_num)))
  obtain ⟨f, k, hr, ff, hv, b1, b2, b3, b4, b5, -⟩ := reduce_spec us um (by omega) 0 (by norm_num)
  rw [reduce1p_eq us, hr, _root_.zero_add]
  refine ⟨_, rfl, ?_⟩
  change WithinUlp 0.99 (sum f (ofInt f32 k * ln2lo + corr x k) k) _
  have hp : 0 < 1 + f.val := by norm_num at b1; linarith
  have b1' : -0.29291 ≤ f.val := le_trans (by norm_num) b1
  have b2' : f.val ≤ 0.41423 := b2.trans (by norm_num)
  have hk : |k| ≤ 160 := by rw [abs_le]; constructor <;> omega
  have hlog : Real.log (1 + x.val) = Real.log (1 + f.val) + (k * (Real.log 2 - ln2hi.val) + Real.log ((1 + x.val) / (1.0 + x).val)) + k * ln2hi.val := by
    have h1 : 1 + x.val = (1.0 + x).val * ((1 + x.val) / (1.0 + x).val) := by field_simp
    have h2 : (1 + x.val) / (1.0 + x).val ≠ 0 := by
      have : 0 < 1 + x.val := by linarith
      exact (div_pos this up).ne'
    conv_lhs => rw [h1, Real.log_mul up.ne' h2, hv, log_mul_zpow hp, ← hv]
    ring
  by_cases hc : k < 25
  · have hpw : (2 : ℝ) ^ k ≤ 2 ^ (24 : ℤ) := zpow_le_zpow_right₀ (by norm_num) (by omega)
    obtain ⟨cA, cB⟩ := corr_near (k := k) xf hx hx3 hc (by
        rw [hv]
        refine (mul_le_mul (b := (2 : ℝ)) (by norm_num at b2; linarith) hpw (by positivity) (by norm_num)).trans (by norm_num))
      (fun h => by
        have h2 : (2 : ℝ) ^ (2 : ℤ) ≤ 2 ^ k := zpow_le_zpow_right₀ (by norm_num) h
        rw [hv]
        refine le_trans ?_ (mul_le_mul (a := (0.7 : ℝ)) (by norm_num at b1 ⊢; linarith) h2 (by positivity) hp.le)
        norm_num)
      (fun h => by
        have h2 : (2 : ℝ) ^ k ≤ 2 ^ (1 : ℤ) := zpow_le_zpow_right₀ (by norm_num) (by omega)
        rw [hv]
        refine (mul_le_mul (b := (1.5 : ℝ)) (by norm_num at b2 ⊢; linarith) h2 (by positivity) (by norm_num)).trans (by norm_num))
    have hm := Ap32.add (lo_ap hk) cA (-9) (by norm_num) (by norm_num) (g := (3 / 2 ^ 33)) (D := (1573 / 2 ^ 20)) (by norm_num) (by norm_num)
    have hμ : |(k : ℝ) * (Real.log 2 - ln2hi.val) + Real.log ((1 + x.val) / (1.0 + x).val)| ≤ 0.0015 :=
      (abs_add_le _ _).trans ((add_le_add (lo_bd hk) cB).trans (by norm_num))
    have hμ1 : |k| = 1 → |(k : ℝ) * (Real.log 2 - ln2hi.val) + Real.log ((1 + x.val) / (1.0 + x).val)| ≤ 0.00002 := fun h =>
      (abs_add_le _ _).trans ((add_le_add (lo_bd1 h) cB).trans (by norm_num))
    by_cases hk0 : k = 0
    · subst hk0
      have hfar : 2 ^ (-2 : ℤ) ≤ |Real.log (1 + x.val)| := by
        rcases hx2 with h | h
        · have h2 := Real.log_le_sub_one_of_pos (x := 1 + x.val) (by linarith)
          have := neg_le_abs (Real.log (1 + x.val))
          norm_num at h ⊢; linarith
        · have h2 := Real.one_sub_inv_le_log_of_pos (x := 1 + x.val) (by linarith)
          have := le_abs_self (Real.log (1 + x.val))
          have h3 : (1 + x.val)⁻¹ ≤ 0.7072 := by
            rw [inv_le_comm₀ (by linarith) (by norm_num)]
            norm_num at h ⊢; linarith
          norm_num at h h3 ⊢; linarith
      have e : Real.log (1 + x.val) = Real.log (1 + f.val) + (((0 : ℤ) : ℝ) * (Real.log 2 - ln2hi.val) + Real.log ((1 + x.val) / (1.0 + x).val)) := by
        rw [hlog]; simp
      rw [e] at hfar ⊢
      exact sum_far ff b1' b2' b3 hm hμ hfar
    · rw [hlog]
      exact sum_ne ff b1' b2' b3 hk hk0 hm hμ hμ1
  · push Not at hc
    have hz : corr x k = 0.0 := by rw [corr, if_neg (by omega)]
    have hzv : (0.0 : Flt f32).val = 0 := isZero_val.1 (by decide +kernel)
    rw [hz]
    have cA : Ap32 (0.0 : Flt f32) 0 0 0 := .exact (by decide +kernel) hzv (by simp)
    have hm := Ap32.add (lo_ap hk) cA (-9) (by norm_num) (by norm_num) (g := (3 / 2 ^ 33)) (D := (1573 / 2 ^ 20)) (by norm_num) (by norm_num)
    refine sum_big ff b1' b2' b3 hk (by rw [abs_of_pos (by omega)]; omega) hm (by rw [_root_.add_zero]; exact (lo_bd hk).trans (by norm_num)) ?_
    rw [hlog, _root_.add_zero]
    have hub : (2 : ℝ) ^ 24 ≤ (1.0 + x).val := by
      have h2 : (2 : ℝ) ^ (25 : ℤ) ≤ 2 ^ k := zpow_le_zpow_right₀ (by norm_num) hc
      rw [hv]
      refine le_trans ?_ (mul_le_mul (a := (0.5 : ℝ)) (by norm_num at b1 ⊢; linarith) h2 (by positivity) hp.le)
      norm_num
    have hd : |(1 + x.val - (1.0 + x).val) / (1.0 + x).val| ≤ 1 / 2 ^ 24 := by
      rw [abs_div, abs_of_pos up, div_le_div_iff₀ up (by positivity), abs_sub_comm]
      exact mul_le_mul hcand hub (by positivity) (by norm_num)
    have hq : (1 + x.val) / (1.0 + x).val = 1 + (1 + x.val - (1.0 + x).val) / (1.0 + x).val := by
      field_simp; ring
    rw [hq]
    generalize (1 + x.val - (1.0 + x).val) / (1.0 + x).val = d at *
    have hl := log_one_add_near (x := d) (hd.trans (by norm_num))
    have hd2 : d ^ 2 ≤ (1 / 2 ^ 24) ^ 2 := by rw [← sq_abs]; exact pow_le_pow_left₀ (abs_nonneg _) hd 2
    generalize d ^ 2 = D at *
    rw [show ∀ a b c e : ℝ, a + b + c - (a + (b + e) + c) = -e by intros; ring, abs_neg]
    rw [abs_le] at hl hd ⊢
    norm_num at hl hd hd2 ⊢
    constructor <;> linarith
end Logf

theorem log1p_accurate : AccurateAboveNegOne 0.99 log1p (fun x => Real.log (1 + x)) := by
  intro x xf hx
  change ∃ r, log1p x = some r ∧ WithinUlp 0.99 r (Real.log (1 + x.val))
  change -1 < x.val at hx
  have hfin := (isFinite64 x).1 xf
  have hneg : ¬ (x.sign = true ∧ 0x3ff00000 ≤ x.mb / 2 ^ 32) := by
    rintro ⟨hs, hc⟩
    have h1 := val_mono (x := x) (y := mk' f64 false 0x3ff0000000000000) (by rw [mb_mk' (by decide)]; omega)
    rw [val_const64 (x := mk' f64 false 0x3ff0000000000000) 1 1074 (0) (by decide +kernel) (by norm_num), abs_of_pos (a := ((1 : ℤ) : ℝ) * 2 ^ (0 : ℤ)) (by norm_num)] at h1
    rw [abs_of_nonpos (val_nonpos hs)] at h1
    norm_num at h1
    linarith
  have hlo : 0x3fd2bec500000000 ≤ x.mb → 0.2928 ≤ |x.val| := by
    intro h
    have h1 := val_mono (x := x) (y := mk' f64 false 0x3fd2bec500000000) (by rw [mb_mk' (by decide)]; omega)
    rw [val_const64 (x := mk' f64 false 0x3fd2bec500000000) 1228485 1052 (-22) (by decide +kernel) (by norm_num), abs_of_pos (a := ((1228485 : ℤ) : ℝ) * 2 ^ (-22 : ℤ)) (by norm_num)] at h1
    exact le_trans (by norm_num) h1
  have hhi : 0x3fda827a00000000 ≤ x.mb → 0.4142 ≤ |x.val| := by
    intro h
    have h1 := val_mono (x := x) (y := mk' f64 false 0x3fda827a00000000) (by rw [mb_mk' (by decide)]; omega)
    rw [val_const64 (x := mk' f64 false 0x3fda827a00000000) 1737338 1052 (-22) (by decide +kernel) (by norm_num), abs_of_pos (a := ((1737338 : ℤ) : ℝ) * 2 ^ (-22 : ℤ)) (by norm_num)] at h1
    exact le_trans (by norm_num) h1
  have hmid : x.mb ≤ 0x3fda827a00000000 → |x.val| ≤ 0.41423 := by
    intro h
    have h1 := val_mono (x := mk' f64 false 0x3fda827a00000000) (y := x) (by rw [mb_mk' (by decide)]; omega)
    rw [val_const64 (x := mk' f64 false 0x3fda827a00000000) 1737338 1052 (-22) (by decide +kernel) (by norm_num), abs_of_pos (a := ((1737338 : ℤ) : ℝ) * 2 ^ (-22 : ℤ)) (by norm_num)] at h1
    exact h1.trans (by norm_num)
  have hmid2 : x.mb ≤ 0x3fd2bec500000000 → |x.val| ≤ 0.29291 := by
    intro h
    have h1 := val_mono (x := mk' f64 false 0x3fd2bec500000000) (y := x) (by rw [mb_mk' (by decide)]; omega)
    rw [val_const64 (x := mk' f64 false 0x3fd2bec500000000) 1228485 1052 (-22) (by decide +kernel) (by norm_num), abs_of_pos (a := ((1228485 : ℤ) : ℝ) * 2 ^ (-22 : ℤ)) (by norm_num)] at h1
    exact h1.trans (by norm_num)
  have ht1 : x.mb ≤ 0x3ca0000000000000 → |x.val| ≤ 1 / 2 ^ 53 := by
    intro h
    have h1 := val_mono (x := mk' f64 false 0x3ca0000000000000) (y := x) (by rw [mb_mk' (by decide)]; omega)
    rw [val_const64 (x := mk' f64 false 0x3ca0000000000000) 1 1021 (-53) (by decide +kernel) (by norm_num), abs_of_pos (a := ((1 : ℤ) : ℝ) * 2 ^ (-53 : ℤ)) (by norm_num)] at h1
    exact h1.trans (by norm_num)
  have ht2 : 0x3ca0000000000000 ≤ x.mb → 1 / 2 ^ 53 ≤ |x.val| := by
    intro h
    have h1 := val_mono (x := x) (y := mk' f64 false 0x3ca0000000000000) (by rw [mb_mk' (by decide)]; omega)
    rw [val_const64 (x := mk' f64 false 0x3ca0000000000000) 1 1021 (-53) (by decide +kernel) (by norm_num), abs_of_pos (a := ((1 : ℤ) : ℝ) * 2 ^ (-53 : ℤ)) (by norm_num)] at h1
    exact le_trans (by norm_num) h1
  rw [Log.log1p_eq]
  by_cases hA : x.mb / 2 ^ 32 < 0x3fda827a ∨ x.sign = true
  · rw [if_pos hA, if_neg hneg]
    have hu := hi_toNat x
    have hB : (getHighWord x ≤ 0xbfd2bec4#32) ↔ (x.sign = true → x.mb < 0x3fd2bec500000000) := by
      rw [BitVec.le_def, hu, show (0xbfd2bec4#32).toNat = 0xbfd2bec4 by rfl]
      rcases Bool.eq_false_or_eq_true x.sign with hs | hs
      · rw [hs, if_pos rfl]; constructor
        · intro h _; omega
        · intro h; have := h rfl; omega
      · rw [hs, if_neg (by decide)]; constructor
        · intro h h2; cases h2
        · intro _; omega
    by_cases hT : x.mb / 2 ^ 32 < 0x3ca00000
    · rw [if_pos hT]
      refine ⟨_, rfl, ?_⟩
      have hx1 := ht1 (by omega)
      have hl := log_one_add_near (hx1.trans (by norm_num))
      have hsq : x.val ^ 2 ≤ 1 / 2 ^ 53 * |x.val| := by
        rw [← sq_abs, pow_two]; exact mul_le_mul_of_nonneg_right hx1 (abs_nonneg _)
      have htl := abs_sub_abs_le_abs_sub x.val (Real.log (1 + x.val))
      rw [abs_sub_comm] at hl
      have h0 := abs_nonneg x.val
      refine WithinUlp.of_rel (ε := 0.52 / 2 ^ 53) xf ?_ (by norm_num) (by rw [f64_sb]; norm_num)
      generalize |x.val - Real.log (1 + x.val)| = D at *
      generalize x.val ^ 2 = Q at *
      norm_num at hl hsq ⊢
      linarith
    · rw [if_neg hT]
      by_cases hb : getHighWord x ≤ 0xbfd2bec4#32
      · rw [if_pos hb]
        refine ⟨_, rfl, ?_⟩
        have hb2 := hB.1 hb
        have h1 : -0.29291 ≤ x.val := by
          rcases Bool.eq_false_or_eq_true x.sign with hs | hs
          · have := hmid2 (by have := hb2 hs; omega)
            rw [abs_le] at this; exact this.1
          · exact le_trans (by norm_num) (val_nonneg hs)
        have h2 : x.val ≤ 0.41423 := by
          rcases Bool.eq_false_or_eq_true x.sign with hs | hs
          · exact (val_nonpos hs).trans (by norm_num)
          · have := hmid (by rcases hA with h | h; omega; rw [hs] at h; cases h)
            exact (le_abs_self _).trans this
        exact Log.sum_zero (m := ofInt f64 0 * Log.ln2lo + 0.0) xf h1 h2 (ht2 (by omega)) ⟨by decide +kernel, isZero_val.1 (by decide +kernel)⟩
      · rw [if_neg hb]
        rw [hB] at hb
        push Not at hb
        refine Log.reduce1p_acc xf hx (Or.inl ?_)
        rw [← abs_of_nonpos (val_nonpos hb.1)]
        exact hlo hb.2
  · rw [if_neg hA, if_neg (by omega)]
    push Not at hA
    refine Log.reduce1p_acc xf hx (Or.inr ?_)
    rw [← abs_of_nonneg (val_nonneg (x := x) (by simpa using hA.2))]
    exact hhi (by omega)

theorem log1pf_accurate : AccurateAboveNegOne 0.99 log1pf (fun x => Real.log (1 + x)) := by
  intro x xf hx
  change ∃ r, log1pf x = some r ∧ WithinUlp 0.99 r (Real.log (1 + x.val))
  change -1 < x.val at hx
  have hfin := (isFinite32 x).1 xf
  have hneg : ¬ (x.sign = true ∧ 0x3f800000 ≤ x.mb) := by
    rintro ⟨hs, hc⟩
    have h1 := val_mono (x := x) (y := mk' f32 false 0x3f800000) (by rw [mb_mk' (by decide)]; omega)
    rw [val_const32 (x := mk' f32 false 0x3f800000) 1 149 (0) (by decide +kernel) (by norm_num), abs_of_pos (a := ((1 : ℤ) : ℝ) * 2 ^ (0 : ℤ)) (by norm_num)] at h1
    rw [abs_of_nonpos (val_nonpos hs)] at h1
    norm_num at h1
    linarith
  have hlo : 0x3e95f61a ≤ x.mb → 0.2928 ≤ |x.val| := by
    intro h
    have h1 := val_mono (x := x) (y := mk' f32 false 0x3e95f61a) (by rw [mb_mk' (by decide)]; omega)
    rw [val_const32 (x := mk' f32 false 0x3e95f61a) 9827866 124 (-25) (by decide +kernel) (by norm_num), abs_of_pos (a := ((9827866 : ℤ) : ℝ) * 2 ^ (-25 : ℤ)) (by norm_num)] at h1
    exact le_trans (by norm_num) h1
  have hhi : 0x3ed413d0 ≤ x.mb → 0.4142 ≤ |x.val| := by
    intro h
    have h1 := val_mono (x := x) (y := mk' f32 false 0x3ed413d0) (by rw [mb_mk' (by decide)]; omega)
    rw [val_const32 (x := mk' f32 false 0x3ed413d0) 13898704 124 (-25) (by decide +kernel) (by norm_num), abs_of_pos (a := ((13898704 : ℤ) : ℝ) * 2 ^ (-25 : ℤ)) (by norm_num)] at h1
    exact le_trans (by norm_num) h1
  have hmid : x.mb ≤ 0x3ed413d0 → |x.val| ≤ 0.41423 := by
    intro h
    have h1 := val_mono (x := mk' f32 false 0x3ed413d0) (y := x) (by rw [mb_mk' (by decide)]; omega)
    rw [val_const32 (x := mk' f32 false 0x3ed413d0) 13898704 124 (-25) (by decide +kernel) (by norm_num), abs_of_pos (a := ((13898704 : ℤ) : ℝ) * 2 ^ (-25 : ℤ)) (by norm_num)] at h1
    exact h1.trans (by norm_num)
  have hmid2 : x.mb ≤ 0x3e95f61a → |x.val| ≤ 0.29291 := by
    intro h
    have h1 := val_mono (x := mk' f32 false 0x3e95f61a) (y := x) (by rw [mb_mk' (by decide)]; omega)
    rw [val_const32 (x := mk' f32 false 0x3e95f61a) 9827866 124 (-25) (by decide +kernel) (by norm_num), abs_of_pos (a := ((9827866 : ℤ) : ℝ) * 2 ^ (-25 : ℤ)) (by norm_num)] at h1
    exact h1.trans (by norm_num)
  have ht1 : x.mb ≤ 0x33800000 → |x.val| ≤ 1 / 2 ^ 24 := by
    intro h
    have h1 := val_mono (x := mk' f32 false 0x33800000) (y := x) (by rw [mb_mk' (by decide)]; omega)
    rw [val_const32 (x := mk' f32 false 0x33800000) 1 125 (-24) (by decide +kernel) (by norm_num), abs_of_pos (a := ((1 : ℤ) : ℝ) * 2 ^ (-24 : ℤ)) (by norm_num)] at h1
    exact h1.trans (by norm_num)
  have ht2 : 0x33800000 ≤ x.mb → 1 / 2 ^ 24 ≤ |x.val| := by
    intro h
    have h1 := val_mono (x := x) (y := mk' f32 false 0x33800000) (by rw [mb_mk' (by decide)]; omega)
    rw [val_const32 (x := mk' f32 false 0x33800000) 1 125 (-24) (by decide +kernel) (by norm_num), abs_of_pos (a := ((1 : ℤ) : ℝ) * 2 ^ (-24 : ℤ)) (by norm_num)] at h1
    exact le_trans (by norm_num) h1
  rw [Logf.log1pf_eq]
  by_cases hA : x.mb < 0x3ed413d0 ∨ x.sign = true
  · rw [if_pos hA, if_neg hneg]
    have hu := u32_toNat x
    have hB : (x.u32 ≤ 0xbe95f619#32) ↔ (x.sign = true → x.mb < 0x3e95f61a) := by
      rw [BitVec.le_def, hu, show (0xbe95f619#32).toNat = 0xbe95f619 by rfl]
      rcases Bool.eq_false_or_eq_true x.sign with hs | hs
      · rw [hs, if_pos rfl]; constructor
        · intro h _; omega
        · intro h; have := h rfl; omega
      · rw [hs, if_neg (by decide)]; constructor
        · intro h h2; cases h2
        · intro _; omega
    by_cases hT : x.mb < 0x33800000
    · rw [if_pos hT]
      refine ⟨_, rfl, ?_⟩
      have hx1 := ht1 (by omega)
      have hl := log_one_add_near (hx1.trans (by norm_num))
      have hsq : x.val ^ 2 ≤ 1 / 2 ^ 24 * |x.val| := by
        rw [← sq_abs, pow_two]; exact mul_le_mul_of_nonneg_right hx1 (abs_nonneg _)
      have htl := abs_sub_abs_le_abs_sub x.val (Real.log (1 + x.val))
      rw [abs_sub_comm] at hl
      have h0 := abs_nonneg x.val
      refine WithinUlp.of_rel (ε := 0.52 / 2 ^ 24) xf ?_ (by norm_num) (by rw [f32_sb]; norm_num)
      generalize |x.val - Real.log (1 + x.val)| = D at *
      generalize x.val ^ 2 = Q at *
      norm_num at hl hsq ⊢
      linarith
    · rw [if_neg hT]
      by_cases hb : x.u32 ≤ 0xbe95f619#32
      · rw [if_pos hb]
        refine ⟨_, rfl, ?_⟩
        have hb2 := hB.1 hb
        have h1 : -0.29291 ≤ x.val := by
          rcases Bool.eq_false_or_eq_true x.sign with hs | hs
          · have := hmid2 (by have := hb2 hs; omega)
            rw [abs_le] at this; exact this.1
          · exact le_trans (by norm_num) (val_nonneg hs)
        have h2 : x.val ≤ 0.41423 := by
          rcases Bool.eq_false_or_eq_true x.sign with hs | hs
          · exact (val_nonpos hs).trans (by norm_num)
          · have := hmid (by rcases hA with h | h; omega; rw [hs] at h; cases h)
            exact (le_abs_self _).trans this
        exact Logf.sum_zero (m := ofInt f32 0 * Logf.ln2lo + 0.0) xf h1 h2 (ht2 (by omega)) ⟨by decide +kernel, isZero_val.1 (by decide +kernel)⟩
      · rw [if_neg hb]
        rw [hB] at hb
        push Not at hb
        refine Logf.reduce1p_acc xf hx (Or.inl ?_)
        rw [← abs_of_nonpos (val_nonpos hb.1)]
        exact hlo hb.2
  · rw [if_neg hA, if_neg (by omega)]
    push Not at hA
    refine Logf.reduce1p_acc xf hx (Or.inr ?_)
    rw [← abs_of_nonneg (val_nonneg (x := x) (by simpa using hA.2))]
    exact hhi (by omega)

/-- the hypotheses hold of ordinary arguments: `log1p 1` is within 0.99 units in the last place of the logarithm of 2 -/
example : ∃ r, log1p (1.0 : Flt f64) = some r ∧ WithinUlp 0.99 r (Real.log 2) := by
  have := log1p_accurate (1.0 : Flt f64) (by decide +kernel) (by change -1 < (1.0 : Flt f64).val; rw [Cbrt.one_v]; norm_num)
  have e : (((1.0 : Flt f64).toRat : ℚ) : ℝ) = 1 := Cbrt.one_v
  rw [e] at this
  simpa only [one_add_one_eq_two] using this
/-- and of the single-precision number next above minus one -/
example : ∃ r, log1pf (mk' f32 true 0x3f7fffff) = some r ∧ WithinUlp 0.99 r (Real.log (1 + ((mk' f32 true 0x3f7fffff).toRat : ℝ))) :=
  log1pf_accurate (mk' f32 true 0x3f7fffff) (by decide +kernel) (by
    change -1 < (mk' f32 true 0x3f7fffff).val
    rw [val_const32 (x := mk' f32 true 0x3f7fffff) (-16777215) 125 (-24) (by decide +kernel) (by norm_num)]; norm_num)
end Verif
