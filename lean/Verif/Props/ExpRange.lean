import Verif.Props.ExpAcc
import Verif.Props.ExpfAcc
import Verif.Props.Exp2Acc
import Verif.Props.Range

/-! # The exponentials are never negative, and lie on the right side of one -/

namespace Verif
open Flt
variable {F : Fmt}

/-- For every finite argument whose exponential does not round to infinity the result is a finite nonnegative float, at least one if
the argument is nonnegative and at most one if it is not positive. -/
def ExpSides (f : Flt F → Option (Flt F)) : Prop :=
  ∀ x : Flt F, x.isFinite → Real.exp ((x.toRat : ℚ) : ℝ) < ((overflowThreshold F : ℚ) : ℝ) → ∃ r, f x = some r ∧ r.isFinite ∧ 0 ≤ r.toRat ∧
    (0 ≤ x.toRat → 1 ≤ r.toRat) ∧ (x.toRat ≤ 0 → r.toRat ≤ 1)

namespace ExpRange

theorem ulp_rel {t : ℝ} (h : 1 ≤ t) : ulpAt F t ≤ t * 2 ^ (-(F.sb : ℤ)) := by
  unfold ulpAt
  rw [if_neg (by linarith), abs_of_pos (by linarith)]
  have h0 : 0 ≤ Int.log 2 t := by
    rw [← Int.zpow_le_iff_le_log (by norm_num) (by linarith)]; simpa using h
  have hb : (1 : ℤ) - F.bias ≤ 0 := by
    have : 1 ≤ F.bias := by
      unfold Fmt.bias
      have := Nat.pow_le_pow_right (n := 2) (by norm_num) (show 4 ≤ F.ew - 1 by have := F.hew; omega)
      omega
    omega
  rw [max_eq_left (by omega)]
  have h1 : ((2 : ℕ) : ℝ) ^ Int.log 2 t ≤ t := Int.zpow_log_le_self (by norm_num) (by linarith)
  push_cast at h1
  rw [sub_eq_add_neg, zpow_add₀ (by norm_num)]
  exact mul_le_mul_of_nonneg_right h1 (zp _).le

/-- away from zero the accuracy decides -/
theorem far {c u : ℝ} {r : Flt F} {X : ℝ} (hc : 0 ≤ c) (hu : 2 ^ (-(F.sb : ℤ)) ≤ u) (hcu : 4 * (c * u) ≤ |X|) (hX : c * u ≤ 1 / 8)
    (h : WithinUlp c r (Real.exp X)) : (0 ≤ X → 1 ≤ r.val) ∧ (X ≤ 0 → r.val ≤ 1) := by
  obtain ⟨-, h⟩ := h
  change |r.val - _| ≤ _ at h
  have h1 := Real.add_one_le_exp X
  have hp := Real.exp_pos X
  constructor
  · intro h0
    rw [abs_of_nonneg h0] at hcu
    have h2 := (abs_le.1 (h.trans (mul_le_mul_of_nonneg_left (ulp_rel (by linarith)) hc))).1
    have h3 : Real.exp X * 2 ^ (-(F.sb : ℤ)) ≤ Real.exp X * u := mul_le_mul_of_nonneg_left hu hp.le
    have h4 : c * (Real.exp X * 2 ^ (-(F.sb : ℤ))) ≤ c * (Real.exp X * u) := mul_le_mul_of_nonneg_left h3 hc
    have h5 : (1 + 4 * (c * u)) * (1 - c * u) ≤ Real.exp X * (1 - c * u) := mul_le_mul_of_nonneg_right (by linarith) (by linarith)
    have h6 : 0 ≤ c * u := mul_nonneg hc ((zp _).le.trans hu)
    nlinarith
  · intro h0
    rcases eq_or_lt_of_le h0 with h0 | h0
    · rw [h0, Real.exp_zero] at h
      have h6 : 0 ≤ c * u := mul_nonneg hc ((zp _).le.trans hu)
      rw [h0, abs_zero] at hcu
      have h7 : c * u = 0 := by linarith
      have h8 : c = 0 := by
        rcases mul_eq_zero.1 h7 with h | h
        · exact h
        · rw [h] at hu; exact absurd hu (not_le.2 (zp _))
      rw [h8, zero_mul] at h
      have := (abs_le.1 h).2
      linarith
    rw [abs_of_neg h0] at hcu
    have h9 : Real.exp X ≤ 1 - 2 * (c * u) := by
      have h2 := Real.add_one_le_exp (-X)
      have h3 : Real.exp X * Real.exp (-X) = 1 := by rw [← Real.exp_add]; simp
      have h6 : 0 ≤ c * u := mul_nonneg hc ((zp _).le.trans hu)
      have h7 : Real.exp X * (1 + 4 * (c * u)) ≤ 1 := by
        rw [← h3]; exact mul_le_mul_of_nonneg_left (by linarith) hp.le
      nlinarith
    have h6 : 0 ≤ c * u := mul_nonneg hc ((zp _).le.trans hu)
    have h2 := (Range.ulp_lt_one (F := F) (t := Real.exp X) (by
      rw [abs_of_pos hp]; exact Real.exp_lt_one_iff.2 h0))
    have h3 : ulpAt F (Real.exp X) ≤ u := h2.trans (le_trans (zpow_le_zpow_right₀ (by norm_num) (by omega)) hu)
    have h4 := (abs_le.1 (h.trans (mul_le_mul_of_nonneg_left h3 hc))).2
    linarith

/-- next to zero the result is the rounded `1 + x` -/
theorem near {x r : Flt F} {one : Flt F} (of : one.isFinite) (ov : one.val = 1) (rf : r.isFinite) (h : IsRNE (1 + x.val) r) :
    (0 ≤ x.val → 1 ≤ r.val) ∧ (x.val ≤ 0 → r.val ≤ 1) := by
  constructor
  · intro h0
    have := h.ge_of_ge rf (s := one) of (by rw [ov]; linarith)
    rwa [ov] at this
  · intro h0
    have := h.le_of_le rf (s := one) of (by rw [ov]; linarith)
    rwa [ov] at this

theorem fin {x r : Flt F} (h0 : 0 ≤ r.val) (h : (0 ≤ x.val → 1 ≤ r.val) ∧ (x.val ≤ 0 → r.val ≤ 1)) :
    0 ≤ r.toRat ∧ (0 ≤ x.toRat → 1 ≤ r.toRat) ∧ (x.toRat ≤ 0 → r.toRat ≤ 1) := by
  change 0 ≤ ((r.toRat : ℚ) : ℝ) at h0
  change (0 ≤ ((x.toRat : ℚ) : ℝ) → 1 ≤ ((r.toRat : ℚ) : ℝ)) ∧ (((x.toRat : ℚ) : ℝ) ≤ 0 → ((r.toRat : ℚ) : ℝ) ≤ 1) at h
  exact ⟨by exact_mod_cast h0, by exact_mod_cast h.1, by exact_mod_cast h.2⟩

end ExpRange

/-- C76 for `exp` -/
theorem exp_sides : ExpSides exp := by
  intro x xf hx
  obtain ⟨r, h1, h2, h3⟩ := exp_accurate_pos x xf hx
  refine ⟨r, h1, h2.1, ExpRange.fin h3 ?_⟩
  by_cases c : 0x3e300000 < x.mb / 2 ^ 32
  · have hm := val_ge_of_mb (F := f64) (x := x) (E := 995) (by norm_num) (by rw [f64_sb]; omega)
    rw [f64_bias] at hm
    refine ExpRange.far (u := 1 / 2 ^ 52) (by norm_num) (by rw [f64_sb]; norm_num) (le_trans (by norm_num) hm) (by norm_num) h2
  · rw [Exp.eq, if_neg (fun h => by omega), if_neg (fun h => by omega), if_neg (fun h => by omega), Exp.reduce_eq, if_neg (by omega), if_neg c] at h1
    have h := add_rne (x := (1.0 : Flt f64)) (by decide +kernel) xf
    rw [TanInv.one_val, Option.some.inj h1] at h
    exact ExpRange.near (one := (1.0 : Flt f64)) (by decide +kernel) TanInv.one_val h2.1 h

/-- C76 for `expf` -/
theorem expf_sides : ExpSides expf := by
  intro x xf hx
  obtain ⟨r, h1, h2, h3⟩ := expf_accurate_pos x xf hx
  refine ⟨r, h1, h2.1, ExpRange.fin h3 ?_⟩
  have ov : (1.0 : Flt f32).val = 1 := by rw [Trig.one32, val_one]
  by_cases c : 0x39000000 < x.mb
  · have hm := val_ge_of_mb (F := f32) (x := x) (E := 114) (by norm_num) (by rw [f32_sb]; omega)
    rw [f32_bias] at hm
    refine ExpRange.far (u := 1 / 2 ^ 23) (by norm_num) (by rw [f32_sb]; norm_num) (le_trans (by norm_num) hm) (by norm_num) h2
  · rw [Expf.eq, if_neg (fun h => by omega), if_neg (fun h => by omega), if_neg (fun h => by omega), Expf.reduce_eq, if_neg (by omega), if_neg c] at h1
    have h := add_rne (x := (1.0 : Flt f32)) (by decide +kernel) xf
    rw [ov, Option.some.inj h1] at h
    exact ExpRange.near (one := (1.0 : Flt f32)) (by decide +kernel) ov h2.1 h

/-- C76 for `exp2`: never negative -/
theorem exp2_nonneg (x : Flt f64) (xf : x.isFinite) (hx : (2 : ℝ) ^ ((x.toRat : ℚ) : ℝ) < ((overflowThreshold f64 : ℚ) : ℝ)) :
    ∃ r, exp2 x = some r ∧ r.isFinite ∧ 0 ≤ r.toRat := by
  obtain ⟨r, h1, h2, h3⟩ := exp2_accurate_pos x xf hx
  refine ⟨r, h1, h2.1, ?_⟩
  have h4 : 0 ≤ ((r.toRat : ℚ) : ℝ) := val_nonneg h3
  exact_mod_cast h4

/-- arguments to which these apply: a tiny negative one and one that underflows; see also the examples for C58 -/
example : (bits64 0xbe00000000000001 : Flt f64).isFinite ∧ (bits64 0xbe00000000000001 : Flt f64).toRat < 0 ∧
    (bits64 0xc087480000000000 : Flt f64).isFinite ∧ (bits64 0xc087480000000000 : Flt f64).toRat = -745 := by decide +kernel

end Verif
