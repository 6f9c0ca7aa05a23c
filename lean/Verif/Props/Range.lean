import Verif.Props.TrigAccD
import Verif.Props.Sincosf
import Verif.Props.Log1pAcc
import Verif.Props.Log2Acc
import Mathlib.Analysis.Real.Pi.Irrational

/-! # Ranges and signs: sine and cosine stay in `[-1, 1]`, logarithms change sign exactly at one -/

namespace Verif
open Flt
variable {F : Fmt}

namespace Range

/-- the unit in the last place against the number: `c` units are less than the number when it is above `c` smallest subnormals -/
theorem mul_ulpAt_lt {t c : ℝ} (h0 : 0 ≤ c) (hc : c ≤ 2) (h : c * 2 ^ (1 - (F.bias : ℤ) - F.sb) < |t|) : c * ulpAt F t < |t| := by
  have ht : t ≠ 0 := by
    rintro rfl
    rw [abs_zero] at h
    exact absurd h (not_lt.2 (mul_nonneg h0 (zp _).le))
  have hp : 0 < |t| := abs_pos.2 ht
  unfold ulpAt
  rw [if_neg ht]
  rcases le_total (Int.log 2 |t|) (1 - (F.bias : ℤ)) with hm | hm
  · rwa [max_eq_right hm]
  · rw [max_eq_left hm]
    have h1 : ((2 : ℕ) : ℝ) ^ Int.log 2 |t| ≤ |t| := Int.zpow_log_le_self (by norm_num) hp
    push_cast at h1
    have h2 : (2 : ℝ) ^ (Int.log 2 |t| - (F.sb : ℤ)) ≤ 2 ^ (Int.log 2 |t|) * (1 / 4) := by
      rw [show (1 / 4 : ℝ) = 2 ^ (-2 : ℤ) by norm_num, ← zpow_add₀ (by norm_num)]
      exact zpow_le_zpow_right₀ (by norm_num) (by have := F.hsb; omega)
    have h3 := zp (Int.log 2 |t| - (F.sb : ℤ))
    nlinarith

/-- a result with an error below the exact value has its sign -/
theorem sign_of {c : ℝ} {r : Flt F} {t : ℝ} (h : WithinUlp c r t) (hl : t ≠ 0 → c * ulpAt F t < |t|) :
    (0 < r.toRat ↔ 0 < t) ∧ (r.toRat = 0 ↔ t = 0) ∧ (r.toRat < 0 ↔ t < 0) := by
  obtain ⟨-, h⟩ := h
  have key : (0 < ((r.toRat : ℚ) : ℝ) ↔ 0 < t) ∧ (((r.toRat : ℚ) : ℝ) = 0 ↔ t = 0) ∧ (((r.toRat : ℚ) : ℝ) < 0 ↔ t < 0) := by
    rcases eq_or_ne t 0 with h0 | h0
    · rw [h0, ulpAt_zero, mul_zero, sub_zero] at h
      rw [abs_eq_zero.1 (le_antisymm h (abs_nonneg _)), h0]
      simp
    · have := h.trans_lt (hl h0)
      rw [abs_lt] at this
      rcases lt_or_gt_of_ne h0 with hn | hn
      · rw [abs_of_neg hn] at this
        have hr : ((r.toRat : ℚ) : ℝ) < 0 := by linarith
        exact ⟨⟨fun h => absurd h (not_lt.2 hr.le), fun h => absurd h (not_lt.2 hn.le)⟩, ⟨fun h => absurd h hr.ne, fun h => absurd h h0⟩, ⟨fun _ => hn, fun _ => hr⟩⟩
      · rw [abs_of_pos hn] at this
        have hr : 0 < ((r.toRat : ℚ) : ℝ) := by linarith
        exact ⟨⟨fun _ => hn, fun _ => hr⟩, ⟨fun h => absurd h hr.ne', fun h => absurd h h0⟩, ⟨fun h => absurd h (not_lt.2 hr.le), fun h => absurd h (not_lt.2 hn.le)⟩⟩
  exact_mod_cast key

/-- a datum above one in magnitude is at least the successor of one -/
theorem above64 {r : Flt f64} (h : 1 < |r.val|) : 1 + 1 / 2 ^ 52 ≤ |r.val| := by
  have e0 : (bits64 0x3ff0000000000000 : Flt f64).val = 1 := by
    rw [val_const64 (x := bits64 0x3ff0000000000000) 1 1074 0 (by decide +kernel) (by norm_num)]; norm_num
  have e1 : (bits64 0x3ff0000000000001 : Flt f64).val = 1 + 1 / 2 ^ 52 := by
    rw [val_const64 (x := bits64 0x3ff0000000000001) (2 ^ 52 + 1) 1022 (-52) (by decide +kernel) (by norm_num)]; norm_num
  have m0 : (bits64 0x3ff0000000000000 : Flt f64).mb = 0x3ff0000000000000 := by decide +kernel
  have m1 : (bits64 0x3ff0000000000001 : Flt f64).mb = 0x3ff0000000000001 := by decide +kernel
  have : 0x3ff0000000000000 < r.mb := by
    by_contra hc
    have := val_mono (x := bits64 0x3ff0000000000000) (y := r) (by rw [m0]; omega)
    rw [e0, abs_one] at this
    linarith
  have := val_mono (x := r) (y := bits64 0x3ff0000000000001) (by rw [m1]; omega)
  rwa [e1, abs_of_pos (by positivity)] at this

/-- a datum below one in magnitude is at most the predecessor of one -/
theorem below64 {r : Flt f64} (h : |r.val| < 1) : |r.val| ≤ 1 - 1 / 2 ^ 53 := by
  have e0 : (bits64 0x3ff0000000000000 : Flt f64).val = 1 := by
    rw [val_const64 (x := bits64 0x3ff0000000000000) 1 1074 0 (by decide +kernel) (by norm_num)]; norm_num
  have e1 : (bits64 0x3fefffffffffffff : Flt f64).val = 1 - 1 / 2 ^ 53 := by
    rw [val_const64 (x := bits64 0x3fefffffffffffff) (2 ^ 53 - 1) 1021 (-53) (by decide +kernel) (by norm_num)]; norm_num
  have m0 : (bits64 0x3ff0000000000000 : Flt f64).mb = 0x3ff0000000000000 := by decide +kernel
  have m1 : (bits64 0x3fefffffffffffff : Flt f64).mb = 0x3fefffffffffffff := by decide +kernel
  have : r.mb < 0x3ff0000000000000 := by
    by_contra hc
    have := val_mono (x := r) (y := bits64 0x3ff0000000000000) (by rw [m0]; omega)
    rw [e0, abs_one] at this
    linarith
  have := val_mono (x := bits64 0x3fefffffffffffff) (y := r) (by rw [m1]; omega)
  rwa [e1, abs_of_pos (a := (1 - 1 / 2 ^ 53 : ℝ)) (by norm_num)] at this

theorem above32 {r : Flt f32} (h : 1 < |r.val|) : 1 + 1 / 2 ^ 23 ≤ |r.val| := by
  have e0 : (bits32 0x3f800000 : Flt f32).val = 1 := by
    rw [val_const32 (x := bits32 0x3f800000) 1 149 0 (by decide +kernel) (by norm_num)]; norm_num
  have e1 : (bits32 0x3f800001 : Flt f32).val = 1 + 1 / 2 ^ 23 := by
    rw [val_const32 (x := bits32 0x3f800001) (2 ^ 23 + 1) 126 (-23) (by decide +kernel) (by norm_num)]; norm_num
  have m0 : (bits32 0x3f800000 : Flt f32).mb = 0x3f800000 := by decide +kernel
  have m1 : (bits32 0x3f800001 : Flt f32).mb = 0x3f800001 := by decide +kernel
  have : 0x3f800000 < r.mb := by
    by_contra hc
    have := val_mono (x := bits32 0x3f800000) (y := r) (by rw [m0]; omega)
    rw [e0, abs_one] at this
    linarith
  have := val_mono (x := r) (y := bits32 0x3f800001) (by rw [m1]; omega)
  rwa [e1, abs_of_pos (by positivity)] at this

theorem below32 {r : Flt f32} (h : |r.val| < 1) : |r.val| ≤ 1 - 1 / 2 ^ 24 := by
  have e0 : (bits32 0x3f800000 : Flt f32).val = 1 := by
    rw [val_const32 (x := bits32 0x3f800000) 1 149 0 (by decide +kernel) (by norm_num)]; norm_num
  have e1 : (bits32 0x3f7fffff : Flt f32).val = 1 - 1 / 2 ^ 24 := by
    rw [val_const32 (x := bits32 0x3f7fffff) (2 ^ 24 - 1) 125 (-24) (by decide +kernel) (by norm_num)]; norm_num
  have m0 : (bits32 0x3f800000 : Flt f32).mb = 0x3f800000 := by decide +kernel
  have m1 : (bits32 0x3f7fffff : Flt f32).mb = 0x3f7fffff := by decide +kernel
  have : r.mb < 0x3f800000 := by
    by_contra hc
    have := val_mono (x := r) (y := bits32 0x3f800000) (by rw [m0]; omega)
    rw [e0, abs_one] at this
    linarith
  have := val_mono (x := bits32 0x3f7fffff) (y := r) (by rw [m1]; omega)
  rwa [e1, abs_of_pos (a := (1 - 1 / 2 ^ 24 : ℝ)) (by norm_num)] at this

/-- below one, a unit in the last place is at most half the spacing above one -/
theorem ulp_lt_one {t : ℝ} (h : |t| < 1) : ulpAt F t ≤ 2 ^ (-1 - (F.sb : ℤ)) := by
  unfold ulpAt
  split
  · exact (zp _).le
  · rename_i h0
    refine zpow_le_zpow_right₀ (by norm_num) ?_
    have h1 : Int.log 2 |t| < 0 := by
      rw [← Int.lt_zpow_iff_log_lt (by norm_num) (abs_pos.2 h0)]; simpa using h
    have h2 : (1 : ℤ) - F.bias ≤ -1 := by
      have : 2 ≤ F.bias := by
        unfold Fmt.bias
        have := Nat.pow_le_pow_right (n := 2) (by norm_num) (show 4 ≤ F.ew - 1 by have := F.hew; omega)
        omega
      omega
    have := max_le (show Int.log 2 |t| ≤ -1 by omega) h2
    omega

theorem bound64 {r : Flt f64} {t : ℝ} (h : WithinUlp 1 r t) (ht : |t| < 1) : |r.val| ≤ 1 := by
  by_contra hc
  have h1 := above64 (not_le.1 hc)
  have h2 := (WithinUlp.def'.1 h).2
  have h3 := ulp_lt_one (F := f64) ht
  rw [show -1 - ((f64.sb : ℕ) : ℤ) = -53 by decide] at h3
  have h4 : |r.val| ≤ |r.val - t| + |t| := by simpa using abs_add_le (r.val - t) t
  norm_num at h1 h3
  linarith

theorem bound32 {r : Flt f32} {t : ℝ} (h : WithinUlp 1 r t) (ht : |t| < 1) : |r.val| ≤ 1 := by
  by_contra hc
  have h1 := above32 (not_le.1 hc)
  have h2 := (WithinUlp.def'.1 h).2
  have h3 := ulp_lt_one (F := f32) ht
  rw [show -1 - ((f32.sb : ℕ) : ℤ) = -24 by decide] at h3
  have h4 : |r.val| ≤ |r.val - t| + |t| := by simpa using abs_add_le (r.val - t) t
  norm_num at h1 h3
  linarith

/-- a rational number is not a nonzero half-multiple of pi -/
theorem pi_mul {q : ℚ} {n : ℤ} (hn : n ≠ 0) : (n : ℝ) * Real.pi / 2 ≠ (q : ℝ) := by
  intro h
  refine irrational_pi ⟨2 * q / n, ?_⟩
  have : (n : ℝ) ≠ 0 := by exact_mod_cast hn
  push_cast
  rw [← h]
  field_simp

theorem sin_lt (q : ℚ) : |Real.sin (q : ℝ)| < 1 := by
  rcases (Real.abs_sin_le_one (q : ℝ)).lt_or_eq with h | h
  · exact h
  · exfalso
    have h1 : Real.cos (q : ℝ) = 0 := by
      have := Real.sin_sq_add_cos_sq (q : ℝ)
      rw [← sq_abs (Real.sin _), h] at this
      nlinarith [_root_.sq_nonneg (Real.cos (q : ℝ))]
    obtain ⟨k, hk⟩ := Real.cos_eq_zero_iff.1 h1
    exact pi_mul (q := q) (n := 2 * k + 1) (by omega) (by push_cast; rw [hk])

theorem cos_lt {q : ℚ} (hq : q ≠ 0) : |Real.cos (q : ℝ)| < 1 := by
  rcases (Real.abs_cos_le_one (q : ℝ)).lt_or_eq with h | h
  · exact h
  · exfalso
    have h1 : Real.sin (q : ℝ) = 0 := by
      have := Real.sin_sq_add_cos_sq (q : ℝ)
      rw [← sq_abs (Real.cos _), h] at this
      nlinarith [_root_.sq_nonneg (Real.sin (q : ℝ))]
    obtain ⟨k, hk⟩ := Real.sin_eq_zero_iff.1 h1
    rcases eq_or_ne k 0 with h0 | h0
    · rw [h0] at hk
      push_cast at hk
      rw [zero_mul] at hk
      exact hq (by exact_mod_cast hk.symm)
    · exact pi_mul (q := q) (n := 2 * k) (by omega) (by push_cast; rw [← hk]; ring)

end Range

/-- For every finite argument the function returns a finite float between minus one and one. -/
def StaysInUnit (f : Flt F → Option (Flt F)) : Prop :=
  ∀ x : Flt F, x.isFinite → ∃ r, f x = some r ∧ r.isFinite ∧ |r.toRat| ≤ 1

namespace Range

theorem abs_rat {r : Flt F} (h : |r.val| ≤ 1) : |r.toRat| ≤ 1 := by
  have : |((r.toRat : ℚ) : ℝ)| ≤ 1 := h
  exact_mod_cast this

end Range

/-- C70 for `sin` -/
theorem sin_range : StaysInUnit sin := by
  intro x hx
  obtain ⟨r, h1, h2⟩ := sin_accurate x hx
  exact ⟨r, h1, h2.1, Range.abs_rat (Range.bound64 h2 (Range.sin_lt _))⟩

/-- C70 for `cos` -/
theorem cos_range : StaysInUnit cos := by
  intro x hx
  by_cases h0 : x.toRat = 0
  · have hv : x.val = 0 := by show ((x.toRat : ℚ) : ℝ) = 0; rw [h0]; norm_num
    refine ⟨one f64, by simpa using cos_trig.tiny x hx (by rw [hv, abs_zero]; positivity), by decide +kernel, by decide +kernel⟩
  · obtain ⟨r, h1, h2⟩ := cos_accurate x hx
    exact ⟨r, h1, h2.1, Range.abs_rat (Range.bound64 h2 (Range.cos_lt h0))⟩

/-- C70 for `sinf` -/
theorem sinf_range : StaysInUnit sinf := by
  intro x hx
  obtain ⟨r, h1, h2⟩ := sinf_accurate x hx
  exact ⟨r, h1, h2.1, Range.abs_rat (Range.bound32 (h2.mono (by norm_num)) (Range.sin_lt _))⟩

/-- C70 for `cosf` -/
theorem cosf_range : StaysInUnit cosf := by
  intro x hx
  by_cases h0 : x.toRat = 0
  · have hv : x.val = 0 := by show ((x.toRat : ℚ) : ℝ) = 0; rw [h0]; norm_num
    refine ⟨one f32, by simpa using cosf_trig.tiny x hx (by rw [hv, abs_zero]; positivity), by decide +kernel, by decide +kernel⟩
  · obtain ⟨r, h1, h2⟩ := cosf_accurate x hx
    exact ⟨r, h1, h2.1, Range.abs_rat (Range.bound32 (h2.mono (by norm_num)) (Range.cos_lt h0))⟩

/-- a finite argument, `1.6e308`, to which these apply -/
example : (bits64 0x7fec7b1f3cac7433 : Flt f64).isFinite ∧ (bits32 0x7f7fffff : Flt f32).isFinite := by decide +kernel

/-- For every positive finite argument the function returns a finite float that is positive, zero or negative exactly when
the argument is above, equal to or below one. -/
def SignAtOne (f : Flt F → Option (Flt F)) : Prop :=
  ∀ x : Flt F, x.isFinite → 0 < x.toRat → ∃ r, f x = some r ∧ r.isFinite ∧
    (0 < r.toRat ↔ 1 < x.toRat) ∧ (r.toRat = 0 ↔ x.toRat = 1) ∧ (r.toRat < 0 ↔ x.toRat < 1)

/-- For every finite argument above minus one the function returns a finite float of the sign of the argument, zero exactly
at zero. -/
def SignAtZero (f : Flt F → Option (Flt F)) : Prop :=
  ∀ x : Flt F, x.isFinite → -1 < x.toRat → ∃ r, f x = some r ∧ r.isFinite ∧
    (0 < r.toRat ↔ 0 < x.toRat) ∧ (r.toRat = 0 ↔ x.toRat = 0) ∧ (r.toRat < 0 ↔ x.toRat < 0)

namespace Range

theorem log_sign {q : ℚ} (hq : 0 < q) (b : ℝ) (hb : 1 < b) :
    (0 < Real.logb b (q : ℝ) ↔ 1 < q) ∧ (Real.logb b (q : ℝ) = 0 ↔ q = 1) ∧ (Real.logb b (q : ℝ) < 0 ↔ q < 1) := by
  have hr : 0 < (q : ℝ) := by exact_mod_cast hq
  refine ⟨?_, ?_, ?_⟩
  · rw [Real.logb_pos_iff hb hr]; norm_cast
  · rw [Real.logb_eq_zero]
    constructor
    · rintro (h | h | h | h | h | h)
      · linarith
      · linarith
      · linarith
      · linarith
      · exact_mod_cast h
      · linarith
    · rintro rfl; simp
  · rw [Real.logb_neg_iff hb hr]; norm_cast

/-- the logarithm of a number away from one is not tiny -/
theorem log_lb {y d : ℝ} (hy : 0 < y) (h0 : 0 < d) (h1 : d ≤ 1) (h : 1 + d ≤ y ∨ y ≤ 1 - d) : d / 2 ≤ |Real.log y| := by
  rcases h with h | h
  · have h2 := Real.one_sub_inv_le_log_of_pos (show 0 < 1 + d by linarith)
    have h3 : Real.log (1 + d) ≤ Real.log y := Real.log_le_log (by linarith) h
    have h4 : d / 2 ≤ 1 - (1 + d)⁻¹ := by
      rw [le_sub_iff_add_le, ← le_sub_iff_add_le', inv_le_iff_one_le_mul₀ (by linarith)]
      nlinarith
    exact (h4.trans (h2.trans h3)).trans (le_abs_self _)
  · have h2 := Real.log_le_sub_one_of_pos hy
    rw [abs_of_nonpos (by linarith)]
    linarith

theorem logb_lb {b y d : ℝ} (hb : 1 < b) (hb2 : b ≤ 10) (hy : 0 < y) (h0 : 0 < d) (h1 : d ≤ 1) (h : 1 + d ≤ y ∨ y ≤ 1 - d) :
    d / 18 ≤ |Real.logb b y| := by
  have h2 := log_lb hy h0 h1 h
  have h3 : 0 < Real.log b := Real.log_pos hb
  have h4 : Real.log b ≤ 9 := (Real.log_le_sub_one_of_pos (by linarith)).trans (by linarith)
  unfold Real.logb
  rw [abs_div, abs_of_pos h3, le_div_iff₀ h3]
  nlinarith

theorem away64 {x : Flt f64} (h0 : 0 < x.val) (h1 : x.val ≠ 1) : 1 + 1 / 2 ^ 53 ≤ x.val ∨ x.val ≤ 1 - 1 / 2 ^ 53 := by
  rcases lt_or_gt_of_ne h1 with h | h
  · right; simpa [abs_of_pos h0] using below64 (r := x) (by rwa [abs_of_pos h0])
  · left
    have := above64 (r := x) (by rwa [abs_of_pos h0])
    rw [abs_of_pos h0] at this
    norm_num at this ⊢
    linarith

theorem away32 {x : Flt f32} (h0 : 0 < x.val) (h1 : x.val ≠ 1) : 1 + 1 / 2 ^ 53 ≤ x.val ∨ x.val ≤ 1 - 1 / 2 ^ 53 := by
  rcases lt_or_gt_of_ne h1 with h | h
  · right
    have := below32 (r := x) (by rwa [abs_of_pos h0])
    rw [abs_of_pos h0] at this
    norm_num at this ⊢
    linarith
  · left
    have := above32 (r := x) (by rwa [abs_of_pos h0])
    rw [abs_of_pos h0] at this
    norm_num at this ⊢
    linarith

theorem sign_one {f : Flt F → Option (Flt F)} {c b : ℝ} (hc : 0 ≤ c) (hc2 : c ≤ 2) (hb : 1 < b) (hb2 : b ≤ 10)
    (ha : ∀ x : Flt F, 0 < x.val → x.val ≠ 1 → 1 + 1 / 2 ^ 53 ≤ x.val ∨ x.val ≤ 1 - 1 / 2 ^ 53)
    (hf : (2 : ℝ) ^ (1 - (F.bias : ℤ) - F.sb) ≤ 2 ^ (-100 : ℤ)) (h : AccuratePos c f (Real.logb b)) : SignAtOne f := by
  intro x xf hx
  have hv : 0 < x.val := by show (0 : ℝ) < ((x.toRat : ℚ) : ℝ); exact_mod_cast hx
  obtain ⟨r, h1, h2⟩ := h x xf hv
  obtain ⟨s1, s2, s3⟩ := log_sign hx b hb
  refine ⟨r, h1, h2.1, ?_⟩
  have := sign_of h2 fun hne => by
    have hn1 : x.val ≠ 1 := by
      intro h
      exact hne (s2.2 (by have : ((x.toRat : ℚ) : ℝ) = 1 := h
                          exact_mod_cast this))
    have hl := logb_lb hb hb2 hv (by norm_num) (by norm_num) (ha x hv hn1)
    refine mul_ulpAt_lt hc hc2 (lt_of_lt_of_le ?_ hl)
    refine (mul_le_mul hc2 hf (zp _).le (by norm_num)).trans_lt ?_
    norm_num
  rw [s1, s2, s3] at this
  exact this

theorem fmt64 : (2 : ℝ) ^ (1 - (f64.bias : ℤ) - f64.sb) ≤ 2 ^ (-100 : ℤ) :=
  zpow_le_zpow_right₀ (by norm_num) (by decide)
theorem fmt32 : (2 : ℝ) ^ (1 - (f32.bias : ℤ) - f32.sb) ≤ 2 ^ (-100 : ℤ) :=
  zpow_le_zpow_right₀ (by norm_num) (by decide)

theorem log_e {f : Flt F → Option (Flt F)} {c : ℝ} (h : AccuratePos c f Real.log) : AccuratePos c f (Real.logb (Real.exp 1)) := by
  have : Real.logb (Real.exp 1) = Real.log := by
    funext y; unfold Real.logb; rw [Real.log_exp, div_one]
  rwa [this]

theorem e1 : 1 < Real.exp 1 := by have := Real.add_one_lt_exp (show (1 : ℝ) ≠ 0 by norm_num); linarith
theorem e10 : Real.exp 1 ≤ 10 := by have := Real.exp_one_lt_d9; linarith

end Range

/-- C71 for `log` -/
theorem log_sign : SignAtOne log := Range.sign_one (by norm_num) (by norm_num) Range.e1 Range.e10 (fun _ => Range.away64) Range.fmt64 (Range.log_e log_accurate)
/-- C71 for `logf` -/
theorem logf_sign : SignAtOne logf := Range.sign_one (by norm_num) (by norm_num) Range.e1 Range.e10 (fun _ => Range.away32) Range.fmt32 (Range.log_e logf_accurate)
/-- C71 for `log2` -/
theorem log2_sign : SignAtOne log2 := Range.sign_one (by norm_num) (by norm_num) (by norm_num) (by norm_num) (fun _ => Range.away64) Range.fmt64 log2_accurate
/-- C71 for `log2f` -/
theorem log2f_sign : SignAtOne log2f := Range.sign_one (by norm_num) (by norm_num) (by norm_num) (by norm_num) (fun _ => Range.away32) Range.fmt32 log2f_accurate
/-- C71 for `log10` -/
theorem log10_sign : SignAtOne log10 := Range.sign_one (by norm_num) (by norm_num) (by norm_num) (by norm_num) (fun _ => Range.away64) Range.fmt64 log10_accurate
/-- C71 for `log10f` -/
theorem log10f_sign : SignAtOne log10f := Range.sign_one (by norm_num) (by norm_num) (by norm_num) (by norm_num) (fun _ => Range.away32) Range.fmt32 log10f_accurate

namespace Range

/-- the smallest nonzero magnitude -/
theorem min_val {x : Flt F} (h : x.val ≠ 0) : (2 : ℝ) ^ (1 - (F.bias : ℤ) - F.sb) ≤ |x.val| := by
  rw [val_abs, ← ulp_real]
  have hu : (0 : ℝ) < ((F.ulp : ℚ) : ℝ) := by exact_mod_cast F.ulp_pos
  have hm : x.mag ≠ 0 := by
    intro h0
    have := val_abs (x := x)
    rw [h0] at this
    simp at this
    exact h this
  have : (1 : ℝ) ≤ x.mag := by exact_mod_cast Nat.one_le_iff_ne_zero.2 hm
  nlinarith

theorem log1p_lb {y m : ℝ} (hy : -1 < y) (h0 : 0 < m) (hm : m ≤ 2 ^ (-100 : ℤ)) (h : m ≤ |y|) : 0.99 * m < |Real.log (1 + y)| := by
  rcases le_or_gt |y| (1 / 2 ^ 10) with hs | hs
  · have h1 := log_one_add_near hs
    have h2 : 0.51 * y ^ 2 ≤ 0.001 * |y| := by
      rw [← sq_abs]
      nlinarith [abs_nonneg y]
    have h3 := abs_sub_abs_le_abs_sub y (Real.log (1 + y))
    rw [abs_sub_comm] at h3
    linarith
  · have h2 := log_lb (y := 1 + y) (d := 1 / 2 ^ 10) (by linarith) (by norm_num) (by norm_num) (by
      rcases le_abs.1 hs.le with h | h
      · left; linarith
      · right; linarith)
    norm_num at hm h2
    linarith

theorem sign_zero {f : Flt F → Option (Flt F)} (hf : (2 : ℝ) ^ (1 - (F.bias : ℤ) - F.sb) ≤ 2 ^ (-100 : ℤ))
    (h : AccurateAboveNegOne 0.99 f (fun x => Real.log (1 + x))) : SignAtZero f := by
  intro x xf hx
  have hv : -1 < x.val := by show (-1 : ℝ) < ((x.toRat : ℚ) : ℝ); exact_mod_cast hx
  obtain ⟨r, h1, h2⟩ := h x xf hv
  obtain ⟨s1, s2, s3⟩ := log_sign (q := 1 + x.toRat) (by linarith) (Real.exp 1) e1
  have e : Real.logb (Real.exp 1) ((1 + x.toRat : ℚ) : ℝ) = Real.log (1 + ((x.toRat : ℚ) : ℝ)) := by
    unfold Real.logb; rw [Real.log_exp, div_one]; push_cast; rfl
  rw [e] at s1 s2 s3
  refine ⟨r, h1, h2.1, ?_⟩
  have := sign_of h2 fun hne => by
    refine mul_ulpAt_lt (by norm_num) (by norm_num) (log1p_lb hv (zp _) hf (min_val ?_))
    intro h
    have h' : ((x.toRat : ℚ) : ℝ) = 0 := h
    exact hne (by simp [h'])
  simp only [s1, s2, s3] at this
  refine ⟨this.1.trans ?_, this.2.1.trans ?_, this.2.2.trans ?_⟩
  · constructor <;> intro h <;> linarith
  · constructor <;> intro h <;> linarith
  · constructor <;> intro h <;> linarith

end Range

/-- C71 for `log1p` -/
theorem log1p_sign : SignAtZero log1p := Range.sign_zero Range.fmt64 log1p_accurate
/-- C71 for `log1pf` -/
theorem log1pf_sign : SignAtZero log1pf := Range.sign_zero Range.fmt32 log1pf_accurate

/-- arguments to which these apply: the neighbours of one, and the smallest subnormal -/
example : (bits64 0x3ff0000000000001 : Flt f64).isFinite ∧ 1 < (bits64 0x3ff0000000000001 : Flt f64).toRat ∧
    (bits64 1 : Flt f64).isFinite ∧ -1 < (bits64 1 : Flt f64).toRat ∧ (bits64 1 : Flt f64).toRat ≠ 0 := by decide +kernel

end Verif
