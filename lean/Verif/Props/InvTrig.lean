import Verif.Theory.InvTrig
import Verif.Props.InvHyp
import Verif.Spec.Ulp
import Verif.Theory.Ulp
import Mathlib.Analysis.Real.Pi.Bounds

/-!
# C32, C35: domains, special values and symmetry of asin, acos, atan and atan2

Real π/2 etc. are not representable, so the special values that C and IEEE 754 give as multiples of π are stated as
"within one unit in the last place of the exact real number" (`Spec/Ulp.lean`).
-/

namespace Verif
open Flt InvHyp

/-- `asin`: it always returns; NaN gives NaN; outside [-1, 1] the result is NaN; `±1` give the data nearest to `±π/2`; a
zero is returned unchanged -/
structure IsAsin {F : Fmt} (f : Flt F → Option (Flt F)) : Prop where
  total : ∀ x, ∃ r, f x = some r
  nan : ∀ x : Flt F, x.isNaN → ∃ r, f x = some r ∧ r.isNaN
  domain : ∀ x : Flt F, ((one F <ᶠ x) = true ∨ (x <ᶠ -one F) = true) → ∃ r, f x = some r ∧ r.isNaN
  one : ∃ r, f (one F) = some r ∧ WithinUlp (1 / 2) r (Real.pi / 2)
  negOne : ∃ r, f (-Flt.one F) = some r ∧ WithinUlp (1 / 2) r (-(Real.pi / 2))
  zero : ∀ x : Flt F, x.isZero → f x = some x

/-- `acos`: it always returns; NaN gives NaN; outside [-1, 1] the result is NaN; `1` gives `+0`, `-1` gives π and zeros give
π/2 up to one unit in the last place -/
structure IsAcos {F : Fmt} (f : Flt F → Option (Flt F)) : Prop where
  total : ∀ x, ∃ r, f x = some r
  nan : ∀ x : Flt F, x.isNaN → ∃ r, f x = some r ∧ r.isNaN
  domain : ∀ x : Flt F, ((one F <ᶠ x) = true ∨ (x <ᶠ -one F) = true) → ∃ r, f x = some r ∧ r.isNaN
  one : f (one F) = some (zero F false)
  negOne : ∃ r, f (-Flt.one F) = some r ∧ WithinUlp 1 r Real.pi
  zero : ∀ x : Flt F, x.isZero → ∃ r, f x = some r ∧ WithinUlp 1 r (Real.pi / 2)

/-- `atan`: it always returns; NaN gives NaN; the infinities give `±π/2` up to one unit in the last place; a zero is
returned unchanged -/
structure IsAtan {F : Fmt} (f : Flt F → Option (Flt F)) : Prop where
  total : ∀ x, ∃ r, f x = some r
  nan : ∀ x : Flt F, x.isNaN → ∃ r, f x = some r ∧ r.isNaN
  inf : ∀ s, ∃ r, f (inf F s) = some r ∧ WithinUlp 1 r (if s then -(Real.pi / 2) else Real.pi / 2)
  zero : ∀ x : Flt F, x.isZero → f x = some x

namespace InvTrig

theorem ulp_ge {F : Fmt} {t : ℝ} (k : ℤ) (h : (2 : ℝ) ^ k ≤ |t|) : (2 : ℝ) ^ (k - F.sb) ≤ ulpAt F t := by
  have h0 : t ≠ 0 := fun h0 => by rw [h0, abs_zero] at h; exact absurd (zp k) (not_lt.2 h)
  unfold ulpAt
  rw [if_neg h0]
  apply zpow_le_zpow_right₀ (by norm_num)
  have : k ≤ Int.log 2 |t| := (Int.zpow_le_iff_le_log (by norm_num) (abs_pos.2 h0)).1 (by exact_mod_cast h)
  have := le_max_left (Int.log 2 |t|) (1 - (F.bias : ℤ))
  omega

theorem within {F : Fmt} {r : Flt F} {t c : ℝ} (k : ℤ) (hr : r.isFinite) (h : (2 : ℝ) ^ k ≤ |t|) (hc : 0 ≤ c)
    (he : |r.val - t| ≤ c * 2 ^ (k - F.sb)) : WithinUlp c r t :=
  ⟨hr, he.trans (mul_le_mul_of_nonneg_left (ulp_ge k h) hc)⟩

/-- a positive constant next to a real number in `[2^k, ..)` -/
theorem within64 {r : Flt f64} {t c : ℝ} (k : ℤ) (m : ℤ) (n : ℕ) (e : ℤ) (hr : r.isFinite) (hm : r.sval = m * 2 ^ n)
    (he : (n : ℤ) - 1074 = e) (h : (2 : ℝ) ^ k ≤ t) (hc : 0 ≤ c)
    (hd : |m * (2 : ℝ) ^ e - t| ≤ c * 2 ^ (k - 52)) : WithinUlp c r t :=
  within k hr (h.trans (le_abs_self _)) hc (by rw [val_const64 m n e hm he]; exact hd)

theorem within32 {r : Flt f32} {t c : ℝ} (k : ℤ) (m : ℤ) (n : ℕ) (e : ℤ) (hr : r.isFinite) (hm : r.sval = m * 2 ^ n)
    (he : (n : ℤ) - 149 = e) (h : (2 : ℝ) ^ k ≤ t) (hc : 0 ≤ c)
    (hd : |m * (2 : ℝ) ^ e - t| ≤ c * 2 ^ (k - 23)) : WithinUlp c r t :=
  within k hr (h.trans (le_abs_self _)) hc (by rw [val_const32 m n e hm he]; exact hd)

theorem pio2_ulp : WithinUlp (1 / 2) (bits64 0x3ff921fb54442d18) (Real.pi / 2) := by
  have h1 := Real.pi_gt_d20
  have h2 := Real.pi_lt_d20
  refine within64 0 7074237752028440 1022 (-52) (by decide +kernel) (by decide +kernel) (by norm_num) ?_ (by norm_num) ?_
  · norm_num; linarith
  · rw [abs_le]; constructor <;> norm_num <;> linarith

theorem pi_ulp : WithinUlp 1 (bits64 0x400921fb54442d18) Real.pi := by
  have h1 := Real.pi_gt_d20
  have h2 := Real.pi_lt_d20
  refine within64 1 7074237752028440 1023 (-51) (by decide +kernel) (by decide +kernel) (by norm_num) ?_ (by norm_num) ?_
  · norm_num; linarith
  · rw [abs_le]; constructor <;> norm_num <;> linarith

theorem pio4_ulp : WithinUlp 1 (bits64 0x3fe921fb54442d18) (Real.pi / 4) := by
  have h1 := Real.pi_gt_d20
  have h2 := Real.pi_lt_d20
  refine within64 (-1) 7074237752028440 1021 (-53) (by decide +kernel) (by decide +kernel) (by norm_num) ?_ (by norm_num) ?_
  · norm_num; linarith
  · rw [abs_le]; constructor <;> norm_num <;> linarith

theorem pio34_ulp : WithinUlp 1 (bits64 0x4002d97c7f3321d2) (3 * Real.pi / 4) := by
  have h1 := Real.pi_gt_d20
  have h2 := Real.pi_lt_d20
  refine within64 1 5305678314021330 1023 (-51) (by decide +kernel) (by decide +kernel) (by norm_num) ?_ (by norm_num) ?_
  · norm_num; linarith
  · rw [abs_le]; constructor <;> norm_num <;> linarith

/-- both neighbours of π/2 among the f32 data -/
theorem pio2f_ulp : WithinUlp (1 / 2) (bits32 0x3fc90fdb) (Real.pi / 2) ∧ WithinUlp 1 (bits32 0x3fc90fda) (Real.pi / 2) := by
  have h1 := Real.pi_gt_d20
  have h2 := Real.pi_lt_d20
  constructor
  · refine within32 0 13176795 126 (-23) (by decide +kernel) (by decide +kernel) (by norm_num) ?_ (by norm_num) ?_
    · norm_num; linarith
    · rw [abs_le]; constructor <;> norm_num <;> linarith
  · refine within32 0 13176794 126 (-23) (by decide +kernel) (by decide +kernel) (by norm_num) ?_ (by norm_num) ?_
    · norm_num; linarith
    · rw [abs_le]; constructor <;> norm_num <;> linarith

/-- both neighbours of π among the f32 data -/
theorem pif_ulp : WithinUlp 1 (bits32 0x40490fdb) Real.pi ∧ WithinUlp 1 (bits32 0x40490fda) Real.pi := by
  have h1 := Real.pi_gt_d20
  have h2 := Real.pi_lt_d20
  constructor
  · refine within32 1 13176795 127 (-22) (by decide +kernel) (by decide +kernel) (by norm_num) ?_ (by norm_num) ?_
    · norm_num; linarith
    · rw [abs_le]; constructor <;> norm_num <;> linarith
  · refine within32 1 13176794 127 (-22) (by decide +kernel) (by decide +kernel) (by norm_num) ?_ (by norm_num) ?_
    · norm_num; linarith
    · rw [abs_le]; constructor <;> norm_num <;> linarith

theorem pio4f_ulp : WithinUlp 1 (bits32 0x3f490fdb) (Real.pi / 4) := by
  have h1 := Real.pi_gt_d20
  have h2 := Real.pi_lt_d20
  refine within32 (-1) 13176795 125 (-24) (by decide +kernel) (by decide +kernel) (by norm_num) ?_ (by norm_num) ?_
  · norm_num; linarith
  · rw [abs_le]; constructor <;> norm_num <;> linarith

theorem pio34f_ulp : WithinUlp 1 (bits32 0x4016cbe4) (3 * Real.pi / 4) := by
  have h1 := Real.pi_gt_d20
  have h2 := Real.pi_lt_d20
  refine within32 1 9882596 127 (-22) (by decide +kernel) (by decide +kernel) (by norm_num) ?_ (by norm_num) ?_
  · norm_num; linarith
  · rw [abs_le]; constructor <;> norm_num <;> linarith

theorem sub_self_zero {F : Fmt} {x : Flt F} (hx : x.isFinite) : (x - x).isZero := by
  have h := sub_rne hx hx
  rw [sub_self] at h
  have hf := (h.finite (by rw [abs_zero]; exact mul_nonneg (by norm_num) (zp _).le)).1
  have := h.two hf
  rw [abs_zero, mul_zero] at this
  exact isZero_val.2 (abs_eq_zero.1 (le_antisymm this (abs_nonneg _)))

theorem zero_div_sub64 (x : Flt f64) : ((0.0 : Flt f64) / (x - x)).isNaN := by
  rcases class_cases x with h | h | h
  · rw [div_nan (Or.inr (Trig.sub_self_nan (Or.inl h)))]; exact isNaN_qnan
  · rw [div_nan (Or.inr (Trig.sub_self_nan (Or.inr h)))]; exact isNaN_qnan
  · rw [eq_zero (sub_self_zero h)]
    cases (x - x).sign <;> decide +kernel

theorem zero_div_sub32 (x : Flt f32) : ((0.0 : Flt f32) / (x - x)).isNaN := by
  rcases class_cases x with h | h | h
  · rw [div_nan (Or.inr (Trig.sub_self_nan (Or.inl h)))]; exact isNaN_qnan
  · rw [div_nan (Or.inr (Trig.sub_self_nan (Or.inr h)))]; exact isNaN_qnan
  · rw [eq_zero (sub_self_zero h)]
    cases (x - x).sign <;> decide +kernel

/-- above one in absolute value: the encoding is above that of one -/
theorem mb_above64 {x : Flt f64} (h : (one f64 <ᶠ x) = true ∨ (x <ᶠ -one f64) = true) : 0x3ff0000000000000 < x.mb := by
  obtain ⟨_, h1⟩ := above_ab h
  rw [ab_val] at h1
  by_contra hc
  rcases Nat.lt_or_eq_of_le (not_lt.1 hc) with h2 | h2
  · have hv := val_lt_of_mb (x := x) (E := 0x3ff) (by norm_num) (show x.mb < 0x3ff * 2 ^ 52 by omega)
    rw [show ((0x3ff : ℕ) : ℤ) - (f64.bias : ℤ) = 0 by decide, zpow_zero] at hv
    linarith
  · have : x.ab = one f64 := ext_mb (by rw [ab_sign]; decide +kernel) (by rw [ab_mb, h2]; decide +kernel)
    rw [← ab_val, this, val_one] at h1
    exact absurd h1 (lt_irrefl _)

theorem mb_above32 {x : Flt f32} (h : (one f32 <ᶠ x) = true ∨ (x <ᶠ -one f32) = true) : 0x3f800000 < x.mb := by
  obtain ⟨_, h1⟩ := above_ab h
  rw [ab_val] at h1
  by_contra hc
  rcases Nat.lt_or_eq_of_le (not_lt.1 hc) with h2 | h2
  · have hv := val_lt_of_mb (x := x) (E := 0x7f) (by norm_num) (show x.mb < 0x7f * 2 ^ 23 by omega)
    rw [show ((0x7f : ℕ) : ℤ) - (f32.bias : ℤ) = 0 by decide, zpow_zero] at hv
    linarith
  · have : x.ab = one f32 := ext_mb (by rw [ab_sign]; decide +kernel) (by rw [ab_mb, h2]; decide +kernel)
    rw [← ab_val, this, val_one] at h1
    exact absurd h1 (lt_irrefl _)

theorem asin_out {x : Flt f64} (h : 0x3ff0000000000000 < x.mb) : ∃ r, asin x = some r ∧ r.isNaN := by
  rw [asin_eq, if_pos (by omega), if_neg (by omega)]
  exact ⟨_, rfl, zero_div_sub64 x⟩

theorem acos_out {x : Flt f64} (h : 0x3ff0000000000000 < x.mb) : ∃ r, acos x = some r ∧ r.isNaN := by
  rw [acos_eq, if_pos (by omega), if_neg (by omega)]
  exact ⟨_, rfl, zero_div_sub64 x⟩

theorem asinf_out {x : Flt f32} (h : 0x3f800000 < x.mb) : ∃ r, asinf x = some r ∧ r.isNaN := by
  rw [asinf_eq, if_pos (by omega), if_neg (by omega)]
  exact ⟨_, rfl, zero_div_sub32 x⟩

theorem acosf_out {x : Flt f32} (h : 0x3f800000 < x.mb) : ∃ r, acosf x = some r ∧ r.isNaN := by
  rw [acosf_eq, if_pos (by omega), if_neg (by omega)]
  exact ⟨_, rfl, zero_div_sub32 x⟩

theorem big_tot (x : Flt f64) (c : BitVec 32) : ∃ r, Asin.big x c = some r := by
  unfold Asin.big
  refine bind_total (sqrt_tot _) fun s => ?_
  dsimp only
  split_ifs <;> exact ⟨_, rfl⟩

theorem bigf_tot (x : Flt f32) : ∃ r, Asinf.big x = some r := by
  unfold Asinf.big
  exact bind_total (sqrt_tot _) fun s => ⟨_, rfl⟩

theorem at_some {α : Type} {l : List α} {n : ℕ} (h : n < l.length) : ∃ a, l[n]? = some a :=
  ⟨_, List.getElem?_eq_getElem h⟩

theorem atanArg_lt (a : Flt f64) : (atanArg a).1 < 4 := by unfold atanArg; split_ifs <;> simp
theorem atanfArg_lt (a : Flt f32) : (atanfArg a).1 < 4 := by unfold atanfArg; split_ifs <;> simp

theorem atan_tot (x : Flt f64) : ∃ r, atan x = some r := by
  rw [atan_eq]
  split_ifs
  · exact ⟨_, rfl⟩
  · exact map_total (at_some (by decide))
  · exact ⟨_, rfl⟩
  · exact ⟨_, rfl⟩
  · exact bind_total (at_some (atanArg_lt _)) fun _ => map_total (at_some (atanArg_lt _))

theorem atanf_tot (x : Flt f32) : ∃ r, atanf x = some r := by
  rw [atanf_eq]
  split_ifs
  · exact ⟨_, rfl⟩
  · exact map_total (at_some (by decide))
  · exact ⟨_, rfl⟩
  · exact ⟨_, rfl⟩
  · exact bind_total (at_some (atanfArg_lt _)) fun _ => map_total (at_some (atanfArg_lt _))

end InvTrig
open InvTrig

theorem asin_domain : IsAsin asin where
  total x := by
    rw [asin_eq]
    split_ifs
    all_goals first | exact ⟨_, rfl⟩ | exact map_total (big_tot _ _)
  nan x hx := asin_out (by have := (isNaN64 x).1 hx; omega)
  domain x hx := asin_out (mb_above64 hx)
  one := ⟨bits64 0x3ff921fb54442d18, by decide +kernel, pio2_ulp⟩
  negOne := ⟨-bits64 0x3ff921fb54442d18, by decide +kernel, pio2_ulp.neg⟩
  zero x hx := by rw [eq_zero hx]; cases x.sign <;> decide +kernel

theorem asinf_domain : IsAsin asinf where
  total x := by
    rw [asinf_eq]
    split_ifs
    all_goals first | exact ⟨_, rfl⟩ | exact map_total (bigf_tot _)
  nan x hx := asinf_out (by have := (isNaN32 x).1 hx; omega)
  domain x hx := asinf_out (mb_above32 hx)
  one := ⟨bits32 0x3fc90fdb, by decide +kernel, pio2f_ulp.1⟩
  negOne := ⟨-bits32 0x3fc90fdb, by decide +kernel, pio2f_ulp.1.neg⟩
  zero x hx := by rw [eq_zero hx]; cases x.sign <;> decide +kernel

theorem acos_domain : IsAcos acos where
  total x := by
    rw [acos_eq]
    split_ifs
    all_goals first | exact ⟨_, rfl⟩ | exact bind_total (sqrt_tot _) fun s => ⟨_, rfl⟩
  nan x hx := acos_out (by have := (isNaN64 x).1 hx; omega)
  domain x hx := acos_out (mb_above64 hx)
  one := by decide +kernel
  negOne := ⟨bits64 0x400921fb54442d18, by decide +kernel, pi_ulp⟩
  zero x hx := ⟨bits64 0x3ff921fb54442d18, by rw [eq_zero hx]; cases x.sign <;> decide +kernel, pio2_ulp.mono (by norm_num)⟩

theorem acosf_domain : IsAcos acosf where
  total x := by
    rw [acosf_eq]
    split_ifs
    all_goals first | exact ⟨_, rfl⟩ | exact bind_total (sqrtf_tot _) fun s => ⟨_, rfl⟩
  nan x hx := acosf_out (by have := (isNaN32 x).1 hx; omega)
  domain x hx := acosf_out (mb_above32 hx)
  one := by decide +kernel
  negOne := ⟨bits32 0x40490fda, by decide +kernel, pif_ulp.2⟩
  zero x hx := ⟨bits32 0x3fc90fda, by rw [eq_zero hx]; cases x.sign <;> decide +kernel, pio2f_ulp.2⟩

theorem atan_special : IsAtan atan where
  total := atan_tot
  nan x hx := ⟨x, by rw [atan_eq, if_pos (by have := (isNaN64 x).1 hx; omega), if_pos hx], hx⟩
  inf s := by
    cases s
    · exact ⟨bits64 0x3ff921fb54442d18, by decide +kernel, pio2_ulp.mono (by norm_num)⟩
    · exact ⟨-bits64 0x3ff921fb54442d18, by decide +kernel, pio2_ulp.neg.mono (by norm_num)⟩
  zero x hx := by rw [eq_zero hx]; cases x.sign <;> decide +kernel

theorem atanf_special : IsAtan atanf where
  total := atanf_tot
  nan x hx := ⟨x, by rw [atanf_eq, if_pos (by have := (isNaN32 x).1 hx; omega), if_pos hx], hx⟩
  inf s := by
    cases s
    · exact ⟨bits32 0x3fc90fda, by decide +kernel, pio2f_ulp.2⟩
    · exact ⟨-bits32 0x3fc90fda, by decide +kernel, pio2f_ulp.2.neg⟩
  zero x hx := by rw [eq_zero hx]; cases x.sign <;> decide +kernel

/-! ## C32: asin and atan are odd -/

namespace InvTrig

theorem rne_nonneg {F : Fmt} {q : ℝ} {r : Flt F} (h : IsRNE q r) (hr : r.isFinite) (hq : 0 ≤ q) : 0 ≤ r.val := by
  unfold IsRNE at h
  split_ifs at h with hc
  · exact absurd hr (not_finite_of_inf h.1)
  · have h1 := h.2.1 (zero F false) (by simp)
    change |r.val - q| ≤ |(zero F false).val - q| at h1
    rw [val_zero, zero_sub, abs_neg, abs_of_nonneg hq] at h1
    have h2 := neg_abs_le (r.val - q)
    linarith

theorem sq_neg {F : Fmt} {x : Flt F} (h : ¬ (x * x).isNaN) : -x * -x = x * x := by
  have e := mul_flip true true x x
  rcases e with e | e
  · simpa [Flt.flip] using e
  · exact absurd e.1 h

/-- the square of a number below one half -/
theorem sq_small {F : Fmt} (hb : 127 ≤ F.bias) {x : Flt F} (hx : x.isFinite) (h : |x.val| ≤ 1 / 2) :
    (x * x).isFinite ∧ 0 ≤ (x * x).val ∧ (x * x).val ≤ 1 / 4 := by
  have hr := mul_rne hx hx
  have hq : x.val * x.val ≤ 1 / 4 := by
    have := abs_mul_abs_self x.val
    have := abs_nonneg x.val
    nlinarith
  have h0 := mul_self_nonneg x.val
  have htop := AcoshDom.top_big hb
  have hf := (hr.finite (by rw [abs_of_nonneg h0]; refine le_trans hq (le_trans ?_ htop); norm_num)).1
  obtain ⟨c, hc, hcv⟩ := exists_val (F := F) (n := 1) (k := -2) (by
    have : (1 : ℤ) ≤ 2 ^ (F.sb + 1) := one_le_pow₀ (by norm_num)
    simpa using this) (by omega) (by
      rw [Int.cast_one, abs_one, one_mul]
      exact zpow_lt_zpow_right₀ (by norm_num) (by omega))
  have hc4 : c.val = 1 / 4 := by rw [hcv]; norm_num
  refine ⟨hf, rne_nonneg hr hf h0, ?_⟩
  have := hr.abs_le hf hc (by rw [hc4, abs_of_nonneg h0]; exact hq)
  rw [hc4] at this
  exact (le_abs_self _).trans this

theorem half_val64 {x : Flt f64} (h : x.mb < 0x3fe00000 * 2 ^ 32) : x.isFinite ∧ |x.val| ≤ 1 / 2 := by
  have hv := val_lt_of_mb (x := x) (E := 0x3fe) (by norm_num) (show x.mb < 0x3fe * 2 ^ 52 by omega)
  rw [show ((0x3fe : ℕ) : ℤ) - (f64.bias : ℤ) = -1 by decide] at hv
  exact ⟨(isFinite64 x).2 (by omega), le_trans hv.le (by norm_num)⟩

theorem half_val32 {x : Flt f32} (h : x.mb < 0x3f000000) : x.isFinite ∧ |x.val| ≤ 1 / 2 := by
  have hv := val_lt_of_mb (x := x) (E := 0x7e) (by norm_num) (show x.mb < 0x7e * 2 ^ 23 by omega)
  rw [show ((0x7e : ℕ) : ℤ) - (f32.bias : ℤ) = -1 by decide] at hv
  exact ⟨(isFinite32 x).2 (by omega), le_trans hv.le (by norm_num)⟩

theorem odd_of {F : Fmt} {r r' : Flt F} {o o' : Option (Flt F)} (h : o = some r) (h' : o' = some r') (e : r' = -r) :
    ∃ r r', o = some r ∧ o' = some r' ∧ (r' = -r ∨ r.isNaN ∧ r'.isNaN) := ⟨r, r', h, h', Or.inl e⟩

theorem odd_flip {F : Fmt} {o : Option (Flt F)} (h : ∃ r, o = some r) (s : Bool) :
    ∃ r r', o.map (flip s) = some r ∧ o.map (flip (!s)) = some r' ∧ (r' = -r ∨ r.isNaN ∧ r'.isNaN) := by
  obtain ⟨r, rfl⟩ := h
  refine ⟨_, _, rfl, rfl, Or.inl ?_⟩
  cases s <;> simp [Flt.flip]

end InvTrig

theorem asin_odd : OddFn asin := by
  intro x hx
  by_cases h1 : 0x3ff0000000000000 < x.mb
  · obtain ⟨r, h, h'⟩ := asin_out h1
    obtain ⟨s, g, g'⟩ := asin_out (x := -x) (by simpa using h1)
    exact ⟨r, s, h, g, Or.inr ⟨h', g'⟩⟩
  by_cases h2 : x.mb = 0x3ff0000000000000
  · have e : x = flip x.sign (one f64) := by
      rw [eq_flip_ab x]
      congr 1
      · simp
      · exact ext_mb (by rw [ab_sign]; decide +kernel) (by rw [ab_mb, h2]; decide +kernel)
    cases hs : x.sign <;> rw [hs] at e <;> rw [e]
    · exact odd_of (r := bits64 0x3ff921fb54442d18) (r' := -bits64 0x3ff921fb54442d18) (by decide +kernel) (by decide +kernel) rfl
    · exact odd_of (r := -bits64 0x3ff921fb54442d18) (r' := bits64 0x3ff921fb54442d18) (by decide +kernel) (by decide +kernel) (by decide +kernel)
  rw [asin_eq, asin_eq, mb_neg, if_neg (by omega : ¬ 0x3ff00000 * 2 ^ 32 ≤ x.mb), if_neg (by omega : ¬ 0x3ff00000 * 2 ^ 32 ≤ x.mb)]
  by_cases h3 : x.mb < 0x3fe00000 * 2 ^ 32
  · rw [if_pos h3, if_pos h3]
    by_cases h4 : 0x00100000 * 2 ^ 32 ≤ x.mb ∧ x.mb < 0x3e500000 * 2 ^ 32
    · rw [if_pos h4, if_pos h4]
      exact odd_of rfl rfl rfl
    · rw [if_neg h4, if_neg h4]
      by_cases hz : x.isZero
      · rw [eq_zero hz]
        cases x.sign
        · exact odd_of (r := zero f64 false) (r' := zero f64 true) (by decide +kernel) (by decide +kernel) (by decide +kernel)
        · exact odd_of (r := zero f64 true) (r' := zero f64 false) (by decide +kernel) (by decide +kernel) (by decide +kernel)
      · obtain ⟨hf, hv⟩ := half_val64 h3
        obtain ⟨q1, q2, q3⟩ := sq_small (by decide) hf hv
        rw [sq_neg (not_nan_of_finite q1)]
        have hR := Asin.compR_as q1 q2 q3
        have := odd_poly (x := x) (R := Asin.compR (x * x)) (by decide) hf hz (by linarith) (by decide) hR.fin
          (by have := hR.bd; norm_num at this ⊢; linarith)
        exact odd_of rfl rfl this.1
  · rw [if_neg h3, if_neg h3, ab_neg, sign_neg]
    exact odd_flip (big_tot _ _) _

theorem asinf_odd : OddFn asinf := by
  intro x hx
  by_cases h1 : 0x3f800000 < x.mb
  · obtain ⟨r, h, h'⟩ := asinf_out h1
    obtain ⟨s, g, g'⟩ := asinf_out (x := -x) (by simpa using h1)
    exact ⟨r, s, h, g, Or.inr ⟨h', g'⟩⟩
  by_cases h2 : x.mb = 0x3f800000
  · have e : x = flip x.sign (one f32) := by
      rw [eq_flip_ab x]
      congr 1
      · simp
      · exact ext_mb (by rw [ab_sign]; decide +kernel) (by rw [ab_mb, h2]; decide +kernel)
    cases hs : x.sign <;> rw [hs] at e <;> rw [e]
    · exact odd_of (r := bits32 0x3fc90fdb) (r' := -bits32 0x3fc90fdb) (by decide +kernel) (by decide +kernel) rfl
    · exact odd_of (r := -bits32 0x3fc90fdb) (r' := bits32 0x3fc90fdb) (by decide +kernel) (by decide +kernel) (by decide +kernel)
  rw [asinf_eq, asinf_eq, mb_neg, if_neg (by omega : ¬ 0x3f800000 ≤ x.mb), if_neg (by omega : ¬ 0x3f800000 ≤ x.mb)]
  by_cases h3 : x.mb < 0x3f000000
  · rw [if_pos h3, if_pos h3]
    by_cases h4 : 0x00800000 ≤ x.mb ∧ x.mb < 0x39800000
    · rw [if_pos h4, if_pos h4]
      exact odd_of rfl rfl rfl
    · rw [if_neg h4, if_neg h4]
      by_cases hz : x.isZero
      · rw [eq_zero hz]
        cases x.sign
        · exact odd_of (r := zero f32 false) (r' := zero f32 true) (by decide +kernel) (by decide +kernel) (by decide +kernel)
        · exact odd_of (r := zero f32 true) (r' := zero f32 false) (by decide +kernel) (by decide +kernel) (by decide +kernel)
      · obtain ⟨hf, hv⟩ := half_val32 h3
        obtain ⟨q1, q2, q3⟩ := sq_small (by decide) hf hv
        rw [sq_neg (not_nan_of_finite q1)]
        have hR := Asinf.r_as q1 q2 q3
        have := odd_poly (x := x) (R := Asinf.r (x * x)) (by decide) hf hz (by linarith) (by decide) hR.fin
          (by have := hR.bd; norm_num at this ⊢; linarith)
        exact odd_of rfl rfl this.1
  · rw [if_neg h3, if_neg h3, ab_neg, sign_neg]
    exact odd_flip (bigf_tot _) _

namespace InvTrig

theorem abs_val_mono {F : Fmt} {x c : Flt F} (h : x.mb ≤ c.mb) : |x.val| ≤ |c.val| := by
  rw [val_abs, val_abs]
  have : x.mag ≤ c.mag := (magOf_le (sb := F.sb)).2 h
  have h' : (x.mag : ℝ) ≤ c.mag := by exact_mod_cast this
  have hu : (0 : ℝ) ≤ ((F.ulp : ℚ) : ℝ) := by exact_mod_cast F.ulp_pos.le
  exact mul_le_mul_of_nonneg_right h' hu

theorem seven64 {x : Flt f64} (h : x.mb ≤ 0x3fdc0000 * 2 ^ 32) : |x.val| ≤ 7 / 16 := by
  have hc : (bits64 0x3fdc000000000000).val = 7 / 16 := by
    rw [val_const64 7 1070 (-4) (by decide +kernel) (by norm_num)]; norm_num
  have := abs_val_mono (x := x) (c := bits64 0x3fdc000000000000) (h.trans (by decide +kernel))
  rwa [hc, abs_of_pos (by norm_num : (0 : ℝ) < 7 / 16)] at this

theorem seven32 {x : Flt f32} (h : x.mb ≤ 0x3ee00000) : |x.val| ≤ 7 / 16 := by
  have hc : (bits32 0x3ee00000).val = 7 / 16 := by
    rw [val_const32 7 145 (-4) (by decide +kernel) (by norm_num)]; norm_num
  have := abs_val_mono (x := x) (c := bits32 0x3ee00000) (h.trans (by decide +kernel))
  rwa [hc, abs_of_pos (by norm_num : (0 : ℝ) < 7 / 16)] at this

/-- the polynomial depends on the square of the argument only -/
theorem poly_neg {x : Flt f64} (h : ¬ (x * x).isNaN) : Atan.poly (-x) = Atan.poly x := by
  unfold Atan.poly
  rw [sq_neg h]

theorem polyf_neg {x : Flt f32} (h : ¬ (x * x).isNaN) : Atanf.poly (-x) = Atanf.poly x := by
  unfold Atanf.poly
  rw [sq_neg h]

end InvTrig

theorem atan_odd : OddFn atan := by
  intro x hx
  rw [atan_eq, atan_eq, mb_neg, ab_neg, sign_neg]
  by_cases h1 : 0x44100000 * 2 ^ 32 ≤ x.mb
  · rw [if_pos h1, if_pos h1, if_neg hx, if_neg (by simpa using hx)]
    obtain ⟨hi, hh⟩ := at_some (l := Atan.atanhi) (n := 3) (by decide)
    rw [hh]
    exact odd_flip (o := some (hi + bits64 0x03800000)) ⟨_, rfl⟩ x.sign
  rw [if_neg h1, if_neg h1]
  by_cases h2 : x.mb < 0x3e400000 * 2 ^ 32
  · rw [if_pos h2, if_pos h2]
    exact odd_of rfl rfl rfl
  rw [if_neg h2, if_neg h2]
  by_cases h3 : x.mb < 0x3fdc0000 * 2 ^ 32
  · rw [if_pos h3, if_pos h3]
    obtain ⟨hf, hv⟩ := half_val64 (x := x) (by omega)
    obtain ⟨q1, q2, q3⟩ := sq_small (by decide) hf hv
    rw [poly_neg (not_nan_of_finite q1)]
    have hv' : |x.val| ≤ 7 / 16 := seven64 h3.le
    have hR := Atan.poly_as hf hv'
    have := odd_poly (x := x) (R := Atan.poly x) (by decide) hf (by rw [isZero_iff]; omega) (by linarith) (by decide) hR.fin
      (by have := hR.bd; norm_num at this ⊢; linarith)
    exact odd_of rfl rfl this.2.1
  · rw [if_neg h3, if_neg h3]
    obtain ⟨hi, hh⟩ := at_some (l := Atan.atanhi) (atanArg_lt x.ab)
    obtain ⟨lo, hl⟩ := at_some (l := Atan.atanlo) (atanArg_lt x.ab)
    rw [hh, hl]
    exact odd_flip (o := some (atanVal hi lo (atanArg x.ab).2)) ⟨_, rfl⟩ x.sign

theorem atanf_odd : OddFn atanf := by
  intro x hx
  rw [atanf_eq, atanf_eq, mb_neg, ab_neg, sign_neg]
  by_cases h1 : 0x4c800000 ≤ x.mb
  · rw [if_pos h1, if_pos h1, if_neg hx, if_neg (by simpa using hx)]
    obtain ⟨hi, hh⟩ := at_some (l := Atanf.atanHi) (n := 3) (by decide)
    rw [hh]
    exact odd_flip (o := some (hi + bits32 0x03800000)) ⟨_, rfl⟩ x.sign
  rw [if_neg h1, if_neg h1]
  by_cases h2 : x.mb < 0x39800000
  · rw [if_pos h2, if_pos h2]
    exact odd_of rfl rfl rfl
  rw [if_neg h2, if_neg h2]
  by_cases h3 : x.mb < 0x3ee00000
  · rw [if_pos h3, if_pos h3]
    obtain ⟨hf, hv⟩ := half_val32 (x := x) (by omega)
    obtain ⟨q1, q2, q3⟩ := sq_small (by decide) hf hv
    rw [polyf_neg (not_nan_of_finite q1)]
    have hv' : |x.val| ≤ 7 / 16 := seven32 h3.le
    have hR := Atanf.poly_as hf hv'
    have := odd_poly (x := x) (R := Atanf.poly x) (by decide) hf (by rw [isZero_iff]; omega) (by linarith) (by decide) hR.fin
      (by have := hR.bd; norm_num at this ⊢; linarith)
    exact odd_of rfl rfl this.2.1
  · rw [if_neg h3, if_neg h3]
    obtain ⟨hi, hh⟩ := at_some (l := Atanf.atanHi) (atanfArg_lt x.ab)
    obtain ⟨lo, hl⟩ := at_some (l := Atanf.atanLo) (atanfArg_lt x.ab)
    rw [hh, hl]
    exact odd_flip (o := some (atanfVal hi lo (atanfArg x.ab).2)) ⟨_, rfl⟩ x.sign

end Verif
