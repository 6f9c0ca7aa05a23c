import Verif.Model.Erf
import Verif.Theory.ErfKern
import Verif.Props.HypSpecial
import Verif.Props.InvTrig

/-!
# Symmetry and special values of erf and erfc

* C32 (`erf_odd`, `erff_odd`): `erf(-x) = -erf(x)` bit for bit.
* C48: `erf` and `erfc` return for every argument; their values at zero, infinity, NaN and where they saturate.
-/

namespace Verif
open Flt Hyp Trig InvTrig

namespace Erf

theorem ix_neg (x : Flt f64) : getHighWord (-x) &&& 0x7fffffff#32 = getHighWord x &&& 0x7fffffff#32 := by
  apply BitVec.eq_of_toNat_eq
  rw [hi_abs, hi_abs, mb_neg]

theorem ix32_neg (x : Flt f32) : (-x).u32 &&& 0x7fffffff#32 = x.u32 &&& 0x7fffffff#32 := by
  apply BitVec.eq_of_toNat_eq
  rw [u32_abs, u32_abs, mb_neg]

theorem fabs_neg {F : Fmt} (x : Flt F) : Generic.fabs (-x) = Generic.fabs x := by
  rw [fabs_ab, fabs_ab, ab_neg]

theorem erfc2_neg (ix : BitVec 32) (x : Flt f64) : erfc2 ix (-x) = erfc2 ix x := by
  unfold erfc2 erfc1
  simp only [fabs_neg]

theorem erfc2f_neg (ix : BitVec 32) (x : Flt f32) : Erff.erfc2 ix (-x) = Erff.erfc2 ix x := by
  unfold Erff.erfc2 Erff.erfc1
  simp only [fabs_neg]

theorem erfc2_tot (ix : BitVec 32) (x : Flt f64) : ∃ r, erfc2 ix x = some r := by
  unfold erfc2
  by_cases h : ix < 0x3ff40000#32
  · rw [if_pos h]; exact ⟨_, rfl⟩
  · rw [if_neg h]
    exact bind_total (exp_tot _) fun e => map_total (exp_tot _)

theorem erfc2f_tot (ix : BitVec 32) (x : Flt f32) : ∃ r, Erff.erfc2 ix x = some r := by
  unfold Erff.erfc2
  by_cases h : ix < 0x3fa00000#32
  · rw [if_pos h]; exact ⟨_, rfl⟩
  · rw [if_neg h]
    exact bind_total (expf_tot _) fun e => map_total (expf_tot _)

/-- the part of `erf` for `0.84375 <= |x|` before the sign is put back -/
def outer (x : Flt f64) : Option (Flt f64) :=
  if x.mb < 0x40180000 * 2 ^ 32 then (erfc2 (getHighWord x &&& 0x7fffffff#32) x).map fun e => 1.0 - e
  else some (1.0 - bits64 0x0010000000000000#64)

def outerf (x : Flt f32) : Option (Flt f32) :=
  if x.mb < 0x40c00000 then (Erff.erfc2 (x.u32 &&& 0x7fffffff#32) x).map fun e => 1.0 - e
  else some (1.0 - bits32 0x03800000#32)

theorem outer_neg (x : Flt f64) : outer (-x) = outer x := by
  unfold outer
  rw [mb_neg, ix_neg, erfc2_neg]

theorem outerf_neg (x : Flt f32) : outerf (-x) = outerf x := by
  unfold outerf
  rw [mb_neg, ix32_neg, erfc2f_neg]

theorem outer_tot (x : Flt f64) : ∃ r, outer x = some r := by
  unfold outer
  by_cases h : x.mb < 0x40180000 * 2 ^ 32
  · rw [if_pos h]; exact map_total (erfc2_tot _ _)
  · rw [if_neg h]; exact ⟨_, rfl⟩

theorem outerf_tot (x : Flt f32) : ∃ r, outerf x = some r := by
  unfold outerf
  by_cases h : x.mb < 0x40c00000
  · rw [if_pos h]; exact map_total (erfc2f_tot _ _)
  · rw [if_neg h]; exact ⟨_, rfl⟩

theorem erf_eq (x : Flt f64) : erf x =
    if 0x7ff00000 * 2 ^ 32 ≤ x.mb then some ((1.0 : Flt f64) - (2.0 : Flt f64) * ofInt f64 (getHighWord x >>> 31).toNat + 1.0 / x)
    else if x.mb < 0x3feb0000 * 2 ^ 32 then
      if x.mb < 0x3e300000 * 2 ^ 32 then some (0.125 * (8.0 * x + efx8 * x)) else some (x + x * ratio x)
    else (outer x).map (flip x.sign) := by
  unfold erf outer
  have e : getHighWord x >>> 31 ≠ 0#32 ↔ x.sign = true := hi_sign_ne x
  simp only [ge_iff_le, le_ix, ix_lt, Hyp.ite_flip _ _ _ e]
  simp only [BitVec.ofNat_eq_ofNat, BitVec.reduceToNat]

theorem erff_eq (x : Flt f32) : erff x =
    if 0x7f800000 ≤ x.mb then some ((1.0 : Flt f32) - (2.0 : Flt f32) * ofInt f32 (x.u32 >>> 31).toNat + 1.0 / x)
    else if x.mb < 0x3f580000 then
      if x.mb < 0x31800000 then some (0.125 * (8.0 * x + Erff.efx8 * x)) else some (x + x * Erff.ratio x)
    else (outerf x).map (flip x.sign) := by
  unfold erff outerf
  have e : x.u32 >>> 31 ≠ 0#32 ↔ x.sign = true := u32_sign_ne x
  simp only [ge_iff_le, le_ix32, Trig.ix32_lt, Hyp.ite_flip _ _ _ e]
  simp only [BitVec.ofNat_eq_ofNat, BitVec.reduceToNat]

/-- multiplying by a power of two is exact unless it overflows -/
theorem exists_scale_up {F : Fmt} (x : Flt F) (k : ℕ) (h : |x.val| * 2 ^ k < 2 ^ ((F.bias : ℤ) + 1)) :
    ∃ c : Flt F, c.isFinite ∧ c.val = x.val * 2 ^ k := by
  have hu : (0 : ℝ) < ((F.ulp : ℚ) : ℝ) := by exact_mod_cast F.ulp_pos
  have hmax : x.mag * 2 ^ k < 2 ^ (2 * F.bias + F.sb) := by
    have h1 : (2 : ℝ) ^ ((F.bias : ℤ) + 1) = 2 ^ (2 * F.bias + F.sb) * ((F.ulp : ℚ) : ℝ) := by
      rw [ulp_real, ← zpow_natCast, ← zpow_add₀ (by norm_num)]; congr 1; push_cast; ring
    rw [h1, val_abs, mul_right_comm, mul_lt_mul_iff_left₀ hu] at h
    exact_mod_cast h
  obtain ⟨c, hc, hs, hm⟩ := exists_datum (rep_shift F.sb x.mb k) hmax x.sign
  refine ⟨c, hc, ?_⟩
  have : c.sval = x.sval * 2 ^ k := by
    unfold sval
    rw [hm, hs]
    cases x.sign <;> simp [mag]
  rw [val_eq, val_eq, this]; push_cast; ring

/-- `0.125 * (8x + cx)` is not zero when `x` is not -/
theorem tiny_ne {F : Fmt} {x a b c : Flt F} (hb : 127 ≤ F.bias) (hx : x.isFinite) (hx1 : |x.val| ≤ 1)
    (ha : a.isFinite) (va : a.val = 8) (hc : c.isFinite) (vc : 0 ≤ c.val ∧ c.val ≤ 2) (hbb : b.isFinite) (vb : b.val = 1 / 8) :
    (b * (a * x + c * x)).isFinite ∧ |x.val| ≤ |(b * (a * x + c * x)).val| := by
  have hT : (2 : ℝ) ^ (127 : ℤ) ≤ 2 ^ (F.bias : ℤ) := zpow_le_zpow_right₀ (by norm_num) (by exact_mod_cast hb)
  have hT' : (100 : ℝ) ≤ 2 ^ (F.bias : ℤ) := le_trans (by norm_num) hT
  obtain ⟨y, hy, vy⟩ := exists_scale_up x 3 (by
    rw [zpow_add₀ (by norm_num)]
    generalize (2 : ℝ) ^ (F.bias : ℤ) = T at *
    norm_num; linarith)
  norm_num at vy
  obtain ⟨f1, v1⟩ := (mul_rne ha hx).exact_real hy (by rw [vy, va]; ring)
  have h2 := mul_rne hc hx
  have hcx : |c.val * x.val| ≤ 2 := by
    rw [abs_mul, abs_of_nonneg vc.1]; nlinarith [abs_nonneg x.val]
  obtain ⟨f2, -, -⟩ := h2.finite (by linarith)
  have b2 := h2.two f2
  have h3 := add_rne f1 f2
  have h8 : |a.val * x.val| ≤ 8 := by rw [va, abs_mul]; norm_num; exact hx1
  obtain ⟨f3, -, -⟩ := h3.finite (by
    rw [v1]
    have := abs_add_le (a.val * x.val) (c * x).val
    linarith)
  have b3 := h3.two f3
  have h4 := mul_rne hbb f3
  obtain ⟨f4, -, -⟩ := h4.finite (by
    rw [v1] at b3
    have := abs_add_le (a.val * x.val) (c * x).val
    rw [abs_mul, vb, abs_of_pos (by norm_num : (0 : ℝ) < 1 / 8)]
    linarith)
  refine ⟨f4, ?_⟩
  rcases le_total 0 x.val with hp | hp
  · have c2 : 0 ≤ (c * x).val := rne_nonneg h2 f2 (mul_nonneg vc.1 hp)
    have c3 := h3.ge_of_ge f3 hy (by rw [v1, va, vy]; linarith)
    have c4 := h4.ge_of_ge f4 hx (by rw [vb]; rw [vy] at c3; linarith)
    rw [abs_of_nonneg hp]
    exact le_trans c4 (le_abs_self _)
  · have c2 : (c * x).val ≤ 0 := by
      have := h2.le_of_le f2 (isFinite_zero false) (by rw [val_zero]; exact mul_nonpos_of_nonneg_of_nonpos vc.1 hp)
      rwa [val_zero] at this
    have c3 := h3.le_of_le f3 hy (by rw [v1, va, vy]; linarith)
    have c4 := h4.le_of_le f4 hx (by rw [vb]; rw [vy] at c3; linarith)
    rw [abs_of_nonpos hp]
    exact le_trans (neg_le_neg c4) (neg_le_abs _)


theorem ab_lt_of {F : Fmt} {x c : Flt F} (h : |c.val| ≤ |x.val|) : c.mb ≤ x.mb := by
  by_contra hc
  have h1 : x.mag < c.mag := (magOf_lt (sb := F.sb)).2 (by omega)
  rw [val_abs, val_abs] at h
  have h2 : (x.mag : ℝ) < c.mag := by exact_mod_cast h1
  have hu : (0 : ℝ) < ((F.ulp : ℚ) : ℝ) := by exact_mod_cast F.ulp_pos
  nlinarith

theorem small64 {x : Flt f64} (h : x.mb < 0x3feb0000 * 2 ^ 32) : x.isFinite ∧ |x.val| ≤ 27 / 32 := by
  refine ⟨(isFinite64 x).2 (by omega), ?_⟩
  have := abs_val_mono (x := x) (c := bits64 0x3feb000000000000#64) (by
    rw [show (bits64 0x3feb000000000000#64).mb = 0x3feb0000 * 2 ^ 32 by decide +kernel]; omega)
  rw [val_const64 27 1069 (-5) (by decide +kernel) (by norm_num) (x := bits64 0x3feb000000000000#64)] at this
  norm_num at this
  exact this.trans (by norm_num)

theorem small32 {x : Flt f32} (h : x.mb < 0x3f580000) : x.isFinite ∧ |x.val| ≤ 27 / 32 := by
  refine ⟨(isFinite32 x).2 (by omega), ?_⟩
  have := abs_val_mono (x := x) (c := bits32 0x3f580000#32) (by
    rw [show (bits32 0x3f580000#32).mb = 0x3f580000 by decide +kernel]; omega)
  rw [val_const32 27 144 (-5) (by decide +kernel) (by norm_num) (x := bits32 0x3f580000#32)] at this
  norm_num at this
  exact this.trans (by norm_num)

theorem ratio_neg {x : Flt f64} (h : x.mb < 0x3feb0000 * 2 ^ 32) : ratio (-x) = ratio x := by
  obtain ⟨hf, hv⟩ := small64 h
  unfold ratio
  have hn : ¬ (x * x).isNaN := not_nan_of_finite ((mul_rne hf hf).finite (by
    rw [abs_mul]
    have : (2 : ℝ) ^ (f64.bias : ℤ) = 2 ^ 1023 := by norm_num [f64_bias]
    have h3 : |x.val| * |x.val| ≤ 1 := by nlinarith [abs_nonneg x.val]
    rw [this]
    have := one_le_pow₀ (M₀ := ℝ) (a := 2) (n := 1023) (by norm_num)
    generalize (2 : ℝ) ^ 1023 = T at *
    linarith)).1
  rw [sq_neg hn]

theorem ratiof_neg {x : Flt f32} (h : x.mb < 0x3f580000) : Erff.ratio (-x) = Erff.ratio x := by
  obtain ⟨hf, hv⟩ := small32 h
  unfold Erff.ratio
  have hn : ¬ (x * x).isNaN := not_nan_of_finite ((mul_rne hf hf).finite (by
    rw [abs_mul]
    have : (2 : ℝ) ^ (f32.bias : ℤ) = 2 ^ 127 := by norm_num [f32_bias]
    have h3 : |x.val| * |x.val| ≤ 1 := by nlinarith [abs_nonneg x.val]
    rw [this]
    have := one_le_pow₀ (M₀ := ℝ) (a := 2) (n := 127) (by norm_num)
    linarith)).1
  rw [sq_neg hn]

theorem odd_nonzero {F : Fmt} {r r' : Flt F} (h : SRel true r r') (hz : ¬ r.isZero) :
    ∃ s s', some r = some s ∧ some r' = some s' ∧ (s' = -s ∨ s.isNaN ∧ s'.isNaN) :=
  ⟨r, r', rfl, rfl, h.opp hz⟩

theorem nz_of_abs {F : Fmt} {x r : Flt F} (h0 : ¬ x.isZero) (h : |x.val| ≤ |r.val|) : ¬ r.isZero := by
  intro hz
  rw [isZero_val] at h0 hz
  rw [hz, abs_zero] at h
  exact h0 (abs_eq_zero.1 (le_antisymm h (abs_nonneg _)))

theorem tiny_rel {F : Fmt} (a b c x : Flt F) : SRel true (b * (a * x + c * x)) (b * (a * -x + c * -x)) := by
  have h1 : SRel true (a * x) (a * -x) := SRel.mul (s := false) (t := true) (SRel.refl _) (SRel.neg x)
  have h2 : SRel true (c * x) (c * -x) := SRel.mul (s := false) (t := true) (SRel.refl _) (SRel.neg x)
  exact SRel.mul (s := false) (t := true) (SRel.refl _) (h1.add h2)

end Erf
open Erf

/-- **C32** -/
theorem erf_odd : OddFn erf := by
  intro x hx
  by_cases hz : x.isZero
  · rw [eq_zero hz]
    cases x.sign
    · exact odd_of (r := zero f64 false) (r' := zero f64 true) (by decide +kernel) (by decide +kernel) (by decide +kernel)
    · exact odd_of (r := zero f64 true) (r' := zero f64 false) (by decide +kernel) (by decide +kernel) (by decide +kernel)
  by_cases hi : x.isInf
  · rw [eq_inf hi]
    cases x.sign
    · exact odd_of (r := one f64) (r' := -one f64) (by decide +kernel) (by decide +kernel) rfl
    · exact odd_of (r := -one f64) (r' := one f64) (by decide +kernel) (by decide +kernel) (by decide +kernel)
  have h1 : ¬ 0x7ff00000 * 2 ^ 32 ≤ x.mb := by
    rw [isNaN64] at hx; rw [isInf64] at hi; omega
  rw [erf_eq, erf_eq, mb_neg, if_neg h1, if_neg h1]
  by_cases h2 : x.mb < 0x3feb0000 * 2 ^ 32
  · rw [if_pos h2, if_pos h2]
    obtain ⟨hf, hv⟩ := small64 h2
    by_cases h3 : x.mb < 0x3e300000 * 2 ^ 32
    · rw [if_pos h3, if_pos h3]
      refine odd_nonzero ?_ (nz_of_abs hz (tiny_ne (by decide) hf (by linarith) (by decide +kernel)
        (by rw [val_const64 1 1077 3 (by decide +kernel) (by norm_num)]; norm_num) (by decide +kernel)
        (by rw [efx8_val]; constructor <;> norm_num) (by decide +kernel)
        (by rw [val_const64 1 1071 (-3) (by decide +kernel) (by norm_num)]; norm_num)).2)
      exact tiny_rel _ _ _ _
    · rw [if_neg h3, if_neg h3, ratio_neg h2]
      obtain ⟨hR, hR1⟩ := ratio_small hf hv
      have := odd_poly (x := x) (R := ratio x) (by decide) hf hz (by linarith) (by decide) hR hR1
      exact odd_of rfl rfl this.1
  · rw [if_neg h2, if_neg h2, outer_neg, Flt.sign_neg]
    exact odd_flip (outer_tot _) _

/-- **C32** -/
theorem erff_odd : OddFn erff := by
  intro x hx
  by_cases hz : x.isZero
  · rw [eq_zero hz]
    cases x.sign
    · exact odd_of (r := zero f32 false) (r' := zero f32 true) (by decide +kernel) (by decide +kernel) (by decide +kernel)
    · exact odd_of (r := zero f32 true) (r' := zero f32 false) (by decide +kernel) (by decide +kernel) (by decide +kernel)
  by_cases hi : x.isInf
  · rw [eq_inf hi]
    cases x.sign
    · exact odd_of (r := one f32) (r' := -one f32) (by decide +kernel) (by decide +kernel) rfl
    · exact odd_of (r := -one f32) (r' := one f32) (by decide +kernel) (by decide +kernel) (by decide +kernel)
  have h1 : ¬ 0x7f800000 ≤ x.mb := by
    rw [isNaN32] at hx; rw [isInf32] at hi; omega
  rw [erff_eq, erff_eq, mb_neg, if_neg h1, if_neg h1]
  by_cases h2 : x.mb < 0x3f580000
  · rw [if_pos h2, if_pos h2]
    obtain ⟨hf, hv⟩ := small32 h2
    by_cases h3 : x.mb < 0x31800000
    · rw [if_pos h3, if_pos h3]
      refine odd_nonzero ?_ (nz_of_abs hz (tiny_ne (by decide) hf (by linarith) (by decide +kernel)
        (by rw [val_const32 1 152 3 (by decide +kernel) (by norm_num)]; norm_num) (by decide +kernel)
        (by rw [Erff.efx8_val]; constructor <;> norm_num) (by decide +kernel)
        (by rw [val_const32 1 146 (-3) (by decide +kernel) (by norm_num)]; norm_num)).2)
      exact tiny_rel _ _ _ _
    · rw [if_neg h3, if_neg h3, ratiof_neg h2]
      obtain ⟨hR, hR1⟩ := Erff.ratio_small hf hv
      have := odd_poly (x := x) (R := Erff.ratio x) (by decide) hf hz (by linarith) (by decide) hR hR1
      exact odd_of rfl rfl this.1
  · rw [if_neg h2, if_neg h2, outerf_neg, Flt.sign_neg]
    exact odd_flip (outerf_tot _) _

/-- what `erf` must return: it never panics, and

* NaN for NaN,
* `±1` for `±inf` and for every finite `|x| >= 6`,
* `±0` for `±0`. -/
structure IsErfSpecial {F : Fmt} (f : Flt F → Option (Flt F)) : Prop where
  total : ∀ x, ∃ r, f x = some r
  nan : ∀ x, x.isNaN → ∃ r, f x = some r ∧ r.isNaN
  zero : ∀ x, x.isZero → f x = some x
  inf : ∀ s, f (Flt.inf F s) = some (if s then -Flt.one F else Flt.one F)
  one : ∀ x, x.isFinite → 6 ≤ x.val → f x = some (Flt.one F)
  negOne : ∀ x, x.isFinite → x.val ≤ -6 → f x = some (-Flt.one F)

/-- what `erfc` must return: it never panics, and

* NaN for NaN,
* `+0` for `+inf` and every finite `x >= 28`,
* `2` for `-inf` and every finite `x <= -28`,
* `1 - x` rounded to nearest where `|x| < 2^-56`; in particular `1` for `±0`. -/
structure IsErfcSpecial {F : Fmt} (f : Flt F → Option (Flt F)) : Prop where
  total : ∀ x, ∃ r, f x = some r
  nan : ∀ x, x.isNaN → ∃ r, f x = some r ∧ r.isNaN
  posInf : f (Flt.inf F false) = some (Flt.zero F false)
  negInf : ∃ r, f (Flt.inf F true) = some r ∧ r.isFinite ∧ r.val = 2
  high : ∀ x, x.isFinite → 28 ≤ x.val → f x = some (Flt.zero F false)
  low : ∀ x, x.isFinite → x.val ≤ -28 → ∃ r, f x = some r ∧ r.isFinite ∧ r.val = 2
  small : ∀ x, x.isFinite → |x.val| < 1 / 2 ^ 56 → ∃ r, f x = some r ∧ IsRNE (1 - x.val) r

namespace Erf

theorem val6_64 : (bits64 0x4018000000000000#64).val = 6 := by
  rw [val_const64 3 1075 1 (by decide +kernel) (by norm_num)]; norm_num
theorem val28_64 : (bits64 0x403c000000000000#64).val = 28 := by
  rw [val_const64 7 1076 2 (by decide +kernel) (by norm_num)]; norm_num
theorem val6_32 : (bits32 0x40c00000#32).val = 6 := by
  rw [val_const32 3 150 1 (by decide +kernel) (by norm_num)]; norm_num
theorem val28_32 : (bits32 0x41e00000#32).val = 28 := by
  rw [val_const32 7 151 2 (by decide +kernel) (by norm_num)]; norm_num

theorem ge6_64 {x : Flt f64} (h : 6 ≤ |x.val|) : 0x40180000 * 2 ^ 32 ≤ x.mb := by
  have := ab_lt_of (x := x) (c := bits64 0x4018000000000000#64) (by rw [val6_64]; norm_num; exact h)
  rw [show (bits64 0x4018000000000000#64).mb = 0x40180000 * 2 ^ 32 by decide +kernel] at this
  exact this
theorem ge28_64 {x : Flt f64} (h : 28 ≤ |x.val|) : 0x403c0000 * 2 ^ 32 ≤ x.mb := by
  have := ab_lt_of (x := x) (c := bits64 0x403c000000000000#64) (by rw [val28_64]; norm_num; exact h)
  rw [show (bits64 0x403c000000000000#64).mb = 0x403c0000 * 2 ^ 32 by decide +kernel] at this
  exact this
theorem ge6_32 {x : Flt f32} (h : 6 ≤ |x.val|) : 0x40c00000 ≤ x.mb := by
  have := ab_lt_of (x := x) (c := bits32 0x40c00000#32) (by rw [val6_32]; norm_num; exact h)
  rw [show (bits32 0x40c00000#32).mb = 0x40c00000 by decide +kernel] at this
  exact this
theorem ge28_32 {x : Flt f32} (h : 28 ≤ |x.val|) : 0x41e00000 ≤ x.mb := by
  have := ab_lt_of (x := x) (c := bits32 0x41e00000#32) (by rw [val28_32]; norm_num; exact h)
  rw [show (bits32 0x41e00000#32).mb = 0x41e00000 by decide +kernel] at this
  exact this

theorem lt_tiny64 {x : Flt f64} (h : |x.val| < 1 / 2 ^ 56) : x.mb < 0x3c700000 * 2 ^ 32 := by
  by_contra hc
  have := val_ge_of_mb (x := x) (E := 0x3c7) (by norm_num) (by rw [f64_sb]; omega)
  rw [f64_bias] at this
  norm_num at this h
  linarith
theorem lt_tiny32 {x : Flt f32} (h : |x.val| < 1 / 2 ^ 56) : x.mb < 0x23800000 := by
  by_contra hc
  have := val_ge_of_mb (x := x) (E := 0x47) (by norm_num) (by rw [f32_sb]; omega)
  rw [f32_bias] at this
  norm_num at this h
  linarith

theorem erf_nan (x : Flt f64) (hx : x.isNaN) : ∃ r, erf x = some r ∧ r.isNaN := by
  rw [erf_eq, if_pos (by rw [isNaN64] at hx; omega : 0x7ff00000 * 2 ^ 32 ≤ x.mb)]
  refine ⟨_, rfl, ?_⟩
  rw [add_nan (Or.inr (by rw [div_nan (Or.inr hx)]; simp))]
  simp
theorem erff_nan (x : Flt f32) (hx : x.isNaN) : ∃ r, erff x = some r ∧ r.isNaN := by
  rw [erff_eq, if_pos (by rw [isNaN32] at hx; omega : 0x7f800000 ≤ x.mb)]
  refine ⟨_, rfl, ?_⟩
  rw [add_nan (Or.inr (by rw [div_nan (Or.inr hx)]; simp))]
  simp

theorem erf_big {x : Flt f64} (hx : x.isFinite) (h : 6 ≤ |x.val|) : erf x = some (flip x.sign (one f64)) := by
  have h1 := ge6_64 h
  rw [isFinite64] at hx
  rw [erf_eq, if_neg (by omega : ¬ 0x7ff00000 * 2 ^ 32 ≤ x.mb), if_neg (by omega : ¬ x.mb < 0x3feb0000 * 2 ^ 32), outer,
    if_neg (by omega : ¬ x.mb < 0x40180000 * 2 ^ 32), show (1.0 - bits64 0x0010000000000000#64) = one f64 by decide +kernel]
  exact Option.map_some ..
theorem erff_big {x : Flt f32} (hx : x.isFinite) (h : 6 ≤ |x.val|) : erff x = some (flip x.sign (one f32)) := by
  have h1 := ge6_32 h
  rw [isFinite32] at hx
  rw [erff_eq, if_neg (by omega : ¬ 0x7f800000 ≤ x.mb), if_neg (by omega : ¬ x.mb < 0x3f580000), outerf,
    if_neg (by omega : ¬ x.mb < 0x40c00000), show (1.0 - bits32 0x03800000#32) = one f32 by decide +kernel]
  exact Option.map_some ..

theorem sign_pos {F : Fmt} {x : Flt F} (h : 0 < x.val) : x.sign = false := by
  cases hs : x.sign
  · rfl
  · have := val_nonpos hs; linarith

theorem erfc_eq (x : Flt f64) : erfc x =
    if 0x7ff00000 * 2 ^ 32 ≤ x.mb then some ((2.0 : Flt f64) * ofInt f64 (getHighWord x >>> 31).toNat + 1.0 / x)
    else if x.mb < 0x3feb0000 * 2 ^ 32 then
      if x.mb < 0x3c700000 * 2 ^ 32 then some (1.0 - x)
      else if x.sign = true ∨ x.mb < 0x3fd00000 * 2 ^ 32 then some (1.0 - (x + x * ratio x))
      else some (0.5 - (x - 0.5 + x * ratio x))
    else if x.mb < 0x403c0000 * 2 ^ 32 then
      if x.sign = true then (erfc2 (getHighWord x &&& 0x7fffffff#32) x).map fun e => 2.0 - e
      else erfc2 (getHighWord x &&& 0x7fffffff#32) x
    else if x.sign = true then some (2.0 - bits64 0x0010000000000000#64)
    else some (bits64 0x0010000000000000#64 * bits64 0x0010000000000000#64) := by
  unfold erfc
  have e : getHighWord x >>> 31 ≠ 0#32 ↔ x.sign = true := hi_sign_ne x
  simp only [ge_iff_le, le_ix, ix_lt, e]
  simp only [BitVec.ofNat_eq_ofNat, BitVec.reduceToNat]

theorem erfcf_eq (x : Flt f32) : erfcf x =
    if 0x7f800000 ≤ x.mb then some ((2.0 : Flt f32) * ofInt f32 (x.u32 >>> 31).toNat + 1.0 / x)
    else if x.mb < 0x3f580000 then
      if x.mb < 0x23800000 then some (1.0 - x)
      else if x.sign = true ∨ x.mb < 0x3e800000 then some (1.0 - (x + x * Erff.ratio x))
      else some (0.5 - (x - 0.5 + x * Erff.ratio x))
    else if x.mb < 0x41e00000 then
      if x.sign = true then (Erff.erfc2 (x.u32 &&& 0x7fffffff#32) x).map fun e => 2.0 - e
      else Erff.erfc2 (x.u32 &&& 0x7fffffff#32) x
    else if x.sign = true then some (2.0 - bits32 0x03800000#32)
    else some (bits32 0x03800000#32 * bits32 0x03800000#32) := by
  unfold erfcf
  have e : x.u32 >>> 31 ≠ 0#32 ↔ x.sign = true := u32_sign_ne x
  simp only [ge_iff_le, le_ix32, Trig.ix32_lt, e]
  simp only [BitVec.ofNat_eq_ofNat, BitVec.reduceToNat]

theorem two64 : (2.0 : Flt f64).isFinite ∧ (2.0 : Flt f64).val = 2 :=
  ⟨by decide +kernel, by rw [val_const64 1 1075 1 (by decide +kernel) (by norm_num)]; norm_num⟩
theorem two32 : (2.0 : Flt f32).isFinite ∧ (2.0 : Flt f32).val = 2 :=
  ⟨by decide +kernel, by rw [val_const32 1 150 1 (by decide +kernel) (by norm_num)]; norm_num⟩

theorem ite_total {α : Type} {p : Prop} [Decidable p] {a b : Option α} (ha : ∃ r, a = some r) (hb : ∃ r, b = some r) :
    ∃ r, (if p then a else b) = some r := by
  by_cases h : p
  · rw [if_pos h]; exact ha
  · rw [if_neg h]; exact hb

theorem some_total {α : Type} (a : α) : ∃ r, some a = some r := ⟨a, rfl⟩

end Erf

/-- **C48** -/
theorem erf_special : IsErfSpecial erf where
  total := total_of_odd erf_odd erf_nan
  nan := erf_nan
  zero := fun x hx => zero_tac (f := erf) (g := fun s => Flt.zero f64 s) (by decide +kernel) x hx ▸ by rw [← eq_zero hx]
  inf := by decide +kernel
  one := fun x hx h => by
    rw [erf_big hx (h.trans (le_abs_self _)), sign_pos (by linarith)]; rfl
  negOne := fun x hx h => by
    rw [erf_big hx (by have := neg_le_abs x.val; linarith), sign_of_val_neg (by linarith)]; rfl

/-- **C48** -/
theorem erff_special : IsErfSpecial erff where
  total := total_of_odd erff_odd erff_nan
  nan := erff_nan
  zero := fun x hx => zero_tac (f := erff) (g := fun s => Flt.zero f32 s) (by decide +kernel) x hx ▸ by rw [← eq_zero hx]
  inf := by decide +kernel
  one := fun x hx h => by
    rw [erff_big hx (h.trans (le_abs_self _)), sign_pos (by linarith)]; rfl
  negOne := fun x hx h => by
    rw [erff_big hx (by have := neg_le_abs x.val; linarith), sign_of_val_neg (by linarith)]; rfl

/-- **C48** -/
theorem erfc_special : IsErfcSpecial erfc where
  total := fun x => by
    rw [erfc_eq]
    exact ite_total (some_total _) (ite_total (ite_total (some_total _) (ite_total (some_total _) (some_total _)))
      (ite_total (ite_total (map_total (erfc2_tot _ _)) (erfc2_tot _ _)) (ite_total (some_total _) (some_total _))))
  nan := fun x hx => by
    rw [erfc_eq, if_pos (by rw [isNaN64] at hx; omega : 0x7ff00000 * 2 ^ 32 ≤ x.mb)]
    refine ⟨_, rfl, ?_⟩
    rw [add_nan (Or.inr (by rw [div_nan (Or.inr hx)]; simp))]
    simp
  posInf := by decide +kernel
  negInf := ⟨2.0, by decide +kernel, two64⟩
  high := fun x hx h => by
    have h1 := ge28_64 (h.trans (le_abs_self _))
    have h2 : x.sign = false := sign_pos (by linarith)
    rw [isFinite64] at hx
    rw [erfc_eq, if_neg (by omega : ¬ 0x7ff00000 * 2 ^ 32 ≤ x.mb), if_neg (by omega : ¬ x.mb < 0x3feb0000 * 2 ^ 32),
      if_neg (by omega : ¬ x.mb < 0x403c0000 * 2 ^ 32), h2]
    decide +kernel
  low := fun x hx h => by
    have h1 := ge28_64 (x := x) (by have := neg_le_abs x.val; linarith)
    have h2 : x.sign = true := sign_of_val_neg (by linarith)
    rw [isFinite64] at hx
    rw [erfc_eq, if_neg (by omega : ¬ 0x7ff00000 * 2 ^ 32 ≤ x.mb), if_neg (by omega : ¬ x.mb < 0x3feb0000 * 2 ^ 32),
      if_neg (by omega : ¬ x.mb < 0x403c0000 * 2 ^ 32), h2]
    exact ⟨2.0, by decide +kernel, two64⟩
  small := fun x hx h => by
    have h1 := lt_tiny64 h
    rw [erfc_eq, if_neg (by omega : ¬ 0x7ff00000 * 2 ^ 32 ≤ x.mb), if_pos (by omega : x.mb < 0x3feb0000 * 2 ^ 32), if_pos h1]
    refine ⟨_, rfl, ?_⟩
    have h2 := sub_rne (x := one f64) (y := x) (by decide +kernel) hx
    rw [val_one] at h2
    rw [show (1.0 : Flt f64) = one f64 by decide +kernel]
    exact h2

/-- **C48** -/
theorem erfcf_special : IsErfcSpecial erfcf where
  total := fun x => by
    rw [erfcf_eq]
    exact ite_total (some_total _) (ite_total (ite_total (some_total _) (ite_total (some_total _) (some_total _)))
      (ite_total (ite_total (map_total (erfc2f_tot _ _)) (erfc2f_tot _ _)) (ite_total (some_total _) (some_total _))))
  nan := fun x hx => by
    rw [erfcf_eq, if_pos (by rw [isNaN32] at hx; omega : 0x7f800000 ≤ x.mb)]
    refine ⟨_, rfl, ?_⟩
    rw [add_nan (Or.inr (by rw [div_nan (Or.inr hx)]; simp))]
    simp
  posInf := by decide +kernel
  negInf := ⟨2.0, by decide +kernel, two32⟩
  high := fun x hx h => by
    have h1 := ge28_32 (h.trans (le_abs_self _))
    have h2 : x.sign = false := sign_pos (by linarith)
    rw [isFinite32] at hx
    rw [erfcf_eq, if_neg (by omega : ¬ 0x7f800000 ≤ x.mb), if_neg (by omega : ¬ x.mb < 0x3f580000),
      if_neg (by omega : ¬ x.mb < 0x41e00000), h2]
    decide +kernel
  low := fun x hx h => by
    have h1 := ge28_32 (x := x) (by have := neg_le_abs x.val; linarith)
    have h2 : x.sign = true := sign_of_val_neg (by linarith)
    rw [isFinite32] at hx
    rw [erfcf_eq, if_neg (by omega : ¬ 0x7f800000 ≤ x.mb), if_neg (by omega : ¬ x.mb < 0x3f580000),
      if_neg (by omega : ¬ x.mb < 0x41e00000), h2]
    exact ⟨2.0, by decide +kernel, two32⟩
  small := fun x hx h => by
    have h1 := lt_tiny32 h
    rw [erfcf_eq, if_neg (by omega : ¬ 0x7f800000 ≤ x.mb), if_pos (by omega : x.mb < 0x3f580000), if_pos h1]
    refine ⟨_, rfl, ?_⟩
    have h2 := sub_rne (x := one f32) (y := x) (by decide +kernel) hx
    rw [val_one] at h2
    rw [show (1.0 : Flt f32) = one f32 by decide +kernel]
    exact h2

/-- the hypotheses are met: `erf(7) = 1`, `erfc(30) = 0`, `erfc(-30) = 2`, and `erf(0.5)` is the double nearest to
0.5204998778130465 -/
example : erf 7.0 = some 1.0 ∧ erfc 30.0 = some 0.0 ∧ erfc (-30.0) = some 2.0 ∧ erf 0.5 = some 0.5204998778130465 := by decide +kernel

end Verif
