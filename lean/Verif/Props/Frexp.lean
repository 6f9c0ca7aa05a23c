import Verif.Theory.Fmod

/-! # C13 frexp, C14 ilogb -/

namespace Verif
open Flt
variable {F : Fmt}

/-- value of a finite number with nonzero exponent field -/
theorem toRat_normal (x : Flt F) (h : x.expField ≠ 0) :
    x.toRat = (if x.sign then -1 else 1) * (1 + (x.fracField : ℚ) / 2 ^ F.sb) *
      2 ^ ((x.expField : ℤ) - F.bias) := by
  unfold toRat
  rw [if_neg h]
  have e1 : (2 : ℚ) ^ ((x.expField : ℤ) - F.bias - F.sb) = 2 ^ ((x.expField : ℤ) - F.bias) / 2 ^ F.sb := by
    rw [zpow_sub₀ (by norm_num) _ (F.sb : ℤ), zpow_natCast]
  rw [e1]
  have : (2 : ℚ) ^ F.sb ≠ 0 := by positivity
  push_cast
  field_simp

theorem frac_bounds (x : Flt F) : (0 : ℚ) ≤ (x.fracField : ℚ) / 2 ^ F.sb ∧
    (x.fracField : ℚ) / 2 ^ F.sb < 1 := by
  constructor
  · positivity
  · rw [div_lt_one (by positivity)]; exact_mod_cast x.fracField_lt

/-- the mantissa part of frexp -/
theorem frexp_core (x : Flt F) (h : x.expField ≠ 0) :
    let m := fromParts F x.sign (F.bias - 1) (frac x)
    m.isFinite ∧ 1 / 2 ≤ |m.toRat| ∧ |m.toRat| < 1 ∧
      m.toRat * 2 ^ ((x.expField : ℤ) - ((F.bias - 1 : ℕ) : ℤ)) = x.toRat := by
  intro m
  have hb := F.sb_lt_bias
  have hfr : (frac x).toNat = x.fracField := frac_toNat x
  obtain ⟨m1, m2⟩ := fromParts_value (F := F) x.sign (F.bias - 1) (frac x) (by omega)
    (by rw [F.two_bias]; omega) (by rw [hfr]; exact x.fracField_lt)
  rw [hfr] at m2
  obtain ⟨b1, b2⟩ := frac_bounds x
  have e1 : ((F.bias - 1 : ℕ) : ℤ) - F.bias = -1 := by omega
  rw [e1, zpow_neg_one] at m2
  have ha : |m.toRat| = (1 + (x.fracField : ℚ) / 2 ^ F.sb) / 2 := by
    rw [m2, abs_mul, abs_mul]
    have h1 : |(if x.sign then (-1 : ℚ) else 1)| = 1 := by cases x.sign <;> simp
    rw [h1, abs_of_pos (by linarith : (0 : ℚ) < 1 + (x.fracField : ℚ) / 2 ^ F.sb),
      abs_of_pos (by norm_num : (0 : ℚ) < 2⁻¹)]
    ring
  refine ⟨m1, by rw [ha]; linarith, by rw [ha]; linarith, ?_⟩
  rw [m2, toRat_normal x h]
  have e2 : ((x.expField : ℤ) - F.bias) = -1 + ((x.expField : ℤ) - ((F.bias - 1 : ℕ) : ℤ)) := by omega
  rw [e2, zpow_add₀ (by norm_num), zpow_neg_one]
  ring

/-- zero exponent field: scaling by 2^64 is exact and gives a normal number -/
theorem frexp_scale (hF : F.sb ≤ 64) (hF' : 64 ≤ F.bias) (x c : Flt F) (hc : c.isFinite)
    (hcs : c.sign = false) (hcm : c.mag = 2 ^ 64 * F.oneMag) (hx : x.isFinite)
    (he : x.expField = 0) (h0 : ¬ x.isZero) :
    (x * c).isFinite ∧ (x * c).toRat = x.toRat * 2 ^ 64 ∧ (x * c).expField ≠ 0 := by
  have hm : x.mag < 2 ^ F.sb := by rw [mag_eq_fields, if_pos he]; exact x.fracField_lt
  have hlt : x.mag * 2 ^ 64 < 2 ^ (2 * F.bias + F.sb) := by
    calc x.mag * 2 ^ 64 < 2 ^ F.sb * 2 ^ 64 := Nat.mul_lt_mul_of_pos_right hm (by norm_num)
      _ ≤ 2 ^ (2 * F.bias + F.sb) := by
        rw [← pow_add]; exact Nat.pow_le_pow_right (by norm_num) (by omega)
  obtain ⟨k1, k2, k3⟩ := mul_pow2_exact hx hc hcm hlt
  rw [hcs, Bool.xor_false] at k2
  refine ⟨k1, ?_, ?_⟩
  · rw [toRat_eq, toRat_eq, sval, sval, k2, k3]
    cases x.sign <;> simp <;> ring
  · intro hz
    have h1 : (x * c).mag < 2 ^ F.sb := by rw [mag_eq_fields, if_pos hz]; exact fracField_lt _
    rw [k3] at h1
    have h2 : 0 < x.mag := by rw [isZero_iff_mag] at h0; omega
    have h3 : 2 ^ F.sb ≤ 2 ^ 64 := Nat.pow_le_pow_right (by norm_num) hF
    have h4 : 1 * 2 ^ 64 ≤ x.mag * 2 ^ 64 := Nat.mul_le_mul_right _ h2
    omega

theorem feq_zero_iff (x : Flt F) : (x =ᶠ zero F false) = true ↔ x.isZero := by
  rw [feq_iff, isZero_iff_sval]
  constructor
  · rintro ⟨_, _, h⟩; simpa using h
  · intro h
    exact ⟨not_nan_of_finite (finite_of_zero ((isZero_iff_sval x).mpr h)), not_nan_of_finite (by simp),
      by simpa using h⟩

/-! ## f64 -/

theorem frexp_bits64 (x : Flt f64) :
    ((show BitVec 64 from x.toBits) >>> 52 &&& 0x7ff#64).toNat = x.expField :=
  expField_bits (F := f64) x (m := 0x7ff#64) (by decide)

theorem frexpFuel_normal (n : Nat) (x : Flt f64) (hx : x.isFinite) (h : x.expField ≠ 0) :
    frexpFuel (n + 1) x =
      some (fromParts f64 x.sign (f64.bias - 1) (frac x), (x.expField : ℤ) - ((f64.bias - 1 : ℕ) : ℤ)) := by
  have he := frexp_bits64 x
  have hr := replace_exp (F := f64) x (c := 0x3fe0000000000000#64) (k := f64.bias - 1) (by decide) rfl
  rw [← hr]
  unfold frexpFuel
  simp only [he]
  rw [if_neg (by exact_mod_cast h), if_neg]
  · rfl
  · unfold isFinite at hx
    have : 2 ^ f64.ew - 1 = 0x7ff := by decide
    rw [this] at hx; exact_mod_cast hx

/-- C13 (f64): exact decomposition of every finite nonzero number, subnormals included -/
theorem frexp_finite (x : Flt f64) (hx : x.isFinite) (h0 : ¬ x.isZero) :
    ∃ m e, frexp x = some (m, e) ∧ m.isFinite ∧ 1 / 2 ≤ |m.toRat| ∧ |m.toRat| < 1 ∧
      m.toRat * 2 ^ e = x.toRat := by
  by_cases he : x.expField = 0
  · obtain ⟨k1, k2, k3⟩ := frexp_scale (F := f64) (by decide) (by decide) x
      (ofNat f64 0x43f0000000000000) (by decide) (by decide) (by decide +kernel) hx he h0
    obtain ⟨c1, c2, c3, c4⟩ := frexp_core _ k3
    refine ⟨fromParts f64 (x * ofNat f64 0x43f0000000000000).sign (f64.bias - 1) (frac (x * ofNat f64 0x43f0000000000000)),
      ((x * ofNat f64 0x43f0000000000000).expField : ℤ) - ((f64.bias - 1 : ℕ) : ℤ) - 64, ?_, c1, c2, c3, ?_⟩
    · unfold frexp
      rw [frexpFuel]
      simp only [frexp_bits64 x]
      rw [if_pos (by exact_mod_cast he), if_pos (by simpa using fun h => h0 ((feq_zero_iff x).mp h)),
        frexpFuel_normal 0 _ k1 k3]
      rfl
    · rw [zpow_sub₀ (by norm_num), ← mul_div_assoc, c4, k2]
      norm_num
  · obtain ⟨c1, c2, c3, c4⟩ := frexp_core _ he
    exact ⟨_, _, frexpFuel_normal 1 x hx he, c1, c2, c3, c4⟩

/-- C13 (f64): zeros, infinities and NaNs are returned unchanged with exponent 0 -/
theorem frexp_special (x : Flt f64) (h : x.isZero ∨ ¬ x.isFinite) : frexp x = some (x, 0) := by
  unfold frexp
  rw [frexpFuel]
  simp only [frexp_bits64 x]
  by_cases h0 : x.isZero
  · rw [if_pos (by exact_mod_cast h0.1), if_neg (by simpa using (feq_zero_iff x).mpr h0)]
  · have hx := h.resolve_left h0
    have hx' : x.expField = 2 ^ f64.ew - 1 := by unfold isFinite at hx; simpa using hx
    have : 2 ^ f64.ew - 1 = 0x7ff := by decide
    rw [this] at hx'
    rw [hx', if_neg (by decide), if_pos (by decide)]

example : ¬ (ofNat f64 1).isZero ∧ (ofNat f64 1).isFinite ∧
    frexp (ofNat f64 1) = some (ofNat f64 0x3fe0000000000000, -1073) := by
  refine ⟨by decide, by decide, by decide +kernel⟩

/-! ## f32 -/

theorem frexp_bits32 (x : Flt f32) :
    ((show BitVec 32 from x.toBits) >>> 23 &&& 0xff#32).toNat = x.expField :=
  expField_bits (F := f32) x (m := 0xff#32) (by decide)

theorem frexpfFuel_normal (n : Nat) (x : Flt f32) (hx : x.isFinite) (h : x.expField ≠ 0) :
    frexpfFuel (n + 1) x =
      some (fromParts f32 x.sign (f32.bias - 1) (frac x), (x.expField : ℤ) - ((f32.bias - 1 : ℕ) : ℤ)) := by
  have he := frexp_bits32 x
  have hr := replace_exp (F := f32) x (c := 0x3f000000#32) (k := f32.bias - 1) (by decide) rfl
  rw [← hr]
  unfold frexpfFuel
  simp only [he]
  rw [if_neg (by exact_mod_cast h), if_neg]
  · rfl
  · unfold isFinite at hx
    have : 2 ^ f32.ew - 1 = 0xff := by decide
    rw [this] at hx; exact_mod_cast hx

/-- C13 (f32) -/
theorem frexpf_finite (x : Flt f32) (hx : x.isFinite) (h0 : ¬ x.isZero) :
    ∃ m e, frexpf x = some (m, e) ∧ m.isFinite ∧ 1 / 2 ≤ |m.toRat| ∧ |m.toRat| < 1 ∧
      m.toRat * 2 ^ e = x.toRat := by
  by_cases he : x.expField = 0
  · obtain ⟨k1, k2, k3⟩ := frexp_scale (F := f32) (by decide) (by decide) x
      (ofNat f32 0x5f800000) (by decide) (by decide) (by decide +kernel) hx he h0
    obtain ⟨c1, c2, c3, c4⟩ := frexp_core _ k3
    refine ⟨fromParts f32 (x * ofNat f32 0x5f800000).sign (f32.bias - 1) (frac (x * ofNat f32 0x5f800000)),
      ((x * ofNat f32 0x5f800000).expField : ℤ) - ((f32.bias - 1 : ℕ) : ℤ) - 64, ?_, c1, c2, c3, ?_⟩
    · unfold frexpf
      rw [frexpfFuel]
      simp only [frexp_bits32 x]
      rw [if_pos (by exact_mod_cast he), if_pos (by simpa using fun h => h0 ((feq_zero_iff x).mp h)),
        frexpfFuel_normal 0 _ k1 k3]
      rfl
    · rw [zpow_sub₀ (by norm_num), ← mul_div_assoc, c4, k2]
      norm_num
  · obtain ⟨c1, c2, c3, c4⟩ := frexp_core _ he
    exact ⟨_, _, frexpfFuel_normal 1 x hx he, c1, c2, c3, c4⟩

/-- C13 (f32) -/
theorem frexpf_special (x : Flt f32) (h : x.isZero ∨ ¬ x.isFinite) : frexpf x = some (x, 0) := by
  unfold frexpf
  rw [frexpfFuel]
  simp only [frexp_bits32 x]
  by_cases h0 : x.isZero
  · rw [if_pos (by exact_mod_cast h0.1), if_neg (by simpa using (feq_zero_iff x).mpr h0)]
  · have hx := h.resolve_left h0
    have hx' : x.expField = 2 ^ f32.ew - 1 := by unfold isFinite at hx; simpa using hx
    have : 2 ^ f32.ew - 1 = 0xff := by decide
    rw [this] at hx'
    rw [hx', if_neg (by decide), if_pos (by decide)]

example : frexpf (ofNat f32 0xc0a00000) = some (ofNat f32 0xbf200000, 3) := by decide +kernel

/-! ## C14 -/

theorem ilogb_normal (x : Flt F) (h : x.expField ≠ 0) :
    (2 : ℚ) ^ ((x.expField : ℤ) - F.bias) ≤ |x.toRat| ∧
    |x.toRat| < 2 ^ ((x.expField : ℤ) - F.bias + 1) := by
  obtain ⟨b1, b2⟩ := frac_bounds x
  have hp : (0 : ℚ) < 2 ^ ((x.expField : ℤ) - F.bias) := zpow_pos (by norm_num) _
  have ha : |x.toRat| = (1 + (x.fracField : ℚ) / 2 ^ F.sb) * 2 ^ ((x.expField : ℤ) - F.bias) := by
    rw [toRat_normal x h, abs_mul, abs_mul]
    have h1 : |(if x.sign then (-1 : ℚ) else 1)| = 1 := by cases x.sign <;> simp
    rw [h1, abs_of_pos (by linarith : (0 : ℚ) < 1 + (x.fracField : ℚ) / 2 ^ F.sb), abs_of_pos hp]
    ring
  rw [ha, zpow_add_one₀ (by norm_num)]
  constructor <;> nlinarith

theorem ilogb_subnormal (x : Flt F) (he : x.expField = 0) (h0 : ¬ x.isZero) :
    let L : ℕ := Nat.log2 x.fracField
    (2 : ℚ) ^ ((L : ℤ) + (1 - F.bias - F.sb)) ≤ |x.toRat| ∧
    |x.toRat| < 2 ^ ((L : ℤ) + (1 - F.bias - F.sb) + 1) := by
  intro L
  have hne : x.fracField ≠ 0 := fun h => h0 ⟨he, h⟩
  have hm : |x.toRat| = (x.fracField : ℚ) * 2 ^ ((1 : ℤ) - F.bias - F.sb) := by
    rw [toRat_abs, mag_eq_fields, if_pos he]; rfl
  have hp : (0 : ℚ) < 2 ^ ((1 : ℤ) - F.bias - F.sb) := zpow_pos (by norm_num) _
  rw [hm]
  have a1 : 2 ^ L ≤ x.fracField := Nat.log2_self_le hne
  have a2 : x.fracField < 2 ^ (L + 1) := Nat.lt_log2_self
  have a1' : (2 : ℚ) ^ L ≤ x.fracField := by exact_mod_cast a1
  have a2' : (x.fracField : ℚ) < 2 ^ (L + 1) := by exact_mod_cast a2
  constructor
  · rw [zpow_add₀ (by norm_num), zpow_natCast]
    exact mul_le_mul_of_nonneg_right a1' hp.le
  · rw [show (L : ℤ) + (1 - F.bias - F.sb) + 1 = ((L + 1 : ℕ) : ℤ) + (1 - F.bias - F.sb) by push_cast; ring,
      zpow_add₀ (by norm_num), zpow_natCast]
    exact mul_lt_mul_of_pos_right a2' hp

/-- C14 (f64): `ilogb x` is the exponent of `x`, subnormals included -/
theorem ilogb_finite (x : Flt f64) (hx : x.isFinite) (h0 : ¬ x.isZero) :
    ∃ e, ilogb x = some e ∧ (2 : ℚ) ^ e ≤ |x.toRat| ∧ |x.toRat| < 2 ^ (e + 1) := by
  have he := frexp_bits64 x
  unfold ilogb
  simp only [he]
  by_cases hz : x.expField = 0
  · have hf : x.fracField ≠ 0 := fun h => h0 ⟨hz, h⟩
    have hn : ¬ (x.toBits <<< (f64.ew + 1) = 0#_) := by
      rw [← BitVec.toNat_inj, shl_frac]; simp [hf]
    have hn' : ¬ ((show BitVec 64 from x.toBits) <<< 12 = 0#64) := hn
    rw [if_pos (by exact_mod_cast hz), if_neg hn']
    refine ⟨_, normLoop_frac (F := f64) x hf _, ?_⟩
    have := ilogb_subnormal x hz h0
    have hl : Nat.log2 x.fracField < 52 := (Nat.log2_lt hf).mpr x.fracField_lt
    have e1 : (-0x3ff : ℤ) - ((f64.sb - 1 - Nat.log2 x.fracField : ℕ) : ℤ) =
        (Nat.log2 x.fracField : ℤ) + (1 - f64.bias - f64.sb) := by
      have h1 : f64.bias = 0x3ff := by decide
      have h2 : f64.sb = 52 := rfl
      rw [h1, h2]; push_cast [Nat.sub_sub]; omega
    rw [e1]; exact this
  · rw [if_neg (by exact_mod_cast hz), if_neg]
    · refine ⟨_, rfl, ?_⟩
      have h1 : f64.bias = 0x3ff := by decide
      have := ilogb_normal x hz
      rw [h1] at this; exact this
    · unfold isFinite at hx
      have : 2 ^ f64.ew - 1 = 0x7ff := by decide
      rw [this] at hx; exact_mod_cast hx

/-- C14 (f64): special values -/
theorem ilogb_special (x : Flt f64) :
    (x.isZero → ilogb x = some (-2147483648)) ∧ (x.isNaN → ilogb x = some (-2147483648)) ∧
    (x.isInf → ilogb x = some 2147483647) := by
  have he := frexp_bits64 x
  have hs := shl_frac x
  have hiff : x.toBits <<< (f64.ew + 1) = 0#_ ↔ x.fracField = 0 := by
    rw [← BitVec.toNat_inj, hs]; simp
  unfold ilogb
  simp only [he]
  have h7 : 2 ^ f64.ew - 1 = 0x7ff := by decide
  refine ⟨fun h => ?_, fun h => ?_, fun h => ?_⟩
  · have hc : x.toBits <<< (f64.ew + 1) = 0#_ := hiff.mpr h.2
    rw [if_pos (by exact_mod_cast h.1)]
    exact if_pos hc
  · unfold isNaN at h
    rw [h7] at h
    rw [h.1, if_neg (by decide), if_pos (by decide)]
    exact if_pos (fun hc => h.2 (hiff.mp hc))
  · unfold isInf at h
    rw [h7] at h
    rw [h.1, if_neg (by decide), if_pos (by decide)]
    exact if_neg (fun hc => hc (hiff.mpr h.2))

example : ilogb (ofNat f64 5) = some (-1072) := by decide +kernel

/-- C14 (f32) -/
theorem ilogbf_finite (x : Flt f32) (hx : x.isFinite) (h0 : ¬ x.isZero) :
    ∃ e, ilogbf x = some e ∧ (2 : ℚ) ^ e ≤ |x.toRat| ∧ |x.toRat| < 2 ^ (e + 1) := by
  have he := frexp_bits32 x
  unfold ilogbf
  simp only [he]
  by_cases hz : x.expField = 0
  · have hf : x.fracField ≠ 0 := fun h => h0 ⟨hz, h⟩
    have hn : ¬ (x.toBits <<< (f32.ew + 1) = 0#_) := by
      rw [← BitVec.toNat_inj, shl_frac]; simp [hf]
    have hn' : ¬ ((show BitVec 32 from x.toBits) <<< 9 = 0#32) := hn
    rw [if_pos (by exact_mod_cast hz), if_neg hn']
    refine ⟨_, normLoop_frac (F := f32) x hf _, ?_⟩
    have := ilogb_subnormal x hz h0
    have hl : Nat.log2 x.fracField < 23 := (Nat.log2_lt hf).mpr x.fracField_lt
    have e1 : (-0x7f : ℤ) - ((f32.sb - 1 - Nat.log2 x.fracField : ℕ) : ℤ) =
        (Nat.log2 x.fracField : ℤ) + (1 - f32.bias - f32.sb) := by
      have h1 : f32.bias = 0x7f := by decide
      have h2 : f32.sb = 23 := rfl
      rw [h1, h2]; push_cast [Nat.sub_sub]; omega
    rw [e1]; exact this
  · rw [if_neg (by exact_mod_cast hz), if_neg]
    · refine ⟨_, rfl, ?_⟩
      have h1 : f32.bias = 0x7f := by decide
      have := ilogb_normal x hz
      rw [h1] at this; exact this
    · unfold isFinite at hx
      have : 2 ^ f32.ew - 1 = 0xff := by decide
      rw [this] at hx; exact_mod_cast hx

/-- C14 (f32): special values -/
theorem ilogbf_special (x : Flt f32) :
    (x.isZero → ilogbf x = some (-2147483648)) ∧ (x.isNaN → ilogbf x = some (-2147483648)) ∧
    (x.isInf → ilogbf x = some 2147483647) := by
  have he := frexp_bits32 x
  have hs := shl_frac x
  have hiff : x.toBits <<< (f32.ew + 1) = 0#_ ↔ x.fracField = 0 := by
    rw [← BitVec.toNat_inj, hs]; simp
  unfold ilogbf
  simp only [he]
  have h7 : 2 ^ f32.ew - 1 = 0xff := by decide
  refine ⟨fun h => ?_, fun h => ?_, fun h => ?_⟩
  · have hc : x.toBits <<< (f32.ew + 1) = 0#_ := hiff.mpr h.2
    rw [if_pos (by exact_mod_cast h.1)]
    exact if_pos hc
  · unfold isNaN at h
    rw [h7] at h
    rw [h.1, if_neg (by decide), if_pos (by decide)]
    exact if_pos (fun hc => h.2 (hiff.mp hc))
  · unfold isInf at h
    rw [h7] at h
    rw [h.1, if_neg (by decide), if_pos (by decide)]
    exact if_neg (fun hc => hc (hiff.mpr h.2))

example : ilogbf (ofNat f32 0x41000000) = some 3 := by decide +kernel

end Verif
