import Verif.Theory.Round

/-! # Decomposition of bit patterns, link between encodings and values -/

namespace Verif

namespace Fmt
variable (F : Fmt)

theorem bits_eq : F.bits = F.ew + F.sb + 1 := rfl

theorem one_le_sb : 1 ≤ F.sb := by have := F.hsb; omega

theorem two_pow_bits : 2 ^ F.bits = 2 ^ (F.ew + F.sb) + 2 ^ (F.ew + F.sb) := by
  rw [bits_eq, pow_succ]; omega

theorem two_pow_es : 2 ^ (F.ew + F.sb) = 2 ^ F.ew * 2 ^ F.sb := pow_add ..

theorem ew_pow_ge : 32 ≤ 2 ^ F.ew := by
  calc 32 = 2 ^ 5 := by norm_num
    _ ≤ 2 ^ F.ew := Nat.pow_le_pow_right (by norm_num) F.hew

theorem infEnc_add : F.infEnc + 2 ^ F.sb = 2 ^ (F.ew + F.sb) := by
  have := F.ew_pow_ge
  rw [infEnc, two_pow_es, Nat.sub_mul, one_mul]
  have : 2 ^ F.sb ≤ 2 ^ F.ew * 2 ^ F.sb := Nat.le_mul_of_pos_left _ (by positivity)
  omega

theorem infEnc_lt : F.infEnc < 2 ^ (F.ew + F.sb) := by
  have := F.infEnc_add
  have := Nat.two_pow_pos F.sb
  omega

theorem two_dvd_pow_sb : 2 ∣ 2 ^ F.sb := dvd_pow_self 2 (by have := F.hsb; omega)

theorem infEnc_even : F.infEnc % 2 = 0 := by
  have := F.two_dvd_pow_sb
  rw [infEnc]
  exact Nat.mod_eq_zero_of_dvd (Dvd.dvd.mul_left this _)

theorem sb_pow_ge : 1024 ≤ 2 ^ F.sb := by
  calc 1024 = 2 ^ 10 := by norm_num
    _ ≤ 2 ^ F.sb := Nat.pow_le_pow_right (by norm_num) F.hsb

theorem infEnc_pos : 0 < F.infEnc := by
  rw [infEnc]
  have := F.ew_pow_ge
  have := F.sb_pow_ge
  apply Nat.mul_pos <;> omega

theorem bias_succ : F.bias + 1 = 2 ^ (F.ew - 1) := by
  rw [bias]
  have := Nat.two_pow_pos (F.ew - 1)
  omega

theorem two_bias : 2 ^ F.ew = 2 * F.bias + 2 := by
  have h : F.ew = (F.ew - 1) + 1 := by have := F.hew; omega
  have := F.bias_succ
  rw [h, pow_succ]; omega

theorem sb_lt_bias : F.sb + 3 ≤ F.bias := by
  have := F.hfit
  have := F.bias_succ
  omega

theorem infEnc_eq : F.infEnc = (2 * F.bias + 1) * 2 ^ F.sb := by
  rw [infEnc, two_bias]; congr 1

/-- value of one least-subnormal unit -/
def ulp : ℚ := 2 ^ ((1 : ℤ) - F.bias - F.sb)

theorem ulp_pos : 0 < F.ulp := zpow_pos (by norm_num) _

theorem ulp_ne : F.ulp ≠ 0 := F.ulp_pos.ne'

/-- number of least-subnormal units in `1.0` -/
def oneMag : Nat := 2 ^ (F.bias - 1 + F.sb)

theorem oneMag_pos : 0 < F.oneMag := Nat.two_pow_pos _

theorem oneMag_mul_ulp : (F.oneMag : ℚ) * F.ulp = 1 := by
  unfold oneMag ulp
  have := F.sb_lt_bias
  rw [Nat.cast_pow, Nat.cast_ofNat, ← zpow_natCast, ← zpow_add₀ (by norm_num)]
  have : (((F.bias - 1 + F.sb : ℕ) : ℤ) + (1 - F.bias - F.sb)) = 0 := by omega
  rw [this, zpow_zero]

theorem magOf_infEnc : magOf F.sb F.infEnc = 2 ^ (2 * F.bias + F.sb) := by
  have h := magOf_split F.sb (2 * F.bias) (2 ^ F.sb) (by rw [pow_succ]; omega) (Or.inl le_rfl)
  have e : 2 * F.bias * 2 ^ F.sb + 2 ^ F.sb = F.infEnc := by rw [infEnc_eq]; ring
  rw [e] at h
  rw [h, ← pow_add]; congr 1; omega

theorem magOf_infEnc_pred :
    magOf F.sb (F.infEnc - 1) = 2 ^ (2 * F.bias + F.sb) - 2 ^ (2 * F.bias - 1) := by
  have hb : 1 ≤ 2 * F.bias := by have := F.sb_lt_bias; omega
  have h := magOf_split F.sb (2 * F.bias - 1) (2 ^ (F.sb + 1) - 1) (Nat.sub_le _ _)
    (Or.inl (by have := F.sb_pow_ge; have e : 2 ^ (F.sb + 1) = 2 ^ F.sb * 2 := pow_succ ..; omega))
  obtain ⟨B, hB⟩ := Nat.exists_eq_add_of_le hb
  have e : (2 * F.bias - 1) * 2 ^ F.sb + (2 ^ (F.sb + 1) - 1) = F.infEnc - 1 := by
    rw [infEnc_eq, hB]
    have e1 : 1 + B - 1 = B := by omega
    have := F.sb_pow_ge
    rw [e1, pow_succ]
    have : (1 + B + 1) * 2 ^ F.sb = B * 2 ^ F.sb + 2 ^ F.sb * 2 := by ring
    omega
  rw [e] at h
  rw [h, hB]
  have e1 : 1 + B - 1 = B := by omega
  rw [e1, Nat.sub_mul, one_mul, ← pow_add]
  congr 2; omega

end Fmt

namespace Flt
variable {F : Fmt}

/-- encoding without the sign bit -/
def mb (x : Flt F) : Nat := x.enc % 2 ^ (F.ew + F.sb)

/-- magnitude in least-subnormal units (virtual for infinities) -/
def mag (x : Flt F) : Nat := magOf F.sb x.mb

/-- signed value in least-subnormal units -/
def sval (x : Flt F) : Int := if x.sign then -(x.mag : Int) else x.mag

theorem enc_lt (x : Flt F) : x.enc < 2 ^ F.bits := x.toBits.isLt

theorem mb_lt (x : Flt F) : x.mb < 2 ^ (F.ew + F.sb) := Nat.mod_lt _ (Nat.two_pow_pos _)

theorem enc_eq (x : Flt F) : x.enc = x.mb + if x.sign then 2 ^ (F.ew + F.sb) else 0 := by
  have h := x.enc_lt
  rw [F.two_pow_bits] at h
  unfold mb sign
  by_cases hs : 2 ^ (F.ew + F.sb) ≤ x.enc
  · simp only [hs, decide_true, if_true]
    rw [Nat.mod_eq_sub_mod hs, Nat.mod_eq_of_lt (by omega)]
    omega
  · simp only [hs, decide_false]
    rw [Nat.mod_eq_of_lt (by omega)]
    simp

theorem ext_enc {x y : Flt F} (h : x.enc = y.enc) : x = y := by
  cases x; cases y
  simp only [enc] at h
  congr 1
  exact BitVec.eq_of_toNat_eq h

theorem ext_mb {x y : Flt F} (hs : x.sign = y.sign) (hm : x.mb = y.mb) : x = y := by
  apply ext_enc
  rw [enc_eq, enc_eq, hs, hm]

theorem expField_eq (x : Flt F) : x.expField = x.mb / 2 ^ F.sb := by
  unfold expField mb
  rw [Nat.add_comm, pow_add, Nat.mod_mul_right_div_self]

theorem fracField_eq (x : Flt F) : x.fracField = x.mb % 2 ^ F.sb := by
  unfold fracField mb
  rw [Nat.add_comm, pow_add, Nat.mod_mul_right_mod]

theorem mb_eq (x : Flt F) : x.mb = x.expField * 2 ^ F.sb + x.fracField := by
  rw [expField_eq, fracField_eq, Nat.mul_comm, Nat.div_add_mod]

theorem fracField_lt (x : Flt F) : x.fracField < 2 ^ F.sb := Nat.mod_lt _ (Nat.two_pow_pos _)
theorem expField_lt (x : Flt F) : x.expField < 2 ^ F.ew := Nat.mod_lt _ (Nat.two_pow_pos _)

theorem isFinite_iff (x : Flt F) : x.isFinite ↔ x.mb < F.infEnc := by
  unfold isFinite Fmt.infEnc
  have h1 := x.fracField_lt
  have h2 := x.expField_lt
  have h3 := F.ew_pow_ge
  rw [x.mb_eq]
  constructor
  · intro h
    have h4 : x.expField + 1 ≤ 2 ^ F.ew - 1 := by omega
    nlinarith [Nat.mul_le_mul_right (2 ^ F.sb) h4]
  · intro h h4
    rw [h4] at h; omega

theorem isInf_iff (x : Flt F) : x.isInf ↔ x.mb = F.infEnc := by
  unfold isInf Fmt.infEnc
  have h1 := x.fracField_lt
  have h2 := x.expField_lt
  have h3 := F.ew_pow_ge
  constructor
  · rintro ⟨h, h'⟩
    rw [x.mb_eq, h, h']; omega
  · intro h
    rw [x.mb_eq] at h
    have : x.expField = 2 ^ F.ew - 1 := by
      by_contra hne
      have h4 : x.expField + 1 ≤ 2 ^ F.ew - 1 := by omega
      nlinarith [Nat.mul_le_mul_right (2 ^ F.sb) h4]
    refine ⟨this, ?_⟩
    rw [this] at h; omega

theorem isNaN_iff (x : Flt F) : x.isNaN ↔ F.infEnc < x.mb := by
  have h1 := x.isFinite_iff
  have h2 := x.isInf_iff
  unfold isFinite at h1
  unfold isInf at h2
  unfold isNaN
  constructor
  · rintro ⟨a, b⟩
    rcases Nat.lt_trichotomy x.mb F.infEnc with h | h | h
    · exact absurd a (h1.mpr h)
    · exact absurd (h2.mpr h).2 b
    · exact h
  · intro h
    have a : x.expField = 2 ^ F.ew - 1 := by
      by_contra hne
      have := h1.mp hne
      omega
    refine ⟨a, fun b => ?_⟩
    have := h2.mp ⟨a, b⟩
    omega

theorem isZero_iff (x : Flt F) : x.isZero ↔ x.mb = 0 := by
  unfold isZero
  rw [x.mb_eq]
  have := Nat.two_pow_pos F.sb
  constructor
  · rintro ⟨a, b⟩; rw [a, b]; simp
  · intro h
    have h1 : x.fracField = 0 := by omega
    have h2 : x.expField * 2 ^ F.sb = 0 := by omega
    rcases Nat.mul_eq_zero.mp h2 with h | h
    · exact ⟨h, h1⟩
    · omega

theorem isZero_iff_mag (x : Flt F) : x.isZero ↔ x.mag = 0 := by
  rw [isZero_iff, mag, magOf_eq_zero]

theorem isZero_iff_sval (x : Flt F) : x.isZero ↔ x.sval = 0 := by
  rw [isZero_iff_mag, sval]; split <;> omega

theorem class_cases (x : Flt F) : x.isNaN ∨ x.isInf ∨ x.isFinite := by
  rw [isNaN_iff, isInf_iff, isFinite_iff]; omega

theorem not_nan_of_finite {x : Flt F} (h : x.isFinite) : ¬ x.isNaN := by
  rw [isNaN_iff]; rw [isFinite_iff] at h; omega
theorem not_inf_of_finite {x : Flt F} (h : x.isFinite) : ¬ x.isInf := by
  rw [isInf_iff]; rw [isFinite_iff] at h; omega
theorem not_nan_of_inf {x : Flt F} (h : x.isInf) : ¬ x.isNaN := by
  rw [isNaN_iff]; rw [isInf_iff] at h; omega
theorem finite_of_not {x : Flt F} (h : ¬ x.isNaN) (h' : ¬ x.isInf) : x.isFinite := by
  rcases x.class_cases with a | a | a <;> first | exact absurd a ‹_› | exact a
theorem not_finite_of_inf {x : Flt F} (h : x.isInf) : ¬ x.isFinite :=
  fun h' => not_inf_of_finite h' h
theorem not_finite_of_nan {x : Flt F} (h : x.isNaN) : ¬ x.isFinite :=
  fun h' => not_nan_of_finite h' h
theorem not_inf_of_nan {x : Flt F} (h : x.isNaN) : ¬ x.isInf :=
  fun h' => not_nan_of_inf h' h
theorem finite_of_zero {x : Flt F} (h : x.isZero) : x.isFinite := by
  rw [isZero_iff] at h; rw [isFinite_iff, h]; exact F.infEnc_pos

/-! ### `mk'` -/

theorem enc_mk' {s : Bool} {b : Nat} (hb : b < 2 ^ (F.ew + F.sb)) :
    (mk' F s b).enc = b + if s then 2 ^ (F.ew + F.sb) else 0 := by
  unfold mk' enc
  simp only [BitVec.toNat_ofNat]
  apply Nat.mod_eq_of_lt
  rw [F.two_pow_bits]
  split <;> omega

theorem sign_mk' {s : Bool} {b : Nat} (hb : b < 2 ^ (F.ew + F.sb)) :
    (mk' F s b).sign = s := by
  unfold sign
  rw [enc_mk' hb]
  cases s
  · simp; omega
  · simp

theorem mb_mk' {s : Bool} {b : Nat} (hb : b < 2 ^ (F.ew + F.sb)) :
    (mk' F s b).mb = b := by
  unfold mb
  rw [enc_mk' hb]
  cases s
  · simp [Nat.mod_eq_of_lt hb]
  · simp [Nat.mod_eq_of_lt hb]

@[simp] theorem mk'_self (x : Flt F) : mk' F x.sign x.mb = x :=
  ext_mb (sign_mk' x.mb_lt) (mb_mk' x.mb_lt)

theorem eq_mk' (x : Flt F) {s : Bool} {b : Nat} (h1 : x.sign = s) (h2 : x.mb = b) :
    x = mk' F s b := by
  subst h1; subst h2; simp

theorem mag_mk' {s : Bool} {b : Nat} (hb : b < 2 ^ (F.ew + F.sb)) :
    (mk' F s b).mag = magOf F.sb b := by
  rw [mag, mb_mk' hb]

/-! ### value -/

theorem mag_eq_fields (x : Flt F) :
    x.mag = if x.expField = 0 then x.fracField
      else (2 ^ F.sb + x.fracField) * 2 ^ (x.expField - 1) := by
  unfold mag magOf
  rw [expField_eq, fracField_eq]
  have hp := Nat.two_pow_pos F.sb
  by_cases h : x.mb < 2 ^ F.sb
  · rw [if_pos h, if_pos (Nat.div_eq_of_lt h), Nat.mod_eq_of_lt h]
  · rw [if_neg h, if_neg]
    intro h'
    rcases Nat.div_eq_zero_iff.mp h' with h'' | h'' <;> omega

theorem toRat_eq (x : Flt F) : x.toRat = (x.sval : ℚ) * F.ulp := by
  have key : (if x.expField = 0 then (x.fracField : ℚ) * 2 ^ ((1 : ℤ) - F.bias - F.sb)
   else ((2 ^ F.sb + x.fracField : ℕ) : ℚ) * 2 ^ ((x.expField : ℤ) - F.bias - F.sb))
      = (x.mag : ℚ) * F.ulp := by
    rw [mag_eq_fields]
    by_cases h : x.expField = 0
    · rw [if_pos h, if_pos h, Fmt.ulp]
    · rw [if_neg h, if_neg h, Fmt.ulp, Nat.cast_mul, mul_assoc]
      congr 1
      rw [Nat.cast_pow, Nat.cast_ofNat, ← zpow_natCast, ← zpow_add₀ (by norm_num)]
      congr 1
      have : 1 ≤ x.expField := by omega
      omega
  unfold toRat sval
  rw [key]
  cases x.sign
  · simp
  · simp

theorem toRat_abs (x : Flt F) : |x.toRat| = (x.mag : ℚ) * F.ulp := by
  rw [toRat_eq, abs_mul, abs_of_pos F.ulp_pos]
  congr 1
  unfold sval
  split
  · push_cast; rw [abs_neg, abs_of_nonneg (by positivity)]
  · push_cast; rw [abs_of_nonneg (by positivity)]

theorem toRat_lt {x y : Flt F} : x.toRat < y.toRat ↔ x.sval < y.sval := by
  rw [toRat_eq, toRat_eq, mul_lt_mul_iff_left₀ F.ulp_pos]; exact_mod_cast Iff.rfl
theorem toRat_le {x y : Flt F} : x.toRat ≤ y.toRat ↔ x.sval ≤ y.sval := by
  rw [toRat_eq, toRat_eq, mul_le_mul_iff_left₀ F.ulp_pos]; exact_mod_cast Iff.rfl
theorem toRat_inj {x y : Flt F} : x.toRat = y.toRat ↔ x.sval = y.sval := by
  rw [toRat_eq, toRat_eq, mul_left_inj' F.ulp_ne]; exact_mod_cast Iff.rfl
theorem toRat_eq_zero {x : Flt F} : x.toRat = 0 ↔ x.isZero := by
  rw [toRat_eq, isZero_iff_sval, mul_eq_zero, or_iff_left F.ulp_ne]; exact_mod_cast Iff.rfl

theorem natAbs_sval (x : Flt F) : x.sval.natAbs = x.mag := by
  unfold sval; split <;> simp

end Flt

/-! ### Overflow threshold in units -/

theorem overflowThreshold_eq (F : Fmt) :
    2 * overflowThreshold F =
      ((magOf F.sb (F.infEnc - 1) + magOf F.sb F.infEnc : ℕ) : ℚ) * F.ulp := by
  have hb := F.sb_lt_bias
  rw [F.magOf_infEnc, F.magOf_infEnc_pred]
  have hle : 2 ^ (2 * F.bias - 1) ≤ 2 ^ (2 * F.bias + F.sb) :=
    Nat.pow_le_pow_right (by norm_num) (by omega)
  rw [Nat.cast_add, Nat.cast_sub hle]
  unfold overflowThreshold Fmt.ulp
  push_cast
  have e1 : (2 : ℚ) ^ (2 * F.bias - 1) = 2 ^ ((2 * F.bias : ℤ) - 1) := by
    rw [← zpow_natCast]; congr 1; omega
  have e2 : (2 : ℚ) ^ (2 * F.bias + F.sb) = 2 ^ ((2 * F.bias : ℤ) + F.sb) := by
    rw [← zpow_natCast]; congr 1
  rw [e1, e2]
  have h2 : (2 : ℚ) ≠ 0 := by norm_num
  have t1 : (2 : ℚ) ^ ((2 * F.bias : ℤ) + F.sb) * 2 ^ ((1 : ℤ) - F.bias - F.sb)
      = 2 * 2 ^ (F.bias : ℤ) := by
    rw [← zpow_add₀ h2]
    have : (2 * F.bias : ℤ) + F.sb + (1 - F.bias - F.sb) = 1 + F.bias := by ring
    rw [this, zpow_add₀ h2, zpow_one]
  have t2 : (2 : ℚ) ^ ((2 * F.bias : ℤ) - 1) * 2 ^ ((1 : ℤ) - F.bias - F.sb)
      = 2 * (2 ^ (F.bias : ℤ) * 2 ^ (-(F.sb + 1) : ℤ)) := by
    rw [← zpow_add₀ h2, ← zpow_add₀ h2]
    have : (2 * F.bias : ℤ) - 1 + (1 - F.bias - F.sb) = 1 + (F.bias + (-(F.sb + 1))) := by ring
    rw [this, zpow_add₀ h2, zpow_one]
  rw [add_mul, sub_mul, t1, t2]
  ring

/-! ### Midpoint criterion for `IsRNE` -/

section
variable {F : Fmt} {K : Type} [Field K] [LinearOrder K] [IsStrictOrderedRing K]

/-- `b` is nearest-even to the magnitude `t` (in units), by midpoints, over an ordered field. -/
structure IsNearK (sb : Nat) (t : K) (b : Nat) : Prop where
  lo : ∀ c, c + 1 = b → ((magOf sb c + magOf sb b : ℕ) : K) ≤ 2 * t
  loEven : ∀ c, c + 1 = b → ((magOf sb c + magOf sb b : ℕ) : K) = 2 * t → b % 2 = 0
  hi : 2 * t ≤ ((magOf sb b + magOf sb (b + 1) : ℕ) : K)
  hiEven : 2 * t = ((magOf sb b + magOf sb (b + 1) : ℕ) : K) → b % 2 = 0

theorem IsNear.toK {sb n d b : Nat} (hd : 0 < d) (h : IsNear sb n d b) :
    IsNearK sb ((n : K) / d) b := by
  have hd' : (0 : K) < d := by exact_mod_cast hd
  have e : 2 * ((n : K) / d) = ((2 * n : ℕ) : K) / d := by push_cast; ring
  refine ⟨?_, ?_, ?_, ?_⟩
  · intro c hc
    rw [e, le_div_iff₀ hd']; exact_mod_cast h.lo c hc
  · intro c hc
    rw [e, eq_div_iff hd'.ne']; intro h'; exact h.loEven c hc (by exact_mod_cast h')
  · rw [e, div_le_iff₀ hd']; exact_mod_cast h.hi
  · rw [e, div_eq_iff hd'.ne']; intro h'; exact h.hiEven (by exact_mod_cast h')

theorem IsNearK.dist_le {sb : Nat} {t : K} {b : Nat} (h : IsNearK sb t b) (c : Nat) :
    |(magOf sb b : K) - t| ≤ |(magOf sb c : K) - t| ∧
    (|(magOf sb b : K) - t| = |(magOf sb c : K) - t| → c ≠ b → b % 2 = 0) := by
  rcases Nat.lt_trichotomy c b with hc | hc | hc
  · obtain ⟨b', rfl⟩ : ∃ b', b = b' + 1 := ⟨b - 1, by omega⟩
    have l := h.lo b' rfl
    have le := h.loEven b' rfl
    have m : (magOf sb c : K) ≤ magOf sb b' := by exact_mod_cast magOf_le.mpr (by omega)
    have m2 : (magOf sb b' : K) < magOf sb (b' + 1) := by exact_mod_cast magOf_lt.mpr (by omega)
    push_cast at l le
    constructor
    · rw [abs_sub_comm (magOf sb c : K), abs_of_nonneg (a := t - (magOf sb c : K)) (by linarith)]
      rw [abs_le]; constructor <;> linarith
    · intro heq _
      rw [abs_sub_comm (magOf sb c : K), abs_of_nonneg (a := t - (magOf sb c : K)) (by linarith)]
        at heq
      rcases abs_choice ((magOf sb (b' + 1) : K) - t) with h1 | h1
      · rw [h1] at heq
        have : (magOf sb c : K) = magOf sb b' := by linarith
        apply le; linarith
      · rw [h1] at heq; exfalso; linarith
  · subst hc; exact ⟨le_rfl, fun _ h => absurd rfl h⟩
  · have l := h.hi
    have le := h.hiEven
    have m : (magOf sb (b + 1) : K) ≤ magOf sb c := by exact_mod_cast magOf_le.mpr (by omega)
    have m2 : (magOf sb b : K) < magOf sb (b + 1) := by exact_mod_cast magOf_lt.mpr (by omega)
    push_cast at l le
    constructor
    · rw [abs_of_nonneg (a := (magOf sb c : K) - t) (by linarith)]
      rw [abs_le]; constructor <;> linarith
    · intro heq _
      rw [abs_of_nonneg (a := (magOf sb c : K) - t) (by linarith)] at heq
      rcases abs_choice ((magOf sb b : K) - t) with h1 | h1
      · rw [h1] at heq; exfalso; linarith
      · rw [h1] at heq
        apply le; linarith

theorem isRNE_of_near {q t : K} {b : Nat} {s : Bool} (hq : |q| = t * (F.ulp : ℚ))
    (hs : q ≠ 0 → (s = true ↔ q < 0)) (h : IsNearK F.sb t b) :
    IsRNE q (Flt.mk' F s (min b F.infEnc)) := by
  have hu : (0 : K) < ((F.ulp : ℚ) : K) := by exact_mod_cast F.ulp_pos
  have hbl : min b F.infEnc < 2 ^ (F.ew + F.sb) := lt_of_le_of_lt (min_le_right _ _) F.infEnc_lt
  have ht0 : 0 ≤ t := by
    by_contra hneg
    have : t * (F.ulp : ℚ) < 0 := mul_neg_of_neg_of_pos (by linarith) hu
    have := abs_nonneg q
    linarith
  have hthr : ((overflowThreshold F : ℚ) : K) ≤ |q| ↔
      ((magOf F.sb (F.infEnc - 1) + magOf F.sb F.infEnc : ℕ) : K) ≤ 2 * t := by
    have e := overflowThreshold_eq F
    have e' : 2 * ((overflowThreshold F : ℚ) : K) =
      ((magOf F.sb (F.infEnc - 1) + magOf F.sb F.infEnc : ℕ) : K) * ((F.ulp : ℚ) : K) := by
      exact_mod_cast congrArg (Rat.cast (K := K)) e
    rw [hq]
    constructor
    · intro h
      have : ((magOf F.sb (F.infEnc - 1) + magOf F.sb F.infEnc : ℕ) : K) * ((F.ulp : ℚ) : K)
        ≤ (2 * t) * ((F.ulp : ℚ) : K) := by rw [← e']; linarith
      exact le_of_mul_le_mul_right this hu
    · intro h
      have := mul_le_mul_of_nonneg_right h hu.le
      rw [← e'] at this
      linarith
  have hip := F.infEnc_pos
  have hev := F.infEnc_even
  have hbig : ((overflowThreshold F : ℚ) : K) ≤ |q| ↔ F.infEnc ≤ b := by
    rw [hthr]
    constructor
    · intro h1
      by_contra hlt
      have hlt : b < F.infEnc := by omega
      have h2 := h.hi
      have m1 : magOf F.sb b ≤ magOf F.sb (F.infEnc - 1) := magOf_le.mpr (by omega)
      have m2 : magOf F.sb (b + 1) ≤ magOf F.sb F.infEnc := magOf_le.mpr (by omega)
      have h3 : ((magOf F.sb b + magOf F.sb (b + 1) : ℕ) : K) ≤
         ((magOf F.sb (F.infEnc - 1) + magOf F.sb F.infEnc : ℕ) : K) := by
        exact_mod_cast (by omega : magOf F.sb b + magOf F.sb (b + 1) ≤
          magOf F.sb (F.infEnc - 1) + magOf F.sb F.infEnc)
      have h4 : ((magOf F.sb b + magOf F.sb (b + 1) : ℕ) : K) =
         ((magOf F.sb (F.infEnc - 1) + magOf F.sb F.infEnc : ℕ) : K) := by linarith
      have h5 : magOf F.sb b + magOf F.sb (b + 1) =
          magOf F.sb (F.infEnc - 1) + magOf F.sb F.infEnc := by exact_mod_cast h4
      have h6 : magOf F.sb b = magOf F.sb (F.infEnc - 1) := by omega
      have h7 := magOf_inj.mp h6
      have h8 := h.hiEven (by linarith)
      omega
    · intro h1
      obtain ⟨c, hc⟩ : ∃ c, c + 1 = b := ⟨b - 1, by omega⟩
      have h2 := h.lo c hc
      have m1 : magOf F.sb (F.infEnc - 1) ≤ magOf F.sb c := magOf_le.mpr (by omega)
      have m2 : magOf F.sb F.infEnc ≤ magOf F.sb b := magOf_le.mpr (by omega)
      refine le_trans ?_ h2
      exact_mod_cast (by omega)
  unfold IsRNE
  by_cases hov : ((overflowThreshold F : ℚ) : K) ≤ |q|
  · rw [if_pos hov]
    have hb := hbig.mp hov
    have hq0 : q ≠ 0 := by
      intro h0
      rw [h0, abs_zero] at hov
      have : (0 : ℚ) < overflowThreshold F := by
        have e := overflowThreshold_eq F
        have : (0 : ℚ) < ((magOf F.sb (F.infEnc - 1) + magOf F.sb F.infEnc : ℕ) : ℚ) * F.ulp := by
          apply mul_pos _ F.ulp_pos
          have : 0 < magOf F.sb F.infEnc := magOf_pos.mpr hip
          exact_mod_cast (by omega)
        linarith
      have : (0 : K) < ((overflowThreshold F : ℚ) : K) := by exact_mod_cast this
      linarith
    refine ⟨?_, ?_⟩
    · rw [Flt.isInf_iff, Flt.mb_mk' hbl]; omega
    · rw [Flt.sign_mk' hbl]; exact hs hq0
  · rw [if_neg hov]
    have hb : b < F.infEnc := by
      by_contra h'; exact hov (hbig.mpr (by omega))
    have hmin : min b F.infEnc = b := min_eq_left hb.le
    rw [hmin] at hbl ⊢
    set r := Flt.mk' F s b with hr
    have hrs : r.sign = s := Flt.sign_mk' hbl
    have hrm : r.mb = b := Flt.mb_mk' hbl
    -- distance from r
    have hrd : |((r.toRat : ℚ) : K) - q| = |(magOf F.sb b : K) - t| * ((F.ulp : ℚ) : K) := by
      have hsv : ((r.toRat : ℚ) : K) = (if s then -1 else 1) * (magOf F.sb b : K) * ((F.ulp : ℚ) : K)
        := by
        rw [Flt.toRat_eq, Flt.sval, hrs, Flt.mag, hrm]
        cases s <;> simp
      by_cases hq0 : q = 0
      · have ht : t = 0 := by
          rw [hq0, abs_zero] at hq
          rcases mul_eq_zero.mp hq.symm with h1 | h1
          · exact h1
          · exact absurd h1 hu.ne'
        rw [hsv, hq0, ht, sub_zero, sub_zero, abs_mul, abs_mul, abs_of_pos hu]
        congr 1
        cases s <;> simp
      · have := hs hq0
        cases hsb : s
        · rw [hsb] at hsv this
          have hqn : ¬ q < 0 := by simpa using this
          have : q = t * ((F.ulp : ℚ) : K) := by rw [← hq, abs_of_nonneg (by linarith)]
          rw [hsv, this]
          have e : (if (false : Bool) = true then (-1 : K) else 1) * (magOf F.sb b : K) *
            ((F.ulp : ℚ) : K) - t * ((F.ulp : ℚ) : K)
             = ((magOf F.sb b : K) - t) * ((F.ulp : ℚ) : K) := by simp; ring
          rw [e, abs_mul, abs_of_pos hu]
        · rw [hsb] at hsv this
          have hqn : q < 0 := by simpa using this
          have : q = - (t * ((F.ulp : ℚ) : K)) := by rw [← hq, abs_of_neg hqn]; ring
          rw [hsv, this]
          have e : (if (true : Bool) = true then (-1 : K) else 1) * (magOf F.sb b : K) *
            ((F.ulp : ℚ) : K) - -(t * ((F.ulp : ℚ) : K))
             = -(((magOf F.sb b : K) - t) * ((F.ulp : ℚ) : K)) := by simp; ring
          rw [e, abs_neg, abs_mul, abs_of_pos hu]
    -- distance from any other datum is at least that of its magnitude
    have hsd : ∀ y : Flt F, |(magOf F.sb y.mb : K) - t| * ((F.ulp : ℚ) : K) ≤
        |((y.toRat : ℚ) : K) - q| := by
      intro y
      have h1 : |((y.toRat : ℚ) : K)| = (magOf F.sb y.mb : K) * ((F.ulp : ℚ) : K) := by
        have := Flt.toRat_abs y
        have h2 := congrArg (Rat.cast (K := K)) this
        push_cast at h2
        exact h2
      have h2 := abs_abs_sub_abs_le ((y.toRat : ℚ) : K) q
      rw [h1, hq, ← sub_mul, abs_mul, abs_of_pos hu] at h2
      exact h2
    refine ⟨?_, ?_, ?_, ?_⟩
    · rw [Flt.isFinite_iff, hrm]; exact hb
    · intro y _
      rw [hrd]
      refine le_trans ?_ (hsd y)
      exact mul_le_mul_of_nonneg_right (h.dist_le y.mb).1 hu.le
    · intro y _ heq hne
      have hfr : r.fracField % 2 = b % 2 := by
        rw [Flt.fracField_eq, hrm]
        exact Nat.mod_mod_of_dvd b F.two_dvd_pow_sb
      rw [hfr]
      have h1 := hsd y
      rw [← heq, hrd] at h1
      have h2 := le_of_mul_le_mul_right h1 hu
      have h3 := (h.dist_le y.mb).1
      have h4 : |(magOf F.sb b : K) - t| = |(magOf F.sb y.mb : K) - t| := le_antisymm h3 h2
      by_cases hyb : y.mb = b
      · -- opposite sign, then compare with zero
        have hb0 : y.sign ≠ s := by
          intro hss
          exact hne (by rw [Flt.toRat_inj, Flt.sval, Flt.sval, Flt.mag, Flt.mag, hyb, hrm, hss, hrs])
        have h5 : ((y.toRat : ℚ) : K) = - ((r.toRat : ℚ) : K) := by
          rw [Flt.toRat_eq, Flt.toRat_eq, Flt.sval, Flt.sval, Flt.mag, Flt.mag, hyb, hrm, hrs]
          cases hy : y.sign <;> cases hs' : s <;> simp_all
        rw [h5] at heq
        have hb1 : b ≠ 0 := by
          intro h0
          apply hne
          rw [Flt.toRat_inj, Flt.sval, Flt.sval, Flt.mag, Flt.mag, hyb, hrm, h0]
          simp
        -- |r - q| = |r + q| means r*q = 0, so q = 0, so t = 0
        have h6 : ((r.toRat : ℚ) : K) * q = 0 := by
          have := congrArg (fun z => z ^ 2) heq
          simp only [sq_abs] at this
          ring_nf at this
          nlinarith
        have hr0 : ((r.toRat : ℚ) : K) ≠ 0 := by
          have : r.toRat ≠ 0 := by
            rw [Ne, Flt.toRat_eq_zero, Flt.isZero_iff, hrm]; exact hb1
          exact_mod_cast this
        have hq0 : q = 0 := by
          rcases mul_eq_zero.mp h6 with h | h
          · exact absurd h hr0
          · exact h
        have ht : t = 0 := by
          rw [hq0, abs_zero] at hq
          rcases mul_eq_zero.mp hq.symm with h1 | h1
          · exact h1
          · exact absurd h1 hu.ne'
        have h7 := (h.dist_le 0).1
        rw [ht] at h7
        simp at h7
        exact absurd (magOf_eq_zero.mp h7) hb1
      · exact (h.dist_le y.mb).2 h4 hyb
    · rw [hrs]; exact hs

end

theorem roundMag_isRNE {F : Fmt} {q : ℚ} {s : Bool} {n d : Nat} (hd : 0 < d)
    (hq : |q| = (n : ℚ) / d * F.ulp) (hs : q ≠ 0 → (s = true ↔ q < 0)) :
    IsRNE q (roundMag F s n d) := by
  refine isRNE_of_near (t := (n : ℚ) / d) (by rw [hq]; simp) hs ?_
  exact (roundU_isNear F.one_le_sb n d hd).toK hd

end Verif
