import Verif.Model.Arith
import Mathlib.Tactic.FieldSimp
import Mathlib.Tactic.LinearCombination
import Mathlib.Tactic.Zify

/-! # Lemmas on the machine operations -/

namespace Verif
namespace Flt
variable {F : Fmt}

theorem zero_lt_es (F : Fmt) : 0 < 2 ^ (F.ew + F.sb) := Nat.two_pow_pos _

theorem qnan_lt (F : Fmt) : F.infEnc + 2 ^ (F.sb - 1) < 2 ^ (F.ew + F.sb) := by
  have h := F.infEnc_add
  have : 2 ^ (F.sb - 1) < 2 ^ F.sb := Nat.pow_lt_pow_right (by norm_num) (by have := F.hsb; omega)
  omega

@[simp] theorem sign_zero (s : Bool) : (zero F s).sign = s := sign_mk' (zero_lt_es F)
@[simp] theorem mb_zero (s : Bool) : (zero F s).mb = 0 := mb_mk' (zero_lt_es F)
@[simp] theorem mag_zero (s : Bool) : (zero F s).mag = 0 := by rw [mag]; simp
@[simp] theorem sval_zero (s : Bool) : (zero F s).sval = 0 := by rw [sval]; simp
@[simp] theorem isZero_zero (s : Bool) : (zero F s).isZero := by rw [isZero_iff]; simp
@[simp] theorem isFinite_zero (s : Bool) : (zero F s).isFinite := finite_of_zero (by simp)
@[simp] theorem toRat_zero (s : Bool) : (zero F s).toRat = 0 := by rw [toRat_eq]; simp
@[simp] theorem sign_inf (s : Bool) : (inf F s).sign = s := sign_mk' F.infEnc_lt
@[simp] theorem mb_inf (s : Bool) : (inf F s).mb = F.infEnc := mb_mk' F.infEnc_lt
@[simp] theorem isInf_inf (s : Bool) : (inf F s).isInf := by rw [isInf_iff]; simp
@[simp] theorem sign_qnan : (qnan F).sign = false := sign_mk' (qnan_lt F)
@[simp] theorem mb_qnan : (qnan F).mb = F.infEnc + 2 ^ (F.sb - 1) := mb_mk' (qnan_lt F)
@[simp] theorem isNaN_qnan : (qnan F).isNaN := by
  rw [isNaN_iff, mb_qnan]; have := Nat.two_pow_pos (F.sb - 1); omega

theorem eq_inf {x : Flt F} (h : x.isInf) : x = inf F x.sign :=
  ext_mb (by simp) (by rw [mb_inf]; exact x.isInf_iff.mp h)
theorem eq_zero {x : Flt F} (h : x.isZero) : x = zero F x.sign :=
  ext_mb (by simp) (by rw [mb_zero]; exact x.isZero_iff.mp h)

/-! ### neg -/
theorem neg_def (x : Flt F) : -x = mk' F (!x.sign) x.mb := rfl
@[simp] theorem sign_neg (x : Flt F) : (-x).sign = !x.sign := sign_mk' x.mb_lt
@[simp] theorem mb_neg (x : Flt F) : (-x).mb = x.mb := mb_mk' x.mb_lt
@[simp] theorem mag_neg (x : Flt F) : (-x).mag = x.mag := by rw [mag, mag, mb_neg]
@[simp] theorem sval_neg (x : Flt F) : (-x).sval = -x.sval := by
  rw [sval, sval, sign_neg, mag_neg]; cases x.sign <;> simp
@[simp] theorem toRat_neg (x : Flt F) : (-x).toRat = -x.toRat := by
  rw [toRat_eq, toRat_eq, sval_neg]; push_cast; ring
@[simp] theorem isNaN_neg (x : Flt F) : (-x).isNaN ↔ x.isNaN := by rw [isNaN_iff, isNaN_iff, mb_neg]
@[simp] theorem isInf_neg (x : Flt F) : (-x).isInf ↔ x.isInf := by rw [isInf_iff, isInf_iff, mb_neg]
@[simp] theorem isFinite_neg (x : Flt F) : (-x).isFinite ↔ x.isFinite := by
  rw [isFinite_iff, isFinite_iff, mb_neg]
@[simp] theorem isZero_neg (x : Flt F) : (-x).isZero ↔ x.isZero := by
  rw [isZero_iff, isZero_iff, mb_neg]
@[simp] theorem neg_neg (x : Flt F) : - -x = x := ext_mb (by simp) (by simp)

/-! ### one -/
theorem one_lt (F : Fmt) : F.bias * 2 ^ F.sb < F.infEnc := by
  rw [F.infEnc_eq]
  have := Nat.two_pow_pos F.sb
  exact Nat.mul_lt_mul_of_pos_right (by omega) this
theorem one_lt' (F : Fmt) : F.bias * 2 ^ F.sb < 2 ^ (F.ew + F.sb) := (one_lt F).trans F.infEnc_lt
@[simp] theorem sign_one : (one F).sign = false := sign_mk' (one_lt' F)
theorem mb_one : (one F).mb = F.bias * 2 ^ F.sb := mb_mk' (one_lt' F)
@[simp] theorem isFinite_one : (one F).isFinite := by rw [isFinite_iff, mb_one]; exact one_lt F
@[simp] theorem mag_one : (one F).mag = F.oneMag := by
  have hb := F.sb_lt_bias
  rw [mag, mb_one]
  have h := magOf_split F.sb (F.bias - 1) (2 ^ F.sb) (Nat.pow_le_pow_right (by norm_num) (by omega))
    (Or.inl le_rfl)
  have e : (F.bias - 1) * 2 ^ F.sb + 2 ^ F.sb = F.bias * 2 ^ F.sb := by
    obtain ⟨B, hB⟩ : ∃ B, F.bias = B + 1 := ⟨F.bias - 1, by omega⟩
    rw [hB]; simp; ring
  rw [e] at h
  rw [h, Fmt.oneMag, ← pow_add]; congr 1; omega
@[simp] theorem toRat_one : (one F).toRat = 1 := by
  rw [toRat_eq, sval, sign_one, mag_one]; simpa using F.oneMag_mul_ulp

/-! ### roundMag -/
theorem roundMag_lt (F : Fmt) (n d : Nat) :
    min (roundU F.sb n d) F.infEnc < 2 ^ (F.ew + F.sb) :=
  lt_of_le_of_lt (min_le_right _ _) F.infEnc_lt
@[simp] theorem sign_roundMag (s : Bool) (n d : Nat) : (roundMag F s n d).sign = s :=
  sign_mk' (roundMag_lt F n d)
theorem mb_roundMag (s : Bool) (n d : Nat) :
    (roundMag F s n d).mb = min (roundU F.sb n d) F.infEnc := mb_mk' (roundMag_lt F n d)
@[simp] theorem not_nan_roundMag (s : Bool) (n d : Nat) : ¬ (roundMag F s n d).isNaN := by
  rw [isNaN_iff, mb_roundMag]; omega
theorem neg_roundMag (s : Bool) (n d : Nat) : - roundMag F s n d = roundMag F (!s) n d :=
  ext_mb (by simp) (by rw [mb_neg, mb_roundMag, mb_roundMag])

/-- rounding an exactly representable magnitude -/
theorem roundMag_exact {s : Bool} {n d b : Nat} (hd : 0 < d) (hb : b ≤ F.infEnc)
    (h : n = magOf F.sb b * d) : roundMag F s n d = mk' F s b := by
  unfold roundMag
  rw [roundU_exact' F.one_le_sb b n d hd h, min_eq_left hb]

theorem roundMag_self {x : Flt F} (hx : x.isFinite) {d : Nat} (hd : 0 < d) :
    roundMag F x.sign (x.mag * d) d = x := by
  rw [mag, roundMag_exact hd (x.isFinite_iff.mp hx).le rfl, mk'_self]

/-! ### Correct rounding of the operations -/

theorem add_finite {x y : Flt F} (hx : x.isFinite) (hy : y.isFinite) :
    x + y = if x.sval + y.sval = 0 then zero F (x.sign && y.sign)
      else roundMag F (decide (x.sval + y.sval < 0)) (x.sval + y.sval).natAbs 1 := by
  show Flt.add x y = _
  unfold Flt.add
  rw [if_neg (by simp [not_nan_of_finite hx, not_nan_of_finite hy]),
    if_neg (not_inf_of_finite hx), if_neg (not_inf_of_finite hy)]

theorem mul_finite {x y : Flt F} (hx : x.isFinite) (hy : y.isFinite) :
    x * y = roundMag F (x.sign ^^ y.sign) (x.mag * y.mag) F.oneMag := by
  show Flt.mul x y = _
  unfold Flt.mul
  rw [if_neg (by simp [not_nan_of_finite hx, not_nan_of_finite hy]),
    if_neg (by simp [not_inf_of_finite hx, not_inf_of_finite hy]),
    if_neg (by simp [not_inf_of_finite hx, not_inf_of_finite hy])]

theorem div_finite {x y : Flt F} (hx : x.isFinite) (hy : y.isFinite) (hy0 : ¬ y.isZero) :
    x / y = roundMag F (x.sign ^^ y.sign) (x.mag * F.oneMag) y.mag := by
  show Flt.div x y = _
  unfold Flt.div
  rw [if_neg (by simp [not_nan_of_finite hx, not_nan_of_finite hy]),
    if_neg (by simp [not_inf_of_finite hx, hy0]),
    if_neg (by simp [not_inf_of_finite hx, hy0]),
    if_neg (not_inf_of_finite hy)]

theorem natAbs_rat (z : Int) : ((z.natAbs : ℕ) : ℚ) = |(z : ℚ)| := by
  rw [Nat.cast_natAbs, Int.cast_abs]

theorem isRNE_zero (s : Bool) : IsRNE (0 : ℚ) (zero F s) := by
  have h := roundMag_isRNE (F := F) (q := 0) (s := s) (n := 0) (d := 1) (by norm_num) (by simp)
    (by simp)
  have e : roundMag F s 0 1 = zero F s := by
    rw [roundMag_exact (b := 0) (by norm_num) (Nat.zero_le _) (by simp)]; rfl
  rwa [e] at h

theorem add_isRNE {x y : Flt F} (hx : x.isFinite) (hy : y.isFinite) :
    IsRNE (x.toRat + y.toRat) (x + y) := by
  rw [add_finite hx hy]
  have e : x.toRat + y.toRat = ((x.sval + y.sval : Int) : ℚ) * F.ulp := by
    rw [toRat_eq, toRat_eq]; push_cast; ring
  rw [e]
  split
  · rename_i h0
    rw [h0]; simpa using isRNE_zero _
  · apply roundMag_isRNE (by norm_num)
    · rw [abs_mul, abs_of_pos F.ulp_pos, natAbs_rat]; simp
    · intro _
      rw [decide_eq_true_iff]
      constructor
      · intro h
        exact mul_neg_of_neg_of_pos (by exact_mod_cast h) F.ulp_pos
      · intro h
        by_contra h'
        have : (0 : ℚ) ≤ ((x.sval + y.sval : Int) : ℚ) := by exact_mod_cast (by omega)
        have := mul_nonneg this F.ulp_pos.le
        linarith

theorem sub_isRNE {x y : Flt F} (hx : x.isFinite) (hy : y.isFinite) :
    IsRNE (x.toRat - y.toRat) (x - y) := by
  have := add_isRNE hx ((isFinite_neg y).mpr hy)
  rw [toRat_neg, ← sub_eq_add_neg] at this
  exact this

theorem sval_neg_iff (x : Flt F) (h : x.sval ≠ 0) : x.sign = true ↔ x.toRat < 0 := by
  have : x.toRat < 0 ↔ x.sval < 0 := by
    have h0 := toRat_lt (x := x) (y := zero F false)
    simpa using h0
  rw [this]
  unfold sval at h ⊢
  split
  · simp_all; omega
  · simp_all

theorem toRat_sign_cases (x : Flt F) :
    (x.sign = true ∧ x.toRat = -|x.toRat|) ∨ (x.sign = false ∧ x.toRat = |x.toRat|) := by
  rw [toRat_abs]
  rw [toRat_eq, sval]
  cases x.sign
  · right; simp
  · left; simp

theorem sign_mul_neg {x y : Flt F} (h : x.toRat * y.toRat ≠ 0) :
    (x.sign ^^ y.sign) = true ↔ x.toRat * y.toRat < 0 := by
  have hx : x.toRat ≠ 0 := left_ne_zero_of_mul h
  have hy : y.toRat ≠ 0 := right_ne_zero_of_mul h
  have px := abs_pos.mpr hx
  have py := abs_pos.mpr hy
  have pp := mul_pos px py
  rcases x.toRat_sign_cases with ⟨h1, h2⟩ | ⟨h1, h2⟩ <;>
  rcases y.toRat_sign_cases with ⟨h3, h4⟩ | ⟨h3, h4⟩ <;>
  rw [h1, h3, h2, h4] <;> simp <;> nlinarith

theorem mul_isRNE {x y : Flt F} (hx : x.isFinite) (hy : y.isFinite) :
    IsRNE (x.toRat * y.toRat) (x * y) := by
  rw [mul_finite hx hy]
  apply roundMag_isRNE F.oneMag_pos
  · rw [abs_mul, toRat_abs, toRat_abs]
    have h1 := F.oneMag_mul_ulp
    have h2 : (F.oneMag : ℚ) ≠ 0 := by exact_mod_cast F.oneMag_pos.ne'
    field_simp
    push_cast
    linear_combination ((x.mag : ℚ) * y.mag * F.ulp) * h1
  · intro h; exact sign_mul_neg h

theorem div_isRNE {x y : Flt F} (hx : x.isFinite) (hy : y.isFinite) (hy0 : ¬ y.isZero) :
    IsRNE (x.toRat / y.toRat) (x / y) := by
  rw [div_finite hx hy hy0]
  have hm : 0 < y.mag := by
    rw [isZero_iff_mag] at hy0; omega
  have hm' : (y.mag : ℚ) ≠ 0 := by exact_mod_cast hm.ne'
  apply roundMag_isRNE hm
  · rw [abs_div, toRat_abs, toRat_abs]
    have h1 := F.oneMag_mul_ulp
    have h2 := F.ulp_ne
    field_simp
    push_cast
    linear_combination (- (x.mag : ℚ)) * h1
  · intro h
    have hyr : y.toRat ≠ 0 := by rw [Ne, toRat_eq_zero]; exact hy0
    have hxr : x.toRat ≠ 0 := fun h' => h (by rw [h', zero_div])
    rw [sign_mul_neg (mul_ne_zero hxr hyr)]
    rw [div_neg_iff, mul_neg_iff]

theorem cast_isRNE {G : Fmt} {x : Flt F} (hx : x.isFinite) :
    IsRNE x.toRat (x.cast G) := by
  unfold cast
  rw [if_neg (not_nan_of_finite hx), if_neg (not_inf_of_finite hx)]
  apply roundMag_isRNE F.oneMag_pos
  · rw [toRat_abs]
    have h1 := F.oneMag_mul_ulp
    have h2 := G.oneMag_mul_ulp
    have h3 : (F.oneMag : ℚ) ≠ 0 := by exact_mod_cast F.oneMag_pos.ne'
    field_simp
    push_cast
    linear_combination (x.mag : ℚ) * h1 - (x.mag : ℚ) * h2
  · intro h
    apply sval_neg_iff
    intro h'
    apply h
    rw [toRat_eq, h']; simp

theorem ofInt_isRNE (n : Int) : IsRNE (n : ℚ) (ofInt F n) := by
  unfold ofInt
  split
  · rename_i h; rw [h]; simpa using isRNE_zero _
  · apply roundMag_isRNE (by norm_num)
    · have h1 := F.oneMag_mul_ulp
      push_cast
      rw [natAbs_rat]
      linear_combination (-|(n : ℚ)|) * h1
    · intro _
      rw [decide_eq_true_iff]; exact_mod_cast Iff.rfl

/-! ### Comparisons -/

theorem lt_iff {x y : Flt F} : (x <ᶠ y) = true ↔ ¬ x.isNaN ∧ ¬ y.isNaN ∧ x.sval < y.sval := by
  simp [lt]
theorem le_iff {x y : Flt F} : (x ≤ᶠ y) = true ↔ ¬ x.isNaN ∧ ¬ y.isNaN ∧ x.sval ≤ y.sval := by
  simp [le]
theorem feq_iff {x y : Flt F} : (x =ᶠ y) = true ↔ ¬ x.isNaN ∧ ¬ y.isNaN ∧ x.sval = y.sval := by
  simp [feq]

end Flt
end Verif
