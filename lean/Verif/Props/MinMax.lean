import Verif.Theory.Order
import Verif.Model.Generic

/-! # C09 fmin/fmax, C10 fminimum/fmaximum, C11 fminimum_num/fmaximum_num, C12 fdim -/

namespace Verif
open Flt Generic
variable {F : Fmt}

theorem lt_spec (x y : Flt F) : (x <ᶠ y) = true ↔ ¬ x.isNaN ∧ ¬ y.isNaN ∧ x.ext < y.ext := by
  rw [lt_iff]
  constructor
  · rintro ⟨a, b, c⟩; exact ⟨a, b, (ext_lt_iff a b).mpr c⟩
  · rintro ⟨a, b, c⟩; exact ⟨a, b, (ext_lt_iff a b).mp c⟩

theorem le_spec (x y : Flt F) : (x ≤ᶠ y) = true ↔ ¬ x.isNaN ∧ ¬ y.isNaN ∧ x.ext ≤ y.ext := by
  rw [le_iff]
  constructor
  · rintro ⟨a, b, c⟩; exact ⟨a, b, (ext_le_iff a b).mpr c⟩
  · rintro ⟨a, b, c⟩; exact ⟨a, b, (ext_le_iff a b).mp c⟩

theorem feq_spec (x y : Flt F) : (x =ᶠ y) = true ↔ ¬ x.isNaN ∧ ¬ y.isNaN ∧ x.ext = y.ext := by
  rw [feq_iff]
  constructor
  · rintro ⟨a, b, c⟩; exact ⟨a, b, (ext_eq_iff a b).mpr c⟩
  · rintro ⟨a, b, c⟩; exact ⟨a, b, (ext_eq_iff a b).mp c⟩

/-! ## C09 -/

/-- One NaN: the other argument is returned, bit for bit. -/
theorem fmin_one_nan (x y : Flt F) (hy : ¬ y.isNaN) (hx : x.isNaN) :
    fmin x y = y ∧ fmin y x = y := by
  have h1 : (x <ᶠ y) = false := by
    rw [Bool.eq_false_iff]; intro h; exact (lt_iff.mp h).1 hx
  constructor
  · unfold fmin; simp only [hy, h1]; simpa using mul_one_self hy
  · unfold fmin; simp only [hx]; simpa using mul_one_self hy

theorem fmax_one_nan (x y : Flt F) (hy : ¬ y.isNaN) (hx : x.isNaN) :
    fmax x y = y ∧ fmax y x = y := by
  have h1 : (y <ᶠ x) = false := by
    rw [Bool.eq_false_iff]; intro h; exact (lt_iff.mp h).2.1 hx
  constructor
  · unfold fmax; simp only [hx]; simpa using mul_one_self hy
  · unfold fmax; simp only [hy, h1]; simpa using mul_one_self hy

example : (qnan f32).isNaN ∧ ¬ (one f32).isNaN := by decide

/-- Both NaN: NaN. -/
theorem fmin_both_nan (x y : Flt F) (hx : x.isNaN) (hy : y.isNaN) : (fmin x y).isNaN := by
  unfold fmin; rw [mul_one_isNaN]; split <;> assumption
theorem fmax_both_nan (x y : Flt F) (hx : x.isNaN) (hy : y.isNaN) : (fmax x y).isNaN := by
  unfold fmax; rw [mul_one_isNaN]; split <;> assumption

/-- No NaN: the result is one of the arguments and not above either. -/
theorem fmin_spec (x y : Flt F) (hx : ¬ x.isNaN) (hy : ¬ y.isNaN) :
    (fmin x y = x ∨ fmin x y = y) ∧ (fmin x y).ext ≤ x.ext ∧ (fmin x y).ext ≤ y.ext := by
  by_cases h : (x <ᶠ y) = true
  · have e : fmin x y = x := by unfold fmin; simp only [h]; simpa using mul_one_self hx
    rw [e]; exact ⟨Or.inl rfl, le_rfl, ((lt_spec x y).mp h).2.2.le⟩
  · have e : fmin x y = y := by unfold fmin; simp only [h, hy]; simpa using mul_one_self hy
    rw [e]
    refine ⟨Or.inr rfl, ?_, le_rfl⟩
    rw [lt_spec] at h
    exact not_lt.mp (fun h' => h ⟨hx, hy, h'⟩)

theorem fmax_spec (x y : Flt F) (hx : ¬ x.isNaN) (hy : ¬ y.isNaN) :
    (fmax x y = x ∨ fmax x y = y) ∧ x.ext ≤ (fmax x y).ext ∧ y.ext ≤ (fmax x y).ext := by
  by_cases h : (x <ᶠ y) = true
  · have e : fmax x y = y := by unfold fmax; simp only [h]; simpa using mul_one_self hy
    rw [e]; exact ⟨Or.inr rfl, ((lt_spec x y).mp h).2.2.le, le_rfl⟩
  · have e : fmax x y = x := by unfold fmax; simp only [h, hx]; simpa using mul_one_self hx
    rw [e]
    refine ⟨Or.inl rfl, le_rfl, ?_⟩
    rw [lt_spec] at h
    exact not_lt.mp (fun h' => h ⟨hx, hy, h'⟩)

example : fmin (inf f64 true) (one f64) = inf f64 true ∧ fmax (inf f64 true) (one f64) = one f64 := by
  decide +kernel

/-! ## C10 -/

theorem negzero_bits (x : Flt F) :
    (x.toBits == (zero F true).toBits) = true ↔ x.isZero ∧ x.sign = true := by
  rw [beq_iff_eq]
  constructor
  · intro h
    have : x = zero F true := by cases x; simp_all
    rw [this]; simp [isZero_iff]
  · rintro ⟨h1, h2⟩
    rw [eq_zero h1, h2]

theorem sval_zero_of {x : Flt F} (h : x.isZero) : x.sval = 0 := x.isZero_iff_sval.mp h

theorem zle_refl (x : Flt F) : zle x x := by
  unfold zle; cases x.sign <;> simp

theorem sval_sign {x : Flt F} : (x.sval < 0 → x.sign = true) ∧ (0 < x.sval → x.sign = false) := by
  unfold sval; cases x.sign <;> simp <;> omega

/-- the selection used by all four functions: `a` if `a < b` or `a = -0` and `b` is positive -/
theorem select_zle {a b : Flt F} (ha : ¬ a.isNaN) (hb : ¬ b.isNaN)
    (h : (a <ᶠ b || (a.toBits == (zero F true).toBits && !b.sign)) = true) : zle a b := by
  rw [Bool.or_eq_true, Bool.and_eq_true, lt_spec, negzero_bits] at h
  rcases h with h | ⟨⟨h1, h2⟩, h3⟩
  · exact Or.inl h.2.2
  · have h3 : b.sign = false := by simpa using h3
    unfold zle
    rw [ext_lt_iff ha hb, ext_eq_iff ha hb, sval_zero_of h1]
    have : 0 ≤ b.sval := by unfold sval; rw [h3]; simp
    rcases this.lt_or_eq with h | h
    · exact Or.inl h
    · exact Or.inr ⟨h, Or.inl h2⟩

theorem not_select_zle {a b : Flt F} (ha : ¬ a.isNaN) (hb : ¬ b.isNaN)
    (h : (a <ᶠ b || (a.toBits == (zero F true).toBits && !b.sign)) ≠ true) : zle b a := by
  rw [Ne, Bool.or_eq_true, Bool.and_eq_true, lt_spec, negzero_bits] at h
  unfold zle
  rw [ext_lt_iff ha hb] at h
  rw [ext_lt_iff hb ha, ext_eq_iff hb ha]
  rcases lt_trichotomy a.sval b.sval with h1 | h1 | h1
  · exact absurd (Or.inl ⟨ha, hb, h1⟩) h
  · right
    refine ⟨h1.symm, ?_⟩
    rcases sval_eq_cases h1 with h2 | ⟨h2, h3⟩
    · subst h2; cases a.sign <;> simp
    · cases sa : a.sign
      · right; rfl
      · left
        by_contra hc
        apply h; right
        exact ⟨⟨h2, sa⟩, by simpa using hc⟩
  · exact Or.inl h1

/-- Any NaN argument gives NaN. -/
theorem fminimum_nan (x y : Flt F) (h : x.isNaN ∨ y.isNaN) : (fminimum x y).isNaN := by
  unfold fminimum; rw [mul_one_isNaN]
  by_cases hx : x.isNaN
  · simp [hx]
  · have hy := h.resolve_left hx
    simp [hx, hy]
theorem fmaximum_nan (x y : Flt F) (h : x.isNaN ∨ y.isNaN) : (fmaximum x y).isNaN := by
  unfold fmaximum; rw [mul_one_isNaN]
  by_cases hx : x.isNaN
  · simp [hx]
  · have hy := h.resolve_left hx
    simp [hx, hy]

/-- No NaN: the smaller argument with `-0 < +0`. -/
theorem fminimum_spec (x y : Flt F) (hx : ¬ x.isNaN) (hy : ¬ y.isNaN) :
    (fminimum x y = x ∨ fminimum x y = y) ∧ zle (fminimum x y) x ∧ zle (fminimum x y) y := by
  by_cases h : (x <ᶠ y || (x.toBits == (zero F true).toBits && !y.sign)) = true
  · have e : fminimum x y = x := by
      unfold fminimum; simp only [if_neg hx, if_neg hy, if_pos h, mul_one_self hx]
    rw [e]; exact ⟨Or.inl rfl, zle_refl x, select_zle hx hy h⟩
  · have e : fminimum x y = y := by
      unfold fminimum; simp only [if_neg hx, if_neg hy, if_neg h, mul_one_self hy]
    rw [e]; exact ⟨Or.inr rfl, not_select_zle hx hy h, zle_refl y⟩

/-- No NaN: the larger argument with `-0 < +0`. -/
theorem fmaximum_spec (x y : Flt F) (hx : ¬ x.isNaN) (hy : ¬ y.isNaN) :
    (fmaximum x y = x ∨ fmaximum x y = y) ∧ zle x (fmaximum x y) ∧ zle y (fmaximum x y) := by
  by_cases h : (y <ᶠ x || (y.toBits == (zero F true).toBits && !x.sign)) = true
  · have e : fmaximum x y = x := by
      unfold fmaximum; simp only [if_neg hx, if_neg hy, if_pos h, mul_one_self hx]
    rw [e]; exact ⟨Or.inl rfl, zle_refl x, select_zle hy hx h⟩
  · have e : fmaximum x y = y := by
      unfold fmaximum; simp only [if_neg hx, if_neg hy, if_neg h, mul_one_self hy]
    rw [e]; exact ⟨Or.inr rfl, not_select_zle hy hx h, zle_refl y⟩

example : fminimum (zero f64 false) (zero f64 true) = zero f64 true ∧
    fmaximum (zero f64 true) (zero f64 false) = zero f64 false ∧
    ¬ zle (zero f64 false) (zero f64 true) := by
  refine ⟨by decide +kernel, by decide +kernel, ?_⟩
  unfold zle
  rw [ext_lt_iff (by decide) (by decide)]
  simp

/-! ## C11 -/

theorem fminimumNum_one_nan (x y : Flt F) (hy : ¬ y.isNaN) (hx : x.isNaN) :
    fminimumNum x y = y ∧ fminimumNum y x = y := by
  have h1 : (x <ᶠ y) = false := by
    rw [Bool.eq_false_iff]; intro h; exact (lt_iff.mp h).1 hx
  have h2 : (x.toBits == (zero F true).toBits) = false := by
    rw [Bool.eq_false_iff]; intro h
    exact not_nan_of_finite (finite_of_zero ((negzero_bits x).mp h).1) hx
  constructor
  · unfold fminimumNum; simp only [hy, h1, h2]; simpa using mul_one_self hy
  · unfold fminimumNum; simp only [hx]; simpa using mul_one_self hy

theorem fminimumNum_both_nan (x y : Flt F) (hx : x.isNaN) (hy : y.isNaN) :
    (fminimumNum x y).isNaN := by
  unfold fminimumNum; rw [mul_one_isNaN]; split <;> assumption

theorem fminimumNum_spec (x y : Flt F) (hx : ¬ x.isNaN) (hy : ¬ y.isNaN) :
    (fminimumNum x y = x ∨ fminimumNum x y = y) ∧
    zle (fminimumNum x y) x ∧ zle (fminimumNum x y) y := by
  by_cases h : (x <ᶠ y || (x.toBits == (zero F true).toBits && !y.sign)) = true
  · have e : fminimumNum x y = x := by
      unfold fminimumNum; simp only [hy, decide_false, Bool.false_or, if_pos h, mul_one_self hx]
    rw [e]; exact ⟨Or.inl rfl, zle_refl x, select_zle hx hy h⟩
  · have e : fminimumNum x y = y := by
      unfold fminimumNum; simp only [hy, decide_false, Bool.false_or, if_neg h, mul_one_self hy]
    rw [e]; exact ⟨Or.inr rfl, not_select_zle hx hy h, zle_refl y⟩

theorem fmaximumNum_both_nan (x y : Flt F) (hx : x.isNaN) (hy : y.isNaN) :
    (fmaximumNum x y).isNaN := by
  unfold fmaximumNum; rw [mul_one_isNaN]; split <;> assumption

theorem fmaximumNum_spec (x y : Flt F) (hx : ¬ x.isNaN) (hy : ¬ y.isNaN) :
    (fmaximumNum x y = x ∨ fmaximumNum x y = y) ∧
    zle x (fmaximumNum x y) ∧ zle y (fmaximumNum x y) := by
  by_cases h : (x <ᶠ y || (x.toBits == (zero F true).toBits && !y.sign)) = true
  · have e : fmaximumNum x y = y := by
      unfold fmaximumNum; simp only [hx, decide_false, Bool.false_or, if_pos h, mul_one_self hy]
    rw [e]; exact ⟨Or.inr rfl, select_zle hx hy h, zle_refl y⟩
  · have e : fmaximumNum x y = x := by
      unfold fmaximumNum; simp only [hx, decide_false, Bool.false_or, if_neg h, mul_one_self hx]
    rw [e]; exact ⟨Or.inl rfl, zle_refl x, not_select_zle hx hy h⟩

/-- The NaN rule of C11 fails for `fmaximum_num`: `fmaximum_num(-0.0, NaN)` is NaN (the code
tests `x` for `-0.0` and the *sign* of `y` without testing `y` for NaN). -/
theorem fmaximumNum_nan_wrong :
    ∃ x y : Flt f64, ¬ x.isNaN ∧ y.isNaN ∧ (fmaximumNum x y).isNaN :=
  ⟨zero f64 true, qnan f64, by decide, by decide, by decide +kernel⟩

/-- The NaN rule of C11 for `fmaximum_num`, all cases but a `-0.0` first argument with a NaN of
positive sign as second. -/
theorem fmaximumNum_one_nan_partial (x y : Flt F) (hy : ¬ y.isNaN) (hx : x.isNaN) :
    fmaximumNum x y = y ∧ (¬ (y.isZero ∧ y.sign = true ∧ x.sign = false) → fmaximumNum y x = y) := by
  have h1 : (y <ᶠ x) = false := by
    rw [Bool.eq_false_iff]; intro h; exact (lt_iff.mp h).2.1 hx
  constructor
  · unfold fmaximumNum; simp only [hx]; simpa using mul_one_self hy
  · intro hh
    have h3 : (y.toBits == (zero F true).toBits && !x.sign) = false := by
      rw [Bool.eq_false_iff, Ne, Bool.and_eq_true, negzero_bits]
      intro h; apply hh; exact ⟨h.1.1, h.1.2, by simpa using h.2⟩
    unfold fmaximumNum; simp only [hy, h1, h3]; simpa using mul_one_self hy

example : fmaximumNum (one f64) (qnan f64) = one f64 ∧ fmaximumNum (qnan f64) (zero f64 true) = zero f64 true
  := by decide +kernel

/-! ## C12 -/

theorem add_nan {x y : Flt F} (h : x.isNaN ∨ y.isNaN) : x + y = qnan F := by
  show Flt.add x y = _; unfold Flt.add; rw [if_pos h]

theorem fdim_nan (x y : Flt F) (h : x.isNaN ∨ y.isNaN) : (fdim x y).isNaN := by
  have h1 : ¬ (x ≤ᶠ y) = true := by rw [le_iff]; tauto
  unfold fdim
  rw [if_neg h1]
  show (x + (-y)).isNaN
  rw [add_nan (by simpa using h)]; simp

/-- `x ≤ y`: exactly `+0`. -/
theorem fdim_le (x y : Flt F) (hx : ¬ x.isNaN) (hy : ¬ y.isNaN) (h : x.ext ≤ y.ext) :
    fdim x y = zero F false := by
  unfold fdim; rw [if_pos ((le_spec x y).mpr ⟨hx, hy, h⟩)]

/-- `y < x`, both finite: `x - y` correctly rounded, and not negative. -/
theorem fdim_gt (x y : Flt F) (hx : x.isFinite) (hy : y.isFinite) (h : y.ext < x.ext) :
    IsRNE (x.toRat - y.toRat) (fdim x y) ∧ (fdim x y).sign = false := by
  have h1 : ¬ (x ≤ᶠ y) = true := by
    rw [le_spec]; rintro ⟨_, _, h2⟩; exact absurd h2 (not_le.mpr h)
  unfold fdim; rw [if_neg h1]
  refine ⟨sub_isRNE hx hy, ?_⟩
  have hs := (ext_lt_iff (not_nan_of_finite hy) (not_nan_of_finite hx)).mp h
  show (x + (-y)).sign = false
  rw [add_finite hx ((isFinite_neg y).mpr hy), sval_neg, if_neg (by omega), sign_roundMag]
  simp; omega

/-- `y < x`, one of them infinite: `+∞`. -/
theorem fdim_gt_inf (x y : Flt F) (hx : ¬ x.isNaN) (hy : ¬ y.isNaN) (h : y.ext < x.ext)
    (hi : x.isInf ∨ y.isInf) : fdim x y = inf F false := by
  have h1 : ¬ (x ≤ᶠ y) = true := by
    rw [le_spec]; rintro ⟨_, _, h2⟩; exact absurd h2 (not_le.mpr h)
  unfold fdim; rw [if_neg h1]
  show Flt.add x (-y) = _
  unfold Flt.add
  rw [if_neg (by simp [hx, hy])]
  by_cases ix : x.isInf
  · have sx : x.sign = false := by
      cases e : x.sign
      · rfl
      · exfalso; unfold ext at h; rw [if_pos ix, if_pos e] at h; exact absurd h (by simp)
    rw [if_pos ix, if_neg]
    · rw [eq_inf ix, sx]
    · rintro ⟨h2, h3⟩
      have iy := (isInf_neg y).mp h2
      rw [sx, sign_neg] at h3
      have sy : y.sign = false := by cases e : y.sign <;> simp_all
      unfold ext at h; rw [if_pos ix, if_pos iy, sx, sy] at h; simp at h
  · have iy := hi.resolve_left ix
    rw [if_neg ix, if_pos ((isInf_neg y).mpr iy)]
    have sy : y.sign = true := by
      cases e : y.sign
      · exfalso; unfold ext at h; rw [if_pos iy, e] at h; simp at h
      · rfl
    rw [eq_inf ((isInf_neg y).mpr iy), sign_neg, sy]; rfl

example : (inf f64 true).ext < (one f64).ext := by
  rw [ext_lt_iff (by decide) (by decide)]; decide +kernel
example : (fdim (ofNat f32 0x40a00000) (ofNat f32 0x40000000)).toRat = 3 := by decide +kernel

end Verif
