import Verif.Model.Lit
import Verif.Theory.Bits
import Verif.Theory.Order
import Verif.Theory.Add

/-!
# Bit fields of f32 and f64 as the library reads them

`x.mb` is the encoding without the sign bit.  The lemmas turn the word-level tests of the library into inequalities on
`x.mb`.
-/

namespace Verif
open Flt

theorem f64_es : f64.ew + f64.sb = 63 := rfl
theorem f32_es : f32.ew + f32.sb = 31 := rfl
theorem f64_inf : f64.infEnc = 0x7ff0000000000000 := by decide
theorem f32_inf : f32.infEnc = 0x7f800000 := by decide

theorem mb64_lt (x : Flt f64) : x.mb < 2 ^ 63 := x.mb_lt
theorem mb32_lt (x : Flt f32) : x.mb < 2 ^ 31 := x.mb_lt

theorem u64_toNat (x : Flt f64) : x.u64.toNat = x.mb + if x.sign then 2 ^ 63 else 0 := x.enc_eq
theorem u32_toNat (x : Flt f32) : x.u32.toNat = x.mb + if x.sign then 2 ^ 31 else 0 := x.enc_eq

theorem u64_abs (x : Flt f64) : (x.u64 &&& 0x7fffffffffffffff#64).toNat = x.mb := by
  rw [BV.and_low (k := 63) (by decide), u64_toNat]
  have := mb64_lt x
  split <;> omega

theorem u32_abs (x : Flt f32) : (x.u32 &&& 0x7fffffff#32).toNat = x.mb := by
  rw [BV.and_low (k := 31) (by decide), u32_toNat]
  have := mb32_lt x
  split <;> omega

theorem hi_toNat (x : Flt f64) : (getHighWord x).toNat = x.mb / 2 ^ 32 + if x.sign then 2 ^ 31 else 0 := by
  unfold getHighWord
  rw [BitVec.toNat_setWidth]
  change (x.u64 >>> 32).toNat % 2 ^ 32 = _
  rw [BV.shr, u64_toNat]
  have := mb64_lt x
  split <;> omega

theorem lo_toNat (x : Flt f64) : (getLowWord x).toNat = x.mb % 2 ^ 32 := by
  unfold getLowWord
  rw [BitVec.toNat_setWidth]
  change x.u64.toNat % 2 ^ 32 = _
  rw [u64_toNat]
  split <;> omega

theorem hi_abs (x : Flt f64) : (getHighWord x &&& 0x7fffffff#32).toNat = x.mb / 2 ^ 32 := by
  rw [BV.and_low (k := 31) (by decide), hi_toNat]
  have := mb64_lt x
  split <;> omega

theorem hi_sign (x : Flt f64) : (getHighWord x >>> 31).toNat = if x.sign then 1 else 0 := by
  rw [BV.shr, hi_toNat]
  have := mb64_lt x
  split <;> omega

theorem u32_sign (x : Flt f32) : (x.u32 >>> 31).toNat = if x.sign then 1 else 0 := by
  rw [BV.shr, u32_toNat]
  have := mb32_lt x
  split <;> omega

theorem u64_sign (x : Flt f64) : (x.u64 >>> 63).toNat = if x.sign then 1 else 0 := by
  rw [BV.shr, u64_toNat]
  have := mb64_lt x
  split <;> omega

@[simp] theorem bits64_u64 (x : Flt f64) : bits64 x.u64 = x := rfl
@[simp] theorem bits32_u32 (x : Flt f32) : bits32 x.u32 = x := rfl
@[simp] theorem u64_bits64 (b : BitVec 64) : (bits64 b).u64 = b := rfl
@[simp] theorem u32_bits32 (b : BitVec 32) : (bits32 b).u32 = b := rfl

theorem bits64_mk {b : BitVec 64} (h : b.toNat < 2 ^ 63) : bits64 b = mk' f64 false b.toNat := by
  have := enc_mk' (F := f64) (s := false) (b := b.toNat) h
  apply ext_enc
  rw [this]; rfl

theorem bits32_mk {b : BitVec 32} (h : b.toNat < 2 ^ 31) : bits32 b = mk' f32 false b.toNat := by
  have := enc_mk' (F := f32) (s := false) (b := b.toNat) h
  apply ext_enc
  rw [this]; rfl

theorem isNaN64 (x : Flt f64) : x.isNaN ↔ 0x7ff0000000000000 < x.mb := by rw [isNaN_iff, f64_inf]
theorem isInf64 (x : Flt f64) : x.isInf ↔ x.mb = 0x7ff0000000000000 := by rw [isInf_iff, f64_inf]
theorem isFinite64 (x : Flt f64) : x.isFinite ↔ x.mb < 0x7ff0000000000000 := by rw [isFinite_iff, f64_inf]
theorem isNaN32 (x : Flt f32) : x.isNaN ↔ 0x7f800000 < x.mb := by rw [isNaN_iff, f32_inf]
theorem isInf32 (x : Flt f32) : x.isInf ↔ x.mb = 0x7f800000 := by rw [isInf_iff, f32_inf]
theorem isFinite32 (x : Flt f32) : x.isFinite ↔ x.mb < 0x7f800000 := by rw [isFinite_iff, f32_inf]

/-! ### NaN propagation and infinities in the machine operations -/

variable {F : Fmt}

theorem add_nan {x y : Flt F} (h : x.isNaN ∨ y.isNaN) : x + y = qnan F := by
  show Flt.add x y = _; unfold Flt.add; rw [if_pos h]
theorem sub_nan {x y : Flt F} (h : x.isNaN ∨ y.isNaN) : x - y = qnan F := by
  rw [sub_eq_add_neg']; exact add_nan (by simpa using h)
theorem mul_nan {x y : Flt F} (h : x.isNaN ∨ y.isNaN) : x * y = qnan F := by
  show Flt.mul x y = _; unfold Flt.mul; rw [if_pos h]
theorem div_nan {x y : Flt F} (h : x.isNaN ∨ y.isNaN) : x / y = qnan F := by
  show Flt.div x y = _; unfold Flt.div; rw [if_pos h]

theorem inf_add {x y : Flt F} (hx : x.isInf) (hy : ¬ y.isNaN) (h : y.isInf → y.sign = x.sign) : x + y = x := by
  show Flt.add x y = _; unfold Flt.add
  rw [if_neg (by have := not_nan_of_inf hx; tauto), if_pos hx, if_neg (by intro ⟨a, b⟩; exact b (h a).symm)]
theorem add_inf {x y : Flt F} (hy : y.isInf) (hx : x.isFinite) : x + y = y := by
  show Flt.add x y = _; unfold Flt.add
  rw [if_neg (by have := not_nan_of_inf hy; have := not_nan_of_finite hx; tauto), if_neg (not_inf_of_finite hx), if_pos hy]
theorem inf_sub_inf {x y : Flt F} (hx : x.isInf) (hy : y.isInf) (h : x.sign = y.sign) : x - y = qnan F := by
  rw [sub_eq_add_neg']
  show Flt.add x (-y) = _; unfold Flt.add
  have a := not_nan_of_inf hx
  have b := not_nan_of_inf hy
  rw [if_neg (by simp [a, b]), if_pos hx, if_pos ⟨by simpa using hy, by simp [h]⟩]
theorem inf_mul {x y : Flt F} (hx : x.isInf) (hy : ¬ y.isNaN) (h : ¬ y.isZero) : x * y = inf F (x.sign ^^ y.sign) := by
  show Flt.mul x y = _; unfold Flt.mul
  have a := not_nan_of_inf hx
  have b : ¬ x.isZero := fun h => not_finite_of_inf hx (finite_of_zero h)
  rw [if_neg (by tauto), if_neg (by tauto), if_pos (Or.inl hx)]
theorem inf_mul_zero {x y : Flt F} (hx : x.isInf) (h : y.isZero) : x * y = qnan F := by
  show Flt.mul x y = _; unfold Flt.mul
  have a := not_nan_of_inf hx
  have b := not_nan_of_finite (finite_of_zero h)
  rw [if_neg (by tauto), if_pos (Or.inl ⟨hx, h⟩)]
theorem div_zero {x y : Flt F} (hx : ¬ x.isNaN) (h0 : ¬ x.isZero) (hy : y.isZero) : x / y = inf F (x.sign ^^ y.sign) := by
  show Flt.div x y = _; unfold Flt.div
  have b := not_nan_of_finite (finite_of_zero hy)
  have c := not_inf_of_finite (finite_of_zero hy)
  rw [if_neg (by tauto), if_neg (by tauto), if_pos (Or.inr hy)]
theorem zero_div_zero {x y : Flt F} (hx : x.isZero) (hy : y.isZero) : x / y = qnan F := by
  show Flt.div x y = _; unfold Flt.div
  have b := not_nan_of_finite (finite_of_zero hy)
  have c := not_nan_of_finite (finite_of_zero hx)
  rw [if_neg (by tauto), if_pos (Or.inr ⟨hx, hy⟩)]
theorem div_inf {x y : Flt F} (hx : x.isFinite) (hy : y.isInf) : x / y = zero F (x.sign ^^ y.sign) := by
  show Flt.div x y = _; unfold Flt.div
  have a := not_nan_of_inf hy
  have b := not_nan_of_finite hx
  have c := not_inf_of_finite hx
  have d : ¬ y.isZero := fun h => not_finite_of_inf hy (finite_of_zero h)
  rw [if_neg (by tauto), if_neg (by tauto), if_neg (by tauto), if_pos hy]

theorem add_comm' (x y : Flt F) : x + y = y + x := by
  by_cases hx : x.isNaN
  · rw [add_nan (Or.inl hx), add_nan (Or.inr hx)]
  by_cases hy : y.isNaN
  · rw [add_nan (Or.inr hy), add_nan (Or.inl hy)]
  rcases (class_cases x).resolve_left hx with ix | fx <;> rcases (class_cases y).resolve_left hy with iy | fy
  · by_cases hs : x.sign = y.sign
    · rw [inf_add ix hy (fun _ => hs.symm), inf_add iy hx (fun _ => hs), eq_inf ix, eq_inf iy, hs]
    · have h1 : x + y = qnan F := by
        have := inf_sub_inf ix (y := -y) (by simpa using iy) (by rw [sign_neg]; revert hs; cases x.sign <;> cases y.sign <;> simp)
        rwa [sub_eq_add_neg', neg_neg] at this
      have h2 : y + x = qnan F := by
        have := inf_sub_inf iy (y := -x) (by simpa using ix) (by rw [sign_neg]; revert hs; cases x.sign <;> cases y.sign <;> simp)
        rwa [sub_eq_add_neg', neg_neg] at this
      rw [h1, h2]
  · rw [inf_add ix hy (fun h => absurd fy (not_finite_of_inf h)), add_inf ix fy]
  · rw [inf_add iy hx (fun h => absurd fx (not_finite_of_inf h)), add_inf iy fx]
  · rw [add_finite fx fy, add_finite fy fx, Int.add_comm y.sval, Bool.and_comm y.sign]

theorem mul_comm' (x y : Flt F) : x * y = y * x := by
  show Flt.mul x y = Flt.mul y x
  unfold Flt.mul
  rw [Bool.xor_comm y.sign, Nat.mul_comm y.mag]
  congr 1
  · rw [or_comm]
  congr 1
  · rw [or_comm, and_comm, @and_comm x.isInf]
  congr 1
  rw [or_comm]

/-- addition of a zero -/
theorem add_zero' {x y : Flt F} (hx : ¬ x.isNaN) (h0 : ¬ x.isZero) (hy : y.isZero) : x + y = x := by
  rcases (class_cases x).resolve_left hx with h | h
  · exact inf_add h (not_nan_of_finite (finite_of_zero hy)) (fun h' => absurd (finite_of_zero hy) (not_finite_of_inf h'))
  · rw [add_finite h (finite_of_zero hy), (isZero_iff_sval y).1 hy, Int.add_zero]
    have hs : x.sval ≠ 0 := fun h => h0 ((isZero_iff_sval x).2 h)
    rw [if_neg hs, natAbs_sval]
    have : decide (x.sval < 0) = x.sign := by
      have hm : x.mag ≠ 0 := fun h => h0 ((isZero_iff_mag x).2 h)
      unfold sval
      cases x.sign
      · simp
      · simp; omega
    rw [this]
    have := roundMag_self h (d := 1) (by norm_num)
    rwa [Nat.mul_one] at this

end Verif
