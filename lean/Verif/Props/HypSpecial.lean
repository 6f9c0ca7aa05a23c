import Verif.Props.InvHyp

/-!
# C47: special values of the hyperbolic functions
-/

namespace Verif
open Flt InvHyp

/-- The claim about an odd function of the hyperbolic family with limits `lim` at the two infinities: it never fails; NaN
gives NaN; the infinities give the limits; a zero gives the same zero. -/
structure IsHypOdd {F : Fmt} (f : Flt F → Option (Flt F)) (lim : Bool → Flt F) : Prop where
  total : ∀ x, ∃ r, f x = some r
  nan : ∀ x : Flt F, x.isNaN → ∃ r, f x = some r ∧ r.isNaN
  inf : ∀ s, f (inf F s) = some (lim s)
  zero : ∀ x : Flt F, x.isZero → f x = some x

/-- The claim about a hyperbolic cosine: it never fails; NaN gives NaN; both infinities give plus infinity; both zeros give
one. -/
structure IsHypCosh {F : Fmt} (f : Flt F → Option (Flt F)) : Prop where
  total : ∀ x, ∃ r, f x = some r
  nan : ∀ x : Flt F, x.isNaN → ∃ r, f x = some r ∧ r.isNaN
  inf : ∀ s, f (inf F s) = some (inf F false)
  zero : ∀ x : Flt F, x.isZero → f x = some (one F)

namespace Hyp

theorem hi_ab (x : Flt f64) : (getHighWord x.ab).toNat = x.mb / 2 ^ 32 := by rw [hi_toNat]; simp
theorem u32_ab (x : Flt f32) : x.ab.u32.toNat = x.mb := by rw [← ab_u32]; exact u32_abs x

theorem hi_lt (x : Flt f64) (c : BitVec 32) : getHighWord x.ab < c ↔ x.mb < c.toNat * 2 ^ 32 := by
  rw [BitVec.lt_def, hi_ab, Nat.div_lt_iff_lt_mul (by norm_num)]
theorem hi_gt (x : Flt f64) (c : BitVec 32) : getHighWord x.ab > c ↔ (c.toNat + 1) * 2 ^ 32 ≤ x.mb := by
  show c < _ ↔ _
  rw [BitVec.lt_def, hi_ab, ← Nat.succ_le_iff, Nat.le_div_iff_mul_le (by norm_num)]
theorem u32_lt (x : Flt f32) (c : BitVec 32) : x.ab.u32 < c ↔ x.mb < c.toNat := by rw [BitVec.lt_def, u32_ab]
theorem u32_gt (x : Flt f32) (c : BitVec 32) : x.ab.u32 > c ↔ c.toNat < x.mb := by
  show c < _ ↔ _
  rw [BitVec.lt_def, u32_ab]

theorem expo2_nan {x : Flt f64} (hx : x.isNaN) : ∃ r, expo2 x = some r ∧ r.isNaN := by
  unfold expo2
  refine map_nan (exp_special.nan _ ?_) fun r hr => ?_
  · rw [sub_nan (Or.inl hx)]; exact isNaN_qnan
  · rw [mul_nan (Or.inl (by rw [mul_nan (Or.inl hr)]; exact isNaN_qnan))]; exact isNaN_qnan
theorem kExpo2_nan {x : Flt f64} (hx : x.isNaN) : ∃ r, kExpo2 x = some r ∧ r.isNaN := by
  unfold kExpo2
  refine map_nan (exp_special.nan _ ?_) fun r hr => ?_
  · rw [sub_nan (Or.inl hx)]; exact isNaN_qnan
  · rw [mul_nan (Or.inl (by rw [mul_nan (Or.inl hr)]; exact isNaN_qnan))]; exact isNaN_qnan
theorem kExpo2f_nan {x : Flt f32} (hx : x.isNaN) : ∃ r, kExpo2f x = some r ∧ r.isNaN := by
  unfold kExpo2f
  refine map_nan (expf_special.nan _ ?_) fun r hr => ?_
  · rw [sub_nan (Or.inl hx)]; exact isNaN_qnan
  · rw [mul_nan (Or.inl (by rw [mul_nan (Or.inl hr)]; exact isNaN_qnan))]; exact isNaN_qnan

theorem total_of_odd {F : Fmt} {f : Flt F → Option (Flt F)} (h : OddFn f) (hn : ∀ x : Flt F, x.isNaN → ∃ r, f x = some r ∧ r.isNaN) :
    ∀ x, ∃ r, f x = some r := fun x => by
  by_cases hx : x.isNaN
  · obtain ⟨r, h1, -⟩ := hn x hx; exact ⟨r, h1⟩
  · obtain ⟨r, -, h1, -⟩ := h x hx; exact ⟨r, h1⟩

theorem sinh_nan (x : Flt f64) (hx : x.isNaN) : ∃ r, sinh x = some r ∧ r.isNaN := by
  rw [sinh_eq]
  have := (isNaN64 x).1 hx
  rw [if_neg (by rw [hi_lt]; change ¬ x.mb < 0x40862e42 * 2 ^ 32; omega)]
  exact map_nan (expo2_nan (by simpa using hx)) (mul_isNaN _)

theorem sinhf_nan (x : Flt f32) (hx : x.isNaN) : ∃ r, sinhf x = some r ∧ r.isNaN := by
  rw [sinhf_eq]
  have := (isNaN32 x).1 hx
  rw [if_neg (by rw [u32_lt]; change ¬ x.mb < 0x42b17217; omega)]
  exact map_nan (kExpo2f_nan (by simpa using hx)) (mul_isNaN _)

theorem tanh_nan (x : Flt f64) (hx : x.isNaN) : ∃ r, tanh x = some r ∧ r.isNaN := by
  rw [tanh_eq]
  have := (isNaN64 x).1 hx
  refine map_nan ?_ (flip_isNaN _)
  unfold tanhA
  dsimp only
  rw [if_pos (by rw [hi_gt]; change (0x3fe193ea + 1) * 2 ^ 32 ≤ x.mb; omega),
    if_pos (by rw [hi_gt]; change (0x40340000 + 1) * 2 ^ 32 ≤ x.mb; omega)]
  refine ⟨_, rfl, ?_⟩
  rw [sub_nan (Or.inr (by rw [div_nan (Or.inr (by simpa using hx))]; exact isNaN_qnan))]; exact isNaN_qnan

theorem tanhf_nan (x : Flt f32) (hx : x.isNaN) : ∃ r, tanhf x = some r ∧ r.isNaN := by
  rw [tanhf_eq]
  have := (isNaN32 x).1 hx
  refine map_nan ?_ (flip_isNaN _)
  unfold tanhfA
  dsimp only
  rw [if_pos (by rw [u32_gt]; change 0x3f0c9f54 < x.mb; omega), if_pos (by rw [u32_gt]; change 0x41200000 < x.mb; omega)]
  refine ⟨_, rfl, ?_⟩
  rw [add_nan (Or.inr (by rw [div_nan (Or.inr (by simpa using hx))]; exact isNaN_qnan))]; exact isNaN_qnan

theorem asinh_nan (x : Flt f64) (hx : x.isNaN) : ∃ r, asinh x = some r ∧ r.isNaN := by
  rw [asinh_eq]
  have := (isNaN64 x).1 hx
  refine map_nan ?_ (flip_isNaN _)
  unfold asinhA
  dsimp only
  rw [if_pos (by rw [ab_mb, ge_iff_le, Nat.le_div_iff_mul_le (by norm_num)]; omega)]
  exact map_nan (log_domain.nan _ (by simpa using hx)) (add_isNaN _)

theorem asinhf_nan (x : Flt f32) (hx : x.isNaN) : ∃ r, asinhf x = some r ∧ r.isNaN := by
  rw [asinhf_eq]
  have := (isNaN32 x).1 hx
  refine map_nan ?_ (flip_isNaN _)
  unfold asinhfA
  dsimp only
  rw [if_pos (by rw [ge_iff_le, BitVec.le_def, u32_ab]; change 0x45800000 ≤ x.mb; omega)]
  exact map_nan (logf_domain.nan _ (by simpa using hx)) (add_isNaN _)

theorem zero_tac {F : Fmt} {f : Flt F → Option (Flt F)} {g : Bool → Flt F} (h : ∀ s, f (zero F s) = some (g s)) (x : Flt F) (hx : x.isZero) :
    f x = some (g x.sign) := by
  conv_lhs => rw [eq_zero hx]
  exact h _

end Hyp
open Hyp

/-- **C47** -/
theorem sinh_special : IsHypOdd sinh (fun s => inf f64 s) where
  total := total_of_odd sinh_odd sinh_nan
  nan := sinh_nan
  inf := by decide +kernel
  zero x hx := by rw [eq_zero hx]; cases x.sign <;> decide +kernel
theorem sinhf_special : IsHypOdd sinhf (fun s => inf f32 s) where
  total := total_of_odd sinhf_odd sinhf_nan
  nan := sinhf_nan
  inf := by decide +kernel
  zero x hx := by rw [eq_zero hx]; cases x.sign <;> decide +kernel
theorem asinh_special : IsHypOdd asinh (fun s => inf f64 s) where
  total := total_of_odd asinh_odd asinh_nan
  nan := asinh_nan
  inf := by decide +kernel
  zero x hx := by rw [eq_zero hx]; cases x.sign <;> decide +kernel
theorem asinhf_special : IsHypOdd asinhf (fun s => inf f32 s) where
  total := total_of_odd asinhf_odd asinhf_nan
  nan := asinhf_nan
  inf := by decide +kernel
  zero x hx := by rw [eq_zero hx]; cases x.sign <;> decide +kernel
/-- **C47**: `tanh(±inf) = ±1` -/
theorem tanh_special : IsHypOdd tanh (fun s => if s then -one f64 else one f64) where
  total := total_of_odd tanh_odd tanh_nan
  nan := tanh_nan
  inf := by decide +kernel
  zero x hx := by rw [eq_zero hx]; cases x.sign <;> decide +kernel
theorem tanhf_special : IsHypOdd tanhf (fun s => if s then -one f32 else one f32) where
  total := total_of_odd tanhf_odd tanhf_nan
  nan := tanhf_nan
  inf := by decide +kernel
  zero x hx := by rw [eq_zero hx]; cases x.sign <;> decide +kernel
/-- **C47** -/
theorem cosh_special : IsHypCosh cosh where
  total := cosh_total
  nan x hx := by
    unfold cosh
    have := (isNaN64 x).1 hx
    have h : (x.u64 &&& 0x7fffffffffffffff).toNat = x.mb := u64_abs x
    have h2 : ((x.u64 &&& 0x7fffffffffffffff) >>> 32).toNat = x.mb / 2 ^ 32 := by
      rw [BitVec.toNat_ushiftRight, h, Nat.shiftRight_eq_div_pow]
    dsimp only
    rw [if_neg (by rw [BitVec.lt_def, h2, Nat.div_lt_iff_lt_mul (by norm_num)]; change ¬ x.mb < 0x3fe62e42 * 2 ^ 32; omega),
      if_neg (by rw [BitVec.lt_def, h2, Nat.div_lt_iff_lt_mul (by norm_num)]; change ¬ x.mb < 0x40862e42 * 2 ^ 32; omega)]
    rw [ab_u64, bits64_u64]
    exact kExpo2_nan (by simpa using hx)
  inf := by decide +kernel
  zero x hx := by rw [eq_zero hx]; cases x.sign <;> decide +kernel
theorem coshf_special : IsHypCosh coshf where
  total := coshf_total
  nan x hx := by
    unfold coshf
    have := (isNaN32 x).1 hx
    have h : (x.u32 &&& 0x7fffffff).toNat = x.mb := u32_abs x
    dsimp only
    rw [if_neg (by rw [BitVec.lt_def, h]; change ¬ x.mb < 0x3f317217; omega),
      if_neg (by rw [BitVec.lt_def, h]; change ¬ x.mb < 0x42b17217; omega)]
    rw [ab_u32, bits32_u32]
    exact kExpo2f_nan (by simpa using hx)
  inf := by decide +kernel
  zero x hx := by rw [eq_zero hx]; cases x.sign <;> decide +kernel

example : (bits64 0x7ff8000000000001).isNaN ∧ (bits32 0xffc00000).isNaN ∧ (bits64 0x8000000000000000).isZero := by decide +kernel

end Verif
