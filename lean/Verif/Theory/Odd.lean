import Verif.Spec.Symmetry
import Verif.Theory.Neg
import Verif.Props.Sign
import Verif.Props.Exp2
import Verif.Props.Log
import Verif.Props.Sqrt

/-!
# Tools for the symmetry of functions that work on the absolute value
-/

namespace Verif
open Flt

theorem u64_sign_ne (x : Flt f64) : x.u64 >>> 63 ≠ 0 ↔ x.sign = true := by
  rw [Ne, ← BitVec.toNat_inj, u64_sign]; cases x.sign <;> simp
theorem u32_sign_ne (x : Flt f32) : x.u32 >>> 31 ≠ 0 ↔ x.sign = true := by
  rw [Ne, ← BitVec.toNat_inj, u32_sign]; cases x.sign <;> simp
theorem hi_sign_ne (x : Flt f64) : getHighWord x >>> 31 ≠ 0 ↔ x.sign = true := by
  rw [Ne, ← BitVec.toNat_inj, hi_sign]; cases x.sign <;> simp

/-- the sign bit cleared -/
def Flt.ab {F : Fmt} (x : Flt F) : Flt F := mk' F false x.mb

namespace Flt
variable {F : Fmt}

@[simp] theorem ab_mb (x : Flt F) : x.ab.mb = x.mb := mb_mk' x.mb_lt
@[simp] theorem ab_sign (x : Flt F) : x.ab.sign = false := sign_mk' x.mb_lt
@[simp] theorem ab_neg (x : Flt F) : (-x).ab = x.ab := by unfold ab; rw [mb_neg]
@[simp] theorem ab_val (x : Flt F) : x.ab.val = |x.val| := by
  rw [← abs_of_nonneg (val_nonneg x.ab_sign), val_abs, val_abs]; unfold mag; rw [ab_mb]
theorem fabs_ab (x : Flt F) : Generic.fabs x = x.ab := fabs_eq x
theorem ab_of_pos {x : Flt F} (h : x.sign = false) : x.ab = x := ext_mb (by rw [ab_sign, h]) (ab_mb x)
theorem eq_flip_ab (x : Flt F) : x = flip x.sign x.ab := by
  apply ext_mb
  · rw [flip_sign, ab_sign]; simp
  · unfold flip; split_ifs <;> simp [mb_neg]
@[simp] theorem ab_isNaN (x : Flt F) : x.ab.isNaN ↔ x.isNaN := by rw [isNaN_iff, isNaN_iff, ab_mb]
@[simp] theorem ab_isInf (x : Flt F) : x.ab.isInf ↔ x.isInf := by rw [isInf_iff, isInf_iff, ab_mb]
@[simp] theorem ab_isFinite (x : Flt F) : x.ab.isFinite ↔ x.isFinite := by rw [isFinite_iff, isFinite_iff, ab_mb]
@[simp] theorem ab_isZero (x : Flt F) : x.ab.isZero ↔ x.isZero := by rw [isZero_iff, isZero_iff, ab_mb]

end Flt

theorem bits_ab64 (x : Flt f64) : bits64 (x.u64 &&& 0x7fffffffffffffff) = x.ab := by
  have h : (x.u64 &&& 0x7fffffffffffffff).toNat = x.mb := u64_abs x
  rw [bits64_mk (by rw [h]; exact mb64_lt x), h]; rfl
theorem bits_ab32 (x : Flt f32) : bits32 (x.u32 &&& 0x7fffffff) = x.ab := by
  have h : (x.u32 &&& 0x7fffffff).toNat = x.mb := u32_abs x
  rw [bits32_mk (by rw [h]; exact mb32_lt x), h]; rfl
theorem ab_u64 (x : Flt f64) : x.u64 &&& 0x7fffffffffffffff = x.ab.u64 := by rw [← bits_ab64, u64_bits64]
theorem ab_u32 (x : Flt f32) : x.u32 &&& 0x7fffffff = x.ab.u32 := by rw [← bits_ab32, u32_bits32]

theorem exp64_field (x : Flt f64) : (x.u64 >>> 52).toNat &&& 0x7ff = x.mb / 2 ^ 52 := by
  have h := u64_toNat x
  have := mb64_lt x
  rw [BitVec.toNat_ushiftRight, Nat.shiftRight_eq_div_pow, h, show (0x7ff : ℕ) = 2 ^ 11 - 1 from rfl,
    Nat.and_two_pow_sub_one_eq_mod]
  split_ifs <;> omega

/-- a function that puts the sign back at the end -/
theorem OddFn.of_flip {F : Fmt} {f : Flt F → Option (Flt F)}
    (h : ∀ x : Flt F, ¬ x.isNaN → ∃ r, f x = some (flip x.sign r) ∧ f (-x) = some (flip (!x.sign) r)) : OddFn f := by
  intro x hx
  obtain ⟨r, h1, h2⟩ := h x hx
  refine ⟨_, _, h1, h2, Or.inl ?_⟩
  unfold Flt.flip
  cases x.sign <;> simp

theorem OddFn.of_opp {F : Fmt} {f : Flt F → Option (Flt F)}
    (h : ∀ x : Flt F, ¬ x.isNaN → ∃ r r', f x = some r ∧ f (-x) = some r' ∧ Opp true r r') : OddFn f := h

theorem opp_self_of {F : Fmt} {r : Flt F} {s : Bool} : Opp true (flip s r) (flip (!s) r) := by
  left; unfold Flt.flip; cases s <;> simp

theorem map_total {α β : Type} {o : Option α} {g : α → β} (h : ∃ a, o = some a) : ∃ b, o.map g = some b := by
  obtain ⟨a, rfl⟩ := h; exact ⟨_, rfl⟩
theorem bind_total {α β : Type} {o : Option α} {g : α → Option β} (h : ∃ a, o = some a) (hg : ∀ a, ∃ b, g a = some b) :
    ∃ b, o.bind g = some b := by
  obtain ⟨a, rfl⟩ := h; exact hg a
theorem isSome_total {α : Type} {o : Option α} (h : o.isSome) : ∃ a, o = some a := Option.isSome_iff_exists.1 h

theorem exp_tot (x : Flt f64) : ∃ r, exp x = some r := exp_special.total x
theorem expf_tot (x : Flt f32) : ∃ r, expf x = some r := expf_special.total x
theorem expm1_tot (x : Flt f64) : ∃ r, expm1 x = some r := expm1_special.total x
theorem expm1f_tot (x : Flt f32) : ∃ r, expm1f x = some r := expm1f_special.total x
theorem log_tot (x : Flt f64) : ∃ r, log x = some r := log_domain.total x
theorem logf_tot (x : Flt f32) : ∃ r, logf x = some r := logf_domain.total x
theorem log1p_tot (x : Flt f64) : ∃ r, log1p x = some r := log1p_domain.total x
theorem log1pf_tot (x : Flt f32) : ∃ r, log1pf x = some r := log1pf_domain.total x
theorem sqrt_tot (x : Flt f64) : ∃ r, sqrt x = some r := isSome_total (sqrt_total x)
theorem sqrtf_tot (x : Flt f32) : ∃ r, sqrtf x = some r := isSome_total (sqrtf_total x)
theorem expo2_tot (x : Flt f64) : ∃ r, expo2 x = some r := map_total (exp_tot _)
theorem kExpo2_tot (x : Flt f64) : ∃ r, kExpo2 x = some r := map_total (exp_tot _)
theorem kExpo2f_tot (x : Flt f32) : ∃ r, kExpo2f x = some r := map_total (expf_tot _)

/-- a computation on the absolute value whose result gets the sign back -/
theorem odd_map {F : Fmt} {f : Flt F → Option (Flt F)} {T : Flt F → Option (Flt F)}
    (hT : ∀ x : Flt F, ¬ x.isNaN → ∃ t, T x.ab = some t)
    (hf : ∀ x, f x = (T x.ab).map (flip x.sign)) : OddFn f := by
  refine OddFn.of_flip fun x hx => ?_
  obtain ⟨t, ht⟩ := hT x hx
  refine ⟨t, by rw [hf, ht]; rfl, ?_⟩
  rw [hf, ab_neg, ht, sign_neg]; rfl

end Verif
