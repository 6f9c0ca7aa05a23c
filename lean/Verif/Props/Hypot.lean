import Verif.Theory.Hypotf
import Verif.Props.Sqrt

/-!
# C28: hypot and hypotf

`IsHypot f acc` is the full claim about a two-argument function `f`: special values, symmetries, sign, and an accuracy
bound `acc r h` against the real hypotenuse `h = √(x² + y²)` for all finite arguments.  `some` says that no arithmetic
check fails.
-/

namespace Verif
open Flt

/-- the special values of C Annex F for `hypot`, its symmetries, and the accuracy `acc` on finite arguments -/
structure IsHypot {F : Fmt} (f : Flt F → Flt F → Option (Flt F)) (acc : Flt F → ℝ → Prop) : Prop where
  /-- `+inf` if either argument is infinite, even if the other is NaN -/
  inf : ∀ x y : Flt F, x.isInf ∨ y.isInf → f x y = some (Flt.inf F false)
  /-- NaN if either argument is NaN and none is infinite -/
  nan : ∀ x y : Flt F, ¬ x.isInf → ¬ y.isInf → x.isNaN ∨ y.isNaN → ∃ r, f x y = some r ∧ r.isNaN
  /-- order and signs do not matter, bit for bit (not even for NaNs) -/
  comm : ∀ x y : Flt F, f x y = f y x
  neg_left : ∀ x y : Flt F, f (-x) y = f x y
  neg_right : ∀ x y : Flt F, f x (-y) = f x y
  /-- a zero argument leaves the absolute value of the other one: same magnitude bits, sign cleared -/
  zero : ∀ x y : Flt F, ¬ x.isNaN → y.isZero → ∃ r, f x y = some r ∧ r.sign = false ∧ r.mb = x.mb
  /-- never fails, never negative -/
  nonneg : ∀ x y : Flt F, ∃ r, f x y = some r ∧ (r.isNaN ∨ r.sign = false)
  /-- accuracy for every pair of finite arguments -/
  acc : ∀ x y : Flt F, x.isFinite → y.isFinite → ∃ r, f x y = some r ∧ acc r √((x.toRat : ℝ) ^ 2 + (y.toRat : ℝ) ^ 2)


namespace Hypot

/-- the argument with its sign cleared -/
def ab (x : Flt f64) : Flt f64 := mk' f64 false x.mb

theorem ab_mb (x : Flt f64) : (ab x).mb = x.mb := mb_mk' x.mb_lt
theorem ab_sign (x : Flt f64) : (ab x).sign = false := sign_mk' x.mb_lt
theorem ab_neg (x : Flt f64) : ab (-x) = ab x := by unfold ab; rw [mb_neg]
theorem ab_bits (x : Flt f64) : x.u64 &&& 0x7fffffffffffffff = (ab x).u64 := by
  rw [← BitVec.toNat_inj, u64_toNat, ab_sign, ab_mb]
  have := u64_abs x
  simpa using this
theorem ab_sq (x : Flt f64) : (ab x).val ^ 2 = x.val ^ 2 := by
  rw [← sq_abs x.val, ← sq_abs (ab x).val]
  rw [val_abs, val_abs]
  unfold mag
  rw [ab_mb]

theorem hypot_eq (x y : Flt f64) : hypot x y =
    if x.mb < y.mb then hypotOrd (ab y).u64 (ab x).u64 else hypotOrd (ab x).u64 (ab y).u64 := by
  unfold hypot
  simp only [ab_bits, BitVec.lt_def]
  rw [u64_toNat, u64_toNat, ab_sign, ab_sign, ab_mb, ab_mb]
  rfl

theorem hypot_swap (x y : Flt f64) : hypot x y = hypot y x := by
  rw [hypot_eq, hypot_eq]
  rcases lt_trichotomy x.mb y.mb with h | h | h
  · rw [if_pos h, if_neg (by omega)]
  · have : ab x = ab y := by unfold ab; rw [h]
    simp [h, this]
  · rw [if_neg (by omega), if_pos h]

/-- ordered arguments, the larger one not finite -/
theorem ord_special {X Y : Flt f64} (sX : X.sign = false) (sY : Y.sign = false) (hX : ¬ X.isFinite) (hle : Y.mb ≤ X.mb) :
    ∃ r, hypotOrd X.u64 Y.u64 = some r ∧ ((X.isInf ∨ Y.isInf) → r = Flt.inf f64 false) ∧
      (¬ X.isInf → ¬ Y.isInf → r.isNaN) := by
  have hXm := (isFinite64 X).not.1 hX
  have hx63 := mb64_lt X
  have exX : ((X.u64 >>> 52).toNat : ℤ) = 0x7ff := by
    rw [BitVec.toNat_ushiftRight, u64_toNat, sX, Nat.shiftRight_eq_div_pow]; simp; omega
  have exY : ((Y.u64 >>> 52).toNat : ℤ) = 0x7ff ↔ ¬ Y.isFinite := by
    rw [isFinite64, BitVec.toNat_ushiftRight, u64_toNat, sY, Nat.shiftRight_eq_div_pow]
    have := mb64_lt Y
    simp; omega
  unfold hypotOrd
  simp only [bits64_u64, exY, exX, true_or, if_true]
  have pin : ∀ Z : Flt f64, Z.isInf → Z.sign = false → Z = Flt.inf f64 false := fun Z h s => by rw [eq_inf h, s]
  have ofn : ∀ Z : Flt f64, ¬ Z.isFinite → ¬ Z.isInf → Z.isNaN := fun Z h s => by
    rw [isFinite_iff] at h; rw [isInf_iff] at s; rw [isNaN_iff]; omega
  by_cases hY : Y.isFinite
  · rw [if_neg (by simpa using hY)]
    refine ⟨X, rfl, fun h => pin X (h.resolve_right (fun h => not_inf_of_finite hY h)) sX, fun h _ => ofn X hX h⟩
  · rw [if_pos hY]
    refine ⟨Y, rfl, fun h => pin Y ?_ sY, fun _ h => ofn Y hY h⟩
    rcases h with h | h
    · rw [isInf64] at *; rw [isFinite64] at hY; omega
    · exact h

theorem special {x y : Flt f64} (h : ¬ x.isFinite ∨ ¬ y.isFinite) :
    ∃ r, hypot x y = some r ∧ ((x.isInf ∨ y.isInf) → r = Flt.inf f64 false) ∧ (¬ x.isInf → ¬ y.isInf → r.isNaN) := by
  have ei : ∀ z : Flt f64, (ab z).isInf ↔ z.isInf := fun z => by rw [isInf_iff, isInf_iff, ab_mb]
  have ef : ∀ z : Flt f64, (ab z).isFinite ↔ z.isFinite := fun z => by rw [isFinite_iff, isFinite_iff, ab_mb]
  rw [hypot_eq]
  have hx := isFinite_iff x
  have hy := isFinite_iff y
  split
  case isTrue hl =>
    obtain ⟨r, a, b, c⟩ := ord_special (ab_sign y) (ab_sign x) (by rw [ef]; intro hc; rw [hx, hy] at h; rw [hy] at hc; omega)
      (by rw [ab_mb, ab_mb]; omega)
    rw [ei, ei] at b c
    exact ⟨r, a, fun h => b h.symm, fun h1 h2 => c h2 h1⟩
  case isFalse hl =>
    obtain ⟨r, a, b, c⟩ := ord_special (ab_sign x) (ab_sign y) (by rw [ef]; intro hc; rw [hx, hy] at h; rw [hx] at hc; omega)
      (by rw [ab_mb, ab_mb]; omega)
    rw [ei, ei] at b c
    exact ⟨r, a, b, c⟩

theorem finite {x y : Flt f64} (hx : x.isFinite) (hy : y.isFinite) :
    ∃ r, hypot x y = some r ∧ r.sign = false ∧ Acc64 r √(x.val ^ 2 + y.val ^ 2) := by
  have ef : ∀ z : Flt f64, z.isFinite → (ab z).isFinite := fun z => by rw [isFinite_iff, isFinite_iff, ab_mb]; exact id
  rw [hypot_eq]
  split
  case isTrue hl =>
    obtain ⟨r, a, b, c⟩ := ord_acc (ef y hy) (ef x hx) (ab_sign y) (ab_sign x) (by rw [ab_mb, ab_mb]; omega)
    rw [ab_sq, ab_sq, add_comm] at c
    exact ⟨r, a, b, c⟩
  case isFalse hl =>
    obtain ⟨r, a, b, c⟩ := ord_acc (ef x hx) (ef y hy) (ab_sign x) (ab_sign y) (by rw [ab_mb, ab_mb]; omega)
    rw [ab_sq, ab_sq] at c
    exact ⟨r, a, b, c⟩

theorem zero_arg {x y : Flt f64} (hx : x.isFinite) (hy : y.isZero) : hypot x y = some (ab x) := by
  rw [isZero_iff] at hy
  rw [hypot_eq, if_neg (by omega)]
  have hu : (ab y).u64 = 0 := by rw [← BitVec.toNat_inj, u64_toNat, ab_sign, ab_mb, hy]; rfl
  rw [hu]
  have h2 : ((0 : BitVec 64) >>> 52).toNat = 0 := by decide
  unfold hypotOrd
  simp only [bits64_u64, h2]
  simp

end Hypot

/-- C28 for `hypot`.  Accuracy: the result is finite and within `2^-52·h + 2^-1075` of the exact hypotenuse `h` (less than
two ulp for normal results), or it is `+inf` and `h` is at least `(1-2^-51)·2^1024`. -/
theorem hypot_correct : IsHypot hypot (fun r h =>
    (r.isFinite ∧ |(r.toRat : ℝ) - h| ≤ 2 ^ (-52 : ℤ) * h + 2 ^ (-1075 : ℤ)) ∨ (r.isInf ∧ (1 - 2 ^ (-51 : ℤ)) * 2 ^ (1024 : ℤ) ≤ h)) where
  inf x y h := by
    obtain ⟨r, a, b, -⟩ := Hypot.special (x := x) (y := y)
      (h.imp (fun h => not_finite_of_inf h) (fun h => not_finite_of_inf h))
    rw [a, b h]
  nan x y h1 h2 h := by
    obtain ⟨r, a, -, c⟩ := Hypot.special (x := x) (y := y)
      (h.imp (fun h h' => not_nan_of_finite h' h) (fun h h' => not_nan_of_finite h' h))
    exact ⟨r, a, c h1 h2⟩
  comm := Hypot.hypot_swap
  neg_left x y := by rw [Hypot.hypot_eq, Hypot.hypot_eq, Hypot.ab_neg, mb_neg]
  neg_right x y := by rw [Hypot.hypot_eq, Hypot.hypot_eq, Hypot.ab_neg, mb_neg]
  zero x y hx hy := by
    by_cases hf : x.isFinite
    · exact ⟨_, Hypot.zero_arg hf hy, Hypot.ab_sign x, Hypot.ab_mb x⟩
    · have hi : x.isInf := by
        rw [isInf_iff]; rw [isFinite_iff] at hf; rw [isNaN_iff] at hx; omega
      obtain ⟨r, a, b, -⟩ := Hypot.special (x := x) (y := y) (Or.inl hf)
      rw [b (Or.inl hi)] at a
      refine ⟨_, a, by decide +kernel, ?_⟩
      rw [isInf_iff] at hi
      rw [hi]
      decide +kernel
  nonneg x y := by
    by_cases h : x.isFinite ∧ y.isFinite
    · obtain ⟨r, a, b, -⟩ := Hypot.finite h.1 h.2
      exact ⟨r, a, Or.inr b⟩
    · obtain ⟨r, a, b, c⟩ := Hypot.special (x := x) (y := y) (not_and_or.1 h)
      refine ⟨r, a, ?_⟩
      by_cases hi : x.isInf ∨ y.isInf
      · right; rw [b hi]; decide +kernel
      · left; exact c (fun h => hi (Or.inl h)) (fun h => hi (Or.inr h))
  acc x y hx hy := by
    obtain ⟨r, a, -, b⟩ := Hypot.finite hx hy
    exact ⟨r, a, b⟩


namespace Hypotf

/-- the argument with its sign cleared -/
def ab (x : Flt f32) : Flt f32 := mk' f32 false x.mb

theorem ab_mb (x : Flt f32) : (ab x).mb = x.mb := mb_mk' x.mb_lt
theorem ab_sign (x : Flt f32) : (ab x).sign = false := sign_mk' x.mb_lt
theorem ab_neg (x : Flt f32) : ab (-x) = ab x := by unfold ab; rw [mb_neg]
theorem ab_bits (x : Flt f32) : x.u32 &&& 0x7fffffff = (ab x).u32 := by
  rw [← BitVec.toNat_inj, u32_toNat, ab_sign, ab_mb]
  have := u32_abs x
  simpa using this
theorem ab_sq (x : Flt f32) : (ab x).val ^ 2 = x.val ^ 2 := by
  rw [← sq_abs x.val, ← sq_abs (ab x).val]
  rw [val_abs, val_abs]
  unfold mag
  rw [ab_mb]

theorem hypotf_eq (x y : Flt f32) : hypotf x y =
    if x.mb < y.mb then hypotfOrd (ab y).u32 (ab x).u32 else hypotfOrd (ab x).u32 (ab y).u32 := by
  unfold hypotf
  simp only [ab_bits, BitVec.lt_def]
  rw [u32_toNat, u32_toNat, ab_sign, ab_sign, ab_mb, ab_mb]
  rfl

theorem hypotf_swap (x y : Flt f32) : hypotf x y = hypotf y x := by
  rw [hypotf_eq, hypotf_eq]
  rcases lt_trichotomy x.mb y.mb with h | h | h
  · rw [if_pos h, if_neg (by omega)]
  · have : ab x = ab y := by unfold ab; rw [h]
    simp [h, this]
  · rw [if_neg (by omega), if_pos h]

/-- ordered arguments, the larger one not finite -/
theorem ord_special {X Y : Flt f32} (sX : X.sign = false) (sY : Y.sign = false) (hX : ¬ X.isFinite) (hle : Y.mb ≤ X.mb) :
    ∃ r, hypotfOrd X.u32 Y.u32 = some r ∧ ((X.isInf ∨ Y.isInf) → r = Flt.inf f32 false) ∧
      (¬ X.isInf → ¬ Y.isInf → r.isNaN) := by
  have hXm := (isFinite32 X).not.1 hX
  have ti : ((0xff : BitVec 32) <<< 23).toNat = 0x7f800000 := by decide
  have exX : X.u32 ≥ (0xff : BitVec 32) <<< 23 := by
    rw [ge_iff_le, BitVec.le_def, ti, u32_toNat, sX]; simp; omega
  have exY : Y.u32 = (0xff : BitVec 32) <<< 23 ↔ Y.isInf := by
    rw [isInf32, ← BitVec.toNat_inj, ti, u32_toNat, sY]; simp
  unfold hypotfOrd
  simp only [bits32_u32, exY, exX, true_or, if_true]
  have pin : ∀ Z : Flt f32, Z.isInf → Z.sign = false → Z = Flt.inf f32 false := fun Z h s => by rw [eq_inf h, s]
  by_cases hY : Y.isInf
  · rw [if_pos hY]
    exact ⟨Y, rfl, fun _ => pin Y hY sY, fun _ h => absurd hY h⟩
  · rw [if_neg hY]
    refine ⟨_, rfl, fun h => ?_, fun h _ => ?_⟩
    · have hi := h.resolve_right hY
      rw [inf_add hi (fun hn => by rw [isInf32] at hi; rw [isNaN32] at hn; omega) (fun h => absurd h hY)]
      exact pin X hi sX
    · rw [add_nan (Or.inl (by rw [isInf32] at h; rw [isNaN32]; omega))]
      exact isNaN_qnan

theorem special {x y : Flt f32} (h : ¬ x.isFinite ∨ ¬ y.isFinite) :
    ∃ r, hypotf x y = some r ∧ ((x.isInf ∨ y.isInf) → r = Flt.inf f32 false) ∧ (¬ x.isInf → ¬ y.isInf → r.isNaN) := by
  have ei : ∀ z : Flt f32, (ab z).isInf ↔ z.isInf := fun z => by rw [isInf_iff, isInf_iff, ab_mb]
  have ef : ∀ z : Flt f32, (ab z).isFinite ↔ z.isFinite := fun z => by rw [isFinite_iff, isFinite_iff, ab_mb]
  rw [hypotf_eq]
  have hx := isFinite_iff x
  have hy := isFinite_iff y
  split
  case isTrue hl =>
    obtain ⟨r, a, b, c⟩ := ord_special (ab_sign y) (ab_sign x) (by rw [ef]; intro hc; rw [hx, hy] at h; rw [hy] at hc; omega)
      (by rw [ab_mb, ab_mb]; omega)
    rw [ei, ei] at b c
    exact ⟨r, a, fun h => b h.symm, fun h1 h2 => c h2 h1⟩
  case isFalse hl =>
    obtain ⟨r, a, b, c⟩ := ord_special (ab_sign x) (ab_sign y) (by rw [ef]; intro hc; rw [hx, hy] at h; rw [hx] at hc; omega)
      (by rw [ab_mb, ab_mb]; omega)
    rw [ei, ei] at b c
    exact ⟨r, a, b, c⟩

theorem finite {x y : Flt f32} (hx : x.isFinite) (hy : y.isFinite) :
    ∃ r, hypotf x y = some r ∧ r.sign = false ∧ Acc32 r √(x.val ^ 2 + y.val ^ 2) := by
  have ef : ∀ z : Flt f32, z.isFinite → (ab z).isFinite := fun z => by rw [isFinite_iff, isFinite_iff, ab_mb]; exact id
  rw [hypotf_eq]
  split
  case isTrue hl =>
    obtain ⟨r, a, b, c⟩ := ord_acc (ef y hy) (ef x hx) (ab_sign y) (ab_sign x) (by rw [ab_mb, ab_mb]; omega)
    rw [ab_sq, ab_sq, add_comm] at c
    exact ⟨r, a, b, c⟩
  case isFalse hl =>
    obtain ⟨r, a, b, c⟩ := ord_acc (ef x hx) (ef y hy) (ab_sign x) (ab_sign y) (by rw [ab_mb, ab_mb]; omega)
    rw [ab_sq, ab_sq] at c
    exact ⟨r, a, b, c⟩

theorem zero_arg {x y : Flt f32} (hx : x.isFinite) (hy : y.isZero) : hypotf x y = some (ab x) := by
  rw [isZero_iff] at hy
  rw [hypotf_eq, if_neg (by omega)]
  have hu : (ab y).u32 = 0 := by rw [← BitVec.toNat_inj, u32_toNat, ab_sign, ab_mb, hy]; rfl
  rw [hu]
  have h2 : (0 : BitVec 32) ≠ (0xff : BitVec 32) <<< 23 := by decide
  unfold hypotfOrd
  simp only [bits32_u32, or_true, if_true]
  rw [if_neg h2, show bits32 0 = Flt.zero f32 false by decide]
  by_cases hz : (ab x).isZero
  · rw [eq_zero hz, ab_sign]; decide
  · rw [add_zero' (by rw [isNaN_iff, ab_mb, ← isNaN_iff]; exact not_nan_of_finite hx) hz (by decide)]

end Hypotf

/-- C28 for `hypotf`.  Accuracy: the result is finite and within `2^-23·h + 2^-150` of the exact hypotenuse `h` (less than
two ulp for normal results), or it is `+inf` and `h` is at least `(1-2^-22)·2^128`. -/
theorem hypotf_correct : IsHypot hypotf (fun r h =>
    (r.isFinite ∧ |(r.toRat : ℝ) - h| ≤ 2 ^ (-23 : ℤ) * h + 2 ^ (-150 : ℤ)) ∨ (r.isInf ∧ (1 - 2 ^ (-22 : ℤ)) * 2 ^ (128 : ℤ) ≤ h)) where
  inf x y h := by
    obtain ⟨r, a, b, -⟩ := Hypotf.special (x := x) (y := y)
      (h.imp (fun h => not_finite_of_inf h) (fun h => not_finite_of_inf h))
    rw [a, b h]
  nan x y h1 h2 h := by
    obtain ⟨r, a, -, c⟩ := Hypotf.special (x := x) (y := y)
      (h.imp (fun h h' => not_nan_of_finite h' h) (fun h h' => not_nan_of_finite h' h))
    exact ⟨r, a, c h1 h2⟩
  comm := Hypotf.hypotf_swap
  neg_left x y := by rw [Hypotf.hypotf_eq, Hypotf.hypotf_eq, Hypotf.ab_neg, mb_neg]
  neg_right x y := by rw [Hypotf.hypotf_eq, Hypotf.hypotf_eq, Hypotf.ab_neg, mb_neg]
  zero x y hx hy := by
    by_cases hf : x.isFinite
    · exact ⟨_, Hypotf.zero_arg hf hy, Hypotf.ab_sign x, Hypotf.ab_mb x⟩
    · have hi : x.isInf := by
        rw [isInf_iff]; rw [isFinite_iff] at hf; rw [isNaN_iff] at hx; omega
      obtain ⟨r, a, b, -⟩ := Hypotf.special (x := x) (y := y) (Or.inl hf)
      rw [b (Or.inl hi)] at a
      refine ⟨_, a, by decide +kernel, ?_⟩
      rw [isInf_iff] at hi
      rw [hi]
      decide +kernel
  nonneg x y := by
    by_cases h : x.isFinite ∧ y.isFinite
    · obtain ⟨r, a, b, -⟩ := Hypotf.finite h.1 h.2
      exact ⟨r, a, Or.inr b⟩
    · obtain ⟨r, a, b, c⟩ := Hypotf.special (x := x) (y := y) (not_and_or.1 h)
      refine ⟨r, a, ?_⟩
      by_cases hi : x.isInf ∨ y.isInf
      · right; rw [b hi]; decide +kernel
      · left; exact c (fun h => hi (Or.inl h)) (fun h => hi (Or.inr h))
  acc x y hx hy := by
    obtain ⟨r, a, -, b⟩ := Hypotf.finite hx hy
    exact ⟨r, a, b⟩

/-- witnesses: 3-4-5, a scaled triple near the overflow threshold, and infinity beating NaN -/
example : hypot (3.0 : Flt f64) 4.0 = some 5.0 := by decide +kernel
example : hypotf (3.0 : Flt f32) (-4.0) = some 5.0 := by decide +kernel
example : hypot (bits64 0x7fec000000000000) (bits64 0x7fe8000000000000) = some (inf f64 false) := by decide +kernel
example : hypotf (qnan f32) (inf f32 true) = some (inf f32 false) := by decide +kernel

end Verif
