import Verif.Theory.Sqrt7
import Verif.Props.Big

/-!
# C20: sqrt is correctly rounded in all four formats

The specification is `IsRNE` (Spec/Float.lean) applied to the real square root of Mathlib: the result is the datum
nearest to the exact root, ties to even.  `some` says that no arithmetic check, cast or table index fails.
-/

namespace Verif
open Flt Generic

/-- the high half the generic code computes is that of the `u256` product the code uses for `u128` -/
theorem wmulh_u128 (a b : BitVec 128) : ∃ r, U256.widenMul a b = some r ∧ r.getHi = wmulh a b := by
  obtain ⟨r, h1, -, h2⟩ := U256.widenMul_lo_hi a b
  refine ⟨r, h1, ?_⟩
  rw [← BitVec.toNat_inj, h2, Sqrt.wmulh_toNat]

/-- Positive finite numbers, subnormal ones included: the result is the real square root, correctly rounded, and the
status is "no exception" (the code does not report inexact). -/
theorem Generic.sqrtRound_pos {F : Fmt} {c : SqrtCfg} (hc : Sqrt.CfgOk F c) (x : Flt F) (hs : x.sign = false) (hf : x.isFinite)
    (hz : ¬ x.isZero) :
    ∃ r, sqrtRound c x = some (FpResult.ok r) ∧ r.sign = false ∧ IsRNE (√(x.toRat : ℝ)) r := by
  rcases Sqrt.round_cases hc x with ⟨-, -, -, h⟩ | ⟨h | h, -⟩ | ⟨h | h, -⟩
  · exact h
  · exact absurd h hz
  · exact absurd h.1 (not_inf_of_finite hf)
  · exact absurd h (not_nan_of_finite hf)
  · rw [hs] at h; simp at h

theorem Generic.sqrtRound_fixed {F : Fmt} {c : SqrtCfg} (hc : Sqrt.CfgOk F c) (x : Flt F)
    (h : x.isZero ∨ (x.isInf ∧ x.sign = false)) : sqrtRound c x = some (FpResult.ok x) := by
  rcases Sqrt.round_cases hc x with ⟨-, h2, h3, -⟩ | ⟨-, h2⟩ | ⟨h2, -⟩
  · exact absurd h (by rintro (h | h); exacts [h3 h, not_inf_of_finite h2 h.1])
  · exact h2
  · rcases h with h | h <;> rcases h2 with h2 | h2
    · exact absurd h2 (not_nan_of_finite (finite_of_zero h))
    · exact absurd h h2.2
    · exact absurd h2 (not_nan_of_inf h.1)
    · rw [h.2] at h2; simp at h2

theorem Generic.sqrtRound_invalid {F : Fmt} {c : SqrtCfg} (hc : Sqrt.CfgOk F c) (x : Flt F)
    (h : x.isNaN ∨ (x.sign = true ∧ ¬ x.isZero)) : sqrtRound c x = some ⟨qnan F, Status.INVALID⟩ := by
  rcases Sqrt.round_cases hc x with ⟨h1, h2, h3, -⟩ | ⟨h1, -⟩ | ⟨-, h2⟩
  · rcases h with h | h
    · exact absurd h (not_nan_of_finite h2)
    · rw [h1] at h; simp at h
  · rcases h with h | h <;> rcases h1 with h1 | h1
    · exact absurd h (not_nan_of_finite (finite_of_zero h1))
    · exact absurd h (not_nan_of_inf h1.1)
    · exact absurd h1 h.2
    · rw [h1.2] at h; simp at h
  · exact h2

/-- The full behaviour of a square root function: total; correctly rounded on positive finite numbers; the identity on
zeros of both signs and on `+inf`; NaN on NaN and on negative numbers, `-inf` included. -/
structure IsSqrt {F : Fmt} (f : Flt F → Option (Flt F)) : Prop where
  /-- correctly rounded -/
  pos : ∀ x : Flt F, x.isFinite → x.sign = false → ¬ x.isZero →
    ∃ r, f x = some r ∧ r.sign = false ∧ IsRNE (√(x.toRat : ℝ)) r
  /-- `sqrt(-0) = -0` -/
  zero : ∀ x : Flt F, x.isZero → f x = some x
  /-- `sqrt(+inf) = +inf` -/
  inf : ∀ x : Flt F, x.isInf → x.sign = false → f x = some x
  /-- negative numbers -/
  neg : ∀ x : Flt F, ¬ x.isNaN → x.sign = true → ¬ x.isZero → ∃ r, f x = some r ∧ r.isNaN
  /-- NaN -/
  nan : ∀ x : Flt F, x.isNaN → ∃ r, f x = some r ∧ r.isNaN

theorem isSqrt_of_cfg {F : Fmt} {c : SqrtCfg} (hc : Sqrt.CfgOk F c) : IsSqrt (fun x : Flt F => Generic.sqrt c x) where
  pos x hf hs hz := by
    obtain ⟨r, h1, h2⟩ := Generic.sqrtRound_pos hc x hs hf hz
    exact ⟨r, by unfold Generic.sqrt; rw [h1]; rfl, h2⟩
  zero x h := by unfold Generic.sqrt; rw [Generic.sqrtRound_fixed hc x (Or.inl h)]; rfl
  inf x h hs := by unfold Generic.sqrt; rw [Generic.sqrtRound_fixed hc x (Or.inr ⟨h, hs⟩)]; rfl
  neg x h hs hz := by
    unfold Generic.sqrt; rw [Generic.sqrtRound_invalid hc x (Or.inr ⟨hs, hz⟩)]; exact ⟨_, rfl, isNaN_qnan⟩
  nan x h := by
    unfold Generic.sqrt; rw [Generic.sqrtRound_invalid hc x (Or.inl h)]; exact ⟨_, rfl, isNaN_qnan⟩

/-- C20 for `sqrtf16` -/
theorem sqrtf16_correct : IsSqrt sqrtf16 := isSqrt_of_cfg Sqrt.cfg16
/-- C20 for `sqrtf` -/
theorem sqrtf_correct : IsSqrt sqrtf := isSqrt_of_cfg Sqrt.cfg32
/-- C20 for `sqrt` -/
theorem sqrt_correct : IsSqrt sqrt := isSqrt_of_cfg Sqrt.cfg64
/-- C20 for `sqrtf128` -/
theorem sqrtf128_correct : IsSqrt sqrtf128 := isSqrt_of_cfg Sqrt.cfg128

/-- never a panic -/
theorem IsSqrt.total {F : Fmt} {f : Flt F → Option (Flt F)} (h : IsSqrt f) (x : Flt F) : (f x).isSome := by
  rcases class_cases x with hx | hx | hx
  · obtain ⟨r, hr, -⟩ := h.nan x hx; rw [hr]; rfl
  · cases hs : x.sign
    · rw [h.inf x hx hs]; rfl
    · obtain ⟨r, hr, -⟩ := h.neg x (not_nan_of_inf hx) hs (fun hz => not_inf_of_finite (finite_of_zero hz) hx); rw [hr]; rfl
  · by_cases hz : x.isZero
    · rw [h.zero x hz]; rfl
    cases hs : x.sign
    · obtain ⟨r, hr, -⟩ := h.pos x hx hs hz; rw [hr]; rfl
    · obtain ⟨r, hr, -⟩ := h.neg x (not_nan_of_finite hx) hs hz; rw [hr]; rfl

theorem sqrtf16_total (x : Flt f16) : (sqrtf16 x).isSome := sqrtf16_correct.total x
theorem sqrtf_total (x : Flt f32) : (sqrtf x).isSome := sqrtf_correct.total x
theorem sqrt_total (x : Flt f64) : (sqrt x).isSome := sqrt_correct.total x
theorem sqrtf128_total (x : Flt f128) : (sqrtf128 x).isSome := sqrtf128_correct.total x

/-- A perfect square has its exact root: if `q ≥ 0` is representable and `q^2` is the argument, the result is `q`. -/
theorem IsSqrt.exact {F : Fmt} {f : Flt F → Option (Flt F)} (h : IsSqrt f) {x q : Flt F} (hx : x.isFinite) (hq : q.isFinite)
    (hs : x.sign = false) (hqs : 0 ≤ q.toRat) (hz : ¬ x.isZero) (hsq : q.toRat ^ 2 = x.toRat) :
    ∃ r, f x = some r ∧ r.toRat = q.toRat := by
  obtain ⟨r, h1, h2, h3⟩ := h.pos x hx hs hz
  refine ⟨r, h1, ?_⟩
  have hr : √(x.toRat : ℝ) = ((q.toRat : ℚ) : ℝ) := by
    rw [← hsq]; push_cast
    exact Real.sqrt_sq (by exact_mod_cast hqs)
  rw [hr] at h3
  unfold IsRNE at h3
  have hlt := lt_overflow hq
  rw [if_neg (by push Not; exact_mod_cast hlt)] at h3
  have h0 := h3.2.1 q hq
  rw [sub_self, abs_zero] at h0
  have := abs_nonpos_iff.1 h0
  have : ((r.toRat : ℚ) : ℝ) = ((q.toRat : ℚ) : ℝ) := by linarith
  exact_mod_cast this

-- instances: sqrt 2 in three formats, a subnormal argument, a perfect square
example : sqrt (Flt.ofNat f64 0x4000000000000000) = some (Flt.ofNat f64 0x3ff6a09e667f3bcd) := by decide +kernel
example : sqrtf (Flt.ofNat f32 0x40000000) = some (Flt.ofNat f32 0x3fb504f3) := by decide +kernel
example : sqrtf16 (Flt.ofNat f16 0x4000) = some (Flt.ofNat f16 0x3da8) := by decide +kernel
example : sqrt (Flt.ofNat f64 1) = some (Flt.ofNat f64 0x1e60000000000000) := by decide +kernel
example : sqrtf (Flt.ofNat f32 3) = some (Flt.ofNat f32 0x1a9cc471) := by decide +kernel
example : sqrtf128 (Flt.ofNat f128 (0x4002 * 2 ^ 112 + 2 ^ 109)) = some (Flt.ofNat f128 (0x4000 * 2 ^ 112 + 2 ^ 111)) := by
  decide +kernel
example : sqrt (Flt.ofNat f64 0xbff0000000000000) = some (Flt.qnan f64) := by decide +kernel
example : (Flt.ofNat f64 1).isFinite ∧ (Flt.ofNat f64 1).sign = false ∧ ¬ (Flt.ofNat f64 1).isZero := by decide +kernel

end Verif
