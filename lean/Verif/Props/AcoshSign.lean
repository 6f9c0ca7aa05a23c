import Verif.Props.Signs

/-! # C78: acosh is positive above one and zero at one -/

namespace Verif
open Flt

namespace Signs
variable {F : Fmt}

theorem arcosh_lb {t : ℝ} (ht : 1 + 1 / 2 ^ 53 ≤ t) : 1 / 2 ^ 54 ≤ Real.arcosh t := by
  have h0 : (0 : ℝ) < 1 / 2 ^ 53 := by positivity
  have h1 : 0 < t := by linarith
  have h2 := Range.log_lb (y := t) (d := 1 / 2 ^ 53) h1 h0 (by norm_num) (Or.inl ht)
  rw [abs_of_nonneg (Real.log_nonneg (by linarith))] at h2
  have h3 : Real.log t ≤ Real.arcosh t := by
    rw [Real.arcosh]
    exact Real.log_le_log h1 (by have := Real.sqrt_nonneg (t ^ 2 - 1); linarith)
  norm_num at h2 ⊢
  linarith

theorem acosh_main [StdFmt F] {f : Flt F → Option (Flt F)} (ha : ∀ x : Flt F, 0 < x.val → x.val ≠ 1 → 1 + 1 / 2 ^ 53 ≤ x.val ∨ x.val ≤ 1 - 1 / 2 ^ 53)
    (h : AccurateFromOne 4.7 f Real.arcosh) : SignOf f (fun t => 1 ≤ t) (fun t => t - 1) := by
  intro x xf hx
  obtain ⟨r, hr, hw⟩ := h x xf hx
  refine ⟨r, hr, hw.1, ?_⟩
  change 1 ≤ x.val at hx
  change WithinUlp 4.7 r (Real.arcosh x.val) at hw
  change HasSign r (x.val - 1)
  have hlb : x.val ≠ 1 → 1 / 2 ^ 54 ≤ Real.arcosh x.val := fun h1 => by
    rcases ha x (by linarith) h1 with h2 | h2
    · exact arcosh_lb h2
    · have : (0 : ℝ) < 1 / 2 ^ 53 := by positivity
      linarith
  have hp : (0 : ℝ) < 1 / 2 ^ 54 := by positivity
  refine HasSign.same (Range.sign_of hw fun hne => mul_ulp_lt (by norm_num) (by norm_num) ?_) ?_
  · have h1 : x.val ≠ 1 := fun h => hne (by rw [h, Real.arcosh_zero])
    refine lt_of_lt_of_le ?_ ((hlb h1).trans (le_abs_self _))
    have h2 := fmt (F := F)
    have h4 : (2 : ℝ) ^ (1 - (F.bias : ℤ) - F.sb) ≤ 1 / 2 ^ 60 := h2.trans (by norm_num)
    clear h2
    norm_num at h4 ⊢
    linarith
  · rcases eq_or_ne x.val 1 with h1 | h1
    · rw [h1, Real.arcosh_zero, sub_self]; exact ⟨Iff.rfl, Iff.rfl⟩
    · have h2 := hlb h1
      have h3 := lt_of_le_of_ne hx h1.symm
      exact ⟨⟨fun _ => by linarith, fun _ => by linarith⟩, ⟨fun h => by linarith, fun h => by linarith⟩⟩

end Signs

/-- C78 for `acosh` -/
theorem acosh_sign : SignOf acosh (fun t => 1 ≤ t) (fun t => t - 1) := Signs.acosh_main (fun _ => Range.away64) acosh_accurate
/-- C78 for `acoshf` -/
theorem acoshf_sign : SignOf acoshf (fun t => 1 ≤ t) (fun t => t - 1) := Signs.acosh_main (fun _ => Range.away32) acoshf_accurate

/-! ## a concrete case: the float after one -/

example : acosh (bits64 0x3ff0000000000001) = some (bits64 0x3e56a09e667f3bcd) := by decide +kernel

end Verif
