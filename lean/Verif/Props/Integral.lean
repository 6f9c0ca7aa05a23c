import Verif.Theory.Integral

/-! # C03 trunc, C04 floor, C05 ceil, C08 their status -/

namespace Verif
open Flt Generic
variable {F : Fmt}

/-- C03 for finite arguments: `trunc x` is exactly the integer part toward zero
(`⌊x⌋` for nonnegative, `⌈x⌉` for negative `x`), and carries `x`'s sign bit (so `-0.5 ↦ -0.0`). -/
theorem trunc_finite (x : Flt F) (hx : x.isFinite) :
    (trunc x).isFinite ∧ (trunc x).sign = x.sign ∧
    (trunc x).toRat = if x.toRat < 0 then (⌈x.toRat⌉ : ℚ) else (⌊x.toRat⌋ : ℚ) := by
  obtain ⟨h1, h2, h3⟩ := trunc_char x hx
  refine ⟨h1, h2, ?_⟩
  rw [toRat_down h2 h3]
  by_cases h0 : x.sval = 0
  · have : x.toRat = 0 := by rw [toRat_eq, h0]; simp
    rw [this]; simp
  · have := sval_neg_iff x h0
    by_cases hs : x.sign = true
    · rw [if_pos hs, if_pos (this.mp hs)]
    · rw [if_neg hs, if_neg (fun h => hs (this.mpr h))]

example : (ofNat f32 0xc0200000).isFinite ∧ (ofNat f32 0xc0200000).toRat = -5/2 ∧
    (trunc (ofNat f32 0xc0200000)).toRat = -2 := by decide +kernel

/-- C03: infinities and NaNs are returned unchanged. -/
theorem trunc_nonfinite (x : Flt F) (hx : ¬ x.isFinite) : trunc x = x := by
  unfold trunc truncStatus
  simp only
  rw [if_pos (expUnbiased_of_not_finite hx)]; rfl

example : ¬ (inf f16 true).isFinite := by decide

/-- C04 for finite arguments: exactly the greatest integer `≤ x`; the sign bit of the result is
`x`'s (so zero results keep the sign: `floor(-0.0) = -0.0`, `floor(0.3) = +0.0`). -/
theorem floor_finite (x : Flt F) (hx : x.isFinite) :
    (floor x).isFinite ∧ (floor x).sign = x.sign ∧ (floor x).toRat = (⌊x.toRat⌋ : ℚ) := by
  obtain ⟨h1, h2, h3⟩ := floor_char x hx
  refine ⟨h1, h2, ?_⟩
  by_cases hs : x.sign = true
  · rw [if_pos hs] at h3
    rw [toRat_up h2 h3, if_pos hs]
  · rw [if_neg hs] at h3
    rw [toRat_down h2 h3, if_neg hs]

example : (floor (ofNat f32 0xc0200000)).toRat = -3 ∧ (floor (ofNat f32 0x40200000)).toRat = 2 := by
  decide +kernel

/-- C04: infinities and NaNs are returned unchanged. -/
theorem floor_nonfinite (x : Flt F) (hx : ¬ x.isFinite) : floor x = x := by
  unfold floor floorStatus
  simp only
  rw [if_pos (expUnbiased_of_not_finite hx)]; rfl

/-- C05 for finite arguments: exactly the least integer `≥ x`, with `x`'s sign bit
(`ceil(-0.5) = -0.0`). -/
theorem ceil_finite (x : Flt F) (hx : x.isFinite) :
    (ceil x).isFinite ∧ (ceil x).sign = x.sign ∧ (ceil x).toRat = (⌈x.toRat⌉ : ℚ) := by
  obtain ⟨h1, h2, h3⟩ := ceil_char x hx
  refine ⟨h1, h2, ?_⟩
  by_cases hs : x.sign = true
  · rw [if_pos hs] at h3
    rw [toRat_down h2 h3, if_pos hs]
  · rw [if_neg hs] at h3
    rw [toRat_up h2 h3, if_neg hs]

example : (ceil (ofNat f32 0xbf000000)) = zero f32 true ∧
    (ceil (ofNat f32 0x40200000)).toRat = 3 := by decide +kernel

/-- C05: infinities and NaNs are returned unchanged. -/
theorem ceil_nonfinite (x : Flt F) (hx : ¬ x.isFinite) : ceil x = x := by
  unfold ceil ceilStatus
  simp only
  rw [if_pos (expUnbiased_of_not_finite hx)]; rfl

/-- The integer addition `ix += m` in `floor` (negative `x`) and `ceil` (positive `x`) never
overflows, so the code cannot panic with overflow checks on. -/
theorem floor_ceil_add_no_overflow (x : Flt F) (h0 : 0 ≤ expUnbiased x)
    (h1 : expUnbiased x < F.sb) (hne : x.toBits &&& (sigMask F >>> (expUnbiased x).toNat) ≠ 0#_) :
    x.toBits.toNat + (sigMask F >>> (expUnbiased x).toNat).toNat < 2 ^ F.bits := by
  obtain ⟨a1, a2, a3, a4, a5, a6⟩ := mid_facts h0 h1
  obtain ⟨c1, c2, c3, c4⟩ := mid_down h0 h1
  rw [Ne, and_low_eq_zero x a1 a4] at hne
  exact (add_clear_low x a1 a4 hne c4).2

example : 0 ≤ expUnbiased (ofNat f32 0xc0200000) ∧ expUnbiased (ofNat f32 0xc0200000) < f32.sb ∧
    (ofNat f32 0xc0200000).toBits &&& (sigMask f32 >>> (expUnbiased (ofNat f32 0xc0200000)).toNat)
      ≠ 0#_ := by decide

/-! ## C08: status

The code reports `OK` for `±2^-k` (`k ≥ 1`, normal), although the result differs
from the argument: it tests the fraction bits only.  So the property as stated is false; here
is a witness for each function, and the strongest true version. -/

theorem trunc_status_wrong :
    ∃ x : Flt f64, x.isFinite ∧ (truncStatus x).status = Status.OK ∧ (trunc x).toRat ≠ x.toRat :=
  ⟨ofNat f64 0x3fe0000000000000, by decide +kernel⟩

theorem floor_status_wrong :
    ∃ x : Flt f64, x.isFinite ∧ (floorStatus x).status = Status.OK ∧ (floor x).toRat ≠ x.toRat :=
  ⟨ofNat f64 0x3fe0000000000000, by decide +kernel⟩

theorem ceil_status_wrong :
    ∃ x : Flt f64, x.isFinite ∧ (ceilStatus x).status = Status.OK ∧ (ceil x).toRat ≠ x.toRat :=
  ⟨ofNat f64 0x3fe0000000000000, by decide +kernel⟩

/-- `x` is `±2^-k` for some `k ≥ 1`, as a normal number: the arguments for which the status is
wrong. -/
def SmallPow2 (x : Flt F) : Prop := x.expField ≠ 0 ∧ x.fracField = 0 ∧ |x.toRat| < 1

theorem frac_zero_iff (x : Flt F) : x.toBits &&& sigMask F = 0#_ ↔ x.fracField = 0 := by
  rw [← BitVec.toNat_inj, and_sigMask]; simp [fracField, enc]

theorem mag_lt_one_iff (x : Flt F) : x.mag < F.oneMag ↔ |x.toRat| < 1 := by
  rw [toRat_abs, ← F.oneMag_mul_ulp, mul_lt_mul_iff_left₀ F.ulp_pos]; exact_mod_cast Iff.rfl

theorem int_ne_of_mod {x r : Flt F} (h : x.mag % F.oneMag ≠ 0) (hr : r.mag % F.oneMag = 0) :
    r.toRat ≠ x.toRat := by
  intro he
  have := congrArg abs he
  rw [toRat_abs, toRat_abs] at this
  have h2 := mul_right_cancel₀ F.ulp_ne this
  have h3 : r.mag = x.mag := by exact_mod_cast h2
  rw [h3] at hr; exact h hr

theorem down_mod (x : Flt F) : x.downMag % F.oneMag = 0 := Nat.mod_eq_zero_of_dvd x.dvd_downMag
theorem up_mod (x : Flt F) : x.upMag % F.oneMag = 0 := by
  unfold upMag; split
  · assumption
  · rw [Nat.add_mod_right]; exact down_mod x

theorem up_eq {x : Flt F} (h : x.mag % F.oneMag = 0) : x.upMag = x.mag := by
  unfold upMag; rw [if_pos h]
theorem down_eq {x : Flt F} (h : x.mag % F.oneMag = 0) : x.downMag = x.mag := by
  unfold downMag; omega

theorem toRat_eq_of_mag {x r : Flt F} (hs : r.sign = x.sign) (hm : r.mag = x.mag) :
    r.toRat = x.toRat := by rw [toRat_eq, toRat_eq, sval, sval, hs, hm]

theorem value_changed_iff {x r : Flt F} (hs : r.sign = x.sign)
    (hm : r.mag = x.upMag ∨ r.mag = x.downMag) :
    r.toRat ≠ x.toRat ↔ x.mag % F.oneMag ≠ 0 := by
  constructor
  · intro h hc
    apply h
    apply toRat_eq_of_mag hs
    rcases hm with h' | h'
    · rw [h', up_eq hc]
    · rw [h', down_eq hc]
  · intro h
    apply int_ne_of_mod h
    rcases hm with h' | h'
    · rw [h']; exact up_mod x
    · rw [h']; exact down_mod x

theorem small_frac (x : Flt F) (hsm : ¬ SmallPow2 x) (hlt : x.mag < F.oneMag) :
    x.fracField = 0 ↔ x.mag % F.oneMag = 0 := by
  rw [Nat.mod_eq_of_lt hlt]
  constructor
  · intro h
    by_contra hne
    apply hsm
    refine ⟨?_, h, (mag_lt_one_iff x).mp hlt⟩
    intro he
    rw [mag_eq_fields, if_pos he] at hne
    exact hne h
  · intro h
    rw [mag, magOf_eq_zero, mb_eq] at h
    omega

/-- C08 for `trunc`, all arguments but `±2^-k`: INEXACT iff the value changed, else OK. -/
theorem trunc_status_partial (x : Flt F) (hx : x.isFinite) (hsm : ¬ SmallPow2 x) :
    ((truncStatus x).status = Status.INEXACT ↔ (trunc x).toRat ≠ x.toRat) ∧
    ((truncStatus x).status = Status.OK ↔ (trunc x).toRat = x.toRat) := by
  obtain ⟨k1, k2, k3⟩ := trunc_char x hx
  have hv := value_changed_iff k2 (Or.inr k3)
  have main : (truncStatus x).status = if x.mag % F.oneMag = 0 then Status.OK else Status.INEXACT
      := by
    unfold truncStatus
    simp only
    by_cases h1 : expUnbiased x ≥ F.sb
    · rw [if_pos h1, if_pos (regime_large h1)]; rfl
    · rw [if_neg h1]
      by_cases h0 : expUnbiased x < 0
      · rw [if_pos h0]
        have hlt := regime_small h0
        have hz : (x.toBits &&& ~~~(signMask F) = 0#_) ↔ x.mb = 0 := by
          rw [← BitVec.toNat_inj, and_not_signMask]; simp [mb, enc]
        split
        · rename_i hh
          rw [hz] at hh
          rw [if_pos]; · rfl
          rw [mag, hh]; simp
        · simp only [frac_zero_iff, small_frac x hsm hlt]
      · rw [if_neg h0]
        have h0' : 0 ≤ expUnbiased x := by omega
        have h1' : expUnbiased x < F.sb := by omega
        obtain ⟨a1, a2, a3, a4, a5, a6⟩ := mid_facts h0' h1'
        obtain ⟨c1, c2, c3, c4⟩ := mid_down h0' h1'
        have hz := and_low_eq_zero x a1 a4
        rw [BitVec.not_not]
        split
        · rename_i hh
          rw [hz] at hh
          rw [if_pos (c2.mp hh)]; rfl
        · rename_i hh
          rw [hz] at hh
          simp only [frac_zero_iff]
          rw [if_neg (fun h => hh (c2.mpr h)), if_neg]
          intro hf
          apply hh
          rw [mb_eq, hf, add_zero]
          have : 2 ^ (F.sb - (expUnbiased x).toNat) ∣ 2 ^ F.sb := pow_dvd_pow 2 a1
          exact Nat.mod_eq_zero_of_dvd (Dvd.dvd.mul_left this _)
  rw [main]
  by_cases hm : x.mag % F.oneMag = 0
  · rw [if_pos hm]
    have h := mt hv.mp (not_not.mpr hm)
    exact ⟨⟨fun h => absurd h (by decide), fun h' => absurd h' h⟩, ⟨fun _ => not_not.mp h, fun _ => rfl⟩⟩
  · rw [if_neg hm]
    have h := hv.mpr hm
    exact ⟨⟨fun _ => h, fun _ => rfl⟩, ⟨fun h => absurd h (by decide), fun h' => absurd h' h⟩⟩

/-- C08 for `floor`, all arguments but `±2^-k`. -/
theorem floor_status_partial (x : Flt F) (hx : x.isFinite) (hsm : ¬ SmallPow2 x) :
    ((floorStatus x).status = Status.INEXACT ↔ (floor x).toRat ≠ x.toRat) ∧
    ((floorStatus x).status = Status.OK ↔ (floor x).toRat = x.toRat) := by
  obtain ⟨k1, k2, k3⟩ := floor_char x hx
  have hv := value_changed_iff k2 (by cases hs : x.sign <;> simp [k3, hs])
  have main : (floorStatus x).status = if x.mag % F.oneMag = 0 then Status.OK else Status.INEXACT
      := by
    unfold floorStatus
    simp only
    by_cases h1 : expUnbiased x ≥ F.sb
    · rw [if_pos h1, if_pos (regime_large h1)]; rfl
    · rw [if_neg h1]
      by_cases h0 : expUnbiased x ≥ 0
      · rw [if_pos h0]
        have h1' : expUnbiased x < F.sb := by omega
        obtain ⟨a1, a2, a3, a4, a5, a6⟩ := mid_facts h0 h1'
        obtain ⟨c1, c2, c3, c4⟩ := mid_down h0 h1'
        have hz := and_low_eq_zero x a1 a4
        split
        · rename_i hh
          rw [hz] at hh
          rw [if_pos (c2.mp hh)]; rfl
        · rename_i hh
          rw [hz] at hh
          rw [if_neg (fun h => hh (c2.mpr h))]
      · rw [if_neg h0]
        have hlt := regime_small (x := x) (by omega)
        simp only [frac_zero_iff, small_frac x hsm hlt]
  rw [main]
  by_cases hm : x.mag % F.oneMag = 0
  · rw [if_pos hm]
    have h := mt hv.mp (not_not.mpr hm)
    exact ⟨⟨fun h => absurd h (by decide), fun h' => absurd h' h⟩, ⟨fun _ => not_not.mp h, fun _ => rfl⟩⟩
  · rw [if_neg hm]
    have h := hv.mpr hm
    exact ⟨⟨fun _ => h, fun _ => rfl⟩, ⟨fun h => absurd h (by decide), fun h' => absurd h' h⟩⟩

/-- C08 for `ceil`, all arguments but `±2^-k`. -/
theorem ceil_status_partial (x : Flt F) (hx : x.isFinite) (hsm : ¬ SmallPow2 x) :
    ((ceilStatus x).status = Status.INEXACT ↔ (ceil x).toRat ≠ x.toRat) ∧
    ((ceilStatus x).status = Status.OK ↔ (ceil x).toRat = x.toRat) := by
  obtain ⟨k1, k2, k3⟩ := ceil_char x hx
  have hv := value_changed_iff k2 (by cases hs : x.sign <;> simp [k3, hs])
  have main : (ceilStatus x).status = if x.mag % F.oneMag = 0 then Status.OK else Status.INEXACT
      := by
    unfold ceilStatus
    simp only
    by_cases h1 : expUnbiased x ≥ F.sb
    · rw [if_pos h1, if_pos (regime_large h1)]; rfl
    · rw [if_neg h1]
      by_cases h0 : expUnbiased x ≥ 0
      · rw [if_pos h0]
        have h1' : expUnbiased x < F.sb := by omega
        obtain ⟨a1, a2, a3, a4, a5, a6⟩ := mid_facts h0 h1'
        obtain ⟨c1, c2, c3, c4⟩ := mid_down h0 h1'
        have hz := and_low_eq_zero x a1 a4
        split
        · rename_i hh
          rw [hz] at hh
          rw [if_pos (c2.mp hh)]; rfl
        · rename_i hh
          rw [hz] at hh
          rw [if_neg (fun h => hh (c2.mpr h))]
      · rw [if_neg h0]
        have hlt := regime_small (x := x) (by omega)
        simp only [frac_zero_iff, small_frac x hsm hlt]
  rw [main]
  by_cases hm : x.mag % F.oneMag = 0
  · rw [if_pos hm]
    have h := mt hv.mp (not_not.mpr hm)
    exact ⟨⟨fun h => absurd h (by decide), fun h' => absurd h' h⟩, ⟨fun _ => not_not.mp h, fun _ => rfl⟩⟩
  · rw [if_neg hm]
    have h := hv.mpr hm
    exact ⟨⟨fun _ => h, fun _ => rfl⟩, ⟨fun h => absurd h (by decide), fun h' => absurd h' h⟩⟩

example : (ofNat f32 0x40200000).isFinite ∧ ¬ SmallPow2 (ofNat f32 0x40200000) ∧
    (truncStatus (ofNat f32 0x40200000)).status = Status.INEXACT ∧
    (floorStatus (ofNat f32 0x40200000)).status = Status.INEXACT ∧
    (ceilStatus (ofNat f32 0x40200000)).status = Status.INEXACT := by
  refine ⟨by decide +kernel, fun h => ?_, by decide +kernel, by decide +kernel, by decide +kernel⟩
  exact absurd h.2.1 (by decide +kernel)

end Verif
