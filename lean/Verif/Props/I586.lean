import Verif.Model.I586
import Verif.Theory.RNE
import Verif.Props.Integral
import Verif.Props.Sign
import Verif.Props.Modf

/-! # C38 the i586 ceil and floor against the portable ones -/

namespace Verif
open Flt Generic

variable {F : Fmt}

theorem eq_of_toRat {r z : Flt F} (h : r.toRat = z.toRat) (h0 : z.toRat ≠ 0) : r = z := by
  have hs := toRat_inj.mp h
  have hz : z.sval ≠ 0 := fun hc => h0 (by rw [toRat_eq, hc]; simp)
  have hr : r.sval ≠ 0 := by rw [hs]; exact hz
  apply eq_of_sign_mag
  · have a := sval_neg_iff r hr
    have b := sval_neg_iff z hz
    rw [h] at a
    have := a.trans b.symm
    cases c : r.sign <;> cases d : z.sign <;> simp_all
  · rw [← natAbs_sval, ← natAbs_sval, hs]

theorem eq_of_toRat_sign {r z : Flt F} (h : r.toRat = z.toRat) (hs : r.sign = z.sign) : r = z := by
  apply eq_of_sign_mag hs
  rw [← natAbs_sval, ← natAbs_sval, toRat_inj.mp h]

theorem toRat_toInt (x : Flt F) (hx : x.isFinite) : (trunc x).toRat = (x.toInt : ℚ) := by
  obtain ⟨h1, h2, h3⟩ := trunc_char x hx
  apply toRat_of_sval
  unfold sval toInt
  rw [h2, h3, downMag_eq]
  split <;> push_cast <;> ring

theorem i586_cond (x : Flt f64) :
    (fabs x).toBits < (ofNat f64 0x4330000000000000).toBits ↔ x.mag < 2 ^ 52 * f64.oneMag := by
  have h2 : magOf f64.sb 0x4330000000000000 = 2 ^ 52 * f64.oneMag := by decide +kernel
  rw [← h2]
  unfold mag
  rw [magOf_lt, BitVec.lt_def]
  have : (fabs x).toBits.toNat = x.mb := by
    unfold fabs; exact and_not_signMask _
  rw [this]
  rfl

/-- facts about `x as i64 as f64` for `|x| < 2^52` -/
theorem i586_trunc (x : Flt f64) (hx : x.mag < 2 ^ 52 * f64.oneMag) :
    x.isFinite ∧ (ofInt f64 (toSInt 64 x)).isFinite ∧ (ofInt f64 (toSInt 64 x)).toRat = (trunc x).toRat ∧
    ((ofInt f64 (toSInt 64 x)).toRat = 0 → (ofInt f64 (toSInt 64 x)).sign = false) := by
  have hf : x.isFinite := by
    rw [isFinite_iff]
    apply lt_infEnc_of_mag
    exact hx.trans (oneMag_lt_inf f64 52 (by decide))
  have hq : x.mag / f64.oneMag < 2 ^ 52 := (Nat.div_lt_iff_lt_mul f64.oneMag_pos).mpr hx
  have ht : toSInt 64 x = x.toInt := by
    unfold toSInt
    rw [if_neg (not_nan_of_finite hf), if_neg (not_inf_of_finite hf)]
    have : -2 ^ 52 < x.toInt ∧ x.toInt < 2 ^ 52 := by
      unfold toInt
      generalize x.mag / f64.oneMag = Q at *
      split <;> omega
    omega
  rw [ht]
  obtain ⟨a, b⟩ := (ofInt_isRNE (F := f64) x.toInt).exact (trunc_finite x hf).1 (toRat_toInt x hf)
  refine ⟨hf, a, by rw [b, toRat_toInt x hf], fun h => ?_⟩
  rw [b] at h
  have : x.toInt = 0 := by exact_mod_cast h
  rw [this]; unfold ofInt; simp

/-- the values agree: what holds of the i586 functions for every finite argument -/
theorem i586_ceil_core (x : Flt f64) (hf : x.isFinite) :
    (I586.ceil x).isFinite ∧ (I586.ceil x).toRat = (ceil x).toRat ∧
    ((I586.ceil x).toRat = 0 → (I586.ceil x).sign = true → x.mag ≥ 2 ^ 52 * f64.oneMag) := by
  unfold I586.ceil
  simp only
  obtain ⟨c1, c2, c3⟩ := ceil_finite x hf
  by_cases h : (fabs x).toBits < (ofNat f64 0x4330000000000000).toBits
  · rw [if_pos h]
    rw [i586_cond] at h
    obtain ⟨-, t1, t2, t3⟩ := i586_trunc x h
    generalize ofInt f64 (toSInt 64 x) = t at *
    obtain ⟨u1, u2, u3⟩ := trunc_finite x hf
    rw [u3] at t2
    have hlt : (t <ᶠ x) = true ↔ t.toRat < x.toRat := by
      rw [lt_iff, toRat_lt]; simp [not_nan_of_finite t1, not_nan_of_finite hf]
    by_cases hc : (t <ᶠ x) = true
    · rw [if_pos hc]
      rw [hlt] at hc
      have hone : (one f64).toRat = 1 := by
        have := toRat_signed (one f64); rw [this]; simp [f64.oneMag_mul_ulp]
      have hsum : t.toRat + (one f64).toRat = (ceil x).toRat := by
        rw [hone, c3, t2]
        rw [t2] at hc
        split at hc
        · have := Int.le_ceil x.toRat; linarith
        · rename_i hneg
          rw [if_neg hneg]
          have : (⌈x.toRat⌉ : ℤ) = ⌊x.toRat⌋ + 1 := by
            rw [Int.ceil_eq_iff]
            push_cast
            refine ⟨by linarith, (Int.lt_floor_add_one x.toRat).le⟩
          rw [this]; push_cast; ring
      obtain ⟨e1, e2⟩ := (add_isRNE t1 (isFinite_one (F := f64))).exact c1 hsum.symm
      refine ⟨e1, by rw [e2, hsum], fun h0 hs => ?_⟩
      rw [add_finite t1 isFinite_one] at hs
      rw [e2, toRat_eq, toRat_eq, ← add_mul] at h0
      have : ((t.sval + (one f64).sval : ℤ) : ℚ) = 0 := by
        push_cast
        rcases mul_eq_zero.mp h0 with h | h
        · exact h
        · exact absurd h f64.ulp_ne
      have h1 : t.sval + (one f64).sval = 0 := by exact_mod_cast this
      rw [if_pos h1] at hs
      simp at hs
    · rw [if_neg hc]
      rw [hlt] at hc
      push Not at hc
      refine ⟨t1, ?_, fun h0 hs => ?_⟩
      · rw [c3, t2]
        split
        · rfl
        · rename_i hneg
          rw [t2, if_neg hneg] at hc
          have h1 := Int.floor_le x.toRat
          have : x.toRat = (⌊x.toRat⌋ : ℚ) := by linarith
          rw [this]; simp
      · rw [t3 h0] at hs; simp at hs
  · rw [if_neg h]
    rw [i586_cond] at h
    push Not at h
    refine ⟨hf, ?_, fun _ _ => h⟩
    -- large numbers are integers
    obtain ⟨k1, k2, k3⟩ := ceil_char x hf
    symm
    apply toRat_eq_of_mag k2
    have hm : x.mag % f64.oneMag = 0 := by
      apply Nat.mod_eq_zero_of_dvd
      have := dvd_magOf f64.sb x.mb (f64.bias - 1 + f64.sb) (by
        show _ ≤ x.mag
        refine le_trans (le_of_eq ?_) h
        decide +kernel)
      exact this
    rw [k3]; split
    · exact down_eq hm
    · exact up_eq hm

theorem i586_floor_core (x : Flt f64) (hf : x.isFinite) :
    (I586.floor x).isFinite ∧ (I586.floor x).toRat = (floor x).toRat ∧
    ((I586.floor x).toRat = 0 → (I586.floor x).sign = true → x.mag ≥ 2 ^ 52 * f64.oneMag) := by
  unfold I586.floor
  simp only
  obtain ⟨c1, c2, c3⟩ := floor_finite x hf
  by_cases h : (fabs x).toBits < (ofNat f64 0x4330000000000000).toBits
  · rw [if_pos h]
    rw [i586_cond] at h
    obtain ⟨-, t1, t2, t3⟩ := i586_trunc x h
    generalize ofInt f64 (toSInt 64 x) = t at *
    obtain ⟨u1, u2, u3⟩ := trunc_finite x hf
    rw [u3] at t2
    have hlt : (t >ᶠ x) = true ↔ x.toRat < t.toRat := by
      rw [lt_iff, toRat_lt]; simp [not_nan_of_finite t1, not_nan_of_finite hf]
    by_cases hc : (t >ᶠ x) = true
    · rw [if_pos hc]
      rw [hlt] at hc
      have hone : (one f64).toRat = 1 := by
        have := toRat_signed (one f64); rw [this]; simp [f64.oneMag_mul_ulp]
      have hsum : t.toRat - (one f64).toRat = (floor x).toRat := by
        rw [hone, c3, t2]
        rw [t2] at hc
        split at hc
        · rename_i hneg
          rw [if_pos hneg]
          have : (⌊x.toRat⌋ : ℤ) = ⌈x.toRat⌉ - 1 := by
            rw [Int.floor_eq_iff]
            push_cast
            have := Int.ceil_lt_add_one x.toRat
            refine ⟨by linarith, by linarith⟩
          rw [this]; push_cast; ring
        · have := Int.floor_le x.toRat; linarith
      obtain ⟨e1, e2⟩ := (sub_isRNE t1 (isFinite_one (F := f64))).exact c1 hsum.symm
      refine ⟨e1, by rw [e2, hsum], fun h0 hs => ?_⟩
      exfalso
      rw [e2, hsum, c3] at h0
      have h1 : ⌊x.toRat⌋ = 0 := by exact_mod_cast h0
      have h2 : 0 ≤ x.toRat := by
        have := Int.floor_le x.toRat; rw [h1] at this; simpa using this
      rw [t2, if_neg (by linarith)] at hc
      have := Int.floor_le x.toRat; linarith
    · rw [if_neg hc]
      rw [hlt] at hc
      push Not at hc
      refine ⟨t1, ?_, fun h0 hs => ?_⟩
      · rw [c3, t2]
        split
        · rename_i hneg
          rw [t2, if_pos hneg] at hc
          have h1 := Int.le_ceil x.toRat
          have : x.toRat = (⌈x.toRat⌉ : ℚ) := by linarith
          rw [this]; simp
        · rfl
      · rw [t3 h0] at hs; simp at hs
  · rw [if_neg h]
    rw [i586_cond] at h
    push Not at h
    refine ⟨hf, ?_, fun _ _ => h⟩
    obtain ⟨k1, k2, k3⟩ := floor_char x hf
    symm
    apply toRat_eq_of_mag k2
    have hm : x.mag % f64.oneMag = 0 := by
      apply Nat.mod_eq_zero_of_dvd
      have := dvd_magOf f64.sb x.mb (f64.bias - 1 + f64.sb) (by
        show _ ≤ x.mag
        refine le_trans (le_of_eq ?_) h
        decide +kernel)
      exact this
    rw [k3]; split
    · exact up_eq hm
    · exact down_eq hm

theorem i586_inf (x : Flt f64) (hx : x.isInf) : ¬ x.mag < 2 ^ 52 * f64.oneMag := by
  have h1 : x.mag = 2 ^ (2 * f64.bias + f64.sb) := by
    unfold mag; rw [(isInf_iff x).mp hx, f64.magOf_infEnc]
  rw [h1]
  have := oneMag_lt_inf f64 52 (by decide)
  omega

/-- C38 as stated is false: `ceil(-0.5)` is `-0.0` portably and `+0.0` on i586;
`floor(-0.0)` likewise. -/
theorem i586_ceil_differs : ∃ x : Flt f64, x.isFinite ∧ ceil x = zero f64 true ∧ I586.ceil x = zero f64 false :=
  ⟨ofNat f64 0xbfe0000000000000, by decide +kernel⟩
@[inherit_doc i586_ceil_differs]
theorem i586_floor_differs : ∃ x : Flt f64, x.isFinite ∧ floor x = zero f64 true ∧ I586.floor x = zero f64 false :=
  ⟨ofNat f64 0x8000000000000000, by decide +kernel⟩

/-- C38, what holds: for every non-NaN `x` the i586 `ceil` returns the same bits, except that where
the portable result is `-0.0` it returns `+0.0`. -/
theorem i586_ceil_partial (x : Flt f64) (hx : ¬ x.isNaN) :
    I586.ceil x = if ceil x = zero f64 true then zero f64 false else ceil x := by
  by_cases hi : x.isInf
  · rw [ceil_nonfinite x (not_finite_of_inf hi)]
    unfold I586.ceil
    rw [if_neg (by rw [i586_cond]; exact i586_inf x hi), if_neg]
    intro h
    rw [h] at hi
    revert hi; decide
  · have hf := finite_of_not hx hi
    obtain ⟨a, b, c⟩ := i586_ceil_core x hf
    have hz : zero f64 true = zero f64 true := rfl
    by_cases h0 : (ceil x).toRat = 0
    · have hs : (I586.ceil x).sign = false := by
        by_contra hc
        have hc' : (I586.ceil x).sign = true := by simpa using hc
        have h1 := c (by rw [b, h0]) hc'
        obtain ⟨k1, k2, k3⟩ := ceil_char x hf
        have hm : (ceil x).mag = 0 := by
          have := toRat_eq_zero.mp h0
          exact (isZero_iff_mag _).mp this
        have hd : x.downMag = 0 := by
          rw [k3] at hm; split at hm
          · exact hm
          · unfold upMag at hm; split at hm
            · rw [down_eq ‹_›]; exact hm
            · omega
        rw [downMag_eq] at hd
        have h2 : 2 ^ 52 ≤ x.mag / f64.oneMag := (Nat.le_div_iff_mul_le f64.oneMag_pos).mpr h1
        have := f64.oneMag_pos
        rcases Nat.mul_eq_zero.mp hd with h | h <;> omega
      have hz1 : (I586.ceil x).isZero := toRat_eq_zero.mp (by rw [b, h0])
      have hz2 : (ceil x).isZero := toRat_eq_zero.mp h0
      rw [eq_zero hz1, hs]
      rw [eq_zero hz2]
      cases hcs : (ceil x).sign <;> decide
    · rw [eq_of_toRat b h0, if_neg]
      intro h
      rw [h] at h0; simp at h0

/-- C38, what holds of `floor`: the only argument on which the bits differ is `-0.0`. -/
theorem i586_floor_partial (x : Flt f64) (hx : ¬ x.isNaN) :
    I586.floor x = if x = zero f64 true then zero f64 false else floor x := by
  by_cases hi : x.isInf
  · rw [floor_nonfinite x (not_finite_of_inf hi)]
    unfold I586.floor
    rw [if_neg (by rw [i586_cond]; exact i586_inf x hi), if_neg]
    intro h
    rw [h] at hi
    revert hi; decide
  · have hf := finite_of_not hx hi
    obtain ⟨a, b, c⟩ := i586_floor_core x hf
    split
    · rename_i h; rw [h]; decide +kernel
    · rename_i hne
      by_cases h0 : (floor x).toRat = 0
      · obtain ⟨c1, c2, c3⟩ := floor_finite x hf
        have h1 : ⌊x.toRat⌋ = 0 := by rw [c3] at h0; exact_mod_cast h0
        rw [Int.floor_eq_iff] at h1
        push_cast at h1
        have hsx : x.sign = false := by
          by_contra hc
          have hc' : x.sign = true := by simpa using hc
          rcases toRat_sign_cases x with h | h
          · have h2 := abs_nonneg x.toRat
            have : x.toRat = 0 := by linarith
            exact hne (by rw [eq_zero (toRat_eq_zero.mp this), hc'])
          · rw [hc'] at h; simp at h
        apply eq_of_toRat_sign b
        rw [c2, hsx]
        by_contra hc
        have hc' : (I586.floor x).sign = true := by simpa using hc
        have h2 := c (by rw [b, h0]) hc'
        have h3 : (x.mag : ℚ) * f64.ulp < 1 := by
          rw [← toRat_abs, abs_lt]; constructor <;> linarith
        rw [← f64.oneMag_mul_ulp] at h3
        have h4 : (x.mag : ℚ) < f64.oneMag := lt_of_mul_lt_mul_right h3 f64.ulp_pos.le
        have h5 : x.mag < f64.oneMag := by exact_mod_cast h4
        have := f64.oneMag_pos
        omega
      · exact eq_of_toRat b h0

/-- a non-trivial argument: ceil(-2.5) = -2 by both -/
example : I586.ceil (ofNat f64 0xc004000000000000) = ofNat f64 0xc000000000000000 ∧
    ceil (ofNat f64 0xc004000000000000) = ofNat f64 0xc000000000000000 := by decide +kernel

end Verif
