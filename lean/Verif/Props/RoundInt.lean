import Verif.Theory.RoundInt
import Verif.Theory.Add
import Verif.Props.Sign
import Verif.Props.Integral

/-! # C06 round, C07 rint / roundeven -/

namespace Verif
open Flt Generic
variable {F : Fmt}

/-! ## C06 -/

/-- the constant `0.5 - 0.25 * EPSILON` is computed exactly -/
theorem round_const :
    let c := fromParts F false (expBias F - 1) 0#_ - fromParts F false (expBias F - 2) 0#_ * epsilon F
    c.isFinite ∧ c.sign = false ∧ c.mag = halfPred F := by
  intro c
  have hb := F.sb_lt_bias
  have hsb := F.sb_pow_ge
  have hpow : ∀ k, 1 ≤ k → k ≤ F.bias → (fromParts F false k 0#_).isFinite ∧
      (fromParts F false k 0#_).sign = false ∧ (fromParts F false k 0#_).mag = 2 ^ (k - 1 + F.sb) := by
    intro k hk hk'
    have h1 : k < 2 ^ F.ew := by rw [F.two_bias]; omega
    have h2 : k * 2 ^ F.sb < F.infEnc :=
      lt_of_le_of_lt (Nat.mul_le_mul_right _ hk') (one_lt F)
    have h3 := h2.trans F.infEnc_lt
    rw [fromParts_eq, Nat.mod_eq_of_lt h1, BitVec.toNat_ofNat, Nat.zero_mod, Nat.zero_mod, add_zero]
    refine ⟨?_, sign_mk' h3, ?_⟩
    · rw [isFinite_iff, mb_mk' h3]; exact h2
    · rw [mag_mk' h3, magOf_pow _ _ hk]
  obtain ⟨a1, a2, a3⟩ := hpow (F.bias - 1) (by omega) (by omega)
  obtain ⟨b1, b2, b3⟩ := hpow (F.bias - 2) (by omega) (by omega)
  have e1 : F.bias - 2 - 1 + F.sb = F.bias - 3 + F.sb := by omega
  have e2 : F.bias - 1 - 1 + F.sb = F.bias - 2 + F.sb := by omega
  rw [e1] at b3
  rw [e2] at a3
  -- the product
  have hp : (fromParts F false (F.bias - 2) 0#_ * epsilon F).isFinite ∧
      (fromParts F false (F.bias - 2) 0#_ * epsilon F).sign = false ∧
      (fromParts F false (F.bias - 2) 0#_ * epsilon F).mag = 2 ^ (F.bias - 3) := by
    rw [mul_finite b1 isFinite_epsilon, b2, sign_epsilon, b3, mag_epsilon]
    apply roundMag_rep F.oneMag_pos
    · have := rep_mul_pow F.sb 1 (F.bias - 3) Nat.one_le_two_pow
      simpa using this
    · exact Nat.pow_lt_pow_right (by norm_num) (by omega)
    · unfold Fmt.oneMag
      rw [← pow_add, ← pow_add]; congr 1; omega
  obtain ⟨p1, p2, p3⟩ := hp
  have hO := oneMag_split F
  have hh : 2 ^ (F.bias - 2 + F.sb) = F.oneMag / 2 := by
    unfold Fmt.oneMag
    rw [show F.bias - 1 + F.sb = (F.bias - 2 + F.sb) + 1 by omega, pow_succ]; omega
  have hlt : 2 ^ (F.bias - 3) < 2 ^ (F.bias - 2 + F.sb) :=
    Nat.pow_lt_pow_right (by norm_num) (by omega)
  have hc : c = roundMag F false (2 ^ (F.bias - 2 + F.sb) - 2 ^ (F.bias - 3)) 1 := by
    show fromParts F false (expBias F - 1) 0#_ -
      fromParts F false (expBias F - 2) 0#_ * epsilon F = _
    rw [expBias_eq, sub_eq_add_neg', add_opp a1 ((isFinite_neg _).mpr p1) (by rw [sign_neg, p2, a2])
      (by rw [mag_neg, p3, a3]; exact hlt), a2, mag_neg, p3, a3]
  rw [hc]
  have hrep : halfPred F = (2 ^ (F.sb + 1) - 1) * 2 ^ (F.bias - 3) := by
    unfold halfPred
    rw [Nat.sub_mul, one_mul, ← hh, ← pow_add]
    congr 2; omega
  apply roundMag_rep (by norm_num)
  · rw [hrep]; exact rep_mul_pow _ _ _ (Nat.sub_le _ _)
  · have := oneMag_lt_inf F 0 (by omega)
    unfold halfPred; omega
  · unfold halfPred; rw [hh]; omega

/-- magnitude of `round x` -/
theorem round_char (x : Flt F) (hx : x.isFinite) :
    (Generic.round x).isFinite ∧ (Generic.round x).sign = x.sign ∧
    (Generic.round x).mag = (2 * x.mag + F.oneMag) / (2 * F.oneMag) * F.oneMag := by
  obtain ⟨c1, c2, c3⟩ := round_const (F := F)
  unfold Generic.round
  simp only at c1 c2 c3 ⊢
  set c := fromParts F false (expBias F - 1) 0#_ - fromParts F false (expBias F - 2) 0#_ * epsilon F
  have hb := F.sb_lt_bias
  have hpos := F.oneMag_pos
  have k1 : (copysign c x).isFinite := by
    rw [copysign_eq, isFinite_iff, mb_mk' c.mb_lt]; exact c.isFinite_iff.mp c1
  have k2 : (copysign c x).sign = x.sign := by rw [copysign_eq, sign_mk' c.mb_lt]
  have k3 : (copysign c x).mag = halfPred F := by rw [copysign_eq, mag_mk' c.mb_lt, ← c3]; rfl
  rw [add_same hx k1 k2, k3]
  have hlt : roundU F.sb (x.mag + halfPred F) 1 < F.infEnc := by
    apply roundU_lt F.one_le_sb (by norm_num) (a := F.infEnc - 1) (by have := F.infEnc_pos; omega)
    rw [mul_one, F.magOf_infEnc_pred, F.magOf_infEnc]
    have h1 : x.mag ≤ 2 ^ (2 * F.bias + F.sb) - 2 ^ (2 * F.bias - 1) := by
      rw [← F.magOf_infEnc_pred, mag, magOf_le]
      have := x.isFinite_iff.mp hx; omega
    have h3 : F.oneMag ≤ 2 ^ (2 * F.bias - 1) := Nat.pow_le_pow_right (by norm_num) (by omega)
    have h4 : 2 ^ (2 * F.bias - 1) ≤ 2 ^ (2 * F.bias + F.sb) :=
      Nat.pow_le_pow_right (by norm_num) (by omega)
    have h5 : 2 * halfPred F < F.oneMag := by
      unfold halfPred
      have : 0 < 2 ^ (F.bias - 3) := Nat.two_pow_pos _
      omega
    omega
  have hy : (roundMag F x.sign (x.mag + halfPred F) 1).isFinite := by
    rw [isFinite_iff, mb_roundMag]; omega
  have hm : (roundMag F x.sign (x.mag + halfPred F) 1).mag =
      magOf F.sb (roundU F.sb (x.mag + halfPred F) 1) := by
    rw [mag, mb_roundMag, min_eq_left hlt.le]
  obtain ⟨t1, t2, t3⟩ := trunc_char _ hy
  refine ⟨t1, by rw [t2, sign_roundMag], ?_⟩
  rw [t3, downMag_eq, hm]
  obtain ⟨r1, r2⟩ := round_core (F := F) x.mb
  rw [show magOf F.sb x.mb = x.mag from rfl] at r1 r2
  rw [Nat.mul_comm F.oneMag, Nat.div_eq_of_lt_le r1 r2]

/-- C06: for finite `x`, `round x` is an integer within 1/2 of `x`; on a tie it is the one farther
from zero; it carries `x`'s sign bit. (This determines the result.) -/
theorem round_finite (x : Flt F) (hx : x.isFinite) :
    (Generic.round x).isFinite ∧ (Generic.round x).sign = x.sign ∧
    ∃ n : ℤ, (Generic.round x).toRat = n ∧ |(n : ℚ) - x.toRat| ≤ 1 / 2 ∧
      (|(n : ℚ) - x.toRat| = 1 / 2 → |x.toRat| < |(n : ℚ)|) := by
  obtain ⟨h1, h2, h3⟩ := round_char x hx
  refine ⟨h1, h2, ?_⟩
  set N := (2 * x.mag + F.oneMag) / (2 * F.oneMag) with hN
  have hO : (0 : ℚ) < F.oneMag := by exact_mod_cast F.oneMag_pos
  have hn1 : (N : ℚ) * (2 * F.oneMag) ≤ 2 * x.mag + F.oneMag := by
    exact_mod_cast Nat.div_mul_le_self (2 * x.mag + F.oneMag) (2 * F.oneMag)
  have hn2 : (2 * x.mag + F.oneMag : ℚ) < 2 * F.oneMag * (N + 1) := by
    have := Nat.lt_mul_div_succ (2 * x.mag + F.oneMag) (b := 2 * F.oneMag) (by have := F.oneMag_pos; omega)
    rw [← hN] at this
    exact_mod_cast this
  have ha : |x.toRat| = x.mag / F.oneMag := by rw [toRat_abs, ulp_eq]; ring
  have hr : |(Generic.round x).toRat| = N := by
    rw [toRat_abs, h3, ulp_eq]; push_cast; field_simp
  have b1 : (N : ℚ) - |x.toRat| ≤ 1 / 2 := by
    rw [ha, sub_le_iff_le_add, ← sub_le_iff_le_add', le_div_iff₀ hO]; linarith
  have b2 : -(1 / 2) < (N : ℚ) - |x.toRat| := by
    rw [ha]
    have : (x.mag : ℚ) / F.oneMag < N + 1 / 2 := by
      rw [div_lt_iff₀ hO]; linarith
    linarith
  have sx : x.toRat = (if x.sign then -1 else 1) * |x.toRat| := by
    rcases toRat_sign_cases x with ⟨a, b⟩ | ⟨a, b⟩ <;> rw [a]
    · simpa using b
    · simpa using b
  have sr : (Generic.round x).toRat = (if x.sign then -1 else 1) * N := by
    rw [← hr]
    rcases toRat_sign_cases (Generic.round x) with ⟨a, b⟩ | ⟨a, b⟩ <;> rw [h2] at a <;> rw [a]
    · simpa using b
    · simpa using b
  refine ⟨(if x.sign then -1 else 1) * N, by rw [sr]; push_cast; cases x.sign <;> simp, ?_⟩
  have hd : |((((if x.sign then -1 else 1) * N : ℤ)) : ℚ) - x.toRat| = |(N : ℚ) - (|x.toRat|)| := by
    conv_lhs => rw [sx]
    cases x.sign
    · simp
    · simp only [if_true]; push_cast
      rw [show (-1 * (N : ℚ) - -1 * |x.toRat|) = -((N : ℚ) - |x.toRat|) by ring, abs_neg]
  have hm : |((((if x.sign then -1 else 1) * N : ℤ)) : ℚ)| = N := by
    cases x.sign <;> simp
  rw [hd, hm]
  refine ⟨abs_le.mpr ⟨b2.le, b1⟩, fun he => ?_⟩
  rcases abs_eq (by norm_num : (0 : ℚ) ≤ 1 / 2) |>.mp he with h | h <;> linarith

example : (Generic.round (ofNat f64 0x3fdfffffffffffff)) = zero f64 false ∧
    (Generic.round (ofNat f64 0xc004000000000000)).toRat = -3 := by decide +kernel

theorem trunc_of_add_nonfinite {x y : Flt F} (hx : ¬ x.isFinite) (hy : y.isFinite) :
    (x.isNaN → (trunc (x + y)).isNaN) ∧ (x.isInf → trunc (x + y) = x) := by
  constructor
  · intro h
    have e : x + y = qnan F := by
      show Flt.add x y = _; unfold Flt.add; rw [if_pos (Or.inl h)]
    rw [e, trunc_nonfinite _ (not_finite_of_nan (by simp))]; simp
  · intro h
    have e : x + y = x := by
      show Flt.add x y = _; unfold Flt.add
      rw [if_neg (by simp [not_nan_of_inf h, not_nan_of_finite hy]), if_pos h,
        if_neg (by simp [not_inf_of_finite hy])]
    rw [e, trunc_nonfinite _ hx]

/-- C06: infinities are returned unchanged and NaN gives NaN. -/
theorem round_nonfinite (x : Flt F) :
    (x.isNaN → (Generic.round x).isNaN) ∧ (x.isInf → Generic.round x = x) := by
  obtain ⟨c1, c2, c3⟩ := round_const (F := F)
  unfold Generic.round
  simp only at c1 ⊢
  have k1 : (copysign (fromParts F false (expBias F - 1) 0#_ -
      fromParts F false (expBias F - 2) 0#_ * epsilon F) x).isFinite := by
    rw [copysign_eq, isFinite_iff, mb_mk' (mb_lt _)]; exact (isFinite_iff _).mp c1
  constructor
  · intro h; exact (trunc_of_add_nonfinite (not_finite_of_nan h) k1).1 h
  · intro h; exact (trunc_of_add_nonfinite (not_finite_of_inf h) k1).2 h

/-! ## C07 -/

/-- the constant `1 / EPSILON = 2^SIG_BITS` -/
theorem toint_const : (one F / epsilon F).isFinite ∧ (one F / epsilon F).sign = false ∧
    (one F / epsilon F).mag = 2 ^ F.sb * F.oneMag := by
  have hb := F.sb_lt_bias
  rw [div_finite isFinite_one isFinite_epsilon (by
    rw [isZero_iff_mag, mag_epsilon]; exact (Nat.two_pow_pos _).ne'), sign_one, sign_epsilon,
    mag_one, mag_epsilon]
  apply roundMag_rep (Nat.two_pow_pos _)
  · exact int_rep F _ (Nat.pow_le_pow_right (by norm_num) (by omega))
  · exact oneMag_lt_inf F _ (by omega)
  · have : F.oneMag = 2 ^ F.sb * 2 ^ (F.bias - 1) := by unfold Fmt.oneMag; rw [pow_add]; ring
    conv_lhs => rw [this]
    conv_rhs => rw [this]
    ring

/-- adding `2^SIG_BITS` rounds to an integer -/
theorem rint_core (X : Nat) (hX : X < 2 ^ F.sb * F.oneMag) :
    magOf F.sb (roundU F.sb (X + 2 ^ F.sb * F.oneMag) 1) = (2 ^ F.sb + rneDiv X F.oneMag) * F.oneMag ∧
    rneDiv X F.oneMag ≤ 2 ^ F.sb := by
  have hpos := F.oneMag_pos
  have hsb := F.sb_pow_ge
  have hdiv : X / F.oneMag < 2 ^ F.sb := by rwa [Nat.div_lt_iff_lt_mul hpos]
  have hle : rneDiv X F.oneMag ≤ 2 ^ F.sb := by
    have := (rneDiv_spec X F.oneMag hpos).1
    omega
  refine ⟨?_, hle⟩
  have hlog : Nat.log2 (X + 2 ^ F.sb * F.oneMag) = F.bias - 1 + F.sb + F.sb := by
    rw [Nat.log2_eq_iff (by positivity)]
    unfold Fmt.oneMag at hX ⊢
    rw [pow_succ, pow_add 2 (F.bias - 1 + F.sb) F.sb]
    constructor
    · rw [Nat.mul_comm]; omega
    · rw [Nat.mul_comm (2 ^ (F.bias - 1 + F.sb))]; omega
  have hk : Nat.log2 ((X + 2 ^ F.sb * F.oneMag) / 1) - F.sb = F.bias - 1 + F.sb := by
    rw [Nat.div_one, hlog]; omega
  unfold roundU
  simp only [hk]
  have hO : 1 * 2 ^ (F.bias - 1 + F.sb) = F.oneMag := by rw [one_mul]; rfl
  rw [hO]
  have hr : rneDiv (X + 2 ^ F.sb * F.oneMag) F.oneMag = 2 ^ F.sb + rneDiv X F.oneMag := by
    unfold rneDiv
    simp only
    rw [Nat.add_mul_div_right _ _ hpos, Nat.add_mul_mod_self_right]
    have hev : 2 ^ F.sb % 2 = 0 := Nat.mod_eq_zero_of_dvd F.two_dvd_pow_sb
    split
    · omega
    · split
      · omega
      · have : (X / F.oneMag + 2 ^ F.sb) % 2 = X / F.oneMag % 2 := by omega
        rw [this]
        split <;> omega
  rw [hr]
  exact magOf_split F.sb _ _ (by rw [pow_succ]; omega) (Or.inl (by omega))

/-- sign and magnitude of `rint x` -/
theorem rint_char (x : Flt F) (hx : x.isFinite) :
    (rint x).isFinite ∧ (rint x).sign = x.sign ∧
    (rint x).mag = rneDiv x.mag F.oneMag * F.oneMag := by
  obtain ⟨c1, c2, c3⟩ := toint_const (F := F)
  have hb := F.sb_lt_bias
  have hpos := F.oneMag_pos
  unfold rint rintRound
  simp only [FpResult.ok]
  set c := one F / epsilon F
  by_cases he : ex x ≥ expBias F + F.sb
  · rw [if_pos he]
    refine ⟨hx, rfl, ?_⟩
    have h1 : (F.sb : Int) ≤ expUnbiased x := by
      unfold expUnbiased; omega
    have h2 := regime_large h1
    have h3 : x.mag = x.mag / F.oneMag * F.oneMag := by
      rw [Nat.mul_comm]; have := Nat.div_add_mod x.mag F.oneMag; omega
    have h4 : rneDiv x.mag F.oneMag = x.mag / F.oneMag := by
      unfold rneDiv; simp only; rw [h2, if_pos (by omega)]
    rw [h4]; exact h3
  · rw [if_neg he]
    have hX : x.mag < 2 ^ F.sb * F.oneMag := by
      rw [ex_eq, expBias_eq] at he
      have h1 : (2 : Nat) ^ F.sb * F.oneMag = magOf F.sb ((F.bias + F.sb) * 2 ^ F.sb) := by
        rw [magOf_pow _ _ (by omega)]; unfold Fmt.oneMag; rw [← pow_add]; congr 1; omega
      rw [h1, mag, magOf_lt, mb_eq]
      have h2 := x.fracField_lt
      have h3 : (x.expField + 1) * 2 ^ F.sb ≤ (F.bias + F.sb) * 2 ^ F.sb :=
        Nat.mul_le_mul_right _ (by omega)
      rw [Nat.succ_mul] at h3
      omega
    obtain ⟨r1, r2⟩ := rint_core (F := F) x.mag hX
    set R := rneDiv x.mag F.oneMag
    have hlt0 : (2 ^ F.sb + R) * F.oneMag < 2 ^ (2 * F.bias + F.sb) := by
      have h1 := oneMag_lt_inf F (F.sb + 1) (by omega)
      have h2 : (2 ^ F.sb + R) * F.oneMag ≤ 2 ^ (F.sb + 1) * F.oneMag :=
        Nat.mul_le_mul_right _ (by rw [pow_succ]; omega)
      omega
    have hlt1 : R * F.oneMag < 2 ^ (2 * F.bias + F.sb) := by
      have h2 : R * F.oneMag ≤ (2 ^ F.sb + R) * F.oneMag := Nat.mul_le_mul_right _ (by omega)
      omega
    -- the sum
    have hs : ∀ s : Bool, (roundMag F s (x.mag + 2 ^ F.sb * F.oneMag) 1).isFinite ∧
        (roundMag F s (x.mag + 2 ^ F.sb * F.oneMag) 1).sign = s ∧
        (roundMag F s (x.mag + 2 ^ F.sb * F.oneMag) 1).mag = (2 ^ F.sb + R) * F.oneMag := by
      intro s
      have hlt : roundU F.sb (x.mag + 2 ^ F.sb * F.oneMag) 1 < F.infEnc :=
        lt_infEnc_of_mag (by rw [r1]; exact hlt0)
      refine ⟨?_, sign_roundMag _ _ _, ?_⟩
      · rw [isFinite_iff, mb_roundMag]; omega
      · rw [mag, mb_roundMag, min_eq_left hlt.le, r1]
    have hcz : ∀ s, c.sign = s → True := fun _ _ => trivial
    -- y
    have hy : ∃ y, (if (!x.sign) = true then x + c - c else x - c + c) = y ∧ y.isFinite ∧
        y.mag = R * F.oneMag ∧ (R ≠ 0 → y.sign = x.sign) := by
      refine ⟨_, rfl, ?_⟩
      cases hsx : x.sign
      · simp only [Bool.not_false, if_true]
        rw [add_same hx c1 (by rw [c2, hsx]), c3, hsx]
        obtain ⟨s1, s2, s3⟩ := hs false
        rw [sub_eq_add_neg']
        rcases Nat.eq_zero_or_pos R with h0 | h0
        · rw [add_cancel s1 ((isFinite_neg _).mpr c1) (by rw [sign_neg, c2, s2])
            (by rw [mag_neg, c3, s3, h0, add_zero])]
          simp [h0]
        · have : R * F.oneMag > 0 := Nat.mul_pos h0 hpos
          rw [Nat.add_mul] at s3
          rw [add_opp s1 ((isFinite_neg _).mpr c1) (by rw [sign_neg, c2, s2])
            (by rw [mag_neg, c3, s3]; omega), s2, mag_neg, c3, s3]
          have := roundMag_rep (F := F) (s := false) (n := 2 ^ F.sb * F.oneMag + R * F.oneMag - 2 ^ F.sb * F.oneMag)
            (d := 1) (m := R * F.oneMag) (by norm_num) (int_rep F R (by rw [pow_succ]; omega)) hlt1 (by omega)
          exact ⟨this.1, this.2.2, fun _ => this.2.1⟩
      · simp only [Bool.not_true, Bool.false_eq_true, if_false]
        rw [sub_eq_add_neg', add_same hx ((isFinite_neg _).mpr c1) (by rw [sign_neg, c2, hsx]; rfl),
          mag_neg, c3, hsx]
        obtain ⟨s1, s2, s3⟩ := hs true
        rcases Nat.eq_zero_or_pos R with h0 | h0
        · rw [add_cancel s1 c1 (by rw [c2, s2]; rfl) (by rw [c3, s3, h0, add_zero])]
          simp [h0]
        · have : R * F.oneMag > 0 := Nat.mul_pos h0 hpos
          rw [Nat.add_mul] at s3
          rw [add_opp s1 c1 (by rw [c2, s2]; rfl)
            (by rw [c3, s3]; omega), s2, c3, s3]
          have := roundMag_rep (F := F) (s := true) (n := 2 ^ F.sb * F.oneMag + R * F.oneMag - 2 ^ F.sb * F.oneMag)
            (d := 1) (m := R * F.oneMag) (by norm_num) (int_rep F R (by rw [pow_succ]; omega)) hlt1 (by omega)
          exact ⟨this.1, this.2.2, fun _ => this.2.1⟩
    obtain ⟨y, hy0, hy1, hy2, hy3⟩ := hy
    rw [hy0]
    by_cases hz : (y =ᶠ zero F false) = true
    · rw [if_pos hz]
      rw [feq_iff] at hz
      have hm : y.mag = 0 := by rw [← natAbs_sval, hz.2.2]; simp
      rw [hy2] at hm
      rw [hm]
      cases hsx : x.sign <;> simp
    · rw [if_neg hz]
      have hR : R ≠ 0 := by
        rintro h0
        apply hz
        rw [feq_iff]
        refine ⟨not_nan_of_finite hy1, not_nan_of_finite (by simp), ?_⟩
        have : y.mag = 0 := by rw [hy2, h0, zero_mul]
        rw [(isZero_iff_sval y).mp ((isZero_iff_mag y).mpr this)]; simp
      exact ⟨hy1, hy3 hR, hy2⟩

/-- C07: for finite `x`, `rint x` is an integer within 1/2 of `x`, even on a tie, and carries
`x`'s sign bit. (This determines the result.) -/
theorem rint_finite (x : Flt F) (hx : x.isFinite) :
    (rint x).isFinite ∧ (rint x).sign = x.sign ∧
    ∃ n : ℤ, (rint x).toRat = n ∧ |(n : ℚ) - x.toRat| ≤ 1 / 2 ∧
      (|(n : ℚ) - x.toRat| = 1 / 2 → Even n) := by
  obtain ⟨h1, h2, h3⟩ := rint_char x hx
  refine ⟨h1, h2, ?_⟩
  obtain ⟨-, ⟨q1, q2⟩, ⟨q3, q4⟩⟩ := rneDiv_spec x.mag F.oneMag F.oneMag_pos
  set N := rneDiv x.mag F.oneMag with hN
  have hO : (0 : ℚ) < F.oneMag := by exact_mod_cast F.oneMag_pos
  have ha : |x.toRat| = x.mag / F.oneMag := by rw [toRat_abs, ulp_eq]; ring
  have hr : |(rint x).toRat| = N := by
    rw [toRat_abs, h3, ulp_eq]; push_cast; field_simp
  have p1 : (2 * x.mag : ℚ) ≤ (2 * N + 1) * F.oneMag := by exact_mod_cast q1
  have p3 : (2 * N * F.oneMag : ℚ) ≤ 2 * x.mag + F.oneMag := by exact_mod_cast q3
  have b1 : (N : ℚ) - |x.toRat| ≤ 1 / 2 := by
    rw [ha, sub_le_iff_le_add, ← sub_le_iff_le_add', le_div_iff₀ hO]; linarith
  have b2 : -(1 / 2) ≤ (N : ℚ) - |x.toRat| := by
    rw [ha]
    have : (x.mag : ℚ) / F.oneMag ≤ N + 1 / 2 := by
      rw [div_le_iff₀ hO]; linarith
    linarith
  have sx : x.toRat = (if x.sign then -1 else 1) * |x.toRat| := by
    rcases toRat_sign_cases x with ⟨a, b⟩ | ⟨a, b⟩ <;> rw [a]
    · simpa using b
    · simpa using b
  have sr : (rint x).toRat = (if x.sign then -1 else 1) * N := by
    rw [← hr]
    rcases toRat_sign_cases (rint x) with ⟨a, b⟩ | ⟨a, b⟩ <;> rw [h2] at a <;> rw [a]
    · simpa using b
    · simpa using b
  refine ⟨(if x.sign then -1 else 1) * N, by rw [sr]; push_cast; cases x.sign <;> simp, ?_⟩
  have hd : |((((if x.sign then -1 else 1) * N : ℤ)) : ℚ) - x.toRat| = |(N : ℚ) - (|x.toRat|)| := by
    conv_lhs => rw [sx]
    cases x.sign
    · simp
    · simp only [if_true]; push_cast
      rw [show (-1 * (N : ℚ) - -1 * |x.toRat|) = -((N : ℚ) - |x.toRat|) by ring, abs_neg]
  rw [hd]
  refine ⟨abs_le.mpr ⟨b2, b1⟩, fun he => ?_⟩
  have hev : N % 2 = 0 := by
    rcases abs_eq (by norm_num : (0 : ℚ) ≤ 1 / 2) |>.mp he with h | h
    · apply q4
      rw [ha] at h
      have : (2 * N * F.oneMag : ℚ) = 2 * x.mag + F.oneMag := by
        have : (x.mag : ℚ) / F.oneMag = N - 1 / 2 := by linarith
        rw [div_eq_iff hO.ne'] at this; linarith
      exact_mod_cast this
    · apply q2
      rw [ha] at h
      have : (2 * x.mag : ℚ) = (2 * N + 1) * F.oneMag := by
        have : (x.mag : ℚ) / F.oneMag = N + 1 / 2 := by linarith
        rw [div_eq_iff hO.ne'] at this; linarith
      exact_mod_cast this
  have : Even (N : ℤ) := by exact_mod_cast Nat.even_iff.mpr hev
  cases x.sign
  · simpa using this
  · simpa using this

/-- C07: infinities and NaNs are returned unchanged. -/
theorem rint_nonfinite (x : Flt F) (hx : ¬ x.isFinite) : rint x = x := by
  unfold rint rintRound
  simp only [FpResult.ok]
  rw [if_pos]
  have := expUnbiased_of_not_finite hx
  unfold expUnbiased at this; omega

/-- `roundeven` is the same function as `rint` (both round to nearest even). -/
theorem roundeven_eq_rint (x : Flt F) : roundeven x = rint x := rfl

/-- `rint` does not depend on a rounding mode argument and never raises a flag. -/
theorem rint_status (x : Flt F) (r : Round) :
    (rintRound x r).status = Status.OK ∧ (rintRound x r).val = rint x := ⟨rfl, rfl⟩

example : (rint (ofNat f64 0x4004000000000000)).toRat = 2 ∧
    (rint (ofNat f64 0xbfe0000000000000)) = zero f64 true := by decide +kernel

end Verif
