import Verif.Theory.Fmod
import Verif.Props.Sign

/-! # C18 fmod -/

namespace Verif
open Flt Generic
variable {F : Fmt}

/-- rounding toward zero -/
def ratTrunc (q : ℚ) : ℤ := if q < 0 then ⌈q⌉ else ⌊q⌋

theorem toRat_sign_mag (x : Flt F) : x.toRat = (if x.sign then -1 else 1) * ((x.mag : ℚ) * F.ulp) := by
  rw [toRat_eq, sval]; cases x.sign <;> simp

theorem ratTrunc_div (x y : Flt F) (hy : ¬ y.isZero) :
    ratTrunc (x.toRat / y.toRat) =
      (if x.sign ^^ y.sign then -1 else 1) * ((x.mag / y.mag : ℕ) : ℤ) := by
  have hY : (y.mag : ℚ) ≠ 0 := by
    rw [isZero_iff_mag] at hy; exact_mod_cast hy
  have hu := F.ulp_ne
  have hf : ⌊(x.mag : ℚ) / y.mag⌋ = ((x.mag / y.mag : ℕ) : ℤ) := by
    have := Rat.floor_intCast_div_natCast (x.mag : ℤ) y.mag
    rw [Int.cast_natCast] at this
    rw [this]; rfl
  have hnn : (0 : ℚ) ≤ (x.mag : ℚ) / y.mag := by positivity
  have hq : x.toRat / y.toRat = (if x.sign ^^ y.sign then -1 else 1) * ((x.mag : ℚ) / y.mag) := by
    rw [toRat_sign_mag, toRat_sign_mag]
    cases x.sign <;> cases y.sign <;> simp <;> field_simp
  rw [hq]
  unfold ratTrunc
  cases x.sign ^^ y.sign
  · simp only [Bool.false_eq_true, if_false, one_mul]
    rw [if_neg (not_lt.mpr hnn), hf]
  · simp only [if_true, neg_mul, one_mul]
    by_cases h0 : (x.mag : ℚ) / y.mag = 0
    · rw [h0] at hf ⊢
      simp at hf ⊢
      exact hf.symm
    · have : -((x.mag : ℚ) / y.mag) < 0 := by
        have := lt_of_le_of_ne hnn (Ne.symm h0); linarith
      rw [if_pos this, Int.ceil_neg, hf]

theorem zero_mul_finite (x : Flt F) (hx : x.isFinite) : zero F false * x = zero F x.sign := by
  rw [mul_finite (by simp) hx]
  simp only [mag_zero, zero_mul, sign_zero, Bool.false_xor]
  exact roundMag_zero _ _ F.oneMag_pos

theorem shl1_toNat (x : Flt F) : (x.toBits <<< 1).toNat = 2 * x.mb := by
  rw [BV.shl]
  have : (2 : Nat) ^ F.bits = 2 ^ (F.ew + F.sb) * 2 ^ 1 := by rw [F.two_pow_bits]; omega
  rw [this, Nat.mul_mod_mul_right]
  show x.mb * 2 ^ 1 = _; ring

theorem or_sign (v : BitVec F.bits) (x : Flt F) (h : v.toNat < F.infEnc) :
    (⟨v ||| (x.toBits &&& signMask F)⟩ : Flt F) = mk' F x.sign v.toNat := by
  have hl := F.infEnc_lt
  apply ext_enc
  rw [enc_mk' (by omega)]
  show (v ||| (x.toBits &&& signMask F)).toNat = _
  have e : (x.sign = true) ↔ 2 ^ (F.ew + F.sb) ≤ x.toBits.toNat := by
    unfold sign enc; simp
  rw [BitVec.or_comm, BV.or_disjoint (k := F.ew + F.sb), and_signMask]
  · by_cases h : x.sign = true
    · rw [if_pos (e.mp h), if_pos h]; omega
    · rw [if_neg (fun hc => h (e.mpr hc)), if_neg h]; omega
  · rw [and_signMask]; split <;> simp
  · omega

theorem fmod_core (x y : Flt F) (hx : x.isFinite) (hy : ¬ y.isNaN) (hy0 : ¬ y.isZero) :
    ∃ r, fmod x y = some r ∧ r.isFinite ∧ r.sign = x.sign ∧ r.mag = x.mag % y.mag := by
  have hy0' := hy0
  rw [isZero_iff] at hy0'
  have hY : y.mag ≠ 0 := fun h => hy0 ((isZero_iff_mag y).mpr h)
  have hexp : (x.expField : Int) < 2 ^ F.ew - 1 := by
    have h1 := x.expField_lt
    unfold isFinite at hx
    have : ((2 ^ F.ew : Nat) : Int) = 2 ^ F.ew := by push_cast; rfl
    omega
  unfold fmod
  simp only
  rw [if_neg]
  swap
  · rintro (h | h | h)
    · rw [← BitVec.toNat_inj, shl1_toNat] at h; simp at h; omega
    · exact hy h
    · rw [ex_eq, expSat_eq] at h; exact hx (by exact_mod_cast h)
  by_cases hle : x.toBits <<< 1 ≤ y.toBits <<< 1
  · rw [if_pos hle]
    rw [BitVec.le_def, shl1_toNat, shl1_toNat] at hle
    by_cases heq : x.toBits <<< 1 = y.toBits <<< 1
    · rw [if_pos heq, zero_mul_finite x hx]
      rw [← BitVec.toNat_inj, shl1_toNat, shl1_toNat] at heq
      refine ⟨_, rfl, by simp, by simp, ?_⟩
      have : x.mag = y.mag := by unfold mag; congr 1; omega
      rw [this]; simp
    · rw [if_neg heq]
      rw [← BitVec.toNat_inj, shl1_toNat, shl1_toNat] at heq
      refine ⟨_, rfl, hx, rfl, ?_⟩
      have : x.mag < y.mag := by unfold mag; rw [magOf_lt]; omega
      rw [Nat.mod_eq_of_lt this]
  · rw [if_neg hle]
    rw [BitVec.le_def, shl1_toNat, shl1_toNat] at hle
    have hlt : y.mag < x.mag := by unfold mag; rw [magOf_lt]; omega
    have hx0 : ¬ x.isZero := by rw [isZero_iff]; omega
    obtain ⟨u, e, hu1, hu2, hu3⟩ := fmodNorm_spec x hx0
    obtain ⟨v, f, hv1, hv2, hv3⟩ := fmodNorm_spec y hy0
    rw [hu1]; simp only [Option.bind_some]
    rw [hv1]; simp only [Option.bind_some]
    have hef : f ≤ e := by
      by_contra hc
      have := hu2.lt hv2 (by omega)
      have h1 : x.mag * 1 ≤ x.mag * 2 ^ (f - e - 1).toNat := Nat.mul_le_mul_left _ (Nat.two_pow_pos _)
      omega
    obtain ⟨-, hmod⟩ := hu2.divmod hv2 hef
    have hvlo := hv2.lo
    have hvhi := hv2.hi
    have hulo := hu2.lo
    have huhi := hu2.hi
    have hp := Nat.two_pow_pos F.sb
    have hloop := fmodLoop_spec v hvhi (e - f).toNat u (by omega) (by rw [pow_succ] at huhi; omega)
    have hmin : min e f = f := by omega
    rw [hmin]
    have hzero : v.toNat ∣ u.toNat * 2 ^ (e - f).toNat → x.mag % y.mag = 0 := by
      intro h
      rw [Nat.mod_eq_zero_of_dvd h, zero_mul] at hmod
      rcases Nat.mul_eq_zero.mp hmod with h | h
      · exact h
      · omega
    cases hl : fmodLoop v (e - f).toNat u with
    | none =>
      rw [hl] at hloop
      simp only at hloop ⊢
      refine ⟨_, rfl, ?_⟩
      rw [zero_mul_finite x hx, hzero hloop]; simp
    | some w =>
      rw [hl] at hloop
      simp only at hloop ⊢
      obtain ⟨w1, w2, w3⟩ := hloop
      obtain ⟨t1, t2⟩ := sub_top w2 hvhi
      by_cases hfin : (w - v) >>> (F.bits - 1) = 0#_ ∧ w - v = 0#_
      · rw [if_pos hfin]
        refine ⟨_, rfl, ?_⟩
        have h1 := t2 (t1.mp hfin.1)
        rw [hfin.2] at h1
        simp at h1
        have h2 := t1.mp hfin.1
        have : w.toNat = v.toNat := by omega
        rw [this, Nat.mod_self] at w3
        rw [zero_mul_finite x hx, hzero (Nat.dvd_of_mod_eq_zero w3.symm)]; simp
      · rw [if_neg hfin]
        -- the selected remainder
        obtain ⟨r, hr⟩ : ∃ r, r = if (w - v) >>> (F.bits - 1) = 0#_ then w - v else w := ⟨_, rfl⟩
        rw [← hr]
        have hrn : r.toNat = u.toNat * 2 ^ (e - f).toNat % v.toNat ∧ 0 < r.toNat := by
          rw [← w3]
          by_cases hc : v.toNat ≤ w.toNat
          · rw [if_pos (t1.mpr hc)] at hr
            rw [hr, t2 hc]
            constructor
            · rw [Nat.mod_eq_sub_mod hc, Nat.mod_eq_of_lt (by omega)]
            · by_contra h0
              apply hfin
              refine ⟨t1.mpr hc, ?_⟩
              rw [← BitVec.toNat_inj, t2 hc]; simp; omega
          · rw [if_neg (fun h => hc (t1.mp h))] at hr
            rw [hr]
            exact ⟨(Nat.mod_eq_of_lt (by omega)).symm, w1⟩
        rw [← hrn.1] at hmod
        have hrlt : r.toNat < v.toNat := by rw [hrn.1]; exact Nat.mod_lt _ (by omega)
        have hZ : 0 < x.mag % y.mag := by
          by_contra h0
          have : x.mag % y.mag = 0 := by omega
          rw [this, zero_mul] at hmod
          have := Nat.two_pow_pos (f - 1 + F.sb).toNat
          rcases Nat.mul_eq_zero.mp hmod.symm with h | h <;> omega
        have hn := isNorm_shift hZ hv2.elo (by omega) hmod
        have hlz : leadingZeros r - F.ew = F.sb - r.toNat.log2 := by
          unfold leadingZeros
          rw [if_neg (by omega)]
          have hbb := F.bits_eq
          have : r.toNat.log2 ≤ F.sb := by
            have := (Nat.log2_lt (by omega)).mpr (show r.toNat < 2 ^ (F.sb + 1) by omega); omega
          omega
        have hsh : (r <<< (F.sb - r.toNat.log2)).toNat = r.toNat * 2 ^ (F.sb - r.toNat.log2) := by
          rw [BV.shl, Nat.mod_eq_of_lt]
          exact lt_of_lt_of_le hn.hi (Nat.pow_le_pow_right (by norm_num)
            (by rw [F.bits_eq]; omega))
        rw [hlz]
        rw [← hsh] at hn
        obtain ⟨p, p1, p2, p3⟩ := pack_spec hn (by omega)
        rw [p1]
        simp only [Option.map_some]
        refine ⟨_, rfl, ?_⟩
        have hl := F.infEnc_lt
        rw [or_sign p x p2, isFinite_iff, mb_mk' (by omega), sign_mk' (by omega), mag_mk' (by omega)]
        exact ⟨p2, rfl, p3⟩

/-- C18: for finite `x` and finite nonzero `y` the result exists (no panic) and is exactly
`x - trunc(x/y)*y`; it keeps the sign bit of `x`, also when zero -/
theorem fmod_finite (x y : Flt F) (hx : x.isFinite) (hy : y.isFinite) (hy0 : ¬ y.isZero) :
    ∃ r, fmod x y = some r ∧ r.isFinite ∧ r.sign = x.sign ∧
      r.toRat = x.toRat - ratTrunc (x.toRat / y.toRat) * y.toRat ∧ |r.toRat| < |y.toRat| := by
  obtain ⟨r, r1, r2, r3, r4⟩ := fmod_core x y hx (not_nan_of_finite hy) hy0
  have hY : 0 < y.mag := by
    have : y.mag ≠ 0 := fun h => hy0 ((isZero_iff_mag y).mpr h)
    omega
  refine ⟨r, r1, r2, r3, ?_, ?_⟩
  · rw [ratTrunc_div x y hy0, toRat_sign_mag r, toRat_sign_mag x, toRat_sign_mag y, r3, r4]
    have hd : ((y.mag : ℕ) : ℚ) * ((x.mag / y.mag : ℕ) : ℚ) + ((x.mag % y.mag : ℕ) : ℚ) = x.mag := by
      exact_mod_cast Nat.div_add_mod x.mag y.mag
    generalize x.mag / y.mag = Q at *
    generalize x.mag % y.mag = R at *
    cases x.sign <;> cases y.sign <;> simp only [Bool.xor_false, Bool.xor_true, Bool.not_false,
      Bool.not_true, Bool.false_eq_true, if_true, if_false, Int.cast_mul, Int.cast_neg, Int.cast_one,
      Int.cast_natCast]
    · linear_combination F.ulp * hd
    · linear_combination F.ulp * hd
    · linear_combination -F.ulp * hd
    · linear_combination -F.ulp * hd
  · rw [toRat_abs, toRat_abs, r4]
    refine mul_lt_mul_of_pos_right ?_ F.ulp_pos
    exact_mod_cast Nat.mod_lt _ hY

/-- C18: finite `x`, infinite `y`: `x` is returned -/
theorem fmod_inf (x y : Flt F) (hx : x.isFinite) (hy : y.isInf) : fmod x y = some x := by
  have hy0 : ¬ y.isZero := by
    intro h; exact not_inf_of_finite (finite_of_zero h) hy
  obtain ⟨r, r1, r2, r3, r4⟩ := fmod_core x y hx (not_nan_of_inf hy) hy0
  rw [r1]
  congr 1
  refine eq_of_sign_mag r3 ?_
  rw [r4, Nat.mod_eq_of_lt]
  rw [mag_of_inf hy]; exact mag_lt_inf hx

theorem div_self_nan {z : Flt F} (h : z.isNaN ∨ z.isInf ∨ z.isZero) : (z / z).isNaN := by
  show (Flt.div z z).isNaN
  unfold Flt.div
  rcases h with h | h | h
  · rw [if_pos (Or.inl h)]; simp
  · rw [if_neg (by simp [not_nan_of_inf h]), if_pos (Or.inl ⟨h, h⟩)]; simp
  · rw [if_neg (by simp [not_nan_of_finite (finite_of_zero h)]), if_pos (Or.inr ⟨h, h⟩)]; simp

/-- `(x*y)/(x*y)` is NaN in the exceptional cases -/
theorem invalid_nan (x y : Flt F) (h : x.isNaN ∨ y.isNaN ∨ x.isInf ∨ y.isZero) :
    ((x * y) / (x * y)).isNaN := by
  apply div_self_nan
  by_cases hn : x.isNaN ∨ y.isNaN
  · left
    show (Flt.mul x y).isNaN
    unfold Flt.mul; rw [if_pos hn]; simp
  · push Not at hn
    by_cases hi : x.isInf
    · by_cases hz : y.isZero
      · left
        show (Flt.mul x y).isNaN
        unfold Flt.mul; rw [if_neg (by simp [hn]), if_pos (Or.inl ⟨hi, hz⟩)]; simp
      · right; left
        show (Flt.mul x y).isInf
        unfold Flt.mul
        have hx0 : ¬ x.isZero := fun h => not_inf_of_finite (finite_of_zero h) hi
        rw [if_neg (by simp [hn]), if_neg (by simp [hz, hx0]), if_pos (Or.inl hi)]; simp
    · have hz : y.isZero := by tauto
      right; right
      rw [mul_finite (finite_of_not hn.1 hi) (finite_of_zero hz), (isZero_iff_mag y).mp hz, mul_zero,
        roundMag_zero _ _ F.oneMag_pos]; simp

/-- C18: exceptional arguments give NaN -/
theorem fmod_invalid (x y : Flt F) (h : x.isNaN ∨ y.isNaN ∨ x.isInf ∨ y.isZero) :
    ∃ r, fmod x y = some r ∧ r.isNaN := by
  refine ⟨_, ?_, invalid_nan x y h⟩
  unfold fmod
  simp only
  rw [if_pos]
  rcases h with h | h | h | h
  · right; right; rw [ex_eq, expSat_eq, h.1]
  · right; left; exact h
  · right; right; rw [ex_eq, expSat_eq, h.1]
  · left; rw [← BitVec.toNat_inj, shl1_toNat, (isZero_iff y).mp h]; simp

/-- -7.5 fmod 2 = -1.5, 2^1023 fmod 3·2^-1074 -/
example : fmod (ofNat f64 0xc01e000000000000) (ofNat f64 0x4000000000000000)
      = some (ofNat f64 0xbff8000000000000) ∧
    fmod (ofNat f16 0x7800) (ofNat f16 0x0003) = some (ofNat f16 0x0002) := by
  constructor <;> decide +kernel

end Verif
