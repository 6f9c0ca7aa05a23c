import Verif.Model.Generic
import Verif.Theory.Bits
import Verif.Props.Sign
import Mathlib.Data.Rat.Floor

/-! # Lemmas for trunc / floor / ceil -/

namespace Verif

theorem magOf_chop (sb b t : Nat) (hb : 2 ^ sb ≤ b) (ht : t ≤ sb) :
    magOf sb b % 2 ^ (t + (b / 2 ^ sb - 1)) = b % 2 ^ t * 2 ^ (b / 2 ^ sb - 1) ∧
    magOf sb (b - b % 2 ^ t) = magOf sb b - magOf sb b % 2 ^ (t + (b / 2 ^ sb - 1)) ∧
    magOf sb (b - b % 2 ^ t + 2 ^ t) =
      magOf sb b - magOf sb b % 2 ^ (t + (b / 2 ^ sb - 1)) + 2 ^ (t + (b / 2 ^ sb - 1)) ∧
    b - b % 2 ^ t + 2 ^ t ≤ (b / 2 ^ sb + 1) * 2 ^ sb := by
  have hps := Nat.two_pow_pos sb
  have hpt := Nat.two_pow_pos t
  obtain ⟨k, r, hbe, hr1, hr2⟩ := exists_split sb b
  have hrge : 2 ^ sb ≤ r := by
    rcases hr2 with h | h
    · exact h
    · rw [h] at hbe; omega
  have hdiv : b / 2 ^ sb - 1 = k := by
    have e : b = (r - 2 ^ sb) + 2 ^ sb * (k + 1) := by
      have : 2 ^ sb * (k + 1) = k * 2 ^ sb + 2 ^ sb := by ring
      omega
    rw [e, Nat.add_mul_div_left _ _ hps, Nat.div_eq_of_lt]
    · omega
    · rw [pow_succ] at hr1; omega
  have hdiv' : b / 2 ^ sb = k + 1 := by
    have : 1 ≤ b / 2 ^ sb := (Nat.one_le_div_iff hps).mpr hb
    omega
  rw [hdiv]
  obtain ⟨c, hc⟩ := Nat.exists_eq_add_of_le ht
  have hdvd : 2 ^ sb = 2 ^ t * 2 ^ c := by rw [hc, pow_add]
  have hmod : b % 2 ^ t = r % 2 ^ t := by
    have : b = r + 2 ^ t * (2 ^ c * k) := by rw [hbe, hdvd]; ring
    rw [this, Nat.add_mul_mod_self_left]
  have hrl : r % 2 ^ t < 2 ^ t := Nat.mod_lt _ hpt
  have hrle : r % 2 ^ t ≤ r := Nat.mod_le _ _
  -- r - r % 2^t ≥ 2^sb
  have hge : 2 ^ sb ≤ r - r % 2 ^ t := by
    have h1 : r - r % 2 ^ t = 2 ^ t * (r / 2 ^ t) := by
      have := Nat.div_add_mod r (2 ^ t); omega
    rw [h1, hdvd]
    apply Nat.mul_le_mul_left
    rw [Nat.le_div_iff_mul_le hpt, Nat.mul_comm, ← hdvd]; exact hrge
  have hle : r - r % 2 ^ t + 2 ^ t ≤ 2 ^ (sb + 1) := by
    have h1 : r - r % 2 ^ t = 2 ^ t * (r / 2 ^ t) := by
      have := Nat.div_add_mod r (2 ^ t); omega
    rw [h1]
    have h2 : 2 ^ (sb + 1) = 2 ^ t * (2 ^ c * 2) := by rw [pow_succ, hdvd]; ring
    have h3 : r / 2 ^ t < 2 ^ c * 2 := by
      rw [Nat.div_lt_iff_lt_mul hpt, Nat.mul_comm, ← h2]; exact hr1
    rw [h2]
    calc 2 ^ t * (r / 2 ^ t) + 2 ^ t = 2 ^ t * (r / 2 ^ t + 1) := by ring
      _ ≤ _ := Nat.mul_le_mul_left _ h3
  have hm : magOf sb b = r * 2 ^ k := by rw [hbe]; exact magOf_split sb k r hr1.le hr2
  have hmm : magOf sb b % 2 ^ (t + k) = r % 2 ^ t * 2 ^ k := by
    rw [hm, pow_add, Nat.mul_mod_mul_right]
  refine ⟨?_, ?_, ?_, ?_⟩
  · rw [hmm, hmod]
  · rw [hmm, hmod]
    have : b - r % 2 ^ t = k * 2 ^ sb + (r - r % 2 ^ t) := by omega
    rw [this, magOf_split sb k _ (by omega) (Or.inl hge), hm, Nat.sub_mul]
  · rw [hmm, hmod]
    have : b - r % 2 ^ t + 2 ^ t = k * 2 ^ sb + (r - r % 2 ^ t + 2 ^ t) := by omega
    rw [this, magOf_split sb k _ hle (Or.inl (by omega)), hm, add_mul, Nat.sub_mul, pow_add]
  · rw [hdiv', hmod]
    have : (k + 1 + 1) * 2 ^ sb = k * 2 ^ sb + 2 ^ (sb + 1) := by rw [pow_succ]; ring
    omega

namespace Flt
variable {F : Fmt}

/-- integer part of the magnitude, in units -/
def downMag (x : Flt F) : Nat := x.mag - x.mag % F.oneMag
/-- magnitude rounded up to an integer, in units -/
def upMag (x : Flt F) : Nat := if x.mag % F.oneMag = 0 then x.mag else x.downMag + F.oneMag

theorem downMag_eq (x : Flt F) : x.downMag = F.oneMag * (x.mag / F.oneMag) := by
  unfold downMag; have := Nat.div_add_mod x.mag F.oneMag; omega

/-- the exponent regimes -/
theorem regime_small {x : Flt F} (h : expUnbiased x < 0) : x.mag < F.oneMag := by
  rw [expUnbiased_eq] at h
  rw [← mag_one, mag, mag, magOf_lt, mb_one]
  have := x.fracField_lt
  rw [mb_eq]
  have h1 : x.expField + 1 ≤ F.bias := by omega
  calc x.expField * 2 ^ F.sb + x.fracField < (x.expField + 1) * 2 ^ F.sb := by nlinarith
    _ ≤ _ := Nat.mul_le_mul_right _ h1

theorem regime_small_iff {x : Flt F} : expUnbiased x < 0 ↔ x.mag < F.oneMag := by
  refine ⟨regime_small, fun h => ?_⟩
  rw [expUnbiased_eq]
  rw [← mag_one, mag, mag, magOf_lt, mb_one, mb_eq] at h
  by_contra hc
  have h1 : F.bias ≤ x.expField := by omega
  have := Nat.mul_le_mul_right (2 ^ F.sb) h1
  omega

theorem regime_large {x : Flt F} (h : (F.sb : Int) ≤ expUnbiased x) : x.mag % F.oneMag = 0 := by
  rw [expUnbiased_eq] at h
  have hb := F.sb_lt_bias
  rw [mag_eq_fields, if_neg (by omega), Fmt.oneMag]
  apply Nat.mod_eq_zero_of_dvd
  apply Dvd.dvd.mul_left
  apply pow_dvd_pow
  omega

section mid
variable {x : Flt F} (h0 : 0 ≤ expUnbiased x) (h1 : expUnbiased x < F.sb)
include h0 h1

theorem mid_facts :
    let t := F.sb - (expUnbiased x).toNat
    t ≤ F.sb ∧ 2 ^ F.sb ≤ x.mb ∧ 2 ^ (t + (x.mb / 2 ^ F.sb - 1)) = F.oneMag ∧
    (sigMask F >>> (expUnbiased x).toNat).toNat = 2 ^ t - 1 ∧
    (x.mb / 2 ^ F.sb + 1) * 2 ^ F.sb < F.infEnc ∧ 1 ≤ t := by
  intro t
  have hb := F.sb_lt_bias
  have he := expUnbiased_eq x
  refine ⟨Nat.sub_le _ _, ?_, ?_, ?_, ?_, by omega⟩
  · rw [mb_eq]
    have : 1 ≤ x.expField := by omega
    have := Nat.mul_le_mul_right (2 ^ F.sb) this
    omega
  · rw [← expField_eq, Fmt.oneMag]; congr 1; omega
  · rw [BV.shr, toNat_sigMask]
    have e : F.sb = t + (expUnbiased x).toNat := by omega
    have : 2 ^ F.sb = 2 ^ (expUnbiased x).toNat * 2 ^ t := by rw [← pow_add]; congr 1; omega
    rw [this]
    have hp := Nat.two_pow_pos (expUnbiased x).toNat
    have hpt := Nat.two_pow_pos t
    have e2 : 2 ^ (expUnbiased x).toNat * 2 ^ t - 1 =
        (2 ^ (expUnbiased x).toNat - 1) + 2 ^ (expUnbiased x).toNat * (2 ^ t - 1) := by
      rw [Nat.mul_sub]
      have : 2 ^ (expUnbiased x).toNat ≤ 2 ^ (expUnbiased x).toNat * 2 ^ t :=
        Nat.le_mul_of_pos_right _ hpt
      omega
    rw [e2, Nat.add_mul_div_left _ _ hp, Nat.div_eq_of_lt (by omega), zero_add]
  · rw [← expField_eq, F.infEnc_eq]
    exact Nat.mul_lt_mul_of_pos_right (by omega) (Nat.two_pow_pos _)

theorem mid_down :
    let t := F.sb - (expUnbiased x).toNat
    magOf F.sb (x.mb - x.mb % 2 ^ t) = x.downMag ∧
    (x.mb % 2 ^ t = 0 ↔ x.mag % F.oneMag = 0) ∧
    (magOf F.sb (x.mb - x.mb % 2 ^ t + 2 ^ t) = x.downMag + F.oneMag) ∧
    x.mb - x.mb % 2 ^ t + 2 ^ t < F.infEnc := by
  intro t
  obtain ⟨a1, a2, a3, a4, a5, a6⟩ := mid_facts h0 h1
  obtain ⟨c1, c2, c3, c4⟩ := magOf_chop F.sb x.mb t a2 a1
  rw [a3] at c1 c2 c3
  refine ⟨c2, ?_, c3, by omega⟩
  unfold mag
  rw [c1]
  have := Nat.two_pow_pos (x.mb / 2 ^ F.sb - 1)
  constructor
  · intro h; rw [h, zero_mul]
  · intro h
    rcases Nat.mul_eq_zero.mp h with h | h <;> omega

end mid

theorem mod_enc (x : Flt F) {t : Nat} (ht : t ≤ F.sb) : x.enc % 2 ^ t = x.mb % 2 ^ t := by
  unfold mb
  rw [Nat.mod_mod_of_dvd]
  exact pow_dvd_pow 2 (by omega)

theorem clear_low (x : Flt F) {t : Nat} (ht : t ≤ F.sb) {m : BitVec F.bits}
    (hm : m.toNat = 2 ^ t - 1) :
    (⟨x.toBits &&& ~~~m⟩ : Flt F) = mk' F x.sign (x.mb - x.mb % 2 ^ t) := by
  have hl := x.mb_lt
  have hle := Nat.mod_le x.mb (2 ^ t)
  apply ext_enc
  rw [enc_mk' (by omega)]
  show (x.toBits &&& ~~~m).toNat = _
  rw [BV.and_not_low hm]
  change x.enc - x.enc % 2 ^ t = _
  rw [mod_enc x ht, x.enc_eq]; omega

theorem add_clear_low (x : Flt F) {t : Nat} (ht : t ≤ F.sb) {m : BitVec F.bits}
    (hm : m.toNat = 2 ^ t - 1) (hne : x.mb % 2 ^ t ≠ 0)
    (hlt : x.mb - x.mb % 2 ^ t + 2 ^ t < F.infEnc) :
    (⟨(x.toBits + m) &&& ~~~m⟩ : Flt F) = mk' F x.sign (x.mb - x.mb % 2 ^ t + 2 ^ t) ∧
    x.toBits.toNat + m.toNat < 2 ^ F.bits := by
  have hl := x.mb_lt
  have hp := Nat.two_pow_pos t
  have hle := Nat.mod_le x.mb (2 ^ t)
  have hml := Nat.mod_lt x.mb hp
  have hb := F.two_pow_bits
  have henc := x.enc_eq
  have hsum : x.enc + (2 ^ t - 1) < 2 ^ F.bits := by
    have h1 := F.infEnc_add
    have h2 : 2 ^ t ≤ 2 ^ F.sb := Nat.pow_le_pow_right (by norm_num) ht
    rw [henc, hb]; split <;> omega
  have hil := F.infEnc_lt
  refine ⟨?_, by rw [hm]; exact hsum⟩
  apply ext_enc
  rw [enc_mk' (by omega)]
  show ((x.toBits + m) &&& ~~~m).toNat = _
  rw [BV.and_not_low hm, BitVec.toNat_add, hm]
  change (x.enc + (2 ^ t - 1)) % 2 ^ F.bits - (x.enc + (2 ^ t - 1)) % 2 ^ F.bits % 2 ^ t = _
  rw [Nat.mod_eq_of_lt hsum]
  have hme := mod_enc x ht
  have hdm := Nat.div_add_mod x.enc (2 ^ t)
  rw [hme] at hdm
  have e : x.enc + (2 ^ t - 1) = (x.mb % 2 ^ t - 1) + 2 ^ t * (x.enc / 2 ^ t + 1) := by
    rw [Nat.mul_add]; omega
  have e2 : (x.enc + (2 ^ t - 1)) % 2 ^ t = x.mb % 2 ^ t - 1 := by
    rw [e, Nat.add_mul_mod_self_left, Nat.mod_eq_of_lt (by omega)]
  rw [e2]
  omega

theorem and_low_eq_zero (x : Flt F) {t : Nat} (ht : t ≤ F.sb) {m : BitVec F.bits}
    (hm : m.toNat = 2 ^ t - 1) : x.toBits &&& m = 0#_ ↔ x.mb % 2 ^ t = 0 := by
  rw [← mod_enc x ht, ← BitVec.toNat_inj, BV.and_low hm]
  simp [enc]

/-! ### Values as integers -/

theorem ulp_eq (F : Fmt) : F.ulp = 1 / (F.oneMag : ℚ) := by
  have h : (F.oneMag : ℚ) ≠ 0 := by exact_mod_cast F.oneMag_pos.ne'
  rw [eq_div_iff h, mul_comm]; exact F.oneMag_mul_ulp

theorem floor_toRat (x : Flt F) : ⌊x.toRat⌋ = x.sval / (F.oneMag : Int) := by
  rw [toRat_eq, ulp_eq, mul_one_div]
  exact Rat.floor_intCast_div_natCast _ _

theorem ceil_toRat (x : Flt F) : ⌈x.toRat⌉ = -((-x.sval) / (F.oneMag : Int)) := by
  rw [← sval_neg, ← floor_toRat, toRat_neg, Int.floor_neg, _root_.neg_neg]

theorem toRat_of_sval {x : Flt F} {k : Int} (h : x.sval = F.oneMag * k) : x.toRat = k := by
  rw [toRat_eq, h]
  push_cast
  have := F.oneMag_mul_ulp
  linear_combination (k : ℚ) * this

theorem downMag_add (x : Flt F) : x.downMag + x.mag % F.oneMag = x.mag := by
  unfold downMag; have := Nat.mod_le x.mag F.oneMag; omega

theorem dvd_downMag (x : Flt F) : F.oneMag ∣ x.downMag := ⟨_, x.downMag_eq⟩

/-- value of a datum with x's sign and integer-part magnitude -/
theorem toRat_down {x r : Flt F} (hs : r.sign = x.sign) (hm : r.mag = x.downMag) :
    r.toRat = if x.sign then (⌈x.toRat⌉ : ℚ) else ⌊x.toRat⌋ := by
  have hp : (0 : Int) < F.oneMag := by exact_mod_cast F.oneMag_pos
  cases hsx : x.sign
  · simp only [Bool.false_eq_true, if_false]
    apply toRat_of_sval
    rw [floor_toRat, sval, sval, hs, hsx, hm, downMag_eq]; simp
  · simp only [if_true]
    apply toRat_of_sval
    rw [ceil_toRat, sval, sval, hs, hsx, hm, downMag_eq]; simp

theorem toRat_up {x r : Flt F} (hs : r.sign = x.sign) (hm : r.mag = x.upMag) :
    r.toRat = if x.sign then (⌊x.toRat⌋ : ℚ) else ⌈x.toRat⌉ := by
  have hp : (0 : Int) < F.oneMag := by exact_mod_cast F.oneMag_pos
  have key : (x.upMag : Int) = F.oneMag * -(-(x.mag : Int) / F.oneMag) := by
    unfold upMag
    have hd := Nat.div_add_mod x.mag F.oneMag
    have hdi : (F.oneMag : Int) * (x.mag / F.oneMag : Nat) + (x.mag % F.oneMag : Nat) = x.mag := by
      exact_mod_cast hd
    by_cases h0 : x.mag % F.oneMag = 0
    · rw [if_pos h0]
      rw [h0] at hdi
      have : (-(x.mag : Int)) / F.oneMag = -((x.mag / F.oneMag : Nat) : Int) := by
        rw [← hdi]
        simp only [Nat.cast_zero, add_zero]
        rw [← mul_neg, Int.mul_ediv_cancel_left _ hp.ne']
      rw [this]; rw [_root_.neg_neg]; omega
    · rw [if_neg h0]
      have hlt : x.mag % F.oneMag < F.oneMag := Nat.mod_lt _ F.oneMag_pos
      have : (-(x.mag : Int)) / F.oneMag = -((x.mag / F.oneMag : Nat) : Int) - 1 := by
        rw [← hdi]
        have e : -((F.oneMag : Int) * ((x.mag / F.oneMag : Nat) : Int) + ((x.mag % F.oneMag : Nat) : Int))
          = ((F.oneMag : Int) - ((x.mag % F.oneMag : Nat) : Int)) +
            F.oneMag * (-((x.mag / F.oneMag : Nat) : Int) - 1) := by ring
        rw [e, Int.add_mul_ediv_left _ _ hp.ne', Int.ediv_eq_zero_of_lt (by omega) (by omega)]
        ring
      rw [this, downMag_eq]
      push_cast
      ring
  cases hsx : x.sign
  · simp only [Bool.false_eq_true, if_false]
    apply toRat_of_sval
    rw [ceil_toRat, sval, sval, hs, hsx, hm]; simp only [Bool.false_eq_true, if_false]; exact key
  · simp only [if_true]
    apply toRat_of_sval
    rw [floor_toRat, sval, sval, hs, hsx, hm]; simp only [if_true]
    rw [key]; ring

end Flt

open Flt Generic
variable {F : Fmt}

/-! ### Characterisation of trunc, floor, ceil on finite arguments -/

theorem trunc_char (x : Flt F) (hx : x.isFinite) :
    (trunc x).isFinite ∧ (trunc x).sign = x.sign ∧ (trunc x).mag = x.downMag := by
  unfold trunc truncStatus
  simp only
  by_cases h1 : expUnbiased x ≥ F.sb
  · rw [if_pos h1]
    have := regime_large h1
    refine ⟨hx, rfl, ?_⟩
    simp only [FpResult.ok]
    unfold downMag; omega
  · rw [if_neg h1]
    by_cases h0 : expUnbiased x < 0
    · rw [if_pos h0]
      have hlt := regime_small h0
      have hd : x.downMag = 0 := by unfold downMag; rw [Nat.mod_eq_of_lt hlt]; omega
      have hz : (x.toBits &&& ~~~(signMask F) = 0#_) ↔ x.mb = 0 := by
        rw [← BitVec.toNat_inj, and_not_signMask]; simp [mb, enc]
      split
      · rename_i hh
        rw [hz] at hh
        refine ⟨hx, rfl, ?_⟩
        simp only [FpResult.ok]
        rw [hd, mag, hh]; simp
      · have e : (⟨x.toBits &&& signMask F⟩ : Flt F) = zero F x.sign := by
          apply ext_enc
          unfold zero
          rw [enc_mk' (Nat.two_pow_pos _), zero_add]
          show (x.toBits &&& signMask F).toNat = _
          rw [and_signMask]
          by_cases hh : 2 ^ (F.ew + F.sb) ≤ x.toBits.toNat <;> simp [sign, enc, hh]
        rw [e, hd]; simp
    · rw [if_neg h0]
      have h0' : 0 ≤ expUnbiased x := by omega
      have h1' : expUnbiased x < F.sb := by omega
      obtain ⟨a1, a2, a3, a4, a5, a6⟩ := mid_facts h0' h1'
      obtain ⟨c1, c2, c3, c4⟩ := mid_down h0' h1'
      have hz := and_low_eq_zero x a1 a4
      rw [BitVec.not_not]
      split
      · rename_i hh
        rw [hz] at hh
        refine ⟨hx, rfl, ?_⟩
        simp only [FpResult.ok]
        have := c2.mp hh
        unfold downMag; omega
      · simp only
        rw [clear_low x a1 a4]
        have hl := x.mb_lt
        rw [isFinite_iff] at hx ⊢
        rw [sign_mk' (by omega), mag_mk' (by omega), mb_mk' (by omega)]
        exact ⟨by omega, rfl, c1⟩

theorem shl_one_eq_zero (x : Flt F) : x.toBits <<< 1 = 0#_ ↔ x.mb = 0 := by
  rw [← BitVec.toNat_inj, BV.shl]
  have : (2 : Nat) ^ F.bits = 2 ^ (F.ew + F.sb) * 2 ^ 1 := by rw [F.two_pow_bits]; omega
  rw [this, Nat.mul_mod_mul_right]
  simp [mb, enc]

theorem negOne_eq : negOne F = - one F := by
  unfold negOne; rw [neg_def, sign_one, mb_one]; rfl

theorem floor_char (x : Flt F) (hx : x.isFinite) :
    (floor x).isFinite ∧ (floor x).sign = x.sign ∧
    (floor x).mag = if x.sign then x.upMag else x.downMag := by
  unfold floor floorStatus
  simp only
  by_cases h1 : expUnbiased x ≥ F.sb
  · rw [if_pos h1]
    have := regime_large h1
    refine ⟨hx, rfl, ?_⟩
    simp only [FpResult.ok]
    unfold upMag downMag; rw [if_pos this]; split <;> omega
  · rw [if_neg h1]
    by_cases h0 : expUnbiased x ≥ 0
    · rw [if_pos h0]
      have h1' : expUnbiased x < F.sb := by omega
      obtain ⟨a1, a2, a3, a4, a5, a6⟩ := mid_facts h0 h1'
      obtain ⟨c1, c2, c3, c4⟩ := mid_down h0 h1'
      have hz := and_low_eq_zero x a1 a4
      split
      · rename_i hh
        rw [hz] at hh
        refine ⟨hx, rfl, ?_⟩
        simp only [FpResult.ok]
        have := c2.mp hh
        unfold upMag downMag; rw [if_pos this]; split <;> omega
      · rename_i hne
        rw [hz] at hne
        have hl := x.mb_lt
        have hm : x.mag % F.oneMag ≠ 0 := fun h => hne (c2.mpr h)
        rw [isFinite_iff] at hx
        have hil := F.infEnc_lt
        cases hs : x.sign
        · simp only [Bool.false_eq_true, if_false]
          rw [clear_low x a1 a4]
          rw [sign_mk' (by omega), mag_mk' (by omega), isFinite_iff, mb_mk' (by omega)]
          exact ⟨by omega, hs, c1⟩
        · simp only [if_true]
          rw [(add_clear_low x a1 a4 hne (by omega)).1]
          rw [sign_mk' (by omega), mag_mk' (by omega), isFinite_iff, mb_mk' (by omega)]
          refine ⟨by omega, hs, ?_⟩
          unfold upMag; rw [if_neg hm]; exact c3
    · rw [if_neg h0]
      have hlt := regime_small (x := x) (by omega)
      have hd : x.downMag = 0 := by unfold downMag; rw [Nat.mod_eq_of_lt hlt]; omega
      simp only
      cases hs : x.sign
      · simp [hd]
      · simp only [Bool.not_true, Bool.false_eq_true, if_false, if_true, ne_eq, shl_one_eq_zero]
        split
        · rename_i hh
          rw [negOne_eq]
          refine ⟨by simp, by simp, ?_⟩
          have hne : x.mag ≠ 0 := by
            rw [mag, Ne, magOf_eq_zero]; exact hh
          unfold upMag
          rw [Nat.mod_eq_of_lt hlt, if_neg hne, hd]; simp
        · rename_i hh
          refine ⟨hx, hs, ?_⟩
          have : x.mag = 0 := by
            rw [mag, magOf_eq_zero]; omega
          unfold upMag; rw [this]; simp

theorem ceil_char (x : Flt F) (hx : x.isFinite) :
    (ceil x).isFinite ∧ (ceil x).sign = x.sign ∧
    (ceil x).mag = if x.sign then x.downMag else x.upMag := by
  unfold ceil ceilStatus
  simp only
  by_cases h1 : expUnbiased x ≥ F.sb
  · rw [if_pos h1]
    have := regime_large h1
    refine ⟨hx, rfl, ?_⟩
    simp only [FpResult.ok]
    unfold upMag downMag; rw [if_pos this]; split <;> omega
  · rw [if_neg h1]
    by_cases h0 : expUnbiased x ≥ 0
    · rw [if_pos h0]
      have h1' : expUnbiased x < F.sb := by omega
      obtain ⟨a1, a2, a3, a4, a5, a6⟩ := mid_facts h0 h1'
      obtain ⟨c1, c2, c3, c4⟩ := mid_down h0 h1'
      have hz := and_low_eq_zero x a1 a4
      split
      · rename_i hh
        rw [hz] at hh
        refine ⟨hx, rfl, ?_⟩
        simp only [FpResult.ok]
        have := c2.mp hh
        unfold upMag downMag; rw [if_pos this]; split <;> omega
      · rename_i hne
        rw [hz] at hne
        have hl := x.mb_lt
        have hm : x.mag % F.oneMag ≠ 0 := fun h => hne (c2.mpr h)
        rw [isFinite_iff] at hx
        have hil := F.infEnc_lt
        cases hs : x.sign
        · simp only [Bool.not_false, if_true, Bool.false_eq_true, if_false]
          rw [(add_clear_low x a1 a4 hne (by omega)).1]
          rw [sign_mk' (by omega), mag_mk' (by omega), isFinite_iff, mb_mk' (by omega)]
          refine ⟨by omega, hs, ?_⟩
          unfold upMag; rw [if_neg hm]; exact c3
        · simp only [Bool.not_true, Bool.false_eq_true, if_false, if_true]
          rw [clear_low x a1 a4]
          rw [sign_mk' (by omega), mag_mk' (by omega), isFinite_iff, mb_mk' (by omega)]
          exact ⟨by omega, hs, c1⟩
    · rw [if_neg h0]
      have hlt := regime_small (x := x) (by omega)
      have hd : x.downMag = 0 := by unfold downMag; rw [Nat.mod_eq_of_lt hlt]; omega
      simp only
      cases hs : x.sign
      · simp only [Bool.false_eq_true, if_false, ne_eq, shl_one_eq_zero]
        split
        · rename_i hh
          refine ⟨by simp, by simp, ?_⟩
          have hne : x.mag ≠ 0 := by
            rw [mag, Ne, magOf_eq_zero]; exact hh
          unfold upMag
          rw [Nat.mod_eq_of_lt hlt, if_neg hne, hd]; simp
        · rename_i hh
          refine ⟨hx, hs, ?_⟩
          have : x.mag = 0 := by
            rw [mag, magOf_eq_zero]; omega
          unfold upMag; rw [this]; simp
      · simp [hd]

theorem expUnbiased_of_not_finite {x : Flt F} (hx : ¬ x.isFinite) :
    (F.sb : Int) ≤ expUnbiased x := by
  rw [expUnbiased_eq]
  unfold isFinite at hx
  have := F.two_bias
  have := F.sb_lt_bias
  push Not at hx
  omega

end Verif
