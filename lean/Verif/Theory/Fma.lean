import Verif.Model.Fma
import Verif.Theory.Sticky
import Verif.Theory.Decomp
import Verif.Theory.RNE
import Verif.Props.Scalbn
import Verif.Props.Sign
import Verif.Props.Basic
import Verif.Props.Big

/-! # Auxiliary facts about the stages of `fma_round` -/

namespace Verif
open Flt Generic
variable {F : Fmt}

/-- what `fma_round` needs to know of the format -/
structure FmaFmt (F : Fmt) : Prop where
  scale : ScaleFmt F
  fit : F.ew + F.sb < F.bias
  ew : F.ew ≤ F.sb + 1

theorem IsLibFmt.fma (h : IsLibFmt F) (h16 : F ≠ f16) : FmaFmt F := by
  rcases h with rfl | rfl | rfl | rfl
  · exact absurd rfl h16
  · exact ⟨scaleFmt_f32, by decide, by decide⟩
  · exact ⟨scaleFmt_f64, by decide, by decide⟩
  · exact ⟨scaleFmt_f128, by decide, by decide⟩

/-! ## Bit patterns -/

theorem BV.or_bit {w : Nat} (hw : 0 < w) (y : BitVec w) (b : Bool) :
    (y ||| bit w b).toNat = if b then y.toNat / 2 * 2 + 1 else y.toNat := by
  unfold bit
  cases b
  · simp
  · simp only [if_true, BitVec.toNat_or]
    have h1 : (1#w).toNat = 1 := by
      rw [BitVec.toNat_ofNat]
      exact Nat.mod_eq_of_lt (Nat.one_lt_two_pow (by omega))
    rw [h1]
    have h2 := Nat.two_pow_add_eq_or_of_lt (i := 1) (b := 1) (by norm_num) (y.toNat / 2)
    have h3 : y.toNat ||| 1 = (2 * (y.toNat / 2)) ||| 1 := by
      apply Nat.eq_of_testBit_eq
      intro i
      rw [Nat.testBit_or, Nat.testBit_or]
      rcases i with _ | i
      · simp
      · have e1 : (1 : Nat).testBit (i + 1) = false := by
          rw [Nat.testBit_succ]; simp
        rw [e1, Bool.or_false, Bool.or_false, Nat.testBit_succ, Nat.testBit_succ]
        congr 1; omega
    rw [h3]
    rw [pow_one] at h2
    omega

theorem BV.bit_toNat {w : Nat} (hw : 0 < w) (b : Bool) : (bit w b).toNat = if b then 1 else 0 := by
  unfold bit
  cases b
  · simp
  · simp only [if_true, BitVec.toNat_ofNat]
    exact Nat.mod_eq_of_lt (Nat.one_lt_two_pow (by omega))

theorem BV.shl_ne_zero {w a : Nat} (x : BitVec w) (ha : a ≤ w) :
    (x <<< (w - a) != 0#w) = decide (x.toNat % 2 ^ a ≠ 0) := by
  have hp : (2 : Nat) ^ w = 2 ^ a * 2 ^ (w - a) := by rw [← pow_add]; congr 1; omega
  have e : (x <<< (w - a)).toNat = (x.toNat % 2 ^ a) * 2 ^ (w - a) := by
    rw [BV.shl, hp, Nat.mul_mod_mul_right]
  have h0 : x <<< (w - a) = 0#w ↔ x.toNat % 2 ^ a = 0 := by
    constructor
    · intro h
      rw [h] at e
      have := Nat.two_pow_pos (w - a)
      simp at e
      exact e
    · intro h
      apply BitVec.eq_of_toNat_eq
      rw [e, h]; simp
  rw [Bool.eq_iff_iff]
  simp only [bne_iff_ne, ne_eq, decide_eq_true_eq, h0]

theorem BV.sticky {w a : Nat} (x : BitVec w) (ha : a ≤ w) (hw : 0 < w) :
    ((x >>> a) ||| bit w (x <<< (w - a) != 0#w)).toNat = stk x.toNat a := by
  rw [BV.or_bit hw, BV.shl_ne_zero x ha, BV.shr]
  unfold stk
  by_cases h : x.toNat % 2 ^ a = 0
  · simp [h]
  · simp [h]

theorem BV.sticky_one {w : Nat} (x : BitVec w) (hw : 0 < w) :
    ((x >>> 1) ||| (x &&& 1#w)).toNat = stk x.toNat 1 := by
  have h1 : (1#w).toNat = 2 ^ 1 - 1 := by
    rw [BitVec.toNat_ofNat]
    exact Nat.mod_eq_of_lt (Nat.one_lt_two_pow (by omega))
  have h2 := BV.and_low (x := x) h1
  have h3 : x &&& 1#w = bit w (decide (x.toNat % 2 = 1)) := by
    apply BitVec.eq_of_toNat_eq
    rw [h2, BV.bit_toNat hw, pow_one]
    rcases Nat.mod_two_eq_zero_or_one x.toNat with h | h <;> simp [h]
  rw [h3, BV.or_bit hw, BV.shr]
  unfold stk
  rw [pow_one]
  rcases Nat.mod_two_eq_zero_or_one x.toNat with h | h <;> simp [h]

/-! ## The finishing stage rounds once -/

theorem fmaToFloat_eq (neg : Bool) (x : BitVec F.bits) (h0 : 0 < x.toNat) (h1 : x.toNat < 2 ^ (F.ew + F.sb)) :
    fmaToFloat neg x = roundMag F neg (x.toNat * F.oneMag) 1 := by
  have hi : x.toInt = (x.toNat : Int) := by
    rw [BitVec.toInt_eq_toNat_cond, if_pos]
    rw [F.two_pow_bits]; omega
  unfold fmaToFloat ofInt
  rw [hi]
  cases neg
  · simp only [Bool.false_eq_true, if_false]
    rw [if_neg (by omega), Int.natAbs_natCast]
    have : decide ((x.toNat : Int) < 0) = false := by simp
    rw [this]
  · simp only [if_true]
    rw [if_neg (by omega), Int.natAbs_neg, Int.natAbs_natCast]
    have : decide (-(x.toNat : Int) < 0) = true := by simp; omega
    rw [this]

/-- `n` in `[2^(sb+a), 2^(sb+a+1))`, converted to a float -/
theorem toFloat_mag (hF : FmaFmt F) (neg : Bool) {n a : Nat} (ha : a < F.ew) (h1 : 2 ^ (F.sb + a) ≤ n) (h2 : n < 2 ^ (F.sb + a + 1)) :
    (roundMag F neg (n * F.oneMag) 1).isFinite ∧
    (roundMag F neg (n * F.oneMag) 1).mag = rneDiv n (2 ^ a) * 2 ^ a * F.oneMag ∧
    2 ^ F.sb ≤ rneDiv n (2 ^ a) ∧ rneDiv n (2 ^ a) ≤ 2 ^ (F.sb + 1) := by
  have hfit := hF.fit
  have hom := oneMag_eq F
  have hR := rneDiv_bounds (n := n) (d := 2 ^ a) (a := 2 ^ F.sb) (b := 2 ^ (F.sb + 1)) (Nat.two_pow_pos _)
    (by rw [← pow_add]; exact h1) (by rw [← pow_add]; rw [show F.sb + 1 + a = F.sb + a + 1 by ring]; exact h2.le)
  have hu : roundU F.sb (n * F.oneMag) 1 = (a + (F.bias - 1 + F.sb)) * 2 ^ F.sb + rneDiv n (2 ^ a) := by
    rw [roundU_binade (k := a + (F.bias - 1 + F.sb)) one_pos]
    · congr 1
      rw [one_mul, pow_add, hom, rneDiv_scale _ _ _ (Nat.two_pow_pos _)]
    · rw [mul_one, ← Nat.add_assoc, pow_add, ← hom]; exact Nat.mul_le_mul_right _ h1
    · rw [mul_one, ← Nat.add_assoc, show F.sb + a + (F.bias - 1 + F.sb) + 1 = (F.sb + a + 1) + (F.bias - 1 + F.sb) by ring,
        pow_add, ← hom]
      exact Nat.mul_lt_mul_of_pos_right h2 F.oneMag_pos
  have hmag : magOf F.sb (roundU F.sb (n * F.oneMag) 1) = rneDiv n (2 ^ a) * 2 ^ a * F.oneMag := by
    rw [hu, magOf_split _ _ _ hR.2 (Or.inl hR.1), hom, pow_add, Nat.mul_assoc]
  have hlt : rneDiv n (2 ^ a) * 2 ^ a * F.oneMag < 2 ^ (2 * F.bias + F.sb) := by
    have h3 : rneDiv n (2 ^ a) * 2 ^ a ≤ 2 ^ (F.sb + a + 1) := by
      rw [show F.sb + a + 1 = (F.sb + 1) + a by ring, pow_add 2 (F.sb + 1)]
      exact Nat.mul_le_mul_right _ hR.2
    calc rneDiv n (2 ^ a) * 2 ^ a * F.oneMag ≤ 2 ^ (F.sb + a + 1) * F.oneMag := Nat.mul_le_mul_right _ h3
      _ = 2 ^ (F.sb + a + 1 + (F.bias - 1 + F.sb)) := by rw [hom, ← pow_add]
      _ < 2 ^ (2 * F.bias + F.sb) := Nat.pow_lt_pow_right (by norm_num) (by have := F.sb_lt_bias; omega)
  have hfin : roundU F.sb (n * F.oneMag) 1 < F.infEnc := by
    rw [← magOf_lt (sb := F.sb), hmag, F.magOf_infEnc]; exact hlt
  have hmb : (roundMag F neg (n * F.oneMag) 1).mb = roundU F.sb (n * F.oneMag) 1 := by
    rw [mb_roundMag, min_eq_left hfin.le]
  refine ⟨?_, ?_, hR⟩
  · rw [isFinite_iff, hmb]; exact hfin
  · unfold mag; rw [hmb, hmag]

/-- a significand `n` in `[2^(sb+a), 2^(sb+a+1))` rounded at exponent `E ≥ -a` -/
theorem scaled_normal (neg : Bool) {n a : Nat} (h1 : 2 ^ (F.sb + a) ≤ n) (h2 : n < 2 ^ (F.sb + a + 1))
    {E : Int} (hE : -(a : Int) ≤ E) :
    scaled F neg n E = scaled F neg (rneDiv n (2 ^ a) * 2 ^ a) E := by
  have hR := rneDiv_bounds (n := n) (d := 2 ^ a) (a := 2 ^ F.sb) (b := 2 ^ (F.sb + 1)) (Nat.two_pow_pos _)
    (by rw [← pow_add]; exact h1) (by rw [← pow_add]; rw [show F.sb + 1 + a = F.sb + a + 1 by ring]; exact h2.le)
  unfold scaled roundMag
  congr 2
  have hd := Nat.two_pow_pos (-E).toNat
  have hk : (E + a).toNat + (-E).toNat = E.toNat + a := by omega
  have e1 : roundU F.sb (n * 2 ^ E.toNat) (2 ^ (-E).toNat) = (E + a).toNat * 2 ^ F.sb + rneDiv n (2 ^ a) := by
    rw [roundU_binade (k := (E + a).toNat) hd]
    · congr 1
      rw [← pow_add, Nat.add_comm (-E).toNat, hk, pow_add, Nat.mul_comm (2 ^ E.toNat) (2 ^ a),
        rneDiv_scale _ _ _ (Nat.two_pow_pos _)]
    · rw [← pow_add, Nat.add_assoc, hk, show F.sb + (E.toNat + a) = (F.sb + a) + E.toNat by ring, pow_add]
      exact Nat.mul_le_mul_right _ h1
    · rw [← pow_add, show F.sb + (E + a).toNat + 1 + (-E).toNat = (F.sb + a + 1) + E.toNat by omega, pow_add]
      exact Nat.mul_lt_mul_of_pos_right h2 (Nat.two_pow_pos _)
  have e2 : roundU F.sb (rneDiv n (2 ^ a) * 2 ^ a * 2 ^ E.toNat) (2 ^ (-E).toNat) =
      (E + a).toNat * 2 ^ F.sb + rneDiv n (2 ^ a) := by
    apply roundU_exact' F.one_le_sb _ _ _ hd
    rw [magOf_split _ _ _ hR.2 (Or.inl hR.1), Nat.mul_assoc, Nat.mul_assoc, ← pow_add, ← pow_add, hk]
    congr 2; omega
  rw [e1, e2]

theorem scaled_oneMag (neg : Bool) (n : Nat) (e : Int) :
    scaled F neg (n * F.oneMag) e = scaled F neg n (e + (F.bias - 1 + F.sb : ℕ)) := by
  unfold scaled
  apply roundMag_scale (Nat.two_pow_pos _) (Nat.two_pow_pos _)
  rw [oneMag_eq, Nat.mul_assoc, Nat.mul_assoc, Nat.mul_assoc, ← pow_add, ← pow_add, ← pow_add]
  congr 2; omega

/-- rounding at an exponent so small that the result is subnormal -/
theorem scaled_sub (neg : Bool) {n : Nat} {E : Nat} (h : n < 2 ^ (F.sb + 1 + E)) :
    scaled F neg n (-(E : Int)) = mk' F neg (min (rneDiv n (2 ^ E)) F.infEnc) := by
  unfold scaled roundMag
  have e1 : (-(E : Int)).toNat = 0 := by omega
  have e2 : (- -(E : Int)).toNat = E := by omega
  rw [e1, e2, pow_zero, mul_one, roundU_sub (Nat.two_pow_pos _) (by rw [← pow_add]; exact h)]

theorem fmaFinish_spec (hF : FmaFmt F) (neg : Bool) (x : BitVec F.bits) (e : Int)
    (h1 : 2 ^ (F.ew + F.sb - 1) ≤ x.toNat) (h2 : x.toNat < 2 ^ (F.ew + F.sb))
    (he1 : -2 ^ 30 ≤ e) (he2 : e < 2 ^ 30) :
    ∃ st, fmaFinish neg x e = some ⟨scaled F neg x.toNat (e + (F.bias - 1 + F.sb : ℕ)), st⟩ := by
  have hew := F.hew
  have hsb := F.hsb
  have hfit := hF.fit
  have hbl := F.sb_lt_bias
  have hbits : F.bits - 1 = F.ew + F.sb := bits_sub_one F
  have hbb := F.bits_eq
  have hx0 : 0 < x.toNat := lt_of_lt_of_le (Nat.two_pow_pos _) h1
  obtain ⟨a, ha⟩ : ∃ a, F.ew = a + 1 := ⟨F.ew - 1, by omega⟩
  have h1' : 2 ^ (F.sb + a) ≤ x.toNat := by rw [show F.sb + a = F.ew + F.sb - 1 by omega]; exact h1
  have h2' : x.toNat < 2 ^ (F.sb + a + 1) := by rw [show F.sb + a + 1 = F.ew + F.sb by omega]; exact h2
  obtain ⟨rf, rm, R1, R2⟩ := toFloat_mag hF neg (by omega) h1' h2'
  have hr := fmaToFloat_eq neg x hx0 h2
  have sc : ∀ y : Flt F, y.isFinite → scalbn y e = some (scaled F y.sign y.mag e) := fun y hy =>
    scalbn_core hF.scale y hy e (by omega) (by omega)
  unfold fmaFinish
  simp only [expBias_eq, hbits]
  by_cases c1 : e < -(((F.ew + F.sb + F.bias : ℕ) : Int) - 2)
  · rw [if_pos c1]
    by_cases c2 : e = -(((F.ew + F.sb + F.bias : ℕ) : Int) - 1)
    · rw [if_pos c2]
      have hE : e + (F.bias - 1 + F.sb : ℕ) = -(F.ew : Int) := by omega
      rw [hE]
      -- the constant `c`
      obtain ⟨cf, cs, cm⟩ := fromParts_pow (F := F) (e := F.ew + F.sb + F.bias) (by omega)
        (by have := F.two_bias; omega)
      have cm' : (fromParts F false (F.ew + F.sb + F.bias) 0#_).mag = 2 ^ (F.ew + F.sb) * F.oneMag := by
        rw [cm, oneMag_eq, ← pow_add]; congr 1; omega
      obtain ⟨c, hc⟩ : ∃ c : Flt F, c = if neg then -fromParts F false (F.ew + F.sb + F.bias) 0#_
        else fromParts F false (F.ew + F.sb + F.bias) 0#_ := ⟨_, rfl⟩
      have c_f : c.isFinite := by rw [hc]; split <;> simp [cf]
      have c_s : c.sign = neg := by rw [hc]; cases neg <;> simp [cs]
      have c_m : c.mag = 2 ^ (F.ew + F.sb) * F.oneMag := by rw [hc]; split <;> simp [cm']
      rw [← hc]
      -- the target
      have htgt := scaled_sub (F := F) neg (n := x.toNat) (E := F.ew)
        (by rw [show F.sb + 1 + F.ew = F.ew + F.sb + 1 by omega, pow_succ]; omega)
      obtain ⟨T1, T2⟩ := rneDiv_bounds (n := x.toNat) (d := 2 ^ F.ew) (a := 0) (b := 2 ^ F.sb) (Nat.two_pow_pos _)
        (by omega) (by rw [← pow_add, Nat.add_comm]; omega)
      have hinf : 2 ^ F.sb < F.infEnc := by
        have := F.infEnc_eq
        rw [this]
        have := Nat.two_pow_pos F.sb
        nlinarith
      rw [min_eq_left (by omega)] at htgt
      rw [htgt, hr]
      have hsval : ((roundMag F neg (x.toNat * F.oneMag) 1) =ᶠ c) = true ↔ rneDiv x.toNat (2 ^ a) = 2 ^ (F.sb + 1) := by
        rw [feq_iff]
        have : (roundMag F neg (x.toNat * F.oneMag) 1).sval = c.sval ↔
            (roundMag F neg (x.toNat * F.oneMag) 1).mag = c.mag := by
          unfold sval
          rw [sign_roundMag, c_s]
          cases neg <;> simp
        rw [this, rm, c_m]
        have hp : 2 ^ (F.ew + F.sb) = 2 ^ (F.sb + 1) * 2 ^ a := by rw [← pow_add]; congr 1; omega
        constructor
        · rintro ⟨-, -, h⟩
          rw [hp] at h
          exact Nat.eq_of_mul_eq_mul_right (Nat.two_pow_pos a) (Nat.eq_of_mul_eq_mul_right F.oneMag_pos h)
        · intro h
          exact ⟨not_nan_of_finite rf, not_nan_of_finite c_f, by rw [h, hp]⟩
      by_cases c3 : ((roundMag F neg (x.toNat * F.oneMag) 1) =ᶠ c) = true
      · rw [if_pos c3]
        refine ⟨Status.OK.setUnderflow true, ?_⟩
        congr 2
        rw [copysign_eq, sign_roundMag]
        have hmb : (minPositiveNormal F).mb = 2 ^ F.sb := by
          obtain ⟨-, a2, a3⟩ := minPositiveNormal_spec (F := F)
          have h3 : (minPositiveNormal F).enc = 2 ^ F.sb := BV.one_shl (by omega)
          unfold mb; rw [h3]; exact Nat.mod_eq_of_lt (Nat.pow_lt_pow_right (by norm_num) (by omega))
        rw [hmb]
        congr 1
        have hR := hsval.mp c3
        have s1 := rneDiv_spec x.toNat (2 ^ a) (Nat.two_pow_pos _)
        have s2 := rneDiv_spec x.toNat (2 ^ F.ew) (Nat.two_pow_pos _)
        simp only at s1 s2
        rw [hR] at s1
        by_contra hne
        have hlt : rneDiv x.toNat (2 ^ F.ew) + 1 ≤ 2 ^ F.sb := by omega
        have e1 : 2 ^ F.ew = 2 * 2 ^ a := by rw [ha, pow_succ]; ring
        have e2 : 2 ^ (F.sb + 1) = 2 * 2 ^ F.sb := by rw [pow_succ]; ring
        have hpa := Nat.two_pow_pos a
        rw [e2] at s1
        rw [e1] at s2 hlt
        generalize rneDiv x.toNat (2 * 2 ^ a) = T at *
        have h5 : 2 * T + 1 ≤ 2 * 2 ^ F.sb - 1 := by omega
        have h6 : (2 * T + 1) * (2 * 2 ^ a) ≤ (2 * 2 ^ F.sb - 1) * (2 * 2 ^ a) := Nat.mul_le_mul_right _ h5
        have h7 : (2 * 2 ^ F.sb - 1) * (2 * 2 ^ a) + 2 ^ a = (2 * (2 * 2 ^ F.sb) - 1) * 2 ^ a := by
          have := Nat.two_pow_pos F.sb
          obtain ⟨q, hq⟩ : ∃ q, 2 ^ F.sb = q + 1 := ⟨2 ^ F.sb - 1, by omega⟩
          rw [hq]
          have i1 : 2 * (q + 1) - 1 = 2 * q + 1 := by omega
          have i2 : 2 * (2 * (q + 1)) - 1 = 4 * q + 3 := by omega
          rw [i1, i2]; ring
        have s1' := s1.2.2.1
        have s2' := s2.2.1.1
        have h8 : (2 * (2 * 2 ^ F.sb) - 1) * 2 ^ a = 2 * (2 * 2 ^ F.sb) * 2 ^ a - 2 ^ a := by
          rw [Nat.sub_mul, one_mul]
        omega
      · rw [if_neg c3]
        have c4iff : x <<< (F.sb + 1) ≠ 0#F.bits ↔ x.toNat % 2 ^ F.ew ≠ 0 := by
          have := BV.shl_ne_zero x (a := F.ew) (by omega)
          rw [show F.bits - F.ew = F.sb + 1 by omega] at this
          rw [Bool.eq_iff_iff] at this
          simpa using this
        by_cases c4 : x <<< (F.sb + 1) ≠ 0#F.bits
        · rw [if_pos c4]
          obtain ⟨iu, hiu⟩ : ∃ iu : BitVec F.bits, iu = x >>> 1 ||| (x &&& 1#F.bits) ||| (1#F.bits <<< (F.bits - 2)) :=
            ⟨_, rfl⟩
          rw [← hiu]
          have hst := BV.sticky_one x (by omega)
          have hsl := stk_hi x.toNat 1
          have hpw : 2 ^ (F.ew + F.sb) = 2 * 2 ^ (F.sb + a) := by
            rw [show F.ew + F.sb = (F.sb + a) + 1 by omega, pow_succ]; ring
          have heven : 2 ^ (F.sb + a) % 2 = 0 := by
            obtain ⟨q, hq⟩ : ∃ q, F.sb + a = q + 1 := ⟨F.sb + a - 1, by omega⟩
            rw [hq, pow_succ]; omega
          have hslt : stk x.toNat 1 < 2 ^ (F.sb + a) := by
            rw [pow_one] at hsl
            rw [hpw] at h2
            omega
          have hiuN : iu.toNat = 2 ^ (F.sb + a) + stk x.toNat 1 := by
            rw [hiu, BitVec.toNat_or, Nat.or_comm, ← BitVec.toNat_or]
            have hone : (1#F.bits <<< (F.bits - 2)).toNat = 2 ^ (F.sb + a) := by
              rw [BV.one_shl (by omega)]; congr 1; omega
            rw [BV.or_disjoint (k := F.sb + a) (by rw [hone]) (by rw [hst]; exact hslt), hone, hst]
          have i1 : 2 ^ (F.sb + a) ≤ iu.toNat := by rw [hiuN]; omega
          have i2 : iu.toNat < 2 ^ (F.sb + a + 1) := by rw [hiuN, pow_succ]; omega
          obtain ⟨jf, jm, J1, J2⟩ := toFloat_mag hF neg (by omega) i1 i2
          have hR' : rneDiv iu.toNat (2 ^ a) = 2 ^ F.sb + rneDiv x.toNat (2 ^ F.ew) := by
            rw [hiuN, pow_add, rneDiv_add _ _ _ (Nat.two_pow_pos _) (Nat.mod_eq_zero_of_dvd F.two_dvd_pow_sb),
              rneDiv_stk _ _ _ (by omega)]
            rw [ha, pow_succ 2 a, Nat.mul_comm (2 ^ a), pow_one]
          rw [fmaToFloat_eq neg iu (by omega) (by rw [hiuN, hpw]; omega)]
          have T0 : 0 < rneDiv x.toNat (2 ^ F.ew) := by
            have := (rneDiv_bounds (n := x.toNat) (d := 2 ^ F.ew) (a := 1) (b := 2 ^ F.sb) (Nat.two_pow_pos _)
              (by rw [one_mul]; exact (Nat.pow_le_pow_right (by norm_num) (by omega)).trans h1)
              (by rw [← pow_add, Nat.add_comm]; omega)).1
            omega
          obtain ⟨T, hT⟩ : ∃ T, T = rneDiv x.toNat (2 ^ F.ew) := ⟨_, rfl⟩
          rw [← hT] at hR' T0 T2 ⊢
          obtain ⟨j, hj⟩ : ∃ j, j = roundMag F neg (iu.toNat * F.oneMag) 1 := ⟨_, rfl⟩
          rw [← hj] at jf jm ⊢
          have js : j.sign = neg := by rw [hj, sign_roundMag]
          have hewp : 2 ^ F.ew = 2 * 2 ^ a := by rw [ha, pow_succ]; ring
          -- the constant 2
          have two_f : (ofInt F 2).isFinite ∧ (ofInt F 2).sign = false ∧ (ofInt F 2).mag = 2 * F.oneMag := by
            have := roundMag_rep (F := F) (s := false) (n := 2 * F.oneMag) (d := 1) (m := 2 * F.oneMag) one_pos
              (by rw [oneMag_eq]; exact rep_mul_pow F.sb 2 _ (by rw [pow_succ]; have := Nat.two_pow_pos F.sb; omega))
              (by have := oneMag_lt_inf F 1 (by omega); simpa using this) (by simp)
            unfold ofInt
            simpa using this
          -- the doubled value
          have hprod : ofInt F 2 * j = roundMag F neg ((2 ^ F.sb + T) * 2 ^ (a + 1) * F.oneMag) 1 := by
            rw [mul_finite two_f.1 jf, two_f.2.1, two_f.2.2, jm, js, Bool.false_xor, hR']
            apply roundMag_scale F.oneMag_pos one_pos
            rw [pow_succ]; ring
          have big : ∀ r : Nat, r ≤ 2 ^ (F.sb + 1) → ∃ b, magOf F.sb b = r * 2 ^ (a + 1) * F.oneMag := by
            intro r hr
            obtain ⟨b, hb⟩ := rep_mul_pow F.sb r (a + 1 + (F.bias - 1 + F.sb)) hr
            exact ⟨b, by rw [hb, oneMag_eq, pow_add, Nat.mul_assoc]⟩
          have bigl : ∀ r : Nat, r ≤ 2 ^ (F.sb + 1) → r * 2 ^ (a + 1) * F.oneMag < 2 ^ (2 * F.bias + F.sb) := by
            intro r hr
            calc r * 2 ^ (a + 1) * F.oneMag ≤ 2 ^ (F.sb + 1) * 2 ^ (a + 1) * F.oneMag :=
                  Nat.mul_le_mul_right _ (Nat.mul_le_mul_right _ hr)
              _ = 2 ^ (F.sb + 1 + (a + 1) + (F.bias - 1 + F.sb)) := by rw [oneMag_eq, ← pow_add, ← pow_add]
              _ < 2 ^ (2 * F.bias + F.sb) := Nat.pow_lt_pow_right (by norm_num) (by omega)
          obtain ⟨p1, p2, p3⟩ := roundMag_rep (F := F) (s := neg) (d := 1) one_pos (big (2 ^ F.sb + T) (by rw [pow_succ]; omega))
            (bigl _ (by rw [pow_succ]; omega)) (mul_one _).symm
          rw [← hprod] at p1 p2 p3
          have hsub : ofInt F 2 * j - c = roundMag F neg (T * 2 ^ (a + 1) * F.oneMag) 1 := by
            rw [sub_eq_add_neg', add_opp p1 (by simpa using c_f) (by rw [sign_neg, c_s, p2])
              (by rw [mag_neg, c_m, p3, show F.ew + F.sb = F.sb + (a + 1) by omega, pow_add]
                  apply Nat.mul_lt_mul_of_pos_right _ F.oneMag_pos
                  exact Nat.mul_lt_mul_of_pos_right (by omega) (Nat.two_pow_pos _))]
            rw [p2, p3, mag_neg, c_m]
            congr 1
            rw [show F.ew + F.sb = F.sb + (a + 1) by omega, pow_add 2 F.sb, ← Nat.sub_mul, ← Nat.sub_mul]
            congr 2; omega
          obtain ⟨q1, q2, q3⟩ := roundMag_rep (F := F) (s := neg) (d := 1) one_pos (big T (by rw [pow_succ]; omega))
            (bigl _ (by rw [pow_succ]; omega)) (mul_one _).symm
          rw [hsub, sc _ q1, q2, q3, scaled_oneMag, hE, ← ha]
          refine ⟨Status.OK.setUnderflow true, ?_⟩
          rw [Option.map_some]
          congr 2
          rw [scaled_sub neg (by rw [pow_add, pow_succ]; apply Nat.mul_lt_mul_of_pos_right _ (Nat.two_pow_pos _); have := Nat.two_pow_pos F.sb; omega),
            rneDiv_dvd _ _ (Nat.two_pow_pos _), min_eq_left (by omega)]
        · rw [if_neg c4, sc _ rf]
          refine ⟨Status.OK, ?_⟩
          have h0 : x.toNat % 2 ^ F.ew = 0 := by
            by_contra h; exact c4 (c4iff.mpr h)
          have hd : 2 ^ a ∣ x.toNat := (Nat.pow_dvd_pow 2 (by omega)).trans (Nat.dvd_of_mod_eq_zero h0)
          obtain ⟨q, hq⟩ := hd
          have e3 : rneDiv x.toNat (2 ^ a) * 2 ^ a = x.toNat := by
            rw [hq, Nat.mul_comm (2 ^ a) q, rneDiv_dvd _ _ (Nat.two_pow_pos _)]
          rw [sign_roundMag, rm, e3, scaled_oneMag, hE, htgt]
          rfl
    · rw [if_neg c2]
      obtain ⟨k, hk⟩ : ∃ k : Nat, e + (F.bias - 1 + F.sb : ℕ) = -(k : Int) := ⟨(-(e + (F.bias - 1 + F.sb : ℕ))).toNat, by omega⟩
      have hka : a + 2 ≤ k := by omega
      rw [hk, scaled_sub neg (h2.trans_le (Nat.pow_le_pow_right (by norm_num) (by omega)))]
      rw [show F.ew - 1 = a by omega]
      obtain ⟨i, hi⟩ : ∃ i : BitVec F.bits, i = (x >>> a ||| bit F.bits (x <<< (F.bits - a) != 0#F.bits)) <<< a := ⟨_, rfl⟩
      rw [← hi]
      have hst := BV.sticky x (a := a) (by omega) (by omega)
      have sl := stk_lo x.toNat a
      have sh := stk_hi x.toNat a
      have d1 : 2 ^ F.sb ≤ x.toNat / 2 ^ a := by
        rw [Nat.le_div_iff_mul_le (Nat.two_pow_pos _), ← pow_add]; exact h1'
      have d2 : x.toNat / 2 ^ a < 2 * 2 ^ F.sb := by
        rw [Nat.div_lt_iff_lt_mul (Nat.two_pow_pos _), ← pow_succ', ← pow_add, show F.sb + 1 + a = F.sb + a + 1 by omega]; exact h2'
      have hev := Nat.mod_eq_zero_of_dvd F.two_dvd_pow_sb
      generalize hS : stk x.toNat a = S at *
      have S1 : 2 ^ F.sb ≤ S := by omega
      have S2 : S < 2 * 2 ^ F.sb := by omega
      have hpw : 2 ^ (F.sb + a + 1) = 2 * 2 ^ F.sb * 2 ^ a := by rw [pow_succ, pow_add]; ring
      have hiN : i.toNat = S * 2 ^ a := by
        rw [hi, BV.shl, hst, Nat.mod_eq_of_lt]
        have : S * 2 ^ a < 2 * 2 ^ F.sb * 2 ^ a := Nat.mul_lt_mul_of_pos_right S2 (Nat.two_pow_pos _)
        rw [← hpw, show F.sb + a + 1 = F.ew + F.sb by omega] at this
        rw [F.two_pow_bits]; omega
      have i1 : 2 ^ (F.sb + a) ≤ i.toNat := by rw [hiN, pow_add]; exact Nat.mul_le_mul_right _ S1
      have i2 : i.toNat < 2 ^ (F.sb + a + 1) := by
        rw [hiN, hpw]; exact Nat.mul_lt_mul_of_pos_right S2 (Nat.two_pow_pos _)
      obtain ⟨jf, jm, J1, J2⟩ := toFloat_mag hF neg (by omega) i1 i2
      rw [fmaToFloat_eq neg i (lt_of_lt_of_le (Nat.two_pow_pos _) i1) (by rw [show F.ew + F.sb = F.sb + a + 1 by omega]; exact i2), sc _ jf]
      refine ⟨Status.OK, ?_⟩
      rw [sign_roundMag, jm, hiN, rneDiv_dvd _ _ (Nat.two_pow_pos _), scaled_oneMag, hk,
        scaled_sub neg (by rw [← hiN]; exact i2.trans_le (Nat.pow_le_pow_right (by norm_num) (by omega)))]
      have : rneDiv (S * 2 ^ a) (2 ^ k) = rneDiv x.toNat (2 ^ k) := by
        rw [show k = (k - a) + a by omega, pow_add, rneDiv_scale _ _ _ (Nat.two_pow_pos _), ← hS,
          rneDiv_stk _ _ _ (by omega), Nat.mul_comm]
      rw [this]
      rfl
  · rw [if_neg c1, hr, sc _ rf]
    refine ⟨Status.OK, ?_⟩
    rw [sign_roundMag, rm, scaled_oneMag, ← scaled_normal neg h1' h2' (by omega)]
    rfl

end Verif
