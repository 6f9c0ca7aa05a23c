import Verif.Theory.Sqrt5

/-! # sqrt: range reduction -/

namespace Verif.Sqrt
open Verif Generic Flt

variable {F : Fmt}

/-- the reduced mantissa for significand `2^sb + f` and an exponent of parity `p` -/
def mant (F : Fmt) (p f : ℕ) : ℕ := (2 ^ F.sb + f) * 2 ^ (F.ew - p)

theorem mant_idx {A f : ℕ} (hf : f < 2 ^ F.sb) :
    (A * 2 ^ F.sb + f) / 2 ^ (F.sb - 6) % 128 = idx F.bits (mant F (A % 2) f) := by
  have hsb := F.hsb
  have hew := F.hew
  have hb := F.bits_eq
  have e6 : 2 ^ F.sb = 64 * 2 ^ (F.sb - 6) := by
    rw [show (64 : ℕ) = 2 ^ 6 by norm_num, ← pow_add]; congr 1; omega
  have hP := Nat.two_pow_pos (F.sb - 6)
  have hg : f / 2 ^ (F.sb - 6) < 64 := by
    rw [Nat.div_lt_iff_lt_mul hP, ← e6]; exact hf
  have d1 : (A * 2 ^ F.sb + f) / 2 ^ (F.sb - 6) = A * 64 + f / 2 ^ (F.sb - 6) := by
    rw [e6, ← mul_assoc, add_comm, Nat.add_mul_div_right _ _ hP, add_comm]
  have d2 : (2 ^ F.sb + f) / 2 ^ (F.sb - 6) = 64 + f / 2 ^ (F.sb - 6) := by
    have := d1
    rw [e6, add_comm, Nat.add_mul_div_right _ _ hP, add_comm]
  rw [d1]
  unfold idx mant
  have hlt2 : 2 ^ F.sb + f < 2 ^ (F.sb + 1) := by rw [pow_succ]; omega
  rcases Nat.mod_two_eq_zero_or_one A with h | h <;> rw [h]
  · rw [if_neg, Nat.sub_zero, show F.bits - 7 = F.sb - 6 + F.ew by omega, pow_add,
      Nat.mul_div_mul_right _ _ (Nat.two_pow_pos _), d2]
    · generalize f / 2 ^ (F.sb - 6) = g at *; omega
    · push Not
      rw [show F.bits - 1 = F.sb + F.ew by omega, pow_add]
      exact Nat.mul_le_mul_right _ (by omega)
  · rw [if_pos, show F.bits - 8 = F.sb - 6 + (F.ew - 1) by omega, pow_add,
      Nat.mul_div_mul_right _ _ (Nat.two_pow_pos _), d2]
    · generalize f / 2 ^ (F.sb - 6) = g at *; omega
    · rw [show F.bits - 1 = F.sb + 1 + (F.ew - 1) by omega, pow_add]
      exact Nat.mul_lt_mul_of_pos_right hlt2 (Nat.two_pow_pos _)

theorem mant_bounds {p f : ℕ} (hp : p ≤ 1) (hf : f < 2 ^ F.sb) :
    2 ^ (F.bits - 2) ≤ mant F p f ∧ mant F p f + 2 ^ F.ew ≤ 2 ^ F.bits := by
  have hew := F.hew
  have hb := F.bits_eq
  unfold mant
  constructor
  · calc 2 ^ (F.bits - 2) ≤ 2 ^ (F.sb + (F.ew - p)) := Nat.pow_le_pow_right (by norm_num) (by omega)
      _ = 2 ^ F.sb * 2 ^ (F.ew - p) := pow_add _ _ _
      _ ≤ _ := Nat.mul_le_mul_right _ (by omega)
  · have h1 : (2 ^ F.sb + f) * 2 ^ (F.ew - p) ≤ (2 ^ F.sb + f) * 2 ^ F.ew :=
      Nat.mul_le_mul_left _ (Nat.pow_le_pow_right (by norm_num) (by omega))
    have h2 : (2 ^ F.sb + f + 1) * 2 ^ F.ew ≤ 2 ^ (F.sb + 1) * 2 ^ F.ew :=
      Nat.mul_le_mul_right _ (by rw [pow_succ]; omega)
    rw [← pow_add, show F.sb + 1 + F.ew = F.bits by omega, add_mul, one_mul] at h2
    omega

/-- `EXP_MASK ^ (SIGN_MASK >> 1)` is the bias in place -/
theorem bias_mask : ((expMask F ^^^ (signMask F >>> 1)) >>> 1).toNat = F.bias * 2 ^ (F.sb - 1) := by
  have hb := F.bits_eq
  have hew := F.hew
  have hsb := F.hsb
  have h1 : (expMask F ^^^ (signMask F >>> 1)).toNat = F.bias * 2 ^ F.sb := by
    rw [BitVec.toNat_xor, toNat_expMask, BV.shr, toNat_signMask, F.infEnc_eq]
    have e : 2 ^ (F.ew + F.sb) / 2 ^ 1 = 2 ^ (F.ew - 1 + F.sb) := by
      rw [Nat.pow_div (by omega) (by norm_num)]; congr 1; omega
    rw [e]
    have hbias := F.bias_succ
    have e2 : (2 * F.bias + 1) * 2 ^ F.sb = 2 ^ (F.ew - 1 + F.sb) + F.bias * 2 ^ F.sb := by
      rw [pow_add, ← hbias]; ring
    have hlt : F.bias * 2 ^ F.sb < 2 ^ (F.ew - 1 + F.sb) := by
      rw [pow_add, ← hbias]; exact Nat.mul_lt_mul_of_pos_right (by omega) (Nat.two_pow_pos _)
    rw [e2, ← mul_one (2 ^ (F.ew - 1 + F.sb)), Nat.two_pow_add_eq_or_of_lt hlt, mul_one]
    apply Nat.eq_of_testBit_eq
    intro i
    rw [Nat.testBit_xor, Nat.testBit_or, Nat.testBit_two_pow]
    by_cases hi : F.ew - 1 + F.sb = i
    · subst hi
      simp [Nat.testBit_lt_two_pow hlt]
    · simp [hi]
  rw [BV.shr, h1]
  rw [show F.sb = (F.sb - 1) + 1 by omega, pow_succ, pow_one, ← mul_assoc, Nat.mul_div_cancel _ (by norm_num)]
  simp

theorem reduce_noshift {ix : BitVec F.bits} {A f er : ℕ} (hix : ix.toNat = A * 2 ^ F.sb + f) (hf : f < 2 ^ F.sb)
    (her : (A + F.bias) / 2 % 2 ^ F.ew = er) :
    ∃ m exp, sqrtReduce ix none = some (m, exp) ∧ m.toNat = mant F (A % 2) f ∧ ExpIs exp er := by
  have hb := F.bits_eq
  have hew := F.hew
  have hsb := F.hsb
  have hA : A < 2 ^ (F.ew + 1) := by
    have h := ix.isLt
    rw [hix] at h
    by_contra hc
    push Not at hc
    have h1 : 2 ^ (F.ew + 1) * 2 ^ F.sb ≤ A * 2 ^ F.sb := Nat.mul_le_mul_right _ hc
    rw [← pow_add, show F.ew + 1 + F.sb = F.bits by omega] at h1
    omega
  have hs1 : 2 ^ F.sb = 2 * 2 ^ (F.sb - 1) := by rw [← pow_succ', Nat.sub_add_cancel (by omega)]
  have hsum : (ix >>> 1).toNat + ((expMask F ^^^ (signMask F >>> 1)) >>> 1).toNat =
      (A + F.bias) * 2 ^ (F.sb - 1) + f / 2 := by
    rw [bias_mask, BV.shr, hix, hs1, pow_one, show A * (2 * 2 ^ (F.sb - 1)) + f = f + (A * 2 ^ (F.sb - 1)) * 2 by ring,
      Nat.add_mul_div_right _ _ (by norm_num)]
    ring
  have hfit : (A + F.bias) * 2 ^ (F.sb - 1) + f / 2 < 2 ^ F.bits := by
    have hbias := F.bias_succ
    have e2 : 2 ^ (F.ew + 1) = 4 * 2 ^ (F.ew - 1) := by
      rw [show F.ew + 1 = F.ew - 1 + 2 by omega, pow_add]; ring
    have h1 : (A + F.bias + 1) * 2 ^ (F.sb - 1) ≤ (8 * 2 ^ (F.ew - 1)) * 2 ^ (F.sb - 1) :=
      Nat.mul_le_mul_right _ (by omega)
    rw [show 8 * 2 ^ (F.ew - 1) * 2 ^ (F.sb - 1) = 2 ^ F.bits by
      rw [show (8 : ℕ) = 2 ^ 3 by norm_num, ← pow_add, ← pow_add]; congr 1; omega] at h1
    rw [add_mul, one_mul] at h1
    omega
  have hexp : (((ix >>> 1) + ((expMask F ^^^ (signMask F >>> 1)) >>> 1)) &&& expMask F).toNat = er * 2 ^ F.sb := by
    rw [and_expMask, BitVec.toNat_add, hsum, Nat.mod_eq_of_lt hfit, F.two_pow_es]
    have key : (A + F.bias) * 2 ^ (F.sb - 1) + f / 2 =
        2 ^ F.sb * ((A + F.bias) / 2) + ((A + F.bias) % 2 * 2 ^ (F.sb - 1) + f / 2) := by
      conv_lhs => rw [← Nat.div_add_mod (A + F.bias) 2]
      rw [hs1]; ring
    have hr : (A + F.bias) % 2 * 2 ^ (F.sb - 1) + f / 2 < 2 ^ F.sb := by
      have : (A + F.bias) % 2 * 2 ^ (F.sb - 1) ≤ 1 * 2 ^ (F.sb - 1) := Nat.mul_le_mul_right _ (by omega)
      omega
    rw [key]
    generalize (A + F.bias) % 2 * 2 ^ (F.sb - 1) + f / 2 = c at *
    rw [Nat.mul_add_mod, Nat.mod_eq_of_lt hr, mul_comm (2 ^ F.ew), Nat.mod_mul, Nat.mul_add_mod, Nat.mod_eq_of_lt hr,
      Nat.mul_add_div (Nat.two_pow_pos _), Nat.div_eq_of_lt hr, add_zero, her, mul_comm]
    omega
  have heven : (ix &&& (1#_ <<< F.sb) ≠ 0#_) ↔ A % 2 = 1 := by
    have : A % 2 = 1 ↔ ix.toNat.testBit F.sb = true := by
      rw [Nat.testBit_eq_decide_div_mod_eq, hix, add_comm, Nat.add_mul_div_right _ _ (Nat.two_pow_pos _),
        Nat.div_eq_of_lt hf]
      simp
    rw [this, BitVec.testBit_toNat]
    rw [Ne, BitVec.eq_of_getLsbD_eq_iff]
    push Not
    constructor
    · rintro ⟨i, hi, h⟩
      simp only [BitVec.getLsbD_and, BitVec.getLsbD_zero] at h
      rw [Ne, Bool.not_eq_false, Bool.and_eq_true] at h
      obtain ⟨h1, h2⟩ := h
      have : i = F.sb := by
        rw [BitVec.getLsbD_shiftLeft] at h2
        simp at h2
        omega
      rwa [this] at h1
    · intro h
      refine ⟨F.sb, by omega, ?_⟩
      simp only [BitVec.getLsbD_and, BitVec.getLsbD_zero, h, BitVec.getLsbD_shiftLeft]
      simp
      omega
  have hmod : ix.toNat % 2 ^ (F.sb + 1) = A % 2 * 2 ^ F.sb + f := by
    rw [hix, pow_succ, Nat.mod_mul]
    rw [Nat.mul_comm A, Nat.mul_add_mod, Nat.mod_eq_of_lt hf, Nat.mul_add_div (Nat.two_pow_pos _), Nat.div_eq_of_lt hf, Nat.add_zero]
    ring
  have hchk : chkAdd (ix >>> 1) ((expMask F ^^^ (signMask F >>> 1)) >>> 1) =
      some ((ix >>> 1) + ((expMask F ^^^ (signMask F >>> 1)) >>> 1)) := by
    unfold chkAdd; rw [if_pos (by rw [hsum]; exact hfit)]
  unfold sqrtReduce
  simp only [hchk, Option.map_some]
  refine ⟨_, _, rfl, ?_, hexp⟩
  rcases Nat.mod_two_eq_zero_or_one A with h | h
  · rw [if_neg (by rw [heven]; omega), h]
    have hm : (ix <<< F.ew).toNat = f * 2 ^ F.ew := by
      rw [BV.shl, show 2 ^ F.bits = 2 ^ (F.sb + 1) * 2 ^ F.ew by rw [← pow_add]; congr 1; omega, Nat.mul_mod_mul_right, hmod, h]
      ring
    rw [BitVec.or_comm, BV.or_disjoint (k := F.ew + F.sb), hm, toNat_signMask]
    · unfold mant; rw [Nat.sub_zero, pow_add]; ring
    · rw [toNat_signMask]
    · rw [hm, pow_add, mul_comm]; exact Nat.mul_lt_mul_of_pos_left hf (Nat.two_pow_pos _)
  · rw [if_pos (by rw [heven]; omega), h, and_not_signMask, BV.shl]
    rw [Nat.mod_mod_of_dvd _ (pow_dvd_pow 2 (by omega)), show F.ew + F.sb = F.sb + 1 + (F.ew - 1) by omega, pow_add,
      Nat.mul_mod_mul_right, hmod, h]
    unfold mant; ring

theorem reduce_shifted {ix : BitVec F.bits} {A f er p : ℕ} {top : BitVec 32} (hew32 : F.ew ≤ 30)
    (hix : ix.toNat = A * 2 ^ F.sb + f) (hf : f < 2 ^ F.sb)
    (hp : top.toNat % 2 = p) (her : (top.toNat + F.bias) % 2 ^ 32 / 2 = er) :
    ∃ m exp, sqrtReduce ix (some top) = some (m, exp) ∧ m.toNat = mant F p f ∧ ExpIs exp er := by
  have hb := F.bits_eq
  have hew := F.hew
  have hsb := F.hsb
  have hbias : (BitVec.ofNat 32 (expSat F) >>> 1).toNat = F.bias := by
    rw [BV.shr, BitVec.toNat_ofNat, expSat_eq, F.two_bias]
    have : 2 ^ F.ew ≤ 2 ^ 30 := Nat.pow_le_pow_right (by norm_num) hew32
    rw [F.two_bias] at this
    omega
  have hm0 : ((ix ||| implicitBit F) <<< F.ew).toNat = (2 ^ F.sb + f) * 2 ^ F.ew := by
    have hor : (ix ||| implicitBit F).toNat % 2 ^ (F.sb + 1) = 2 ^ F.sb + f := by
      rw [BitVec.toNat_or, show (implicitBit F).toNat = 2 ^ F.sb from BV.one_shl (by omega)]
      have e : 2 ^ F.sb + f = 2 ^ F.sb ||| f := by
        have := Nat.two_pow_add_eq_or_of_lt hf 1
        rwa [mul_one] at this
      rw [e]
      apply Nat.eq_of_testBit_eq
      intro i
      rw [Nat.testBit_mod_two_pow, Nat.testBit_or, Nat.testBit_or, hix, mul_comm A,
        Nat.testBit_two_pow_mul_add _ hf, Nat.testBit_two_pow]
      by_cases h1 : i < F.sb
      · simp [h1, show i < F.sb + 1 by omega, show F.sb ≠ i by omega]
      · by_cases h2 : i = F.sb
        · subst h2; simp
        · have : f.testBit i = false := Nat.testBit_lt_two_pow (lt_of_lt_of_le hf (Nat.pow_le_pow_right (by norm_num) (by omega)))
          simp [show ¬ i < F.sb + 1 by omega, this, show F.sb ≠ i by omega]
    rw [BV.shl, show 2 ^ F.bits = 2 ^ (F.sb + 1) * 2 ^ F.ew by rw [← pow_add]; congr 1; omega, Nat.mul_mod_mul_right, hor]
  unfold sqrtReduce
  refine ⟨_, _, rfl, ?_, ?_⟩
  · have hbit : (top &&& 1#32 ≠ 0#32) ↔ top.toNat % 2 = 1 := by
      have : (top &&& 1#32).toNat = top.toNat % 2 := by
        simp
      rw [Ne, ← BitVec.toNat_inj, this]
      simp
    split
    · rename_i h
      rw [hbit] at h
      rw [BV.shr, hm0, ← hp, h]
      unfold mant
      rw [pow_one, show F.ew = F.ew - 1 + 1 by omega, pow_succ, ← mul_assoc, Nat.mul_div_cancel _ (by norm_num)]
      simp
    · rename_i h
      rw [hbit] at h
      rw [hm0, ← hp, show top.toNat % 2 = 0 by omega]
      rfl
  · show ((top + (BitVec.ofNat 32 (expSat F) >>> 1)) >>> 1).toNat = er
    rw [BV.shr, BitVec.toNat_add, hbias, pow_one]
    exact her

end Verif.Sqrt
