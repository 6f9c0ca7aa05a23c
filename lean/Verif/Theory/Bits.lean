import Verif.Model.Traits
import Verif.Theory.Arith

/-! # Bit-vector masks as arithmetic -/

namespace Verif

theorem BV.and_low {w k : Nat} {x m : BitVec w} (hm : m.toNat = 2 ^ k - 1) :
    (x &&& m).toNat = x.toNat % 2 ^ k := by
  rw [BitVec.toNat_and, hm, Nat.and_two_pow_sub_one_eq_mod]

theorem BV.and_not_low {w k : Nat} {x m : BitVec w} (hm : m.toNat = 2 ^ k - 1) :
    (x &&& ~~~m).toNat = x.toNat - x.toNat % 2 ^ k := by
  have h1 : x.toNat - x.toNat % 2 ^ k = 2 ^ k * (x.toNat / 2 ^ k) := by
    have := Nat.div_add_mod x.toNat (2 ^ k); omega
  rw [h1]
  apply Nat.eq_of_testBit_eq
  intro i
  rw [Nat.testBit_two_pow_mul, BitVec.testBit_toNat, BitVec.getLsbD_and, BitVec.getLsbD_not]
  have hmi : m.getLsbD i = decide (i < k) := by
    rw [← BitVec.testBit_toNat, hm, Nat.testBit_two_pow_sub_one]
  rw [hmi]
  have hx : (x.toNat / 2 ^ k).testBit (i - k) = x.toNat.testBit (k + (i - k)) := by
    rw [Nat.testBit_div_two_pow, Nat.add_comm]
  by_cases h : k ≤ i
  · have e : k + (i - k) = i := by omega
    rw [hx, e, BitVec.testBit_toNat]
    by_cases hw : i < w
    · simp [h, hw]
    · have : x.getLsbD i = false := BitVec.getLsbD_of_ge x i (by omega)
      simp [this]
  · have : i < k := by omega
    simp [h, this]

theorem BV.or_disjoint {w k : Nat} {x y : BitVec w} (hx : 2 ^ k ∣ x.toNat) (hy : y.toNat < 2 ^ k) :
    (x ||| y).toNat = x.toNat + y.toNat := by
  obtain ⟨c, hc⟩ := hx
  rw [BitVec.toNat_or, hc, ← Nat.two_pow_add_eq_or_of_lt hy]

theorem BV.shl {w : Nat} (x : BitVec w) (n : Nat) : (x <<< n).toNat = x.toNat * 2 ^ n % 2 ^ w := by
  rw [BitVec.toNat_shiftLeft, Nat.shiftLeft_eq]

theorem BV.shr {w : Nat} (x : BitVec w) (n : Nat) : (x >>> n).toNat = x.toNat / 2 ^ n := by
  rw [BitVec.toNat_ushiftRight, Nat.shiftRight_eq_div_pow]

theorem BV.one_shl {w n : Nat} (h : n < w) : (1#w <<< n).toNat = 2 ^ n := by
  rw [BV.shl]
  have h1 : 2 ^ n < 2 ^ w := Nat.pow_lt_pow_right (by norm_num) h
  have h2 : (1#w).toNat = 1 := by
    rw [BitVec.toNat_ofNat]; apply Nat.mod_eq_of_lt
    exact Nat.one_lt_two_pow (by omega)
  rw [h2, one_mul, Nat.mod_eq_of_lt h1]

theorem BV.mask {w n : Nat} (h : n < w) : ((1#w <<< n) - 1#w).toNat = 2 ^ n - 1 := by
  have h1 : 2 ^ n < 2 ^ w := Nat.pow_lt_pow_right (by norm_num) h
  have h2 : (1#w).toNat = 1 := by
    rw [BitVec.toNat_ofNat]; apply Nat.mod_eq_of_lt
    exact Nat.one_lt_two_pow (by omega)
  have h3 := Nat.two_pow_pos n
  rw [BitVec.toNat_sub, BV.one_shl h, h2]
  have : 2 ^ w - 1 + 2 ^ n = (2 ^ n - 1) + 2 ^ w := by omega
  rw [this, Nat.add_mod_right, Nat.mod_eq_of_lt (by omega)]

namespace Flt
variable {F : Fmt}

theorem bits_sub_one (F : Fmt) : F.bits - 1 = F.ew + F.sb := by rw [F.bits_eq]; omega

theorem toNat_signMask : (signMask F).toNat = 2 ^ (F.ew + F.sb) := by
  unfold signMask
  rw [bits_sub_one, BV.one_shl (by rw [F.bits_eq]; omega)]

theorem toNat_sigMask : (sigMask F).toNat = 2 ^ F.sb - 1 := by
  unfold sigMask
  rw [BV.mask (by rw [F.bits_eq]; omega)]

theorem toNat_not_signMask : (~~~(signMask F)).toNat = 2 ^ (F.ew + F.sb) - 1 := by
  rw [BitVec.toNat_not, toNat_signMask, F.two_pow_bits]; omega

theorem expSat_eq (F : Fmt) : expSat F = 2 ^ F.ew - 1 := by
  unfold expSat; rw [Nat.shiftLeft_eq, one_mul]

theorem expBias_eq (F : Fmt) : expBias F = F.bias := by
  unfold expBias
  rw [expSat_eq, F.two_bias, Nat.shiftRight_eq_div_pow]
  omega

/-- clearing the sign bit -/
theorem and_not_signMask (x : BitVec F.bits) :
    (x &&& ~~~(signMask F)).toNat = x.toNat % 2 ^ (F.ew + F.sb) :=
  BV.and_low toNat_not_signMask

theorem and_signMask (x : BitVec F.bits) :
    (x &&& signMask F).toNat = if 2 ^ (F.ew + F.sb) ≤ x.toNat then 2 ^ (F.ew + F.sb) else 0 := by
  have h := BV.and_not_low (x := x) (m := ~~~(signMask F)) toNat_not_signMask
  rw [BitVec.not_not] at h
  rw [h]
  have hl := x.isLt
  rw [F.two_pow_bits] at hl
  split
  · rename_i hh
    rw [Nat.mod_eq_sub_mod hh, Nat.mod_eq_of_lt (by omega)]; omega
  · rw [Nat.mod_eq_of_lt (by omega)]; omega

theorem and_sigMask (x : BitVec F.bits) : (x &&& sigMask F).toNat = x.toNat % 2 ^ F.sb :=
  BV.and_low toNat_sigMask

theorem frac_toNat (x : Flt F) : (frac x).toNat = x.fracField := and_sigMask _

theorem ex_eq (x : Flt F) : ex x = x.expField := by
  unfold ex
  rw [expSat_eq, Nat.and_two_pow_sub_one_eq_mod, BV.shr]
  rfl

theorem expUnbiased_eq (x : Flt F) : expUnbiased x = (x.expField : Int) - F.bias := by
  unfold expUnbiased; rw [ex_eq, expBias_eq]

theorem fromParts_eq (s : Bool) (e : Nat) (m : BitVec F.bits) :
    fromParts F s e m = mk' F s (e % 2 ^ F.ew * 2 ^ F.sb + m.toNat % 2 ^ F.sb) := by
  unfold fromParts mk'
  simp only [Flt.mk.injEq]
  apply BitVec.eq_of_toNat_eq
  have hps := Nat.two_pow_pos F.sb
  have h1 : e % 2 ^ F.ew < 2 ^ F.ew := Nat.mod_lt _ (Nat.two_pow_pos _)
  have h2 : m.toNat % 2 ^ F.sb < 2 ^ F.sb := Nat.mod_lt _ hps
  have h3 : e % 2 ^ F.ew * 2 ^ F.sb + 2 ^ F.sb ≤ 2 ^ (F.ew + F.sb) := by
    rw [pow_add]
    calc e % 2 ^ F.ew * 2 ^ F.sb + 2 ^ F.sb = (e % 2 ^ F.ew + 1) * 2 ^ F.sb := by ring
      _ ≤ _ := Nat.mul_le_mul_right _ h1
  have hb := F.two_pow_bits
  have hexp : (BitVec.ofNat F.bits (e &&& expSat F) <<< F.sb).toNat = e % 2 ^ F.ew * 2 ^ F.sb := by
    rw [expSat_eq, Nat.and_two_pow_sub_one_eq_mod, BV.shl, BitVec.toNat_ofNat]
    have : 2 ^ F.ew ≤ 2 ^ F.bits := Nat.pow_le_pow_right (by norm_num) (by rw [F.bits_eq]; omega)
    rw [Nat.mod_eq_of_lt (a := e % 2 ^ F.ew) (by omega), Nat.mod_eq_of_lt]
    omega
  have hsg : ((if s = true then 1#F.bits else 0#F.bits) <<< (F.bits - 1)).toNat
      = if s then 2 ^ (F.ew + F.sb) else 0 := by
    cases s
    · simp
    · simp only [if_true]
      rw [bits_sub_one, BV.one_shl (by rw [F.bits_eq]; omega)]
  have hor : ((if s = true then 1#F.bits else 0#F.bits) <<< (F.bits - 1) |||
      BitVec.ofNat F.bits (e &&& expSat F) <<< F.sb).toNat =
      (if s then 2 ^ (F.ew + F.sb) else 0) + e % 2 ^ F.ew * 2 ^ F.sb := by
    rw [BV.or_disjoint (k := F.ew + F.sb), hsg, hexp]
    · rw [hsg]; split <;> simp
    · rw [hexp]; omega
  rw [BV.or_disjoint (k := F.sb), hor, and_sigMask, BitVec.toNat_ofNat,
    Nat.mod_eq_of_lt (b := 2 ^ F.bits)]
  · omega
  · split <;> omega
  · rw [hor]
    apply Nat.dvd_add
    · split
      · rw [pow_add]; exact Nat.dvd_mul_left _ _
      · simp
    · exact Nat.dvd_mul_left _ _
  · rw [and_sigMask]; exact h2

theorem epsilon_lt (F : Fmt) : (F.bias - F.sb) * 2 ^ F.sb < F.infEnc := by
  refine lt_of_le_of_lt ?_ (one_lt F)
  exact Nat.mul_le_mul_right _ (by omega)

@[simp] theorem sign_epsilon : (epsilon F).sign = false :=
  sign_mk' ((epsilon_lt F).trans F.infEnc_lt)
theorem mb_epsilon : (epsilon F).mb = (F.bias - F.sb) * 2 ^ F.sb :=
  mb_mk' ((epsilon_lt F).trans F.infEnc_lt)
@[simp] theorem isFinite_epsilon : (epsilon F).isFinite := by
  rw [isFinite_iff, mb_epsilon]; exact epsilon_lt F

/-- magnitude of a power of two encoding `e * 2^sb`, `1 ≤ e` -/
theorem magOf_pow (sb e : Nat) (h : 1 ≤ e) : magOf sb (e * 2 ^ sb) = 2 ^ (e - 1 + sb) := by
  have := magOf_split sb (e - 1) (2 ^ sb) (Nat.pow_le_pow_right (by norm_num) (by omega))
    (Or.inl le_rfl)
  have e1 : (e - 1) * 2 ^ sb + 2 ^ sb = e * 2 ^ sb := by
    obtain ⟨k, rfl⟩ : ∃ k, e = k + 1 := ⟨e - 1, by omega⟩
    simp; ring
  rw [e1] at this
  rw [this, pow_add]; ring

theorem mag_epsilon : (epsilon F).mag = 2 ^ (F.bias - 1) := by
  have := F.sb_lt_bias
  rw [mag, mb_epsilon, magOf_pow _ _ (by omega)]
  congr 1; omega

end Flt
end Verif
