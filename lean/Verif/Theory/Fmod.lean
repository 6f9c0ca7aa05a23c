import Verif.Model.Fmod
import Verif.Theory.Decomp
import Verif.Theory.Add
import Verif.Theory.Integral

/-! # Lemmas for fmod and remquo -/

namespace Verif
open Flt Generic
variable {F : Fmt}

/-- shifting out sign and exponent keeps the fraction, left aligned -/
theorem shl_frac (x : Flt F) : (x.toBits <<< (F.ew + 1)).toNat = x.fracField * 2 ^ (F.ew + 1) := by
  rw [BV.shl]
  have : 2 ^ F.bits = 2 ^ F.sb * 2 ^ (F.ew + 1) := by
    rw [← pow_add, F.bits_eq]; congr 1; omega
  rw [this, Nat.mul_mod_mul_right]; rfl

theorem shl_frac_log2 (x : Flt F) (he : x.fracField ≠ 0) :
    (x.toBits <<< (F.ew + 1)).toNat.log2 = Nat.log2 x.fracField + (F.ew + 1) := by
  rw [shl_frac, Nat.log2_eq_iff (by positivity)]
  have a1 : 2 ^ Nat.log2 x.fracField ≤ x.fracField := Nat.log2_self_le he
  have a2 : x.fracField < 2 ^ (Nat.log2 x.fracField + 1) := Nat.lt_log2_self
  constructor
  · rw [pow_add]; exact Nat.mul_le_mul_right _ a1
  · rw [show Nat.log2 x.fracField + (F.ew + 1) + 1 = (Nat.log2 x.fracField + 1) + (F.ew + 1) by omega,
      pow_add _ _ (F.ew + 1)]
    exact Nat.mul_lt_mul_of_pos_right a2 (Nat.two_pow_pos _)

theorem normLoop_frac (x : Flt F) (he : x.fracField ≠ 0) (e : Int) :
    normLoop F.bits (x.toBits <<< (F.ew + 1)) e = some (e - ((F.sb - 1 - Nat.log2 x.fracField : ℕ) : ℤ)) := by
  have hs := shl_frac x
  have hlog := shl_frac_log2 x he
  rw [normLoop_spec, hlog, F.bits_eq]
  · congr 3; omega
  · rw [hs]; positivity
  · rw [hlog, F.bits_eq]; omega

theorem leadingZeros_frac (x : Flt F) (he : x.fracField ≠ 0) :
    leadingZeros (x.toBits <<< (F.ew + 1)) = F.sb - 1 - Nat.log2 x.fracField := by
  have hs := shl_frac x
  have hlog := shl_frac_log2 x he
  unfold leadingZeros
  rw [if_neg (by rw [hs]; positivity), hlog, F.bits_eq]; omega

theorem log2_frac_lt (x : Flt F) (h : x.fracField ≠ 0) : Nat.log2 x.fracField < F.sb :=
  (Nat.log2_lt h).mpr x.fracField_lt

/-- `v, e` is the normalised form of the magnitude `X` (in units):
`v` has its leading bit at position `sb` and `X = v * 2^(e-1)` -/
structure IsNorm (F : Fmt) (X v : Nat) (e : Int) : Prop where
  lo : 2 ^ F.sb ≤ v
  hi : v < 2 ^ (F.sb + 1)
  elo : 1 - (F.sb : Int) ≤ e
  eq : X * 2 ^ F.sb = v * 2 ^ (e - 1 + F.sb).toNat

/-- shifting a subnormal left drops the sign bit -/
theorem shl_subnormal (x : Flt F) (he : x.expField = 0) (h : x.fracField ≠ 0) :
    let k := F.sb - Nat.log2 x.fracField
    (x.toBits <<< k).toNat = x.fracField * 2 ^ k ∧ 2 ^ F.sb ≤ x.fracField * 2 ^ k ∧
      x.fracField * 2 ^ k < 2 ^ (F.sb + 1) := by
  intro k
  have hl := log2_frac_lt x h
  have a1 : 2 ^ Nat.log2 x.fracField ≤ x.fracField := Nat.log2_self_le h
  have a2 : x.fracField < 2 ^ (Nat.log2 x.fracField + 1) := Nat.lt_log2_self
  have b1 : 2 ^ F.sb ≤ x.fracField * 2 ^ k := by
    calc 2 ^ F.sb = 2 ^ Nat.log2 x.fracField * 2 ^ k := by rw [← pow_add]; congr 1; omega
      _ ≤ _ := Nat.mul_le_mul_right _ a1
  have b2 : x.fracField * 2 ^ k < 2 ^ (F.sb + 1) := by
    calc _ < 2 ^ (Nat.log2 x.fracField + 1) * 2 ^ k := Nat.mul_lt_mul_of_pos_right a2 (Nat.two_pow_pos _)
      _ = _ := by rw [← pow_add]; congr 1; omega
  refine ⟨?_, b1, b2⟩
  rw [BV.shl]
  change x.enc * 2 ^ k % 2 ^ F.bits = _
  have hm : x.mb = x.fracField := by rw [mb_eq, he]; simp
  have hb : 2 ^ F.bits = 2 ^ (F.ew + F.sb) * 2 := by rw [F.two_pow_bits]; ring
  have hk : 2 ^ k = 2 ^ (k - 1) * 2 := by rw [← pow_succ]; congr 1; omega
  have hlt : x.fracField * 2 ^ k < 2 ^ F.bits :=
    lt_of_lt_of_le b2 (Nat.pow_le_pow_right (by norm_num) (by rw [F.bits_eq]; have := F.hew; omega))
  rw [x.enc_eq, hm]
  split
  · have e : (x.fracField + 2 ^ (F.ew + F.sb)) * 2 ^ k = x.fracField * 2 ^ k + 2 ^ F.bits * 2 ^ (k - 1) := by
      rw [add_mul, hb]; conv_lhs => rw [hk]
      ring_nf
      rw [mul_assoc, ← pow_succ, Nat.sub_add_cancel (by omega)]
    rw [e, Nat.add_mul_mod_self_left, Nat.mod_eq_of_lt hlt]
  · rw [add_zero, Nat.mod_eq_of_lt hlt]

theorem one_shl_sb (F : Fmt) : (1#F.bits <<< F.sb).toNat = 2 ^ F.sb :=
  BV.one_shl (by rw [F.bits_eq]; omega)

/-- keeping `n ≥ sb` low bits (at most one exponent bit) and setting the implicit bit -/
theorem set_implicit (x : Flt F) {m : BitVec F.bits} (hm : m.toNat = 2 ^ F.sb - 1 ∨ m.toNat = 2 ^ (F.sb + 1) - 1) :
    ((x.toBits &&& m) ||| (1#_ <<< F.sb)).toNat = 2 ^ F.sb + x.fracField := by
  rcases hm with hm | hm
  · rw [BitVec.or_comm, BV.or_disjoint (k := F.sb), one_shl_sb, BV.and_low hm]; rfl
    · rw [one_shl_sb]
    · rw [BV.and_low hm]; exact Nat.mod_lt _ (Nat.two_pow_pos _)
  · rw [BitVec.toNat_or, one_shl_sb, BV.and_low hm]
    change x.enc % 2 ^ (F.sb + 1) ||| 2 ^ F.sb = _
    have h1 : x.enc % 2 ^ (F.sb + 1) = 2 ^ F.sb * (x.enc / 2 ^ F.sb % 2) + x.fracField := by
      unfold fracField
      rw [pow_succ, Nat.mod_mul, add_comm]
    have hf := x.fracField_lt
    rw [h1, Nat.two_pow_add_eq_or_of_lt hf]
    rcases Nat.mod_two_eq_zero_or_one (x.enc / 2 ^ F.sb) with h | h
    · rw [h, mul_zero, Nat.zero_or, Nat.or_comm]
      have := Nat.two_pow_add_eq_or_of_lt (a := 1) hf
      rw [mul_one] at this; rw [← this]
    · rw [h, Nat.or_assoc, Nat.or_comm x.fracField, ← Nat.or_assoc, mul_one, Nat.or_self]
      have := Nat.two_pow_add_eq_or_of_lt (a := 1) hf
      rw [mul_one] at this; rw [← this]

theorem isNorm_normal (x : Flt F) (he : x.expField ≠ 0) :
    IsNorm F x.mag (2 ^ F.sb + x.fracField) x.expField := by
  have := x.fracField_lt
  refine ⟨by omega, by rw [pow_succ]; omega, by omega, ?_⟩
  rw [mag_eq_fields, if_neg he, mul_assoc, ← pow_add]
  congr 2; omega

theorem isNorm_subnormal (x : Flt F) (he : x.expField = 0) (h : x.fracField ≠ 0) :
    IsNorm F x.mag (x.fracField * 2 ^ (F.sb - Nat.log2 x.fracField))
      (-((F.sb - 1 - Nat.log2 x.fracField : ℕ) : ℤ)) := by
  obtain ⟨h1, h2, h3⟩ := shl_subnormal x he h
  have hl := log2_frac_lt x h
  refine ⟨h2, h3, by omega, ?_⟩
  rw [mag_eq_fields, if_pos he, mul_assoc, ← pow_add]
  congr 2; omega

theorem fmodNorm_spec (x : Flt F) (h0 : ¬ x.isZero) :
    ∃ v e, fmodNorm x.toBits (ex x : Int) = some (v, e) ∧ IsNorm F x.mag v.toNat e ∧ e ≤ x.expField := by
  rw [ex_eq]
  unfold fmodNorm
  by_cases he : x.expField = 0
  · have h : x.fracField ≠ 0 := fun h => h0 ⟨he, h⟩
    have hl := log2_frac_lt x h
    rw [if_pos (by exact_mod_cast he)]
    simp only
    rw [leadingZeros_frac x h]
    obtain ⟨h1, h2, h3⟩ := shl_subnormal x he h
    unfold shlChecked
    have hsh : -((x.expField : Int) - ((F.sb - 1 - Nat.log2 x.fracField : ℕ) : ℤ)) + 1 =
        ((F.sb - Nat.log2 x.fracField : ℕ) : ℤ) := by omega
    rw [hsh, if_pos ⟨by omega, by rw [F.bits_eq]; omega⟩]
    refine ⟨_, _, rfl, ?_, by omega⟩
    rw [Int.toNat_natCast, h1]
    have := isNorm_subnormal x he h
    rw [he]; simpa using this
  · rw [if_neg (by exact_mod_cast he)]
    refine ⟨_, _, rfl, ?_, le_refl _⟩
    rw [set_implicit x]
    · exact isNorm_normal x he
    · right
      rw [BV.shr, BitVec.toNat_allOnes]
      have : 2 ^ F.bits = 2 ^ (F.sb + 1) * 2 ^ F.ew := by rw [← pow_add, F.bits_eq]; congr 1; omega
      rw [this]
      have hp := Nat.two_pow_pos F.ew
      have hq := Nat.two_pow_pos (F.sb + 1)
      have e : 2 ^ (F.sb + 1) * 2 ^ F.ew - 1 = (2 ^ F.ew - 1) + 2 ^ F.ew * (2 ^ (F.sb + 1) - 1) := by
        rw [Nat.mul_sub, mul_comm]
        have : 2 ^ F.ew ≤ 2 ^ F.ew * 2 ^ (F.sb + 1) := Nat.le_mul_of_pos_right _ hq
        omega
      rw [e, Nat.add_mul_div_left _ _ hp, Nat.div_eq_of_lt (by omega), zero_add]

theorem remquoNorm_normal (x : Flt F) (he : x.expField ≠ 0) :
    ∃ v : BitVec F.bits, remquoNorm x.toBits (x.expField : Int) = some (v, (x.expField : Int)) ∧
      v.toNat = 2 ^ F.sb + x.fracField := by
  unfold remquoNorm
  rw [if_neg (by exact_mod_cast he)]
  refine ⟨_, rfl, ?_⟩
  rw [set_implicit x]
  left
  rw [BV.shr, BitVec.toNat_allOnes]
  have : 2 ^ F.bits = 2 ^ F.sb * 2 ^ (F.ew + 1) := by rw [← pow_add, F.bits_eq]; congr 1; omega
  rw [this]
  have hp := Nat.two_pow_pos (F.ew + 1)
  have hq := Nat.two_pow_pos F.sb
  have e : 2 ^ F.sb * 2 ^ (F.ew + 1) - 1 = (2 ^ (F.ew + 1) - 1) + 2 ^ (F.ew + 1) * (2 ^ F.sb - 1) := by
    rw [Nat.mul_sub, mul_comm]
    have : 2 ^ (F.ew + 1) ≤ 2 ^ (F.ew + 1) * 2 ^ F.sb := Nat.le_mul_of_pos_right _ hq
    omega
  rw [e, Nat.add_mul_div_left _ _ hp, Nat.div_eq_of_lt (by omega), zero_add]

theorem remquoNorm_spec (x : Flt F) (h0 : ¬ x.isZero) :
    ∃ v e, remquoNorm x.toBits (x.expField : Int) = some (v, e) ∧ IsNorm F x.mag v.toNat e ∧
      e ≤ x.expField := by
  by_cases he : x.expField = 0
  · have h : x.fracField ≠ 0 := fun h => h0 ⟨he, h⟩
    have hl := log2_frac_lt x h
    unfold remquoNorm
    rw [if_pos (by exact_mod_cast he), normLoop_frac x h]
    simp only [Option.bind_some]
    obtain ⟨h1, h2, h3⟩ := shl_subnormal x he h
    unfold shlChecked
    have hsh : -((x.expField : Int) - ((F.sb - 1 - Nat.log2 x.fracField : ℕ) : ℤ)) + 1 =
        ((F.sb - Nat.log2 x.fracField : ℕ) : ℤ) := by omega
    rw [hsh, if_pos ⟨by omega, by rw [F.bits_eq]; omega⟩]
    refine ⟨_, _, rfl, ?_, by omega⟩
    rw [Int.toNat_natCast, h1]
    have := isNorm_subnormal x he h
    rw [he]; simpa using this
  · obtain ⟨v, h1, h2⟩ := remquoNorm_normal x he
    refine ⟨v, _, h1, ?_, le_refl _⟩
    rw [h2]; exact isNorm_normal x he

/-- order of normalised pairs -/
theorem IsNorm.lt {X Y u v : Nat} {e f : Int} (hx : IsNorm F X u e) (hy : IsNorm F Y v f) (h : e < f) :
    X * 2 ^ (f - e - 1).toNat < Y := by
  have hp := Nat.two_pow_pos F.sb
  have a := hx.elo
  have b := hy.elo
  have hk : (f - 1 + F.sb).toNat = (f - e - 1).toNat + (1 + (e - 1 + F.sb).toNat) := by omega
  have : X * 2 ^ (f - e - 1).toNat * 2 ^ F.sb < Y * 2 ^ F.sb := by
    calc X * 2 ^ (f - e - 1).toNat * 2 ^ F.sb = u * 2 ^ (e - 1 + F.sb).toNat * 2 ^ (f - e - 1).toNat := by
          rw [← hx.eq]; ring
      _ < 2 ^ (F.sb + 1) * 2 ^ (e - 1 + F.sb).toNat * 2 ^ (f - e - 1).toNat := by
          exact Nat.mul_lt_mul_of_pos_right (Nat.mul_lt_mul_of_pos_right hx.hi (Nat.two_pow_pos _))
            (Nat.two_pow_pos _)
      _ = 2 ^ F.sb * 2 ^ (f - 1 + F.sb).toNat := by rw [hk]; ring
      _ ≤ v * 2 ^ (f - 1 + F.sb).toNat := Nat.mul_le_mul_right _ hy.lo
      _ = _ := hy.eq.symm
  exact Nat.lt_of_mul_lt_mul_right this

/-- reduction of `X mod Y` and `X / Y` to the normalised significands -/
theorem IsNorm.divmod {X Y u v : Nat} {e f : Int} (hx : IsNorm F X u e) (hy : IsNorm F Y v f) (h : f ≤ e) :
    X / Y = u * 2 ^ (e - f).toNat / v ∧
    X % Y * 2 ^ F.sb = u * 2 ^ (e - f).toNat % v * 2 ^ (f - 1 + F.sb).toNat := by
  have b := hy.elo
  have hk : (e - 1 + F.sb).toNat = (e - f).toNat + (f - 1 + F.sb).toNat := by omega
  have hX : X * 2 ^ F.sb = u * 2 ^ (e - f).toNat * 2 ^ (f - 1 + F.sb).toNat := by
    rw [hx.eq, hk, pow_add]; ring
  constructor
  · rw [← Nat.mul_div_mul_right X Y (Nat.two_pow_pos F.sb), hX, hy.eq,
      Nat.mul_div_mul_right _ _ (Nat.two_pow_pos _)]
  · rw [← Nat.mul_mod_mul_right, hX, hy.eq, Nat.mul_mod_mul_right]

/-- the borrow test `(a - b) >> (BITS-1) == 0` -/
theorem sub_top {a b : BitVec F.bits} (ha : a.toNat < 2 * b.toNat) (hb : b.toNat < 2 ^ (F.sb + 1)) :
    ((a - b) >>> (F.bits - 1) = 0#_ ↔ b.toNat ≤ a.toNat) ∧
    (b.toNat ≤ a.toNat → (a - b).toNat = a.toNat - b.toNat) := by
  have hbits : 2 ^ F.bits = 2 * 2 ^ (F.bits - 1) := by rw [← pow_succ']; rfl
  have hle : 4 * 2 ^ (F.sb + 1) ≤ 2 ^ (F.bits - 1) := by
    rw [show (4 : ℕ) = 2 ^ 2 by norm_num, ← pow_add]
    exact Nat.pow_le_pow_right (by norm_num) (by rw [F.bits_eq]; have := F.hew; omega)
  have h2 : b.toNat ≤ a.toNat → (a - b).toNat = a.toNat - b.toNat :=
    fun h => BitVec.toNat_sub_of_le h
  refine ⟨?_, h2⟩
  rw [← BitVec.toNat_inj, BV.shr]
  simp only [BitVec.toNat_ofNat, Nat.zero_mod, Nat.div_eq_zero_iff_lt (Nat.two_pow_pos _)]
  constructor
  · intro h
    by_contra hc
    rw [BitVec.toNat_sub] at h
    have : 2 ^ F.bits - b.toNat + a.toNat < 2 ^ F.bits := by omega
    rw [Nat.mod_eq_of_lt this] at h
    omega
  · intro h; rw [h2 h]; omega

theorem shl_one_toNat {v : BitVec F.bits} (h : v.toNat < 2 ^ (F.sb + 1)) : (v <<< 1).toNat = 2 * v.toNat := by
  rw [BV.shl, Nat.mod_eq_of_lt]
  · ring
  · have : 2 ^ (F.sb + 2) ≤ 2 ^ F.bits :=
      Nat.pow_le_pow_right (by norm_num) (by rw [F.bits_eq]; have := F.hew; omega)
    rw [pow_succ] at this; omega

theorem fmodLoop_spec (iy : BitVec F.bits) (hb : iy.toNat < 2 ^ (F.sb + 1)) :
    ∀ n (ix : BitVec F.bits), 0 < ix.toNat → ix.toNat < 2 * iy.toNat →
      match fmodLoop iy n ix with
      | none => iy.toNat ∣ ix.toNat * 2 ^ n
      | some r => 0 < r.toNat ∧ r.toNat < 2 * iy.toNat ∧ r.toNat % iy.toNat = ix.toNat * 2 ^ n % iy.toNat := by
  intro n
  induction n with
  | zero => intro ix h0 h1; simp only [fmodLoop]; simp [h0, h1]
  | succ n ih =>
    intro ix h0 h1
    obtain ⟨t1, t2⟩ := sub_top h1 hb
    unfold fmodLoop
    simp only
    by_cases hc : iy.toNat ≤ ix.toNat
    · rw [if_pos (t1.mpr hc)]
      have hs := t2 hc
      by_cases hz : ix - iy = 0#_
      · rw [if_pos hz]
        have : (ix - iy).toNat = 0 := by rw [hz]; simp
        have e : ix.toNat = iy.toNat := by omega
        simp only
        rw [e]; exact Dvd.intro _ rfl
      · rw [if_neg hz]
        have hz' : (ix - iy).toNat ≠ 0 := by
          intro h; apply hz; rw [← BitVec.toNat_inj]; simpa using h
        have hsh := shl_one_toNat (v := ix - iy) (by omega)
        have := ih ((ix - iy) <<< 1) (by omega) (by omega)
        rw [hsh, hs] at this
        have key : 2 * (ix.toNat - iy.toNat) * 2 ^ n % iy.toNat = ix.toNat * 2 ^ (n + 1) % iy.toNat := by
          obtain ⟨d, hd⟩ := Nat.exists_eq_add_of_le hc
          rw [hd, Nat.add_sub_cancel_left]
          rw [show (iy.toNat + d) * 2 ^ (n + 1) = 2 * d * 2 ^ n + iy.toNat * 2 ^ (n + 1) by ring,
            Nat.add_mul_mod_self_left]
        rw [key] at this
        have key2 : iy.toNat ∣ 2 * (ix.toNat - iy.toNat) * 2 ^ n → iy.toNat ∣ ix.toNat * 2 ^ (n + 1) := by
          intro h
          apply Nat.dvd_of_mod_eq_zero
          rw [← key]; exact Nat.mod_eq_zero_of_dvd h
        revert this
        cases fmodLoop iy n ((ix - iy) <<< 1)
        · exact key2
        · exact id
    · rw [if_neg (fun h => hc (t1.mp h))]
      have hsh := shl_one_toNat (v := ix) (by omega)
      have := ih (ix <<< 1) (by omega) (by omega)
      rw [hsh] at this
      rwa [show 2 * ix.toNat * 2 ^ n = ix.toNat * 2 ^ (n + 1) by ring] at this

/-- packing a normalised nonzero magnitude back into an encoding -/
theorem pack_spec {Z : Nat} {u : BitVec F.bits} {e : Int} (h : IsNorm F Z u.toNat e)
    (he : e < 2 ^ F.ew - 1) :
    ∃ v, (if e > 0 then
          (subChecked u (1#_ <<< F.sb)).map fun u => u ||| (BitVec.ofInt F.bits e <<< F.sb)
        else shrChecked u (-e + 1)) = some v ∧ v.toNat < F.infEnc ∧ magOf F.sb v.toNat = Z := by
  have hlo := h.lo
  have hhi := h.hi
  have hp := Nat.two_pow_pos F.sb
  have he' : (2 ^ F.ew : Int) = 2 * F.bias + 2 := by exact_mod_cast F.two_bias
  have hs := F.infEnc_eq
  have hbias := F.sb_lt_bias
  by_cases hpos : e > 0
  · rw [if_pos hpos]
    unfold subChecked
    rw [if_pos (by rw [BitVec.le_def, one_shl_sb]; exact hlo)]
    simp only [Option.map_some]
    refine ⟨_, rfl, ?_⟩
    obtain ⟨k, rfl⟩ := Int.eq_ofNat_of_zero_le (by omega : 0 ≤ e)
    have hk : k < 2 * F.bias + 1 := by omega
    have hsub : (u - (1#_ <<< F.sb)).toNat = u.toNat - 2 ^ F.sb := by
      rw [BitVec.toNat_sub_of_le (by rw [BitVec.le_def, one_shl_sb]; exact hlo), one_shl_sb]
    have hk2 : k * 2 ^ F.sb + 2 ^ F.sb ≤ F.infEnc := by
      rw [hs, ← Nat.succ_mul]; exact Nat.mul_le_mul_right _ hk
    have hlt := F.infEnc_lt
    have hofi : (BitVec.ofInt F.bits (k : Int) <<< F.sb).toNat = k * 2 ^ F.sb := by
      have hb := F.two_pow_bits
      have hkk : k ≤ k * 2 ^ F.sb := Nat.le_mul_of_pos_right _ hp
      rw [BV.shl]
      have : (BitVec.ofInt F.bits (k : Int)).toNat = k := by
        rw [BitVec.ofInt_natCast, BitVec.toNat_ofNat, Nat.mod_eq_of_lt]; omega
      rw [this, Nat.mod_eq_of_lt (by omega)]
    have hv : (u - (1#_ <<< F.sb) ||| (BitVec.ofInt F.bits (k : Int) <<< F.sb)).toNat =
        k * 2 ^ F.sb + (u.toNat - 2 ^ F.sb) := by
      rw [BitVec.or_comm, BV.or_disjoint (k := F.sb), hofi, hsub]
      · rw [hofi]; exact Dvd.intro_left _ rfl
      · rw [hsub]; rw [pow_succ] at hhi; omega
    rw [hv]
    rw [pow_succ] at hhi
    refine ⟨by omega, ?_⟩
    have hm : k * 2 ^ F.sb + (u.toNat - 2 ^ F.sb) = (k - 1) * 2 ^ F.sb + u.toNat := by
      have : k * 2 ^ F.sb = (k - 1) * 2 ^ F.sb + 2 ^ F.sb := by
        rw [← Nat.succ_mul]; congr 1; omega
      omega
    rw [hm, magOf_split F.sb (k - 1) u.toNat (by rw [pow_succ]; omega) (Or.inl hlo)]
    have := h.eq
    have hk3 : ((k : Int) - 1 + F.sb).toNat = (k - 1) + F.sb := by omega
    rw [hk3, pow_add, ← mul_assoc] at this
    exact (Nat.eq_of_mul_eq_mul_right hp this).symm
  · rw [if_neg hpos]
    have helo := h.elo
    obtain ⟨k, hk⟩ := Int.eq_ofNat_of_zero_le (by omega : 0 ≤ -e + 1)
    unfold shrChecked
    rw [hk, if_pos ⟨by omega, by rw [F.bits_eq]; omega⟩]
    refine ⟨_, rfl, ?_⟩
    have hZ : u.toNat = Z * 2 ^ k := by
      have := h.eq
      have e1 : F.sb = k + (e - 1 + F.sb).toNat := by omega
      rw [show Z * 2 ^ F.sb = Z * 2 ^ k * 2 ^ (e - 1 + F.sb).toNat by
        conv_lhs => rw [e1, pow_add]
        ring] at this
      exact (Nat.eq_of_mul_eq_mul_right (Nat.two_pow_pos _) this).symm
    have hv : (u >>> (k : Int).toNat).toNat = Z := by
      rw [Int.toNat_natCast, BV.shr, hZ, Nat.mul_div_cancel _ (Nat.two_pow_pos _)]
    have hZlt : Z < 2 ^ F.sb := by
      have : Z * 2 ≤ Z * 2 ^ k := by
        apply Nat.mul_le_mul_left
        calc 2 = 2 ^ 1 := by norm_num
          _ ≤ 2 ^ k := Nat.pow_le_pow_right (by norm_num) (by omega)
      rw [pow_succ] at hhi; omega
    rw [hv]
    refine ⟨?_, by unfold magOf; rw [if_pos hZlt]⟩
    rw [hs]
    calc Z < 1 * 2 ^ F.sb := by omega
      _ ≤ _ := Nat.mul_le_mul_right _ (by omega)

/-- normalising a nonzero remainder -/
theorem isNorm_shift {Z r : Nat} {f : Int} (hZ : 0 < Z) (hf : 1 - (F.sb : Int) ≤ f) (hr : r < 2 ^ (F.sb + 1))
    (h : Z * 2 ^ F.sb = r * 2 ^ (f - 1 + F.sb).toNat) :
    IsNorm F Z (r * 2 ^ (F.sb - r.log2)) (f - ((F.sb - r.log2 : ℕ) : ℤ)) := by
  have hr0 : r ≠ 0 := by
    rintro rfl
    have := Nat.two_pow_pos F.sb
    rw [zero_mul] at h
    rcases Nat.mul_eq_zero.mp h with h | h <;> omega
  have hl : r.log2 ≤ F.sb := by
    have := (Nat.log2_lt hr0).mpr hr; omega
  have a1 : 2 ^ r.log2 ≤ r := Nat.log2_self_le hr0
  have a2 : r < 2 ^ (r.log2 + 1) := Nat.lt_log2_self
  have b1 : 2 ^ F.sb ≤ r * 2 ^ (F.sb - r.log2) := by
    calc 2 ^ F.sb = 2 ^ r.log2 * 2 ^ (F.sb - r.log2) := by rw [← pow_add]; congr 1; omega
      _ ≤ _ := Nat.mul_le_mul_right _ a1
  have b2 : r * 2 ^ (F.sb - r.log2) < 2 ^ (F.sb + 1) := by
    calc _ < 2 ^ (r.log2 + 1) * 2 ^ (F.sb - r.log2) := Nat.mul_lt_mul_of_pos_right a2 (Nat.two_pow_pos _)
      _ = _ := by rw [← pow_add]; congr 1; omega
  have hs : F.sb - r.log2 ≤ (f - 1 + F.sb).toNat := by
    by_contra hc
    have h1 : r * 2 ^ ((f - 1 + F.sb).toNat + 1) ≤ r * 2 ^ (F.sb - r.log2) :=
      Nat.mul_le_mul_left _ (Nat.pow_le_pow_right (by norm_num) (by omega))
    rw [pow_succ, ← mul_assoc, ← h] at h1
    have h2 : 1 * 2 ^ F.sb ≤ Z * 2 ^ F.sb := Nat.mul_le_mul_right _ hZ
    rw [pow_succ] at b2
    omega
  refine ⟨b1, b2, by omega, ?_⟩
  rw [h, mul_assoc, ← pow_add]
  congr 2; omega

end Verif
