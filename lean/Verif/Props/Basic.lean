import Verif.Theory.Bits
import Verif.Theory.Order
import Verif.Model.Env
import Verif.Model.Words

/-! # C27 Status, C40 word accessors, C41 float decomposition helpers -/

namespace Verif
open Flt
variable {F : Fmt}

/-! ## C27 -/

/-- every query distributes over `with` -/
theorem status_with (s t : Status) :
    (s.with t).inexact = (s.inexact || t.inexact) ∧
    (s.with t).underflow = (s.underflow || t.underflow) ∧
    (s.with t).overflow = (s.overflow || t.overflow) := by
  have key : ∀ a b m : BitVec 8, ((a ||| b) &&& m != 0#8) = ((a &&& m != 0#8) || (b &&& m != 0#8)) := by
    intro a b m
    rw [Bool.eq_iff_iff]
    simp only [bne_iff_ne, Bool.or_eq_true, ne_eq]
    rw [← not_and_or, not_iff_not]
    constructor
    · intro h
      constructor
      · apply BitVec.eq_of_getLsbD_eq
        intro i hi
        have := congrArg (fun v => v.getLsbD i) h
        simp at this ⊢
        intro ha
        exact this (Or.inl ha)
      · apply BitVec.eq_of_getLsbD_eq
        intro i hi
        have := congrArg (fun v => v.getLsbD i) h
        simp at this ⊢
        intro ha
        exact this (Or.inr ha)
    · rintro ⟨h1, h2⟩
      apply BitVec.eq_of_getLsbD_eq
      intro i hi
      have a1 := congrArg (fun v => v.getLsbD i) h1
      have a2 := congrArg (fun v => v.getLsbD i) h2
      simp at a1 a2 ⊢
      rintro (h | h)
      · exact a1 h
      · exact a2 h
  exact ⟨key .., key .., key ..⟩

/-- `with` is commutative, associative, idempotent with unit `OK`: statuses form a set -/
theorem status_with_laws (s t u : Status) :
    s.with t = t.with s ∧ (s.with t).with u = s.with (t.with u) ∧ s.with s = s ∧
    s.with Status.OK = s := by
  cases s; cases t; cases u
  simp only [Status.with, Status.OK, Status.mk.injEq]
  exact ⟨BitVec.or_comm .., BitVec.or_assoc .., BitVec.or_self, BitVec.or_zero⟩

/-- setting a flag: that query then answers `val`, all other bits are untouched -/
theorem status_set_underflow (s : Status) (v : Bool) :
    (s.setUnderflow v).underflow = v ∧ (s.setUnderflow v).inexact = s.inexact ∧
    (s.setUnderflow v).overflow = s.overflow ∧
    ∀ i, i ≠ 4 → (s.setUnderflow v).bits.getLsbD i = s.bits.getLsbD i := by
  have h : ∀ (b : BitVec 8) (v : Bool),
      (Status.setUnderflow ⟨b⟩ v).underflow = v ∧
      (Status.setUnderflow ⟨b⟩ v).inexact = Status.inexact ⟨b⟩ ∧
      (Status.setUnderflow ⟨b⟩ v).overflow = Status.overflow ⟨b⟩ ∧
      ∀ i : Fin 8, i ≠ 4 → (Status.setUnderflow ⟨b⟩ v).bits.getLsbD i = b.getLsbD i := by
    decide +kernel
  obtain ⟨a, b, c, d⟩ := h s.bits v
  refine ⟨a, b, c, fun i hi => ?_⟩
  by_cases h8 : i < 8
  · exact d ⟨i, h8⟩ (by intro h; apply hi; exact congrArg Fin.val h)
  · rw [BitVec.getLsbD_of_ge _ _ (by omega), BitVec.getLsbD_of_ge _ _ (by omega)]

theorem status_set_inexact (s : Status) (v : Bool) :
    (s.setInexact v).inexact = v ∧ (s.setInexact v).underflow = s.underflow ∧
    (s.setInexact v).overflow = s.overflow ∧
    ∀ i, i ≠ 5 → (s.setInexact v).bits.getLsbD i = s.bits.getLsbD i := by
  have h : ∀ (b : BitVec 8) (v : Bool),
      (Status.setInexact ⟨b⟩ v).inexact = v ∧
      (Status.setInexact ⟨b⟩ v).underflow = Status.underflow ⟨b⟩ ∧
      (Status.setInexact ⟨b⟩ v).overflow = Status.overflow ⟨b⟩ ∧
      ∀ i : Fin 8, i ≠ 5 → (Status.setInexact ⟨b⟩ v).bits.getLsbD i = b.getLsbD i := by
    decide +kernel
  obtain ⟨a, b, c, d⟩ := h s.bits v
  refine ⟨a, b, c, fun i hi => ?_⟩
  by_cases h8 : i < 8
  · exact d ⟨i, h8⟩ (by intro h; apply hi; exact congrArg Fin.val h)
  · rw [BitVec.getLsbD_of_ge _ _ (by omega), BitVec.getLsbD_of_ge _ _ (by omega)]

/-- the flag constants are pairwise disjoint, and each is answered by its own query only -/
theorem status_flags_distinct :
    Status.INEXACT.inexact ∧ ¬ Status.INEXACT.underflow ∧ ¬ Status.INEXACT.overflow ∧
    Status.UNDERFLOW.underflow ∧ ¬ Status.UNDERFLOW.inexact ∧ ¬ Status.UNDERFLOW.overflow ∧
    Status.OVERFLOW.overflow ∧ ¬ Status.OVERFLOW.inexact ∧ ¬ Status.OVERFLOW.underflow ∧
    [Status.OK, Status.INVALID, Status.DIVIDE_BY_ZERO, Status.OVERFLOW, Status.UNDERFLOW,
      Status.INEXACT].Nodup := by decide

/-! ## C40 -/

/-- the words are the two halves of the pattern -/
theorem words_split (x : Flt f64) :
    x.enc = (getHighWord x).toNat * 2 ^ 32 + (getLowWord x).toNat := by
  have h : x.enc < 2 ^ 64 := x.enc_lt
  have e : x.toBits.toNat = x.enc := rfl
  simp only [getHighWord, getLowWord, BitVec.toNat_setWidth, BV.shr, e]
  omega

/-- reading the words and reassembling is the identity -/
theorem combine_get (x : Flt f64) : combineWords (getHighWord x) (getLowWord x) = x := by
  apply ext_enc
  rw [words_split x]
  show ((BitVec.setWidth 64 (getHighWord x) <<< 32) ||| BitVec.setWidth 64 (getLowWord x)).toNat = _
  have h1 := (getHighWord x).isLt
  have h2 := (getLowWord x).isLt
  have e1 : (BitVec.setWidth 64 (getHighWord x) <<< 32).toNat = (getHighWord x).toNat * 2 ^ 32 := by
    rw [BV.shl, BitVec.toNat_setWidth]; omega
  rw [BV.or_disjoint (k := 32) (by rw [e1]; exact Dvd.intro_left _ rfl)
    (by rw [BitVec.toNat_setWidth]; omega), e1, BitVec.toNat_setWidth]
  omega

theorem words_combine (hi lo : BitVec 32) :
    getHighWord (combineWords hi lo) = hi ∧ getLowWord (combineWords hi lo) = lo := by
  have h1 := hi.isLt
  have h2 := lo.isLt
  have e1 : (BitVec.setWidth 64 hi <<< 32).toNat = hi.toNat * 2 ^ 32 := by
    rw [BV.shl, BitVec.toNat_setWidth]; omega
  have e : (combineWords hi lo).enc = hi.toNat * 2 ^ 32 + lo.toNat := by
    show ((BitVec.setWidth 64 hi <<< 32) ||| BitVec.setWidth 64 lo).toNat = _
    rw [BV.or_disjoint (k := 32) (by rw [e1]; exact Dvd.intro_left _ rfl)
      (by rw [BitVec.toNat_setWidth]; omega), e1, BitVec.toNat_setWidth]
    omega
  have s := words_split (combineWords hi lo)
  rw [e] at s
  have h3 := (getHighWord (combineWords hi lo)).isLt
  have h4 := (getLowWord (combineWords hi lo)).isLt
  constructor <;> apply BitVec.eq_of_toNat_eq <;> omega

/-- replacing one word: that word becomes the given one and the other is unchanged -/
theorem set_high_word (x : Flt f64) (w : BitVec 32) :
    getHighWord (withSetHighWord x w) = w ∧ getLowWord (withSetHighWord x w) = getLowWord x := by
  have h1 := w.isLt
  generalize hb : (show BitVec 64 from x.toBits) = b
  have hb' : x.enc = b.toNat := by rw [← hb]; rfl
  have e0 : (b &&& 0x00000000ffffffff#64).toNat = x.enc % 2 ^ 32 := by
    rw [hb']; exact BV.and_low (k := 32) (by decide)
  have e1 : (BitVec.setWidth 64 w <<< 32).toNat = w.toNat * 2 ^ 32 := by
    rw [BV.shl, BitVec.toNat_setWidth]; omega
  have e : (withSetHighWord x w).enc = w.toNat * 2 ^ 32 + x.enc % 2 ^ 32 := by
    have : (withSetHighWord x w).enc = ((b &&& 0x00000000ffffffff#64) |||
      (BitVec.setWidth 64 w <<< 32)).toNat := by rw [← hb]; rfl
    rw [this]
    show ((b &&& 0x00000000ffffffff#64) ||| (BitVec.setWidth 64 w <<< 32)).toNat = _
    rw [BitVec.or_comm, BV.or_disjoint (k := 32) (by rw [e1]; exact Dvd.intro_left _ rfl)
      (by rw [e0]; omega), e1, e0]
  have s := words_split (withSetHighWord x w)
  have s2 := words_split x
  rw [e] at s
  have h3 := (getHighWord (withSetHighWord x w)).isLt
  have h4 := (getLowWord (withSetHighWord x w)).isLt
  have h5 := (getLowWord x).isLt
  constructor <;> apply BitVec.eq_of_toNat_eq <;> omega

theorem set_low_word (x : Flt f64) (w : BitVec 32) :
    getLowWord (withSetLowWord x w) = w ∧ getHighWord (withSetLowWord x w) = getHighWord x := by
  have h1 := w.isLt
  generalize hb : (show BitVec 64 from x.toBits) = b
  have hb' : x.enc = b.toNat := by rw [← hb]; rfl
  have e0 : (b &&& 0xffffffff00000000#64).toNat = x.enc - x.enc % 2 ^ 32 := by
    have := BV.and_not_low (x := b) (m := 0xffffffff#64) (k := 32) (by decide)
    have e : (0xffffffff00000000#64) = ~~~(0xffffffff#64) := by decide
    rw [e, hb']; exact this
  have e : (withSetLowWord x w).enc = (x.enc - x.enc % 2 ^ 32) + w.toNat := by
    have : (withSetLowWord x w).enc = ((b &&& 0xffffffff00000000#64) |||
      BitVec.setWidth 64 w).toNat := by rw [← hb]; rfl
    rw [this]
    show ((b &&& 0xffffffff00000000#64) ||| BitVec.setWidth 64 w).toNat = _
    have e2 : (BitVec.setWidth 64 w).toNat = w.toNat := by rw [BitVec.toNat_setWidth]; omega
    rw [BV.or_disjoint (k := 32) (by rw [e0]; omega) (by rw [e2]; exact h1), e0, e2]
  have s := words_split (withSetLowWord x w)
  have s2 := words_split x
  rw [e] at s
  have h3 := (getHighWord (withSetLowWord x w)).isLt
  have h4 := (getLowWord (withSetLowWord x w)).isLt
  have h5 := (getLowWord x).isLt
  constructor <;> apply BitVec.eq_of_toNat_eq <;> omega

example : getHighWord (ofNat f64 0x3ff0000012345678) = 0x3ff00000#32 ∧
    getLowWord (ofNat f64 0x3ff0000012345678) = 0x12345678#32 := by decide

/-! ## C41 -/

/-- the accessors read the IEEE fields -/
theorem accessors (x : Flt F) :
    ex x = x.expField ∧ expUnbiased x = (x.expField : Int) - F.bias ∧
    (frac x).toNat = x.fracField :=
  ⟨ex_eq x, expUnbiased_eq x, frac_toNat x⟩

/-- taking a float apart and rebuilding it is the identity -/
theorem fromParts_parts (x : Flt F) : fromParts F x.sign (ex x) (frac x) = x := by
  rw [fromParts_eq, ex_eq, frac_toNat, Nat.mod_eq_of_lt x.expField_lt,
    Nat.mod_eq_of_lt x.fracField_lt, ← x.mb_eq, mk'_self]

/-- the parts of a built float are the (masked) inputs -/
theorem parts_fromParts (s : Bool) (e : Nat) (m : BitVec F.bits) :
    (fromParts F s e m).sign = s ∧ (fromParts F s e m).expField = e % 2 ^ F.ew ∧
    (fromParts F s e m).fracField = m.toNat % 2 ^ F.sb := by
  have h1 : e % 2 ^ F.ew < 2 ^ F.ew := Nat.mod_lt _ (Nat.two_pow_pos _)
  have h2 : m.toNat % 2 ^ F.sb < 2 ^ F.sb := Nat.mod_lt _ (Nat.two_pow_pos _)
  have hb : e % 2 ^ F.ew * 2 ^ F.sb + m.toNat % 2 ^ F.sb < 2 ^ (F.ew + F.sb) := by
    rw [F.two_pow_es]
    have := Nat.mul_le_mul_right (2 ^ F.sb) (Nat.succ_le_of_lt h1)
    rw [Nat.succ_mul] at this; omega
  rw [fromParts_eq]
  refine ⟨sign_mk' hb, ?_, ?_⟩
  · rw [expField_eq, mb_mk' hb, Nat.add_comm, Nat.add_mul_div_right _ _ (Nat.two_pow_pos _),
      Nat.div_eq_of_lt h2, Nat.zero_add]
  · rw [fracField_eq, mb_mk' hb, Nat.add_comm, Nat.add_mul_mod_self_right, Nat.mod_eq_of_lt h2]

/-- value of a built normal number: `± 1.m * 2^(e - bias)` -/
theorem fromParts_value (s : Bool) (e : Nat) (m : BitVec F.bits) (he : 1 ≤ e)
    (he' : e < 2 ^ F.ew - 1) (hm : m.toNat < 2 ^ F.sb) :
    (fromParts F s e m).isFinite ∧
    (fromParts F s e m).toRat = (if s then -1 else 1) *
      (1 + (m.toNat : ℚ) / 2 ^ F.sb) * 2 ^ ((e : ℤ) - F.bias) := by
  obtain ⟨h1, h2, h3⟩ := parts_fromParts (F := F) s e m
  rw [Nat.mod_eq_of_lt (by omega)] at h2
  rw [Nat.mod_eq_of_lt hm] at h3
  constructor
  · unfold isFinite; rw [h2]; omega
  · unfold toRat
    rw [h1, h2, h3, if_neg (by omega : ¬ e = 0)]
    have e1 : (2 : ℚ) ^ ((e : ℤ) - F.bias - F.sb) = 2 ^ ((e : ℤ) - F.bias) / 2 ^ F.sb := by
      rw [zpow_sub₀ (by norm_num) _ (F.sb : ℤ), zpow_natCast]
    rw [e1]
    have : (2 : ℚ) ^ F.sb ≠ 0 := by positivity
    push_cast
    field_simp

example : fromParts f32 true 128 0x400000#32 = ofNat f32 0xc0400000 := by decide

theorem expMask_toNat : (expMask F).toNat = F.infEnc := by
  unfold expMask
  have h : (signMask F ||| sigMask F).toNat = 2 ^ (F.ew + F.sb) + (2 ^ F.sb - 1) := by
    rw [BV.or_disjoint (k := F.sb), toNat_signMask, toNat_sigMask]
    · rw [toNat_signMask]; exact pow_dvd_pow 2 (by omega)
    · rw [toNat_sigMask]; have := Nat.two_pow_pos F.sb; omega
  rw [BitVec.toNat_not, h, F.two_pow_bits]
  have := F.infEnc_add
  have := Nat.two_pow_pos F.sb
  omega

/-- `is_subnormal` holds exactly for zero and the subnormal numbers (exponent field zero).
So it is *not* IEEE's isSubnormal: it accepts zero. -/
theorem isSubnormal_iff (x : Flt F) : isSubnormal x = true ↔ x.expField = 0 := by
  unfold isSubnormal
  rw [beq_iff_eq, ← BitVec.toNat_inj]
  have e : expMask F = ~~~(sigMask F) &&& ~~~(signMask F) := by
    unfold expMask; rw [BitVec.not_or, BitVec.and_comm]
  rw [e, ← BitVec.and_assoc, and_not_signMask, BV.and_not_low toNat_sigMask]
  show (x.enc - x.enc % 2 ^ F.sb) % 2 ^ (F.ew + F.sb) = _ ↔ _
  unfold expField
  have h1 : x.enc - x.enc % 2 ^ F.sb = 2 ^ F.sb * (x.enc / 2 ^ F.sb) := by
    have := Nat.div_add_mod x.enc (2 ^ F.sb); omega
  rw [h1, Nat.add_comm, pow_add, Nat.mul_mod_mul_left]
  simp

theorem isSubnormal_zero_wrong : ∃ x : Flt f64, x.isZero ∧ isSubnormal x = true :=
  ⟨zero f64 false, by decide, by decide⟩

/-- `eq_repr` is bit equality up to NaN -/
theorem eqRepr_iff (x y : Flt F) : eqRepr x y = true ↔ (x.isNaN ∧ y.isNaN) ∨ x = y := by
  unfold eqRepr
  split
  · simp_all
  · rename_i h
    simp only [h, false_or, beq_iff_eq]
    constructor
    · intro h; cases x; cases y; simp_all
    · intro h; rw [h]

theorem minVal_enc : (minVal F).sign = true ∧ (minVal F).mb + 1 + 2 ^ F.sb = 2 ^ (F.ew + F.sb) := by
  have hb : F.sb < F.bits := by rw [F.bits_eq]; omega
  have h1 : (minVal F).enc = 2 ^ F.bits - 1 - 2 ^ F.sb := by
    show (BitVec.allOnes F.bits &&& ~~~(1#_ <<< F.sb)).toNat = _
    rw [BitVec.allOnes_and, BitVec.toNat_not, BV.one_shl hb]
  have h2 := F.two_pow_bits
  have h3 := F.infEnc_add
  have h4 := F.infEnc_pos
  have h5 := F.sb_pow_ge
  have hs : (minVal F).sign = true := by
    unfold sign; rw [h1]; simp; omega
  refine ⟨hs, ?_⟩
  have := (minVal F).enc_eq
  rw [hs, h1] at this
  simp at this; omega

/-- `MIN` / `MAX` are finite and bound all finite numbers -/
theorem min_max_bound (x : Flt F) (hx : x.isFinite) :
    (minVal F).isFinite ∧ (maxVal F).isFinite ∧
    (minVal F).toRat ≤ x.toRat ∧ x.toRat ≤ (maxVal F).toRat := by
  obtain ⟨h1, h2⟩ := minVal_enc (F := F)
  have h3 := F.infEnc_add
  have hf : (minVal F).isFinite := by rw [isFinite_iff]; omega
  have hm : x.mag ≤ (minVal F).mag := by
    unfold mag; rw [magOf_le]; have := x.isFinite_iff.mp hx; omega
  refine ⟨hf, (isFinite_neg _).mpr hf, ?_, ?_⟩
  · rw [toRat_le, sval, h1]; unfold sval; simp; split <;> omega
  · unfold maxVal; rw [toRat_le, sval_neg, sval, sval, h1]; simp; split <;> omega

/-- `EPSILON` is the gap above 1 -/
theorem epsilon_spec :
    (epsilon F).toRat = 1 / 2 ^ F.sb ∧
    ∀ x : Flt F, x.isFinite → 1 < x.toRat → 1 + (epsilon F).toRat ≤ x.toRat := by
  have hb := F.sb_lt_bias
  have hone : (one F).toRat = 1 := by
    rw [toRat_eq, sval, sign_one, mag_one]; simpa using F.oneMag_mul_ulp
  have he : (epsilon F).toRat = (2 ^ (F.bias - 1) : ℕ) * F.ulp := by
    rw [toRat_eq, sval, sign_epsilon, mag_epsilon]; simp
  have hu : F.ulp = 1 / (F.oneMag : ℚ) := by
    have := F.oneMag_mul_ulp
    have h2 : (F.oneMag : ℚ) ≠ 0 := by exact_mod_cast F.oneMag_pos.ne'
    field_simp; linarith
  refine ⟨?_, ?_⟩
  · rw [he, hu]
    unfold Fmt.oneMag
    push_cast
    rw [pow_add]
    have : (2 : ℚ) ^ (F.bias - 1) ≠ 0 := by positivity
    have : (2 : ℚ) ^ F.sb ≠ 0 := by positivity
    field_simp
  · intro x hx h1
    rw [← hone, toRat_lt] at h1
    have hs : (one F).sval = F.oneMag := by rw [sval, sign_one, mag_one]; simp
    rw [hs] at h1
    have hpos := F.oneMag_pos
    have hxs : x.sval = x.mag := by
      unfold sval at h1 ⊢; split
      · rename_i h; rw [h] at h1; simp at h1; omega
      · rfl
    rw [hxs] at h1
    have h2 : magOf F.sb (F.bias * 2 ^ F.sb) < magOf F.sb x.mb := by
      have e : magOf F.sb (F.bias * 2 ^ F.sb) = F.oneMag := by rw [← mag_one, mag, mb_one]
      rw [e]; exact_mod_cast h1
    rw [magOf_lt] at h2
    have h3 : magOf F.sb (F.bias * 2 ^ F.sb + 1) ≤ x.mag := by
      unfold mag; rw [magOf_le]; omega
    have e3 : magOf F.sb (F.bias * 2 ^ F.sb + 1) = F.oneMag + 2 ^ (F.bias - 1) := by
      have := magOf_split F.sb (F.bias - 1) (2 ^ F.sb + 1)
        (by rw [pow_succ]; have := F.sb_pow_ge; omega) (Or.inl (by omega))
      have e4 : (F.bias - 1) * 2 ^ F.sb + (2 ^ F.sb + 1) = F.bias * 2 ^ F.sb + 1 := by
        obtain ⟨k, hk⟩ : ∃ k, F.bias = k + 1 := ⟨F.bias - 1, by omega⟩
        rw [hk, Nat.add_sub_cancel]; ring
      rw [e4] at this
      rw [this, Fmt.oneMag, pow_add]; ring
    rw [he, toRat_eq, hxs, ← F.oneMag_mul_ulp, ← add_mul]
    apply mul_le_mul_of_nonneg_right _ F.ulp_pos.le
    rw [e3] at h3
    exact_mod_cast h3

/-- `MIN_POSITIVE_NORMAL` is `2^EXP_MIN`, the least number with nonzero exponent field -/
theorem minPositiveNormal_spec :
    (minPositiveNormal F).toRat = 2 ^ (expMin F) ∧ (minPositiveNormal F).expField = 1 ∧
    ∀ x : Flt F, x.isFinite → 0 < x.toRat → x.expField ≠ 0 →
      (minPositiveNormal F).toRat ≤ x.toRat := by
  have h2 := F.sb_pow_ge
  have hew := F.ew_pow_ge
  have he : (minPositiveNormal F).enc = 2 ^ F.sb := BV.one_shl (by rw [F.bits_eq]; omega)
  have hlt : 2 ^ F.sb < 2 ^ (F.ew + F.sb) :=
    Nat.pow_lt_pow_right (by norm_num) (by have := F.hew; omega)
  have hs : (minPositiveNormal F).sign = false := by
    unfold sign; rw [he]; simp; omega
  have hx : (minPositiveNormal F).expField = 1 := by
    unfold expField; rw [he, Nat.div_self (by omega)]; exact Nat.mod_eq_of_lt (by omega)
  have hf : (minPositiveNormal F).fracField = 0 := by unfold fracField; rw [he, Nat.mod_self]
  refine ⟨?_, hx, ?_⟩
  · unfold toRat
    rw [hs, hx, hf, if_neg (by norm_num)]
    unfold expMin expMax
    rw [expBias_eq]
    simp
    rw [← zpow_natCast, ← zpow_add₀ (by norm_num)]
    congr 1; ring
  · intro x hx0 hx1 hx2
    have h0 : 0 < x.sval := by
      have := toRat_lt (x := zero F false) (y := x)
      simpa [hx1] using this.mp (by simpa using hx1)
    rw [toRat_le]
    have e1 : (minPositiveNormal F).sval = (minPositiveNormal F).mag := by rw [sval, hs]; simp
    have e2 : x.sval = x.mag := by
      unfold sval at h0 ⊢; split
      · rename_i h; rw [h] at h0; simp at h0; omega
      · rfl
    rw [e1, e2]
    have : (minPositiveNormal F).mag ≤ x.mag := by
      unfold mag
      rw [magOf_le, mb_eq, mb_eq, hx, hf]
      have := Nat.mul_le_mul_right (2 ^ F.sb) (Nat.one_le_iff_ne_zero.mpr hx2)
      omega
    exact_mod_cast this

/-- `2^EXP_MIN_SUBNORM` is the least positive value -/
theorem expMinSubnorm_spec (x : Flt F) (hx : 0 < x.toRat) : (2 : ℚ) ^ (expMinSubnorm F) ≤ x.toRat := by
  have e : (2 : ℚ) ^ (expMinSubnorm F) = F.ulp := by
    unfold expMinSubnorm expMin expMax Fmt.ulp
    rw [expBias_eq]; congr 1; ring
  rw [e]
  rw [toRat_eq] at hx ⊢
  have h0 : (0 : ℚ) < x.sval := by
    by_contra h
    have := mul_nonpos_of_nonpos_of_nonneg (not_lt.mp h) F.ulp_pos.le
    linarith
  have h1 : 1 ≤ x.sval := by exact_mod_cast h0
  have : (1 : ℚ) ≤ x.sval := by exact_mod_cast h1
  nlinarith [F.ulp_pos]

/-- `normalize` of a nonzero subnormal significand `m`: the returned pair `(e, s)` has the implicit
bit in place and denotes the same number, `m * 2^1 = s * 2^e` -/
theorem normalize_spec (m : BitVec F.bits) (h0 : 0 < m.toNat) (h1 : m.toNat < 2 ^ F.sb) :
    let (e, s) := normalize F m
    2 ^ F.sb ≤ s.toNat ∧ s.toNat < 2 ^ (F.sb + 1) ∧ e ≤ 0 ∧
    (m.toNat : ℚ) * 2 = s.toNat * 2 ^ e := by
  have hl : m.toNat.log2 < F.sb := (Nat.log2_lt h0.ne').mpr h1
  have hb := F.bits_eq
  have hn : normalize F m = (1 - ((F.sb - m.toNat.log2 : ℕ) : ℤ), m <<< (F.sb - m.toNat.log2)) := by
    unfold normalize
    simp only
    rw [if_neg h0.ne']
    have : ((F.bits - 1 - m.toNat.log2 : ℕ) : ℤ) - F.ew = ((F.sb - m.toNat.log2 : ℕ) : ℤ) := by omega
    rw [this, Int.toNat_natCast]
  rw [hn]
  simp only
  have a1 : 2 ^ m.toNat.log2 ≤ m.toNat := Nat.log2_self_le h0.ne'
  have a2 : m.toNat < 2 ^ (m.toNat.log2 + 1) := Nat.lt_log2_self
  set L := m.toNat.log2
  obtain ⟨k, hk⟩ : ∃ k, F.sb = L + k := ⟨F.sb - L, by omega⟩
  have hkk : F.sb - L = k := by omega
  have hs : (m <<< (F.sb - L)).toNat = m.toNat * 2 ^ k := by
    rw [BV.shl, hkk]
    apply Nat.mod_eq_of_lt
    calc m.toNat * 2 ^ k < 2 ^ (L + 1) * 2 ^ k := Nat.mul_lt_mul_of_pos_right a2 (Nat.two_pow_pos _)
      _ = 2 ^ (F.sb + 1) := by rw [← pow_add]; congr 1; omega
      _ ≤ 2 ^ F.bits := Nat.pow_le_pow_right (by norm_num) (by have := F.hew; omega)
  rw [hs]
  refine ⟨?_, ?_, by omega, ?_⟩
  · rw [hk, pow_add]; exact Nat.mul_le_mul_right _ a1
  · calc m.toNat * 2 ^ k < 2 ^ (L + 1) * 2 ^ k := Nat.mul_lt_mul_of_pos_right a2 (Nat.two_pow_pos _)
      _ = 2 ^ (F.sb + 1) := by rw [← pow_add]; congr 1; omega
  · rw [hkk]
    push_cast
    rw [mul_assoc, ← zpow_natCast, ← zpow_add₀ (by norm_num)]
    rw [show ((k : ℤ) + (1 - k)) = 1 by ring]; simp

example : 0 < (5#64).toNat ∧ (5#64).toNat < 2 ^ f64.sb ∧
    (normalize f64 5#64).1 = -49 ∧ (normalize f64 5#64).2.toNat = 0x14000000000000 := by
  decide +kernel

end Verif
