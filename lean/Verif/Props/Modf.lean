import Verif.Theory.Decomp
import Verif.Theory.Add
import Verif.Theory.Integral
import Verif.Props.Integral

/-! # C15 modf, C16 nextafter -/

namespace Verif
open Flt Generic
variable {F : Fmt}

/-! ## modf -/

/-- format-independent form of `modf` and `modff` -/
def modfG (x : Flt F) : Flt F × Flt F :=
  if expUnbiased x ≥ F.sb then
    if x.isNaN then (x, x) else (⟨x.toBits &&& signMask F⟩, x)
  else if expUnbiased x < 0 then (x, ⟨x.toBits &&& signMask F⟩)
  else
    if x.toBits &&& (sigMask F >>> (expUnbiased x).toNat) = 0#_ then (⟨x.toBits &&& signMask F⟩, x)
    else
      (x - ⟨x.toBits &&& ~~~(sigMask F >>> (expUnbiased x).toNat)⟩,
        ⟨x.toBits &&& ~~~(sigMask F >>> (expUnbiased x).toNat)⟩)

theorem rep_mod (x : Flt F) (h0 : 0 ≤ expUnbiased x) (h1 : expUnbiased x < F.sb) :
    ∃ b, magOf F.sb b = x.mag % F.oneMag := by
  have he := expUnbiased_eq x
  have hb := F.sb_lt_bias
  have hm := mag_eq_fields x
  rw [if_neg (by omega)] at hm
  have hk : F.oneMag = 2 ^ (F.bias + F.sb - x.expField) * 2 ^ (x.expField - 1) := by
    unfold Fmt.oneMag; rw [← pow_add]; congr 1; omega
  rw [hm, hk, Nat.mul_mod_mul_right]
  apply rep_mul_pow
  have := x.fracField_lt
  calc _ ≤ _ := Nat.mod_le _ _
    _ ≤ _ := by rw [pow_succ]; omega

theorem modfG_finite (x : Flt F) (hx : x.isFinite) :
    (modfG x).2 = trunc x ∧ (modfG x).1.isFinite ∧ (modfG x).1.sign = x.sign ∧
    (modfG x).1.mag = x.mag % F.oneMag := by
  obtain ⟨t1, t2, t3⟩ := trunc_char x hx
  unfold modfG
  rw [sign_only]
  by_cases h1 : expUnbiased x ≥ F.sb
  · have hr := regime_large h1
    rw [if_pos h1, if_neg (not_nan_of_finite hx)]
    refine ⟨eq_of_sign_mag t2.symm ?_, by simp, by simp, by simp [hr]⟩
    rw [t3]; unfold downMag; simp [hr]
  · rw [if_neg h1]
    by_cases h0 : expUnbiased x < 0
    · have hr := regime_small h0
      rw [if_pos h0]
      refine ⟨eq_of_sign_mag (by simp [t2]) ?_, hx, rfl, (Nat.mod_eq_of_lt hr).symm⟩
      rw [t3]; unfold downMag; rw [Nat.mod_eq_of_lt hr]; simp
    · rw [if_neg h0]
      have h0' : 0 ≤ expUnbiased x := by omega
      have h1' : expUnbiased x < F.sb := by omega
      obtain ⟨a1, a2, a3, a4, a5, a6⟩ := mid_facts h0' h1'
      obtain ⟨c1, c2, c3, c4⟩ := mid_down h0' h1'
      have hz := and_low_eq_zero x a1 a4
      split
      · rename_i hh
        have hr := c2.mp (hz.mp hh)
        refine ⟨eq_of_sign_mag t2.symm ?_, by simp, by simp, by simp [hr]⟩
        rw [t3]; unfold downMag; simp [hr]
      · rename_i hh
        have hr : x.mag % F.oneMag ≠ 0 := fun h => hh (hz.mpr (c2.mpr h))
        have e : (⟨x.toBits &&& ~~~(sigMask F >>> (expUnbiased x).toNat)⟩ : Flt F) = trunc x := by
          rw [clear_low x a1 a4]
          have hl := x.mb_lt
          refine eq_of_sign_mag ?_ ?_
          · rw [sign_mk' (by omega), t2]
          · rw [mag_mk' (by omega), t3]; exact c1
        rw [e]
        refine ⟨rfl, ?_⟩
        have hd := downMag_add x
        have e2 : x - trunc x = roundMag F x.sign (x.mag % F.oneMag) 1 := by
          rw [sub_eq_add_neg', add_opp hx (by simpa using t1) (by simp [t2]) (by rw [mag_neg, t3]; omega),
            mag_neg, t3]
          congr 1; omega
        rw [e2]
        refine roundMag_rep (by norm_num) (rep_mod x h0' h1') ?_ (by ring)
        exact lt_of_le_of_lt (Nat.mod_le _ _) (mag_lt_inf hx)

theorem modfG_eq64 (x : Flt f64) : modf x = modfG x := by
  have he : (((show BitVec 64 from x.toBits) >>> 52 &&& 0x7ff#64).toNat : Int) - 0x3ff = expUnbiased x := by
    rw [expUnbiased_eq]
    have := expField_bits (F := f64) x (m := 0x7ff#64) (by decide)
    have h2 : f64.bias = 0x3ff := by decide
    rw [h2, ← this]; rfl
  unfold modf modfG
  simp only
  rw [he]
  have hnan : (expUnbiased x = 0x400 ∧ (show BitVec 64 from x.toBits) <<< 12 ≠ 0#64) ↔ x.isNaN := by
    rw [expUnbiased_eq]
    have h2 : f64.bias = 0x3ff := by decide
    have h3 : 2 ^ f64.ew - 1 = 0x7ff := by decide
    have h4 : ((show BitVec 64 from x.toBits) <<< 12 = 0#64) ↔ x.fracField = 0 := by
      rw [← BitVec.toNat_inj, BV.shl]
      show x.enc * 2 ^ 12 % (2 ^ 52 * 2 ^ 12) = 0 ↔ _
      rw [Nat.mul_mod_mul_right]
      show x.fracField * 2 ^ 12 = 0 ↔ _
      omega
    unfold isNaN
    rw [h2, h3, ne_eq, h4]
    constructor
    · rintro ⟨a, b⟩; exact ⟨by omega, b⟩
    · rintro ⟨a, b⟩; exact ⟨by omega, b⟩
  by_cases h1 : expUnbiased x ≥ 52
  · rw [if_pos h1, if_pos (show expUnbiased x ≥ (f64.sb : Int) from h1)]
    by_cases hn : x.isNaN
    · rw [if_pos hn, if_pos (hnan.mpr hn)]
    · rw [if_neg hn, if_neg (fun h => hn (hnan.mp h))]; rfl
  · rw [if_neg h1, if_neg (show ¬ expUnbiased x ≥ (f64.sb : Int) from h1)]
    rfl

theorem modfG_eq32 (x : Flt f32) : modff x = modfG x := by
  have he : (((show BitVec 32 from x.toBits) >>> 23 &&& 0xff#32).toNat : Int) - 0x7f = expUnbiased x := by
    rw [expUnbiased_eq]
    have := expField_bits (F := f32) x (m := 0xff#32) (by decide)
    have h2 : f32.bias = 0x7f := by decide
    rw [h2, ← this]; rfl
  unfold modff modfG
  simp only
  rw [he]
  have hnan : (expUnbiased x = 0x80 ∧ (show BitVec 32 from x.toBits) <<< 9 ≠ 0#32) ↔ x.isNaN := by
    rw [expUnbiased_eq]
    have h2 : f32.bias = 0x7f := by decide
    have h3 : 2 ^ f32.ew - 1 = 0xff := by decide
    have h4 : ((show BitVec 32 from x.toBits) <<< 9 = 0#32) ↔ x.fracField = 0 := by
      rw [← BitVec.toNat_inj, BV.shl]
      show x.enc * 2 ^ 9 % (2 ^ 23 * 2 ^ 9) = 0 ↔ _
      rw [Nat.mul_mod_mul_right]
      show x.fracField * 2 ^ 9 = 0 ↔ _
      omega
    unfold isNaN
    rw [h2, h3, ne_eq, h4]
    constructor
    · rintro ⟨a, b⟩; exact ⟨by omega, b⟩
    · rintro ⟨a, b⟩; exact ⟨by omega, b⟩
  by_cases h1 : expUnbiased x ≥ 23
  · rw [if_pos h1, if_pos (show expUnbiased x ≥ (f32.sb : Int) from h1)]
    by_cases hn : x.isNaN
    · rw [if_pos hn, if_pos (hnan.mpr hn)]
    · rw [if_neg hn, if_neg (fun h => hn (hnan.mp h))]; rfl
  · rw [if_neg h1, if_neg (show ¬ expUnbiased x ≥ (f32.sb : Int) from h1)]
    rfl

/-- what C15 says of a pair `(f, i)` produced from a finite `x`: `i` is `x` rounded toward zero,
`f` is exactly the rest, and both carry the sign bit of `x` -/
def IsModf (x f i : Flt F) : Prop :=
  f.isFinite ∧ i.isFinite ∧ f.sign = x.sign ∧ i.sign = x.sign ∧
  i.toRat = (if x.toRat < 0 then (⌈x.toRat⌉ : ℚ) else (⌊x.toRat⌋ : ℚ)) ∧
  f.toRat + i.toRat = x.toRat ∧ |f.toRat| < 1

theorem modfG_isModf (x : Flt F) (hx : x.isFinite) : IsModf x (modfG x).1 (modfG x).2 := by
  obtain ⟨h1, h2, h3, h4⟩ := modfG_finite x hx
  obtain ⟨t1, t2, t3⟩ := trunc_finite x hx
  rw [h1]
  refine ⟨h2, t1, h3, t2, t3, ?_, ?_⟩
  · rw [toRat_eq, toRat_eq, toRat_eq, sval, sval, sval, h3, h4, (trunc_char x hx).2.1, (trunc_char x hx).2.2]
    have hd := downMag_add x
    have hd' : (x.downMag : ℚ) + (x.mag % F.oneMag : ℕ) = x.mag := by exact_mod_cast hd
    rw [← add_mul]
    congr 1
    cases x.sign
    · simp only [Bool.false_eq_true, if_false, Int.cast_natCast]; linarith
    · simp only [if_true, Int.cast_neg, Int.cast_natCast]; linarith
  · rw [toRat_abs, h4, ← F.oneMag_mul_ulp]
    refine mul_lt_mul_of_pos_right ?_ F.ulp_pos
    exact_mod_cast Nat.mod_lt _ F.oneMag_pos

/-- C15 (f64) -/
theorem modf_finite (x : Flt f64) (hx : x.isFinite) : IsModf x (modf x).1 (modf x).2 := by
  rw [modfG_eq64]; exact modfG_isModf x hx

/-- C15 (f32) -/
theorem modff_finite (x : Flt f32) (hx : x.isFinite) : IsModf x (modff x).1 (modff x).2 := by
  rw [modfG_eq32]; exact modfG_isModf x hx

theorem modfG_nonfinite (x : Flt F) (hx : ¬ x.isFinite) :
    modfG x = if x.isNaN then (x, x) else (zero F x.sign, x) := by
  unfold modfG
  have hsb : expUnbiased x ≥ F.sb := by
    rw [expUnbiased_eq]
    unfold isFinite at hx
    have := F.two_bias; have := F.sb_lt_bias; push Not at hx; omega
  rw [if_pos hsb, sign_only]

/-- C15 (f64): an infinity splits into a zero of its sign and itself, a NaN into two NaNs -/
theorem modf_nonfinite (x : Flt f64) (hx : ¬ x.isFinite) :
    modf x = if x.isNaN then (x, x) else (zero f64 x.sign, x) := by
  rw [modfG_eq64]; exact modfG_nonfinite x hx

/-- C15 (f32) -/
theorem modff_nonfinite (x : Flt f32) (hx : ¬ x.isFinite) :
    modff x = if x.isNaN then (x, x) else (zero f32 x.sign, x) := by
  rw [modfG_eq32]; exact modfG_nonfinite x hx

/-- 2.75 = 0.75 + 2, -2.5 = -0.5 + -2 -/
example : modf (ofNat f64 0x4006000000000000) = (ofNat f64 0x3fe8000000000000, ofNat f64 0x4000000000000000) ∧
    modff (ofNat f32 0xc0200000) = (ofNat f32 0xbf000000, ofNat f32 0xc0000000) := by
  constructor <;> decide +kernel

/-! ## nextafter -/

/-- order-preserving integer code of a datum -/
def Flt.key (x : Flt F) : Int := if x.sign then -(x.mb : Int) else x.mb

theorem sval_lt_key (x y : Flt F) : x.sval < y.sval ↔ x.key < y.key := by
  unfold sval key mag
  have h1 := magOf_lt (sb := F.sb) (a := x.mb) (b := y.mb)
  have h2 := magOf_lt (sb := F.sb) (a := y.mb) (b := x.mb)
  have h3 := magOf_pos (sb := F.sb) (b := x.mb)
  have h4 := magOf_pos (sb := F.sb) (b := y.mb)
  cases x.sign <;> cases y.sign <;> simp <;> omega

theorem sval_le_key (x y : Flt F) : x.sval ≤ y.sval ↔ x.key ≤ y.key := by
  have := sval_lt_key y x; omega

theorem sval_eq_key (x y : Flt F) : x.sval = y.sval ↔ x.key = y.key := by
  have := sval_lt_key y x; have := sval_lt_key x y; omega

/-- format-independent form of `nextafter` and `nextafterf` on non-NaN arguments -/
def nextafterG (x y : Flt F) : Flt F :=
  if x = y then y
  else if x.mb = 0 then (if y.mb = 0 then y else mk' F y.sign 1)
  else if y.mb < x.mb ∨ x.sign ≠ y.sign then mk' F x.sign (x.mb - 1)
  else mk' F x.sign (x.mb + 1)

/-- `r` is the next datum after `x` in the direction of `y` -/
def IsNextAfter (x y r : Flt F) : Prop :=
  ¬ r.isNaN ∧
  (x.ext = y.ext → r = y) ∧
  (x.ext < y.ext → x.ext < r.ext ∧ r.ext ≤ y.ext ∧
    ∀ z : Flt F, ¬ z.isNaN → x.ext < z.ext → r.ext ≤ z.ext) ∧
  (y.ext < x.ext → r.ext < x.ext ∧ y.ext ≤ r.ext ∧
    ∀ z : Flt F, ¬ z.isNaN → z.ext < x.ext → z.ext ≤ r.ext) ∧
  (x.ext ≠ y.ext → r.isZero → r.sign = x.sign)

theorem nextafterG_spec (x y : Flt F) (hx : ¬ x.isNaN) (hy : ¬ y.isNaN) :
    IsNextAfter x y (nextafterG x y) := by
  have hx' := hx; have hy' := hy
  rw [isNaN_iff] at hx' hy'
  have hil := F.infEnc_lt
  have hip := F.infEnc_pos
  have hxy : (x.sign = y.sign ∧ x.mb = y.mb) → x = y := fun h => ext_mb h.1 h.2
  -- the result is described by its sign and encoding
  have main : ∀ s b, b ≤ F.infEnc →
      (x.key = y.key → mk' F s b = y) →
      (x.key < y.key → (if s then -(b : Int) else b) = x.key + 1) →
      (y.key < x.key → (if s then -(b : Int) else b) = x.key - 1) →
      (x.key ≠ y.key → b = 0 → s = x.sign) →
      IsNextAfter x y (mk' F s b) := by
    intro s b hb h1 h2 h3 h4
    have hb' : b < 2 ^ (F.ew + F.sb) := by omega
    have hk : (mk' F s b).key = if s then -(b : Int) else b := by
      unfold key; rw [sign_mk' hb', mb_mk' hb']
    have hn : ¬ (mk' F s b).isNaN := by rw [isNaN_iff, mb_mk' hb']; omega
    refine ⟨hn, ?_, ?_, ?_, ?_⟩
    · rw [ext_eq_iff hx hy, sval_eq_key]; exact h1
    · rw [ext_lt_iff hx hy, sval_lt_key]
      intro h
      rw [ext_lt_iff hx hn, sval_lt_key, ext_le_iff hn hy, sval_le_key, hk, h2 h]
      refine ⟨by omega, by omega, fun z hz hlt => ?_⟩
      rw [ext_lt_iff hx hz, sval_lt_key] at hlt
      rw [ext_le_iff hn hz, sval_le_key, hk, h2 h]; omega
    · rw [ext_lt_iff hy hx, sval_lt_key]
      intro h
      rw [ext_lt_iff hn hx, sval_lt_key, ext_le_iff hy hn, sval_le_key, hk, h3 h]
      refine ⟨by omega, by omega, fun z hz hlt => ?_⟩
      rw [ext_lt_iff hz hx, sval_lt_key] at hlt
      rw [ext_le_iff hz hn, sval_le_key, hk, h3 h]; omega
    · rw [ne_eq, ext_eq_iff hx hy, sval_eq_key]
      intro h hz
      rw [isZero_iff, mb_mk' hb'] at hz
      rw [sign_mk' hb']; exact h4 h hz
  unfold nextafterG
  split
  · rename_i h
    have := main y.sign y.mb (by omega) (fun _ => mk'_self y) (by rw [h]; omega) (by rw [h]; omega)
      (by rw [h]; simp)
    rwa [mk'_self] at this
  · rename_i hne
    have hne' : ¬ (x.sign = y.sign ∧ x.mb = y.mb) := fun h => hne (hxy h)
    split
    · rename_i h0
      split
      · rename_i h1
        have e : x.key = y.key := by unfold key; rw [h0, h1]; simp
        have := main y.sign y.mb (by omega) (fun _ => mk'_self y) (by omega) (by omega) (by omega)
        rwa [mk'_self] at this
      · refine main _ _ (by omega) ?_ ?_ ?_ (by omega) <;>
        · unfold key; rw [h0]
          cases x.sign <;> cases y.sign <;> simp <;> omega
    · rename_i h0
      split
      · rename_i hc
        refine main _ _ (by omega) ?_ ?_ ?_ ?_
        · intro h; exfalso; revert h hc hne'; unfold key
          cases x.sign <;> cases y.sign <;> simp <;> omega
        · revert hc hne'; unfold key
          cases x.sign <;> cases y.sign <;> simp <;> omega
        · revert hc hne'; unfold key
          cases x.sign <;> cases y.sign <;> simp <;> omega
        · intros; rfl
      · rename_i hc
        have hs : x.sign = y.sign := by by_contra h; exact hc (Or.inr h)
        have hlt : ¬ y.mb < x.mb := fun h => hc (Or.inl h)
        have hmne : x.mb ≠ y.mb := fun h => hne' ⟨hs, h⟩
        refine main _ _ (by omega) ?_ ?_ ?_ (by omega) <;>
        · revert hne'; unfold key; rw [← hs]
          cases x.sign <;> simp <;> omega

theorem and_abs_mb (x : Flt F) : (x.toBits &&& ~~~(signMask F)).toNat = x.mb := and_not_signMask _

theorem sign_differ (x y : Flt F) :
    ((x.toBits ^^^ y.toBits) &&& signMask F) ≠ 0#_ ↔ x.sign ≠ y.sign := by
  have hd : (x.toBits ^^^ y.toBits) &&& signMask F =
      (x.toBits &&& signMask F) ^^^ (y.toBits &&& signMask F) := by
    ext i; simp [Bool.and_xor_distrib_right]
  rw [hd]
  have hx := signMask_cases x
  have hy := signMask_cases y
  have h1 : (1#F.bits <<< (F.bits - 1)) ≠ 0#F.bits := by
    rw [ne_eq, ← BitVec.toNat_inj]
    have := toNat_signMask (F := F)
    unfold signMask at this
    rw [this]; simp
  rw [hx, hy]
  cases x.sign <;> cases y.sign <;> simp [h1]

theorem dec_mk (x : Flt F) (h : x.mb ≠ 0) :
    (checkedDec x.toBits).map (fun u => (⟨u⟩ : Flt F)) = some (mk' F x.sign (x.mb - 1)) := by
  have he := x.enc_eq
  have hl := x.mb_lt
  have hne : x.toBits.toNat ≠ 0 := by
    show x.enc ≠ 0; omega
  unfold checkedDec
  rw [if_neg (by rw [← BitVec.toNat_inj]; simpa using hne)]
  simp only [Option.map_some, Option.some.injEq]
  apply ext_enc
  rw [enc_mk' (by omega)]
  show (x.toBits - 1#F.bits).toNat = _
  have h1 : (1#F.bits).toNat = 1 := by
    rw [BitVec.toNat_ofNat, Nat.mod_eq_of_lt]
    have := F.sb_pow_ge; have := F.two_pow_bits
    have := F.two_pow_es
    have : 0 < 2 ^ (F.ew + F.sb) := Nat.two_pow_pos _
    omega
  rw [BitVec.toNat_sub_of_le (by rw [BitVec.le_def, h1]; omega), h1]
  show x.enc - 1 = _; omega

theorem inc_mk (x : Flt F) (h : x.mb < F.infEnc) :
    (checkedInc x.toBits).map (fun u => (⟨u⟩ : Flt F)) = some (mk' F x.sign (x.mb + 1)) := by
  have he := x.enc_eq
  have hl := F.infEnc_lt
  have hb := F.two_pow_bits
  have hlt : x.toBits.toNat + 1 < 2 ^ F.bits := by
    show x.enc + 1 < _; rw [he, hb]; split <;> omega
  unfold checkedInc
  rw [if_neg (by rw [← BitVec.toNat_inj, BitVec.toNat_allOnes]; omega)]
  simp only [Option.map_some, Option.some.injEq]
  apply ext_enc
  rw [enc_mk' (by omega)]
  show (x.toBits + 1#F.bits).toNat = _
  have h1 : (1#F.bits).toNat = 1 := by
    rw [BitVec.toNat_ofNat, Nat.mod_eq_of_lt]
    omega
  rw [BitVec.toNat_add, h1, Nat.mod_eq_of_lt hlt]
  show x.enc + 1 = _; omega

theorem sign_or_one (y : Flt F) : (⟨(y.toBits &&& signMask F) ||| 1#_⟩ : Flt F) = mk' F y.sign 1 := by
  have h1 : (1#F.bits).toNat = 1 := by
    rw [BitVec.toNat_ofNat, Nat.mod_eq_of_lt]
    have : 0 < 2 ^ (F.ew + F.sb) := Nat.two_pow_pos _
    have := F.two_pow_bits
    omega
  have hes : 1 < 2 ^ (F.ew + F.sb) := by
    have := F.sb_pow_ge
    have h2 : 2 ^ F.sb ≤ 2 ^ (F.ew + F.sb) := Nat.pow_le_pow_right (by norm_num) (by omega)
    omega
  apply ext_enc
  rw [enc_mk' hes]
  show ((y.toBits &&& signMask F) ||| 1#_).toNat = _
  have e : (y.sign = true) ↔ 2 ^ (F.ew + F.sb) ≤ y.toBits.toNat := by
    unfold sign enc; simp
  rw [BV.or_disjoint (k := F.ew + F.sb), and_signMask, h1]
  · by_cases h : y.sign = true
    · rw [if_pos (e.mp h), if_pos h]; omega
    · rw [if_neg (fun hc => h (e.mpr hc)), if_neg h]
  · rw [and_signMask]; split <;> simp
  · rw [h1]; exact hes

/-- the shared bit-level body -/
theorem nextafter_bits (x y : Flt F) (hx : ¬ x.isNaN) (hy : ¬ y.isNaN) :
    (if x.toBits = y.toBits then some y
    else
      if x.toBits &&& ~~~(signMask F) = 0#_ then
        if y.toBits &&& ~~~(signMask F) = 0#_ then some y
        else some ⟨(y.toBits &&& signMask F) ||| 1#_⟩
      else if y.toBits &&& ~~~(signMask F) < x.toBits &&& ~~~(signMask F) ∨
          (x.toBits ^^^ y.toBits) &&& signMask F ≠ 0#_ then (checkedDec x.toBits).map fun u => ⟨u⟩
      else (checkedInc x.toBits).map fun u => ⟨u⟩) = some (nextafterG x y) := by
  unfold nextafterG
  have e1 : (x.toBits = y.toBits) ↔ x = y := by
    constructor
    · intro h; cases x; cases y; simpa using h
    · rintro rfl; rfl
  have e2 : ∀ z : Flt F, (z.toBits &&& ~~~(signMask F) = 0#_) ↔ z.mb = 0 := by
    intro z; rw [← BitVec.toNat_inj, and_abs_mb]; simp
  have e3 : (y.toBits &&& ~~~(signMask F) < x.toBits &&& ~~~(signMask F)) ↔ y.mb < x.mb := by
    rw [BitVec.lt_def, and_abs_mb, and_abs_mb]
  rw [isNaN_iff] at hx hy
  by_cases h1 : x = y
  · rw [if_pos (e1.mpr h1), if_pos h1]
  · rw [if_neg (fun h => h1 (e1.mp h)), if_neg h1]
    by_cases h2 : x.mb = 0
    · rw [if_pos ((e2 x).mpr h2), if_pos h2]
      by_cases h3 : y.mb = 0
      · rw [if_pos ((e2 y).mpr h3), if_pos h3]
      · rw [if_neg (fun h => h3 ((e2 y).mp h)), if_neg h3, sign_or_one]
    · rw [if_neg (fun h => h2 ((e2 x).mp h)), if_neg h2]
      by_cases h4 : y.mb < x.mb ∨ x.sign ≠ y.sign
      · rw [if_pos h4, if_pos (by rw [e3, sign_differ]; exact h4), dec_mk x h2]
      · rw [if_neg h4, if_neg (by rw [e3, sign_differ]; exact h4), inc_mk]
        by_contra hc
        apply h4; left
        push Not at h4
        have : x.mb ≠ y.mb := fun h => h1 (ext_mb h4.2 h)
        omega

/-- C16 (f64): the result exists (no integer overflow) and is the neighbour of `x` toward `y` -/
theorem nextafter_spec (x y : Flt f64) (hx : ¬ x.isNaN) (hy : ¬ y.isNaN) :
    ∃ r, nextafter x y = some r ∧ IsNextAfter x y r := by
  refine ⟨_, ?_, nextafterG_spec x y hx hy⟩
  rw [← nextafter_bits x y hx hy]
  unfold nextafter
  rw [if_neg (by simp [hx, hy])]
  rfl

/-- C16 (f32) -/
theorem nextafterf_spec (x y : Flt f32) (hx : ¬ x.isNaN) (hy : ¬ y.isNaN) :
    ∃ r, nextafterf x y = some r ∧ IsNextAfter x y r := by
  refine ⟨_, ?_, nextafterG_spec x y hx hy⟩
  rw [← nextafter_bits x y hx hy]
  unfold nextafterf
  rw [if_neg (by simp [hx, hy])]
  rfl

theorem add_nan {x y : Flt F} (h : x.isNaN ∨ y.isNaN) : x + y = qnan F := by
  show Flt.add x y = _
  unfold Flt.add; rw [if_pos h]

/-- C16: NaN arguments give NaN -/
theorem nextafter_nan (x y : Flt f64) (h : x.isNaN ∨ y.isNaN) :
    ∃ r, nextafter x y = some r ∧ r.isNaN := by
  unfold nextafter
  rw [if_pos h, add_nan h]
  exact ⟨_, rfl, by simp⟩

/-- C16 (f32): NaN arguments give NaN -/
theorem nextafterf_nan (x y : Flt f32) (h : x.isNaN ∨ y.isNaN) :
    ∃ r, nextafterf x y = some r ∧ r.isNaN := by
  unfold nextafterf
  rw [if_pos h, add_nan h]
  exact ⟨_, rfl, by simp⟩

/-- the largest finite number steps to infinity, -0 steps to the least positive subnormal -/
example : nextafter (ofNat f64 0x7fefffffffffffff) (inf f64 false) = some (inf f64 false) ∧
    nextafterf (zero f32 true) (one f32) = some (ofNat f32 1) := by
  constructor <;> decide +kernel

end Verif
