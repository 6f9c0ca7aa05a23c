import Verif.Theory.Odd
import Verif.Theory.InvKern
import Verif.Props.HypSpecial
import Verif.Theory.SymF
import Verif.Props.Trig

/-!
# The inverse trigonometric functions: branches on the encoding, sign symmetry
-/

namespace Verif
open Flt
variable {F : Fmt}

/-- rounding at most doubles -/
theorem IsRNE.two {q : ℝ} {r : Flt F} (h : IsRNE q r) (hr : r.isFinite) : |r.val| ≤ 2 * |q| := by
  unfold IsRNE at h
  split_ifs at h with hc
  · exact absurd hr (not_finite_of_inf h.1)
  · have h1 := h.2.1 (zero F false) (by simp)
    change |r.val - q| ≤ |(zero F false).val - q| at h1
    rw [val_zero, zero_sub, abs_neg] at h1
    have h2 := abs_sub_abs_le_abs_sub r.val q
    linarith

theorem neg_mul_fin {x R : Flt F} (hf : ¬ (x * R).isNaN) : -x * R = -(x * R) := by
  have h := mul_flip true false x R
  rcases h with h | h
  · simpa [Flt.flip] using h
  · exact absurd h.1 hf

/-- `x + x R` and `x - x R` are odd in `x` when `R` is small -/
theorem odd_poly {x R : Flt F} (hs : 23 ≤ F.sb) (hx : x.isFinite) (hz : ¬ x.isZero) (hx1 : |x.val| ≤ 1) (hb : 127 ≤ F.bias)
    (hR : R.isFinite) (hR1 : |R.val| ≤ 1 / 4) :
    -x + -x * R = -(x + x * R) ∧ -x - -x * R = -(x - x * R) ∧ (x + x * R).isFinite ∧ (x - x * R).isFinite := by
  have htop := AcoshDom.top_big hb
  have hxp : 0 < |x.val| := abs_pos.2 (fun h => hz (isZero_val.2 h))
  have hm := mul_rne hx hR
  have hmf := (hm.finite (by
    rw [abs_mul]
    have : |x.val| * |R.val| ≤ 1 * 1 := by gcongr; linarith
    refine le_trans this (le_trans ?_ htop); norm_num)).1
  have hmb := hm.two hmf
  rw [abs_mul] at hmb
  have hmb2 : |(x * R).val| ≤ |x.val| / 2 := by nlinarith
  have hmn : -x * R = -(x * R) := neg_mul_fin (not_nan_of_finite hmf)
  have hε := AcoshDom.pow_small hs
  have hε0 : (0 : ℝ) < 2 ^ (-1 - (F.sb : ℤ)) := zp _
  have ha := abs_add_le x.val (x * R).val
  have hs' := abs_sub x.val (x * R).val
  have hal := abs_sub_abs_le_abs_sub x.val (-(x * R).val)
  rw [abs_neg, sub_neg_eq_add] at hal
  have hsl := abs_sub_abs_le_abs_sub x.val (x * R).val
  obtain ⟨h1, h2⟩ := AcoshDom.add_r hs hb hx hmf (by linarith)
  obtain ⟨h3, h4⟩ := AcoshDom.sub_r hb hx hmf (by linarith)
  have n1 : ¬ (x + x * R).isZero := fun h => by
    rw [isZero_val.1 h, zero_sub, abs_neg] at h2
    nlinarith
  have n2 : ¬ (x - x * R).isZero := fun h => by
    rw [isZero_val.1 h, zero_sub, abs_neg] at h4
    nlinarith
  rw [hmn]
  exact ⟨((SRel.neg x).add (SRel.neg _)).of_neg h1 n1, ((SRel.neg x).sub (SRel.neg _)).of_neg h3 n2, h1, h3⟩

namespace InvTrig
open Hyp

theorem mask_lt (x : Flt f64) (c : BitVec 32) : ((x.u64 >>> 32).setWidth 32) &&& 0x7fffffff#32 < c ↔ x.mb < c.toNat * 2 ^ 32 := Trig.ix_lt x c
theorem mask_ge (x : Flt f64) (c : BitVec 32) : ((x.u64 >>> 32).setWidth 32) &&& 0x7fffffff#32 ≥ c ↔ c.toNat * 2 ^ 32 ≤ x.mb := Trig.ix_ge x c
theorem mask_le (x : Flt f64) (c : BitVec 32) : ((x.u64 >>> 32).setWidth 32) &&& 0x7fffffff#32 ≤ c ↔ x.mb < (c.toNat + 1) * 2 ^ 32 := Trig.ix_le x c

theorem le_ix (x : Flt f64) (c : BitVec 32) : c ≤ getHighWord x &&& 0x7fffffff#32 ↔ c.toNat * 2 ^ 32 ≤ x.mb := Trig.ix_ge x c
theorem le_ix32 (x : Flt f32) (c : BitVec 32) : c ≤ x.u32 &&& 0x7fffffff#32 ↔ c.toNat ≤ x.mb := Trig.ix32_ge x c

theorem eq_one_iff (x : Flt f64) : (getHighWord x &&& 0x7fffffff#32) - 0x3ff00000#32 ||| getLowWord x = 0#32 ↔ x.mb = 0x3ff0000000000000 := by
  have h1 := hi_abs x
  have h2 := lo_toNat x
  have hb := x.mb_lt
  have h3 : f64.bits - 1 = 63 := by decide
  generalize getHighWord x &&& 0x7fffffff#32 = a at *
  generalize getLowWord x = b at *
  have e : a - 0x3ff00000#32 ||| b = 0#32 ↔ a = 0x3ff00000#32 ∧ b = 0#32 := by
    rw [BitVec.or_eq_zero_iff]
    constructor
    · rintro ⟨h, h'⟩; exact ⟨by rw [← sub_eq_zero]; exact h, h'⟩
    · rintro ⟨h, h'⟩; exact ⟨by rw [h]; rfl, h'⟩
  rw [e, ← BitVec.toNat_inj, ← BitVec.toNat_inj, h1, h2]
  show x.mb / 2 ^ 32 = 0x3ff00000 ∧ x.mb % 2 ^ 32 = 0 ↔ _
  omega

theorem eq32_iff (x : Flt f32) (c : BitVec 32) : x.u32 &&& 0x7fffffff#32 = c ↔ x.mb = c.toNat := by
  rw [← BitVec.toNat_inj, u32_abs]

theorem asin_eq (x : Flt f64) : asin x =
    if 0x3ff00000 * 2 ^ 32 ≤ x.mb then
      if x.mb = 0x3ff0000000000000 then some (x * Asin.pio2Hi + bits64 0x3870000000000000) else some (0.0 / (x - x))
    else if x.mb < 0x3fe00000 * 2 ^ 32 then
      if 0x00100000 * 2 ^ 32 ≤ x.mb ∧ x.mb < 0x3e500000 * 2 ^ 32 then some x else some (x + x * Asin.compR (x * x))
    else (Asin.big x.ab (getHighWord x.ab)).map (flip x.sign) := by
  unfold asin
  have e : Asin.big x.ab (getHighWord x.ab) = Asin.big x (getHighWord x &&& 0x7fffffff#32) := by
    have : getHighWord x.ab = getHighWord x &&& 0x7fffffff#32 := by
      rw [← BitVec.toNat_inj, hi_abs, hi_ab]
    unfold Asin.big
    rw [this, fabs_ab, fabs_ab, ab_of_pos (x := x.ab) (by simp)]
  rw [e]
  dsimp only
  simp only [Hyp.ite_flip _ _ _ (hi_sign_ne x)]
  simp only [BitVec.ofNat_eq_ofNat, Trig.ix_ge, Trig.ix_lt, le_ix, eq_one_iff, BitVec.reduceToNat]

theorem asinf_eq (x : Flt f32) : asinf x =
    if 0x3f800000 ≤ x.mb then
      if x.mb = 0x3f800000 then some ((x.cast f64 * Asinf.pio2 + bits64 0x3870000000000000).cast f32) else some (0.0 / (x - x))
    else if x.mb < 0x3f000000 then
      if 0x00800000 ≤ x.mb ∧ x.mb < 0x39800000 then some x else some (x + x * Asinf.r (x * x))
    else (Asinf.big x.ab).map (flip x.sign) := by
  unfold asinf
  have e : Asinf.big x.ab = Asinf.big x := by
    unfold Asinf.big
    rw [fabs_ab, fabs_ab, ab_of_pos (x := x.ab) (by simp)]
  rw [e]
  dsimp only
  simp only [Hyp.ite_flip _ _ _ (u32_sign_ne x)]
  simp only [BitVec.ofNat_eq_ofNat, Trig.ix32_ge, Trig.ix32_lt, le_ix32, eq32_iff, BitVec.reduceToNat]

theorem hi_sign_ne' (x : Flt f64) : (BitVec.setWidth 32 (x.u64 >>> 32)) >>> 31 ≠ 0 ↔ x.sign = true := hi_sign_ne x
theorem eq_one_iff' (x : Flt f64) : ((BitVec.setWidth 32 (x.u64 >>> 32)) &&& 0x7fffffff#32) - 0x3ff00000#32 ||| BitVec.setWidth 32 x.u64 = 0#32 ↔
    x.mb = 0x3ff0000000000000 := eq_one_iff x

theorem acos_eq (x : Flt f64) : acos x =
    if 0x3ff00000 * 2 ^ 32 ≤ x.mb then
      if x.mb = 0x3ff0000000000000 then
        if x.sign = true then some (2.0 * Asin.pio2Hi + bits64 0x3870000000000000) else some 0.0
      else some (0.0 / (x - x))
    else if x.mb < 0x3fe00000 * 2 ^ 32 then
      if x.mb < 0x3c600001 * 2 ^ 32 then some (Asin.pio2Hi + bits64 0x3870000000000000)
      else some (Asin.pio2Hi - (x - (Asin.pio2Lo - x * Asin.compR (x * x))))
    else if x.sign = true then (sqrt ((1.0 + x) * 0.5)).bind fun s =>
      some (2.0 * (Asin.pio2Hi - (s + (Asin.compR ((1.0 + x) * 0.5) * s - Asin.pio2Lo))))
    else (sqrt ((1.0 - x) * 0.5)).bind fun s =>
      some (2.0 * (bits64 (s.u64 &&& 0xffffffff00000000) + (Asin.compR ((1.0 - x) * 0.5) * s +
        ((1.0 - x) * 0.5 - bits64 (s.u64 &&& 0xffffffff00000000) * bits64 (s.u64 &&& 0xffffffff00000000)) /
          (s + bits64 (s.u64 &&& 0xffffffff00000000))))) := by
  unfold acos
  dsimp only
  simp only [hi_sign_ne']
  simp only [BitVec.ofNat_eq_ofNat, mask_ge, mask_lt, mask_le, eq_one_iff', BitVec.reduceToNat]
  rfl

theorem acosf_eq (x : Flt f32) : acosf x =
    if 0x3f800000 ≤ x.mb then
      if x.mb = 0x3f800000 then
        if x.sign = true then some (2.0 * Asinf.pio2Hi + bits32 0x03800000) else some 0.0
      else some (0.0 / (x - x))
    else if x.mb < 0x3f000000 then
      if x.mb ≤ 0x32800000 then some (Asinf.pio2Hi + bits32 0x03800000)
      else some (Asinf.pio2Hi - (x - (Asinf.pio2Lo - x * Asinf.r (x * x))))
    else if x.sign = true then (sqrtf ((1.0 + x) * 0.5)).bind fun s =>
      some (2.0 * (Asinf.pio2Hi - (s + (Asinf.r ((1.0 + x) * 0.5) * s - Asinf.pio2Lo))))
    else (sqrtf ((1.0 - x) * 0.5)).bind fun s =>
      some (2.0 * (bits32 (s.u32 &&& 0xfffff000) + (Asinf.r ((1.0 - x) * 0.5) * s +
        ((1.0 - x) * 0.5 - bits32 (s.u32 &&& 0xfffff000) * bits32 (s.u32 &&& 0xfffff000)) /
          (s + bits32 (s.u32 &&& 0xfffff000))))) := by
  unfold acosf
  dsimp only
  simp only [u32_sign_ne]
  simp only [BitVec.ofNat_eq_ofNat, Trig.ix32_ge, Trig.ix32_lt, Trig.ix32_le, eq32_iff, BitVec.reduceToNat]
  rfl

/-- `atan`, the branches above `7/16`: table index and reduced argument -/
def atanArg (a : Flt f64) : ℕ × Flt f64 :=
  if a.mb < 0x3ff30000 * 2 ^ 32 then
    if a.mb < 0x3fe60000 * 2 ^ 32 then (0, (2.0 * a - 1.0) / (2.0 + a)) else (1, (a - 1.0) / (a + 1.0))
  else if a.mb < 0x40038000 * 2 ^ 32 then (2, (a - 1.5) / (1.0 + 1.5 * a))
  else (3, -1.0 / a)

/-- the value on the branches above `7/16` -/
def atanVal (hi lo y : Flt f64) : Flt f64 := hi - (y * Atan.poly y - lo - y)

theorem atan_eq (x : Flt f64) : atan x =
    if 0x44100000 * 2 ^ 32 ≤ x.mb then
      if x.isNaN then some x
      else (Atan.atanhi[3]?).map fun hi => flip x.sign (hi + bits64 0x03800000)
    else if x.mb < 0x3e400000 * 2 ^ 32 then some x
    else if x.mb < 0x3fdc0000 * 2 ^ 32 then some (x - x * Atan.poly x)
    else (Atan.atanhi[(atanArg x.ab).1]?).bind fun hi => (Atan.atanlo[(atanArg x.ab).1]?).map fun lo =>
      flip x.sign (atanVal hi lo (atanArg x.ab).2) := by
  unfold atan
  dsimp only
  simp only [Hyp.ite_flip _ _ _ (hi_sign_ne' x)]
  simp only [BitVec.ofNat_eq_ofNat, mask_ge, mask_lt, BitVec.reduceToNat]
  by_cases h1 : 0x44100000 * 2 ^ 32 ≤ x.mb
  · rw [if_pos h1, if_pos h1]
    rfl
  · rw [if_neg h1, if_neg h1]
    by_cases h2 : x.mb < 0x3e400000 * 2 ^ 32
    · rw [if_pos ⟨by omega, h2⟩, if_pos h2]
    · rw [if_neg (fun h => h2 h.2), if_neg h2]
      unfold Atan.reduce atanArg
      simp only [mask_lt, BitVec.reduceToNat, ab_mb, fabs_ab]
      by_cases h3 : x.mb < 0x3fdc0000 * 2 ^ 32
      · rw [if_pos h3, if_pos h3]
        rfl
      · rw [if_neg h3, if_neg h3]
        split_ifs <;> first | rfl | (exfalso; simp_all; done)

/-- `atanf`, the branches above `7/16`: table index and reduced argument -/
def atanfArg (a : Flt f32) : ℕ × Flt f32 :=
  if a.mb < 0x3f980000 then
    if a.mb < 0x3f300000 then (0, (2.0 * a - 1.0) / (2.0 + a)) else (1, (a - 1.0) / (a + 1.0))
  else if a.mb < 0x401c0000 then (2, (a - 1.5) / (1.0 + 1.5 * a))
  else (3, -1.0 / a)

def atanfVal (hi lo y : Flt f32) : Flt f32 := hi - (y * Atanf.poly y - lo - y)

theorem atanf_eq (x : Flt f32) : atanf x =
    if 0x4c800000 ≤ x.mb then
      if x.isNaN then some x
      else (Atanf.atanHi[3]?).map fun hi => flip x.sign (hi + bits32 0x03800000)
    else if x.mb < 0x39800000 then some x
    else if x.mb < 0x3ee00000 then some (x - x * Atanf.poly x)
    else (Atanf.atanHi[(atanfArg x.ab).1]?).bind fun hi => (Atanf.atanLo[(atanfArg x.ab).1]?).map fun lo =>
      flip x.sign (atanfVal hi lo (atanfArg x.ab).2) := by
  unfold atanf
  dsimp only
  simp only [Hyp.ite_flip _ _ _ (u32_sign_ne x)]
  simp only [BitVec.ofNat_eq_ofNat, Trig.ix32_ge, Trig.ix32_lt, BitVec.reduceToNat]
  by_cases h1 : 0x4c800000 ≤ x.mb
  · rw [if_pos h1, if_pos h1]
    rfl
  · rw [if_neg h1, if_neg h1]
    by_cases h2 : x.mb < 0x39800000
    · rw [if_pos ⟨by omega, h2⟩, if_pos h2]
    · rw [if_neg (fun h => h2 h.2), if_neg h2]
      unfold Atanf.reduce atanfArg
      simp only [Trig.ix32_lt, BitVec.reduceToNat, ab_mb, fabs_ab]
      by_cases h3 : x.mb < 0x3ee00000
      · rw [if_pos h3, if_pos h3]
        rfl
      · rw [if_neg h3, if_neg h3]
        split_ifs <;> first | rfl | (exfalso; simp_all; done)

end InvTrig
end Verif
