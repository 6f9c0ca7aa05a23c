import Verif.Theory.Fma2
import Verif.Theory.Fmod

/-! # Decomposition and alignment of the operands of `fma_round` -/

namespace Verif
open Flt Generic
variable {F : Fmt}

theorem ulp_zpow (F : Fmt) : F.ulp = 2 ^ (-((F.bias - 1 + F.sb : ℕ) : Int)) := by
  have := F.sb_lt_bias
  unfold Fmt.ulp; congr 1; omega

/-- `n` is the normalized form of the nonzero finite number `x` -/
structure IsNormOf (x : Flt F) (n : Norm F) : Prop where
  neg : n.neg = x.sign
  lo : 2 ^ (F.sb + 1) ≤ n.m.toNat
  hi : n.m.toNat < 2 ^ (F.sb + 2)
  even : n.m.toNat % 2 = 0
  val : |x.toRat| = n.m.toNat * 2 ^ n.e
  emax : n.e < zeroInfNan F
  emin : -(2 * F.bias : Int) - F.sb ≤ n.e

theorem norm_sig (y : Flt F) (he : y.expField ≠ 0) :
    (((y.toBits &&& sigMask F) ||| implicitBit F) <<< 1).toNat = 2 * (2 ^ F.sb + y.fracField) ∧
    |y.toRat| = ((2 * (2 ^ F.sb + y.fracField) : ℕ) : ℚ) * 2 ^ ((y.expField : Int) - expUnbias F) := by
  have hbb := F.bits_eq
  have hew := F.hew
  have hf := y.fracField_lt
  constructor
  · rw [BV.shl]
    have := set_implicit y (m := sigMask F) (Or.inl toNat_sigMask)
    unfold implicitBit
    rw [this, Nat.mod_eq_of_lt]
    · ring
    · calc (2 ^ F.sb + y.fracField) * 2 ^ 1 < 2 ^ (F.sb + 2) := by rw [pow_add 2 F.sb]; omega
        _ ≤ 2 ^ F.bits := Nat.pow_le_pow_right (by norm_num) (by omega)
  · rw [toRat_abs, mag_eq_fields, if_neg he, ulp_zpow]
    unfold expUnbias
    rw [expBias_eq]
    have hb := F.sb_lt_bias
    push_cast
    rw [mul_assoc, ← zpow_natCast (2 : ℚ) (y.expField - 1), ← zpow_add₀ (by norm_num), mul_comm (2 : ℚ) (2 ^ F.sb + _), mul_assoc]
    congr 1
    rw [← zpow_one_add₀ (by norm_num)]
    congr 1
    omega

theorem norm_finite (hF : FmaFmt F) {x : Flt F} (hx : x.isFinite) (h0 : ¬ x.isZero) :
    IsNormOf x (normFromFloat x) := by
  have hbb := F.bits_eq
  have hew := F.hew
  have hsb := F.hsb
  have hfit := hF.fit
  have htb := F.two_bias
  have hfl : ∀ y : Flt F, y.fracField < 2 ^ F.sb := fun y => y.fracField_lt
  have hmain : ∀ (y : Flt F) (k : Int), y.isFinite → y.expField ≠ 0 → x.toRat * 2 ^ k = y.toRat → 
      0 ≤ k → (0 < k → y.expField ≤ k + 1) → k < F.bits →
      IsNormOf x ⟨((y.toBits &&& sigMask F) ||| implicitBit F) <<< 1, (y.expField : Int) - k - expUnbias F, x.sign⟩ := by
    intro y k hy he hk hk0 hk1 hk2
    obtain ⟨n1, n2⟩ := norm_sig y he
    have hE : y.expField < 2 ^ F.ew - 1 := by
      have := y.isFinite_iff.mp hy
      have h2 := y.mb_eq
      by_contra hc
      have h3 : (2 ^ F.ew - 1) * 2 ^ F.sb ≤ y.expField * 2 ^ F.sb := Nat.mul_le_mul_right _ (by omega)
      have h4 : F.infEnc = (2 ^ F.ew - 1) * 2 ^ F.sb := by
        rw [F.infEnc_eq, htb]; congr 1
      omega
    refine ⟨rfl, ?_, ?_, ?_, ?_, ?_, ?_⟩
    · show 2 ^ (F.sb + 1) ≤ _
      rw [n1, pow_succ]; omega
    · rw [n1, pow_add]; have := hfl y; omega
    · rw [n1]; omega
    · rw [n1]
      rw [← hk, abs_mul, abs_of_pos (zpow2_pos k)] at n2
      rw [show (y.expField : Int) - k - expUnbias F = ((y.expField : Int) - expUnbias F) - k by ring, zpow_sub₀ (by norm_num), 
        ← mul_div_assoc, ← n2, mul_div_cancel_right₀ _ (zpow2_pos k).ne']
    · show (y.expField : Int) - k - expUnbias F < zeroInfNan F
      unfold zeroInfNan
      rw [expSat_eq]
      omega
    · show _ ≤ (y.expField : Int) - k - expUnbias F
      unfold expUnbias
      rw [expBias_eq]
      omega
  unfold normFromFloat
  rw [ex_eq]
  by_cases he : x.expField = 0
  · rw [if_pos he]
    have hfr : x.fracField ≠ 0 := by
      intro h; apply h0; rw [isZero_iff, mb_eq, he, h]; simp
    obtain ⟨c1, c2, c3⟩ := fromParts_pow (F := F) (e := F.bits - 1 + expBias F) (by rw [expBias_eq]; omega)
      (by rw [expBias_eq]; omega)
    have hmag : x.mag = x.fracField := by rw [mag_eq_fields, if_pos he]
    have hfx := hfl x
    obtain ⟨p1, p2, p3⟩ := mul_pow2_exact hx c1 (k := F.bits - 1) (by
        rw [c3, oneMag_eq, ← pow_add]; congr 1; rw [expBias_eq]; omega)
      (by
        rw [hmag]
        calc x.fracField * 2 ^ (F.bits - 1) < 2 ^ F.sb * 2 ^ (F.bits - 1) := Nat.mul_lt_mul_of_pos_right hfx (Nat.two_pow_pos _)
          _ = 2 ^ (F.sb + (F.bits - 1)) := (pow_add ..).symm
          _ ≤ _ := Nat.pow_le_pow_right (by norm_num) (by omega))
    obtain ⟨y, hy⟩ : ∃ y, y = x * fromParts F false (F.bits - 1 + expBias F) 0#_ := ⟨_, rfl⟩
    simp only [← hy] at p1 p2 p3 ⊢
    rw [c2, Bool.xor_false] at p2
    have hmy : y.mag = x.fracField * 2 ^ (F.bits - 1) := by rw [p3, hmag]
    have hey : y.expField ≠ 0 := by
      intro h
      rw [mag_eq_fields, if_pos h] at hmy
      have h1 := hfl y
      have h2 : 2 ^ F.sb ≤ 2 ^ (F.bits - 1) := Nat.pow_le_pow_right (by norm_num) (by omega)
      have h3 : 1 * 2 ^ (F.bits - 1) ≤ x.fracField * 2 ^ (F.bits - 1) := Nat.mul_le_mul_right _ (by omega)
      omega
    rw [ex_eq, if_neg hey]
    refine hmain y (F.bits - 1 : ℕ) p1 hey ?_ (by omega) ?_ (by omega)
    · rw [toRat_signed x, toRat_signed y, p2, p3, zpow_natCast]; push_cast; ring
    · intro _
      by_contra hc
      rw [mag_eq_fields, if_neg hey] at hmy
      have h1 : 2 ^ F.sb * 2 ^ (F.bits - 1) ≤ (2 ^ F.sb + y.fracField) * 2 ^ (y.expField - 1) :=
        Nat.mul_le_mul (by omega) (Nat.pow_le_pow_right (by norm_num) (by omega))
      have h2 : x.fracField * 2 ^ (F.bits - 1) < 2 ^ F.sb * 2 ^ (F.bits - 1) := Nat.mul_lt_mul_of_pos_right hfx (Nat.two_pow_pos _)
      omega
  · rw [if_neg he]
    have := hmain x 0 hx he (by simp) (by omega) (by omega) (by omega)
    simpa using this

theorem norm_zero (hF : FmaFmt F) {x : Flt F} (h0 : x.isZero) :
    (normFromFloat x).isZeroNanInf = true ∧ (normFromFloat x).isZero = true := by
  have hbb := F.bits_eq
  have hew := F.hew
  have hfit := hF.fit
  have htb := F.two_bias
  have hmb := x.isZero_iff.mp h0
  have he : x.expField = 0 := by rw [expField_eq, hmb]; simp
  obtain ⟨c1, c2, c3⟩ := fromParts_pow (F := F) (e := F.bits - 1 + expBias F) (by rw [expBias_eq]; omega)
    (by rw [expBias_eq]; omega)
  have hm := x.isZero_iff_mag.mp h0
  have hz : (x * fromParts F false (F.bits - 1 + expBias F) 0#_).isZero := by
    rw [mul_finite (finite_of_zero h0) c1, hm, Nat.zero_mul, roundMag_zero _ _ F.oneMag_pos]
    simp
  have hez : (x * fromParts F false (F.bits - 1 + expBias F) 0#_).expField = 0 := by
    rw [expField_eq, (isZero_iff _).mp hz]; simp
  have hE : (normFromFloat x).e = (2 : Int) ^ F.ew - expUnbias F := by
    unfold normFromFloat
    simp only [ex_eq]
    rw [if_pos he]
    simp only [hez, if_true]
  unfold Norm.isZeroNanInf Norm.isZero zeroInfNan
  rw [hE, expSat_eq]
  have h2 : (((2 ^ F.ew - 1 : ℕ)) : Int) = 2 ^ F.ew - 1 := by
    push_cast [Nat.one_le_two_pow (n := F.ew)]; ring
  rw [h2]
  constructor <;> simp

theorem norm_special {x : Flt F} (h : ¬ x.isFinite) :
    (normFromFloat x).isZeroNanInf = true ∧ (normFromFloat x).isZero = false := by
  have h1 : x.expField = 2 ^ F.ew - 1 := by
    have := x.expField_lt
    have h2 : ¬ x.mb < F.infEnc := fun h' => h (x.isFinite_iff.mpr h')
    have h4 : F.infEnc = (2 ^ F.ew - 1) * 2 ^ F.sb := by
      rw [F.infEnc_eq, F.two_bias]; congr 1
    have h5 : 2 ^ F.ew - 1 ≤ x.expField := by
      rw [expField_eq, Nat.le_div_iff_mul_le (Nat.two_pow_pos _), ← h4]; omega
    omega
  have hp := F.ew_pow_ge
  have hE : (normFromFloat x).e = zeroInfNan F := by
    unfold normFromFloat zeroInfNan
    simp only [ex_eq]
    rw [if_neg (by omega), h1, expSat_eq]
  unfold Norm.isZeroNanInf Norm.isZero
  rw [hE]
  constructor <;> simp

theorem norm_not_special (hF : FmaFmt F) {x : Flt F} (hx : x.isFinite) (h0 : ¬ x.isZero) :
    (normFromFloat x).isZeroNanInf = false := by
  have := (norm_finite hF hx h0).emax
  unfold Norm.isZeroNanInf
  simpa using this

/-! ## Alignment -/

theorem SS.of_between {G : ℚ} (hG : 0 < G) {a b : ℚ} (j : ℤ) (a1 : j * G < a) (a2 : a < (j + 1) * G) (b1 : j * G < b)
    (b2 : b < (j + 1) * G) : SS G a b := by
  intro k
  have : ∀ c : ℚ, j * G < c → c < (j + 1) * G → (c < k * G ↔ j + 1 ≤ k) ∧ ¬ c = k * G := by
    intro c c1 c2
    have up : j + 1 ≤ k → ((j : ℚ) + 1) * G ≤ k * G := by
      intro h
      have : ((j : ℚ) + 1) ≤ k := by exact_mod_cast h
      exact mul_le_mul_of_nonneg_right this hG.le
    have dn : k ≤ j → (k : ℚ) * G ≤ j * G := by
      intro h
      have : (k : ℚ) ≤ j := by exact_mod_cast h
      exact mul_le_mul_of_nonneg_right this hG.le
    constructor
    · constructor
      · intro h; by_contra hc; have := dn (by omega); linarith
      · intro h; have := up h; linarith
    · intro h
      rcases le_or_gt k j with h' | h'
      · have := dn h'; linarith
      · have := up h'; linarith
  obtain ⟨u1, u2⟩ := this a a1 a2
  obtain ⟨v1, v2⟩ := this b b1 b2
  exact ⟨by rw [u1, v1], by simp [u2, v2]⟩

/-- the part of the product that is kept when it is shifted below `z` (fma.rs 96-98) -/
def keepBits (P k : Nat) : Nat := if (P / 2 ^ k) % 2 ^ k = 0 then P / 2 ^ k else P / 2 ^ k / 2 * 2 + 1

theorem keep_SS {P k w : Nat} (hk : k ≤ w) (hw : 1 ≤ w) (h : P % 2 ^ k ≠ 0 → (P / 2 ^ k) % 2 ^ w ≠ 0) :
    SS (2 ^ w) ((P : ℚ) / 2 ^ k) (keepBits P k) := by
  have hpk := Nat.two_pow_pos k
  have hG : (0 : ℚ) < 2 ^ w := by positivity
  have hdm := Nat.div_add_mod P (2 ^ k)
  have hml := Nat.mod_lt P hpk
  have hkq : (0 : ℚ) < 2 ^ k := by positivity
  have hdiv : (2 ^ k : ℕ) ∣ 2 ^ w := Nat.pow_dvd_pow 2 hk
  have h2div : 2 ∣ 2 ^ w := dvd_pow_self 2 (by omega)
  generalize hn : P / 2 ^ k = n at *
  have heq : (P : ℚ) = 2 ^ k * n + (P % 2 ^ k : ℕ) := by exact_mod_cast hdm.symm
  have lo : (n : ℚ) ≤ P / 2 ^ k := by rw [le_div_iff₀ hkq, heq]; have : (0 : ℚ) ≤ (P % 2 ^ k : ℕ) := by positivity
                                      linarith
  have hi : (P : ℚ) / 2 ^ k < n + 1 := by
    rw [div_lt_iff₀ hkq, heq]
    have : ((P % 2 ^ k : ℕ) : ℚ) < 2 ^ k := by exact_mod_cast hml
    linarith
  by_cases hex : n % 2 ^ w = 0
  · -- a multiple of the granularity: nothing may have been lost
    have h0 : P % 2 ^ k = 0 := by by_contra hc; exact h hc hex
    have hnk : n % 2 ^ k = 0 := by
      have h1 : 2 ^ w ∣ n := Nat.dvd_of_mod_eq_zero hex
      exact Nat.mod_eq_zero_of_dvd (hdiv.trans h1)
    have : (P : ℚ) / 2 ^ k = n := by
      rw [div_eq_iff hkq.ne', heq, h0]; push_cast; ring
    unfold keepBits
    rw [hn, if_pos hnk, this]
    exact SS.refl _ _
  · have hjm := Nat.div_add_mod n (2 ^ w)
    have hjl := Nat.mod_lt n (Nat.two_pow_pos w)
    generalize n / 2 ^ w = j at *
    have k1 : 2 ^ w * j < n := by omega
    have k2 : n + 1 ≤ 2 ^ w * j + 2 ^ w := by omega
    have k3 : 2 ^ w * j < keepBits P k ∧ keepBits P k < 2 ^ w * j + 2 ^ w := by
      unfold keepBits
      rw [hn]
      obtain ⟨c, hc⟩ := h2div
      have hcj : 2 ^ w * j = 2 * (c * j) := by rw [hc]; ring
      split <;> omega
    have q1 : ((j : ℤ) : ℚ) * 2 ^ w < n := by
      have : ((2 ^ w * j : ℕ) : ℚ) < n := by exact_mod_cast k1
      push_cast at this ⊢; linarith
    have q2 : (n : ℚ) + 1 ≤ (((j : ℤ) : ℚ) + 1) * 2 ^ w := by
      have : ((n + 1 : ℕ) : ℚ) ≤ ((2 ^ w * j + 2 ^ w : ℕ) : ℚ) := by exact_mod_cast k2
      push_cast at this ⊢; linarith
    refine SS.of_between hG (j : ℤ) (by linarith) (by linarith) ?_ ?_
    · have : ((2 ^ w * j : ℕ) : ℚ) < keepBits P k := by exact_mod_cast k3.1
      push_cast at this ⊢; linarith
    · have : (keepBits P k : ℚ) < ((2 ^ w * j + 2 ^ w : ℕ) : ℚ) := by exact_mod_cast k3.2
      push_cast at this ⊢; linarith

theorem BV.split_shl {w d : Nat} (m : BitVec w) (hd : d < w) :
    (m >>> (w - d)).toNat * 2 ^ w + (m <<< d).toNat = m.toNat * 2 ^ d := by
  rw [BV.shr, BV.shl]
  have h : m.toNat / 2 ^ (w - d) = m.toNat * 2 ^ d / 2 ^ w := by
    rw [show (2 : Nat) ^ w = 2 ^ (w - d) * 2 ^ d by rw [← pow_add]; congr 1; omega,
      Nat.mul_div_mul_right _ _ (Nat.two_pow_pos _)]
  rw [h, Nat.mul_comm (_ / _)]
  exact Nat.div_add_mod _ _

/-- what the aligned operands `R = rhi:rlo` and `Z = zhi:zlo` at exponent `e` say about the exact
sum `P·2^exy + σ·mz·2^ez`: if `Q`, their sum is exact, or on the same side of all the boundaries
that matter -/
structure Aligned (F : Fmt) (Q : Prop) (P mz : Nat) (exy ez : Int) (o : BitVec F.bits × BitVec F.bits × BitVec F.bits × BitVec F.bits × Int) : Prop where
  rhi : o.2.1.toNat < 2 ^ (F.bits - 3)
  zhi : o.2.2.2.1.toNat < 2 ^ (F.bits - 3)
  big : 2 ^ F.bits ≤ (o.2.1.toNat + o.2.2.2.1.toNat) * 2 ^ F.bits + o.1.toNat + o.2.2.1.toNat
  e : o.2.2.2.2 = exy ∨ o.2.2.2.2 = ez - F.bits
  val : Q → ∀ σ : ℤ, σ = 1 ∨ σ = -1 →
    (P : ℚ) * 2 ^ exy + σ * (mz * 2 ^ ez) =
        (((o.2.1.toNat * 2 ^ F.bits + o.1.toNat : ℕ) + σ * (o.2.2.2.1.toNat * 2 ^ F.bits + o.2.2.1.toNat : ℕ) : ℤ) : ℚ) * 2 ^ o.2.2.2.2 ∨
    ∃ g : Nat, 2 ^ (g + F.sb + 1) ≤ |((o.2.1.toNat * 2 ^ F.bits + o.1.toNat : ℕ) + σ * (o.2.2.2.1.toNat * 2 ^ F.bits + o.2.2.1.toNat : ℕ) : ℤ)| ∧
      SS (2 ^ ((g : Int) + o.2.2.2.2)) ((P : ℚ) * 2 ^ exy + σ * (mz * 2 ^ ez))
        ((((o.2.1.toNat * 2 ^ F.bits + o.1.toNat : ℕ) + σ * (o.2.2.2.1.toNat * 2 ^ F.bits + o.2.2.1.toNat : ℕ) : ℤ) : ℚ) * 2 ^ o.2.2.2.2)

/-- from exact aligned operands -/
theorem Aligned.exact {Q : Prop} {P mz : Nat} {exy ez e : Int} {rlo rhi zlo zhi : BitVec F.bits}
    (h1 : rhi.toNat < 2 ^ (F.bits - 3)) (h2 : zhi.toNat < 2 ^ (F.bits - 3))
    (h3 : 2 ^ F.bits ≤ (rhi.toNat + zhi.toNat) * 2 ^ F.bits + rlo.toNat + zlo.toNat)
    (h4 : e = exy ∨ e = ez - F.bits)
    (hP : (P : ℚ) * 2 ^ exy = (rhi.toNat * 2 ^ F.bits + rlo.toNat : ℕ) * 2 ^ e)
    (hZ : (mz : ℚ) * 2 ^ ez = (zhi.toNat * 2 ^ F.bits + zlo.toNat : ℕ) * 2 ^ e) :
    Aligned F Q P mz exy ez (rlo, rhi, zlo, zhi, e) := by
  refine ⟨h1, h2, h3, h4, fun _ σ _ => Or.inl ?_⟩
  simp only
  rw [hP, hZ]
  push_cast
  ring

/-- from aligned operands whose product part is on the same side -/
theorem Aligned.low_product {Q : Prop} {P mz : Nat} {exy ez e : Int} {rlo rhi zlo zhi : BitVec F.bits} {R Z g : Nat}
    (h1 : rhi.toNat < 2 ^ (F.bits - 3)) (h2 : zhi.toNat < 2 ^ (F.bits - 3))
    (h3 : 2 ^ F.bits ≤ (rhi.toNat + zhi.toNat) * 2 ^ F.bits + rlo.toNat + zlo.toNat)
    (h4 : e = exy ∨ e = ez - F.bits)
    (hR : rhi.toNat * 2 ^ F.bits + rlo.toNat = R) (hZ' : zhi.toNat * 2 ^ F.bits + zlo.toNat = Z)
    {a : ℚ} (hP : (P : ℚ) * 2 ^ exy = a * 2 ^ e) (hZ : (mz : ℚ) * 2 ^ ez = Z * 2 ^ e)
    (hs : Q → SS (2 ^ g) a R) (hd : 2 ^ g ∣ Z) (hb : R + 2 ^ (g + F.sb + 1) ≤ Z) :
    Aligned F Q P mz exy ez (rlo, rhi, zlo, zhi, e) := by
  refine ⟨h1, h2, h3, h4, fun hQ σ hσ => Or.inr ⟨g, ?_, ?_⟩⟩
  · simp only
    rw [hR, hZ']
    have : ((R + 2 ^ (g + F.sb + 1) : ℕ) : ℤ) ≤ Z := by exact_mod_cast hb
    push_cast at this
    have hp : (0 : ℤ) < 2 ^ (g + F.sb + 1) := by positivity
    rw [le_abs]
    rcases hσ with rfl | rfl
    · left; linarith [Int.natCast_nonneg R]
    · right; linarith
  · simp only
    rw [hR, hZ', hP, hZ]
    obtain ⟨c, hc⟩ := hd
    have := ((hs hQ).add' (c := (σ : ℚ) * Z) (σ * c) (by rw [hc]; push_cast; ring)).scale (zpow2_pos e)
    rw [zpow_add₀ (by norm_num), zpow_natCast]
    have e1 : (a * 2 ^ e + (σ : ℚ) * ((Z : ℚ) * 2 ^ e)) = 2 ^ e * (a + σ * Z) := by ring
    have e2 : (((R : ℤ) + σ * (Z : ℤ) : ℤ) : ℚ) * 2 ^ e = 2 ^ e * (R + σ * Z) := by push_cast; ring
    rw [e1, e2, mul_comm (2 ^ g : ℚ)]
    exact this

/-- from aligned operands whose addend is on the same side -/
theorem Aligned.low_addend {Q : Prop} {P mz : Nat} {exy ez e : Int} {rlo rhi zlo zhi : BitVec F.bits} {R Z g : Nat}
    (h1 : rhi.toNat < 2 ^ (F.bits - 3)) (h2 : zhi.toNat < 2 ^ (F.bits - 3))
    (h3 : 2 ^ F.bits ≤ (rhi.toNat + zhi.toNat) * 2 ^ F.bits + rlo.toNat + zlo.toNat)
    (h4 : e = exy ∨ e = ez - F.bits)
    (hR : rhi.toNat * 2 ^ F.bits + rlo.toNat = R) (hZ' : zhi.toNat * 2 ^ F.bits + zlo.toNat = Z)
    {a : ℚ} (hP : (P : ℚ) * 2 ^ exy = R * 2 ^ e) (hZ : (mz : ℚ) * 2 ^ ez = a * 2 ^ e)
    (hs : Q → SS (2 ^ g) a Z) (hd : 2 ^ g ∣ R) (hb : Z + 2 ^ (g + F.sb + 1) ≤ R) :
    Aligned F Q P mz exy ez (rlo, rhi, zlo, zhi, e) := by
  refine ⟨h1, h2, h3, h4, fun hQ σ hσ => Or.inr ⟨g, ?_, ?_⟩⟩
  · simp only
    rw [hR, hZ']
    have : ((Z + 2 ^ (g + F.sb + 1) : ℕ) : ℤ) ≤ R := by exact_mod_cast hb
    push_cast at this
    have hp : (0 : ℤ) < 2 ^ (g + F.sb + 1) := by positivity
    rw [le_abs]
    left
    rcases hσ with rfl | rfl
    · linarith [Int.natCast_nonneg Z]
    · linarith
  · simp only
    rw [hR, hZ', hP, hZ]
    obtain ⟨c, hc⟩ := hd
    have hs' : SS (2 ^ g) ((σ : ℚ) * a) (σ * Z) := by
      rcases hσ with rfl | rfl
      · simpa using hs hQ
      · simpa using (hs hQ).neg
    have := (hs'.add' (c := (R : ℚ)) c (by rw [hc]; push_cast; ring)).scale (zpow2_pos e)
    rw [zpow_add₀ (by norm_num), zpow_natCast]
    have e1 : ((R : ℚ) * 2 ^ e + (σ : ℚ) * (a * 2 ^ e)) = 2 ^ e * (σ * a + R) := by ring
    have e2 : (((R : ℤ) + σ * (Z : ℤ) : ℤ) : ℚ) * 2 ^ e = 2 ^ e * (σ * Z + R) := by push_cast; ring
    rw [e1, e2, mul_comm (2 ^ g : ℚ)]
    exact this

theorem fmaAlign_spec (hF : FmaFmt F) (nx ny nz : Norm F)
    (x1 : 2 ^ (F.sb + 1) ≤ nx.m.toNat) (x2 : nx.m.toNat < 2 ^ (F.sb + 2)) (x3 : nx.m.toNat % 2 = 0)
    (y1 : 2 ^ (F.sb + 1) ≤ ny.m.toNat) (y2 : ny.m.toNat < 2 ^ (F.sb + 2))
    (z1 : 2 ^ (F.sb + 1) ≤ nz.m.toNat) (z2 : nz.m.toNat < 2 ^ (F.sb + 2))
    :
    Aligned F (∀ k : Nat, 0 < k → k < F.bits → nz.e - (nx.e + ny.e) - F.bits = k →
      nx.m.toNat * ny.m.toNat % 2 ^ k ≠ 0 → nx.m.toNat * ny.m.toNat / 2 ^ k % 2 ^ (F.bits - 1) ≠ 0) (nx.m.toNat * ny.m.toNat) nz.m.toNat (nx.e + ny.e) nz.e (fmaAlign nx ny nz) := by
  have hbb := F.bits_eq
  have hew := F.hew
  have hsb := F.hsb
  have hew2 := hF.ew
  have hwm := Prim.widenMul_exact nx.m ny.m
  obtain ⟨w1, w2, w3⟩ := Prim.lo_hi_exact (Prim.widenMul nx.m ny.m)
  rw [hwm] at w1 w2 w3
  obtain ⟨P, hP⟩ : ∃ P, P = nx.m.toNat * ny.m.toNat := ⟨_, rfl⟩
  rw [← hP] at w1 w2 w3 ⊢
  have P1 : 2 ^ (2 * F.sb + 2) ≤ P := by
    rw [hP, show 2 * F.sb + 2 = (F.sb + 1) + (F.sb + 1) by omega, pow_add]
    exact Nat.mul_le_mul x1 y1
  have P2 : P < 2 ^ (2 * F.sb + 4) := by
    rw [hP, show 2 * F.sb + 4 = (F.sb + 2) + (F.sb + 2) by omega, pow_add]
    exact Nat.mul_lt_mul'' x2 y2
  have P3 : 2 ∣ P := by rw [hP]; exact Dvd.dvd.mul_right (Nat.dvd_of_mod_eq_zero x3) _
  obtain ⟨rlo, hrlo⟩ : ∃ r, r = Prim.lo (Prim.widenMul nx.m ny.m) := ⟨_, rfl⟩
  obtain ⟨rhi, hrhi⟩ : ∃ r, r = Prim.hi (Prim.widenMul nx.m ny.m) := ⟨_, rfl⟩
  rw [← hrlo] at w1 w3
  rw [← hrhi] at w2 w3
  have w4 : rhi.toNat * 2 ^ F.bits + rlo.toNat = P := by rw [w3]; ring
  have hrh : rhi.toNat < 2 ^ (F.bits - 3) := by
    rw [w2, Nat.div_lt_iff_lt_mul (Nat.two_pow_pos _), ← pow_add]
    exact lt_of_lt_of_le P2 (Nat.pow_le_pow_right (by norm_num) (by omega))
  have hmz : nz.m.toNat < 2 ^ (F.bits - 3) :=
    lt_of_lt_of_le z2 (Nat.pow_le_pow_right (by norm_num) (by omega))
  have hPB : 2 ^ F.bits ≤ P := le_trans (Nat.pow_le_pow_right (by norm_num) (by omega)) P1
  have hbigP : ∀ zhi zlo : BitVec F.bits, 2 ^ F.bits ≤ (rhi.toNat + zhi.toNat) * 2 ^ F.bits + rlo.toNat + zlo.toNat := by
    intro zhi zlo
    have : (rhi.toNat + zhi.toNat) * 2 ^ F.bits + rlo.toNat + zlo.toNat = P + (zhi.toNat * 2 ^ F.bits + zlo.toNat) := by
      rw [← w4]; ring
    omega
  have hbigZ : ∀ rhi rlo : BitVec F.bits, 2 ^ F.bits ≤ (rhi.toNat + nz.m.toNat) * 2 ^ F.bits + rlo.toNat + (0#F.bits).toNat := by
    intro rhi rlo
    have h1 : 1 ≤ nz.m.toNat := le_trans Nat.one_le_two_pow z1
    have h2 : 1 * 2 ^ F.bits ≤ (rhi.toNat + nz.m.toNat) * 2 ^ F.bits := Nat.mul_le_mul_right _ (by omega)
    omega
  unfold fmaAlign
  simp only [← hrlo, ← hrhi]
  obtain ⟨exy, hexy⟩ : ∃ e, e = nx.e + ny.e := ⟨_, rfl⟩
  rw [← hexy]
  have one1 : (1#F.bits).toNat = 1 := by
    rw [BitVec.toNat_ofNat]; exact Nat.mod_eq_of_lt (Nat.one_lt_two_pow (by omega))
  have zp : ∀ (a b : Int), (2 : ℚ) ^ (a + b) = 2 ^ a * 2 ^ b := fun a b => zpow_add₀ (by norm_num) a b
  by_cases hd : nz.e - exy > 0
  · rw [if_pos hd]
    by_cases hdB : nz.e - exy < F.bits
    · rw [if_pos hdB]
      obtain ⟨d, hdd⟩ : ∃ d : Nat, nz.e - exy = d := ⟨(nz.e - exy).toNat, by omega⟩
      rw [hdd, Int.toNat_natCast, show ((F.bits : Int) - d).toNat = F.bits - d by omega]
      have hsp := BV.split_shl nz.m (d := d) (by omega)
      refine Aligned.exact hrh ?_ (hbigP _ _) (Or.inl rfl) (by rw [w4]) ?_
      · rw [BV.shr]; exact lt_of_le_of_lt (Nat.div_le_self _ _) hmz
      · rw [hsp, show nz.e = d + exy by omega, zp, zpow_natCast]; push_cast; ring
    · rw [if_neg hdB]
      obtain ⟨k, hk⟩ : ∃ k : Nat, nz.e - exy - F.bits = k := ⟨(nz.e - exy - F.bits).toNat, by omega⟩
      rw [hk]
      have hZv : (nz.m.toNat : ℚ) * 2 ^ nz.e = (nz.m.toNat * 2 ^ F.bits + (0#F.bits).toNat : ℕ) * 2 ^ (nz.e - F.bits) := by
        rw [show nz.e = F.bits + (nz.e - F.bits) by omega, zp, zpow_natCast]; simp; ring
      by_cases hk0 : k = 0
      · rw [if_pos (by omega)]
        refine Aligned.exact hrh hmz (hbigP _ _) (Or.inr rfl) ?_ hZv
        rw [w4, show nz.e - F.bits = exy by omega]
      · rw [if_neg (by omega)]
        have hPv : (P : ℚ) * 2 ^ exy = (P / 2 ^ k) * 2 ^ (nz.e - F.bits) := by
          rw [show nz.e - F.bits = k + exy by omega, zp, zpow_natCast]; field_simp
        have hZd : 2 ^ (F.bits - 1) ∣ nz.m.toNat * 2 ^ F.bits :=
          Dvd.dvd.mul_left (Nat.pow_dvd_pow 2 (by omega)) _
        have hZ0 : nz.m.toNat * 2 ^ F.bits + (0#F.bits).toNat = nz.m.toNat * 2 ^ F.bits := by simp
        have hZb : 2 * 2 ^ (F.bits - 1 + F.sb + 1) ≤ nz.m.toNat * 2 ^ F.bits := by
          calc 2 * 2 ^ (F.bits - 1 + F.sb + 1) = 2 ^ (F.sb + 1) * 2 ^ F.bits := by
                rw [← pow_succ', ← pow_add]; congr 1; omega
            _ ≤ _ := Nat.mul_le_mul_right _ z1
        have hn : P / 2 ^ k < 2 ^ (2 * F.sb + 3) := by
          rw [Nat.div_lt_iff_lt_mul (Nat.two_pow_pos _), ← pow_add]
          exact lt_of_lt_of_le P2 (Nat.pow_le_pow_right (by norm_num) (by omega))
        have hpp : 2 ^ (2 * F.sb + 3) ≤ 2 ^ (F.bits - 1 + F.sb) := Nat.pow_le_pow_right (by norm_num) (by omega)
        have hpp2 : 2 ^ (F.bits - 1 + F.sb + 1) = 2 * 2 ^ (F.bits - 1 + F.sb) := pow_succ' _ _
        by_cases hkB : k < F.bits
        · rw [if_pos (by omega), Int.toNat_natCast, show ((F.bits : Int) - k).toNat = F.bits - k by omega]
          have l1 : (rhi <<< (F.bits - k) ||| rlo >>> k).toNat = P / 2 ^ k % 2 ^ F.bits := by
            have hab : 2 ^ F.bits = 2 ^ (F.bits - k) * 2 ^ k := by rw [← pow_add]; congr 1; omega
            have hr1 : rlo.toNat / 2 ^ k < 2 ^ (F.bits - k) := by
              rw [Nat.div_lt_iff_lt_mul (Nat.two_pow_pos _), ← hab]; exact rlo.isLt
            have hr2 : (rhi <<< (F.bits - k)).toNat = rhi.toNat % 2 ^ k * 2 ^ (F.bits - k) := by
              rw [BV.shl, hab, Nat.mul_comm (2 ^ (F.bits - k)), Nat.mul_mod_mul_right]
            rw [BV.or_disjoint (k := F.bits - k) (by rw [hr2]; exact Nat.dvd_mul_left _ _) (by rw [BV.shr]; exact hr1), hr2, BV.shr]
            have hq : P / 2 ^ k = rhi.toNat * 2 ^ (F.bits - k) + rlo.toNat / 2 ^ k := by
              rw [← w4, hab, ← Nat.mul_assoc, Nat.add_comm, Nat.add_mul_div_right _ _ (Nat.two_pow_pos _), Nat.add_comm]
            rw [hq]
            have hdm := Nat.div_add_mod rhi.toNat (2 ^ k)
            have hml := Nat.mod_lt rhi.toNat (Nat.two_pow_pos k)
            have e3 : rhi.toNat * 2 ^ (F.bits - k) + rlo.toNat / 2 ^ k =
                (rhi.toNat % 2 ^ k * 2 ^ (F.bits - k) + rlo.toNat / 2 ^ k) + 2 ^ F.bits * (rhi.toNat / 2 ^ k) := by
              rw [hab]
              conv_lhs => rw [← hdm]
              ring
            rw [e3, Nat.add_mul_mod_self_left]
            refine (Nat.mod_eq_of_lt ?_).symm
            have h5 : (rhi.toNat % 2 ^ k + 1) * 2 ^ (F.bits - k) ≤ 2 ^ k * 2 ^ (F.bits - k) := Nat.mul_le_mul_right _ hml
            rw [Nat.add_mul, one_mul] at h5
            rw [hab, Nat.mul_comm (2 ^ (F.bits - k))]
            exact lt_of_lt_of_le (Nat.add_lt_add_left hr1 _) h5
          have l2 : (rhi >>> k).toNat = P / 2 ^ k / 2 ^ F.bits := by
            rw [BV.shr, w2, Nat.div_div_eq_div_mul, Nat.div_div_eq_div_mul, Nat.mul_comm]
          have l3 : (rhi >>> k).toNat * 2 ^ F.bits + ((rhi <<< (F.bits - k) ||| rlo >>> k) |||
              bit F.bits ((rhi <<< (F.bits - k) ||| rlo >>> k) <<< (F.bits - k) != 0#F.bits)).toNat = keepBits P k := by
            rw [BV.or_bit (by omega), BV.shl_ne_zero _ (a := k) (by omega), l1, l2]
            rw [Nat.mod_mod_of_dvd _ (Nat.pow_dvd_pow 2 (by omega : k ≤ F.bits))]
            unfold keepBits
            obtain ⟨c, hc⟩ : ∃ c, 2 ^ F.bits = 2 * c := ⟨2 ^ (F.bits - 1), by rw [← pow_succ', Nat.sub_add_cancel (by omega)]⟩
            have hdm := Nat.div_add_mod (P / 2 ^ k) (2 ^ F.bits)
            rw [hc] at hdm ⊢
            generalize P / 2 ^ k / (2 * c) = q at *
            rw [Nat.mul_comm q]
            have e4 : 2 * c * q = 2 * (c * q) := by ring
            rw [e4] at hdm ⊢
            generalize hcq : c * q = cq at *
            generalize hN : P / 2 ^ k = n at *
            generalize hM : n % (2 * c) = m at *
            by_cases h : n % 2 ^ k = 0
            · rw [if_pos h, if_neg (by simp [h])]; exact hdm
            · rw [if_neg h, if_pos (by simp [h])]; omega
          refine Aligned.low_product (g := F.bits - 1) ?_ hmz (hbigZ _ _) (Or.inr rfl) l3 hZ0 hPv (by rw [hZv, hZ0]) 
            (fun hlost => keep_SS (by omega) (by omega) (hlost k (by omega) hkB (by first | exact hk | rfl))) hZd ?_
          · rw [BV.shr]; exact lt_of_le_of_lt (Nat.div_le_self _ _) hrh
          · have : keepBits P k ≤ P / 2 ^ k + 1 := by unfold keepBits; split <;> omega
            omega
        · rw [if_neg (by omega)]
          refine Aligned.low_product (R := 1) (g := F.bits - 1) (by simp) hmz (hbigZ _ _) (Or.inr rfl) ?_ hZ0 hPv (by rw [hZv, hZ0]) ?_ hZd ?_
          · rw [one1]; simp
          · intro _
            have hGp : (0 : ℚ) < 2 ^ (F.bits - 1) := by positivity
            have hPp : (0 : ℚ) < P := by
              have : 0 < P := lt_of_lt_of_le (Nat.two_pow_pos _) P1
              exact_mod_cast this
            refine SS.of_between hGp 0 ?_ ?_ ?_ ?_
            · rw [Int.cast_zero, zero_mul]; exact div_pos hPp (by positivity)
            · rw [div_lt_iff₀ (by positivity)]
              have : P < 2 ^ (F.bits - 1) * 2 ^ k := by
                rw [← pow_add]; exact lt_of_lt_of_le P2 (Nat.pow_le_pow_right (by norm_num) (by omega))
              have : (P : ℚ) < 2 ^ (F.bits - 1) * 2 ^ k := by exact_mod_cast this
              simpa using this
            · simp
            · simp; exact one_lt_pow₀ (by norm_num) (by omega)
          · have := Nat.two_pow_pos (F.bits - 1 + F.sb)
            omega
  · rw [if_neg hd]
    obtain ⟨k, hk⟩ : ∃ k : Nat, -(nz.e - exy) = k := ⟨(-(nz.e - exy)).toNat, by omega⟩
    rw [hk]
    have hPv : (P : ℚ) * 2 ^ exy = P * 2 ^ exy := rfl
    have hZv : (nz.m.toNat : ℚ) * 2 ^ nz.e = (nz.m.toNat / 2 ^ k) * 2 ^ exy := by
      rw [show exy = k + nz.e by omega, zp, zpow_natCast]; field_simp
    have hPb : 2 ^ (F.sb + 2) * 2 ≤ P := by
      refine le_trans ?_ P1
      rw [← pow_succ]
      exact Nat.pow_le_pow_right (by norm_num) (by omega)
    have h0h : (0#F.bits).toNat < 2 ^ (F.bits - 3) := by simp
    by_cases hk0 : k = 0
    · rw [if_pos (by omega)]
      refine Aligned.exact hrh h0h (hbigP _ _) (Or.inl rfl) (by rw [w4]) ?_
      rw [hZv, hk0]; simp
    · rw [if_neg (by omega)]
      by_cases hkB : k < F.bits
      · rw [if_pos (by omega), Int.toNat_natCast, show ((F.bits : Int) - k).toNat = F.bits - k by omega]
        have hst := BV.sticky nz.m (a := k) (by omega) (by omega)
        refine Aligned.low_addend (g := 1) hrh h0h (hbigP _ _) (Or.inl rfl) w4 (Z := stk nz.m.toNat k) (by rw [hst]; simp) hPv hZv ?_ (by simpa using P3) ?_
        · intro _
          have := stk_ss nz.m.toNat k
          simpa using this
        · have h1 := stk_hi nz.m.toNat k
          have h2 : nz.m.toNat / 2 ^ k ≤ nz.m.toNat / 2 := Nat.div_le_div_left (by
            calc 2 = 2 ^ 1 := rfl
              _ ≤ 2 ^ k := Nat.pow_le_pow_right (by norm_num) (by omega)) (by norm_num)
          rw [show 1 + F.sb + 1 = F.sb + 2 by omega]
          have := Nat.two_pow_pos (F.sb + 1)
          rw [pow_succ 2 (F.sb + 1)] at *
          omega
      · rw [if_neg (by omega)]
        refine Aligned.low_addend (g := 1) hrh h0h (hbigP _ _) (Or.inl rfl) w4 (Z := 1) ?_ hPv hZv ?_ (by simpa using P3) ?_
        · rw [one1]; simp
        · intro _
          have hmp : (0 : ℚ) < nz.m.toNat := by
            have : 0 < nz.m.toNat := lt_of_lt_of_le (Nat.two_pow_pos _) z1
            exact_mod_cast this
          refine SS.of_between (by norm_num) 0 ?_ ?_ ?_ ?_
          · rw [Int.cast_zero, zero_mul]; exact div_pos hmp (by positivity)
          · rw [div_lt_iff₀ (by positivity)]
            have : nz.m.toNat < 2 ^ k := lt_of_lt_of_le z2 (Nat.pow_le_pow_right (by norm_num) (by omega))
            have : (nz.m.toNat : ℚ) < 2 ^ k := by exact_mod_cast this
            simp; linarith
          · simp
          · simp
        · rw [show 1 + F.sb + 1 = F.sb + 2 by omega]
          have := Nat.two_pow_pos (F.sb + 2)
          omega

end Verif
