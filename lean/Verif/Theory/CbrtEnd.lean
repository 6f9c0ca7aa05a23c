import Verif.Theory.CbrtBits
import Verif.Theory.Fma2
import Verif.Theory.AcoshDom

/-!
# cbrt: the exponent of the result, and splitting the argument
-/

namespace Verif
namespace Cbrt
open Flt

theorem finish_tail {y1 d : Flt f64} {b : ℕ} (hb : y1.mb = b) (h1 : 1023 * 2 ^ 52 ≤ b) (h2 : b ≤ 1024 * 2 ^ 52) (hL : b % 2 ^ 34 = 1)
    (hd : d.isFinite) (hds : |d.val| ≤ 1 / 2 ^ 32) :
    (Generic.fabs ((bits64 ((y1.u64 + 0x520000#64) &&& 0xffffffffffff0000#64) - y1) - d) <ᶠ bits64 0x3c30000000000000#64) = false := by
  have hu := u64_toNat y1
  have e4 : ((y1.u64 + 0x520000#64) &&& 0xffffffffffff0000#64).toNat = (b - 1 + 0x520000) + if y1.sign then 2 ^ 63 else 0 := by
    rw [show (0xffffffffffff0000#64 : BitVec 64) = ~~~0xffff#64 by decide, BV.and_not_low (k := 16) (by decide), BitVec.toNat_add, hu, hb]
    simp only [BitVec.reduceToNat]
    cases y1.sign <;> simp only [Bool.false_eq_true, if_false, if_true] <;> omega
  have h63 : b - 1 + 0x520000 < 2 ^ (f64.ew + f64.sb) := by show _ < 2 ^ 63; omega
  have ec := bits64_of y1.sign h63 e4
  rw [ec]
  obtain ⟨m, hm⟩ : ∃ m, b = 1023 * 2 ^ 52 + m := ⟨b - 1023 * 2 ^ 52, by omega⟩
  have hm2 : m + 0x520000 - 1 < 2 ^ 52 := by omega
  have m1 : 1 ≤ m := by omega
  have cf : (mk' f64 y1.sign (b - 1 + 0x520000)).isFinite := by rw [isFinite64, mb_mk' h63]; omega
  have cs : (mk' f64 y1.sign (b - 1 + 0x520000)).sign = y1.sign := sign_mk' h63
  have cv := abs_mk (x := mk' f64 y1.sign (b - 1 + 0x520000)) (E := 1023) (m := m + 0x520000 - 1) (by norm_num) hm2 (by rw [mb_mk' h63]; omega)
  have yv := abs_mk (x := y1) (E := 1023) (m := m) (by norm_num) (by omega) (by omega)
  have yf : y1.isFinite := by rw [isFinite64]; omega
  have diff : |(mk' f64 y1.sign (b - 1 + 0x520000)).val - y1.val| = 0x51ffff / 2 ^ 52 := by
    rw [val_sg, cs, val_sg y1, ← mul_sub, abs_mul, sg_abs, one_mul, cv, yv,
      show 2 ^ 52 + (m + 0x520000 - 1) = 2 ^ 52 + m + 0x51ffff by omega]
    push_cast
    rw [← sub_mul, add_sub_cancel_left]
    norm_num
  generalize mk' f64 y1.sign (b - 1 + 0x520000) = c at *
  obtain ⟨f1, e1⟩ := sub_err64 cf yf (-29) (by rw [diff]; norm_num) (by norm_num)
  have a1 := abs_of_near e1 diff.le
  have b1 : 0x51ffff / 2 ^ 52 - (2 : ℝ) ^ ((-29 : ℤ) - 54) ≤ |(c - y1).val| := by
    have := abs_sub_abs_le_abs_sub (c.val - y1.val) (c - y1).val
    rw [abs_sub_comm (c.val - y1.val) _, diff] at this
    exact sub_le_comm.1 (this.trans e1)
  obtain ⟨f2, e2⟩ := sub_err64 f1 hd (-28) (by
    refine (abs_sub _ _).trans ?_
    norm_num at *
    linarith) (by norm_num)
  have b2 : 1 / 2 ^ 31 ≤ |((c - y1) - d).val| := by
    have h3 := abs_sub_abs_le_abs_sub ((c - y1).val - d.val) ((c - y1) - d).val
    rw [abs_sub_comm ((c - y1).val - d.val) _] at h3
    have h4 := abs_sub_abs_le_abs_sub (c - y1).val d.val
    norm_num at *
    linarith
  rw [Bool.eq_false_iff]
  intro h
  have hv := not_le.1 (fun hle => absurd (val_le_iff.1 hle) (not_le.2 (lt_iff.1 h).2.2))
  have kv : (bits64 0x3c30000000000000#64).val = _ := val_const64 1 1014 (-60) (by decide +kernel) (by norm_num)
  rw [fabs_ab, ab_val, kv] at hv
  norm_num at *
  linarith

/-- the result: the significand of the root with its exponent -/
theorem finish_eq {zz y1 d : Flt f64} {n : ℕ} (h1 : 1023 * 2 ^ 52 ≤ y1.mb) (h2 : y1.mb ≤ 1024 * 2 ^ 52)
    (hd : d.isFinite) (hds : |d.val| ≤ 1 / 2 ^ 32) (hz : (Generic.fabs zz =ᶠ 1.0) = true → y1.mb = 1023 * 2 ^ 52) (hn1 : 1007 ≤ n) (hn2 : n ≤ 1706) :
    finish zz y1 d (BitVec.ofNat 32 n) = mk' f64 y1.sign (y1.mb + n * 2 ^ 52 - 1365 * 2 ^ 52) := by
  have hu := u64_toNat y1
  obtain ⟨b, hb⟩ : ∃ b, y1.mb = b := ⟨_, rfl⟩
  rw [hb] at h1 h2 hu hz ⊢
  have hn32 : (BitVec.ofNat 32 n).toNat = n := by rw [BitVec.toNat_ofNat]; omega
  have e3 : (y1.u64 + ((BitVec.ofNat 32 n - 342#32 - 1023#32).setWidth 64 <<< 52)).toNat =
      (b + n * 2 ^ 52 - 1365 * 2 ^ 52) + if y1.sign then 2 ^ 63 else 0 := by
    rw [BitVec.toNat_add, hu, BV.shl, BitVec.toNat_setWidth, BitVec.toNat_sub, BitVec.toNat_sub, hn32]
    simp only [BitVec.reduceToNat]
    cases y1.sign <;> simp only [Bool.false_eq_true, if_false, if_true] <;> omega
  have h63 : b + n * 2 ^ 52 - 1365 * 2 ^ 52 < 2 ^ (f64.ew + f64.sb) := by show _ < 2 ^ 63; omega
  have ec := bits64_of y1.sign h63 e3
  unfold finish
  simp only
  generalize hcv : y1.u64 + ((BitVec.ofNat 32 n - 342#32 - 1023#32).setWidth 64 <<< 52) = cv at *
  split_ifs with hc1 hc2
  · have hL : cv.toNat % 2 ^ 34 ≤ 1 := by
      have e5 : ((cv <<< 30 ^^^ cv <<< 30 >>> 63) >>> 30).toNat = cv.toNat % 2 ^ 34 := by
        rw [BitVec.ushiftRight_xor_distrib]
        have : (cv <<< 30 >>> 63) >>> 30 = 0#64 := by
          apply BitVec.eq_of_toNat_eq
          rw [BV.shr, BV.shr, BV.shl, BitVec.toNat_ofNat]
          omega
        rw [this, BitVec.xor_zero, BV.shr, BV.shl]
        omega
      rw [BV.shr] at e5
      rw [BitVec.le_def] at hc1
      simp only [BitVec.reduceToNat] at hc1
      omega
    have hL0 : cv.toNat % 2 ^ 34 = 0 := by
      by_contra hne
      have hLb : b % 2 ^ 34 = 1 := by
        rw [e3] at hL hne
        revert hL hne
        cases y1.sign <;> simp only [Bool.false_eq_true, if_false, if_true] <;> omega
      rw [finish_tail hb h1 h2 hLb hd hds, Bool.false_or] at hc2
      have := hz hc2
      omega
    rw [← ec]
    refine congrArg bits64 (BitVec.eq_of_toNat_eq ?_)
    rw [show (0xffffffffffff0000#64 : BitVec 64) = ~~~0xffff#64 by decide, BV.and_not_low (k := 16) (by decide), BitVec.toNat_add]
    simp only [BitVec.reduceToNat]
    have := cv.isLt
    omega
  · exact ec
  · exact ec

theorem exp_field (x : Flt f64) : ((x.u64 >>> 52).setWidth 32 &&& 0x7ff#32).toNat = x.mb / 2 ^ 52 := by
  rw [BV.and_low (k := 11) (by decide), BitVec.toNat_setWidth, BV.shr, u64_toNat]
  have := mb64_lt x
  cases x.sign <;> simp only [Bool.false_eq_true, if_false, if_true] <;> omega

theorem special_cond (x : Flt f64) : (((x.u64 >>> 52).setWidth 32 &&& 0x7ff#32) + 1#32) &&& 0x7ff#32 < 2#32 ↔ x.mb < 2 ^ 52 ∨ 2047 * 2 ^ 52 ≤ x.mb := by
  rw [BitVec.lt_def, BV.and_low (k := 11) (by decide), BitVec.toNat_add, exp_field]
  simp only [BitVec.reduceToNat]
  have := mb64_lt x
  omega

theorem mant_field (x : Flt f64) : (x.u64 &&& 0x000fffffffffffff#64).toNat = x.mb % 2 ^ 52 := by
  rw [BV.and_low (k := 52) (by decide), u64_toNat]
  cases x.sign <;> simp only [Bool.false_eq_true, if_false, if_true] <;> omega

/-- significand and exponent of a nonzero number -/
theorem split_spec {b : ℕ} (h0 : 0 < b) (h1 : b < 2047 * 2 ^ 52) : ∃ m n : ℕ, m < 2 ^ 52 ∧ 3021 ≤ n ∧ n ≤ 5118 ∧
    ∀ x : Flt f64, x.mb = b → split x = (BitVec.ofNat 64 m, BitVec.ofNat 32 n) ∧ |x.val| = ((2 ^ 52 + m : ℕ) : ℝ) * 2 ^ ((n : ℤ) - 4147) := by
  by_cases hb : b < 2 ^ 52
  · obtain ⟨k, hk⟩ : ∃ k, k + b.log2 = 52 := ⟨52 - b.log2, by have := (Nat.log2_lt h0.ne').2 hb; omega⟩
    have hk1 : 1 ≤ k := by have := (Nat.log2_lt h0.ne').2 hb; omega
    have l1 : 2 ^ 52 ≤ b * 2 ^ k := by
      rw [← hk, pow_add, mul_comm]
      exact Nat.mul_le_mul_right _ (Nat.log2_self_le h0.ne')
    have l2 : b * 2 ^ k < 2 ^ 53 := by
      rw [show 53 = k + (b.log2 + 1) by omega, pow_add, mul_comm]
      exact Nat.mul_lt_mul_of_pos_left Nat.lt_log2_self (by positivity)
    refine ⟨b * 2 ^ k - 2 ^ 52, 3073 - k, by omega, by omega, by omega, fun x hx => ⟨?_, ?_⟩⟩
    · have hnz : BitVec.ofNat 32 (leadingZeros (x.u64 &&& 0x7fffffffffffffff#64)) - 11#32 = BitVec.ofNat 32 k := by
        have := clz_eq (x.u64 &&& 0x7fffffffffffffff#64) (by rw [u64_abs]; omega)
        rw [u64_abs, hx] at this
        apply BitVec.eq_of_toNat_eq
        rw [BitVec.toNat_sub, BitVec.toNat_ofNat, BitVec.toNat_ofNat, BitVec.toNat_ofNat]
        omega
      have he0 : (x.u64 >>> 52).setWidth 32 &&& 0x7ff#32 = 0#32 := by
        apply BitVec.eq_of_toNat_eq
        rw [exp_field, BitVec.toNat_ofNat]
        omega
      unfold split
      simp only
      rw [if_pos ((special_cond x).2 (by omega)), hnz, he0, Prod.mk.injEq]
      constructor
      · apply BitVec.eq_of_toNat_eq
        rw [BV.and_low (k := 52) (by decide), BV.shl, mant_field, hx, BitVec.toNat_ofNat, BitVec.toNat_ofNat, Nat.mod_eq_of_lt hb,
          Nat.mod_eq_of_lt (show k < 2 ^ 32 by omega), Nat.mod_eq_of_lt (show b * 2 ^ k < 2 ^ 64 by omega)]
        omega
      · apply BitVec.eq_of_toNat_eq
        rw [BitVec.toNat_add, BitVec.toNat_sub, BitVec.toNat_sub]
        simp only [BitVec.toNat_ofNat]
        omega
    · have hmag : x.mag = b := by
        show magOf 52 x.mb = _
        unfold magOf
        rw [if_pos (by omega), hx]
      rw [val_abs, hmag, ulp_real, f64_bias, f64_sb, show 2 ^ 52 + (b * 2 ^ k - 2 ^ 52) = b * 2 ^ k by omega]
      push_cast
      rw [mul_assoc, ← zpow_natCast (2 : ℝ) k, ← zpow_add₀ (by norm_num)]
      congr 2
      omega
  · refine ⟨b % 2 ^ 52, b / 2 ^ 52 + 3072, by omega, by omega, by omega, fun x hx => ⟨?_, ?_⟩⟩
    · unfold split
      simp only
      rw [if_neg (fun h => by have := (special_cond x).1 h; omega), Prod.mk.injEq]
      constructor
      · apply BitVec.eq_of_toNat_eq
        rw [mant_field, hx, BitVec.toNat_ofNat]
        omega
      · apply BitVec.eq_of_toNat_eq
        rw [BitVec.toNat_add, exp_field, hx, BitVec.toNat_ofNat, BitVec.toNat_ofNat]
        try omega
    · rw [abs_mk (E := b / 2 ^ 52) (m := b % 2 ^ 52) (by omega) (by omega) (by omega)]
      rw [show ((b / 2 ^ 52 + 3072 : ℕ) : ℤ) - 4147 = ((b / 2 ^ 52 : ℕ) : ℤ) - 1075 by rw [Nat.cast_add]; norm_num; ring]

theorem flip_not (s : Bool) (x : Flt f64) : Flt.flip (!s) x = -Flt.flip s x := by
  cases s
  · rfl
  · show x = - -x
    rw [Flt.neg_neg]

theorem mul_flip_not {a h : Flt f64} {s : Bool} (hn : ¬ (a * Flt.flip s h).isNaN) : a * Flt.flip (!s) h = -(a * Flt.flip s h) := by
  have := mul_flip false true a (Flt.flip s h)
  rw [flip_false, flip_true, ← flip_not] at this
  rcases this with e | e
  · rw [e, Bool.false_xor, flip_true]
  · exact absurd e.1 hn

/-- the approximation is in [1, 2] -/
theorem good_range {C : ℝ} {zz y1 : Flt f64} (g : Good C y1) (hC1 : 1 ≤ |C|) (hC2 : |C| ≤ 2 - 1 / 2 ^ 54) (vz : zz.val = C ^ 3)
    (hz : |zz.val| = 1 ∨ 1 + 1 / 2 ^ 52 ≤ |zz.val|) : 1023 * 2 ^ 52 ≤ y1.mb ∧ y1.mb ≤ 1024 * 2 ^ 52 ∧ (|zz.val| = 1 → y1.mb = 1023 * 2 ^ 52) := by
  have hone : (1.0 : Flt f64).mb = 1023 * 2 ^ 52 := by decide +kernel
  have h1 : |zz.val| = 1 → y1.mb = 1023 * 2 ^ 52 := by
    intro h
    have hC : |C| = 1 := by
      rw [vz, abs_pow] at h
      exact (pow_eq_one_iff_of_nonneg (abs_nonneg C) (by norm_num)).1 h
    have hy : |y1.val| = 1 := by
      rcases (abs_eq (by norm_num)).1 hC with h | h
      · rw [g.exact 1.0 (by decide +kernel) (by rw [one_v, h]), one_v, abs_one]
      · rw [g.exact (-1.0) (by decide +kernel) (by rw [val_neg, one_v, h]), val_neg, one_v, abs_neg, abs_one]
    have e : (ab y1).val = (1.0 : Flt f64).val := by rw [ab_val, hy, one_v]
    have e2 := le_antisymm (val_le_iff.1 e.le) (val_le_iff.1 e.ge)
    rcases sval_eq_cases e2 with h | h
    · rw [← hone, ← h, ab_mb]
    · exact absurd h.2 (by decide +kernel)
  have hn := g.near
  have hub : |y1.val| ≤ 2 + 1 / 2 ^ 52 := by
    have := abs_of_near hn hC2
    norm_num at *; linarith
  have hup : y1.mb ≤ 1024 * 2 ^ 52 := by
    by_contra hc
    have h2 : 1024 * 2 ^ 52 + 1 ≤ y1.mb := by omega
    have e : (bits64 0x4000000000000001#64).val = _ := val_const64 (2 ^ 52 + 1) 1023 (-51) (by decide +kernel) (by norm_num)
    have := val_mono (x := y1) (y := bits64 0x4000000000000001#64) (by rw [show (bits64 0x4000000000000001#64).mb = 1024 * 2 ^ 52 + 1 by decide +kernel]; exact h2)
    rw [e] at this
    norm_num at *
    linarith
  refine ⟨?_, hup, h1⟩
  rcases hz with hz | hz
  · exact (h1 hz).ge
  · have hC : 1 + 1 / 2 ^ 54 ≤ |C| := by
      refine le_of_pow_le_pow_left₀ (n := 3) (by norm_num) (abs_nonneg _) ?_
      rw [← abs_pow, ← vz]
      exact le_trans (by norm_num) hz
    have hlb : 1 - 1 / 2 ^ 53 < |y1.val| := by
      have := abs_sub_abs_le_abs_sub C y1.val
      rw [abs_sub_comm] at this
      norm_num at *; linarith
    by_contra hc
    have e : (bits64 0x3fefffffffffffff#64).val = _ := val_const64 (2 ^ 53 - 1) 1021 (-53) (by decide +kernel) (by norm_num)
    have := val_mono (x := bits64 0x3fefffffffffffff#64) (y := y1) (by
      rw [show (bits64 0x3fefffffffffffff#64).mb = 1023 * 2 ^ 52 - 1 by decide +kernel]; omega)
    rw [e] at this
    clear * - this hlb
    norm_num at *
    linarith

theorem sign_word (x : Flt f64) : x.u64 >>> 63 = BitVec.ofNat 64 (if x.sign then 1 else 0) := by
  apply BitVec.eq_of_toNat_eq
  rw [u64_sign]
  cases x.sign <;> rfl

/-- what the model computes for a nonzero number -/
structure Result (x : Flt f64) (C : ℝ) (k : ℤ) (y1 r : Flt f64) : Prop where
  eq : cbrt x = some r
  neg : cbrt (-x) = some (-r)
  good : Good C y1
  C1 : 1 ≤ |C|
  C2 : |C| ≤ 2 - 1 / 2 ^ 54
  cube : x.val = (C * 2 ^ k) ^ 3
  k1 : -358 ≤ k
  k2 : k ≤ 341
  fin : r.isFinite
  val : r.val = y1.val * 2 ^ k

theorem cbrt_core {x : Flt f64} (hf : x.isFinite) (h0 : ¬ x.isZero) :
    cbrt x = core (BitVec.ofNat 64 (if x.sign then 1 else 0)) (split x).1 (split x).2 := by
  unfold cbrt
  simp only
  rw [if_neg, sign_word]
  rintro ⟨-, h | h⟩
  · have := exp_field x
    rw [h] at this
    rw [isFinite64] at hf
    simp only [BitVec.reduceToNat] at this
    omega
  · have := u64_abs x
    rw [h] at this
    exact h0 ((isZero_iff x).2 this.symm)

theorem result {x : Flt f64} (hf : x.isFinite) (h0 : ¬ x.isZero) : ∃ C k y1 r, Result x C k y1 r := by
  have hb0 : 0 < x.mb := Nat.pos_of_ne_zero fun h => h0 ((isZero_iff x).2 h)
  obtain ⟨m, n, hm, n1, n2, hsp⟩ := split_spec hb0 ((isFinite64 x).1 hf)
  obtain ⟨sx, vx⟩ := hsp x rfl
  obtain ⟨sx', -⟩ := hsp (-x) (mb_neg x)
  have hi : n % 3 < 3 := Nat.mod_lt _ (by norm_num)
  have cx := cbrt_core hf h0
  have cx' := cbrt_core (x := -x) (by simpa using hf) (by simpa using h0)
  rw [sx, core_eq hm (by omega)] at cx
  rw [sx', core_eq hm (by omega), Flt.sign_neg] at cx'
  obtain ⟨C, st⟩ := start (s := x.sign) hi hm
  obtain ⟨y1, d, it, g, df, ds⟩ := iter_ok st
  obtain ⟨d', it'⟩ := iter_neg st it
  obtain ⟨y1', d'', it'', g', df', ds'⟩ := iter_ok st.neg
  rw [it', Option.some.injEq, Prod.mk.injEq] at it''
  obtain ⟨e1, e2⟩ := it''
  subst e1 e2
  have hR : R (!x.sign) (n % 3) m = -R x.sign (n % 3) m := mul_flip_not (not_nan_of_finite st.hr)
  have hY : Y (!x.sign) (n % 3) m = -Y x.sign (n % 3) m := mul_flip_not (not_nan_of_finite st.hy)
  rw [it] at cx
  rw [ZZ_neg hi hm, hR, hY, it'] at cx'
  simp only [Option.map_some] at cx cx'
  obtain ⟨-, zs, zv⟩ := ZZ_val (s := x.sign) hi hm
  have P1 : (1 : ℝ) ≤ 2 ^ (n % 3) := one_le_pow₀ (by norm_num)
  have hm0 : (0 : ℝ) ≤ m := Nat.cast_nonneg m
  have za : |(ZZ x.sign (n % 3) m).val| = (1 + (m : ℝ) / 2 ^ 52) * 2 ^ (n % 3) := by
    rw [zv, abs_mul, sg_abs, one_mul, abs_of_nonneg (by positivity)]
    push_cast
    ring
  have hz : |(ZZ x.sign (n % 3) m).val| = 1 ∨ 1 + 1 / 2 ^ 52 ≤ |(ZZ x.sign (n % 3) m).val| := by
    rw [za]
    by_cases hit : n % 3 = 0
    · rw [hit, pow_zero, mul_one]
      rcases Nat.eq_zero_or_pos m with h | h
      · left; rw [h]; norm_num
      · right
        have : (1 : ℝ) ≤ m := by exact_mod_cast h
        clear * - this
        norm_num
        linarith
    · right
      have : (2 : ℝ) ^ 1 ≤ 2 ^ (n % 3) := pow_le_pow_right₀ (by norm_num) (by omega)
      have h2 : (1 + (0 : ℝ)) * 2 ≤ (1 + (m : ℝ) / 2 ^ 52) * 2 ^ (n % 3) :=
        mul_le_mul (by have := div_nonneg hm0 (show (0 : ℝ) ≤ 2 ^ 52 by norm_num); linarith) (by linarith) (by norm_num) (by positivity)
      clear * - h2
      norm_num at *
      linarith
  obtain ⟨r1, r2, r3⟩ := good_range g st.hC1 st.hC2 st.vz hz
  have hone : ∀ w : Flt f64, (Generic.fabs w =ᶠ 1.0) = true → |w.val| = 1 := fun w h => by
    rw [← ab_val, ← fabs_ab, ← one_v]
    exact le_antisymm (val_le_iff.2 (feq_iff.1 h).2.2.le) (val_le_iff.2 (feq_iff.1 h).2.2.ge)
  rw [finish_eq r1 r2 df ds (fun h => r3 (hone _ h)) (by omega) (by omega)] at cx
  rw [finish_eq (by rw [mb_neg]; exact r1) (by rw [mb_neg]; exact r2) df' ds'
    (fun h => by rw [mb_neg]; exact r3 (by rw [← hone _ h, val_neg, abs_neg])) (by omega) (by omega), mb_neg, Flt.sign_neg] at cx'
  have h63 : y1.mb + n / 3 * 2 ^ 52 - 1365 * 2 ^ 52 < 2 ^ (f64.ew + f64.sb) := by show _ < 2 ^ 63; omega
  have rm : (mk' f64 y1.sign (y1.mb + n / 3 * 2 ^ 52 - 1365 * 2 ^ 52)).mb = y1.mb + n / 3 * 2 ^ 52 - 1365 * 2 ^ 52 := mb_mk' h63
  have rs : (mk' f64 y1.sign (y1.mb + n / 3 * 2 ^ 52 - 1365 * 2 ^ 52)).sign = y1.sign := sign_mk' h63
  refine ⟨C, ((n / 3 : ℕ) : ℤ) - 1365, y1, mk' f64 y1.sign (y1.mb + n / 3 * 2 ^ 52 - 1365 * 2 ^ 52), cx, ?_, g, st.hC1, st.hC2, ?_, by omega, by omega, ?_, ?_⟩
  · rw [cx', Option.some.injEq]
    apply ext_mb
    · rw [Flt.sign_neg, rs, sign_mk' h63]
    · rw [mb_neg, rm, mb_mk' h63]
  · rw [mul_pow, ← st.vz, zv, val_sg x, vx, mul_assoc]
    congr 1
    have hn3 : (n : ℤ) - 4147 = -(52 : ℕ) + ((n % 3 : ℕ) : ℤ) + (((n / 3 : ℕ) : ℤ) - 1365) * (3 : ℕ) := by omega
    rw [hn3, zpow_add₀ (by norm_num), zpow_add₀ (by norm_num), zpow_mul, zpow_natCast, zpow_natCast, zpow_neg, zpow_natCast]
    ring
  · rw [isFinite64, rm]; omega
  · obtain ⟨E, m', hm', hE⟩ : ∃ E m', m' < 2 ^ 52 ∧ y1.mb = E * 2 ^ 52 + m' := ⟨y1.mb / 2 ^ 52, y1.mb % 2 ^ 52, by omega, by omega⟩
    rw [val_sg, rs, val_sg y1, mul_assoc, abs_mk (E := E) (m := m') (by omega) hm' hE,
      abs_mk (E := E + n / 3 - 1365) (m := m') (by omega) hm' (by rw [rm]; omega), mul_assoc, ← zpow_add₀ (by norm_num)]
    rw [show ((E + n / 3 - 1365 : ℕ) : ℤ) - 1075 = (E : ℤ) - 1075 + (((n / 3 : ℕ) : ℤ) - 1365) by omega]

end Cbrt
end Verif
