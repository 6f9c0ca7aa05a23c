import Verif.Theory.Exp2D
import Verif.Theory.Magic
import Verif.Theory.UlpTop
import Verif.Props.ExpAcc

/-!
# C59: accuracy of `exp2`
-/

namespace Verif
open Flt
open Generic (scalbn)

theorem IsRNE.sign_pos {F : Fmt} {q : ℝ} {r : Flt F} (h : IsRNE q r) (hq : 0 < q) : r.sign = false := by
  unfold IsRNE at h
  split_ifs at h
  · rw [← Bool.not_eq_true, h.2]; linarith
  · rw [← Bool.not_eq_true, h.2.2.2 hq.ne']; linarith

theorem exp_range2 {r : ℝ} (h : |r| ≤ 0.35) : 0.65 ≤ Real.exp r ∧ Real.exp r ≤ 1.54 := by
  have h2 := abs_le.1 h
  norm_num at h2
  have h3 := Real.add_one_le_exp r
  have h4 := Real.add_one_le_exp (-r)
  have h5 : Real.exp r * Real.exp (-r) = 1 := by rw [← Real.exp_add]; simp
  have h6 := Real.exp_pos r
  norm_num
  constructor
  · linarith
  · nlinarith

theorem two_rpow_eq (t : ℝ) : (2 : ℝ) ^ t = Real.exp (t * Real.log 2) := by
  rw [Real.rpow_def_of_pos (by norm_num), mul_comm]

/-- the low bits of the sum: index and exponent -/
theorem BV.split256 {v : BitVec 32} {N : ℤ} (h : (v.toNat : ℤ) = N % 2 ^ 32) (h1 : -2 ^ 30 ≤ N) (h2 : N < 2 ^ 30) :
    ((v % 256#32).toNat : ℤ) = N % 256 ∧ (v / 256#32 * 256#32).toInt.tdiv 256 = N / 256 := by
  have hv := v.isLt
  have e0 : (256#32).toNat = 256 := rfl
  constructor
  · rw [BitVec.toNat_umod, e0]; omega
  · have e1 : (v / 256#32 * 256#32).toNat = v.toNat / 256 * 256 := by
      rw [BitVec.toNat_mul, BitVec.toNat_udiv, e0]; omega
    have e2 : (v / 256#32 * 256#32).toInt = 256 * (N / 256) := by
      rw [BitVec.toInt_eq_toNat_cond, e1]
      split <;> omega
    rw [e2, Int.mul_tdiv_cancel_left _ (by norm_num)]

namespace Exp2
theorem redux_val : redux.val = 3 * 2 ^ ((44 : ℤ) - 1) := by
  rw [val_const64 (x := redux) 3 1117 43 (by decide +kernel) (by norm_num)]; norm_num

theorem core_acc {x : Flt f64} (xf : x.isFinite) (h1 : -1075 ≤ x.val) (h2 : x.val ≤ 1024 - 1 / 2 ^ 43) :
    ∃ r, core x = some r ∧ WithinUlp 0.76 r ((2 : ℝ) ^ x.val) ∧ r.sign = false := by
  have l1 := Num.log2_gt
  have l2' := Num.log2_lt
  obtain ⟨n, hn, sf, ss, smb, zf, zv⟩ := magic_sub (x := x) (c := redux) (K := 44) xf (by decide +kernel) redux_val
    (by norm_num at h1 h2 ⊢; rw [abs_le]; constructor <;> linarith) (by rw [f64_bias, f64_sb]; norm_num) (by rw [f64_bias]; norm_num)
  rw [f64_sb] at hn zv smb
  rw [f64_bias] at smb
  norm_num at hn zv smb
  have hn2 := abs_le.1 hn
  have n1 : (-275201 : ℤ) ≤ n := by
    have : ((-275202 : ℤ) : ℝ) < n := by norm_num at h1 ⊢; linarith [hn2.2]
    have : (-275202 : ℤ) < n := by exact_mod_cast this
    omega
  have n2 : n ≤ 262144 := by
    have : (n : ℝ) < (262145 : ℤ) := by norm_num at h2 ⊢; linarith [hn2.1]
    have : n < (262145 : ℤ) := by exact_mod_cast this
    omega
  unfold core
  dsimp only
  rw [bits64_u64]
  obtain ⟨b1, b2⟩ := BV.split256 (v := (x + redux).u64.setWidth 32 + 128#32) (N := n + 128) (by
    rw [BitVec.toNat_add, BitVec.toNat_setWidth, u64_toNat, ss]
    have : (128#32).toNat = 128 := rfl
    rw [this]
    simp only [Bool.false_eq_true, if_false]
    omega) (by omega) (by omega)
  rw [b2]
  generalize ((x + redux).u64.setWidth 32 + 128#32) % 256#32 = jv at b1 ⊢
  generalize x - (x + redux - redux) = z at zf zv ⊢
  obtain ⟨t, e, ht, he, tf, ef, eb, X, hX, tv⟩ := tab (j := jv.toNat) (by omega)
  rw [ht, he]
  simp only [Option.bind_some]
  set κ := (n + 128) / 256 with hκ
  have hj : ((jv.toNat : ℤ) : ℝ) = n + 128 - 256 * κ := by
    have : (jv.toNat : ℤ) = n + 128 - 256 * κ := by omega
    rw [this]; push_cast; ring
  rw [Int.cast_natCast] at hj
  have hj2 : (jv.toNat : ℝ) ≤ 255 := by
    have : jv.toNat ≤ 255 := by omega
    exact_mod_cast this
  have hj0 : (0 : ℝ) ≤ jv.toNat := Nat.cast_nonneg _
  generalize (jv.toNat : ℝ) = j at *
  set y := z.val - (bits64 e).val with hy
  have ex : (x.val - κ) * Real.log 2 = ((j - 128) / 256 + (bits64 e).val) * Real.log 2 + y * Real.log 2 := by
    rw [hy, zv, hj]; ring
  have eE : (2 : ℝ) ^ x.val = Real.exp ((x.val - κ) * Real.log 2) * 2 ^ κ := by
    rw [two_rpow_eq]
    rw [show x.val * Real.log 2 = (x.val - κ) * Real.log 2 + κ * Real.log 2 by ring, Real.exp_add]
    congr 1
    rw [mul_comm, Real.exp_mul, Real.exp_log (by norm_num), Real.rpow_intCast]
  have eX : (bits64 t).val * Real.exp (y * Real.log 2) = Real.exp ((x.val - κ) * Real.log 2) * X := by
    rw [tv, ex, Real.exp_add]; ring
  have hd : |x.val - κ| ≤ 1 / 2 + 1 / 2 ^ 9 := by
    have : x.val - κ = (j - 128) / 256 + (x.val - n * (1 / 256)) := by rw [hj]; ring
    rw [this]
    have h3 : |(j - 128) / 256| ≤ 1 / 2 := by rw [abs_le]; constructor <;> linarith
    refine (abs_add_le _ _).trans ?_
    norm_num at hn ⊢; linarith
  have hρ : |(x.val - κ) * Real.log 2| ≤ 0.35 := by
    rw [abs_mul, abs_of_pos (a := Real.log 2) (by norm_num at l1 ⊢; linarith)]
    have := mul_le_mul hd (show Real.log 2 ≤ 0.694 by norm_num at l2' ⊢; linarith) (by norm_num at l1; linarith) (by norm_num)
    norm_num at this ⊢; linarith
  obtain ⟨r1, r2⟩ := exp_range2 hρ
  have r1' : 0.6 ≤ Real.exp ((x.val - κ) * Real.log 2) := by norm_num at r1 ⊢; linarith
  have r2' : Real.exp ((x.val - κ) * Real.log 2) ≤ 1.6 := by norm_num at r2 ⊢; linarith
  have tb : 0 < (bits64 t).val ∧ (bits64 t).val ≤ 3 / 2 := by
    have eb2 := abs_le.1 eb
    have h3 : |((j - 128) / 256 + (bits64 e).val) * Real.log 2| ≤ 0.3467 := by
      rw [abs_mul, abs_of_pos (a := Real.log 2) (by norm_num at l1 ⊢; linarith)]
      have h4 : |(j - 128) / 256 + (bits64 e).val| ≤ 1 / 2 + 1 / 2 ^ 39 := by
        norm_num at eb2
        rw [abs_le]; norm_num; constructor <;> linarith [eb2.1, eb2.2]
      have := mul_le_mul h4 (show Real.log 2 ≤ 0.69315 by norm_num at l2' ⊢; linarith) (by norm_num at l1; linarith) (by norm_num)
      norm_num at this ⊢; linarith
    generalize ((j - 128) / 256 + (bits64 e).val) * Real.log 2 = ρ at *
    have h5 := Real.exp_bound (x := ρ) (by norm_num at h3 ⊢; linarith) (n := 3) (by norm_num)
    simp only [Finset.sum_range_succ, Finset.sum_range_zero, Nat.factorial] at h5
    have h6 : |ρ| ^ 3 ≤ 0.3467 ^ 3 := pow_le_pow_left₀ (abs_nonneg _) h3 3
    have h7 : ρ ^ 2 ≤ 0.3467 ^ 2 := by rw [← sq_abs]; exact pow_le_pow_left₀ (abs_nonneg _) h3 2
    have h8 := abs_le.1 h3
    have h9 := abs_le.1 h5
    have hX2 := abs_le.1 hX
    have hp := Real.exp_pos ρ
    rw [tv]
    constructor
    · exact mul_pos hp (by norm_num at hX2; linarith [hX2.1])
    · have : Real.exp ρ ≤ 1.44 := by
        norm_num at h6 h7 h8 h9 ⊢
        linarith [h9.2, h8.2]
      have := mul_le_mul this (show X ≤ 1.01 by norm_num at hX2 ⊢; linarith [hX2.2]) (by norm_num at hX2; linarith [hX2.1]) (by norm_num)
      norm_num at this ⊢; linarith
  have hz : |z.val| ≤ 1 / 2 ^ 9 := by rw [zv]; norm_num at hn ⊢; exact hn
  have tl := tail_err tf zf ef (by rw [abs_of_pos tb.1]; exact tb.2) hz eb
  have hyb : |y| ≤ 1 / 511 := by
    rw [hy]; refine (abs_sub _ _).trans ?_
    norm_num at hz eb ⊢; linarith
  have ap := approx hyb
  change ∃ r, scalbn (bits64 t + tail (bits64 t) (z - bits64 e)) κ = some r ∧ _
  have hrn := add_rne tf tl.fin
  have hq : |(bits64 t).val + (tail (bits64 t) (z - bits64 e)).val - Real.exp ((x.val - κ) * Real.log 2)| ≤ 0.01 * 2 ^ (-1 - (f64.sb : ℤ)) := by
    rw [f64_sb]
    have te := tl.err
    rw [← hy] at te
    set s := (tail (bits64 t) (z - bits64 e)).val
    have e1 : (bits64 t).val + s - Real.exp ((x.val - κ) * Real.log 2) = (s - (bits64 t).val * y * Poly.ev poly y) +
        (bits64 t).val * (1 + y * Poly.ev poly y - Real.exp (y * Real.log 2)) + Real.exp ((x.val - κ) * Real.log 2) * (X - 1) := by
      have : (bits64 t).val * (1 + y * Poly.ev poly y - Real.exp (y * Real.log 2)) = (bits64 t).val * (1 + y * Poly.ev poly y) - Real.exp ((x.val - κ) * Real.log 2) * X := by
        rw [← eX]; ring
      rw [this]; ring
    rw [e1]
    refine (abs_add_three _ _ _).trans ?_
    rw [abs_mul, abs_mul (Real.exp _), abs_of_pos tb.1, abs_of_pos (Real.exp_pos _)]
    have q1 := mul_le_mul tb.2 ap (abs_nonneg _) (by norm_num)
    have q2 := mul_le_mul r2 hX (abs_nonneg _) (by norm_num)
    generalize (bits64 t).val * |1 + y * Poly.ev poly y - Real.exp (y * Real.log 2)| = A at *
    generalize Real.exp ((x.val - κ) * Real.log 2) * |X - 1| = B at *
    generalize |s - (bits64 t).val * y * Poly.ev poly y| = C at *
    norm_num at te q1 q2 ⊢
    linarith
  obtain ⟨yf, ypos, -⟩ := near_scaled hrn (by rw [f64_bias]; norm_num) (by rw [f64_sb]; norm_num) r1' r2' (by norm_num) (by norm_num) hq
  obtain ⟨r, s1, s2, -⟩ := scalbn_finite (F := f64) (Or.inr (Or.inr (Or.inl rfl))) _ yf κ (by omega) (by omega)
  refine ⟨r, s1, ?_⟩
  have s3 := isRNE_real s2
  push_cast at s3
  refine ⟨?_, s3.sign_pos (mul_pos (lt_of_lt_of_le (by norm_num) ypos) (zp κ))⟩
  rw [eE]
  refine WithinUlp.scaled_of hrn s3 (by rw [f64_bias]; norm_num) (by rw [f64_sb]; norm_num) r1' r2' (by norm_num) (by norm_num) hq ?_ (by norm_num) (by norm_num)
  rw [f64_bias]
  rcases le_or_gt κ 1023 with hk | hk
  · left; exact_mod_cast hk
  · right
    have hk1 : κ = 1024 := by omega
    refine ⟨by rw [hk1]; norm_num, ?_⟩
    have hρ2 : (x.val - κ) * Real.log 2 ≤ -(1 / 10 ^ 14) := by
      rw [hk1]
      push_cast
      norm_num at l1 h2 ⊢; nlinarith
    have h1 := Real.abs_exp_sub_one_sub_id_le (x := -(1 / 10 ^ 14)) (by norm_num)
    have h2 := Real.exp_le_exp.2 hρ2
    have h3 := (abs_le.1 h1).2
    have h4 := (abs_le.1 hq).2
    rw [f64_sb] at h4
    have := hrn.le_of_le yf (s := bits64 0x3fefffffffffffff) (by decide +kernel) (by
      rw [Exp.v_pred1]
      generalize Real.exp (-(1 / 10 ^ 14)) = B at *
      generalize Real.exp ((x.val - κ) * Real.log 2) = A at *
      norm_num at h2 h3 h4 ⊢; linarith)
    rw [Exp.v_pred1] at this
    refine this.trans_lt ?_
    norm_num
end Exp2

/-- the exponential is below the overflow threshold only below the exponent -/
theorem rpow_lt_thr64 {t : ℝ} (h : (2 : ℝ) ^ t < ((overflowThreshold f64 : ℚ) : ℝ)) : t < 1024 := by
  rw [← thr64] at h
  have hp : (0 : ℝ) < 2 ^ (1024 : ℤ) := zp _
  have h5 : (2 : ℝ) ^ (1024 : ℤ) * (1 - 1 / 2 ^ 54) ≤ 2 ^ (1024 : ℤ) * 1 := mul_le_mul_of_nonneg_left (by norm_num) hp.le
  rw [mul_one] at h5
  have h6 := h.trans_le h5
  rw [← Real.rpow_intCast] at h6
  have := (Real.rpow_lt_rpow_left_iff (by norm_num)).1 h6
  simpa using this

theorem exp2_accurate_pos (x : Flt f64) (xf : x.isFinite) (hx : (2 : ℝ) ^ x.val < ((overflowThreshold f64 : ℚ) : ℝ)) :
    ∃ r, exp2 x = some r ∧ WithinUlp 0.76 r ((2 : ℝ) ^ x.val) ∧ r.sign = false := by
  have hx := rpow_lt_thr64 (t := x.val) hx
  have hn := not_nan_of_finite xf
  have hf := (isFinite64 x).1 xf
  have p : (0 : ℝ) < 2 ^ x.val := Real.rpow_pos_of_pos (by norm_num) _
  have hm : x.sign = false → x.mb ≤ 0x408fffffffffffff := fun hs => by
    by_contra hc
    have := val_ge_of_mb (F := f64) (x := x) (E := 1033) (by norm_num) (by rw [f64_sb]; omega)
    rw [abs_of_nonneg (val_nonneg hs), f64_bias] at this
    norm_num at this; linarith
  rw [Exp2.eq, if_neg (fun h => by have := hm h.2.2; omega), if_neg (by omega)]
  by_cases h0 : 0x408ff000 ≤ x.mb / 2 ^ 32 ∧ x.sign = true ∧ (x ≤ᶠ -1075.0) = true
  · rw [if_pos h0]
    refine ⟨_, rfl, ?_, by decide +kernel⟩
    have h1 := val_le_iff.2 (le_iff.1 h0.2.2).2.2
    rw [Exp2.v_min] at h1
    norm_num at h1
    have h2 : (2 : ℝ) ^ x.val ≤ 2 ^ (-1075 : ℤ) := by
      rw [← Real.rpow_intCast]; exact Real.rpow_le_rpow_of_exponent_le (by norm_num) (by push_cast; exact h1)
    rw [WithinUlp.def']
    refine ⟨by decide +kernel, ?_⟩
    rw [show (0.0 : Flt f64).val = 0 from Pow.v_0, zero_sub, abs_neg, abs_of_pos p]
    have h3 : (2 : ℝ) ^ (1 - (f64.bias : ℤ) - f64.sb) ≤ ulpAt f64 ((2 : ℝ) ^ x.val) := by
      rw [ulpAt, if_neg p.ne']
      exact zpow_le_zpow_right₀ (by norm_num) (by have := le_max_right (Int.log 2 |(2 : ℝ) ^ x.val|) (1 - (f64.bias : ℤ)); omega)
    rw [f64_bias, f64_sb] at h3
    have e : (2 : ℝ) ^ (1 - ((1023 : ℕ) : ℤ) - ((52 : ℕ) : ℤ)) = 2 * 2 ^ (-1075 : ℤ) := by
      rw [← zpow_one_add₀ (by norm_num)]; norm_num
    rw [e] at h3
    have := zp (-1075)
    generalize (2 : ℝ) ^ (-1075 : ℤ) = T at *
    norm_num; linarith
  · rw [if_neg h0]
    by_cases h1 : x.mb / 2 ^ 32 < 0x408ff000 ∧ x.mb / 2 ^ 32 < 0x3c900000
    · rw [if_pos h1]
      have hb := val_lt_of_mb (F := f64) (x := x) (E := 969) (by norm_num) (by rw [f64_sb]; omega)
      rw [f64_bias] at hb
      norm_num at hb
      have l1 := Num.log2_gt
      have l2' := Num.log2_lt
      have hr := add_rne (x := (1.0 : Flt f64)) (by decide +kernel) xf
      rw [TanInv.one_val] at hr
      refine ⟨_, rfl, ?_, hr.sign_pos (by have := (abs_lt.1 hb).1; linarith)⟩
      set t := (2 : ℝ) ^ x.val with ht
      have hL : |x.val * Real.log 2| ≤ |x.val| := by
        rw [abs_mul, abs_of_pos (a := Real.log 2) (by norm_num at l1 ⊢; linarith)]
        exact mul_le_of_le_one_right (abs_nonneg _) (by norm_num at l2'; linarith)
      have he := Real.abs_exp_sub_one_sub_id_le (x := x.val * Real.log 2) (by linarith)
      rw [← two_rpow_eq, ← ht] at he
      have hsq : (x.val * Real.log 2) ^ 2 ≤ 1 / 2 ^ 54 * (1 / 2 ^ 54) := by
        rw [← sq_abs, pow_two]
        have hL2 : |x.val * Real.log 2| ≤ 1 / 2 ^ 54 := hL.trans (by norm_num; linarith)
        exact mul_le_mul hL2 hL2 (abs_nonneg _) (by norm_num)
      have hlin : |x.val - x.val * Real.log 2| ≤ 1 / 2 ^ 54 * 0.31 := by
        rw [show x.val - x.val * Real.log 2 = x.val * (1 - Real.log 2) by ring, abs_mul]
        refine mul_le_mul (by norm_num; linarith) ?_ (abs_nonneg _) (by norm_num)
        rw [abs_le]; norm_num at l1 l2' ⊢; constructor <;> linarith
      have hdiff : |1 + x.val - t| ≤ 0.16 / 2 ^ 53 := by
        have e : 1 + x.val - t = (x.val - x.val * Real.log 2) - (t - 1 - x.val * Real.log 2) := by ring
        rw [e]
        refine (abs_sub _ _).trans ?_
        norm_num at he hsq hlin ⊢
        linarith
      have ht2 : |t - 1| ≤ 1 / 4 := by
        have h3 := abs_le.1 hdiff
        have h4 := abs_lt.1 hb
        rw [abs_le]
        norm_num at h3 h4 ⊢
        constructor <;> linarith [h3.1, h3.2, h4.1, h4.2]
      have ht3 := abs_le.1 ht2
      have hulp := le_ulpAt_of_le (F := f64) (t := t) (k := -1) (by rw [abs_of_pos p]; norm_num; linarith [ht3.1])
      rw [f64_sb] at hulp
      refine WithinUlp.of_rne hr p.ne' (δ := 0.16) (by
        rw [abs_of_pos p, f64_bias]
        refine lt_of_lt_of_le (show t < 2 ^ (1 : ℤ) by norm_num; linarith [ht3.2]) (zpow_le_zpow_right₀ (by norm_num) (by norm_num))) (by rw [f64_bias]; norm_num) ?_ (by norm_num) (by norm_num)
      refine hdiff.trans ?_
      have := mul_le_mul_of_nonneg_left hulp (show (0 : ℝ) ≤ 0.16 by norm_num)
      refine le_trans (le_of_eq ?_) this
      norm_num
    · rw [if_neg h1]
      refine Exp2.core_acc xf ?_ ?_
      · by_contra hc
        push Not at hc
        have hs : x.sign = true := by
          by_contra hs
          have := val_nonneg (x := x) (by simpa using hs)
          linarith
        apply h0
        refine ⟨?_, hs, le_iff.2 ⟨hn, by decide +kernel, val_le_iff.1 (by rw [Exp2.v_min]; norm_num; exact hc.le)⟩⟩
        by_contra hb
        have := val_lt_of_mb (F := f64) (x := x) (E := 1033) (by norm_num) (by rw [f64_sb]; omega)
        rw [f64_bias] at this
        norm_num at this
        have := (abs_lt.1 this).1
        linarith
      · cases hs : x.sign
        · have := val_le_of_mb (c := bits64 0x408fffffffffffff) (hm hs) (by decide +kernel)
          rw [Exp2.v_max] at this
          norm_num at this ⊢; exact this
        · have := val_nonpos hs
          norm_num; linarith

/-- C59: for every finite argument at which `2^x` does not overflow, `exp2` is within 0.76 units in the last place -/
theorem exp2_accurate : AccurateBelow 0.76 exp2 (fun t => (2 : ℝ) ^ t) := fun x xf hx =>
  (exp2_accurate_pos x xf hx).imp fun _ h => ⟨h.1, h.2.1⟩

/-- the theorem is about real calls: `2^0.5` -/
example : (exp2 0.5).isSome = true := by decide +kernel

end Verif
