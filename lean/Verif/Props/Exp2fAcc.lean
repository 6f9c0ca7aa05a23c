import Verif.Theory.Exp2F
import Verif.Theory.CbrtBits
import Verif.Theory.Hypotf
import Verif.Props.Exp2Acc
import Verif.Theory.PowfTot

/-!
# C59: accuracy of `exp2f`
-/

namespace Verif
open Flt

namespace Exp2f
theorem redux_val : redux.val = 3 * 2 ^ ((19 : ℤ) - 1) := by
  rw [v_redux]; norm_num

/-- the bits of `x + redux`: index, exponent and the power of two built from them -/
theorem split {ui : BitVec 32} {n : ℤ} (h : (ui.toNat : ℤ) = 0x49400000 + n) (h1 : -2408 ≤ n) (h2 : n ≤ 2048) :
    uadd ui 8#32 = some (ui + 8#32) ∧ uadd 0x3ff#32 ((ui + 8#32) / 16#32) = some (0x3ff#32 + (ui + 8#32) / 16#32) ∧
      (((ui + 8#32) &&& 15#32).toNat : ℤ) = (n + 8) % 16 ∧
      (bits64 ((0x3ff#32 + (ui + 8#32) / 16#32).setWidth 64 <<< 52)).isFinite ∧
      (bits64 ((0x3ff#32 + (ui + 8#32) / 16#32).setWidth 64 <<< 52)).val = 2 ^ ((n + 8) / 16) := by
  have e8 : (8#32).toNat = 8 := rfl
  have e16 : (16#32).toNat = 16 := rfl
  have e3 : (0x3ff#32).toNat = 0x3ff := rfl
  have a0 : (ui + 8#32).toNat = ui.toNat + 8 := by rw [BitVec.toNat_add, e8]; omega
  have a1 : ((ui + 8#32) / 16#32).toNat = (ui.toNat + 8) / 16 := by rw [BitVec.toNat_udiv, a0, e16]
  have a2 : (0x3ff#32 + (ui + 8#32) / 16#32).toNat = 0x3ff + (ui.toNat + 8) / 16 := by
    rw [BitVec.toNat_add, a1, e3]; omega
  set κ := (n + 8) / 16 with hκ
  have a3 : ((0x3ff#32 + (ui + 8#32) / 16#32).setWidth 64 <<< 52).toNat = (1023 + κ).toNat * 2 ^ 52 := by
    rw [BitVec.toNat_shiftLeft, BitVec.toNat_setWidth, a2, Nat.shiftLeft_eq]
    omega
  have hlt : (1023 + κ).toNat * 2 ^ 52 < 2 ^ 63 := by omega
  set b := (0x3ff#32 + (ui + 8#32) / 16#32).setWidth 64 <<< 52 with hb
  have hmk := bits64_mk (b := b) (by rw [a3]; exact hlt)
  have hmb : (bits64 b).mb = (1023 + κ).toNat * 2 ^ 52 + 0 := by
    rw [hmk, mb_mk' (by rw [a3]; exact hlt), a3, add_zero]
  have hs : (bits64 b).sign = false := by rw [hmk]; exact sign_mk' (by rw [a3]; exact hlt)
  refine ⟨?_, ?_, ?_, ?_, ?_⟩
  · unfold uadd; rw [if_pos]; rw [e8]; omega
  · unfold uadd; rw [if_pos]; rw [a1]; change 1023 + _ < _; omega
  · have e15 : (15#32).toNat = 2 ^ 4 - 1 := rfl
    rw [BitVec.toNat_and, a0, e15, Nat.and_two_pow_sub_one_eq_mod]
    omega
  · refine (isFinite64 _).2 (hmb.trans_lt ?_)
    have hK : (1023 + κ).toNat ≤ 2000 := by omega
    clear hmb a3 hlt
    generalize (1023 + κ).toNat = K at hK
    omega
  · have := Cbrt.abs_mk (x := bits64 b) (E := (1023 + κ).toNat) (m := 0) (by omega) (by norm_num) hmb
    rw [abs_of_nonneg (val_nonneg hs)] at this
    rw [this, show ((2 ^ 52 + 0 : ℕ) : ℝ) = 2 ^ (52 : ℤ) by norm_num, ← zpow_add₀ (by norm_num)]
    have e : (52 : ℤ) + (((1023 + κ).toNat : ℤ) - 1075) = κ := by omega
    rw [e]

set_option maxHeartbeats 1000000 in
theorem core_acc {x : Flt f32} (xf : x.isFinite) (h1 : -150 ≤ x.val) (h2 : x.val ≤ 128 - 1 / 2 ^ 17) :
    ∃ r, core x = some r ∧ WithinUlp 0.503 r ((2 : ℝ) ^ x.val) := by
  have l1 := Num.log2_gt
  have l2' := Num.log2_lt
  obtain ⟨n, hn, sf, ss, smb, zf, zv⟩ := magic_sub (x := x) (c := redux) (K := 19) xf (by decide +kernel) redux_val
    (by norm_num at h1 h2 ⊢; rw [abs_le]; constructor <;> linarith) (by rw [f32_bias, f32_sb]; norm_num) (by rw [f32_bias]; norm_num)
  rw [f32_sb] at hn zv smb
  rw [f32_bias] at smb
  norm_num at hn zv smb
  have hn2 := abs_le.1 hn
  have n1 : (-2400 : ℤ) ≤ n := by
    have : ((-2401 : ℤ) : ℝ) < n := by norm_num at h1 ⊢; linarith [hn2.2]
    have : (-2401 : ℤ) < n := by exact_mod_cast this
    omega
  have n2 : n ≤ 2048 := by
    have : (n : ℝ) < (2049 : ℤ) := by norm_num at h2 ⊢; linarith [hn2.1]
    have : n < (2049 : ℤ) := by exact_mod_cast this
    omega
  have hui : ((x + redux).u32.toNat : ℤ) = 0x49400000 + n := by
    rw [u32_toNat, ss]; simp only [Bool.false_eq_true, if_false]; rw [Nat.add_zero, smb]
  obtain ⟨a1, a2, a3, uf, uv⟩ := split hui (by omega) n2
  unfold core
  dsimp only
  rw [bits32_u32, a1]
  simp only [Option.bind_some]
  rw [a2]
  simp only [Option.bind_some]
  generalize bits64 ((0x3ff#32 + ((x + redux).u32 + 8#32) / 16#32).setWidth 64 <<< 52) = U at uf uv ⊢
  generalize ((x + redux).u32 + 8#32) &&& 15#32 = jv at a3 ⊢
  obtain ⟨zf', zv'⟩ := Hypotf.widen zf
  rw [zv] at zv'
  generalize (x - (x + redux - redux)).cast f64 = z at zf' zv' ⊢
  obtain ⟨t, ht, tf, X, hX, tv⟩ := tab (j := jv.toNat) (by omega)
  rw [ht]
  simp only [Option.bind_some]
  set κ := (n + 8) / 16 with hκ
  have hj : ((jv.toNat : ℤ) : ℝ) = n + 8 - 16 * κ := by
    have : (jv.toNat : ℤ) = n + 8 - 16 * κ := by omega
    rw [this]; push_cast; ring
  rw [Int.cast_natCast] at hj
  have hj2 : (jv.toNat : ℝ) ≤ 15 := by
    have : jv.toNat ≤ 15 := by omega
    exact_mod_cast this
  have hj0 : (0 : ℝ) ≤ jv.toNat := Nat.cast_nonneg _
  generalize (jv.toNat : ℝ) = j at *
  have ex : (x.val - κ) * Real.log 2 = ((j - 8) / 16) * Real.log 2 + z.val * Real.log 2 := by
    rw [zv', hj]; ring
  have eE : (2 : ℝ) ^ x.val = Real.exp ((x.val - κ) * Real.log 2) * 2 ^ κ := by
    rw [two_rpow_eq]
    rw [show x.val * Real.log 2 = (x.val - κ) * Real.log 2 + κ * Real.log 2 by ring, Real.exp_add]
    congr 1
    rw [mul_comm, Real.exp_mul, Real.exp_log (by norm_num), Real.rpow_intCast]
  have eX : (bits64 t).val * Real.exp (z.val * Real.log 2) = Real.exp ((x.val - κ) * Real.log 2) * X := by
    rw [tv, ex, Real.exp_add]; ring
  have hz : |z.val| ≤ 1 / 32 := by rw [zv']; norm_num at hn ⊢; exact hn
  have lp : 0 < Real.log 2 := by norm_num at l1; linarith
  have tb : 0 < (bits64 t).val ∧ (bits64 t).val ≤ 3 / 2 := by
    have h3 : |((j - 8) / 16) * Real.log 2| ≤ 0.3467 := by
      rw [abs_mul, abs_of_pos lp]
      have h4 : |(j - 8) / 16| ≤ 1 / 2 := by
        rw [abs_le]; constructor <;> linarith
      have := mul_le_mul h4 (show Real.log 2 ≤ 0.69315 by norm_num at l2' ⊢; linarith) lp.le (by norm_num)
      norm_num at this ⊢; linarith
    generalize ((j - 8) / 16) * Real.log 2 = ρ at *
    have h5 := Real.exp_bound (x := ρ) (by norm_num at h3 ⊢; linarith) (n := 3) (by norm_num)
    simp only [Finset.sum_range_succ, Finset.sum_range_zero, Nat.factorial] at h5
    have h6 : |ρ| ^ 3 ≤ 0.3467 ^ 3 := pow_le_pow_left₀ (abs_nonneg _) h3 3
    have h7 : ρ ^ 2 ≤ 0.3467 ^ 2 := by rw [← sq_abs]; exact pow_le_pow_left₀ (abs_nonneg _) h3 2
    have h8 := abs_le.1 h3
    have h9 := abs_le.1 h5
    have hX2 := abs_le.1 hX
    have hp := Real.exp_pos ρ
    rw [tv]
    constructor
    · exact mul_pos hp (by norm_num at hX2; linarith [hX2.1])
    · have : Real.exp ρ ≤ 1.44 := by
        norm_num at h6 h7 h8 h9 ⊢
        linarith [h9.2, h8.2]
      have := mul_le_mul this (show X ≤ 1.01 by norm_num at hX2 ⊢; linarith [hX2.2]) (by norm_num at hX2; linarith [hX2.1]) (by norm_num)
      norm_num at this ⊢; linarith
  have tl := tail_err tf zf' (by rw [abs_of_pos tb.1]; exact tb.2) hz
  have ap := approx hz
  change ∃ r, some ((tail (bits64 t) z * U).cast f32) = some r ∧ _
  refine ⟨_, rfl, ?_⟩
  set s := tail (bits64 t) z with hs
  have hd : |x.val - κ| ≤ 1 / 2 + 1 / 32 := by
    have : x.val - κ = (j - 8) / 16 + (x.val - n * (1 / 16)) := by rw [hj]; ring
    rw [this]
    have h3 : |(j - 8) / 16| ≤ 1 / 2 := by rw [abs_le]; constructor <;> linarith
    refine (abs_add_le _ _).trans ?_
    norm_num at hn ⊢; linarith
  have hρ : |(x.val - κ) * Real.log 2| ≤ 0.375 := by
    rw [abs_mul, abs_of_pos lp]
    have := mul_le_mul hd (show Real.log 2 ≤ 0.694 by norm_num at l2' ⊢; linarith) lp.le (by norm_num)
    norm_num at this ⊢; linarith
  set E := Real.exp ((x.val - κ) * Real.log 2) with hE
  obtain ⟨r1, r2⟩ : 0.625 ≤ E ∧ E ≤ 1.6 := by
    have h2 := abs_le.1 hρ
    norm_num at h2
    have h3 := Real.add_one_le_exp ((x.val - κ) * Real.log 2)
    have h4 := Real.add_one_le_exp (-((x.val - κ) * Real.log 2))
    have h5 : E * Real.exp (-((x.val - κ) * Real.log 2)) = 1 := by rw [hE, ← Real.exp_add]; simp
    have h6 : 0 < E := Real.exp_pos _
    rw [← hE] at h3
    norm_num
    constructor
    · linarith
    · nlinarith
  have Ep : 0 < E := Real.exp_pos _
  have hq : |s.val - E| ≤ 2.9 / 2 ^ 34 * E := by
    have te := tl.err
    have e1 : s.val - E = (s.val - (bits64 t).val * (1 + z.val * Poly.ev poly z.val)) +
        (bits64 t).val * (1 + z.val * Poly.ev poly z.val - Real.exp (z.val * Real.log 2)) + E * (X - 1) := by
      have : (bits64 t).val * (1 + z.val * Poly.ev poly z.val - Real.exp (z.val * Real.log 2)) = (bits64 t).val * (1 + z.val * Poly.ev poly z.val) - E * X := by
        rw [← eX]; ring
      rw [this]; ring
    rw [e1]
    refine (abs_add_three _ _ _).trans ?_
    rw [abs_mul, abs_mul E, abs_of_pos tb.1, abs_of_pos Ep]
    have q1 := mul_le_mul tb.2 ap (abs_nonneg _) (by norm_num)
    have q2 := mul_le_mul_of_nonneg_left hX Ep.le
    generalize (bits64 t).val * |1 + z.val * Poly.ev poly z.val - Real.exp (z.val * Real.log 2)| = A at *
    generalize E * |X - 1| = B at *
    generalize |s.val - (bits64 t).val * (1 + z.val * Poly.ev poly z.val)| = C at *
    norm_num at te q1 q2 r1 r2 ⊢
    linarith
  -- the product with the power of two is exact
  have sb := abs_le.1 hq
  have s1 : 1 / 2 ≤ s.val := by norm_num at sb r1 ⊢; linarith [sb.1]
  have s2 : s.val < 2 := by norm_num at sb r2 ⊢; linarith [sb.2]
  obtain ⟨pf, pv⟩ : (s * U).isFinite ∧ (s * U).val = s.val * 2 ^ κ := by
    obtain ⟨m, hm⟩ := grid64 s (-1) (by rw [abs_of_pos (by linarith)]; norm_num; linarith)
    have big : ∃ c : Flt f64, c.isFinite ∧ c.val = s.val * 2 ^ κ := by
      rcases le_or_gt 1 s.val with h3 | h3
      · obtain ⟨m, hm⟩ := grid64 s 0 (by rw [abs_of_pos (by linarith)]; norm_num; linarith)
        have h5 : s.val = m * (1 / 2 ^ 52) := by rw [hm]; norm_num
        have hm2 : |m| ≤ 2 ^ 53 := by
          have : |(m : ℝ)| < 2 ^ 53 := by
            have : (m : ℝ) = s.val * 2 ^ 52 := by rw [h5]; ring
            rw [this, abs_of_pos (by positivity)]
            norm_num; linarith
          exact_mod_cast this.le
        obtain ⟨c, cf, cv⟩ := exists_val64' (n := m) (k := 0 - 52 + κ) hm2 (by omega) (by omega)
        exact ⟨c, cf, by rw [cv, hm, mul_assoc, ← zpow_add₀ (by norm_num)]⟩
      · have h5 : s.val = m * (1 / 2 ^ 53) := by rw [hm]; norm_num
        have hm2 : |m| ≤ 2 ^ 53 := by
          have : |(m : ℝ)| < 2 ^ 53 := by
            have : (m : ℝ) = s.val * 2 ^ 53 := by rw [h5]; ring
            rw [this, abs_of_pos (by positivity)]
            norm_num; linarith
          exact_mod_cast this.le
        obtain ⟨c, cf, cv⟩ := exists_val64' (n := m) (k := -1 - 52 + κ) hm2 (by omega) (by omega)
        exact ⟨c, cf, by rw [cv, hm, mul_assoc, ← zpow_add₀ (by norm_num)]⟩
    obtain ⟨c, cf, cv⟩ := big
    have := (mul_rne tl.fin uf).exact_real cf (by rw [cv, uv])
    rwa [uv] at this
  have hr := cast_rne (G := f32) pf
  rw [pv] at hr
  have hK := zp κ
  rw [eE]
  have hrel : |s.val * 2 ^ κ - E * 2 ^ κ| ≤ 2.9 / 2 ^ 34 * |E * 2 ^ κ| := by
    rw [← sub_mul, abs_mul, abs_mul, abs_of_pos hK, abs_of_pos Ep, ← mul_assoc]
    exact mul_le_mul_of_nonneg_right hq hK.le
  -- the end of the range
  have htop : E * 2 ^ κ ≤ 2 ^ (128 : ℤ) * (1 - 1 / 2 ^ 19) := by
    rw [← eE, two_rpow_eq]
    have h3 : x.val * Real.log 2 ≤ (128 : ℤ) * Real.log 2 + -(1 / 2 ^ 18) := by
      have h4 := mul_le_mul_of_nonneg_right h2 lp.le
      have h5 : 1 / 2 < Real.log 2 := by norm_num at l1 ⊢; linarith
      push_cast
      linarith
    refine (Real.exp_le_exp.2 h3).trans ?_
    rw [Real.exp_add, mul_comm ((128 : ℤ) : ℝ), Real.exp_mul, Real.exp_log (by norm_num), Real.rpow_intCast]
    refine mul_le_mul_of_nonneg_left ?_ (zp _).le
    have h4 := (abs_le.1 (Real.abs_exp_sub_one_sub_id_le (x := -(1 / 2 ^ 18)) (by norm_num))).2
    generalize Real.exp (-(1 / 2 ^ 18)) = A at *
    norm_num at h4 ⊢; linarith
  refine WithinUlp.of_rne_thr_rel hr (mul_pos Ep hK).ne' ?_ (by rw [f32_bias]; norm_num) ?_ hrel (by norm_num) (by rw [f32_sb]; norm_num) (by rw [f32_sb]; norm_num)
  · rw [abs_of_pos (mul_pos Ep hK), f32_bias]
    refine htop.trans_lt ?_
    norm_num
  · rw [← thr32, abs_of_pos (mul_pos (by linarith) hK)]
    have h5 := (abs_le.1 hrel).2
    rw [abs_of_pos (mul_pos Ep hK)] at h5
    generalize E * 2 ^ κ = T at *
    generalize s.val * 2 ^ κ = S at *
    norm_num at htop h5 ⊢
    linarith
end Exp2f

theorem rpow_lt_thr32 {t : ℝ} (h : (2 : ℝ) ^ t < ((overflowThreshold f32 : ℚ) : ℝ)) : t < 128 := by
  rw [← thr32] at h
  have hp : (0 : ℝ) < 2 ^ (128 : ℤ) := zp _
  have h5 : (2 : ℝ) ^ (128 : ℤ) * (1 - 1 / 2 ^ 25) ≤ 2 ^ (128 : ℤ) * 1 := mul_le_mul_of_nonneg_left (by norm_num) hp.le
  rw [mul_one] at h5
  have h6 := h.trans_le h5
  rw [← Real.rpow_intCast] at h6
  have := (Real.rpow_lt_rpow_left_iff (by norm_num)).1 h6
  simpa using this

/-- `1 + x` is one when `x` is at most `2^-25` -/
theorem one_add_tiny32 {x : Flt f32} (h : x.mb ≤ 0x33000000) : (1.0 + x : Flt f32).isFinite ∧ (1.0 + x : Flt f32).val = 1 := by
  have xf : x.isFinite := by rw [isFinite32]; omega
  rcases h.lt_or_eq with h | h
  · have hb := val_lt_of_mb (F := f32) (x := x) (E := 102) (by norm_num) (by rw [f32_sb]; omega)
    rw [f32_bias] at hb
    norm_num at hb
    have hb2 := abs_lt.1 hb
    have hr := add_rne (x := (1.0 : Flt f32)) (by decide +kernel) xf
    have o : (1.0 : Flt f32).val = 1 := Powf.v_one
    rw [o] at hr
    obtain ⟨rf, rmin, -⟩ := hr.finite (by
      rw [abs_le, f32_bias]
      norm_num
      constructor <;> linarith [hb2.1, hb2.2])
    refine ⟨rf, ?_⟩
    have h1 := rmin (1.0 : Flt f32) (by decide +kernel)
    rw [o, show (1 : ℝ) - (1 + x.val) = -x.val by ring, abs_neg] at h1
    have h2 := abs_le.1 (h1.trans hb.le)
    obtain ⟨n, hn⟩ := grid32 (1.0 + x) (-1) (by
      refine le_trans ?_ (le_abs_self _)
      norm_num
      linarith [h2.1, hb2.1])
    have h3 : |(1.0 + x : Flt f32).val - 1| < 1 / 2 ^ 24 := by
      have e : (1.0 + x : Flt f32).val - 1 = ((1.0 + x : Flt f32).val - (1 + x.val)) + x.val := by ring
      rw [e]
      refine (abs_add_le _ _).trans_lt ?_
      norm_num
      linarith
    rw [hn] at h3 ⊢
    have e : (2 : ℝ) ^ ((-1 : ℤ) - 23) = 1 / 2 ^ 24 := by norm_num
    rw [e] at h3 ⊢
    have h4 := abs_lt.1 h3
    have h5 : n = 2 ^ 24 := by
      have b1 : ((2 ^ 24 - 1 : ℤ) : ℝ) < n := by push_cast; norm_num at h4 ⊢; linarith [h4.1]
      have b2 : (n : ℝ) < ((2 ^ 24 + 1 : ℤ) : ℝ) := by push_cast; norm_num at h4 ⊢; linarith [h4.2]
      have c1 : (2 ^ 24 - 1 : ℤ) < n := by exact_mod_cast b1
      have c2 : n < (2 ^ 24 + 1 : ℤ) := by exact_mod_cast b2
      omega
    rw [h5]; norm_num
  · have : x = mk' f32 x.sign 0x33000000 := by rw [← h]; exact (mk'_self x).symm
    rw [this]
    have e : (1.0 : Flt f32).val = 1 := Powf.v_one
    have key : ∀ s : Bool, (1.0 : Flt f32) + mk' f32 s 0x33000000 = 1.0 := by decide +kernel
    rw [key, e]
    exact ⟨by decide +kernel, rfl⟩

/-- C59: for every finite argument at which `2^x` does not overflow, `exp2f` is within 0.503 units in the last place -/
theorem exp2f_accurate : AccurateBelow 0.503 exp2f (fun t => (2 : ℝ) ^ t) := by
  intro x xf hx
  change ∃ r, exp2f x = some r ∧ WithinUlp 0.503 r ((2 : ℝ) ^ x.val)
  have hx := rpow_lt_thr32 (t := x.val) hx
  have hn := not_nan_of_finite xf
  have hf := (isFinite32 x).1 xf
  have p : (0 : ℝ) < 2 ^ x.val := Real.rpow_pos_of_pos (by norm_num) _
  have hm : x.sign = false → x.mb ≤ 0x42ffffff := fun hs => by
    by_contra hc
    have := val_ge_of_mb (F := f32) (x := x) (E := 134) (by norm_num) (by rw [f32_sb]; omega)
    rw [abs_of_nonneg (val_nonneg hs), f32_bias] at this
    norm_num at this; linarith
  rw [Exp2f.eq, if_neg (by omega), if_neg (fun h => by have := hm h.2.2; omega)]
  by_cases h0 : 0x42fc0000 < x.mb ∧ x.sign = true ∧ 0x43160000 ≤ x.mb
  · rw [if_pos h0]
    refine ⟨_, rfl, ?_⟩
    have h1 : x.val ≤ -150 := by
      have h3 : |(bits32 0x43160000).val| ≤ |x.val| := val_mono (by
        rw [show (bits32 0x43160000).mb = 0x43160000 by decide +kernel]; exact h0.2.2)
      rw [val_const32 (x := bits32 0x43160000) 75 150 1 (by decide +kernel) (by norm_num), abs_of_nonpos (val_nonpos h0.2.1)] at h3
      norm_num at h3; linarith
    have h2 : (2 : ℝ) ^ x.val ≤ 2 ^ (-150 : ℤ) := by
      rw [← Real.rpow_intCast]; exact Real.rpow_le_rpow_of_exponent_le (by norm_num) (by push_cast; exact h1)
    rw [WithinUlp.def']
    refine ⟨by decide +kernel, ?_⟩
    rw [show (0.0 : Flt f32).val = 0 from Powf.v_0, zero_sub, abs_neg, abs_of_pos p]
    have h3 : (2 : ℝ) ^ (1 - (f32.bias : ℤ) - f32.sb) ≤ ulpAt f32 ((2 : ℝ) ^ x.val) := by
      rw [ulpAt, if_neg p.ne']
      exact zpow_le_zpow_right₀ (by norm_num) (by have := le_max_right (Int.log 2 |(2 : ℝ) ^ x.val|) (1 - (f32.bias : ℤ)); omega)
    rw [f32_bias, f32_sb] at h3
    have e : (2 : ℝ) ^ (1 - ((127 : ℕ) : ℤ) - ((23 : ℕ) : ℤ)) = 2 * 2 ^ (-150 : ℤ) := by
      rw [← zpow_one_add₀ (by norm_num)]; norm_num
    rw [e] at h3
    have := zp (-150)
    generalize (2 : ℝ) ^ (-150 : ℤ) = T at *
    norm_num; linarith
  · rw [if_neg h0]
    by_cases h1 : ¬ 0x42fc0000 < x.mb ∧ x.mb ≤ 0x33000000
    · rw [if_pos h1]
      refine ⟨_, rfl, ?_⟩
      obtain ⟨rf, rv⟩ := one_add_tiny32 h1.2
      have hb := val_lt_of_mb (F := f32) (x := x) (E := 103) (by norm_num) (by rw [f32_sb]; omega)
      have hb' : |x.val| ≤ 1 / 2 ^ 25 := by
        have h3 : |x.val| ≤ |(bits32 0x33000000).val| := val_mono (by
          rw [show (bits32 0x33000000).mb = 0x33000000 by decide +kernel]; exact h1.2)
        rw [val_const32 (x := bits32 0x33000000) 1 124 (-25) (by decide +kernel) (by norm_num)] at h3
        refine h3.trans ?_
        rw [abs_of_pos (by positivity)]; norm_num
      have l1 := Num.log2_gt
      have l2' := Num.log2_lt
      set t := (2 : ℝ) ^ x.val with ht
      have hL : |x.val * Real.log 2| ≤ 1 / 2 ^ 25 * 0.694 := by
        rw [abs_mul, abs_of_pos (a := Real.log 2) (by norm_num at l1 ⊢; linarith)]
        exact mul_le_mul hb' (by norm_num at l2' ⊢; linarith) (by norm_num at l1; linarith) (by norm_num)
      have he := Real.abs_exp_sub_one_sub_id_le (x := x.val * Real.log 2) (hL.trans (by norm_num))
      rw [← two_rpow_eq, ← ht] at he
      have hsq : (x.val * Real.log 2) ^ 2 ≤ (1 / 2 ^ 25 * 0.694) * (1 / 2 ^ 25 * 0.694) := by
        rw [← sq_abs, pow_two]
        exact mul_le_mul hL hL (abs_nonneg _) (by norm_num)
      have hdiff : |1 - t| ≤ 0.35 / 2 ^ 24 := by
        have e : 1 - t = -(x.val * Real.log 2) - (t - 1 - x.val * Real.log 2) := by ring
        rw [e]
        refine (abs_sub _ _).trans ?_
        rw [abs_neg]
        generalize |x.val * Real.log 2| = A at *
        norm_num at he hsq hL ⊢
        linarith
      have ht3 := abs_le.1 hdiff
      have hulp := le_ulpAt_of_le (F := f32) (t := t) (k := -1) (by rw [abs_of_pos p]; norm_num at ht3 ⊢; linarith [ht3.2])
      rw [f32_sb] at hulp
      rw [WithinUlp.def', rv]
      refine ⟨rf, ?_⟩
      have := mul_le_mul_of_nonneg_left hulp (show (0 : ℝ) ≤ 0.503 by norm_num)
      refine le_trans (hdiff.trans ?_) this
      norm_num
    · rw [if_neg h1]
      refine Exp2f.core_acc xf ?_ ?_
      · by_contra hc
        push Not at hc
        have hs : x.sign = true := by
          by_contra hs
          have := val_nonneg (x := x) (by simpa using hs)
          linarith
        apply h0
        have hb : 0x43160000 ≤ x.mb := by
          by_contra hb
          have h3 : |x.val| ≤ |(bits32 0x43160000).val| := val_mono (by
            rw [show (bits32 0x43160000).mb = 0x43160000 by decide +kernel]; omega)
          rw [val_const32 (x := bits32 0x43160000) 75 150 1 (by decide +kernel) (by norm_num), abs_of_nonpos (val_nonpos hs)] at h3
          norm_num at h3; linarith
        exact ⟨by omega, hs, hb⟩
      · cases hs : x.sign
        · have := val_le_of_mb (c := bits32 0x42ffffff) (hm hs) (by decide +kernel)
          rw [Exp2f.v_max] at this
          norm_num at this ⊢; exact this
        · have := val_nonpos hs
          norm_num; linarith

example : (exp2f 0.5).isSome = true := by decide +kernel

end Verif
