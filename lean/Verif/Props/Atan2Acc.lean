import Verif.Theory.Atan2Acc
import Verif.Theory.Ap32

/-!
# `atan2`, `atan2f`: the angle of a point, within three units in the last place
-/

namespace Verif
open Flt InvTrig

/-- A function of two floats `(y, x)` returns, for all finite arguments with `y` not zero or `x` positive, a finite float
within `c` units in the last place of the angle of the point `(x, y)`, the argument of the complex number `x + i y`. -/
def AccurateAngle {F : Fmt} (c : ℝ) (f : Flt F → Flt F → Option (Flt F)) : Prop :=
  ∀ y x : Flt F, y.isFinite → x.isFinite → y.toRat ≠ 0 ∨ 0 < x.toRat →
    ∃ r, f y x = some r ∧ WithinUlp c r (Complex.arg ⟨((x.toRat : ℚ) : ℝ), ((y.toRat : ℚ) : ℝ)⟩)

theorem WithinUlp.signed {F : Fmt} {c : ℝ} {r : Flt F} {t : ℝ} (h : WithinUlp c r t) (s : Bool) : WithinUlp c (Flt.flip s r) (Verif.signed s t) := by
  cases s
  · simpa [Flt.flip, Verif.signed] using h
  · simpa [Flt.flip, Verif.signed] using h.neg

theorem arctan_big {Q : ℝ} (h : 0 < Q) : Real.pi / 2 - Real.arctan Q = Real.arctan (1 / Q) := by
  have := Real.arctan_inv_of_pos h
  rw [one_div, this]

theorem sign_lt {F : Fmt} {y : Flt F} (h : y.val ≠ 0) : decide (y.val < 0) = y.sign := by
  rcases hs : y.sign with _ | _
  · have := val_nonneg hs
    simpa using this
  · have := val_nonpos hs
    simpa using lt_of_le_of_ne this h


namespace Atan2
theorem pi_val' : pi.val = 884279719003555 * 2 ^ (-48 : ℤ) := by
  rw [val_const64 884279719003555 1026 (-48) (by decide +kernel) (by norm_num)]; norm_num
theorem piLo_val' : piLo.val = 4967757600021511 * 2 ^ (-105 : ℤ) := by
  rw [val_const64 4967757600021511 969 (-105) (by decide +kernel) (by norm_num)]; norm_num
theorem pi_fin : pi.isFinite := by decide +kernel

/-- the left half plane: the difference from π in two parts -/
theorem left_acc {z : Flt f64} {T : ℝ} (zf : z.isFinite) (h0 : 0 ≤ T) (h1 : T ≤ Real.pi / 2) (hz : |z.val - T| ≤ 1.25 * 2 ^ (-(52 : ℤ))) :
    WithinUlp 2.99 (pi - (z - piLo)) (Real.pi - T) ∧ WithinUlp 2.99 ((z - piLo) - pi) (-(Real.pi - T)) := by
  have p1 := Real.pi_gt_d20
  have p2 := Real.pi_lt_d20
  have hz2 := abs_le.1 hz
  have hZ : Ap z T (1.25 * 2 ^ (-(52 : ℤ))) 1.9 := ⟨zf, hz, by
    rw [abs_le]; norm_num at hz2 p2 ⊢; constructor <;> linarith [hz2.1, hz2.2]⟩
  have hL : Ap piLo piLo.val 0 (1 / 2 ^ 52) := .exact (by decide +kernel) rfl (by rw [piLo_val', abs_le]; constructor <;> norm_num)
  have hW := Ap.sub hZ hL 1 (by norm_num) (by norm_num) (g := 1.75 * 2 ^ (-(52 : ℤ))) (D := 1.91) (by norm_num) (by norm_num)
  have hWe := hW.err
  have hWf := hW.fin
  generalize z - piLo = W at *
  have hpi : |pi.val + piLo.val - Real.pi| ≤ 2 ^ (-64 : ℤ) := by
    rw [pi_val', piLo_val', abs_le]; norm_num at p1 p2 ⊢; constructor <;> linarith
  have hlo : |piLo.val| ≤ (1 / 2 ^ 52) := by rw [piLo_val', abs_le]; constructor <;> norm_num
  have hWe2 := abs_le.1 hWe
  have hlo2 := abs_le.1 hlo
  have hpi2 := abs_le.1 hpi
  norm_num at hWe2 hlo2 hpi2 p1 p2
  have t1 : 1 ≤ |Real.pi - T| := by
    rw [abs_of_pos (by linarith)]; linarith
  have key : |pi.val - W.val - (Real.pi - T)| ≤ 1.76 * 2 ^ (-(52 : ℤ)) := by
    rw [abs_le]; norm_num
    constructor <;> linarith [hWe2.1, hWe2.2, hpi2.1, hpi2.2]
  have hb : |pi.val - W.val| ≤ 2 ^ (2 : ℤ) := by
    rw [abs_le]; norm_num
    constructor <;> linarith [hWe2.1, hWe2.2, hpi2.1, hpi2.2, hlo2.1, hlo2.2]
  constructor
  · obtain ⟨rf, re⟩ := sub_err64 pi_fin hWf 2 hb (by norm_num)
    refine WithinUlp.of_abs 0 rf (by norm_num; exact t1) (a := 2.77 * 2 ^ (-(52 : ℤ))) ?_ (by rw [f64_sb]; norm_num) (by norm_num)
    refine (abs_sub_le _ (pi.val - W.val) _).trans ((add_le_add re key).trans (by norm_num))
  · obtain ⟨rf, re⟩ := sub_err64 hWf pi_fin 2 (by rw [abs_sub_comm]; exact hb) (by norm_num)
    refine WithinUlp.of_abs 0 rf (by rw [abs_neg]; norm_num; exact t1) (a := 2.77 * 2 ^ (-(52 : ℤ))) ?_ (by rw [f64_sb]; norm_num) (by norm_num)
    refine (abs_sub_le _ (W.val - pi.val) _).trans ?_
    have e : W.val - pi.val - -(Real.pi - T) = -(pi.val - W.val - (Real.pi - T)) := by ring
    rw [e, abs_neg]
    exact (add_le_add re key).trans (by norm_num)

/-- far from the horizontal axis the result is a right angle -/
theorem steep_acc {T : ℝ} (h : |Real.pi / 2 - T| ≤ 1 / 2 ^ 64) : WithinUlp 2.99 (pi / 2.0) T := by
  have p1 := Real.pi_gt_d20
  have p2 := Real.pi_lt_d20
  have e : (pi / 2.0 : Flt f64).val = 884279719003555 * 2 ^ (-49 : ℤ) := by
    rw [val_const64 884279719003555 1025 (-49) (by decide +kernel) (by norm_num)]; norm_num
  have h2 := abs_le.1 h
  norm_num at h2 p1 p2
  refine WithinUlp.of_abs 0 (by decide +kernel) (by norm_num; refine le_trans ?_ (le_abs_self _); linarith [h2.1, h2.2]) (a := 2.99 * 2 ^ (-(52 : ℤ))) ?_ (by rw [f64_sb]; norm_num) (by norm_num)
  rw [e, abs_le]; norm_num
  constructor <;> linarith [h2.1, h2.2]

/-- the rounded quotient -/
theorem quot_bd {y x : Flt f64} (yf : y.isFinite) (xf : x.isFinite) (hx : ¬ x.isZero) (hm : y.mb ≤ x.mb + 65 * 2 ^ 52) :
    (y / x).isFinite ∧
    (2 ^ (1 - (f64.bias : ℤ)) ≤ |y.val / x.val| → abs ((y / x).ab.val - |y.val / x.val|) ≤ |y.val / x.val| * 2 ^ (-1 - (f64.sb : ℤ))) ∧
    (|y.val / x.val| ≤ 2 ^ (1 - (f64.bias : ℤ)) → abs ((y / x).ab.val - |y.val / x.val|) ≤ 2 ^ (-(f64.bias : ℤ) - f64.sb) ∧ (y / x).ab.val ≤ 2 ^ (1 - (f64.bias : ℤ))) := by
  have hd := div_rne yf xf hx
  have xv : 0 < |x.val| := abs_pos.2 (fun h => hx (isZero_val.2 h))
  have hq : |y.val / x.val| ≤ 2 ^ (118 : ℤ) := by
    rw [abs_div, div_le_iff₀ xv, mul_comm]
    exact ratio_le (c := 65) (by norm_num) hx (by rw [f64_sb]; exact hm)
  obtain ⟨qf, -⟩ := hd.err64 118 hq (by norm_num) (by norm_num)
  have hb : |y.val / x.val| ≤ 3 / 2 * 2 ^ (f64.bias : ℤ) := by
    refine hq.trans ?_
    rw [f64_bias]
    have : (2 : ℝ) ^ (118 : ℤ) ≤ 2 ^ ((1023 : ℕ) : ℤ) := zpow_le_zpow_right₀ (by norm_num) (by norm_num)
    have h0 : (0 : ℝ) < 2 ^ ((1023 : ℕ) : ℤ) := by positivity
    generalize (2 : ℝ) ^ ((1023 : ℕ) : ℤ) = t at *
    linarith
  rw [ab_val]
  refine ⟨qf, fun h => ?_, fun h => ⟨?_, ?_⟩⟩
  · exact (abs_abs_sub_abs_le_abs_sub _ _).trans (hd.rel h hb).2
  · refine (abs_abs_sub_abs_le_abs_sub _ _).trans ?_
    have := (hd.err64 (-1021) (h.trans (by rw [f64_bias]; exact zpow_le_zpow_right₀ (by norm_num) (by norm_num))) (by norm_num) (by norm_num)).2
    rw [f64_bias, f64_sb]
    exact this.trans (le_of_eq (by norm_num))
  · have cv : (bits64 0x0010000000000000).val = 2 ^ (1 - (f64.bias : ℤ)) := by
      rw [val_const64 1 52 (-1022) (by decide +kernel) (by norm_num), Int.cast_one, one_mul, f64_bias]; norm_num
    have := hd.abs_le qf (c := bits64 0x0010000000000000) (by decide +kernel) (by rw [cv]; exact h)
    rwa [cv] at this

/-- the branch that forms the quotient -/
theorem quot_accurate {y x : Flt f64} (yf : y.isFinite) (xf : x.isFinite) (hy : ¬ y.isZero) (hx : ¬ x.isZero) :
    ∃ r, quot y x (BitVec.setWidth 32 (y.u64 >>> 32) &&& 0x7fffffff#32) (BitVec.setWidth 32 (x.u64 >>> 32) &&& 0x7fffffff#32) (Atan2.mOf y.sign x.sign) = some r ∧ WithinUlp 2.99 r (Complex.arg ⟨x.val, y.val⟩) := by
  have yv : y.val ≠ 0 := fun h => hy (isZero_val.2 h)
  have xv : x.val ≠ 0 := fun h => hx (isZero_val.2 h)
  have xa := abs_pos.2 xv
  have ya := abs_pos.2 yv
  rw [arg_signed xv yv, sign_lt yv]
  have sx : (x.val < 0) ↔ x.sign = true := by rw [← sign_lt xv]; simp
  rw [if_congr sx rfl rfl]
  have hQ : 0 < |y.val / x.val| := abs_pos.2 (div_ne_zero yv xv)
  have hiy : (BitVec.setWidth 32 (y.u64 >>> 32) &&& 0x7fffffff#32).toNat = y.mb / 2 ^ 32 := hi_abs y
  have hix : (BitVec.setWidth 32 (x.u64 >>> 32) &&& 0x7fffffff#32).toNat = x.mb / 2 ^ 32 := hi_abs x
  have yl := (isFinite64 y).1 yf
  have xl := (isFinite64 x).1 xf
  have hsh : (64#32 <<< 20).toNat = 64 * 2 ^ 20 := by decide
  have a1 : ((BitVec.setWidth 32 (x.u64 >>> 32) &&& 0x7fffffff#32) + (64#32 <<< 20)).toNat = x.mb / 2 ^ 32 + 64 * 2 ^ 20 := by
    rw [BitVec.toNat_add, hsh, hix]; omega
  have a2 : ((BitVec.setWidth 32 (y.u64 >>> 32) &&& 0x7fffffff#32) + (64#32 <<< 20)).toNat = y.mb / 2 ^ 32 + 64 * 2 ^ 20 := by
    rw [BitVec.toNat_add, hsh, hiy]; omega
  have hinf : (BitVec.setWidth 32 (y.u64 >>> 32) &&& 0x7fffffff#32) ≠ 0x7ff00000#32 := by
    intro h; rw [h] at hiy; simp at hiy; omega
  have T0 : 0 ≤ Real.arctan |y.val / x.val| := by rw [← Real.arctan_zero]; exact Real.arctan_mono hQ.le
  have T1 := (Real.arctan_lt_pi_div_two |y.val / x.val|).le
  unfold quot
  
  by_cases hbig : (BitVec.setWidth 32 (x.u64 >>> 32) &&& 0x7fffffff#32) + (64#32 <<< 20) < (BitVec.setWidth 32 (y.u64 >>> 32) &&& 0x7fffffff#32)
  · rw [if_pos (Or.inl hbig)]
    have e1 : -pi / 2.0 = -(pi / 2.0) := by decide +kernel
    rw [BitVec.lt_def, a1, hiy] at hbig
    have hr : |x.val| * 2 ^ 64 ≤ |y.val| := ratio_ge (c := 64) (by norm_num) (by rw [f64_sb]; omega)
    have hr2 : (2 : ℝ) ^ 64 ≤ |y.val / x.val| := by
      rw [abs_div, le_div_iff₀ xa]; linarith
    have hT := arctan_big hQ
    have hT2 : abs (Real.pi / 2 - Real.arctan |y.val / x.val|) ≤ 1 / 2 ^ 64 := by
      rw [hT]
      refine (arctan_abs_le _).trans ?_
      rw [abs_of_pos (by positivity)]
      exact one_div_le_one_div_of_le (by positivity) hr2
    refine ⟨flip y.sign (pi / 2.0), ?_, WithinUlp.signed ?_ _⟩
    · rw [e1]; cases y.sign <;> cases x.sign <;> simp only [Atan2.mOf_ff, Atan2.mOf_tf, Atan2.mOf_ft, Atan2.mOf_tt, Flt.flip] <;> rfl
    · apply steep_acc
      by_cases hs : x.sign = true
      · rw [if_pos hs, show Real.pi / 2 - (Real.pi - Real.arctan |y.val / x.val|) = -(Real.pi / 2 - Real.arctan |y.val / x.val|) by ring, abs_neg]
        exact hT2
      · rw [if_neg hs]; exact hT2
  rw [if_neg (not_or.2 ⟨hbig, hinf⟩)]
  rw [BitVec.lt_def, a1, hiy] at hbig
  obtain ⟨qf, q1, q2⟩ := quot_bd yf xf hx (by omega)
  obtain ⟨z, hz, zw⟩ := atan_accurate (y / x).ab ((ab_isFinite _).2 qf)
  change WithinUlp 0.99 z (Real.arctan (y / x).ab.val) at zw
  obtain ⟨w1, w2⟩ := quot_acc (F := f64) (by rw [f64_sb]; norm_num) (by rw [f64_bias]; norm_num) hQ (by rw [ab_val]; exact abs_nonneg _) q1 q2 zw
  rw [f64_sb] at w2
  rw [fabs_ab, hz]
  generalize (BitVec.setWidth 32 (x.u64 >>> 32) &&& 0x7fffffff#32) = ix at *
  generalize (BitVec.setWidth 32 (y.u64 >>> 32) &&& 0x7fffffff#32) = iy at *
  rcases hsx : x.sign with _ | _
  · refine ⟨flip y.sign z, ?_, ?_⟩
    · cases y.sign
      · simp [Atan2.mOf_ff, Flt.flip]
      · simp [Atan2.mOf_tf, Flt.flip]
    · rw [if_neg (by simp)]; exact w1.signed _
  · rw [if_pos rfl]
    have fin : ∀ z : Flt f64, z.isFinite → abs (z.val - Real.arctan |y.val / x.val|) ≤ 1.25 * 2 ^ (-(52 : ℤ)) →
        WithinUlp 2.99 (if Atan2.mOf y.sign true = 0#32 then z else if Atan2.mOf y.sign true = 1#32 then -z else if Atan2.mOf y.sign true = 2#32 then pi - (z - piLo) else (z - piLo) - pi)
          (signed y.sign (Real.pi - Real.arctan |y.val / x.val|)) := by
      intro z zf hz
      obtain ⟨l1, l2⟩ := left_acc zf T0 T1 hz
      cases y.sign
      · simpa [Atan2.mOf_ft, signed] using l1
      · simpa [Atan2.mOf_tt, signed] using l2
    have hm2 : Atan2.mOf y.sign true &&& 2#32 ≠ 0#32 := by cases y.sign <;> decide
    by_cases hfar : iy + (64#32 <<< 20) < ix
    · rw [if_pos ⟨hm2, hfar⟩]
      refine ⟨_, rfl, fin _ (by decide +kernel) ?_⟩
      rw [BitVec.lt_def, a2, hix] at hfar
      have hr : |y.val| * 2 ^ 64 ≤ |x.val| := ratio_ge (c := 64) (by norm_num) (by rw [f64_sb]; omega)
      have hr2 : |y.val / x.val| ≤ 1 / 2 ^ 64 := by
        rw [abs_div, div_le_iff₀ xa, one_div, inv_mul_eq_div, le_div_iff₀ (by positivity)]; exact hr
      have z0 : (0.0 : Flt f64).val = 0 := isZero_val.1 (by decide +kernel)
      rw [z0, zero_sub, abs_neg, abs_of_nonneg T0]
      refine (arctan_le_self hQ.le).trans (hr2.trans (by norm_num))
    · rw [if_neg (fun h => hfar h.2)]
      exact ⟨_, rfl, fin z w1.1 w2⟩
end Atan2

/-- atan2 -/
theorem atan2_accurate : AccurateAngle 2.99 atan2 := by
  intro y x yf xf h
  change ∃ r, atan2 y x = some r ∧ WithinUlp 2.99 r (Complex.arg ⟨x.val, y.val⟩)
  have h' : y.val ≠ 0 ∨ 0 < x.val := by
    rcases h with h | h
    · left; unfold Flt.val; exact_mod_cast h
    · right; unfold Flt.val; exact_mod_cast h
  rw [Atan2.eq64 (not_nan_of_finite yf) (not_nan_of_finite xf)]
  by_cases h1 : x = one f64
  · rw [if_pos h1]
    obtain ⟨r, hr, hw⟩ := atan_accurate y yf
    have ov : (one f64).val = 1 := by rw [val_const64 1 1074 0 (by decide +kernel) (by norm_num)]; norm_num
    refine ⟨r, hr, ?_⟩
    rw [h1, ov, arg_right (by norm_num), div_one]
    exact hw.mono (by norm_num)
  rw [if_neg h1]
  by_cases hy : y.isZero
  · rw [if_pos hy]
    have y0 := isZero_val.1 hy
    have x0 : 0 < x.val := h'.resolve_left (fun h => h y0)
    have hs : x.sign = false := by
      by_contra hs
      exact absurd (val_nonpos (by simpa using hs)) (not_le.2 x0)
    rw [if_neg (by rw [hs]; simp)]
    refine ⟨_, rfl, ?_⟩
    have := WithinUlp.exact (c := 2.99) (by norm_num) yf
    rw [arg_right x0, y0, zero_div, Real.arctan_zero]
    rwa [y0] at this
  rw [if_neg hy]
  have yv : y.val ≠ 0 := fun h => hy (isZero_val.2 h)
  by_cases hx : x.isZero
  · rw [if_pos hx]
    refine ⟨_, rfl, ?_⟩
    have x0 := isZero_val.1 hx
    rw [x0]
    have hc : Complex.arg ⟨0, y.val⟩ = signed y.sign (Real.pi / 2) := by
      rw [← sign_lt yv]
      unfold signed
      rcases lt_or_gt_of_ne yv with g | g
      · rw [if_pos (by simpa using g), arg_down g]
      · rw [if_neg (by simpa using g.le), arg_up g]
    rw [hc]
    exact WithinUlp.signed (Atan2.steep_acc (by rw [sub_self, abs_zero]; positivity)) _
  rw [if_neg hx, if_neg (by intro hi; have := (isInf64 x).1 hi; have := (isFinite64 x).1 xf; omega)]
  exact Atan2.quot_accurate yf xf hy hx

namespace Atan2f
theorem pi_val' : pi.val = 13176795 * 2 ^ (-22 : ℤ) := by
  rw [val_const32 13176795 127 (-22) (by decide +kernel) (by norm_num)]; norm_num
theorem piLo_val' : piLo.val = (-6151831) * 2 ^ (-46 : ℤ) := by
  rw [val_const32 (-6151831) 103 (-46) (by decide +kernel) (by norm_num)]; norm_num
theorem pi_fin : pi.isFinite := by decide +kernel

/-- the left half plane: the difference from π in two parts -/
theorem left_acc {z : Flt f32} {T : ℝ} (zf : z.isFinite) (h0 : 0 ≤ T) (h1 : T ≤ Real.pi / 2) (hz : |z.val - T| ≤ 1.25 * 2 ^ (-(23 : ℤ))) :
    WithinUlp 2.99 (pi - (z - piLo)) (Real.pi - T) ∧ WithinUlp 2.99 ((z - piLo) - pi) (-(Real.pi - T)) := by
  have p1 := Real.pi_gt_d20
  have p2 := Real.pi_lt_d20
  have hz2 := abs_le.1 hz
  have hZ : Ap32 z T (1.25 * 2 ^ (-(23 : ℤ))) 1.9 := ⟨zf, hz, by
    rw [abs_le]; norm_num at hz2 p2 ⊢; constructor <;> linarith [hz2.1, hz2.2]⟩
  have hL : Ap32 piLo piLo.val 0 (1 / 2 ^ 22) := .exact (by decide +kernel) rfl (by rw [piLo_val', abs_le]; constructor <;> norm_num)
  have hW := Ap32.sub hZ hL 1 (by norm_num) (by norm_num) (g := 1.75 * 2 ^ (-(23 : ℤ))) (D := 1.91) (by norm_num) (by norm_num)
  have hWe := hW.err
  have hWf := hW.fin
  generalize z - piLo = W at *
  have hpi : |pi.val + piLo.val - Real.pi| ≤ 2 ^ (-44 : ℤ) := by
    rw [pi_val', piLo_val', abs_le]; norm_num at p1 p2 ⊢; constructor <;> linarith
  have hlo : |piLo.val| ≤ (1 / 2 ^ 22) := by rw [piLo_val', abs_le]; constructor <;> norm_num
  have hWe2 := abs_le.1 hWe
  have hlo2 := abs_le.1 hlo
  have hpi2 := abs_le.1 hpi
  norm_num at hWe2 hlo2 hpi2 p1 p2
  have t1 : 1 ≤ |Real.pi - T| := by
    rw [abs_of_pos (by linarith)]; linarith
  have key : |pi.val - W.val - (Real.pi - T)| ≤ 1.76 * 2 ^ (-(23 : ℤ)) := by
    rw [abs_le]; norm_num
    constructor <;> linarith [hWe2.1, hWe2.2, hpi2.1, hpi2.2]
  have hb : |pi.val - W.val| ≤ 2 ^ (2 : ℤ) := by
    rw [abs_le]; norm_num
    constructor <;> linarith [hWe2.1, hWe2.2, hpi2.1, hpi2.2, hlo2.1, hlo2.2]
  constructor
  · obtain ⟨rf, re⟩ := sub_err32 pi_fin hWf 2 hb (by norm_num)
    refine WithinUlp.of_abs 0 rf (by norm_num; exact t1) (a := 2.77 * 2 ^ (-(23 : ℤ))) ?_ (by rw [f32_sb]; norm_num) (by norm_num)
    refine (abs_sub_le _ (pi.val - W.val) _).trans ((add_le_add re key).trans (by norm_num))
  · obtain ⟨rf, re⟩ := sub_err32 hWf pi_fin 2 (by rw [abs_sub_comm]; exact hb) (by norm_num)
    refine WithinUlp.of_abs 0 rf (by rw [abs_neg]; norm_num; exact t1) (a := 2.77 * 2 ^ (-(23 : ℤ))) ?_ (by rw [f32_sb]; norm_num) (by norm_num)
    refine (abs_sub_le _ (W.val - pi.val) _).trans ?_
    have e : W.val - pi.val - -(Real.pi - T) = -(pi.val - W.val - (Real.pi - T)) := by ring
    rw [e, abs_neg]
    exact (add_le_add re key).trans (by norm_num)

/-- far from the horizontal axis the result is a right angle -/
theorem steep_acc {T : ℝ} (h : |Real.pi / 2 - T| ≤ 1 / 2 ^ 26) : WithinUlp 2.99 (pi / 2.0) T := by
  have p1 := Real.pi_gt_d20
  have p2 := Real.pi_lt_d20
  have e : (pi / 2.0 : Flt f32).val = 13176795 * 2 ^ (-23 : ℤ) := by
    rw [val_const32 13176795 126 (-23) (by decide +kernel) (by norm_num)]; norm_num
  have h2 := abs_le.1 h
  norm_num at h2 p1 p2
  refine WithinUlp.of_abs 0 (by decide +kernel) (by norm_num; refine le_trans ?_ (le_abs_self _); linarith [h2.1, h2.2]) (a := 2.99 * 2 ^ (-(23 : ℤ))) ?_ (by rw [f32_sb]; norm_num) (by norm_num)
  rw [e, abs_le]; norm_num
  constructor <;> linarith [h2.1, h2.2]

/-- the rounded quotient -/
theorem quot_bd {y x : Flt f32} (yf : y.isFinite) (xf : x.isFinite) (hx : ¬ x.isZero) (hm : y.mb ≤ x.mb + 27 * 2 ^ 23) :
    (y / x).isFinite ∧
    (2 ^ (1 - (f32.bias : ℤ)) ≤ |y.val / x.val| → abs ((y / x).ab.val - |y.val / x.val|) ≤ |y.val / x.val| * 2 ^ (-1 - (f32.sb : ℤ))) ∧
    (|y.val / x.val| ≤ 2 ^ (1 - (f32.bias : ℤ)) → abs ((y / x).ab.val - |y.val / x.val|) ≤ 2 ^ (-(f32.bias : ℤ) - f32.sb) ∧ (y / x).ab.val ≤ 2 ^ (1 - (f32.bias : ℤ))) := by
  have hd := div_rne yf xf hx
  have xv : 0 < |x.val| := abs_pos.2 (fun h => hx (isZero_val.2 h))
  have hq : |y.val / x.val| ≤ 2 ^ (51 : ℤ) := by
    rw [abs_div, div_le_iff₀ xv, mul_comm]
    exact ratio_le (c := 27) (by norm_num) hx (by rw [f32_sb]; exact hm)
  obtain ⟨qf, -⟩ := hd.err32 51 hq (by norm_num) (by norm_num)
  have hb : |y.val / x.val| ≤ 3 / 2 * 2 ^ (f32.bias : ℤ) := by
    refine hq.trans ?_
    rw [f32_bias]
    have : (2 : ℝ) ^ (51 : ℤ) ≤ 2 ^ ((127 : ℕ) : ℤ) := zpow_le_zpow_right₀ (by norm_num) (by norm_num)
    have h0 : (0 : ℝ) < 2 ^ ((127 : ℕ) : ℤ) := by positivity
    generalize (2 : ℝ) ^ ((127 : ℕ) : ℤ) = t at *
    linarith
  rw [ab_val]
  refine ⟨qf, fun h => ?_, fun h => ⟨?_, ?_⟩⟩
  · exact (abs_abs_sub_abs_le_abs_sub _ _).trans (hd.rel h hb).2
  · refine (abs_abs_sub_abs_le_abs_sub _ _).trans ?_
    have := (hd.err32 (-125) (h.trans (by rw [f32_bias]; exact zpow_le_zpow_right₀ (by norm_num) (by norm_num))) (by norm_num) (by norm_num)).2
    rw [f32_bias, f32_sb]
    exact this.trans (le_of_eq (by norm_num))
  · have cv : (bits32 0x00800000).val = 2 ^ (1 - (f32.bias : ℤ)) := by
      rw [val_const32 1 23 (-126) (by decide +kernel) (by norm_num), Int.cast_one, one_mul, f32_bias]; norm_num
    have := hd.abs_le qf (c := bits32 0x00800000) (by decide +kernel) (by rw [cv]; exact h)
    rwa [cv] at this

/-- the branch that forms the quotient -/
theorem quot_accurate {y x : Flt f32} (yf : y.isFinite) (xf : x.isFinite) (hy : ¬ y.isZero) (hx : ¬ x.isZero) :
    ∃ r, quot y x (y.u32 &&& 0x7fffffff#32) (x.u32 &&& 0x7fffffff#32) (Atan2.mOf y.sign x.sign) = some r ∧ WithinUlp 2.99 r (Complex.arg ⟨x.val, y.val⟩) := by
  have yv : y.val ≠ 0 := fun h => hy (isZero_val.2 h)
  have xv : x.val ≠ 0 := fun h => hx (isZero_val.2 h)
  have xa := abs_pos.2 xv
  have ya := abs_pos.2 yv
  rw [arg_signed xv yv, sign_lt yv]
  have sx : (x.val < 0) ↔ x.sign = true := by rw [← sign_lt xv]; simp
  rw [if_congr sx rfl rfl]
  have hQ : 0 < |y.val / x.val| := abs_pos.2 (div_ne_zero yv xv)
  have hiy : (y.u32 &&& 0x7fffffff#32).toNat = y.mb := u32_abs y
  have hix : (x.u32 &&& 0x7fffffff#32).toNat = x.mb := u32_abs x
  have yl := (isFinite32 y).1 yf
  have xl := (isFinite32 x).1 xf
  have hsh : (26#32 <<< 23).toNat = 26 * 2 ^ 23 := by decide
  have a1 : ((x.u32 &&& 0x7fffffff#32) + (26#32 <<< 23)).toNat = x.mb + 26 * 2 ^ 23 := by
    rw [BitVec.toNat_add, hsh, hix]; omega
  have a2 : ((y.u32 &&& 0x7fffffff#32) + (26#32 <<< 23)).toNat = y.mb + 26 * 2 ^ 23 := by
    rw [BitVec.toNat_add, hsh, hiy]; omega
  have hinf : (y.u32 &&& 0x7fffffff#32) ≠ 0x7f800000#32 := by
    intro h; rw [h] at hiy; simp at hiy; omega
  have T0 : 0 ≤ Real.arctan |y.val / x.val| := by rw [← Real.arctan_zero]; exact Real.arctan_mono hQ.le
  have T1 := (Real.arctan_lt_pi_div_two |y.val / x.val|).le
  unfold quot
  rw [Atan2.uadd_tot (by rw [hix]; omega), Atan2.uadd_tot (by rw [hiy]; omega), Option.bind_some, Option.bind_some]
  by_cases hbig : (x.u32 &&& 0x7fffffff#32) + (26#32 <<< 23) < (y.u32 &&& 0x7fffffff#32)
  · rw [if_pos (Or.inl hbig)]
    have e1 : -pi / 2.0 = -(pi / 2.0) := by decide +kernel
    rw [BitVec.lt_def, a1, hiy] at hbig
    have hr : |x.val| * 2 ^ 26 ≤ |y.val| := ratio_ge (c := 26) (by norm_num) (by rw [f32_sb]; omega)
    have hr2 : (2 : ℝ) ^ 26 ≤ |y.val / x.val| := by
      rw [abs_div, le_div_iff₀ xa]; linarith
    have hT := arctan_big hQ
    have hT2 : abs (Real.pi / 2 - Real.arctan |y.val / x.val|) ≤ 1 / 2 ^ 26 := by
      rw [hT]
      refine (arctan_abs_le _).trans ?_
      rw [abs_of_pos (by positivity)]
      exact one_div_le_one_div_of_le (by positivity) hr2
    refine ⟨flip y.sign (pi / 2.0), ?_, WithinUlp.signed ?_ _⟩
    · rw [e1]; cases y.sign <;> cases x.sign <;> simp only [Atan2.mOf_ff, Atan2.mOf_tf, Atan2.mOf_ft, Atan2.mOf_tt, Flt.flip] <;> rfl
    · apply steep_acc
      by_cases hs : x.sign = true
      · rw [if_pos hs, show Real.pi / 2 - (Real.pi - Real.arctan |y.val / x.val|) = -(Real.pi / 2 - Real.arctan |y.val / x.val|) by ring, abs_neg]
        exact hT2
      · rw [if_neg hs]; exact hT2
  rw [if_neg (not_or.2 ⟨hbig, hinf⟩)]
  rw [BitVec.lt_def, a1, hiy] at hbig
  obtain ⟨qf, q1, q2⟩ := quot_bd yf xf hx (by omega)
  obtain ⟨z, hz, zw⟩ := atanf_accurate (y / x).ab ((ab_isFinite _).2 qf)
  change WithinUlp 0.99 z (Real.arctan (y / x).ab.val) at zw
  obtain ⟨w1, w2⟩ := quot_acc (F := f32) (by rw [f32_sb]; norm_num) (by rw [f32_bias]; norm_num) hQ (by rw [ab_val]; exact abs_nonneg _) q1 q2 zw
  rw [f32_sb] at w2
  rw [fabs_ab, hz]
  generalize (x.u32 &&& 0x7fffffff#32) = ix at *
  generalize (y.u32 &&& 0x7fffffff#32) = iy at *
  rcases hsx : x.sign with _ | _
  · refine ⟨flip y.sign z, ?_, ?_⟩
    · cases y.sign
      · simp [Atan2.mOf_ff, Flt.flip]
      · simp [Atan2.mOf_tf, Flt.flip]
    · rw [if_neg (by simp)]; exact w1.signed _
  · rw [if_pos rfl]
    have fin : ∀ z : Flt f32, z.isFinite → abs (z.val - Real.arctan |y.val / x.val|) ≤ 1.25 * 2 ^ (-(23 : ℤ)) →
        WithinUlp 2.99 (if Atan2.mOf y.sign true = 0#32 then z else if Atan2.mOf y.sign true = 1#32 then -z else if Atan2.mOf y.sign true = 2#32 then pi - (z - piLo) else (z - piLo) - pi)
          (signed y.sign (Real.pi - Real.arctan |y.val / x.val|)) := by
      intro z zf hz
      obtain ⟨l1, l2⟩ := left_acc zf T0 T1 hz
      cases y.sign
      · simpa [Atan2.mOf_ft, signed] using l1
      · simpa [Atan2.mOf_tt, signed] using l2
    have hm2 : Atan2.mOf y.sign true &&& 2#32 ≠ 0#32 := by cases y.sign <;> decide
    by_cases hfar : iy + (26#32 <<< 23) < ix
    · rw [if_pos hm2, if_pos hfar]
      refine ⟨_, rfl, fin _ (by decide +kernel) ?_⟩
      rw [BitVec.lt_def, a2, hix] at hfar
      have hr : |y.val| * 2 ^ 26 ≤ |x.val| := ratio_ge (c := 26) (by norm_num) (by rw [f32_sb]; omega)
      have hr2 : |y.val / x.val| ≤ 1 / 2 ^ 26 := by
        rw [abs_div, div_le_iff₀ xa, one_div, inv_mul_eq_div, le_div_iff₀ (by positivity)]; exact hr
      have z0 : (0.0 : Flt f32).val = 0 := isZero_val.1 (by decide +kernel)
      rw [z0, zero_sub, abs_neg, abs_of_nonneg T0]
      refine (arctan_le_self hQ.le).trans (hr2.trans (by norm_num))
    · rw [if_pos hm2, if_neg hfar]
      exact ⟨_, rfl, fin z w1.1 w2⟩
end Atan2f

/-- atan2f -/
theorem atan2f_accurate : AccurateAngle 2.99 atan2f := by
  intro y x yf xf h
  change ∃ r, atan2f y x = some r ∧ WithinUlp 2.99 r (Complex.arg ⟨x.val, y.val⟩)
  have h' : y.val ≠ 0 ∨ 0 < x.val := by
    rcases h with h | h
    · left; unfold Flt.val; exact_mod_cast h
    · right; unfold Flt.val; exact_mod_cast h
  rw [Atan2.eq32 (not_nan_of_finite yf) (not_nan_of_finite xf)]
  by_cases h1 : x = one f32
  · rw [if_pos h1]
    obtain ⟨r, hr, hw⟩ := atanf_accurate y yf
    have ov : (one f32).val = 1 := by rw [val_const32 1 149 0 (by decide +kernel) (by norm_num)]; norm_num
    refine ⟨r, hr, ?_⟩
    rw [h1, ov, arg_right (by norm_num), div_one]
    exact hw.mono (by norm_num)
  rw [if_neg h1]
  by_cases hy : y.isZero
  · rw [if_pos hy]
    have y0 := isZero_val.1 hy
    have x0 : 0 < x.val := h'.resolve_left (fun h => h y0)
    have hs : x.sign = false := by
      by_contra hs
      exact absurd (val_nonpos (by simpa using hs)) (not_le.2 x0)
    rw [if_neg (by rw [hs]; simp)]
    refine ⟨_, rfl, ?_⟩
    have := WithinUlp.exact (c := 2.99) (by norm_num) yf
    rw [arg_right x0, y0, zero_div, Real.arctan_zero]
    rwa [y0] at this
  rw [if_neg hy]
  have yv : y.val ≠ 0 := fun h => hy (isZero_val.2 h)
  by_cases hx : x.isZero
  · rw [if_pos hx]
    refine ⟨_, rfl, ?_⟩
    have x0 := isZero_val.1 hx
    rw [x0]
    have hc : Complex.arg ⟨0, y.val⟩ = signed y.sign (Real.pi / 2) := by
      rw [← sign_lt yv]
      unfold signed
      rcases lt_or_gt_of_ne yv with g | g
      · rw [if_pos (by simpa using g), arg_down g]
      · rw [if_neg (by simpa using g.le), arg_up g]
    rw [hc]
    exact WithinUlp.signed (Atan2f.steep_acc (by rw [sub_self, abs_zero]; positivity)) _
  rw [if_neg hx, if_neg (by intro hi; have := (isInf32 x).1 hi; have := (isFinite32 x).1 xf; omega)]
  exact Atan2f.quot_accurate yf xf hy hx

/-! ## Concrete points in every quadrant -/

example : (bits64 0x4008000000000000).isFinite ∧ (bits64 0xc010000000000000).toRat ≠ 0 ∧
    (atan2 (bits64 0x4008000000000000) (bits64 0xc010000000000000)).isSome ∧ (atan2 (bits64 0xc008000000000000) (bits64 0xc010000000000000)).isSome := by
  decide +kernel
example : (atan2 (bits64 0x1) (bits64 0x4010000000000000)) = some (bits64 0x0) := by decide +kernel
example : (atan2f (bits32 0x40400000) (bits32 0xc0800000)).isSome ∧ (atan2f (bits32 0xc0400000) (bits32 0x40800000)).isSome := by decide +kernel

end Verif
