import Verif.Props.AtanAcc
import Verif.Props.Atan2
import Mathlib.Analysis.SpecialFunctions.Complex.Arg

/-!
# `atan2`: from the accuracy of the arctangent to that of the angle
-/

namespace Verif
open Flt InvTrig

/-! ## The real arctangent -/

theorem arctan_diff {a b : ℝ} (ha : 0 ≤ a) (hb : 0 ≤ b) : |Real.arctan a - Real.arctan b| ≤ |a - b| / (1 + a * b) := by
  have hab : 0 ≤ a * b := mul_nonneg ha hb
  have e := Real.arctan_add (x := a) (y := -b) (by linarith)
  rw [Real.arctan_neg, ← sub_eq_add_neg] at e
  rw [e]
  refine (arctan_abs_le _).trans ?_
  rw [abs_div, show a + -b = a - b by ring, show 1 - a * -b = 1 + a * b by ring, abs_of_pos (a := 1 + a * b) (by linarith)]

theorem arctan_ge_div {a : ℝ} (ha : 0 ≤ a) : a / (1 + a ^ 2) ≤ Real.arctan a := by
  have h0 : 0 ≤ Real.arctan a := by rw [← Real.arctan_zero]; exact Real.arctan_mono ha
  have h1 := Real.sin_le (x := 2 * Real.arctan a) (by linarith)
  rw [Real.sin_two_mul, Real.sin_arctan, Real.cos_arctan] at h1
  have hp : 0 < 1 + a ^ 2 := by positivity
  have hs : √(1 + a ^ 2) * √(1 + a ^ 2) = 1 + a ^ 2 := Real.mul_self_sqrt hp.le
  have e : 2 * (a / √(1 + a ^ 2)) * (1 / √(1 + a ^ 2)) = 2 * (a / (1 + a ^ 2)) := by
    conv_rhs => rw [← hs]
    have : √(1 + a ^ 2) ≠ 0 := by positivity
    generalize √(1 + a ^ 2) = s at *
    field_simp
  rw [e] at h1
  linarith

theorem arctan_rel {a b ε : ℝ} (ha : 0 < a) (hb : 0 ≤ b) (he : 0 ≤ ε) (he1 : ε ≤ 1 / 1024) (h : |b - a| ≤ ε * a) :
    |Real.arctan b - Real.arctan a| ≤ 1.002 * ε * Real.arctan a ∧ |Real.arctan b - Real.arctan a| ≤ 0.506 * ε := by
  have h1 := arctan_diff hb ha.le
  have h2 := abs_le.1 h
  have hb2 : 0.999 * a ≤ b := by
    have : ε * a ≤ 1 / 1024 * a := mul_le_mul_of_nonneg_right he1 ha.le
    norm_num; linarith [h2.1]
  have hden : 0.999 * (1 + a ^ 2) ≤ 1 + b * a := by
    have := mul_le_mul_of_nonneg_right hb2 ha.le
    norm_num at this ⊢; nlinarith
  have hp : 0 < 1 + a ^ 2 := by positivity
  have hp2 : (0 : ℝ) < 0.999 * (1 + a ^ 2) := by positivity
  have h3 : |b - a| / (1 + b * a) ≤ ε * a / (0.999 * (1 + a ^ 2)) := div_le_div₀ (by positivity) h hp2 hden
  have h4 : ε * a / (0.999 * (1 + a ^ 2)) = ε / 0.999 * (a / (1 + a ^ 2)) := by field_simp
  rw [h4] at h3
  have h5 : 0 ≤ ε / 0.999 := by positivity
  refine ⟨?_, ?_⟩
  · refine (h1.trans h3).trans ?_
    refine (mul_le_mul_of_nonneg_left (arctan_ge_div ha.le) h5).trans ?_
    have h0 : 0 ≤ Real.arctan a := by rw [← Real.arctan_zero]; exact Real.arctan_mono ha.le
    refine mul_le_mul_of_nonneg_right ?_ h0
    rw [div_le_iff₀ (by norm_num)]; norm_num; linarith
  · refine (h1.trans h3).trans ?_
    have h6 : a / (1 + a ^ 2) ≤ 1 / 2 := by
      rw [div_le_iff₀ hp]; nlinarith [sq_nonneg (a - 1)]
    refine (mul_le_mul_of_nonneg_left h6 h5).trans ?_
    rw [div_mul_eq_mul_div, div_le_iff₀ (by norm_num)]; norm_num; linarith

theorem arctan_le_self {a : ℝ} (ha : 0 ≤ a) : Real.arctan a ≤ a := by
  have := arctan_abs_le a
  rw [abs_of_nonneg ha] at this
  exact (le_abs_self _).trans this

/-! ## Units in the last place -/

theorem ulpAt_min {F : Fmt} {t : ℝ} (h : t ≠ 0) : 2 ^ (1 - (F.bias : ℤ) - F.sb) ≤ ulpAt F t := by
  unfold ulpAt
  rw [if_neg h]
  exact zpow_le_zpow_right₀ (by norm_num) (by have := le_max_right (Int.log 2 |t|) (1 - (F.bias : ℤ)); linarith)

theorem ulpAt_mono {F : Fmt} {s t : ℝ} (ht : t ≠ 0) (h : |s| ≤ |t|) : ulpAt F s ≤ ulpAt F t := by
  by_cases hs : s = 0
  · rw [hs, ulpAt_zero]; exact ulpAt_nonneg t
  unfold ulpAt
  rw [if_neg hs, if_neg ht]
  refine zpow_le_zpow_right₀ (by norm_num) (sub_le_sub_right (max_le_max (Int.log_mono_right (abs_pos.2 hs) h) le_rfl) _)

theorem ulpAt_two_mul {F : Fmt} (t : ℝ) : ulpAt F (2 * t) ≤ 2 * ulpAt F t := by
  by_cases ht : t = 0
  · rw [ht, mul_zero, ulpAt_zero, mul_zero]
  unfold ulpAt
  rw [if_neg ht, if_neg (mul_ne_zero (by norm_num) ht), abs_mul, abs_of_pos (by norm_num : (0 : ℝ) < 2)]
  have e : Int.log 2 (2 * |t|) < Int.log 2 |t| + 1 + 1 := by
    have hp := abs_pos.2 ht
    refine (Int.lt_zpow_iff_log_lt (b := 2) (by norm_num) (by linarith)).1 ?_
    have hlt := Int.lt_zpow_succ_log_self (b := 2) (by norm_num) |t|
    push_cast at hlt ⊢
    rw [zpow_add_one₀ (by norm_num)]
    linarith
  rw [← zpow_one_add₀ (by norm_num : (2 : ℝ) ≠ 0)]
  refine zpow_le_zpow_right₀ (by norm_num) ?_
  have h1 := le_max_left (Int.log 2 |t|) (1 - (F.bias : ℤ))
  have h2 := le_max_right (Int.log 2 |t|) (1 - (F.bias : ℤ))
  have : max (Int.log 2 (2 * |t|)) (1 - (F.bias : ℤ)) ≤ 1 + max (Int.log 2 |t|) (1 - (F.bias : ℤ)) := max_le (by linarith) (by linarith)
  linarith

theorem ulpAt_le_of_lt {F : Fmt} {t : ℝ} {k : ℤ} (h : |t| < 2 ^ (k + 1)) (hk : 1 - (F.bias : ℤ) ≤ k) : ulpAt F t ≤ 2 ^ (k - F.sb) := by
  by_cases ht : t = 0
  · rw [ht, ulpAt_zero]; positivity
  unfold ulpAt
  rw [if_neg ht]
  refine zpow_le_zpow_right₀ (by norm_num) (sub_le_sub_right (max_le ?_ hk) _)
  have := (Int.lt_zpow_iff_log_lt (b := 2) (by norm_num) (x := k + 1) (abs_pos.2 ht)).1 (by exact_mod_cast h)
  linarith

/-! ## The quotient and its arctangent -/

/-- the rounded quotient `q` of positive ratio `Q`, and the computed arctangent `z` of `q` -/
theorem quot_acc {F : Fmt} {q z : Flt F} {Q : ℝ} (hsb : 9 ≤ F.sb) (hb : 3 ≤ F.bias) (hQ : 0 < Q) (hq0 : 0 ≤ q.val)
    (hq : 2 ^ (1 - (F.bias : ℤ)) ≤ Q → |q.val - Q| ≤ Q * 2 ^ (-1 - (F.sb : ℤ)))
    (hq' : Q ≤ 2 ^ (1 - (F.bias : ℤ)) → |q.val - Q| ≤ 2 ^ (-(F.bias : ℤ) - F.sb) ∧ q.val ≤ 2 ^ (1 - (F.bias : ℤ)))
    (hz : WithinUlp 0.99 z (Real.arctan q.val)) :
    WithinUlp 2.99 z (Real.arctan Q) ∧ |z.val - Real.arctan Q| ≤ 1.25 * 2 ^ (-(F.sb : ℤ)) := by
  obtain ⟨zf, ze⟩ := hz
  change |z.val - Real.arctan q.val| ≤ _ at ze
  have hT : 0 < Real.arctan Q := by rw [← Real.arctan_zero]; exact Real.arctan_strictMono hQ
  have hTq : 0 ≤ Real.arctan q.val := by rw [← Real.arctan_zero]; exact Real.arctan_mono hq0
  have tri : |z.val - Real.arctan Q| ≤ |z.val - Real.arctan q.val| + |Real.arctan q.val - Real.arctan Q| := abs_sub_le _ _ _
  have u2 : ulpAt F (Real.arctan q.val) ≤ 2 ^ (-(F.sb : ℤ)) := by
    have := ulpAt_le_of_lt (F := F) (t := Real.arctan q.val) (k := 0) (by
      have := Real.arctan_lt_pi_div_two q.val
      have := Real.pi_lt_four
      rw [abs_of_nonneg hTq]; norm_num; linarith) (by omega)
    rwa [zero_sub] at this
  have eb : (2 : ℝ) ^ (-1 - (F.sb : ℤ)) = 1 / 2 * 2 ^ (-(F.sb : ℤ)) := by
    rw [sub_eq_add_neg, zpow_add₀ (by norm_num)]; norm_num
  have esm : (2 : ℝ) ^ (-1 - (F.sb : ℤ)) ≤ 1 / 1024 := by
    rw [show (1 / 1024 : ℝ) = 2 ^ (-10 : ℤ) by norm_num]
    exact zpow_le_zpow_right₀ (by norm_num) (by omega)
  have n1 := ulpAt_nonneg (F := F) (Real.arctan Q)
  have n2 := zp (-(F.sb : ℤ))
  rcases le_total (2 ^ (1 - (F.bias : ℤ))) Q with h | h
  · obtain ⟨r1, r2⟩ := arctan_rel hQ hq0 (zp (-1 - (F.sb : ℤ))).le esm (by rw [mul_comm]; exact hq h)
    refine ⟨⟨zf, ?_⟩, ?_⟩
    · change |z.val - Real.arctan Q| ≤ _
      have u1 : ulpAt F (Real.arctan q.val) ≤ 2 * ulpAt F (Real.arctan Q) := by
        refine le_trans (ulpAt_mono (t := 2 * Real.arctan Q) (by positivity) ?_) (ulpAt_two_mul _)
        rw [abs_of_nonneg hTq, abs_of_pos (by positivity)]
        have := abs_le.1 r1
        have h3 : 1.002 * 2 ^ (-1 - (F.sb : ℤ)) * Real.arctan Q ≤ 1 * Real.arctan Q :=
          mul_le_mul_of_nonneg_right (by norm_num at esm ⊢; linarith) hT.le
        linarith [this.2]
      have u3 := le_ulpAt (F := F) (Real.arctan Q)
      rw [abs_of_pos hT] at u3
      have u4 : 2 ^ (-1 - (F.sb : ℤ)) * Real.arctan Q ≤ ulpAt F (Real.arctan Q) := by
        have := mul_le_mul_of_nonneg_left u3 (zp (-1 - (F.sb : ℤ))).le
        rw [← mul_assoc, ← zpow_natCast (2 : ℝ) (F.sb + 1), ← zpow_add₀ (by norm_num)] at this
        push_cast at this
        rwa [show -1 - (F.sb : ℤ) + (F.sb + 1) = 0 by ring, zpow_zero, one_mul] at this
      rw [mul_assoc] at r1
      generalize 2 ^ (-1 - (F.sb : ℤ)) * Real.arctan Q = w at *
      norm_num at ze r1 ⊢
      linarith
    · rw [eb] at r2
      generalize (2 : ℝ) ^ (-(F.sb : ℤ)) = w at *
      norm_num at ze r2 ⊢
      linarith
  · obtain ⟨s1, s2⟩ := hq' h
    have r1 := (arctan_lip _ _).trans s1
    have m1 := ulpAt_min (F := F) hT.ne'
    have e2 : (2 : ℝ) ^ (-(F.bias : ℤ) - F.sb) = 1 / 2 * 2 ^ (1 - (F.bias : ℤ) - F.sb) := by
      rw [show 1 - (F.bias : ℤ) - F.sb = 1 + (-(F.bias : ℤ) - F.sb) by ring, zpow_add₀ (by norm_num), zpow_one]; ring
    have u1 : ulpAt F (Real.arctan q.val) ≤ 2 ^ (1 - (F.bias : ℤ) - F.sb) := by
      refine ulpAt_le_of_lt ?_ le_rfl
      rw [abs_of_nonneg hTq]
      refine lt_of_le_of_lt ((arctan_le_self hq0).trans s2) (zpow_lt_zpow_right₀ (by norm_num) (by omega))
    refine ⟨⟨zf, ?_⟩, ?_⟩
    · change |z.val - Real.arctan Q| ≤ _
      norm_num at ze ⊢
      linarith
    · have : (2 : ℝ) ^ (1 - (F.bias : ℤ) - F.sb) ≤ 1 / 4 * 2 ^ (-(F.sb : ℤ)) := by
        rw [show (1 / 4 : ℝ) = 2 ^ (-2 : ℤ) by norm_num, ← zpow_add₀ (by norm_num)]
        exact zpow_le_zpow_right₀ (by norm_num) (by omega)
      generalize (2 : ℝ) ^ (-(F.sb : ℤ)) = w at *
      norm_num at ze ⊢
      linarith

/-! ## Ratios from bit patterns -/

theorem magOf_scale {sb b c : ℕ} (hc : 1 ≤ c) : magOf sb b * 2 ^ c ≤ magOf sb (b + c * 2 ^ sb) ∧ magOf sb (b + c * 2 ^ sb) ≤ magOf sb b * 2 ^ c + 2 ^ (sb + c) := by
  have hp : 0 < 2 ^ sb := by positivity
  have e1 : (b + c * 2 ^ sb) % 2 ^ sb = b % 2 ^ sb := Nat.add_mul_mod_self_right _ _ _
  have e2 : (b + c * 2 ^ sb) / 2 ^ sb = b / 2 ^ sb + c := Nat.add_mul_div_right _ _ hp
  have hge : ¬ b + c * 2 ^ sb < 2 ^ sb := by nlinarith
  unfold magOf
  rw [if_neg hge, e1, e2]
  by_cases hb : b < 2 ^ sb
  · rw [if_pos hb, Nat.mod_eq_of_lt hb, Nat.div_eq_of_lt hb, zero_add]
    obtain ⟨d, rfl⟩ : ∃ d, c = d + 1 := ⟨c - 1, by omega⟩
    have hd : 0 < 2 ^ d := by positivity
    rw [Nat.add_sub_cancel, pow_succ, ← add_assoc, pow_succ, pow_add]
    constructor <;> nlinarith
  · rw [if_neg hb]
    push Not at hb
    have h1 : 1 ≤ b / 2 ^ sb := Nat.div_pos hb hp
    rw [show b / 2 ^ sb + c - 1 = (b / 2 ^ sb - 1) + c by omega, pow_add, mul_assoc]
    exact ⟨le_rfl, Nat.le_add_right _ _⟩

theorem ratio_ge {F : Fmt} {x y : Flt F} {c : ℕ} (hc : 1 ≤ c) (h : x.mb + c * 2 ^ F.sb ≤ y.mb) : |x.val| * 2 ^ c ≤ |y.val| := by
  have h1 := (magOf_scale (sb := F.sb) (b := x.mb) hc).1.trans ((magOf_le (sb := F.sb)).2 h)
  rw [val_abs, val_abs]
  have h2 : (x.mag : ℝ) * 2 ^ c ≤ y.mag := by exact_mod_cast h1
  have hu : (0 : ℝ) ≤ ((F.ulp : ℚ) : ℝ) := by exact_mod_cast F.ulp_pos.le
  have := mul_le_mul_of_nonneg_right h2 hu
  linarith

theorem ratio_le {F : Fmt} {x y : Flt F} {c : ℕ} (hc : 1 ≤ c) (hx : ¬ x.isZero) (h : y.mb ≤ x.mb + c * 2 ^ F.sb) : |y.val| ≤ |x.val| * 2 ^ (F.sb + c + 1) := by
  have h1 := ((magOf_le (sb := F.sb)).2 h).trans (magOf_scale (sb := F.sb) (b := x.mb) hc).2
  have hx1 : 1 ≤ magOf F.sb x.mb := magOf_pos.2 (by have := mt (isZero_iff x).2 hx; omega)
  have h3 : magOf F.sb y.mb ≤ magOf F.sb x.mb * 2 ^ (F.sb + c + 1) := by
    refine h1.trans ?_
    have a : 2 ^ c ≤ 2 ^ (F.sb + c) := Nat.pow_le_pow_right (by norm_num) (by omega)
    rw [pow_succ 2 (F.sb + c)]
    have b := Nat.mul_le_mul_left (magOf F.sb x.mb) a
    have d := Nat.mul_le_mul_right (2 ^ (F.sb + c)) hx1
    generalize 2 ^ (F.sb + c) = w at *
    rw [← mul_assoc]
    omega
  rw [val_abs, val_abs]
  have h2 : (y.mag : ℝ) ≤ (x.mag : ℝ) * 2 ^ (F.sb + c + 1) := by exact_mod_cast h3
  have hu : (0 : ℝ) ≤ ((F.ulp : ℚ) : ℝ) := by exact_mod_cast F.ulp_pos.le
  have := mul_le_mul_of_nonneg_right h2 hu
  linarith

/-! ## The angle of a point -/

/-- right half plane -/
theorem arg_right {x y : ℝ} (hx : 0 < x) : Complex.arg ⟨x, y⟩ = Real.arctan (y / x) := by
  have h := Complex.abs_arg_lt_pi_div_two_iff.2 (Or.inl hx : 0 < (⟨x, y⟩ : ℂ).re ∨ (⟨x, y⟩ : ℂ) = 0)
  rw [abs_lt] at h
  have := Complex.tan_arg ⟨x, y⟩
  rw [← Real.arctan_tan h.1 h.2, this]
/-- upper left quadrant -/
theorem arg_left_up {x y : ℝ} (hx : x < 0) (hy : 0 < y) : Complex.arg ⟨x, y⟩ = Real.pi - Real.arctan (|y / x|) := by
  have h := Complex.arg_neg_eq_arg_sub_pi_of_im_pos (x := ⟨x, y⟩) hy
  have e : -(⟨x, y⟩ : ℂ) = ⟨-x, -y⟩ := rfl
  rw [e, arg_right (by linarith), neg_div_neg_eq] at h
  rw [abs_of_neg (div_neg_of_pos_of_neg hy hx), Real.arctan_neg, h]; ring
/-- lower left quadrant -/
theorem arg_left_down {x y : ℝ} (hx : x < 0) (hy : y < 0) : Complex.arg ⟨x, y⟩ = -(Real.pi - Real.arctan (|y / x|)) := by
  have h := Complex.arg_neg_eq_arg_add_pi_of_im_neg (x := ⟨x, y⟩) hy
  have e : -(⟨x, y⟩ : ℂ) = ⟨-x, -y⟩ := rfl
  rw [e, arg_right (by linarith), neg_div_neg_eq] at h
  rw [abs_of_pos (div_pos_of_neg_of_neg hy hx), h]; ring
/-- vertical axis -/
theorem arg_up {y : ℝ} (hy : 0 < y) : Complex.arg ⟨0, y⟩ = Real.pi / 2 := Complex.arg_eq_pi_div_two_iff.2 ⟨rfl, hy⟩
theorem arg_down {y : ℝ} (hy : y < 0) : Complex.arg ⟨0, y⟩ = -(Real.pi / 2) := Complex.arg_eq_neg_pi_div_two_iff.2 ⟨rfl, hy⟩

/-- the angle of a point off the vertical axis -/
theorem arg_signed {x y : ℝ} (hx : x ≠ 0) (hy : y ≠ 0) :
    Complex.arg ⟨x, y⟩ = signed (decide (y < 0)) (if x < 0 then Real.pi - Real.arctan |y / x| else Real.arctan |y / x|) := by
  unfold signed
  rcases lt_or_gt_of_ne hy with h | h
  · rw [if_pos (by simpa using h)]
    rcases lt_or_gt_of_ne hx with g | g
    · rw [if_pos g, arg_left_down g h]
    · rw [if_neg (not_lt.2 g.le), arg_right g, abs_of_neg (div_neg_of_neg_of_pos h g), Real.arctan_neg]; ring
  · rw [if_neg (by simpa using h.le)]
    rcases lt_or_gt_of_ne hx with g | g
    · rw [if_pos g, arg_left_up g h]
    · rw [if_neg (not_lt.2 g.le), arg_right g, abs_of_pos (div_pos h g)]

end Verif
