import Verif.Theory.Rl
import Mathlib.Analysis.SpecialFunctions.Trigonometric.DerivHyp

/-!
# The formulas of sinh, cosh and tanh

Real identities and the relative errors of the formulas the code uses, over an accurate `e^x - 1` or `e^x`, in either format.
-/

namespace Verif
open Flt
namespace HypC

/-! ## Reals -/

theorem sinh_T (X : ℝ) : 2 * Real.sinh X = (Real.exp X - 1) + (Real.exp X - 1) / ((Real.exp X - 1) + 1) := by
  have := Real.exp_pos X
  rw [Real.sinh_eq, Real.exp_neg]
  field_simp
  ring

theorem cosh_T (X : ℝ) : Real.cosh X = 1 + (Real.exp X - 1) ^ 2 / (2 * (1 + (Real.exp X - 1))) := by
  have := Real.exp_pos X
  rw [Real.cosh_eq, Real.exp_neg]
  have h : (1 + (Real.exp X - 1)) = Real.exp X := by ring
  rw [h]
  field_simp
  ring

theorem cosh_E (X : ℝ) : 2 * Real.cosh X = Real.exp X + 1 / Real.exp X := by
  have := Real.exp_pos X
  rw [Real.cosh_eq, Real.exp_neg]
  field_simp

theorem tanh_T (X : ℝ) : Real.tanh X = (Real.exp (2 * X) - 1) / ((Real.exp (2 * X) - 1) + 2) := by
  have h1 := Real.exp_pos X
  have e : Real.exp (2 * X) = Real.exp X ^ 2 := by rw [pow_two, ← Real.exp_add]; congr 1; ring
  have h2 : Real.exp X ^ 2 - 1 + 2 ≠ 0 := by
    have : 0 < Real.exp X ^ 2 := by positivity
    exact (show (0 : ℝ) < Real.exp X ^ 2 - 1 + 2 by linarith).ne'
  rw [Real.tanh_eq_sinh_div_cosh, Real.sinh_eq, Real.cosh_eq, Real.exp_neg, e]
  have h3 : Real.exp X + (Real.exp X)⁻¹ ≠ 0 := by positivity
  field_simp
  ring

theorem tanh_T' (X : ℝ) : Real.tanh X = -(Real.exp (-(2 * X)) - 1) / ((Real.exp (-(2 * X)) - 1) + 2) := by
  have := tanh_T (-X)
  rw [Real.tanh_neg, show 2 * -X = -(2 * X) by ring] at this
  rw [neg_div, ← this, _root_.neg_neg]

theorem f_diff {v T ε : ℝ} (hv : 0 ≤ v) (hT : 0 ≤ T) (h : |v - T| ≤ ε * T) : |v + v / (v + 1) - (T + T / (T + 1))| ≤ ε * |T + T / (T + 1)| := by
  have e : v + v / (v + 1) - (T + T / (T + 1)) = (v - T) * (1 + 1 / ((v + 1) * (T + 1))) := by field_simp; ring
  have e2 : T + T / (T + 1) = T * (1 + 1 / (T + 1)) := by field_simp
  have p : 0 < 1 + 1 / ((v + 1) * (T + 1)) := by positivity
  rw [e, e2, abs_mul, abs_mul, abs_of_pos p, abs_of_nonneg hT, abs_of_pos (a := 1 + 1 / (T + 1)) (by positivity), ← mul_assoc]
  have h1 : 1 + 1 / ((v + 1) * (T + 1)) ≤ 1 + 1 / (T + 1) := by
    have : 1 / ((v + 1) * (T + 1)) ≤ 1 / (T + 1) := by
      apply one_div_le_one_div_of_le (by positivity)
      nlinarith
    linarith
  exact mul_le_mul h h1 p.le ((abs_nonneg _).trans h)

theorem g_diff {v T ε K : ℝ} (hv : -2 < v) (hT : -2 < T) (h : |v - T| ≤ ε * |T|) (hK : 2 ≤ K * (v + 2)) : |v / (v + 2) - T / (T + 2)| ≤ ε * K * |T / (T + 2)| := by
  have v2 : 0 < v + 2 := by linarith
  have t2 : 0 < T + 2 := by linarith
  have e : v / (v + 2) - T / (T + 2) = (v - T) * (2 / (v + 2)) / (T + 2) := by field_simp; ring
  rw [e, abs_div, abs_mul, abs_of_pos (a := 2 / (v + 2)) (by positivity), abs_div, abs_of_pos t2]
  have h1 : 2 / (v + 2) ≤ K := by rw [div_le_iff₀ v2]; exact hK
  have h2 : |v - T| * (2 / (v + 2)) ≤ ε * |T| * K := mul_le_mul h h1 (by positivity) ((abs_nonneg _).trans h)
  calc |v - T| * (2 / (v + 2)) / (T + 2) ≤ ε * |T| * K / (T + 2) := by gcongr
    _ = _ := by ring

theorem w_diff {v T ε : ℝ} (hv : 0 ≤ v) (hT : 0 < T) (hT1 : T ≤ 1.0001) (h : |v - T| ≤ ε * T) :
    |1 + v ^ 2 / (2 * (1 + v)) - (1 + T ^ 2 / (2 * (1 + T)))| ≤ 0.501 * ε * |1 + T ^ 2 / (2 * (1 + T))| := by
  have e0 : 0 ≤ ε * T := (abs_nonneg _).trans h
  have e : 1 + v ^ 2 / (2 * (1 + v)) - (1 + T ^ 2 / (2 * (1 + T))) = (v - T) * (((1 + v) * (1 + T) - 1) / (2 * ((1 + v) * (1 + T)))) := by
    field_simp; ring
  have p : 0 ≤ ((1 + v) * (1 + T) - 1) / (2 * ((1 + v) * (1 + T))) := by
    apply div_nonneg _ (by positivity); nlinarith
  have h1 : ((1 + v) * (1 + T) - 1) / (2 * ((1 + v) * (1 + T))) ≤ 1 / 2 := by
    rw [div_le_iff₀ (by positivity)]; linarith
  rw [e, abs_mul, abs_of_nonneg p]
  have h2 : 0 ≤ T ^ 2 / (2 * (1 + T)) := by positivity
  rw [abs_of_pos (a := 1 + T ^ 2 / (2 * (1 + T))) (by linarith)]
  have h3 : |v - T| * (((1 + v) * (1 + T) - 1) / (2 * ((1 + v) * (1 + T)))) ≤ ε * T * (1 / 2) := mul_le_mul h h1 p e0
  have e1 : 0 ≤ ε := by
    by_contra hc
    exact absurd e0 (not_le.2 (mul_neg_of_neg_of_pos (not_le.1 hc) hT))
  have h5 : 0 ≤ ε * (T ^ 2 / (2 * (1 + T))) := mul_nonneg e1 h2
  have h6 : ε * T ≤ ε * 1.0001 := mul_le_mul_of_nonneg_left hT1 e1
  linarith

theorem h_diff {v T ε : ℝ} (hv : 1 ≤ v) (hT : 1 ≤ T) (h : |v - T| ≤ ε * T) : |v + 1 / v - (T + 1 / T)| ≤ ε * |T + 1 / T| := by
  have e : v + 1 / v - (T + 1 / T) = (v - T) * (1 - 1 / (v * T)) := by field_simp; ring
  have h0 : 0 < 1 / (v * T) := by positivity
  have h1 : 1 / (v * T) ≤ 1 := by rw [div_le_one (by positivity)]; nlinarith
  have e0 : 0 ≤ ε * T := (abs_nonneg _).trans h
  have e1 : 0 ≤ ε := by
    by_contra hc
    exact absurd e0 (not_le.2 (mul_neg_of_neg_of_pos (not_le.1 hc) (by linarith)))
  rw [e, abs_mul, abs_of_nonneg (a := 1 - 1 / (v * T)) (by linarith), abs_of_pos (a := T + 1 / T) (by positivity)]
  have h2 : 0 ≤ ε * (1 / T) := by positivity
  have h3 : |v - T| * (1 - 1 / (v * T)) ≤ |v - T| * 1 := mul_le_mul_of_nonneg_left (by linarith) (abs_nonneg _)
  linarith

theorem exp3 {x : ℝ} (h : |x| ≤ 1) : |Real.exp x - (1 + x + x ^ 2 / 2)| ≤ |x| ^ 3 * (2 / 9) := by
  have := Real.exp_bound h (n := 3) (by norm_num)
  simp only [Finset.sum_range_succ, Finset.sum_range_zero, Nat.factorial] at this
  norm_num at this ⊢
  convert this using 2

theorem sinh_near {x : ℝ} (h : |x| ≤ 1) : |Real.sinh x - x| ≤ |x| ^ 3 * (2 / 9) := by
  have h1 := abs_le.1 (exp3 h)
  have h2 := abs_le.1 (exp3 (x := -x) (by rwa [abs_neg]))
  rw [abs_neg] at h2
  rw [Real.sinh_eq, abs_le]
  constructor <;> linarith [h1.1, h1.2, h2.1, h2.2]

theorem cosh_near {x : ℝ} (h : |x| ≤ 1) : |Real.cosh x - (1 + x ^ 2 / 2)| ≤ |x| ^ 3 * (2 / 9) := by
  have h1 := abs_le.1 (exp3 h)
  have h2 := abs_le.1 (exp3 (x := -x) (by rwa [abs_neg]))
  rw [abs_neg] at h2
  rw [Real.cosh_eq, abs_le]
  constructor <;> nlinarith [h1.1, h1.2, h2.1, h2.2]

/-- `sinh x` is near `x` -/
theorem sinh_rel {x δ : ℝ} (h0 : 0 ≤ x) (hx : x ≤ 1 / 4) (hd : x ^ 2 ≤ 4 * δ) : |x - Real.sinh x| ≤ δ * |Real.sinh x| := by
  have h1 := sinh_near (x := x) (by rw [abs_of_nonneg h0]; linarith)
  have h2 : x ≤ Real.sinh x := Real.self_le_sinh_iff.2 h0
  rw [abs_of_nonneg h0] at h1
  rw [abs_sub_comm, abs_of_nonneg (a := Real.sinh x) (h0.trans h2)]
  have h3 : x ^ 2 * x ≤ 4 * δ * x := mul_le_mul_of_nonneg_right hd h0
  have h4 : 0 ≤ δ := by nlinarith [pow_two_nonneg x]
  have h5 := mul_le_mul_of_nonneg_left h2 h4
  have h6 : x ^ 3 = x ^ 2 * x := by ring
  rw [h6] at h1
  linarith [mul_nonneg h4 h0]

/-- `tanh x` is near `x` -/
theorem tanh_rel {x δ : ℝ} (h0 : 0 ≤ x) (hx : x ≤ 1 / 4) (hd : x ^ 2 * 2 ≤ δ) : |x - Real.tanh x| ≤ δ * |Real.tanh x| := by
  have h1 := sinh_near (x := x) (by rw [abs_of_nonneg h0]; linarith)
  have h2 := cosh_near (x := x) (by rw [abs_of_nonneg h0]; linarith)
  have h3 : x ≤ Real.sinh x := Real.self_le_sinh_iff.2 h0
  have c1 := Real.one_le_cosh x
  rw [abs_of_nonneg h0] at h1 h2
  have cp : 0 < Real.cosh x := by linarith
  rw [Real.tanh_eq_sinh_div_cosh, show x - Real.sinh x / Real.cosh x = (x * Real.cosh x - Real.sinh x) / Real.cosh x by field_simp,
    abs_div, abs_div, abs_of_pos cp, ← mul_div_assoc]
  refine div_le_div_of_nonneg_right ?_ cp.le
  rw [abs_of_nonneg (a := Real.sinh x) (h0.trans h3)]
  have a1 := abs_le.1 h1
  have a2 := abs_le.1 h2
  have h4 : x ^ 2 * 2 * Real.sinh x ≤ δ * Real.sinh x := mul_le_mul_of_nonneg_right hd (h0.trans h3)
  have h5 : x ^ 2 * 2 * x ≤ x ^ 2 * 2 * Real.sinh x := mul_le_mul_of_nonneg_left h3 (by positivity)
  have h6 : x * Real.cosh x ≤ x * (1 + x ^ 2 / 2 + x ^ 3 * (2 / 9)) := mul_le_mul_of_nonneg_left (by linarith [a2.2]) h0
  have h7 : x * 1 ≤ x * Real.cosh x := mul_le_mul_of_nonneg_left c1 h0
  have h8 : 0 ≤ x ^ 3 := by positivity
  have h9 : x ^ 4 ≤ x ^ 3 := by
    have : x ^ 3 * x ≤ x ^ 3 * 1 := mul_le_mul_of_nonneg_left (by linarith) h8
    linarith [show x ^ 3 * x = x ^ 4 by ring]
  have e4 : x * (1 + x ^ 2 / 2 + x ^ 3 * (2 / 9)) = x + x ^ 3 / 2 + x ^ 4 * (2 / 9) := by ring
  have e5 : x ^ 2 * 2 * x = 2 * x ^ 3 := by ring
  rw [e4] at h6
  rw [e5] at h5
  rw [abs_le]
  constructor <;> linarith [a1.1, a1.2]

/-- `cosh x` is near 1 -/
theorem cosh_rel {x δ : ℝ} (h0 : 0 ≤ x) (hx : x ≤ 1 / 2 ^ 10) (hd : x ^ 2 * (1 / 2 + 1 / 2 ^ 12) ≤ δ) : |1 - Real.cosh x| ≤ δ * |Real.cosh x| := by
  have h2 := cosh_near (x := x) (by rw [abs_of_nonneg h0]; linarith)
  have c1 := Real.one_le_cosh x
  rw [abs_of_nonneg h0] at h2
  rw [abs_sub_comm, abs_of_nonneg (a := Real.cosh x - 1) (by linarith), abs_of_pos (a := Real.cosh x) (by linarith)]
  have h3 : x ^ 3 ≤ x ^ 2 * (1 / 2 ^ 10) := by
    have := mul_le_mul_of_nonneg_left hx (pow_two_nonneg x)
    linarith [show x ^ 2 * x = x ^ 3 by ring]
  have h4 : 0 ≤ δ := le_trans (by positivity) hd
  have h5 : δ * 1 ≤ δ * Real.cosh x := mul_le_mul_of_nonneg_left c1 h4
  have := (abs_le.1 h2).2
  linarith [pow_two_nonneg x]

theorem exp_big : 2.999 ≤ Real.exp 1.0986 := by
  have h1 := Real.exp_one_gt_d9
  have h2 := Real.quadratic_le_exp_of_nonneg (x := 0.0986) (by norm_num)
  have h3 : Real.exp 1.0986 = Real.exp 1 * Real.exp 0.0986 := by rw [← Real.exp_add]; norm_num
  rw [h3]
  nlinarith

theorem exp_mid : 1.641 ≤ Real.exp 0.5108 := by
  have h2 := Real.quadratic_le_exp_of_nonneg (x := 0.5108) (by norm_num)
  norm_num at h2 ⊢; linarith

theorem exp_neg_mid : 0.5998 ≤ Real.exp (-0.5109) := by
  have h1 := Real.exp_one_lt_d9
  have h2 : Real.exp 1 = Real.exp 0.5 * Real.exp 0.5 := by rw [← Real.exp_add]; norm_num
  have h3 : Real.exp 0.5 ≤ 1.64873 := by
    by_contra hc
    rw [not_le] at hc
    nlinarith
  have h4 := Real.add_one_le_exp (-0.0109 : ℝ)
  have h5 : Real.exp (-0.5109) * Real.exp 0.5 = Real.exp (-0.0109) := by rw [← Real.exp_add]; norm_num
  have h6 := Real.exp_pos (-0.5109 : ℝ)
  nlinarith

theorem exp_ln2' : Real.exp 0.69315 ≤ 2.0001 := by
  have h1 : Real.exp (Real.log 2) = 2 := Real.exp_log (by norm_num)
  have h2 := Num.log2_gt
  have h3 : Real.exp 0.69315 * Real.exp (Real.log 2 - 0.69315) = Real.exp (Real.log 2) := by rw [← Real.exp_add]; congr 1; ring
  have h4 := Real.add_one_le_exp (Real.log 2 - 0.69315)
  have h5 := Real.exp_pos 0.69315
  rw [h1] at h3
  have h6 : 0.99999 ≤ Real.exp (Real.log 2 - 0.69315) := by norm_num at h2 h4 ⊢; linarith
  nlinarith

theorem exp_ln2 : 1.999 ≤ Real.exp 0.6931 := by
  have h1 : Real.exp (Real.log 2) = 2 := Real.exp_log (by norm_num)
  have h2 := Num.log2_lt
  have h3 : Real.exp 0.6931 = Real.exp (Real.log 2) * Real.exp (0.6931 - Real.log 2) := by rw [← Real.exp_add]; congr 1; ring
  have h4 := Real.add_one_le_exp (0.6931 - Real.log 2)
  rw [h3, h1]; norm_num at h2 h4 ⊢; linarith

/-! ## Floats -/

variable {F : Fmt} [StdFmt F] {t one two half : Flt F} {X : ℝ}

/-- the range of a float with a small relative error -/
theorem rng {T : ℝ} (h : Rl t T (3 * uu F)) (hT : 0 ≤ T) : 0.999999 * T ≤ t.val ∧ t.val ≤ 1.000001 * T := by
  have h1 := h.le hT
  have h2 := h.ge hT
  have h3 : uu F * T ≤ 1 / 2 ^ 24 * T := mul_le_mul_of_nonneg_right uu_le hT
  constructor <;> linarith

/-- an exact sum -/
theorem add_u {x y : Flt F} (xf : x.isFinite) (yf : y.isFinite) (h1 : 1 / 2 ^ 125 ≤ |x.val + y.val|) (h2 : |x.val + y.val| ≤ 1.99999 * 2 ^ (F.bias : ℤ)) :
    Rl (x + y) (x.val + y.val) (uu F) :=
  (Rl.exact xf).add (Rl.exact yf) (lo_std.trans h1) h2 0 (by simp) (by norm_num) (by simp)

theorem mul_u {x y : Flt F} (xf : x.isFinite) (yf : y.isFinite) (h1 : 1 / 2 ^ 125 ≤ |x.val * y.val|) (h2 : |x.val * y.val| ≤ 1.99999 * 2 ^ (F.bias : ℤ)) :
    Rl (x * y) (x.val * y.val) (uu F) :=
  (Rl.exact xf).mul (Rl.exact yf) le_rfl (lo_std.trans h1) h2 0 (by simp) (by norm_num) (by simp)

theorem top2 : (2 : ℝ) ^ ((F.bias : ℤ) + 1) = 2 * 2 ^ (F.bias : ℤ) := by rw [zpow_add_one₀ (by norm_num), mul_comm]
theorem low1 : (2 : ℝ) ^ (1 - (F.bias : ℤ)) ≤ 1 / 2 ^ 126 := by
  have h := lo_std (F := F)
  have e : (2 : ℝ) ^ (2 - (F.bias : ℤ)) = 2 * 2 ^ (1 - (F.bias : ℤ)) := by rw [← zpow_one_add₀ (by norm_num)]; congr 1; ring
  rw [e] at h
  norm_num at h ⊢; linarith

/-- doubling is exact -/
theorem dbl {x : Flt F} (xf : x.isFinite) (tf : two.isFinite) (tv : two.val = 2) (h1 : 1 / 2 ^ 126 ≤ |x.val|) (h2 : |x.val| ≤ 0.99999 * 2 ^ (F.bias : ℤ)) :
    (two * x).isFinite ∧ (two * x).val = 2 * x.val := by
  have := pow2_mul' (x := x) (p := two) (k := 1) xf tf (by rw [tv, zpow_one]) (by
    rw [zpow_one, abs_mul, abs_of_pos (a := (2 : ℝ)) (by norm_num)]
    refine low1.trans ?_
    linarith [abs_nonneg x.val]) (by
    rw [zpow_one, abs_mul, abs_of_pos (a := (2 : ℝ)) (by norm_num), top2]
    have := zp (F.bias : ℤ)
    linarith)
  rw [zpow_one, mul_comm x.val] at this
  exact this

/-- halving is exact -/
theorem hlv {x : Flt F} (xf : x.isFinite) (tf : half.isFinite) (tv : half.val = 1 / 2) (h1 : 1 / 2 ^ 125 ≤ |x.val|) (h2 : |x.val| ≤ 1.999999 * 2 ^ (F.bias : ℤ)) :
    (half * x).isFinite ∧ (half * x).val = x.val * 2 ^ (-1 : ℤ) := by
  refine pow2_mul' (x := x) (p := half) (k := -1) xf tf (by rw [tv]; norm_num) ?_ ?_
  · rw [abs_mul, abs_of_pos (a := (2 : ℝ) ^ (-1 : ℤ)) (zp _)]
    refine low1.trans ?_
    norm_num at h1 ⊢; linarith
  · rw [abs_mul, abs_of_pos (a := (2 : ℝ) ^ (-1 : ℤ)) (zp _), top2]
    have := zp (F.bias : ℤ)
    norm_num at h2 ⊢; linarith

/-- `t + t / (t + 1)` -/
theorem sinh_large (of : one.isFinite) (ov : one.val = 1) (hX : 1 ≤ X) (ht : Rl t (Real.exp X - 1) (2.9 * uu F)) (hi : Real.exp X ≤ 1.999986 * 2 ^ (F.bias : ℤ)) :
    Rl (t + t / (t + one)) (2 * Real.sinh X) (4.5 * uu F) := by
  have hE1 := Real.exp_le_exp.2 hX
  have hE2 := Real.exp_one_gt_d9
  have hu0 := uu_pos (F := F)
  have hu1 := uu_le (F := F)
  have hu2 := uu_sq (F := F)
  have hB := hi_std (F := F)
  rw [sinh_T]
  generalize hTT : Real.exp X - 1 = T at ht ⊢
  have T1 : 1.718 ≤ T := by rw [← hTT]; norm_num at hE2 ⊢; linarith
  obtain ⟨v1, v2⟩ := rng (ht.mono (by linarith)) (by linarith)
  have he := ht.err
  rw [abs_of_pos (a := T) (by linarith)] at he
  have hd := f_diff (v := t.val) (T := T) (by linarith) (by linarith) he
  have tf := ht.fin
  have te := Rl.exact tf
  have T2 : T + 1 ≤ 1.999986 * 2 ^ (F.bias : ℤ) := by rw [← hTT]; linarith
  have a0 := add_u (x := t) (y := one) tf of
  rw [ov] at a0
  generalize hvv : t.val = v at *
  have vB : v + 1 ≤ 1.99999 * 2 ^ (F.bias : ℤ) := by linarith
  have v3 : 1.717 ≤ v := by linarith
  have a := a0 (by rw [abs_of_pos (a := v + 1) (by linarith)]; norm_num; linarith) (by rw [abs_of_pos (a := v + 1) (by linarith)]; exact vB)
  have q0 : 0 < v / (v + 1) := by positivity
  have q1 : v / (v + 1) ≤ 1 := by rw [div_le_one (by linarith)]; linarith
  have q2 : 1 / 2 ≤ v / (v + 1) := by rw [le_div_iff₀ (by linarith)]; linarith
  have b := te.div a (by linarith) (lo_std.trans (by rw [abs_of_pos q0]; norm_num; linarith)) (by rw [abs_of_pos q0]; linarith) (by linarith) (1.001 * uu F) (by linarith) (by linarith) (η := 2.003 * uu F) (by linarith)
  have s0 : v + v / (v + 1) ≤ v + 1 := by linarith
  have w : 3.7 * (v / (v + 1)) ≤ v + v / (v + 1) := by
    have : 2.7 * (v / (v + 1)) ≤ v := by rw [mul_div_assoc', div_le_iff₀ (by linarith)]; nlinarith
    linarith
  have sp : 0 < v + v / (v + 1) := by linarith
  have c := te.add b (lo_std.trans (by rw [abs_of_pos sp]; norm_num; linarith)) (by rw [abs_of_pos sp]; linarith) (0.55 * uu F) (by
    rw [abs_of_pos sp, abs_of_pos q0]
    have := mul_le_mul_of_nonneg_left w hu0.le
    have := mul_pos hu0 q0
    rw [zero_mul, zero_add]
    generalize v / (v + 1) = z at *
    linarith) (by linarith) (η := 1.56 * uu F) (by linarith)
  exact c.trans (by linarith) hd (by linarith)

/-- `2 t - t^2 / (t + 1)` -/
theorem sinh_small (of : one.isFinite) (ov : one.val = 1) (tf2 : two.isFinite) (tv2 : two.val = 2) (hX0 : 1 / 2 ^ 30 ≤ X) (hX : X ≤ 1) (ht : Rl t (Real.exp X - 1) (2.9 * uu F)) :
    Rl (two * t - t * t / (t + one)) (2 * Real.sinh X) (5.35 * uu F) := by
  have hE0 := Real.add_one_le_exp X
  have hE1 := Real.exp_le_exp.2 hX
  have hE2 := Real.exp_one_lt_d9
  have hu0 := uu_pos (F := F)
  have hu1 := uu_le (F := F)
  have hu2 := uu_sq (F := F)
  have hB := hi_std (F := F)
  rw [sinh_T]
  generalize hTT : Real.exp X - 1 = T at ht ⊢
  have T0 : 1 / 2 ^ 30 ≤ T := by rw [← hTT]; linarith
  have T1 : T ≤ 1.71829 := by rw [← hTT]; norm_num at hE2 ⊢; linarith
  have Tp : 0 < T := lt_of_lt_of_le (by norm_num) T0
  obtain ⟨v1, v2⟩ := rng (ht.mono (by linarith)) Tp.le
  have he := ht.err
  rw [abs_of_pos Tp] at he
  have tf := ht.fin
  have a0 := add_u (x := t) (y := one) tf of
  have c0 := mul_u (x := t) (y := t) tf tf
  have d0 := dbl (x := t) tf tf2 tv2
  rw [ov] at a0
  have v0 : 0 < t.val := lt_of_lt_of_le (by positivity) v1
  have hd := f_diff (v := t.val) (T := T) v0.le Tp.le he
  have v3 : 1 / 2 ^ 31 ≤ t.val := by linarith
  have v4 : t.val ≤ 1.7184 := by linarith
  generalize t.val = v at *
  have p2 : 1 / 2 ^ 62 ≤ v * v := by
    have := mul_le_mul v3 v3 (by norm_num) v0.le
    norm_num at this ⊢; linarith
  have p3 : v * v ≤ 3 := by nlinarith
  have pp : 0 < v * v := by positivity
  obtain ⟨df, dv⟩ := d0 (by rw [abs_of_pos v0]; norm_num at v3 ⊢; linarith) (by rw [abs_of_pos v0]; linarith)
  have a := a0 (by rw [abs_of_pos (a := v + 1) (by linarith)]; norm_num; linarith) (by rw [abs_of_pos (a := v + 1) (by linarith)]; linarith)
  have c := c0 (by rw [abs_of_pos pp]; norm_num at p2 ⊢; linarith) (by rw [abs_of_pos pp]; linarith)
  have z0 : 0 < v * v / (v + 1) := by positivity
  have z1 : v * v / (v + 1) ≤ 0.6328 * v := by rw [div_le_iff₀ (by linarith)]; nlinarith
  have z2 : 1 / 2 ^ 64 ≤ v * v / (v + 1) := by
    rw [le_div_iff₀ (by linarith)]; norm_num at p2 ⊢; linarith
  have w := c.div a (by linarith) (lo_std.trans (by rw [abs_of_pos z0]; norm_num at z2 ⊢; linarith)) (by rw [abs_of_pos z0]; linarith) (by linarith) (2.001 * uu F) (by linarith) (by linarith) (η := 3.003 * uu F) (by linarith)
  have d := Rl.exact df
  rw [dv] at d
  have e : v + v / (v + 1) = 2 * v - v * v / (v + 1) := by field_simp; ring
  rw [e] at hd
  have sp : 0 < 2 * v - v * v / (v + 1) := by linarith
  have r := d.sub w (lo_std.trans (by rw [abs_of_pos sp]; norm_num at v3 ⊢; linarith)) (by rw [abs_of_pos sp]; linarith) (1.39 * uu F) (by
    rw [abs_of_pos sp, abs_of_pos z0]
    have := mul_le_mul_of_nonneg_left z1 hu0.le
    have := mul_pos hu0 v0
    rw [zero_mul, zero_add]
    generalize v * v / (v + 1) = z at *
    linarith) (by linarith) (η := 2.4 * uu F) (by linarith)
  exact r.trans (by linarith) hd (by linarith)

/-- the code's last step, multiplication by a half -/
theorem sinh_half {s : Flt F} (hf : half.isFinite) (hv : half.val = 1 / 2) {c : ℝ} (h0 : 0 ≤ c) (hc : c ≤ 6) (h : Rl s (2 * Real.sinh X) (c * uu F)) (hX : 1 / 2 ^ 30 ≤ X)
    (hi : Real.exp X ≤ 1.999986 * 2 ^ (F.bias : ℤ)) : WithinUlp c (half * s) (Real.sinh X) := by
  have hu0 := uu_pos (F := F)
  have hu1 := uu_le (F := F)
  have hu2 := uu_sq (F := F)
  have hB := hi_std (F := F)
  have xp : 0 ≤ X := le_trans (by norm_num) hX
  have h1 : X ≤ Real.sinh X := Real.self_le_sinh_iff.2 xp
  have h2 : 2 * Real.sinh X ≤ Real.exp X := by rw [Real.sinh_eq]; linarith [Real.exp_pos (-X)]
  have sp : 0 ≤ 2 * Real.sinh X := by linarith
  have hcu : c * uu F ≤ 6 * (1 / 2 ^ 24) := mul_le_mul hc hu1 hu0.le (by norm_num)
  have l := h.le sp
  have g := h.ge sp
  have l1 := mul_le_mul_of_nonneg_right hcu sp
  have g1 : 1 / 2 ^ 30 ≤ s.val := by linarith
  have l2 : s.val ≤ 1.999999 * 2 ^ (F.bias : ℤ) := by linarith
  have s0 : 0 < s.val := lt_of_lt_of_le (by norm_num) g1
  obtain ⟨rf, rv⟩ := hlv (x := s) h.fin hf hv (by rw [abs_of_pos s0]; norm_num at g1 ⊢; linarith) (by rw [abs_of_pos s0]; exact l2)
  have := (h.scale rf rv).ulp h0
  have e : 2 * Real.sinh X * 2 ^ (-1 : ℤ) = Real.sinh X := by rw [zpow_neg_one]; ring
  rwa [e] at this

/-- `1 + t^2 / (2 (1 + t))` -/
theorem cosh_small (of : one.isFinite) (ov : one.val = 1) (tf2 : two.isFinite) (tv2 : two.val = 2) (hX0 : 1 / 2 ^ 30 ≤ X) (hX : X ≤ 0.69315) (ht : Rl t (Real.exp X - 1) (2.9 * uu F)) :
    Rl (one + t * t / (two * (one + t))) (Real.cosh X) (3.1 * uu F) := by
  have hE0 := Real.add_one_le_exp X
  have hE1 := (Real.exp_le_exp.2 hX).trans exp_ln2'
  have hu0 := uu_pos (F := F)
  have hu1 := uu_le (F := F)
  have hu2 := uu_sq (F := F)
  have hB := hi_std (F := F)
  rw [cosh_T]
  generalize hTT : Real.exp X - 1 = T at ht ⊢
  have T0 : 1 / 2 ^ 30 ≤ T := by rw [← hTT]; linarith
  have T1 : T ≤ 1.0001 := by rw [← hTT]; norm_num at hE1 ⊢; linarith
  have Tp : 0 < T := lt_of_lt_of_le (by norm_num) T0
  obtain ⟨v1, v2⟩ := rng (ht.mono (by linarith)) Tp.le
  have he := ht.err
  rw [abs_of_pos Tp] at he
  have tf := ht.fin
  have a0 := add_u (x := one) (y := t) of tf
  have c0 := mul_u (x := t) (y := t) tf tf
  rw [ov] at a0
  have v0 : 0 < t.val := lt_of_lt_of_le (by positivity) v1
  have hd := w_diff (v := t.val) (T := T) v0.le Tp T1 he
  have v3 : 1 / 2 ^ 31 ≤ t.val := by linarith
  have v4 : t.val ≤ 1.0002 := by linarith
  generalize t.val = v at *
  have p2 : 1 / 2 ^ 62 ≤ v * v := by
    have := mul_le_mul v3 v3 (by norm_num) v0.le
    norm_num at this ⊢; linarith
  have p3 : v * v ≤ 1.0005 := by nlinarith
  have pp : 0 < v * v := by positivity
  have a := a0 (by rw [abs_of_pos (a := 1 + v) (by linarith)]; norm_num; linarith) (by rw [abs_of_pos (a := 1 + v) (by linarith)]; linarith)
  have c := c0 (by rw [abs_of_pos pp]; norm_num at p2 ⊢; linarith) (by rw [abs_of_pos pp]; linarith)
  obtain ⟨a1, a2⟩ := rng (a.mono (by linarith)) (by linarith)
  have av0 : 0 < (one + t).val := by linarith
  obtain ⟨bf, bv⟩ := dbl (x := one + t) a.fin tf2 tv2 (by rw [abs_of_pos av0]; norm_num; linarith) (by rw [abs_of_pos av0]; linarith)
  have b : Rl (two * (one + t)) (2 * (1 + v)) (uu F) := by
    refine ⟨bf, ?_⟩
    have := a.err
    rw [bv, ← mul_sub, abs_mul, abs_mul, abs_of_pos (a := (2 : ℝ)) (by norm_num)]
    linarith
  have z0 : 0 < v * v / (2 * (1 + v)) := by positivity
  have z1 : v * v / (2 * (1 + v)) ≤ 0.2502 := by rw [div_le_iff₀ (by linarith)]; nlinarith
  have z2 : 1 / 2 ^ 66 ≤ v * v / (2 * (1 + v)) := by
    rw [le_div_iff₀ (by linarith)]; norm_num at p2 ⊢; linarith
  have w := c.div b (by linarith) (lo_std.trans (by rw [abs_of_pos z0]; norm_num at z2 ⊢; linarith)) (by rw [abs_of_pos z0]; linarith) (by linarith) (2.001 * uu F) (by linarith) (by linarith) (η := 3.003 * uu F) (by linarith)
  have o := Rl.exact of
  rw [ov] at o
  rw [← pow_two] at w z0 z1 z2
  have sp : 0 < 1 + v ^ 2 / (2 * (1 + v)) := by linarith
  have r := o.add w (lo_std.trans (by rw [abs_of_pos sp]; norm_num; linarith)) (by rw [abs_of_pos sp]; linarith) (0.61 * uu F) (by
    rw [abs_of_pos sp, abs_of_pos z0]
    have := mul_le_mul_of_nonneg_left z1 hu0.le
    rw [zero_mul, zero_add]
    generalize v ^ 2 / (2 * (1 + v)) = z at *
    linarith) (by linarith) (η := 1.612 * uu F) (by linarith)
  exact r.trans (by linarith) hd (by linarith)

/-- `(t + 1 / t) / 2` -/
theorem cosh_mid (of : one.isFinite) (ov : one.val = 1) (hf : half.isFinite) (hv : half.val = 1 / 2) (hX : 0.6931 ≤ X) (ht : Rl t (Real.exp X) (2.7 * uu F))
    (hi : Real.exp X ≤ 1.999986 * 2 ^ (F.bias : ℤ)) : WithinUlp 3.95 (half * (t + one / t)) (Real.cosh X) := by
  have hE1 := exp_ln2.trans (Real.exp_le_exp.2 hX)
  have hE := cosh_E X
  have hu0 := uu_pos (F := F)
  have hu1 := uu_le (F := F)
  have hu2 := uu_sq (F := F)
  have hB := hi_std (F := F)
  generalize Real.exp X = T at *
  have T0 : 0 < T := by linarith
  have he := ht.err
  rw [abs_of_pos T0] at he
  obtain ⟨v1, v2⟩ := rng (ht.mono (by linarith)) T0.le
  have tf := ht.fin
  have v3 : 1.99 ≤ t.val := by linarith
  have v0 : 0 < t.val := by linarith
  have hd := h_diff (by linarith : 1 ≤ t.val) (by linarith : 1 ≤ T) he
  have i0 : 0 < 1 / t.val := by positivity
  have i1 : 1 / t.val ≤ t.val / 3.96 := by rw [div_le_div_iff₀ v0 (by norm_num)]; nlinarith
  have i2 : 1 / t.val ≤ 1 := by rw [div_le_one v0]; linarith
  have hb : 3 ≤ F.bias := by rcases StdFmt.out (F := F) with rfl | rfl <;> decide
  have bb := div_rne of tf (fun h => v0.ne' (isZero_val.1 h))
  rw [ov] at bb
  obtain ⟨bf, be⟩ := bb.mixed (by rw [abs_of_pos i0]; linarith) hb
  rw [abs_of_pos i0, ← uu] at be
  have sm : (2 : ℝ) ^ (-(F.bias : ℤ) - F.sb) ≤ 1 / 2 ^ 126 * uu F := by
    have e : (2 : ℝ) ^ (-(F.bias : ℤ) - F.sb) = 2 ^ (1 - (F.bias : ℤ)) * uu F := by
      rw [uu, ← zpow_add₀ (by norm_num)]; congr 1; ring
    rw [e]
    exact mul_le_mul_of_nonneg_right low1 hu0.le
  have sp : 0 < t.val + 1 / t.val := by linarith
  have k1 := mul_le_mul_of_nonneg_left i1 hu0.le
  have k2 := mul_pos hu0 v0
  have k3 := mul_pos hu0 i0
  have k4 := mul_le_mul_of_nonneg_left v3 hu0.le
  have r : Rl (t + one / t) (t.val + 1 / t.val) (1.22 * uu F) := by
    refine Rl.rnd (γ := 0.215 * uu F) (add_rne tf bf) ?_ (by linarith) (lo_std.trans (by rw [abs_of_pos sp]; exact le_trans (by norm_num) (by linarith : (1 : ℝ) ≤ t.val + 1 / t.val))) (by rw [abs_of_pos sp]; linarith) (by linarith)
    rw [abs_of_pos sp, add_sub_add_left_eq_sub]
    refine be.trans ?_
    generalize 1 / t.val = z at *
    generalize t.val = v at *
    generalize (2 : ℝ) ^ (-(F.bias : ℤ) - F.sb) = y at *
    norm_num at sm k1 k2 k3 k4 ⊢
    linarith
  have r2 := r.trans (γ := 3.95 * uu F) (by linarith) hd (by linarith)
  have sT : 0 < T + 1 / T := by positivity
  have iT : 1 / T ≤ 1 := by rw [div_le_one T0]; linarith
  have hcu : 3.95 * uu F ≤ 4 * (1 / 2 ^ 24) := by linarith
  have l := r2.le sT.le
  have g := r2.ge sT.le
  have l1 := mul_le_mul_of_nonneg_right hcu sT.le
  have i4 : 0 < 1 / T := by positivity
  have g1 : 1 ≤ (t + one / t).val := by linarith
  have l2 : (t + one / t).val ≤ 1.999999 * 2 ^ (F.bias : ℤ) := by linarith
  have s0 : 0 < (t + one / t).val := by linarith
  obtain ⟨rf, rv⟩ := hlv (x := t + one / t) r.fin hf hv (by rw [abs_of_pos s0]; norm_num; linarith) (by rw [abs_of_pos s0]; exact l2)
  rw [← hE] at r2
  have := (r2.scale rf rv).ulp (by norm_num)
  have e : 2 * Real.cosh X * 2 ^ (-1 : ℤ) = Real.cosh X := by rw [zpow_neg_one]; ring
  rwa [e] at this

/-- `1 - 2 / (t + 2)` -/
theorem tanh_A (of : one.isFinite) (ov : one.val = 1) (tf2 : two.isFinite) (tv2 : two.val = 2) (hX : 0.5493 ≤ X) (hX1 : X ≤ 21) (ht : Rl t (Real.exp (2 * X) - 1) (2.9 * uu F)) :
    Rl (one - two / (t + two)) (Real.tanh X) (4.6 * uu F) := by
  have hE0 := exp_big.trans (Real.exp_le_exp.2 (by linarith : 1.0986 ≤ 2 * X))
  have hE1 : Real.exp (2 * X) < 2 ^ (64 : ℤ) := Num.exp_lt_two_zpow (by have := Num.log2_gt; norm_num at this ⊢; linarith)
  have hu0 := uu_pos (F := F)
  have hu1 := uu_le (F := F)
  have hu2 := uu_sq (F := F)
  have hB := hi_std (F := F)
  rw [tanh_T]
  generalize hTT : Real.exp (2 * X) - 1 = T at ht ⊢
  have T0 : 1.999 ≤ T := by rw [← hTT]; linarith
  have T1 : T ≤ 2 ^ 64 := by rw [← hTT]; norm_num at hE1 ⊢; linarith
  have Tp : 0 < T := by linarith
  obtain ⟨v1, v2⟩ := rng (ht.mono (by linarith)) Tp.le
  have he := ht.err
  have tf := ht.fin
  have a0 := add_u (x := t) (y := two) tf tf2
  rw [tv2] at a0
  have v3 : 1.99 ≤ t.val := by linarith
  have hd := g_diff (v := t.val) (T := T) (K := 0.502) (by linarith) (by linarith) he (by linarith)
  have v4 : t.val ≤ 2 ^ 65 := by linarith
  generalize t.val = v at *
  have a := a0 (by rw [abs_of_pos (a := v + 2) (by linarith)]; norm_num; linarith) (by rw [abs_of_pos (a := v + 2) (by linarith)]; linarith)
  have tw := Rl.exact tf2
  rw [tv2] at tw
  have z0 : 0 < 2 / (v + 2) := by positivity
  have z1 : 2 / (v + 2) ≤ 0.502 := by rw [div_le_iff₀ (by linarith)]; linarith
  have z2 : 1 / 2 ^ 66 ≤ 2 / (v + 2) := by rw [le_div_iff₀ (by linarith)]; norm_num at v4 ⊢; linarith
  have w := tw.div a (by linarith) (lo_std.trans (by rw [abs_of_pos z0]; norm_num at z2 ⊢; linarith)) (by rw [abs_of_pos z0]; linarith) (by linarith) (1.001 * uu F) (by linarith) (by linarith) (η := 2.003 * uu F) (by linarith)
  have o := Rl.exact of
  rw [ov] at o
  have e : v / (v + 2) = 1 - 2 / (v + 2) := by field_simp; ring
  rw [e] at hd
  have sp : 0 < 1 - 2 / (v + 2) := by linarith
  have r := o.sub w (lo_std.trans (by rw [abs_of_pos sp]; norm_num; linarith)) (by rw [abs_of_pos sp]; linarith) (2.03 * uu F) (by
    rw [abs_of_pos sp, abs_of_pos z0]
    have := mul_le_mul_of_nonneg_left z1 hu0.le
    rw [zero_mul, zero_add]
    generalize 2 / (v + 2) = z at *
    linarith) (by linarith) (η := 3.04 * uu F) (by linarith)
  exact r.trans (by linarith) hd (by linarith)

/-- `t / (t + 2)` -/
theorem tanh_B (tf2 : two.isFinite) (tv2 : two.val = 2) (hX : 0.2554 ≤ X) (hX1 : X ≤ 1) (ht : Rl t (Real.exp (2 * X) - 1) (2.9 * uu F)) :
    Rl (t / (t + two)) (Real.tanh X) (4.6 * uu F) := by
  have hE0 := exp_mid.trans (Real.exp_le_exp.2 (by linarith : 0.5108 ≤ 2 * X))
  have hE1 : Real.exp (2 * X) < 2 ^ (64 : ℤ) := Num.exp_lt_two_zpow (by have := Num.log2_gt; norm_num at this ⊢; linarith)
  have hu0 := uu_pos (F := F)
  have hu1 := uu_le (F := F)
  have hu2 := uu_sq (F := F)
  have hB := hi_std (F := F)
  rw [tanh_T]
  generalize hTT : Real.exp (2 * X) - 1 = T at ht ⊢
  have T0 : 0.641 ≤ T := by rw [← hTT]; linarith
  have T1 : T ≤ 2 ^ 64 := by rw [← hTT]; norm_num at hE1 ⊢; linarith
  have Tp : 0 < T := by linarith
  obtain ⟨v1, v2⟩ := rng (ht.mono (by linarith)) Tp.le
  have he := ht.err
  have tf := ht.fin
  have te := Rl.exact tf
  have a0 := add_u (x := t) (y := two) tf tf2
  rw [tv2] at a0
  have v3 : 0.64 ≤ t.val := by linarith
  have hd := g_diff (v := t.val) (T := T) (K := 0.758) (by linarith) (by linarith) he (by linarith)
  have v4 : t.val ≤ 2 ^ 65 := by linarith
  generalize t.val = v at *
  have a := a0 (by rw [abs_of_pos (a := v + 2) (by linarith)]; norm_num; linarith) (by rw [abs_of_pos (a := v + 2) (by linarith)]; linarith)
  have z0 : 0 < v / (v + 2) := by positivity
  have z1 : v / (v + 2) ≤ 1 := by rw [div_le_iff₀ (by linarith)]; linarith
  have z2 : 0.2 ≤ v / (v + 2) := by rw [le_div_iff₀ (by linarith)]; linarith
  have w := te.div a (by linarith) (lo_std.trans (by rw [abs_of_pos z0]; norm_num at z2 ⊢; linarith)) (by rw [abs_of_pos z0]; linarith) (by linarith) (1.001 * uu F) (by linarith) (by linarith) (η := 2.003 * uu F) (by linarith)
  exact w.trans (by linarith) hd (by linarith)

/-- `-t / (t + 2)` for `t` near `e^(-2x) - 1` -/
theorem tanh_C (tf2 : two.isFinite) (tv2 : two.val = 2) (hX : 1 / 2 ^ 60 ≤ X) (hX1 : X ≤ 0.25545) (ht : Rl t (Real.exp (-(2 * X)) - 1) (2.9 * uu F)) :
    Rl (-t / (t + two)) (Real.tanh X) (5.7 * uu F) := by
  have hE0 := exp_neg_mid.trans (Real.exp_le_exp.2 (by linarith : -0.5109 ≤ -(2 * X)))
  have hE1 : Real.exp (-(2 * X)) ≤ 1 - X := by
    have h1 := Real.add_one_le_exp (2 * X)
    have h2 := Real.exp_pos (-(2 * X))
    have h3 : Real.exp (-(2 * X)) * Real.exp (2 * X) = 1 := by rw [← Real.exp_add]; simp
    have h4 : 0 < X := lt_of_lt_of_le (by norm_num) hX
    have h5 : Real.exp (-(2 * X)) * (2 * X + 1) ≤ 1 := (mul_le_mul_of_nonneg_left h1 h2.le).trans h3.le
    by_contra hc
    rw [not_le] at hc
    nlinarith
  have hu0 := uu_pos (F := F)
  have hu1 := uu_le (F := F)
  have hu2 := uu_sq (F := F)
  have hB := hi_std (F := F)
  rw [tanh_T', neg_div]
  generalize hTT : Real.exp (-(2 * X)) - 1 = T at ht ⊢
  have T0 : T ≤ -(1 / 2 ^ 60) := by rw [← hTT]; linarith
  have T1 : -0.4002 ≤ T := by rw [← hTT]; norm_num at hE0 ⊢; linarith
  have Tn : 0 < -T := by
    have : (0 : ℝ) < 1 / 2 ^ 60 := by norm_num
    linarith
  obtain ⟨v1, v2⟩ := rng (ht.neg.mono (by linarith)) Tn.le
  rw [val_neg] at v1 v2
  have he := ht.err
  have tf := ht.fin
  have te := (Rl.exact tf).neg
  have a0 := add_u (x := t) (y := two) tf tf2
  rw [tv2] at a0
  have v3 : -0.4003 ≤ t.val := by linarith
  have v4 : 1 / 2 ^ 61 ≤ -t.val := by norm_num at T0 v1 ⊢; linarith
  have hd := g_diff (v := t.val) (T := T) (K := 1.2503) (by linarith) (by linarith) he (by linarith)
  generalize t.val = v at *
  have vn : 0 < -v := lt_of_lt_of_le (by norm_num) v4
  have a := a0 (by rw [abs_of_pos (a := v + 2) (by linarith)]; norm_num; linarith) (by rw [abs_of_pos (a := v + 2) (by linarith)]; linarith)
  have z0 : 0 < -v / (v + 2) := div_pos vn (by linarith)
  have z1 : -v / (v + 2) ≤ 1 := by rw [div_le_iff₀ (by linarith)]; linarith
  have z2 : 1 / 2 ^ 63 ≤ -v / (v + 2) := by rw [le_div_iff₀ (by linarith)]; norm_num at v4 ⊢; linarith
  have w := te.div a (by linarith) (lo_std.trans (by rw [abs_of_pos z0]; norm_num at z2 ⊢; linarith)) (by rw [abs_of_pos z0]; linarith) (by linarith) (1.001 * uu F) (by linarith) (by linarith) (η := 2.003 * uu F) (by linarith)
  refine w.trans (δ := 2.9 * uu F * 1.2503) (by linarith) ?_ (by linarith)
  rw [neg_div, ← neg_sub', abs_neg, abs_neg]
  exact hd

/-- `-t / (t + 2)` for the exact `t = -2x` -/
theorem tanh_tiny {x : Flt F} (xf : x.isFinite) (tf : t.isFinite) (tf2 : two.isFinite) (tv2 : two.val = 2) (tv : t.val = -(2 * x.val)) (h0 : 2 ^ (1 - (F.bias : ℤ)) ≤ x.val) (h1 : x.val ≤ 1 / 2 ^ 60) (hu : 1 / 2 ^ 56 ≤ uu F) :
    Rl (-t / (t + two)) (Real.tanh x.val) (2.4 * uu F) := by
  have hu0 := uu_pos (F := F)
  have hu1 := uu_le (F := F)
  have hu2 := uu_sq (F := F)
  have hB := hi_std (F := F)
  have xp : 0 < x.val := (zp _).trans_le h0
  have hd := tanh_rel (x := x.val) (δ := 0.1 * uu F) xp.le (by norm_num at h1 ⊢; linarith) (by
    have := mul_le_mul h1 h1 xp.le (by norm_num)
    norm_num at this hu ⊢
    linarith [show x.val ^ 2 = x.val * x.val by ring])
  have ar := add_rne tf tf2
  rw [tv, tv2] at ar
  have a0 := add_u (x := t) (y := two) tf tf2
  rw [tv, tv2] at a0
  have a := a0 (by rw [abs_of_pos (by norm_num at h1 ⊢; linarith)]; norm_num at h1 ⊢; linarith) (by rw [abs_of_pos (by norm_num at h1 ⊢; linarith)]; linarith)
  have ale : (t + two).val ≤ 2 := by
    have := ar.le_of_le a.fin tf2 (by rw [tv2]; linarith)
    rwa [tv2] at this
  have age := a.ge (by norm_num at h1 ⊢; linarith)
  have age2 : 2 - 2.2 * uu F ≤ (t + two).val := by
    have : uu F * (2 * x.val) ≤ uu F * 1 := mul_le_mul_of_nonneg_left (by norm_num at h1 ⊢; linarith) hu0.le
    have h2 := mul_pos hu0 xp
    norm_num at h1 hu ⊢; linarith
  have ap : 0 < (t + two).val := by linarith
  have rr := div_rne ((Flt.isFinite_neg t).2 tf) a.fin (fun h => ap.ne' (isZero_val.1 h))
  rw [val_neg, tv, _root_.neg_neg] at rr
  have q0 : 0 < 2 * x.val / (t + two).val := by positivity
  have q1 : x.val ≤ 2 * x.val / (t + two).val := by
    rw [le_div_iff₀ ap]
    have := mul_le_mul_of_nonneg_left ale xp.le
    linarith
  have q2 : 2 * x.val / (t + two).val ≤ x.val * (1 + 1.11 * uu F) := by
    rw [div_le_iff₀ ap, mul_assoc]
    have : 2 ≤ (1 + 1.11 * uu F) * (t + two).val := by
      have := mul_le_mul_of_nonneg_left age2 (by linarith : 0 ≤ 1 + 1.11 * uu F)
      linarith
    have := mul_le_mul_of_nonneg_left this xp.le
    linarith
  have xu := mul_pos xp hu0
  obtain ⟨rf, re⟩ := rr.rel_std (by rw [abs_of_pos q0]; exact h0.trans q1) (by
    rw [abs_of_pos q0]
    have := mul_le_mul_of_nonneg_left hu1 xp.le
    have h2 : x.val ≤ 1 / 4 := h1.trans (by norm_num)
    refine q2.trans ?_
    linarith)
  rw [abs_of_pos q0, ← uu] at re
  have rx : Rl (-t / (t + two)) x.val (2.2 * uu F) := by
    refine ⟨rf, (abs_sub_le _ (2 * x.val / (t + two).val) _).trans ?_⟩
    rw [abs_of_nonneg (a := 2 * x.val / (t + two).val - x.val) (by linarith), abs_of_pos xp]
    have := mul_le_mul_of_nonneg_right q2 hu0.le
    have h3 := mul_le_mul_of_nonneg_left hu2 xp.le
    norm_num at h3 ⊢
    linarith
  exact rx.trans (by linarith) hd (by linarith)

/-- the result 1 -/
theorem tanh_one {δ : ℝ} (h0 : 0 < X) (hd : 2 ≤ δ * (Real.exp (2 * X) - 1)) : |1 - Real.tanh X| ≤ δ * |Real.tanh X| := by
  have h1 := Real.add_one_le_exp (2 * X)
  have hT : 0 < Real.exp (2 * X) - 1 := by linarith
  rw [tanh_T]
  generalize Real.exp (2 * X) - 1 = T at *
  have p2 : 0 < T + 2 := by linarith
  have e : 1 - T / (T + 2) = 2 / (T + 2) := by field_simp; ring
  rw [e, abs_of_pos (a := 2 / (T + 2)) (by positivity), abs_of_pos (a := T / (T + 2)) (by positivity), mul_div_assoc']
  exact div_le_div_of_nonneg_right hd p2.le

end HypC
end Verif
