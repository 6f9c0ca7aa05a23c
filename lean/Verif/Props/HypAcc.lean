import Verif.Theory.HypCore
import Verif.Props.Expm1Acc
import Verif.Props.HypSpecial

/-!
# C67: accuracy of `sinh`, `cosh`, `tanh` and their f32 versions

Specification: `WithinUlp` (Spec/Float.lean), `AccurateTo` (C45), `AccurateBelow` (C58), `AccurateBounded` below, and Mathlib's
real `sinh`, `cosh`, `tanh`.
-/

namespace Verif
open Flt

/-- For every finite argument at which the exact value `g x` does not round to an infinity, the function returns a finite float
within `c` units in the last place of `g x`. -/
def AccurateBounded {F : Fmt} (c : ℝ) (f : Flt F → Option (Flt F)) (g : ℝ → ℝ) : Prop :=
  ∀ x : Flt F, x.isFinite → |g (x.toRat : ℝ)| < (overflowThreshold F : ℝ) → ∃ r, f x = some r ∧ WithinUlp c r (g (x.toRat : ℝ))

namespace HypC

theorem le_of_mb {F : Fmt} {x c : Flt F} (xs : x.sign = false) (cs : c.sign = false) (h : x.mb ≤ c.mb) : x.val ≤ c.val := by
  have := val_mono h
  rwa [abs_of_nonneg (val_nonneg xs), abs_of_nonneg (val_nonneg cs)] at this

theorem flip_false {F : Fmt} (x : Flt F) : flip false x = x := by simp [Flt.flip]

/-- the neglected exponential -/
theorem far {X : ℝ} (h : 88 ≤ X) : Real.exp (-X) / 2 ≤ 1 / 2 ^ 100 * (Real.exp X / 2 - Real.exp (-X) / 2) := by
  have h1 : (2 : ℝ) ^ (102 : ℤ) < Real.exp (2 * X) := Num.two_zpow_lt_exp (by have := Num.log2_lt; norm_num at this ⊢; linarith)
  have e : Real.exp X = Real.exp (2 * X) * Real.exp (-X) := by rw [← Real.exp_add]; congr 1; ring
  have h2 := Real.exp_pos (-X)
  rw [e]
  have h3 := mul_lt_mul_of_pos_right h1 h2
  norm_num at h3 ⊢; linarith

theorem far_cosh {X : ℝ} (h : 88 ≤ X) : |Real.exp X / 2 - Real.cosh X| ≤ 1 / 2 ^ 100 * |Real.cosh X| := by
  have h1 := far h
  have h2 := Real.exp_pos (-X)
  rw [abs_of_pos (Real.cosh_pos X), Real.cosh_eq, abs_le]
  norm_num at h1 ⊢
  constructor <;> linarith

theorem far_sinh {X : ℝ} (h : 88 ≤ X) : |Real.exp X / 2 - Real.sinh X| ≤ 1 / 2 ^ 100 * |Real.sinh X| := by
  have h1 := far h
  have h2 := Real.exp_pos (-X)
  rw [abs_of_pos (Real.sinh_pos_iff.2 (by linarith)), Real.sinh_eq, abs_le]
  norm_num at h1 ⊢
  constructor <;> linarith

theorem exp_small {κ a : ℝ} (h : |κ| ≤ a) (ha : a ≤ 1 / 2 ^ 20) : |Real.exp κ - 1| ≤ 1.00001 * a := by
  have a0 : 0 ≤ a := (abs_nonneg _).trans h
  have h1 := Real.abs_exp_sub_one_sub_id_le (x := κ) (h.trans (ha.trans (by norm_num)))
  have h2 : κ ^ 2 ≤ 1 / 2 ^ 20 * a := by
    rw [← sq_abs, pow_two]
    exact mul_le_mul (h.trans ha) h (abs_nonneg _) (by norm_num)
  have h3 := abs_add_le (Real.exp κ - 1 - κ) κ
  rw [_root_.sub_add_cancel] at h3
  norm_num at h2 ⊢
  linarith

theorem rngS {E e S a b : ℝ} (v1 : 0.999999 * E ≤ e) (v2 : e ≤ 1.000001 * E) (g1 : a < E) (g2 : E < b) (a0 : 0 < a) (hS : 0 < S) :
    0.9 * (a * S) ≤ e * S ∧ e * S ≤ 2 * (b * S) := by
  have h1 : 0.9 * a ≤ e := by linarith
  have h2 : e ≤ 2 * b := by linarith
  have h3 := mul_le_mul_of_nonneg_right h1 hS.le
  have h4 := mul_le_mul_of_nonneg_right h2 hS.le
  constructor <;> linarith

/-- multiplication by minus two is exact -/
theorem ndbl {F : Fmt} [StdFmt F] {x m : Flt F} (xf : x.isFinite) (mf : m.isFinite) (mv : m.val = -2) (h1 : 2 ^ (1 - (F.bias : ℤ)) ≤ |x.val|) (h2 : |x.val| < 2 ^ (F.bias : ℤ)) :
    (m * x).isFinite ∧ (m * x).val = -(2 * x.val) := by
  obtain ⟨c, cf, cv⟩ := scale_exact (x := x) 1 (by rw [zpow_one, abs_mul]; norm_num at h1 ⊢; linarith [abs_nonneg x.val]) (by
    rw [zpow_one, abs_mul, top2]; norm_num at h2 ⊢; linarith)
  have := (mul_rne mf xf).exact_real (z := -c) ((Flt.isFinite_neg c).2 cf) (by rw [val_neg, cv, mv, zpow_one]; ring)
  refine ⟨this.1, this.2.trans ?_⟩
  rw [mv]; ring

end HypC

namespace HypA
open HypC
theorem c_lo : (bits64 0x3e50000000000000 : Flt f64).val = (1 : ℝ) * 2 ^ (-26 : ℤ) := by
  rw [val_const64 (x := bits64 0x3e50000000000000) 1 1048 (-26) (by decide +kernel) (by norm_num)]; norm_num
theorem c_one : (bits64 0x3ff0000000000000 : Flt f64).val = (1 : ℝ) * 2 ^ (0 : ℤ) := by
  rw [val_const64 (x := bits64 0x3ff0000000000000) 1 1074 (0) (by decide +kernel) (by norm_num)]; norm_num
theorem c_top : (bits64 0x40862e4200000000 : Flt f64).val = (726817 : ℝ) * 2 ^ (-10 : ℤ) := by
  rw [val_const64 (x := bits64 0x40862e4200000000) 726817 1064 (-10) (by decide +kernel) (by norm_num)]; norm_num
theorem c_half : (bits64 0x3fe62e4200000000 : Flt f64).val = (726817 : ℝ) * 2 ^ (-20 : ℤ) := by
  rw [val_const64 (x := bits64 0x3fe62e4200000000) 726817 1054 (-20) (by decide +kernel) (by norm_num)]; norm_num
theorem c_A : (bits64 0x3fe193eb00000000 : Flt f64).val = (1151979 : ℝ) * 2 ^ (-21 : ℤ) := by
  rw [val_const64 (x := bits64 0x3fe193eb00000000) 1151979 1053 (-21) (by decide +kernel) (by norm_num)]; norm_num
theorem c_L : (bits64 0x4034000100000000 : Flt f64).val = (1310721 : ℝ) * 2 ^ (-16 : ℤ) := by
  rw [val_const64 (x := bits64 0x4034000100000000) 1310721 1058 (-16) (by decide +kernel) (by norm_num)]; norm_num
theorem c_B : (bits64 0x3fd058af00000000 : Flt f64).val = (1071279 : ℝ) * 2 ^ (-22 : ℤ) := by
  rw [val_const64 (x := bits64 0x3fd058af00000000) 1071279 1052 (-22) (by decide +kernel) (by norm_num)]; norm_num
theorem c_C : (bits64 0x10000000000000 : Flt f64).val = (1 : ℝ) * 2 ^ (-1022 : ℤ) := by
  rw [val_const64 (x := bits64 0x10000000000000) 1 52 (-1022) (by decide +kernel) (by norm_num)]; norm_num
theorem c_max : (bits64 0x408633ce8fb9f87d : Flt f64).val = (6249411755243645 : ℝ) * 2 ^ (-43 : ℤ) := by
  rw [val_const64 (x := bits64 0x408633ce8fb9f87d) 6249411755243645 1031 (-43) (by decide +kernel) (by norm_num)]; norm_num
theorem c_next : (bits64 0x408633ce8fb9f87e : Flt f64).val = (3124705877621823 : ℝ) * 2 ^ (-42 : ℤ) := by
  rw [val_const64 (x := bits64 0x408633ce8fb9f87e) 3124705877621823 1032 (-42) (by decide +kernel) (by norm_num)]; norm_num
theorem c_K : (bits64 0x40962066151add8b : Flt f64).val = (6228072300469643 : ℝ) * 2 ^ (-42 : ℤ) := by
  rw [val_const64 (x := bits64 0x40962066151add8b) 6228072300469643 1032 (-42) (by decide +kernel) (by norm_num)]; norm_num
theorem two_neg : (-2.0 : Flt f64).val = -2 := by rw [show (-2.0 : Flt f64) = -(2.0 : Flt f64) from rfl, val_neg, Expm1.two_val]
theorem uu_eq : uu f64 = 1 / 2 ^ 53 := by rw [uu, f64_sb]; norm_num

/-- the relative error of `expm1` -/
theorem em {x : Flt f64} (xf : x.isFinite) (h : x.val ≤ 709.7827) (h0 : 1 / 2 ^ 100 ≤ |x.val|) : ∃ t, expm1 x = some t ∧ Rl t (Real.exp x.val - 1) (2.9 * uu f64) := by
  obtain ⟨t, ht, w⟩ := Expm1.acc xf (by rw [Expm1.v_max]; norm_num at h ⊢; linarith)
  refine ⟨t, ht, (Rl.of_ulp w (by norm_num) (low1.trans ?_)).mono (by norm_num)⟩
  rcases le_or_gt 0 x.val with h1 | h1
  · rw [abs_of_nonneg h1] at h0
    have := Real.add_one_le_exp x.val
    rw [abs_of_nonneg (by linarith)]
    norm_num at h0 ⊢; linarith
  · rw [abs_of_neg h1] at h0
    have h2 := Real.add_one_le_exp (-x.val)
    have h3 : Real.exp x.val * Real.exp (-x.val) = 1 := by rw [← Real.exp_add]; simp
    have h4 := Real.exp_pos x.val
    have h5 : Real.exp x.val < 1 := by rw [← Real.exp_zero]; exact Real.exp_lt_exp.2 h1
    rw [abs_of_neg (by linarith)]
    have h6 : Real.exp x.val * (1 / 2 ^ 100 + 1) ≤ 1 := (mul_le_mul_of_nonneg_left (by linarith) h4.le).trans h3.le
    norm_num at h6 ⊢; linarith
theorem c_scale : (bits64 0x7fc0000000000000 : Flt f64).val = (1 : ℝ) * 2 ^ (1021 : ℤ) := by
  rw [val_const64 (x := bits64 0x7fc0000000000000) 1 2095 (1021) (by decide +kernel) (by norm_num)]; norm_num
/-- the scaled exponential of large arguments -/
theorem ex {x : Flt f64} (xf : x.isFinite) (h1 : (bits64 0x40862e4200000000 : Flt f64).val ≤ x.val) (h2 : x.val ≤ (bits64 0x408633ce8fb9f87d : Flt f64).val) :
    ∃ e, exp (x - bits64 0x40962066151add8b) = some e ∧ Rl (e * bits64 0x7fc0000000000000 * bits64 0x7fc0000000000000) (Real.exp x.val / 2) (3.3 * uu f64) := by
  have l1 := Num.log2_gt
  have l2 := Num.log2_lt
  rw [c_top] at h1
  rw [c_max] at h2
  have kf : (bits64 0x40962066151add8b : Flt f64).isFinite := by decide +kernel
  have sf : (bits64 0x7fc0000000000000 : Flt f64).isFinite := by decide +kernel
  have x1 : 709.78 ≤ x.val := by norm_num at h1 ⊢; linarith
  have x2 : x.val ≤ 710.4759 := by norm_num at h2 ⊢; linarith
  obtain ⟨df, dv⟩ := sterbenz_val xf kf (by
      rw [c_K, abs_le, abs_of_pos (a := x.val) (by linarith)]; constructor <;> norm_num <;> linarith) (by
      rw [c_K, abs_le, abs_of_pos (a := (_ * _ : ℝ)) (by positivity)]; constructor <;> norm_num <;> linarith) (by
      rw [abs_of_pos (a := x.val) (by linarith)]; exact low1.trans (by norm_num; linarith)) (by
      rw [c_K, abs_of_pos (a := (_ * _ : ℝ)) (by positivity)]; exact low1.trans (by norm_num))
  obtain ⟨e, he, we⟩ := exp_accurate _ df (by
    change Real.exp (Flt.val _) < _
    rw [dv, c_K]
    have := Num.exp_lt_two_zpow (n := 0) (t := x.val - 6228072300469643 * 2 ^ (-42 : ℤ)) (by norm_num; linarith)
    refine this.trans (lt_of_le_of_lt ?_ thr_std)
    rw [zpow_zero]
    have := hi_std (F := f64)
    generalize (2 : ℝ) ^ ((f64.bias : ℕ) : ℤ) = T at this ⊢
    linarith only [this])
  change WithinUlp 1.3 e (Real.exp (Flt.val _)) at we
  rw [dv] at we
  refine ⟨e, he, ?_⟩
  have g1 : (2 : ℝ) ^ (-1021 : ℤ) < Real.exp (x.val - (bits64 0x40962066151add8b : Flt f64).val) := Num.two_zpow_lt_exp (by rw [c_K]; norm_num at l1 l2 ⊢; linarith)
  have g2 : Real.exp (x.val - (bits64 0x40962066151add8b : Flt f64).val) < (2 : ℝ) ^ (-1016 : ℤ) := Num.exp_lt_two_zpow (by rw [c_K]; norm_num at l1 l2 ⊢; linarith)
  have ep := Real.exp_pos (x.val - (bits64 0x40962066151add8b : Flt f64).val)
  have re := Rl.of_ulp we (by norm_num) (by
    rw [abs_of_pos ep, f64_bias]
    refine le_trans ?_ g1.le
    exact zpow_le_zpow_right₀ (by norm_num) (by norm_num))
  have hu0 := uu_pos (F := f64)
  have hu2 := uu_sq (F := f64)
  obtain ⟨v1, v2⟩ := rng (re.mono (by linarith)) ep.le
  have sv : (bits64 0x7fc0000000000000 : Flt f64).val = 2 ^ (1021 : ℤ) := by rw [c_scale, one_mul]
  have top : Real.exp (x.val - (bits64 0x40962066151add8b : Flt f64).val) * 2 ^ (2042 : ℤ) < 2 ^ (1024 : ℤ) * (1 - 1 / 2 ^ 45) := by
    have e1 : (2 : ℝ) ^ (2042 : ℤ) = Real.exp (2042 * Real.log 2) := by
      rw [show (2042 : ℤ) = ((2042 : ℕ) : ℤ) by norm_num, zpow_natCast, ← Real.log_rpow (by norm_num), Real.exp_log (by positivity)]
      rw [show (2042 : ℝ) = ((2042 : ℕ) : ℝ) by norm_num, Real.rpow_natCast]
    rw [e1, ← Real.exp_add]
    refine Num.exp_lt_thr (by norm_num) ?_
    rw [c_K]
    norm_num at h2 l1 l2 ⊢; linarith
  have a1 : |e.val * 2 ^ (1021 : ℤ)| = e.val * 2 ^ (1021 : ℤ) := abs_of_pos (mul_pos (lt_of_lt_of_le (by positivity) v1) (zp _))
  have p1 : (2 : ℝ) ^ (-1021 : ℤ) * 2 ^ (1021 : ℤ) = 2 ^ (0 : ℤ) := by rw [← zpow_add₀ (by norm_num)]; norm_num
  have p2 : (2 : ℝ) ^ (-1016 : ℤ) * 2 ^ (1021 : ℤ) = 2 ^ (5 : ℤ) := by rw [← zpow_add₀ (by norm_num)]; norm_num
  have p3 : (2 : ℝ) ^ (1021 : ℤ) * 2 ^ (1021 : ℤ) = 2 ^ (2042 : ℤ) := by rw [← zpow_add₀ (by norm_num)]; norm_num
  obtain ⟨b3, b4⟩ := rngS v1 v2 g1 g2 (zp _) (zp (1021 : ℤ))
  rw [p1] at b3
  rw [p2] at b4
  have b5 : 0.9 ≤ e.val * 2 ^ (1021 : ℤ) := by refine le_trans ?_ b3; norm_num
  have b6 : e.val * 2 ^ (1021 : ℤ) ≤ 20000 := by refine b4.trans ?_; norm_num
  obtain ⟨m1, w1⟩ := mul_pow2 (x := e) re.fin sf sv (by
    rw [a1]
    exact (low1 (F := f64)).trans (le_trans (by norm_num) b5)) (by
    rw [a1, top2]
    refine lt_of_le_of_lt b6 ?_
    have := hi_std (F := f64)
    generalize (2 : ℝ) ^ ((f64.bias : ℕ) : ℤ) = T at this ⊢
    linarith only [this])
  have ev0 : 0 < e.val := lt_of_lt_of_le (by positivity) v1
  have a2 : |(e * bits64 0x7fc0000000000000).val * 2 ^ (1021 : ℤ)| = e.val * 2 ^ (2042 : ℤ) := by
    rw [w1, mul_assoc, p3]; exact abs_of_pos (mul_pos ev0 (zp _))
  have l := mul_le_mul_of_nonneg_right (re.le ep.le) (zp (2042 : ℤ)).le
  obtain ⟨m2, w2⟩ := mul_pow2 (x := e * bits64 0x7fc0000000000000) m1 sf sv (by
    rw [a2]
    refine (low1 (F := f64)).trans ?_
    have q := mul_le_mul_of_nonneg_left (show (1 : ℝ) ≤ 2 ^ (1021 : ℤ) from one_le_zpow₀ (by norm_num) (by norm_num)) (mul_pos ev0 (zp (1021 : ℤ))).le
    rw [show e.val * 2 ^ (1021 : ℤ) * 2 ^ (1021 : ℤ) = e.val * 2 ^ (2042 : ℤ) by rw [mul_assoc, p3]] at q
    refine le_trans ?_ q
    rw [mul_one]
    exact le_trans (by norm_num) b5) (by
    rw [a2, f64_bias]
    refine lt_of_le_of_lt l ?_
    rw [uu_eq, mul_assoc]
    have := zp (1024 : ℤ)
    rw [show ((1023 : ℕ) : ℤ) + 1 = (1024 : ℤ) by norm_num]
    generalize (2 : ℝ) ^ (1024 : ℤ) = T at *
    generalize Real.exp (x.val - (bits64 0x40962066151add8b : Flt f64).val) * 2 ^ (2042 : ℤ) = Y at *
    norm_num at top ⊢
    linarith)
  have w3 : (e * bits64 0x7fc0000000000000 * bits64 0x7fc0000000000000).val = e.val * 2 ^ (2042 : ℤ) := by rw [w2, w1, mul_assoc, p3]
  refine (re.scale m2 w3).trans (δ := 0.51 * uu f64) (by linarith) ?_ (by linarith)
  have e2 : Real.exp (x.val - (bits64 0x40962066151add8b : Flt f64).val) * 2 ^ (2042 : ℤ) = Real.exp x.val / 2 * Real.exp (2043 * Real.log 2 - (bits64 0x40962066151add8b : Flt f64).val) := by
    have e1 : Real.exp (2043 * Real.log 2) = (2 : ℝ) ^ (2042 : ℤ) * 2 := by
      rw [show (2043 : ℝ) = ((2043 : ℕ) : ℝ) by norm_num, ← Real.log_rpow (by norm_num), Real.exp_log (by positivity), Real.rpow_natCast, ← zpow_natCast, ← zpow_add_one₀ (by norm_num)]
      norm_num
    rw [sub_eq_add_neg, Real.exp_add, sub_eq_add_neg, Real.exp_add, e1]
    ring
  rw [e2, ← mul_sub_one, abs_mul, mul_comm]
  refine mul_le_mul_of_nonneg_right ?_ (abs_nonneg _)
  refine (exp_small (a := 0.5 * uu f64) ?_ (by rw [uu_eq]; norm_num)).trans (by linarith)
  rw [c_K, uu_eq, abs_le]
  norm_num at l1 l2 ⊢
  constructor <;> linarith only [l1, l2]
theorem exp_top {X : ℝ} (h : X ≤ 709.7822265625) : Real.exp X ≤ 1.999986 * 2 ^ ((f64.bias : ℕ) : ℤ) := by
  have l1 := Num.log2_gt
  have := Num.exp_lt_two_zpow (n := 1024) (t := X + 0.0000073) (by norm_num at l1 ⊢; linarith)
  rw [Real.exp_add] at this
  have h2 := mul_le_mul_of_nonneg_left (Real.add_one_le_exp 0.0000073) (Real.exp_pos X).le
  rw [show ((f64.bias : ℕ) : ℤ) = 1023 by rw [f64_bias]; norm_num]
  rw [show (1024 : ℤ) = 1023 + 1 by norm_num, zpow_add_one₀ (by norm_num)] at this
  have h3 := h2.trans_lt this
  have h4 := zp (1023 : ℤ)
  generalize (2 : ℝ) ^ (1023 : ℤ) = T at *
  norm_num at h3 ⊢
  linarith

theorem sinh_acc {x : Flt f64} (xf : x.isFinite) (hs : x.sign = false) (hx : x.val ≤ (bits64 0x408633ce8fb9f87d : Flt f64).val) :
    ∃ r, sinh x = some r ∧ WithinUlp 5.4 r (Real.sinh x.val) := by
  have xn := val_nonneg hs
  have of : (1.0 : Flt f64).isFinite := by decide +kernel
  have tf : (2.0 : Flt f64).isFinite := by decide +kernel
  have hf : (0.5 : Flt f64).isFinite := by decide +kernel
  rw [Hyp.sinh_eq, hs, ab_of_pos hs]
  simp only [flip_false]
  have A := ab_of_pos hs
  by_cases h1 : x.mb < 0x40862e42 * 2 ^ 32
  · rw [if_pos (by rw [← A, Hyp.hi_lt]; exact h1)]
    have xt : x.val ≤ 709.7822265625 := by
      have := (le_of_mb (c := bits64 0x40862e4200000000) hs (by decide +kernel) (by rw [show (bits64 0x40862e4200000000 : Flt f64).mb = 0x40862e4200000000 by decide +kernel]; omega)).trans_eq c_top
      norm_num at this ⊢; linarith
    by_cases h2 : x.mb < 0x3ff00000 * 2 ^ 32
    · have x1 := (le_of_mb (c := bits64 0x3ff0000000000000) hs (by decide +kernel) (by rw [show (bits64 0x3ff0000000000000 : Flt f64).mb = 0x3ff0000000000000 by decide +kernel]; omega)).trans_eq c_one
      by_cases h3 : x.mb < 0x3e500000 * 2 ^ 32
      · obtain ⟨t, ht⟩ := expm1_tot x
        refine ⟨x, ?_, ?_⟩
        · rw [ht]; simp only [Option.map_some]
          rw [if_pos (by rw [← A, Hyp.hi_lt]; exact h2), if_pos (by rw [← A, Hyp.hi_lt, show (0x3ff00000#32 - (26#32 <<< 20)).toNat = 0x3e500000 by decide]; exact h3)]
        · have x2 := (le_of_mb (c := bits64 0x3e50000000000000) hs (by decide +kernel) (by rw [show (bits64 0x3e50000000000000 : Flt f64).mb = 0x3e50000000000000 by decide +kernel]; omega)).trans_eq c_lo
          refine ((Rl.trans (Rl.exact xf) le_rfl (sinh_rel (δ := 1 * uu f64) xn (by norm_num at x2 ⊢; linarith) ?_) (by rw [zero_mul, zero_add])).ulp (by norm_num)).mono (by norm_num)
          have := mul_le_mul x2 x2 xn (by positivity)
          rw [uu_eq]
          norm_num at this ⊢
          linarith [show x.val ^ 2 = x.val * x.val by ring]
      · have x2 := c_lo.symm.trans_le (le_of_mb (x := bits64 0x3e50000000000000) (by decide +kernel) hs (by rw [show (bits64 0x3e50000000000000 : Flt f64).mb = 0x3e50000000000000 by decide +kernel]; omega))
        have x3 : 1 / 2 ^ 30 ≤ x.val := by norm_num at x2 ⊢; linarith
        obtain ⟨t, ht, w⟩ := em xf (by linarith) (by rw [abs_of_nonneg xn]; norm_num at x3 ⊢; linarith)
        refine ⟨0.5 * (2.0 * t - t * t / (t + 1.0)), ?_, ?_⟩
        · rw [ht]; simp only [Option.map_some]
          rw [if_pos (by rw [← A, Hyp.hi_lt]; exact h2), if_neg (by rw [← A, Hyp.hi_lt, show (0x3ff00000#32 - (26#32 <<< 20)).toNat = 0x3e500000 by decide]; exact h3)]
        · exact (sinh_half hf Expm1.half_val' (by norm_num) (by norm_num) (sinh_small of Expm1.one_val tf Expm1.two_val x3 (by norm_num at x1 ⊢; linarith) w) x3 (exp_top (by linarith))).mono (by norm_num)
    · have x1 := c_one.symm.trans_le (le_of_mb (x := bits64 0x3ff0000000000000) (by decide +kernel) hs (by rw [show (bits64 0x3ff0000000000000 : Flt f64).mb = 0x3ff0000000000000 by decide +kernel]; omega))
      have x2 : 1 ≤ x.val := by norm_num at x1 ⊢; linarith
      obtain ⟨t, ht, w⟩ := em xf (by linarith) (by rw [abs_of_nonneg xn]; norm_num; linarith)
      refine ⟨0.5 * (t + t / (t + 1.0)), ?_, ?_⟩
      · rw [ht]; simp only [Option.map_some]
        rw [if_neg (by rw [← A, Hyp.hi_lt]; exact h2)]
      · exact (sinh_half hf Expm1.half_val' (by norm_num) (by norm_num) (sinh_large of Expm1.one_val x2 w (exp_top (by linarith))) (by norm_num; linarith) (exp_top (by linarith))).mono (by norm_num)
  · rw [if_neg (by rw [← A, Hyp.hi_lt]; exact h1)]
    have x1 : (bits64 0x40862e4200000000 : Flt f64).val ≤ x.val := le_of_mb (by decide +kernel) hs (by rw [show (bits64 0x40862e4200000000 : Flt f64).mb = 0x40862e4200000000 by decide +kernel]; omega)
    obtain ⟨e, he, w⟩ := ex xf x1 hx
    have x2 : 88 ≤ x.val := by rw [c_top] at x1; norm_num at x1 ⊢; linarith
    have q : expo2 x = some (e * bits64 0x7fc0000000000000 * bits64 0x7fc0000000000000) := by
      unfold expo2
      dsimp only
      rw [he]; rfl
    rw [q]
    refine ⟨2.0 * 0.5 * (e * bits64 0x7fc0000000000000 * bits64 0x7fc0000000000000), rfl, ?_⟩
    rw [show (2.0 * 0.5 : Flt f64) = 1.0 by decide +kernel]
    have hu0 := uu_pos (F := f64)
    have w2 : Rl _ (Real.sinh x.val) (3.4 * uu f64) := w.trans (by linarith) (far_sinh x2) (by rw [uu_eq]; norm_num)
    obtain ⟨m, mv⟩ := (mul_rne of w2.fin).exact_real (z := e * bits64 0x7fc0000000000000 * bits64 0x7fc0000000000000) w2.fin (by rw [Expm1.one_val, one_mul])
    refine (Rl.ulp (c := 3.4) ⟨m, ?_⟩ (by norm_num)).mono (by norm_num)
    rw [mv, Expm1.one_val, one_mul]
    exact w2.err
theorem cosh_eq (x : Flt f64) : cosh x =
    if x.mb < 0x3fe62e42 * 2 ^ 32 then
      if x.mb < 0x3e500000 * 2 ^ 32 then some 1.0 else (expm1 x.ab).map fun t => 1.0 + t * t / (2.0 * (1.0 + t))
    else if x.mb < 0x40862e42 * 2 ^ 32 then (exp x.ab).map fun t => 0.5 * (t + 1.0 / t)
    else kExpo2 x.ab := by
  have key : ∀ c : BitVec 64, (x.ab.u64 >>> 32) < c ↔ x.mb < c.toNat * 2 ^ 32 := fun c => by
    rw [BitVec.lt_def, BitVec.toNat_ushiftRight, Nat.shiftRight_eq_div_pow, show x.ab.u64.toNat = x.mb by rw [← ab_u64]; exact u64_abs x,
      Nat.div_lt_iff_lt_mul (by norm_num)]
  unfold cosh
  simp only [ab_u64, bits64_u64, key]
  rfl

theorem cosh_acc {x : Flt f64} (xf : x.isFinite) (hs : x.sign = false) (hx : x.val ≤ (bits64 0x408633ce8fb9f87d : Flt f64).val) :
    ∃ r, cosh x = some r ∧ WithinUlp 3.95 r (Real.cosh x.val) := by
  have xn := val_nonneg hs
  have of : (1.0 : Flt f64).isFinite := by decide +kernel
  have tf : (2.0 : Flt f64).isFinite := by decide +kernel
  have hf : (0.5 : Flt f64).isFinite := by decide +kernel
  have l1 := Num.log2_gt
  rw [cosh_eq, ab_of_pos hs]
  by_cases h1 : x.mb < 0x3fe62e42 * 2 ^ 32
  · rw [if_pos h1]
    have x1 := (le_of_mb (c := bits64 0x3fe62e4200000000) hs (by decide +kernel) (by rw [show (bits64 0x3fe62e4200000000 : Flt f64).mb = 0x3fe62e4200000000 by decide +kernel]; omega)).trans_eq c_half
    by_cases h3 : x.mb < 0x3e500000 * 2 ^ 32
    · rw [if_pos h3]
      refine ⟨1.0, rfl, ?_⟩
      have x2 := (le_of_mb (c := bits64 0x3e50000000000000) hs (by decide +kernel) (by rw [show (bits64 0x3e50000000000000 : Flt f64).mb = 0x3e50000000000000 by decide +kernel]; omega)).trans_eq c_lo
      have o := Rl.exact of
      rw [Expm1.one_val] at o
      refine ((o.trans le_rfl (cosh_rel (δ := 1.01 * uu f64) xn (by norm_num at x2 ⊢; linarith) ?_) (by rw [zero_mul, zero_add])).ulp (by norm_num)).mono (by norm_num)
      have := mul_le_mul x2 x2 xn (by positivity)
      rw [uu_eq]
      norm_num at this ⊢
      linarith [show x.val ^ 2 = x.val * x.val by ring]
    · rw [if_neg h3]
      have x2 := c_lo.symm.trans_le (le_of_mb (x := bits64 0x3e50000000000000) (by decide +kernel) hs (by rw [show (bits64 0x3e50000000000000 : Flt f64).mb = 0x3e50000000000000 by decide +kernel]; omega))
      have x3 : 1 / 2 ^ 30 ≤ x.val := by norm_num at x2 ⊢; linarith
      obtain ⟨t, ht, w⟩ := em xf (by norm_num at x1 ⊢; linarith) (by rw [abs_of_nonneg xn]; norm_num at x3 ⊢; linarith)
      refine ⟨_, by rw [ht]; rfl, ?_⟩
      exact ((cosh_small of Expm1.one_val tf Expm1.two_val x3 (by norm_num at x1 ⊢; linarith) w).ulp (by norm_num)).mono (by norm_num)
  · rw [if_neg h1]
    have x1 := c_half.symm.trans_le (le_of_mb (x := bits64 0x3fe62e4200000000) (by decide +kernel) hs (by rw [show (bits64 0x3fe62e4200000000 : Flt f64).mb = 0x3fe62e4200000000 by decide +kernel]; omega))
    by_cases h2 : x.mb < 0x40862e42 * 2 ^ 32
    · rw [if_pos h2]
      have x2 := (le_of_mb (c := bits64 0x40862e4200000000) hs (by decide +kernel) (by rw [show (bits64 0x40862e4200000000 : Flt f64).mb = 0x40862e4200000000 by decide +kernel]; omega)).trans_eq c_top
      have x3 : x.val ≤ 709.7822265625 := by norm_num at x2 ⊢; linarith
      have ep := Real.exp_pos x.val
      obtain ⟨t, ht, w⟩ := exp_accurate x xf (by
        change Real.exp x.val < _
        have := Num.exp_lt_thr (n := 1024) (k := 20) (t := x.val) (by norm_num) (by norm_num at l1 ⊢; linarith)
        rw [← thr64]
        refine this.trans ?_
        exact mul_lt_mul_of_pos_left (by norm_num) (zp _))
      change WithinUlp 1.3 t (Real.exp x.val) at w
      refine ⟨_, by rw [ht]; rfl, ?_⟩
      have x4 := Real.add_one_le_exp x.val
      have hu0 := uu_pos (F := f64)
      exact cosh_mid of Expm1.one_val hf Expm1.half_val' (by norm_num at x1 ⊢; linarith) ((Rl.of_ulp w (by norm_num) (low1.trans (by
        rw [abs_of_pos ep]; norm_num; linarith))).mono (by linarith)) (exp_top x3)
    · rw [if_neg h2]
      have x1 : (bits64 0x40862e4200000000 : Flt f64).val ≤ x.val := le_of_mb (by decide +kernel) hs (by rw [show (bits64 0x40862e4200000000 : Flt f64).mb = 0x40862e4200000000 by decide +kernel]; omega)
      obtain ⟨e, he, w⟩ := ex xf x1 hx
      have x2 : 88 ≤ x.val := by rw [c_top] at x1; norm_num at x1 ⊢; linarith
      have q : kExpo2 x = some (e * bits64 0x7fc0000000000000 * bits64 0x7fc0000000000000) := by
        unfold kExpo2
        dsimp only
        rw [he]; rfl
      rw [q]
      refine ⟨_, rfl, ?_⟩
      have hu0 := uu_pos (F := f64)
      exact ((w.trans (γ := 3.4 * uu f64) (by linarith) (far_cosh x2) (by rw [uu_eq]; norm_num)).ulp (by norm_num)).mono (by norm_num)
theorem hge (x : Flt f64) : getHighWord x.ab ≥ 0x00100000#32 ↔ 0x100000 * 2 ^ 32 ≤ x.mb := by
  have := Hyp.hi_lt x 0x100000#32
  rw [ge_iff_le, ← BitVec.not_lt, this, not_lt]
  rfl

theorem tanh_acc {x : Flt f64} (xf : x.isFinite) (hs : x.sign = false) : ∃ r, tanh x = some r ∧ WithinUlp 5.7 r (Real.tanh x.val) := by
  have xn := val_nonneg hs
  have of : (1.0 : Flt f64).isFinite := by decide +kernel
  have tf : (2.0 : Flt f64).isFinite := by decide +kernel
  have nf : (-2.0 : Flt f64).isFinite := by decide +kernel
  have zf : (0.0 : Flt f64).isFinite := by decide +kernel
  have zv : (0.0 : Flt f64).val = 0 := isZero_val.1 (by decide +kernel)
  have hB := hi_std (F := f64)
  rw [Hyp.tanh_eq, hs, ab_of_pos hs]
  have A := ab_of_pos hs
  suffices ∃ r, Hyp.tanhA x = some r ∧ WithinUlp 5.7 r (Real.tanh x.val) by
    obtain ⟨r, h1, h2⟩ := this
    exact ⟨r, by rw [h1]; simp [Flt.flip], h2⟩
  unfold Hyp.tanhA
  dsimp only
  by_cases h1 : 0x3fe193eb * 2 ^ 32 ≤ x.mb
  · rw [if_pos (by rw [← A, Hyp.hi_gt]; exact h1)]
    have x1 := c_A.symm.trans_le (le_of_mb (x := bits64 0x3fe193eb00000000) (by decide +kernel) hs (by rw [show (bits64 0x3fe193eb00000000 : Flt f64).mb = 0x3fe193eb00000000 by decide +kernel]; omega))
    by_cases h2 : 0x40340001 * 2 ^ 32 ≤ x.mb
    · rw [if_pos (by rw [← A, Hyp.hi_gt]; exact h2)]
      have x2 := c_L.symm.trans_le (le_of_mb (x := bits64 0x4034000100000000) (by decide +kernel) hs (by rw [show (bits64 0x4034000100000000 : Flt f64).mb = 0x4034000100000000 by decide +kernel]; omega))
      have x3 : 20 ≤ x.val := by norm_num at x2 ⊢; linarith
      obtain ⟨df, dv⟩ := (div_rne zf xf (fun h => by rw [isZero_val.1 h] at x3; norm_num at x3)).exact_real (z := 0.0) zf (by rw [zv, zero_div])
      rw [zv, zero_div] at dv
      obtain ⟨sf, sv⟩ := (sub_rne of df).exact_real (z := 1.0) of (by rw [dv]; norm_num)
      refine ⟨_, rfl, ?_⟩
      rw [dv, Expm1.one_val] at sv
      have o := Rl.exact sf
      rw [sv] at o
      have E : (2 : ℝ) ^ (57 : ℤ) < Real.exp (2 * x.val) := Num.two_zpow_lt_exp (by have := Num.log2_lt; norm_num at this ⊢; linarith)
      have td := tanh_one (X := x.val) (δ := 1 * uu f64) (by linarith) (by rw [uu_eq]; norm_num at E ⊢; linarith)
      norm_num only [sub_zero] at o
      exact ((o.trans le_rfl td (by rw [zero_mul, zero_add])).ulp (by norm_num)).mono (by norm_num)
    · rw [if_neg (by rw [← A, Hyp.hi_gt]; exact h2)]
      have x2 := (le_of_mb (c := bits64 0x4034000100000000) hs (by decide +kernel) (by rw [show (bits64 0x4034000100000000 : Flt f64).mb = 0x4034000100000000 by decide +kernel]; omega)).trans_eq c_L
      have x3 : x.val ≤ 21 := by norm_num at x2 ⊢; linarith
      have x4 : 0.5493 ≤ x.val := by norm_num at x1 ⊢; linarith
      obtain ⟨yf, yv⟩ := dbl (x := x) xf tf Expm1.two_val (by rw [abs_of_nonneg xn]; norm_num at x4 ⊢; linarith) (by rw [abs_of_nonneg xn]; linarith)
      obtain ⟨t, ht, w⟩ := em yf (by rw [yv]; norm_num; linarith) (by rw [yv, abs_of_nonneg (by linarith)]; norm_num at x4 ⊢; linarith)
      rw [yv] at w
      refine ⟨_, by rw [ht]; rfl, ?_⟩
      exact ((tanh_A of Expm1.one_val tf Expm1.two_val x4 x3 w).ulp (by norm_num)).mono (by norm_num)
  · rw [if_neg (by rw [← A, Hyp.hi_gt]; exact h1)]
    have x1 := (le_of_mb (c := bits64 0x3fe193eb00000000) hs (by decide +kernel) (by rw [show (bits64 0x3fe193eb00000000 : Flt f64).mb = 0x3fe193eb00000000 by decide +kernel]; omega)).trans_eq c_A
    have x5 : x.val ≤ 1 := by norm_num at x1 ⊢; linarith
    by_cases h2 : 0x3fd058af * 2 ^ 32 ≤ x.mb
    · rw [if_pos (by rw [← A, Hyp.hi_gt]; exact h2)]
      have x2 := c_B.symm.trans_le (le_of_mb (x := bits64 0x3fd058af00000000) (by decide +kernel) hs (by rw [show (bits64 0x3fd058af00000000 : Flt f64).mb = 0x3fd058af00000000 by decide +kernel]; omega))
      have x4 : 0.2554 ≤ x.val := by norm_num at x2 ⊢; linarith
      obtain ⟨yf, yv⟩ := dbl (x := x) xf tf Expm1.two_val (by rw [abs_of_nonneg xn]; norm_num at x4 ⊢; linarith) (by rw [abs_of_nonneg xn]; linarith)
      obtain ⟨t, ht, w⟩ := em yf (by rw [yv]; norm_num; linarith) (by rw [yv, abs_of_nonneg (by linarith)]; norm_num at x4 ⊢; linarith)
      rw [yv] at w
      refine ⟨_, by rw [ht]; rfl, ?_⟩
      exact ((tanh_B tf Expm1.two_val x4 x5 w).ulp (by norm_num)).mono (by norm_num)
    · rw [if_neg (by rw [← A, Hyp.hi_gt]; exact h2)]
      have x2 := (le_of_mb (c := bits64 0x3fd058af00000000) hs (by decide +kernel) (by rw [show (bits64 0x3fd058af00000000 : Flt f64).mb = 0x3fd058af00000000 by decide +kernel]; omega)).trans_eq c_B
      have x4 : x.val ≤ 0.25545 := by norm_num at x2 ⊢; linarith
      by_cases h3 : 0x100000 * 2 ^ 32 ≤ x.mb
      · rw [if_pos (by rw [← A, hge]; exact h3)]
        have x3 := c_C.symm.trans_le (le_of_mb (x := bits64 0x10000000000000) (by decide +kernel) hs (by rw [show (bits64 0x10000000000000 : Flt f64).mb = 0x10000000000000 by decide +kernel]; omega))
        rw [one_mul] at x3
        obtain ⟨yf, yv⟩ := ndbl (x := x) xf nf two_neg (by rw [abs_of_nonneg xn, f64_bias]; exact x3) (by rw [abs_of_nonneg xn]; linarith)
        rcases le_or_gt (1 / 2 ^ 60) x.val with h4 | h4
        · obtain ⟨t, ht, w⟩ := em yf (by rw [yv]; norm_num; linarith) (by rw [yv, abs_neg, abs_of_nonneg (by linarith)]; norm_num at h4 ⊢; linarith)
          rw [yv] at w
          refine ⟨_, by rw [ht]; rfl, ?_⟩
          exact (tanh_C tf Expm1.two_val h4 x4 w).ulp (by norm_num)
        · generalize hy : -2.0 * x = y at *
          have y1 : |y.val| < 1 / 2 ^ 59 := by rw [yv, abs_neg, abs_of_nonneg (by linarith)]; norm_num at h4 ⊢; linarith
          have ym : y.mb < 0x3c90000000000000 := by
            by_contra hc
            rw [not_lt] at hc
            have := val_mono (x := y) (y := bits64 0x3c90000000000000) (by rw [show (bits64 0x3c90000000000000 : Flt f64).mb = 0x3c90000000000000 by decide +kernel]; exact hc)
            rw [Expm1.t_c3, abs_of_pos (a := (_ * _ : ℝ)) (by positivity)] at this
            norm_num at this y1; linarith
          clear hB
          have q : expm1 y = some y := by
            rw [Expm1.eq', if_neg (by omega), if_neg (by omega), if_neg (by omega), if_neg (by omega), if_pos (by omega)]
          refine ⟨_, by rw [q]; rfl, ?_⟩
          exact ((tanh_tiny xf yf tf Expm1.two_val yv (by rw [f64_bias]; exact x3) h4.le (by rw [uu_eq]; norm_num)).ulp (by norm_num)).mono (by norm_num)
      · rw [if_neg (by rw [← A, hge]; exact h3)]
        have x3 := (le_of_mb (c := bits64 0x10000000000000) hs (by decide +kernel) (by rw [show (bits64 0x10000000000000 : Flt f64).mb = 0x10000000000000 by decide +kernel]; omega)).trans_eq c_C
        have x6 : x.val ≤ 1 / 2 ^ 100 := by
          rw [one_mul] at x3
          refine x3.trans ?_
          rw [show (1 : ℝ) / 2 ^ 100 = 2 ^ (-100 : ℤ) by norm_num]
          exact zpow_le_zpow_right₀ (by norm_num) (by norm_num)
        refine ⟨x, rfl, ?_⟩
        refine ((Rl.trans (Rl.exact xf) le_rfl (tanh_rel (δ := 1 * uu f64) xn (by linarith) ?_) (by rw [zero_mul, zero_add])).ulp (by norm_num)).mono (by norm_num)
        have := mul_le_mul x6 x6 xn (by positivity)
        rw [uu_eq]
        norm_num at this ⊢
        linarith [show x.val ^ 2 = x.val * x.val by ring]

/-- the largest argument with a finite result -/
theorem le_max {x : Flt f64} (hs : x.sign = false) (h : Real.exp x.val / 2 - 1 < (overflowThreshold f64 : ℝ)) : x.val ≤ (bits64 0x408633ce8fb9f87d : Flt f64).val := by
  by_contra hc
  rw [not_le] at hc
  have hm : 0x408633ce8fb9f87d < x.mb := by
    by_contra hn
    rw [not_lt] at hn
    have := le_of_mb hs (c := bits64 0x408633ce8fb9f87d) (by decide +kernel) (by rw [show (bits64 0x408633ce8fb9f87d : Flt f64).mb = 0x408633ce8fb9f87d by decide +kernel]; exact hn)
    linarith
  have h3 := c_next.symm.trans_le (le_of_mb (x := bits64 0x408633ce8fb9f87e) (by decide +kernel) hs (by rw [show (bits64 0x408633ce8fb9f87e : Flt f64).mb = 0x408633ce8fb9f87e by decide +kernel]; omega))
  have l2 := Num.log2_lt
  have h4 := Num.two_zpow_lt_exp (n := 1025) (t := x.val) (by
    refine lt_of_lt_of_le ?_ h3
    norm_num at l2 ⊢; linarith)
  rw [← thr64] at h
  rw [show (1025 : ℤ) = 1024 + 1 by norm_num, zpow_add_one₀ (by norm_num)] at h4
  have hp : (2 : ℝ) ^ (100 : ℤ) ≤ 2 ^ (1024 : ℤ) := zpow_le_zpow_right₀ (by norm_num) (by norm_num)
  generalize (2 : ℝ) ^ (1024 : ℤ) = T at *
  norm_num at hp h
  linarith

theorem sinh_fit {x : Flt f64} (hs : x.sign = false) (h : |Real.sinh x.val| < (overflowThreshold f64 : ℝ)) : x.val ≤ (bits64 0x408633ce8fb9f87d : Flt f64).val := by
  refine le_max hs ?_
  have h1 := (le_abs_self _).trans_lt h
  rw [Real.sinh_eq] at h1
  have := Real.exp_le_one_iff.2 (neg_nonpos.2 (val_nonneg hs))
  linarith

theorem cosh_fit {x : Flt f64} (hs : x.sign = false) (h : Real.cosh x.val < (overflowThreshold f64 : ℝ)) : x.val ≤ (bits64 0x408633ce8fb9f87d : Flt f64).val := by
  refine le_max hs ?_
  rw [Real.cosh_eq] at h
  linarith [Real.exp_pos (-x.val)]

end HypA

namespace HypAf
open HypC
theorem c_lo : (bits32 0x39800000 : Flt f32).val = (1 : ℝ) * 2 ^ (-12 : ℤ) := by
  rw [val_const32 (x := bits32 0x39800000) 1 137 (-12) (by decide +kernel) (by norm_num)]; norm_num
theorem c_one : (bits32 0x3f800000 : Flt f32).val = (1 : ℝ) * 2 ^ (0 : ℤ) := by
  rw [val_const32 (x := bits32 0x3f800000) 1 149 (0) (by decide +kernel) (by norm_num)]; norm_num
theorem c_top : (bits32 0x42b17217 : Flt f32).val = (11629079 : ℝ) * 2 ^ (-17 : ℤ) := by
  rw [val_const32 (x := bits32 0x42b17217) 11629079 132 (-17) (by decide +kernel) (by norm_num)]; norm_num
theorem c_half : (bits32 0x3f317217 : Flt f32).val = (11629079 : ℝ) * 2 ^ (-24 : ℤ) := by
  rw [val_const32 (x := bits32 0x3f317217) 11629079 125 (-24) (by decide +kernel) (by norm_num)]; norm_num
theorem c_A : (bits32 0x3f0c9f55 : Flt f32).val = (9215829 : ℝ) * 2 ^ (-24 : ℤ) := by
  rw [val_const32 (x := bits32 0x3f0c9f55) 9215829 125 (-24) (by decide +kernel) (by norm_num)]; norm_num
theorem c_L : (bits32 0x41200001 : Flt f32).val = (10485761 : ℝ) * 2 ^ (-20 : ℤ) := by
  rw [val_const32 (x := bits32 0x41200001) 10485761 129 (-20) (by decide +kernel) (by norm_num)]; norm_num
theorem c_B : (bits32 0x3e82c579 : Flt f32).val = (8570233 : ℝ) * 2 ^ (-25 : ℤ) := by
  rw [val_const32 (x := bits32 0x3e82c579) 8570233 124 (-25) (by decide +kernel) (by norm_num)]; norm_num
theorem c_C : (bits32 0x800000 : Flt f32).val = (1 : ℝ) * 2 ^ (-126 : ℤ) := by
  rw [val_const32 (x := bits32 0x800000) 1 23 (-126) (by decide +kernel) (by norm_num)]; norm_num
theorem c_max : (bits32 0x42b2d4fc : Flt f32).val = (2929983 : ℝ) * 2 ^ (-15 : ℤ) := by
  rw [val_const32 (x := bits32 0x42b2d4fc) 2929983 134 (-15) (by decide +kernel) (by norm_num)]; norm_num
theorem c_next : (bits32 0x42b2d4fd : Flt f32).val = (11719933 : ℝ) * 2 ^ (-17 : ℤ) := by
  rw [val_const32 (x := bits32 0x42b2d4fd) 11719933 132 (-17) (by decide +kernel) (by norm_num)]; norm_num
theorem c_K : (bits32 0x4322e3bc : Flt f32).val = (2668783 : ℝ) * 2 ^ (-14 : ℤ) := by
  rw [val_const32 (x := bits32 0x4322e3bc) 2668783 135 (-14) (by decide +kernel) (by norm_num)]; norm_num
theorem c_pre : (bits32 0x42b17216 : Flt f32).val = (5814539 : ℝ) * 2 ^ (-16 : ℤ) := by
  rw [val_const32 (x := bits32 0x42b17216) 5814539 133 (-16) (by decide +kernel) (by norm_num)]; norm_num
theorem two_neg : (-2.0 : Flt f32).val = -2 := by rw [show (-2.0 : Flt f32) = -(2.0 : Flt f32) from rfl, val_neg, Expm1f.two_val]
theorem uu_eq : uu f32 = 1 / 2 ^ 24 := by rw [uu, f32_sb]; norm_num

/-- the relative error of `expm1f` -/
theorem em {x : Flt f32} (xf : x.isFinite) (h : x.val ≤ 88.7216796875) (h0 : 1 / 2 ^ 100 ≤ |x.val|) : ∃ t, expm1f x = some t ∧ Rl t (Real.exp x.val - 1) (2.9 * uu f32) := by
  obtain ⟨t, ht, w⟩ := Expm1f.acc xf (by rw [Expm1f.v_max]; norm_num at h ⊢; linarith)
  refine ⟨t, ht, (Rl.of_ulp w (by norm_num) (low1.trans ?_)).mono (by norm_num)⟩
  rcases le_or_gt 0 x.val with h1 | h1
  · rw [abs_of_nonneg h1] at h0
    have := Real.add_one_le_exp x.val
    rw [abs_of_nonneg (by linarith)]
    norm_num at h0 ⊢; linarith
  · rw [abs_of_neg h1] at h0
    have h2 := Real.add_one_le_exp (-x.val)
    have h3 : Real.exp x.val * Real.exp (-x.val) = 1 := by rw [← Real.exp_add]; simp
    have h4 := Real.exp_pos x.val
    have h5 : Real.exp x.val < 1 := by rw [← Real.exp_zero]; exact Real.exp_lt_exp.2 h1
    rw [abs_of_neg (by linarith)]
    have h6 : Real.exp x.val * (1 / 2 ^ 100 + 1) ≤ 1 := (mul_le_mul_of_nonneg_left (by linarith) h4.le).trans h3.le
    norm_num at h6 ⊢; linarith
theorem c_scale : (bits32 0x7a000000 : Flt f32).val = (1 : ℝ) * 2 ^ (117 : ℤ) := by
  rw [val_const32 (x := bits32 0x7a000000) 1 266 (117) (by decide +kernel) (by norm_num)]; norm_num
/-- the scaled exponential of large arguments -/
theorem ex {x : Flt f32} (xf : x.isFinite) (h1 : (bits32 0x42b17217 : Flt f32).val ≤ x.val) (h2 : x.val ≤ (bits32 0x42b2d4fc : Flt f32).val) :
    ∃ e, expf (x - bits32 0x4322e3bc) = some e ∧ Rl (e * bits32 0x7a000000 * bits32 0x7a000000) (Real.exp x.val / 2) (3.3 * uu f32) := by
  have l1 := Num.log2_gt
  have l2 := Num.log2_lt
  rw [c_top] at h1
  rw [c_max] at h2
  have kf : (bits32 0x4322e3bc : Flt f32).isFinite := by decide +kernel
  have sf : (bits32 0x7a000000 : Flt f32).isFinite := by decide +kernel
  have x1 : 88.7228 ≤ x.val := by norm_num at h1 ⊢; linarith
  have x2 : x.val ≤ 89.416 := by norm_num at h2 ⊢; linarith
  obtain ⟨df, dv⟩ := sterbenz_val xf kf (by
      rw [c_K, abs_le, abs_of_pos (a := x.val) (by linarith)]; constructor <;> norm_num <;> linarith) (by
      rw [c_K, abs_le, abs_of_pos (a := (_ * _ : ℝ)) (by positivity)]; constructor <;> norm_num <;> linarith) (by
      rw [abs_of_pos (a := x.val) (by linarith)]; exact low1.trans (by norm_num; linarith)) (by
      rw [c_K, abs_of_pos (a := (_ * _ : ℝ)) (by positivity)]; exact low1.trans (by norm_num))
  obtain ⟨e, he, we⟩ := expf_accurate _ df (by
    change Real.exp (Flt.val _) < _
    rw [dv, c_K]
    have := Num.exp_lt_two_zpow (n := 0) (t := x.val - 2668783 * 2 ^ (-14 : ℤ)) (by norm_num; linarith)
    refine this.trans (lt_of_le_of_lt ?_ thr_std)
    rw [zpow_zero]
    have := hi_std (F := f32)
    generalize (2 : ℝ) ^ ((f32.bias : ℕ) : ℤ) = T at this ⊢
    linarith only [this])
  change WithinUlp 1.35 e (Real.exp (Flt.val _)) at we
  rw [dv] at we
  refine ⟨e, he, ?_⟩
  have g1 : (2 : ℝ) ^ (-108 : ℤ) < Real.exp (x.val - (bits32 0x4322e3bc : Flt f32).val) := Num.two_zpow_lt_exp (by rw [c_K]; norm_num at l1 l2 ⊢; linarith)
  have g2 : Real.exp (x.val - (bits32 0x4322e3bc : Flt f32).val) < (2 : ℝ) ^ (-104 : ℤ) := Num.exp_lt_two_zpow (by rw [c_K]; norm_num at l1 l2 ⊢; linarith)
  have ep := Real.exp_pos (x.val - (bits32 0x4322e3bc : Flt f32).val)
  have re := Rl.of_ulp we (by norm_num) (by
    rw [abs_of_pos ep, f32_bias]
    refine le_trans ?_ g1.le
    exact zpow_le_zpow_right₀ (by norm_num) (by norm_num))
  have hu0 := uu_pos (F := f32)
  have hu2 := uu_sq (F := f32)
  obtain ⟨v1, v2⟩ := rng (re.mono (by linarith)) ep.le
  have sv : (bits32 0x7a000000 : Flt f32).val = 2 ^ (117 : ℤ) := by rw [c_scale, one_mul]
  have top : Real.exp (x.val - (bits32 0x4322e3bc : Flt f32).val) * 2 ^ (234 : ℤ) < 2 ^ (128 : ℤ) * (1 - 1 / 2 ^ 21) := by
    have e1 : (2 : ℝ) ^ (234 : ℤ) = Real.exp (234 * Real.log 2) := by
      rw [show (234 : ℤ) = ((234 : ℕ) : ℤ) by norm_num, zpow_natCast, ← Real.log_rpow (by norm_num), Real.exp_log (by positivity)]
      rw [show (234 : ℝ) = ((234 : ℕ) : ℝ) by norm_num, Real.rpow_natCast]
    rw [e1, ← Real.exp_add]
    refine Num.exp_lt_thr (by norm_num) ?_
    rw [c_K]
    norm_num at h2 l1 l2 ⊢; linarith
  have a1 : |e.val * 2 ^ (117 : ℤ)| = e.val * 2 ^ (117 : ℤ) := abs_of_pos (mul_pos (lt_of_lt_of_le (by positivity) v1) (zp _))
  have p1 : (2 : ℝ) ^ (-108 : ℤ) * 2 ^ (117 : ℤ) = 2 ^ (9 : ℤ) := by rw [← zpow_add₀ (by norm_num)]; norm_num
  have p2 : (2 : ℝ) ^ (-104 : ℤ) * 2 ^ (117 : ℤ) = 2 ^ (13 : ℤ) := by rw [← zpow_add₀ (by norm_num)]; norm_num
  have p3 : (2 : ℝ) ^ (117 : ℤ) * 2 ^ (117 : ℤ) = 2 ^ (234 : ℤ) := by rw [← zpow_add₀ (by norm_num)]; norm_num
  obtain ⟨b3, b4⟩ := rngS v1 v2 g1 g2 (zp _) (zp (117 : ℤ))
  rw [p1] at b3
  rw [p2] at b4
  have b5 : 0.9 ≤ e.val * 2 ^ (117 : ℤ) := by refine le_trans ?_ b3; norm_num
  have b6 : e.val * 2 ^ (117 : ℤ) ≤ 20000 := by refine b4.trans ?_; norm_num
  obtain ⟨m1, w1⟩ := mul_pow2 (x := e) re.fin sf sv (by
    rw [a1]
    exact (low1 (F := f32)).trans (le_trans (by norm_num) b5)) (by
    rw [a1, top2]
    refine lt_of_le_of_lt b6 ?_
    have := hi_std (F := f32)
    generalize (2 : ℝ) ^ ((f32.bias : ℕ) : ℤ) = T at this ⊢
    linarith only [this])
  have ev0 : 0 < e.val := lt_of_lt_of_le (by positivity) v1
  have a2 : |(e * bits32 0x7a000000).val * 2 ^ (117 : ℤ)| = e.val * 2 ^ (234 : ℤ) := by
    rw [w1, mul_assoc, p3]; exact abs_of_pos (mul_pos ev0 (zp _))
  have l := mul_le_mul_of_nonneg_right (re.le ep.le) (zp (234 : ℤ)).le
  obtain ⟨m2, w2⟩ := mul_pow2 (x := e * bits32 0x7a000000) m1 sf sv (by
    rw [a2]
    refine (low1 (F := f32)).trans ?_
    have q := mul_le_mul_of_nonneg_left (show (1 : ℝ) ≤ 2 ^ (117 : ℤ) from one_le_zpow₀ (by norm_num) (by norm_num)) (mul_pos ev0 (zp (117 : ℤ))).le
    rw [show e.val * 2 ^ (117 : ℤ) * 2 ^ (117 : ℤ) = e.val * 2 ^ (234 : ℤ) by rw [mul_assoc, p3]] at q
    refine le_trans ?_ q
    rw [mul_one]
    exact le_trans (by norm_num) b5) (by
    rw [a2, f32_bias]
    refine lt_of_le_of_lt l ?_
    rw [uu_eq, mul_assoc]
    have := zp (128 : ℤ)
    rw [show ((127 : ℕ) : ℤ) + 1 = (128 : ℤ) by norm_num]
    generalize (2 : ℝ) ^ (128 : ℤ) = T at *
    generalize Real.exp (x.val - (bits32 0x4322e3bc : Flt f32).val) * 2 ^ (234 : ℤ) = Y at *
    norm_num at top ⊢
    linarith)
  have w3 : (e * bits32 0x7a000000 * bits32 0x7a000000).val = e.val * 2 ^ (234 : ℤ) := by rw [w2, w1, mul_assoc, p3]
  refine (re.scale m2 w3).trans (δ := 0.51 * uu f32) (by linarith) ?_ (by linarith)
  have e2 : Real.exp (x.val - (bits32 0x4322e3bc : Flt f32).val) * 2 ^ (234 : ℤ) = Real.exp x.val / 2 * Real.exp (235 * Real.log 2 - (bits32 0x4322e3bc : Flt f32).val) := by
    have e1 : Real.exp (235 * Real.log 2) = (2 : ℝ) ^ (234 : ℤ) * 2 := by
      rw [show (235 : ℝ) = ((235 : ℕ) : ℝ) by norm_num, ← Real.log_rpow (by norm_num), Real.exp_log (by positivity), Real.rpow_natCast, ← zpow_natCast, ← zpow_add_one₀ (by norm_num)]
      norm_num
    rw [sub_eq_add_neg, Real.exp_add, sub_eq_add_neg, Real.exp_add, e1]
    ring
  rw [e2, ← mul_sub_one, abs_mul, mul_comm]
  refine mul_le_mul_of_nonneg_right ?_ (abs_nonneg _)
  refine (exp_small (a := 0.5 * uu f32) ?_ (by rw [uu_eq]; norm_num)).trans (by linarith)
  rw [c_K, uu_eq, abs_le]
  norm_num at l1 l2 ⊢
  constructor <;> linarith only [l1, l2]
theorem exp_top {X : ℝ} (h : X ≤ 88.7228318) : Real.exp X ≤ 1.999986 * 2 ^ ((f32.bias : ℕ) : ℤ) := by
  have l1 := Num.log2_gt
  have := Num.exp_lt_two_zpow (n := 128) (t := X + 0.0000073) (by norm_num at l1 ⊢; linarith)
  rw [Real.exp_add] at this
  have h2 := mul_le_mul_of_nonneg_left (Real.add_one_le_exp 0.0000073) (Real.exp_pos X).le
  rw [show ((f32.bias : ℕ) : ℤ) = 127 by rw [f32_bias]; norm_num]
  rw [show (128 : ℤ) = 127 + 1 by norm_num, zpow_add_one₀ (by norm_num)] at this
  have h3 := h2.trans_lt this
  have h4 := zp (127 : ℤ)
  generalize (2 : ℝ) ^ (127 : ℤ) = T at *
  norm_num at h3 ⊢
  linarith

theorem sinh_acc {x : Flt f32} (xf : x.isFinite) (hs : x.sign = false) (hx : x.val ≤ (bits32 0x42b2d4fc : Flt f32).val) (hg : x.val ≤ 88.7216796875 ∨ 0x42b17217 ≤ x.mb) :
    ∃ r, sinhf x = some r ∧ WithinUlp 5.4 r (Real.sinh x.val) := by
  have xn := val_nonneg hs
  have of : (1.0 : Flt f32).isFinite := by decide +kernel
  have tf : (2.0 : Flt f32).isFinite := by decide +kernel
  have hf : (0.5 : Flt f32).isFinite := by decide +kernel
  rw [Hyp.sinhf_eq, hs, ab_of_pos hs]
  simp only [flip_false]
  have A := ab_of_pos hs
  by_cases h1 : x.mb < 0x42b17217
  · rw [if_pos (by rw [← A, Hyp.u32_lt]; exact h1)]
    have xt : x.val ≤ 88.7216796875 := hg.resolve_right (by omega)
    by_cases h2 : x.mb < 0x3f800000
    · have x1 := (le_of_mb (c := bits32 0x3f800000) hs (by decide +kernel) (by rw [show (bits32 0x3f800000 : Flt f32).mb = 0x3f800000 by decide +kernel]; omega)).trans_eq c_one
      by_cases h3 : x.mb < 0x39800000
      · obtain ⟨t, ht⟩ := expm1f_tot x
        refine ⟨x, ?_, ?_⟩
        · rw [ht]; simp only [Option.map_some]
          rw [if_pos (by rw [← A, Hyp.u32_lt]; exact h2), if_pos (by rw [← A, Hyp.u32_lt, show (0x3f800000#32 - (12#32 <<< 23)).toNat = 0x39800000 by decide]; exact h3)]
        · have x2 := (le_of_mb (c := bits32 0x39800000) hs (by decide +kernel) (by rw [show (bits32 0x39800000 : Flt f32).mb = 0x39800000 by decide +kernel]; omega)).trans_eq c_lo
          refine ((Rl.trans (Rl.exact xf) le_rfl (sinh_rel (δ := 1 * uu f32) xn (by norm_num at x2 ⊢; linarith) ?_) (by rw [zero_mul, zero_add])).ulp (by norm_num)).mono (by norm_num)
          have := mul_le_mul x2 x2 xn (by positivity)
          rw [uu_eq]
          norm_num at this ⊢
          linarith [show x.val ^ 2 = x.val * x.val by ring]
      · have x2 := c_lo.symm.trans_le (le_of_mb (x := bits32 0x39800000) (by decide +kernel) hs (by rw [show (bits32 0x39800000 : Flt f32).mb = 0x39800000 by decide +kernel]; omega))
        have x3 : 1 / 2 ^ 30 ≤ x.val := by norm_num at x2 ⊢; linarith
        obtain ⟨t, ht, w⟩ := em xf (by linarith) (by rw [abs_of_nonneg xn]; norm_num at x3 ⊢; linarith)
        refine ⟨0.5 * (2.0 * t - t * t / (t + 1.0)), ?_, ?_⟩
        · rw [ht]; simp only [Option.map_some]
          rw [if_pos (by rw [← A, Hyp.u32_lt]; exact h2), if_neg (by rw [← A, Hyp.u32_lt, show (0x3f800000#32 - (12#32 <<< 23)).toNat = 0x39800000 by decide]; exact h3)]
        · exact (sinh_half hf Expm1f.half_val' (by norm_num) (by norm_num) (sinh_small of Expm1f.one_val tf Expm1f.two_val x3 (by norm_num at x1 ⊢; linarith) w) x3 (exp_top (by linarith))).mono (by norm_num)
    · have x1 := c_one.symm.trans_le (le_of_mb (x := bits32 0x3f800000) (by decide +kernel) hs (by rw [show (bits32 0x3f800000 : Flt f32).mb = 0x3f800000 by decide +kernel]; omega))
      have x2 : 1 ≤ x.val := by norm_num at x1 ⊢; linarith
      obtain ⟨t, ht, w⟩ := em xf (by linarith) (by rw [abs_of_nonneg xn]; norm_num; linarith)
      refine ⟨0.5 * (t + t / (t + 1.0)), ?_, ?_⟩
      · rw [ht]; simp only [Option.map_some]
        rw [if_neg (by rw [← A, Hyp.u32_lt]; exact h2)]
      · exact (sinh_half hf Expm1f.half_val' (by norm_num) (by norm_num) (sinh_large of Expm1f.one_val x2 w (exp_top (by linarith))) (by norm_num; linarith) (exp_top (by linarith))).mono (by norm_num)
  · rw [if_neg (by rw [← A, Hyp.u32_lt]; exact h1)]
    have x1 : (bits32 0x42b17217 : Flt f32).val ≤ x.val := le_of_mb (by decide +kernel) hs (by rw [show (bits32 0x42b17217 : Flt f32).mb = 0x42b17217 by decide +kernel]; omega)
    obtain ⟨e, he, w⟩ := ex xf x1 hx
    have x2 : 88 ≤ x.val := by rw [c_top] at x1; norm_num at x1 ⊢; linarith
    have q : kExpo2f x = some (e * bits32 0x7a000000 * bits32 0x7a000000) := by
      unfold kExpo2f
      dsimp only
      rw [he]; rfl
    rw [q]
    refine ⟨2.0 * 0.5 * (e * bits32 0x7a000000 * bits32 0x7a000000), rfl, ?_⟩
    rw [show (2.0 * 0.5 : Flt f32) = 1.0 by decide +kernel]
    have hu0 := uu_pos (F := f32)
    have w2 : Rl _ (Real.sinh x.val) (3.4 * uu f32) := w.trans (by linarith) (far_sinh x2) (by rw [uu_eq]; norm_num)
    obtain ⟨m, mv⟩ := (mul_rne of w2.fin).exact_real (z := e * bits32 0x7a000000 * bits32 0x7a000000) w2.fin (by rw [Expm1f.one_val, one_mul])
    refine (Rl.ulp (c := 3.4) ⟨m, ?_⟩ (by norm_num)).mono (by norm_num)
    rw [mv, Expm1f.one_val, one_mul]
    exact w2.err
theorem cosh_eq (x : Flt f32) : coshf x =
    if x.mb < 0x3f317217 then
      if x.mb < 0x39800000 then some 1.0 else (expm1f x.ab).map fun t => 1.0 + t * t / (2.0 * (1.0 + t))
    else if x.mb < 0x42b17217 then (expf x.ab).map fun t => 0.5 * (t + 1.0 / t)
    else kExpo2f x.ab := by
  have key : ∀ c : BitVec 32, x.ab.u32 < c ↔ x.mb < c.toNat := Hyp.u32_lt x
  unfold coshf
  simp only [ab_u32, bits32_u32, key]
  rfl

theorem cosh_acc {x : Flt f32} (xf : x.isFinite) (hs : x.sign = false) (hx : x.val ≤ (bits32 0x42b2d4fc : Flt f32).val) :
    ∃ r, coshf x = some r ∧ WithinUlp 3.95 r (Real.cosh x.val) := by
  have xn := val_nonneg hs
  have of : (1.0 : Flt f32).isFinite := by decide +kernel
  have tf : (2.0 : Flt f32).isFinite := by decide +kernel
  have hf : (0.5 : Flt f32).isFinite := by decide +kernel
  have l1 := Num.log2_gt
  rw [cosh_eq, ab_of_pos hs]
  by_cases h1 : x.mb < 0x3f317217
  · rw [if_pos h1]
    have x1 := (le_of_mb (c := bits32 0x3f317217) hs (by decide +kernel) (by rw [show (bits32 0x3f317217 : Flt f32).mb = 0x3f317217 by decide +kernel]; omega)).trans_eq c_half
    by_cases h3 : x.mb < 0x39800000
    · rw [if_pos h3]
      refine ⟨1.0, rfl, ?_⟩
      have x2 := (le_of_mb (c := bits32 0x39800000) hs (by decide +kernel) (by rw [show (bits32 0x39800000 : Flt f32).mb = 0x39800000 by decide +kernel]; omega)).trans_eq c_lo
      have o := Rl.exact of
      rw [Expm1f.one_val] at o
      refine ((o.trans le_rfl (cosh_rel (δ := 1.01 * uu f32) xn (by norm_num at x2 ⊢; linarith) ?_) (by rw [zero_mul, zero_add])).ulp (by norm_num)).mono (by norm_num)
      have := mul_le_mul x2 x2 xn (by positivity)
      rw [uu_eq]
      norm_num at this ⊢
      linarith [show x.val ^ 2 = x.val * x.val by ring]
    · rw [if_neg h3]
      have x2 := c_lo.symm.trans_le (le_of_mb (x := bits32 0x39800000) (by decide +kernel) hs (by rw [show (bits32 0x39800000 : Flt f32).mb = 0x39800000 by decide +kernel]; omega))
      have x3 : 1 / 2 ^ 30 ≤ x.val := by norm_num at x2 ⊢; linarith
      obtain ⟨t, ht, w⟩ := em xf (by norm_num at x1 ⊢; linarith) (by rw [abs_of_nonneg xn]; norm_num at x3 ⊢; linarith)
      refine ⟨_, by rw [ht]; rfl, ?_⟩
      exact ((cosh_small of Expm1f.one_val tf Expm1f.two_val x3 (by norm_num at x1 ⊢; linarith) w).ulp (by norm_num)).mono (by norm_num)
  · rw [if_neg h1]
    have x1 := c_half.symm.trans_le (le_of_mb (x := bits32 0x3f317217) (by decide +kernel) hs (by rw [show (bits32 0x3f317217 : Flt f32).mb = 0x3f317217 by decide +kernel]; omega))
    by_cases h2 : x.mb < 0x42b17217
    · rw [if_pos h2]
      have x2 := (le_of_mb (c := bits32 0x42b17217) hs (by decide +kernel) (by rw [show (bits32 0x42b17217 : Flt f32).mb = 0x42b17217 by decide +kernel]; omega)).trans_eq c_top
      have x3 : x.val ≤ 88.7228318 := by norm_num at x2 ⊢; linarith
      have ep := Real.exp_pos x.val
      obtain ⟨t, ht, w⟩ := expf_accurate x xf (by
        change Real.exp x.val < _
        have := Num.exp_lt_thr (n := 128) (k := 20) (t := x.val) (by norm_num) (by norm_num at l1 ⊢; linarith)
        rw [← thr32]
        refine this.trans ?_
        exact mul_lt_mul_of_pos_left (by norm_num) (zp _))
      change WithinUlp 1.35 t (Real.exp x.val) at w
      refine ⟨_, by rw [ht]; rfl, ?_⟩
      have x4 := Real.add_one_le_exp x.val
      have hu0 := uu_pos (F := f32)
      exact cosh_mid of Expm1f.one_val hf Expm1f.half_val' (by norm_num at x1 ⊢; linarith) ((Rl.of_ulp w (by norm_num) (low1.trans (by
        rw [abs_of_pos ep]; norm_num; linarith))).mono (by linarith)) (exp_top x3)
    · rw [if_neg h2]
      have x1 : (bits32 0x42b17217 : Flt f32).val ≤ x.val := le_of_mb (by decide +kernel) hs (by rw [show (bits32 0x42b17217 : Flt f32).mb = 0x42b17217 by decide +kernel]; omega)
      obtain ⟨e, he, w⟩ := ex xf x1 hx
      have x2 : 88 ≤ x.val := by rw [c_top] at x1; norm_num at x1 ⊢; linarith
      have q : kExpo2f x = some (e * bits32 0x7a000000 * bits32 0x7a000000) := by
        unfold kExpo2f
        dsimp only
        rw [he]; rfl
      rw [q]
      refine ⟨_, rfl, ?_⟩
      have hu0 := uu_pos (F := f32)
      exact ((w.trans (γ := 3.4 * uu f32) (by linarith) (far_cosh x2) (by rw [uu_eq]; norm_num)).ulp (by norm_num)).mono (by norm_num)
theorem hge (x : Flt f32) : x.ab.u32 ≥ 0x00800000#32 ↔ 0x800000 ≤ x.mb := by
  have := Hyp.u32_lt x 0x800000#32
  rw [ge_iff_le, ← BitVec.not_lt, this, not_lt]
  rfl

theorem tanh_acc {x : Flt f32} (xf : x.isFinite) (hs : x.sign = false) : ∃ r, tanhf x = some r ∧ WithinUlp 5.7 r (Real.tanh x.val) := by
  have xn := val_nonneg hs
  have of : (1.0 : Flt f32).isFinite := by decide +kernel
  have tf : (2.0 : Flt f32).isFinite := by decide +kernel
  have nf : (-2.0 : Flt f32).isFinite := by decide +kernel
  have zf : (0.0 : Flt f32).isFinite := by decide +kernel
  have zv : (0.0 : Flt f32).val = 0 := isZero_val.1 (by decide +kernel)
  have hB := hi_std (F := f32)
  rw [Hyp.tanhf_eq, hs, ab_of_pos hs]
  have A := ab_of_pos hs
  suffices ∃ r, Hyp.tanhfA x = some r ∧ WithinUlp 5.7 r (Real.tanh x.val) by
    obtain ⟨r, h1, h2⟩ := this
    exact ⟨r, by rw [h1]; simp [Flt.flip], h2⟩
  unfold Hyp.tanhfA
  dsimp only
  by_cases h1 : 0x3f0c9f54 < x.mb
  · rw [if_pos (by rw [← A, Hyp.u32_gt]; exact h1)]
    have x1 := c_A.symm.trans_le (le_of_mb (x := bits32 0x3f0c9f55) (by decide +kernel) hs (by rw [show (bits32 0x3f0c9f55 : Flt f32).mb = 0x3f0c9f55 by decide +kernel]; omega))
    by_cases h2 : 0x41200000 < x.mb
    · rw [if_pos (by rw [← A, Hyp.u32_gt]; exact h2)]
      have x2 := c_L.symm.trans_le (le_of_mb (x := bits32 0x41200001) (by decide +kernel) hs (by rw [show (bits32 0x41200001 : Flt f32).mb = 0x41200001 by decide +kernel]; omega))
      have x3 : 10 ≤ x.val := by norm_num at x2 ⊢; linarith
      obtain ⟨df, dv⟩ := (div_rne zf xf (fun h => by rw [isZero_val.1 h] at x3; norm_num at x3)).exact_real (z := 0.0) zf (by rw [zv, zero_div])
      rw [zv, zero_div] at dv
      obtain ⟨sf, sv⟩ := (add_rne of df).exact_real (z := 1.0) of (by rw [dv]; norm_num)
      refine ⟨_, rfl, ?_⟩
      rw [dv, Expm1f.one_val] at sv
      have o := Rl.exact sf
      rw [sv] at o
      have E : (2 : ℝ) ^ (28 : ℤ) < Real.exp (2 * x.val) := Num.two_zpow_lt_exp (by have := Num.log2_lt; norm_num at this ⊢; linarith)
      have td := tanh_one (X := x.val) (δ := 1 * uu f32) (by linarith) (by rw [uu_eq]; norm_num at E ⊢; linarith)
      norm_num only [add_zero] at o
      exact ((o.trans le_rfl td (by rw [zero_mul, zero_add])).ulp (by norm_num)).mono (by norm_num)
    · rw [if_neg (by rw [← A, Hyp.u32_gt]; exact h2)]
      have x2 := (le_of_mb (c := bits32 0x41200001) hs (by decide +kernel) (by rw [show (bits32 0x41200001 : Flt f32).mb = 0x41200001 by decide +kernel]; omega)).trans_eq c_L
      have x3 : x.val ≤ 21 := by norm_num at x2 ⊢; linarith
      have x4 : 0.5493 ≤ x.val := by norm_num at x1 ⊢; linarith
      obtain ⟨yf, yv⟩ := dbl (x := x) xf tf Expm1f.two_val (by rw [abs_of_nonneg xn]; norm_num at x4 ⊢; linarith) (by rw [abs_of_nonneg xn]; linarith)
      obtain ⟨t, ht, w⟩ := em yf (by rw [yv]; norm_num; linarith) (by rw [yv, abs_of_nonneg (by linarith)]; norm_num at x4 ⊢; linarith)
      rw [yv] at w
      refine ⟨_, by rw [ht]; rfl, ?_⟩
      exact ((tanh_A of Expm1f.one_val tf Expm1f.two_val x4 x3 w).ulp (by norm_num)).mono (by norm_num)
  · rw [if_neg (by rw [← A, Hyp.u32_gt]; exact h1)]
    have x1 := (le_of_mb (c := bits32 0x3f0c9f55) hs (by decide +kernel) (by rw [show (bits32 0x3f0c9f55 : Flt f32).mb = 0x3f0c9f55 by decide +kernel]; omega)).trans_eq c_A
    have x5 : x.val ≤ 1 := by norm_num at x1 ⊢; linarith
    by_cases h2 : 0x3e82c578 < x.mb
    · rw [if_pos (by rw [← A, Hyp.u32_gt]; exact h2)]
      have x2 := c_B.symm.trans_le (le_of_mb (x := bits32 0x3e82c579) (by decide +kernel) hs (by rw [show (bits32 0x3e82c579 : Flt f32).mb = 0x3e82c579 by decide +kernel]; omega))
      have x4 : 0.2554 ≤ x.val := by norm_num at x2 ⊢; linarith
      obtain ⟨yf, yv⟩ := dbl (x := x) xf tf Expm1f.two_val (by rw [abs_of_nonneg xn]; norm_num at x4 ⊢; linarith) (by rw [abs_of_nonneg xn]; linarith)
      obtain ⟨t, ht, w⟩ := em yf (by rw [yv]; norm_num; linarith) (by rw [yv, abs_of_nonneg (by linarith)]; norm_num at x4 ⊢; linarith)
      rw [yv] at w
      refine ⟨_, by rw [ht]; rfl, ?_⟩
      exact ((tanh_B tf Expm1f.two_val x4 x5 w).ulp (by norm_num)).mono (by norm_num)
    · rw [if_neg (by rw [← A, Hyp.u32_gt]; exact h2)]
      have x2 := (le_of_mb (c := bits32 0x3e82c579) hs (by decide +kernel) (by rw [show (bits32 0x3e82c579 : Flt f32).mb = 0x3e82c579 by decide +kernel]; omega)).trans_eq c_B
      have x4 : x.val ≤ 0.25545 := by norm_num at x2 ⊢; linarith
      by_cases h3 : 0x800000 ≤ x.mb
      · rw [if_pos (by rw [← A, hge]; exact h3)]
        have x3 := c_C.symm.trans_le (le_of_mb (x := bits32 0x800000) (by decide +kernel) hs (by rw [show (bits32 0x800000 : Flt f32).mb = 0x800000 by decide +kernel]; omega))
        rw [one_mul] at x3
        obtain ⟨yf, yv⟩ := ndbl (x := x) xf nf two_neg (by rw [abs_of_nonneg xn, f32_bias]; exact x3) (by rw [abs_of_nonneg xn]; linarith)
        rcases le_or_gt (1 / 2 ^ 60) x.val with h4 | h4
        · obtain ⟨t, ht, w⟩ := em yf (by rw [yv]; norm_num; linarith) (by rw [yv, abs_neg, abs_of_nonneg (by linarith)]; norm_num at h4 ⊢; linarith)
          rw [yv] at w
          refine ⟨_, by rw [ht]; rfl, ?_⟩
          exact (tanh_C tf Expm1f.two_val h4 x4 w).ulp (by norm_num)
        · generalize hy : -2.0 * x = y at *
          have y1 : |y.val| < 1 / 2 ^ 59 := by rw [yv, abs_neg, abs_of_nonneg (by linarith)]; norm_num at h4 ⊢; linarith
          have ym : y.mb < 0x33000000 := by
            by_contra hc
            rw [not_lt] at hc
            have := val_mono (x := y) (y := bits32 0x33000000) (by rw [show (bits32 0x33000000 : Flt f32).mb = 0x33000000 by decide +kernel]; exact hc)
            rw [Expm1f.t_c3, abs_of_pos (a := (_ * _ : ℝ)) (by positivity)] at this
            norm_num at this y1; linarith
          clear hB
          have q : expm1f y = some y := by
            rw [Expm1f.eq', if_neg (by omega), if_neg (by omega), if_neg (by omega), if_neg (by omega), if_pos (by omega)]
          refine ⟨_, by rw [q]; rfl, ?_⟩
          exact ((tanh_tiny xf yf tf Expm1f.two_val yv (by rw [f32_bias]; exact x3) h4.le (by rw [uu_eq]; norm_num)).ulp (by norm_num)).mono (by norm_num)
      · rw [if_neg (by rw [← A, hge]; exact h3)]
        have x3 := (le_of_mb (c := bits32 0x800000) hs (by decide +kernel) (by rw [show (bits32 0x800000 : Flt f32).mb = 0x800000 by decide +kernel]; omega)).trans_eq c_C
        have x6 : x.val ≤ 1 / 2 ^ 100 := by
          rw [one_mul] at x3
          refine x3.trans ?_
          rw [show (1 : ℝ) / 2 ^ 100 = 2 ^ (-100 : ℤ) by norm_num]
          exact zpow_le_zpow_right₀ (by norm_num) (by norm_num)
        refine ⟨x, rfl, ?_⟩
        refine ((Rl.trans (Rl.exact xf) le_rfl (tanh_rel (δ := 1 * uu f32) xn (by linarith) ?_) (by rw [zero_mul, zero_add])).ulp (by norm_num)).mono (by norm_num)
        have := mul_le_mul x6 x6 xn (by positivity)
        rw [uu_eq]
        norm_num at this ⊢
        linarith [show x.val ^ 2 = x.val * x.val by ring]

/-- the largest argument with a finite result -/
theorem le_max {x : Flt f32} (hs : x.sign = false) (h : Real.exp x.val / 2 - 1 < (overflowThreshold f32 : ℝ)) : x.val ≤ (bits32 0x42b2d4fc : Flt f32).val := by
  by_contra hc
  rw [not_le] at hc
  have hm : 0x42b2d4fc < x.mb := by
    by_contra hn
    rw [not_lt] at hn
    have := le_of_mb hs (c := bits32 0x42b2d4fc) (by decide +kernel) (by rw [show (bits32 0x42b2d4fc : Flt f32).mb = 0x42b2d4fc by decide +kernel]; exact hn)
    linarith
  have h3 := c_next.symm.trans_le (le_of_mb (x := bits32 0x42b2d4fd) (by decide +kernel) hs (by rw [show (bits32 0x42b2d4fd : Flt f32).mb = 0x42b2d4fd by decide +kernel]; omega))
  have l2 := Num.log2_lt
  have h4 := Num.two_zpow_lt_exp (n := 129) (t := x.val) (by
    refine lt_of_lt_of_le ?_ h3
    norm_num at l2 ⊢; linarith)
  rw [← thr32] at h
  rw [show (129 : ℤ) = 128 + 1 by norm_num, zpow_add_one₀ (by norm_num)] at h4
  have hp : (2 : ℝ) ^ (100 : ℤ) ≤ 2 ^ (128 : ℤ) := zpow_le_zpow_right₀ (by norm_num) (by norm_num)
  generalize (2 : ℝ) ^ (128 : ℤ) = T at *
  norm_num at hp h
  linarith

theorem sinh_fit {x : Flt f32} (hs : x.sign = false) (h : |Real.sinh x.val| < (overflowThreshold f32 : ℝ)) : x.val ≤ (bits32 0x42b2d4fc : Flt f32).val := by
  refine le_max hs ?_
  have h1 := (le_abs_self _).trans_lt h
  rw [Real.sinh_eq] at h1
  have := Real.exp_le_one_iff.2 (neg_nonpos.2 (val_nonneg hs))
  linarith

theorem cosh_fit {x : Flt f32} (hs : x.sign = false) (h : Real.cosh x.val < (overflowThreshold f32 : ℝ)) : x.val ≤ (bits32 0x42b2d4fc : Flt f32).val := by
  refine le_max hs ?_
  rw [Real.cosh_eq] at h
  linarith [Real.exp_pos (-x.val)]

end HypAf

/-- C67: `sinh` is within 5.4 units in the last place of the hyperbolic sine, for every finite argument whose hyperbolic sine does not
overflow -/
theorem sinh_accurate : AccurateBounded 5.4 sinh Real.sinh := fun x xf hx =>
  OddFn.acc sinh_odd Real.sinh_neg (P := fun t => |Real.sinh t| < (overflowThreshold f64 : ℝ)) (fun t => by rw [Real.sinh_neg, abs_neg])
    (fun _ yf hs h => HypA.sinh_acc yf hs (HypA.sinh_fit hs h)) x xf hx

/-- C67: `sinhf` is within 5.4 units in the last place of the hyperbolic sine, for every finite argument whose hyperbolic sine does not
overflow, except the 150 magnitudes strictly between 88.7216796875 and 88.72283172607421875 (see `sinhf_nan_gap`) -/
theorem sinhf_accurate (x : Flt f32) (xf : x.isFinite) (hx : |Real.sinh (x.toRat : ℝ)| < (overflowThreshold f32 : ℝ))
    (hg : |(x.toRat : ℝ)| ≤ 88.7216796875 ∨ 88.7228317 ≤ |(x.toRat : ℝ)|) :
    ∃ r, sinhf x = some r ∧ WithinUlp 5.4 r (Real.sinh (x.toRat : ℝ)) :=
  OddFn.acc sinhf_odd Real.sinh_neg (P := fun t => |Real.sinh t| < (overflowThreshold f32 : ℝ) ∧ (|t| ≤ 88.7216796875 ∨ 88.7228317 ≤ |t|))
    (fun t => by rw [Real.sinh_neg, abs_neg, abs_neg])
    (fun y yf hs h => HypAf.sinh_acc yf hs (HypAf.sinh_fit hs h.1) (by
      have h2 := h.2
      rw [abs_of_nonneg (val_nonneg hs)] at h2
      refine h2.imp id fun h3 => ?_
      by_contra hc
      have := HypC.le_of_mb hs (c := bits32 0x42b17216) (by decide +kernel) (by rw [show (bits32 0x42b17216 : Flt f32).mb = 0x42b17216 by decide +kernel]; omega)
      rw [HypAf.c_pre] at this
      norm_num at this h3
      linarith)) x xf ⟨hx, hg⟩

/-- C67: strictly between those two bounds `sinhf` returns a NaN: its `expm1f` has already overflowed and it divides infinity by infinity.  The
hyperbolic sine there is finite, about `1.7e38`, half the largest float. -/
theorem sinhf_nan_gap (x : Flt f32) (h1 : 88.7216796875 < |(x.toRat : ℝ)|) (h2 : |(x.toRat : ℝ)| < 88.7228317) :
    (∃ r, sinhf x = some r ∧ r.isNaN) ∧ |Real.sinh (x.toRat : ℝ)| < 2 ^ 127 := by
  change 88.7216796875 < |x.val| at h1
  change |x.val| < 88.7228317 at h2
  change _ ∧ |Real.sinh x.val| < 2 ^ 127
  have m1 : 0x42b17180 < x.mb := by
    by_contra hc
    rw [not_lt] at hc
    have := val_mono (x := Expm1f.oThreshold) (y := x) (by rw [show Expm1f.oThreshold.mb = 0x42b17180 by decide +kernel]; exact hc)
    rw [Expm1f.v_max, abs_of_pos (a := (_ * _ : ℝ)) (by positivity)] at this
    norm_num at this h1
    linarith
  have m2 : x.mb < 0x42b17217 := by
    by_contra hc
    rw [not_lt] at hc
    have := val_mono (x := x) (y := bits32 0x42b17217) (by rw [show (bits32 0x42b17217 : Flt f32).mb = 0x42b17217 by decide +kernel]; exact hc)
    rw [HypAf.c_top, abs_of_pos (a := (_ * _ : ℝ)) (by positivity)] at this
    norm_num at this h2
    linarith
  constructor
  · have xf : x.ab.isFinite := (isFinite32 _).2 (by rw [ab_mb]; omega)
    have av : x.ab.val = |x.val| := ab_val x
    have inf' : x.ab * bits32 0x7f000000 = inf f32 false := by
      have := mul_rne xf (y := bits32 0x7f000000) (by decide +kernel)
      refine Flt.rne_overflow this ?_
      rw [Expm1f.big_val, av, f32_bias]
      norm_num at h1 ⊢; linarith
    have q : expm1f x.ab = some (inf f32 false) := by
      rw [Expm1f.eq', ab_mb, ab_sign, if_neg (by omega), if_neg (by simp), if_pos, inf']
      refine ⟨by omega, ?_⟩
      rw [Flt.lt_iff, ← val_lt_iff]
      refine ⟨by decide +kernel, not_nan_of_finite xf, ?_⟩
      rw [Expm1f.v_max, av]
      norm_num at h1 ⊢; linarith
    rw [Hyp.sinhf_eq, if_pos (by rw [Hyp.u32_lt]; exact m2), q]
    refine ⟨_, rfl, ?_⟩
    dsimp only
    rw [if_neg (by rw [Hyp.u32_lt]; change ¬ x.mb < 0x3f800000; omega)]
    cases x.sign <;> decide +kernel
  · have e : |Real.sinh x.val| = Real.sinh |x.val| := by
      rcases le_or_gt 0 x.val with h | h
      · rw [abs_of_nonneg h, abs_of_nonneg (Real.sinh_nonneg_iff.2 h)]
      · rw [abs_of_neg h, Real.sinh_neg, abs_of_neg (Real.sinh_neg_iff.2 h)]
    have l1 := Num.log2_gt
    have := Num.exp_lt_two_zpow (n := 128) (t := |x.val|) (by norm_num at h2 l1 ⊢; linarith)
    rw [e, Real.sinh_eq]
    have h := Real.exp_pos (-|x.val|)
    norm_num at this ⊢
    linarith

/-- C67: `cosh` is within 3.95 units in the last place of the hyperbolic cosine -/
theorem cosh_accurate : AccurateBelow 3.95 cosh Real.cosh := fun x xf hx =>
  EvenFn.acc cosh_even Real.cosh_neg (P := fun t => Real.cosh t < (overflowThreshold f64 : ℝ)) (fun t => by rw [Real.cosh_neg])
    (fun _ yf hs h => HypA.cosh_acc yf hs (HypA.cosh_fit hs h)) x xf hx

/-- C67 -/
theorem coshf_accurate : AccurateBelow 3.95 coshf Real.cosh := fun x xf hx =>
  EvenFn.acc coshf_even Real.cosh_neg (P := fun t => Real.cosh t < (overflowThreshold f32 : ℝ)) (fun t => by rw [Real.cosh_neg])
    (fun _ yf hs h => HypAf.cosh_acc yf hs (HypAf.cosh_fit hs h)) x xf hx

/-- C67: `tanh` is within 5.7 units in the last place of the hyperbolic tangent, for every finite argument -/
theorem tanh_accurate : AccurateTo 5.7 tanh Real.tanh := fun x xf =>
  OddFn.acc tanh_odd Real.tanh_neg (P := fun _ => True) (fun _ => Iff.rfl) (fun _ yf hs _ => HypA.tanh_acc yf hs) x xf trivial

/-- C67 -/
theorem tanhf_accurate : AccurateTo 5.7 tanhf Real.tanh := fun x xf =>
  OddFn.acc tanhf_odd Real.tanh_neg (P := fun _ => True) (fun _ => Iff.rfl) (fun _ yf hs _ => HypAf.tanh_acc yf hs) x xf trivial

/-- the hypotheses hold of ordinary arguments -/
example : ∃ r, sinh (-one f64) = some r ∧ WithinUlp 5.4 r (Real.sinh (-1)) := by
  have e : (-one f64).val = -1 := by rw [val_neg, val_one]
  have h : Real.exp 1 < 3 := Real.exp_one_lt_d9.trans (by norm_num)
  have := sinh_accurate (-one f64) (by decide +kernel) (by
    change |Real.sinh (-one f64).val| < _
    rw [e, Real.sinh_neg, abs_neg, abs_of_pos (Real.sinh_pos_iff.2 one_pos), Real.sinh_eq]
    have h2 := Real.exp_pos (-1)
    have h3 := hi_std (F := f64)
    refine lt_of_le_of_lt ?_ thr_std
    generalize (2 : ℝ) ^ ((f64.bias : ℕ) : ℤ) = T at *
    linarith)
  change ∃ r, sinh (-one f64) = some r ∧ WithinUlp 5.4 r (Real.sinh (-one f64).val) at this
  rwa [e] at this
example : ∃ r, tanhf (one f32) = some r ∧ WithinUlp 5.7 r (Real.tanh 1) := by
  have e : (one f32).val = 1 := val_one
  have := tanhf_accurate (one f32) isFinite_one
  change ∃ r, tanhf (one f32) = some r ∧ WithinUlp 5.7 r (Real.tanh (one f32).val) at this
  rwa [e] at this

end Verif
