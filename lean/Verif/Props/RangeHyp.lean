import Verif.Props.Range
import Verif.Props.HypAcc
import Verif.Props.AsinAcc

/-! # Ranges: `tanh` stays in `[-1, 1]`, `cosh` from one up, `expm1` from minus one up, `acos` from zero up -/

namespace Verif
open Flt
variable {F : Fmt}

namespace RangeH
open HypC

theorem fin [StdFmt F] {q : ℝ} {r : Flt F} (h : IsRNE q r) (hq : |q| ≤ 2 ^ 90) : r.isFinite := by
  refine (h.fin (hq.trans_lt (lt_of_le_of_lt ?_ thr_std))).1
  have := hi_std (F := F)
  generalize (2 : ℝ) ^ (F.bias : ℤ) = T at *
  norm_num at this ⊢
  linarith

/-- the last step of the hyperbolic tangent -/
theorem tanh_top [StdFmt F] {one two t : Flt F} (of : one.isFinite) (ov : one.val = 1) (tf : two.isFinite) (tv : two.val = 2)
    (wf : t.isFinite) (w0 : 0 ≤ t.val) (w1 : t.val ≤ 2 ^ 80) : (one - two / (t + two)).isFinite ∧ |(one - two / (t + two)).val| ≤ 1 := by
  have h1 := add_rne wf tf
  rw [tv] at h1
  have f1 := fin h1 (by rw [abs_of_nonneg (by linarith)]; norm_num at w1 ⊢; linarith)
  have g1 := h1.ge_of_ge (s := two) f1 tf (by rw [tv]; linarith)
  rw [tv] at g1
  have h2 := div_rne tf f1 (fun h => by rw [isZero_val.1 h] at g1; norm_num at g1)
  rw [tv] at h2
  have q0 : 0 ≤ 2 / (t + two).val := by positivity
  have q1 : 2 / (t + two).val ≤ 1 := by rw [div_le_one (by linarith)]; exact g1
  have f2 := fin h2 (by rw [abs_of_nonneg q0]; exact q1.trans (by norm_num))
  have g2 := h2.le_of_le (s := one) f2 of (by rw [ov]; exact q1)
  have zf : (Flt.zero F false).isFinite := finite_of_zero (by simp)
  have zv : (Flt.zero F false).val = 0 := isZero_val.1 (by simp)
  have g3 := h2.ge_of_ge (s := Flt.zero F false) f2 zf (by rw [zv]; exact q0)
  rw [ov] at g2
  rw [zv] at g3
  have h3 := sub_rne of f2
  rw [ov] at h3
  have q2 : |1 - (two / (t + two)).val| ≤ 1 := by rw [abs_le]; constructor <;> linarith
  have f3 := fin h3 (q2.trans (by norm_num))
  refine ⟨f3, ?_⟩
  have := h3.abs_le (c := one) f3 of (by rw [ov]; exact q2)
  rwa [ov] at this

/-- the last step of the hyperbolic cosine of a small number -/
theorem cosh_low [StdFmt F] {one two t : Flt F} (of : one.isFinite) (ov : one.val = 1) (tf : two.isFinite) (tv : two.val = 2)
    (wf : t.isFinite) (w0 : 0 ≤ t.val) (w1 : t.val ≤ 2) (hr : (one + t * t / (two * (one + t))).isFinite)
    (h4 : ∃ c : Flt F, c.isFinite ∧ c.val = 4) : 1 ≤ (one + t * t / (two * (one + t))).val := by
  obtain ⟨c4, c4f, c4v⟩ := h4
  have zf : (Flt.zero F false).isFinite := finite_of_zero (by simp)
  have zv : (Flt.zero F false).val = 0 := isZero_val.1 (by simp)
  have h1 := mul_rne wf wf
  have s0 := mul_nonneg w0 w0
  have s1 := mul_le_mul w1 w1 w0 (by norm_num)
  have f1 := fin h1 (by rw [abs_of_nonneg s0]; norm_num at s1 ⊢; linarith)
  have g1 := h1.ge_of_ge (s := Flt.zero F false) f1 zf (by rw [zv]; exact s0)
  have g1' := h1.le_of_le (s := c4) f1 c4f (by rw [c4v]; norm_num at s1; linarith)
  rw [zv] at g1
  rw [c4v] at g1'
  have h2 := add_rne of wf
  rw [ov] at h2
  have f2 := fin h2 (by rw [abs_of_nonneg (by linarith)]; norm_num; linarith)
  have g2 := h2.ge_of_ge (s := one) f2 of (by rw [ov]; linarith)
  have g2' := h2.le_of_le (s := c4) f2 c4f (by rw [c4v]; linarith)
  rw [ov] at g2
  rw [c4v] at g2'
  have h3 := mul_rne tf f2
  rw [tv] at h3
  have f3 := fin h3 (by rw [abs_of_nonneg (by linarith)]; norm_num; linarith)
  have g3 := h3.ge_of_ge (s := two) f3 tf (by rw [tv]; linarith)
  rw [tv] at g3
  have h4 := div_rne f1 f3 (fun h => by rw [isZero_val.1 h] at g3; norm_num at g3)
  have q0 : 0 ≤ (t * t).val / (two * (one + t)).val := by positivity
  have q1 : (t * t).val / (two * (one + t)).val ≤ 4 := by
    rw [div_le_iff₀ (by linarith)]; linarith
  have f4 := fin h4 (by rw [abs_of_nonneg q0]; norm_num; linarith)
  have g4 := h4.ge_of_ge (s := Flt.zero F false) f4 zf (by rw [zv]; exact q0)
  rw [zv] at g4
  have h5 := add_rne of f4
  rw [ov] at h5
  have := h5.ge_of_ge (s := one) hr of (by rw [ov]; linarith)
  rwa [ov] at this

theorem ulp_small {t : ℝ} (h : |t| < 1) : ulpAt F t ≤ 1 / 2 ^ 10 := by
  refine (Range.ulp_lt_one h).trans ?_
  rw [show (1 : ℝ) / 2 ^ 10 = 2 ^ (-10 : ℤ) by norm_num]
  exact zpow_le_zpow_right₀ (by norm_num) (by have := F.hsb; omega)

theorem ulp_rel {t : ℝ} (h : 1 ≤ t) : ulpAt F t ≤ t / 2 ^ 10 := by
  unfold ulpAt
  rw [if_neg (by linarith), abs_of_pos (by linarith)]
  have h0 : 0 ≤ Int.log 2 t := by
    rw [← Int.zpow_le_iff_le_log (by norm_num) (by linarith)]; simpa using h
  have hb : (1 : ℤ) - F.bias ≤ 0 := by
    have : 1 ≤ F.bias := by
      unfold Fmt.bias
      have := Nat.pow_le_pow_right (n := 2) (by norm_num) (show 4 ≤ F.ew - 1 by have := F.hew; omega)
      omega
    omega
  rw [max_eq_left (by omega)]
  have h1 : ((2 : ℕ) : ℝ) ^ Int.log 2 t ≤ t := Int.zpow_log_le_self (by norm_num) (by linarith)
  push_cast at h1
  have h2 : (2 : ℝ) ^ (Int.log 2 t - (F.sb : ℤ)) ≤ 2 ^ (Int.log 2 t) * (1 / 2 ^ 10) := by
    rw [show (1 / 2 ^ 10 : ℝ) = 2 ^ (-10 : ℤ) by norm_num, ← zpow_add₀ (by norm_num)]
    exact zpow_le_zpow_right₀ (by norm_num) (by have := F.hsb; omega)
  linarith

/-- a small tangent -/
theorem tanh_low {r : Flt F} {t : ℝ} (h : WithinUlp 5.7 r t) (ht : |t| ≤ 0.9) : |r.val| ≤ 1 := by
  have h2 := (WithinUlp.def'.1 h).2
  have h3 := ulp_small (F := F) (t := t) (by linarith)
  have h4 : |r.val| ≤ |r.val - t| + |t| := by simpa using abs_add_le (r.val - t) t
  norm_num at h2 h3
  linarith

theorem abs_tanh_le {X : ℝ} (h0 : 0 ≤ X) (h1 : X ≤ 1) : |Real.tanh X| ≤ 0.9 := by
  have e1 : Real.exp X ≤ 3 := (Real.exp_le_exp.2 h1).trans (Real.exp_one_lt_d9.le.trans (by norm_num))
  have e2 := Real.exp_pos X
  have e3 : Real.exp (-X) * Real.exp X = 1 := by rw [← Real.exp_add]; simp
  have e4 : 1 ≤ Real.exp X := Real.one_le_exp h0
  have e5 : 1 / 3 ≤ Real.exp (-X) := by
    rw [Real.exp_neg, one_div]; exact inv_anti₀ e2 e1
  have e6 : Real.exp (-X) ≤ 1 := Real.exp_le_one_iff.2 (by linarith)
  rw [Real.tanh_eq_sinh_div_cosh, abs_div, abs_of_pos (Real.cosh_pos X), div_le_iff₀ (Real.cosh_pos X), abs_of_nonneg (Real.sinh_nonneg_iff.2 h0),
    Real.sinh_eq, Real.cosh_eq]
  norm_num
  linarith

theorem exp42 {X : ℝ} (h : X ≤ 42) : Real.exp X ≤ 2 ^ 70 := by
  have h1 : Real.exp X ≤ Real.exp 1 ^ 42 := by
    rw [← Real.exp_nat_mul]; exact Real.exp_le_exp.2 (by push_cast; linarith)
  have h2 : Real.exp 1 ^ 42 ≤ 3 ^ 42 := pow_le_pow_left₀ (Real.exp_pos _).le (Real.exp_one_lt_d9.le.trans (by norm_num)) 42
  exact (h1.trans h2).trans (by norm_num)

theorem exp07 {X : ℝ} (h : X ≤ 0.7) : Real.exp X ≤ 2.72 :=
  (Real.exp_le_exp.2 (show X ≤ 1 by linarith)).trans (Real.exp_one_lt_d9.le.trans (by norm_num))

/-- a hyperbolic cosine away from the origin -/
theorem cosh_high {r : Flt F} {X : ℝ} (h : WithinUlp 3.95 r (Real.cosh X)) (hX : 0.69 ≤ X) : 1 ≤ r.val := by
  have h2 := (WithinUlp.def'.1 h).2
  have h3 := ulp_rel (F := F) (Real.one_le_cosh X)
  have h4 : 1.2 ≤ Real.cosh X := by
    have h6 := Real.cosh_sq X
    have h7 : X ≤ Real.sinh X := Real.self_le_sinh_iff.2 (by linarith)
    have h8 := mul_le_mul (hX.trans h7) (hX.trans h7) (by norm_num) (by linarith)
    nlinarith [Real.one_le_cosh X]
  have h5 := (abs_le.1 h2).1
  norm_num at h3 h4 h5
  linarith

/-- the value of `expm1` of a positive number that is not tiny -/
theorem em_range [StdFmt F] {t : Flt F} {X : ℝ} (h0 : 0 ≤ X) (h : X ≤ 42) (w : Rl t (Real.exp X - 1) (2.9 * uu F)) :
    t.isFinite ∧ 0 ≤ t.val ∧ t.val ≤ 2 ^ 80 ∧ t.val ≤ 1.1 * (Real.exp X - 1) := by
  have hu : 2.9 * uu F ≤ 0.1 := by
    rcases StdFmt.out (F := F) with rfl | rfl
    · rw [HypA.uu_eq]; norm_num
    · rw [HypAf.uu_eq]; norm_num
  have hE : 0 ≤ Real.exp X - 1 := by have := Real.one_le_exp h0; linarith
  have he := exp42 h
  have := w.err
  rw [abs_of_nonneg hE] at this
  have h1 := mul_le_mul_of_nonneg_right hu hE
  have h2 := abs_le.1 (this.trans h1)
  refine ⟨w.fin, by linarith [h2.1], ?_, by linarith [h2.2]⟩
  norm_num at he ⊢
  linarith [h2.2]

theorem tanh_pos64 {x : Flt f64} (xf : x.isFinite) (hs : x.sign = false) : ∃ r, tanh x = some r ∧ r.isFinite ∧ |r.val| ≤ 1 := by
  have xn := val_nonneg hs
  have of : (1.0 : Flt f64).isFinite := by decide +kernel
  have tf : (2.0 : Flt f64).isFinite := by decide +kernel
  have zf : (0.0 : Flt f64).isFinite := by decide +kernel
  have zv : (0.0 : Flt f64).val = 0 := isZero_val.1 (by decide +kernel)
  have hB := hi_std (F := f64)
  have A := ab_of_pos hs
  by_cases h1 : 0x3fe193eb * 2 ^ 32 ≤ x.mb
  · rw [Hyp.tanh_eq, hs, ab_of_pos hs]
    suffices ∃ r, Hyp.tanhA x = some r ∧ r.isFinite ∧ |r.val| ≤ 1 by
      obtain ⟨r, h1, h2⟩ := this
      exact ⟨r, by rw [h1]; simp [Flt.flip], h2⟩
    unfold Hyp.tanhA
    dsimp only
    rw [if_pos (by rw [← A, Hyp.hi_gt]; exact h1)]
    have x1 := HypA.c_A.symm.trans_le (le_of_mb (x := bits64 0x3fe193eb00000000) (by decide +kernel) hs (by rw [show (bits64 0x3fe193eb00000000 : Flt f64).mb = 0x3fe193eb00000000 by decide +kernel]; omega))
    by_cases h2 : 0x40340001 * 2 ^ 32 ≤ x.mb
    · rw [if_pos (by rw [← A, Hyp.hi_gt]; exact h2)]
      have x3 : 0 < x.val := by norm_num at x1 ⊢; linarith
      obtain ⟨df, dv⟩ := (div_rne zf xf (fun h => by rw [isZero_val.1 h] at x3; norm_num at x3)).exact_real (z := 0.0) zf (by rw [zv, zero_div])
      rw [zv, zero_div] at dv
      obtain ⟨sf, sv⟩ := (sub_rne of df).exact_real (z := 1.0) of (by rw [dv]; norm_num)
      exact ⟨_, rfl, sf, by rw [sv, dv, Expm1.one_val]; norm_num⟩
    · rw [if_neg (by rw [← A, Hyp.hi_gt]; exact h2)]
      have x2 := (le_of_mb (c := bits64 0x4034000100000000) hs (by decide +kernel) (by rw [show (bits64 0x4034000100000000 : Flt f64).mb = 0x4034000100000000 by decide +kernel]; omega)).trans_eq HypA.c_L
      have x3 : x.val ≤ 21 := by norm_num at x2 ⊢; linarith
      have x4 : 0.5493 ≤ x.val := by norm_num at x1 ⊢; linarith
      obtain ⟨yf, yv⟩ := dbl (x := x) xf tf Expm1.two_val (by rw [abs_of_nonneg xn]; norm_num at x4 ⊢; linarith) (by rw [abs_of_nonneg xn]; linarith)
      obtain ⟨t, ht, w⟩ := HypA.em yf (by rw [yv]; norm_num; linarith) (by rw [yv, abs_of_nonneg (by linarith)]; norm_num at x4 ⊢; linarith)
      rw [yv] at w
      obtain ⟨e1, e2, e3, -⟩ := em_range (by linarith) (by linarith) w
      exact ⟨_, by rw [ht]; rfl, tanh_top of Expm1.one_val tf Expm1.two_val e1 e2 e3⟩
  · have x1 := (le_of_mb (c := bits64 0x3fe193eb00000000) hs (by decide +kernel) (by rw [show (bits64 0x3fe193eb00000000 : Flt f64).mb = 0x3fe193eb00000000 by decide +kernel]; omega)).trans_eq HypA.c_A
    obtain ⟨r, hr, w⟩ := HypA.tanh_acc xf hs
    exact ⟨r, hr, w.1, tanh_low w (abs_tanh_le xn (by norm_num at x1 ⊢; linarith))⟩

theorem tanh_pos32 {x : Flt f32} (xf : x.isFinite) (hs : x.sign = false) : ∃ r, tanhf x = some r ∧ r.isFinite ∧ |r.val| ≤ 1 := by
  have xn := val_nonneg hs
  have of : (1.0 : Flt f32).isFinite := by decide +kernel
  have tf : (2.0 : Flt f32).isFinite := by decide +kernel
  have zf : (0.0 : Flt f32).isFinite := by decide +kernel
  have zv : (0.0 : Flt f32).val = 0 := isZero_val.1 (by decide +kernel)
  have hB := hi_std (F := f32)
  have A := ab_of_pos hs
  by_cases h1 : 0x3f0c9f54 < x.mb
  · rw [Hyp.tanhf_eq, hs, ab_of_pos hs]
    suffices ∃ r, Hyp.tanhfA x = some r ∧ r.isFinite ∧ |r.val| ≤ 1 by
      obtain ⟨r, h1, h2⟩ := this
      exact ⟨r, by rw [h1]; simp [Flt.flip], h2⟩
    unfold Hyp.tanhfA
    dsimp only
    rw [if_pos (by rw [← A, Hyp.u32_gt]; exact h1)]
    have x1 := HypAf.c_A.symm.trans_le (le_of_mb (x := bits32 0x3f0c9f55) (by decide +kernel) hs (by rw [show (bits32 0x3f0c9f55 : Flt f32).mb = 0x3f0c9f55 by decide +kernel]; omega))
    by_cases h2 : 0x41200000 < x.mb
    · rw [if_pos (by rw [← A, Hyp.u32_gt]; exact h2)]
      have x3 : 0 < x.val := by norm_num at x1 ⊢; linarith
      obtain ⟨df, dv⟩ := (div_rne zf xf (fun h => by rw [isZero_val.1 h] at x3; norm_num at x3)).exact_real (z := 0.0) zf (by rw [zv, zero_div])
      rw [zv, zero_div] at dv
      obtain ⟨sf, sv⟩ := (add_rne of df).exact_real (z := 1.0) of (by rw [dv]; norm_num)
      exact ⟨_, rfl, sf, by rw [sv, dv, Expm1f.one_val]; norm_num⟩
    · rw [if_neg (by rw [← A, Hyp.u32_gt]; exact h2)]
      have x2 := (le_of_mb (c := bits32 0x41200001) hs (by decide +kernel) (by rw [show (bits32 0x41200001 : Flt f32).mb = 0x41200001 by decide +kernel]; omega)).trans_eq HypAf.c_L
      have x3 : x.val ≤ 21 := by norm_num at x2 ⊢; linarith
      have x4 : 0.5493 ≤ x.val := by norm_num at x1 ⊢; linarith
      obtain ⟨yf, yv⟩ := dbl (x := x) xf tf Expm1f.two_val (by rw [abs_of_nonneg xn]; norm_num at x4 ⊢; linarith) (by rw [abs_of_nonneg xn]; linarith)
      obtain ⟨t, ht, w⟩ := HypAf.em yf (by rw [yv]; norm_num; linarith) (by rw [yv, abs_of_nonneg (by linarith)]; norm_num at x4 ⊢; linarith)
      rw [yv] at w
      obtain ⟨e1, e2, e3, -⟩ := em_range (by linarith) (by linarith) w
      exact ⟨_, by rw [ht]; rfl, tanh_top of Expm1f.one_val tf Expm1f.two_val e1 e2 e3⟩
  · have x1 := (le_of_mb (c := bits32 0x3f0c9f55) hs (by decide +kernel) (by rw [show (bits32 0x3f0c9f55 : Flt f32).mb = 0x3f0c9f55 by decide +kernel]; omega)).trans_eq HypAf.c_A
    obtain ⟨r, hr, w⟩ := HypAf.tanh_acc xf hs
    exact ⟨r, hr, w.1, tanh_low w (abs_tanh_le xn (by norm_num at x1 ⊢; linarith))⟩

theorem odd_unit {f : Flt F → Option (Flt F)} (ho : OddFn f)
    (h : ∀ x : Flt F, x.isFinite → x.sign = false → ∃ r, f x = some r ∧ r.isFinite ∧ |r.val| ≤ 1) : StaysInUnit f := by
  intro x xf
  cases hs : x.sign
  · obtain ⟨r, h1, h2, h3⟩ := h x xf hs
    exact ⟨r, h1, h2, Range.abs_rat h3⟩
  · obtain ⟨r, hr, w1, w2⟩ := h (-x) ((Flt.isFinite_neg x).2 xf) (by rw [Flt.sign_neg, hs]; rfl)
    obtain ⟨a, b, ha, hb, hab⟩ := ho x (not_nan_of_finite xf)
    rw [hr] at hb
    obtain rfl := Option.some.inj hb
    rcases hab with hab | hab
    · subst hab
      rw [val_neg, abs_neg] at w2
      exact ⟨a, ha, (Flt.isFinite_neg a).1 w1, Range.abs_rat w2⟩
    · exact absurd hab.2 (not_nan_of_finite w1)

theorem cosh_pos64 {x : Flt f64} (xf : x.isFinite) (hs : x.sign = false) (hx : Real.cosh x.val < (overflowThreshold f64 : ℝ)) :
    ∃ r, cosh x = some r ∧ r.isFinite ∧ 1 ≤ r.val := by
  have xn := val_nonneg hs
  have of : (1.0 : Flt f64).isFinite := by decide +kernel
  have tf : (2.0 : Flt f64).isFinite := by decide +kernel
  obtain ⟨r, hr, w⟩ := HypA.cosh_acc xf hs (HypA.cosh_fit hs hx)
  refine ⟨r, hr, w.1, ?_⟩
  rw [HypA.cosh_eq, ab_of_pos hs] at hr
  by_cases h1 : x.mb < 0x3fe62e42 * 2 ^ 32
  · rw [if_pos h1] at hr
    have x1 := (le_of_mb (c := bits64 0x3fe62e4200000000) hs (by decide +kernel) (by rw [show (bits64 0x3fe62e4200000000 : Flt f64).mb = 0x3fe62e4200000000 by decide +kernel]; omega)).trans_eq HypA.c_half
    by_cases h3 : x.mb < 0x3e500000 * 2 ^ 32
    · rw [if_pos h3] at hr
      rw [← Option.some.inj hr, Expm1.one_val]
    · rw [if_neg h3] at hr
      have x2 := HypA.c_lo.symm.trans_le (le_of_mb (x := bits64 0x3e50000000000000) (by decide +kernel) hs (by rw [show (bits64 0x3e50000000000000 : Flt f64).mb = 0x3e50000000000000 by decide +kernel]; omega))
      have x3 : 1 / 2 ^ 30 ≤ x.val := by norm_num at x2 ⊢; linarith
      obtain ⟨t, ht, w'⟩ := HypA.em xf (by norm_num at x1 ⊢; linarith) (by rw [abs_of_nonneg xn]; norm_num at x3 ⊢; linarith)
      have x4 : x.val ≤ 0.7 := by norm_num at x1 ⊢; linarith
      obtain ⟨e1, e2, -, e4⟩ := em_range xn (by linarith) w'
      have e5 := exp07 x4
      rw [ht] at hr
      have hr' := Option.some.inj hr
      have wf := w.1
      rw [← hr'] at wf ⊢
      exact cosh_low of Expm1.one_val tf Expm1.two_val e1 e2 (by linarith) wf ⟨4.0, by decide +kernel, by
        rw [val_const64 (x := (4.0 : Flt f64)) 1 1076 2 (by decide +kernel) (by norm_num)]; norm_num⟩
  · have x1 := HypA.c_half.symm.trans_le (le_of_mb (x := bits64 0x3fe62e4200000000) (by decide +kernel) hs (by rw [show (bits64 0x3fe62e4200000000 : Flt f64).mb = 0x3fe62e4200000000 by decide +kernel]; omega))
    exact cosh_high w (by norm_num at x1 ⊢; linarith)

theorem cosh_pos32 {x : Flt f32} (xf : x.isFinite) (hs : x.sign = false) (hx : Real.cosh x.val < (overflowThreshold f32 : ℝ)) :
    ∃ r, coshf x = some r ∧ r.isFinite ∧ 1 ≤ r.val := by
  have xn := val_nonneg hs
  have of : (1.0 : Flt f32).isFinite := by decide +kernel
  have tf : (2.0 : Flt f32).isFinite := by decide +kernel
  obtain ⟨r, hr, w⟩ := HypAf.cosh_acc xf hs (HypAf.cosh_fit hs hx)
  refine ⟨r, hr, w.1, ?_⟩
  rw [HypAf.cosh_eq, ab_of_pos hs] at hr
  by_cases h1 : x.mb < 0x3f317217
  · rw [if_pos h1] at hr
    have x1 := (le_of_mb (c := bits32 0x3f317217) hs (by decide +kernel) (by rw [show (bits32 0x3f317217 : Flt f32).mb = 0x3f317217 by decide +kernel]; omega)).trans_eq HypAf.c_half
    by_cases h3 : x.mb < 0x39800000
    · rw [if_pos h3] at hr
      rw [← Option.some.inj hr, Expm1f.one_val]
    · rw [if_neg h3] at hr
      have x2 := HypAf.c_lo.symm.trans_le (le_of_mb (x := bits32 0x39800000) (by decide +kernel) hs (by rw [show (bits32 0x39800000 : Flt f32).mb = 0x39800000 by decide +kernel]; omega))
      have x3 : 1 / 2 ^ 30 ≤ x.val := by norm_num at x2 ⊢; linarith
      obtain ⟨t, ht, w'⟩ := HypAf.em xf (by norm_num at x1 ⊢; linarith) (by rw [abs_of_nonneg xn]; norm_num at x3 ⊢; linarith)
      have x4 : x.val ≤ 0.7 := by norm_num at x1 ⊢; linarith
      obtain ⟨e1, e2, -, e4⟩ := em_range xn (by linarith) w'
      have e5 := exp07 x4
      rw [ht] at hr
      have hr' := Option.some.inj hr
      have wf := w.1
      rw [← hr'] at wf ⊢
      exact cosh_low of Expm1f.one_val tf Expm1f.two_val e1 e2 (by linarith) wf ⟨4.0, by decide +kernel, by
        rw [val_const32 (x := (4.0 : Flt f32)) 1 151 2 (by decide +kernel) (by norm_num)]; norm_num⟩
  · have x1 := HypAf.c_half.symm.trans_le (le_of_mb (x := bits32 0x3f317217) (by decide +kernel) hs (by rw [show (bits32 0x3f317217 : Flt f32).mb = 0x3f317217 by decide +kernel]; omega))
    exact cosh_high w (by norm_num at x1 ⊢; linarith)

/-- `expm1` at `t`, above minus one -/
theorem em_low64 {r : Flt f64} {t : ℝ} (h : WithinUlp 1.45 r t) (ht : -1 < t) : -1 ≤ r.val := by
  have h2 := (WithinUlp.def'.1 h).2
  rcases lt_or_ge t 1 with h1 | h1
  · by_contra hc
    have h5 := Range.above64 (r := r) (by rw [abs_of_neg (by linarith)]; linarith)
    rw [abs_of_neg (by linarith)] at h5
    have h3 := Range.ulp_lt_one (F := f64) (abs_lt.2 ⟨ht, h1⟩)
    rw [show -1 - ((f64.sb : ℕ) : ℤ) = -53 by decide] at h3
    have h6 := (abs_le.1 h2).1
    norm_num at h5 h3 h6
    linarith
  · have h3 := ulp_rel (F := f64) h1
    have h6 := (abs_le.1 h2).1
    norm_num at h3 h6
    linarith

theorem em_low32 {r : Flt f32} {t : ℝ} (h : WithinUlp 1.45 r t) (ht : -1 < t) : -1 ≤ r.val := by
  have h2 := (WithinUlp.def'.1 h).2
  rcases lt_or_ge t 1 with h1 | h1
  · by_contra hc
    have h5 := Range.above32 (r := r) (by rw [abs_of_neg (by linarith)]; linarith)
    rw [abs_of_neg (by linarith)] at h5
    have h3 := Range.ulp_lt_one (F := f32) (abs_lt.2 ⟨ht, h1⟩)
    rw [show -1 - ((f32.sb : ℕ) : ℤ) = -24 by decide] at h3
    have h6 := (abs_le.1 h2).1
    norm_num at h5 h3 h6
    linarith
  · have h3 := ulp_rel (F := f32) h1
    have h6 := (abs_le.1 h2).1
    norm_num at h3 h6
    linarith

theorem rat_ge {r : Flt F} {q : ℚ} (h : (q : ℝ) ≤ r.val) : q ≤ r.toRat := by
  have : (q : ℝ) ≤ ((r.toRat : ℚ) : ℝ) := h
  exact_mod_cast this

end RangeH

/-- C73 for `tanh` -/
theorem tanh_range : StaysInUnit tanh := RangeH.odd_unit tanh_odd fun _ => RangeH.tanh_pos64
/-- C73 for `tanhf` -/
theorem tanhf_range : StaysInUnit tanhf := RangeH.odd_unit tanhf_odd fun _ => RangeH.tanh_pos32

/-- For every finite argument at which the exact value `g x` does not round to infinity, the result is finite and at least `q`. -/
def AtLeast (q : ℚ) (f : Flt F → Option (Flt F)) (g : ℝ → ℝ) : Prop :=
  ∀ x : Flt F, x.isFinite → g ((x.toRat : ℚ) : ℝ) < ((overflowThreshold F : ℚ) : ℝ) → ∃ r, f x = some r ∧ r.isFinite ∧ q ≤ r.toRat

namespace RangeH

theorem even_ge {f : Flt F → Option (Flt F)} (ho : EvenFn f)
    (h : ∀ x : Flt F, x.isFinite → x.sign = false → Real.cosh x.val < (overflowThreshold F : ℝ) → ∃ r, f x = some r ∧ r.isFinite ∧ 1 ≤ r.val) :
    AtLeast 1 f Real.cosh := by
  intro x xf hx
  cases hs : x.sign
  · obtain ⟨r, h1, h2, h3⟩ := h x xf hs hx
    exact ⟨r, h1, h2, rat_ge (by push_cast; exact h3)⟩
  · obtain ⟨r, hr, w1, w2⟩ := h (-x) ((Flt.isFinite_neg x).2 xf) (by rw [Flt.sign_neg, hs]; rfl) (by rw [val_neg, Real.cosh_neg]; exact hx)
    obtain ⟨a, b, ha, hb, hab⟩ := ho x (not_nan_of_finite xf)
    rw [hr] at hb
    obtain rfl := Option.some.inj hb
    rcases hab with hab | hab
    · subst hab
      exact ⟨_, ha, w1, rat_ge (by push_cast; exact w2)⟩
    · exact absurd hab.2 (not_nan_of_finite w1)

end RangeH

/-- C73 for `cosh` -/
theorem cosh_range : AtLeast 1 cosh Real.cosh := RangeH.even_ge cosh_even fun _ => RangeH.cosh_pos64
/-- C73 for `coshf` -/
theorem coshf_range : AtLeast 1 coshf Real.cosh := RangeH.even_ge coshf_even fun _ => RangeH.cosh_pos32

/-- C73 for `expm1` -/
theorem expm1_range : AtLeast (-1) expm1 (fun t => Real.exp t - 1) := by
  intro x xf hx
  obtain ⟨r, h1, h2⟩ := expm1_accurate x xf hx
  exact ⟨r, h1, h2.1, RangeH.rat_ge (by push_cast; exact RangeH.em_low64 h2 (by have := Real.exp_pos ((x.toRat : ℚ) : ℝ); linarith))⟩

/-- C73 for `expm1f`, up to its own overflow threshold -/
theorem expm1f_range (x : Flt f32) (xf : x.isFinite) (hx : (x.toRat : ℝ) ≤ 88.7216796875) :
    ∃ r, expm1f x = some r ∧ r.isFinite ∧ -1 ≤ r.toRat := by
  obtain ⟨r, h1, h2⟩ := expm1f_accurate x xf hx
  exact ⟨r, h1, h2.1, RangeH.rat_ge (by push_cast; exact RangeH.em_low32 h2 (by have := Real.exp_pos ((x.toRat : ℚ) : ℝ); linarith))⟩

namespace RangeH

theorem arccos_lb {y d : ℝ} (h1 : -1 ≤ y) (h : y ≤ 1 - d) (hd : 0 ≤ d) : d ≤ Real.arccos y ^ 2 := by
  have h2 := Real.one_sub_sq_div_two_le_cos (x := Real.arccos y)
  rw [Real.cos_arccos h1 (by linarith)] at h2
  nlinarith [_root_.sq_nonneg (Real.arccos y)]

theorem acos_sign {f : Flt F → Option (Flt F)}
    (ha : ∀ x : Flt F, 0 < x.val → x.val ≠ 1 → 1 + 1 / 2 ^ 53 ≤ x.val ∨ x.val ≤ 1 - 1 / 2 ^ 53)
    (hf : (2 : ℝ) ^ (1 - (F.bias : ℤ) - F.sb) ≤ 2 ^ (-100 : ℤ)) (h : AccurateOnUnit 0.99 f Real.arccos)
    (x : Flt F) (xf : x.isFinite) (hx : |x.toRat| ≤ 1) : ∃ r, f x = some r ∧ r.isFinite ∧ 0 ≤ r.toRat ∧ (r.toRat = 0 ↔ x.toRat = 1) := by
  have hv : |x.val| ≤ 1 := by show |((x.toRat : ℚ) : ℝ)| ≤ 1; exact_mod_cast hx
  have hv' := abs_le.1 hv
  obtain ⟨r, h1, h2⟩ := h x xf hv
  obtain ⟨s1, s2, s3⟩ := Range.sign_of h2 fun hne => by
    have hn1 : x.val ≠ 1 := by
      intro h
      have h' : ((x.toRat : ℚ) : ℝ) = 1 := h
      exact hne (by rw [h', Real.arccos_one])
    have hd : x.val ≤ 1 - 1 / 2 ^ 53 := by
      rcases le_or_gt x.val 0 with h0 | h0
      · norm_num; linarith
      · rcases ha x h0 hn1 with h | h
        · norm_num at h; linarith [hv'.2]
        · exact h
    have hl := arccos_lb hv'.1 hd (by norm_num)
    have hp := Real.arccos_nonneg x.val
    refine Range.mul_ulpAt_lt (by norm_num) (by norm_num) ?_
    change _ < |Real.arccos x.val|
    rw [abs_of_nonneg hp]
    refine lt_of_le_of_lt (mul_le_mul_of_nonneg_left hf (by norm_num)) ?_
    by_contra hc
    rw [not_lt] at hc
    have := mul_le_mul hc hc hp (by norm_num)
    norm_num at this hl
    nlinarith
  refine ⟨r, h1, h2.1, ?_, s2.trans ?_⟩
  · by_contra hc
    exact absurd (s3.1 (not_le.1 hc)) (not_lt.2 (Real.arccos_nonneg _))
  · rw [Real.arccos_eq_zero]
    have h3 : x.toRat ≤ 1 := (abs_le.1 hx).2
    constructor
    · intro h
      exact le_antisymm h3 (by exact_mod_cast h)
    · intro h
      rw [h]; norm_num

end RangeH

/-- C73 for `acos`: never negative, and zero exactly at one -/
theorem acos_range (x : Flt f64) (xf : x.isFinite) (hx : |x.toRat| ≤ 1) :
    ∃ r, acos x = some r ∧ r.isFinite ∧ 0 ≤ r.toRat ∧ (r.toRat = 0 ↔ x.toRat = 1) :=
  RangeH.acos_sign (fun _ => Range.away64) Range.fmt64 acos_accurate x xf hx
/-- C73 for `acosf` -/
theorem acosf_range (x : Flt f32) (xf : x.isFinite) (hx : |x.toRat| ≤ 1) :
    ∃ r, acosf x = some r ∧ r.isFinite ∧ 0 ≤ r.toRat ∧ (r.toRat = 0 ↔ x.toRat = 1) :=
  RangeH.acos_sign (fun _ => Range.away32) Range.fmt32 acosf_accurate x xf hx

/-- arguments to which these apply -/
example : (bits64 0x4033000000000000 : Flt f64).isFinite ∧ (bits64 0x3fefffffffffffff : Flt f64).isFinite ∧
    |(bits64 0x3fefffffffffffff : Flt f64).toRat| ≤ 1 ∧ (bits64 0x3fefffffffffffff : Flt f64).toRat ≠ 1 := by decide +kernel
example : Real.cosh (((one f64).toRat : ℚ) : ℝ) < ((overflowThreshold f64 : ℚ) : ℝ) := by
  change Real.cosh (one f64).val < _
  rw [val_one, Real.cosh_eq]
  have h := Real.exp_one_lt_d9
  have h1 : Real.exp (-1) ≤ 1 := Real.exp_le_one_iff.2 (by norm_num)
  have h3 := hi_std (F := f64)
  refine lt_of_le_of_lt ?_ thr_std
  generalize (2 : ℝ) ^ ((f64.bias : ℕ) : ℤ) = T at *
  norm_num at h h3 ⊢
  linarith

end Verif
