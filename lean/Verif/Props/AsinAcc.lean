import Verif.Theory.AsinBig

/-!
# `asin`, `acos`, `asinf`, `acosf`: accuracy on the whole interval from -1 to 1
-/

namespace Verif
open Flt InvTrig

theorem arcsin_flip {F : Fmt} {c : ℝ} {r x : Flt F} (h : WithinUlp c r (Real.arcsin |x.val|)) : WithinUlp c (flip x.sign r) (Real.arcsin x.val) :=
  WithinUlp.flip (g := Real.arcsin) Real.arcsin_neg h


namespace Asin
theorem one_mb {x : Flt f64} (h : |x.val| ≤ 1) : x.mb ≤ 0x3ff0000000000000 := by
  have ov : (one f64).val = 1 := by rw [val_const64 1 1074 0 (by decide +kernel) (by norm_num)]; norm_num
  have := mb_le_of_val (x := one f64) (c := x) (by rw [ov, abs_one]; exact h)
  exact this.trans (by decide +kernel)
theorem ends {x : Flt f64} (h : x.mb = 0x3ff0000000000000) : x = one f64 ∨ x = -one f64 := by
  rcases hs : x.sign with _ | _
  · left; exact ext_mb (hs.trans (by decide +kernel)) (h.trans (by decide +kernel))
  · right; exact ext_mb (hs.trans (by decide +kernel)) (h.trans (by decide +kernel))
theorem one_val : (one f64).val = 1 := by rw [val_const64 1 1074 0 (by decide +kernel) (by norm_num)]; norm_num
theorem pi_val : (2.0 * pio2Hi + bits64 0x3870000000000000 : Flt f64).isFinite ∧ (2.0 * pio2Hi + bits64 0x3870000000000000 : Flt f64).val = 2 * pio2Hi.val := by
  refine ⟨by decide +kernel, ?_⟩
  have e : (2.0 * pio2Hi + bits64 0x3870000000000000 : Flt f64) = 2.0 * pio2Hi := by decide +kernel
  rw [e]
  have hv := pio2Hi_val
  exact (dbl hi_fin (by rw [hv, abs_of_pos (by positivity)]; norm_num) (by rw [hv, abs_of_pos (by positivity)]; norm_num)).2
/-- `acos` of minus one -/
theorem acos_neg_one : WithinUlp 0.99 (2.0 * pio2Hi + bits64 0x3870000000000000 : Flt f64) (Real.arccos (-1)) := by
  rw [Real.arccos_neg_one]
  have p1 := Real.pi_gt_d20
  have p2 := Real.pi_lt_d20
  refine WithinUlp.of_abs 1 pi_val.1 (by rw [abs_of_pos Real.pi_pos]; norm_num at p1 ⊢; linarith) (a := 0.99 * 2 ^ (1 - 52 : ℤ)) ?_ (by rw [f64_sb]; norm_num) (by norm_num)
  rw [pi_val.2, pio2Hi_val, abs_le]
  norm_num at p1 p2 ⊢
  constructor <;> linarith
/-- `acos` of tiny arguments -/
theorem acos_tiny {X : ℝ} (h : |X| ≤ 2 ^ (-55 : ℤ)) : WithinUlp 0.99 (pio2Hi + bits64 0x3870000000000000 : Flt f64) (Real.arccos X) := by
  have e : (pio2Hi + bits64 0x3870000000000000 : Flt f64) = pio2Hi := by decide +kernel
  rw [e, Real.arccos]
  have p1 := Real.pi_gt_d20
  have p2 := Real.pi_lt_d20
  have hX : |X| ≤ 1 / 2 := h.trans (by norm_num)
  have a1 := abs_le.1 (arcsin_le_c hX)
  norm_num at h p1 p2 a1
  have t : 1 ≤ Real.pi / 2 - Real.arcsin X := by linarith [a1.2]
  refine WithinUlp.of_abs 0 hi_fin (by rw [abs_of_pos (by linarith)]; norm_num; linarith) (a := 0.99 * 2 ^ (0 - 52 : ℤ)) ?_ (by rw [f64_sb]; norm_num) (by norm_num)
  rw [pio2Hi_val, abs_le]
  norm_num
  constructor <;> linarith [a1.1, a1.2]

theorem tv : (bits64 0x3e50000000000000).val = 2 ^ (-26 : ℤ) := by
  rw [val_const64 1 1048 (-26) (by decide +kernel) (by norm_num)]; norm_num
theorem sv : (bits64 0x0010000000000000).val = 2 ^ (-1022 : ℤ) := by
  rw [val_const64 1 52 (-1022) (by decide +kernel) (by norm_num), Int.cast_one, one_mul]
theorem hv : (bits64 0x3fe0000000000000).val = 1 / 2 := by
  rw [val_const64 1 1073 (-1) (by decide +kernel) (by norm_num)]; norm_num
theorem ge_c {x c : Flt f64} {v : ℝ} (hc : c.val = v) (h0 : 0 < v) (h : c.mb ≤ x.mb) : v ≤ |x.val| := by
  have := abs_val_mono h
  rwa [hc, abs_of_pos h0] at this
theorem le_c {x c : Flt f64} {v : ℝ} (hc : c.val = v) (h0 : 0 < v) (h : x.mb ≤ c.mb) : |x.val| ≤ v := by
  have := abs_val_mono h
  rwa [hc, abs_of_pos h0] at this
theorem lt_c {x c : Flt f64} {v : ℝ} (hc : c.val = v) (h0 : 0 < v) (h : x.mb < c.mb) : |x.val| < v := by
  have h1 := le_c hc h0 h.le
  refine lt_of_le_of_ne h1 fun he => ?_
  have := mb_le_of_val (x := x) (c := c) (by rw [hc, he, abs_of_pos h0])
  omega
end Asin

/-- asin -/
theorem asin_accurate : AccurateOnUnit 1.15 asin Real.arcsin := by
  intro x xf hx
  change |x.val| ≤ 1 at hx
  change ∃ r, asin x = some r ∧ WithinUlp 1.15 r (Real.arcsin x.val)
  have hm := Asin.one_mb hx
  by_cases h1 : x.mb = 0x3ff0000000000000
  · rcases Asin.ends h1 with rfl | rfl
    · obtain ⟨r, hr, hw⟩ := asin_domain.one
      refine ⟨r, hr, ?_⟩
      rw [Asin.one_val, Real.arcsin_one]
      exact hw.mono (by norm_num)
    · obtain ⟨r, hr, hw⟩ := asin_domain.negOne
      refine ⟨r, hr, ?_⟩
      rw [val_neg, Asin.one_val, Real.arcsin_neg, Real.arcsin_one]
      exact hw.mono (by norm_num)
  rw [asin_eq, if_neg (by omega)]
  by_cases h2 : x.mb < 0x3fe00000 * 2 ^ 32
  · rw [if_pos h2]
    have u2 := Asin.le_c Asin.hv (by norm_num) (h2.le.trans (by decide +kernel))
    by_cases h3 : 0x00100000 * 2 ^ 32 ≤ x.mb ∧ x.mb < 0x3e500000 * 2 ^ 32
    · rw [if_pos h3]
      exact ⟨_, rfl, (Asin.tiny_acc xf rfl (Asin.le_c Asin.tv (by positivity) (h3.2.le.trans (by decide +kernel)))).mono (by norm_num)⟩
    · rw [if_neg h3]
      refine ⟨_, rfl, ?_⟩
      by_cases h4 : x.mb < 0x00100000 * 2 ^ 32
      · have u4 := Asin.lt_c Asin.sv (by positivity) (lt_of_lt_of_le h4 (by decide +kernel))
        obtain ⟨rf, rv⟩ := Asin.sub_val xf u4
        exact (Asin.tiny_acc rf rv (u4.le.trans (zpow_le_zpow_right₀ (by norm_num) (by norm_num)))).mono (by norm_num)
      · exact (Asin.small_acc xf (Asin.ge_c Asin.tv (by positivity) (le_trans (by decide +kernel) (show 0x3e500000 * 2 ^ 32 ≤ x.mb by omega))) u2).mono (by norm_num)
  · rw [if_neg h2]
    obtain ⟨r, hr, hw⟩ := Asin.big_acc (a := x.ab) ((ab_isFinite x).2 xf) (ab_sign x) (by rw [ab_mb]; omega) (by rw [ab_mb]; omega)
    rw [ab_val] at hw
    exact ⟨flip x.sign r, by rw [hr]; rfl, arcsin_flip hw⟩

/-- acos -/
theorem acos_accurate : AccurateOnUnit 0.99 acos Real.arccos := by
  intro x xf hx
  change |x.val| ≤ 1 at hx
  change ∃ r, acos x = some r ∧ WithinUlp 0.99 r (Real.arccos x.val)
  have hm := Asin.one_mb hx
  by_cases h1 : x.mb = 0x3ff0000000000000
  · rcases Asin.ends h1 with rfl | rfl
    · refine ⟨_, acos_domain.one, ?_⟩
      rw [Asin.one_val, Real.arccos_one]
      have := WithinUlp.exact (c := 0.99) (by norm_num) (isFinite_zero (F := f64) false)
      rwa [val_zero] at this
    · refine ⟨2.0 * Asin.pio2Hi + bits64 0x3870000000000000, by decide +kernel, ?_⟩
      rw [val_neg, Asin.one_val]
      exact Asin.acos_neg_one
  rw [acos_eq, if_neg (by omega)]
  by_cases h2 : x.mb < 0x3fe00000 * 2 ^ 32
  · rw [if_pos h2]
    have u2 := Asin.le_c Asin.hv (by norm_num) (h2.le.trans (by decide +kernel))
    by_cases h3 : x.mb < 0x3c600001 * 2 ^ 32
    · rw [if_pos h3]
      have cv : (bits64 0x3c80000000000000).val = 2 ^ (-55 : ℤ) := by
        rw [val_const64 1 1019 (-55) (by decide +kernel) (by norm_num)]; norm_num
      exact ⟨_, rfl, Asin.acos_tiny (Asin.le_c cv (by positivity) (h3.le.trans (by decide +kernel)))⟩
    · rw [if_neg h3]
      exact ⟨_, rfl, Asin.acos_mid xf u2⟩
  · rw [if_neg h2]
    push Not at h2
    have e1 : (1.0 : Flt f64) = one f64 := by decide +kernel
    have of : (one f64).isFinite := by decide +kernel
    have l1 := Asin.ge_c (x := x) Asin.hv (by norm_num) (le_trans (by decide +kernel) h2)
    have l2 := Asin.lt_c (x := x) Asin.one_val (by norm_num) (show x.mb < (one f64).mb from lt_of_lt_of_le (lt_of_le_of_ne hm h1) (by decide +kernel))
    obtain ⟨n, hn⟩ := grid64 x (-1) (by norm_num at l1 ⊢; exact l1)
    norm_num at hn
    by_cases hs : x.sign = true
    · rw [if_pos hs]
      have xn : x.val ≤ 0 := val_nonpos hs
      rw [abs_of_nonpos xn] at l1 l2
      have hd := add_rne of xf
      rw [Asin.one_val, ← e1, show 1 + x.val = 1 - -x.val by ring] at hd
      obtain ⟨zf, zv, z1, z2⟩ := Asin.half_setup (n := -n) hd (by rw [hn]; push_cast; norm_num) l1 l2
      generalize (1.0 + x) * 0.5 = z at *
      rw [← zv] at z1 z2
      obtain ⟨s, hq, sf, s1, s2, s3, s4, s5, -⟩ := Asin.sqrt_setup zf z1 z2
      have s0 : 0 ≤ s.val := by have := abs_le.1 s1; norm_num at this s4 ⊢; linarith [this.1]
      rw [hq]
      refine ⟨_, rfl, ?_⟩
      have hA : Real.arccos x.val = 2 * (Real.pi / 2 - Real.arcsin (√z.val)) := by
        rw [zv, ← arccos_neg_half (a := -x.val) (by linarith) l2.le, _root_.neg_neg]
      rw [hA]
      exact Asin.acos_neg zf sf (le_trans (by positivity) z1) z2 s5 s2 (by rw [abs_of_nonneg s0]; exact s3)
    · rw [if_neg hs]
      have xn : 0 ≤ x.val := val_nonneg (by simpa using hs)
      rw [abs_of_nonneg xn] at l1 l2
      have hd := sub_rne of xf
      rw [Asin.one_val, ← e1] at hd
      obtain ⟨zf, zv, z1, z2⟩ := Asin.half_setup (n := n) hd (by rw [hn]; norm_num) l1 l2
      generalize (1.0 - x) * 0.5 = z at *
      rw [← zv] at z1 z2
      obtain ⟨s, hq, sf, s1, s2, s3, s4, s5, -⟩ := Asin.sqrt_setup zf z1 z2
      rw [hq]
      refine ⟨_, rfl, ?_⟩
      have hA : Real.arccos x.val = 2 * Real.arcsin (√z.val) := by
        rw [zv, ← arccos_half xn l2.le]
      rw [hA]
      have s6 : 2 ^ (-29 : ℤ) ≤ s.val := by
        have := abs_le.1 s1
        norm_num at this s4 ⊢
        linarith [this.1]
      obtain ⟨ff, fe, fg⟩ := zeroLowWord_spec sf (le_trans (zpow_le_zpow_right₀ (by norm_num) (by norm_num : (-1022 : ℤ) ≤ -29)) (s6.trans (le_abs_self _)))
      obtain ⟨cf, ce, fe2⟩ := Asin.csplit zf sf z1 z2 s4 s5 s1 ff fe fg
      exact Asin.acos_pos zf sf ff cf (le_trans (by positivity) z1) z2 s4 s5 s1 ce fe2

namespace Asinf
theorem one_mb {x : Flt f32} (h : |x.val| ≤ 1) : x.mb ≤ 0x3f800000 := by
  have ov : (one f32).val = 1 := by rw [val_const32 1 149 0 (by decide +kernel) (by norm_num)]; norm_num
  have := mb_le_of_val (x := one f32) (c := x) (by rw [ov, abs_one]; exact h)
  exact this.trans (by decide +kernel)
theorem ends {x : Flt f32} (h : x.mb = 0x3f800000) : x = one f32 ∨ x = -one f32 := by
  rcases hs : x.sign with _ | _
  · left; exact ext_mb (hs.trans (by decide +kernel)) (h.trans (by decide +kernel))
  · right; exact ext_mb (hs.trans (by decide +kernel)) (h.trans (by decide +kernel))
theorem one_val : (one f32).val = 1 := by rw [val_const32 1 149 0 (by decide +kernel) (by norm_num)]; norm_num
theorem pi_val : (2.0 * pio2Hi + bits32 0x03800000 : Flt f32).isFinite ∧ (2.0 * pio2Hi + bits32 0x03800000 : Flt f32).val = 2 * pio2Hi.val := by
  refine ⟨by decide +kernel, ?_⟩
  have e : (2.0 * pio2Hi + bits32 0x03800000 : Flt f32) = 2.0 * pio2Hi := by decide +kernel
  rw [e]
  have hv := pio2Hi_val
  exact (dbl hi_fin (by rw [hv, abs_of_pos (by positivity)]; norm_num) (by rw [hv, abs_of_pos (by positivity)]; norm_num)).2
/-- `acos` of minus one -/
theorem acos_neg_one : WithinUlp 0.99 (2.0 * pio2Hi + bits32 0x03800000 : Flt f32) (Real.arccos (-1)) := by
  rw [Real.arccos_neg_one]
  have p1 := Real.pi_gt_d20
  have p2 := Real.pi_lt_d20
  refine WithinUlp.of_abs 1 pi_val.1 (by rw [abs_of_pos Real.pi_pos]; norm_num at p1 ⊢; linarith) (a := 0.99 * 2 ^ (1 - 23 : ℤ)) ?_ (by rw [f32_sb]; norm_num) (by norm_num)
  rw [pi_val.2, pio2Hi_val, abs_le]
  norm_num at p1 p2 ⊢
  constructor <;> linarith
/-- `acos` of tiny arguments -/
theorem acos_tiny {X : ℝ} (h : |X| ≤ 2 ^ (-26 : ℤ)) : WithinUlp 0.99 (pio2Hi + bits32 0x03800000 : Flt f32) (Real.arccos X) := by
  have e : (pio2Hi + bits32 0x03800000 : Flt f32) = pio2Hi := by decide +kernel
  rw [e, Real.arccos]
  have p1 := Real.pi_gt_d20
  have p2 := Real.pi_lt_d20
  have hX : |X| ≤ 1 / 2 := h.trans (by norm_num)
  have a1 := abs_le.1 (arcsin_le_c hX)
  norm_num at h p1 p2 a1
  have t : 1 ≤ Real.pi / 2 - Real.arcsin X := by linarith [a1.2]
  refine WithinUlp.of_abs 0 hi_fin (by rw [abs_of_pos (by linarith)]; norm_num; linarith) (a := 0.99 * 2 ^ (0 - 23 : ℤ)) ?_ (by rw [f32_sb]; norm_num) (by norm_num)
  rw [pio2Hi_val, abs_le]
  norm_num
  constructor <;> linarith [a1.1, a1.2]

theorem tv : (bits32 0x39800000).val = 2 ^ (-12 : ℤ) := by
  rw [val_const32 1 137 (-12) (by decide +kernel) (by norm_num)]; norm_num
theorem sv : (bits32 0x00800000).val = 2 ^ (-126 : ℤ) := by
  rw [val_const32 1 23 (-126) (by decide +kernel) (by norm_num), Int.cast_one, one_mul]
theorem hv : (bits32 0x3f000000).val = 1 / 2 := by
  rw [val_const32 1 148 (-1) (by decide +kernel) (by norm_num)]; norm_num
theorem ge_c {x c : Flt f32} {v : ℝ} (hc : c.val = v) (h0 : 0 < v) (h : c.mb ≤ x.mb) : v ≤ |x.val| := by
  have := abs_val_mono h
  rwa [hc, abs_of_pos h0] at this
theorem le_c {x c : Flt f32} {v : ℝ} (hc : c.val = v) (h0 : 0 < v) (h : x.mb ≤ c.mb) : |x.val| ≤ v := by
  have := abs_val_mono h
  rwa [hc, abs_of_pos h0] at this
theorem lt_c {x c : Flt f32} {v : ℝ} (hc : c.val = v) (h0 : 0 < v) (h : x.mb < c.mb) : |x.val| < v := by
  have h1 := le_c hc h0 h.le
  refine lt_of_le_of_ne h1 fun he => ?_
  have := mb_le_of_val (x := x) (c := c) (by rw [hc, he, abs_of_pos h0])
  omega
end Asinf

/-- asinf -/
theorem asinf_accurate : AccurateOnUnit 0.99 asinf Real.arcsin := by
  intro x xf hx
  change |x.val| ≤ 1 at hx
  change ∃ r, asinf x = some r ∧ WithinUlp 0.99 r (Real.arcsin x.val)
  have hm := Asinf.one_mb hx
  by_cases h1 : x.mb = 0x3f800000
  · rcases Asinf.ends h1 with rfl | rfl
    · obtain ⟨r, hr, hw⟩ := asinf_domain.one
      refine ⟨r, hr, ?_⟩
      rw [Asinf.one_val, Real.arcsin_one]
      exact hw.mono (by norm_num)
    · obtain ⟨r, hr, hw⟩ := asinf_domain.negOne
      refine ⟨r, hr, ?_⟩
      rw [val_neg, Asinf.one_val, Real.arcsin_neg, Real.arcsin_one]
      exact hw.mono (by norm_num)
  rw [asinf_eq, if_neg (by omega)]
  by_cases h2 : x.mb < 0x3f000000
  · rw [if_pos h2]
    have u2 := Asinf.le_c Asinf.hv (by norm_num) (h2.le.trans (by decide +kernel))
    by_cases h3 : 0x00800000 ≤ x.mb ∧ x.mb < 0x39800000
    · rw [if_pos h3]
      exact ⟨_, rfl, (Asinf.tiny_acc xf rfl (Asinf.le_c Asinf.tv (by positivity) (h3.2.le.trans (by decide +kernel)))).mono (by norm_num)⟩
    · rw [if_neg h3]
      refine ⟨_, rfl, ?_⟩
      by_cases h4 : x.mb < 0x00800000
      · have u4 := Asinf.lt_c Asinf.sv (by positivity) (lt_of_lt_of_le h4 (by decide +kernel))
        obtain ⟨rf, rv⟩ := Asinf.sub_val xf u4
        exact (Asinf.tiny_acc rf rv (u4.le.trans (zpow_le_zpow_right₀ (by norm_num) (by norm_num)))).mono (by norm_num)
      · exact (Asinf.small_acc xf (Asinf.ge_c Asinf.tv (by positivity) (le_trans (by decide +kernel) (show 0x39800000 ≤ x.mb by omega))) u2).mono (by norm_num)
  · rw [if_neg h2]
    obtain ⟨r, hr, hw⟩ := Asinf.big_acc (a := x.ab) ((ab_isFinite x).2 xf) (ab_sign x) (by rw [ab_mb]; omega) (by rw [ab_mb]; omega)
    rw [ab_val] at hw
    exact ⟨flip x.sign r, by rw [hr]; rfl, arcsin_flip hw⟩

/-- acosf -/
theorem acosf_accurate : AccurateOnUnit 0.99 acosf Real.arccos := by
  intro x xf hx
  change |x.val| ≤ 1 at hx
  change ∃ r, acosf x = some r ∧ WithinUlp 0.99 r (Real.arccos x.val)
  have hm := Asinf.one_mb hx
  by_cases h1 : x.mb = 0x3f800000
  · rcases Asinf.ends h1 with rfl | rfl
    · refine ⟨_, acosf_domain.one, ?_⟩
      rw [Asinf.one_val, Real.arccos_one]
      have := WithinUlp.exact (c := 0.99) (by norm_num) (isFinite_zero (F := f32) false)
      rwa [val_zero] at this
    · refine ⟨2.0 * Asinf.pio2Hi + bits32 0x03800000, by decide +kernel, ?_⟩
      rw [val_neg, Asinf.one_val]
      exact Asinf.acos_neg_one
  rw [acosf_eq, if_neg (by omega)]
  by_cases h2 : x.mb < 0x3f000000
  · rw [if_pos h2]
    have u2 := Asinf.le_c Asinf.hv (by norm_num) (h2.le.trans (by decide +kernel))
    by_cases h3 : x.mb ≤ 0x32800000
    · rw [if_pos h3]
      have cv : (bits32 0x32800000).val = 2 ^ (-26 : ℤ) := by
        rw [val_const32 1 123 (-26) (by decide +kernel) (by norm_num)]; norm_num
      exact ⟨_, rfl, Asinf.acos_tiny (Asinf.le_c cv (by positivity) (h3.trans (by decide +kernel)))⟩
    · rw [if_neg h3]
      exact ⟨_, rfl, Asinf.acos_mid xf u2⟩
  · rw [if_neg h2]
    push Not at h2
    have e1 : (1.0 : Flt f32) = one f32 := by decide +kernel
    have of : (one f32).isFinite := by decide +kernel
    have l1 := Asinf.ge_c (x := x) Asinf.hv (by norm_num) (le_trans (by decide +kernel) h2)
    have l2 := Asinf.lt_c (x := x) Asinf.one_val (by norm_num) (show x.mb < (one f32).mb from lt_of_lt_of_le (lt_of_le_of_ne hm h1) (by decide +kernel))
    obtain ⟨n, hn⟩ := grid32 x (-1) (by norm_num at l1 ⊢; exact l1)
    norm_num at hn
    by_cases hs : x.sign = true
    · rw [if_pos hs]
      have xn : x.val ≤ 0 := val_nonpos hs
      rw [abs_of_nonpos xn] at l1 l2
      have hd := add_rne of xf
      rw [Asinf.one_val, ← e1, show 1 + x.val = 1 - -x.val by ring] at hd
      obtain ⟨zf, zv, z1, z2⟩ := Asinf.half_setup (n := -n) hd (by rw [hn]; push_cast; norm_num) l1 l2
      generalize (1.0 + x) * 0.5 = z at *
      rw [← zv] at z1 z2
      obtain ⟨s, hq, sf, s1, s2, s3, s4, s5, -⟩ := Asinf.sqrt_setup zf z1 z2
      have s0 : 0 ≤ s.val := by have := abs_le.1 s1; norm_num at this s4 ⊢; linarith [this.1]
      rw [hq]
      refine ⟨_, rfl, ?_⟩
      have hA : Real.arccos x.val = 2 * (Real.pi / 2 - Real.arcsin (√z.val)) := by
        rw [zv, ← arccos_neg_half (a := -x.val) (by linarith) l2.le, _root_.neg_neg]
      rw [hA]
      exact Asinf.acos_neg zf sf (le_trans (by positivity) z1) z2 s5 s2 (by rw [abs_of_nonneg s0]; exact s3)
    · rw [if_neg hs]
      have xn : 0 ≤ x.val := val_nonneg (by simpa using hs)
      rw [abs_of_nonneg xn] at l1 l2
      have hd := sub_rne of xf
      rw [Asinf.one_val, ← e1] at hd
      obtain ⟨zf, zv, z1, z2⟩ := Asinf.half_setup (n := n) hd (by rw [hn]; norm_num) l1 l2
      generalize (1.0 - x) * 0.5 = z at *
      rw [← zv] at z1 z2
      obtain ⟨s, hq, sf, s1, s2, s3, s4, s5, -⟩ := Asinf.sqrt_setup zf z1 z2
      rw [hq]
      refine ⟨_, rfl, ?_⟩
      have hA : Real.arccos x.val = 2 * Real.arcsin (√z.val) := by
        rw [zv, ← arccos_half xn l2.le]
      rw [hA]
      have s6 : 2 ^ (-29 : ℤ) ≤ s.val := by
        have := abs_le.1 s1
        norm_num at this s4 ⊢
        linarith [this.1]
      obtain ⟨ff, fe, fg⟩ := top_spec sf (le_trans (zpow_le_zpow_right₀ (by norm_num) (by norm_num : (-126 : ℤ) ≤ -29)) (s6.trans (le_abs_self _)))
      obtain ⟨cf, ce, fe2⟩ := Asinf.csplit zf sf z1 z2 s4 s5 s1 ff fe fg
      exact Asinf.acos_pos zf sf ff cf (le_trans (by positivity) z1) z2 s4 s5 s1 ce fe2

/-! ## Concrete arguments in every branch -/

example : asin (bits64 0x3fd0000000000000) = some (bits64 0x3fd02be9ce0b87cd) := by decide +kernel
example : (bits64 0x3fef800000000000).isFinite ∧ (asin (bits64 0x3fef800000000000)).isSome := by decide +kernel
example : (acos (bits64 0xbfe8000000000000)).isSome ∧ (acos (bits64 0x3fe8000000000000)).isSome := by decide +kernel
example : (asinf (bits32 0x3f400000)).isSome ∧ (acosf (bits32 0xbf400000)).isSome ∧ (acosf (bits32 0x3f400000)).isSome := by decide +kernel

end Verif
