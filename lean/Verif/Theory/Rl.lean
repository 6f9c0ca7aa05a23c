import Verif.Theory.UlpTop
import Verif.Theory.Expm1End
import Verif.Props.Exp

/-!
# Relative errors

`Rl r t ε`: the float `r` is finite and within relative error `ε` of the real number `t`.  Rounded operations compose relative errors.
-/

namespace Verif
open Flt

/-- the two formats of the accuracy theorems -/
class StdFmt (F : Fmt) : Prop where
  out : F = f64 ∨ F = f32
instance : StdFmt f64 := ⟨.inl rfl⟩
instance : StdFmt f32 := ⟨.inr rfl⟩

variable {F : Fmt}

theorem thr_std [StdFmt F] : 1.999999 * (2 : ℝ) ^ (F.bias : ℤ) < ((overflowThreshold F : ℚ) : ℝ) := by
  rcases StdFmt.out (F := F) with rfl | rfl
  · rw [← thr64, f64_bias, show ((1024 : ℤ)) = ((1023 : ℕ) : ℤ) + 1 by norm_num, zpow_add_one₀ (by norm_num)]
    have := zp ((1023 : ℕ) : ℤ)
    generalize (2 : ℝ) ^ ((1023 : ℕ) : ℤ) = T at *
    norm_num; linarith
  · rw [← thr32, f32_bias, show ((128 : ℤ)) = ((127 : ℕ) : ℤ) + 1 by norm_num, zpow_add_one₀ (by norm_num)]
    have := zp ((127 : ℕ) : ℤ)
    generalize (2 : ℝ) ^ ((127 : ℕ) : ℤ) = T at *
    norm_num; linarith

theorem ulpAt_le {q : ℝ} (h : 2 ^ (1 - (F.bias : ℤ)) ≤ |q|) : ulpAt F q ≤ |q| * 2 ^ (-(F.sb : ℤ)) := by
  have h0 : q ≠ 0 := by rintro rfl; rw [abs_zero] at h; exact absurd h (not_le.2 (zp _))
  have h1 : ((2 : ℕ) : ℝ) ^ Int.log 2 |q| ≤ |q| := Int.zpow_log_le_self (by norm_num) (abs_pos.2 h0)
  have h2 : 1 - (F.bias : ℤ) ≤ Int.log 2 |q| := (Int.zpow_le_iff_le_log (by norm_num) (abs_pos.2 h0)).1 (by exact_mod_cast h)
  rw [ulpAt, if_neg h0, max_eq_left h2, sub_eq_add_neg, zpow_add₀ (by norm_num)]
  exact mul_le_mul_of_nonneg_right (by exact_mod_cast h1) (zp _).le

theorem IsRNE.rel_std [StdFmt F] {q : ℝ} {r : Flt F} (h : IsRNE q r) (h1 : 2 ^ (1 - (F.bias : ℤ)) ≤ |q|) (h2 : |q| ≤ 1.999999 * 2 ^ (F.bias : ℤ)) :
    r.isFinite ∧ |r.val - q| ≤ |q| * 2 ^ (-1 - (F.sb : ℤ)) := by
  have h0 : q ≠ 0 := by rintro rfl; rw [abs_zero] at h1; exact absurd h1 (not_le.2 (zp _))
  have hb : 2 ≤ F.bias := by rcases StdFmt.out (F := F) with rfl | rfl <;> decide
  have w := WithinUlp.of_rne_thr (c := 1 / 2) (δ := 0) h h0 (by
    refine h2.trans_lt ?_
    rw [zpow_add_one₀ (by norm_num), mul_comm]
    exact mul_lt_mul_of_pos_left (by norm_num) (zp _)) hb (h2.trans_lt thr_std) (by simp) (by norm_num) (by norm_num)
  rw [WithinUlp.def'] at w
  refine ⟨w.1, w.2.trans ?_⟩
  have := ulpAt_le (F := F) h1
  rw [show (-1 - (F.sb : ℤ)) = -1 + -(F.sb : ℤ) by ring, zpow_add₀ (by norm_num)]
  have e : |q| * (2 ^ (-1 : ℤ) * 2 ^ (-(F.sb : ℤ))) = 1 / 2 * (|q| * 2 ^ (-(F.sb : ℤ))) := by norm_num; ring
  rw [e]; linarith

/-- half a unit in the last place of 1 -/
noncomputable def uu (F : Fmt) : ℝ := 2 ^ (-1 - (F.sb : ℤ))

theorem uu_pos : 0 < uu F := zp _
theorem uu_le [StdFmt F] : uu F ≤ 1 / 2 ^ 24 := by
  rcases StdFmt.out (F := F) with rfl | rfl <;> simp only [uu, f64_sb, f32_sb] <;> norm_num
theorem uu_sq [StdFmt F] : uu F * uu F ≤ 1 / 2 ^ 24 * uu F := mul_le_mul_of_nonneg_right uu_le uu_pos.le
theorem uu_two : (2 : ℝ) ^ (-(F.sb : ℤ)) = 2 * uu F := by
  rw [uu, ← zpow_one_add₀ (by norm_num)]; congr 1; ring
theorem uu_ulp : uu F * 2 ^ (F.sb + 1) = 1 := by
  rw [uu, ← zpow_natCast, ← zpow_add₀ (by norm_num)]
  rw [show (-1 - (F.sb : ℤ)) + ((F.sb + 1 : ℕ) : ℤ) = 0 by push_cast; ring, zpow_zero]
theorem lo_std [StdFmt F] : (2 : ℝ) ^ (2 - (F.bias : ℤ)) ≤ 1 / 2 ^ 125 := by
  have hb : 127 ≤ (F.bias : ℤ) := by rcases StdFmt.out (F := F) with rfl | rfl <;> decide
  calc (2 : ℝ) ^ (2 - (F.bias : ℤ)) ≤ 2 ^ (-125 : ℤ) := zpow_le_zpow_right₀ (by norm_num) (by omega)
    _ = 1 / 2 ^ 125 := by norm_num
theorem hi_std [StdFmt F] : (2 : ℝ) ^ 127 ≤ 2 ^ (F.bias : ℤ) := by
  have hb : 127 ≤ (F.bias : ℤ) := by rcases StdFmt.out (F := F) with rfl | rfl <;> decide
  calc (2 : ℝ) ^ 127 = 2 ^ (127 : ℤ) := by norm_num
    _ ≤ _ := zpow_le_zpow_right₀ (by norm_num) hb

/-! multiplying by a power of two is exact -/
theorem mul_pow2 {x p : Flt F} {k : ℤ} (xf : x.isFinite) (pf : p.isFinite) (pv : p.val = 2 ^ k) (h1 : 2 ^ (1 - (F.bias : ℤ)) ≤ |x.val * 2 ^ k|) (h2 : |x.val * 2 ^ k| < 2 ^ ((F.bias : ℤ) + 1)) :
    (x * p).isFinite ∧ (x * p).val = x.val * 2 ^ k := by
  obtain ⟨c, cf, cv⟩ := scale_exact k h1 h2
  have := (mul_rne xf pf).exact_real (z := c) cf (by rw [cv, pv])
  exact ⟨this.1, this.2.trans (by rw [pv])⟩

theorem pow2_mul' {x p : Flt F} {k : ℤ} (xf : x.isFinite) (pf : p.isFinite) (pv : p.val = 2 ^ k) (h1 : 2 ^ (1 - (F.bias : ℤ)) ≤ |x.val * 2 ^ k|) (h2 : |x.val * 2 ^ k| < 2 ^ ((F.bias : ℤ) + 1)) :
    (p * x).isFinite ∧ (p * x).val = x.val * 2 ^ k := by
  obtain ⟨c, cf, cv⟩ := scale_exact k h1 h2
  have := (mul_rne pf xf).exact_real (z := c) cf (by rw [cv, pv, mul_comm])
  exact ⟨this.1, this.2.trans (by rw [pv, mul_comm])⟩

/-- `r` is finite and within relative error `ε` of `t` -/
structure Rl (r : Flt F) (t ε : ℝ) : Prop where
  fin : r.isFinite
  err : |r.val - t| ≤ ε * |t|

namespace Rl
variable {x y r : Flt F} {t s q ε δ γ : ℝ}

theorem exact (h : x.isFinite) : Rl x x.val 0 := ⟨h, by simp⟩

theorem mono (h : Rl x t ε) (hε : ε ≤ δ) : Rl x t δ := ⟨h.fin, h.err.trans (mul_le_mul_of_nonneg_right hε (abs_nonneg _))⟩

theorem trans (h : Rl x s ε) (h0 : 0 ≤ ε) (hs : |s - t| ≤ δ * |t|) (ho : ε * (1 + δ) + δ ≤ γ) : Rl x t γ := by
  refine ⟨h.fin, (abs_sub_le _ s _).trans ?_⟩
  have h1 : |s| ≤ (1 + δ) * |t| := by
    have := abs_add_le (s - t) t
    rw [_root_.sub_add_cancel] at this
    linarith
  have h2 := mul_le_mul_of_nonneg_left h1 h0
  have h3 := mul_le_mul_of_nonneg_right ho (abs_nonneg t)
  linarith [h.err]

theorem neg (h : Rl x t ε) : Rl (-x) (-t) ε := by
  refine ⟨(Flt.isFinite_neg x).2 h.fin, ?_⟩
  rw [val_neg, ← neg_sub', abs_neg, abs_neg]; exact h.err

/-- rounding -/
theorem rnd [StdFmt F] (h : IsRNE q r) (hq : |q - t| ≤ γ * |t|) (hγ : γ ≤ 1 / 2 ^ 19) (lo : 2 ^ (2 - (F.bias : ℤ)) ≤ |t|) (hi : |t| ≤ 1.99999 * 2 ^ (F.bias : ℤ))
    (ho : γ + (1 + γ) * uu F ≤ ε) : Rl r t ε := by
  have tp : 0 < |t| := (zp _).trans_le lo
  have g0 : 0 ≤ γ := by
    by_contra hc
    rw [not_le] at hc
    have := mul_neg_of_neg_of_pos hc tp
    linarith [abs_nonneg (q - t)]
  have q1 : |q| ≤ (1 + γ) * |t| := by
    have := abs_add_le (q - t) t
    rw [_root_.sub_add_cancel] at this
    linarith
  have q2 : (1 - γ) * |t| ≤ |q| := by
    have := abs_sub_abs_le_abs_sub t q
    rw [abs_sub_comm] at this
    linarith
  have gt : γ * |t| ≤ 1 / 2 ^ 19 * |t| := mul_le_mul_of_nonneg_right hγ tp.le
  obtain ⟨rf, re⟩ := h.rel_std (by
    refine le_trans ?_ q2
    have e : (2 : ℝ) ^ (2 - (F.bias : ℤ)) = 2 * 2 ^ (1 - (F.bias : ℤ)) := by
      rw [← zpow_one_add₀ (by norm_num)]; congr 1; ring
    rw [e] at lo
    norm_num at gt; linarith) (by
    refine q1.trans ?_
    norm_num at gt hi ⊢; linarith)
  refine ⟨rf, (abs_sub_le _ q _).trans ?_⟩
  have h1 := mul_le_mul_of_nonneg_right q1 (uu_pos (F := F)).le
  have h2 := mul_le_mul_of_nonneg_right ho tp.le
  rw [← uu] at re
  linarith

theorem mul [StdFmt F] (hx : Rl x t ε) (hy : Rl y s δ) (h0 : 0 ≤ ε) (lo : 2 ^ (2 - (F.bias : ℤ)) ≤ |t * s|) (hi : |t * s| ≤ 1.99999 * 2 ^ (F.bias : ℤ))
    (γ : ℝ) (hg : ε + δ + ε * δ ≤ γ) (hγ : γ ≤ 1 / 2 ^ 19) {η : ℝ} (ho : γ + (1 + γ) * uu F ≤ η) : Rl (x * y) (t * s) η := by
  refine rnd (mul_rne hx.fin hy.fin) ?_ hγ lo hi ho
  have e : x.val * y.val - t * s = (x.val - t) * (y.val - s) + ((x.val - t) * s + t * (y.val - s)) := by ring
  rw [e]
  refine (abs_add_le _ _).trans ((add_le_add le_rfl (abs_add_le _ _)).trans ?_)
  rw [abs_mul, abs_mul, abs_mul, abs_mul]
  have h1 : |x.val - t| * |y.val - s| ≤ (ε * |t|) * (δ * |s|) := mul_le_mul hx.err hy.err (abs_nonneg _) (mul_nonneg h0 (abs_nonneg _))
  have h2 := mul_le_mul_of_nonneg_right hx.err (abs_nonneg s)
  have h3 := mul_le_mul_of_nonneg_left hy.err (abs_nonneg t)
  have h4 := mul_le_mul_of_nonneg_right hg (mul_nonneg (abs_nonneg t) (abs_nonneg s))
  linarith

theorem div [StdFmt F] (hx : Rl x t ε) (hy : Rl y s δ) (hs : s ≠ 0) (lo : 2 ^ (2 - (F.bias : ℤ)) ≤ |t / s|) (hi : |t / s| ≤ 1.99999 * 2 ^ (F.bias : ℤ))
    (h1 : δ < 1) (γ : ℝ) (hg : ε + δ ≤ γ * (1 - δ)) (hγ : γ ≤ 1 / 2 ^ 19) {η : ℝ} (ho : γ + (1 + γ) * uu F ≤ η) : Rl (x / y) (t / s) η := by
  have sp := abs_pos.2 hs
  have y1 : (1 - δ) * |s| ≤ |y.val| := by
    have := abs_sub_abs_le_abs_sub s y.val
    rw [abs_sub_comm] at this
    linarith [hy.err]
  have yp : 0 < |y.val| := lt_of_lt_of_le (mul_pos (by linarith) sp) y1
  have y0 : y.val ≠ 0 := abs_pos.1 yp
  refine rnd (div_rne hx.fin hy.fin (fun h => y0 (isZero_val.1 h))) ?_ hγ lo hi ho
  have e : x.val / y.val - t / s = ((x.val - t) * s - t * (y.val - s)) / (y.val * s) := by
    field_simp; ring
  rw [e, abs_div, abs_div, abs_mul y.val, div_le_iff₀ (mul_pos yp sp)]
  have e2 : γ * (|t| / |s|) * (|y.val| * |s|) = γ * |t| * |y.val| := by field_simp
  rw [e2]
  refine (abs_sub _ _).trans ?_
  rw [abs_mul, abs_mul]
  have h2 := mul_le_mul_of_nonneg_right hx.err (abs_nonneg s)
  have h3 := mul_le_mul_of_nonneg_left hy.err (abs_nonneg t)
  have h4 := mul_le_mul_of_nonneg_right hg (mul_nonneg (abs_nonneg t) (abs_nonneg s))
  rcases lt_or_ge γ 0 with g0 | g0
  · have : 0 ≤ (ε + δ) * (|t| * |s|) := by
      have a := (abs_nonneg _).trans hx.err
      have b := (abs_nonneg _).trans hy.err
      have a' := mul_nonneg a (abs_nonneg s)
      have b' := mul_nonneg b (abs_nonneg t)
      linarith
    have hts : 0 < |t| * |s| := by
      refine mul_pos (abs_pos.2 ?_) sp
      rintro rfl
      rw [zero_div, abs_zero] at lo
      exact absurd lo (not_le.2 (zp _))
    have : γ * (1 - δ) * (|t| * |s|) < 0 := mul_neg_of_neg_of_pos (mul_neg_of_neg_of_pos g0 (by linarith)) hts
    linarith
  · have h5 := mul_le_mul_of_nonneg_left y1 (mul_nonneg g0 (abs_nonneg t))
    linarith

theorem add [StdFmt F] (hx : Rl x t ε) (hy : Rl y s δ) (lo : 2 ^ (2 - (F.bias : ℤ)) ≤ |t + s|) (hi : |t + s| ≤ 1.99999 * 2 ^ (F.bias : ℤ))
    (γ : ℝ) (hg : ε * |t| + δ * |s| ≤ γ * |t + s|) (hγ : γ ≤ 1 / 2 ^ 19) {η : ℝ} (ho : γ + (1 + γ) * uu F ≤ η) : Rl (x + y) (t + s) η := by
  refine rnd (add_rne hx.fin hy.fin) ?_ hγ lo hi ho
  have e : x.val + y.val - (t + s) = (x.val - t) + (y.val - s) := by ring
  rw [e]
  exact (abs_add_le _ _).trans (by linarith [hx.err, hy.err])

theorem sub [StdFmt F] (hx : Rl x t ε) (hy : Rl y s δ) (lo : 2 ^ (2 - (F.bias : ℤ)) ≤ |t - s|) (hi : |t - s| ≤ 1.99999 * 2 ^ (F.bias : ℤ))
    (γ : ℝ) (hg : ε * |t| + δ * |s| ≤ γ * |t - s|) (hγ : γ ≤ 1 / 2 ^ 19) {η : ℝ} (ho : γ + (1 + γ) * uu F ≤ η) : Rl (x - y) (t - s) η := by
  have := add (y := -y) (s := -s) hx hy.neg (by rw [← sub_eq_add_neg]; exact lo) (by rw [← sub_eq_add_neg]; exact hi) γ (by rw [← sub_eq_add_neg, abs_neg]; exact hg) hγ ho
  rwa [← sub_eq_add_neg] at this

theorem scale {k : ℤ} (h : Rl x t ε) (rf : r.isFinite) (rv : r.val = x.val * 2 ^ k) : Rl r (t * 2 ^ k) ε := by
  refine ⟨rf, ?_⟩
  rw [rv, ← sub_mul, abs_mul, abs_mul, ← mul_assoc]
  exact mul_le_mul_of_nonneg_right h.err (abs_nonneg _)

theorem of_ulp {c : ℝ} (h : WithinUlp c r t) (h0 : 0 ≤ c) (lo : 2 ^ (1 - (F.bias : ℤ)) ≤ |t|) : Rl r t (2 * c * uu F) := by
  rw [WithinUlp.def'] at h
  refine ⟨h.1, h.2.trans ?_⟩
  have := mul_le_mul_of_nonneg_left (ulpAt_le lo) h0
  rw [uu_two] at this
  linarith

theorem ulp {c : ℝ} (h : Rl r t (c * uu F)) (h0 : 0 ≤ c) : WithinUlp c r t :=
  WithinUlp.of_rel h.fin h.err (mul_nonneg h0 uu_pos.le) (by rw [mul_assoc, uu_ulp, mul_one])

theorem le (h : Rl r t ε) (t0 : 0 ≤ t) : r.val ≤ (1 + ε) * t := by
  have := (abs_le.1 h.err).2
  rw [abs_of_nonneg t0] at this; linarith
theorem ge (h : Rl r t ε) (t0 : 0 ≤ t) : (1 - ε) * t ≤ r.val := by
  have := (abs_le.1 h.err).1
  rw [abs_of_nonneg t0] at this; linarith
end Rl

/-- an odd function is as accurate for negative arguments as for positive ones -/
theorem OddFn.acc {c : ℝ} {f : Flt F → Option (Flt F)} {g : ℝ → ℝ} (ho : OddFn f) (hg : ∀ t, g (-t) = -g t) {P : ℝ → Prop} (hP : ∀ t, P (-t) ↔ P t)
    (h : ∀ x : Flt F, x.isFinite → x.sign = false → P x.val → ∃ r, f x = some r ∧ WithinUlp c r (g x.val)) :
    ∀ x : Flt F, x.isFinite → P x.val → ∃ r, f x = some r ∧ WithinUlp c r (g x.val) := by
  intro x xf hx
  cases hs : x.sign
  · exact h x xf hs hx
  · obtain ⟨r, hr, w⟩ := h (-x) ((Flt.isFinite_neg x).2 xf) (by rw [Flt.sign_neg, hs]; rfl) (by rw [val_neg]; exact (hP _).2 hx)
    obtain ⟨a, b, ha, hb, hab⟩ := ho x (not_nan_of_finite xf)
    rw [hr] at hb
    obtain rfl := Option.some.inj hb
    rw [val_neg, hg] at w
    rcases hab with hab | hab
    · refine ⟨a, ha, ?_⟩
      have := w.neg
      rwa [_root_.neg_neg, hab, Flt.neg_neg] at this
    · exact absurd hab.2 (not_nan_of_finite w.1)

/-- an even function is as accurate for negative arguments as for positive ones -/
theorem EvenFn.acc {c : ℝ} {f : Flt F → Option (Flt F)} {g : ℝ → ℝ} (ho : EvenFn f) (hg : ∀ t, g (-t) = g t) {P : ℝ → Prop} (hP : ∀ t, P (-t) ↔ P t)
    (h : ∀ x : Flt F, x.isFinite → x.sign = false → P x.val → ∃ r, f x = some r ∧ WithinUlp c r (g x.val)) :
    ∀ x : Flt F, x.isFinite → P x.val → ∃ r, f x = some r ∧ WithinUlp c r (g x.val) := by
  intro x xf hx
  cases hs : x.sign
  · exact h x xf hs hx
  · obtain ⟨r, hr, w⟩ := h (-x) ((Flt.isFinite_neg x).2 xf) (by rw [Flt.sign_neg, hs]; rfl) (by rw [val_neg]; exact (hP _).2 hx)
    obtain ⟨a, b, ha, hb, hab⟩ := ho x (not_nan_of_finite xf)
    rw [hr] at hb
    obtain rfl := Option.some.inj hb
    rw [val_neg, hg] at w
    rcases hab with hab | hab
    · exact ⟨a, ha, hab ▸ w⟩
    · exact absurd hab.2 (not_nan_of_finite w.1)

end Verif
