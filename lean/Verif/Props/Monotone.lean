import Verif.Props.Integral
import Verif.Props.RoundInt
import Verif.Props.Sqrt
import Verif.Theory.Err

/-! # Monotonicity of the rounding functions and of the square root -/

namespace Verif
open Flt Generic
variable {F : Fmt}

/-- For every two arguments that are not NaN, `x ≤ y` implies `f x ≤ f y` (as extended numbers, so infinities are
included), and neither result is NaN. -/
def OrderPreserving (f : Flt F → Flt F) : Prop :=
  ∀ x y : Flt F, ¬ x.isNaN → ¬ y.isNaN → x.ext ≤ y.ext → ¬ (f x).isNaN ∧ ¬ (f y).isNaN ∧ (f x).ext ≤ (f y).ext

namespace Mono

theorem nonfinite {x : Flt F} (h : ¬ x.isNaN) (hf : ¬ x.isFinite) : x.isInf := by
  unfold isNaN at h; unfold isFinite at hf; unfold isInf
  rw [not_not] at hf
  exact ⟨hf, by by_contra hc; exact h ⟨hf, hc⟩⟩

theorem of_finite {f : Flt F → Flt F} (hn : ∀ x : Flt F, x.isInf → f x = x) (hf : ∀ x : Flt F, x.isFinite → (f x).isFinite)
    (hm : ∀ x y : Flt F, x.isFinite → y.isFinite → x.toRat ≤ y.toRat → (f x).toRat ≤ (f y).toRat) : OrderPreserving f := by
  have key : ∀ x : Flt F, ¬ x.isNaN → ¬ (f x).isNaN := by
    intro x hx
    by_cases h : x.isFinite
    · exact not_nan_of_finite (hf x h)
    · rwa [hn x (nonfinite hx h)]
  intro x y hx hy hxy
  refine ⟨key x hx, key y hy, ?_⟩
  by_cases h1 : x.isFinite <;> by_cases h2 : y.isFinite
  · rw [ext_finite h1, ext_finite h2] at hxy
    rw [ext_finite (hf x h1), ext_finite (hf y h2)]
    norm_cast at hxy ⊢
    exact hm x y h1 h2 hxy
  · have hi := nonfinite hy h2
    rw [hn y hi]
    rw [ext_finite h1] at hxy
    rw [ext_finite (hf x h1)]
    unfold ext at hxy ⊢
    rw [if_pos hi] at hxy ⊢
    split
    · rename_i hs
      rw [if_pos hs] at hxy
      exact absurd (le_bot_iff.1 hxy) (WithBot.coe_ne_bot)
    · exact WithBot.coe_le_coe.2 le_top
  · have hi := nonfinite hx h1
    rw [hn x hi]
    unfold ext at hxy ⊢
    rw [if_pos hi] at hxy ⊢
    split
    · exact bot_le
    · rename_i hs
      rw [if_neg hs, if_neg (fun h : y.isInf => h2 h.1)] at hxy
      have := WithBot.coe_le_coe.1 hxy
      simp at this
  · rwa [hn x (nonfinite hx h1), hn y (nonfinite hy h2)]

end Mono

/-- C72 for `trunc`, `truncf`, `truncf16`, `truncf128` -/
theorem trunc_monotone : OrderPreserving (trunc (F := F)) := by
  refine Mono.of_finite (fun x h => trunc_nonfinite x (not_finite_of_inf h)) (fun x h => (trunc_finite x h).1) fun x y hx hy h => ?_
  rw [(trunc_finite x hx).2.2, (trunc_finite y hy).2.2]
  split <;> split
  · exact_mod_cast Int.ceil_mono h
  · rename_i h1 h2
    have a : ⌈x.toRat⌉ ≤ 0 := Int.ceil_le.2 (by push_cast; exact h1.le)
    have b : 0 ≤ ⌊y.toRat⌋ := Int.floor_nonneg.2 (not_lt.1 h2)
    exact_mod_cast a.trans b
  · rename_i h1 h2
    exact absurd (h.trans_lt h2) h1
  · exact_mod_cast Int.floor_mono h

/-- C72 for `floor`, `floorf`, `floorf16`, `floorf128` -/
theorem floor_monotone : OrderPreserving (floor (F := F)) := by
  refine Mono.of_finite (fun x h => floor_nonfinite x (not_finite_of_inf h)) (fun x h => (floor_finite x h).1) fun x y hx hy h => ?_
  rw [(floor_finite x hx).2.2, (floor_finite y hy).2.2]
  exact_mod_cast Int.floor_mono h

/-- C72 for `ceil`, `ceilf`, `ceilf16`, `ceilf128` -/
theorem ceil_monotone : OrderPreserving (ceil (F := F)) := by
  refine Mono.of_finite (fun x h => ceil_nonfinite x (not_finite_of_inf h)) (fun x h => (ceil_finite x h).1) fun x y hx hy h => ?_
  rw [(ceil_finite x hx).2.2, (ceil_finite y hy).2.2]
  exact_mod_cast Int.ceil_mono h

/-- C72 for `rint`, `roundeven` and their variants -/
theorem rint_monotone : OrderPreserving (rint (F := F)) := by
  refine Mono.of_finite (fun x h => rint_nonfinite x (not_finite_of_inf h)) (fun x h => (rint_finite x h).1) fun x y hx hy h => ?_
  obtain ⟨-, -, n, e1, a1, b1⟩ := rint_finite x hx
  obtain ⟨-, -, m, e2, a2, b2⟩ := rint_finite y hy
  rw [e1, e2]
  by_contra hc
  have hc' : m < n := by exact_mod_cast not_le.1 hc
  have hq : (m : ℚ) + 1 ≤ n := by exact_mod_cast hc'
  rw [abs_le] at a1 a2
  have c1 : (n : ℚ) - x.toRat = 1 / 2 := by linarith [a1.1, a1.2, a2.1, a2.2]
  have c2 : (m : ℚ) - y.toRat = -(1 / 2) := by linarith [a1.1, a1.2, a2.1, a2.2]
  have c3 : (n : ℚ) = m + 1 := by linarith [a1.1, a1.2, a2.1, a2.2]
  have c4 : n = m + 1 := by exact_mod_cast c3
  have d1 := b1 (by rw [c1]; norm_num)
  have d2 := b2 (by rw [c2]; norm_num)
  rw [c4] at d1
  exact (Int.even_add_one.1 d1) d2

/-- C72 for `roundeven` and its variants -/
theorem roundeven_monotone : OrderPreserving (roundeven (F := F)) := rint_monotone

/-- C72 for `round`, `roundf`, `roundf16`, `roundf128` -/
theorem round_monotone : OrderPreserving (Generic.round (F := F)) := by
  refine Mono.of_finite (fun x h => (round_nonfinite x).2 h) (fun x h => (round_finite x h).1) fun x y hx hy h => ?_
  obtain ⟨-, -, n, e1, a1, b1⟩ := round_finite x hx
  obtain ⟨-, -, m, e2, a2, b2⟩ := round_finite y hy
  rw [e1, e2]
  by_contra hc
  have hc' : m < n := by exact_mod_cast not_le.1 hc
  have hq : (m : ℚ) + 1 ≤ n := by exact_mod_cast hc'
  rw [abs_le] at a1 a2
  have c1 : (n : ℚ) - x.toRat = 1 / 2 := by linarith [a1.1, a1.2, a2.1, a2.2]
  have c2 : (m : ℚ) - y.toRat = -(1 / 2) := by linarith [a1.1, a1.2, a2.1, a2.2]
  have c3 : (n : ℚ) = m + 1 := by linarith [a1.1, a1.2, a2.1, a2.2]
  have d1 := b1 (by rw [c1]; norm_num)
  have d2 := b2 (by rw [c2]; norm_num)
  have f1 : x.toRat = n - 1 / 2 := by linarith
  have f2 : y.toRat = n - 1 / 2 := by linarith
  have f3 : (m : ℚ) = n - 1 := by linarith
  rw [f1, ← sq_lt_sq] at d1
  rw [f2, f3, ← sq_lt_sq] at d2
  have g1 : (1 : ℚ) / 4 < n := by nlinarith
  have g2 : (n : ℚ) < 3 / 4 := by nlinarith
  have k1 : (0 : ℤ) < n := by have : (0 : ℚ) < n := by linarith
                              exact_mod_cast this
  have k2 : n < (1 : ℤ) := by have : (n : ℚ) < 1 := by linarith
                              exact_mod_cast this
  omega

example : (ofNat f32 0xc0200000).ext ≤ (ofNat f32 0x7f800000).ext ∧ ¬ (ofNat f32 0xc0200000).isNaN ∧
    ¬ (ofNat f32 0x7f800000).isNaN := by decide +kernel

/-- For arguments that are zeros, positive numbers or `+inf`, `x ≤ y` implies `f x ≤ f y`, and both calls return a number. -/
def SqrtMonotone (f : Flt F → Option (Flt F)) : Prop :=
  ∀ x y : Flt F, ¬ x.isNaN → ¬ y.isNaN → x.isZero ∨ x.sign = false → y.isZero ∨ y.sign = false → x.ext ≤ y.ext →
    ∃ r s, f x = some r ∧ f y = some s ∧ ¬ r.isNaN ∧ ¬ s.isNaN ∧ r.ext ≤ s.ext

namespace Mono

theorem ext_zero {x : Flt F} (h : x.isZero) : x.ext = ((0 : ℚ) : WithTop ℚ) := by
  rw [ext_finite (finite_of_zero h)]
  have : x.toRat = 0 := by rw [toRat_eq, (isZero_iff_sval x).1 h]; simp
  rw [this]

theorem ext_nonneg {x : Flt F} (h : x.sign = false) : (((0 : ℚ) : WithTop ℚ) : WithBot (WithTop ℚ)) ≤ x.ext := by
  unfold ext
  rw [h]
  split
  · exact WithBot.coe_le_coe.2 le_top
  · refine WithBot.coe_le_coe.2 (WithTop.coe_le_coe.2 ?_)
    rw [toRat_eq]
    have : 0 ≤ x.sval := by unfold sval; rw [h]; simp
    have h2 : (0 : ℚ) ≤ x.sval := by exact_mod_cast this
    have := F.ulp_pos
    positivity

theorem rne_lt {q p : ℝ} {r s : Flt F} (hq : 0 ≤ q) (h : q < p) (hr : IsRNE q r) (hs : IsRNE p s) (hr0 : r.sign = false) (hs0 : s.sign = false) :
    ¬ r.isNaN ∧ ¬ s.isNaN ∧ r.ext ≤ s.ext := by
  have hp : 0 ≤ p := hq.trans h.le
  unfold IsRNE at hr hs
  rw [abs_of_nonneg hq] at hr
  rw [abs_of_nonneg hp] at hs
  split at hs
  · refine ⟨?_, not_nan_of_inf hs.1, ?_⟩
    · split at hr
      · exact not_nan_of_inf hr.1
      · exact not_nan_of_finite hr.1
    · have : s.ext = ((⊤ : WithTop ℚ) : WithBot (WithTop ℚ)) := by unfold ext; rw [if_pos hs.1, hs0]; rfl
      rw [this]
      unfold ext
      rw [hr0]
      split
      · exact le_rfl
      · exact WithBot.coe_le_coe.2 le_top
  · rename_i h2
    rw [if_neg (fun h3 => h2 (h3.trans h.le))] at hr
    refine ⟨not_nan_of_finite hr.1, not_nan_of_finite hs.1, ?_⟩
    rw [ext_finite hr.1, ext_finite hs.1]
    refine WithBot.coe_le_coe.2 (WithTop.coe_le_coe.2 ?_)
    by_contra hc
    have hc' : ((s.toRat : ℚ) : ℝ) < (r.toRat : ℚ) := by exact_mod_cast not_le.1 hc
    have a := hr.2.1 s hs.1
    have b := hs.2.1 r hr.1
    rw [← sq_le_sq] at a b
    nlinarith

end Mono

theorem IsSqrt.monotone {f : Flt F → Option (Flt F)} (hf : IsSqrt f) : SqrtMonotone f := by
  intro x y hx hy sx sy hxy
  by_cases zx : x.isZero
  · rw [hf.zero x zx]
    by_cases zy : y.isZero
    · exact ⟨x, y, rfl, hf.zero y zy, hx, hy, hxy⟩
    · have sy := sy.resolve_left zy
      by_cases fy : y.isFinite
      · obtain ⟨s, h1, h2, h3⟩ := hf.pos y fy sy zy
        refine ⟨x, s, rfl, h1, hx, ?_, ?_⟩
        · unfold IsRNE at h3
          split at h3
          · exact not_nan_of_inf h3.1
          · exact not_nan_of_finite h3.1
        · rw [Mono.ext_zero zx]; exact Mono.ext_nonneg h2
      · exact ⟨x, y, rfl, hf.inf y (Mono.nonfinite hy fy) sy, hx, hy, hxy⟩
  · have sx := sx.resolve_left zx
    have xv : (0 : ℝ) ≤ ((x.toRat : ℚ) : ℝ) := val_nonneg sx
    by_cases fx : x.isFinite
    · obtain ⟨r, h1, h2, h3⟩ := hf.pos x fx sx zx
      by_cases fy : y.isFinite
      · rw [ext_finite fx, ext_finite fy] at hxy
        have hq : x.toRat ≤ y.toRat := by exact_mod_cast hxy
        rcases hq.lt_or_eq with hlt | heq
        · have hlt' : ((x.toRat : ℚ) : ℝ) < (y.toRat : ℚ) := by exact_mod_cast hlt
          have zy : ¬ y.isZero := by
            intro h
            have : y.toRat = 0 := by rw [toRat_eq, (isZero_iff_sval y).1 h]; simp
            rw [this] at hlt'; push_cast at hlt'; linarith
          obtain ⟨s, k1, k2, k3⟩ := hf.pos y fy (sy.resolve_left zy) zy
          exact ⟨r, s, h1, k1, Mono.rne_lt (Real.sqrt_nonneg _) (Real.sqrt_lt_sqrt xv hlt') h3 k3 h2 k2⟩
        · have es : x.sval = y.sval := toRat_inj.1 heq
          have zy : ¬ y.isZero := fun h => zx ((isZero_iff_sval x).2 (es.trans ((isZero_iff_sval y).1 h)))
          have e : x = y := by
            unfold sval at es
            rw [sx, sy.resolve_left zy] at es
            exact eq_of_sign_mag (sx.trans (sy.resolve_left zy).symm) (by simpa using es)
          subst e
          have : ¬ r.isNaN := by
            unfold IsRNE at h3
            split at h3
            · exact not_nan_of_inf h3.1
            · exact not_nan_of_finite h3.1
          exact ⟨r, r, h1, h1, this, this, le_rfl⟩
      · have iy := Mono.nonfinite hy fy
        have sy : y.sign = false := sy.resolve_left (fun h => fy (finite_of_zero h))
        have hn : ¬ r.isNaN := by
          unfold IsRNE at h3
          split at h3
          · exact not_nan_of_inf h3.1
          · exact not_nan_of_finite h3.1
        refine ⟨r, y, h1, hf.inf y iy sy, hn, hy, ?_⟩
        have : y.ext = ((⊤ : WithTop ℚ) : WithBot (WithTop ℚ)) := by unfold ext; rw [if_pos iy, sy]; rfl
        rw [this]
        unfold ext
        rw [h2]
        split
        · exact le_rfl
        · exact WithBot.coe_le_coe.2 le_top
    · have ix := Mono.nonfinite hx fx
      have ex : x.ext = ((⊤ : WithTop ℚ) : WithBot (WithTop ℚ)) := by unfold ext; rw [if_pos ix, sx]; rfl
      have fy : ¬ y.isFinite := by
        intro h
        rw [ex, ext_finite h] at hxy
        exact absurd (WithBot.coe_le_coe.1 hxy) (by simp)
      have iy := Mono.nonfinite hy fy
      exact ⟨x, y, hf.inf x ix sx, hf.inf y iy (sy.resolve_left (fun h => fy (finite_of_zero h))), hx, hy, hxy⟩

/-- C72 for `sqrt` -/
theorem sqrt_monotone : SqrtMonotone sqrt := sqrt_correct.monotone
/-- C72 for `sqrtf` -/
theorem sqrtf_monotone : SqrtMonotone sqrtf := sqrtf_correct.monotone
/-- C72 for `sqrtf16` -/
theorem sqrtf16_monotone : SqrtMonotone sqrtf16 := sqrtf16_correct.monotone
/-- C72 for `sqrtf128` -/
theorem sqrtf128_monotone : SqrtMonotone sqrtf128 := sqrtf128_correct.monotone

example : (ofNat f64 0x8000000000000000).isZero ∧ (ofNat f64 0x8000000000000000).ext ≤ (ofNat f64 0x4008000000000000).ext ∧
    (ofNat f64 0x4008000000000000).sign = false := by decide +kernel

end Verif
