import Verif.Theory.AsinReal
import Verif.Theory.Ap32

/-!
# The rational functions of `asin`, `acos`: sharper rounding errors

`InvKern` bounds each rounding by the size of the sum of the bounds of the terms.  Here the size of each partial result
is taken from the polynomial itself.
-/

namespace Verif
open Flt

namespace Poly
/-- the derivative -/
def dev : List ℚ → List ℚ
  | [] => []
  | _ :: p => add p (0 :: dev p)

theorem dev_deriv (p : List ℚ) (x : ℝ) : HasDerivAt (fun x => ev p x) (ev (dev p) x) x := by
  induction p with
  | nil => simpa [ev, dev] using hasDerivAt_const x (0 : ℝ)
  | cons c p ih =>
    have h := ((hasDerivAt_id x).mul ih).const_add (c : ℝ)
    refine (h.congr_deriv ?_).congr_of_eventuallyEq (Filter.Eventually.of_forall fun y => ?_)
    · simp [dev, ev_add, ev]
    · simp [ev]

/-- a rational function whose derivative is at most `L` -/
theorem ratio_lip {p q : List ℚ} {L m : ℚ} {b : ℝ} (hq : ∀ z : ℝ, 0 ≤ z → z ≤ b → 0 < ev q z)
    (h : ∀ z : ℝ, 0 ≤ z → z ≤ b → |ev (add (mul (dev p) q) (smul (-1) (mul p (dev q)))) z| ≤ L * ev q z ^ 2) {x y : ℝ}
    (hx : 0 ≤ x) (hx1 : x ≤ b) (hy : 0 ≤ y) (hy1 : y ≤ b) : |ev p y / ev q y - ev p x / ev q x| ≤ L * |y - x| := by
  have hd : ∀ t ∈ Set.Icc (0 : ℝ) b, HasDerivWithinAt (fun z => ev p z / ev q z) ((ev (dev p) t * ev q t - ev p t * ev (dev q) t) / ev q t ^ 2) (Set.Icc (0 : ℝ) b) t := by
    intro t ht
    exact ((dev_deriv p t).div (dev_deriv q t) (hq t ht.1 ht.2).ne').hasDerivWithinAt
  have hb : ∀ t ∈ Set.Icc (0 : ℝ) b, ‖(ev (dev p) t * ev q t - ev p t * ev (dev q) t) / ev q t ^ 2‖ ≤ (L : ℝ) := by
    intro t ht
    have h1 := h t ht.1 ht.2
    have h2 := hq t ht.1 ht.2
    rw [ev_add, ev_smul, ev_mul, ev_mul] at h1
    rw [Real.norm_eq_abs, abs_div, abs_of_pos (pow_pos h2 2), div_le_iff₀ (pow_pos h2 2)]
    refine le_of_eq_of_le ?_ h1
    congr 1
    push_cast
    ring
  have := Convex.norm_image_sub_le_of_norm_hasDerivWithin_le hd hb (convex_Icc _ _) (x := x) (y := y) ⟨hx, hx1⟩ ⟨hy, hy1⟩
  simpa [Real.norm_eq_abs] using this

/-- a value from its bound about `c` -/
theorem two_sided {p : List ℚ} {c B : ℚ} {z : ℝ} (h : |ev (add p [-c]) z| ≤ B) : (c : ℝ) - B ≤ ev p z ∧ ev p z ≤ c + B := by
  rw [ev_add] at h
  simp only [ev] at h
  push_cast at h
  rw [abs_le] at h
  constructor <;> linarith [h.1, h.2]
end Poly

/-- one step of Horner's rule; the sizes of the results are those of the exact polynomials -/
theorem Ap.horner {z c a : Flt f64} {q : ℚ} {p : List ℚ} {e B : ℝ} (hz : z.isFinite) (Z Vm V e1 : ℝ) (hc : c.isFinite) (hq : c.val = (q : ℝ))
    (ha : Ap a (Poly.ev p z.val) e B) (hZ : |z.val| ≤ Z) (hVm : |Poly.ev (0 :: p) z.val| ≤ Vm) (hV : |Poly.ev (q :: p) z.val| ≤ V) (k1 k2 : ℤ) (hl : -1021 ≤ k1) (hk1 : k1 ≤ 100) (hk2 : k2 ≤ 100)
    (h1 : Vm + Z * e ≤ 2 ^ k1) (h2 : Z * e + 2 ^ (k1 - 54) ≤ e1) (h3 : V + e1 ≤ 2 ^ k2) {g D : ℝ} (h4 : e1 + 2 ^ (k2 - 54) ≤ g) (h5 : V + g ≤ D) :
    Ap (c + z * a) (Poly.ev (q :: p) z.val) g D := by
  have hze : |z.val * a.val - z.val * Poly.ev p z.val| ≤ Z * e := by
    rw [← mul_sub, abs_mul]
    exact mul_le_mul hZ ha.err (abs_nonneg _) ((abs_nonneg _).trans hZ)
  have e0 : Poly.ev (0 :: p) z.val = z.val * Poly.ev p z.val := by simp [Poly.ev]
  rw [e0] at hVm
  have eq : Poly.ev (q :: p) z.val = q + z.val * Poly.ev p z.val := by simp [Poly.ev]
  rw [eq] at hV ⊢
  generalize Poly.ev p z.val = v at *
  obtain ⟨mf, me⟩ := mul_err64 hz ha.fin k1 (by
    have := abs_le.1 hze; have := abs_le.1 hVm; rw [abs_le]; constructor <;> linarith) hl (by omega)
  have me2 : |(z * a).val - z.val * v| ≤ e1 := by
    have := abs_le.1 hze; have := abs_le.1 me; rw [abs_le]; constructor <;> linarith
  obtain ⟨sf, se⟩ := add_err64 hc mf k2 (by
    rw [hq]
    have := abs_le.1 me2; have := abs_le.1 hV; rw [abs_le]; constructor <;> linarith) (by omega)
  rw [hq] at se
  have se2 : |(c + z * a).val - (q + z.val * v)| ≤ g := by
    have := abs_le.1 me2; have := abs_le.1 se; rw [abs_le]; constructor <;> linarith
  refine ⟨sf, se2, ?_⟩
  have := abs_le.1 se2; have := abs_le.1 hV; rw [abs_le]; constructor <;> linarith

/-- a quotient of known size -/
theorem Ap.quot {a b : Flt f64} {v w e f B C : ℝ} (ha : Ap a v e B) (hb : Ap b w f C) (L R : ℝ) (hw : L + f ≤ w) (hL : 0 < L) (hR : |v / w| ≤ R) (k : ℤ) (hl : -1021 ≤ k) (hk : k ≤ 100)
    {d g D : ℝ} (h0 : (e + R * f) / L ≤ d) (h1 : R + d ≤ 2 ^ k) (hg : d + 2 ^ (k - 54) ≤ g) (hD : R + g ≤ D) : Ap (a / b) (v / w) g D := by
  have hb2 := abs_le.1 hb.err
  have hf0 : 0 ≤ f := (abs_nonneg _).trans hb.err
  have hbL : L ≤ b.val := by linarith
  have hbp : 0 < b.val := by linarith
  have hwp : 0 < w := by linarith
  have hd : |a.val / b.val - v / w| ≤ d := by
    have e1 : a.val / b.val - v / w = ((a.val - v) - v / w * (b.val - w)) / b.val := by
      field_simp
      ring
    rw [e1, abs_div, abs_of_pos hbp]
    refine le_trans ?_ h0
    have : |a.val - v - v / w * (b.val - w)| ≤ e + R * f := by
      refine (abs_sub _ _).trans (add_le_add ha.err ?_)
      rw [abs_mul]
      exact mul_le_mul hR hb.err (abs_nonneg _) ((abs_nonneg _).trans hR)
    exact div_le_div₀ ((abs_nonneg _).trans this) this hL hbL
  obtain ⟨qf, qe⟩ := div_err64 ha.fin hb.fin hbp.ne' k (by
    have := abs_le.1 hd; have := abs_le.1 hR; rw [abs_le]; constructor <;> linarith) hl (by omega)
  have q2 : |(a / b).val - v / w| ≤ g := by
    have := abs_le.1 hd; have := abs_le.1 qe; rw [abs_le]; constructor <;> linarith
  refine ⟨qf, q2, ?_⟩
  have := abs_le.1 q2; have := abs_le.1 hR; rw [abs_le]; constructor <;> linarith

/-- one minus something: never above one -/
theorem Ap.one_sub {z a : Flt f64} {p : List ℚ} {e B : ℝ} (hz : z.isFinite) (hz0 : 0 ≤ z.val) (Z Vm : ℝ)
    (ha : Ap a (Poly.ev p z.val) e B) (hn : Poly.ev p z.val + e ≤ 0) (hZ : |z.val| ≤ Z) (hVm : |Poly.ev (0 :: p) z.val| ≤ Vm) (k1 : ℤ) (hl : -1021 ≤ k1) (hk1 : k1 ≤ -1)
    (h1 : Vm + Z * e ≤ 2 ^ k1) {g : ℝ} (h4 : Z * e + 2 ^ (k1 - 54) + 2 ^ (-54 : ℤ) ≤ g) :
    Ap (1.0 + z * a) (Poly.ev (1 :: p) z.val) g 1 := by
  have e1 : (1.0 : Flt f64) = one f64 := by decide +kernel
  have o1 : (1.0 : Flt f64).val = 1 := by rw [e1, val_one]
  have of : (1.0 : Flt f64).isFinite := by decide +kernel
  have hze : |z.val * a.val - z.val * Poly.ev p z.val| ≤ Z * e := by
    rw [← mul_sub, abs_mul]
    exact mul_le_mul hZ ha.err (abs_nonneg _) ((abs_nonneg _).trans hZ)
  have e0 : Poly.ev (0 :: p) z.val = z.val * Poly.ev p z.val := by simp [Poly.ev]
  rw [e0] at hVm
  have eq : Poly.ev (1 :: p) z.val = 1 + z.val * Poly.ev p z.val := by simp [Poly.ev]
  rw [eq]
  have hneg : a.val ≤ 0 := by linarith [(abs_le.1 ha.err).2]
  generalize Poly.ev p z.val = v at *
  have hp : (2 : ℝ) ^ k1 ≤ 2 ^ (-1 : ℤ) := zpow_le_zpow_right₀ (by norm_num) hk1
  norm_num at hp
  have hm1 : |z.val * a.val| ≤ 2 ^ k1 := by
    have := abs_le.1 hze; have := abs_le.1 hVm; rw [abs_le]; constructor <;> linarith
  obtain ⟨mf, me⟩ := mul_err64 hz ha.fin k1 hm1 hl (by omega)
  have zf : (zero f64 false).isFinite := by decide +kernel
  have m0 : (z * a).val ≤ 0 := by
    have := (mul_rne hz ha.fin).le_of_le mf zf (by rw [show (zero f64 false).val = 0 from isZero_val.1 (by decide +kernel)]; exact mul_nonpos_of_nonneg_of_nonpos hz0 hneg)
    rwa [show (zero f64 false).val = 0 from isZero_val.1 (by decide +kernel)] at this
  have mlo : -1 ≤ (z * a).val := by
    have h3 := abs_le.1 me; have h4 := abs_le.1 hm1
    have : (2 : ℝ) ^ (k1 - 54) ≤ 2 ^ (-1 : ℤ) := zpow_le_zpow_right₀ (by norm_num) (by omega)
    norm_num at this
    linarith [h3.1, h4.1]
  have hs : |(1.0 : Flt f64).val + (z * a).val| ≤ 2 ^ (0 : ℤ) := by
    rw [o1, abs_le]; constructor <;> norm_num <;> linarith
  obtain ⟨sf, se⟩ := add_err64 of mf 0 hs (by norm_num)
  rw [o1] at se
  refine ⟨sf, ?_, ?_⟩
  · have := abs_le.1 hze; have := abs_le.1 me; have := abs_le.1 se; rw [abs_le]; norm_num at *; constructor <;> linarith
  · have := (add_rne of mf).abs_le sf of (c := (1.0 : Flt f64)) (by rw [o1]; norm_num at hs; rw [o1] at hs; exact hs)
    rwa [o1] at this

/-- one step of Horner's rule; the sizes of the results are those of the exact polynomials -/
theorem Ap32.horner {z c a : Flt f32} {q : ℚ} {p : List ℚ} {e B : ℝ} (hz : z.isFinite) (Z Vm V e1 : ℝ) (hc : c.isFinite) (hq : c.val = (q : ℝ))
    (ha : Ap32 a (Poly.ev p z.val) e B) (hZ : |z.val| ≤ Z) (hVm : |Poly.ev (0 :: p) z.val| ≤ Vm) (hV : |Poly.ev (q :: p) z.val| ≤ V) (k1 k2 : ℤ) (hl : -125 ≤ k1) (hk1 : k1 ≤ 100) (hk2 : k2 ≤ 100)
    (h1 : Vm + Z * e ≤ 2 ^ k1) (h2 : Z * e + 2 ^ (k1 - 25) ≤ e1) (h3 : V + e1 ≤ 2 ^ k2) {g D : ℝ} (h4 : e1 + 2 ^ (k2 - 25) ≤ g) (h5 : V + g ≤ D) :
    Ap32 (c + z * a) (Poly.ev (q :: p) z.val) g D := by
  have hze : |z.val * a.val - z.val * Poly.ev p z.val| ≤ Z * e := by
    rw [← mul_sub, abs_mul]
    exact mul_le_mul hZ ha.err (abs_nonneg _) ((abs_nonneg _).trans hZ)
  have e0 : Poly.ev (0 :: p) z.val = z.val * Poly.ev p z.val := by simp [Poly.ev]
  rw [e0] at hVm
  have eq : Poly.ev (q :: p) z.val = q + z.val * Poly.ev p z.val := by simp [Poly.ev]
  rw [eq] at hV ⊢
  generalize Poly.ev p z.val = v at *
  obtain ⟨mf, me⟩ := mul_err32 hz ha.fin k1 (by
    have := abs_le.1 hze; have := abs_le.1 hVm; rw [abs_le]; constructor <;> linarith) hl (by omega)
  have me2 : |(z * a).val - z.val * v| ≤ e1 := by
    have := abs_le.1 hze; have := abs_le.1 me; rw [abs_le]; constructor <;> linarith
  obtain ⟨sf, se⟩ := add_err32 hc mf k2 (by
    rw [hq]
    have := abs_le.1 me2; have := abs_le.1 hV; rw [abs_le]; constructor <;> linarith) (by omega)
  rw [hq] at se
  have se2 : |(c + z * a).val - (q + z.val * v)| ≤ g := by
    have := abs_le.1 me2; have := abs_le.1 se; rw [abs_le]; constructor <;> linarith
  refine ⟨sf, se2, ?_⟩
  have := abs_le.1 se2; have := abs_le.1 hV; rw [abs_le]; constructor <;> linarith

/-- a quotient of known size -/
theorem Ap32.quot {a b : Flt f32} {v w e f B C : ℝ} (ha : Ap32 a v e B) (hb : Ap32 b w f C) (L R : ℝ) (hw : L + f ≤ w) (hL : 0 < L) (hR : |v / w| ≤ R) (k : ℤ) (hl : -125 ≤ k) (hk : k ≤ 100)
    {d g D : ℝ} (h0 : (e + R * f) / L ≤ d) (h1 : R + d ≤ 2 ^ k) (hg : d + 2 ^ (k - 25) ≤ g) (hD : R + g ≤ D) : Ap32 (a / b) (v / w) g D := by
  have hb2 := abs_le.1 hb.err
  have hf0 : 0 ≤ f := (abs_nonneg _).trans hb.err
  have hbL : L ≤ b.val := by linarith
  have hbp : 0 < b.val := by linarith
  have hwp : 0 < w := by linarith
  have hd : |a.val / b.val - v / w| ≤ d := by
    have e1 : a.val / b.val - v / w = ((a.val - v) - v / w * (b.val - w)) / b.val := by
      field_simp
      ring
    rw [e1, abs_div, abs_of_pos hbp]
    refine le_trans ?_ h0
    have : |a.val - v - v / w * (b.val - w)| ≤ e + R * f := by
      refine (abs_sub _ _).trans (add_le_add ha.err ?_)
      rw [abs_mul]
      exact mul_le_mul hR hb.err (abs_nonneg _) ((abs_nonneg _).trans hR)
    exact div_le_div₀ ((abs_nonneg _).trans this) this hL hbL
  obtain ⟨qf, qe⟩ := div_err32 ha.fin hb.fin hbp.ne' k (by
    have := abs_le.1 hd; have := abs_le.1 hR; rw [abs_le]; constructor <;> linarith) hl (by omega)
  have q2 : |(a / b).val - v / w| ≤ g := by
    have := abs_le.1 hd; have := abs_le.1 qe; rw [abs_le]; constructor <;> linarith
  refine ⟨qf, q2, ?_⟩
  have := abs_le.1 q2; have := abs_le.1 hR; rw [abs_le]; constructor <;> linarith

/-- one minus something: never above one -/
theorem Ap32.one_sub {z a : Flt f32} {p : List ℚ} {e B : ℝ} (hz : z.isFinite) (hz0 : 0 ≤ z.val) (Z Vm : ℝ)
    (ha : Ap32 a (Poly.ev p z.val) e B) (hn : Poly.ev p z.val + e ≤ 0) (hZ : |z.val| ≤ Z) (hVm : |Poly.ev (0 :: p) z.val| ≤ Vm) (k1 : ℤ) (hl : -125 ≤ k1) (hk1 : k1 ≤ -1)
    (h1 : Vm + Z * e ≤ 2 ^ k1) {g : ℝ} (h4 : Z * e + 2 ^ (k1 - 25) + 2 ^ (-25 : ℤ) ≤ g) :
    Ap32 (1.0 + z * a) (Poly.ev (1 :: p) z.val) g 1 := by
  have e1 : (1.0 : Flt f32) = one f32 := by decide +kernel
  have o1 : (1.0 : Flt f32).val = 1 := by rw [e1, val_one]
  have of : (1.0 : Flt f32).isFinite := by decide +kernel
  have hze : |z.val * a.val - z.val * Poly.ev p z.val| ≤ Z * e := by
    rw [← mul_sub, abs_mul]
    exact mul_le_mul hZ ha.err (abs_nonneg _) ((abs_nonneg _).trans hZ)
  have e0 : Poly.ev (0 :: p) z.val = z.val * Poly.ev p z.val := by simp [Poly.ev]
  rw [e0] at hVm
  have eq : Poly.ev (1 :: p) z.val = 1 + z.val * Poly.ev p z.val := by simp [Poly.ev]
  rw [eq]
  have hneg : a.val ≤ 0 := by linarith [(abs_le.1 ha.err).2]
  generalize Poly.ev p z.val = v at *
  have hp : (2 : ℝ) ^ k1 ≤ 2 ^ (-1 : ℤ) := zpow_le_zpow_right₀ (by norm_num) hk1
  norm_num at hp
  have hm1 : |z.val * a.val| ≤ 2 ^ k1 := by
    have := abs_le.1 hze; have := abs_le.1 hVm; rw [abs_le]; constructor <;> linarith
  obtain ⟨mf, me⟩ := mul_err32 hz ha.fin k1 hm1 hl (by omega)
  have zf : (zero f32 false).isFinite := by decide +kernel
  have m0 : (z * a).val ≤ 0 := by
    have := (mul_rne hz ha.fin).le_of_le mf zf (by rw [show (zero f32 false).val = 0 from isZero_val.1 (by decide +kernel)]; exact mul_nonpos_of_nonneg_of_nonpos hz0 hneg)
    rwa [show (zero f32 false).val = 0 from isZero_val.1 (by decide +kernel)] at this
  have mlo : -1 ≤ (z * a).val := by
    have h3 := abs_le.1 me; have h4 := abs_le.1 hm1
    have : (2 : ℝ) ^ (k1 - 25) ≤ 2 ^ (-1 : ℤ) := zpow_le_zpow_right₀ (by norm_num) (by omega)
    norm_num at this
    linarith [h3.1, h4.1]
  have hs : |(1.0 : Flt f32).val + (z * a).val| ≤ 2 ^ (0 : ℤ) := by
    rw [o1, abs_le]; constructor <;> norm_num <;> linarith
  obtain ⟨sf, se⟩ := add_err32 of mf 0 hs (by norm_num)
  rw [o1] at se
  refine ⟨sf, ?_, ?_⟩
  · have := abs_le.1 hze; have := abs_le.1 me; have := abs_le.1 se; rw [abs_le]; norm_num at *; constructor <;> linarith
  · have := (add_rne of mf).abs_le sf of (c := (1.0 : Flt f32)) (by rw [o1]; norm_num at hs; rw [o1] at hs; exact hs)
    rwa [o1] at this

namespace Asin
theorem ql_pos {z : ℝ} (h0 : 0 ≤ z) (h1 : z ≤ 1 / 4) : 0 < Poly.ev ql z := lt_of_lt_of_le (by norm_num) (ql_ge h0 h1)
theorem pl_check : Poly.check (Poly.add pl [-(13 / 100)]) 0 (1 / 128) (13 / 100) 16 = true ∧
    Poly.check (Poly.add (Poly.add (0 :: pl) (Poly.smul (-97 / 2048) ql)) [-(-(1 / 40))]) 0 (1 / 1024) (1 / 40) 128 = true := by decide +kernel
/-- the size of the rational function -/
theorem ratio_bd {z : ℝ} (h0 : 0 ≤ z) (h1 : z ≤ 1 / 4) : |z * Poly.ev pl z / Poly.ev ql z| ≤ 97 / 2048 := by
  have hq := ql_pos h0 h1
  have e1 := Poly.bound pl_check.1 (by norm_num) (by norm_num) z (by push_cast; exact h0) (by push_cast; norm_num at h1 ⊢; linarith)
  have e2 := Poly.bound pl_check.2 (by norm_num) (by norm_num) z (by push_cast; exact h0) (by push_cast; norm_num at h1 ⊢; linarith)
  have f1 := (Poly.two_sided e1).1
  have f2 := (Poly.two_sided (c := -(1 / 40)) e2).2
  rw [Poly.ev_add, Poly.ev_smul] at f2
  simp only [Poly.ev.eq_2 _ 0] at f2
  push_cast at f1 f2
  have hn : 0 ≤ z * Poly.ev pl z := mul_nonneg h0 (by norm_num at f1; linarith)
  rw [abs_of_nonneg (div_nonneg hn hq.le), div_le_iff₀ hq]
  norm_num at f2
  linarith
theorem dl_check : Poly.check (Poly.add (Poly.add (Poly.mul (Poly.dev (0 :: pl)) ql) (Poly.smul (-1) (Poly.mul (0 :: pl) (Poly.dev ql)))) [-(1 / 8)]) 0 (1 / 128) (1 / 8) 16 = true ∧
    Poly.check (Poly.add (Poly.add (Poly.add (Poly.mul (Poly.dev (0 :: pl)) ql) (Poly.smul (-1) (Poly.mul (0 :: pl) (Poly.dev ql)))) (Poly.smul (-1 / 4) (Poly.mul ql ql))) [-(-(1 / 20))]) 0 (1 / 1024) (1 / 20) 128 = true := by decide +kernel
/-- the slope of the rational function -/
theorem ratio_lip {x y : ℝ} (hx : 0 ≤ x) (hx1 : x ≤ 1 / 4) (hy : 0 ≤ y) (hy1 : y ≤ 1 / 4) :
    |y * Poly.ev pl y / Poly.ev ql y - x * Poly.ev pl x / Poly.ev ql x| ≤ 1 / 4 * |y - x| := by
  have := Poly.ratio_lip (p := 0 :: pl) (q := ql) (L := 1 / 4) (m := 0) (b := 1 / 4) (fun z h0 h1 => ql_pos h0 h1) (by
    intro z h0 h1
    have hq := ql_pos h0 h1
    have e1 := Poly.bound dl_check.1 (by norm_num) (by norm_num) z (by push_cast; exact h0) (by push_cast; norm_num at h1 ⊢; linarith)
    have e2 := Poly.bound dl_check.2 (by norm_num) (by norm_num) z (by push_cast; exact h0) (by push_cast; norm_num at h1 ⊢; linarith)
    have f1 := (Poly.two_sided e1).1
    have f2 := (Poly.two_sided (c := -(1 / 20)) e2).2
    rw [Poly.ev_add _ (Poly.smul (-1 / 4) _), Poly.ev_smul, Poly.ev_mul ql ql] at f2
    push_cast at f1 f2 ⊢
    rw [abs_of_nonneg (by norm_num at f1; linarith)]
    norm_num at f2
    nlinarith) hx hx1 hy hy1
  simpa [Poly.ev] using this
theorem kern0 {z : Flt f64} (hf : z.isFinite) (h0 : 0 / 1 ≤ z.val) (h1 : z.val ≤ 11 / 64) :
    Ap (compR z) (z.val * Poly.ev pl z.val / Poly.ev ql z.val) (6569 / 2 ^ 68) (1589249 / 2 ^ 25) := by
  have hz0 : 0 ≤ z.val := le_trans (by norm_num) h0
  have hz1 : z.val ≤ 1 / 4 := h1.trans (by norm_num)
  have hZ : |z.val| ≤ 11 / 64 := by rw [abs_of_nonneg hz0]; exact h1
  have key : ∀ (p : List ℚ) (B : ℚ), Poly.check p (0 / 1) (11 / 1024) B 8 = true → |Poly.ev p z.val| ≤ (B : ℝ) := fun p B h =>
    Poly.bound h (by norm_num) (by norm_num) z.val (by push_cast; exact h0) (by push_cast; norm_num at h1 ⊢; linarith)
  have hp5 : Ap ps5 (Poly.ev [5134586392475401 / 2 ^ 67] z.val) 0 (597745 / 2 ^ 34) := .exact (by decide +kernel) (by rw [ps5_val]; simp only [Poly.ev]; push_cast; norm_num) (by simp only [Poly.ev]; push_cast; rw [abs_le]; constructor <;> norm_num)
  have hpm4 := key [0, 5134586392475401 / 2 ^ 67] (821899 / 2 ^ 37) (by decide +kernel)
  have hpv4 := key [912577716565585 / 2 ^ 60, 5134586392475401 / 2 ^ 67] (1712651 / 2 ^ 31) (by decide +kernel)
  have hp4 := Ap.horner hf (11 / 64) (((821899 / 2 ^ 37) : ℚ) : ℝ) (((1712651 / 2 ^ 31) : ℚ) : ℝ) (1 / 2 ^ 71) (c := ps4) (by decide +kernel) (by rw [ps4_val]; push_cast; norm_num) hp5 hZ hpm4 hpv4 (-17) (-10) (by norm_num) (by norm_num) (by norm_num) (by norm_num) (by norm_num) (by norm_num) (g := (129 / 2 ^ 71)) (D := (428163 / 2 ^ 29)) (by norm_num) (by norm_num)
  have hpm3 := key [0, 912577716565585 / 2 ^ 60, 5134586392475401 / 2 ^ 67] (147181 / 2 ^ 30) (by decide +kernel)
  have hpv3 := key [-5772610888044347 / 2 ^ 57, 912577716565585 / 2 ^ 60, 5134586392475401 / 2 ^ 67] (1344041 / 2 ^ 25) (by decide +kernel)
  have hp3 := Ap.horner hf (11 / 64) (((147181 / 2 ^ 30) : ℚ) : ℝ) (((1344041 / 2 ^ 25) : ℚ) : ℝ) (3467 / 2 ^ 77) (c := ps3) (by decide +kernel) (by rw [ps3_val]; push_cast; norm_num) hp4 hZ hpm3 hpv3 (-12) (-4) (by norm_num) (by norm_num) (by norm_num) (by norm_num) (by norm_num) (by norm_num) (g := (1031 / 2 ^ 68)) (D := (672021 / 2 ^ 24)) (by norm_num) (by norm_num)
  have hpm2 := key [0, -5772610888044347 / 2 ^ 57, 912577716565585 / 2 ^ 60, 5134586392475401 / 2 ^ 67] (920891 / 2 ^ 27) (by decide +kernel)
  have hpv2 := key [7249445477958741 / 2 ^ 55, -5772610888044347 / 2 ^ 57, 912577716565585 / 2 ^ 60, 5134586392475401 / 2 ^ 67] (843947 / 2 ^ 22) (by decide +kernel)
  have hp2 := Ap.horner hf (11 / 64) (((920891 / 2 ^ 27) : ℚ) : ℝ) (((843947 / 2 ^ 22) : ℚ) : ℝ) (1221 / 2 ^ 70) (c := ps2) (by decide +kernel) (by rw [ps2_val]; push_cast; norm_num) hp3 hZ hpm2 hpv2 (-7) (-2) (by norm_num) (by norm_num) (by norm_num) (by norm_num) (by norm_num) (by norm_num) (g := (2201 / 2 ^ 67)) (D := (1687895 / 2 ^ 23)) (by norm_num) (by norm_num)
  have hpm1 := key [0, 7249445477958741 / 2 ^ 55, -5772610888044347 / 2 ^ 57, 912577716565585 / 2 ^ 60, 5134586392475401 / 2 ^ 67] (560583 / 2 ^ 24) (by decide +kernel)
  have hpv1 := key [-5864872397729661 / 2 ^ 54, 7249445477958741 / 2 ^ 55, -5772610888044347 / 2 ^ 57, 912577716565585 / 2 ^ 60, 5134586392475401 / 2 ^ 67] (1365523 / 2 ^ 22) (by decide +kernel)
  have hp1 := Ap.horner hf (11 / 64) (((560583 / 2 ^ 24) : ℚ) : ℝ) (((1365523 / 2 ^ 22) : ℚ) : ℝ) (7123 / 2 ^ 70) (c := ps1) (by decide +kernel) (by rw [ps1_val]; push_cast; norm_num) hp2 hZ hpm1 hpv1 (-4) (-1) (by norm_num) (by norm_num) (by norm_num) (by norm_num) (by norm_num) (by norm_num) (g := (4987 / 2 ^ 67)) (D := (341381 / 2 ^ 20)) (by norm_num) (by norm_num)
  have hpm0 := key [0, -5864872397729661 / 2 ^ 54, 7249445477958741 / 2 ^ 55, -5772610888044347 / 2 ^ 57, 912577716565585 / 2 ^ 60, 5134586392475401 / 2 ^ 67] (1686355 / 2 ^ 25) (by decide +kernel)
  have hpv0 := key [6004799503160661 / 2 ^ 55, -5864872397729661 / 2 ^ 54, 7249445477958741 / 2 ^ 55, -5772610888044347 / 2 ^ 57, 912577716565585 / 2 ^ 60, 5134586392475401 / 2 ^ 67] (699051 / 2 ^ 22) (by decide +kernel)
  have hp0 := Ap.horner hf (11 / 64) (((1686355 / 2 ^ 25) : ℚ) : ℝ) (((699051 / 2 ^ 22) : ℚ) : ℝ) (5477 / 2 ^ 69) (c := ps0) (by decide +kernel) (by rw [ps0_val]; push_cast; norm_num) hp1 hZ hpm0 hpv0 (-4) (-2) (by norm_num) (by norm_num) (by norm_num) (by norm_num) (by norm_num) (by norm_num) (g := (6835 / 2 ^ 68)) (D := (1398103 / 2 ^ 23)) (by norm_num) (by norm_num)
  have hq4 : Ap qs4 (Poly.ev [2775591889094977 / 2 ^ 55] z.val) 0 (646243 / 2 ^ 23) := .exact (by decide +kernel) (by rw [qs4_val]; simp only [Poly.ev]; push_cast; norm_num) (by simp only [Poly.ev]; push_cast; rw [abs_le]; constructor <;> norm_num)
  have hqm3 := key [0, 2775591889094977 / 2 ^ 55] (111073 / 2 ^ 23) (by decide +kernel)
  have hqv3 := key [-6199510876094809 / 2 ^ 53, 2775591889094977 / 2 ^ 55] (1443437 / 2 ^ 21) (by decide +kernel)
  have hq3 := Ap.horner hf (11 / 64) (((111073 / 2 ^ 23) : ℚ) : ℝ) (((1443437 / 2 ^ 21) : ℚ) : ℝ) (1 / 2 ^ 60) (c := qs3) (by decide +kernel) (by rw [qs3_val]; push_cast; norm_num) hq4 hZ hqm3 hqv3 (-6) (0) (by norm_num) (by norm_num) (by norm_num) (by norm_num) (by norm_num) (by norm_num) (g := (65 / 2 ^ 60)) (D := (721719 / 2 ^ 20)) (by norm_num) (by norm_num)
  have hqm2 := key [0, -6199510876094809 / 2 ^ 53, 2775591889094977 / 2 ^ 55] (973421 / 2 ^ 23) (by decide +kernel)
  have hqv2 := key [568845660795225 / 2 ^ 48, -6199510876094809 / 2 ^ 53, 2775591889094977 / 2 ^ 55] (529779 / 2 ^ 18) (by decide +kernel)
  have hq2 := Ap.horner hf (11 / 64) (((973421 / 2 ^ 23) : ℚ) : ℝ) (((529779 / 2 ^ 18) : ℚ) : ℝ) (1227 / 2 ^ 66) (c := qs2) (by decide +kernel) (by rw [qs2_val]; push_cast; norm_num) hq3 hZ hqm2 hqv2 (-3) (2) (by norm_num) (by norm_num) (by norm_num) (by norm_num) (by norm_num) (by norm_num) (g := (4403 / 2 ^ 64)) (D := (1059559 / 2 ^ 19)) (by norm_num) (by norm_num)
  have hqm1 := key [0, 568845660795225 / 2 ^ 48, -6199510876094809 / 2 ^ 53, 2775591889094977 / 2 ^ 55] (686941 / 2 ^ 21) (by decide +kernel)
  have hqv1 := key [-5411964214455627 / 2 ^ 51, 568845660795225 / 2 ^ 48, -6199510876094809 / 2 ^ 53, 2775591889094977 / 2 ^ 55] (157509 / 2 ^ 16) (by decide +kernel)
  have hq1 := Ap.horner hf (11 / 64) (((686941 / 2 ^ 21) : ℚ) : ℝ) (((157509 / 2 ^ 16) : ℚ) : ℝ) (1269 / 2 ^ 64) (c := qs1) (by decide +kernel) (by rw [qs1_val]; push_cast; norm_num) hq2 hZ hqm1 hqv1 (-1) (2) (by norm_num) (by norm_num) (by norm_num) (by norm_num) (by norm_num) (by norm_num) (g := (5365 / 2 ^ 64)) (D := (1260073 / 2 ^ 19)) (by norm_num) (by norm_num)
  have hqm0 := key [0, -5411964214455627 / 2 ^ 51, 568845660795225 / 2 ^ 48, -6199510876094809 / 2 ^ 53, 2775591889094977 / 2 ^ 55] (1498217 / 2 ^ 22) (by decide +kernel)
  have hqt := Poly.two_sided (key (Poly.add [-5411964214455627 / 2 ^ 51, 568845660795225 / 2 ^ 48, -6199510876094809 / 2 ^ 53, 2775591889094977 / 2 ^ 55] [-(-3 / 2)]) (5 / 4) (by decide +kernel))
  have hq0 := Ap.one_sub hf hz0 (11 / 64) (((1498217 / 2 ^ 22) : ℚ) : ℝ) hq1 (by have := hqt.2; push_cast at this; norm_num at this ⊢; linarith) hZ hqm0 (-1) (by norm_num) (by norm_num) (by norm_num) (g := (4917 / 2 ^ 65)) (by norm_num)
  have hz : Ap z z.val 0 (11 / 64) := .exact hf rfl hZ
  have hP := Ap.mul hz hp0 (-5) (by norm_num) (by norm_num) (by norm_num) (g := (1687 / 2 ^ 68)) (D := (60075 / 2 ^ 21)) (by norm_num) (by norm_num)
  have hw := (Poly.two_sided (key (Poly.add ql [-(6725 / 2 ^ 13)]) (1479 / 2 ^ 13) (by decide +kernel))).1
  have hr := Ap.quot hP hq0 (10491 / 2 ^ 14) (97 / 2048) (by rw [ql] at hw; push_cast at hw; norm_num at hw ⊢; linarith) (by norm_num) (ratio_bd hz0 hz1) (-4) (by norm_num) (by norm_num) (d := (5545 / 2 ^ 68)) (by norm_num) (by norm_num) (g := (6569 / 2 ^ 68)) (D := (1589249 / 2 ^ 25)) (by norm_num) (by norm_num)
  exact hr

theorem kern1 {z : Flt f64} (hf : z.isFinite) (h0 : 11 / 64 ≤ z.val) (h1 : z.val ≤ 1 / 4) :
    Ap (compR z) (z.val * Poly.ev pl z.val / Poly.ev ql z.val) (2377 / 2 ^ 66) (1589249 / 2 ^ 25) := by
  have hz0 : 0 ≤ z.val := le_trans (by norm_num) h0
  have hz1 : z.val ≤ 1 / 4 := h1.trans (by norm_num)
  have hZ : |z.val| ≤ 1 / 4 := by rw [abs_of_nonneg hz0]; exact h1
  have key : ∀ (p : List ℚ) (B : ℚ), Poly.check p (11 / 64) (5 / 1024) B 8 = true → |Poly.ev p z.val| ≤ (B : ℝ) := fun p B h =>
    Poly.bound h (by norm_num) (by norm_num) z.val (by push_cast; exact h0) (by push_cast; norm_num at h1 ⊢; linarith)
  have hp5 : Ap ps5 (Poly.ev [5134586392475401 / 2 ^ 67] z.val) 0 (597745 / 2 ^ 34) := .exact (by decide +kernel) (by rw [ps5_val]; simp only [Poly.ev]; push_cast; norm_num) (by simp only [Poly.ev]; push_cast; rw [abs_le]; constructor <;> norm_num)
  have hpm4 := key [0, 5134586392475401 / 2 ^ 67] (597745 / 2 ^ 36) (by decide +kernel)
  have hpv4 := key [912577716565585 / 2 ^ 60, 5134586392475401 / 2 ^ 67] (214811 / 2 ^ 28) (by decide +kernel)
  have hp4 := Ap.horner hf (1 / 4) (((597745 / 2 ^ 36) : ℚ) : ℝ) (((214811 / 2 ^ 28) : ℚ) : ℝ) (1 / 2 ^ 70) (c := ps4) (by decide +kernel) (by rw [ps4_val]; push_cast; norm_num) hp5 hZ hpm4 hpv4 (-16) (-10) (by norm_num) (by norm_num) (by norm_num) (by norm_num) (by norm_num) (by norm_num) (g := (65 / 2 ^ 70)) (D := (1718489 / 2 ^ 31)) (by norm_num) (by norm_num)
  have hpm3 := key [0, 912577716565585 / 2 ^ 60, 5134586392475401 / 2 ^ 67] (214811 / 2 ^ 30) (by decide +kernel)
  have hpv3 := key [-5772610888044347 / 2 ^ 57, 912577716565585 / 2 ^ 60, 5134586392475401 / 2 ^ 67] (669721 / 2 ^ 24) (by decide +kernel)
  have hp3 := Ap.horner hf (1 / 4) (((214811 / 2 ^ 30) : ℚ) : ℝ) (((669721 / 2 ^ 24) : ℚ) : ℝ) (129 / 2 ^ 72) (c := ps3) (by decide +kernel) (by rw [ps3_val]; push_cast; norm_num) hp4 hZ hpm3 hpv3 (-12) (-4) (by norm_num) (by norm_num) (by norm_num) (by norm_num) (by norm_num) (by norm_num) (g := (4129 / 2 ^ 70)) (D := (1339443 / 2 ^ 25)) (by norm_num) (by norm_num)
  have hpm2 := key [0, -5772610888044347 / 2 ^ 57, 912577716565585 / 2 ^ 60, 5134586392475401 / 2 ^ 67] (668667 / 2 ^ 26) (by decide +kernel)
  have hpv2 := key [7249445477958741 / 2 ^ 55, -5772610888044347 / 2 ^ 57, 912577716565585 / 2 ^ 60, 5134586392475401 / 2 ^ 67] (1630339 / 2 ^ 23) (by decide +kernel)
  have hp2 := Ap.horner hf (1 / 4) (((668667 / 2 ^ 26) : ℚ) : ℝ) (((1630339 / 2 ^ 23) : ℚ) : ℝ) (4113 / 2 ^ 71) (c := ps2) (by decide +kernel) (by rw [ps2_val]; push_cast; norm_num) hp3 hZ hpm2 hpv2 (-6) (-2) (by norm_num) (by norm_num) (by norm_num) (by norm_num) (by norm_num) (by norm_num) (g := (4611 / 2 ^ 68)) (D := (407585 / 2 ^ 21)) (by norm_num) (by norm_num)
  have hpm1 := key [0, 7249445477958741 / 2 ^ 55, -5772610888044347 / 2 ^ 57, 912577716565585 / 2 ^ 60, 5134586392475401 / 2 ^ 67] (802187 / 2 ^ 24) (by decide +kernel)
  have hpv1 := key [-5864872397729661 / 2 ^ 54, 7249445477958741 / 2 ^ 55, -5772610888044347 / 2 ^ 57, 912577716565585 / 2 ^ 60, 5134586392475401 / 2 ^ 67] (1225415 / 2 ^ 22) (by decide +kernel)
  have hp1 := Ap.horner hf (1 / 4) (((802187 / 2 ^ 24) : ℚ) : ℝ) (((1225415 / 2 ^ 22) : ℚ) : ℝ) (2177 / 2 ^ 68) (c := ps1) (by decide +kernel) (by rw [ps1_val]; push_cast; norm_num) hp2 hZ hpm1 hpv1 (-4) (-1) (by norm_num) (by norm_num) (by norm_num) (by norm_num) (by norm_num) (by norm_num) (g := (5185 / 2 ^ 67)) (D := (153177 / 2 ^ 19)) (by norm_num) (by norm_num)
  have hpm0 := key [0, -5864872397729661 / 2 ^ 54, 7249445477958741 / 2 ^ 55, -5772610888044347 / 2 ^ 57, 912577716565585 / 2 ^ 60, 5134586392475401 / 2 ^ 67] (1165121 / 2 ^ 24) (by decide +kernel)
  have hpv0 := key [6004799503160661 / 2 ^ 55, -5864872397729661 / 2 ^ 54, 7249445477958741 / 2 ^ 55, -5772610888044347 / 2 ^ 57, 912577716565585 / 2 ^ 60, 5134586392475401 / 2 ^ 67] (1953731 / 2 ^ 24) (by decide +kernel)
  have hp0 := Ap.horner hf (1 / 4) (((1165121 / 2 ^ 24) : ℚ) : ℝ) (((1953731 / 2 ^ 24) : ℚ) : ℝ) (4641 / 2 ^ 68) (c := ps0) (by decide +kernel) (by rw [ps0_val]; push_cast; norm_num) hp1 hZ hpm0 hpv0 (-3) (-3) (by norm_num) (by norm_num) (by norm_num) (by norm_num) (by norm_num) (by norm_num) (g := (6689 / 2 ^ 68)) (D := (488433 / 2 ^ 22)) (by norm_num) (by norm_num)
  have hq4 : Ap qs4 (Poly.ev [2775591889094977 / 2 ^ 55] z.val) 0 (646243 / 2 ^ 23) := .exact (by decide +kernel) (by rw [qs4_val]; simp only [Poly.ev]; push_cast; norm_num) (by simp only [Poly.ev]; push_cast; rw [abs_le]; constructor <;> norm_num)
  have hqm3 := key [0, 2775591889094977 / 2 ^ 55] (646243 / 2 ^ 25) (by decide +kernel)
  have hqv3 := key [-6199510876094809 / 2 ^ 53, 2775591889094977 / 2 ^ 55] (353917 / 2 ^ 19) (by decide +kernel)
  have hq3 := Ap.horner hf (1 / 4) (((646243 / 2 ^ 25) : ℚ) : ℝ) (((353917 / 2 ^ 19) : ℚ) : ℝ) (1 / 2 ^ 59) (c := qs3) (by decide +kernel) (by rw [qs3_val]; push_cast; norm_num) hq4 hZ hqm3 hqv3 (-5) (0) (by norm_num) (by norm_num) (by norm_num) (by norm_num) (by norm_num) (by norm_num) (g := (33 / 2 ^ 59)) (D := (1415669 / 2 ^ 21)) (by norm_num) (by norm_num)
  have hqm2 := key [0, -6199510876094809 / 2 ^ 53, 2775591889094977 / 2 ^ 55] (1403077 / 2 ^ 23) (by decide +kernel)
  have hqv2 := key [568845660795225 / 2 ^ 48, -6199510876094809 / 2 ^ 53, 2775591889094977 / 2 ^ 55] (1997457 / 2 ^ 20) (by decide +kernel)
  have hq2 := Ap.horner hf (1 / 4) (((1403077 / 2 ^ 23) : ℚ) : ℝ) (((1997457 / 2 ^ 20) : ℚ) : ℝ) (65 / 2 ^ 61) (c := qs2) (by decide +kernel) (by rw [qs2_val]; push_cast; norm_num) hq3 hZ hqm2 hqv2 (-2) (1) (by norm_num) (by norm_num) (by norm_num) (by norm_num) (by norm_num) (by norm_num) (g := (321 / 2 ^ 61)) (D := (998729 / 2 ^ 19)) (by norm_num) (by norm_num)
  have hqm1 := key [0, 568845660795225 / 2 ^ 48, -6199510876094809 / 2 ^ 53, 2775591889094977 / 2 ^ 55] (1943861 / 2 ^ 22) (by decide +kernel)
  have hqv1 := key [-5411964214455627 / 2 ^ 51, 568845660795225 / 2 ^ 48, -6199510876094809 / 2 ^ 53, 2775591889094977 / 2 ^ 55] (1088415 / 2 ^ 19) (by decide +kernel)
  have hq1 := Ap.horner hf (1 / 4) (((1943861 / 2 ^ 22) : ℚ) : ℝ) (((1088415 / 2 ^ 19) : ℚ) : ℝ) (577 / 2 ^ 63) (c := qs1) (by decide +kernel) (by rw [qs1_val]; push_cast; norm_num) hq2 hZ hqm1 hqv1 (-1) (2) (by norm_num) (by norm_num) (by norm_num) (by norm_num) (by norm_num) (by norm_num) (g := (2625 / 2 ^ 63)) (D := (34013 / 2 ^ 14)) (by norm_num) (by norm_num)
  have hqm0 := key [0, -5411964214455627 / 2 ^ 51, 568845660795225 / 2 ^ 48, -6199510876094809 / 2 ^ 53, 2775591889094977 / 2 ^ 55] (1017259 / 2 ^ 21) (by decide +kernel)
  have hqt := Poly.two_sided (key (Poly.add [-5411964214455627 / 2 ^ 51, 568845660795225 / 2 ^ 48, -6199510876094809 / 2 ^ 53, 2775591889094977 / 2 ^ 55] [-(-3 / 2)]) (5 / 4) (by decide +kernel))
  have hq0 := Ap.one_sub hf hz0 (1 / 4) (((1017259 / 2 ^ 21) : ℚ) : ℝ) hq1 (by have := hqt.2; push_cast at this; norm_num at this ⊢; linarith) hZ hqm0 (-1) (by norm_num) (by norm_num) (by norm_num) (g := (5697 / 2 ^ 65)) (by norm_num)
  have hz : Ap z z.val 0 (1 / 4) := .exact hf rfl hZ
  have hP := Ap.mul hz hp0 (-5) (by norm_num) (by norm_num) (by norm_num) (g := (4369 / 2 ^ 69)) (D := (122109 / 2 ^ 22)) (by norm_num) (by norm_num)
  have hw := (Poly.two_sided (key (Poly.add ql [-(775 / 2 ^ 10)]) (2005 / 2 ^ 13) (by decide +kernel))).1
  have hr := Ap.quot hP hq0 (8389 / 2 ^ 14) (97 / 2048) (by rw [ql] at hw; push_cast at hw; norm_num at hw ⊢; linarith) (by norm_num) (ratio_bd hz0 hz1) (-4) (by norm_num) (by norm_num) (d := (2121 / 2 ^ 66)) (by norm_num) (by norm_num) (g := (2377 / 2 ^ 66)) (D := (1589249 / 2 ^ 25)) (by norm_num) (by norm_num)
  exact hr

theorem kern {z : Flt f64} (hf : z.isFinite) (h0 : 0 ≤ z.val) (h1 : z.val ≤ 1 / 4) :
    Ap (compR z) (z.val * Poly.ev pl z.val / Poly.ev ql z.val) (2377 / 2 ^ 66) (1589249 / 2 ^ 25) := by
  rcases le_total z.val (11 / 64) with h | h
  · exact (kern0 hf (by norm_num; exact h0) h).weaken (by norm_num) (by norm_num)
  · exact (kern1 hf h h1).weaken (by norm_num) (by norm_num)
end Asin

namespace Asinf
theorem ql_pos {z : ℝ} (h0 : 0 ≤ z) (h1 : z ≤ 1 / 4) : 0 < Poly.ev ql z := lt_of_lt_of_le (by norm_num) (ql_ge h0 h1)
theorem pl_check : Poly.check (Poly.add pl [-(13 / 100)]) 0 (1 / 128) (13 / 100) 16 = true ∧
    Poly.check (Poly.add (Poly.add (0 :: pl) (Poly.smul (-97 / 2048) ql)) [-(-(1 / 40))]) 0 (1 / 1024) (1 / 40) 128 = true := by decide +kernel
/-- the size of the rational function -/
theorem ratio_bd {z : ℝ} (h0 : 0 ≤ z) (h1 : z ≤ 1 / 4) : |z * Poly.ev pl z / Poly.ev ql z| ≤ 97 / 2048 := by
  have hq := ql_pos h0 h1
  have e1 := Poly.bound pl_check.1 (by norm_num) (by norm_num) z (by push_cast; exact h0) (by push_cast; norm_num at h1 ⊢; linarith)
  have e2 := Poly.bound pl_check.2 (by norm_num) (by norm_num) z (by push_cast; exact h0) (by push_cast; norm_num at h1 ⊢; linarith)
  have f1 := (Poly.two_sided e1).1
  have f2 := (Poly.two_sided (c := -(1 / 40)) e2).2
  rw [Poly.ev_add, Poly.ev_smul] at f2
  simp only [Poly.ev.eq_2 _ 0] at f2
  push_cast at f1 f2
  have hn : 0 ≤ z * Poly.ev pl z := mul_nonneg h0 (by norm_num at f1; linarith)
  rw [abs_of_nonneg (div_nonneg hn hq.le), div_le_iff₀ hq]
  norm_num at f2
  linarith
theorem dl_check : Poly.check (Poly.add (Poly.add (Poly.mul (Poly.dev (0 :: pl)) ql) (Poly.smul (-1) (Poly.mul (0 :: pl) (Poly.dev ql)))) [-(1 / 8)]) 0 (1 / 128) (1 / 8) 16 = true ∧
    Poly.check (Poly.add (Poly.add (Poly.add (Poly.mul (Poly.dev (0 :: pl)) ql) (Poly.smul (-1) (Poly.mul (0 :: pl) (Poly.dev ql)))) (Poly.smul (-1 / 4) (Poly.mul ql ql))) [-(-(1 / 20))]) 0 (1 / 1024) (1 / 20) 128 = true := by decide +kernel
/-- the slope of the rational function -/
theorem ratio_lip {x y : ℝ} (hx : 0 ≤ x) (hx1 : x ≤ 1 / 4) (hy : 0 ≤ y) (hy1 : y ≤ 1 / 4) :
    |y * Poly.ev pl y / Poly.ev ql y - x * Poly.ev pl x / Poly.ev ql x| ≤ 1 / 4 * |y - x| := by
  have := Poly.ratio_lip (p := 0 :: pl) (q := ql) (L := 1 / 4) (m := 0) (b := 1 / 4) (fun z h0 h1 => ql_pos h0 h1) (by
    intro z h0 h1
    have hq := ql_pos h0 h1
    have e1 := Poly.bound dl_check.1 (by norm_num) (by norm_num) z (by push_cast; exact h0) (by push_cast; norm_num at h1 ⊢; linarith)
    have e2 := Poly.bound dl_check.2 (by norm_num) (by norm_num) z (by push_cast; exact h0) (by push_cast; norm_num at h1 ⊢; linarith)
    have f1 := (Poly.two_sided e1).1
    have f2 := (Poly.two_sided (c := -(1 / 20)) e2).2
    rw [Poly.ev_add _ (Poly.smul (-1 / 4) _), Poly.ev_smul, Poly.ev_mul ql ql] at f2
    push_cast at f1 f2 ⊢
    rw [abs_of_nonneg (by norm_num at f1; linarith)]
    norm_num at f2
    nlinarith) hx hx1 hy hy1
  simpa [Poly.ev] using this
theorem kern0 {z : Flt f32} (hf : z.isFinite) (h0 : 0 / 1 ≤ z.val) (h1 : z.val ≤ 1 / 4) :
    Ap32 (r z) (z.val * Poly.ev pl z.val / Poly.ev ql z.val) (19 / 2 ^ 31) (1589249 / 2 ^ 25) := by
  have hz0 : 0 ≤ z.val := le_trans (by norm_num) h0
  have hz1 : z.val ≤ 1 / 4 := h1.trans (by norm_num)
  have hZ : |z.val| ≤ 1 / 4 := by rw [abs_of_nonneg hz0]; exact h1
  have key : ∀ (p : List ℚ) (B : ℚ), Poly.check p (0 / 1) (1 / 64) B 8 = true → |Poly.ev p z.val| ≤ (B : ℝ) := fun p B h =>
    Poly.bound h (by norm_num) (by norm_num) z.val (by push_cast; exact h0) (by push_cast; norm_num at h1 ⊢; linarith)
  have hp2 : Ap32 ps2 (Poly.ev [-9294699 / 2 ^ 30] z.val) 0 (580919 / 2 ^ 26) := .exact (by decide +kernel) (by rw [ps2_val]; simp only [Poly.ev]; push_cast; norm_num) (by simp only [Poly.ev]; push_cast; rw [abs_le]; constructor <;> norm_num)
  have hpm1 := key [0, -9294699 / 2 ^ 30] (580919 / 2 ^ 28) (by decide +kernel)
  have hpv1 := key [-5736925 / 2 ^ 27, -9294699 / 2 ^ 30] (1506847 / 2 ^ 25) (by decide +kernel)
  have hp1 := Ap32.horner hf (1 / 4) (((580919 / 2 ^ 28) : ℚ) : ℝ) (((1506847 / 2 ^ 25) : ℚ) : ℝ) (1 / 2 ^ 33) (c := ps1) (by decide +kernel) (by rw [ps1_val]; push_cast; norm_num) hp2 hZ hpm1 hpv1 (-8) (-4) (by norm_num) (by norm_num) (by norm_num) (by norm_num) (by norm_num) (by norm_num) (g := (17 / 2 ^ 33)) (D := (47089 / 2 ^ 20)) (by norm_num) (by norm_num)
  have hpm0 := key [0, -5736925 / 2 ^ 27, -9294699 / 2 ^ 30] (1506847 / 2 ^ 27) (by decide +kernel)
  have hpv0 := key [11184757 / 2 ^ 26, -5736925 / 2 ^ 27, -9294699 / 2 ^ 30] (1398131 / 2 ^ 23) (by decide +kernel)
  have hp0 := Ap32.horner hf (1 / 4) (((1506847 / 2 ^ 27) : ℚ) : ℝ) (((1398131 / 2 ^ 23) : ℚ) : ℝ) (33 / 2 ^ 35) (c := ps0) (by decide +kernel) (by rw [ps0_val]; push_cast; norm_num) hp1 hZ hpm0 hpv0 (-6) (-2) (by norm_num) (by norm_num) (by norm_num) (by norm_num) (by norm_num) (by norm_num) (g := (289 / 2 ^ 35)) (D := (349533 / 2 ^ 21)) (by norm_num) (by norm_num)
  have hq1 : Ap32 qs1 (Poly.ev [-5927639 / 2 ^ 23] z.val) 0 (740955 / 2 ^ 20) := .exact (by decide +kernel) (by rw [qs1_val]; simp only [Poly.ev]; push_cast; norm_num) (by simp only [Poly.ev]; push_cast; rw [abs_le]; constructor <;> norm_num)
  have hqm0 := key [0, -5927639 / 2 ^ 23] (740955 / 2 ^ 22) (by decide +kernel)
  have hqt := Poly.two_sided (key (Poly.add [-5927639 / 2 ^ 23] [-(-1 / 2)]) (1 / 4) (by decide +kernel))
  have hq0 := Ap32.one_sub hf hz0 (1 / 4) (((740955 / 2 ^ 22) : ℚ) : ℝ) hq1 (by have := hqt.2; push_cast at this; norm_num at this ⊢; linarith) hZ hqm0 (-2) (by norm_num) (by norm_num) (by norm_num) (g := (5 / 2 ^ 27)) (by norm_num)
  have hz : Ap32 z z.val 0 (1 / 4) := .exact hf rfl hZ
  have hP := Ap32.mul hz hp0 (-4) (by norm_num) (by norm_num) (by norm_num) (g := (545 / 2 ^ 37)) (D := (10923 / 2 ^ 18)) (by norm_num) (by norm_num)
  have hw := (Poly.two_sided (key (Poly.add ql [-(7463 / 2 ^ 13)]) (371 / 2 ^ 12) (by decide +kernel))).1
  have hr := Ap32.quot hP hq0 (13441 / 2 ^ 14) (97 / 2048) (by rw [ql] at hw; push_cast at hw; norm_num at hw ⊢; linarith) (by norm_num) (ratio_bd hz0 hz1) (-4) (by norm_num) (by norm_num) (d := (15 / 2 ^ 31)) (by norm_num) (by norm_num) (g := (19 / 2 ^ 31)) (D := (1589249 / 2 ^ 25)) (by norm_num) (by norm_num)
  exact hr

theorem kern {z : Flt f32} (hf : z.isFinite) (h0 : 0 ≤ z.val) (h1 : z.val ≤ 1 / 4) :
    Ap32 (r z) (z.val * Poly.ev pl z.val / Poly.ev ql z.val) (19 / 2 ^ 31) (1589249 / 2 ^ 25) := by
  exact kern0 hf (by norm_num; exact h0) h1
end Asinf

end Verif
