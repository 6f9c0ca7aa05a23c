import Verif.Model.Sqrt
import Verif.Theory.Bits
import Mathlib.Analysis.Real.Sqrt
import Mathlib.Tactic.Linarith
import Mathlib.Tactic.NormNum
import Mathlib.Tactic.Ring
import Mathlib.Tactic.FieldSimp
import Mathlib.Tactic.Positivity

/-!
# Error analysis of the Goldschmidt iterations of sqrt

`t` is the exact square root of the fixed-point mantissa `μ`, a number in `[1, 2)`.  A `w`-bit reciprocal `r` has the
relative value `a = r t / 2^w`, a `w`-bit root `s` (two integral bits) has the relative value `b = 4 s / (2^w t)`; both
are `1` when exact.  `E = 4 / 2^w` is the unit of a `w`-bit number with two integral bits.
-/

namespace Verif.Sqrt

/-- `u = 3 - s r` in `w`-bit fixed point -/
def gU (w s r : ℕ) : ℕ := 3 * 2 ^ (w - 2) - s * r / 2 ^ w

theorem floor_bounds (a n : ℕ) (hn : 0 < n) : ((a / n : ℕ) : ℝ) ≤ (a : ℝ) / n ∧ (a : ℝ) / n < (a / n : ℕ) + 1 := by
  have hn' : (0 : ℝ) < n := by exact_mod_cast hn
  refine ⟨?_, ?_⟩
  · rw [le_div_iff₀ hn']; exact_mod_cast Nat.div_mul_le_self a n
  rw [div_lt_iff₀ hn']
  have := Nat.lt_div_mul_add (a := a) hn
  have h2 : ((a : ℕ) : ℝ) < ((a / n * n + n : ℕ) : ℝ) := by exact_mod_cast this
  push_cast at h2 ⊢
  nlinarith

theorem four_pow (w : ℕ) (hw : 2 ≤ w) : (2 : ℝ) ^ w = 4 * 2 ^ (w - 2) := by
  have : w = w - 2 + 2 := by omega
  conv_lhs => rw [this, pow_add]
  ring

/-- relative value of a reciprocal -/
noncomputable def ra (w : ℕ) (t : ℝ) (r : ℕ) : ℝ := r * t / 2 ^ w
/-- relative value of a root -/
noncomputable def rb (w : ℕ) (t : ℝ) (s : ℕ) : ℝ := 4 * s / (2 ^ w * t)
/-- the unit -/
noncomputable def eu (w : ℕ) : ℝ := 4 / 2 ^ w

variable {w : ℕ} {t : ℝ} {r s u : ℕ}

theorem eu_pos : 0 < eu w := by unfold eu; positivity

theorem prod_rel (ht : 0 < t) : (s : ℝ) * r / 2 ^ w = ra w t r * rb w t s * 2 ^ w / 4 := by
  unfold ra rb; field_simp

/-- the factor `u` -/
theorem gU_spec (hw : 2 ≤ w) (ht : 0 < t) (hab : ra w t r * rb w t s ≤ 3) :
    s * r / 2 ^ w ≤ 3 * 2 ^ (w - 2) ∧ 3 - ra w t r * rb w t s ≤ gU w s r * eu w ∧
    gU w s r * eu w ≤ 3 - ra w t r * rb w t s + eu w := by
  have hp : (0 : ℝ) < 2 ^ w := by positivity
  have h4 := four_pow w hw
  obtain ⟨f1, f2⟩ := floor_bounds (s * r) (2 ^ w) (by positivity)
  push_cast at f1 f2
  rw [prod_rel (w := w) (r := r) (s := s) ht] at f1 f2
  have hle : ((s * r / 2 ^ w : ℕ) : ℝ) ≤ ((3 * 2 ^ (w - 2) : ℕ) : ℝ) := by
    push_cast
    nlinarith
  have hle' : s * r / 2 ^ w ≤ 3 * 2 ^ (w - 2) := by exact_mod_cast hle
  have hu : ((gU w s r : ℕ) : ℝ) = 3 * 2 ^ w / 4 - ((s * r / 2 ^ w : ℕ) : ℝ) := by
    unfold gU
    rw [Nat.cast_sub hle']
    push_cast
    rw [h4]; ring
  refine ⟨hle', ?_, ?_⟩
  · rw [hu, eu]
    field_simp
    nlinarith
  · rw [hu, eu]
    field_simp
    nlinarith

/-- the update of the reciprocal -/
theorem newR (ht : 0 < t) (ht2 : t ≤ 2) :
    ra w t (2 * (r * u / 2 ^ w)) ≤ ra w t r * (u * eu w) / 2 ∧
    ra w t r * (u * eu w) / 2 - eu w ≤ ra w t (2 * (r * u / 2 ^ w)) := by
  have hp : (0 : ℝ) < 2 ^ w := by positivity
  obtain ⟨f1, f2⟩ := floor_bounds (r * u) (2 ^ w) (by positivity)
  push_cast at f1 f2
  have e : ra w t r * (u * eu w) / 2 = 2 * ((r : ℝ) * u / 2 ^ w) * t / 2 ^ w := by
    unfold ra eu; field_simp; ring
  rw [e]
  unfold ra eu
  push_cast
  constructor
  · gcongr
  · rw [div_sub_div_same]
    apply div_le_div_of_nonneg_right _ hp.le
    nlinarith

/-- the update of the root -/
theorem newS (ht : 1 ≤ t) :
    rb w t (2 * (s * u / 2 ^ w)) ≤ rb w t s * (u * eu w) / 2 ∧
    rb w t s * (u * eu w) / 2 - 2 * eu w ≤ rb w t (2 * (s * u / 2 ^ w)) := by
  have hp : (0 : ℝ) < 2 ^ w := by positivity
  have ht0 : 0 < t := by linarith
  obtain ⟨f1, f2⟩ := floor_bounds (s * u) (2 ^ w) (by positivity)
  push_cast at f1 f2
  have e : rb w t s * (u * eu w) / 2 = 4 * (2 * ((s : ℝ) * u / 2 ^ w)) / (2 ^ w * t) := by
    unfold rb eu; field_simp; ring
  rw [e]
  unfold rb eu
  push_cast
  constructor
  · gcongr
  · rw [sub_le_iff_le_add]
    have h2 : 2 * ((4 : ℝ) / 2 ^ w) = 8 * t / (2 ^ w * t) := by field_simp; norm_num
    rw [h2, ← add_div]
    apply div_le_div_of_nonneg_right _ (by positivity)
    nlinarith

/-- the first root `s = m r` of a set, from a mantissa truncated to `w` bits -/
theorem firstS {m : ℕ} (ht : 1 ≤ t) (hm1 : (m : ℝ) * eu w ≤ t ^ 2) (hm2 : t ^ 2 ≤ (m + 1) * eu w) (ha : ra w t r ≤ 2) :
    rb w t (m * r / 2 ^ w) ≤ ra w t r ∧ ra w t r - 3 * eu w ≤ rb w t (m * r / 2 ^ w) := by
  have hp : (0 : ℝ) < 2 ^ w := by positivity
  have ht0 : 0 < t := by linarith
  obtain ⟨f1, f2⟩ := floor_bounds (m * r) (2 ^ w) (by positivity)
  push_cast at f1 f2
  unfold rb
  unfold ra at ha ⊢
  unfold eu at hm1 hm2 ⊢
  have hm1' : (m : ℝ) * 4 ≤ t ^ 2 * 2 ^ w := by
    rw [← mul_div_assoc, div_le_iff₀ hp] at hm1; exact hm1
  have hm2' : t ^ 2 * 2 ^ w ≤ (m + 1) * 4 := by
    rw [← mul_div_assoc, le_div_iff₀ hp] at hm2; exact hm2
  rw [div_le_iff₀ hp] at ha
  rw [le_div_iff₀ hp] at f1
  rw [div_lt_iff₀ hp] at f2
  have hr : (0 : ℝ) ≤ r := Nat.cast_nonneg _
  have hr2 : (r : ℝ) ≤ 2 * 2 ^ w := by nlinarith
  constructor
  · rw [div_le_div_iff₀ (by positivity) hp]
    nlinarith
  · rw [← mul_div_assoc, div_sub_div_same, div_le_div_iff₀ hp (by positivity)]
    have : ((r : ℝ) * t - 3 * 4) * (2 ^ w * t) ≤ 4 * ((m * r / 2 ^ w : ℕ) : ℝ) * 2 ^ w := by
      nlinarith
    exact this

/-- one step, reciprocal: quadratic convergence plus rounding -/
theorem poly_a {x y A D : ℝ} (hx : |x| ≤ A) (hy : |y| ≤ A) (hA : A ≤ 1 / 16) (hD : |x - y| ≤ D) :
    |(1 + x) * (3 - (1 + x) * (1 + y)) / 2 - 1| ≤ D / 2 + 1.6 * A ^ 2 := by
  have hA0 : 0 ≤ A := (abs_nonneg x).trans hx
  obtain ⟨x1, x2⟩ := abs_le.mp hx
  obtain ⟨y1, y2⟩ := abs_le.mp hy
  obtain ⟨d1, d2⟩ := abs_le.mp hD
  have e : (1 + x) * (3 - (1 + x) * (1 + y)) / 2 - 1 = (x - y) / 2 - x * y - x * x / 2 - x * (x * y) / 2 := by ring
  have xy : |x * y| ≤ A ^ 2 := by
    rw [abs_mul, pow_two]; exact mul_le_mul hx hy (abs_nonneg _) hA0
  have xx : |x * x| ≤ A ^ 2 := by
    rw [abs_mul, pow_two]; exact mul_le_mul hx hx (abs_nonneg _) hA0
  have xxy : |x * (x * y)| ≤ A ^ 2 / 16 := by
    rw [abs_mul]
    calc |x| * |x * y| ≤ (1 / 16) * A ^ 2 := mul_le_mul (hx.trans hA) xy (abs_nonneg _) (by norm_num)
      _ = _ := by ring
  obtain ⟨a1, a2⟩ := abs_le.mp xy
  obtain ⟨b1, b2⟩ := abs_le.mp xx
  obtain ⟨c1, c2⟩ := abs_le.mp xxy
  rw [e, abs_le]
  constructor <;> nlinarith [sq_nonneg A]

/-- one-sided: the iteration cannot overshoot by more than the rounding errors -/
theorem poly_up {x y D : ℝ} (hx : |x| ≤ 1 / 16) (hD : |x - y| ≤ D) :
    (1 + x) * (3 - (1 + x) * (1 + y)) / 2 - 1 ≤ 0.57 * D := by
  obtain ⟨x1, x2⟩ := abs_le.mp hx
  obtain ⟨d1, d2⟩ := abs_le.mp hD
  have e : (1 + x) * (3 - (1 + x) * (1 + y)) / 2 - 1 = (x - y) * ((1 + x) ^ 2 / 2) - x ^ 2 * (3 + x) / 2 := by ring
  rw [e]
  have h1 : (1 + x) ^ 2 / 2 ≤ 0.57 := by nlinarith
  have h2 : 0 ≤ (1 + x) ^ 2 / 2 := by positivity
  have h3 : 0 ≤ x ^ 2 * (3 + x) / 2 := by
    have : 0 ≤ 3 + x := by linarith
    positivity
  have h4 : (x - y) * ((1 + x) ^ 2 / 2) ≤ D * 0.57 := by
    calc (x - y) * ((1 + x) ^ 2 / 2) ≤ D * ((1 + x) ^ 2 / 2) := by gcongr
      _ ≤ D * 0.57 := by
        have : 0 ≤ D := (abs_nonneg _).trans hD
        gcongr
  linarith

/-- one complete iteration (`u`, then the new reciprocal and root) -/
theorem step {A D : ℝ} (hw : 10 ≤ w) (ht : 1 ≤ t) (ht2 : t ≤ 2) (hA : A ≤ 1 / 16)
    (ha : |ra w t r - 1| ≤ A) (hb : |rb w t s - 1| ≤ A) (hD : |ra w t r - rb w t s| ≤ D) :
    s * r / 2 ^ w ≤ 3 * 2 ^ (w - 2) ∧
    |ra w t (2 * (r * gU w s r / 2 ^ w)) - 1| ≤ D / 2 + 1.6 * A ^ 2 + eu w ∧
    |rb w t (2 * (s * gU w s r / 2 ^ w)) - 1| ≤ D / 2 + 1.6 * A ^ 2 + 2 * eu w ∧
    |ra w t (2 * (r * gU w s r / 2 ^ w)) - rb w t (2 * (s * gU w s r / 2 ^ w))| ≤ 1.1 * D + 2 * eu w ∧
    ra w t (2 * (r * gU w s r / 2 ^ w)) ≤ 1 + 0.57 * D + 0.6 * eu w := by
  have hE := eu_pos (w := w)
  have hE1 : eu w ≤ 1 / 256 := by
    unfold eu
    have : (2 : ℝ) ^ 10 ≤ 2 ^ w := pow_le_pow_right₀ (by norm_num) hw
    rw [div_le_div_iff₀ (by positivity) (by norm_num)]
    linarith
  have ht0 : 0 < t := by linarith
  obtain ⟨a1, a2⟩ := abs_le.mp ha
  obtain ⟨b1, b2⟩ := abs_le.mp hb
  obtain ⟨d1, d2⟩ := abs_le.mp hD
  have hD0 : 0 ≤ D := (abs_nonneg _).trans hD
  have hab : ra w t r * rb w t s ≤ 3 := by nlinarith
  obtain ⟨g1, g2, g3⟩ := gU_spec (by omega) ht0 hab
  obtain ⟨p1, p2⟩ := newR (w := w) (t := t) (r := r) (u := gU w s r) ht0 ht2
  obtain ⟨q1, q2⟩ := newS (w := w) (t := t) (s := s) (u := gU w s r) ht
  set a := ra w t r with hadef
  set b := rb w t s with hbdef
  set v := (gU w s r : ℝ) * eu w with hv
  set E := eu w with hEd
  have hA0 : 0 ≤ A := (abs_nonneg _).trans ha
  have pa := poly_a (x := a - 1) (y := b - 1) (A := A) (D := D) ha hb hA (by rw [show a - 1 - (b - 1) = a - b by ring]; exact hD)
  have pb := poly_a (x := b - 1) (y := a - 1) (A := A) (D := D) hb ha hA (by
    rw [show b - 1 - (a - 1) = -(a - b) by ring, abs_neg]; exact hD)
  have pu := poly_up (x := a - 1) (y := b - 1) (D := D) (ha.trans hA) (by
    rw [show a - 1 - (b - 1) = a - b by ring]; exact hD)
  have ea : (1 + (a - 1)) * (3 - (1 + (a - 1)) * (1 + (b - 1))) / 2 - 1 = a * (3 - a * b) / 2 - 1 := by ring
  have eb : (1 + (b - 1)) * (3 - (1 + (b - 1)) * (1 + (a - 1))) / 2 - 1 = b * (3 - a * b) / 2 - 1 := by ring
  rw [ea] at pa pu
  rw [eb] at pb
  obtain ⟨pa1, pa2⟩ := abs_le.mp pa
  obtain ⟨pb1, pb2⟩ := abs_le.mp pb
  have ha0 : 0 ≤ a := by linarith
  have hb0 : 0 ≤ b := by linarith
  have va1 : a * (3 - a * b) ≤ a * v := mul_le_mul_of_nonneg_left g2 ha0
  have va2 : a * v ≤ a * (3 - a * b + E) := mul_le_mul_of_nonneg_left g3 ha0
  have vb1 : b * (3 - a * b) ≤ b * v := mul_le_mul_of_nonneg_left g2 hb0
  have vb2 : b * v ≤ b * (3 - a * b + E) := mul_le_mul_of_nonneg_left g3 hb0
  have aE : a * E ≤ 1.1 * E := by apply mul_le_mul_of_nonneg_right _ hE.le; linarith
  have bE : b * E ≤ 1.1 * E := by apply mul_le_mul_of_nonneg_right _ hE.le; linarith
  have aE0 : 0 ≤ a * E := by positivity
  have bE0 : 0 ≤ b * E := by positivity
  refine ⟨g1, ?_, ?_, ?_, ?_⟩
  · rw [abs_le]; constructor <;> linarith
  · rw [abs_le]; constructor <;> linarith
  · have hab1 : 0.85 ≤ a * b := by nlinarith
    have hv2 : v ≤ 2.2 := by linarith
    have hv0 : 0 ≤ v := by linarith
    have h0 : |(a - b) * v| ≤ D * 2.2 := by
      rw [abs_mul, abs_of_nonneg hv0]
      exact mul_le_mul hD hv2 hv0 hD0
    obtain ⟨h1, h2⟩ := abs_le.mp h0
    rw [abs_le]; constructor <;> linarith
  · linarith

end Verif.Sqrt
