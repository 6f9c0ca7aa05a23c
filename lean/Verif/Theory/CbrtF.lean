import Verif.Model.Cbrt
import Verif.Theory.Rel64
import Verif.Theory.RplArg

/-!
# cbrtf: the first approximation, and the two steps of the iteration
-/

namespace Verif
open Flt

namespace Cbrtf

/-! ## The first approximation -/

/-- a linear piece of the first approximation, as real numbers: `v^3` is close to `x`, which is close to `k v - c` -/
theorem piece {v x : ℝ} (a b k c ε t : ℝ) (ha : 0 < a) (ht : 0 < t) (hv1 : a ≤ v) (hv2 : v ≤ b)
    (hx1 : k * v - c ≤ x) (hx2 : x ≤ k * v - c + ε)
    (lo1 : (29 / 30) ^ 3 * (k * v - c + ε) ≤ 3 * t ^ 2 * v - 2 * t ^ 3)
    (hi1 : (a ^ 2 + a * b + b ^ 2) * v - a * b * (a + b) ≤ (31 / 30) ^ 3 * (k * v - c)) :
    (29 / 30) ^ 3 * x ≤ v ^ 3 ∧ v ^ 3 ≤ (31 / 30) ^ 3 * x := by
  constructor
  · have h1 : 0 ≤ (v - t) ^ 2 * (v + 2 * t) := mul_nonneg (sq_nonneg _) (by linarith)
    have h2 : (v - t) ^ 2 * (v + 2 * t) = v ^ 3 - (3 * t ^ 2 * v - 2 * t ^ 3) := by ring
    linarith
  · have h1 : 0 ≤ (v - a) * (b - v) * (v + a + b) := mul_nonneg (mul_nonneg (by linarith) (by linarith)) (by linarith)
    have h2 : (v - a) * (b - v) * (v + a + b) = (a ^ 2 + a * b + b ^ 2) * v - a * b * (a + b) - v ^ 3 := by ring
    linarith

/-- the value of the encoding `n` of a positive normal float -/
noncomputable def V (n : ℕ) : ℝ := ((2 ^ 23 + n % 2 ^ 23 : ℕ) : ℝ) * 2 ^ ((n / 2 ^ 23 : ℕ) - 150 : ℤ)

theorem V_pos (n : ℕ) : 0 < V n := by unfold V; have := zp (((n / 2 ^ 23 : ℕ) : ℤ) - 150); positivity

theorem scale_le {A B C D p q : ℝ} (T : ℝ) (hT : 0 < T) (e1 : A = p * T) (e2 : B = q * T) (h : C * q ≤ p ∧ p ≤ D * q) :
    C * B ≤ A ∧ A ≤ D * B := by
  subst e1 e2
  constructor
  · have := mul_le_mul_of_nonneg_right h.1 hT.le; linarith
  · have := mul_le_mul_of_nonneg_right h.2 hT.le; linarith

theorem realA (j : ℕ) (hj : j < 3) {d M : ℝ} (r1 : 3 * d ≤ j * 2 ^ 23 + M) (r2 : j * 2 ^ 23 + M ≤ 3 * d + 2) (rM : M ≤ 2 ^ 23 - 1) (rM0 : 0 ≤ M)
    (rs : d + 5315058 ≤ 2 ^ 23) : (29 / 30) ^ 3 * ((2 ^ 23 + M) * 2 ^ (48 + j)) ≤ (2 ^ 23 + (d + 5315058)) ^ 3 ∧
    (2 ^ 23 + (d + 5315058)) ^ 3 ≤ (31 / 30) ^ 3 * ((2 ^ 23 + M) * 2 ^ (48 + j)) := by
  obtain ⟨v, hv⟩ : ∃ v : ℝ, v = 1 + (d + 5315058) / 2 ^ 23 := ⟨_, rfl⟩
  have ev : (2 : ℝ) ^ 23 + (d + 5315058) = 2 ^ 23 * v := by rw [hv]; ring
  rw [ev]
  interval_cases j
  · have := piece (v := v) (x := 4 * (1 + M / 2 ^ 23)) (163 / 100) (198 / 100) 12 (12 * (1 + 5315058 / 2 ^ 23) - 4) (1 / 2 ^ 19) (19 / 10)
      (by norm_num) (by norm_num) (by rw [hv]; norm_num at *; linarith) (by rw [hv]; norm_num at *; linarith) (by rw [hv]; norm_num at *; linarith)
      (by rw [hv]; norm_num at *; linarith) (by rw [hv]; norm_num at *; linarith) (by rw [hv]; norm_num at *; linarith)
    constructor <;> norm_num at * <;> linarith [this.1, this.2]
  · have := piece (v := v) (x := 8 * (1 + M / 2 ^ 23)) (196 / 100) 2 24 (24 * (1 + 5315058 / 2 ^ 23)) (1 / 2 ^ 19) 2
      (by norm_num) (by norm_num) (by rw [hv]; norm_num at *; linarith) (by rw [hv]; norm_num at *; linarith) (by rw [hv]; norm_num at *; linarith)
      (by rw [hv]; norm_num at *; linarith) (by rw [hv]; norm_num at *; linarith) (by rw [hv]; norm_num at *; linarith)
    constructor <;> norm_num at * <;> linarith [this.1, this.2]
  · exfalso
    norm_num at *
    linarith

theorem realB (j : ℕ) (hj : j < 3) {d M : ℝ} (r1 : 3 * d ≤ j * 2 ^ 23 + M) (r2 : j * 2 ^ 23 + M ≤ 3 * d + 2) (rM : M ≤ 2 ^ 23 - 1) (rM0 : 0 ≤ M)
    (rs : 2 ^ 23 ≤ d + 5315058) : (29 / 30) ^ 3 * ((2 ^ 23 + M) * 2 ^ (48 + j)) ≤ (d + 5315058) ^ 3 * 8 ∧
    (d + 5315058) ^ 3 * 8 ≤ (31 / 30) ^ 3 * ((2 ^ 23 + M) * 2 ^ (48 + j)) := by
  obtain ⟨v, hv⟩ : ∃ v : ℝ, v = (d + 5315058) / 2 ^ 23 := ⟨_, rfl⟩
  have ev : (d + 5315058 : ℝ) = 2 ^ 23 * v := by rw [hv]; ring
  rw [ev]
  interval_cases j
  · exfalso
    norm_num at *
    linarith
  · have := piece (v := v) (x := 1 + M / 2 ^ 23) 1 (1301 / 1000) 3 (3 * (5315058 / 2 ^ 23)) (1 / 2 ^ 19) 1
      (by norm_num) (by norm_num) (by rw [hv]; norm_num at *; linarith) (by rw [hv]; norm_num at *; linarith) (by rw [hv]; norm_num at *; linarith)
      (by rw [hv]; norm_num at *; linarith) (by rw [hv]; norm_num at *; linarith) (by rw [hv]; norm_num at *; linarith)
    constructor <;> norm_num at * <;> linarith [this.1, this.2]
  · have := piece (v := v) (x := 2 * (1 + M / 2 ^ 23)) (13 / 10) (1634 / 1000) 6 (6 * (5315058 / 2 ^ 23) + 2) (1 / 2 ^ 19) (1347 / 1000)
      (by norm_num) (by norm_num) (by rw [hv]; norm_num at *; linarith) (by rw [hv]; norm_num at *; linarith) (by rw [hv]; norm_num at *; linarith)
      (by rw [hv]; norm_num at *; linarith) (by rw [hv]; norm_num at *; linarith) (by rw [hv]; norm_num at *; linarith)
    constructor <;> norm_num at * <;> linarith [this.1, this.2]

/-- the first approximation is within a thirtieth of the cube root -/
theorem hack (N b : ℕ) :
    (29 / 30) ^ 3 * (V N * 2 ^ (3 * ((b : ℤ) - 84))) ≤ V (N / 3 + (b * 2 ^ 23 + 5315058)) ^ 3 ∧
    V (N / 3 + (b * 2 ^ 23 + 5315058)) ^ 3 ≤ (31 / 30) ^ 3 * (V N * 2 ^ (3 * ((b : ℤ) - 84))) := by
  obtain ⟨k, j, M, hj, hM, hN⟩ : ∃ k j M, j < 3 ∧ M < 2 ^ 23 ∧ N = (3 * k + j) * 2 ^ 23 + M :=
    ⟨N / 2 ^ 23 / 3, N / 2 ^ 23 % 3, N % 2 ^ 23, by omega, by omega, by omega⟩
  obtain ⟨d, hd1, hd2⟩ : ∃ d, 3 * d ≤ j * 2 ^ 23 + M ∧ j * 2 ^ 23 + M ≤ 3 * d + 2 := ⟨(j * 2 ^ 23 + M) / 3, by omega, by omega⟩
  have hh : N / 3 + (b * 2 ^ 23 + 5315058) = (k + b) * 2 ^ 23 + (d + 5315058) := by omega
  have n1 : N / 2 ^ 23 = 3 * k + j := by omega
  have n2 : N % 2 ^ 23 = M := by omega
  have r1 : (3 : ℝ) * d ≤ j * 2 ^ 23 + M := by exact_mod_cast hd1
  have r2 : (j : ℝ) * 2 ^ 23 + M ≤ 3 * d + 2 := by exact_mod_cast hd2
  have rM : (M : ℝ) ≤ 2 ^ 23 - 1 := by
    have : (M : ℝ) + 1 ≤ 2 ^ 23 := by exact_mod_cast hM
    linarith
  have rM0 : (0 : ℝ) ≤ M := by positivity
  rw [hh]
  have eN : V N * 2 ^ (3 * ((b : ℤ) - 84)) = ((2 ^ 23 + M) * 2 ^ (48 + j)) * 2 ^ (3 * ((k : ℤ) + b - 150)) := by
    unfold V
    rw [n1, n2, mul_assoc, mul_assoc, ← zpow_natCast (2 : ℝ) (48 + j), ← zpow_add₀ (by norm_num), ← zpow_add₀ (by norm_num)]
    push_cast
    congr 2 <;> ring
  by_cases hs : d + 5315058 < 2 ^ 23
  · have m1 : ((k + b) * 2 ^ 23 + (d + 5315058)) / 2 ^ 23 = k + b := by omega
    have m2 : ((k + b) * 2 ^ 23 + (d + 5315058)) % 2 ^ 23 = d + 5315058 := by omega
    have rs : (d : ℝ) + 5315058 ≤ 2 ^ 23 := by
      have : (d : ℝ) + 5315058 < 2 ^ 23 := by exact_mod_cast hs
      linarith
    have eH : V ((k + b) * 2 ^ 23 + (d + 5315058)) ^ 3 = (2 ^ 23 + (d + 5315058)) ^ 3 * 2 ^ (3 * ((k : ℤ) + b - 150)) := by
      unfold V
      rw [m1, m2, mul_pow, ← zpow_natCast ((2 : ℝ) ^ (_ : ℤ)), ← zpow_mul,
        show (((k + b : ℕ) : ℤ) - 150) * ((3 : ℕ) : ℤ) = 3 * ((k : ℤ) + b - 150) by push_cast; ring]
      push_cast
      ring
    refine scale_le _ (zp _) eH eN ?_
    exact realA j hj r1 r2 rM rM0 rs
  · have m1 : ((k + b) * 2 ^ 23 + (d + 5315058)) / 2 ^ 23 = k + b + 1 := by omega
    have m2 : 2 ^ 23 + ((k + b) * 2 ^ 23 + (d + 5315058)) % 2 ^ 23 = d + 5315058 := by omega
    have rs : (2 : ℝ) ^ 23 ≤ d + 5315058 := by
      have : 2 ^ 23 ≤ d + 5315058 := by omega
      exact_mod_cast this
    have eH : V ((k + b) * 2 ^ 23 + (d + 5315058)) ^ 3 = ((d + 5315058) ^ 3 * 8) * 2 ^ (3 * ((k : ℤ) + b - 150)) := by
      unfold V
      rw [m1, m2, mul_pow, ← zpow_natCast ((2 : ℝ) ^ (_ : ℤ)), ← zpow_mul, show (8 : ℝ) = 2 ^ (3 : ℤ) by norm_num, mul_assoc, ← zpow_add₀ (by norm_num),
        show (((k + b + 1 : ℕ) : ℤ) - 150) * ((3 : ℕ) : ℤ) = 3 + 3 * ((k : ℤ) + b - 150) by push_cast; ring]
      push_cast
      ring
    refine scale_le _ (zp _) eH eN ?_
    exact realB j hj r1 r2 rM rM0 rs

/-! ## The iteration -/

/-- one exact step, relative to the cube root -/
noncomputable def halley (u : ℝ) : ℝ := u * (2 + u ^ 3) / (1 + 2 * u ^ 3)

theorem rng {c m : ℝ} (k : ℕ) (hk : k ≤ 4) (h1 : (2 : ℝ) ^ (-60 : ℤ) ≤ |c|) (h2 : |c| ≤ 2 ^ (50 : ℤ)) (m1 : 1 / 4 ≤ m) (m2 : m ≤ 16) :
    (2 : ℝ) ^ (-1000 : ℤ) ≤ |c ^ k * m| ∧ |c ^ k * m| ≤ 2 ^ (1000 : ℤ) := by
  have hc0 : (0 : ℝ) < |c| := lt_of_lt_of_le (zp _) h1
  rw [abs_mul, abs_pow, abs_of_pos (by linarith : 0 < m)]
  have lo : (2 : ℝ) ^ (-240 : ℤ) ≤ |c| ^ k := by
    have h3 := pow_le_pow_left₀ (zp (-60)).le h1 k
    refine le_trans ?_ h3
    rw [← zpow_natCast, ← zpow_mul]
    exact zpow_le_zpow_right₀ (by norm_num) (by push_cast; omega)
  have hi : |c| ^ k ≤ (2 : ℝ) ^ (200 : ℤ) := by
    have h3 := pow_le_pow_left₀ (abs_nonneg c) h2 k
    refine le_trans h3 ?_
    rw [← zpow_natCast, ← zpow_mul]
    exact zpow_le_zpow_right₀ (by norm_num) (by push_cast; omega)
  constructor
  · have : (2 : ℝ) ^ (-1000 : ℤ) ≤ 2 ^ (-240 : ℤ) * (1 / 4) := by
      rw [show (1 / 4 : ℝ) = 2 ^ (-2 : ℤ) by norm_num, ← zpow_add₀ (by norm_num)]
      exact zpow_le_zpow_right₀ (by norm_num) (by norm_num)
    exact this.trans (mul_le_mul lo m1 (by norm_num) (by positivity))
  · have : (2 : ℝ) ^ (200 : ℤ) * 16 ≤ 2 ^ (1000 : ℤ) := by
      rw [show (16 : ℝ) = 2 ^ (4 : ℤ) by norm_num, ← zpow_add₀ (by norm_num)]
      exact zpow_le_zpow_right₀ (by norm_num) (by norm_num)
    exact (mul_le_mul hi m2 (by linarith) (zp _).le).trans this

theorem pos_same {c m n : ℝ} (k : ℕ) (hm : 0 ≤ m) (hn : 0 ≤ n) : 0 ≤ (c ^ k * m) * (c ^ k * n) := by
  have : (c ^ k * m) * (c ^ k * n) = (c ^ k) ^ 2 * (m * n) := by ring
  rw [this]; positivity

theorem step_ra {x t : Flt f64} {c u : ℝ} (hx : x.isFinite) (vx : x.val = c ^ 3) (ht : t.isFinite) (vt : t.val = c * u)
    (h1 : (2 : ℝ) ^ (-60 : ℤ) ≤ |c|) (h2 : |c| ≤ 2 ^ (50 : ℤ)) (u1 : 9 / 10 ≤ u) (u2 : u ≤ 11 / 10) :
    RA (step x t) (c * halley u) (92 / 10 / 2 ^ 53) := by
  have hc0 : c ≠ 0 := by
    intro h; rw [h, abs_zero] at h1; exact absurd h1 (not_le.2 (zp _))
  have q2a : (81 : ℝ) / 100 ≤ u ^ 2 := by nlinarith
  have q2b : u ^ 2 ≤ 121 / 100 := by nlinarith
  have q3a : (729 : ℝ) / 1000 ≤ u ^ 3 := by nlinarith
  have q3b : u ^ 3 ≤ 1331 / 1000 := by nlinarith
  have T : RA t (c ^ 1 * u) 0 := .exact ht (by rw [vt, pow_one])
  have X : RA x (c ^ 3 * 1) 0 := .exact hx (by rw [vx, mul_one])
  have r2 := rng 2 (by norm_num) h1 h2 (m := u ^ 2) (by linarith) (by linarith)
  have r3 := rng 3 (by norm_num) h1 h2 (m := u ^ 3) (by linarith) (by linarith)
  have e2 : c ^ 1 * u * (c ^ 1 * u) = c ^ 2 * u ^ 2 := by ring
  have e3 : c ^ 2 * u ^ 2 * (c ^ 1 * u) = c ^ 3 * u ^ 3 := by ring
  have tt : RA (t * t) (c ^ 2 * u ^ 2) (101 / 100 / 2 ^ 53) :=
    (RA.mul T T le_rfl le_rfl (by norm_num) (by rw [e2]; exact r2.1) (by rw [e2]; exact r2.2) (by norm_num)).congr e2
  have r : RA (t * t * t) (c ^ 3 * u ^ 3) (203 / 100 / 2 ^ 53) :=
    (RA.mul tt T (by norm_num) le_rfl (by norm_num) (by rw [e3]; exact r3.1) (by rw [e3]; exact r3.2) (by norm_num)).congr e3
  have a1 := rng 3 (by norm_num) h1 h2 (m := 1 + 1) (by norm_num) (by norm_num)
  have xx : RA (x + x) (c ^ 3 * (1 + 1)) (101 / 100 / 2 ^ 53) :=
    (RA.add X X (pos_same 3 (by norm_num) (by norm_num)) le_rfl (by norm_num) (by rw [← mul_add]; exact a1.1) (by rw [← mul_add]; exact a1.2)
      (by norm_num)).congr (by ring)
  have a2 := rng 3 (by norm_num) h1 h2 (m := (1 + 1) + u ^ 3) (by linarith) (by linarith)
  have s1 : RA (x + x + t * t * t) (c ^ 3 * ((1 + 1) + u ^ 3)) (304 / 100 / 2 ^ 53) :=
    (RA.add (xx.weaken (by norm_num)) r (pos_same 3 (by norm_num) (by linarith)) (by norm_num) (by norm_num) (by rw [← mul_add]; exact a2.1) (by rw [← mul_add]; exact a2.2)
      (by norm_num)).congr (by ring)
  have e4 : c ^ 1 * u * (c ^ 3 * ((1 + 1) + u ^ 3)) = c ^ 4 * (u * (2 + u ^ 3)) := by ring
  have b1 : (1 / 4 : ℝ) ≤ u * (2 + u ^ 3) := by nlinarith
  have b2 : u * (2 + u ^ 3) ≤ 16 := by nlinarith
  have a3 := rng 4 (by norm_num) h1 h2 b1 b2
  have n : RA (t * (x + x + t * t * t)) (c ^ 4 * (u * (2 + u ^ 3))) (405 / 100 / 2 ^ 53) :=
    (RA.mul T s1 le_rfl (by norm_num) (by norm_num) (by rw [e4]; exact a3.1) (by rw [e4]; exact a3.2) (by norm_num)).congr e4
  have a4 := rng 3 (by norm_num) h1 h2 (m := 1 + u ^ 3) (by linarith) (by linarith)
  have d1 : RA (x + t * t * t) (c ^ 3 * (1 + u ^ 3)) (304 / 100 / 2 ^ 53) :=
    (RA.add (X.weaken (by norm_num)) r (pos_same 3 (by norm_num) (by linarith)) (by norm_num) (by norm_num) (by rw [← mul_add]; exact a4.1) (by rw [← mul_add]; exact a4.2)
      (by norm_num)).congr (by ring)
  have a5 := rng 3 (by norm_num) h1 h2 (m := (1 + u ^ 3) + u ^ 3) (by linarith) (by linarith)
  have d : RA (x + t * t * t + t * t * t) (c ^ 3 * ((1 + u ^ 3) + u ^ 3)) (405 / 100 / 2 ^ 53) :=
    (RA.add d1 (r.weaken (by norm_num)) (pos_same 3 (by linarith) (by linarith)) (by norm_num) (by norm_num) (by rw [← mul_add]; exact a5.1) (by rw [← mul_add]; exact a5.2)
      (by norm_num)).congr (by ring)
  have hd : (1 + u ^ 3) + u ^ 3 ≠ 0 := by linarith
  have e5 : c ^ 4 * (u * (2 + u ^ 3)) / (c ^ 3 * ((1 + u ^ 3) + u ^ 3)) = c ^ 1 * halley u := by
    unfold halley
    rw [show (1 + u ^ 3) + u ^ 3 = 1 + 2 * u ^ 3 by ring, show c ^ 4 * (u * (2 + u ^ 3)) = c ^ 3 * (c ^ 1 * (u * (2 + u ^ 3))) by ring,
      mul_div_mul_left _ _ (pow_ne_zero 3 hc0), mul_div_assoc]
  have c1 : 1 / 4 ≤ halley u := by unfold halley; rw [le_div_iff₀ (by linarith)]; nlinarith
  have c2 : halley u ≤ 16 := by unfold halley; rw [div_le_iff₀ (by linarith)]; nlinarith
  have a6 := rng 1 (by norm_num) h1 h2 c1 c2
  have := (RA.div (g := 92 / 10 / 2 ^ 53) n d (mul_ne_zero (pow_ne_zero _ hc0) hd) (by norm_num) (by norm_num) (by norm_num) (by norm_num)
    (by rw [e5]; exact a6.1) (by rw [e5]; exact a6.2) (by norm_num)).congr e5
  rw [pow_one] at this
  exact this

theorem halley_sub (u : ℝ) (h : 1 + 2 * u ^ 3 ≠ 0) : halley u - 1 = (u - 1) ^ 3 * ((u + 1) / (1 + 2 * u ^ 3)) := by
  unfold halley
  rw [div_sub_one h, mul_div_assoc', div_left_inj' h]
  ring

theorem halley_bound {u δ : ℝ} (h : |u - 1| ≤ δ) (hδ : δ ≤ 1 / 30) : |halley u - 1| ≤ δ ^ 3 * (3 / 4) := by
  have h' := abs_le.1 h
  have u1 : 29 / 30 ≤ u := by linarith
  have u2 : u ≤ 31 / 30 := by linarith
  have hp : (0 : ℝ) < 1 + 2 * u ^ 3 := by positivity
  rw [halley_sub u hp.ne', abs_mul, abs_pow]
  have h1 : |(u + 1) / (1 + 2 * u ^ 3)| ≤ 3 / 4 := by
    rw [abs_of_nonneg (by positivity), div_le_iff₀ hp]
    nlinarith [mul_self_nonneg u]
  exact mul_le_mul (pow_le_pow_left₀ (abs_nonneg _) h 3) h1 (abs_nonneg _) (pow_nonneg ((abs_nonneg _).trans h) 3)

/-- both steps: the result before the last rounding is within `2^-45` of the cube root -/
theorem two_steps {x t : Flt f64} {c : ℝ} (hx : x.isFinite) (vx : x.val = c ^ 3) (ht : t.isFinite)
    (h1 : (2 : ℝ) ^ (-60 : ℤ) ≤ |c|) (h2 : |c| ≤ 2 ^ (50 : ℤ)) (h : |t.val - c| ≤ 1 / 30 * |c|) :
    (step x t).isFinite ∧ RA (step x (step x t)) c (1 / 2 ^ 45 - 1 / 2 ^ 46 + 1 / 2 ^ 48) := by
  have hc0 : c ≠ 0 := by
    intro h; rw [h, abs_zero] at h1; exact absurd h1 (not_le.2 (zp _))
  have hcp := abs_pos.2 hc0
  have key : ∀ {s : Flt f64} {δ : ℝ}, |s.val - c| ≤ δ * |c| → |s.val / c - 1| ≤ δ := fun {s δ} h => by
    rw [div_sub_one hc0, abs_div, div_le_iff₀ hcp]; exact h
  have go : ∀ {s : Flt f64} {δ : ℝ}, s.isFinite → |s.val - c| ≤ δ * |c| → δ ≤ 1 / 30 →
      RA (step x s) c (δ ^ 3 * (3 / 4) + 95 / 10 / 2 ^ 53) := fun {s δ} hs h hδ => by
    have k1 := key h
    have k1' := abs_le.1 k1
    have hd0 : 0 ≤ δ := (abs_nonneg _).trans k1
    have k2 := step_ra (u := s.val / c) hx vx hs (by field_simp) h1 h2 (by linarith) (by linarith)
    have k3 := halley_bound k1 hδ
    refine ⟨k2.fin, ?_⟩
    have k4 := k2.err
    have hδ3 : δ ^ 3 ≤ (1 / 30) ^ 3 := pow_le_pow_left₀ hd0 hδ 3
    have k5 : |halley (s.val / c)| ≤ 101 / 100 := by
      have := abs_le.1 k3
      rw [abs_le]; constructor <;> norm_num at * <;> linarith [this.1, this.2]
    have k6 : |c * halley (s.val / c) - c| ≤ (δ ^ 3 * (3 / 4)) * |c| := by
      rw [show c * halley (s.val / c) - c = (halley (s.val / c) - 1) * c by ring, abs_mul]
      exact mul_le_mul_of_nonneg_right k3 hcp.le
    have k7 : 92 / 10 / 2 ^ 53 * |c * halley (s.val / c)| ≤ 95 / 10 / 2 ^ 53 * |c| := by
      rw [abs_mul]
      have := mul_le_mul_of_nonneg_left k5 hcp.le
      norm_num at *
      linarith
    have := abs_add_le ((step x s).val - c * halley (s.val / c)) (c * halley (s.val / c) - c)
    rw [sub_add_sub_cancel] at this
    linarith
  have s1 := go ht h le_rfl
  have s2 := go s1.fin s1.err (by norm_num)
  exact ⟨s1.fin, s2.weaken (by norm_num)⟩

end Cbrtf
end Verif
