import Verif.Theory.Sqrt

/-! # The iterations of sqrt in machine integers -/

namespace Verif.Sqrt
open Verif

variable {w : ℕ} {t : ℝ}

theorem wmulh_toNat (a b : BitVec w) : (wmulh a b).toNat = a.toNat * b.toNat / 2 ^ w := by
  unfold wmulh Prim.hi Prim.widenMul Prim.widen
  have ha := a.isLt
  have hb := b.isLt
  have hab : a.toNat * b.toNat < 2 ^ (2 * w) := by
    rw [show 2 * w = w + w by ring, pow_add]
    exact Nat.mul_lt_mul'' ha hb
  have h1 : 2 ^ w ≤ 2 ^ (2 * w) := Nat.pow_le_pow_right (by norm_num) (by omega)
  rw [BitVec.toNat_setWidth, BV.shr, BitVec.toNat_mul, BitVec.toNat_setWidth, BitVec.toNat_setWidth,
    Nat.mod_eq_of_lt (show a.toNat < 2 ^ (2 * w) by omega), Nat.mod_eq_of_lt (show b.toNat < 2 ^ (2 * w) by omega),
    Nat.mod_eq_of_lt hab]
  apply Nat.mod_eq_of_lt
  apply Nat.div_lt_of_lt_mul
  rw [← pow_add, ← two_mul]; exact hab

theorem three_toNat (hw : 2 ≤ w) : (3#w <<< (w - 2)).toNat = 3 * 2 ^ (w - 2) := by
  have h4 : 2 ^ w = 4 * 2 ^ (w - 2) := by
    have : w = w - 2 + 2 := by omega
    conv_lhs => rw [this, pow_add]
    ring
  have hp := Nat.two_pow_pos (w - 2)
  rw [BV.shl, BitVec.toNat_ofNat, Nat.mod_eq_of_lt (show 3 < 2 ^ w by omega)]
  exact Nat.mod_eq_of_lt (by omega)

theorem u_toNat (hw : 2 ≤ w) (s r : BitVec w) (h : s.toNat * r.toNat / 2 ^ w ≤ 3 * 2 ^ (w - 2)) :
    ((3#w <<< (w - 2)) - wmulh s r).toNat = gU w s.toNat r.toNat := by
  have hd := (wmulh s r).isLt
  have h3 := (3#w <<< (w - 2)).isLt
  rw [wmulh_toNat] at hd
  rw [three_toNat hw] at h3
  rw [BitVec.toNat_sub, wmulh_toNat, three_toNat hw]
  unfold gU
  generalize s.toNat * r.toNat / 2 ^ w = d at *
  have : 2 ^ w - d + 3 * 2 ^ (w - 2) = 2 ^ w + (3 * 2 ^ (w - 2) - d) := by omega
  rw [this, Nat.add_mod_left]
  exact Nat.mod_eq_of_lt (by omega)

theorem dbl_toNat (a b : BitVec w) (h : 2 * (a.toNat * b.toNat / 2 ^ w) < 2 ^ w) :
    (wmulh a b <<< 1).toNat = 2 * (a.toNat * b.toNat / 2 ^ w) := by
  rw [BV.shl, wmulh_toNat, pow_one, Nat.mul_comm]
  exact Nat.mod_eq_of_lt h

/-- a reciprocal that is not too large fits -/
theorem r_fits {r : ℕ} (h : ra w t r ≤ 1 + 3.8 * eu w) (ht : 1 + 4 * eu w ≤ t) : r < 2 ^ w := by
  have hE := eu_pos (w := w)
  have hp : (0 : ℝ) < 2 ^ w := by positivity
  by_contra hc
  push Not at hc
  have hc' : (2 : ℝ) ^ w ≤ r := by exact_mod_cast hc
  unfold ra at h
  rw [div_le_iff₀ hp] at h
  have ht0 : 0 < t := by linarith
  have : (2 : ℝ) ^ w * t ≤ r * t := mul_le_mul_of_nonneg_right hc' ht0.le
  nlinarith

/-- a root fits -/
theorem s_fits {s : ℕ} (h : |rb w t s - 1| ≤ 1 / 16) (ht1 : 1 ≤ t) (ht2 : t ≤ 2) : s < 2 ^ w := by
  have hp : (0 : ℝ) < 2 ^ w := by positivity
  have h2 := (abs_le.mp h).2
  have : rb w t s ≤ 17 / 16 := by linarith
  unfold rb at this
  rw [div_le_iff₀ (by positivity)] at this
  have : (s : ℝ) < 2 ^ w := by nlinarith
  exact_mod_cast this

/-- away from 1 -/
theorem far_one {m : ℕ} (hm : 2 ^ (w - 2) + 16 ≤ m) (hw : 3 ≤ w) (ht : 1 ≤ t) (hm1 : (m : ℝ) * eu w ≤ t ^ 2) :
    1 + 4 * eu w ≤ t := by
  have hE := eu_pos (w := w)
  have h4 := four_pow w (by omega)
  have hE1 : eu w ≤ 1 / 2 := by
    unfold eu
    have : (2 : ℝ) ^ 3 ≤ 2 ^ w := pow_le_pow_right₀ (by norm_num) hw
    rw [div_le_div_iff₀ (by positivity) (by norm_num)]
    linarith
  have hone : (2 : ℝ) ^ (w - 2) * eu w = 1 := by unfold eu; rw [h4]; field_simp
  have hm' : ((2 : ℝ) ^ (w - 2) + 16) ≤ m := by exact_mod_cast hm
  have : ((2 : ℝ) ^ (w - 2) + 16) * eu w ≤ t ^ 2 := (mul_le_mul_of_nonneg_right hm' hE.le).trans hm1
  by_contra hc
  push Not at hc
  nlinarith

/-- the mantissa truncated to `w` bits -/
theorem trunc_mant {W m : ℕ} (hW : w ≤ W) (hm : t ^ 2 = (m : ℝ) * eu W) :
    ((m / 2 ^ (W - w) : ℕ) : ℝ) * eu w ≤ t ^ 2 ∧ t ^ 2 ≤ ((m / 2 ^ (W - w) : ℕ) + 1) * eu w := by
  obtain ⟨f1, f2⟩ := floor_bounds m (2 ^ (W - w)) (by positivity)
  push_cast at f1 f2
  have hE := eu_pos (w := w)
  have e : (m : ℝ) * eu W = (m : ℝ) / 2 ^ (W - w) * eu w := by
    unfold eu
    have : (2 : ℝ) ^ W = 2 ^ (W - w) * 2 ^ w := by rw [← pow_add]; congr 1; omega
    rw [this]; field_simp
  rw [hm, e]
  exact ⟨mul_le_mul_of_nonneg_right f1 hE.le, mul_le_mul_of_nonneg_right f2.le hE.le⟩

/-- the index of the table for a mantissa -/
def idx (W m : ℕ) : ℕ := if m < 2 ^ (W - 1) then m / 2 ^ (W - 8) else m / 2 ^ (W - 7) - 64

/-- table entry -/
def tab (i : ℕ) : ℕ := (rsqrtTab[i]?.getD 0).toNat

theorem tab_check : ∀ i < 128, ∃ n d : ℕ, (if 64 ≤ i then n = i ∧ d = i + 1 else n = 2 * (i + 64) ∧ d = 2 * (i + 65)) ∧
    (255 * 2 ^ 8) ^ 2 * 64 ≤ tab i ^ 2 * n ∧ tab i ^ 2 * d ≤ (257 * 2 ^ 8) ^ 2 * 64 := by
  have h : ∀ i < 128, (255 * 2 ^ 8) ^ 2 * 64 ≤ tab i ^ 2 * (if 64 ≤ i then i else 2 * (i + 64)) ∧
      tab i ^ 2 * (if 64 ≤ i then i + 1 else 2 * (i + 65)) ≤ (257 * 2 ^ 8) ^ 2 * 64 := by decide +kernel
  intro i hi
  obtain ⟨h1, h2⟩ := h i hi
  exact ⟨_, _, by split <;> exact ⟨rfl, rfl⟩, h1, h2⟩

theorem idx_lt {W m : ℕ} (hW : 8 ≤ W) (h2 : m < 2 ^ W) : idx W m < 128 := by
  unfold idx
  split
  · rename_i h
    apply Nat.div_lt_of_lt_mul
    rw [show (128 : ℕ) = 2 ^ 7 by norm_num, ← pow_add]
    rwa [show W - 8 + 7 = W - 1 by omega]
  · have : m / 2 ^ (W - 7) < 128 := by
      apply Nat.div_lt_of_lt_mul
      rw [show (128 : ℕ) = 2 ^ 7 by norm_num, ← pow_add]
      rwa [show W - 7 + 7 = W by omega]
    omega

/-- the initial estimate -/
theorem tab_spec {W m : ℕ} (hW : 8 ≤ W) (h1 : 2 ^ (W - 2) ≤ m) (h2 : m < 2 ^ W) (ht : 1 ≤ t)
    (hm : t ^ 2 = (m : ℝ) * eu W) : |(tab (idx W m) : ℝ) * t / 2 ^ 16 - 1| ≤ 1 / 256 := by
  obtain ⟨n, d, hnd, c1, c2⟩ := tab_check (idx W m) (idx_lt hW h2)
  have key : (n : ℝ) ≤ 64 * t ^ 2 ∧ 64 * t ^ 2 ≤ d := by
    rw [hm]
    unfold eu
    have hp : (0 : ℝ) < 2 ^ W := by positivity
    by_cases hlt : m < 2 ^ (W - 1)
    · have hi : idx W m = m / 2 ^ (W - 8) := by unfold idx; rw [if_pos hlt]
      have h64 : 64 ≤ idx W m := by
        rw [hi, Nat.le_div_iff_mul_le (by positivity), show (64 : ℕ) = 2 ^ 6 by norm_num, ← pow_add]
        rwa [show 6 + (W - 8) = W - 2 by omega]
      rw [if_pos h64] at hnd
      obtain ⟨rfl, rfl⟩ := hnd
      obtain ⟨f1, f2⟩ := floor_bounds m (2 ^ (W - 8)) (by positivity)
      rw [← hi] at f1 f2
      have e : 64 * ((m : ℝ) * (4 / 2 ^ W)) = m / ((2 ^ (W - 8) : ℕ) : ℝ) := by
        have : (2 : ℝ) ^ W = 2 ^ (W - 8) * 2 ^ 8 := by rw [← pow_add]; congr 1; omega
        rw [this]; push_cast; field_simp; ring
      rw [e]
      refine ⟨f1, ?_⟩
      push_cast at f2 ⊢
      exact f2.le
    · push Not at hlt
      have hi : idx W m = m / 2 ^ (W - 7) - 64 := by unfold idx; rw [if_neg (by omega)]
      have h64 : 64 ≤ m / 2 ^ (W - 7) := by
        rw [Nat.le_div_iff_mul_le (by positivity), show (64 : ℕ) = 2 ^ 6 by norm_num, ← pow_add]
        rwa [show 6 + (W - 7) = W - 1 by omega]
      have h128 : m / 2 ^ (W - 7) < 128 := by
        apply Nat.div_lt_of_lt_mul
        rw [show (128 : ℕ) = 2 ^ 7 by norm_num, ← pow_add]
        rwa [show W - 7 + 7 = W by omega]
      rw [if_neg (by omega)] at hnd
      obtain ⟨rfl, rfl⟩ := hnd
      have hi1 : idx W m + 64 = m / 2 ^ (W - 7) := by omega
      have hi2 : idx W m + 65 = m / 2 ^ (W - 7) + 1 := by omega
      obtain ⟨f1, f2⟩ := floor_bounds m (2 ^ (W - 7)) (by positivity)
      have e : 64 * ((m : ℝ) * (4 / 2 ^ W)) = 2 * (m / ((2 ^ (W - 7) : ℕ) : ℝ)) := by
        have : (2 : ℝ) ^ W = 2 ^ (W - 7) * 2 ^ 7 := by rw [← pow_add]; congr 1; omega
        rw [this]; push_cast; field_simp; ring
      rw [e, hi1, hi2]
      push_cast at f1 f2 ⊢
      constructor <;> linarith
  obtain ⟨k1, k2⟩ := key
  set T := tab (idx W m)
  have c1' : ((255 * 2 ^ 8 : ℝ)) ^ 2 * 64 ≤ (T : ℝ) ^ 2 * n := by exact_mod_cast c1
  have c2' : (T : ℝ) ^ 2 * d ≤ (257 * 2 ^ 8 : ℝ) ^ 2 * 64 := by exact_mod_cast c2
  have hT : (0 : ℝ) ≤ T := Nat.cast_nonneg _
  have l1 : (255 * 2 ^ 8 : ℝ) ^ 2 ≤ (T * t) ^ 2 := by nlinarith [sq_nonneg (T : ℝ)]
  have l2 : (T * t) ^ 2 ≤ (257 * 2 ^ 8 : ℝ) ^ 2 := by nlinarith [sq_nonneg (T : ℝ)]
  have ht0 : 0 ≤ t := by linarith
  have m1 : (255 * 2 ^ 8 : ℝ) ≤ T * t := by
    exact (pow_le_pow_iff_left₀ (by positivity) (by positivity) two_ne_zero).mp l1
  have m2 : T * t ≤ (257 * 2 ^ 8 : ℝ) := by
    exact (pow_le_pow_iff_left₀ (by positivity) (by positivity) two_ne_zero).mp l2
  rw [abs_le]
  constructor
  · rw [le_sub_iff_add_le, le_div_iff₀ (by positivity)]; norm_num at m1 ⊢; linarith
  · rw [sub_le_iff_le_add, div_le_iff₀ (by positivity)]; norm_num at m2 ⊢; linarith

/-! ## Iterations on natural numbers -/

/-- state after the first iteration of a set -/
def it0 (w m r : ℕ) : ℕ × ℕ :=
  let s := m * r / 2 ^ w
  let u := gU w s r
  (2 * (r * u / 2 ^ w), 2 * (s * u / 2 ^ w))

/-- state after the second iteration of a set -/
def it1 (w m r : ℕ) : ℕ × ℕ :=
  let s := (it0 w m r).2
  let r := (it0 w m r).1
  let u := gU w s r
  (2 * (r * u / 2 ^ w), 2 * (s * u / 2 ^ w))

theorem it0_spec {m r : ℕ} {A : ℝ} (hw : 14 ≤ w) (ht1 : 1 ≤ t) (ht2 : t ≤ 2) (hA : A ≤ 1 / 20)
    (hm1 : (m : ℝ) * eu w ≤ t ^ 2) (hm2 : t ^ 2 ≤ (m + 1) * eu w) (ha : |ra w t r - 1| ≤ A) :
    m * r / 2 ^ w * r / 2 ^ w ≤ 3 * 2 ^ (w - 2) ∧
    |ra w t (it0 w m r).1 - 1| ≤ 1.6 * (A + 3 * eu w) ^ 2 + 2.5 * eu w ∧
    |rb w t (it0 w m r).2 - 1| ≤ 1.6 * (A + 3 * eu w) ^ 2 + 3.5 * eu w ∧
    |ra w t (it0 w m r).1 - rb w t (it0 w m r).2| ≤ 5.3 * eu w ∧
    ra w t (it0 w m r).1 ≤ 1 + 3.8 * eu w := by
  have hE := eu_pos (w := w)
  have hE1 : eu w ≤ 1 / 4096 := by
    unfold eu
    have : (2 : ℝ) ^ 14 ≤ 2 ^ w := pow_le_pow_right₀ (by norm_num) hw
    rw [div_le_div_iff₀ (by positivity) (by norm_num)]
    linarith
  obtain ⟨a1, a2⟩ := abs_le.mp ha
  obtain ⟨s1, s2⟩ := firstS (w := w) (r := r) (m := m) ht1 hm1 hm2 (by linarith)
  obtain ⟨k1, k2, k3, k4, k5⟩ := step (w := w) (t := t) (r := r) (s := m * r / 2 ^ w) (A := A + 3 * eu w) (D := 3 * eu w)
    (by omega) ht1 ht2 (by linarith) (by linarith) (by rw [abs_le]; constructor <;> linarith)
    (by rw [abs_le]; constructor <;> linarith)
  refine ⟨k1, k2.trans (by linarith), k3.trans (by linarith), k4.trans (by linarith), k5.trans (by linarith)⟩

theorem it1_spec {m r : ℕ} {A : ℝ} (hw : 14 ≤ w) (ht1 : 1 ≤ t) (ht2 : t ≤ 2) (hA : A ≤ 1 / 20)
    (hm1 : (m : ℝ) * eu w ≤ t ^ 2) (hm2 : t ^ 2 ≤ (m + 1) * eu w) (ha : |ra w t r - 1| ≤ A) :
    (it0 w m r).2 * (it0 w m r).1 / 2 ^ w ≤ 3 * 2 ^ (w - 2) ∧
    |ra w t (it1 w m r).1 - 1| ≤ 1.6 * (1.6 * (A + 3 * eu w) ^ 2 + 3.5 * eu w) ^ 2 + 3.65 * eu w ∧
    |rb w t (it1 w m r).2 - 1| ≤ 1.6 * (1.6 * (A + 3 * eu w) ^ 2 + 3.5 * eu w) ^ 2 + 4.65 * eu w ∧
    ra w t (it1 w m r).1 ≤ 1 + 3.8 * eu w := by
  have hE := eu_pos (w := w)
  have hE1 : eu w ≤ 1 / 4096 := by
    unfold eu
    have : (2 : ℝ) ^ 14 ≤ 2 ^ w := pow_le_pow_right₀ (by norm_num) hw
    rw [div_le_div_iff₀ (by positivity) (by norm_num)]
    linarith
  obtain ⟨-, k2, k3, k4, -⟩ := it0_spec hw ht1 ht2 hA hm1 hm2 ha
  have hA0 : 0 ≤ A := (abs_nonneg _).trans ha
  have hsq : (A + 3 * eu w) ^ 2 ≤ 0.01 := by nlinarith
  obtain ⟨l1, l2, l3, -, l5⟩ := step (w := w) (t := t) (r := (it0 w m r).1) (s := (it0 w m r).2)
    (A := 1.6 * (A + 3 * eu w) ^ 2 + 3.5 * eu w) (D := 5.3 * eu w)
    (by omega) ht1 ht2 (by linarith) (k2.trans (by linarith)) k3 k4
  exact ⟨l1, l2.trans (by linarith), l3.trans (by linarith), l5.trans (by linarith)⟩

end Verif.Sqrt
