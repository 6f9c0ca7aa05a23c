import Verif.Theory.As32

/-!
# Error analysis: a computed single close to a real number

`Ap32 a v e B`: the single `a` is finite, differs from the real `v` by at most `e` and is at most `B` in magnitude.
-/

namespace Verif
open Flt

structure Ap32 (a : Flt f32) (v e B : ℝ) : Prop where
  fin : a.isFinite
  err : |a.val - v| ≤ e
  bd : |a.val| ≤ B

namespace Ap32
variable {a b : Flt f32} {v w e f B C g D : ℝ}

theorem exact (ha : a.isFinite) (hv : a.val = v) (hB : |v| ≤ B) : Ap32 a v 0 B := ⟨ha, by rw [hv]; simp, by rw [hv]; exact hB⟩

theorem weaken (h : Ap32 a v e B) (he : e ≤ g) (hB : B ≤ D) : Ap32 a v g D := ⟨h.fin, h.err.trans he, h.bd.trans hB⟩

theorem change (h : Ap32 a v e B) (hw : |v - w| ≤ f) (hg : e + f ≤ g) : Ap32 a w g B :=
  ⟨h.fin, by
    have := abs_sub_le a.val v w
    have := h.err
    linarith, h.bd⟩

theorem add (ha : Ap32 a v e B) (hb : Ap32 b w f C) (k : ℤ) (hk : k ≤ 127) (h : B + C ≤ 2 ^ k)
    (hg : e + f + 2 ^ (k - 25) ≤ g) (hD : B + C + 2 ^ (k - 25) ≤ D) : Ap32 (a + b) (v + w) g D := by
  have h1 := abs_add_le a.val b.val
  have h2 := ha.bd
  have h3 := hb.bd
  obtain ⟨hf, he⟩ := add_err32 ha.fin hb.fin k (by linarith) hk
  refine ⟨hf, ?_, ?_⟩
  · have e1 : (a + b).val - (v + w) = ((a + b).val - (a.val + b.val)) + (a.val - v) + (b.val - w) := by ring
    rw [e1]
    have := abs_add_three ((a + b).val - (a.val + b.val)) (a.val - v) (b.val - w)
    have := ha.err
    have := hb.err
    linarith
  · have := abs_sub_abs_le_abs_sub (a + b).val (a.val + b.val)
    linarith

theorem sub (ha : Ap32 a v e B) (hb : Ap32 b w f C) (k : ℤ) (hk : k ≤ 127) (h : B + C ≤ 2 ^ k)
    (hg : e + f + 2 ^ (k - 25) ≤ g) (hD : B + C + 2 ^ (k - 25) ≤ D) : Ap32 (a - b) (v - w) g D := by
  have h1 := abs_sub a.val b.val
  have h2 := ha.bd
  have h3 := hb.bd
  obtain ⟨hf, he⟩ := sub_err32 ha.fin hb.fin k (by linarith) hk
  refine ⟨hf, ?_, ?_⟩
  · have e1 : (a - b).val - (v - w) = ((a - b).val - (a.val - b.val)) + (a.val - v) + -(b.val - w) := by ring
    rw [e1]
    have := abs_add_three ((a - b).val - (a.val - b.val)) (a.val - v) (-(b.val - w))
    rw [abs_neg] at this
    have := ha.err
    have := hb.err
    linarith
  · have := abs_sub_abs_le_abs_sub (a - b).val (a.val - b.val)
    linarith

theorem mul (ha : Ap32 a v e B) (hb : Ap32 b w f C) (k : ℤ) (hk1 : -125 ≤ k) (hk : k ≤ 127) (h : B * C ≤ 2 ^ k)
    (hg : B * f + e * (C + f) + 2 ^ (k - 25) ≤ g) (hD : B * C + 2 ^ (k - 25) ≤ D) : Ap32 (a * b) (v * w) g D := by
  have h2 := ha.bd
  have h3 := hb.bd
  have hB : 0 ≤ B := (abs_nonneg _).trans h2
  have h1 : |a.val * b.val| ≤ B * C := by
    rw [abs_mul]
    exact mul_le_mul h2 h3 (abs_nonneg _) hB
  obtain ⟨hf, he⟩ := mul_err32 ha.fin hb.fin k (by linarith) hk1 hk
  refine ⟨hf, ?_, ?_⟩
  · have e1 : (a * b).val - v * w = ((a * b).val - a.val * b.val) + a.val * (b.val - w) + (a.val - v) * w := by ring
    rw [e1]
    have h4 := abs_add_three ((a * b).val - a.val * b.val) (a.val * (b.val - w)) ((a.val - v) * w)
    have h5 := ha.err
    have h6 := hb.err
    have hw : |w| ≤ C + f := by
      have := abs_sub_abs_le_abs_sub w b.val
      rw [abs_sub_comm] at this
      linarith
    have h7 : |a.val * (b.val - w)| ≤ B * f := by
      rw [abs_mul]
      exact mul_le_mul h2 h6 (abs_nonneg _) hB
    have h8 : |(a.val - v) * w| ≤ e * (C + f) := by
      rw [abs_mul]
      exact mul_le_mul h5 hw (abs_nonneg _) ((abs_nonneg _).trans h5)
    linarith
  · have := abs_sub_abs_le_abs_sub (a * b).val (a.val * b.val)
    linarith

theorem neg (ha : Ap32 a v e B) : Ap32 (-a) (-v) e B :=
  ⟨(isFinite_neg _).2 ha.fin, by rw [val_neg, ← abs_neg]; convert ha.err using 2; ring, by rw [val_neg, abs_neg]; exact ha.bd⟩

end Ap32

theorem Ap32.as {a : Flt f32} {v e B : ℝ} (h : Ap32 a v e B) : As 1 a v e B := ⟨h.fin, by rw [mul_one]; exact h.err, by rw [mul_one]; exact h.bd⟩
theorem As.ap32 {a : Flt f32} {v e B : ℝ} (h : As 1 a v e B) : Ap32 a v e B := ⟨h.fin, by have := h.err; rwa [mul_one] at this, by have := h.bd; rwa [mul_one] at this⟩

end Verif
