import Verif.Theory.Err64

/-!
# Error analysis: a computed double close to a real number

`Ap a v e B`: the double `a` is finite, differs from the real `v` by at most `e` and is at most `B` in magnitude.
-/

namespace Verif
open Flt

structure Ap (a : Flt f64) (v e B : ℝ) : Prop where
  fin : a.isFinite
  err : |a.val - v| ≤ e
  bd : |a.val| ≤ B

namespace Ap
variable {a b : Flt f64} {v w e f B C g D : ℝ}

theorem exact (ha : a.isFinite) (hv : a.val = v) (hB : |v| ≤ B) : Ap a v 0 B := ⟨ha, by rw [hv]; simp, by rw [hv]; exact hB⟩

theorem weaken (h : Ap a v e B) (he : e ≤ g) (hB : B ≤ D) : Ap a v g D := ⟨h.fin, h.err.trans he, h.bd.trans hB⟩

theorem change (h : Ap a v e B) (hw : |v - w| ≤ f) (hg : e + f ≤ g) : Ap a w g B :=
  ⟨h.fin, by
    have := abs_sub_le a.val v w
    have := h.err
    linarith, h.bd⟩

theorem add (ha : Ap a v e B) (hb : Ap b w f C) (k : ℤ) (hk : k ≤ 1023) (h : B + C ≤ 2 ^ k)
    (hg : e + f + 2 ^ (k - 54) ≤ g) (hD : B + C + 2 ^ (k - 54) ≤ D) : Ap (a + b) (v + w) g D := by
  have h1 := abs_add_le a.val b.val
  have h2 := ha.bd
  have h3 := hb.bd
  obtain ⟨hf, he⟩ := add_err64 ha.fin hb.fin k (by linarith) hk
  refine ⟨hf, ?_, ?_⟩
  · have e1 : (a + b).val - (v + w) = ((a + b).val - (a.val + b.val)) + (a.val - v) + (b.val - w) := by ring
    rw [e1]
    have := abs_add_three ((a + b).val - (a.val + b.val)) (a.val - v) (b.val - w)
    have := ha.err
    have := hb.err
    linarith
  · have := abs_sub_abs_le_abs_sub (a + b).val (a.val + b.val)
    linarith

theorem sub (ha : Ap a v e B) (hb : Ap b w f C) (k : ℤ) (hk : k ≤ 1023) (h : B + C ≤ 2 ^ k)
    (hg : e + f + 2 ^ (k - 54) ≤ g) (hD : B + C + 2 ^ (k - 54) ≤ D) : Ap (a - b) (v - w) g D := by
  have h1 := abs_sub a.val b.val
  have h2 := ha.bd
  have h3 := hb.bd
  obtain ⟨hf, he⟩ := sub_err64 ha.fin hb.fin k (by linarith) hk
  refine ⟨hf, ?_, ?_⟩
  · have e1 : (a - b).val - (v - w) = ((a - b).val - (a.val - b.val)) + (a.val - v) + -(b.val - w) := by ring
    rw [e1]
    have := abs_add_three ((a - b).val - (a.val - b.val)) (a.val - v) (-(b.val - w))
    rw [abs_neg] at this
    have := ha.err
    have := hb.err
    linarith
  · have := abs_sub_abs_le_abs_sub (a - b).val (a.val - b.val)
    linarith

theorem mul (ha : Ap a v e B) (hb : Ap b w f C) (k : ℤ) (hk1 : -1021 ≤ k) (hk : k ≤ 1023) (h : B * C ≤ 2 ^ k)
    (hg : B * f + e * (C + f) + 2 ^ (k - 54) ≤ g) (hD : B * C + 2 ^ (k - 54) ≤ D) : Ap (a * b) (v * w) g D := by
  have h2 := ha.bd
  have h3 := hb.bd
  have hB : 0 ≤ B := (abs_nonneg _).trans h2
  have h1 : |a.val * b.val| ≤ B * C := by
    rw [abs_mul]
    exact mul_le_mul h2 h3 (abs_nonneg _) hB
  obtain ⟨hf, he⟩ := mul_err64 ha.fin hb.fin k (by linarith) hk1 hk
  refine ⟨hf, ?_, ?_⟩
  · have e1 : (a * b).val - v * w = ((a * b).val - a.val * b.val) + a.val * (b.val - w) + (a.val - v) * w := by ring
    rw [e1]
    have h4 := abs_add_three ((a * b).val - a.val * b.val) (a.val * (b.val - w)) ((a.val - v) * w)
    have h5 := ha.err
    have h6 := hb.err
    have hw : |w| ≤ C + f := by
      have := abs_sub_abs_le_abs_sub w b.val
      rw [abs_sub_comm] at this
      linarith
    have h7 : |a.val * (b.val - w)| ≤ B * f := by
      rw [abs_mul]
      exact mul_le_mul h2 h6 (abs_nonneg _) hB
    have h8 : |(a.val - v) * w| ≤ e * (C + f) := by
      rw [abs_mul]
      exact mul_le_mul h5 hw (abs_nonneg _) ((abs_nonneg _).trans h5)
    linarith
  · have := abs_sub_abs_le_abs_sub (a * b).val (a.val * b.val)
    linarith

theorem neg (ha : Ap a v e B) : Ap (-a) (-v) e B :=
  ⟨(isFinite_neg _).2 ha.fin, by rw [val_neg, ← abs_neg]; convert ha.err using 2; ring, by rw [val_neg, abs_neg]; exact ha.bd⟩

end Ap

/-- rounding is monotone: the result stays within any representable bounds -/
theorem IsRNE.abs_le {F : Fmt} {q : ℝ} {r c : Flt F} (h : IsRNE q r) (hr : r.isFinite) (hc : c.isFinite) (hq : |q| ≤ c.val) :
    |r.val| ≤ c.val := by
  rw [_root_.abs_le] at hq ⊢
  refine ⟨?_, h.le_of_le hr hc hq.2⟩
  have := h.ge_of_ge (s := -c) hr ((isFinite_neg _).2 hc) (by rw [val_neg]; exact hq.1)
  rwa [val_neg] at this

/-- a perturbation below half the spacing is rounded away -/
theorem rne_absorb {x r : Flt f64} {q : ℝ} (k : ℤ) (hx : x.isFinite) (h : IsRNE q r) (hr : r.isFinite)
    (hb : |q| ≤ 3 / 2 * 2 ^ (1023 : ℤ)) (hq : |q - x.val| < 2 ^ (k - 53)) (hlo : 2 ^ k ≤ |x.val| - 2 ^ (k - 52)) : r.val = x.val := by
  have hz : (0 : ℝ) < 2 ^ (k - 52) := zp _
  have e2 : (2 : ℝ) ^ (k - 52) = 2 * 2 ^ (k - 53) := by
    rw [← zpow_one_add₀ (by norm_num)]
    congr 1
    ring
  have hn : |r.val - q| ≤ |x.val - q| := by
    have hb' := (h.finite (F := f64) (q := q) (r := r) ?_).2.1 x hx
    · exact hb'
    · rwa [f64_bias]
  have h1 : |r.val - x.val| < 2 ^ (k - 52) := by
    have := abs_sub_le r.val q x.val
    rw [abs_sub_comm x.val q] at hn
    linarith
  obtain ⟨n, hn'⟩ := grid64 x k (by linarith)
  obtain ⟨m, hm'⟩ := grid64 r k (by
    have := abs_sub_abs_le_abs_sub x.val r.val
    rw [abs_sub_comm] at this
    linarith)
  rw [hn', hm'] at h1 ⊢
  rw [← sub_mul, abs_mul, abs_of_pos hz] at h1
  have h2 : |(m : ℝ) - n| < 1 := by
    by_contra hc
    push Not at hc
    nlinarith
  have h3 : m = n := by
    have : |m - n| < 1 := by exact_mod_cast h2
    rw [Int.abs_lt_one_iff] at this
    omega
  rw [h3]

end Verif
