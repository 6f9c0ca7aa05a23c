import Verif.Theory.RplAcc
import Verif.Theory.TrigD

/-!
# The two words of the large argument reduction

The first output is the sum of the products `fq[t]`, from the smallest up, and the second is what that sum rounds away.
-/

namespace Verif
open Flt
namespace Rpl

/-- the first additions, down to `fq[lo]` -/
theorem down_spec {fq : List (Flt f64)} {jz : ℕ} {g : ℕ → ℝ} (hjz : jz ≤ 8) (k : ℕ) (hk : k ≤ jz + 1)
    (hfq : ∀ t ≤ jz, ∃ v, fq[t]? = some v ∧ v.isFinite ∧ v.val = g t ∧ 0 ≤ v.val ∧ v.val ≤ 2 ^ 55) :
    ∃ v, (List.range k).foldlM (fun fw t => (fq[jz - t]?).map fun v => fw + v) (0.0 : Flt f64) = some v ∧ v.isFinite ∧
      |v.val - ∑ t ∈ Finset.range k, g (jz - t)| ≤ 2 ^ (-48 : ℤ) * ∑ t ∈ Finset.range k, g (jz - t) ∧
      0 ≤ ∑ t ∈ Finset.range k, g (jz - t) := by
  have hg : ∀ t ≤ jz, 0 ≤ g t ∧ g t ≤ 2 ^ 55 := by
    intro t ht
    obtain ⟨v, -, -, h, h1, h2⟩ := hfq t ht
    rw [← h]
    exact ⟨h1, h2⟩
  obtain ⟨v, h1, h2, h3, h4, h5, h6⟩ := foldlM_range
    (fun i (s : Flt f64) => s.isFinite ∧ |s.val - ∑ t ∈ Finset.range i, g (jz - t)| ≤ i * 2 ^ (-52 : ℤ) * ∑ t ∈ Finset.range i, g (jz - t) ∧
      0 ≤ ∑ t ∈ Finset.range i, g (jz - t) ∧ (∑ t ∈ Finset.range i, g (jz - t)) ≤ i * 2 ^ 55 ∧ i ≤ 9)
    (fun (fw : Flt f64) t => (fq[jz - t]?).map fun v => fw + v) k 0.0
    (by
      have h0 : (0.0 : Flt f64) = zero f64 false := by decide +kernel
      refine ⟨by rw [h0]; decide, by rw [h0]; simp, by simp, by simp, by omega⟩) (by
    rintro i hi s ⟨hf, he, hn, hu, h9⟩
    obtain ⟨v, hv, hvf, hvv, hv0, hv1⟩ := hfq (jz - i) (by omega)
    refine ⟨s + v, by rw [hv]; rfl, ?_⟩
    rw [Finset.sum_range_succ]
    have hi8 : (i : ℝ) ≤ 8 := by exact_mod_cast (by omega : i ≤ 8)
    have hi0 : (0 : ℝ) ≤ i := by positivity
    generalize (∑ t ∈ Finset.range i, g (jz - t)) = S at *
    rw [← hvv]
    have he' := abs_le.1 he
    have hq : (2 : ℝ) ^ (-52 : ℤ) = 2 * 2 ^ (-53 : ℤ) := by norm_num
    have hqs : (2 : ℝ) ^ (-53 : ℤ) ≤ 1 / 1000 := by norm_num
    have hq0 : (0 : ℝ) < 2 ^ (-53 : ℤ) := zp _
    rw [hq] at he he' ⊢
    obtain ⟨u, hu'⟩ : ∃ u : ℝ, (2 : ℝ) ^ (-53 : ℤ) = u := ⟨_, rfl⟩
    rw [hu'] at he he' hqs hq0 ⊢
    have hiu : (i : ℝ) * (2 * u) ≤ 16 / 1000 := by nlinarith
    have hiu0 : 0 ≤ (i : ℝ) * (2 * u) := by positivity
    have hiS : (i : ℝ) * (2 * u) * S ≤ 16 / 1000 * S := mul_le_mul_of_nonneg_right hiu hn
    have hpow : (2 : ℝ) ^ 60 ≤ 3 / 2 * 2 ^ (1023 : ℤ) := by
      have : (2 : ℝ) ^ (60 : ℤ) ≤ 2 ^ (1023 : ℤ) := zpow_le_zpow_right₀ (by norm_num) (by norm_num)
      have h2 : (2 : ℝ) ^ (60 : ℤ) = 2 ^ 60 := by norm_cast
      have h3 := zp (1023 : ℤ)
      rw [h2] at this
      generalize (2 : ℝ) ^ (1023 : ℤ) = T at *
      linarith
    have hS8 : S ≤ 8 * 2 ^ 55 := hu.trans (by nlinarith)
    have hsum0 : 0 ≤ s.val + v.val := by linarith
    obtain ⟨af, ae⟩ := add_rel64 hf hvf (by
      rw [abs_of_nonneg hsum0]
      refine le_trans ?_ hpow
      linarith)
    rw [abs_of_nonneg hsum0, hu'] at ae
    refine ⟨af, ?_, by linarith, ?_, by omega⟩
    · push_cast
      have ae' := abs_le.1 ae
      rw [abs_le]
      have h7 : (s.val + v.val) * u ≤ 2 * (S + v.val) * u := mul_le_mul_of_nonneg_right (by linarith) hq0.le
      have h8 : 0 ≤ (i : ℝ) * (2 * u) * v.val := mul_nonneg hiu0 hv0
      have h9 : ((i : ℝ) + 1) * (2 * u) * (S + v.val) = i * (2 * u) * S + i * (2 * u) * v.val + 2 * (S + v.val) * u := by ring
      rw [h9]
      constructor <;> linarith
    · push_cast
      linarith)
  refine ⟨v, h1, h2, h3.trans (mul_le_mul_of_nonneg_right ?_ h4), h4⟩
  have : (k : ℝ) ≤ 9 := by exact_mod_cast h6
  calc (k : ℝ) * 2 ^ (-52 : ℤ) ≤ 9 * 2 ^ (-52 : ℤ) := mul_le_mul_of_nonneg_right this (zp _).le
    _ ≤ 2 ^ (-48 : ℤ) := by norm_num

theorem big64 {r : ℝ} (h : |r| ≤ 2 ^ 60) : |r| ≤ 3 / 2 * 2 ^ (1023 : ℤ) := by
  refine h.trans ?_
  have : (2 : ℝ) ^ (60 : ℤ) ≤ 2 ^ (1023 : ℤ) := zpow_le_zpow_right₀ (by norm_num) (by norm_num)
  have h2 : (2 : ℝ) ^ (60 : ℤ) = 2 ^ 60 := by norm_cast
  have h3 := zp (1023 : ℤ)
  rw [h2] at this
  generalize (2 : ℝ) ^ (1023 : ℤ) = T at *
  linarith

/-- the products that are summed: `g t = e t * 2^(s - 24 t)`, `D` is the leading chunk -/
structure Prods (fq : List (Flt f64)) (m : ℕ) (e : ℕ → ℕ) (s : ℤ) (D : ℕ) (g : ℕ → ℝ) : Prop where
  m4 : 4 ≤ m
  m8 : m ≤ 8
  s0 : -250 ≤ s
  s1 : s ≤ 2
  get : ∀ t ≤ m, ∃ v, fq[t]? = some v ∧ v.isFinite ∧ v.val = g t ∧ 0 ≤ v.val ∧ v.val ≤ 2 ^ 55
  hg : ∀ t, g t = e t * 2 ^ (s - 24 * t)
  he : ∀ t, e t ≤ 5 * 2 ^ 48
  e0 : e 0 = 13176794 * D
  D1 : 1 ≤ D
  D2 : D < 2 ^ 24
  hR : ∑ t ∈ Finset.range (m + 1), g t ≤ 13176795 * (D + 1) * 2 ^ s

namespace Prods
variable {fq : List (Flt f64)} {m D : ℕ} {e : ℕ → ℕ} {s : ℤ} {g : ℕ → ℝ} (h : Prods fq m e s D g)
include h

theorem nonneg (t : ℕ) : 0 ≤ g t := by
  rw [h.hg]
  have := zp (s - 24 * t)
  positivity

theorem g_le (t : ℕ) : g t ≤ 5 * 2 ^ 48 * 2 ^ (-(24 * t : ℤ)) * 2 ^ s := by
  rw [h.hg, mul_assoc, ← zpow_add₀ (by norm_num), show -(24 * t : ℤ) + s = s - 24 * t by ring]
  refine mul_le_mul_of_nonneg_right ?_ (zp _).le
  exact_mod_cast h.he t

theorem g_eq0 : g 0 = 13176794 * D * 2 ^ s := by
  rw [h.hg, h.e0]
  push_cast
  norm_num

theorem g2_le : g 2 ≤ 5 * 2 ^ s := by
  refine (h.g_le 2).trans (le_of_eq ?_)
  norm_num

theorem g3_le {t : ℕ} (ht : 3 ≤ t) : g t ≤ 5 / 2 ^ 24 * 2 ^ s := by
  refine (h.g_le t).trans (mul_le_mul_of_nonneg_right ?_ (zp _).le)
  have : (2 : ℝ) ^ (-(24 * t : ℤ)) ≤ 2 ^ (-72 : ℤ) := zpow_le_zpow_right₀ (by norm_num) (by omega)
  calc (5 : ℝ) * 2 ^ 48 * 2 ^ (-(24 * t : ℤ)) ≤ 5 * 2 ^ 48 * 2 ^ (-72 : ℤ) := by gcongr
    _ = 5 / 2 ^ 24 := by norm_num

/-- the small end of the sum -/
theorem t3_le : ∑ t ∈ Finset.range (m - 2), g (m - t) ≤ 30 / 2 ^ 24 * 2 ^ s := by
  have h1 := Finset.sum_le_card_nsmul (Finset.range (m - 2)) (fun t => g (m - t)) (5 / 2 ^ 24 * 2 ^ s) (fun t ht => by
    have := Finset.mem_range.1 ht
    exact h.g3_le (by omega))
  refine h1.trans ?_
  rw [Finset.card_range, nsmul_eq_mul]
  have h2 : ((m - 2 : ℕ) : ℝ) ≤ 6 := by exact_mod_cast (by have := h.m8; omega : m - 2 ≤ 6)
  have h3 := zp s
  calc ((m - 2 : ℕ) : ℝ) * (5 / 2 ^ 24 * 2 ^ s) ≤ 6 * (5 / 2 ^ 24 * 2 ^ s) := mul_le_mul_of_nonneg_right h2 (by positivity)
    _ = _ := by ring

theorem t3_nonneg : 0 ≤ ∑ t ∈ Finset.range (m - 2), g (m - t) := Finset.sum_nonneg fun t _ => h.nonneg _

theorem sum_eq : ∑ t ∈ Finset.range (m + 1), g t = ∑ t ∈ Finset.range (m - 2), g (m - t) + g 2 + g 1 + g 0 := by
  have hrefl : (∑ t ∈ Finset.range (m + 1), g (m - t)) = ∑ t ∈ Finset.range (m + 1), g t := by
    have := Finset.sum_range_reflect g (m + 1)
    rw [← this]
    exact Finset.sum_congr rfl fun t ht => by congr 1
  have h4 := h.m4
  rw [← hrefl]
  obtain ⟨k, rfl⟩ : ∃ k, m = k + 2 := ⟨m - 2, by omega⟩
  rw [Finset.sum_range_succ, Finset.sum_range_succ, Finset.sum_range_succ]
  congr 1
  · congr 1
    · congr 1
      congr 1
      omega
    · congr 1
      omega
  · congr 1
    omega

/-- the partial sums from the top are close to the sum -/
theorem part {i : ℕ} (hi : 2 ≤ i) (him : i ≤ m) :
    (∑ t ∈ Finset.range (m + 1), g t) - 30 / 2 ^ 24 * 2 ^ s ≤ ∑ t ∈ Finset.range (i + 1), g t ∧
    ∑ t ∈ Finset.range (i + 1), g t ≤ ∑ t ∈ Finset.range (m + 1), g t := by
  have h3 := h.t3_le
  have hs := h.sum_eq
  constructor
  · have h5 : ∑ t ∈ Finset.range 3, g t ≤ ∑ t ∈ Finset.range (i + 1), g t :=
      Finset.sum_le_sum_of_subset_of_nonneg (Finset.range_mono (by omega)) fun t _ _ => h.nonneg t
    rw [Finset.sum_range_succ, Finset.sum_range_succ, Finset.sum_range_one] at h5
    linarith
  · exact Finset.sum_le_sum_of_subset_of_nonneg (Finset.range_mono (by omega)) fun t _ _ => h.nonneg t

/-- the first word -/
theorem down : ∃ w, sumDown fq m 0 = some w ∧ w.isFinite ∧ g 0 ≤ w.val ∧
    |w.val - ∑ t ∈ Finset.range (m + 1), g t| ≤ 1.501 / 2 ^ 53 * ∑ t ∈ Finset.range (m + 1), g t := by
  have hm4 := h.m4
  obtain ⟨w2, hw2, f2, e2, n2⟩ := down_spec h.m8 (m - 1) (by omega) h.get
  obtain ⟨v1, hv1, fv1, ev1, nv1, bv1⟩ := h.get 1 (by omega)
  obtain ⟨v0, hv0, fv0, ev0, nv0, bv0⟩ := h.get 0 (by omega)
  refine ⟨w2 + v1 + v0, ?_, ?_⟩
  · rw [sumDown, show m + 1 - 0 = (m - 1) + 1 + 1 by omega, List.range_succ, List.range_succ, List.foldlM_append, List.foldlM_append, hw2]
    simp only [List.foldlM_cons, List.foldlM_nil]
    rw [show m - (m - 1) = 1 by omega, show m - (m - 1 + 1) = 0 by omega, hv1, hv0]
    rfl
  have hz : (0 : ℝ) < 2 ^ s := zp s
  have hT : ∑ t ∈ Finset.range (m - 1), g (m - t) = ∑ t ∈ Finset.range (m - 2), g (m - t) + g 2 := by
    rw [show m - 1 = (m - 2) + 1 by omega, Finset.sum_range_succ]
    congr 2
    omega
  have hS := h.sum_eq
  rw [← hT] at hS
  have hR := h.hR
  have ht3 := h.t3_le
  have ht30 := h.t3_nonneg
  have hg2 := h.g2_le
  have hg0 := h.g_eq0
  have hD1 : (1 : ℝ) ≤ D := by exact_mod_cast h.D1
  have hz2 : (2 : ℝ) ^ s ≤ 4 := by
    calc (2 : ℝ) ^ s ≤ 2 ^ (2 : ℤ) := zpow_le_zpow_right₀ (by norm_num) h.s1
      _ = 4 := by norm_num
  have hg00 := h.nonneg 0
  have hg10 := h.nonneg 1
  have hT6 : ∑ t ∈ Finset.range (m - 1), g (m - t) ≤ 6 * 2 ^ s := by
    rw [hT]
    norm_num at ht3
    linarith
  generalize (∑ t ∈ Finset.range (m - 1), g (m - t)) = T at *
  generalize (∑ t ∈ Finset.range (m - 2), g (m - t)) = T3 at *
  generalize (∑ t ∈ Finset.range (m + 1), g t) = S at *
  generalize (2 : ℝ) ^ s = z at *
  rw [← ev1] at hS
  rw [← ev0] at hS hg0 hg00 ⊢
  have hDz : z ≤ D * z := by nlinarith
  rw [show (2 : ℝ) ^ (-48 : ℤ) = 1 / 2 ^ 48 by norm_num] at e2
  have hw2b := abs_le.1 e2
  have hw20 : 0 ≤ w2.val := by
    norm_num at hw2b
    linarith
  have hb1 : |w2.val + v1.val| ≤ 2 ^ 60 := by
    rw [abs_of_nonneg (by linarith)]
    norm_num at bv1 hw2b ⊢
    linarith
  obtain ⟨af1, ae1⟩ := add_rel64 f2 fv1 (big64 hb1)
  have hsum1 : 0 ≤ w2.val + v1.val := by linarith
  rw [abs_of_nonneg hsum1] at ae1
  have hu : (2 : ℝ) ^ (-53 : ℤ) = 1 / 2 ^ 53 := by norm_num
  rw [hu] at ae1
  have ae1' := abs_le.1 ae1
  have hw10 : 0 ≤ (w2 + v1).val := by
    norm_num at ae1'
    linarith
  have hb2 : |(w2 + v1).val + v0.val| ≤ 2 ^ 60 := by
    rw [abs_of_nonneg (by linarith)]
    norm_num at bv1 bv0 hw2b ae1' ⊢
    linarith
  obtain ⟨af2, ae2⟩ := add_rel64 af1 fv0 (big64 hb2)
  have hsum2 : 0 ≤ (w2 + v1).val + v0.val := by linarith
  rw [abs_of_nonneg hsum2, hu] at ae2
  have ae2' := abs_le.1 ae2
  refine ⟨af2, ?_, ?_⟩
  · exact (add_rne af1 fv0).ge_of_ge af2 fv0 (by linarith)
  · -- `S - g 0` is about half of `S` at most
    have hR2 : S - v0.val ≤ 0.5001 * S := by
      nlinarith
    have hzS : z ≤ 1 / 2 ^ 23 * S := by
      have : 13176794 * z ≤ S := by nlinarith
      norm_num
      linarith
    rw [abs_le]
    norm_num at ae1' ae2' hw2b hR2 hzS ⊢
    constructor <;> linarith

set_option maxHeartbeats 2000000 in
/-- the second word -/
theorem up {w : Flt f64} (hw : w.isFinite) (hw0 : g 0 ≤ w.val)
    (hwe : |w.val - ∑ t ∈ Finset.range (m + 1), g t| ≤ 1.501 / 2 ^ 53 * ∑ t ∈ Finset.range (m + 1), g t) :
    ∃ v0 v, fq[0]? = some v0 ∧ sumUp fq m (v0 - w) = some v ∧ v.isFinite ∧
      |w.val + v.val - ∑ t ∈ Finset.range (m + 1), g t| ≤ 1 / 2 ^ 80 * ∑ t ∈ Finset.range (m + 1), g t := by
  have hm4 := h.m4
  have hm8 := h.m8
  have hs0 := h.s0
  have hs1 := h.s1
  obtain ⟨v0, hv0, fv0, ev0, nv0, bv0⟩ := h.get 0 (by omega)
  have hz : (0 : ℝ) < 2 ^ s := zp s
  have hS := h.sum_eq
  have hR := h.hR
  have ht3 := h.t3_le
  have ht30 := h.t3_nonneg
  have hg2 := h.g2_le
  have hg0 := h.g_eq0
  have hD1 : (1 : ℝ) ≤ D := by exact_mod_cast h.D1
  have hD2 : (D : ℝ) ≤ 2 ^ 24 - 1 := by
    have : (D : ℝ) + 1 ≤ 2 ^ 24 := by exact_mod_cast h.D2
    linarith
  have hz2 : (2 : ℝ) ^ s ≤ 4 := by
    calc (2 : ℝ) ^ s ≤ 2 ^ (2 : ℤ) := zpow_le_zpow_right₀ (by norm_num) h.s1
      _ = 4 := by norm_num
  have hg20 := h.nonneg 2
  have hg10 := h.nonneg 1
  have hpart := @h.part
  have hDz : (2 : ℝ) ^ s ≤ D * 2 ^ s := by nlinarith
  have hDz2 : (D : ℝ) * 2 ^ s ≤ (2 ^ 24 - 1) * 2 ^ s := mul_le_mul_of_nonneg_right hD2 hz.le
  have hwb : w.val ≤ 2 ^ 55 := by
    have hwe' := abs_le.1 hwe
    norm_num at hwe' hDz2 ⊢
    nlinarith
  -- the grid of `w`
  obtain ⟨nw, hnw⟩ : ∃ n : ℤ, w.val = n * 2 ^ (s - 29) := by
    have := grid64 w (s + 23) (by
      rw [abs_of_nonneg (by linarith), zpow_add₀ (by norm_num)]
      refine le_trans ?_ hw0
      rw [hg0]
      norm_num
      linarith)
    rwa [show s + 23 - 52 = s - 29 by ring] at this
  have hz29 : (2 : ℝ) ^ s = 2 ^ 29 * 2 ^ (s - 29) := by
    rw [← zpow_natCast, ← zpow_add₀ (by norm_num)]
    congr 1
    push_cast
    ring
  have hz48 : (2 : ℝ) ^ s = 2 ^ 48 * 2 ^ (s - 48) := by
    rw [← zpow_natCast, ← zpow_add₀ (by norm_num)]
    congr 1
    push_cast
    ring
  have e0 : g 0 = ((e 0 * 2 ^ 29 : ℤ) : ℝ) * 2 ^ (s - 29) := by
    have := h.hg 0
    rw [Nat.cast_zero, mul_zero, sub_zero, hz29] at this
    rw [this]
    push_cast
    ring
  have e1 : g 1 = ((e 1 * 2 ^ 5 : ℤ) : ℝ) * 2 ^ (s - 29) := by
    have := h.hg 1
    rw [this, show s - 24 * ((1 : ℕ) : ℤ) = (s - 29) + 5 by push_cast; ring, zpow_add₀ (by norm_num)]
    push_cast
    norm_num
    ring
  have e2 : g 2 = ((e 2 : ℤ) : ℝ) * 2 ^ (s - 48) := by
    have := h.hg 2
    rw [this, show s - 24 * ((2 : ℕ) : ℤ) = s - 48 by push_cast; ring]
    push_cast
    rfl
  have hnw48 : w.val = ((nw * 2 ^ 19 : ℤ) : ℝ) * 2 ^ (s - 48) := by
    rw [hnw, show s - 29 = (s - 48) + 19 by ring, zpow_add₀ (by norm_num)]
    push_cast
    norm_num
    ring
  have e01 : g 0 + g 1 = (((e 0 * 2 ^ 29 + e 1 * 2 ^ 5) * 2 ^ 19 : ℤ) : ℝ) * 2 ^ (s - 48) := by
    rw [e0, e1, show s - 29 = (s - 48) + 19 by ring, zpow_add₀ (by norm_num)]
    push_cast
    norm_num
    ring
  have hwe' := abs_le.1 hwe
  have hSz : ∑ t ∈ Finset.range (m + 1), g t ≤ 2 ^ 48 * 2 ^ s := by
    norm_num at hDz2 ⊢
    nlinarith
  have hzS : 2 ^ s ≤ 1 / 2 ^ 23 * ∑ t ∈ Finset.range (m + 1), g t := by
    have : 13176794 * (2 : ℝ) ^ s ≤ ∑ t ∈ Finset.range (m + 1), g t := by rw [hS]; nlinarith
    norm_num
    linarith
  -- the first difference is exact
  have hsub : (v0 - w).isFinite ∧ (v0 - w).val = g 0 - w.val := by
    by_cases hD : D ≤ 2
    · have hD' : (D : ℝ) ≤ 2 := by exact_mod_cast hD
      have hb : |g 0 - w.val| ≤ 2 ^ 24 * 2 ^ s := by
        rw [abs_le]
        norm_num at hwe' hDz2 ⊢
        constructor
        · nlinarith
        · linarith
      have hi : Is (v0 - w) (e 0 * 2 ^ 29 - nw) (s - 29) := by
        refine Is.of_rne (sub_rne fv0 hw) ?_ ?_ (by omega) (by omega)
        · rw [ev0, e0, hnw]
          push_cast
          ring
        · have h1 : |((e 0 * 2 ^ 29 - nw : ℤ) : ℝ)| * 2 ^ (s - 29) ≤ 2 ^ 53 * 2 ^ (s - 29) := by
            rw [← abs_of_pos (zp (s - 29)), ← abs_mul, abs_of_pos (zp (s - 29))]
            have e : ((e 0 * 2 ^ 29 - nw : ℤ) : ℝ) * 2 ^ (s - 29) = g 0 - w.val := by
              rw [e0, hnw]
              push_cast
              ring
            rw [e]
            refine hb.trans (le_of_eq ?_)
            rw [hz29]
            ring
          have h2 := le_of_mul_le_mul_right h1 (zp (s - 29))
          exact_mod_cast h2
      refine ⟨hi.1, ?_⟩
      rw [hi.2, e0, hnw]
      push_cast
      ring
    · have hD' : (3 : ℝ) ≤ D := by exact_mod_cast (by omega : 3 ≤ D)
      have hb : |g 0 - w.val| ≤ 2 ^ 25 * 2 ^ s := by
        rw [abs_le]
        norm_num at hwe' hDz2 hSz ⊢
        constructor
        · nlinarith
        · linarith
      obtain ⟨nw', hnw'⟩ : ∃ n : ℤ, w.val = n * 2 ^ (s - 28) := by
        have := grid64 w (s + 24) (by
          rw [abs_of_nonneg (by linarith), zpow_add₀ (by norm_num)]
          refine le_trans ?_ hw0
          rw [hg0]
          norm_num
          nlinarith)
        rwa [show s + 24 - 52 = s - 28 by ring] at this
      have hz28 : (2 : ℝ) ^ s = 2 ^ 28 * 2 ^ (s - 28) := by
        rw [← zpow_natCast, ← zpow_add₀ (by norm_num)]
        congr 1
        push_cast
        ring
      have e0' : g 0 = ((e 0 * 2 ^ 28 : ℤ) : ℝ) * 2 ^ (s - 28) := by
        have := h.hg 0
        rw [Nat.cast_zero, mul_zero, sub_zero, hz28] at this
        rw [this]
        push_cast
        ring
      have hi : Is (v0 - w) (e 0 * 2 ^ 28 - nw') (s - 28) := by
        refine Is.of_rne (sub_rne fv0 hw) ?_ ?_ (by omega) (by omega)
        · rw [ev0, e0', hnw']
          push_cast
          ring
        · have h1 : |((e 0 * 2 ^ 28 - nw' : ℤ) : ℝ)| * 2 ^ (s - 28) ≤ 2 ^ 53 * 2 ^ (s - 28) := by
            rw [← abs_of_pos (zp (s - 28)), ← abs_mul, abs_of_pos (zp (s - 28))]
            have e : ((e 0 * 2 ^ 28 - nw' : ℤ) : ℝ) * 2 ^ (s - 28) = g 0 - w.val := by
              rw [e0', hnw']
              push_cast
              ring
            rw [e]
            refine hb.trans (le_of_eq ?_)
            rw [hz28]
            ring
          have h2 := le_of_mul_le_mul_right h1 (zp (s - 28))
          exact_mod_cast h2
      refine ⟨hi.1, ?_⟩
      rw [hi.2, e0', hnw']
      push_cast
      ring
  obtain ⟨v, hv1, hv2, hv3⟩ := foldlM_range
    (fun i (a : Flt f64) => a.isFinite ∧
      |a.val - (∑ t ∈ Finset.range (i + 1), g t - w.val)| ≤ (i - 2 : ℕ) * (1 / 2 ^ 85 * ∑ t ∈ Finset.range (m + 1), g t))
    (fun (fw : Flt f64) t => (fq[t + 1]?).map fun v => fw + v) m (v0 - w) ⟨hsub.1, by
      rw [hsub.2]
      simp⟩ (by
    rintro i hi a ⟨hf, ha⟩
    obtain ⟨u, hu, fu, eu, nu, bu⟩ := h.get (i + 1) (by omega)
    refine ⟨a + u, by rw [hu]; rfl, ?_⟩
    rw [Finset.sum_range_succ _ (i + 1)]
    obtain rfl | rfl | hi2 : i = 0 ∨ i = 1 ∨ 2 ≤ i := by omega
    · -- exact
      have ha0 : a.val = g 0 - w.val := by
        simp at ha
        linarith
      have hb : |g 0 - w.val + g 1| ≤ 2 ^ 20 * 2 ^ s := by
        rw [abs_le]
        norm_num at hwe' ht3 hSz ⊢
        constructor <;> linarith
      have hi : Is (a + u) (e 0 * 2 ^ 29 - nw + e 1 * 2 ^ 5) (s - 29) := by
        refine Is.of_rne (add_rne hf fu) ?_ ?_ (by omega) (by omega)
        · rw [ha0, eu, e0, hnw, zero_add, e1]
          push_cast
          ring
        · have h1 : |((e 0 * 2 ^ 29 - nw + e 1 * 2 ^ 5 : ℤ) : ℝ)| * 2 ^ (s - 29) ≤ 2 ^ 53 * 2 ^ (s - 29) := by
            rw [← abs_of_pos (zp (s - 29)), ← abs_mul, abs_of_pos (zp (s - 29))]
            have e : ((e 0 * 2 ^ 29 - nw + e 1 * 2 ^ 5 : ℤ) : ℝ) * 2 ^ (s - 29) = g 0 - w.val + g 1 := by
              rw [e0, hnw, e1]
              push_cast
              ring
            rw [e]
            refine hb.trans (le_of_lt ?_)
            rw [hz29]
            have := zp (s - 29)
            norm_num
            linarith
          have h2 := le_of_mul_le_mul_right h1 (zp (s - 29))
          exact_mod_cast h2
      refine ⟨hi.1, ?_⟩
      have : (a + u).val = g 0 - w.val + g 1 := by
        rw [hi.2, e0, hnw, e1]
        push_cast
        ring
      rw [this, zero_add, Finset.sum_range_one]
      norm_num
      ring
    · have ha0 : a.val = g 0 + g 1 - w.val := by
        rw [Finset.sum_range_succ, Finset.sum_range_one] at ha
        norm_num at ha
        linarith
      have hb : |g 0 + g 1 - w.val + g 2| ≤ 2 * 2 ^ s := by
        rw [abs_le]
        norm_num at hwe' ht3 hSz ⊢
        constructor <;> linarith
      have hi : Is (a + u) ((e 0 * 2 ^ 29 + e 1 * 2 ^ 5) * 2 ^ 19 - nw * 2 ^ 19 + e 2) (s - 48) := by
        refine Is.of_rne (add_rne hf fu) ?_ ?_ (by omega) (by omega)
        · rw [ha0, eu, e01, hnw48, show 1 + 1 = 2 from rfl, e2]
          push_cast
          ring
        · have h1 : |(((e 0 * 2 ^ 29 + e 1 * 2 ^ 5) * 2 ^ 19 - nw * 2 ^ 19 + e 2 : ℤ) : ℝ)| * 2 ^ (s - 48) ≤ 2 ^ 53 * 2 ^ (s - 48) := by
            rw [← abs_of_pos (zp (s - 48)), ← abs_mul, abs_of_pos (zp (s - 48))]
            have e : (((e 0 * 2 ^ 29 + e 1 * 2 ^ 5) * 2 ^ 19 - nw * 2 ^ 19 + e 2 : ℤ) : ℝ) * 2 ^ (s - 48) = g 0 + g 1 - w.val + g 2 := by
              rw [e01, hnw48, e2]
              push_cast
              ring
            rw [e]
            refine hb.trans (le_of_lt ?_)
            rw [hz48]
            have := zp (s - 48)
            norm_num
            linarith
          have h2 := le_of_mul_le_mul_right h1 (zp (s - 48))
          exact_mod_cast h2
      refine ⟨hi.1, ?_⟩
      have : (a + u).val = g 0 + g 1 - w.val + g 2 := by
        rw [hi.2, e01, hnw48, e2]
        push_cast
        ring
      rw [this, Finset.sum_range_succ, Finset.sum_range_one]
      norm_num
      ring
    · obtain ⟨p1, p2⟩ := hpart hi2 (by omega)
      obtain ⟨p3, p4⟩ := hpart (i := i + 1) (by omega) (by omega)
      rw [Finset.sum_range_succ _ (i + 1)] at p3 p4
      obtain ⟨k, rfl⟩ : ∃ k, i = k + 2 := ⟨i - 2, by omega⟩
      have hk6 : (k : ℝ) ≤ 6 := by exact_mod_cast (by omega : k ≤ 6)
      rw [show k + 2 - 2 = k by omega] at ha
      rw [show k + 2 + 1 - 2 = k + 1 by omega]
      rw [← eu] at p3 p4 ⊢
      generalize (∑ t ∈ Finset.range (k + 2 + 1), g t) = Q at *
      generalize (∑ t ∈ Finset.range (m + 1), g t) = S at *
      have hS0 : 0 ≤ S := by
        norm_num at hzS
        linarith
      have hkS : (k : ℝ) * (1 / 2 ^ 85 * S) ≤ 6 * (1 / 2 ^ 85 * S) := mul_le_mul_of_nonneg_right hk6 (by positivity)
      have ha' := abs_le.1 ha
      have hau : |a.val + u.val| ≤ 1 / 2 ^ 40 * S := by
        rw [abs_le]
        norm_num at hwe' ha' hkS p3 p4 hzS ⊢
        constructor <;> linarith
      obtain ⟨af, ae⟩ := add_rel64 hf fu (big64 (hau.trans (by
        norm_num at hSz ⊢
        linarith)))
      refine ⟨af, ?_⟩
      have ae2 : |(a + u).val - (a.val + u.val)| ≤ 1 / 2 ^ 85 * S := by
        refine ae.trans ((mul_le_mul_of_nonneg_right hau (zp _).le).trans ?_)
        norm_num
        linarith
      push_cast
      have e : (a + u).val - (Q + u.val - w.val) = ((a + u).val - (a.val + u.val)) + (a.val - (Q - w.val)) := by ring
      rw [e]
      refine (abs_add_le _ _).trans ?_
      linarith)
  refine ⟨v0, v, hv0, hv1, hv2, ?_⟩
  have hm6 : ((m - 2 : ℕ) : ℝ) ≤ 6 := by exact_mod_cast (by omega : m - 2 ≤ 6)
  have hS0 : 0 ≤ ∑ t ∈ Finset.range (m + 1), g t := by
    norm_num at hzS
    linarith
  have e : w.val + v.val - ∑ t ∈ Finset.range (m + 1), g t = v.val - (∑ t ∈ Finset.range (m + 1), g t - w.val) := by ring
  rw [e]
  refine hv3.trans ((mul_le_mul_of_nonneg_right hm6 (by positivity)).trans ?_)
  norm_num
  linarith

end Prods
end Rpl
end Verif
