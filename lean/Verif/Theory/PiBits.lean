import Verif.Model.Trig
import Mathlib.Analysis.SpecialFunctions.Complex.Arctan
import Mathlib.Analysis.SpecialFunctions.Trigonometric.Arctan
import Mathlib.Analysis.SpecificLimits.Normed

/-!
# Many digits of π

Machin's formula, with the arctangent series summed by binary splitting in integers.
-/

namespace Verif
namespace PiBits
open Finset Filter

/-- the terms `a .. a+n` of the series `1 - 1/(3 K) + 1/(5 K^2) - ...`, shifted to start with a positive term -/
noncomputable def S (K a n : ℕ) : ℝ := ∑ i ∈ range n, (-1) ^ i * (1 / ((2 * (a + i : ℕ) + 1 : ℝ) * (K : ℝ) ^ i))

/-- binary splitting: `S K a (2^(d+1)) = T / (B Q)` -/
def bs (K : ℕ) : ℕ → ℕ → ℕ × ℕ × ℕ
  | 0, a => (((2 * a + 3) * K - (2 * a + 1)) * K, (2 * a + 1) * (2 * a + 3), K * K)
  | d + 1, a =>
    match bs K d a, bs K d (a + 2 ^ (d + 1)) with
    | (T₁, B₁, Q₁), (T₂, B₂, Q₂) => (T₁ * (B₂ * Q₂) + B₁ * T₂, B₁ * B₂, Q₁ * Q₂)

theorem S_split (K a n m : ℕ) (hn : Even n) (hK : 0 < K) : S K a (n + m) = S K a n + S K (a + n) m / (K : ℝ) ^ n := by
  have hK' : (K : ℝ) ≠ 0 := by positivity
  unfold S
  rw [sum_range_add, Finset.sum_div]
  congr 1
  apply sum_congr rfl
  intro i _
  rw [pow_add, hn.neg_one_pow, one_mul, pow_add, ← add_assoc, mul_div_assoc, div_div]
  congr 2
  ring

theorem bs_spec (K : ℕ) (hK : 0 < K) : ∀ d a,
    (bs K d a).2.2 = K ^ 2 ^ (d + 1) ∧ 0 < (bs K d a).2.1 ∧
    S K a (2 ^ (d + 1)) = ((bs K d a).1 : ℝ) / ((bs K d a).2.1 * (bs K d a).2.2) := by
  have hK' : (0 : ℝ) < K := by exact_mod_cast hK
  intro d
  induction d with
  | zero =>
    intro a
    refine ⟨by simp [bs, pow_two], by simp [bs], ?_⟩
    have h1 : 2 * a + 1 ≤ (2 * a + 3) * K := by nlinarith
    simp only [bs, S, zero_add, pow_one, sum_range_succ, sum_range_zero]
    push_cast [Nat.cast_sub h1]
    field_simp
    ring
  | succ d ih =>
    intro a
    obtain ⟨q1, b1, s1⟩ := ih a
    obtain ⟨q2, b2, s2⟩ := ih (a + 2 ^ (d + 1))
    have e : 2 ^ (d + 1 + 1) = 2 ^ (d + 1) + 2 ^ (d + 1) := by ring
    have hev : Even (2 ^ (d + 1)) := (Nat.even_pow' (by omega)).2 even_two
    rw [e, S_split K a _ _ hev hK, s1, s2]
    rw [bs]
    rcases h1 : bs K d a with ⟨T₁, B₁, Q₁⟩
    rcases h2 : bs K d (a + 2 ^ (d + 1)) with ⟨T₂, B₂, Q₂⟩
    rw [h1] at q1 b1
    rw [h2] at q2 b2
    simp only at q1 q2 b1 b2 ⊢
    refine ⟨by rw [q1, q2, ← pow_add], Nat.mul_pos b1 b2, ?_⟩
    have hb1 : (0 : ℝ) < B₁ := by exact_mod_cast b1
    have hb2 : (0 : ℝ) < B₂ := by exact_mod_cast b2
    have hq1 : (0 : ℝ) < Q₁ := by rw [q1]; positivity
    have hq2 : (0 : ℝ) < Q₂ := by rw [q2]; positivity
    have : (K : ℝ) ^ 2 ^ (d + 1) = Q₁ := by rw [q1]; push_cast; rfl
    rw [this]
    push_cast
    field_simp

/-- the alternating series brackets the arctangent -/
theorem arctan_bracket (k : ℕ) (hk : 2 ≤ k) (m : ℕ) :
    S (k * k) 0 (2 * m) / k ≤ Real.arctan ((k : ℝ)⁻¹) ∧
    Real.arctan ((k : ℝ)⁻¹) ≤ (S (k * k) 0 (2 * m) + 1 / ((2 * (2 * m : ℕ) + 1 : ℝ) * (k * k : ℕ) ^ (2 * m))) / k := by
  have hk' : (2 : ℝ) ≤ k := by exact_mod_cast hk
  have hk0 : (0 : ℝ) < k := by linarith
  have hs := Real.hasSum_arctan (x := (k : ℝ)⁻¹) (by
    rw [norm_inv, RCLike.norm_natCast]
    exact inv_lt_one_of_one_lt₀ (by linarith))
  set f : ℕ → ℝ := fun i => 1 / ((2 * (i : ℕ) + 1 : ℝ) * ((k * k : ℕ) : ℝ) ^ i) / k with hf
  have hs' : HasSum (fun i => (-1) ^ i * f i) (Real.arctan ((k : ℝ)⁻¹)) := by
    convert hs using 2 with i
    rw [hf]
    push_cast
    rw [inv_pow, ← pow_two, ← pow_mul, pow_succ]
    field_simp
  have ht := hs'.tendsto_sum_nat
  have ha : Antitone f := by
    apply antitone_nat_of_succ_le
    intro n
    rw [hf]
    simp only
    apply div_le_div_of_nonneg_right _ hk0.le
    apply div_le_div_of_nonneg_left (by norm_num) (by positivity)
    have h1 : (1 : ℝ) ≤ ((k * k : ℕ) : ℝ) := by push_cast; nlinarith
    have h2 : ((k * k : ℕ) : ℝ) ^ n ≤ ((k * k : ℕ) : ℝ) ^ (n + 1) := pow_le_pow_right₀ h1 (by omega)
    have h3 : (2 * (n : ℝ) + 1) ≤ 2 * ((n + 1 : ℕ) : ℝ) + 1 := by push_cast; linarith
    exact mul_le_mul h3 h2 (by positivity) (by positivity)
  have hsum : ∀ n, ∑ i ∈ range n, (-1) ^ i * f i = S (k * k) 0 n / k := by
    intro n
    unfold S
    rw [Finset.sum_div]
    apply sum_congr rfl
    intro i _
    rw [hf]
    simp only [zero_add]
    ring
  have h1 := ha.alternating_series_le_tendsto ht m
  have h2 := ha.tendsto_le_alternating_series ht m
  rw [sum_range_succ] at h2
  rw [hsum] at h1 h2
  refine ⟨h1, h2.trans ?_⟩
  rw [add_div]
  have : (-1 : ℝ) ^ (2 * m) = 1 := by rw [pow_mul]; simp
  rw [this, one_mul]

/-- the integer test behind `two_div_pi`: `W / 2^N ≤ 2/π < (W+1) / 2^N` with `2^(d+1)` and `2^(e+1)` terms of the two
arctangent series -/
def check (W N d e : ℕ) : Bool :=
  match bs 25 d 0, bs 57121 e 0 with
  | (T₁, B₁, Q₁), (T₂, B₂, Q₂) =>
    let D₁ := 5 * (B₁ * Q₁)
    let D₂ := 239 * (B₂ * Q₂)
    -- upper bounds: arctan(1/5) ≤ (T₁ + B₁) / D₁ and arctan(1/239) ≤ (T₂ + B₂) / D₂
    decide (W * (16 * ((T₁ + B₁) * D₂)) ≤ 2 ^ (N + 1) * (D₁ * D₂) + W * (4 * (T₂ * D₁))) &&
    decide (2 ^ (N + 1) * (D₁ * D₂) + (W + 1) * (4 * ((T₂ + B₂) * D₁)) < (W + 1) * (16 * (T₁ * D₂)))

theorem arctan_bounds (k d : ℕ) (hk : 2 ≤ k) {T B Q : ℕ} (h : bs (k * k) d 0 = (T, B, Q)) :
    0 < B ∧ 0 < Q ∧ (T : ℝ) / (k * (B * Q)) ≤ Real.arctan ((k : ℝ)⁻¹) ∧ Real.arctan ((k : ℝ)⁻¹) ≤ (T + B) / (k * (B * Q)) := by
  have hk0 : (0 : ℝ) < k := by exact_mod_cast (by omega : 0 < k)
  obtain ⟨q, b, s⟩ := bs_spec (k * k) (by positivity) d 0
  rw [h] at q b s
  simp only at q b s
  have hQ : 0 < Q := by rw [q]; positivity
  have hb : (0 : ℝ) < B := by exact_mod_cast b
  have hQ' : (0 : ℝ) < Q := by exact_mod_cast hQ
  obtain ⟨h1, h2⟩ := arctan_bracket k hk (2 ^ d)
  have e : 2 * 2 ^ d = 2 ^ (d + 1) := by ring
  rw [e, s] at h1 h2
  refine ⟨b, hQ, ?_, ?_⟩
  · convert h1 using 1
    field_simp
  · refine h2.trans ?_
    have e2 : (((k * k : ℕ) : ℝ)) ^ 2 ^ (d + 1) = Q := by rw [q]; push_cast; rfl
    rw [e2]
    have h3 : 1 / ((2 * ((2 ^ (d + 1) : ℕ) : ℝ) + 1) * (Q : ℝ)) ≤ 1 / Q := by
      apply div_le_div_of_nonneg_left (by norm_num) hQ'
      have : (0 : ℝ) ≤ ((2 ^ (d + 1) : ℕ) : ℝ) := by positivity
      nlinarith
    have h4 : ((T : ℝ) + B) / (k * (B * Q)) = (T / (B * Q) + 1 / Q) / k := by
      field_simp
    rw [h4]
    apply div_le_div_of_nonneg_right _ hk0.le
    linarith

theorem two_div_pi {W N d e : ℕ} (h : check W N d e = true) :
    (W : ℝ) / 2 ^ N ≤ 2 / Real.pi ∧ 2 / Real.pi < (W + 1 : ℝ) / 2 ^ N := by
  rw [check] at h
  rcases h1 : bs 25 d 0 with ⟨T₁, B₁, Q₁⟩
  rcases h2 : bs 57121 e 0 with ⟨T₂, B₂, Q₂⟩
  rw [h1, h2] at h
  simp only [Bool.and_eq_true, decide_eq_true_eq] at h
  obtain ⟨c1, c2⟩ := h
  obtain ⟨b1, q1, l1, u1⟩ := arctan_bounds 5 d (by norm_num) h1
  obtain ⟨b2, q2, l2, u2⟩ := arctan_bounds 239 e (by norm_num) h2
  have hpi := Real.four_mul_arctan_inv_5_sub_arctan_inv_239
  have hpos := Real.pi_pos
  have hb1 : (0 : ℝ) < B₁ := by exact_mod_cast b1
  have hb2 : (0 : ℝ) < B₂ := by exact_mod_cast b2
  have hq1 : (0 : ℝ) < Q₁ := by exact_mod_cast q1
  have hq2 : (0 : ℝ) < Q₂ := by exact_mod_cast q2
  have c1' : (W : ℝ) * (16 * ((T₁ + B₁) * (239 * (B₂ * Q₂)))) ≤
      2 ^ (N + 1) * ((5 * (B₁ * Q₁)) * (239 * (B₂ * Q₂))) + W * (4 * (T₂ * (5 * (B₁ * Q₁)))) := by exact_mod_cast c1
  have c2' : (2 : ℝ) ^ (N + 1) * ((5 * (B₁ * Q₁)) * (239 * (B₂ * Q₂))) + (W + 1) * (4 * ((T₂ + B₂) * (5 * (B₁ * Q₁)))) <
      (W + 1) * (16 * (T₁ * (239 * (B₂ * Q₂)))) := by exact_mod_cast c2
  push_cast at l1 u1 l2 u2
  clear c1 c2 h1 h2
  set D₁ : ℝ := 5 * (B₁ * Q₁) with hD₁
  set D₂ : ℝ := 239 * (B₂ * Q₂) with hD₂
  have d1 : 0 < D₁ := by positivity
  have d2 : 0 < D₂ := by positivity
  set α := Real.arctan (5 : ℝ)⁻¹
  set β := Real.arctan (239 : ℝ)⁻¹
  rw [div_le_iff₀ d1] at l1
  rw [le_div_iff₀ d1] at u1
  rw [div_le_iff₀ d2] at l2
  rw [le_div_iff₀ d2] at u2
  have hp : Real.pi = 16 * α - 4 * β := by linarith
  have hN : (0 : ℝ) < 2 ^ N := by positivity
  have eN : (2 : ℝ) ^ (N + 1) = 2 * 2 ^ N := by ring
  rw [eN] at c1' c2'
  have hdd : 0 < D₁ * D₂ := mul_pos d1 d2
  constructor
  · rw [div_le_div_iff₀ hN hpos]
    -- W π ≤ 2 * 2^N
    have hW : (0 : ℝ) ≤ W := Nat.cast_nonneg _
    have k1 : Real.pi * (D₁ * D₂) ≤ 16 * ((T₁ + B₁) * D₂) - 4 * (T₂ * D₁) := by
      have a1 := mul_le_mul_of_nonneg_right u1 d2.le
      have a2 := mul_le_mul_of_nonneg_right l2 d1.le
      rw [hp]
      nlinarith
    have k2 : (W * Real.pi) * (D₁ * D₂) ≤ (2 * 2 ^ N) * (D₁ * D₂) := by
      have := mul_le_mul_of_nonneg_left k1 hW
      nlinarith
    exact le_of_mul_le_mul_right k2 hdd
  · rw [div_lt_div_iff₀ hpos hN]
    have hW : (0 : ℝ) ≤ W + 1 := by positivity
    have k1 : 16 * (T₁ * D₂) - 4 * ((T₂ + B₂) * D₁) ≤ Real.pi * (D₁ * D₂) := by
      have a1 := mul_le_mul_of_nonneg_right l1 d2.le
      have a2 := mul_le_mul_of_nonneg_right u2 d1.le
      rw [hp]
      nlinarith
    have k2 : (2 * 2 ^ N) * (D₁ * D₂) < ((W + 1) * Real.pi) * (D₁ * D₂) := by
      have := mul_le_mul_of_nonneg_left k1 hW
      nlinarith
    exact lt_of_mul_lt_mul_right k2 hdd.le

/-- the digits of a table as one number -/
def number (l : List ℤ) : ℕ := (l.map Int.toNat).foldl (fun s d => s * 2 ^ 24 + d) 0

set_option exponentiation.threshold 100000 in
theorem check_narrow : check (number Rpl.ipio2Narrow) (24 * 66) 8 6 = true := by decide +kernel

set_option maxRecDepth 100000 in
set_option exponentiation.threshold 100000 in
theorem check_wide : check (number Rpl.ipio2) (24 * 690) 11 10 = true := by decide +kernel

end PiBits
end Verif
