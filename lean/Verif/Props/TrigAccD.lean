import Verif.Theory.RemSmall
import Verif.Props.TrigAcc

/-!
# C50: `sin`, `cos` and `sincos` are within one unit in the last place for every finite double
-/

namespace Verif
open Flt Trig TrigAcc

namespace TrigAccD

theorem lt_pow {x : Flt f64} {E : ℕ} (hE : 1 ≤ E) (h : x.mb < E * 2 ^ 52) : |x.val| < 2 ^ ((E : ℤ) - 1023) := by
  have := val_lt_of_mb (x := x) hE (by rw [f64_sb]; exact h)
  rwa [f64_bias] at this

theorem ge_pow {x : Flt f64} {E : ℕ} (hE : 1 ≤ E) (h : E * 2 ^ 52 ≤ x.mb) : 2 ^ ((E : ℤ) - 1023) ≤ |x.val| := by
  have := val_ge_of_mb (x := x) hE (by rw [f64_sb]; exact h)
  rwa [f64_bias] at this

/-- no reduction -/
theorem near0 {x : Flt f64} (hx : x.isFinite) (h1 : 990 * 2 ^ 52 ≤ x.mb) (h2 : x.mb < 0x3fe921fc * 2 ^ 32) : NearD x (0.0 : Flt f64) x.val := by
  have hz : (0.0 : Flt f64).val = 0 := by
    rw [val_const64 0 0 (-1074) (by decide +kernel) (by norm_num)]; norm_num
  have hlo := ge_pow (by norm_num) h1
  have hhi := thr_le (x := x) 0x3fe921fc 1647100 1053 (-21) (by omega) (by decide +kernel) (by decide +kernel) (by norm_num) (by norm_num)
  refine ⟨hx, by decide +kernel, ?_, ?_, ?_, ?_⟩
  · rw [hz, abs_zero]; exact mul_nonneg (by norm_num) (abs_nonneg _)
  · rw [hz, add_zero, sub_self, abs_zero]; exact mul_nonneg (by norm_num) (abs_nonneg _)
  · refine hhi.trans ?_; norm_num
  · refine le_trans ?_ hlo; norm_num

theorem hz0 : (0.0 : Flt f64).val = 0 := by
  rw [val_const64 0 0 (-1074) (by decide +kernel) (by norm_num)]; norm_num

/-- `sin x` below `2^-26` -/
theorem sin_tiny {x : Flt f64} (hx : x.isFinite) (h : x.mb < 997 * 2 ^ 52) : WithinUlp 1 x (Real.sin x.val) := by
  have h1 := lt_pow (by norm_num) h
  norm_num at h1
  have h2 := Poly.sin_series 1 (x := x.val) (h1.le.trans (by norm_num))
  rw [show Poly.sinc 1 = [1] by decide +kernel, show Nat.factorial (2 * 1 + 1) = 6 from rfl] at h2
  simp only [Poly.ev] at h2
  push_cast at h2
  rw [abs_sub_comm, pow_one, show x.val * (1 + x.val ^ 2 * 0) = x.val by ring] at h2
  have h3 := sin_lower (r := x.val) (h1.le.trans (by norm_num))
  have h4 : x.val ^ 2 ≤ 1 / 2 ^ 52 := by rw [← sq_abs]; nlinarith [abs_nonneg x.val]
  have h5 : |x.val| * (x.val ^ 2 / 6) ≤ |x.val| * (1 / 2 ^ 52 / 6) := mul_le_mul_of_nonneg_left (by linarith) (abs_nonneg _)
  refine WithinUlp.of_rel hx (ε := 1 / 2 ^ 54) ?_ (by norm_num) (by rw [f64_sb]; norm_num)
  norm_num at *
  linarith [abs_nonneg x.val]

/-- `cos x` below `sqrt 2 * 2^-27` -/
theorem cos_tiny {x : Flt f64} (h : x.mb < 0x3e46a09e * 2 ^ 32) : WithinUlp 1 (1.0 : Flt f64) (Real.cos x.val) := by
  have h1 := thr_le (x := x) 0x3e46a09e 1482910 1027 (-47) (by omega) (by decide +kernel) (by decide +kernel) (by norm_num) (by norm_num)
  norm_num at h1
  have h2' := Poly.cos_series 1 (x := x.val) (h1.trans (by norm_num))
  rw [show Poly.cosc 1 = [1] by decide +kernel, show Nat.factorial (2 * 1) = 2 from rfl] at h2'
  simp only [Poly.ev] at h2'
  push_cast at h2'
  rw [pow_one, show (1 + x.val ^ 2 * 0) = (1 : ℝ) by ring, abs_sub_comm] at h2'
  have h4 : x.val ^ 2 ≤ 1 / 2 ^ 53 := by rw [← sq_abs]; nlinarith [abs_nonneg x.val]
  have hv : (1.0 : Flt f64).val = 1 := by rw [Trig.one64, val_one]
  refine WithinUlp.of_rel (by decide +kernel) (ε := 0.6 / 2 ^ 53) ?_ (by norm_num) (by rw [f64_sb]; norm_num)
  rw [hv]
  have h5 := (abs_le.1 h2').2
  have hc : 0.9 ≤ Real.cos x.val := by norm_num at *; linarith
  rw [abs_of_pos (a := Real.cos x.val) (by linarith)]
  norm_num at *
  linarith

end TrigAccD
open TrigAccD

attribute [local irreducible] kSin kCos remPio2

/-- `sin` is within one unit in the last place of the sine, for every finite double. -/
theorem sin_accurate : AccurateTo 1 sin Real.sin := by
  intro x hx
  show ∃ r, sin x = some r ∧ WithinUlp 1 r (Real.sin x.val)
  have hfin : x.mb < 0x7ff0000000000000 := by have := (isFinite64 x).1 hx; omega
  rw [sin]
  simp only [ix_le, ix_lt, ix_ge]
  simp only [BitVec.reduceToNat]
  split_ifs with h1 h2 h3
  · exact ⟨_, rfl, TrigAccD.sin_tiny hx (by omega)⟩
  · exact ⟨_, rfl, (TrigAccD.near0 hx (by omega) (by omega)).sin_ulp 0 (Or.inl ⟨rfl, hz0⟩)⟩
  · omega
  · obtain ⟨n, y0, y1, hr, N, hN, hnear⟩ := remPio2_quad Rpl.goodTbl_wide hx (by omega)
    rw [remPio2, hr, Option.map_some]
    refine ⟨_, rfl, ?_⟩
    dsimp only
    rw [and3_eq]
    have hS := hnear.sin_ulp 1 (Or.inr rfl)
    have hC := hnear.cos_ulp
    rcases (by omega : n % 4 = 0 ∨ n % 4 = 1 ∨ n % 4 = 2 ∨ n % 4 = 3) with h | h | h | h <;> rw [h] at hN <;> rw [h]
    · rw [(quad0 _ hN).1] at hS
      rw [if_pos rfl]
      exact hS
    · rw [(quad1 _ hN).2] at hC
      rw [if_neg (by norm_num), if_pos rfl]
      exact hC
    · have hS := hS.neg
      rw [(quad2 _ hN).1, _root_.neg_neg] at hS
      rw [if_neg (by norm_num), if_neg (by norm_num), if_pos rfl]
      exact hS
    · have hC := hC.neg
      rw [(quad3 _ hN).2, _root_.neg_neg] at hC
      rw [if_neg (by norm_num), if_neg (by norm_num), if_neg (by norm_num)]
      exact hC

/-- `cos` is within one unit in the last place of the cosine, for every finite double. -/
theorem cos_accurate : AccurateTo 1 cos Real.cos := by
  intro x hx
  show ∃ r, cos x = some r ∧ WithinUlp 1 r (Real.cos x.val)
  have hfin : x.mb < 0x7ff0000000000000 := by have := (isFinite64 x).1 hx; omega
  rw [cos]
  simp only [ix_le, ix_lt, ix_ge]
  simp only [BitVec.reduceToNat]
  split_ifs with h1 h2 h3
  · exact ⟨_, rfl, TrigAccD.cos_tiny (x := x) (by have := h2.1; omega)⟩
  · refine ⟨_, rfl, (TrigAccD.near0 hx ?_ (by omega)).cos_ulp⟩
    by_contra hc
    exact h2 ⟨by omega, toSInt_tiny (by omega)⟩
  · omega
  · obtain ⟨n, y0, y1, hr, N, hN, hnear⟩ := remPio2_quad Rpl.goodTbl_wide hx (by omega)
    rw [remPio2, hr, Option.map_some]
    refine ⟨_, rfl, ?_⟩
    dsimp only
    rw [and3_eq]
    have hS := hnear.sin_ulp 1 (Or.inr rfl)
    have hC := hnear.cos_ulp
    rcases (by omega : n % 4 = 0 ∨ n % 4 = 1 ∨ n % 4 = 2 ∨ n % 4 = 3) with h | h | h | h <;> rw [h] at hN <;> rw [h]
    · rw [(quad0 _ hN).2] at hC
      rw [if_pos rfl]
      exact hC
    · have hS := hS.neg
      rw [(quad1 _ hN).1, _root_.neg_neg] at hS
      rw [if_neg (by norm_num), if_pos rfl]
      exact hS
    · have hC := hC.neg
      rw [(quad2 _ hN).2, _root_.neg_neg] at hC
      rw [if_neg (by norm_num), if_neg (by norm_num), if_pos rfl]
      exact hC
    · rw [(quad3 _ hN).1] at hS
      rw [if_neg (by norm_num), if_neg (by norm_num), if_neg (by norm_num)]
      exact hS

/-- `sincos` returns the sine and the cosine, each within one unit in the last place, for every
finite double. -/
theorem sincos_accurate (x : Flt f64) (hx : x.isFinite) : ∃ s c, sincos x = some (s, c) ∧
    WithinUlp 1 s (Real.sin ((x.toRat : ℚ) : ℝ)) ∧ WithinUlp 1 c (Real.cos ((x.toRat : ℚ) : ℝ)) := by
  show ∃ s c, sincos x = some (s, c) ∧ WithinUlp 1 s (Real.sin x.val) ∧ WithinUlp 1 c (Real.cos x.val)
  have hfin : x.mb < 0x7ff0000000000000 := by have := (isFinite64 x).1 hx; omega
  rw [sincos]
  simp only [ix_le, ix_lt, ix_ge]
  simp only [BitVec.reduceToNat]
  split_ifs with h1 h2 h3
  · exact ⟨_, _, rfl, TrigAccD.sin_tiny hx (by omega), TrigAccD.cos_tiny (x := x) (by omega)⟩
  · have hn := TrigAccD.near0 hx (by omega) (by omega)
    exact ⟨_, _, rfl, hn.sin_ulp 0 (Or.inl ⟨rfl, hz0⟩), hn.cos_ulp⟩
  · omega
  · obtain ⟨n, y0, y1, hr, N, hN, hnear⟩ := remPio2_quad Rpl.goodTbl_wide hx (by omega)
    rw [remPio2, hr, Option.bind_some]
    dsimp only
    rw [and3_eq]
    have hS := hnear.sin_ulp 1 (Or.inr rfl)
    have hC := hnear.cos_ulp
    have hS' := hS.neg
    have hC' := hC.neg
    rcases (by omega : n % 4 = 0 ∨ n % 4 = 1 ∨ n % 4 = 2 ∨ n % 4 = 3) with h | h | h | h <;> rw [h] at hN <;> rw [h]
    · rw [(quad0 _ hN).1] at hS
      rw [(quad0 _ hN).2] at hC
      rw [if_pos rfl]
      exact ⟨_, _, rfl, hS, hC⟩
    · rw [(quad1 _ hN).1, _root_.neg_neg] at hS'
      rw [(quad1 _ hN).2] at hC
      rw [if_neg (by norm_num), if_pos rfl]
      exact ⟨_, _, rfl, hC, hS'⟩
    · rw [(quad2 _ hN).1, _root_.neg_neg] at hS'
      rw [(quad2 _ hN).2, _root_.neg_neg] at hC'
      rw [if_neg (by norm_num), if_neg (by norm_num), if_pos rfl]
      exact ⟨_, _, rfl, hS', hC'⟩
    · rw [(quad3 _ hN).1] at hS
      rw [(quad3 _ hN).2, _root_.neg_neg] at hC'
      rw [if_neg (by norm_num), if_neg (by norm_num), if_neg (by norm_num), if_pos rfl]
      exact ⟨_, _, rfl, hC', hS⟩

/-- the largest finite double meets the hypothesis -/
example : (bits64 0x7fefffffffffffff).isFinite := by decide +kernel

end Verif
