import Verif.Spec.Symmetry
import Verif.Theory.SymD
import Verif.Props.TrigAccD

/-!
# C32 for the sine and the cosine in double precision
-/

namespace Verif
open Flt Trig TrigAcc

attribute [local irreducible] kSin kCos

theorem TrigAccD.inf_sub {x : Flt f64} (hx : ¬ x.isFinite) (hn : ¬ x.isNaN) : (x - x).isNaN ∧ (-x - -x).isNaN := by
  have hi : x.isInf := by
    rcases class_cases x with h | h | h
    · exact absurd h hn
    · exact h
    · exact absurd h hx
  exact ⟨sub_self_nan (Or.inr hi), sub_self_nan (Or.inr (by rwa [isInf_neg]))⟩

/-- `sin` is odd, bit for bit. -/
theorem sin_odd : OddFn sin := by
  intro x hn
  rw [sin, sin]
  simp only [ix_neg]
  simp only [ix_le, ix_lt, ix_ge]
  simp only [BitVec.reduceToNat]
  split_ifs with h1 h2 h3
  · exact ⟨_, _, rfl, rfl, Or.inl rfl⟩
  · have hx : x.isFinite := by rw [isFinite64]; omega
    have := (TrigAccD.near0 hx (by omega) (by omega)).sin_neg (SRel.neg x) (b' := 0.0) (Or.inr (Or.inr ⟨by decide +kernel, by decide +kernel⟩)) 0 (Or.inl ⟨rfl, TrigAccD.hz0⟩)
    exact ⟨_, _, rfl, rfl, Or.inl this⟩
  · refine ⟨_, _, rfl, rfl, Or.inr ?_⟩
    exact TrigAccD.inf_sub (by rw [isFinite64]; omega) hn
  · have hx : x.isFinite := by rw [isFinite64]; omega
    obtain ⟨n, y0, y1, y0', y1', e, e', s0, s1⟩ := rem_neg64 Rpl.goodTbl_wide hx (by omega)
    obtain ⟨_, _, _, er, N, hN, hnear⟩ := remPio2_quad Rpl.goodTbl_wide hx (by omega)
    rw [e] at er
    simp only [Option.some.injEq, Prod.mk.injEq] at er
    obtain ⟨rfl, rfl, rfl⟩ := er
    rw [remPio2, remPio2, e, e', Option.map_some, Option.map_some]
    refine ⟨_, _, rfl, rfl, Or.inl ?_⟩
    dsimp only
    have hS := hnear.sin_neg s0 s1 1 (Or.inr rfl)
    have hC := hnear.cos_neg s0 s1
    rw [hS, hC, and3_eq, and3_eq]
    rcases (by omega : n % 4 = 0 ∧ -n % 4 = 0 ∨ n % 4 = 1 ∧ -n % 4 = 3 ∨ n % 4 = 2 ∧ -n % 4 = 2 ∨ n % 4 = 3 ∧ -n % 4 = 1) with h | h | h | h <;> rw [h.1, h.2]
    · rw [if_pos rfl, if_pos rfl]
    · rw [if_neg (by norm_num), if_neg (by norm_num), if_neg (by norm_num), if_neg (by norm_num), if_pos rfl]
    · rw [if_neg (by norm_num), if_neg (by norm_num), if_pos rfl, if_neg (by norm_num), if_neg (by norm_num), if_pos rfl]
    · rw [if_neg (by norm_num), if_pos rfl, if_neg (by norm_num), if_neg (by norm_num), if_neg (by norm_num), Flt.neg_neg]

/-- `cos` is even, bit for bit. -/
theorem cos_even : EvenFn cos := by
  intro x hn
  rw [cos, cos]
  simp only [ix_neg]
  simp only [ix_le, ix_lt, ix_ge]
  simp only [BitVec.reduceToNat]
  by_cases h1 : x.mb < 1072243196 * 2 ^ 32
  · have hx : x.isFinite := by rw [isFinite64]; omega
    have e1 : x.toSInt 32 = 0 := toSInt_tiny (by omega)
    have e2 : (-x).toSInt 32 = 0 := toSInt_tiny (by rw [mb_neg]; omega)
    rw [if_pos (show x.mb < (1072243195 + 1) * 2 ^ 32 by omega), if_pos (show x.mb < (1072243195 + 1) * 2 ^ 32 by omega), e1, e2]
    split_ifs with h2
    · exact ⟨_, _, rfl, rfl, Or.inl rfl⟩
    · have h3 : ¬ x.mb < 1044816030 * 2 ^ 32 := fun h => h2 ⟨by omega, rfl⟩
      have := (TrigAccD.near0 hx (by omega) (by omega)).cos_neg (SRel.neg x) (b' := 0.0) (Or.inr (Or.inr ⟨by decide +kernel, by decide +kernel⟩))
      exact ⟨_, _, rfl, rfl, Or.inl this⟩
  rw [if_neg (show ¬ x.mb < (1072243195 + 1) * 2 ^ 32 by omega), if_neg (show ¬ x.mb < (1072243195 + 1) * 2 ^ 32 by omega)]
  split_ifs with h3
  · refine ⟨_, _, rfl, rfl, Or.inr ?_⟩
    exact TrigAccD.inf_sub (by rw [isFinite64]; omega) hn
  · have hx : x.isFinite := by rw [isFinite64]; omega
    obtain ⟨n, y0, y1, y0', y1', e, e', s0, s1⟩ := rem_neg64 Rpl.goodTbl_wide hx (by omega)
    obtain ⟨_, _, _, er, N, hN, hnear⟩ := remPio2_quad Rpl.goodTbl_wide hx (by omega)
    rw [e] at er
    simp only [Option.some.injEq, Prod.mk.injEq] at er
    obtain ⟨rfl, rfl, rfl⟩ := er
    rw [remPio2, remPio2, e, e', Option.map_some, Option.map_some]
    refine ⟨_, _, rfl, rfl, Or.inl ?_⟩
    dsimp only
    have hS := hnear.sin_neg s0 s1 1 (Or.inr rfl)
    have hC := hnear.cos_neg s0 s1
    rw [hS, hC, and3_eq, and3_eq]
    rcases (by omega : n % 4 = 0 ∧ -n % 4 = 0 ∨ n % 4 = 1 ∧ -n % 4 = 3 ∨ n % 4 = 2 ∧ -n % 4 = 2 ∨ n % 4 = 3 ∧ -n % 4 = 1) with h | h | h | h <;> rw [h.1, h.2]
    · rw [if_pos rfl, if_pos rfl]
    · rw [if_neg (by norm_num), if_neg (by norm_num), if_neg (by norm_num), if_neg (by norm_num), if_pos rfl]
    · rw [if_neg (by norm_num), if_neg (by norm_num), if_pos rfl, if_neg (by norm_num), if_neg (by norm_num), if_pos rfl]
    · rw [if_neg (by norm_num), if_pos rfl, if_neg (by norm_num), if_neg (by norm_num), if_neg (by norm_num), Flt.neg_neg]

end Verif
