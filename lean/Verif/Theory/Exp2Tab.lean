import Verif.Theory.Trans
import Verif.Theory.Err64
import Verif.Props.Exp2

/-!
# The tables of `exp2` and `exp2f`

Entry `j` of the table of `exp2` is a double `t` close to `2^((j - 128)/256 + eps)`, with the offset `eps` stored beside it.
The 256th power of `t` is compared with the exponential series in integer arithmetic.
-/

namespace Verif
open Flt

/-- a positive number whose `n`th power is close to one is close to one -/
theorem root_near_one {X η : ℝ} {n : ℕ} (hn : 0 < n) (hX : 0 < X) (h : |X ^ n - 1| ≤ η) (hη : η ≤ 1 / 100) : |X - 1| ≤ 1.02 * η / n := by
  have h' := abs_le.1 h
  have hn' : (0 : ℝ) < n := by exact_mod_cast hn
  have η0 : 0 ≤ η := (abs_nonneg _).trans h
  rw [abs_le, le_div_iff₀ hn', ← neg_div, div_le_iff₀ hn']
  constructor
  · rcases le_total 1 X with h1 | h1
    · have := mul_nonneg (sub_nonneg.2 h1) hn'.le
      norm_num; linarith
    · have hp : 0 < X ^ n := by positivity
      have hb := one_add_mul_le_pow (a := X⁻¹ - 1) (by
        have := inv_pos.2 hX; linarith) n
      rw [show 1 + (X⁻¹ - 1) = X⁻¹ by ring, inv_pow] at hb
      have h2 : (X ^ n)⁻¹ ≤ 1 + 1.02 * η := by
        rw [inv_le_iff_one_le_mul₀ hp]
        have : (1 + 1.02 * η) * (1 - η) ≤ (1 + 1.02 * η) * X ^ n := mul_le_mul_of_nonneg_left (by linarith) (by norm_num; linarith)
        norm_num at this ⊢
        nlinarith
      have h3 : 1 - X ≤ X⁻¹ - 1 := by
        have : X * X⁻¹ = 1 := mul_inv_cancel₀ hX.ne'
        have := one_le_inv_iff₀.2 ⟨hX, h1⟩
        nlinarith
      have := mul_le_mul_of_nonneg_left h3 hn'.le
      linarith
  · have hb := one_add_mul_le_pow (a := X - 1) (by linarith) n
    rw [show 1 + (X - 1) = X by ring] at hb
    norm_num
    linarith [h'.2]

namespace Exp2

/-- `log 2` to 22 digits -/
def l2 : ℚ := 6931471805599453094172 / 10 ^ 22

/-- the integer test for one entry of the table -/
def tabOk (j : ℕ) (t e : BitVec 64) : Bool :=
  let a := (bits64 t).sval
  let b := (bits64 e).sval
  let M : ℤ := a / 2 ^ 1021
  let E : ℤ := b / 2 ^ 1013
  let w : ℚ := 256 * ((E : ℚ) / 2 ^ 61) * l2
  decide (t.toNat < 0x7ff0000000000000) && decide ((bits64 e).isFinite) && decide (a = M * 2 ^ 1021) && decide (b = E * 2 ^ 1013) &&
    decide (0 < M) && decide (|E| ≤ 2 ^ 22) &&
    decide (|(M : ℚ) ^ 256 * 2 ^ 128 / 2 ^ (53 * 256 + j) - (1 + w + w ^ 2 / 2)| ≤ 1 / 2 ^ 56)

theorem tab_check : ((List.range 256).all fun j => match tbl[2 * j]?, tbl[2 * j + 1]? with
    | some t, some e => tabOk j t e
    | _, _ => false) = true := by decide +kernel

/-- entry `j`: `t = 2^((j - 128)/256 + eps) X` with `X` within `1.1 / 2^64` of one -/
theorem tab {j : ℕ} (hj : j < 256) : ∃ t e, tbl[2 * j]? = some t ∧ tbl[2 * j + 1]? = some e ∧ (bits64 t).isFinite ∧ (bits64 e).isFinite ∧
    |(bits64 e).val| ≤ 1 / 2 ^ 39 ∧
    ∃ X : ℝ, |X - 1| ≤ 1.1 / 2 ^ 64 ∧ (bits64 t).val = Real.exp ((((j : ℝ) - 128) / 256 + (bits64 e).val) * Real.log 2) * X := by
  have h := List.all_eq_true.1 tab_check j (List.mem_range.2 hj)
  generalize tbl[2 * j]? = ot at h
  generalize tbl[2 * j + 1]? = oe at h
  match ot, oe, h with
  | some t, some e, h =>
    simp only [tabOk, Bool.and_eq_true, decide_eq_true_eq] at h
    obtain ⟨⟨⟨⟨⟨⟨h1, h2⟩, h3⟩, h4⟩, h5⟩, h6⟩, h7⟩ := h
    refine ⟨t, e, rfl, rfl, ?_, h2, ?_⟩
    · rw [bits64_mk (by omega), isFinite64, mb_mk' (by have : (f64.ew + f64.sb) = 63 := rfl; rw [this]; omega)]; exact h1
    have tv := val_const64 (x := bits64 t) ((bits64 t).sval / 2 ^ 1021) 1021 (-53) (by exact_mod_cast h3) (by norm_num)
    have ev := val_const64 (x := bits64 e) ((bits64 e).sval / 2 ^ 1013) 1013 (-61) (by exact_mod_cast h4) (by norm_num)
    generalize (bits64 t).sval / 2 ^ 1021 = M at *
    generalize (bits64 e).sval / 2 ^ 1013 = E at *
    clear h3 h4
    set τ := (bits64 t).val
    set ε := (bits64 e).val
    have hM : (0 : ℝ) < M := by exact_mod_cast h5
    have hE : |(E : ℝ)| ≤ 2 ^ 22 := by exact_mod_cast h6
    have hε : |ε| ≤ 1 / 2 ^ 39 := by
      rw [ev, abs_mul, abs_of_pos (zp _)]
      refine (mul_le_mul_of_nonneg_right hE (zp _).le).trans ?_
      norm_num
    have hτ : 0 < τ := by rw [tv]; exact mul_pos hM (zp _)
    refine ⟨hε, ?_⟩
    set a := ((j : ℝ) - 128) / 256 + ε
    refine ⟨τ / Real.exp (a * Real.log 2), ?_, by field_simp⟩
    have hX : 0 < τ / Real.exp (a * Real.log 2) := by positivity
    set W := 256 * ε * Real.log 2 with hW
    have hpow : (τ / Real.exp (a * Real.log 2)) ^ 256 = τ ^ 256 * 2 ^ 128 / 2 ^ j / Real.exp W := by
      have e1 : Real.exp (a * Real.log 2) ^ 256 = 2 ^ j / 2 ^ 128 * Real.exp W := by
        rw [← Real.exp_nat_mul]
        have : ((256 : ℕ) : ℝ) * (a * Real.log 2) = (j : ℝ) * Real.log 2 - (128 : ℕ) * Real.log 2 + W := by
          rw [hW]; push_cast; simp only [a]; ring
        rw [this, Real.exp_add, Real.exp_sub, Real.exp_nat_mul, Real.exp_nat_mul, Real.exp_log (by norm_num)]
      rw [div_pow, e1]
      field_simp
    have h7r : |τ ^ 256 * 2 ^ 128 / 2 ^ j - (1 + 256 * ε * (l2 : ℝ) + (256 * ε * (l2 : ℝ)) ^ 2 / 2)| ≤ 1 / 2 ^ 56 := by
      have : ((|(M : ℚ) ^ 256 * 2 ^ 128 / 2 ^ (53 * 256 + j) - (1 + 256 * ((E : ℚ) / 2 ^ 61) * l2 + (256 * ((E : ℚ) / 2 ^ 61) * l2) ^ 2 / 2)| : ℚ) : ℝ) ≤ ((1 / 2 ^ 56 : ℚ) : ℝ) := by
        exact_mod_cast h7
      push_cast at this
      have e1 : τ ^ 256 * 2 ^ 128 / 2 ^ j = (M : ℝ) ^ 256 * 2 ^ 128 / 2 ^ (53 * 256 + j) := by
        rw [tv, mul_pow, pow_add, pow_mul, show (-53 : ℤ) = -(53 : ℕ) by rfl, zpow_neg, zpow_natCast, inv_pow]
        generalize ((2 : ℝ) ^ 53) ^ 256 = A
        field_simp
      have e2 : ε = (E : ℝ) / 2 ^ 61 := by
        rw [ev, show (-61 : ℤ) = -(61 : ℕ) by rfl, zpow_neg, zpow_natCast, div_eq_mul_inv]
      rw [e1, e2]
      exact this
    have l1 := Num.log2_gt
    have l2' := Num.log2_lt
    have hl : |Real.log 2 - (l2 : ℝ)| ≤ 1 / 10 ^ 22 := by
      rw [l2, abs_le]; push_cast; norm_num at l1 l2' ⊢; constructor <;> linarith
    have hl3 : |(l2 : ℝ)| ≤ 0.7 := by rw [l2]; push_cast; norm_num [abs_le]
    have hL : |Real.log 2| ≤ 0.7 := by rw [abs_le]; norm_num at l1 l2' ⊢; constructor <;> linarith
    have hWb : |W| ≤ 1 / 2 ^ 31 := by
      rw [hW, abs_mul, abs_mul]
      have : |ε| * |Real.log 2| ≤ 1 / 2 ^ 39 * 0.7 := mul_le_mul hε hL (abs_nonneg _) (by norm_num)
      norm_num at this ⊢
      linarith
    set w := 256 * ε * (l2 : ℝ) with hw
    have hwb : |w| ≤ 1 / 2 ^ 31 := by
      rw [hw, abs_mul, abs_mul]
      have : |ε| * |(l2 : ℝ)| ≤ 1 / 2 ^ 39 * 0.7 := mul_le_mul hε hl3 (abs_nonneg _) (by norm_num)
      norm_num at this ⊢
      linarith
    have hWw : |W - w| ≤ 1 / 2 ^ 80 := by
      have : W - w = 256 * (ε * (Real.log 2 - l2)) := by rw [hW, hw]; ring
      rw [this, abs_mul, abs_mul]
      have : |ε| * |Real.log 2 - l2| ≤ 1 / 2 ^ 39 * (1 / 10 ^ 22) := mul_le_mul hε hl (abs_nonneg _) (by norm_num)
      norm_num at this ⊢
      linarith
    have hexp : |Real.exp W - (1 + w + w ^ 2 / 2)| ≤ 1 / 2 ^ 78 := by
      have hb := Real.exp_bound (x := W) (by refine hWb.trans ?_; norm_num) (n := 3) (by norm_num)
      simp only [Finset.sum_range_succ, Finset.sum_range_zero, Nat.factorial] at hb
      have hb2 : |W| ^ 3 ≤ (1 / 2 ^ 31) ^ 3 := pow_le_pow_left₀ (abs_nonneg _) hWb 3
      have e1 : Real.exp W - (1 + w + w ^ 2 / 2) = (Real.exp W - (1 + W + W ^ 2 / 2)) + ((W - w) + (W - w) * (W + w) / 2) := by ring
      rw [e1]
      have h8 : |Real.exp W - (1 + W + W ^ 2 / 2)| ≤ 1 / 2 ^ 90 := by
        norm_num at hb hb2 ⊢
        linarith
      have h9 : |(W - w) * (W + w) / 2| ≤ 1 / 2 ^ 100 := by
        rw [abs_div, abs_mul]
        have h10 : |W + w| ≤ 1 / 2 ^ 30 := (abs_add_le _ _).trans (by norm_num at hWb hwb ⊢; linarith)
        have := mul_le_mul hWw h10 (abs_nonneg _) (by norm_num)
        norm_num at this ⊢
        linarith
      refine (abs_add_le _ _).trans ?_
      have := abs_add_le (W - w) ((W - w) * (W + w) / 2)
      norm_num at this h8 h9 hWw ⊢
      linarith
    have hpos : 0.99 ≤ Real.exp W := by
      have := Real.add_one_le_exp W
      have := (abs_le.1 hWb).1
      norm_num at this ⊢
      linarith
    have key : |(τ / Real.exp (a * Real.log 2)) ^ 256 - 1| ≤ 1.05 / 2 ^ 56 := by
      rw [hpow]
      have p : 0 < Real.exp W := Real.exp_pos _
      have e1 : τ ^ 256 * 2 ^ 128 / 2 ^ j / Real.exp W - 1 =
          ((τ ^ 256 * 2 ^ 128 / 2 ^ j - (1 + w + w ^ 2 / 2)) - (Real.exp W - (1 + w + w ^ 2 / 2))) / Real.exp W := by
        generalize τ ^ 256 * 2 ^ 128 / 2 ^ j = A
        field_simp; ring
      rw [e1, abs_div, abs_of_pos p, div_le_iff₀ p]
      refine (abs_sub _ _).trans ?_
      generalize |τ ^ 256 * 2 ^ 128 / 2 ^ j - (1 + w + w ^ 2 / 2)| = A at h7r ⊢
      generalize |Real.exp W - (1 + w + w ^ 2 / 2)| = B at hexp ⊢
      norm_num at h7r hexp hpos ⊢
      linarith
    have := root_near_one (n := 256) (by norm_num) hX key (by norm_num)
    refine this.trans ?_
    norm_num

end Exp2
end Verif
