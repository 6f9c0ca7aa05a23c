import Verif.Theory.Exp2D

/-!
# The table and the polynomial of `exp2f` (exp2f.rs 29-46, 126-132)
-/

namespace Verif
open Flt

namespace Exp2f
/-- the integer test for one entry of the table -/
def tabOk (j : ℕ) (t : BitVec 64) : Bool :=
  let a := (bits64 t).sval
  let M : ℤ := a / 2 ^ 1021
  decide (t.toNat < 0x7ff0000000000000) && decide (a = M * 2 ^ 1021) && decide (0 < M) &&
    decide (|(M : ℚ) ^ 16 * 2 ^ 8 / 2 ^ (53 * 16 + j) - 1| ≤ 1 / 2 ^ 49)

theorem tab_check : ((List.range 16).all fun j => match tbl[j]? with
    | some t => tabOk j t
    | _ => false) = true := by decide +kernel

/-- entry `j` is `2^((j - 8)/16)` up to `2^-52` -/
theorem tab {j : ℕ} (hj : j < 16) : ∃ t, tbl[j]? = some t ∧ (bits64 t).isFinite ∧
    ∃ X : ℝ, |X - 1| ≤ 1.1 / 2 ^ 53 ∧ (bits64 t).val = Real.exp ((((j : ℝ) - 8) / 16) * Real.log 2) * X := by
  have h := List.all_eq_true.1 tab_check j (List.mem_range.2 hj)
  generalize tbl[j]? = ot at h
  match ot, h with
  | some t, h =>
    simp only [tabOk, Bool.and_eq_true, decide_eq_true_eq] at h
    obtain ⟨⟨⟨h1, h3⟩, h5⟩, h7⟩ := h
    refine ⟨t, rfl, ?_, ?_⟩
    · rw [bits64_mk (by omega), isFinite64, mb_mk' (by have : (f64.ew + f64.sb) = 63 := rfl; rw [this]; omega)]; exact h1
    have tv := val_const64 (x := bits64 t) ((bits64 t).sval / 2 ^ 1021) 1021 (-53) (by exact_mod_cast h3) (by norm_num)
    generalize (bits64 t).sval / 2 ^ 1021 = M at *
    clear h3
    set τ := (bits64 t).val
    have hM : (0 : ℝ) < M := by exact_mod_cast h5
    have hτ : 0 < τ := by rw [tv]; exact mul_pos hM (zp _)
    set a := ((j : ℝ) - 8) / 16
    refine ⟨τ / Real.exp (a * Real.log 2), ?_, by field_simp⟩
    have hX : 0 < τ / Real.exp (a * Real.log 2) := by positivity
    have hpow : (τ / Real.exp (a * Real.log 2)) ^ 16 = τ ^ 16 * 2 ^ 8 / 2 ^ j := by
      have e1 : Real.exp (a * Real.log 2) ^ 16 = 2 ^ j / 2 ^ 8 := by
        rw [← Real.exp_nat_mul]
        have : ((16 : ℕ) : ℝ) * (a * Real.log 2) = (j : ℝ) * Real.log 2 - (8 : ℕ) * Real.log 2 := by
          push_cast; simp only [a]; ring
        rw [this, Real.exp_sub, Real.exp_nat_mul, Real.exp_nat_mul, Real.exp_log (by norm_num)]
      rw [div_pow, e1]
      field_simp
    have key : |(τ / Real.exp (a * Real.log 2)) ^ 16 - 1| ≤ 1 / 2 ^ 49 := by
      rw [hpow]
      have : ((|(M : ℚ) ^ 16 * 2 ^ 8 / 2 ^ (53 * 16 + j) - 1| : ℚ) : ℝ) ≤ ((1 / 2 ^ 49 : ℚ) : ℝ) := by
        exact_mod_cast h7
      push_cast at this
      have e1 : τ ^ 16 * 2 ^ 8 / 2 ^ j = (M : ℝ) ^ 16 * 2 ^ 8 / 2 ^ (53 * 16 + j) := by
        rw [tv, mul_pow, pow_add, pow_mul, show (-53 : ℤ) = -(53 : ℕ) by rfl, zpow_neg, zpow_natCast, inv_pow]
        generalize ((2 : ℝ) ^ 53) ^ 16 = A
        field_simp
      rw [e1]
      exact this
    have := root_near_one (n := 16) (by norm_num) hX key (by norm_num)
    refine this.trans ?_
    norm_num

theorem pv1 : ((bits32 0x3f317218 : Flt f32).cast f64).val = (1453635 : ℝ) * 2 ^ (-21 : ℤ) := by
  rw [val_const64 (x := (bits32 0x3f317218 : Flt f32).cast f64) (1453635) 1053 (-21) (by decide +kernel) (by norm_num)]; norm_num
theorem pv2 : ((bits32 0x3e75fdf0 : Flt f32).cast f64).val = (1007583 : ℝ) * 2 ^ (-22 : ℤ) := by
  rw [val_const64 (x := (bits32 0x3e75fdf0 : Flt f32).cast f64) (1007583) 1052 (-22) (by decide +kernel) (by norm_num)]; norm_num
theorem pv3 : ((bits32 0x3d6359a4 : Flt f32).cast f64).val = (3724905 : ℝ) * 2 ^ (-26 : ℤ) := by
  rw [val_const64 (x := (bits32 0x3d6359a4 : Flt f32).cast f64) (3724905) 1048 (-26) (by decide +kernel) (by norm_num)]; norm_num
theorem pv4 : ((bits32 0x3c1d964e : Flt f32).cast f64).val = (5163815 : ℝ) * 2 ^ (-29 : ℤ) := by
  rw [val_const64 (x := (bits32 0x3c1d964e : Flt f32).cast f64) (5163815) 1045 (-29) (by decide +kernel) (by norm_num)]; norm_num

/-- the coefficients `P1 … P4` of exp2f.rs -/
def poly : List ℚ := [1453635 / 2 ^ 21, 1007583 / 2 ^ 22, 3724905 / 2 ^ 26, 5163815 / 2 ^ 29]
/-- the Taylor polynomial of `2^y` -/
def taylor : List ℚ := (List.range 8).map fun i => Exp2.l2 ^ i / (i.factorial : ℚ)
def errPoly : List ℚ := Poly.add (1 :: poly) (Poly.smul (-1) taylor)

theorem err_check : Poly.check errPoly (-1 / 32) (1 / 2048) (9 / 8 / 2 ^ 34) 64 = true := by decide +kernel

/-- `1 + y P(y)` against `2^y` -/
theorem approx {y : ℝ} (hy : |y| ≤ 1 / 32) : |1 + y * Poly.ev poly y - Real.exp (y * Real.log 2)| ≤ 1.13 / 2 ^ 34 := by
  have hy2 := abs_le.1 hy
  have l1 := Num.log2_gt
  have l2' := Num.log2_lt
  have hl : |Real.log 2 - (Exp2.l2 : ℝ)| ≤ 1 / 10 ^ 22 := by
    rw [Exp2.l2, abs_le]; push_cast; norm_num at l1 l2' ⊢; constructor <;> linarith
  have hl3 : |(Exp2.l2 : ℝ)| ≤ 0.7 := by rw [Exp2.l2]; push_cast; norm_num [abs_le]
  have he := Poly.bound err_check (by norm_num) (by norm_num) y (by push_cast; norm_num at hy2 ⊢; linarith [hy2.1]) (by push_cast; norm_num at hy2 ⊢; linarith [hy2.2])
  rw [errPoly, Poly.ev_add, Poly.ev_smul] at he
  rw [show Poly.ev (1 :: poly) y = 1 + y * Poly.ev poly y by rw [Poly.ev]; push_cast; ring] at he
  have hlb : |(Exp2.l2 : ℝ) * y| ≤ 1 / 32 := by
    rw [abs_mul]
    have := mul_le_mul hl3 hy (abs_nonneg _) (by norm_num)
    norm_num at this ⊢; linarith
  have ht : Poly.ev taylor y = ∑ i ∈ Finset.range 8, ((Exp2.l2 : ℝ) * y) ^ i / i.factorial := by
    rw [taylor, Poly.ev_map_range]
    refine Finset.sum_congr rfl fun i _ => ?_
    push_cast; ring
  have hb := Real.exp_bound (x := (Exp2.l2 : ℝ) * y) (hlb.trans (by norm_num)) (n := 8) (by norm_num)
  rw [← ht] at hb
  have hb2 : |(Exp2.l2 : ℝ) * y| ^ 8 * ((Nat.succ 8 : ℕ) / ((Nat.factorial 8 : ℕ) * (8 : ℕ)) : ℝ) ≤ 1 / 2 ^ 50 := by
    have : |(Exp2.l2 : ℝ) * y| ^ 8 ≤ (1 / 32) ^ 8 := pow_le_pow_left₀ (abs_nonneg _) hlb 8
    refine (mul_le_mul_of_nonneg_right this (by positivity)).trans ?_
    norm_num [Nat.factorial]
  have hb3 := hb.trans hb2
  have hd : |y * Real.log 2 - Exp2.l2 * y| ≤ 1 / 2 ^ 76 := by
    rw [show y * Real.log 2 - Exp2.l2 * y = y * (Real.log 2 - Exp2.l2) by ring, abs_mul]
    have := mul_le_mul hy hl (abs_nonneg _) (by norm_num)
    norm_num at this ⊢; linarith
  have hx : |Real.exp (y * Real.log 2) - Real.exp (Exp2.l2 * y)| ≤ 1 / 2 ^ 70 := by
    have e1 : Real.exp (y * Real.log 2) = Real.exp (Exp2.l2 * y) * Real.exp (y * Real.log 2 - Exp2.l2 * y) := by
      rw [← Real.exp_add]; congr 1; ring
    have h1 := Real.abs_exp_sub_one_le (x := y * Real.log 2 - Exp2.l2 * y) (hd.trans (by norm_num))
    have h2 : |Real.exp (Exp2.l2 * y)| ≤ 2 := by
      rw [abs_of_pos (Real.exp_pos _)]
      have := Real.abs_exp_sub_one_le (x := Exp2.l2 * y) (hlb.trans (by norm_num))
      have := (abs_le.1 this).2
      linarith
    rw [e1, show ∀ a b : ℝ, a * b - a = a * (b - 1) from fun a b => by ring, abs_mul]
    have := mul_le_mul h2 h1 (abs_nonneg _) (by norm_num)
    norm_num at this hd ⊢
    linarith
  push_cast at he
  have e : 1 + y * Poly.ev poly y - Real.exp (y * Real.log 2) =
      (1 + y * Poly.ev poly y + -1 * Poly.ev taylor y) - (Real.exp (Exp2.l2 * y) - Poly.ev taylor y) - (Real.exp (y * Real.log 2) - Real.exp (Exp2.l2 * y)) := by ring
  rw [e]
  have h1 := abs_sub (1 + y * Poly.ev poly y + -1 * Poly.ev taylor y - (Real.exp (Exp2.l2 * y) - Poly.ev taylor y)) (Real.exp (y * Real.log 2) - Real.exp (Exp2.l2 * y))
  have h2 := abs_sub (1 + y * Poly.ev poly y + -1 * Poly.ev taylor y) (Real.exp (Exp2.l2 * y) - Poly.ev taylor y)
  generalize |1 + y * Poly.ev poly y + -1 * Poly.ev taylor y| = A at *
  generalize |Real.exp (Exp2.l2 * y) - Poly.ev taylor y| = B at *
  generalize |Real.exp (y * Real.log 2) - Real.exp (Exp2.l2 * y)| = C at *
  refine h1.trans ((add_le_add h2 le_rfl).trans ?_)
  norm_num at he hb3 hx ⊢
  linarith

/-- exp2f.rs 128-131 -/
def tail (r z : Flt f64) : Flt f64 :=
  r + r * z * ((bits32 0x3f317218 : Flt f32).cast f64 + z * (bits32 0x3e75fdf0 : Flt f32).cast f64) + r * z * (z * z) * ((bits32 0x3d6359a4 : Flt f32).cast f64 + z * (bits32 0x3c1d964e : Flt f32).cast f64)

theorem tail_err {r z : Flt f64} (rf : r.isFinite) (zf : z.isFinite) (br : |r.val| ≤ 3 / 2) (bz : |z.val| ≤ 1 / 32) :
    Ap (tail r z) (r.val * (1 + z.val * Poly.ev poly z.val)) (2127 / 2 ^ 63) (785 / 2 ^ 9) := by
  have hz : Ap z z.val 0 (1 / 32) := .exact zf rfl bz
  have hr : Ap r r.val 0 (3 / 2) := .exact rf rfl br
  have hp1 : Ap ((bits32 0x3f317218 : Flt f32).cast f64) ((bits32 0x3f317218 : Flt f32).cast f64).val 0 (5679 / 2 ^ 13) := .exact (by decide +kernel) rfl (by rw [pv1, abs_le]; constructor <;> norm_num)
  have hp2 : Ap ((bits32 0x3e75fdf0 : Flt f32).cast f64) ((bits32 0x3e75fdf0 : Flt f32).cast f64).val 0 (123 / 2 ^ 9) := .exact (by decide +kernel) rfl (by rw [pv2, abs_le]; constructor <;> norm_num)
  have hp3 : Ap ((bits32 0x3d6359a4 : Flt f32).cast f64) ((bits32 0x3d6359a4 : Flt f32).cast f64).val 0 (1819 / 2 ^ 15) := .exact (by decide +kernel) rfl (by rw [pv3, abs_le]; constructor <;> norm_num)
  have hp4 : Ap ((bits32 0x3c1d964e : Flt f32).cast f64) ((bits32 0x3c1d964e : Flt f32).cast f64).val 0 (5043 / 2 ^ 19) := .exact (by decide +kernel) rfl (by rw [pv4, abs_le]; constructor <;> norm_num)
  have ht := Ap.mul hr hz (-4) (by norm_num) (by norm_num) (by norm_num) (g := (1 / 2 ^ 58)) (D := (6145 / 2 ^ 17)) (by norm_num) (by norm_num)
  have ha2 := Ap.mul hz hp2 (-7) (by norm_num) (by norm_num) (by norm_num) (g := (1 / 2 ^ 61)) (D := (7873 / 2 ^ 20)) (by norm_num) (by norm_num)
  have hb1 := Ap.add hp1 ha2 (0) (by norm_num) (by norm_num) (g := (129 / 2 ^ 61)) (D := (5741 / 2 ^ 13)) (by norm_num) (by norm_num)
  have hc1 := Ap.mul ht hb1 (-4) (by norm_num) (by norm_num) (by norm_num) (g := (629 / 2 ^ 66)) (D := (4307 / 2 ^ 17)) (by norm_num) (by norm_num)
  have hzz := Ap.mul hz hz (-10) (by norm_num) (by norm_num) (by norm_num) (g := (1 / 2 ^ 64)) (D := (4097 / 2 ^ 22)) (by norm_num) (by norm_num)
  have htzz := Ap.mul ht hzz (-14) (by norm_num) (by norm_num) (by norm_num) (g := (5633 / 2 ^ 79)) (D := (6147 / 2 ^ 27)) (by norm_num) (by norm_num)
  have ha4 := Ap.mul hz hp4 (-11) (by norm_num) (by norm_num) (by norm_num) (g := (1 / 2 ^ 65)) (D := (1261 / 2 ^ 22)) (by norm_num) (by norm_num)
  have hb3 := Ap.add hp3 ha4 (-4) (by norm_num) (by norm_num) (g := (129 / 2 ^ 65)) (D := (1829 / 2 ^ 15)) (by norm_num) (by norm_num)
  have hc3 := Ap.mul htzz hb3 (-18) (by norm_num) (by norm_num) (by norm_num) (g := (2157 / 2 ^ 81)) (D := (2745 / 2 ^ 30)) (by norm_num) (by norm_num)
  have hs1 := Ap.add hr hc1 (1) (by norm_num) (by norm_num) (g := (4411 / 2 ^ 65)) (D := (6279 / 2 ^ 12)) (by norm_num) (by norm_num)
  have hs := Ap.add hs1 hc3 (1) (by norm_num) (by norm_num) (g := (2127 / 2 ^ 63)) (D := (785 / 2 ^ 9)) (by norm_num) (by norm_num)
  have ev : r.val * (1 + z.val * Poly.ev poly z.val) = r.val + r.val * z.val * (((bits32 0x3f317218 : Flt f32).cast f64).val + z.val * ((bits32 0x3e75fdf0 : Flt f32).cast f64).val) + r.val * z.val * (z.val * z.val) * (((bits32 0x3d6359a4 : Flt f32).cast f64).val + z.val * ((bits32 0x3c1d964e : Flt f32).cast f64).val) := by
    rw [pv1, pv2, pv3, pv4]
    simp only [poly, Poly.ev]
    push_cast
    ring
  rw [ev]
  exact hs

end Exp2f
end Verif
