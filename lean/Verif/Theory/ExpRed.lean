import Verif.Theory.ExpD
import Verif.Theory.PowTot2

/-!
# `exp` in double precision: argument reduction and error of the unscaled result
-/

namespace Verif
open Flt

namespace Exp

theorem exp_range {r : ℝ} (h : |r| ≤ 0.3468) : 0.652 ≤ Real.exp r ∧ Real.exp r ≤ 1.531 := by
  have h2 := abs_le.1 h
  norm_num at h2
  have h3 := Real.add_one_le_exp r
  have h4 := Real.add_one_le_exp (-r)
  have h5 : Real.exp r * Real.exp (-r) = 1 := by rw [← Real.exp_add]; simp
  have p := Real.exp_pos r
  constructor
  · norm_num; linarith [h2.1]
  · have h6 : Real.exp r * (1 - 0.3468) ≤ 1 := by
      rw [← h5]; exact mul_le_mul_of_nonneg_left (by norm_num; linarith [h2.2]) p.le
    norm_num at h6 ⊢; linarith

theorem shift_err {x s : ℝ} (hs : |s| ≤ 0.3468) (h : |x - s| ≤ 1 / 2 ^ 55) :
    |Real.exp x - (x - s) - Real.exp s| ≤ 0.135 / 2 ^ 53 := by
  obtain ⟨a, b⟩ := exp_range hs
  have e : Real.exp x - (x - s) - Real.exp s = Real.exp s * (Real.exp (x - s) - 1 - (x - s)) + (Real.exp s - 1) * (x - s) := by
    have : Real.exp x = Real.exp s * Real.exp (x - s) := by rw [← Real.exp_add]; congr 1; ring
    rw [this]; ring
  have h1 := Real.abs_exp_sub_one_sub_id_le (x := x - s) (h.trans (by norm_num))
  have h2 : (x - s) ^ 2 ≤ (1 / 2 ^ 55) ^ 2 := by
    rw [← sq_abs (x - s)]; exact pow_le_pow_left₀ (abs_nonneg _) h 2
  rw [e]
  refine (abs_add_le _ _).trans ?_
  rw [abs_mul, abs_mul, abs_of_pos (Real.exp_pos s)]
  have h3 : Real.exp s * |Real.exp (x - s) - 1 - (x - s)| ≤ 1.531 * (1 / 2 ^ 55) ^ 2 :=
    mul_le_mul b (h1.trans h2) (abs_nonneg _) (by norm_num)
  have h4 : |Real.exp s - 1| * |x - s| ≤ 0.531 * (1 / 2 ^ 55) :=
    mul_le_mul (by rw [abs_le]; norm_num at a b ⊢; constructor <;> linarith) h (abs_nonneg _) (by norm_num)
  norm_num at h3 h4 ⊢
  linarith

/-- the unscaled result before its last rounding -/
theorem near {x hi lo : Flt f64} {ρ : ℝ} (xf : x.isFinite) (hf : hi.isFinite) (lf : lo.isFinite) (bx : |x.val| ≤ 710 / 2048)
    (ex : |x.val - (hi.val - lo.val)| ≤ 1 / 2 ^ 55) (bh : |hi.val| ≤ 0.3466) (bl : |lo.val| ≤ 1 / 2 ^ 22)
    (er : |hi.val - lo.val - ρ| ≤ 1 / 2 ^ 62) :
    ∃ q : ℝ, IsRNE q (1.0 + tail x hi lo) ∧ |q - Real.exp ρ| ≤ 0.8 / 2 ^ 53 := by
  obtain ⟨tf, te⟩ := tail_err xf hf lf bx bh bl
  have h := add_rne (x := (1.0 : Flt f64)) (by decide +kernel) tf
  rw [TanInv.one_val] at h
  refine ⟨_, h, ?_⟩
  have ha := approx (r := x.val) (bx.trans (by norm_num))
  have bs : |hi.val - lo.val| ≤ 0.3467 := by
    have := abs_sub hi.val lo.val
    norm_num at bh bl ⊢; linarith
  have hs := shift_err (x := x.val) (s := hi.val - lo.val) (bs.trans (by norm_num)) ex
  obtain ⟨a, b⟩ := exp_range (r := ρ) (by
    have := abs_sub (hi.val - lo.val) (hi.val - lo.val - ρ)
    rw [_root_.sub_sub_cancel] at this
    norm_num at bs er ⊢; linarith)
  have hl : |Real.exp (hi.val - lo.val) - Real.exp ρ| ≤ 2 / 2 ^ 62 := by
    set s := hi.val - lo.val
    have e : Real.exp s - Real.exp ρ = Real.exp ρ * ((Real.exp (s - ρ) - 1 - (s - ρ)) + (s - ρ)) := by
      have : Real.exp s = Real.exp ρ * Real.exp (s - ρ) := by rw [← Real.exp_add]; congr 1; ring
      rw [this]; ring
    have h1 := Real.abs_exp_sub_one_sub_id_le (x := s - ρ) (er.trans (by norm_num))
    have h2 : (s - ρ) ^ 2 ≤ (1 / 2 ^ 62) ^ 2 := by
      rw [← sq_abs (s - ρ)]; exact pow_le_pow_left₀ (abs_nonneg _) er 2
    rw [e, abs_mul, abs_of_pos (Real.exp_pos ρ)]
    have h3 : |(Real.exp (s - ρ) - 1 - (s - ρ)) + (s - ρ)| ≤ (1 / 2 ^ 62) ^ 2 + 1 / 2 ^ 62 := (abs_add_le _ _).trans (add_le_add (h1.trans h2) er)
    refine (mul_le_mul b h3 (abs_nonneg _) (by norm_num)).trans ?_
    norm_num
  generalize (x.val * (x.val - x.val ^ 2 * Poly.ev poly (x.val ^ 2)) / (2 - (x.val - x.val ^ 2 * Poly.ev poly (x.val ^ 2)))) = W at *
  generalize (tail x hi lo).val = T at *
  generalize Real.exp ρ = E at *
  generalize Real.exp x.val = X at *
  generalize Real.exp (hi.val - lo.val) = S at *
  rw [abs_le] at *
  norm_num at te ha hs hl ⊢
  constructor <;> linarith [te.1, te.2, ha.1, ha.2, hs.1, hs.2, hl.1, hl.2]

theorem ln2_err (k : ℝ) (hk : |k| ≤ 1100) : |k * (Real.log 2 - ln2hi.val - ln2lo.val)| ≤ 1.5 / 2 ^ 63 := by
  have l1 := Num.log2_gt
  have l2 := Num.log2_lt
  rw [abs_mul]
  have : |Real.log 2 - ln2hi.val - ln2lo.val| ≤ 1.4 / 10 ^ 22 := by
    rw [ln2hi_val, ln2lo_val, abs_le]
    norm_num at l1 l2 ⊢
    constructor <;> linarith
  refine (mul_le_mul hk this (abs_nonneg _) (by norm_num)).trans ?_
  norm_num

theorem sterb_side {x y : ℝ} (h1 : |x - y| < |y|) (h2 : |y| ≤ 2 * |x|) : |x - y| ≤ |x| := by
  rcases abs_cases (x - y) with ⟨q1, q2⟩ | ⟨q1, q2⟩ <;> rcases abs_cases x with ⟨q3, q4⟩ | ⟨q3, q4⟩ <;>
    rcases abs_cases y with ⟨q5, q6⟩ | ⟨q5, q6⟩ <;> linarith

/-- exp.rs 136-138 -/
theorem reduce_err {x : Flt f64} {k : ℤ} (xf : x.isFinite) (hk : |k| ≤ 1100) (h1 : k ≠ 0) (hr : |x.val - k * Real.log 2| ≤ 0.34659)
    (hx : |k * ln2hi.val| ≤ 2 * |x.val|) :
    let hi := x - ofInt f64 k * ln2hi
    let lo := ofInt f64 k * ln2lo
    (hi - lo).isFinite ∧ hi.isFinite ∧ lo.isFinite ∧ |(hi - lo).val| ≤ 710 / 2048 ∧ |(hi - lo).val - (hi.val - lo.val)| ≤ 1 / 2 ^ 55 ∧
      |hi.val| ≤ 0.3466 ∧ |lo.val| ≤ 1 / 2 ^ 22 ∧ |hi.val - lo.val - (x.val - k * Real.log 2)| ≤ 1 / 2 ^ 62 := by
  intro hi lo
  have hkr : |(k : ℝ)| ≤ 1100 := by exact_mod_cast hk
  have hk1 : (1 : ℝ) ≤ |(k : ℝ)| := by exact_mod_cast Int.one_le_abs h1
  obtain ⟨kf, kv⟩ := Pow.ofInt_val (n := k) (hk.trans (by norm_num))
  -- the product with the leading part of ln 2 is exact
  have hm := mul_rne kf (y := ln2hi) (by decide +kernel)
  obtain ⟨c, cf, cv⟩ := exists_val (F := f64) (n := k * 2977044471) (k := -32) (by
    rw [abs_mul, f64_sb]
    exact (mul_le_mul_of_nonneg_right hk (abs_nonneg _)).trans (by norm_num)) (by rw [f64_bias, f64_sb]; norm_num) (by
    rw [f64_bias]; push_cast; rw [abs_mul]
    refine (mul_le_mul_of_nonneg_right (mul_le_mul_of_nonneg_right hkr (abs_nonneg _)) (zp _).le).trans_lt ?_
    refine lt_of_lt_of_le ?_ (zpow_le_zpow_right₀ (a := (2 : ℝ)) (m := 20) (by norm_num) (by norm_num))
    norm_num)
  obtain ⟨mf, mv⟩ := hm.exact_real cf (by rw [cv, kv, ln2hi_val]; push_cast; ring)
  rw [kv] at mv
  have ehi := ln2hi_val
  have elo := ln2lo_val
  have l1 := Num.log2_gt
  have l2 := Num.log2_lt
  have hle : |k * (Real.log 2 - ln2hi.val - ln2lo.val)| ≤ 1.5 / 2 ^ 63 := ln2_err k hkr
  have hlo0 : |k * ln2lo.val| ≤ 2.11 / 10 ^ 7 := by
    rw [abs_mul, elo]
    refine (mul_le_mul_of_nonneg_right hkr (abs_nonneg _)).trans ?_
    rw [abs_of_pos (by norm_num)]; norm_num
  have e1 : x.val - k * ln2hi.val = (x.val - k * Real.log 2) + (k * (Real.log 2 - ln2hi.val - ln2lo.val) + k * ln2lo.val) := by ring
  have hb : |x.val - k * ln2hi.val| ≤ 0.3466 := by
    rw [e1]
    have h3 := abs_add_le (x.val - k * Real.log 2) (k * (Real.log 2 - ln2hi.val - ln2lo.val) + k * ln2lo.val)
    have h4 := abs_add_le (k * (Real.log 2 - ln2hi.val - ln2lo.val)) (k * ln2lo.val)
    norm_num [-abs_mul] at hr hle hlo0 ⊢
    linarith
  have hy : 0.693 ≤ |k * ln2hi.val| := by
    rw [abs_mul]
    have : (0.693 : ℝ) ≤ |ln2hi.val| := by rw [ehi, abs_of_pos (by norm_num)]; norm_num
    refine this.trans (le_mul_of_one_le_left (abs_nonneg _) hk1)
  -- so is the difference
  have hst : hi.isFinite ∧ hi.val = x.val - k * ln2hi.val := by
    have := sterbenz_val xf mf (by
        rw [mv]
        exact sterb_side (hb.trans_lt (lt_of_lt_of_le (by norm_num) hy)) hx) (by
        rw [mv]; exact hb.trans (le_trans (by norm_num) hy)) (by
        rw [f64_bias]
        refine (zpow_le_zpow_right₀ (a := (2 : ℝ)) (n := -2) (by norm_num) (by norm_num)).trans ?_
        norm_num [-abs_mul] at hy ⊢; linarith) (by
        rw [f64_bias, mv]
        refine (zpow_le_zpow_right₀ (a := (2 : ℝ)) (n := -2) (by norm_num) (by norm_num)).trans ?_
        norm_num [-abs_mul] at hy ⊢; linarith)
    rw [mv] at this
    exact this
  obtain ⟨hf, hv⟩ := hst
  have lr := mul_rne kf (y := ln2lo) (by decide +kernel)
  rw [kv] at lr
  obtain ⟨lf, le⟩ := lr.err (-22) (hlo0.trans (by norm_num)) (by rw [f64_bias]; norm_num) (by rw [f64_bias]; norm_num)
  rw [f64_sb] at le
  change lo.isFinite at lf
  change |lo.val - k * ln2lo.val| ≤ _ at le
  have hlo : |lo.val| ≤ 1 / 2 ^ 22 := by
    have := abs_add_le (lo.val - k * ln2lo.val) (k * ln2lo.val)
    rw [_root_.sub_add_cancel] at this
    norm_num [-abs_mul] at le hlo0 ⊢; linarith
  rw [← hv] at hb
  have hd := sub_rne hf lf
  have hs : |hi.val - lo.val| ≤ 0.34661 := by
    have := abs_sub hi.val lo.val
    norm_num [-abs_mul] at hb hlo ⊢; linarith
  obtain ⟨df, de⟩ := hd.err (-1) (hs.trans (by norm_num)) (by rw [f64_bias]; norm_num) (by rw [f64_bias]; norm_num)
  rw [f64_sb] at de
  refine ⟨df, hf, lf, ?_, de.trans (by norm_num), hb, hlo, ?_⟩
  · have := abs_add_le ((hi - lo).val - (hi.val - lo.val)) (hi.val - lo.val)
    rw [_root_.sub_add_cancel] at this
    norm_num [-abs_mul] at hs de ⊢; linarith
  · rw [hv]
    have e2 : x.val - k * ln2hi.val - lo.val - (x.val - k * Real.log 2) = k * (Real.log 2 - ln2hi.val - ln2lo.val) - (lo.val - k * ln2lo.val) := by ring
    rw [e2]
    refine (abs_sub _ _).trans ?_
    norm_num [-abs_mul] at hle le ⊢; linarith

end Exp
end Verif
