import Verif.Theory.ExpRed
import Verif.Theory.Ap32
import Verif.Theory.PowfTot

/-!
# `expf`: the rational approximation (expf.rs 92-96) and the argument reduction
-/

namespace Verif
open Flt

namespace Expf
theorem ln2hi_val : ln2hi.val = (22713 : ℝ) * 2 ^ (-15 : ℤ) := by
  rw [val_const32 (x := ln2hi) (22713) 134 (-15) (by decide +kernel) (by norm_num)]; norm_num
theorem ln2lo_val : ln2lo.val = (6283079 : ℝ) * 2 ^ (-42 : ℤ) := by
  rw [val_const32 (x := ln2lo) (6283079) 107 (-42) (by decide +kernel) (by norm_num)]; norm_num
theorem invln2_val : invln2.val = (12102203 : ℝ) * 2 ^ (-23 : ℤ) := by
  rw [val_const32 (x := invln2) (12102203) 126 (-23) (by decide +kernel) (by norm_num)]; norm_num
theorem p1_val : p1.val = (11184783 : ℝ) * 2 ^ (-26 : ℤ) := by
  rw [val_const32 (x := p1) (11184783) 123 (-26) (by decide +kernel) (by norm_num)]; norm_num
theorem p2_val : p2.val = (-11883029 : ℝ) * 2 ^ (-32 : ℤ) := by
  rw [val_const32 (x := p2) (-11883029) 117 (-32) (by decide +kernel) (by norm_num)]; norm_num
theorem two_val : (2.0 : Flt f32).val = 2 := by
  rw [val_const32 (x := (2.0 : Flt f32)) 1 150 1 (by decide +kernel) (by norm_num)]; norm_num
/-- the coefficients `P1`, `P2` of expf.rs 26-27 -/
def poly : List ℚ := [11184783 / 2 ^ 26, -11883029 / 2 ^ 32]
/-- `2 + r² P(r²)` as a polynomial in `r` -/
def rpoly : List ℚ := 2 :: (poly.map fun c => [0, c]).flatten
/-- the Taylor polynomial of the exponential function -/
def taylor : List ℚ := (List.range 9).map fun i => 1 / (i.factorial : ℚ)
/-- numerator of the error: `T(r) (R(r) - r) - (R(r) + r)` -/
def errPoly : List ℚ := Poly.add (Poly.mul taylor (Poly.add rpoly [0, -1])) (Poly.smul (-1) (Poly.add rpoly [0, 1]))

theorem err_check : Poly.check errPoly (-3477 / 10000) (3477 / 640000) (1 / 2 ^ 28) 64 = true := by decide +kernel

theorem rpoly_ev (r : ℝ) : Poly.ev rpoly r = 2 + r ^ 2 * Poly.ev poly (r ^ 2) := by
  simp only [rpoly, poly, List.map, List.flatten, List.append, List.cons_append, List.nil_append, Poly.ev]
  push_cast
  ring

theorem poly_bd {z : ℝ} (h0 : 0 ≤ z) (h1 : z ≤ 0.121) : 0.1663 ≤ Poly.ev poly z ∧ Poly.ev poly z ≤ 0.167 := by
  have hc : Poly.check (Poly.add poly [-16665 / 100000]) 0 (121 / 2000) (34 / 100000) 1 = true := by decide +kernel
  have := Poly.bound hc (by norm_num) (by norm_num) z (by simpa using h0) (by push_cast; norm_num; norm_num at h1; linarith)
  rw [Poly.ev_add] at this
  simp only [Poly.ev] at this ⊢
  push_cast at this ⊢
  have := abs_le.1 this
  norm_num at this ⊢
  constructor <;> linarith [this.1, this.2]

/-- the rational function of exp.rs 145-149 with exact arithmetic -/
theorem approx {r : ℝ} (hr : |r| ≤ 0.3477) :
    |1 + r + r * (r - r ^ 2 * Poly.ev poly (r ^ 2)) / (2 - (r - r ^ 2 * Poly.ev poly (r ^ 2))) - Real.exp r| ≤ 1 / 2 ^ 28 := by
  have hr2 := abs_le.1 hr
  have hz : r ^ 2 ≤ 0.121 := by
    have : |r| ^ 2 ≤ 0.3477 ^ 2 := pow_le_pow_left₀ (abs_nonneg _) hr 2
    rw [sq_abs] at this; norm_num at this ⊢; linarith
  obtain ⟨b1, b2⟩ := poly_bd (_root_.sq_nonneg r) hz
  have he := Poly.bound err_check (by norm_num) (by norm_num) r (by push_cast; norm_num at hr2 ⊢; linarith [hr2.1]) (by push_cast; norm_num at hr2 ⊢; linarith [hr2.2])
  have ht : Poly.ev taylor r = ∑ i ∈ Finset.range 9, r ^ i / i.factorial := by
    rw [taylor, Poly.ev_map_range]
    refine Finset.sum_congr rfl fun i _ => ?_
    push_cast; ring
  have hb := Real.exp_bound (x := r) (by norm_num at hr ⊢; linarith) (n := 9) (by norm_num)
  rw [← ht] at hb
  have hb2 : |r| ^ 9 * ((Nat.succ 9 : ℕ) / ((Nat.factorial 9 : ℕ) * (9 : ℕ)) : ℝ) ≤ 1 / 2 ^ 31 := by
    have : |r| ^ 9 ≤ 0.3477 ^ 9 := pow_le_pow_left₀ (abs_nonneg _) hr 9
    refine (mul_le_mul_of_nonneg_right this (by positivity)).trans ?_
    norm_num [Nat.factorial]
  have hb3 := hb.trans hb2
  rw [errPoly, Poly.ev_add, Poly.ev_mul, Poly.ev_smul, Poly.ev_add, Poly.ev_add, rpoly_ev] at he
  simp only [Poly.ev] at he
  push_cast at he
  set P := Poly.ev poly (r ^ 2)
  set T := Poly.ev taylor r
  set z := r ^ 2 with hzdef
  have z0 : 0 ≤ z := _root_.sq_nonneg r
  have zP : z * P ≤ 0.121 * 0.167 := mul_le_mul hz b2 (by linarith) (by norm_num)
  have zP0 : 0 ≤ z * P := mul_nonneg z0 (by linarith)
  norm_num at zP
  have d0 : 1.65 ≤ 2 + z * P - r := by norm_num at hr2 ⊢; linarith [hr2.2]
  have d1 : 2 + z * P - r ≤ 2.4 := by norm_num at hr2 ⊢; linarith [hr2.1]
  have e1 : 1 + r + r * (r - z * P) / (2 - (r - z * P)) = (2 + z * P + r) / (2 + z * P - r) := by
    have : (2 : ℝ) - (r - z * P) ≠ 0 := by norm_num at d0; linarith
    have : (2 : ℝ) + z * P - r ≠ 0 := by norm_num at d0; linarith
    field_simp; ring
  rw [e1]
  have dp : (0 : ℝ) < 2 + z * P - r := by norm_num at d0; linarith
  have e2 : (2 + z * P + r) / (2 + z * P - r) - Real.exp r =
      -((T * (2 + z * P - r) - (2 + z * P + r)) + (Real.exp r - T) * (2 + z * P - r)) / (2 + z * P - r) := by
    field_simp; ring
  rw [e2, abs_div, abs_neg, abs_of_pos dp, div_le_iff₀ dp]
  refine (abs_add_le _ _).trans ?_
  rw [abs_mul, abs_of_pos dp]
  have h1 : |Real.exp r - T| * (2 + z * P - r) ≤ 1 / 2 ^ 31 * 2.4 := mul_le_mul hb3 d1 dp.le (by norm_num)
  have h2 : |T * (2 + z * P - r) - (2 + z * P + r)| ≤ 1 / 2 ^ 28 := by
    refine le_trans (le_of_eq ?_) he
    congr 1; ring
  norm_num at d0 h1 h2 ⊢
  linarith



/-- expf.rs 92-95 -/
noncomputable def tail (x hi lo : Flt f32) : Flt f32 :=
  x * (x - x * x * (p1 + x * x * p2)) / (2.0 - (x - x * x * (p1 + x * x * p2))) - lo + hi

set_option maxHeartbeats 1000000 in
theorem tail_err {x hi lo : Flt f32} (xf : x.isFinite) (hf : hi.isFinite) (lf : lo.isFinite) (bx : |x.val| ≤ 712 / 2048)
    (bh : |hi.val| ≤ 0.347) (bl : |lo.val| ≤ 1 / 2 ^ 12) :
    (tail x hi lo).isFinite ∧ |(tail x hi lo).val - (x.val * (x.val - x.val ^ 2 * Poly.ev poly (x.val ^ 2)) / (2 - (x.val - x.val ^ 2 * Poly.ev poly (x.val ^ 2))) - lo.val + hi.val)| ≤ (5255 / 2 ^ 37) := by
  have hx : Ap32 x x.val 0 (89 / 2 ^ 8) := .exact xf rfl (bx.trans (by norm_num))
  have hlo : Ap32 lo lo.val 0 (1 / 2 ^ 12) := .exact lf rfl bl
  have hhi : Ap32 hi hi.val 0 0.347 := .exact hf rfl bh
  have hp1 : Ap32 p1 p1.val 0 (2731 / 2 ^ 14) := .exact (by decide +kernel) rfl (by rw [p1_val, abs_le]; constructor <;> norm_num)
  have hp2 : Ap32 p2 p2.val 0 (5803 / 2 ^ 21) := .exact (by decide +kernel) rfl (by rw [p2_val, abs_le]; constructor <;> norm_num)
  have htwo : Ap32 (2.0 : Flt f32) (2.0 : Flt f32).val 0 2 := .exact (by decide +kernel) rfl (by rw [two_val, abs_le]; constructor <;> norm_num)
  have hz := Ap32.mul hx hx (-3) (by norm_num) (by norm_num) (by norm_num) (g := (1 / 2 ^ 28)) (D := (3961 / 2 ^ 15)) (by norm_num) (by norm_num)
  have ha2 := Ap32.mul hz hp2 (-11) (by norm_num) (by norm_num) (by norm_num) (g := (3499 / 2 ^ 47)) (D := (1403 / 2 ^ 22)) (by norm_num) (by norm_num)
  have hb1 := Ap32.add hp1 ha2 (-2) (by norm_num) (by norm_num) (g := (2055 / 2 ^ 38)) (D := (5473 / 2 ^ 15)) (by norm_num) (by norm_num)
  have hq := Ap32.mul hz hb1 (-5) (by norm_num) (by norm_num) (by norm_num) (g := (1351 / 2 ^ 39)) (D := (5293 / 2 ^ 18)) (by norm_num) (by norm_num)
  have hc := Ap32.sub hx hq (-1) (by norm_num) (by norm_num) (g := (1193 / 2 ^ 36)) (D := (6027 / 2 ^ 14)) (by norm_num) (by norm_num)
  have hn := Ap32.mul hx hc (-2) (by norm_num) (by norm_num) (by norm_num) (g := (7415 / 2 ^ 39)) (D := (4191 / 2 ^ 15)) (by norm_num) (by norm_num)
  have hd := Ap32.sub htwo hc (2) (by norm_num) (by norm_num) (g := (4693 / 2 ^ 35)) (D := (2425 / 2 ^ 10)) (by norm_num) (by norm_num)
  have hL : ((13 / 2 ^ 3) : ℝ) ≤ |((2.0 : Flt f32) - (x - x * x * (p1 + x * x * p2))).val| := by
    have h1 := abs_le.1 hc.bd
    have h2 := abs_le.1 hc.err
    have h3 := abs_le.1 hd.err
    rw [two_val] at h3
    refine le_trans ?_ (le_abs_self _)
    generalize (x - x * x * (p1 + x * x * p2)) = c at *
    norm_num at h1 h2 h3 ⊢
    linarith [h1.1, h1.2, h2.1, h2.2, h3.1, h3.2]
  have hw := (As32.div one_lo32 le_rfl hn.as hd.as (13 / 2 ^ 3) hL (by norm_num) (by norm_num) (by norm_num) (by norm_num) (by norm_num) (g := (2695 / 2 ^ 37)) (D := (5159 / 2 ^ 16)) (by norm_num) (by norm_num)).ap32
  have hwl := Ap32.sub hw hlo (-3) (by norm_num) (by norm_num) (g := (3207 / 2 ^ 37)) (D := (647 / 2 ^ 13)) (by norm_num) (by norm_num)
  have ht := Ap32.add hwl hhi (-1) (by norm_num) (by norm_num) (g := (5255 / 2 ^ 37)) (D := (1745 / 2 ^ 12)) (by norm_num) (by norm_num)
  refine ⟨ht.fin, ?_⟩
  refine (congrArg (fun v => |(tail x hi lo).val - v|) ?_).trans_le ht.err
  have e : x.val ^ 2 * Poly.ev poly (x.val ^ 2) = x.val * x.val * (p1.val + x.val * x.val * p2.val) := by
    simp only [poly, Poly.ev, p1_val, p2_val]
    push_cast
    norm_num
    ring
  rw [two_val, e]

theorem exp_range {r : ℝ} (h : |r| ≤ 0.348) : 0.651 ≤ Real.exp r ∧ Real.exp r ≤ 1.534 := by
  have h2 := abs_le.1 h
  norm_num at h2
  have h3 := Real.add_one_le_exp r
  have h4 := Real.add_one_le_exp (-r)
  have h5 : Real.exp r * Real.exp (-r) = 1 := by rw [← Real.exp_add]; simp
  have p := Real.exp_pos r
  constructor
  · norm_num; linarith [h2.1]
  · have h6 : Real.exp r * (1 - 0.348) ≤ 1 := by
      rw [← h5]; exact mul_le_mul_of_nonneg_left (by norm_num; linarith [h2.2]) p.le
    norm_num at h6 ⊢; linarith

theorem shift_err {x s : ℝ} (hs : |s| ≤ 0.348) (h : |x - s| ≤ 1 / 2 ^ 26) :
    |Real.exp x - (x - s) - Real.exp s| ≤ 0.135 / 2 ^ 24 := by
  obtain ⟨a, b⟩ := exp_range hs
  have e : Real.exp x - (x - s) - Real.exp s = Real.exp s * (Real.exp (x - s) - 1 - (x - s)) + (Real.exp s - 1) * (x - s) := by
    have : Real.exp x = Real.exp s * Real.exp (x - s) := by rw [← Real.exp_add]; congr 1; ring
    rw [this]; ring
  have h1 := Real.abs_exp_sub_one_sub_id_le (x := x - s) (h.trans (by norm_num))
  have h2 : (x - s) ^ 2 ≤ (1 / 2 ^ 26) ^ 2 := by
    rw [← sq_abs (x - s)]; exact pow_le_pow_left₀ (abs_nonneg _) h 2
  rw [e]
  refine (abs_add_le _ _).trans ?_
  rw [abs_mul, abs_mul, abs_of_pos (Real.exp_pos s)]
  have h3 : Real.exp s * |Real.exp (x - s) - 1 - (x - s)| ≤ 1.534 * (1 / 2 ^ 26) ^ 2 :=
    mul_le_mul b (h1.trans h2) (abs_nonneg _) (by norm_num)
  have h4 : |Real.exp s - 1| * |x - s| ≤ 0.534 * (1 / 2 ^ 26) :=
    mul_le_mul (by rw [abs_le]; norm_num at a b ⊢; constructor <;> linarith) h (abs_nonneg _) (by norm_num)
  norm_num at h3 h4 ⊢
  linarith

/-- the unscaled result before its last rounding -/
theorem near {x hi lo : Flt f32} {ρ : ℝ} (xf : x.isFinite) (hf : hi.isFinite) (lf : lo.isFinite) (bx : |x.val| ≤ 712 / 2048)
    (ex : |x.val - (hi.val - lo.val)| ≤ 1 / 2 ^ 26) (bh : |hi.val| ≤ 0.347) (bl : |lo.val| ≤ 1 / 2 ^ 12)
    (er : |hi.val - lo.val - ρ| ≤ 1 / 2 ^ 33) :
    ∃ q : ℝ, IsRNE q (1.0 + tail x hi lo) ∧ |q - Real.exp ρ| ≤ 0.85 / 2 ^ 24 := by
  obtain ⟨tf, te⟩ := tail_err xf hf lf bx bh bl
  have h := add_rne (x := (1.0 : Flt f32)) (by decide +kernel) tf
  rw [Powf.v_one] at h
  refine ⟨_, h, ?_⟩
  have ha := approx (r := x.val) (bx.trans (by norm_num))
  have bs : |hi.val - lo.val| ≤ 0.3473 := by
    have := abs_sub hi.val lo.val
    norm_num at bh bl ⊢; linarith
  have hs := shift_err (x := x.val) (s := hi.val - lo.val) (bs.trans (by norm_num)) ex
  obtain ⟨a, b⟩ := exp_range (r := ρ) (by
    have := abs_sub (hi.val - lo.val) (hi.val - lo.val - ρ)
    rw [_root_.sub_sub_cancel] at this
    norm_num at bs er ⊢; linarith)
  have hl : |Real.exp (hi.val - lo.val) - Real.exp ρ| ≤ 2 / 2 ^ 33 := by
    set s := hi.val - lo.val
    have e : Real.exp s - Real.exp ρ = Real.exp ρ * ((Real.exp (s - ρ) - 1 - (s - ρ)) + (s - ρ)) := by
      have : Real.exp s = Real.exp ρ * Real.exp (s - ρ) := by rw [← Real.exp_add]; congr 1; ring
      rw [this]; ring
    have h1 := Real.abs_exp_sub_one_sub_id_le (x := s - ρ) (er.trans (by norm_num))
    have h2 : (s - ρ) ^ 2 ≤ (1 / 2 ^ 33) ^ 2 := by
      rw [← sq_abs (s - ρ)]; exact pow_le_pow_left₀ (abs_nonneg _) er 2
    rw [e, abs_mul, abs_of_pos (Real.exp_pos ρ)]
    have h3 : |(Real.exp (s - ρ) - 1 - (s - ρ)) + (s - ρ)| ≤ (1 / 2 ^ 33) ^ 2 + 1 / 2 ^ 33 := (abs_add_le _ _).trans (add_le_add (h1.trans h2) er)
    refine (mul_le_mul b h3 (abs_nonneg _) (by norm_num)).trans ?_
    norm_num
  generalize (x.val * (x.val - x.val ^ 2 * Poly.ev poly (x.val ^ 2)) / (2 - (x.val - x.val ^ 2 * Poly.ev poly (x.val ^ 2)))) = W at *
  generalize (tail x hi lo).val = T at *
  generalize Real.exp ρ = E at *
  generalize Real.exp x.val = X at *
  generalize Real.exp (hi.val - lo.val) = S at *
  rw [abs_le] at *
  norm_num at te ha hs hl ⊢
  constructor <;> linarith [te.1, te.2, ha.1, ha.2, hs.1, hs.2, hl.1, hl.2]

theorem ln2_err (k : ℝ) (hk : |k| ≤ 151) : |k * (Real.log 2 - ln2hi.val - ln2lo.val)| ≤ 1 / 2 ^ 35 := by
  have l1 := Num.log2_gt
  have l2 := Num.log2_lt
  rw [abs_mul]
  have : |Real.log 2 - ln2hi.val - ln2lo.val| ≤ 1.7 / 10 ^ 13 := by
    rw [ln2hi_val, ln2lo_val, abs_le]
    norm_num at l1 l2 ⊢
    constructor <;> linarith
  refine (mul_le_mul hk this (abs_nonneg _) (by norm_num)).trans ?_
  norm_num

/-- expf.rs 84-86 -/
theorem reduce_err {x : Flt f32} {k : ℤ} (xf : x.isFinite) (hk : |k| ≤ 151) (h1 : k ≠ 0) (hr : |x.val - k * Real.log 2| ≤ 0.34661)
    (hx : |k * ln2hi.val| ≤ 2 * |x.val|) :
    let hi := x - ofInt f32 k * ln2hi
    let lo := ofInt f32 k * ln2lo
    (hi - lo).isFinite ∧ hi.isFinite ∧ lo.isFinite ∧ |(hi - lo).val| ≤ 712 / 2048 ∧ |(hi - lo).val - (hi.val - lo.val)| ≤ 1 / 2 ^ 26 ∧
      |hi.val| ≤ 0.347 ∧ |lo.val| ≤ 1 / 2 ^ 12 ∧ |hi.val - lo.val - (x.val - k * Real.log 2)| ≤ 1 / 2 ^ 33 := by
  intro hi lo
  have hkr : |(k : ℝ)| ≤ 151 := by exact_mod_cast hk
  have hk1 : (1 : ℝ) ≤ |(k : ℝ)| := by exact_mod_cast Int.one_le_abs h1
  obtain ⟨kf, kv⟩ := Powf.ofInt_val (n := k) (hk.trans (by norm_num))
  -- the product with the leading part of ln 2 is exact
  have hm := mul_rne kf (y := ln2hi) (by decide +kernel)
  obtain ⟨c, cf, cv⟩ := exists_val (F := f32) (n := k * 22713) (k := -15) (by
    rw [abs_mul, f32_sb]
    exact (mul_le_mul_of_nonneg_right hk (abs_nonneg _)).trans (by norm_num)) (by rw [f32_bias, f32_sb]; norm_num) (by
    rw [f32_bias]; push_cast; rw [abs_mul]
    refine (mul_le_mul_of_nonneg_right (mul_le_mul_of_nonneg_right hkr (abs_nonneg _)) (zp _).le).trans_lt ?_
    refine lt_of_lt_of_le ?_ (zpow_le_zpow_right₀ (a := (2 : ℝ)) (m := 20) (by norm_num) (by norm_num))
    norm_num)
  obtain ⟨mf, mv⟩ := hm.exact_real cf (by rw [cv, kv, ln2hi_val]; push_cast; ring)
  rw [kv] at mv
  have ehi := ln2hi_val
  have elo := ln2lo_val
  have l1 := Num.log2_gt
  have l2 := Num.log2_lt
  have hle : |k * (Real.log 2 - ln2hi.val - ln2lo.val)| ≤ 1 / 2 ^ 35 := ln2_err k hkr
  have hlo0 : |k * ln2lo.val| ≤ 2.16 / 10 ^ 4 := by
    rw [abs_mul, elo]
    refine (mul_le_mul_of_nonneg_right hkr (abs_nonneg _)).trans ?_
    rw [abs_of_pos (by norm_num)]; norm_num
  have e1 : x.val - k * ln2hi.val = (x.val - k * Real.log 2) + (k * (Real.log 2 - ln2hi.val - ln2lo.val) + k * ln2lo.val) := by ring
  have hb : |x.val - k * ln2hi.val| ≤ 0.347 := by
    rw [e1]
    have h3 := abs_add_le (x.val - k * Real.log 2) (k * (Real.log 2 - ln2hi.val - ln2lo.val) + k * ln2lo.val)
    have h4 := abs_add_le (k * (Real.log 2 - ln2hi.val - ln2lo.val)) (k * ln2lo.val)
    norm_num [-abs_mul] at hr hle hlo0 ⊢
    linarith
  have hy : 0.693 ≤ |k * ln2hi.val| := by
    rw [abs_mul]
    have : (0.693 : ℝ) ≤ |ln2hi.val| := by rw [ehi, abs_of_pos (by norm_num)]; norm_num
    refine this.trans (le_mul_of_one_le_left (abs_nonneg _) hk1)
  -- so is the difference
  have hst : hi.isFinite ∧ hi.val = x.val - k * ln2hi.val := by
    have := sterbenz_val xf mf (by
        rw [mv]
        exact Exp.sterb_side (hb.trans_lt (lt_of_lt_of_le (by norm_num) hy)) hx) (by
        rw [mv]; exact hb.trans (le_trans (by norm_num) hy)) (by
        rw [f32_bias]
        refine (zpow_le_zpow_right₀ (a := (2 : ℝ)) (n := -2) (by norm_num) (by norm_num)).trans ?_
        norm_num [-abs_mul] at hy ⊢; linarith) (by
        rw [f32_bias, mv]
        refine (zpow_le_zpow_right₀ (a := (2 : ℝ)) (n := -2) (by norm_num) (by norm_num)).trans ?_
        norm_num [-abs_mul] at hy ⊢; linarith)
    rw [mv] at this
    exact this
  obtain ⟨hf, hv⟩ := hst
  have lr := mul_rne kf (y := ln2lo) (by decide +kernel)
  rw [kv] at lr
  obtain ⟨lf, le⟩ := lr.err (-12) (hlo0.trans (by norm_num)) (by rw [f32_bias]; norm_num) (by rw [f32_bias]; norm_num)
  rw [f32_sb] at le
  change lo.isFinite at lf
  change |lo.val - k * ln2lo.val| ≤ _ at le
  have hlo : |lo.val| ≤ 1 / 2 ^ 12 := by
    have := abs_add_le (lo.val - k * ln2lo.val) (k * ln2lo.val)
    rw [_root_.sub_add_cancel] at this
    norm_num [-abs_mul] at le hlo0 ⊢; linarith
  rw [← hv] at hb
  have hd := sub_rne hf lf
  have hs : |hi.val - lo.val| ≤ 0.3473 := by
    have := abs_sub hi.val lo.val
    norm_num [-abs_mul] at hb hlo ⊢; linarith
  obtain ⟨df, de⟩ := hd.err (-1) (hs.trans (by norm_num)) (by rw [f32_bias]; norm_num) (by rw [f32_bias]; norm_num)
  rw [f32_sb] at de
  refine ⟨df, hf, lf, ?_, de.trans (by norm_num), hb, hlo, ?_⟩
  · have := abs_add_le ((hi - lo).val - (hi.val - lo.val)) (hi.val - lo.val)
    rw [_root_.sub_add_cancel] at this
    norm_num [-abs_mul] at hs de ⊢; linarith
  · rw [hv]
    have e2 : x.val - k * ln2hi.val - lo.val - (x.val - k * Real.log 2) = k * (Real.log 2 - ln2hi.val - ln2lo.val) - (lo.val - k * ln2lo.val) := by ring
    rw [e2]
    refine (abs_sub _ _).trans ?_
    norm_num [-abs_mul] at hle le ⊢; linarith


end Expf
end Verif
