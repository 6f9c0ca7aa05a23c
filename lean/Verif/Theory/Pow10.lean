import Verif.Props.PowTotal
import Verif.Theory.CbrtBits
import Verif.Theory.UlpTop

/-!
# The product `y * log2 10` inside `pow 10 y`
-/

namespace Verif
open Flt
namespace Pow10
open Pow

/-- `log2 10`, leading part -/
def t1 : Flt f64 := bits64 0x400a934f00000000
/-- `log2 10`, trailing part -/
def t2 : Flt f64 := bits64 0x3e72f346e2bf9206

theorem v1 : t1.val = (1741647 : ℤ) * 2 ^ (-19 : ℤ) := val_const64 _ 1055 _ (by decide +kernel) (by norm_num)
theorem v2 : t2.val = (2667017679128835 : ℤ) * 2 ^ (-75 : ℤ) := val_const64 _ 999 _ (by decide +kernel) (by norm_num)

theorem logAx10 : logAx (Generic.fabs 10.0) 0x40240000#32 = some (t1, t2) := by decide +kernel

theorem prod {y : Flt f64} (yf : y.isFinite) (h1 : 1027 ≤ y.mb / 2 ^ 52) (h2 : y.mb / 2 ^ 52 ≤ 1054) :
    ((y - withSetLowWord y 0) * t1 + y * t2).isFinite ∧ (withSetLowWord y 0 * t1).isFinite ∧
    |((y - withSetLowWord y 0) * t1 + y * t2).val + (withSetLowWord y 0 * t1).val - y.val * (t1.val + t2.val)| ≤ |y.val| * (1 / 2 ^ 66) ∧
    |y.val| ≤ 2 ^ 40 ∧ |((y - withSetLowWord y 0) * t1 + y * t2).val| ≤ |y.val| * (1.1 / 2 ^ 18) ∧
    ∃ M : ℤ, (withSetLowWord y 0 * t1).val = M * 2 ^ (-35 : ℤ) := by
  obtain ⟨ts, tm⟩ := low_word_cut y
  generalize withSetLowWord y 0 = T at *
  obtain ⟨m, em⟩ : ∃ m, m = y.mb % 2 ^ 52 := ⟨_, rfl⟩
  obtain ⟨E, eE⟩ : ∃ E, E = y.mb / 2 ^ 52 := ⟨_, rfl⟩
  obtain ⟨l, el⟩ : ∃ l, l = y.mb % 2 ^ 32 := ⟨_, rfl⟩
  rw [← eE] at h1 h2
  have a1 := Cbrt.abs_mk (x := y) (E := E) (m := m) (by omega) (by omega) (by omega)
  have a2 := Cbrt.abs_mk (x := T) (E := E) (m := m - l) (by omega) (by omega) (by omega)
  obtain ⟨H, eH⟩ : ∃ H, 2 ^ 52 + (m - l) = H * 2 ^ 32 := ⟨(2 ^ 52 + (m - l)) / 2 ^ 32, by omega⟩
  have hH : H ≤ 2 ^ 21 := by omega
  have hl : l < 2 ^ 32 := by omega
  have hW : 2 ^ 52 + m = H * 2 ^ 32 + l := by omega
  rw [hW] at a1
  rw [eH] at a2
  have hmW : 2 ^ 52 ≤ H * 2 ^ 32 + l := by omega
  have hmW2 : H * 2 ^ 32 + l ≤ 2 ^ 53 := by omega
  have Tf : T.isFinite := by rw [isFinite64] at yf ⊢; omega
  clear eH hW
  obtain ⟨k, ek⟩ : ∃ k : ℤ, k = (E : ℤ) - 1075 := ⟨_, rfl⟩
  rw [← ek] at a1 a2
  have k1 : -48 ≤ k := by omega
  have k2 : k ≤ -21 := by omega
  clear em eE el tm h1 h2
  obtain ⟨σ, hσ, s1, s2⟩ : ∃ σ : ℤ, |σ| = 1 ∧ y.val = σ * |y.val| ∧ T.val = σ * |T.val| := by
    cases hs : y.sign
    · exact ⟨1, by norm_num, by rw [abs_of_nonneg (val_nonneg hs)]; simp, by rw [abs_of_nonneg (val_nonneg (ts.trans hs))]; simp⟩
    · exact ⟨-1, by norm_num, by rw [abs_of_nonpos (val_nonpos hs)]; simp, by rw [abs_of_nonpos (val_nonpos (ts.trans hs))]; simp⟩
  have hσr : |(σ : ℝ)| = 1 := by exact_mod_cast hσ
  rw [a1] at s1
  rw [a2] at s2
  push_cast at s1 s2 a1 a2
  have hk := zp k
  -- the low part of `y` is exact
  obtain ⟨c, cf, cv⟩ := exists_val64' (n := σ * l) (k := k) (by
    rw [abs_mul, hσ, one_mul, abs_of_nonneg (by positivity)]; omega) (by omega) (by omega)
  obtain ⟨df, dv⟩ := (sub_rne yf Tf).exact_real cf (by rw [cv, s1, s2]; push_cast; ring)
  rw [s1, s2] at dv
  generalize y - T = D at *
  obtain ⟨c, cf, cv⟩ := exists_val64' (n := σ * l * 1741647) (k := k + -19) (by
    rw [abs_mul, abs_mul, hσ, one_mul, abs_of_nonneg (by positivity), abs_of_nonneg (by norm_num)]
    omega) (by omega) (by omega)
  obtain ⟨af, av⟩ := (mul_rne df (show t1.isFinite by decide +kernel)).exact_real cf (by
    rw [cv, dv, v1, zpow_add₀ (by norm_num)]; push_cast; ring)
  obtain ⟨c, cf, cv⟩ := exists_val64' (n := σ * H * 1741647) (k := k + 32 + -19) (by
    rw [abs_mul, abs_mul, hσ, one_mul, abs_of_nonneg (by positivity), abs_of_nonneg (by norm_num)]
    omega) (by omega) (by omega)
  obtain ⟨pf, pv⟩ := (mul_rne Tf (show t1.isFinite by decide +kernel)).exact_real cf (by
    rw [cv, s2, v1, zpow_add₀ (by norm_num), zpow_add₀ (by norm_num)]; push_cast; norm_num; ring)
  have hM : ∃ M : ℤ, (T * t1).val = M * 2 ^ (-35 : ℤ) := by
    obtain ⟨n, en⟩ : ∃ n : ℕ, k + 32 + -19 = n + -35 := ⟨(k + 48).toNat, by omega⟩
    refine ⟨σ * H * 1741647 * 2 ^ n, ?_⟩
    have e : (T * t1).val = ((σ * H * 1741647 : ℤ) : ℝ) * 2 ^ (k + 32 + -19) := by
      rw [pv, s2, v1, zpow_add₀ (by norm_num), zpow_add₀ (by norm_num)]; push_cast; norm_num; ring
    rw [e, en, zpow_add₀ (by norm_num), zpow_natCast]; push_cast; ring
  generalize D * t1 = A at *
  generalize T * t1 = P at *
  have hy1 : 2 ^ 52 * (2 : ℝ) ^ k ≤ |y.val| := by
    rw [a1]; refine mul_le_mul_of_nonneg_right ?_ hk.le
    exact_mod_cast hmW
  have hy2 : |y.val| ≤ 2 ^ 53 * (2 : ℝ) ^ k := by
    rw [a1]; refine mul_le_mul_of_nonneg_right ?_ hk.le
    exact_mod_cast hmW2
  have hk2 : (2 : ℝ) ^ k ≤ 2 ^ (-21 : ℤ) := zpow_le_zpow_right₀ (by norm_num) k2
  have hk3 : (2 : ℝ) ^ (-48 : ℤ) ≤ 2 ^ k := zpow_le_zpow_right₀ (by norm_num) k1
  have hA : |A.val| ≤ |y.val| * (1 / 2 ^ 18) := by
    rw [av, dv, v1]
    have e : (σ * ((H * 4294967296 + l) * (2 : ℝ) ^ k) - σ * (H * 4294967296 * 2 ^ k)) * (((1741647 : ℤ) : ℝ) * 2 ^ (-19 : ℤ)) = σ * (l * 2 ^ k * (1741647 * 2 ^ (-19 : ℤ))) := by push_cast; ring
    rw [e, abs_mul, hσr, one_mul, abs_of_nonneg (by positivity)]
    have h3 : (l : ℝ) ≤ 2 ^ 32 := by exact_mod_cast hl.le
    have h4 := mul_le_mul_of_nonneg_right h3 hk.le
    have h5 : (1741647 : ℝ) * 2 ^ (-19 : ℤ) ≤ 4 := by norm_num
    have h6 := mul_le_mul h4 h5 (by norm_num) (by positivity)
    refine h6.trans ?_
    linarith
  have hB : |y.val * t2.val| ≤ |y.val| * (1 / 2 ^ 23) := by
    rw [abs_mul, v2]
    exact mul_le_mul_of_nonneg_left (by norm_num [abs_of_pos]) (abs_nonneg _)
  have top : ∀ q : ℝ, |q| ≤ 2 ^ 100 → |q| ≤ 3 / 2 * 2 ^ (f64.bias : ℤ) := fun q h => by
    rw [f64_bias]
    refine h.trans ?_
    have : (2 : ℝ) ^ (100 : ℤ) ≤ 2 ^ ((1023 : ℕ) : ℤ) := zpow_le_zpow_right₀ (by norm_num) (by norm_num)
    have h0 := zp ((1023 : ℕ) : ℤ)
    generalize (2 : ℝ) ^ ((1023 : ℕ) : ℤ) = G at *
    norm_num at this ⊢; linarith
  have hY : |y.val| ≤ 2 ^ 40 := by norm_num at hk2 hy2 ⊢; linarith
  have hY0 : 1 ≤ |y.val| := by norm_num at hk3 hy1 ⊢; linarith
  have tiny : ∀ e : ℤ, e ≤ -1000 → (2 : ℝ) ^ e ≤ 1 / 2 ^ 100 := fun e he => by
    refine (zpow_le_zpow_right₀ (by norm_num) (show e ≤ -100 by omega)).trans ?_
    norm_num
  obtain ⟨bf, be⟩ := (mul_rne yf (show t2.isFinite by decide +kernel)).mixed (top _ (by norm_num at hB hY ⊢; linarith)) (by rw [f64_bias]; norm_num)
  have bt := tiny _ (by rw [f64_bias, f64_sb]; norm_num : (-(f64.bias : ℤ) - f64.sb) ≤ -1000)
  rw [f64_sb] at be bt
  have be' : |(y * t2).val - y.val * t2.val| ≤ |y.val| * (1 / 2 ^ 74) := by
    have : |y.val * t2.val| * 2 ^ (-1 - ((52 : ℕ) : ℤ)) ≤ |y.val| * (1 / 2 ^ 23) * 2 ^ (-1 - ((52 : ℕ) : ℤ)) := mul_le_mul_of_nonneg_right hB (by positivity)
    refine be.trans ((add_le_add this bt).trans ?_)
    norm_num; linarith
  have hB2 : |(y * t2).val| ≤ |y.val| * (1 / 2 ^ 22) := by
    have h3 := abs_sub_abs_le_abs_sub (y * t2).val (y.val * t2.val)
    generalize |(y * t2).val| = B at *
    generalize |(y * t2).val - y.val * t2.val| = C at *
    linarith
  have hAB := (abs_add_le A.val (y * t2).val).trans (add_le_add hA hB2)
  obtain ⟨lf, le⟩ := (add_rne af bf).mixed (top _ (by norm_num at hAB hY ⊢; linarith)) (by rw [f64_bias]; norm_num)
  have bt2 := tiny _ (by rw [f64_bias, f64_sb]; norm_num : (-(f64.bias : ℤ) - f64.sb) ≤ -1000)
  rw [f64_sb] at le bt2
  have le' : |(A + y * t2).val - (A.val + (y * t2).val)| ≤ |y.val| * (1 / 2 ^ 69) := by
    have := mul_le_mul_of_nonneg_right hAB (show (0 : ℝ) ≤ 2 ^ (-1 - ((52 : ℕ) : ℤ)) by positivity)
    refine le.trans ((add_le_add this bt2).trans ?_)
    norm_num; linarith
  refine ⟨lf, pf, ?_, hY, ?_, hM⟩
  swap
  · have h3 := abs_sub_abs_le_abs_sub (A + y * t2).val (A.val + (y * t2).val)
    generalize |(A + y * t2).val| = B at *
    generalize |(A + y * t2).val - (A.val + (y * t2).val)| = C at *
    norm_num at *
    linarith
  have e : (A + y * t2).val + P.val - y.val * (t1.val + t2.val) = ((A + y * t2).val - (A.val + (y * t2).val)) + ((y * t2).val - y.val * t2.val) := by
    have : A.val + P.val = y.val * t1.val := by rw [av, pv, dv, s1, s2]; ring
    linear_combination this
  rw [e]
  refine (abs_add_le _ _).trans ((add_le_add le' be').trans ?_)
  linarith

theorem mulOut_inf {y : Flt f64} (yf : y.isFinite) (h1 : y.mb / 2 ^ 52 ≤ 1054) (h : (5422874305198593 : ℝ) * 2 ^ (-44 : ℤ) ≤ y.val) :
    mulOut 1.0 y t1 t2 = some (inf f64 false) := by
  have hE : 1031 ≤ y.mb / 2 ^ 52 := by
    by_contra hc
    have := val_lt_of_mb (F := f64) (x := y) (E := 1031) (by norm_num) (by rw [f64_sb]; omega)
    rw [f64_bias] at this
    have h3 := le_abs_self y.val
    norm_num at this h; linarith
  obtain ⟨lf, pf, er, hY, -, -⟩ := prod yf (by omega) h1
  unfold mulOut
  dsimp only
  generalize (y - withSetLowWord y 0) * t1 + y * t2 = pl at *
  generalize withSetLowWord y 0 * t1 = ph at *
  have hR := add_rne lf pf
  have h0 : |y.val| = y.val := abs_of_nonneg (le_trans (by positivity) h)
  rw [h0, v1, v2] at er
  rw [h0] at hY
  have er2 := abs_le.1 er
  have hq : 1024 + 1 / 2 ^ 42 ≤ pl.val + ph.val := by
    norm_num at er2 h ⊢; linarith [er2.1]
  obtain ⟨zf, -⟩ := hR.fin (by
    rw [← thr64, abs_of_nonneg (by norm_num at hq ⊢; linarith)]
    have h3 : pl.val + ph.val ≤ 2 ^ 50 := by norm_num at er2 hY ⊢; linarith [er2.2]
    refine h3.trans_lt ?_
    have h6 : (2 : ℝ) ^ (60 : ℤ) ≤ 2 ^ (1024 : ℤ) := zpow_le_zpow_right₀ (by norm_num) (by norm_num)
    generalize (2 : ℝ) ^ (1024 : ℤ) = A at *
    norm_num at h6 ⊢; linarith)
  have vc : (bits64 0x4090000000000001).val = (2 ^ 52 + 1 : ℤ) * 2 ^ (-42 : ℤ) := val_const64 _ 1032 _ (by decide +kernel) (by norm_num)
  have hz := hR.ge_of_ge zf (s := bits64 0x4090000000000001) (by decide +kernel) (by
    rw [vc]; norm_num at hq ⊢; linarith)
  generalize pl + ph = z at *
  have hs : z.sign = false := by
    by_contra hs
    have := val_nonpos (x := z) (by simpa using hs)
    rw [vc] at hz; norm_num at hz; linarith
  have hm : 0x4090000000000001 ≤ z.mb := by
    by_contra hc
    have h3 : z.mb ≤ 0x4090000000000000 := by omega
    have := val_le_of_mb (c := bits64 0x4090000000000000) (x := z) (by
      rw [show (bits64 0x4090000000000000).mb = 0x4090000000000000 by decide +kernel]; exact h3) (by decide +kernel)
    rw [val_const64 (x := bits64 0x4090000000000000) 1 1084 10 (by decide +kernel) (by norm_num)] at this
    rw [vc] at hz; norm_num at hz this; linarith
  have hj := hi_sign_mb z
  have hI := hi_toInt z
  have hl := lo_toNat z
  have hb := (isFinite64 z).1 zf
  rw [hs] at hI hj
  simp only [Bool.false_eq_true, if_false, add_zero] at hI hj
  rw [if_pos (by rw [hI]; omega)]
  obtain ⟨r, e1, e2⟩ := isub_eq (a := getHighWord z) (b := 0x40900000#32) (by rw [show (0x40900000#32).toInt = 0x40900000 by decide, hI]; omega)
    (by rw [show (0x40900000#32).toInt = 0x40900000 by decide, hI]; omega)
  rw [e1, Option.bind_some, if_pos]
  · decide +kernel
  · intro hd
    have h3 := or_zero_left hd
    rw [BitVec.or_comm] at hd
    have h4 := or_zero_left hd
    rw [e2, sub_zero_iff] at h3
    rw [h4] at hl
    rw [h3] at hj
    simp at hj hl
    omega

theorem mulOut_zero {y : Flt f64} (yf : y.isFinite) (h1 : y.mb / 2 ^ 52 ≤ 1054) (h : y.val ≤ -((5692958865320788 : ℝ) * 2 ^ (-44 : ℤ))) :
    mulOut 1.0 y t1 t2 = some (zero f64 false) := by
  have hE : 1031 ≤ y.mb / 2 ^ 52 := by
    by_contra hc
    have := val_lt_of_mb (F := f64) (x := y) (E := 1031) (by norm_num) (by rw [f64_sb]; omega)
    rw [f64_bias] at this
    have h3 := neg_le_abs y.val
    norm_num at this h; linarith
  obtain ⟨lf, pf, er, hY, -, -⟩ := prod yf (by omega) h1
  unfold mulOut
  dsimp only
  generalize (y - withSetLowWord y 0) * t1 + y * t2 = pl at *
  generalize withSetLowWord y 0 * t1 = ph at *
  have hR := add_rne lf pf
  have h0 : |y.val| = -y.val := abs_of_nonpos (by norm_num at h; linarith)
  rw [h0, v1, v2] at er
  rw [h0] at hY
  have er2 := abs_le.1 er
  have hq : pl.val + ph.val ≤ -(1075 + 1 / 2 ^ 42) := by
    norm_num at er2 h ⊢; linarith [er2.2]
  obtain ⟨zf, -⟩ := hR.fin (by
    rw [← thr64, abs_of_nonpos (by norm_num at hq ⊢; linarith)]
    have h3 : -(pl.val + ph.val) ≤ 2 ^ 50 := by norm_num at er2 hY ⊢; linarith [er2.1]
    refine h3.trans_lt ?_
    have h6 : (2 : ℝ) ^ (60 : ℤ) ≤ 2 ^ (1024 : ℤ) := zpow_le_zpow_right₀ (by norm_num) (by norm_num)
    generalize (2 : ℝ) ^ (1024 : ℤ) = A at *
    norm_num at h6 ⊢; linarith)
  have vc : (bits64 0xc090cc0000000001).val = (-(1075 * 2 ^ 42 + 1) : ℤ) * 2 ^ (-42 : ℤ) := val_const64 _ 1032 _ (by decide +kernel) (by norm_num)
  have hz := hR.le_of_le zf (s := bits64 0xc090cc0000000001) (by decide +kernel) (by
    rw [vc]; norm_num at hq ⊢; linarith)
  generalize pl + ph = z at *
  have hs : z.sign = true := by
    by_contra hs
    have := val_nonneg (x := z) (by simpa using hs)
    rw [vc] at hz; norm_num at hz; linarith
  have hm : 0x4090cc0000000001 ≤ z.mb := by
    by_contra hc
    have h3 : z.mb ≤ 0x4090cc0000000000 := by omega
    have := val_ge_of_mb' (c := bits64 0xc090cc0000000000) (x := z) (by
      rw [show (bits64 0xc090cc0000000000).mb = 0x4090cc0000000000 by decide +kernel]; exact h3) (by decide +kernel)
    rw [val_const64 (x := bits64 0xc090cc0000000000) (-1075) 1074 0 (by decide +kernel) (by norm_num)] at this
    rw [vc] at hz; norm_num at hz this; linarith
  have hj := hi_sign_mb z
  have hI := hi_toInt z
  have hl := lo_toNat z
  have hb := (isFinite64 z).1 zf
  have hA := and_mag hj (by omega)
  rw [hs] at hI hj
  simp only [if_true] at hI hj
  rw [if_neg (by rw [hI]; omega), if_pos (by
    rw [ge_iff_le, BitVec.le_def, hA, show (0x4090cc00#32).toNat = 0x4090cc00 from rfl]; omega)]
  rw [usub, if_pos (by rw [hj, show (0xc090cc00#32).toNat = 0x4090cc00 + 2 ^ 31 by decide]; omega), Option.bind_some, if_pos]
  · decide +kernel
  · intro hd
    have h3 := or_zero_left hd
    rw [BitVec.or_comm] at hd
    have h4 := or_zero_left hd
    rw [sub_zero_iff] at h3
    rw [h4] at hl
    rw [h3] at hj
    simp at hj hl
    omega

theorem pow_ten {y : Flt f64} (yf : y.isFinite) (h : 4 ≤ |y.val|) :
    pow 10.0 y = general 1.0 10.0 y (getHighWord y) 0x40240000#32 (getHighWord y &&& 0x7fffffff#32) := by
  have hm : 1025 * 2 ^ 52 ≤ y.mb := by
    by_contra hc
    have := val_lt_of_mb (F := f64) (x := y) (E := 1025) (by norm_num) (by rw [f64_sb]; omega)
    rw [f64_bias] at this
    norm_num at this; linarith
  have hb := (isFinite64 y).1 yf
  have hA := hi_abs' y
  have c : ∀ w : BitVec 32, w.toNat < 0x40100000 ∨ 0x7ff00000 ≤ w.toNat → (getHighWord y &&& 0x7fffffff#32) ≠ w := fun w h e => by
    rw [show (0x7fffffff : BitVec 32) = 0x7fffffff#32 from rfl, e] at hA
    omega
  have c2 : ∀ w : BitVec 32, (w &&& 0x7fffffff#32).toNat < 0x40100000 → getHighWord y ≠ w := fun w h e => by
    rw [show (0x7fffffff : BitVec 32) = 0x7fffffff#32 from rfl, e] at hA
    omega
  have c3 : ¬ (getHighWord y &&& 0x7fffffff#32) > 0x7ff00000#32 := fun h => by
    have := BitVec.lt_def.1 h
    rw [show (0x7fffffff : BitVec 32) = 0x7fffffff#32 from rfl] at hA
    rw [hA, show (0x7ff00000#32).toNat = 0x7ff00000 from rfl] at this
    omega
  have c4 : ¬ (getHighWord y &&& 0x7fffffff#32) ||| getLowWord y = 0 := fun h => c 0 (Or.inl (by decide)) (or_zero_left h)
  have eh : getHighWord (10.0 : Flt f64) = 0x40240000#32 := by decide +kernel
  have el : getLowWord (10.0 : Flt f64) = 0#32 := by decide +kernel
  unfold pow
  dsimp only
  rw [eh, el, if_neg c4, if_neg (by decide), if_neg (by
    rintro (h | h | h | h)
    · revert h; decide
    · exact h.2 rfl
    · exact c3 h
    · exact c _ (Or.inr (by decide)) h.1)]
  have ey : yisint 0x40240000#32 (getHighWord y &&& 0x7fffffff#32) (getLowWord y) = some 0 := by
    unfold yisint; rw [if_neg (by decide)]
  rw [ey, Option.bind_some, if_neg (fun h => c _ (Or.inr (by decide)) h.2), if_neg (fun h => c _ (Or.inl (by decide)) h.2),
    if_neg (fun h => c2 _ (by decide) h.2), if_neg (fun h => c2 _ (by decide) h.2.1)]
  unfold base
  dsimp only
  rw [eh, el, if_neg (by decide), if_neg (by decide)]
  rfl

end Pow10
end Verif
