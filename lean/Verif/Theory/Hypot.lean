import Verif.Theory.Err64
import Verif.Theory.Word
import Verif.Model.Hypot
import Verif.Props.Sqrt
import Mathlib.Tactic.Linarith
import Mathlib.Tactic.NormNum
import Mathlib.Tactic.Ring

/-! # hypot: the split squaring is accurate -/

namespace Verif
namespace Hypot
open Flt

theorem split_val : hypotSplit.val = 134217729 := by
  rw [val_const64 (134217729) 1074 0 (by decide +kernel) (by norm_num)]; norm_num
theorem split_fin : hypotSplit.isFinite := by decide +kernel

theorem zadd (e n : ℤ) : (2 : ℝ) ^ (e + n) = 2 ^ e * 2 ^ n := zpow_add₀ (by norm_num) e n

/-- Veltkamp splitting: the head keeps at most 26 significant bits -/
theorem veltkamp {x : Flt f64} (hx : x.isFinite) {m e : ℤ} (hv : x.val = m * 2 ^ e) (h1 : 2 ^ 52 ≤ m) (h2 : m < 2 ^ 53)
    (he1 : -900 ≤ e) (he2 : e ≤ 890) :
    (x - x * hypotSplit + x * hypotSplit).isFinite ∧ ∃ k : ℤ, |k| ≤ 2 ^ 26 ∧
      (x - x * hypotSplit + x * hypotSplit).val = k * 2 ^ (e + 27) ∧
      |(x - x * hypotSplit + x * hypotSplit).val - x.val| ≤ 2 ^ (e + 26) := by
  have hE : (0 : ℝ) < 2 ^ e := zp e
  have m1 : (2 : ℝ) ^ 52 ≤ m := by exact_mod_cast h1
  have m2 : (m : ℝ) ≤ 2 ^ 53 - 1 := by
    have : (m : ℤ) ≤ 2 ^ 53 - 1 := by omega
    exact_mod_cast this
  set p := x * hypotSplit with hp
  have hpr : IsRNE (x.val * hypotSplit.val) p := mul_rne hx split_fin
  rw [split_val, hv] at hpr
  -- p
  have hq0 : (0 : ℝ) < m * 2 ^ e * 134217729 := by positivity
  obtain ⟨pf, pe⟩ := hpr.err64 (e + 81) (by
    rw [abs_of_pos hq0, zadd]
    have : (m : ℝ) * 134217729 ≤ 2 ^ 81 := by norm_num at m2 ⊢; linarith
    calc (m : ℝ) * 2 ^ e * 134217729 = 2 ^ e * (m * 134217729) := by ring
      _ ≤ 2 ^ e * 2 ^ 81 := by gcongr
      _ = _ := by norm_num) (by omega) (by omega)
  have pge : (2 : ℝ) ^ (e + 79) ≤ p.val := by
    obtain ⟨c, cf, cv⟩ := exists_val64' (n := 1) (k := e + 79) (by norm_num) (by omega) (by omega)
    rw [Int.cast_one, one_mul] at cv
    rw [← cv]
    refine hpr.ge_of_ge pf cf ?_
    rw [cv, zadd]
    calc (2 : ℝ) ^ e * 2 ^ (79 : ℤ) ≤ 2 ^ e * (m * 134217729) := by
          gcongr
          norm_num at m1 ⊢
          linarith
      _ = _ := by ring
  obtain ⟨P, hP⟩ := grid64 p (e + 79) (pge.trans (le_abs_self _))
  rw [show e + 79 - 52 = e + 27 by ring] at hP
  -- x - p is at least 2^79 units and at most 2^80 units
  have hΔ : |p.val - m * 2 ^ e * 134217729| ≤ 2 ^ e * 2 ^ 27 := by
    refine pe.trans (le_of_eq ?_)
    rw [show e + 81 - 54 = e + 27 by ring, zadd]; norm_num
  have hlow : (2 : ℝ) ^ e * 2 ^ 79 ≤ p.val - x.val := by
    rcases eq_or_lt_of_le h1 with h | h
    · -- a power of two: the product is exact
      obtain ⟨c, cf, cv⟩ := exists_val64' (n := 134217729) (k := e + 52) (by norm_num) (by omega) (by omega)
      have hex : c.val = m * 2 ^ e * 134217729 := by
        rw [cv, ← h, zadd]; push_cast; norm_num; ring
      obtain ⟨-, pv⟩ := hpr.exact_real cf hex
      rw [pv, hv, ← h]
      push_cast
      nlinarith [hE]
    · have m3 : (2 : ℝ) ^ 52 + 1 ≤ m := by exact_mod_cast h
      have := (abs_le.1 hΔ).1
      rw [hv]
      nlinarith [hE, mul_le_mul_of_nonneg_left m3 hE.le]
  have hhigh : p.val - x.val ≤ 2 ^ e * 2 ^ 80 := by
    have := (abs_le.1 hΔ).2
    rw [hv]
    nlinarith [hE, mul_le_mul_of_nonneg_left m2 hE.le]
  have hpos : (0 : ℝ) < 2 ^ e * 2 ^ 79 := by positivity
  -- q
  have hqr : IsRNE (x.val - p.val) (x - p) := sub_rne hx pf
  obtain ⟨qf, qe⟩ := hqr.err64 (e + 80) (by
    rw [abs_sub_comm, abs_of_pos (by linarith), zadd]; norm_num at hhigh ⊢; linarith) (by omega) (by omega)
  rw [show e + 80 - 54 = e + 26 by ring] at qe
  have qle : (x - p).val ≤ -(2 ^ (e + 79)) := by
    obtain ⟨c, cf, cv⟩ := exists_val64' (n := -1) (k := e + 79) (by norm_num) (by omega) (by omega)
    have cv' : c.val = -(2 ^ (e + 79)) := by rw [cv]; push_cast; ring
    rw [← cv']
    refine hqr.le_of_le qf cf ?_
    rw [cv', zadd]; norm_num at hlow ⊢; linarith
  obtain ⟨Q, hQ⟩ := grid64 (x - p) (e + 79) (by
    rw [abs_of_neg (by have := zp (e + 79); linarith)]; linarith)
  rw [show e + 79 - 52 = e + 27 by ring] at hQ
  -- the head
  have hsum : (x - p).val + p.val = (Q + P : ℤ) * 2 ^ (e + 27) := by rw [hP, hQ]; push_cast; ring
  have herr : |((x - p).val + p.val) - x.val| ≤ 2 ^ (e + 26) := by
    have : (x - p).val + p.val - x.val = (x - p).val - (x.val - p.val) := by ring
    rw [this]; exact qe
  have hk : |Q + P| ≤ 2 ^ 26 := by
    have hlt : |((Q + P : ℤ) : ℝ)| < 2 ^ 26 + 1 := by
      rw [hsum] at herr
      have hz : (0 : ℝ) < 2 ^ (e + 27) := zp _
      have h3 : |((Q + P : ℤ) : ℝ) * 2 ^ (e + 27)| ≤ x.val + 2 ^ (e + 26) := by
        have hx0 : 0 ≤ x.val := by rw [hv]; positivity
        have := abs_sub_abs_le_abs_sub (((Q + P : ℤ) : ℝ) * 2 ^ (e + 27)) x.val
        rw [abs_of_nonneg hx0] at this
        linarith
      rw [abs_mul, abs_of_pos hz] at h3
      have h4 : x.val + 2 ^ (e + 26) < (2 ^ 26 + 1) * 2 ^ (e + 27) := by
        rw [hv, zadd, zadd]
        norm_num
        nlinarith [hE, mul_le_mul_of_nonneg_left m2 hE.le]
      exact lt_of_mul_lt_mul_right (h3.trans_lt h4) hz.le
    have : |Q + P| < 2 ^ 26 + 1 := by exact_mod_cast hlt
    omega
  obtain ⟨c, cf, cv⟩ := exists_val64' (n := Q + P) (k := e + 27) (by omega) (by omega) (by omega)
  obtain ⟨xf, xv⟩ := (add_rne qf pf).exact_real cf (by rw [cv, hsum])
  exact ⟨xf, Q + P, hk, by rw [xv, hsum], by rw [xv]; exact herr⟩

/-- head and tail of the square: exact up to a relative error of `2 ^ -74` -/
theorem sq_norm {x : Flt f64} (hx : x.isFinite) {m e : ℤ} (hv : x.val = m * 2 ^ e) (h1 : 2 ^ 52 ≤ m) (h2 : m < 2 ^ 53)
    (he1 : -530 ≤ e) (he2 : e ≤ 458) :
    (sq x).1.isFinite ∧ (sq x).2.isFinite ∧ |(sq x).1.val - x.val ^ 2| ≤ 2 ^ (2 * e + 52) ∧
      |(sq x).1.val + (sq x).2.val - x.val ^ 2| ≤ 2 ^ (2 * e + 30) := by
  obtain ⟨hf, k, hk, hkv, hke⟩ := veltkamp hx hv h1 h2 (by omega) (by omega)
  unfold sq
  have r1 : -1021 ≤ 2 * e + 80 := by omega
  have r2 : 2 * e + 80 ≤ 1023 := by omega
  have r3 : -1021 ≤ 2 * e + 52 := by omega
  have r4 : 2 * e + 52 ≤ 1023 := by omega
  have r5 : 2 * e + 83 ≤ 1023 := by omega
  have r6 : 2 * e + 82 ≤ 1023 := by omega
  set xh := x - x * hypotSplit + x * hypotSplit with hxh
  have hE : (0 : ℝ) < 2 ^ e := zp e
  have m1 : (2 : ℝ) ^ 52 ≤ m := by exact_mod_cast h1
  have m2 : (m : ℝ) ≤ 2 ^ 53 := by exact_mod_cast h2.le
  have hG : (2 : ℝ) ^ (2 * e) = 2 ^ e * 2 ^ e := by rw [two_mul, zadd]
  set G : ℝ := 2 ^ (2 * e) with hGd
  have hG0 : 0 < G := zp _
  have hx0 : 0 ≤ x.val := by rw [hv]; positivity
  have hxle : x.val ≤ 2 ^ 53 * 2 ^ e := by rw [hv]; gcongr
  -- tail
  have hd : x.val - xh.val = ((m - k * 2 ^ 27 : ℤ) : ℝ) * 2 ^ e := by
    rw [hv, hkv, zadd]; push_cast; norm_num; ring
  have hdle : |x.val - xh.val| ≤ 2 ^ 26 * 2 ^ e := by
    rw [abs_sub_comm]; refine hke.trans (le_of_eq ?_); rw [zadd]; norm_num; ring
  obtain ⟨c, cf, cv⟩ := exists_val64' (n := m - k * 2 ^ 27) (k := e) (by
    rw [hd, abs_mul, abs_of_pos hE] at hdle
    have := le_of_mul_le_mul_right hdle hE
    have h3 : |m - k * 2 ^ 27| ≤ 2 ^ 26 := by exact_mod_cast this
    omega) (by omega) (by omega)
  obtain ⟨lf, lv⟩ := (sub_rne hx hf).exact_real cf (by rw [cv, hd])
  set xl := x - xh with hxl
  have hxh : |xh.val| ≤ 2 ^ 53 * 2 ^ e := by
    rw [hkv, abs_mul, abs_of_pos (zp _), zadd]
    have : |(k : ℝ)| ≤ 2 ^ 26 := by exact_mod_cast hk
    calc |(k : ℝ)| * (2 ^ e * 2 ^ (27 : ℤ)) ≤ 2 ^ 26 * (2 ^ e * 2 ^ (27 : ℤ)) := by gcongr
      _ = _ := by norm_num; ring
  have hll : |xl.val| ≤ 2 ^ 26 * 2 ^ e := by rw [lv]; exact hdle
  -- hi
  have hsq : x.val * x.val ≤ 2 ^ 106 * G := by
    rw [hG]; calc x.val * x.val ≤ (2 ^ 53 * 2 ^ e) * (2 ^ 53 * 2 ^ e) := by gcongr
      _ = _ := by ring
  obtain ⟨hif, hie⟩ := mul_err64 hx hx (2 * e + 106) (by
    rw [abs_of_nonneg (mul_nonneg hx0 hx0), zadd]; norm_num at hsq ⊢; linarith) (by omega) (by omega)
  rw [show 2 * e + 106 - 54 = 2 * e + 52 by ring] at hie
  -- xh * xh is exact
  obtain ⟨c2, c2f, c2v⟩ := exists_val64' (n := k * k) (k := 2 * e + 54) (by
    rw [abs_mul]
    have := mul_le_mul hk hk (abs_nonneg _) (by norm_num)
    norm_num at this ⊢; omega) (by omega) (by omega)
  obtain ⟨af, av⟩ := (mul_rne hf hf).exact_real c2f (by
    rw [c2v, hkv, zadd, zadd, ← hGd, hG]; push_cast; norm_num; ring)
  have hGz : ∀ n : ℤ, (2 : ℝ) ^ (2 * e + n) = G * 2 ^ n := fun n => zadd _ _
  rw [hGz] at hie
  norm_num at hie
  -- xh*xh - hi
  have hxx : |xh.val * xh.val - x.val * x.val| ≤ 2 ^ 80 * G := by
    have : xh.val * xh.val - x.val * x.val = -((x.val - xh.val) * (xh.val + x.val)) := by ring
    rw [this, abs_neg, abs_mul]
    calc |x.val - xh.val| * |xh.val + x.val| ≤ (2 ^ 26 * 2 ^ e) * (2 ^ 54 * 2 ^ e) := by
          refine mul_le_mul hdle ?_ (abs_nonneg _) (by positivity)
          refine (abs_add_le _ _).trans ?_
          rw [abs_of_nonneg hx0]; linarith
      _ = _ := by rw [hG]; ring
  obtain ⟨bf, be⟩ := sub_err64 af hif (2 * e + 81) (by
    rw [av, hGz]; norm_num
    have h1 := abs_le.1 hie
    have h2 := abs_le.1 hxx
    rw [abs_le]; constructor <;> linarith) (by omega)
  rw [av] at be
  -- 2*xh
  have two : (2.0 : Flt f64).val = 2 := by
    rw [val_const64 1 1075 1 (by decide +kernel) (by norm_num)]; norm_num
  have twof : (2.0 : Flt f64).isFinite := by decide +kernel
  obtain ⟨c3, c3f, c3v⟩ := exists_val64' (n := k) (k := e + 28) (by omega) (by omega) (by omega)
  obtain ⟨tf, tv⟩ := (mul_rne twof hf).exact_real c3f (by
    rw [c3v, two, hkv, zadd, zadd]; norm_num; ring)
  rw [two] at tv
  -- 2*xh*xl
  have hcr : |2 * xh.val * xl.val| ≤ 2 ^ 80 * G := by
    rw [abs_mul, abs_mul, abs_of_pos (by norm_num : (0:ℝ) < 2)]
    calc 2 * |xh.val| * |xl.val| ≤ 2 * (2 ^ 53 * 2 ^ e) * (2 ^ 26 * 2 ^ e) :=
          mul_le_mul (by linarith) hll (abs_nonneg _) (by positivity)
      _ = _ := by rw [hG]; ring
  obtain ⟨ff, fe⟩ := mul_err64 tf lf (2 * e + 80) (by rw [tv, hGz]; norm_num at hcr ⊢; linarith) r1 r2
  rw [tv] at fe
  have fe' : |(2.0 * xh * xl).val - 2 * xh.val * xl.val| ≤ 2 ^ 26 * G := by
    refine fe.trans (le_of_eq ?_); rw [show 2 * e + 80 - 54 = 2 * e + 26 by ring, hGz]; norm_num; ring
  have be' : |(xh * xh - x * x).val - (xh.val * xh.val - (x * x).val)| ≤ 2 ^ 27 * G := by
    refine be.trans (le_of_eq ?_); rw [show 2 * e + 81 - 54 = 2 * e + 27 by ring, hGz]; norm_num; ring
  -- first sum
  have hie' := abs_le.1 hie
  have hxx' := abs_le.1 hxx
  have hcr' := abs_le.1 hcr
  have be2 := abs_le.1 be'
  have fe2 := abs_le.1 fe'
  norm_num at be2 fe2 hcr' hxx'
  obtain ⟨gf, ge⟩ := add_err64 bf ff (2 * e + 82) (by
    rw [hGz]; norm_num
    rw [abs_le]; constructor <;> linarith) r6
  rw [show 2 * e + 82 - 54 = 2 * e + 28 by ring, hGz] at ge
  -- xl*xl
  have hl2 : xl.val * xl.val ≤ 2 ^ 52 * G := by
    have : xl.val * xl.val = |xl.val| * |xl.val| := (abs_mul_abs_self _).symm
    rw [this]
    calc |xl.val| * |xl.val| ≤ (2 ^ 26 * 2 ^ e) * (2 ^ 26 * 2 ^ e) :=
          mul_le_mul hll hll (abs_nonneg _) (by positivity)
      _ = _ := by rw [hG]; ring
  have hl0 : 0 ≤ xl.val * xl.val := mul_self_nonneg _
  obtain ⟨if', ie⟩ := mul_err64 lf lf (2 * e + 52) (by
    rw [abs_of_nonneg hl0, hGz]; norm_num at hl2 ⊢; linarith) r3 r4
  rw [show 2 * e + 52 - 54 = 2 * e + (-2) by ring, hGz] at ie
  have ge2 := abs_le.1 ge
  have ie2 := abs_le.1 ie
  norm_num at ge2 ie2 hl2
  obtain ⟨jf, je⟩ := add_err64 gf if' (2 * e + 83) (by
    rw [hGz]; norm_num
    rw [abs_le]; constructor <;> linarith) r5
  rw [show 2 * e + 83 - 54 = 2 * e + 29 by ring, hGz] at je
  have je2 := abs_le.1 je
  norm_num at je2
  refine ⟨hif, jf, ?_, ?_⟩
  · rw [hGz, pow_two]; norm_num; exact hie
  · rw [hGz]; norm_num
    have key : x.val ^ 2 = xh.val * xh.val + 2 * xh.val * xl.val + xl.val * xl.val := by
      have : x.val = xh.val + xl.val := by rw [lv]; ring
      rw [this]; ring
    rw [key, abs_le]
    constructor <;> linarith

/-- `sq` on the range used by `hypot` -/
theorem sq_spec {x : Flt f64} (hx : x.isFinite) (h1 : 2 ^ (-475 : ℤ) ≤ x.val) (h2 : x.val < 2 ^ (511 : ℤ)) :
    (sq x).1.isFinite ∧ (sq x).2.isFinite ∧ |(sq x).1.val - x.val ^ 2| ≤ 2 ^ (-52 : ℤ) * x.val ^ 2 ∧
      |(sq x).1.val + (sq x).2.val - x.val ^ 2| ≤ 2 ^ (-74 : ℤ) * x.val ^ 2 := by
  have hx0 : 0 < x.val := (zp _).trans_le h1
  obtain ⟨m, e, hv, m1, m2, -, -⟩ := norm_form64 (x := x) (by
    rw [abs_of_pos hx0]
    exact (zpow_le_zpow_right₀ (by norm_num) (by norm_num)).trans h1) hx
  have hE := zp e
  have hm : 0 < m := by
    rw [hv] at hx0
    have := pos_of_mul_pos_left hx0 hE.le
    exact_mod_cast this
  rw [abs_of_pos hm] at m1 m2
  have m1' : (2 : ℝ) ^ (52 : ℤ) ≤ m := by exact_mod_cast m1
  have m2' : (m : ℝ) < 2 ^ (53 : ℤ) := by exact_mod_cast m2
  have e1 : -530 ≤ e := by
    by_contra hc
    have h3 : x.val < 2 ^ (53 + e) := by
      rw [hv, zadd]; exact mul_lt_mul_of_pos_right m2' hE
    have h4 : (2 : ℝ) ^ (53 + e) ≤ 2 ^ (-475 : ℤ) := zpow_le_zpow_right₀ (by norm_num) (by omega)
    linarith
  have e2 : e ≤ 458 := by
    by_contra hc
    have h3 : 2 ^ (52 + e) ≤ x.val := by
      rw [hv, zadd]; exact mul_le_mul_of_nonneg_right m1' hE.le
    have h4 : (2 : ℝ) ^ (511 : ℤ) ≤ 2 ^ (52 + e) := zpow_le_zpow_right₀ (by norm_num) (by omega)
    linarith
  obtain ⟨a, b, c, d⟩ := sq_norm hx hv m1 m2 e1 e2
  have hX : 2 ^ (2 * e + 104) ≤ x.val ^ 2 := by
    have h3 : 2 ^ (52 + e) ≤ x.val := by
      rw [hv, zadd]; exact mul_le_mul_of_nonneg_right m1' hE.le
    calc (2 : ℝ) ^ (2 * e + 104) = (2 ^ (52 + e)) ^ 2 := by rw [← zpow_natCast, ← zpow_mul]; congr 1; push_cast; ring
      _ ≤ _ := pow_le_pow_left₀ (zp _).le h3 2
  refine ⟨a, b, c.trans ?_, d.trans ?_⟩
  · rw [show 2 * e + 52 = -52 + (2 * e + 104) by ring, zadd]
    exact mul_le_mul_of_nonneg_left hX (zp _).le
  · rw [show 2 * e + 30 = -74 + (2 * e + 104) by ring, zadd]
    exact mul_le_mul_of_nonneg_left hX (zp _).le

/-- the argument handed to `sqrt` -/
theorem sum_sq {x y : Flt f64} (hx : x.isFinite) (hy : y.isFinite) (h1 : 2 ^ (-475 : ℤ) ≤ y.val) (hyx : y.val ≤ x.val)
    (h2 : x.val < 2 ^ (511 : ℤ)) :
    ((sq y).2 + (sq x).2 + (sq y).1 + (sq x).1).isFinite ∧
    |((sq y).2 + (sq x).2 + (sq y).1 + (sq x).1).val - (x.val ^ 2 + y.val ^ 2)| ≤
      7 / 4 * 2 ^ (-53 : ℤ) * (x.val ^ 2 + y.val ^ 2) := by
  obtain ⟨xa, xb, xc, xd⟩ := sq_spec hx (h1.trans hyx) h2
  obtain ⟨ya, yb, yc, yd⟩ := sq_spec hy h1 (hyx.trans_lt h2)
  have hy0 : 0 < y.val := (zp _).trans_le h1
  have hX : x.val ^ 2 ≤ 2 ^ (1022 : ℤ) := by
    calc x.val ^ 2 ≤ (2 ^ (511 : ℤ)) ^ 2 := pow_le_pow_left₀ (by linarith) h2.le 2
      _ = _ := by rw [← zpow_natCast, ← zpow_mul]; norm_num
  have hYX : y.val ^ 2 ≤ x.val ^ 2 := pow_le_pow_left₀ hy0.le hyx 2
  have hY0 : 0 < y.val ^ 2 := by positivity
  have hT : (2 : ℝ) ^ (1023 : ℤ) = 2 * 2 ^ (1022 : ℤ) := by
    rw [show (1023 : ℤ) = 1 + 1022 by norm_num, zadd]; norm_num
  generalize (sq x).1 = hx' at *
  generalize (sq x).2 = lx at *
  generalize (sq y).1 = hy' at *
  generalize (sq y).2 = ly at *
  generalize x.val ^ 2 = X at *
  generalize y.val ^ 2 = Y at *
  generalize (2 : ℝ) ^ (1022 : ℤ) = T at *
  norm_num at xc xd yc yd
  have xc' := abs_le.1 xc
  have xd' := abs_le.1 xd
  have yc' := abs_le.1 yc
  have yd' := abs_le.1 yd
  -- ly + lx
  have b1 : |ly.val + lx.val| ≤ (X + Y) * (1 / 2 ^ 51) := by
    rw [abs_le]; constructor <;> linarith
  obtain ⟨f1, e1⟩ := add_rel64 yb xb (by
    rw [hT]; refine b1.trans ?_; linarith)
  have e1' : |(ly + lx).val - (ly.val + lx.val)| ≤ (X + Y) * (1 / 2 ^ 100) := by
    refine e1.trans ?_
    norm_num at b1 ⊢
    linarith
  have e1'' := abs_le.1 e1'
  -- + hy
  have b2 : |(ly + lx).val + hy'.val| ≤ Y + (X + Y) * (1 / 2 ^ 49) := by
    have b1' := abs_le.1 b1
    rw [abs_le]; constructor <;> linarith
  obtain ⟨f2, e2⟩ := add_rel64 f1 ya (by
    rw [hT]; refine b2.trans ?_; linarith)
  have e2' : |(ly + lx + hy').val - ((ly + lx).val + hy'.val)| ≤ (Y + (X + Y) * (1 / 2 ^ 49)) * (1 / 2 ^ 53) := by
    refine e2.trans ?_
    norm_num at b2 ⊢
    linarith
  have e2'' := abs_le.1 e2'
  -- + hx
  have b1' := abs_le.1 b1
  have b3 : |(ly + lx + hy').val + hx'.val| ≤ (X + Y) * (1 + 1 / 2 ^ 49) := by
    rw [abs_le]; constructor <;> linarith
  have b3' : (X + Y) * (1 + 1 / 2 ^ 49) ≤ (X + Y) + (X + Y) / 2 ^ 49 := by linarith
  obtain ⟨f3, e3⟩ := add_rel64 f2 xa (by
    rw [hT]; refine b3.trans ?_; norm_num; linarith)
  have e3' : |(ly + lx + hy' + hx').val - ((ly + lx + hy').val + hx'.val)| ≤ (X + Y) * (1 / 2 ^ 53 + 1 / 2 ^ 100) := by
    refine e3.trans ?_
    norm_num at b3 ⊢
    linarith
  have e3'' := abs_le.1 e3'
  refine ⟨f3, ?_⟩
  norm_num at e1'' e2'' e3'' ⊢
  rw [abs_le]
  constructor <;> linarith

/-! ### the square root step -/

theorem sqrt_near {a b u : ℝ} (ha : 0 ≤ a) (hb : 0 ≤ b) (hu : 0 ≤ u) (hu1 : u ≤ 1 / 1000)
    (h : |a ^ 2 - b ^ 2| ≤ 7 / 4 * u * b ^ 2) : |a - b| ≤ 9 / 10 * u * b := by
  rcases eq_or_lt_of_le hb with h0 | h0
  · subst h0
    norm_num at h
    simp [h]
  have e : a ^ 2 - b ^ 2 = (a - b) * (a + b) := by ring
  have h2 := abs_le.1 h
  have ha2 : 39 / 40 * b ≤ a := by
    have h3 : (39 / 40 * b) ^ 2 ≤ a ^ 2 := by nlinarith [sq_nonneg b]
    exact le_of_sq_le_sq h3 ha
  rw [e, abs_mul, abs_of_pos (by linarith : 0 < a + b)] at h
  by_contra hc
  push Not at hc
  have h5 : 9 / 10 * u * b * (79 / 40 * b) ≤ 9 / 10 * u * b * (a + b) := by
    apply mul_le_mul_of_nonneg_left _ (by positivity); linarith
  have h6 : 9 / 10 * u * b * (a + b) < |a - b| * (a + b) := by
    apply mul_lt_mul_of_pos_right hc; linarith
  nlinarith [sq_nonneg b, mul_nonneg hu (sq_nonneg b)]

end Hypot
end Verif

namespace Verif
namespace Hypot
open Flt

/-- the square root of an accurate sum, in f64 -/
theorem sqrt_step {s : Flt f64} (hs : s.isFinite) {S : ℝ} (h1 : 2 ^ (-960 : ℤ) ≤ S) (h2 : S ≤ 2 ^ (1023 : ℤ))
    (h : |s.val - S| ≤ 7 / 4 * 2 ^ (-53 : ℤ) * S) :
    ∃ r, sqrt s = some r ∧ r.sign = false ∧ r.isFinite ∧ 0 < r.val ∧ |r.val - √S| ≤ 39 / 40 * 2 ^ (-52 : ℤ) * √S := by
  have hS : 0 < S := (zp _).trans_le h1
  have h' := abs_le.1 h
  have hs0 : 0 < s.val := by norm_num at h'; linarith
  have hsign : s.sign = false := by
    by_contra hc
    have : s.sign = true := by simpa using hc
    have h3 : s.sval ≤ 0 := by unfold sval; rw [this]; simp
    rw [val_eq] at hs0
    have h4 : (0 : ℝ) < ((f64.ulp : ℚ) : ℝ) := by exact_mod_cast f64.ulp_pos
    have h5 : (s.sval : ℝ) ≤ 0 := by exact_mod_cast h3
    nlinarith
  obtain ⟨r, hr, hrs, hrr⟩ := sqrt_correct.pos s hs hsign (fun hz => hs0.ne' (isZero_val.1 hz))
  have hsq : √S ^ 2 = S := Real.sq_sqrt hS.le
  have hsq2 : √s.val ^ 2 = s.val := Real.sq_sqrt hs0.le
  have n1 := sqrt_near (a := √s.val) (b := √S) (u := 2 ^ (-53 : ℤ)) (Real.sqrt_nonneg _) (Real.sqrt_nonneg _) (zp _).le
    (by norm_num) (by rw [hsq, hsq2]; exact h)
  have lo : (2 : ℝ) ^ (-480 : ℤ) ≤ √S := by
    apply Real.le_sqrt_of_sq_le
    refine le_trans (le_of_eq ?_) h1
    rw [← zpow_natCast, ← zpow_mul]; norm_num
  have hi : √S ≤ 2 ^ (512 : ℤ) := by
    apply Real.sqrt_le_iff.2 ⟨(zp _).le, h2.trans ?_⟩
    rw [← zpow_natCast, ← zpow_mul]; exact zpow_le_zpow_right₀ (by norm_num) (by norm_num)
  have n2 := abs_le.1 n1
  have hb : 0 < √S := (zp _).trans_le lo
  norm_num at n2
  have a1 : √S / 2 ≤ √s.val := by linarith
  have a2 : √s.val ≤ √S * 2 := by linarith
  change IsRNE (√s.val) r at hrr
  have t1 : (2 : ℝ) ^ (-481 : ℤ) ≤ √s.val := by
    refine le_trans ?_ a1
    rw [show (-481 : ℤ) = -480 + -1 by norm_num, zadd]; norm_num at lo ⊢; linarith
  have t2 : √s.val ≤ 2 ^ (513 : ℤ) := by
    refine a2.trans ?_
    rw [show (513 : ℤ) = 512 + 1 by norm_num, zadd]
    linarith
  obtain ⟨rf, re⟩ := hrr.rel64 (by
    rw [abs_of_nonneg (Real.sqrt_nonneg _)]
    exact (zpow_le_zpow_right₀ (by norm_num) (by norm_num)).trans t1) (by
    rw [abs_of_nonneg (Real.sqrt_nonneg _)]
    refine t2.trans ?_
    have : (2 : ℝ) ^ (513 : ℤ) ≤ 2 ^ (1023 : ℤ) := zpow_le_zpow_right₀ (by norm_num) (by norm_num)
    have h0 := zp 1023
    generalize (2 : ℝ) ^ (1023 : ℤ) = T at *
    generalize (2 : ℝ) ^ (513 : ℤ) = T' at *
    linarith)
  rw [abs_of_nonneg (Real.sqrt_nonneg _)] at re
  have re' := abs_le.1 re
  norm_num at re'
  refine ⟨r, hr, hrs, rf, by linarith, ?_⟩
  norm_num
  rw [abs_le]
  constructor <;> linarith

/-- the accuracy claim for f64 -/
def Acc64 (r : Flt f64) (h : ℝ) : Prop :=
  (r.isFinite ∧ |r.val - h| ≤ 2 ^ (-52 : ℤ) * h + 2 ^ (-1075 : ℤ)) ∨ (r.isInf ∧ (1 - 2 ^ (-51 : ℤ)) * 2 ^ (1024 : ℤ) ≤ h)

/-- scaling back -/
theorem unscale {r0 z : Flt f64} {j : ℤ} (hz : z.isFinite) (hzv : z.val = 2 ^ j) (hr : r0.isFinite) (h0 : 0 < r0.val)
    {h : ℝ} (hh : 0 ≤ h) (he : |r0.val - h| ≤ 39 / 40 * 2 ^ (-52 : ℤ) * h) :
    (z * r0).sign = false ∧ Acc64 (z * r0) (h * 2 ^ j) := by
  have hrne : IsRNE (r0.val * 2 ^ j) (z * r0) := by
    have := mul_rne hz hr
    rwa [hzv, mul_comm] at this
  have hj := zp j
  have hpos : 0 < r0.val * 2 ^ j := mul_pos h0 hj
  have he' : |r0.val * 2 ^ j - h * 2 ^ j| ≤ 39 / 40 * 2 ^ (-52 : ℤ) * (h * 2 ^ j) := by
    rw [← sub_mul, abs_mul, abs_of_pos hj]
    calc |r0.val - h| * 2 ^ j ≤ 39 / 40 * 2 ^ (-52 : ℤ) * h * 2 ^ j := mul_le_mul_of_nonneg_right he hj.le
      _ = _ := by ring
  have hb := abs_le.1 he'
  have hh' : 0 ≤ h * 2 ^ j := by positivity
  generalize h * 2 ^ j = H at *
  have h52 : (2 : ℝ) ^ (-52 : ℤ) = 1 / 4503599627370496 := by norm_num
  by_cases hf : (z * r0).isFinite
  · have hs := scale_err64 j hrne hf
    refine ⟨?_, Or.inl ⟨hf, ?_⟩⟩
    · have h3 := hrne
      unfold IsRNE at h3
      split at h3
      · exact absurd hf (not_finite_of_inf h3.1)
      · have := h3.2.2.2 hpos.ne'
        by_contra hc
        have hc' : (z * r0).sign = true := by simpa using hc
        linarith [this.1 hc']
    · have hs' := abs_le.1 hs
      generalize (2 : ℝ) ^ (-1075 : ℤ) = t at *
      rw [h52] at hb ⊢
      rw [abs_le]
      constructor <;> linarith
  · unfold IsRNE at hrne
    split at hrne
    case isFalse h' => exact absurd hrne.1 hf
    case isTrue h' =>
      refine ⟨?_, Or.inr ⟨hrne.1, ?_⟩⟩
      · by_contra hc
        have hc' : (z * r0).sign = true := by simpa using hc
        linarith [hrne.2.1 hc']
      · rw [abs_of_pos hpos] at h'
        have ht : ((overflowThreshold f64 : ℚ) : ℝ) = 2 ^ (1024 : ℤ) * (1 - 2 ^ (-54 : ℤ)) := by
          unfold overflowThreshold
          rw [f64_bias, f64_sb, show (1024 : ℤ) = 1023 + 1 by norm_num, zadd]
          generalize hw : (1023 : ℤ) = w
          push_cast
          rw [hw]
          norm_num
          ring
        rw [ht] at h'
        generalize (2 : ℝ) ^ (1024 : ℤ) = T at *
        norm_num at h' hb ⊢
        linarith

end Hypot
end Verif
