import Verif.Theory.Odd

/-!
# The domain of `acosh` and `atanh`: the computations for arguments outside it end in a NaN

Written for any format with at least 23 fraction bits; `sq`, `lg` stand for the square root and the logarithm.
-/

namespace Verif
namespace AcoshDom
open Flt
variable {F : Fmt}

theorem lt_of_val {x y : Flt F} (hx : ¬ x.isNaN) (hy : ¬ y.isNaN) (h : x.val < y.val) : (x <ᶠ y) = true :=
  lt_iff.2 ⟨hx, hy, val_lt_iff.1 h⟩

theorem pow_small (hs : 23 ≤ F.sb) : (2 : ℝ) ^ (-1 - (F.sb : ℤ)) ≤ 1 / 2 ^ 24 := by
  have : (2 : ℝ) ^ (-1 - (F.sb : ℤ)) ≤ 2 ^ (-24 : ℤ) := zpow_le_zpow_right₀ (by norm_num) (by omega)
  refine this.trans ?_
  norm_num

theorem top_big (hb : 127 ≤ F.bias) : (2 : ℝ) ^ (100 : ℕ) ≤ 3 / 2 * 2 ^ (F.bias : ℤ) := by
  have : (2 : ℝ) ^ (100 : ℤ) ≤ 2 ^ (F.bias : ℤ) := zpow_le_zpow_right₀ (by norm_num) (by omega)
  rw [show (100 : ℤ) = ((100 : ℕ) : ℤ) from rfl, zpow_natCast] at this
  have : (0 : ℝ) ≤ 2 ^ (F.bias : ℤ) := by positivity
  linarith

/-- relative error of an addition, without the exponent bookkeeping -/
theorem add_r (hs : 23 ≤ F.sb) (hb : 127 ≤ F.bias) {x y : Flt F} (hx : x.isFinite) (hy : y.isFinite)
    (h : |x.val + y.val| ≤ 2 ^ 100) :
    (x + y).isFinite ∧ |(x + y).val - (x.val + y.val)| ≤ |x.val + y.val| * (2 : ℝ) ^ (-1 - (F.sb : ℤ)) :=
  add_rel hx hy (h.trans (top_big hb))

theorem sub_r (hb : 127 ≤ F.bias) {x y : Flt F} (hx : x.isFinite) (hy : y.isFinite)
    (h : |x.val - y.val| ≤ 2 ^ 100) :
    (x - y).isFinite ∧ |(x - y).val - (x.val - y.val)| ≤ |x.val - y.val| * (2 : ℝ) ^ (-1 - (F.sb : ℤ)) :=
  sub_rel hx hy (h.trans (top_big hb))

/-- doubling is exact -/
theorem double {t x : Flt F} (ht : t.isFinite) (htv : t.val = 2) (hx : x.isFinite) (hb : 127 ≤ F.bias)
    (h : |x.val| ≤ 2 ^ 90) : (t * x).isFinite ∧ (t * x).val = 2 * x.val := by
  have hr := mul_rne ht hx
  rw [htv] at hr
  have hr2 := add_rne hx hx
  have : ∃ c : Flt F, c.isFinite ∧ c.val = 2 * x.val := by
    by_cases hn : 2 ^ (1 - (F.bias : ℤ)) ≤ |x.val|
    · have := scale_exact (x := x) 1 (by
        rw [abs_mul]; norm_num
        have := abs_nonneg x.val
        linarith) (by
        rw [abs_mul]; norm_num
        have : (2 : ℝ) ^ (100 : ℤ) ≤ 2 ^ ((F.bias : ℤ) + 1) := zpow_le_zpow_right₀ (by norm_num) (by omega)
        refine lt_of_lt_of_le ?_ this
        norm_num at h ⊢
        linarith)
      obtain ⟨c, hc, hv⟩ := this
      exact ⟨c, hc, by rw [hv]; ring⟩
    · have hm : |x.sval| ≤ 2 ^ F.sb := by
        have := val_eq x
        rw [ulp_real] at this
        rw [this, abs_mul, abs_of_pos (zp (1 - (F.bias : ℤ) - F.sb)), not_le] at hn
        have e : (2 : ℝ) ^ (1 - (F.bias : ℤ)) = 2 ^ (F.sb : ℤ) * 2 ^ (1 - (F.bias : ℤ) - F.sb) := by
          rw [← zpow_add₀ (by norm_num)]; congr 1; ring
        rw [e] at hn
        have h2 := lt_of_mul_lt_mul_right hn (zp _).le
        have h3 : ((|x.sval| : ℤ) : ℝ) < ((2 ^ F.sb : ℤ) : ℝ) := by push_cast; rw [← zpow_natCast]; exact h2
        exact (Int.cast_lt.1 h3).le
      obtain ⟨c, hc, hv⟩ := exists_val (F := F) (n := 2 * x.sval) (k := 1 - (F.bias : ℤ) - F.sb)
        (by rw [abs_mul, pow_succ]; simp; omega) le_rfl (by
          have hx2 := val_eq x
          rw [ulp_real] at hx2
          have : |((2 * x.sval : ℤ) : ℝ)| * 2 ^ (1 - (F.bias : ℤ) - F.sb) = 2 * |x.val| := by
            rw [hx2, abs_mul, abs_of_pos (zp _)]; push_cast; rw [abs_mul]; norm_num; ring
          rw [this]
          have : (2 : ℝ) ^ (100 : ℤ) ≤ 2 ^ ((F.bias : ℤ) + 1) := zpow_le_zpow_right₀ (by norm_num) (by omega)
          refine lt_of_lt_of_le ?_ this
          norm_num at h ⊢
          linarith)
      refine ⟨c, hc, ?_⟩
      rw [hv, val_eq x, ulp_real]; push_cast; ring
  obtain ⟨c, hc, hv⟩ := this
  exact hr.exact_real hc hv

theorem isNaN_neg_sqrt {sq : Flt F → Option (Flt F)} (hq : IsSqrt sq) {x : Flt F} (hx : x.isFinite) (h : x.val < 0) :
    ∃ r, sq x = some r ∧ r.isNaN := by
  refine hq.neg x (not_nan_of_finite hx) ?_ ?_
  · cases hs : x.sign
    · have := val_nonneg hs; linarith
    · rfl
  · rw [isZero_val]; exact h.ne

theorem sign_of_pos {x : Flt F} (h : 0 < x.val) : x.sign = false := by
  cases hs : x.sign
  · rfl
  · exfalso
    have := sval_of_neg hs
    have h2 := val_eq x
    rw [this] at h2
    push_cast at h2
    have : (0 : ℝ) ≤ (x.mag : ℝ) * ((F.ulp : ℚ) : ℝ) := by rw [← val_abs]; exact abs_nonneg _
    linarith

/-- a nonnegative root, from its correct rounding: `s² ≤ x (1 + ε)²` -/
theorem sqrt_le {sq : Flt F → Option (Flt F)} (hq : IsSqrt sq) (hb : 127 ≤ F.bias) (hbs : F.sb + 1 ≤ F.bias)
    {x : Flt F} (hx : x.isFinite) (h0 : 0 ≤ x.val) (h1 : x.val ≤ 2 ^ 90) :
    ∃ s, sq x = some s ∧ s.isFinite ∧ 0 ≤ s.val ∧ s.val ≤ √x.val * (1 + (2 : ℝ) ^ (-1 - (F.sb : ℤ))) := by
  by_cases hz : x.isZero
  · refine ⟨x, hq.zero x hz, hx, h0, ?_⟩
    rw [isZero_val.1 hz]; simp
  · have hp : 0 < x.val := lt_of_le_of_ne h0 (fun h => hz (isZero_val.2 h.symm))
    obtain ⟨s, h2, h3, h4⟩ := hq.pos x hx (sign_of_pos hp) hz
    change IsRNE (√x.val) s at h4
    have hr1 : (2 : ℝ) ^ (1 - (F.bias : ℤ)) ≤ √x.val := by
      apply Real.le_sqrt_of_sq_le
      have := val_ge_min hz
      rw [abs_of_pos hp] at this
      refine le_trans ?_ this
      rw [← zpow_natCast, ← zpow_mul]
      exact zpow_le_zpow_right₀ (by norm_num) (by push_cast; omega)
    have hr2 : √x.val ≤ 2 ^ 45 := by
      rw [show (2 : ℝ) ^ 45 = √((2 : ℝ) ^ 90) by
        rw [show (2 : ℝ) ^ 90 = ((2 : ℝ) ^ 45) ^ 2 by norm_num]
        rw [Real.sqrt_sq (by positivity)]]
      exact Real.sqrt_le_sqrt h1
    have hn0 := Real.sqrt_nonneg x.val
    obtain ⟨hf, he⟩ := h4.rel (by rw [abs_of_nonneg hn0]; exact hr1) (by
      rw [abs_of_nonneg hn0]
      refine hr2.trans (le_trans ?_ (top_big hb))
      norm_num)
    refine ⟨s, h2, hf, val_nonneg h3, ?_⟩
    rw [abs_of_nonneg hn0, abs_le] at he
    linarith [he.2]

/-- a rounded negative number stays negative -/
theorem neg_of_rel {q v ε : ℝ} (hq : q < 0) (he : ε ≤ 1 / 2 ^ 24) (h : |v - q| ≤ |q| * ε) : v < 0 := by
  rw [abs_of_neg hq, abs_le] at h
  nlinarith [h.2]

/-- `acosh` on `|x| < 2`: a NaN for `x < 1` -/
theorem small {sq lg : Flt F → Option (Flt F)} {root t : Flt F} (hq : IsSqrt sq) (hl : IsLogFn lg (-one F) root)
    (hs : 23 ≤ F.sb) (hb : 127 ≤ F.bias) (hbs : F.sb + 1 ≤ F.bias) (ht : t.isFinite) (htv : t.val = 2)
    {x : Flt F} (hx : x.isFinite) (h1 : -2 < x.val) (h2 : x.val < 1) :
    ∃ r, (sq ((x - one F) * (x - one F) + t * (x - one F))).bind (fun s => lg (x - one F + s)) = some r ∧ r.isNaN := by
  have hε := pow_small hs
  have hε0 : (0 : ℝ) < 2 ^ (-1 - (F.sb : ℤ)) := zp _
  obtain ⟨hdf, hde⟩ := sub_r hb hx (y := one F) (by simp) (by rw [val_one, abs_le]; constructor <;> linarith)
  rw [val_one] at hde
  generalize hd : x - one F = d at *
  have hd0 : d.val < 0 := neg_of_rel (by linarith) hε hde
  have hd3 : -3.01 < d.val := by
    rw [abs_of_neg (by linarith : x.val - 1 < 0), abs_le] at hde
    nlinarith [hde.1]
  have hdn : |d.val| = -d.val := abs_of_neg hd0
  obtain ⟨htf, hte⟩ := double ht htv hdf hb (by rw [hdn]; linarith)
  obtain ⟨hpf, hpe⟩ := mul_err hdf hdf 4 (by rw [abs_of_nonneg (mul_self_nonneg _)]; norm_num; nlinarith) (by omega) (by omega)
  by_cases hA : -2 < d.val
  · have hp : (d * d).val < -(2 * d.val) := by
      by_cases h1 : -1 < d.val
      · have : (d * d).val ≤ (-d).val := (mul_rne hdf hdf).le_of_le hpf (by simpa using hdf) (by rw [val_neg]; nlinarith)
        rw [val_neg] at this
        linarith
      · obtain ⟨n, hn⟩ := grid d 0 (by rw [hdn, zpow_zero]; linarith)
        have hδ : (2 : ℝ) ^ (0 - (F.sb : ℤ)) ≤ 2 + d.val := by
          have e : (2 : ℝ) = 2 ^ (F.sb + 1) * 2 ^ (0 - (F.sb : ℤ)) := by
            rw [← zpow_natCast, ← zpow_add₀ (by norm_num)]; push_cast; rw [show (F.sb : ℤ) + 1 + (0 - F.sb) = 1 by ring]; norm_num
          have hpos : (0 : ℝ) < 2 ^ (0 - (F.sb : ℤ)) := zp _
          have h3 : (0 : ℝ) < ((2 ^ (F.sb + 1) + n : ℤ) : ℝ) * 2 ^ (0 - (F.sb : ℤ)) := by
            push_cast; rw [add_mul, ← e, ← hn]; linarith
          have h4 : (0 : ℝ) < ((2 ^ (F.sb + 1) + n : ℤ) : ℝ) := (mul_pos_iff_of_pos_right hpos).1 h3
          have h5 : (1 : ℝ) ≤ ((2 ^ (F.sb + 1) + n : ℤ) : ℝ) := by exact_mod_cast Int.cast_pos.1 h4
          have h6 := mul_le_mul_of_nonneg_right h5 hpos.le
          push_cast at h6
          rw [add_mul, ← e, ← hn, one_mul] at h6
          exact h6
        obtain ⟨-, he2⟩ := mul_err hdf hdf 2 (by rw [abs_of_nonneg (mul_self_nonneg _)]; norm_num; nlinarith) (by omega) (by omega)
        rw [show (2 : ℤ) - 2 - F.sb = 0 - F.sb by ring, abs_le] at he2
        have hsm : (2 : ℝ) ^ (0 - (F.sb : ℤ)) < 1 := by
          rw [show (1 : ℝ) = 2 ^ (0 : ℤ) by norm_num]
          exact zpow_lt_zpow_right₀ (by norm_num) (by omega)
        have hpos : (0 : ℝ) < 2 ^ (0 - (F.sb : ℤ)) := zp _
        generalize (2 : ℝ) ^ (0 - (F.sb : ℤ)) = w at *
        rcases eq_or_lt_of_le (not_lt.1 h1) with h3 | h3
        · rw [h3] at he2 ⊢; linarith [he2.2]
        · nlinarith [he2.2]
    obtain ⟨hsf, hse⟩ := add_r hs hb hpf htf (by rw [hte, abs_le]; constructor <;> nlinarith [(mul_rne hdf hdf).ge_of_ge hpf (s := zero F false) (by simp) (by simp; nlinarith), val_zero (F := F) false])
    have hneg : (d * d + t * d).val < 0 := neg_of_rel (by rw [hte]; linarith) hε hse
    obtain ⟨s, h3, h4⟩ := isNaN_neg_sqrt hq hsf hneg
    rw [h3, Option.bind_some, add_nan (Or.inr h4)]
    exact hl.nan _ isNaN_qnan
  · have hp1 : -(2 * d.val) ≤ (d * d).val := by
      have := (mul_rne hdf hdf).ge_of_ge hpf (s := -(t * d)) (by simpa using htf) (by rw [val_neg, hte]; nlinarith)
      rw [val_neg, hte] at this
      exact this
    have hp2 : (d * d).val ≤ d.val * d.val + 1 / 2 ^ 21 := by
      have : (2 : ℝ) ^ (4 - 2 - (F.sb : ℤ)) ≤ 2 ^ (-21 : ℤ) := zpow_le_zpow_right₀ (by norm_num) (by omega)
      rw [abs_le] at hpe
      have h3 : (2 : ℝ) ^ (-21 : ℤ) = 1 / 2 ^ 21 := by norm_num
      have h4 := hpe.2.trans (this.trans h3.le)
      linarith
    have hd2 : d.val ≤ -2 := not_lt.1 hA
    have hq0 : 0 ≤ (d * d).val + 2 * d.val := by linarith
    have hq1 : (d * d).val + 2 * d.val ≤ 3.1 := by nlinarith
    obtain ⟨hsf, hse⟩ := add_r hs hb hpf htf (by rw [hte, abs_of_nonneg hq0]; linarith)
    rw [hte] at hse
    have hsn : 0 ≤ (d * d + t * d).val := by
      rw [abs_of_nonneg hq0, abs_le] at hse; nlinarith [hse.1]
    have hsu : (d * d + t * d).val ≤ d.val * d.val + 2 * d.val + 1 / 2 ^ 20 := by
      rw [abs_of_nonneg hq0, abs_le] at hse; nlinarith [hse.2]
    obtain ⟨s, h3, h4, h5, h6⟩ := sqrt_le hq hb hbs hsf hsn (by nlinarith)
    have h7 : s.val ≤ -d.val - 9 / 8 := by
      have hn0 := Real.sqrt_nonneg (d * d + t * d).val
      have hsq := Real.sq_sqrt hsn
      have h8 : √(d * d + t * d).val * (1 + (2 : ℝ) ^ (-1 - (F.sb : ℤ))) ≤ √(d * d + t * d).val * (1 + 1 / 2 ^ 24) :=
        mul_le_mul_of_nonneg_left (by linarith) hn0
      have h9 : s.val ≤ √(d * d + t * d).val * (1 + 1 / 2 ^ 24) := h6.trans h8
      refine h9.trans (abs_le_of_sq_le_sq' ?_ (by linarith)).2
      rw [mul_pow, hsq]
      nlinarith
    rw [h3, Option.bind_some]
    obtain ⟨hf, he⟩ := add_r hs hb hdf h4 (by rw [abs_le]; constructor <;> linarith)
    refine hl.domain _ (lt_of_val (not_nan_of_finite hf) (not_nan_of_finite (by simp)) ?_)
    rw [val_neg, val_one]
    rw [abs_of_neg (by linarith : d.val + s.val < 0), abs_le] at he
    nlinarith [he.2]

theorem pow4_le {ε : ℝ} (h0 : 0 ≤ ε) (h1 : ε ≤ 1 / 2 ^ 24) : (1 + ε) ^ 4 ≤ 1 + 4.1 * ε := by
  have : (1 + ε) ^ 4 = 1 + ε * (4 + ε * (6 + ε * (4 + ε))) := by ring
  rw [this]
  have : ε * (6 + ε * (4 + ε)) ≤ 1 / 2 ^ 24 * (6 + 1 * (4 + 1)) := by gcongr <;> linarith
  have : ε * (4 + ε * (6 + ε * (4 + ε))) ≤ ε * 4.1 := mul_le_mul_of_nonneg_left (by linarith) h0
  linarith

theorem medium_real {a ε : ℝ} (h0 : 0 ≤ ε) (h1 : ε ≤ 1 / 2 ^ 24) :
    (a ^ 2 * (1 + ε) - 1) * (1 + ε) * (1 + ε) ^ 2 ≤ a ^ 2 - 1 + 4.1 * (a ^ 2 * ε) := by
  have e1 := pow4_le h0 h1
  have e2 : 1 ≤ (1 + ε) ^ 3 := one_le_pow₀ (by linarith)
  have : (a ^ 2 * (1 + ε) - 1) * (1 + ε) * (1 + ε) ^ 2 = a ^ 2 * (1 + ε) ^ 4 - (1 + ε) ^ 3 := by ring
  rw [this]
  have := mul_le_mul_of_nonneg_left e1 (sq_nonneg a)
  linarith

set_option maxHeartbeats 1600000 in
/-- `acosh` on `2 ≤ |x| ≤ A`: a NaN for negative `x`, as long as `32 A⁴ ε ≤ 1` -/
theorem medium {sq lg : Flt F → Option (Flt F)} {root t : Flt F} (hq : IsSqrt sq) (hl : IsLogFn lg (zero F false) root)
    (hs : 23 ≤ F.sb) (hb : 127 ≤ F.bias) (ht : t.isFinite) (htv : t.val = 2)
    {x : Flt F} (hx : x.isFinite) {a : ℝ} (ha : x.val = -a) (h2 : 2 ≤ a)
    (hA : 32 * a ^ 4 * (2 : ℝ) ^ (-1 - (F.sb : ℤ)) ≤ 1) (hA2 : a ≤ 2 ^ 20) :
    ∃ r, (sq (x * x - one F)).bind (fun s => lg (t * x - one F / (x + s))) = some r ∧ r.isNaN := by
  have hε := pow_small hs
  have hε0 : (0 : ℝ) < 2 ^ (-1 - (F.sb : ℤ)) := zp _
  have hbs : F.sb + 1 ≤ F.bias := by have := F.sb_lt_bias; omega
  have htop := top_big hb
  have hlow : (2 : ℝ) ^ (1 - (F.bias : ℤ)) ≤ 1 / 2 ^ 100 := by
    rw [show (1 : ℝ) / 2 ^ 100 = 2 ^ (-100 : ℤ) by norm_num]
    exact zpow_le_zpow_right₀ (by norm_num) (by omega)
  generalize he : (2 : ℝ) ^ (-1 - (F.sb : ℤ)) = ε at *
  have ha2 : 4 ≤ a ^ 2 := by nlinarith
  have hau : a ^ 2 ≤ 2 ^ 40 := by nlinarith
  have hxx : x.val * x.val = a ^ 2 := by rw [ha]; ring
  have haε : a ^ 2 * ε ≤ 1 / (32 * a ^ 2) := by
    rw [le_div_iff₀ (by positivity)]; nlinarith
  have hi : 0 < 1 / a ^ 2 := by positivity
  have hi2 : a ^ 2 * (1 / a ^ 2) = 1 := by field_simp
  have hεi : ε ≤ 1 / a ^ 2 / 128 := by
    have : 1 / (32 * a ^ 2) = 1 / a ^ 2 / 32 := by field_simp
    nlinarith
  have haε' : a ^ 2 * ε ≤ 1 / a ^ 2 / 32 := by
    have : 1 / (32 * a ^ 2) = 1 / a ^ 2 / 32 := by field_simp
    linarith
  -- the square
  obtain ⟨hpf, hpe⟩ := (mul_rne hx hx).rel (by rw [hxx, abs_of_nonneg (by positivity)]; linarith)
    (by rw [hxx, abs_of_nonneg (by positivity)]; linarith)
  rw [he, hxx, abs_of_nonneg (by positivity : (0:ℝ) ≤ a ^ 2), abs_le] at hpe
  have hp1 : 3 ≤ (x * x).val := by nlinarith [hpe.1]
  have hp2 : (x * x).val ≤ a ^ 2 * (1 + ε) := by linarith [hpe.2]
  -- minus one
  obtain ⟨hmf, hme⟩ := sub_r hb hpf (y := one F) (by simp) (by
    rw [val_one, abs_of_nonneg (by linarith)]; nlinarith)
  rw [he, val_one, abs_of_nonneg (by linarith : 0 ≤ (x * x).val - 1), abs_le] at hme
  have hm0 : 0 ≤ (x * x - one F).val := by nlinarith [hme.1]
  have hm1 : (x * x - one F).val ≤ (a ^ 2 * (1 + ε) - 1) * (1 + ε) := by nlinarith [hme.2]
  -- the root
  obtain ⟨s, h3, h4, h5, h6⟩ := sqrt_le hq hb hbs hmf hm0 (by nlinarith)
  rw [he] at h6
  set w : ℝ := (1 + 3 * ε) / (2 * a) with hw
  have hw0 : 0 < w := by positivity
  have hwa : 2 * a * w = 1 + 3 * ε := by rw [hw]; field_simp
  have hw1 : w ≤ 1 / 2 := by
    rw [hw, div_le_iff₀ (by positivity)]; nlinarith
  have hw2 : w ^ 2 ≥ 1 / a ^ 2 / 4 := by
    have : w ≥ 1 / (2 * a) := by rw [hw]; gcongr; linarith
    have h7 : (1 / (2 * a)) ^ 2 = 1 / a ^ 2 / 4 := by field_simp; ring
    rw [← h7]
    exact pow_le_pow_left₀ (by positivity) this 2
  have hsw : s.val < a - w := by
    have hn0 := Real.sqrt_nonneg (x * x - one F).val
    have hsq := Real.sq_sqrt hm0
    refine lt_of_le_of_lt h6 (abs_lt_of_sq_lt_sq' ?_ (by linarith)).2
    rw [mul_pow, hsq]
    have h7 : (x * x - one F).val * (1 + ε) ^ 2 ≤ (a ^ 2 * (1 + ε) - 1) * (1 + ε) * (1 + ε) ^ 2 :=
      mul_le_mul_of_nonneg_right hm1 (by positivity)
    have h8 := medium_real (a := a) hε0.le hε
    have h9 : (a - w) ^ 2 = a ^ 2 - (1 + 3 * ε) + w ^ 2 := by rw [← hwa]; ring
    rw [h9]
    linarith
  -- the sum
  have hq0 : x.val + s.val < 0 := by rw [ha]; linarith
  obtain ⟨hdf, hde⟩ := add_r hs hb hx h4 (by rw [ha, abs_le]; constructor <;> linarith)
  rw [he, abs_of_neg hq0, ha, abs_le] at hde
  have hd1 : (x + s).val ≤ -(w * (1 - ε)) := by nlinarith [hde.2]
  have hd2 : -2 ^ 21 ≤ (x + s).val := by nlinarith [hde.1]
  have hwe : 0 < w * (1 - ε) := mul_pos hw0 (by linarith)
  have hdn : (x + s).val < 0 := by linarith
  -- its reciprocal
  have hinv : |1 / (x + s).val| ≤ 1 / (w * (1 - ε)) := by
    rw [abs_div, abs_one, abs_of_neg hdn]
    exact one_div_le_one_div_of_le hwe (by linarith)
  have hwb : 1 / (w * (1 - ε)) * (1 + ε) < 2 * a := by
    rw [div_mul_eq_mul_div, div_lt_iff₀ hwe, one_mul, ← mul_assoc, hwa]
    nlinarith
  have hinv2 : 1 / 2 ^ 21 ≤ |1 / (x + s).val| := by
    rw [abs_div, abs_one, abs_of_neg hdn]
    exact one_div_le_one_div_of_le (by linarith) (by linarith)
  have hinv3 : |1 / (x + s).val| < 2 * a := lt_of_le_of_lt hinv (by
    refine lt_of_le_of_lt (le_mul_of_one_le_right (by positivity) (by linarith)) hwb)
  have hr := div_rne (x := one F) (by simp) hdf (by rw [isZero_val]; exact hdn.ne)
  rw [val_one] at hr
  obtain ⟨hrf, hre⟩ := hr.rel (by refine hlow.trans (le_trans ?_ hinv2); norm_num) (by
    refine hinv3.le.trans (le_trans ?_ htop); nlinarith)
  rw [he] at hre
  have hrn : 1 / (x + s).val < 0 := by apply div_neg_of_pos_of_neg <;> linarith
  have hra : |(one F / (x + s)).val| < 2 * a := by
    have := abs_sub_abs_le_abs_sub (one F / (x + s)).val (1 / (x + s).val)
    nlinarith
  -- the argument of the logarithm
  rw [h3, Option.bind_some]
  obtain ⟨htf, hte⟩ := double ht htv hx hb (by rw [ha, abs_neg, abs_of_nonneg (by linarith)]; linarith)
  rw [abs_lt] at hra
  obtain ⟨hf, he'⟩ := sub_r hb htf hrf (by rw [hte, ha, abs_le]; constructor <;> linarith)
  refine hl.domain _ (lt_of_val (not_nan_of_finite hf) (not_nan_of_finite (by simp)) ?_)
  rw [val_zero]
  exact neg_of_rel (by rw [hte, ha]; linarith) (by rw [he]; exact hε) he'

/-- the rounding of a number that is at most a float is not above that float, also when it overflows -/
theorem rne_le {q : ℝ} {r s : Flt F} (h : IsRNE q r) (hs : s.isFinite) (hq : q ≤ s.val) : ¬ r.isNaN ∧ r.val ≤ s.val := by
  by_cases hr : r.isFinite
  · exact ⟨not_nan_of_finite hr, h.le_of_le hr hs hq⟩
  · unfold IsRNE at h
    split_ifs at h with hc
    · refine ⟨not_nan_of_inf h.1, ?_⟩
      have hlt := lt_overflow hs
      have h2 : |s.val| < ((overflowThreshold F : ℚ) : ℝ) := by
        rw [show s.val = ((s.toRat : ℚ) : ℝ) from rfl, ← Rat.cast_abs]; exact_mod_cast hlt
      have hq0 : q < 0 := by
        by_contra h0
        rw [abs_of_nonneg (not_lt.1 h0)] at hc
        have := le_abs_self s.val
        linarith
      have hsg := h.2.2 hq0
      rw [val_le_iff, sval_of_neg hsg, mag_of_inf h.1]
      have := mag_lt_inf hs
      cases hss : s.sign
      · rw [sval_of_nonneg hss]; have := Nat.zero_le s.mag; omega
      · rw [sval_of_neg hss]; omega
    · exact absurd h.1 hr

/-- the rounding of a number no larger than a float is finite -/
theorem rne_fin {q : ℝ} {r s : Flt F} (h : IsRNE q r) (hs : s.isFinite) (hq : |q| ≤ |s.val|) : r.isFinite := by
  unfold IsRNE at h
  split_ifs at h with hc
  · exfalso
    have hlt := lt_overflow hs
    have h2 : |s.val| < ((overflowThreshold F : ℚ) : ℝ) := by
      rw [show s.val = ((s.toRat : ℚ) : ℝ) from rfl, ← Rat.cast_abs]; exact_mod_cast hlt
    linarith
  · exact h.1

/-- `atanh` above one: a NaN -/
theorem above {lg : Flt F → Option (Flt F)} {root t : Flt F} (hl : IsLogFn lg (-one F) root)
    (hs : 23 ≤ F.sb) (hb : 127 ≤ F.bias) (ht : t.isFinite) (htv : t.val = 2) {y : Flt F} (hy : y.isFinite) (h1 : 1 < y.val) :
    ∃ r, lg (t * (y / (one F - y))) = some r ∧ r.isNaN := by
  have hε := pow_small hs
  have hc := sub_rne (x := one F) (by simp) hy
  rw [val_one] at hc
  have hcf : (one F - y).isFinite := rne_fin hc hy (by rw [abs_of_neg (by linarith), abs_of_pos (by linarith)]; linarith)
  have hcl : -y.val ≤ (one F - y).val := by
    have := hc.ge_of_ge hcf (s := -y) (by simpa using hy) (by rw [val_neg]; linarith)
    rwa [val_neg] at this
  have hcn : (one F - y).val < 0 := by
    by_cases h : y.val ≤ 2 ^ 90
    · obtain ⟨-, he⟩ := sub_r hb (x := one F) (by simp) hy (by rw [val_one, abs_of_neg (by linarith)]; linarith)
      rw [val_one] at he
      exact neg_of_rel (by linarith) hε he
    · have := hc.le_of_le hcf (s := -one F) (by simp) (by rw [val_neg, val_one]; linarith)
      rw [val_neg, val_one] at this
      linarith
  have hv := div_rne hy hcf (by rw [isZero_val]; exact hcn.ne)
  have hq : y.val / (one F - y).val ≤ -1 := by
    rw [div_le_iff_of_neg hcn]; linarith
  obtain ⟨hvn, hvl⟩ := rne_le hv (s := -one F) (by simp) (by rw [val_neg, val_one]; exact hq)
  rw [val_neg, val_one] at hvl
  apply hl.domain
  by_cases hvf : (y / (one F - y)).isFinite
  · have hm := mul_rne ht hvf
    rw [htv] at hm
    obtain ⟨h2, h3⟩ := rne_le hm (s := -t) (by simpa using ht) (by rw [val_neg, htv]; linarith)
    rw [val_neg, htv] at h3
    exact lt_of_val h2 (not_nan_of_finite (by simp)) (by rw [val_neg, val_one]; linarith)
  · have hvi : (y / (one F - y)).isInf := by
      rcases class_cases (y / (one F - y)) with h | h | h
      · exact absurd h hvn
      · exact h
      · exact absurd h hvf
    have hsg : (y / (one F - y)).sign = true := by
      cases hs : (y / (one F - y)).sign
      · have := val_nonneg hs; linarith
      · rfl
    have hts : t.sign = false := sign_of_pos (by linarith)
    rw [mul_comm', inf_mul hvi (not_nan_of_finite ht) (by rw [isZero_val, htv]; norm_num), hsg, hts]
    refine lt_iff.2 ⟨not_nan_of_inf (by simp), not_nan_of_finite (by simp), ?_⟩
    have h4 : (inf F (true ^^ false)).isInf := by simp
    rw [sval_of_neg (by simp), mag_of_inf h4]
    have h5 := mag_lt_inf (x := -one F) (by simp)
    rw [sval_of_neg (by simp)]
    omega

end AcoshDom
end Verif
