import Mathlib.Data.Real.Basic
import Mathlib.Algebra.Order.Archimedean.Basic
import Mathlib.Algebra.Order.Round
import Mathlib.Algebra.Order.Archimedean.Real.Basic
import Verif.Theory.RNE
import Verif.Theory.FmaWide
import Verif.Theory.Fma3

/-!
# Real-number error analysis

`x.val` is the real value of a datum.  The lemmas bound the rounding error of each machine operation, in absolute and
relative form, so that the accuracy of straight-line floating-point code can be derived by real arithmetic.
-/

namespace Verif
namespace Flt
variable {F : Fmt}

/-- the real value of a finite datum -/
noncomputable def val (x : Flt F) : ℝ := (x.toRat : ℝ)

@[simp] theorem val_zero (s : Bool) : (zero F s).val = 0 := by simp [val]
@[simp] theorem val_one : (one F).val = 1 := by simp [val]
@[simp] theorem val_neg (x : Flt F) : (-x).val = -x.val := by simp [val]

theorem val_eq (x : Flt F) : x.val = (x.sval : ℝ) * ((F.ulp : ℚ) : ℝ) := by
  unfold val; rw [toRat_eq]; push_cast; rfl

theorem ulp_real (F : Fmt) : ((F.ulp : ℚ) : ℝ) = (2 : ℝ) ^ (1 - (F.bias : ℤ) - F.sb) := by
  have := F.sb_lt_bias
  rw [ulp_zpow]; push_cast; congr 1; omega

theorem val_abs (x : Flt F) : |x.val| = (x.mag : ℝ) * ((F.ulp : ℚ) : ℝ) := by
  have := toRat_abs x
  unfold val; rw [← Rat.cast_abs, this]; push_cast; rfl

theorem zp (k : ℤ) : (0 : ℝ) < 2 ^ k := zpow_pos (by norm_num) k

/-- rounding over the rationals is rounding over the reals -/
theorem isRNE_real {q : ℚ} {r : Flt F} (h : IsRNE q r) : IsRNE (q : ℝ) r := by
  unfold IsRNE at *
  have e : (((overflowThreshold F : ℚ) : ℝ) ≤ |(q : ℝ)|) ↔ ((overflowThreshold F : ℚ) ≤ |q|) := by
    rw [← Rat.cast_abs]; exact Rat.cast_le
  by_cases hc : (overflowThreshold F : ℚ) ≤ |q|
  · rw [if_pos (by exact_mod_cast hc)] at h
    rw [if_pos (e.2 hc)]
    refine ⟨h.1, h.2.trans ?_⟩
    norm_cast
  · rw [if_neg (by exact_mod_cast hc)] at h
    rw [if_neg (fun a => hc (e.1 a))]
    obtain ⟨h1, h2, h3, h4⟩ := h
    refine ⟨h1, fun s hs => ?_, fun s hs hd hne => h3 s hs ?_ hne, fun h0 => ?_⟩
    · have := h2 s hs
      simp only [Rat.cast_id] at this
      exact_mod_cast this
    · simp only [Rat.cast_id]
      exact_mod_cast hd
    · have := h4 (by exact_mod_cast h0)
      rw [this]; norm_cast

/-- a datum at any multiple of a power of two with a short enough coefficient -/
theorem exists_val {n k : ℤ} (hn : |n| ≤ 2 ^ (F.sb + 1)) (hk : 1 - (F.bias : ℤ) - F.sb ≤ k)
    (hb : |(n : ℝ)| * 2 ^ k < 2 ^ ((F.bias : ℤ) + 1)) : ∃ c : Flt F, c.isFinite ∧ c.val = n * 2 ^ k := by
  obtain ⟨j, hj⟩ : ∃ j : ℕ, k = j + (1 - (F.bias : ℤ) - F.sb) := ⟨(k - (1 - (F.bias : ℤ) - F.sb)).toNat, by omega⟩
  have hr := rep_mul_pow F.sb n.natAbs j (by
    have : (n.natAbs : ℤ) ≤ 2 ^ (F.sb + 1) := by rw [Int.natCast_natAbs]; exact hn
    exact_mod_cast this)
  have hv : (2 : ℝ) ^ k = 2 ^ j * ((F.ulp : ℚ) : ℝ) := by
    rw [ulp_real, hj, zpow_add₀ (by norm_num)]; norm_num
  have hu : (0 : ℝ) < ((F.ulp : ℚ) : ℝ) := by exact_mod_cast F.ulp_pos
  have hmax : n.natAbs * 2 ^ j < 2 ^ (2 * F.bias + F.sb) := by
    have h1 : (2 : ℝ) ^ ((F.bias : ℤ) + 1) = 2 ^ (2 * F.bias + F.sb) * ((F.ulp : ℚ) : ℝ) := by
      rw [ulp_real, ← zpow_natCast, ← zpow_add₀ (by norm_num)]; congr 1; push_cast; ring
    rw [h1, hv, ← mul_assoc, mul_lt_mul_iff_left₀ hu] at hb
    have : ((n.natAbs : ℕ) : ℝ) = |(n : ℝ)| := by rw [Nat.cast_natAbs, Int.cast_abs]
    rw [← this] at hb
    exact_mod_cast hb
  obtain ⟨c, hc, hs, hm⟩ := exists_datum hr hmax (decide (n < 0))
  refine ⟨c, hc, ?_⟩
  have : c.sval = n * 2 ^ j := by
    unfold sval
    rw [hm, hs]
    by_cases h : n < 0
    · simp only [h, decide_true, if_true]; push_cast; rw [abs_of_neg h]; ring
    · simp only [h, decide_false]; push_cast; rw [abs_of_nonneg (by omega)]
  rw [val_eq, this, hv]; push_cast; ring

theorem overflow_ge (F : Fmt) : (2 : ℝ) ^ (F.bias : ℤ) < ((overflowThreshold F : ℚ) : ℝ) := by
  obtain ⟨c, hc, hv⟩ := exists_val (F := F) (n := 1) (k := (F.bias : ℤ)) (by simpa using one_le_pow₀ (by norm_num : (1:ℤ) ≤ 2))
    (by have := F.sb_lt_bias; omega) (by rw [Int.cast_one, abs_one, one_mul]; exact zpow_lt_zpow_right₀ (by norm_num) (by omega))
  have := lt_overflow hc
  have h2 : |c.val| < ((overflowThreshold F : ℚ) : ℝ) := by
    unfold val; rw [← Rat.cast_abs]; exact_mod_cast this
  rw [hv, Int.cast_one, one_mul, abs_of_pos (zp _)] at h2
  exact h2

theorem overflow_ge' (F : Fmt) : 3 / 2 * (2 : ℝ) ^ (F.bias : ℤ) < ((overflowThreshold F : ℚ) : ℝ) := by
  obtain ⟨c, hc, hv⟩ := exists_val (F := F) (n := 3) (k := (F.bias : ℤ) - 1) (by
    have : (2:ℤ) ^ 2 ≤ 2 ^ (F.sb + 1) := pow_le_pow_right₀ (by norm_num) (by have := F.hsb; omega)
    norm_num at this ⊢; omega)
    (by have := F.sb_lt_bias; omega) (by
      rw [show (F.bias : ℤ) + 1 = 2 + (F.bias - 1) by ring, zpow_add₀ (by norm_num)]
      have := zp ((F.bias : ℤ) - 1)
      norm_num; linarith)
  have := lt_overflow hc
  have h2 : |c.val| < ((overflowThreshold F : ℚ) : ℝ) := by
    unfold val; rw [← Rat.cast_abs]; exact_mod_cast this
  have h3 := zp ((F.bias : ℤ) - 1)
  rw [hv, abs_of_pos (by positivity)] at h2
  refine lt_of_le_of_lt (le_of_eq ?_) h2
  rw [zpow_sub₀ (by norm_num)]; push_cast; ring

/-- no overflow below `1.5 * 2 ^ emax` -/
theorem _root_.Verif.IsRNE.finite {q : ℝ} {r : Flt F} (h : IsRNE q r) (hq : |q| ≤ 3 / 2 * 2 ^ (F.bias : ℤ)) :
    r.isFinite ∧ (∀ s : Flt F, s.isFinite → |r.val - q| ≤ |s.val - q|) ∧ (q ≠ 0 → (r.sign = true ↔ q < 0)) := by
  unfold IsRNE at h
  rw [if_neg (by have := overflow_ge' F; linarith)] at h
  exact ⟨h.1, h.2.1, h.2.2.2⟩

/-- absolute error: half a unit in the last place of the binade below `2 ^ k` -/
theorem _root_.Verif.IsRNE.err {q : ℝ} {r : Flt F} (h : IsRNE q r) (k : ℤ) (hq : |q| ≤ 2 ^ k) (h1 : 2 - (F.bias : ℤ) ≤ k)
    (h2 : k ≤ F.bias) : r.isFinite ∧ |r.val - q| ≤ 2 ^ (k - 2 - F.sb) := by
  have hb : |q| ≤ 2 ^ (F.bias : ℤ) := hq.trans (zpow_le_zpow_right₀ (by norm_num) h2)
  obtain ⟨hf, hn, -⟩ := h.finite (by have := zp (F.bias : ℤ); linarith)
  refine ⟨hf, ?_⟩
  set e : ℤ := k - 1 - F.sb with he
  set n : ℤ := round (q / 2 ^ e) with hnd
  have hz : (0 : ℝ) < 2 ^ e := zp e
  have hr := abs_sub_round (q / 2 ^ e)
  rw [← hnd] at hr
  have hsb : (2 : ℝ) ^ k = 2 ^ (F.sb + 1) * 2 ^ e := by
    rw [he, ← zpow_natCast, ← zpow_add₀ (by norm_num)]; congr 1; push_cast; ring
  have hq2 : |q / 2 ^ e| ≤ 2 ^ (F.sb + 1) := by
    rw [abs_div, abs_of_pos hz, div_le_iff₀ hz, ← hsb]; exact hq
  have hnn : |n| ≤ 2 ^ (F.sb + 1) := by
    have h3 : (|n| : ℤ) < 2 ^ (F.sb + 1) + 1 := by
      have : |(n : ℝ)| < 2 ^ (F.sb + 1) + 1 := by
        have := abs_sub_abs_le_abs_sub (n : ℝ) (q / 2 ^ e)
        rw [abs_sub_comm] at this
        linarith
      exact_mod_cast this
    omega
  obtain ⟨c, hc, hv⟩ := exists_val (F := F) (n := n) (k := e) hnn (by omega) (by
    have : |(n : ℝ)| ≤ 2 ^ (F.sb + 1) := by exact_mod_cast hnn
    calc |(n : ℝ)| * 2 ^ e ≤ 2 ^ (F.sb + 1) * 2 ^ e := by gcongr
      _ = 2 ^ k := hsb.symm
      _ < _ := zpow_lt_zpow_right₀ (by norm_num) (by omega))
  refine (hn c hc).trans ?_
  have : |c.val - q| = |q / 2 ^ e - n| * 2 ^ e := by
    rw [hv, abs_sub_comm]
    nth_rw 3 [← abs_of_pos hz]
    rw [← abs_mul, sub_mul, div_mul_cancel₀ _ hz.ne']
  rw [this]
  calc |q / 2 ^ e - n| * 2 ^ e ≤ 1 / 2 * 2 ^ e := by gcongr
    _ = 2 ^ (k - 2 - F.sb) := by
      rw [he, show k - 2 - (F.sb : ℤ) = -1 + (k - 1 - F.sb) by ring, zpow_add₀ (by norm_num)]; norm_num

/-- absolute error in the top binade -/
theorem _root_.Verif.IsRNE.err_top {q : ℝ} {r : Flt F} (h : IsRNE q r) (hq : |q| ≤ 3 / 2 * 2 ^ (F.bias : ℤ)) :
    r.isFinite ∧ |r.val - q| ≤ 2 ^ ((F.bias : ℤ) - 1 - F.sb) := by
  obtain ⟨hf, hn, -⟩ := h.finite hq
  refine ⟨hf, ?_⟩
  set e : ℤ := F.bias - F.sb with he
  set n : ℤ := round (q / 2 ^ e) with hnd
  have hz : (0 : ℝ) < 2 ^ e := zp e
  have hr := abs_sub_round (q / 2 ^ e)
  rw [← hnd] at hr
  have hsb : (2 : ℝ) ^ (F.bias : ℤ) = 2 ^ F.sb * 2 ^ e := by
    rw [he, ← zpow_natCast, ← zpow_add₀ (by norm_num)]; congr 1; ring
  have hq2 : |q / 2 ^ e| ≤ 3 / 2 * 2 ^ F.sb := by
    rw [abs_div, abs_of_pos hz, div_le_iff₀ hz, mul_assoc, ← hsb]; exact hq
  have h1024 : (1024 : ℝ) ≤ 2 ^ F.sb := by exact_mod_cast F.sb_pow_ge
  have hnn : |(n : ℝ)| < 2 ^ (F.sb + 1) - 1 := by
    have := abs_sub_abs_le_abs_sub (n : ℝ) (q / 2 ^ e)
    rw [abs_sub_comm] at this
    rw [pow_succ]
    linarith
  obtain ⟨c, hc, hv⟩ := exists_val (F := F) (n := n) (k := e) (by
      have : |(n : ℝ)| ≤ 2 ^ (F.sb + 1) := by linarith
      exact_mod_cast this) (by have := F.sb_lt_bias; omega) (by
    calc |(n : ℝ)| * 2 ^ e < 2 ^ (F.sb + 1) * 2 ^ e := by
          apply mul_lt_mul_of_pos_right _ hz; linarith
      _ = 2 ^ ((F.bias : ℤ) + 1) := by rw [zpow_add₀ (by norm_num), hsb, pow_succ]; ring)
  refine (hn c hc).trans ?_
  have : |c.val - q| = |q / 2 ^ e - n| * 2 ^ e := by
    rw [hv, abs_sub_comm]
    nth_rw 3 [← abs_of_pos hz]
    rw [← abs_mul, sub_mul, div_mul_cancel₀ _ hz.ne']
  rw [this]
  calc |q / 2 ^ e - n| * 2 ^ e ≤ 1 / 2 * 2 ^ e := by gcongr
    _ = 2 ^ ((F.bias : ℤ) - 1 - F.sb) := by
      rw [he, show (F.bias : ℤ) - 1 - (F.sb : ℤ) = -1 + (F.bias - F.sb) by ring, zpow_add₀ (by norm_num)]; norm_num

/-- relative error in the normal range -/
theorem _root_.Verif.IsRNE.rel {q : ℝ} {r : Flt F} (h : IsRNE q r) (h1 : 2 ^ (1 - (F.bias : ℤ)) ≤ |q|)
    (h2 : |q| ≤ 3 / 2 * 2 ^ (F.bias : ℤ)) : r.isFinite ∧ |r.val - q| ≤ |q| * 2 ^ (-1 - (F.sb : ℤ)) := by
  have hpos : 0 < |q| := (zp _).trans_le h1
  have hb0 := zp (F.bias : ℤ)
  obtain ⟨k, k1, k2⟩ := exists_mem_Ico_zpow (y := (2 : ℝ)) hpos (by norm_num)
  have hk1 : 1 - (F.bias : ℤ) ≤ k := by
    by_contra hc
    have : (2 : ℝ) ^ (k + 1) ≤ 2 ^ (1 - (F.bias : ℤ)) := zpow_le_zpow_right₀ (by norm_num) (by omega)
    linarith
  have hk2 : k ≤ F.bias := by
    by_contra hc
    have : (2 : ℝ) ^ ((F.bias : ℤ) + 1) ≤ 2 ^ k := zpow_le_zpow_right₀ (by norm_num) (by omega)
    rw [zpow_add₀ (by norm_num), zpow_one] at this
    linarith
  have key : r.isFinite ∧ |r.val - q| ≤ 2 ^ (k + 1 - 2 - (F.sb : ℤ)) := by
    rcases hk2.lt_or_eq with hk | hk
    · exact h.err (k + 1) k2.le (by omega) hk
    · have := h.err_top h2
      rw [hk]
      rwa [show (F.bias : ℤ) + 1 - 2 - F.sb = F.bias - 1 - F.sb by ring]
  refine ⟨key.1, key.2.trans ?_⟩
  have : (2 : ℝ) ^ (k + 1 - 2 - (F.sb : ℤ)) = 2 ^ k * 2 ^ (-1 - (F.sb : ℤ)) := by
    rw [← zpow_add₀ (by norm_num)]; congr 1; ring
  rw [this]
  exact mul_le_mul_of_nonneg_right k1 (zp _).le

/-- rounding is monotone with respect to data -/
theorem _root_.Verif.IsRNE.le_of_le {q : ℝ} {r s : Flt F} (h : IsRNE q r) (hr : r.isFinite) (hs : s.isFinite) (hq : q ≤ s.val) :
    r.val ≤ s.val := by
  by_contra hc
  push Not at hc
  unfold IsRNE at h
  split at h
  · exact not_finite_of_inf h.1 hr
  · have := h.2.1 s hs
    change |r.val - q| ≤ |s.val - q| at this
    rw [abs_of_nonneg (by linarith), abs_of_nonneg (by linarith)] at this
    linarith

theorem _root_.Verif.IsRNE.ge_of_ge {q : ℝ} {r s : Flt F} (h : IsRNE q r) (hr : r.isFinite) (hs : s.isFinite) (hq : s.val ≤ q) :
    s.val ≤ r.val := by
  by_contra hc
  push Not at hc
  unfold IsRNE at h
  split at h
  · exact not_finite_of_inf h.1 hr
  · have := h.2.1 s hs
    change |r.val - q| ≤ |s.val - q| at this
    rw [abs_of_nonpos (by linarith), abs_of_nonpos (by linarith)] at this
    linarith

/-- a number that is itself a datum is not rounded -/
theorem _root_.Verif.IsRNE.exact_real {q : ℝ} {r z : Flt F} (h : IsRNE q r) (hz : z.isFinite) (hq : z.val = q) :
    r.isFinite ∧ r.val = q := by
  have h0 : ¬ ((overflowThreshold F : ℚ) : ℝ) ≤ |q| := by
    have := lt_overflow hz
    have h2 : |z.val| < ((overflowThreshold F : ℚ) : ℝ) := by
      unfold val; rw [← Rat.cast_abs]; exact_mod_cast this
    rw [hq] at h2; linarith
  unfold IsRNE at h
  rw [if_neg h0] at h
  refine ⟨h.1, ?_⟩
  have := h.2.1 z hz
  change |r.val - q| ≤ |z.val - q| at this
  rw [hq, sub_self, abs_zero] at this
  have := abs_nonpos_iff.1 this
  linarith

/-! ### the operations -/

theorem add_rne {x y : Flt F} (hx : x.isFinite) (hy : y.isFinite) : IsRNE (x.val + y.val) (x + y) := by
  have := isRNE_real (add_isRNE hx hy); push_cast at this; exact this
theorem sub_rne {x y : Flt F} (hx : x.isFinite) (hy : y.isFinite) : IsRNE (x.val - y.val) (x - y) := by
  have := isRNE_real (sub_isRNE hx hy); push_cast at this; exact this
theorem mul_rne {x y : Flt F} (hx : x.isFinite) (hy : y.isFinite) : IsRNE (x.val * y.val) (x * y) := by
  have := isRNE_real (mul_isRNE hx hy); push_cast at this; exact this
theorem div_rne {x y : Flt F} (hx : x.isFinite) (hy : y.isFinite) (h0 : ¬ y.isZero) :
    IsRNE (x.val / y.val) (x / y) := by
  have := isRNE_real (div_isRNE hx hy h0); push_cast at this; exact this
theorem cast_rne {G : Fmt} {x : Flt F} (hx : x.isFinite) : IsRNE x.val (x.cast G) := isRNE_real (cast_isRNE hx)
theorem ofInt_rne (n : ℤ) : IsRNE (n : ℝ) (ofInt F n) := by
  have := isRNE_real (ofInt_isRNE (F := F) n); push_cast at this; exact this

/-- sums of data are multiples of the least subnormal, so tiny sums are exact -/
theorem add_err {x y : Flt F} (hx : x.isFinite) (hy : y.isFinite) (k : ℤ) (h : |x.val + y.val| ≤ 2 ^ k) (hk : k ≤ F.bias) :
    (x + y).isFinite ∧ |(x + y).val - (x.val + y.val)| ≤ 2 ^ (k - 2 - F.sb) := by
  by_cases h1 : 2 - (F.bias : ℤ) ≤ k
  · exact (add_rne hx hy).err k h h1 hk
  · have hb := F.sb_lt_bias
    obtain ⟨c, hc, hv⟩ := exists_val (F := F) (n := x.sval + y.sval) (k := 1 - (F.bias : ℤ) - F.sb) (by
      have e : x.val + y.val = ((x.sval + y.sval : ℤ) : ℝ) * 2 ^ (1 - (F.bias : ℤ) - F.sb) := by
        rw [val_eq, val_eq, ulp_real]; push_cast; ring
      rw [e, abs_mul, abs_of_pos (zp _)] at h
      have h3 : |((x.sval + y.sval : ℤ) : ℝ)| * 2 ^ (1 - (F.bias : ℤ) - F.sb) ≤ 2 ^ (F.sb + 1) * 2 ^ (1 - (F.bias : ℤ) - F.sb) := by
        refine h.trans ?_
        rw [← zpow_natCast, ← zpow_add₀ (by norm_num)]
        exact zpow_le_zpow_right₀ (by norm_num) (by push_cast; omega)
      have := le_of_mul_le_mul_right h3 (zp _)
      exact_mod_cast this) le_rfl (by
      have e : x.val + y.val = ((x.sval + y.sval : ℤ) : ℝ) * 2 ^ (1 - (F.bias : ℤ) - F.sb) := by
        rw [val_eq, val_eq, ulp_real]; push_cast; ring
      rw [e, abs_mul, abs_of_pos (zp _)] at h
      exact h.trans_lt (zpow_lt_zpow_right₀ (by norm_num) (by omega)))
    have e : c.val = x.val + y.val := by
      rw [hv, val_eq, val_eq, ulp_real]; push_cast; ring
    obtain ⟨a, b⟩ := (add_rne hx hy).exact_real hc e
    refine ⟨a, ?_⟩
    rw [b, sub_self, abs_zero]; exact (zp _).le

theorem add_rel {x y : Flt F} (hx : x.isFinite) (hy : y.isFinite) (h : |x.val + y.val| ≤ 3 / 2 * 2 ^ (F.bias : ℤ)) :
    (x + y).isFinite ∧ |(x + y).val - (x.val + y.val)| ≤ |x.val + y.val| * 2 ^ (-1 - (F.sb : ℤ)) := by
  rcases eq_or_ne (x.val + y.val) 0 with h0 | h0
  · obtain ⟨a, b⟩ := (add_rne hx hy).exact_real (z := zero F false) (isFinite_zero _) (by rw [val_zero, h0])
    refine ⟨a, ?_⟩
    rw [b, h0]; simp
  by_cases hn : 2 ^ (1 - (F.bias : ℤ)) ≤ |x.val + y.val|
  · exact (add_rne hx hy).rel hn h
  · push Not at hn
    have hpos : 0 < |x.val + y.val| := abs_pos.2 h0
    obtain ⟨k, k1, k2⟩ := exists_mem_Ico_zpow (y := (2 : ℝ)) hpos (by norm_num)
    have hk2 : k < 1 - F.bias := by
      by_contra hc
      have : (2 : ℝ) ^ (1 - (F.bias : ℤ)) ≤ 2 ^ k := zpow_le_zpow_right₀ (by norm_num) (by omega)
      linarith
    obtain ⟨a, b⟩ := add_err hx hy (k + 1) k2.le (by have := F.sb_lt_bias; omega)
    refine ⟨a, b.trans ?_⟩
    have : (2 : ℝ) ^ (k + 1 - 2 - (F.sb : ℤ)) = 2 ^ k * 2 ^ (-1 - (F.sb : ℤ)) := by
      rw [← zpow_add₀ (by norm_num)]; congr 1; ring
    rw [this]
    exact mul_le_mul_of_nonneg_right k1 (zp _).le

theorem sub_err {x y : Flt F} (hx : x.isFinite) (hy : y.isFinite) (k : ℤ) (h : |x.val - y.val| ≤ 2 ^ k) (hk : k ≤ F.bias) :
    (x - y).isFinite ∧ |(x - y).val - (x.val - y.val)| ≤ 2 ^ (k - 2 - F.sb) := by
  have := add_err hx (y := -y) ((isFinite_neg _).2 hy) k (by rw [val_neg]; exact h) hk
  rw [val_neg] at this
  rw [sub_eq_add_neg' x y]
  simpa [sub_eq_add_neg] using this

theorem sub_rel {x y : Flt F} (hx : x.isFinite) (hy : y.isFinite) (h : |x.val - y.val| ≤ 3 / 2 * 2 ^ (F.bias : ℤ)) :
    (x - y).isFinite ∧ |(x - y).val - (x.val - y.val)| ≤ |x.val - y.val| * 2 ^ (-1 - (F.sb : ℤ)) := by
  have := add_rel hx (y := -y) ((isFinite_neg _).2 hy) (by rw [val_neg]; exact h)
  rw [val_neg] at this
  rw [sub_eq_add_neg' x y]
  simpa [sub_eq_add_neg] using this

theorem mul_err {x y : Flt F} (hx : x.isFinite) (hy : y.isFinite) (k : ℤ) (h : |x.val * y.val| ≤ 2 ^ k)
    (h1 : 2 - (F.bias : ℤ) ≤ k) (hk : k ≤ F.bias) :
    (x * y).isFinite ∧ |(x * y).val - x.val * y.val| ≤ 2 ^ (k - 2 - F.sb) := (mul_rne hx hy).err k h h1 hk

theorem div_err {x y : Flt F} (hx : x.isFinite) (hy : y.isFinite) (h0 : ¬ y.isZero) (k : ℤ) (h : |x.val / y.val| ≤ 2 ^ k)
    (h1 : 2 - (F.bias : ℤ) ≤ k) (hk : k ≤ F.bias) :
    (x / y).isFinite ∧ |(x / y).val - x.val / y.val| ≤ 2 ^ (k - 2 - F.sb) := (div_rne hx hy h0).err k h h1 hk

theorem isZero_val {x : Flt F} : x.isZero ↔ x.val = 0 := by
  unfold val; rw [← toRat_eq_zero]; norm_cast

/-- a constant, from its exact integer value in units of the least subnormal -/
theorem val_const {x : Flt F} (m : ℤ) (k : ℕ) (e : ℤ) (h : x.sval = m * 2 ^ k) (he : (k : ℤ) + (1 - F.bias - F.sb) = e) :
    x.val = m * (2 : ℝ) ^ e := by
  unfold val; rw [toRat_val m k e h he]; push_cast; rfl


theorem val_le_iff {x y : Flt F} : x.val ≤ y.val ↔ x.sval ≤ y.sval := by
  unfold val; rw [Rat.cast_le, toRat_le]
theorem val_lt_iff {x y : Flt F} : x.val < y.val ↔ x.sval < y.sval := by
  unfold val; rw [Rat.cast_lt, toRat_lt]

end Flt
end Verif

namespace Verif
namespace Flt
variable {F : Fmt}

/-- a datum of absolute value at least `2 ^ k` is a multiple of `2 ^ (k - sb)` -/
theorem grid (x : Flt F) (k : ℤ) (h : 2 ^ k ≤ |x.val|) : ∃ n : ℤ, x.val = n * 2 ^ (k - F.sb) := by
  by_cases hk : 0 ≤ k - 1 + F.bias
  · obtain ⟨j, hj⟩ := Int.eq_ofNat_of_zero_le hk
    have h1 : 2 ^ (j + F.sb) ≤ magOf F.sb x.mb := by
      have e : (2 : ℝ) ^ k = (2 ^ (j + F.sb) : ℕ) * ((F.ulp : ℚ) : ℝ) := by
        rw [ulp_real]; push_cast; rw [← zpow_natCast, ← zpow_add₀ (by norm_num)]; congr 1; push_cast; omega
      rw [val_abs, e] at h
      have := le_of_mul_le_mul_right h (by exact_mod_cast F.ulp_pos)
      exact_mod_cast this
    obtain ⟨c, hc⟩ := dvd_magOf F.sb x.mb j h1
    have e : (2 : ℝ) ^ (k - F.sb) = (2 ^ j : ℕ) * ((F.ulp : ℚ) : ℝ) := by
      rw [ulp_real]; push_cast; rw [← zpow_natCast, ← zpow_add₀ (by norm_num)]; congr 1; omega
    refine ⟨if x.sign then -c else c, ?_⟩
    rw [val_eq, e]
    have : x.sval = (if x.sign then -(c : ℤ) else c) * (2 ^ j : ℕ) := by
      unfold sval mag
      rw [hc]
      split <;> push_cast <;> ring
    rw [this]; push_cast; ring
  · obtain ⟨j, hj⟩ : ∃ j : ℕ, -(k - 1 + F.bias) = j := Int.eq_ofNat_of_zero_le (by omega)
    refine ⟨x.sval * 2 ^ j, ?_⟩
    rw [val_eq, ulp_real]
    push_cast
    rw [mul_assoc, ← zpow_natCast, ← zpow_add₀ (by norm_num)]
    congr 2; omega

/-- normal form: a normal datum is `n * 2 ^ e` with a full-length `n` -/
theorem norm_form {x : Flt F} (h : 2 ^ (1 - (F.bias : ℤ)) ≤ |x.val|) (hx : x.isFinite) :
    ∃ n e : ℤ, x.val = n * 2 ^ e ∧ 2 ^ F.sb ≤ |n| ∧ |n| < 2 ^ (F.sb + 1) ∧ (1 : ℤ) - F.bias - F.sb ≤ e ∧
      e ≤ F.bias - F.sb := by
  have hpos : 0 < |x.val| := (zp _).trans_le h
  obtain ⟨k, k1, k2⟩ := exists_mem_Ico_zpow (y := (2 : ℝ)) hpos (by norm_num)
  have hk1 : 1 - (F.bias : ℤ) ≤ k := by
    by_contra hc
    have : (2 : ℝ) ^ (k + 1) ≤ 2 ^ (1 - (F.bias : ℤ)) := zpow_le_zpow_right₀ (by norm_num) (by omega)
    linarith
  have hk2 : k ≤ F.bias := by
    by_contra hc
    have h1 : (2 : ℝ) ^ ((F.bias : ℤ) + 1) ≤ 2 ^ k := zpow_le_zpow_right₀ (by norm_num) (by omega)
    have h2 := mag_lt_inf hx
    have h3 : |x.val| < 2 ^ ((F.bias : ℤ) + 1) := by
      rw [val_abs]
      have e : (2 : ℝ) ^ ((F.bias : ℤ) + 1) = (2 ^ (2 * F.bias + F.sb) : ℕ) * ((F.ulp : ℚ) : ℝ) := by
        rw [ulp_real]; push_cast; rw [← zpow_natCast, ← zpow_add₀ (by norm_num)]; congr 1; push_cast; ring
      rw [e]
      have : (0 : ℝ) < ((F.ulp : ℚ) : ℝ) := by exact_mod_cast F.ulp_pos
      gcongr
    linarith
  obtain ⟨n, hn⟩ := grid x k k1
  have hz : (0 : ℝ) < 2 ^ (k - F.sb) := zp _
  rw [hn, abs_mul, abs_of_pos hz] at k1 k2
  refine ⟨n, k - F.sb, hn, ?_, ?_, by omega, by omega⟩
  · have e : (2 : ℝ) ^ k = 2 ^ F.sb * 2 ^ (k - F.sb) := by
      rw [← zpow_natCast, ← zpow_add₀ (by norm_num)]; congr 1; omega
    rw [e] at k1
    have := le_of_mul_le_mul_right k1 hz
    exact_mod_cast this
  · have e : (2 : ℝ) ^ (k + 1) = 2 ^ (F.sb + 1) * 2 ^ (k - F.sb) := by
      rw [← zpow_natCast, ← zpow_add₀ (by norm_num)]; congr 1; push_cast; omega
    rw [e] at k2
    have := lt_of_mul_lt_mul_right k2 hz.le
    exact_mod_cast this

theorem val_lt_top {x : Flt F} (hx : x.isFinite) : |x.val| < 2 ^ ((F.bias : ℤ) + 1) := by
  have h2 := mag_lt_inf hx
  rw [val_abs]
  have e : (2 : ℝ) ^ ((F.bias : ℤ) + 1) = (2 ^ (2 * F.bias + F.sb) : ℕ) * ((F.ulp : ℚ) : ℝ) := by
    rw [ulp_real]; push_cast; rw [← zpow_natCast, ← zpow_add₀ (by norm_num)]; congr 1; push_cast; ring
  rw [e]
  have : (0 : ℝ) < ((F.ulp : ℚ) : ℝ) := by exact_mod_cast F.ulp_pos
  gcongr

/-- multiplying a datum by a power of two is exact unless it underflows -/
theorem scale_exact {x : Flt F} (k : ℤ) (h1 : 2 ^ (1 - (F.bias : ℤ)) ≤ |x.val * 2 ^ k|)
    (h2 : |x.val * 2 ^ k| < 2 ^ ((F.bias : ℤ) + 1)) : ∃ c : Flt F, c.isFinite ∧ c.val = x.val * 2 ^ k := by
  have hz : (0 : ℝ) < 2 ^ k := zp _
  have hpos : 0 < |x.val| := by
    by_contra hc
    have : x.val = 0 := abs_nonpos_iff.1 (not_lt.1 hc)
    rw [this, zero_mul, abs_zero] at h1
    exact absurd h1 (not_le.2 (zp _))
  obtain ⟨j, j1, j2⟩ := exists_mem_Ico_zpow (y := (2 : ℝ)) hpos (by norm_num)
  obtain ⟨n, hn⟩ := grid x j j1
  have hzj : (0 : ℝ) < 2 ^ (j - F.sb) := zp _
  have hjk : 1 - (F.bias : ℤ) ≤ j + k := by
    by_contra hc
    rw [abs_mul, abs_of_pos hz] at h1
    have : |x.val| * 2 ^ k < 2 ^ (j + 1) * 2 ^ k := by gcongr
    rw [← zpow_add₀ (by norm_num)] at this
    have h3 : (2 : ℝ) ^ (j + 1 + k) ≤ 2 ^ (1 - (F.bias : ℤ)) := zpow_le_zpow_right₀ (by norm_num) (by omega)
    linarith
  have hsb : |n| ≤ 2 ^ (F.sb + 1) := by
    rw [hn, abs_mul, abs_of_pos hzj] at j2
    have e : (2 : ℝ) ^ (j + 1) = 2 ^ (F.sb + 1) * 2 ^ (j - F.sb) := by
      rw [← zpow_natCast, ← zpow_add₀ (by norm_num)]; congr 1; push_cast; omega
    rw [e] at j2
    have := (lt_of_mul_lt_mul_right j2 hzj.le).le
    exact_mod_cast this
  have e : x.val * 2 ^ k = n * 2 ^ (j - F.sb + k) := by
    rw [hn, mul_assoc, ← zpow_add₀ (by norm_num)]
  obtain ⟨c, hc, hv⟩ := exists_val (F := F) (n := n) (k := j - F.sb + k) hsb (by omega) (by
    rw [← abs_of_pos (zp (j - F.sb + k)), ← abs_mul, ← e]; exact h2)
  exact ⟨c, hc, by rw [hv, e]⟩

/-- rounding `x * 2 ^ k` costs at most half a least subnormal -/
theorem scale_err {x r : Flt F} (k : ℤ) (h : IsRNE (x.val * 2 ^ k) r) (hr : r.isFinite) :
    |r.val - x.val * 2 ^ k| ≤ 2 ^ (-(F.bias : ℤ) - F.sb) := by
  have hb := F.sb_lt_bias
  by_cases h1 : 2 ^ (1 - (F.bias : ℤ)) ≤ |x.val * 2 ^ k|
  · have h2 : |x.val * 2 ^ k| < 2 ^ ((F.bias : ℤ) + 1) := by
      by_contra hc
      push Not at hc
      unfold IsRNE at h
      rw [if_pos] at h
      · exact not_finite_of_inf h.1 hr
      · refine le_trans ?_ hc
        unfold overflowThreshold
        have h3 := zp (F.bias : ℤ)
        have h4 := zp (-((F.sb : ℤ) + 1))
        push_cast
        rw [zpow_add₀ (by norm_num : (2:ℝ) ≠ 0)]
        rw [zpow_one]
        exact mul_le_mul_of_nonneg_left (by linarith) h3.le
    obtain ⟨c, hc, hv⟩ := scale_exact k h1 h2
    obtain ⟨-, b⟩ := h.exact_real hc hv
    rw [b, sub_self, abs_zero]; exact (zp _).le
  · push Not at h1
    have := (h.err (2 - F.bias) (h1.le.trans (zpow_le_zpow_right₀ (by norm_num) (by omega))) le_rfl (by omega)).2
    refine this.trans (zpow_le_zpow_right₀ (by norm_num) (by omega))

end Flt
end Verif

namespace Verif
namespace Flt

/-! ### from the exponent field to the value -/

theorem val_ge_of_mb {F : Fmt} {x : Flt F} {E : ℕ} (hE : 1 ≤ E) (h : E * 2 ^ F.sb ≤ x.mb) :
    (2 : ℝ) ^ ((E : ℤ) - F.bias) ≤ |x.val| := by
  have h1 := (magOf_le (sb := F.sb)).2 h
  rw [magOf_pow F.sb E hE] at h1
  rw [val_abs]
  have e : (2 : ℝ) ^ ((E : ℤ) - F.bias) = (2 ^ (E - 1 + F.sb) : ℕ) * ((F.ulp : ℚ) : ℝ) := by
    rw [ulp_real]; push_cast; rw [← zpow_natCast, ← zpow_add₀ (by norm_num)]; congr 1; push_cast; omega
  rw [e]
  have : (0 : ℝ) < ((F.ulp : ℚ) : ℝ) := by exact_mod_cast F.ulp_pos
  unfold mag
  gcongr

theorem val_lt_of_mb {F : Fmt} {x : Flt F} {E : ℕ} (hE : 1 ≤ E) (h : x.mb < E * 2 ^ F.sb) :
    |x.val| < (2 : ℝ) ^ ((E : ℤ) - F.bias) := by
  have h1 := (magOf_lt (sb := F.sb)).2 h
  rw [magOf_pow F.sb E hE] at h1
  rw [val_abs]
  have e : (2 : ℝ) ^ ((E : ℤ) - F.bias) = (2 ^ (E - 1 + F.sb) : ℕ) * ((F.ulp : ℚ) : ℝ) := by
    rw [ulp_real]; push_cast; rw [← zpow_natCast, ← zpow_add₀ (by norm_num)]; congr 1; push_cast; omega
  rw [e]
  have : (0 : ℝ) < ((F.ulp : ℚ) : ℝ) := by exact_mod_cast F.ulp_pos
  unfold mag
  gcongr

theorem val_mono {F : Fmt} {x y : Flt F} (h : y.mb ≤ x.mb) : |y.val| ≤ |x.val| := by
  rw [val_abs, val_abs]
  have : (0 : ℝ) < ((F.ulp : ℚ) : ℝ) := by exact_mod_cast F.ulp_pos
  have := (magOf_le (sb := F.sb)).2 h
  unfold mag
  gcongr

theorem val_nonneg {F : Fmt} {x : Flt F} (h : x.sign = false) : 0 ≤ x.val := by
  rw [val_eq]
  have : (0 : ℝ) < ((F.ulp : ℚ) : ℝ) := by exact_mod_cast F.ulp_pos
  have : 0 ≤ x.sval := by unfold sval; rw [h]; simp
  have : (0 : ℝ) ≤ x.sval := by exact_mod_cast this
  positivity

theorem val_ge_min {F : Fmt} {x : Flt F} (h : ¬ x.isZero) : (2 : ℝ) ^ (1 - (F.bias : ℤ) - F.sb) ≤ |x.val| := by
  rw [val_abs, ← ulp_real]
  have h1 : 1 ≤ x.mag := Nat.one_le_iff_ne_zero.2 (fun h' => h ((isZero_iff_mag x).2 h'))
  have h2 : (1 : ℝ) ≤ x.mag := by exact_mod_cast h1
  have : (0 : ℝ) < ((F.ulp : ℚ) : ℝ) := by exact_mod_cast F.ulp_pos
  nlinarith

end Flt
end Verif
