import Verif.Theory.PowExp
import Verif.Props.Exp2fAcc
import Verif.Props.Exp10
import Verif.Theory.HypCore

/-!
# C69: the accuracy of `exp10` and `exp10f`
-/

namespace Verif
open Flt

/-- For every argument strictly between `-b` and `b` the function returns a finite float within `c` units in the last place of
`g x`. -/
def AccurateInside {F : Fmt} (c b : ℝ) (f : Flt F → Option (Flt F)) (g : ℝ → ℝ) : Prop :=
  ∀ x : Flt F, x.isFinite → |((x.toRat : ℚ) : ℝ)| < b → ∃ r, f x = some r ∧ WithinUlp c r (g ((x.toRat : ℚ) : ℝ))

namespace E10

theorem ten_rpow_eq (t : ℝ) : (10 : ℝ) ^ t = Real.exp (t * Real.log 10) := by
  rw [Real.rpow_def_of_pos (by norm_num), mul_comm]

/-- two exponentials with close exponents -/
theorem close {z y ε : ℝ} (h : |z * Real.log 2 - y * Real.log 10| ≤ ε) (hε : ε ≤ 1 / 2 ^ 20) :
    |(2 : ℝ) ^ z - 10 ^ y| ≤ 1.00001 * ε * |(10 : ℝ) ^ y| := by
  have p : (0 : ℝ) < 10 ^ y := Real.rpow_pos_of_pos (by norm_num) _
  have e : (2 : ℝ) ^ z = 10 ^ y * Real.exp (z * Real.log 2 - y * Real.log 10) := by
    rw [two_rpow_eq, ten_rpow_eq, ← Real.exp_add]; congr 1; ring
  have h1 := Real.abs_exp_sub_one_sub_id_le (x := z * Real.log 2 - y * Real.log 10) (h.trans (hε.trans (by norm_num)))
  generalize z * Real.log 2 - y * Real.log 10 = w at *
  have h2 : w ^ 2 ≤ 1 / 2 ^ 20 * ε := by
    rw [← sq_abs, pow_two]; exact mul_le_mul (h.trans hε) h (abs_nonneg _) (by norm_num)
  have h3 : |Real.exp w - 1| ≤ 1.00001 * ε := by
    have := abs_add_le (Real.exp w - 1 - w) w
    rw [sub_add_cancel] at this
    have h0 := (abs_nonneg w).trans h
    norm_num at h2 ⊢; linarith
  rw [e, show 10 ^ y * Real.exp w - 10 ^ y = (10 : ℝ) ^ y * (Real.exp w - 1) by ring, abs_mul, mul_comm]
  exact mul_le_mul_of_nonneg_right h3 (abs_nonneg _)

variable {F : Fmt} [StdFmt F]

/-- the product by `log2 10` -/
theorem arg {c y : Flt F} {κ : ℝ} (cf : c.isFinite) (hc : |c.val * Real.log 2 - Real.log 10| ≤ κ * uu F) (hc4 : |c.val| ≤ 4) (yf : y.isFinite)
    (hy : |y.val| < 1) : (c * y).isFinite ∧ |(c * y).val * Real.log 2 - y.val * Real.log 10| ≤ (1.3863 + κ) * uu F := by
  have hq4 : |c.val * y.val| < 4 := by
    rw [abs_mul]
    rcases eq_or_lt_of_le (abs_nonneg y.val) with h | h
    · rw [← h]; norm_num
    · nlinarith [abs_nonneg c.val]
  have hb : 127 ≤ F.bias := by rcases StdFmt.out (F := F) with rfl | rfl <;> decide
  have hu := uu_pos (F := F)
  have hz := mul_rne cf yf
  have key : (c * y).isFinite ∧ |(c * y).val - c.val * y.val| ≤ 2 * uu F := by
    rcases eq_or_ne (c.val * y.val) 0 with h0 | h0
    · have := hz.exact_real (isFinite_zero false) (by rw [val_zero, h0])
      refine ⟨this.1, ?_⟩
      rw [this.2, sub_self, abs_zero]; linarith
    · have w := WithinUlp.of_rne (c := 1 / 2) (δ := 0) hz h0 (by
        refine hq4.trans_le ?_
        rw [show (4 : ℝ) = 2 ^ (2 : ℤ) by norm_num]
        exact zpow_le_zpow_right₀ (by norm_num) (by omega)) (by omega) (by rw [sub_self, abs_zero, zero_mul]) (by norm_num) (by norm_num)
      rw [WithinUlp.def'] at w
      refine ⟨w.1, w.2.trans ?_⟩
      have h1 := ulpAt_le_of_lt (F := F) (t := c.val * y.val) (k := 1) (by rw [show (2 : ℝ) ^ ((1 : ℤ) + 1) = 4 by norm_num]; exact hq4) (by omega)
      have h2 : (2 : ℝ) ^ (1 - (F.sb : ℤ)) = 4 * uu F := by
        rw [sub_eq_add_neg, zpow_add₀ (by norm_num), uu_two]; norm_num; ring
      rw [h2] at h1
      linarith
  refine ⟨key.1, ?_⟩
  have k1 := Num.log2_gt
  have k2 := Num.log2_lt
  have e : (c * y).val * Real.log 2 - y.val * Real.log 10 = ((c * y).val - c.val * y.val) * Real.log 2 + y.val * (c.val * Real.log 2 - Real.log 10) := by ring
  rw [e]
  refine (abs_add_le _ _).trans ?_
  rw [abs_mul, abs_mul, abs_of_pos (show 0 < Real.log 2 by norm_num at k1; linarith)]
  have h1 := mul_le_mul key.2 k2.le (by norm_num at k1; linarith) (by linarith)
  have h2 := mul_le_mul hy.le hc (abs_nonneg _) zero_le_one
  rw [one_mul] at h2
  have : 2 * uu F * 0.6931471805599453094173 ≤ 1.3863 * uu F := by norm_num; linarith
  linarith

theorem ten_rng {n : ℤ} (hn : |n| ≤ 15) : (1 : ℝ) / 10 ^ 15 ≤ 10 ^ n ∧ (10 : ℝ) ^ n ≤ 10 ^ 15 := by
  rw [abs_le] at hn
  constructor
  · have := zpow_le_zpow_right₀ (a := (10 : ℝ)) (by norm_num) hn.1
    rwa [zpow_neg, ← one_div, show ((15 : ℤ)) = ((15 : ℕ) : ℤ) by rfl, zpow_natCast] at this
  · have := zpow_le_zpow_right₀ (a := (10 : ℝ)) (by norm_num) hn.2
    rwa [show ((15 : ℤ)) = ((15 : ℕ) : ℤ) by rfl, zpow_natCast] at this

/-- `2^(y log2 10)` times a power of ten -/
theorem mid {c y e p : Flt F} {n : ℤ} {κ ce K : ℝ} (cf : c.isFinite) (hc : |c.val * Real.log 2 - Real.log 10| ≤ κ * uu F) (hκ : 0 ≤ κ) (hκ1 : κ ≤ 2)
    (hc4 : |c.val| ≤ 4) (yf : y.isFinite) (hy : |y.val| < 1) (hce : 0 ≤ ce) (hce1 : ce ≤ 1) (he : WithinUlp ce e ((2 : ℝ) ^ (c * y).val))
    (hn : |n| ≤ 15) (hp : IsRNE ((10 : ℝ) ^ n) p) (hK : 2 * ce + κ + 3.3873 ≤ K) : WithinUlp K (e * p) ((10 : ℝ) ^ (n + y.val)) := by
  obtain ⟨zf, hz⟩ := arg cf hc hc4 yf hy
  have hu := uu_pos (F := F)
  have hu1 := uu_le (F := F)
  have hu2 := uu_sq (F := F)
  have hb := hi_std (F := F)
  have lo := lo_std (F := F)
  have lo1 := HypC.low1 (F := F)
  have h1 := close hz (by nlinarith)
  obtain ⟨y1, y2⟩ := abs_lt.1 hy
  have t1 : (1 : ℝ) / 10 ≤ 10 ^ y.val := by
    rw [one_div, ← Real.rpow_neg_one]
    exact (Real.rpow_le_rpow_left_iff (by norm_num)).2 y1.le
  have t2 : (10 : ℝ) ^ y.val ≤ 10 := by
    nth_rw 2 [← Real.rpow_one 10]
    exact (Real.rpow_le_rpow_left_iff (by norm_num)).2 y2.le
  obtain ⟨n1, n2⟩ := ten_rng hn
  rw [Real.rpow_add (by norm_num), Real.rpow_intCast]
  have tp : (0 : ℝ) < 10 ^ y.val := by linarith
  rw [abs_of_pos tp] at h1
  have z1 : (1 : ℝ) / 20 ≤ 2 ^ (c * y).val := by
    have h2 := (abs_le.1 h1).1
    have h3 : 1.00001 * ((1.3863 + κ) * uu F) ≤ 1 / 2 := by nlinarith
    have := mul_le_mul_of_nonneg_right h3 tp.le
    linarith
  have e1 := Rl.of_ulp he hce (by
    rw [abs_of_pos (by linarith)]
    refine lo1.trans (le_trans (by norm_num) z1))
  have e2 : Rl e ((10 : ℝ) ^ y.val) ((2 * ce + κ + 1.3867) * uu F) := by
    refine e1.trans (δ := 1.00001 * ((1.3863 + κ) * uu F)) (by positivity) (by rw [abs_of_pos tp]; exact h1) ?_
    have h4 : 2 * ce * uu F * (1.00001 * ((1.3863 + κ) * uu F)) ≤ 8 * (uu F * uu F) := by
      have : 2 * ce * (1.00001 * (1.3863 + κ)) ≤ 8 := by nlinarith
      have := mul_le_mul_of_nonneg_right this (mul_pos hu hu).le
      nlinarith
    have h5 : κ * uu F ≤ 2 * uu F := mul_le_mul_of_nonneg_right hκ1 hu.le
    norm_num at hu2 ⊢
    nlinarith
  have p1 : Rl p ((10 : ℝ) ^ n) (uu F) := by
    have tn : (0 : ℝ) < 10 ^ n := by positivity
    obtain ⟨pf, pe⟩ := hp.rel_std (by rw [abs_of_pos tn]; exact lo1.trans (le_trans (by norm_num) n1)) (by
      rw [abs_of_pos tn]; refine n2.trans ?_; norm_num at hb ⊢; linarith)
    refine ⟨pf, pe.trans_eq ?_⟩
    rw [mul_comm]; congr 1
  have np : (0 : ℝ) < 10 ^ n := by positivity
  have lo2 : (1 : ℝ) / 10 ^ 16 ≤ 10 ^ y.val * 10 ^ n := by
    have := mul_le_mul t1 n1 (by positivity) tp.le
    norm_num at this ⊢; linarith
  have hi2 : (10 : ℝ) ^ y.val * 10 ^ n ≤ 10 ^ 16 := by
    have := mul_le_mul t2 n2 np.le (by norm_num)
    norm_num at this ⊢; linarith
  have r := e2.mul p1 (by positivity) (by
      rw [abs_of_pos (mul_pos tp np)]; exact lo.trans (le_trans (by norm_num) lo2)) (by
      rw [abs_of_pos (mul_pos tp np)]; refine hi2.trans ?_; norm_num at hb ⊢; linarith)
    ((2 * ce + κ + 2.387) * uu F) (by
      have h4 : (2 * ce + κ + 1.3867) * uu F * uu F ≤ 6 * (uu F * uu F) := by
        have : (2 * ce + κ + 1.3867) ≤ 6 := by linarith
        have := mul_le_mul_of_nonneg_right this (mul_pos hu hu).le
        nlinarith
      norm_num at hu2 ⊢; linarith) (by
      have h4 : (2 * ce + κ + 2.387) * uu F ≤ 7 * uu F := mul_le_mul_of_nonneg_right (by linarith) hu.le
      norm_num at hu1 ⊢; linarith) (η := (2 * ce + κ + 3.3873) * uu F) (by
      have h4 : (2 * ce + κ + 2.387) * uu F * uu F ≤ 7 * (uu F * uu F) := by
        have : (2 * ce + κ + 2.387) ≤ 7 := by linarith
        have := mul_le_mul_of_nonneg_right this (mul_pos hu hu).le
        nlinarith
      norm_num at hu2 ⊢; nlinarith)
  have w := r.ulp (by positivity)
  rw [mul_comm ((10 : ℝ) ^ y.val)] at w
  exact ⟨w.1, w.2.trans (mul_le_mul_of_nonneg_right hK (ulpAt_nonneg _))⟩

/-- the argument of the exponential is small -/
theorem arg_small {c y : Flt F} {κ : ℝ} (cf : c.isFinite) (hc : |c.val * Real.log 2 - Real.log 10| ≤ κ * uu F) (hκ1 : κ ≤ 2)
    (hc4 : |c.val| ≤ 4) (yf : y.isFinite) (hy : |y.val| < 1) : (c * y).isFinite ∧ (2 : ℝ) ^ (c * y).val < ((overflowThreshold F : ℚ) : ℝ) := by
  obtain ⟨zf, hz⟩ := arg cf hc hc4 yf hy
  have hu := uu_pos (F := F)
  have hu1 := uu_le (F := F)
  have hb := hi_std (F := F)
  have h1 := close hz (by nlinarith)
  have t2 : (10 : ℝ) ^ y.val ≤ 10 := by
    nth_rw 2 [← Real.rpow_one 10]
    exact (Real.rpow_le_rpow_left_iff (by norm_num)).2 (abs_lt.1 hy).2.le
  have tp : (0 : ℝ) < 10 ^ y.val := Real.rpow_pos_of_pos (by norm_num) _
  rw [abs_of_pos tp] at h1
  refine ⟨zf, lt_trans ?_ thr_std⟩
  have h3 : 1.00001 * ((1.3863 + κ) * uu F) ≤ 1 / 2 := by nlinarith
  have h4 := mul_le_mul_of_nonneg_right h3 tp.le
  have h5 := (abs_le.1 h1).2
  norm_num at hb ⊢
  linarith

/-- the parts of an argument -/
theorem parts {F : Fmt} {x f i : Flt F} (h : IsModf x f i) {b : ℕ} (hb : |x.val| < b) :
    ∃ n : ℤ, i.val = n ∧ |n| < b ∧ f.isFinite ∧ i.isFinite ∧ |f.val| < 1 ∧ x.val = n + f.val := by
  obtain ⟨h1, h2, -, -, h3, h4, h5⟩ := h
  have hb' : |x.toRat| < b := by unfold val at hb; exact_mod_cast hb
  have hf : |f.val| < 1 := by unfold val; exact_mod_cast h5
  have hsum : f.val + i.val = x.val := by unfold val; exact_mod_cast h4
  obtain ⟨n, hn, hnb⟩ : ∃ n : ℤ, i.toRat = n ∧ |(n : ℚ)| < b := by
    split_ifs at h3 with hx
    · refine ⟨_, h3, ?_⟩
      have h0 : ⌈x.toRat⌉ ≤ 0 := Int.ceil_le.2 (by exact_mod_cast hx.le)
      have h0' : ((⌈x.toRat⌉ : ℤ) : ℚ) ≤ 0 := by exact_mod_cast h0
      rw [abs_of_neg hx] at hb'
      rw [abs_of_nonpos h0']
      linarith [Int.le_ceil x.toRat]
    · push Not at hx
      refine ⟨_, h3, ?_⟩
      have h0 : 0 ≤ ⌊x.toRat⌋ := Int.floor_nonneg.2 hx
      have h0' : (0 : ℚ) ≤ ((⌊x.toRat⌋ : ℤ) : ℚ) := by exact_mod_cast h0
      rw [abs_of_nonneg hx] at hb'
      rw [abs_of_nonneg h0']
      linarith [Int.floor_le x.toRat]
  have hi : i.val = n := by unfold val; rw [hn]; simp
  exact ⟨n, hi, by exact_mod_cast hnb, h1, h2, hf, by rw [← hsum, hi]; ring⟩

theorem rne_ulp {n : ℤ} {p : Flt F} (hn : |n| ≤ 15) (h : IsRNE ((10 : ℚ) ^ n) p) : IsRNE ((10 : ℝ) ^ n) p ∧ WithinUlp 1 p ((10 : ℝ) ^ n) := by
  have hr : IsRNE ((10 : ℝ) ^ n) p := by
    have := isRNE_real h
    push_cast at this
    exact this
  refine ⟨hr, ?_⟩
  have hb := hi_std (F := F)
  have tn : (0 : ℝ) < 10 ^ n := by positivity
  obtain ⟨n1, n2⟩ := ten_rng hn
  obtain ⟨pf, pe⟩ := hr.rel_std (by rw [abs_of_pos tn]; exact (HypC.low1 (F := F)).trans (le_trans (by norm_num) n1)) (by
    rw [abs_of_pos tn]; refine n2.trans ?_; norm_num at hb ⊢; linarith)
  exact (Rl.mk pf (pe.trans_eq (by rw [mul_comm, one_mul]; rfl)) : Rl p _ (1 * uu F)).ulp zero_le_one
end E10

namespace Exp10
theorem ln_val : ln10.val = (7480317065143153 : ℤ) * 2 ^ (-51 : ℤ) := val_const64 _ 1023 _ (by decide +kernel) (by norm_num)

theorem ln_near : |ln10.val * Real.log 2 - Real.log 10| ≤ 1.04 * uu f64 := by
  have h1 := abs_le.1 Num.log10_near
  have h2 := abs_le.1 Num.log2_near
  rw [ln_val, uu, f64_sb, abs_le]
  norm_num at h1 h2 ⊢
  constructor <;> linarith [h1.1, h1.2, h2.1, h2.2]

theorem look_spec {i : Flt f64} {n : ℤ} (hn : |n| ≤ 15) (hi : i.val = n) : ∃ r, look i = some r ∧ IsRNE ((10 : ℚ) ^ n) r := by
  by_cases h0 : n = 0
  · subst h0
    refine ⟨one f64, ?_, ?_⟩
    · have h0 : i.isZero := isZero_val.2 (by simpa using hi)
      rw [eq_zero h0]
      cases i.sign <;> decide +kernel
    · have := ofDec_isRNE f64 1 false 0
      rw [show one f64 = ofDec f64 1 false 0 by decide +kernel]
      simpa using this
  · rw [abs_le] at hn
    have hc : (ofInt f64 n).val = n := by
      obtain ⟨c, hc1, hc2⟩ := exists_val64' (n := n) (k := 0) (by rw [abs_le]; omega) (by norm_num) (by norm_num)
      exact ((ofInt_rne n).exact_real hc1 (by simpa using hc2)).2
    have hx' : i = ofInt f64 n := eq_of_val (hi.trans hc.symm) (by rw [hc]; exact_mod_cast h0)
    have cases : ∀ (m : ℕ) (b : Bool), n = (if b then -(m : ℤ) else m) →
        look (ofInt f64 (if b then -(m : ℤ) else m)) = some (ofDec f64 1 b m) →
        ∃ r, look i = some r ∧ IsRNE ((10 : ℚ) ^ n) r := by
      intro m b hm he
      refine ⟨_, by rw [hx', hm]; exact he, ?_⟩
      have := ofDec_isRNE f64 1 b m
      rw [Nat.cast_one, one_mul, ← hm] at this
      exact this
    have all : ∀ m : Fin 16, ∀ b : Bool, m ≠ 0 → look (ofInt f64 (if b then -((m : ℕ) : ℤ) else (m : ℕ))) = some (ofDec f64 1 b m) := by
      decide +kernel
    by_cases hs : n < 0
    · exact cases n.natAbs true (by rw [if_pos rfl]; omega) (all ⟨n.natAbs, by omega⟩ true (by intro h; simp [Fin.ext_iff] at h; omega))
    · exact cases n.natAbs false (by rw [if_neg (by decide)]; omega) (all ⟨n.natAbs, by omega⟩ false (by intro h; simp [Fin.ext_iff] at h; omega))
end Exp10

/-- `exp10` is within 5.95 units in the last place of `10^x` for arguments strictly between -16 and 16. Missing from accuracy on the
whole range: larger arguments, for which the code calls `pow`. -/
theorem Exp10.inside : AccurateInside 5.95 16 exp10 (fun t => (10 : ℝ) ^ t) := by
  intro x xf hx
  change |x.val| < 16 at hx
  obtain ⟨n, hi, hn, yf, nf, hy, hs⟩ := E10.parts (modf_finite x xf) (b := 16) (by exact_mod_cast hx)
  change ∃ r, exp10 x = some r ∧ WithinUlp 5.95 r ((10 : ℝ) ^ x.val)
  obtain ⟨p, hp, hpr⟩ := Exp10.look_spec (i := (modf x).2) (n := n) (by push_cast at hn; omega) hi
  obtain ⟨hr, hw⟩ := E10.rne_ulp (by push_cast at hn; omega) hpr
  have hm : (modf x).2.mb < 1027 * 2 ^ 52 := by
    by_contra hc
    have := val_ge_of_mb (F := f64) (x := (modf x).2) (E := 1027) (by norm_num) (by rw [f64_sb]; omega)
    rw [f64_bias, hi] at this
    have hn' : |(n : ℝ)| < 16 := by exact_mod_cast hn
    norm_num at this
    linarith
  unfold exp10
  dsimp only
  rw [if_pos ((Exp10.exp_lt _).2 hm)]
  split_ifs with h0
  · refine ⟨p, hp, ?_⟩
    have hz : (modf x).1.val = 0 := by
      have := (feq_iff.1 h0).2.2
      rw [val_eq, this]
      simp [show (0.0 : Flt f64).sval = 0 by decide +kernel]
    rw [hs, hz, add_zero, Real.rpow_intCast]
    exact ⟨hw.1, hw.2.trans (mul_le_mul_of_nonneg_right (by norm_num) (ulpAt_nonneg _))⟩
  · have hc4 : |Exp10.ln10.val| ≤ 4 := by rw [Exp10.ln_val]; norm_num [abs_of_pos]
    obtain ⟨zf, hz⟩ := E10.arg_small (c := Exp10.ln10) (by decide +kernel) Exp10.ln_near (by norm_num) hc4 yf hy
    obtain ⟨e, he, hew⟩ := exp2_accurate _ zf hz
    rw [he, hp]
    refine ⟨_, rfl, ?_⟩
    rw [hs]
    exact E10.mid (by decide +kernel) Exp10.ln_near (by norm_num) (by norm_num) hc4 yf hy (by norm_num) (by norm_num) hew (by push_cast at hn; omega) hr (by norm_num)

namespace Exp10

/-- the branch through `pow` -/
theorem big {x : Flt f64} (xf : x.isFinite) (h : 16 ≤ |x.val|) (ht : (10 : ℝ) ^ x.val < ((overflowThreshold f64 : ℚ) : ℝ)) :
    ∃ r, exp10 x = some r ∧ WithinUlp 1.45 r ((10 : ℝ) ^ x.val) := by
  have p : (0 : ℝ) < 10 ^ x.val := Real.rpow_pos_of_pos (by norm_num) _
  have l1 := abs_le.1 Num.log10_near
  have k1 := Num.log2_gt
  have k2 := Num.log2_lt
  have lp : 0 < Real.log 10 := by norm_num at l1; linarith
  rw [E10.ten_rpow_eq] at p ht ⊢
  have v1 : (bits64 0x40734413509f79fe).val = (2711437152599295 : ℤ) * 2 ^ (-43 : ℤ) := val_const64 _ 1031 _ (by decide +kernel) (by norm_num)
  have v2 : (bits64 0x40734413509f79ff).val = (5422874305198591 : ℤ) * 2 ^ (-44 : ℤ) := val_const64 _ 1030 _ (by decide +kernel) (by norm_num)
  have w1 : (bits64 0xc07439b746e36b51).val = (-5692958865320785 : ℤ) * 2 ^ (-44 : ℤ) := val_const64 _ 1030 _ (by decide +kernel) (by norm_num)
  have w2 : (bits64 0xc07439b746e36b52).val = (-2846479432660393 : ℤ) * 2 ^ (-43 : ℤ) := val_const64 _ 1031 _ (by decide +kernel) (by norm_num)
  have hv : x.val ≤ (bits64 0x40734413509f79fe).val := by
    by_contra hc
    push Not at hc
    have hs : x.sign = false := by
      by_contra hs
      have := val_nonpos (x := x) (by simpa using hs)
      rw [v1] at hc; norm_num at hc; linarith
    have hm : 0x40734413509f79fe < x.mb := by
      by_contra hc2
      exact absurd (val_le_of_mb (c := bits64 0x40734413509f79fe) (not_lt.1 hc2) (by decide +kernel)) (not_le.2 hc)
    have h5 := val_mono (x := x) (y := bits64 0x40734413509f79ff) (by
      rw [show (bits64 0x40734413509f79ff).mb = 0x40734413509f79ff by decide +kernel]; omega)
    rw [abs_of_nonneg (val_nonneg hs), abs_of_nonneg (val_nonneg (by decide +kernel)), v2] at h5
    have h6 := Num.two_zpow_lt_exp (n := 1024) (t := x.val * Real.log 10) (by
      have := mul_le_mul_of_nonneg_right h5 lp.le
      norm_num at this l1 k2 ⊢; linarith [l1.1])
    rw [← thr64] at ht
    have h7 : (2 : ℝ) ^ (1024 : ℤ) * (1 - 1 / 2 ^ 54) ≤ 2 ^ (1024 : ℤ) := mul_le_of_le_one_right (zp _).le (by norm_num)
    generalize (2 : ℝ) ^ (1024 : ℤ) = A at *
    linarith
  rcases le_or_gt (bits64 0xc07439b746e36b51).val x.val with hw | hw
  · rw [v1] at hv
    rw [w1] at hw
    have hm : 1027 * 2 ^ 52 ≤ x.mb := by
      by_contra hc
      have := val_lt_of_mb (F := f64) (x := x) (E := 1027) (by norm_num) (by rw [f64_sb]; omega)
      rw [f64_bias] at this
      norm_num at this; linarith
    obtain ⟨r, e, w⟩ := PowE.mulOut_ten xf h (by exact_mod_cast hv) (by push_cast at hw; rw [neg_mul] at hw; exact hw)
    refine ⟨r, ?_, w⟩
    rw [big_path xf h, ← e]
    unfold Pow.general
    dsimp only
    have hA := hi_abs' x
    rw [show (0x7fffffff : BitVec 32) = 0x7fffffff#32 from rfl] at hA
    rw [if_neg, Pow10.logAx10, Option.bind_some]
    intro hc
    have h3 := BitVec.lt_def.1 hc
    rw [hA, show (0x41e00000#32).toNat = 0x41e00000 from rfl] at h3
    have := val_ge_of_mb (F := f64) (x := x) (E := 1054) (by norm_num) (by rw [f64_sb]; omega)
    rw [f64_bias] at this
    have hyb : |x.val| ≤ 324 := by rw [abs_le]; norm_num at hv hw ⊢; constructor <;> linarith
    norm_num at this; linarith
  · have hs : x.sign = true := by
      by_contra hs
      have := val_nonneg (x := x) (by simpa using hs)
      rw [w1] at hw; norm_num at hw; linarith
    have hm : 0x407439b746e36b51 < x.mb := by
      by_contra hc
      exact absurd (val_ge_of_mb' (c := bits64 0xc07439b746e36b51) (by
        rw [show (bits64 0xc07439b746e36b51).mb = 0x407439b746e36b51 by decide +kernel]; omega) (by decide +kernel)) (not_le.2 hw)
    have hx2 : x.val ≤ (bits64 0xc07439b746e36b52).val := by
      have := val_mono (x := x) (y := bits64 0xc07439b746e36b52) (by
        rw [show (bits64 0xc07439b746e36b52).mb = 0x407439b746e36b52 by decide +kernel]; omega)
      rw [abs_of_nonpos (val_nonpos hs), abs_of_nonpos (val_nonpos (by decide +kernel))] at this
      linarith
    have ht2 : Real.exp (x.val * Real.log 10) < 2 ^ (-1074 : ℤ) := Num.exp_lt_two_zpow (by
      rw [w2] at hx2
      have := mul_le_mul_of_nonneg_right hx2 lp.le
      norm_num at this l1 k2 ⊢; linarith [l1.1])
    have hr : ∃ r, exp10 x = some r ∧ (r = zero f64 false ∨ r = bits64 1) := by
      by_cases e1 : x.mb = 0x407439b746e36b52
      · rw [ext_mb (x := x) (y := bits64 0xc07439b746e36b52) (by rw [hs]; decide +kernel) (by rw [e1]; decide +kernel)]
        decide +kernel
      by_cases e1 : x.mb = 0x407439b746e36b53
      · rw [ext_mb (x := x) (y := bits64 0xc07439b746e36b53) (by rw [hs]; decide +kernel) (by rw [e1]; decide +kernel)]
        exact ⟨_, (by decide +kernel : exp10 (bits64 0xc07439b746e36b53) = some (zero f64 false)), .inl rfl⟩
      have v2 : (bits64 0xc07439b746e36b54).val = (-1423239716330197 : ℤ) * 2 ^ (-42 : ℤ) := val_const64 _ 1032 _ (by decide +kernel) (by norm_num)
      have hv2 : x.val ≤ (bits64 0xc07439b746e36b54).val := by
        have := val_mono (x := x) (y := bits64 0xc07439b746e36b54) (by
          rw [show (bits64 0xc07439b746e36b54).mb = 0x407439b746e36b54 by decide +kernel]; omega)
        rw [abs_of_nonpos (val_nonpos hs), abs_of_nonpos (val_nonpos (by decide +kernel))] at this
        linarith
      rw [v2] at hv2
      refine ⟨_, Exp10.of_mulOut xf (by rw [abs_of_nonpos (val_nonpos hs)]; norm_num at hv2 ⊢; linarith) (by rw [hs]; rfl) ?_, .inl rfl⟩
      exact fun hb => Pow10.mulOut_zero xf hb (by norm_num at hv2 ⊢; linarith)
    obtain ⟨r, e, hr⟩ := hr
    refine ⟨r, e, ?_⟩
    have hu := ulpAt_min (F := f64) p.ne'
    rw [f64_bias, f64_sb, show (1 - ((1023 : ℕ) : ℤ) - ((52 : ℕ) : ℤ)) = -1074 by norm_num] at hu
    rw [WithinUlp.def']
    have vb : (bits64 1).val = (1 : ℤ) * 2 ^ (-1074 : ℤ) := val_const64 _ 0 _ (by decide +kernel) (by norm_num)
    have hp := zp (-1074)
    rcases hr with rfl | rfl
    · refine ⟨isFinite_zero _, ?_⟩
      rw [val_zero, zero_sub, abs_neg, abs_of_pos p]
      norm_num
      linarith
    · refine ⟨by decide +kernel, ?_⟩
      rw [vb, Int.cast_one, one_mul, abs_of_nonneg (by linarith)]
      generalize (2 : ℝ) ^ (-1074 : ℤ) = T at *
      norm_num
      linarith

end Exp10

/-- `exp10` is within 5.95 units in the last place of `10^x` for every argument whose power of ten does not overflow -/
theorem exp10_accurate : AccurateBelow 5.95 exp10 (fun t => (10 : ℝ) ^ t) := by
  intro x xf hx
  rcases lt_or_ge |x.val| 16 with h | h
  · exact Exp10.inside x xf h
  · obtain ⟨r, e, w⟩ := Exp10.big xf h hx
    exact ⟨r, e, w.mono (by norm_num)⟩

/-- from 16 on in magnitude, within 1.45 units in the last place -/
theorem exp10_accurate_outside (x : Flt f64) (hx : x.isFinite) (h : 16 ≤ |((x.toRat : ℚ) : ℝ)|)
    (ht : (10 : ℝ) ^ ((x.toRat : ℚ) : ℝ) < ((overflowThreshold f64 : ℚ) : ℝ)) :
    ∃ r, exp10 x = some r ∧ WithinUlp 1.45 r ((10 : ℝ) ^ ((x.toRat : ℚ) : ℝ)) := Exp10.big hx h ht

namespace Exp10f
theorem lnf_val : ln10f32.val = (1741647 : ℤ) * 2 ^ (-19 : ℤ) := val_const32 _ 130 _ (by decide +kernel) (by norm_num)

theorem lnf_near : |ln10f32.val * Real.log 2 - Real.log 10| ≤ 0.825 * uu f32 := by
  have h1 := abs_le.1 Num.log10_near
  have h2 := abs_le.1 Num.log2_near
  rw [lnf_val, uu, f32_sb, abs_le]
  norm_num at h1 h2 ⊢
  constructor <;> linarith [h1.1, h1.2, h2.1, h2.2]

theorem look_spec {i : Flt f32} {n : ℤ} (hn : |n| ≤ 7) (hi : i.val = n) : ∃ r, look i = some r ∧ IsRNE ((10 : ℚ) ^ n) r := by
  by_cases h0 : n = 0
  · subst h0
    refine ⟨one f32, ?_, ?_⟩
    · have h0 : i.isZero := isZero_val.2 (by simpa using hi)
      rw [eq_zero h0]
      cases i.sign <;> decide +kernel
    · have := ofDec_isRNE f32 1 false 0
      rw [show one f32 = ofDec f32 1 false 0 by decide +kernel]
      simpa using this
  · rw [abs_le] at hn
    have hc : (ofInt f32 n).val = n := by
      obtain ⟨c, hc1, hc2⟩ := exists_val32' (n := n) (k := 0) (by rw [abs_le]; omega) (by norm_num) (by norm_num)
      exact ((ofInt_rne n).exact_real hc1 (by simpa using hc2)).2
    have hx' : i = ofInt f32 n := eq_of_val (hi.trans hc.symm) (by rw [hc]; exact_mod_cast h0)
    have cases : ∀ (m : ℕ) (b : Bool), n = (if b then -(m : ℤ) else m) →
        look (ofInt f32 (if b then -(m : ℤ) else m)) = some (ofDec f32 1 b m) →
        ∃ r, look i = some r ∧ IsRNE ((10 : ℚ) ^ n) r := by
      intro m b hm he
      refine ⟨_, by rw [hx', hm]; exact he, ?_⟩
      have := ofDec_isRNE f32 1 b m
      rw [Nat.cast_one, one_mul, ← hm] at this
      exact this
    have all : ∀ m : Fin 8, ∀ b : Bool, m ≠ 0 → look (ofInt f32 (if b then -((m : ℕ) : ℤ) else (m : ℕ))) = some (ofDec f32 1 b m) := by
      decide +kernel
    by_cases hs : n < 0
    · exact cases n.natAbs true (by rw [if_pos rfl]; omega) (all ⟨n.natAbs, by omega⟩ true (by intro h; simp [Fin.ext_iff] at h; omega))
    · exact cases n.natAbs false (by rw [if_neg (by decide)]; omega) (all ⟨n.natAbs, by omega⟩ false (by intro h; simp [Fin.ext_iff] at h; omega))

theorem lt_exp {n : Flt f32} (h : n.mb < 130 * 2 ^ 23) : (n.u32 >>> 23) &&& 0xff < 0x7f#32 + 3 := by
  rw [BitVec.lt_def, BitVec.toNat_and, BitVec.toNat_ushiftRight, u32_toNat, Nat.shiftRight_eq_div_pow]
  have e : (0xff : BitVec 32).toNat = 2 ^ 8 - 1 := rfl
  rw [e, Nat.and_two_pow_sub_one_eq_mod]
  have e2 : (0x7f#32 + 3 : BitVec 32).toNat = 130 := rfl
  rw [e2]
  have := mb32_lt n
  split <;> omega

theorem small {x : Flt f32} (xf : x.isFinite) (hx : |x.val| < 8) : ∃ r, exp10f x = some r ∧ WithinUlp 5.22 r ((10 : ℝ) ^ x.val) := by
  obtain ⟨n, hi, hn, yf, nf, hy, hs⟩ := E10.parts (modff_finite x xf) (b := 8) (by exact_mod_cast hx)
  obtain ⟨p, hp, hpr⟩ := look_spec (i := (modff x).2) (n := n) (by push_cast at hn; omega) hi
  obtain ⟨hr, hw⟩ := E10.rne_ulp (by push_cast at hn; omega) hpr
  have hm : (modff x).2.mb < 130 * 2 ^ 23 := by
    by_contra hc
    have := val_ge_of_mb (F := f32) (x := (modff x).2) (E := 130) (by norm_num) (by rw [f32_sb]; omega)
    rw [f32_bias, hi] at this
    have hn' : |(n : ℝ)| < 8 := by exact_mod_cast hn
    norm_num at this
    linarith
  unfold exp10f
  dsimp only
  rw [if_pos (lt_exp hm)]
  split_ifs with h0
  · refine ⟨p, hp, ?_⟩
    have hz : (modff x).1.val = 0 := by
      have := (feq_iff.1 h0).2.2
      rw [val_eq, this]
      simp [show (0.0 : Flt f32).sval = 0 by decide +kernel]
    rw [hs, hz, add_zero, Real.rpow_intCast]
    exact ⟨hw.1, hw.2.trans (mul_le_mul_of_nonneg_right (by norm_num) (ulpAt_nonneg _))⟩
  · have hc4 : |ln10f32.val| ≤ 4 := by rw [lnf_val]; norm_num [abs_of_pos]
    obtain ⟨zf, hz⟩ := E10.arg_small (c := ln10f32) (by decide +kernel) lnf_near (by norm_num) hc4 yf hy
    obtain ⟨e, he, hew⟩ := exp2f_accurate _ zf hz
    rw [he, hp]
    refine ⟨_, rfl, ?_⟩
    rw [hs]
    exact E10.mid (by decide +kernel) lnf_near (by norm_num) (by norm_num) hc4 yf hy (by norm_num) (by norm_num) hew (by push_cast at hn; omega) hr (by norm_num)

/-- the arguments from 8 on, through the double-precision function -/
theorem big {x : Flt f32} (xf : x.isFinite) (hx : 8 ≤ |x.val|) (ht : (10 : ℝ) ^ x.val < ((overflowThreshold f32 : ℚ) : ℝ)) :
    ∃ r, exp10f x = some r ∧ WithinUlp 5.22 r ((10 : ℝ) ^ x.val) := by
  have p : (0 : ℝ) < 10 ^ x.val := Real.rpow_pos_of_pos (by norm_num) _
  have l1 := abs_le.1 Num.log10_near
  have k1 := Num.log2_gt
  have k2 := Num.log2_lt
  have lp : 0 < Real.log 10 := by norm_num at l1; linarith
  obtain ⟨cf, cv⟩ := Hypotf.widen xf
  rw [big_path xf hx]
  have hR := mul_rne (x := ln10f64) (by decide +kernel) cf
  rw [cv] at hR
  have hx2 : |x.val| ≤ 2 ^ 128 := by
    have := PowT.abs_lt_top xf (by rw [f32_bias]; norm_num)
    rw [f32_bias] at this
    refine this.le.trans (by norm_num)
  have hc : |ln10f64.val| ≤ 4 := by rw [ln_val]; norm_num [abs_of_pos]
  have hc3 : 3 ≤ |ln10f64.val| := by rw [ln_val]; norm_num [abs_of_pos]
  have hq2 : |ln10f64.val * x.val| ≤ 2 ^ 130 := by
    rw [abs_mul]
    have := mul_le_mul hc hx2 (abs_nonneg _) (by norm_num)
    norm_num at this ⊢; linarith
  have hq1 : 24 ≤ |ln10f64.val * x.val| := by
    rw [abs_mul]
    have := mul_le_mul hc3 hx (by norm_num) (by linarith)
    norm_num at this ⊢; linarith
  obtain ⟨zf, hz⟩ := hR.rel_std ((HypC.low1 (F := f64)).trans (le_trans (by norm_num) hq1)) (by
    refine hq2.trans ?_
    rw [f64_bias]
    have : (2 : ℝ) ^ (1000 : ℤ) ≤ 2 ^ ((1023 : ℕ) : ℤ) := zpow_le_zpow_right₀ (by norm_num) (by norm_num)
    have h2 : (2 : ℝ) ^ (130 : ℤ) ≤ 2 ^ (1000 : ℤ) := zpow_le_zpow_right₀ (by norm_num) (by norm_num)
    generalize (2 : ℝ) ^ ((1023 : ℕ) : ℤ) = A at *
    generalize (2 : ℝ) ^ (1000 : ℤ) = B at *
    norm_num at h2 ⊢; linarith)
  rw [f64_sb] at hz
  replace hz : |(ln10f64 * x.cast f64).val - ln10f64.val * x.val| ≤ |ln10f64.val * x.val| * (1 / 2 ^ 53) := hz.trans_eq (by norm_num)
  have hln : ln10f64.val = Exp10.ln10.val := by rw [ln_val, Exp10.ln_val]
  have hnear := Exp10.ln_near
  rw [← hln, uu, f64_sb] at hnear
  have hl33 : (3.3 : ℝ) ≤ ln10f64.val := by rw [ln_val]; norm_num
  generalize ln10f64 * x.cast f64 = z at hz zf ⊢
  have q : (0 : ℝ) < 2 ^ z.val := Real.rpow_pos_of_pos (by norm_num) _
  rcases le_or_gt x.val (-50) with hlow | hlow
  · -- the result is below half the smallest subnormal number
    have hz1 : z.val ≤ -164 := by
      have h1 : ln10f64.val * x.val ≤ -165 := by nlinarith
      rw [abs_of_neg (by linarith : ln10f64.val * x.val < 0)] at hz
      have := (abs_le.1 hz).2
      norm_num at this ⊢; linarith
    have hz2 : (2 : ℝ) ^ z.val ≤ 1 / 2 ^ 164 := by
      have := (Real.rpow_le_rpow_left_iff (x := (2 : ℝ)) (by norm_num)).2 hz1
      refine this.trans_eq ?_
      rw [Real.rpow_neg (by norm_num), one_div]; norm_num
    have ht2 : (10 : ℝ) ^ x.val ≤ 1 / 10 ^ 50 := by
      have := (Real.rpow_le_rpow_left_iff (x := (10 : ℝ)) (by norm_num)).2 hlow
      refine this.trans_eq ?_
      rw [Real.rpow_neg (by norm_num), one_div]; norm_num
    obtain ⟨r, he, hw⟩ := exp2_accurate z zf (by
      refine lt_trans ?_ (thr_std (F := f64))
      change (2 : ℝ) ^ z.val < _
      have := hi_std (F := f64)
      norm_num at this hz2 ⊢; linarith)
    change WithinUlp 0.76 r ((2 : ℝ) ^ z.val) at hw
    rw [WithinUlp.def'] at hw
    have hu := ulpAt_le_add (F := f64) q
    rw [f64_sb, f64_bias] at hu
    have hu2 : (2 : ℝ) ^ (1 - ((1023 : ℕ) : ℤ) - ((52 : ℕ) : ℤ)) ≤ 2 ^ (-200 : ℤ) := zpow_le_zpow_right₀ (by norm_num) (by norm_num)
    have hr : |r.val| ≤ 1 / 2 ^ 163 := by
      have h1 := abs_add_le (r.val - 2 ^ z.val) (2 ^ z.val)
      rw [sub_add_cancel, abs_of_pos q] at h1
      generalize (2 : ℝ) ^ z.val = A at *
      generalize ulpAt f64 A = U at *
      generalize (2 : ℝ) ^ (1 - ((1023 : ℕ) : ℤ) - ((52 : ℕ) : ℤ)) = G at *
      norm_num at hu2 hu hz2 hw ⊢
      linarith [hw.2]
    have hcst := cast_rne (G := f32) hw.1
    obtain ⟨rf, -⟩ := hcst.fin (by
      rw [← thr32]; refine hr.trans_lt ?_; norm_num)
    have h2 := hcst.two rf
    rw [he]
    refine ⟨_, rfl, ?_⟩
    rw [WithinUlp.def']
    refine ⟨rf, ?_⟩
    have hm := ulpAt_min (F := f32) p.ne'
    rw [f32_bias, f32_sb] at hm
    have h3 := abs_sub (r.cast f32).val ((10 : ℝ) ^ x.val)
    rw [abs_of_pos p] at h3
    norm_num at hm hr ht2 h2 h3 ⊢
    linarith
  · have hxv : x.val ≤ (5050445 : ℤ) * 2 ^ (-17 : ℤ) := by
      have v1 : (bits32 0x421a209a).val = (5050445 : ℤ) * 2 ^ (-17 : ℤ) := val_const32 _ 132 _ (by decide +kernel) (by norm_num)
      have v2 : (bits32 0x421a209b).val = (10100891 : ℤ) * 2 ^ (-18 : ℤ) := val_const32 _ 131 _ (by decide +kernel) (by norm_num)
      rw [← v1]
      by_contra hcx
      push Not at hcx
      have hs : x.sign = false := by
        by_contra hs
        have := val_nonpos (x := x) (by simpa using hs)
        rw [v1] at hcx; norm_num at hcx; linarith
      have hm : 0x421a209a < x.mb := by
        by_contra hc
        exact absurd (val_le_of_mb (c := bits32 0x421a209a) (not_lt.1 hc) (by decide +kernel)) (not_le.2 hcx)
      have h5 := val_mono (x := x) (y := bits32 0x421a209b) (by
        rw [show (bits32 0x421a209b).mb = 0x421a209b by decide +kernel]; omega)
      rw [abs_of_nonneg (val_nonneg hs), abs_of_nonneg (val_nonneg (by decide +kernel)), v2] at h5
      rw [E10.ten_rpow_eq, ← thr32] at ht
      have h6 := Num.two_zpow_lt_exp (n := 128) (t := x.val * Real.log 10) (by
        have := mul_le_mul_of_nonneg_right h5 lp.le
        norm_num at this l1 k2 ⊢; linarith [l1.1])
      norm_num at h6 ht; linarith
    have ht3 : (10 : ℝ) ^ x.val ≤ 2 ^ (128 : ℤ) * (1 - 1 / 2 ^ 20) := by
      rw [E10.ten_rpow_eq]
      refine (Num.exp_lt_thr (n := 128) (k := 20) (by norm_num) ?_).le
      have := mul_le_mul_of_nonneg_right hxv lp.le
      norm_num at this l1 k1 ⊢; linarith [l1.2]
    have hxa : |x.val| ≤ 50 := by rw [abs_le]; norm_num at hxv ⊢; constructor <;> linarith
    have hq3 : |ln10f64.val * x.val| ≤ 200 := by
      rw [abs_mul]
      have := mul_le_mul hc hxa (abs_nonneg _) (by norm_num)
      linarith
    have hd : |z.val * Real.log 2 - x.val * Real.log 10| ≤ 1 / 2 ^ 45 := by
      have e : z.val * Real.log 2 - x.val * Real.log 10 = (z.val - ln10f64.val * x.val) * Real.log 2 + x.val * (ln10f64.val * Real.log 2 - Real.log 10) := by ring
      rw [e]
      refine (abs_add_le _ _).trans ?_
      rw [abs_mul, abs_mul, abs_of_pos (show 0 < Real.log 2 by norm_num at k1; linarith)]
      have h1 := mul_le_mul (hz.trans (mul_le_mul_of_nonneg_right hq3 (by norm_num))) k2.le (by norm_num at k1; linarith) (by norm_num)
      have h2 := mul_le_mul hxa hnear (abs_nonneg _) (by norm_num)
      norm_num at h1 h2 ⊢; linarith
    have hcl := E10.close hd (by norm_num)
    rw [abs_of_pos p] at hcl
    have hcl2 := abs_le.1 hcl
    have hlo : 1 / 2 ^ 168 ≤ (10 : ℝ) ^ x.val := by
      have := (Real.rpow_le_rpow_left_iff (x := (10 : ℝ)) (by norm_num)).2 hlow.le
      refine le_trans ?_ this
      rw [Real.rpow_neg (by norm_num)]; norm_num
    have hz1 : (2 : ℝ) ^ z.val ≤ 2 * 10 ^ x.val := by norm_num at hcl2 ⊢; linarith [hcl2.2]
    have hz2 : (10 : ℝ) ^ x.val ≤ 2 * 2 ^ z.val := by norm_num at hcl2 ⊢; linarith [hcl2.1]
    obtain ⟨r, he, hw⟩ := exp2_accurate z zf (by
      refine lt_trans ?_ (thr_std (F := f64))
      change (2 : ℝ) ^ z.val < _
      rw [f64_bias]
      have : (2 : ℝ) ^ (1000 : ℤ) ≤ 2 ^ ((1023 : ℕ) : ℤ) := zpow_le_zpow_right₀ (by norm_num) (by norm_num)
      have h2 : (2 : ℝ) ^ (130 : ℤ) ≤ 2 ^ (1000 : ℤ) := zpow_le_zpow_right₀ (by norm_num) (by norm_num)
      generalize (2 : ℝ) ^ ((1023 : ℕ) : ℤ) = A at *
      generalize (2 : ℝ) ^ (1000 : ℤ) = B at *
      norm_num at h2 ht3 ⊢; linarith)
    change WithinUlp 0.76 r ((2 : ℝ) ^ z.val) at hw
    have hrl := Rl.of_ulp hw (by norm_num) (by
      rw [abs_of_pos q, f64_bias]
      have : (2 : ℝ) ^ (1 - ((1023 : ℕ) : ℤ)) ≤ 2 ^ (-200 : ℤ) := zpow_le_zpow_right₀ (by norm_num) (by norm_num)
      refine this.trans ?_
      norm_num at hlo ⊢; linarith)
    have hre := hrl.err
    rw [abs_of_pos q, uu, f64_sb] at hre
    have hrt : |r.val - 10 ^ x.val| ≤ 1 / 2 ^ 44 * |(10 : ℝ) ^ x.val| := by
      rw [abs_of_pos p]
      have e : r.val - 10 ^ x.val = (r.val - 2 ^ z.val) + (2 ^ z.val - 10 ^ x.val) := by ring
      rw [e]
      refine (abs_add_le _ _).trans ?_
      norm_num at hre hcl ⊢; linarith
    rw [he]
    refine ⟨_, rfl, ?_⟩
    refine WithinUlp.of_rne_thr_rel (cast_rne (G := f32) hw.1) p.ne' ?_ (by decide) ?_ hrt (by norm_num) ?_ ?_
    · rw [abs_of_pos p, f32_bias]; norm_num at ht3 ⊢; linarith
    · rw [← thr32]
      have h1 := abs_add_le (r.val - 10 ^ x.val) (10 ^ x.val)
      rw [sub_add_cancel, abs_of_pos p] at h1
      rw [abs_of_pos p] at hrt
      norm_num at ht3 hrt ⊢; linarith
    · rw [f32_sb]; norm_num
    · rw [f32_sb]; norm_num
end Exp10f

/-- `exp10f` is within 5.22 units in the last place of `10^x` for every argument whose power of ten does not overflow -/
theorem exp10f_accurate : AccurateBelow 5.22 exp10f (fun t => (10 : ℝ) ^ t) := by
  intro x xf hx
  rcases lt_or_ge |x.val| 8 with h | h
  · exact Exp10f.small xf h
  · exact Exp10f.big xf h hx

/-- the claims speak about calls that exist -/
example : ∃ r, exp10 (0.5 : Flt f64) = some r ∧ WithinUlp 5.95 r ((10 : ℝ) ^ (1 / 2 : ℝ)) := by
  have e : (0.5 : Flt f64).val = 1 / 2 := by
    rw [val_const64 1 1073 (-1) (by decide +kernel) (by norm_num)]; norm_num
  have := Exp10.inside 0.5 (by decide +kernel) (by change |(0.5 : Flt f64).val| < 16; rw [e]; norm_num [abs_of_pos])
  change ∃ r, exp10 (0.5 : Flt f64) = some r ∧ WithinUlp 5.95 r ((10 : ℝ) ^ (0.5 : Flt f64).val) at this
  rwa [e] at this
example : ∃ r, exp10f (-(20.0 : Flt f32)) = some r ∧ WithinUlp 5.22 r ((10 : ℝ) ^ (-20 : ℝ)) := by
  have e : (-(20.0 : Flt f32)).val = -20 := by
    rw [val_const32 (-5) 151 2 (by decide +kernel) (by norm_num)]; norm_num
  have := exp10f_accurate (-20.0) (by decide +kernel) (by
    change (10 : ℝ) ^ (-(20.0 : Flt f32)).val < _
    rw [e, ← thr32, Real.rpow_neg (by norm_num)]; norm_num)
  change ∃ r, exp10f (-(20.0 : Flt f32)) = some r ∧ WithinUlp 5.22 r ((10 : ℝ) ^ (-(20.0 : Flt f32)).val) at this
  rwa [e] at this

end Verif
