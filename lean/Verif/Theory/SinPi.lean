import Verif.Model.Gamma
import Verif.Theory.GammaR
import Verif.Theory.TrigD
import Verif.Theory.TrigF
import Verif.Theory.Exact
import Verif.Props.Integral
import Mathlib.Analysis.Real.Pi.Bounds

/-! # The sign of the sine of `π x` computed by lgamma -/

namespace Verif
open Flt

namespace SinPi
variable {F : Fmt}

theorem floor_val' {x : Flt F} (hx : x.isFinite) : (Generic.floor x).isFinite ∧ (Generic.floor x).val = (⌊x.val⌋ : ℝ) := by
  obtain ⟨h1, h2, h3⟩ := floor_finite x hx
  refine ⟨h1, ?_⟩
  unfold Flt.val
  rw [h3]
  simp

/-- a float minus a multiple of a power of two is a float when it gets no bigger -/
theorem rep {y : Flt F} (hf : y.isFinite) (hl : 2 ^ (1 - (F.bias : ℤ)) ≤ |y.val|) {t : ℝ} {h k : ℤ} (ht : t = y.val - h * 2 ^ k)
    (h1 : |t| ≤ |y.val|) (h2 : |t| ≤ 2 ^ (k + F.sb + 1)) (hk : 1 - (F.bias : ℤ) - F.sb ≤ k) : ∃ c : Flt F, c.isFinite ∧ c.val = t := by
  obtain ⟨n, e, hv, hn1, hn2, he, -⟩ := norm_form hl hf
  have htop := val_lt_top hf
  rcases le_total e k with hek | hek
  · obtain ⟨d, hd⟩ : ∃ d : ℕ, k = e + d := ⟨(k - e).toNat, by omega⟩
    have et : t = ((n - h * 2 ^ d : ℤ) : ℝ) * 2 ^ e := by
      rw [ht, hv, hd, zpow_add₀ (by norm_num), zpow_natCast]
      push_cast
      ring
    have hb : |n - h * 2 ^ d| ≤ 2 ^ (F.sb + 1) := by
      have h3 : |((n - h * 2 ^ d : ℤ) : ℝ)| * 2 ^ e ≤ |(n : ℝ)| * 2 ^ e := by
        have : |t| ≤ |y.val| := h1
        rw [et, hv, abs_mul, abs_mul, abs_of_pos (zp e)] at this
        exact this
      have h4 := le_of_mul_le_mul_right h3 (zp e)
      have h5 : |n - h * 2 ^ d| ≤ |n| := by exact_mod_cast h4
      exact h5.trans hn2.le
    obtain ⟨c, hc, hcv⟩ := exists_val (F := F) hb he (by
      rw [← abs_of_pos (zp e), ← abs_mul, ← et]
      exact h1.trans_lt htop)
    exact ⟨c, hc, by rw [hcv, et]⟩
  · obtain ⟨d, hd⟩ : ∃ d : ℕ, e = k + d := ⟨(e - k).toNat, by omega⟩
    have et : t = ((n * 2 ^ d - h : ℤ) : ℝ) * 2 ^ k := by
      rw [ht, hv, hd, zpow_add₀ (by norm_num), zpow_natCast]
      push_cast
      ring
    have hb : |n * 2 ^ d - h| ≤ 2 ^ (F.sb + 1) := by
      have h3 : |((n * 2 ^ d - h : ℤ) : ℝ)| * 2 ^ k ≤ 2 ^ (F.sb + 1) * 2 ^ k := by
        have : |t| ≤ 2 ^ (k + F.sb + 1) := h2
        rw [et, abs_mul, abs_of_pos (zp k)] at this
        rw [← zpow_natCast, ← zpow_add₀ (by norm_num), show ((F.sb + 1 : ℕ) : ℤ) + k = k + F.sb + 1 by push_cast; ring]
        exact this
      have h4 := le_of_mul_le_mul_right h3 (zp k)
      exact_mod_cast h4
    obtain ⟨c, hc, hcv⟩ := exists_val (F := F) hb hk (by
      rw [← abs_of_pos (zp k), ← abs_mul, ← et]
      exact h1.trans_lt htop)
    exact ⟨c, hc, by rw [hcv, et]⟩

/-- the reduction modulo two is exact -/
theorem red {x c2 c5 : Flt F} (hb : 3 ≤ F.bias) (hf : x.isFinite) (hx : 2 ^ (2 - (F.bias : ℤ)) ≤ x.val) (h2f : c2.isFinite) (h2 : c2.val = 2) (h5f : c5.isFinite) (h5 : c5.val = 1 / 2) :
    (c2 * (x * c5 - Generic.floor (x * c5))).isFinite ∧ (c2 * (x * c5 - Generic.floor (x * c5))).val = x.val - 2 * (⌊x.val / 2⌋ : ℝ) := by
  have hp := zp (2 - (F.bias : ℤ))
  have hx0 : 0 < x.val := by linarith
  have hxa : |x.val| = x.val := abs_of_pos hx0
  have hl : (2 : ℝ) ^ (1 - (F.bias : ℤ)) ≤ |x.val| := by
    rw [hxa]
    exact (zpow_le_zpow_right₀ (by norm_num) (by omega)).trans hx
  have hu : (x * c5).isFinite ∧ (x * c5).val = x.val / 2 := by
    obtain ⟨c, hc, hcv⟩ := scale_exact (x := x) (-1) (by
      rw [abs_mul, abs_of_pos (zp (-1)), hxa]
      rw [show (2 : ℤ) - F.bias = 1 - F.bias + 1 by ring, zpow_add₀ (by norm_num)] at hx
      norm_num at hx ⊢
      linarith) (by
      have h3 := val_lt_top hf
      rw [abs_mul, abs_of_pos (zp (-1))]
      have h4 := zp ((F.bias : ℤ) + 1)
      norm_num at h3 h4 ⊢
      linarith [abs_nonneg x.val])
    have := (mul_rne hf h5f).exact_real hc (by rw [hcv, h5]; norm_num)
    rw [h5] at this
    exact ⟨this.1, by rw [this.2]; ring⟩
  obtain ⟨g1, g3⟩ := floor_val' hu.1
  rw [hu.2] at g3
  have hfl := Int.floor_le (x.val / 2)
  have hfl2 := Int.lt_floor_add_one (x.val / 2)
  have hfl0 : (0 : ℝ) ≤ ⌊x.val / 2⌋ := by exact_mod_cast Int.floor_nonneg.2 (by linarith)
  have ht0 : 0 ≤ x.val / 2 - ⌊x.val / 2⌋ := by linarith
  have hsb := F.hsb
  have hone : (1 : ℝ) ≤ 2 ^ ((F.sb : ℤ) + 1) := one_le_zpow₀ (by norm_num) (by omega)
  have hv : (x * c5 - Generic.floor (x * c5)).isFinite ∧ (x * c5 - Generic.floor (x * c5)).val = x.val / 2 - ⌊x.val / 2⌋ := by
    obtain ⟨c, hc, hcv⟩ := rep hu.1 (by
      rw [hu.2, abs_of_pos (by linarith)]
      rw [show (2 : ℤ) - F.bias = 1 - F.bias + 1 by ring, zpow_add₀ (by norm_num)] at hx
      norm_num at hx ⊢
      linarith) (t := x.val / 2 - ⌊x.val / 2⌋) (h := ⌊x.val / 2⌋) (k := 0) (by rw [hu.2]; simp) (by
        rw [hu.2, abs_of_nonneg ht0, abs_of_pos (by linarith)]; linarith) (by
        rw [abs_of_nonneg ht0, zero_add]
        linarith) (by omega)
    have := (sub_rne hu.1 g1).exact_real hc (by rw [hcv, hu.2, g3])
    rw [hu.2, g3] at this
    exact this
  have ht2 : 0 ≤ x.val - 2 * ⌊x.val / 2⌋ := by linarith
  obtain ⟨c, hc, hcv⟩ := rep hf hl (t := x.val - 2 * ⌊x.val / 2⌋) (h := ⌊x.val / 2⌋) (k := 1) (by norm_num; ring) (by
      rw [hxa, abs_of_nonneg ht2]; linarith) (by
      rw [abs_of_nonneg ht2, show (1 : ℤ) + F.sb + 1 = (F.sb + 1) + 1 by ring, zpow_add_one₀ (by norm_num)]
      linarith) (by omega)
  have := (mul_rne h2f hv.1).exact_real hc (by rw [hcv, h2, hv.2]; ring)
  rw [h2, hv.2] at this
  exact ⟨this.1, by rw [this.2]; ring⟩

theorem n_range {y : ℝ} (h0 : 0 ≤ y) (h2 : y < 2) : let n := (⌊4 * y⌋ + 1).tdiv 2
    0 ≤ n ∧ n ≤ 4 ∧ (n : ℝ) / 2 - 1 / 4 ≤ y ∧ y < (n : ℝ) / 2 + 1 / 4 := by
  have a1 : 0 ≤ ⌊4 * y⌋ := Int.floor_nonneg.2 (by linarith)
  have a2 : ⌊4 * y⌋ < 8 := by rw [Int.floor_lt]; push_cast; linarith
  have b1 := Int.floor_le (4 * y)
  have b2 := Int.lt_floor_add_one (4 * y)
  intro n
  have hn : n = (⌊4 * y⌋ + 1) / 2 := by
    show Int.tdiv _ _ = _
    rw [Int.tdiv_eq_ediv_of_nonneg (by omega)]
  have c1 : (2 * n : ℤ) ≤ ⌊4 * y⌋ + 1 := by omega
  have c2 : ⌊4 * y⌋ ≤ 2 * n := by omega
  have c1' : (2 * (n : ℝ)) ≤ ⌊4 * y⌋ + 1 := by exact_mod_cast c1
  have c2' : (⌊4 * y⌋ : ℝ) ≤ 2 * n := by exact_mod_cast c2
  exact ⟨by omega, by omega, by linarith, by linarith⟩

theorem half_n {n : ℤ} (h0 : 0 ≤ n) (h4 : n ≤ 4) : (ofInt f64 n * 0.5).isFinite ∧ (ofInt f64 n * 0.5).val = n / 2 := by
  have key : (ofInt f64 n * 0.5).isFinite ∧ (ofInt f64 n * 0.5).sval = n * 2 ^ 1073 := by
    interval_cases n <;> decide +kernel
  refine ⟨key.1, ?_⟩
  rw [val_const64 n 1073 (-1) key.2 (by norm_num)]
  norm_num
  ring

/-- what the kernels are applied to -/
structure Arg (w : Flt f64) (z : ℝ) : Prop where
  fin : w.isFinite
  hi : |w.val| ≤ 0.7855
  pos : 0 < z → 2 ^ (-122 : ℤ) ≤ w.val
  neg : z < 0 → w.val ≤ -2 ^ (-122 : ℤ)
  zer : z = 0 → w.isZero

/-- the reduced argument -/
theorem arg {y pi : Flt f64} (hf : y.isFinite) (h0 : 0 ≤ y.val) (h2 : y.val < 2) (hg : ∃ j : ℤ, y.val = j * 2 ^ (-122 : ℤ))
    (hpf : pi.isFinite) (hp : |pi.val - 3.1415926535897931| ≤ 1 / 2 ^ 51) : let n := (⌊4 * y.val⌋ + 1).tdiv 2
    Arg ((y - ofInt f64 n * 0.5) * pi) (y.val - n / 2) := by
  obtain ⟨n0, n4, nl, nh⟩ := n_range h0 h2
  intro n
  change 0 ≤ n at n0
  change n ≤ 4 at n4
  change (n : ℝ) / 2 - 1 / 4 ≤ y.val at nl
  change y.val < (n : ℝ) / 2 + 1 / 4 at nh
  obtain ⟨q1, q2⟩ := half_n n0 n4
  obtain ⟨j, hj⟩ := hg
  have hz : (y - ofInt f64 n * 0.5).isFinite ∧ (y - ofInt f64 n * 0.5).val = y.val - n / 2 := by
    by_cases hy0 : y.val = 0
    · have hn0 : n = 0 := by
        rw [hy0] at nl
        have : (n : ℝ) < 1 := by linarith
        have : n < 1 := by exact_mod_cast this
        omega
      have := (sub_rne hf q1).exact_real (z := zero f64 false) (finite_of_zero (isZero_zero _)) (by rw [val_zero, hy0, q2, hn0]; simp)
      rw [q2] at this
      exact this
    · have hyp : 0 < y.val := lt_of_le_of_ne h0 (Ne.symm hy0)
      have hj1 : (2 : ℝ) ^ (-122 : ℤ) ≤ y.val := by
        have hjp : 0 < j := by
          rw [hj] at hyp
          have := pos_of_mul_pos_left hyp (zp (-122)).le
          exact_mod_cast this
        have : (1 : ℝ) ≤ j := by exact_mod_cast hjp
        rw [hj]
        nlinarith [zp (-122)]
      obtain ⟨c, hc, hcv⟩ := rep hf (by
        rw [f64_bias, abs_of_pos hyp]
        exact (zpow_le_zpow_right₀ (by norm_num) (by norm_num)).trans hj1) (t := y.val - n / 2) (h := n) (k := -1) (by norm_num; ring) (by
        rw [abs_of_pos hyp, abs_le]
        rcases eq_or_lt_of_le n0 with h | h
        · rw [← h]
          norm_num
          linarith
        · have : (1 : ℝ) ≤ n := by exact_mod_cast h
          constructor <;> linarith) (by
        have : |y.val - n / 2| ≤ 1 := by rw [abs_le]; constructor <;> linarith
        refine this.trans (one_le_zpow₀ (by norm_num) ?_)
        rw [f64_sb]
        norm_num) (by rw [f64_bias, f64_sb]; norm_num)
      have := (sub_rne hf q1).exact_real hc (by rw [hcv, q2])
      rw [q2] at this
      exact this
  set z := y - ofInt f64 n * 0.5
  have hzl : y.val - n / 2 ≠ 0 → 2 ^ (-122 : ℤ) ≤ |y.val - n / 2| := by
    intro hne
    have e : y.val - n / 2 = ((j - n * 2 ^ 121 : ℤ) : ℝ) * 2 ^ (-122 : ℤ) := by
      rw [hj]
      push_cast
      norm_num
      ring
    rw [e] at hne ⊢
    rw [abs_mul, abs_of_pos (zp _)]
    have : j - n * 2 ^ 121 ≠ 0 := by
      rintro h
      rw [h] at hne
      simp at hne
    have : (1 : ℝ) ≤ |((j - n * 2 ^ 121 : ℤ) : ℝ)| := by exact_mod_cast Int.one_le_abs this
    nlinarith [zp (-122)]
  have hzh : |y.val - n / 2| ≤ 1 / 4 := by rw [abs_le]; constructor <;> linarith
  rw [abs_le] at hp
  have p1 : pi.val ≤ 3.1415926535897931 + 1 / 2 ^ 51 := by linarith [hp.2]
  have p2 : 3 ≤ pi.val := by
    have := hp.1
    norm_num at this
    linarith
  have p4 : pi.val ≤ 3.1416 := by
    norm_num at p1
    linarith
  have hr := mul_rne hz.1 hpf
  rw [hz.2] at hr
  by_cases h00 : y.val - n / 2 = 0
  · have := hr.exact_real (z := zero f64 false) (finite_of_zero (isZero_zero _)) (by rw [val_zero, h00]; simp)
    rw [h00, zero_mul] at this
    exact ⟨this.1, by rw [this.2]; norm_num, by rw [h00]; intro h; exact absurd h (lt_irrefl _), by rw [h00]; intro h; exact absurd h (lt_irrefl _),
      fun _ => isZero_val.2 this.2⟩
  · have hlo := hzl h00
    have hq : |(y.val - n / 2) * pi.val| = |y.val - n / 2| * pi.val := by rw [abs_mul, abs_of_pos (a := pi.val) (by linarith)]
    have hql : 3 * (2 : ℝ) ^ (-122 : ℤ) ≤ |(y.val - n / 2) * pi.val| := by
      rw [hq]
      nlinarith [abs_nonneg (y.val - n / 2)]
    have hqh : |(y.val - n / 2) * pi.val| ≤ 0.7854 := by
      rw [hq]
      nlinarith [abs_nonneg (y.val - n / 2)]
    have hrel := hr.rel (by
      rw [f64_bias]
      exact (zpow_le_zpow_right₀ (by norm_num) (by norm_num)).trans ((by linarith [zp (-122)] : (2 : ℝ) ^ (-122 : ℤ) ≤ _).trans hql)) (by
      rw [f64_bias]
      refine hqh.trans (le_trans (by norm_num : (0.7854 : ℝ) ≤ 3 / 2 * 1) ?_)
      apply mul_le_mul_of_nonneg_left _ (by norm_num)
      exact one_le_zpow₀ (by norm_num) (by norm_num))
    obtain ⟨hfin, herr⟩ := hrel
    rw [f64_sb] at herr
    set Q := (y.val - n / 2) * pi.val with hQ
    have herr' : |(z * pi).val - Q| ≤ |Q| / 2 ^ 53 := by
      refine herr.trans (le_of_eq ?_)
      norm_num
      ring
    have hab := abs_le.1 herr'
    refine ⟨hfin, ?_, fun hp => ?_, fun hn => ?_, fun h => absurd h h00⟩
    · rw [abs_le] at hqh ⊢
      have : |Q| / 2 ^ 53 ≤ 1 / 2 ^ 20 := by
        rw [div_le_iff₀ (by norm_num)]
        have := abs_le.2 hqh
        norm_num at this ⊢
        linarith
      constructor <;> norm_num at * <;> linarith [hab.1, hab.2, hqh.1, hqh.2]
    · have hQp : 0 < Q := mul_pos hp (by linarith)
      rw [abs_of_pos hQp] at hql hab
      have : Q / 2 ^ 53 ≤ Q / 2 := by
        apply div_le_div_of_nonneg_left hQp.le (by norm_num) (by norm_num)
      have h3 := hab.1
      have h4 := zp (-122)
      generalize (2 : ℝ) ^ (-122 : ℤ) = B at hql h4 ⊢
      linarith
    · have hQp : Q < 0 := mul_neg_of_neg_of_pos hn (by linarith)
      rw [abs_of_neg hQp] at hql hab
      have : -Q / 2 ^ 53 ≤ -Q / 2 := by
        apply div_le_div_of_nonneg_left (by linarith) (by norm_num) (by norm_num)
      have h3 := hab.2
      have h4 := zp (-122)
      generalize (2 : ℝ) ^ (-122 : ℤ) = B at hql h4 ⊢
      linarith

/-- the signs of the kernels -/
structure Kern {G : Fmt} (S C : Flt f64 → Flt G) : Prop where
  zer : ∀ w, w.isZero → (S w).isZero
  pos : ∀ w, w.isFinite → |w.val| ≤ 0.7855 → 2 ^ (-122 : ℤ) ≤ w.val → (S w).isFinite ∧ 0 < (S w).val
  neg : ∀ w, w.isFinite → |w.val| ≤ 0.7855 → w.val ≤ -2 ^ (-122 : ℤ) → (S w).isFinite ∧ (S w).val < 0
  cos : ∀ w, w.isFinite → |w.val| ≤ 0.7855 → (C w).isFinite ∧ 0 < (C w).val

theorem rne_pos {q : ℝ} {r : Flt F} (h : IsRNE q r) (hb : 126 ≤ F.bias) (h1 : 2 ^ (-123 : ℤ) ≤ q) (h2 : q ≤ 2) : r.isFinite ∧ 0 < r.val := by
  have hp := zp (-123)
  have hq : |q| = q := abs_of_pos (by linarith)
  have := h.rel (by
    rw [hq]
    exact (zpow_le_zpow_right₀ (by norm_num) (by omega)).trans h1) (by
    rw [hq]
    refine h2.trans ?_
    have : (2 : ℝ) ^ (1 : ℤ) ≤ 2 ^ (F.bias : ℤ) := zpow_le_zpow_right₀ (by norm_num) (by omega)
    norm_num at this ⊢
    linarith)
  refine ⟨this.1, ?_⟩
  have h3 := (abs_le.1 this.2).1
  have h4 : (2 : ℝ) ^ (-1 - (F.sb : ℤ)) ≤ 1 / 2 := by
    have : (2 : ℝ) ^ (-1 - (F.sb : ℤ)) ≤ 2 ^ (-1 : ℤ) := zpow_le_zpow_right₀ (by norm_num) (by omega)
    norm_num at this ⊢
    exact this
  rw [hq] at h3
  nlinarith

theorem rne_neg {q : ℝ} {r : Flt F} (h : IsRNE q r) (hb : 126 ≤ F.bias) (h1 : q ≤ -2 ^ (-123 : ℤ)) (h2 : -2 ≤ q) : r.isFinite ∧ r.val < 0 := by
  have hp := zp (-123)
  have hq : |q| = -q := abs_of_neg (by linarith)
  have := h.rel (by
    rw [hq]
    exact (zpow_le_zpow_right₀ (by norm_num) (by omega)).trans (by linarith : (2 : ℝ) ^ (-123 : ℤ) ≤ -q)) (by
    rw [hq]
    refine (by linarith : -q ≤ 2).trans ?_
    have : (2 : ℝ) ^ (1 : ℤ) ≤ 2 ^ (F.bias : ℤ) := zpow_le_zpow_right₀ (by norm_num) (by omega)
    norm_num at this ⊢
    linarith)
  refine ⟨this.1, ?_⟩
  have h3 := (abs_le.1 this.2).2
  have h4 : (2 : ℝ) ^ (-1 - (F.sb : ℤ)) ≤ 1 / 2 := by
    have : (2 : ℝ) ^ (-1 - (F.sb : ℤ)) ≤ 2 ^ (-1 : ℤ) := zpow_le_zpow_right₀ (by norm_num) (by omega)
    norm_num at this ⊢
    exact this
  rw [hq] at h3
  nlinarith

theorem kern_of {G : Fmt} {S C : Flt f64 → Flt G} (hb : 126 ≤ G.bias) (hz : ∀ w, w.isZero → (S w).isZero)
    (hS : ∀ w : Flt f64, w.isFinite → |w.val| ≤ 3219 / 4096 → 2 ^ (-900 : ℤ) ≤ |w.val| → ∃ q : ℝ, IsRNE q (S w) ∧ |q - Real.sin w.val| ≤ 1 / 2 ^ 36 * |w.val|)
    (hC : ∀ w : Flt f64, w.isFinite → |w.val| ≤ 3219 / 4096 → ∃ q : ℝ, IsRNE q (C w) ∧ |q - Real.cos w.val| ≤ 3 / 2 ^ 35) : Kern S C where
  zer := hz
  pos w hf hw hl := by
    have hp := zp (-122)
    have ha : |w.val| = w.val := abs_of_pos (by linarith)
    obtain ⟨q, h1, h2⟩ := hS w hf (hw.trans (by norm_num)) (by rw [ha]; exact (zpow_le_zpow_right₀ (by norm_num) (by norm_num)).trans hl)
    have h3 := Real.mul_le_sin (x := w.val) (by linarith) (by
      have := Real.pi_gt_three
      rw [ha] at hw
      norm_num at hw
      linarith)
    have h4 : 1 / 2 * w.val + 1 / 2 ^ 36 * w.val ≤ 2 / Real.pi * w.val := by
      rw [← add_mul]
      apply mul_le_mul_of_nonneg_right _ (by linarith)
      rw [le_div_iff₀ Real.pi_pos]
      have := Real.pi_lt_d2
      norm_num at this ⊢
      linarith
    rw [ha] at h2
    have h5 := abs_le.1 h2
    have h6 := Real.sin_le_one w.val
    refine rne_pos h1 hb ?_ ?_
    · have : (2 : ℝ) ^ (-123 : ℤ) = 2 ^ (-122 : ℤ) / 2 := by
        rw [show (-122 : ℤ) = -123 + 1 by norm_num, zpow_add_one₀ (by norm_num)]; ring
      rw [this]
      have h7 := h5.1
      generalize 2 / Real.pi * w.val = P at h3 h4
      generalize (2 : ℝ) ^ (-122 : ℤ) = B at hl ⊢
      linarith
    · rw [ha] at hw
      norm_num at h5 hw ⊢
      linarith [h5.2]
  neg w hf hw hl := by
    have hp := zp (-122)
    have ha : |w.val| = -w.val := abs_of_neg (by linarith)
    obtain ⟨q, h1, h2⟩ := hS w hf (hw.trans (by norm_num)) (by rw [ha]; exact (zpow_le_zpow_right₀ (by norm_num) (by norm_num)).trans (by linarith : (2 : ℝ) ^ (-122 : ℤ) ≤ -w.val))
    have h3 := Real.mul_le_sin (x := -w.val) (by linarith) (by
      have := Real.pi_gt_three
      rw [ha] at hw
      norm_num at hw
      linarith)
    rw [Real.sin_neg] at h3
    have h4 : 1 / 2 * -w.val + 1 / 2 ^ 36 * -w.val ≤ 2 / Real.pi * -w.val := by
      rw [← add_mul]
      apply mul_le_mul_of_nonneg_right _ (by linarith)
      rw [le_div_iff₀ Real.pi_pos]
      have := Real.pi_lt_d2
      norm_num at this ⊢
      linarith
    rw [ha] at h2
    have h5 := abs_le.1 h2
    have h6 := Real.neg_one_le_sin w.val
    refine rne_neg h1 hb ?_ ?_
    · have : (2 : ℝ) ^ (-123 : ℤ) = 2 ^ (-122 : ℤ) / 2 := by
        rw [show (-122 : ℤ) = -123 + 1 by norm_num, zpow_add_one₀ (by norm_num)]; ring
      rw [this]
      have h7 := h5.2
      generalize 2 / Real.pi * -w.val = P at h3 h4
      generalize (2 : ℝ) ^ (-122 : ℤ) = B at hl ⊢
      linarith
    · rw [ha] at hw
      norm_num at h5 hw
      linarith [h5.1]
  cos w hf hw := by
    obtain ⟨q, h1, h2⟩ := hC w hf (hw.trans (by norm_num))
    have h3 := cos_lower (r := w.val) (hw.trans (by norm_num))
    have h4 := Real.cos_le_one w.val
    have h5 := abs_le.1 h2
    refine rne_pos h1 hb ?_ ?_
    · have : (2 : ℝ) ^ (-123 : ℤ) ≤ 2 ^ (-2 : ℤ) := zpow_le_zpow_right₀ (by norm_num) (by norm_num)
      norm_num at this h5 h3 ⊢
      linarith [h5.1]
    · norm_num at h5
      linarith [h5.2]

theorem kernF : Kern kSinf kCosf := by
  refine kern_of (by rw [f32_bias]; norm_num) ?_ (fun w => kSinf_acc) (fun w => kCosf_acc)
  intro w hw
  rw [eq_zero hw]
  generalize w.sign = s
  cases s <;> decide +kernel

theorem kernD : Kern (fun w => kSin w 0.0 0) (fun w => kCos w 0.0) := by
  refine kern_of (by rw [f64_bias]; norm_num) ?_ ?_ ?_
  · intro w hw
    rw [eq_zero hw]
    generalize w.sign = s
    cases s <;> decide +kernel
  · intro w hf hw hl
    obtain ⟨q, h1, h2⟩ := KernD.sin0 (y := 0.0) hf (by norm_num at hw ⊢; exact hw) hl
    refine ⟨q, h1, ?_⟩
    have h3 := KernD.poly_sin hw
    have := abs_sub_le q (w.val * Poly.ev KernD.sinPoly (w.val ^ 2)) (Real.sin w.val)
    have h4 := abs_nonneg w.val
    norm_num at this h2 h3 ⊢
    linarith
  · intro w hf hw
    have z0 : (0.0 : Flt f64).isZero := by decide +kernel
    have zv := isZero_val.1 z0
    obtain ⟨q, h1, h2⟩ := KernD.cos_core (y := 0.0) hf hw (finite_of_zero z0) (by rw [zv, abs_zero]; exact mul_nonneg (by norm_num) (abs_nonneg _))
    refine ⟨q, h1, ?_⟩
    rw [zv, mul_zero, sub_zero] at h2
    have h3 := KernD.poly_cos hw
    have := abs_sub_le q (Poly.ev KernD.cosPoly (w.val ^ 2)) (Real.cos w.val)
    norm_num at *
    linarith

/-- the last step of both functions -/
theorem final {G : Fmt} {S C : Flt f64 → Flt G} (K : Kern S C) {w : Flt f64} {n : ℤ} {y : ℝ} (h0 : 0 ≤ y) (h2 : y < 2)
    (hn : n = (⌊4 * y⌋ + 1).tdiv 2) (A : Arg w (y - n / 2)) {t : Flt G}
    (ht : t = if n = 1 then C w else if n = 2 then S (-w) else if n = 3 then -C w else S w) :
    t.isFinite ∧ (t.val = 0 ↔ y = 0 ∨ y = 1) ∧ (0 < t.val ↔ 0 < y ∧ y < 1) := by
  obtain ⟨n0, n4, nl, nh⟩ := n_range h0 h2
  rw [← hn] at n0 n4 nl nh
  obtain ⟨c1, c2⟩ := K.cos w A.fin A.hi
  have hcase : n = 0 ∨ n = 1 ∨ n = 2 ∨ n = 3 ∨ n = 4 := by omega
  clear hn
  rcases hcase with rfl | rfl | rfl | rfl | rfl
  · norm_num at ht nl nh A
    subst ht
    rcases eq_or_lt_of_le h0 with h | h
    · have := K.zer w (A.zer h.symm)
      have hv := isZero_val.1 this
      refine ⟨finite_of_zero this, ?_, ?_⟩
      · simp [hv, ← h]
      · simp [hv, ← h]
    · obtain ⟨a, b⟩ := K.pos w A.fin A.hi (A.pos h)
      refine ⟨a, ?_, ?_⟩
      · constructor
        · intro h; linarith
        · rintro (h | h) <;> linarith
      · exact ⟨fun _ => ⟨h, by linarith⟩, fun _ => b⟩
  · norm_num at ht nl nh
    subst ht
    refine ⟨c1, ?_, ?_⟩
    · constructor
      · intro h; linarith
      · rintro (h | h) <;> linarith
    · exact ⟨fun _ => ⟨by linarith, by linarith⟩, fun _ => c2⟩
  · norm_num at ht nl nh A
    subst ht
    have f1 : (-w).isFinite := by simpa using A.fin
    have f2 : |(-w).val| ≤ 0.7855 := by rw [val_neg, abs_neg]; exact A.hi
    rcases lt_trichotomy (y - 1) 0 with h | h | h
    · obtain ⟨a, b⟩ := K.pos (-w) f1 f2 (by rw [val_neg]; linarith [A.neg h])
      refine ⟨a, ?_, ?_⟩
      · constructor
        · intro h; linarith
        · rintro (h | h) <;> linarith
      · exact ⟨fun _ => ⟨by linarith, by linarith⟩, fun _ => b⟩
    · have := K.zer (-w) (by simpa using A.zer h)
      have hv := isZero_val.1 this
      refine ⟨finite_of_zero this, ?_, ?_⟩
      · rw [hv]
        simp only [true_iff]
        right; linarith
      · rw [hv]
        simp only [lt_irrefl, false_iff]
        intro h3; linarith [h3.2]
    · obtain ⟨a, b⟩ := K.neg (-w) f1 f2 (by rw [val_neg]; linarith [A.pos h])
      refine ⟨a, ?_, ?_⟩
      · constructor
        · intro h; linarith
        · rintro (h | h) <;> linarith
      · exact ⟨fun h => by linarith, fun h => by linarith [h.2]⟩
  · norm_num at ht nl nh
    subst ht
    refine ⟨by simpa using c1, ?_, ?_⟩
    · rw [val_neg]
      constructor
      · intro h; linarith
      · rintro (h | h) <;> linarith
    · rw [val_neg]
      exact ⟨fun h => by linarith, fun h => by linarith [h.2]⟩
  · norm_num at ht nl nh A
    subst ht
    obtain ⟨a, b⟩ := K.neg w A.fin A.hi (A.neg (by linarith))
    refine ⟨a, ?_, ?_⟩
    · constructor
      · intro h; linarith
      · rintro (h | h) <;> linarith
    · exact ⟨fun h => by linarith, fun h => by linarith [h.2]⟩

end SinPi
end Verif
