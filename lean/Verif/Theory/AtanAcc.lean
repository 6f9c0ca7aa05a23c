import Verif.Theory.InvKern
import Verif.Theory.LogHi
import Verif.Props.InvTrig
import Verif.Props.TrigAcc

/-!
# `atan`, `atanf`: within one unit in the last place of the real arctangent
-/

namespace Verif
open Flt InvTrig

namespace Poly
open Finset
/-- coefficients of `(s - arctan s) / s³` in `s²` -/
def atc (n : ℕ) : List ℚ := (List.range n).map fun i : ℕ => (-1) ^ i / (2 * (i : ℚ) + 3)

theorem arctan_series (n : ℕ) {s : ℝ} (h : |s| ≤ 1 / 2) :
    |Real.arctan s - (s - s * (s ^ 2 * ev (atc n) (s ^ 2)))| ≤ |s| * (s ^ 2) ^ (n + 1) := by
  have hz : s ^ 2 ≤ 1 / 4 := by rw [← sq_abs]; nlinarith [abs_nonneg s]
  have hz0 : 0 ≤ s ^ 2 := _root_.sq_nonneg s
  have hs := Real.hasSum_arctan (x := s) (by rw [Real.norm_eq_abs]; exact lt_of_le_of_lt h (by norm_num))
  have ht := (hasSum_nat_add_iff' (n + 1)).2 hs
  have e1 : ∑ i ∈ range (n + 1), (-1 : ℝ) ^ i * s ^ (2 * i + 1) / ((2 * i + 1 : ℕ) : ℝ) = s - s * (s ^ 2 * ev (atc n) (s ^ 2)) := by
    rw [sum_range_succ', atc, ev_map_range, mul_sum, mul_sum, _root_.add_comm, sub_eq_add_neg, ← sum_neg_distrib]
    congr 1
    · norm_num
    · refine sum_congr rfl fun i _ => ?_
      push_cast
      have : s ^ (2 * (i + 1) + 1) = s * (s ^ 2 * (s ^ 2) ^ i) := by rw [pow_succ, pow_mul, pow_succ]; ring
      rw [this]
      have : (2 : ℝ) * ((i : ℝ) + 1) + 1 = 2 * i + 3 := by ring
      rw [this, pow_succ]; ring
  rw [e1] at ht
  rw [← ht.tsum_eq, ← Real.norm_eq_abs]
  have hg : HasSum (fun k : ℕ => 2 / 3 * (|s| * (s ^ 2) ^ (n + 1)) * (1 / 4 : ℝ) ^ k) (2 / 3 * (|s| * (s ^ 2) ^ (n + 1)) * (1 - 1 / 4)⁻¹) :=
    (hasSum_geometric_of_lt_one (by norm_num) (by norm_num)).mul_left _
  refine (tsum_of_norm_bounded hg fun k => ?_).trans ?_
  · rw [Real.norm_eq_abs, abs_div, abs_mul, abs_pow, abs_pow, abs_neg, abs_one, one_pow, one_mul]
    have e2 : |s| ^ (2 * (k + (n + 1)) + 1) = |s| * ((s ^ 2) ^ (n + 1) * (s ^ 2) ^ k) := by
      rw [pow_succ, pow_mul, sq_abs, pow_add]; ring
    rw [e2, div_eq_inv_mul]
    have e3 : |((2 * (k + (n + 1)) + 1 : ℕ) : ℝ)|⁻¹ ≤ 2 / 3 := by
      rw [abs_of_nonneg (by positivity)]
      refine (inv_le_comm₀ (by positivity) (by norm_num)).2 ?_
      push_cast
      have : (0 : ℝ) ≤ k := Nat.cast_nonneg k
      have : (0 : ℝ) ≤ n := Nat.cast_nonneg n
      norm_num
      linarith
    have e4 : (s ^ 2) ^ k ≤ (1 / 4 : ℝ) ^ k := pow_le_pow_left₀ hz0 hz k
    have e5 : (0 : ℝ) ≤ |s| * (s ^ 2) ^ (n + 1) := by positivity
    calc _ ≤ 2 / 3 * (|s| * ((s ^ 2) ^ (n + 1) * (s ^ 2) ^ k)) := mul_le_mul_of_nonneg_right e3 (by positivity)
      _ = 2 / 3 * (|s| * (s ^ 2) ^ (n + 1)) * (s ^ 2) ^ k := by ring
      _ ≤ _ := mul_le_mul_of_nonneg_left e4 (by positivity)
  · have e5 : (0 : ℝ) ≤ |s| * (s ^ 2) ^ (n + 1) := by positivity
    norm_num
    linarith

/-- the value at one point, through the checker -/
theorem at_point {p : List ℚ} {a c B : ℚ} (h : check (add p [-c]) a (1 / 2 ^ 90) B 1 = true) : |ev p (a : ℝ) - c| ≤ B := by
  have := bound h (by norm_num) (by norm_num) (a : ℝ) le_rfl (by norm_num)
  rw [ev_add] at this
  simpa [ev, sub_eq_add_neg] using this
end Poly

/-- the arctangent contracts distances -/
theorem arctan_lip (a b : ℝ) : |Real.arctan a - Real.arctan b| ≤ |a - b| := by
  have := Convex.norm_image_sub_le_of_norm_deriv_le (f := Real.arctan) (C := 1) (s := Set.univ) (x := b) (y := a)
    (fun x _ => Real.differentiableAt_arctan x) (fun x _ => by
      rw [Real.deriv_arctan, Real.norm_eq_abs, abs_of_pos (by positivity)]
      rw [div_le_one (by positivity)]
      nlinarith [_root_.sq_nonneg x]) convex_univ (Set.mem_univ _) (Set.mem_univ _)
  rwa [Real.norm_eq_abs, Real.norm_eq_abs, one_mul] at this

theorem arctan_abs_le (t : ℝ) : |Real.arctan t| ≤ |t| := by
  have := arctan_lip t 0
  rwa [Real.arctan_zero, sub_zero, sub_zero] at this

/-- `(s - arctan s) / s` is at most `s² / 3`, with a margin -/
theorem arctan_small {s : ℝ} (h : |s| ≤ 1 / 2) : |Real.arctan s - s| ≤ |s| * (s ^ 2 * (1 / 3 + s ^ 2)) := by
  have := Poly.arctan_series 1 h
  have e : Poly.ev (Poly.atc 1) (s ^ 2) = 1 / 3 := by simp [Poly.atc, Poly.ev, List.range_succ]
  rw [e] at this
  have e2 : Real.arctan s - s = (Real.arctan s - (s - s * (s ^ 2 * (1 / 3)))) - s * (s ^ 2 * (1 / 3)) := by ring
  rw [e2]
  refine (abs_sub _ _).trans ?_
  have e3 : |s * (s ^ 2 * (1 / 3))| = |s| * (s ^ 2 * (1 / 3)) := by rw [abs_mul, abs_of_nonneg (a := s ^ 2 * (1 / 3)) (by positivity)]
  rw [e3]
  calc _ ≤ |s| * (s ^ 2) ^ (1 + 1) + |s| * (s ^ 2 * (1 / 3)) := add_le_add this le_rfl
    _ = _ := by ring

theorem ahalf_check : Poly.check (Poly.add (Poly.atc 36) [-(87894688167303868747803 / 2 ^ 78)]) (1/4) (1 / 2 ^ 90) (1 / 2 ^ 78) 1 = true := by decide +kernel
theorem arctan_half_near : |Real.arctan (1/2) - (273689241076007154775 / 2 ^ 69)| ≤ 1 / 2 ^ 67 := by
  have h1 := Poly.arctan_series 36 (s := 1/2) (by norm_num [abs_of_pos])
  have h2 := Poly.at_point ahalf_check
  have e : ((1/2 : ℝ)) ^ 2 = ((1/4 : ℚ) : ℝ) := by norm_num
  rw [e] at h1
  push_cast at h1 h2
  generalize Poly.ev (Poly.atc 36) _ = v at h1 h2
  have hp : |(1/2 : ℝ)| = 1/2 := abs_of_pos (by norm_num)
  rw [hp] at h1
  rw [abs_le] at h1 h2 ⊢
  norm_num at h1 h2 ⊢
  constructor <;> linarith [h1.1, h1.2, h2.1, h2.2]
theorem aeighth_check : Poly.check (Poly.add (Poly.atc 14) [-(199619519030358406786317 / 2 ^ 79)]) (1/64) (1 / 2 ^ 90) (1 / 2 ^ 78) 1 = true := by decide +kernel
theorem arctan_eighth_near : |Real.arctan (1/8) - (587249858225063708249 / 2 ^ 72)| ≤ 1 / 2 ^ 67 := by
  have h1 := Poly.arctan_series 14 (s := 1/8) (by norm_num [abs_of_pos])
  have h2 := Poly.at_point aeighth_check
  have e : ((1/8 : ℝ)) ^ 2 = ((1/64 : ℚ) : ℝ) := by norm_num
  rw [e] at h1
  push_cast at h1 h2
  generalize Poly.ev (Poly.atc 14) _ = v at h1 h2
  have hp : |(1/8 : ℝ)| = 1/8 := abs_of_pos (by norm_num)
  rw [hp] at h1
  rw [abs_le] at h1 h2 ⊢
  norm_num at h1 h2 ⊢
  constructor <;> linarith [h1.1, h1.2, h2.1, h2.2]

theorem arctan_add_pos {a b c : ℝ} (ha : 0 ≤ a) (hab : -1 < a * b) (hc : c = (a + b) / (1 - a * b)) (h : a * b < 1) : Real.arctan c = Real.arctan a + Real.arctan b := by
  rw [hc, Real.arctan_add h]

theorem arctan_three_halves : Real.arctan (3 / 2) = Real.pi / 2 - (Real.arctan (1 / 2) + Real.arctan (1 / 8)) := by
  rw [Real.arctan_add (by norm_num)]
  have := Real.arctan_inv_of_pos (x := 3 / 2) (by norm_num)
  rw [show ((3 / 2 : ℝ))⁻¹ = (1 / 2 + 1 / 8) / (1 - 1 / 2 * (1 / 8)) by norm_num] at this
  rw [this]; ring

theorem arctan_lt_bias {F : Fmt} (h : 4 ≤ F.bias) (X : ℝ) : |Real.arctan X| < 2 ^ ((F.bias : ℤ) - 1) := by
  have h1 := Real.arctan_lt_pi_div_two X
  have h2 := Real.neg_pi_div_two_lt_arctan X
  have h3 := Real.pi_lt_four
  have h4 : |Real.arctan X| < 2 := by rw [abs_lt]; constructor <;> linarith
  refine h4.trans_le ?_
  calc (2 : ℝ) = 2 ^ (1 : ℤ) := by norm_num
    _ ≤ _ := zpow_le_zpow_right₀ (by norm_num) (by omega)

theorem zp_le_quarter {k : ℤ} (h : k ≤ -2) : (2 : ℝ) ^ k ≤ 1 / 4 := (zpow_le_zpow_right₀ (by norm_num) h).trans (by norm_num)
theorem two_le_zp {k : ℤ} (h : 1 ≤ k) : (2 : ℝ) ≤ 2 ^ k := le_trans (by norm_num) (zpow_le_zpow_right₀ (by norm_num) h)

/-- the quotient by an approximate denominator -/
theorem quot_err {N D D' T e L : ℝ} (hT : |N / D| ≤ T) (hD : 0 < D) (hL0 : 0 < L) (hL : L ≤ D') (he : |D' - D| ≤ e) : |N / D' - N / D| ≤ T * e / L := by
  have hD' : 0 < D' := lt_of_lt_of_le hL0 hL
  have e1 : N / D' - N / D = -(N / D * (D' - D) / D') := by field_simp; ring
  have hT0 := (abs_nonneg _).trans hT
  have he0 := (abs_nonneg _).trans he
  rw [e1, abs_neg, abs_div, abs_mul, abs_of_pos hD']
  exact div_le_div₀ (mul_nonneg hT0 he0) (mul_le_mul hT he (abs_nonneg _) hT0) hL0 hL

/-- the last step: the sum of the errors of the branches above `7/16` -/
theorem atan_sum {h l b C y t P s d1 d2 d3 d4 : ℝ} (h1 : |h + l - b| ≤ d1) (h2 : |C - (y * P - l - y)| ≤ d2) (h3 : |y - y * P - Real.arctan y| ≤ d3) (h4 : |y - t| ≤ d4)
    (hs : d1 + d2 + d3 + d4 ≤ s) : |h - C - (b + Real.arctan t)| ≤ s := by
  have h5 := (arctan_lip y t).trans h4
  rw [abs_le] at *
  constructor <;> linarith [h1.1, h1.2, h2.1, h2.2, h3.1, h3.2, h5.1, h5.2]

namespace Atan
def errPoly : List ℚ := Poly.add (0 :: pl) (Poly.smul (-1) (0 :: Poly.atc 28))
theorem err_check : Poly.check errPoly 0 (49 / 65536) (1 / 2 ^ 57) 128 = true := by decide +kernel

/-- the polynomial with exact arithmetic -/
theorem approx {s : ℝ} (h : |s| ≤ 7 / 16) : |s - s * (s ^ 2 * Poly.ev pl (s ^ 2)) - Real.arctan s| ≤ |s| * ((1 / 2 ^ 57) * 1.01) := by
  have hz0 : 0 ≤ s ^ 2 := _root_.sq_nonneg s
  have hz : s ^ 2 ≤ 49 / 256 := by
    have : |s| ^ 2 ≤ (7 / 16) ^ 2 := pow_le_pow_left₀ (abs_nonneg _) h 2
    rw [sq_abs] at this; norm_num at this ⊢; linarith
  have h1 := Poly.arctan_series 28 (s := s) (h.trans (by norm_num))
  have h2 := Poly.bound err_check (by norm_num) (by norm_num) (s ^ 2) (by push_cast; exact hz0) (by push_cast; norm_num at hz ⊢; linarith)
  rw [errPoly, Poly.ev_add, Poly.ev_smul] at h2
  simp only [Poly.ev.eq_2 _ 0] at h2
  push_cast at h2
  have h3 : (s ^ 2) ^ (28 + 1) ≤ (1 / 2 ^ 57) * 0.01 := (pow_le_pow_left₀ hz0 hz _).trans (by norm_num)
  set P := Poly.ev pl (s ^ 2)
  set T := Poly.ev (Poly.atc 28) (s ^ 2)
  have e : s - s * (s ^ 2 * P) - Real.arctan s = -(s * (0 + s ^ 2 * P + -1 * (0 + s ^ 2 * T))) - (Real.arctan s - (s - s * (s ^ 2 * T))) := by ring
  rw [e]
  refine (abs_sub _ _).trans ?_
  rw [abs_neg, abs_mul]
  have a1 := mul_le_mul_of_nonneg_left h2 (abs_nonneg s)
  have a2 := h1.trans (mul_le_mul_of_nonneg_left h3 (abs_nonneg s))
  have : |s| * ((1 / 2 ^ 57) * 1.01) = |s| * (1 / 2 ^ 57) + |s| * ((1 / 2 ^ 57) * 0.01) := by ring
  rw [this]
  exact add_le_add a1 a2

theorem hi0_val : ((4.63647609000806093515e-01 : Flt f64)).val = (8352332796509007 : ℝ) * 2 ^ (-54 : ℤ) := by
  rw [val_const64 (x := (4.63647609000806093515e-01 : Flt f64)) (8352332796509007) 1020 (-54) (by decide +kernel) (by norm_num)]; norm_num
theorem lo0_val : ((2.26987774529616870924e-17 : Flt f64)).val = (3683087214424817 : ℝ) * 2 ^ (-107 : ℤ) := by
  rw [val_const64 (x := (2.26987774529616870924e-17 : Flt f64)) (3683087214424817) 967 (-107) (by decide +kernel) (by norm_num)]; norm_num
theorem base0 : |((4.63647609000806093515e-01 : Flt f64)).val + ((2.26987774529616870924e-17 : Flt f64)).val - Real.arctan (1 / 2)| ≤ (1 / 2 ^ 64) := by
  rw [hi0_val, lo0_val]
  have p1 := Real.pi_gt_d20
  have p2 := Real.pi_lt_d20
  have a := abs_le.1 arctan_half_near
  have b := abs_le.1 arctan_eighth_near
  rw [abs_le]
  norm_num at p1 p2 a b ⊢
  constructor <;> linarith [a.1, a.2, b.1, b.2]
theorem hi1_val : ((7.85398163397448278999e-01 : Flt f64)).val = (884279719003555 : ℝ) * 2 ^ (-50 : ℤ) := by
  rw [val_const64 (x := (7.85398163397448278999e-01 : Flt f64)) (884279719003555) 1024 (-50) (by decide +kernel) (by norm_num)]; norm_num
theorem lo1_val : ((3.06161699786838301793e-17 : Flt f64)).val = (4967757600021511 : ℝ) * 2 ^ (-107 : ℤ) := by
  rw [val_const64 (x := (3.06161699786838301793e-17 : Flt f64)) (4967757600021511) 967 (-107) (by decide +kernel) (by norm_num)]; norm_num
theorem base1 : |((7.85398163397448278999e-01 : Flt f64)).val + ((3.06161699786838301793e-17 : Flt f64)).val - Real.pi / 4| ≤ (1 / 2 ^ 64) := by
  rw [hi1_val, lo1_val]
  have p1 := Real.pi_gt_d20
  have p2 := Real.pi_lt_d20
  have a := abs_le.1 arctan_half_near
  have b := abs_le.1 arctan_eighth_near
  rw [abs_le]
  norm_num at p1 p2 a b ⊢
  constructor <;> linarith [a.1, a.2, b.1, b.2]
theorem hi2_val : ((9.82793723247329054082e-01 : Flt f64)).val = (8852218891597467 : ℝ) * 2 ^ (-53 : ℤ) := by
  rw [val_const64 (x := (9.82793723247329054082e-01 : Flt f64)) (8852218891597467) 1021 (-53) (by decide +kernel) (by norm_num)]; norm_num
theorem lo2_val : ((1.39033110312309984516e-17 : Flt f64)).val = (4511882386918333 : ℝ) * 2 ^ (-108 : ℤ) := by
  rw [val_const64 (x := (1.39033110312309984516e-17 : Flt f64)) (4511882386918333) 966 (-108) (by decide +kernel) (by norm_num)]; norm_num
theorem base2 : |((9.82793723247329054082e-01 : Flt f64)).val + ((1.39033110312309984516e-17 : Flt f64)).val - Real.arctan (3 / 2)| ≤ (1 / 2 ^ 64) := by
  rw [hi2_val, lo2_val, arctan_three_halves]
  have p1 := Real.pi_gt_d20
  have p2 := Real.pi_lt_d20
  have a := abs_le.1 arctan_half_near
  have b := abs_le.1 arctan_eighth_near
  rw [abs_le]
  norm_num at p1 p2 a b ⊢
  constructor <;> linarith [a.1, a.2, b.1, b.2]
theorem hi3_val : ((1.57079632679489655800e+00 : Flt f64)).val = (884279719003555 : ℝ) * 2 ^ (-49 : ℤ) := by
  rw [val_const64 (x := (1.57079632679489655800e+00 : Flt f64)) (884279719003555) 1025 (-49) (by decide +kernel) (by norm_num)]; norm_num
theorem lo3_val : ((6.12323399573676603587e-17 : Flt f64)).val = (4967757600021511 : ℝ) * 2 ^ (-106 : ℤ) := by
  rw [val_const64 (x := (6.12323399573676603587e-17 : Flt f64)) (4967757600021511) 968 (-106) (by decide +kernel) (by norm_num)]; norm_num
theorem base3 : |((1.57079632679489655800e+00 : Flt f64)).val + ((6.12323399573676603587e-17 : Flt f64)).val - Real.pi / 2| ≤ (1 / 2 ^ 64) := by
  rw [hi3_val, lo3_val]
  have p1 := Real.pi_gt_d20
  have p2 := Real.pi_lt_d20
  have a := abs_le.1 arctan_half_near
  have b := abs_le.1 arctan_eighth_near
  rw [abs_le]
  norm_num at p1 p2 a b ⊢
  constructor <;> linarith [a.1, a.2, b.1, b.2]

/-- table entry 0, reduced argument at most 0.0513 -/
theorem val_a {y : Flt f64} {t X : ℝ} (yf : y.isFinite) (ht : |t| ≤ 513 / 10000) (he : |y.val - t| ≤ (301 / 2 ^ 65)) (hX : Real.arctan X = Real.arctan (1 / 2) + Real.arctan t) (hj : 2 ^ (-2 : ℤ) ≤ |Real.arctan X|) :
    WithinUlp 0.99 (atanVal 4.63647609000806093515e-01 2.26987774529616870924e-17 y) (Real.arctan X) := by
  have yb : |y.val| ≤ (1681 / 2 ^ 15) := by
    have := abs_sub_abs_le_abs_sub y.val t
    norm_num at this he ht ⊢; linarith
  have hy : Ap y y.val 0 (1681 / 2 ^ 15) := .exact yf rfl yb
  have hP := (Atan.poly_as yf (yb.trans (by norm_num))).ap
  have hlo : Ap (2.26987774529616870924e-17 : Flt f64) (2.26987774529616870924e-17 : Flt f64).val 0 (1675 / 2 ^ 66) := .exact (by decide +kernel) rfl (by rw [lo0_val, abs_le]; constructor <;> norm_num)
  have hA := Ap.mul hy hP (-8) (by norm_num) (by norm_num) (by norm_num) (g := (18737 / 2 ^ 73)) (D := (31119 / 2 ^ 23)) (by norm_num) (by norm_num)
  have hB := Ap.sub hA hlo (-8) (by norm_num) (by norm_num) (g := (20785 / 2 ^ 73)) (D := (1945 / 2 ^ 19)) (by norm_num) (by norm_num)
  have hC := Ap.sub hB hy (-4) (by norm_num) (by norm_num) (g := (26777 / 2 ^ 72)) (D := (14421 / 2 ^ 18)) (by norm_num) (by norm_num)
  have ha := (approx (s := y.val) (yb.trans (by norm_num))).trans (mul_le_mul_of_nonneg_right yb (by norm_num))
  have hsum := atan_sum base0 hC.err ha he (s := (1051 / 2 ^ 66)) (by norm_num)
  rw [← hX] at hsum
  exact WithinUlp.of_rne_abs2 (-2) (sub_rne (x := (4.63647609000806093515e-01 : Flt f64)) (by decide +kernel) hC.fin) hj (arctan_lt_bias (by rw [f64_bias]; norm_num) _) (by rw [f64_bias]; norm_num) hsum (δ := 0.49) (by rw [f64_sb]; norm_num) (by norm_num) (by norm_num) (by norm_num)

/-- table entry 0, reduced argument at most 0.1396 -/
theorem val_b {y : Flt f64} {t X : ℝ} (yf : y.isFinite) (ht : |t| ≤ 349 / 2500) (he : |y.val - t| ≤ (1921 / 2 ^ 66)) (hX : Real.arctan X = Real.arctan (1 / 2) + Real.arctan t) (hj : 2 ^ (-1 : ℤ) ≤ |Real.arctan X|) :
    WithinUlp 0.99 (atanVal 4.63647609000806093515e-01 2.26987774529616870924e-17 y) (Real.arctan X) := by
  have yb : |y.val| ≤ (9149 / 2 ^ 16) := by
    have := abs_sub_abs_le_abs_sub y.val t
    norm_num at this he ht ⊢; linarith
  have hy : Ap y y.val 0 (9149 / 2 ^ 16) := .exact yf rfl yb
  have hP := (Atan.poly_as yf (yb.trans (by norm_num))).ap
  have hlo : Ap (2.26987774529616870924e-17 : Flt f64) (2.26987774529616870924e-17 : Flt f64).val 0 (1675 / 2 ^ 66) := .exact (by decide +kernel) rfl (by rw [lo0_val, abs_le]; constructor <;> norm_num)
  have hA := Ap.mul hy hP (-6) (by norm_num) (by norm_num) (by norm_num) (g := (6701 / 2 ^ 70)) (D := (21171 / 2 ^ 21)) (by norm_num) (by norm_num)
  have hB := Ap.sub hA hlo (-6) (by norm_num) (by norm_num) (g := (7725 / 2 ^ 70)) (D := (5293 / 2 ^ 19)) (by norm_num) (by norm_num)
  have hC := Ap.sub hB hy (-2) (by norm_num) (by norm_num) (g := (24109 / 2 ^ 70)) (D := (9811 / 2 ^ 16)) (by norm_num) (by norm_num)
  have ha := (approx (s := y.val) (yb.trans (by norm_num))).trans (mul_le_mul_of_nonneg_right yb (by norm_num))
  have hsum := atan_sum base0 hC.err ha he (s := (7009 / 2 ^ 67)) (by norm_num)
  rw [← hX] at hsum
  exact WithinUlp.of_rne_abs2 (-1) (sub_rne (x := (4.63647609000806093515e-01 : Flt f64)) (by decide +kernel) hC.fin) hj (arctan_lt_bias (by rw [f64_bias]; norm_num) _) (by rw [f64_bias]; norm_num) hsum (δ := 0.49) (by rw [f64_sb]; norm_num) (by norm_num) (by norm_num) (by norm_num)

/-- table entry 1, reduced argument at most 0.1852 -/
theorem val_c {y : Flt f64} {t X : ℝ} (yf : y.isFinite) (ht : |t| ≤ 18519 / 100000) (he : |y.val - t| ≤ (241 / 2 ^ 63)) (hX : Real.arctan X = Real.pi / 4 + Real.arctan t) (hj : 2 ^ (-1 : ℤ) ≤ |Real.arctan X|) :
    WithinUlp 0.99 (atanVal 7.85398163397448278999e-01 3.06161699786838301793e-17 y) (Real.arctan X) := by
  have yb : |y.val| ≤ (12137 / 2 ^ 16) := by
    have := abs_sub_abs_le_abs_sub y.val t
    norm_num at this he ht ⊢; linarith
  have hy : Ap y y.val 0 (12137 / 2 ^ 16) := .exact yf rfl yb
  have hP := (Atan.poly_as yf (yb.trans (by norm_num))).ap
  have hlo : Ap (3.06161699786838301793e-17 : Flt f64) (3.06161699786838301793e-17 : Flt f64).val 0 (4519 / 2 ^ 67) := .exact (by decide +kernel) rfl (by rw [lo1_val, abs_le]; constructor <;> norm_num)
  have hA := Ap.mul hy hP (-6) (by norm_num) (by norm_num) (by norm_num) (g := (8555 / 2 ^ 70)) (D := (28085 / 2 ^ 21)) (by norm_num) (by norm_num)
  have hB := Ap.sub hA hlo (-6) (by norm_num) (by norm_num) (g := (9579 / 2 ^ 70)) (D := (14043 / 2 ^ 20)) (by norm_num) (by norm_num)
  have hC := Ap.sub hB hy (-2) (by norm_num) (by norm_num) (g := (25963 / 2 ^ 70)) (D := (13015 / 2 ^ 16)) (by norm_num) (by norm_num)
  have ha := (approx (s := y.val) (yb.trans (by norm_num))).trans (mul_le_mul_of_nonneg_right yb (by norm_num))
  have hsum := atan_sum base1 hC.err ha he (s := (3651 / 2 ^ 66)) (by norm_num)
  rw [← hX] at hsum
  exact WithinUlp.of_rne_abs2 (-1) (sub_rne (x := (7.85398163397448278999e-01 : Flt f64)) (by decide +kernel) hC.fin) hj (arctan_lt_bias (by rw [f64_bias]; norm_num) _) (by rw [f64_bias]; norm_num) hsum (δ := 0.49) (by rw [f64_sb]; norm_num) (by norm_num) (by norm_num) (by norm_num)

/-- table entry 1, reduced argument at most 0.0858 -/
theorem val_d {y : Flt f64} {t X : ℝ} (yf : y.isFinite) (ht : |t| ≤ 429 / 5000) (he : |y.val - t| ≤ (1219 / 2 ^ 66)) (hX : Real.arctan X = Real.pi / 4 + Real.arctan t) (hj : 2 ^ (-1 : ℤ) ≤ |Real.arctan X|) :
    WithinUlp 0.99 (atanVal 7.85398163397448278999e-01 3.06161699786838301793e-17 y) (Real.arctan X) := by
  have yb : |y.val| ≤ (5623 / 2 ^ 16) := by
    have := abs_sub_abs_le_abs_sub y.val t
    norm_num at this he ht ⊢; linarith
  have hy : Ap y y.val 0 (5623 / 2 ^ 16) := .exact yf rfl yb
  have hP := (Atan.poly_as yf (yb.trans (by norm_num))).ap
  have hlo : Ap (3.06161699786838301793e-17 : Flt f64) (3.06161699786838301793e-17 : Flt f64).val 0 (4519 / 2 ^ 67) := .exact (by decide +kernel) rfl (by rw [lo1_val, abs_le]; constructor <;> norm_num)
  have hA := Ap.mul hy hP (-7) (by norm_num) (by norm_num) (by norm_num) (g := (4001 / 2 ^ 70)) (D := (26023 / 2 ^ 22)) (by norm_num) (by norm_num)
  have hB := Ap.sub hA hlo (-7) (by norm_num) (by norm_num) (g := (4513 / 2 ^ 70)) (D := (3253 / 2 ^ 19)) (by norm_num) (by norm_num)
  have hC := Ap.sub hB hy (-3) (by norm_num) (by norm_num) (g := (12705 / 2 ^ 70)) (D := (24119 / 2 ^ 18)) (by norm_num) (by norm_num)
  have ha := (approx (s := y.val) (yb.trans (by norm_num))).trans (mul_le_mul_of_nonneg_right yb (by norm_num))
  have hsum := atan_sum base1 hC.err ha he (s := (4123 / 2 ^ 67)) (by norm_num)
  rw [← hX] at hsum
  exact WithinUlp.of_rne_abs2 (-1) (sub_rne (x := (7.85398163397448278999e-01 : Flt f64)) (by decide +kernel) hC.fin) hj (arctan_lt_bias (by rw [f64_bias]; norm_num) _) (by rw [f64_bias]; norm_num) hsum (δ := 0.49) (by rw [f64_sb]; norm_num) (by norm_num) (by norm_num) (by norm_num)

/-- table entry 2, reduced argument at most 0.1125 -/
theorem val_e {y : Flt f64} {t X : ℝ} (yf : y.isFinite) (ht : |t| ≤ 9 / 80) (he : |y.val - t| ≤ (1839 / 2 ^ 66)) (hX : Real.arctan X = Real.arctan (3 / 2) + Real.arctan t) (hj : 2 ^ (-1 : ℤ) ≤ |Real.arctan X|) :
    WithinUlp 0.99 (atanVal 9.82793723247329054082e-01 1.39033110312309984516e-17 y) (Real.arctan X) := by
  have yb : |y.val| ≤ (7373 / 2 ^ 16) := by
    have := abs_sub_abs_le_abs_sub y.val t
    norm_num at this he ht ⊢; linarith
  have hy : Ap y y.val 0 (7373 / 2 ^ 16) := .exact yf rfl yb
  have hP := (Atan.poly_as yf (yb.trans (by norm_num))).ap
  have hlo : Ap (1.39033110312309984516e-17 : Flt f64) (1.39033110312309984516e-17 : Flt f64).val 0 (513 / 2 ^ 65) := .exact (by decide +kernel) rfl (by rw [lo2_val, abs_le]; constructor <;> norm_num)
  have hA := Ap.mul hy hP (-6) (by norm_num) (by norm_num) (by norm_num) (g := (5599 / 2 ^ 70)) (D := (17061 / 2 ^ 21)) (by norm_num) (by norm_num)
  have hB := Ap.sub hA hlo (-6) (by norm_num) (by norm_num) (g := (6623 / 2 ^ 70)) (D := (8531 / 2 ^ 20)) (by norm_num) (by norm_num)
  have hC := Ap.sub hB hy (-3) (by norm_num) (by norm_num) (g := (14815 / 2 ^ 70)) (D := (31625 / 2 ^ 18)) (by norm_num) (by norm_num)
  have ha := (approx (s := y.val) (yb.trans (by norm_num))).trans (mul_le_mul_of_nonneg_right yb (by norm_num))
  have hsum := atan_sum base2 hC.err ha he (s := (5655 / 2 ^ 67)) (by norm_num)
  rw [← hX] at hsum
  exact WithinUlp.of_rne_abs2 (-1) (sub_rne (x := (9.82793723247329054082e-01 : Flt f64)) (by decide +kernel) hC.fin) hj (arctan_lt_bias (by rw [f64_bias]; norm_num) _) (by rw [f64_bias]; norm_num) hsum (δ := 0.49) (by rw [f64_sb]; norm_num) (by norm_num) (by norm_num) (by norm_num)

/-- table entry 2, reduced argument at most 0.2014 -/
theorem val_f {y : Flt f64} {t X : ℝ} (yf : y.isFinite) (ht : |t| ≤ 1007 / 5000) (he : |y.val - t| ≤ (1973 / 2 ^ 65)) (hX : Real.arctan X = Real.arctan (3 / 2) + Real.arctan t) (hj : 2 ^ (0 : ℤ) ≤ |Real.arctan X|) :
    WithinUlp 0.99 (atanVal 9.82793723247329054082e-01 1.39033110312309984516e-17 y) (Real.arctan X) := by
  have yb : |y.val| ≤ (13199 / 2 ^ 16) := by
    have := abs_sub_abs_le_abs_sub y.val t
    norm_num at this he ht ⊢; linarith
  have hy : Ap y y.val 0 (13199 / 2 ^ 16) := .exact yf rfl yb
  have hP := (Atan.poly_as yf (yb.trans (by norm_num))).ap
  have hlo : Ap (1.39033110312309984516e-17 : Flt f64) (1.39033110312309984516e-17 : Flt f64).val 0 (513 / 2 ^ 65) := .exact (by decide +kernel) rfl (by rw [lo2_val, abs_le]; constructor <;> norm_num)
  have hA := Ap.mul hy hP (-6) (by norm_num) (by norm_num) (by norm_num) (g := (4607 / 2 ^ 69)) (D := (30543 / 2 ^ 21)) (by norm_num) (by norm_num)
  have hB := Ap.sub hA hlo (-6) (by norm_num) (by norm_num) (g := (5119 / 2 ^ 69)) (D := (1909 / 2 ^ 17)) (by norm_num) (by norm_num)
  have hC := Ap.sub hB hy (-2) (by norm_num) (by norm_num) (g := (13311 / 2 ^ 69)) (D := (7077 / 2 ^ 15)) (by norm_num) (by norm_num)
  have ha := (approx (s := y.val) (yb.trans (by norm_num))).trans (mul_le_mul_of_nonneg_right yb (by norm_num))
  have hsum := atan_sum base2 hC.err ha he (s := (5719 / 2 ^ 66)) (by norm_num)
  rw [← hX] at hsum
  exact WithinUlp.of_rne_abs2 (0) (sub_rne (x := (9.82793723247329054082e-01 : Flt f64)) (by decide +kernel) hC.fin) hj (arctan_lt_bias (by rw [f64_bias]; norm_num) _) (by rw [f64_bias]; norm_num) hsum (δ := 0.49) (by rw [f64_sb]; norm_num) (by norm_num) (by norm_num) (by norm_num)

/-- table entry 3, reduced argument at most 0.4103 -/
theorem val_g {y : Flt f64} {t X : ℝ} (yf : y.isFinite) (ht : |t| ≤ 4103 / 10000) (he : |y.val - t| ≤ (1 / 2 ^ 55)) (hX : Real.arctan X = Real.pi / 2 + Real.arctan t) (hj : 2 ^ (0 : ℤ) ≤ |Real.arctan X|) :
    WithinUlp 0.99 (atanVal 1.57079632679489655800e+00 6.12323399573676603587e-17 y) (Real.arctan X) := by
  have yb : |y.val| ≤ (13445 / 2 ^ 15) := by
    have := abs_sub_abs_le_abs_sub y.val t
    norm_num at this he ht ⊢; linarith
  have hy : Ap y y.val 0 (13445 / 2 ^ 15) := .exact yf rfl yb
  have hP := (Atan.poly_as yf (yb.trans (by norm_num))).ap
  have hlo : Ap (6.12323399573676603587e-17 : Flt f64) (6.12323399573676603587e-17 : Flt f64).val 0 (4519 / 2 ^ 66) := .exact (by decide +kernel) rfl (by rw [lo3_val, abs_le]; constructor <;> norm_num)
  have hA := Ap.mul hy hP (-5) (by norm_num) (by norm_num) (by norm_num) (g := (18733 / 2 ^ 70)) (D := (3889 / 2 ^ 17)) (by norm_num) (by norm_num)
  have hB := Ap.sub hA hlo (-5) (by norm_num) (by norm_num) (g := (20781 / 2 ^ 70)) (D := (31113 / 2 ^ 20)) (by norm_num) (by norm_num)
  have hC := Ap.sub hB hy (-1) (by norm_num) (by norm_num) (g := (26775 / 2 ^ 69)) (D := (28835 / 2 ^ 16)) (by norm_num) (by norm_num)
  have ha := (approx (s := y.val) (yb.trans (by norm_num))).trans (mul_le_mul_of_nonneg_right yb (by norm_num))
  have hsum := atan_sum base3 hC.err ha he (s := (1403 / 2 ^ 64)) (by norm_num)
  rw [← hX] at hsum
  exact WithinUlp.of_rne_abs2 (0) (sub_rne (x := (1.57079632679489655800e+00 : Flt f64)) (by decide +kernel) hC.fin) hj (arctan_lt_bias (by rw [f64_bias]; norm_num) _) (by rw [f64_bias]; norm_num) hsum (δ := 0.49) (by rw [f64_sb]; norm_num) (by norm_num) (by norm_num) (by norm_num)

theorem red_a {a : Flt f64} (af : a.isFinite) (h1 : 7 / 16 ≤ a.val) (h2 : a.val ≤ 0.56) :
    ((2.0 * a - 1.0) / (2.0 + a)).isFinite ∧ |(2 * a.val - 1) / (2 + a.val)| ≤ 513 / 10000 ∧ |((2.0 * a - 1.0) / (2.0 + a)).val - (2 * a.val - 1) / (2 + a.val)| ≤ (301 / 2 ^ 65) := by
  have v10 : (1.0 : Flt f64).val = 1.0 := by rw [val_const64 (x := (1.0 : Flt f64)) 1 1074 (0) (by decide +kernel) (by norm_num)]; norm_num
  norm_num at h1 h2
  have hp : 0 < a.val := by linarith
  have hT : |(2 * a.val - 1) / (2 + a.val)| ≤ 513 / 10000 := by
    rw [abs_div, abs_of_pos (a := 2 + a.val) (by linarith), div_le_iff₀ (by linarith), abs_le]
    norm_num
    constructor <;> linarith
  have v20 : (2.0 : Flt f64).val = 2.0 := by rw [val_const64 (x := (2.0 : Flt f64)) 1 1075 (1) (by decide +kernel) (by norm_num)]; norm_num
  have ha2 : |a.val * 2 ^ (1 : ℤ)| = 2 * a.val := by rw [abs_mul, abs_of_pos hp]; norm_num; ring
  obtain ⟨c, cf, cv⟩ := scale_exact (x := a) 1 (by rw [ha2]; exact (zp_le_quarter (by rw [f64_bias]; norm_num)).trans (by linarith)) (by rw [ha2]; exact lt_of_lt_of_le (by linarith : 2 * a.val < 2) (two_le_zp (by rw [f64_bias]; norm_num)))
  obtain ⟨mf, mv⟩ := (mul_rne (x := (2.0 : Flt f64)) (y := a) (by decide +kernel) af).exact_real cf (by rw [v20, cv]; norm_num; ring)
  rw [v20] at mv
  norm_num at mv
  have tiny : (2 : ℝ) ^ (1 - (f64.bias : ℤ)) ≤ 1 / 4 := by
    rw [f64_bias]; exact le_trans (zpow_le_zpow_right₀ (by norm_num) (by norm_num : (_ : ℤ) ≤ -2)) (by norm_num)
  have nb : |2 * a.val - 1| ≤ 3 / 8 := by rw [abs_le]; constructor <;> linarith
  obtain ⟨nf, nv⟩ := sterbenz_val (x := 2.0 * a) (y := (1.0 : Flt f64)) mf (by decide +kernel) (by rw [mv, v10]; norm_num; rw [abs_of_pos hp]; linarith) (by rw [mv, v10]; norm_num; linarith) (tiny.trans (by rw [mv, abs_of_pos (by linarith)]; linarith)) (tiny.trans (by rw [v10]; norm_num))
  rw [mv, v10] at nv
  obtain ⟨df, de⟩ := add_err64 (x := (2.0 : Flt f64)) (y := a) (by decide +kernel) af 2 (by rw [v20, abs_of_pos (by norm_num; linarith)]; norm_num; linarith) (by norm_num)
  rw [v20] at de
  generalize 2.0 * a - 1.0 = n at *
  generalize (2.0 + a) = d at *
  norm_num at nv de hT
  have de' := abs_le.1 de
  have hL : 243 / 100 ≤ d.val := by norm_num at de' ⊢; linarith [de'.1]
  have hq := quot_err hT (by linarith) (by norm_num) hL (he := de.trans (by norm_num : (_ : ℝ) ≤ (1 / 2 ^ 52)))
  have hq2 : |n.val / d.val| ≤ 2 ^ (-4 : ℤ) := by
    rw [nv]
    have := abs_sub_abs_le_abs_sub (2 * a.val - 1 : ℝ) 0
    refine le_trans ?_ (by norm_num : (513 / 10000 + 513 / 10000 * (1 / 2 ^ 52) / (243 / 100) : ℝ) ≤ 2 ^ (-4 : ℤ))
    have := abs_sub_abs_le_abs_sub ((2 * a.val - 1) / d.val) ((2 * a.val - 1) / (2 + a.val))
    linarith
  obtain ⟨rf, re⟩ := div_err64 nf df (by norm_num at hL; linarith) (-4) hq2 (by norm_num) (by norm_num)
  rw [nv] at re
  norm_num
  refine ⟨rf, hT, ?_⟩
  refine (abs_sub_le _ _ _).trans ((add_le_add re hq).trans (by norm_num))

theorem red_b {a : Flt f64} (af : a.isFinite) (h1 : 0.56 ≤ a.val) (h2 : a.val ≤ 11 / 16) :
    ((2.0 * a - 1.0) / (2.0 + a)).isFinite ∧ |(2 * a.val - 1) / (2 + a.val)| ≤ 349 / 2500 ∧ |((2.0 * a - 1.0) / (2.0 + a)).val - (2 * a.val - 1) / (2 + a.val)| ≤ (1921 / 2 ^ 66) := by
  have v10 : (1.0 : Flt f64).val = 1.0 := by rw [val_const64 (x := (1.0 : Flt f64)) 1 1074 (0) (by decide +kernel) (by norm_num)]; norm_num
  norm_num at h1 h2
  have hp : 0 < a.val := by linarith
  have hT : |(2 * a.val - 1) / (2 + a.val)| ≤ 349 / 2500 := by
    rw [abs_div, abs_of_pos (a := 2 + a.val) (by linarith), div_le_iff₀ (by linarith), abs_le]
    norm_num
    constructor <;> linarith
  have v20 : (2.0 : Flt f64).val = 2.0 := by rw [val_const64 (x := (2.0 : Flt f64)) 1 1075 (1) (by decide +kernel) (by norm_num)]; norm_num
  have ha2 : |a.val * 2 ^ (1 : ℤ)| = 2 * a.val := by rw [abs_mul, abs_of_pos hp]; norm_num; ring
  obtain ⟨c, cf, cv⟩ := scale_exact (x := a) 1 (by rw [ha2]; exact (zp_le_quarter (by rw [f64_bias]; norm_num)).trans (by linarith)) (by rw [ha2]; exact lt_of_lt_of_le (by linarith : 2 * a.val < 2) (two_le_zp (by rw [f64_bias]; norm_num)))
  obtain ⟨mf, mv⟩ := (mul_rne (x := (2.0 : Flt f64)) (y := a) (by decide +kernel) af).exact_real cf (by rw [v20, cv]; norm_num; ring)
  rw [v20] at mv
  norm_num at mv
  have tiny : (2 : ℝ) ^ (1 - (f64.bias : ℤ)) ≤ 1 / 4 := by
    rw [f64_bias]; exact le_trans (zpow_le_zpow_right₀ (by norm_num) (by norm_num : (_ : ℤ) ≤ -2)) (by norm_num)
  have nb : |2 * a.val - 1| ≤ 3 / 8 := by rw [abs_le]; constructor <;> linarith
  obtain ⟨nf, nv⟩ := sterbenz_val (x := 2.0 * a) (y := (1.0 : Flt f64)) mf (by decide +kernel) (by rw [mv, v10]; norm_num; rw [abs_of_pos hp]; linarith) (by rw [mv, v10]; norm_num; linarith) (tiny.trans (by rw [mv, abs_of_pos (by linarith)]; linarith)) (tiny.trans (by rw [v10]; norm_num))
  rw [mv, v10] at nv
  obtain ⟨df, de⟩ := add_err64 (x := (2.0 : Flt f64)) (y := a) (by decide +kernel) af 2 (by rw [v20, abs_of_pos (by norm_num; linarith)]; norm_num; linarith) (by norm_num)
  rw [v20] at de
  generalize 2.0 * a - 1.0 = n at *
  generalize (2.0 + a) = d at *
  norm_num at nv de hT
  have de' := abs_le.1 de
  have hL : 51 / 20 ≤ d.val := by norm_num at de' ⊢; linarith [de'.1]
  have hq := quot_err hT (by linarith) (by norm_num) hL (he := de.trans (by norm_num : (_ : ℝ) ≤ (1 / 2 ^ 52)))
  have hq2 : |n.val / d.val| ≤ 2 ^ (-2 : ℤ) := by
    rw [nv]
    have := abs_sub_abs_le_abs_sub (2 * a.val - 1 : ℝ) 0
    refine le_trans ?_ (by norm_num : (349 / 2500 + 349 / 2500 * (1 / 2 ^ 52) / (51 / 20) : ℝ) ≤ 2 ^ (-2 : ℤ))
    have := abs_sub_abs_le_abs_sub ((2 * a.val - 1) / d.val) ((2 * a.val - 1) / (2 + a.val))
    linarith
  obtain ⟨rf, re⟩ := div_err64 nf df (by norm_num at hL; linarith) (-2) hq2 (by norm_num) (by norm_num)
  rw [nv] at re
  norm_num
  refine ⟨rf, hT, ?_⟩
  refine (abs_sub_le _ _ _).trans ((add_le_add re hq).trans (by norm_num))

theorem red_c {a : Flt f64} (af : a.isFinite) (h1 : 11 / 16 ≤ a.val) (h2 : a.val ≤ 1) :
    ((a - 1.0) / (a + 1.0)).isFinite ∧ |(a.val - 1) / (a.val + 1)| ≤ 18519 / 100000 ∧ |((a - 1.0) / (a + 1.0)).val - (a.val - 1) / (a.val + 1)| ≤ (241 / 2 ^ 63) := by
  have v10 : (1.0 : Flt f64).val = 1.0 := by rw [val_const64 (x := (1.0 : Flt f64)) 1 1074 (0) (by decide +kernel) (by norm_num)]; norm_num
  norm_num at h1 h2
  have hp : 0 < a.val := by linarith
  have hT : |(a.val - 1) / (a.val + 1)| ≤ 18519 / 100000 := by
    rw [abs_div, abs_of_pos (a := a.val + 1) (by linarith), div_le_iff₀ (by linarith), abs_le]
    norm_num
    constructor <;> linarith
  have tiny : (2 : ℝ) ^ (1 - (f64.bias : ℤ)) ≤ 1 / 4 := by
    rw [f64_bias]; exact le_trans (zpow_le_zpow_right₀ (by norm_num) (by norm_num : (_ : ℤ) ≤ -2)) (by norm_num)
  have nb : |a.val - 1| ≤ 5 / 16 := by rw [abs_le]; constructor <;> linarith
  obtain ⟨nf, nv⟩ := sterbenz_val (x := a) (y := (1.0 : Flt f64)) af (by decide +kernel) (by rw [v10, abs_of_pos hp]; norm_num; linarith) (by rw [v10]; norm_num; linarith) (tiny.trans (by rw [abs_of_pos hp]; linarith)) (tiny.trans (by rw [v10]; norm_num))
  rw [v10] at nv
  obtain ⟨df, de⟩ := add_err64 (x := a) (y := (1.0 : Flt f64)) af (by decide +kernel) 1 (by rw [v10, abs_of_pos (by norm_num; linarith)]; norm_num; linarith) (by norm_num)
  rw [v10] at de
  generalize a - 1.0 = n at *
  generalize (a + 1.0) = d at *
  norm_num at nv de hT
  have de' := abs_le.1 de
  have hL : 42 / 25 ≤ d.val := by norm_num at de' ⊢; linarith [de'.1]
  have hq := quot_err hT (by linarith) (by norm_num) hL (he := de.trans (by norm_num : (_ : ℝ) ≤ (1 / 2 ^ 53)))
  have hq2 : |n.val / d.val| ≤ 2 ^ (-2 : ℤ) := by
    rw [nv]
    have := abs_sub_abs_le_abs_sub (a.val - 1 : ℝ) 0
    refine le_trans ?_ (by norm_num : (18519 / 100000 + 18519 / 100000 * (1 / 2 ^ 53) / (42 / 25) : ℝ) ≤ 2 ^ (-2 : ℤ))
    have := abs_sub_abs_le_abs_sub ((a.val - 1) / d.val) ((a.val - 1) / (a.val + 1))
    linarith
  obtain ⟨rf, re⟩ := div_err64 nf df (by norm_num at hL; linarith) (-2) hq2 (by norm_num) (by norm_num)
  rw [nv] at re
  norm_num
  refine ⟨rf, hT, ?_⟩
  refine (abs_sub_le _ _ _).trans ((add_le_add re hq).trans (by norm_num))

theorem red_d {a : Flt f64} (af : a.isFinite) (h1 : 1 ≤ a.val) (h2 : a.val ≤ 19 / 16) :
    ((a - 1.0) / (a + 1.0)).isFinite ∧ |(a.val - 1) / (a.val + 1)| ≤ 429 / 5000 ∧ |((a - 1.0) / (a + 1.0)).val - (a.val - 1) / (a.val + 1)| ≤ (1219 / 2 ^ 66) := by
  have v10 : (1.0 : Flt f64).val = 1.0 := by rw [val_const64 (x := (1.0 : Flt f64)) 1 1074 (0) (by decide +kernel) (by norm_num)]; norm_num
  norm_num at h1 h2
  have hp : 0 < a.val := by linarith
  have hT : |(a.val - 1) / (a.val + 1)| ≤ 429 / 5000 := by
    rw [abs_div, abs_of_pos (a := a.val + 1) (by linarith), div_le_iff₀ (by linarith), abs_le]
    norm_num
    constructor <;> linarith
  have tiny : (2 : ℝ) ^ (1 - (f64.bias : ℤ)) ≤ 1 / 4 := by
    rw [f64_bias]; exact le_trans (zpow_le_zpow_right₀ (by norm_num) (by norm_num : (_ : ℤ) ≤ -2)) (by norm_num)
  have nb : |a.val - 1| ≤ 5 / 16 := by rw [abs_le]; constructor <;> linarith
  obtain ⟨nf, nv⟩ := sterbenz_val (x := a) (y := (1.0 : Flt f64)) af (by decide +kernel) (by rw [v10, abs_of_pos hp]; norm_num; linarith) (by rw [v10]; norm_num; linarith) (tiny.trans (by rw [abs_of_pos hp]; linarith)) (tiny.trans (by rw [v10]; norm_num))
  rw [v10] at nv
  obtain ⟨df, de⟩ := add_err64 (x := a) (y := (1.0 : Flt f64)) af (by decide +kernel) 2 (by rw [v10, abs_of_pos (by norm_num; linarith)]; norm_num; linarith) (by norm_num)
  rw [v10] at de
  generalize a - 1.0 = n at *
  generalize (a + 1.0) = d at *
  norm_num at nv de hT
  have de' := abs_le.1 de
  have hL : 199 / 100 ≤ d.val := by norm_num at de' ⊢; linarith [de'.1]
  have hq := quot_err hT (by linarith) (by norm_num) hL (he := de.trans (by norm_num : (_ : ℝ) ≤ (1 / 2 ^ 52)))
  have hq2 : |n.val / d.val| ≤ 2 ^ (-3 : ℤ) := by
    rw [nv]
    have := abs_sub_abs_le_abs_sub (a.val - 1 : ℝ) 0
    refine le_trans ?_ (by norm_num : (429 / 5000 + 429 / 5000 * (1 / 2 ^ 52) / (199 / 100) : ℝ) ≤ 2 ^ (-3 : ℤ))
    have := abs_sub_abs_le_abs_sub ((a.val - 1) / d.val) ((a.val - 1) / (a.val + 1))
    linarith
  obtain ⟨rf, re⟩ := div_err64 nf df (by norm_num at hL; linarith) (-3) hq2 (by norm_num) (by norm_num)
  rw [nv] at re
  norm_num
  refine ⟨rf, hT, ?_⟩
  refine (abs_sub_le _ _ _).trans ((add_le_add re hq).trans (by norm_num))

theorem red_e {a : Flt f64} (af : a.isFinite) (h1 : 19 / 16 ≤ a.val) (h2 : a.val ≤ 1.6) :
    ((a - 1.5) / (1.0 + 1.5 * a)).isFinite ∧ |(a.val - 1.5) / (1 + 1.5 * a.val)| ≤ 9 / 80 ∧ |((a - 1.5) / (1.0 + 1.5 * a)).val - (a.val - 1.5) / (1 + 1.5 * a.val)| ≤ (1839 / 2 ^ 66) := by
  have v10 : (1.0 : Flt f64).val = 1.0 := by rw [val_const64 (x := (1.0 : Flt f64)) 1 1074 (0) (by decide +kernel) (by norm_num)]; norm_num
  norm_num at h1 h2
  have hp : 0 < a.val := by linarith
  have hT : |(a.val - 1.5) / (1 + 1.5 * a.val)| ≤ 9 / 80 := by
    rw [abs_div, abs_of_pos (a := 1 + 1.5 * a.val) (by linarith), div_le_iff₀ (by linarith), abs_le]
    norm_num
    constructor <;> linarith
  have v15 : (1.5 : Flt f64).val = 1.5 := by rw [val_const64 (x := (1.5 : Flt f64)) 3 1073 (-1) (by decide +kernel) (by norm_num)]; norm_num
  have tiny : (2 : ℝ) ^ (1 - (f64.bias : ℤ)) ≤ 1 / 4 := by
    rw [f64_bias]; exact le_trans (zpow_le_zpow_right₀ (by norm_num) (by norm_num : (_ : ℤ) ≤ -2)) (by norm_num)
  have nb : |a.val - 3 / 2| ≤ 15 / 16 := by rw [abs_le]; constructor <;> linarith
  obtain ⟨nf, nv⟩ := sterbenz_val (x := a) (y := (1.5 : Flt f64)) af (by decide +kernel) (by rw [v15, abs_of_pos hp]; norm_num; linarith) (by rw [v15]; norm_num; linarith) (tiny.trans (by rw [abs_of_pos hp]; linarith)) (tiny.trans (by rw [v15]; norm_num))
  rw [v15] at nv
  obtain ⟨mf, me⟩ := mul_err64 (x := (1.5 : Flt f64)) (y := a) (by decide +kernel) af 2 (by rw [v15, abs_of_pos (by norm_num; linarith)]; norm_num; linarith) (by norm_num) (by norm_num)
  rw [v15] at me
  have me' := abs_le.1 me
  norm_num at me'
  obtain ⟨df, de1⟩ := add_err64 (x := (1.0 : Flt f64)) (y := 1.5 * a) (by decide +kernel) mf 2 (by rw [v10, abs_of_pos (by norm_num; linarith [me'.1])]; norm_num; linarith [me'.2]) (by norm_num)
  rw [v10] at de1
  have de : |(1.0 + 1.5 * a : Flt f64).val - (1 + 1.5 * a.val)| ≤ (1 / 2 ^ 51) := by
    rw [abs_le] at de1 me ⊢
    norm_num at de1 me ⊢
    constructor <;> linarith [de1.1, de1.2, me.1, me.2]
  generalize a - 1.5 = n at *
  generalize (1.0 + 1.5 * a) = d at *
  norm_num at nv de hT
  have de' := abs_le.1 de
  have hL : 139 / 50 ≤ d.val := by norm_num at de' ⊢; linarith [de'.1]
  have hq := quot_err hT (by linarith) (by norm_num) hL (he := de.trans (by norm_num : (_ : ℝ) ≤ (1 / 2 ^ 51)))
  have hq2 : |n.val / d.val| ≤ 2 ^ (-3 : ℤ) := by
    rw [nv]
    have := abs_sub_abs_le_abs_sub (a.val - 3 / 2 : ℝ) 0
    refine le_trans ?_ (by norm_num : (9 / 80 + 9 / 80 * (1 / 2 ^ 51) / (139 / 50) : ℝ) ≤ 2 ^ (-3 : ℤ))
    have := abs_sub_abs_le_abs_sub ((a.val - 3 / 2) / d.val) ((a.val - 3 / 2) / (1 + 3 / 2 * a.val))
    linarith
  obtain ⟨rf, re⟩ := div_err64 nf df (by norm_num at hL; linarith) (-3) hq2 (by norm_num) (by norm_num)
  rw [nv] at re
  norm_num
  refine ⟨rf, hT, ?_⟩
  refine (abs_sub_le _ _ _).trans ((add_le_add re hq).trans (by norm_num))

theorem red_f {a : Flt f64} (af : a.isFinite) (h1 : 1.6 ≤ a.val) (h2 : a.val ≤ 39 / 16) :
    ((a - 1.5) / (1.0 + 1.5 * a)).isFinite ∧ |(a.val - 1.5) / (1 + 1.5 * a.val)| ≤ 1007 / 5000 ∧ |((a - 1.5) / (1.0 + 1.5 * a)).val - (a.val - 1.5) / (1 + 1.5 * a.val)| ≤ (1973 / 2 ^ 65) := by
  have v10 : (1.0 : Flt f64).val = 1.0 := by rw [val_const64 (x := (1.0 : Flt f64)) 1 1074 (0) (by decide +kernel) (by norm_num)]; norm_num
  norm_num at h1 h2
  have hp : 0 < a.val := by linarith
  have hT : |(a.val - 1.5) / (1 + 1.5 * a.val)| ≤ 1007 / 5000 := by
    rw [abs_div, abs_of_pos (a := 1 + 1.5 * a.val) (by linarith), div_le_iff₀ (by linarith), abs_le]
    norm_num
    constructor <;> linarith
  have v15 : (1.5 : Flt f64).val = 1.5 := by rw [val_const64 (x := (1.5 : Flt f64)) 3 1073 (-1) (by decide +kernel) (by norm_num)]; norm_num
  have tiny : (2 : ℝ) ^ (1 - (f64.bias : ℤ)) ≤ 1 / 4 := by
    rw [f64_bias]; exact le_trans (zpow_le_zpow_right₀ (by norm_num) (by norm_num : (_ : ℤ) ≤ -2)) (by norm_num)
  have nb : |a.val - 3 / 2| ≤ 15 / 16 := by rw [abs_le]; constructor <;> linarith
  obtain ⟨nf, nv⟩ := sterbenz_val (x := a) (y := (1.5 : Flt f64)) af (by decide +kernel) (by rw [v15, abs_of_pos hp]; norm_num; linarith) (by rw [v15]; norm_num; linarith) (tiny.trans (by rw [abs_of_pos hp]; linarith)) (tiny.trans (by rw [v15]; norm_num))
  rw [v15] at nv
  obtain ⟨mf, me⟩ := mul_err64 (x := (1.5 : Flt f64)) (y := a) (by decide +kernel) af 2 (by rw [v15, abs_of_pos (by norm_num; linarith)]; norm_num; linarith) (by norm_num) (by norm_num)
  rw [v15] at me
  have me' := abs_le.1 me
  norm_num at me'
  obtain ⟨df, de1⟩ := add_err64 (x := (1.0 : Flt f64)) (y := 1.5 * a) (by decide +kernel) mf 3 (by rw [v10, abs_of_pos (by norm_num; linarith [me'.1])]; norm_num; linarith [me'.2]) (by norm_num)
  rw [v10] at de1
  have de : |(1.0 + 1.5 * a : Flt f64).val - (1 + 1.5 * a.val)| ≤ (3 / 2 ^ 52) := by
    rw [abs_le] at de1 me ⊢
    norm_num at de1 me ⊢
    constructor <;> linarith [de1.1, de1.2, me.1, me.2]
  generalize a - 1.5 = n at *
  generalize (1.0 + 1.5 * a) = d at *
  norm_num at nv de hT
  have de' := abs_le.1 de
  have hL : 339 / 100 ≤ d.val := by norm_num at de' ⊢; linarith [de'.1]
  have hq := quot_err hT (by linarith) (by norm_num) hL (he := de.trans (by norm_num : (_ : ℝ) ≤ (3 / 2 ^ 52)))
  have hq2 : |n.val / d.val| ≤ 2 ^ (-2 : ℤ) := by
    rw [nv]
    have := abs_sub_abs_le_abs_sub (a.val - 3 / 2 : ℝ) 0
    refine le_trans ?_ (by norm_num : (1007 / 5000 + 1007 / 5000 * (3 / 2 ^ 52) / (339 / 100) : ℝ) ≤ 2 ^ (-2 : ℤ))
    have := abs_sub_abs_le_abs_sub ((a.val - 3 / 2) / d.val) ((a.val - 3 / 2) / (1 + 3 / 2 * a.val))
    linarith
  obtain ⟨rf, re⟩ := div_err64 nf df (by norm_num at hL; linarith) (-2) hq2 (by norm_num) (by norm_num)
  rw [nv] at re
  norm_num
  refine ⟨rf, hT, ?_⟩
  refine (abs_sub_le _ _ _).trans ((add_le_add re hq).trans (by norm_num))

theorem red_g {a : Flt f64} (af : a.isFinite) (h1 : 39 / 16 ≤ a.val) :
    (-1.0 / a).isFinite ∧ |(-1) / (a.val)| ≤ 4103 / 10000 ∧ |(-1.0 / a).val - (-1) / (a.val)| ≤ (1 / 2 ^ 55) := by
  have v10 : (1.0 : Flt f64).val = 1.0 := by rw [val_const64 (x := (1.0 : Flt f64)) 1 1074 (0) (by decide +kernel) (by norm_num)]; norm_num
  norm_num at h1
  have hp : 0 < a.val := by linarith
  have hT : |(-1) / (a.val)| ≤ 4103 / 10000 := by
    rw [abs_div, abs_of_pos hp, div_le_iff₀ hp, abs_neg, abs_one]
    linarith
  have hn : (-1.0 : Flt f64).val = -1 := by rw [val_const64 (x := (-1.0 : Flt f64)) (-1) 1074 0 (by decide +kernel) (by norm_num)]; norm_num
  obtain ⟨f, e⟩ := div_err64 (x := (-1.0 : Flt f64)) (y := a) (by decide +kernel) af hp.ne' (-1) (by rw [hn]; exact hT.trans (by norm_num)) (by norm_num) (by norm_num)
  rw [hn] at e
  exact ⟨f, hT, e.trans (by norm_num)⟩
end Atan

namespace Atanf
def errPoly : List ℚ := Poly.add (0 :: pl) (Poly.smul (-1) (0 :: Poly.atc 17))
theorem err_check : Poly.check errPoly 0 (49 / 32768) (69 / 2 ^ 34) 64 = true := by decide +kernel

/-- the polynomial with exact arithmetic -/
theorem approx {s : ℝ} (h : |s| ≤ 7 / 16) : |s - s * (s ^ 2 * Poly.ev pl (s ^ 2)) - Real.arctan s| ≤ |s| * ((69 / 2 ^ 34) * 1.01) := by
  have hz0 : 0 ≤ s ^ 2 := _root_.sq_nonneg s
  have hz : s ^ 2 ≤ 49 / 256 := by
    have : |s| ^ 2 ≤ (7 / 16) ^ 2 := pow_le_pow_left₀ (abs_nonneg _) h 2
    rw [sq_abs] at this; norm_num at this ⊢; linarith
  have h1 := Poly.arctan_series 17 (s := s) (h.trans (by norm_num))
  have h2 := Poly.bound err_check (by norm_num) (by norm_num) (s ^ 2) (by push_cast; exact hz0) (by push_cast; norm_num at hz ⊢; linarith)
  rw [errPoly, Poly.ev_add, Poly.ev_smul] at h2
  simp only [Poly.ev.eq_2 _ 0] at h2
  push_cast at h2
  have h3 : (s ^ 2) ^ (17 + 1) ≤ (69 / 2 ^ 34) * 0.01 := (pow_le_pow_left₀ hz0 hz _).trans (by norm_num)
  set P := Poly.ev pl (s ^ 2)
  set T := Poly.ev (Poly.atc 17) (s ^ 2)
  have e : s - s * (s ^ 2 * P) - Real.arctan s = -(s * (0 + s ^ 2 * P + -1 * (0 + s ^ 2 * T))) - (Real.arctan s - (s - s * (s ^ 2 * T))) := by ring
  rw [e]
  refine (abs_sub _ _).trans ?_
  rw [abs_neg, abs_mul]
  have a1 := mul_le_mul_of_nonneg_left h2 (abs_nonneg s)
  have a2 := h1.trans (mul_le_mul_of_nonneg_left h3 (abs_nonneg s))
  have : |s| * ((69 / 2 ^ 34) * 1.01) = |s| * (69 / 2 ^ 34) + |s| * ((69 / 2 ^ 34) * 0.01) := by ring
  rw [this]
  exact add_le_add a1 a2

theorem hi0_val : ((4.6364760399e-01 : Flt f32)).val = (1944679 : ℝ) * 2 ^ (-22 : ℤ) := by
  rw [val_const32 (x := (4.6364760399e-01 : Flt f32)) (1944679) 127 (-22) (by decide +kernel) (by norm_num)]; norm_num
theorem lo0_val : ((5.0121582440e-09 : Flt f32)).val = (11286377 : ℝ) * 2 ^ (-51 : ℤ) := by
  rw [val_const32 (x := (5.0121582440e-09 : Flt f32)) (11286377) 98 (-51) (by decide +kernel) (by norm_num)]; norm_num
theorem base0 : |((4.6364760399e-01 : Flt f32)).val + ((5.0121582440e-09 : Flt f32)).val - Real.arctan (1 / 2)| ≤ (1 / 2 ^ 44) := by
  rw [hi0_val, lo0_val]
  have p1 := Real.pi_gt_d20
  have p2 := Real.pi_lt_d20
  have a := abs_le.1 arctan_half_near
  have b := abs_le.1 arctan_eighth_near
  rw [abs_le]
  norm_num at p1 p2 a b ⊢
  constructor <;> linarith [a.1, a.2, b.1, b.2]
theorem hi1_val : ((7.8539812565e-01 : Flt f32)).val = (6588397 : ℝ) * 2 ^ (-23 : ℤ) := by
  rw [val_const32 (x := (7.8539812565e-01 : Flt f32)) (6588397) 126 (-23) (by decide +kernel) (by norm_num)]; norm_num
theorem lo1_val : ((3.7748947079e-08 : Flt f32)).val = (1328173 : ℝ) * 2 ^ (-45 : ℤ) := by
  rw [val_const32 (x := (3.7748947079e-08 : Flt f32)) (1328173) 104 (-45) (by decide +kernel) (by norm_num)]; norm_num
theorem base1 : |((7.8539812565e-01 : Flt f32)).val + ((3.7748947079e-08 : Flt f32)).val - Real.pi / 4| ≤ (1 / 2 ^ 44) := by
  rw [hi1_val, lo1_val]
  have p1 := Real.pi_gt_d20
  have p2 := Real.pi_lt_d20
  have a := abs_le.1 arctan_half_near
  have b := abs_le.1 arctan_eighth_near
  rw [abs_le]
  norm_num at p1 p2 a b ⊢
  constructor <;> linarith [a.1, a.2, b.1, b.2]
theorem hi2_val : ((9.8279368877e-01 : Flt f32)).val = (8244271 : ℝ) * 2 ^ (-23 : ℤ) := by
  rw [val_const32 (x := (9.8279368877e-01 : Flt f32)) (8244271) 126 (-23) (by decide +kernel) (by norm_num)]; norm_num
theorem lo2_val : ((3.4473217170e-08 : Flt f32)).val = (2425837 : ℝ) * 2 ^ (-46 : ℤ) := by
  rw [val_const32 (x := (3.4473217170e-08 : Flt f32)) (2425837) 103 (-46) (by decide +kernel) (by norm_num)]; norm_num
theorem base2 : |((9.8279368877e-01 : Flt f32)).val + ((3.4473217170e-08 : Flt f32)).val - Real.arctan (3 / 2)| ≤ (1 / 2 ^ 44) := by
  rw [hi2_val, lo2_val, arctan_three_halves]
  have p1 := Real.pi_gt_d20
  have p2 := Real.pi_lt_d20
  have a := abs_le.1 arctan_half_near
  have b := abs_le.1 arctan_eighth_near
  rw [abs_le]
  norm_num at p1 p2 a b ⊢
  constructor <;> linarith [a.1, a.2, b.1, b.2]
theorem hi3_val : ((1.5707962513e+00 : Flt f32)).val = (6588397 : ℝ) * 2 ^ (-22 : ℤ) := by
  rw [val_const32 (x := (1.5707962513e+00 : Flt f32)) (6588397) 127 (-22) (by decide +kernel) (by norm_num)]; norm_num
theorem lo3_val : ((7.5497894159e-08 : Flt f32)).val = (1328173 : ℝ) * 2 ^ (-44 : ℤ) := by
  rw [val_const32 (x := (7.5497894159e-08 : Flt f32)) (1328173) 105 (-44) (by decide +kernel) (by norm_num)]; norm_num
theorem base3 : |((1.5707962513e+00 : Flt f32)).val + ((7.5497894159e-08 : Flt f32)).val - Real.pi / 2| ≤ (1 / 2 ^ 44) := by
  rw [hi3_val, lo3_val]
  have p1 := Real.pi_gt_d20
  have p2 := Real.pi_lt_d20
  have a := abs_le.1 arctan_half_near
  have b := abs_le.1 arctan_eighth_near
  rw [abs_le]
  norm_num at p1 p2 a b ⊢
  constructor <;> linarith [a.1, a.2, b.1, b.2]

/-- table entry 0, reduced argument at most 0.0513 -/
theorem val_a {y : Flt f32} {t X : ℝ} (yf : y.isFinite) (ht : |t| ≤ 513 / 10000) (he : |y.val - t| ≤ (301 / 2 ^ 36)) (hX : Real.arctan X = Real.arctan (1 / 2) + Real.arctan t) (hj : 2 ^ (-2 : ℤ) ≤ |Real.arctan X|) :
    WithinUlp 0.99 (atanfVal 4.6364760399e-01 5.0121582440e-09 y) (Real.arctan X) := by
  have yb : |y.val| ≤ (1681 / 2 ^ 15) := by
    have := abs_sub_abs_le_abs_sub y.val t
    norm_num at this he ht ⊢; linarith
  have hy : Ap32 y y.val 0 (1681 / 2 ^ 15) := .exact yf rfl yb
  have hP := (Atanf.poly_as yf (yb.trans (by norm_num))).ap32
  have hlo : Ap32 (5.0121582440e-09 : Flt f32) (5.0121582440e-09 : Flt f32).val 0 (5511 / 2 ^ 40) := .exact (by decide +kernel) rfl (by rw [lo0_val, abs_le]; constructor <;> norm_num)
  have hA := Ap32.mul hy hP (-8) (by norm_num) (by norm_num) (by norm_num) (g := (9357 / 2 ^ 43)) (D := (15555 / 2 ^ 22)) (by norm_num) (by norm_num)
  have hB := Ap32.sub hA hlo (-8) (by norm_num) (by norm_num) (g := (10381 / 2 ^ 43)) (D := (31111 / 2 ^ 23)) (by norm_num) (by norm_num)
  have hC := Ap32.sub hB hy (-4) (by norm_num) (by norm_num) (g := (26765 / 2 ^ 43)) (D := (28841 / 2 ^ 19)) (by norm_num) (by norm_num)
  have ha := (approx (s := y.val) (yb.trans (by norm_num))).trans (mul_le_mul_of_nonneg_right yb (by norm_num))
  have hsum := atan_sum base0 hC.err ha he (s := (1049 / 2 ^ 37)) (by norm_num)
  rw [← hX] at hsum
  exact WithinUlp.of_rne_abs2 (-2) (sub_rne (x := (4.6364760399e-01 : Flt f32)) (by decide +kernel) hC.fin) hj (arctan_lt_bias (by rw [f32_bias]; norm_num) _) (by rw [f32_bias]; norm_num) hsum (δ := 0.49) (by rw [f32_sb]; norm_num) (by norm_num) (by norm_num) (by norm_num)

/-- table entry 0, reduced argument at most 0.1396 -/
theorem val_b {y : Flt f32} {t X : ℝ} (yf : y.isFinite) (ht : |t| ≤ 349 / 2500) (he : |y.val - t| ≤ (1921 / 2 ^ 37)) (hX : Real.arctan X = Real.arctan (1 / 2) + Real.arctan t) (hj : 2 ^ (-1 : ℤ) ≤ |Real.arctan X|) :
    WithinUlp 0.99 (atanfVal 4.6364760399e-01 5.0121582440e-09 y) (Real.arctan X) := by
  have yb : |y.val| ≤ (9149 / 2 ^ 16) := by
    have := abs_sub_abs_le_abs_sub y.val t
    norm_num at this he ht ⊢; linarith
  have hy : Ap32 y y.val 0 (9149 / 2 ^ 16) := .exact yf rfl yb
  have hP := (Atanf.poly_as yf (yb.trans (by norm_num))).ap32
  have hlo : Ap32 (5.0121582440e-09 : Flt f32) (5.0121582440e-09 : Flt f32).val 0 (5511 / 2 ^ 40) := .exact (by decide +kernel) rfl (by rw [lo0_val, abs_le]; constructor <;> norm_num)
  have hA := Ap32.mul hy hP (-6) (by norm_num) (by norm_num) (by norm_num) (g := (6693 / 2 ^ 41)) (D := (21165 / 2 ^ 21)) (by norm_num) (by norm_num)
  have hB := Ap32.sub hA hlo (-6) (by norm_num) (by norm_num) (g := (7717 / 2 ^ 41)) (D := (10583 / 2 ^ 20)) (by norm_num) (by norm_num)
  have hC := Ap32.sub hB hy (-2) (by norm_num) (by norm_num) (g := (24101 / 2 ^ 41)) (D := (19621 / 2 ^ 17)) (by norm_num) (by norm_num)
  have ha := (approx (s := y.val) (yb.trans (by norm_num))).trans (mul_le_mul_of_nonneg_right yb (by norm_num))
  have hsum := atan_sum base0 hC.err ha he (s := (7011 / 2 ^ 38)) (by norm_num)
  rw [← hX] at hsum
  exact WithinUlp.of_rne_abs2 (-1) (sub_rne (x := (4.6364760399e-01 : Flt f32)) (by decide +kernel) hC.fin) hj (arctan_lt_bias (by rw [f32_bias]; norm_num) _) (by rw [f32_bias]; norm_num) hsum (δ := 0.49) (by rw [f32_sb]; norm_num) (by norm_num) (by norm_num) (by norm_num)

/-- table entry 1, reduced argument at most 0.1852 -/
theorem val_c {y : Flt f32} {t X : ℝ} (yf : y.isFinite) (ht : |t| ≤ 18519 / 100000) (he : |y.val - t| ≤ (241 / 2 ^ 34)) (hX : Real.arctan X = Real.pi / 4 + Real.arctan t) (hj : 2 ^ (-1 : ℤ) ≤ |Real.arctan X|) :
    WithinUlp 0.99 (atanfVal 7.8539812565e-01 3.7748947079e-08 y) (Real.arctan X) := by
  have yb : |y.val| ≤ (12137 / 2 ^ 16) := by
    have := abs_sub_abs_le_abs_sub y.val t
    norm_num at this he ht ⊢; linarith
  have hy : Ap32 y y.val 0 (12137 / 2 ^ 16) := .exact yf rfl yb
  have hP := (Atanf.poly_as yf (yb.trans (by norm_num))).ap32
  have hlo : Ap32 (3.7748947079e-08 : Flt f32) (3.7748947079e-08 : Flt f32).val 0 (5189 / 2 ^ 37) := .exact (by decide +kernel) rfl (by rw [lo1_val, abs_le]; constructor <;> norm_num)
  have hA := Ap32.mul hy hP (-6) (by norm_num) (by norm_num) (by norm_num) (g := (17089 / 2 ^ 42)) (D := (28077 / 2 ^ 21)) (by norm_num) (by norm_num)
  have hB := Ap32.sub hA hlo (-6) (by norm_num) (by norm_num) (g := (19137 / 2 ^ 42)) (D := (14039 / 2 ^ 20)) (by norm_num) (by norm_num)
  have hC := Ap32.sub hB hy (-2) (by norm_num) (by norm_num) (g := (25953 / 2 ^ 41)) (D := (26029 / 2 ^ 17)) (by norm_num) (by norm_num)
  have ha := (approx (s := y.val) (yb.trans (by norm_num))).trans (mul_le_mul_of_nonneg_right yb (by norm_num))
  have hsum := atan_sum base1 hC.err ha he (s := (1827 / 2 ^ 36)) (by norm_num)
  rw [← hX] at hsum
  exact WithinUlp.of_rne_abs2 (-1) (sub_rne (x := (7.8539812565e-01 : Flt f32)) (by decide +kernel) hC.fin) hj (arctan_lt_bias (by rw [f32_bias]; norm_num) _) (by rw [f32_bias]; norm_num) hsum (δ := 0.49) (by rw [f32_sb]; norm_num) (by norm_num) (by norm_num) (by norm_num)

/-- table entry 1, reduced argument at most 0.0858 -/
theorem val_d {y : Flt f32} {t X : ℝ} (yf : y.isFinite) (ht : |t| ≤ 429 / 5000) (he : |y.val - t| ≤ (1219 / 2 ^ 37)) (hX : Real.arctan X = Real.pi / 4 + Real.arctan t) (hj : 2 ^ (-1 : ℤ) ≤ |Real.arctan X|) :
    WithinUlp 0.99 (atanfVal 7.8539812565e-01 3.7748947079e-08 y) (Real.arctan X) := by
  have yb : |y.val| ≤ (5623 / 2 ^ 16) := by
    have := abs_sub_abs_le_abs_sub y.val t
    norm_num at this he ht ⊢; linarith
  have hy : Ap32 y y.val 0 (5623 / 2 ^ 16) := .exact yf rfl yb
  have hP := (Atanf.poly_as yf (yb.trans (by norm_num))).ap32
  have hlo : Ap32 (3.7748947079e-08 : Flt f32) (3.7748947079e-08 : Flt f32).val 0 (5189 / 2 ^ 37) := .exact (by decide +kernel) rfl (by rw [lo1_val, abs_le]; constructor <;> norm_num)
  have hA := Ap32.mul hy hP (-7) (by norm_num) (by norm_num) (by norm_num) (g := (15985 / 2 ^ 43)) (D := (813 / 2 ^ 17)) (by norm_num) (by norm_num)
  have hB := Ap32.sub hA hlo (-7) (by norm_num) (by norm_num) (g := (18033 / 2 ^ 43)) (D := (26017 / 2 ^ 22)) (by norm_num) (by norm_num)
  have hC := Ap32.sub hB hy (-3) (by norm_num) (by norm_num) (g := (25401 / 2 ^ 42)) (D := (24119 / 2 ^ 18)) (by norm_num) (by norm_num)
  have ha := (approx (s := y.val) (yb.trans (by norm_num))).trans (mul_le_mul_of_nonneg_right yb (by norm_num))
  have hsum := atan_sum base1 hC.err ha he (s := (2061 / 2 ^ 37)) (by norm_num)
  rw [← hX] at hsum
  exact WithinUlp.of_rne_abs2 (-1) (sub_rne (x := (7.8539812565e-01 : Flt f32)) (by decide +kernel) hC.fin) hj (arctan_lt_bias (by rw [f32_bias]; norm_num) _) (by rw [f32_bias]; norm_num) hsum (δ := 0.49) (by rw [f32_sb]; norm_num) (by norm_num) (by norm_num) (by norm_num)

/-- table entry 2, reduced argument at most 0.1125 -/
theorem val_e {y : Flt f32} {t X : ℝ} (yf : y.isFinite) (ht : |t| ≤ 9 / 80) (he : |y.val - t| ≤ (1839 / 2 ^ 37)) (hX : Real.arctan X = Real.arctan (3 / 2) + Real.arctan t) (hj : 2 ^ (-1 : ℤ) ≤ |Real.arctan X|) :
    WithinUlp 0.99 (atanfVal 9.8279368877e-01 3.4473217170e-08 y) (Real.arctan X) := by
  have yb : |y.val| ≤ (7373 / 2 ^ 16) := by
    have := abs_sub_abs_le_abs_sub y.val t
    norm_num at this he ht ⊢; linarith
  have hy : Ap32 y y.val 0 (7373 / 2 ^ 16) := .exact yf rfl yb
  have hP := (Atanf.poly_as yf (yb.trans (by norm_num))).ap32
  have hlo : Ap32 (3.4473217170e-08 : Flt f32) (3.4473217170e-08 : Flt f32).val 0 (2369 / 2 ^ 36) := .exact (by decide +kernel) rfl (by rw [lo2_val, abs_le]; constructor <;> norm_num)
  have hA := Ap32.mul hy hP (-6) (by norm_num) (by norm_num) (by norm_num) (g := (22371 / 2 ^ 43)) (D := (533 / 2 ^ 16)) (by norm_num) (by norm_num)
  have hB := Ap32.sub hA hlo (-6) (by norm_num) (by norm_num) (g := (26467 / 2 ^ 43)) (D := (17057 / 2 ^ 21)) (by norm_num) (by norm_num)
  have hC := Ap32.sub hB hy (-3) (by norm_num) (by norm_num) (g := (14809 / 2 ^ 41)) (D := (31625 / 2 ^ 18)) (by norm_num) (by norm_num)
  have ha := (approx (s := y.val) (yb.trans (by norm_num))).trans (mul_le_mul_of_nonneg_right yb (by norm_num))
  have hsum := atan_sum base2 hC.err ha he (s := (5655 / 2 ^ 38)) (by norm_num)
  rw [← hX] at hsum
  exact WithinUlp.of_rne_abs2 (-1) (sub_rne (x := (9.8279368877e-01 : Flt f32)) (by decide +kernel) hC.fin) hj (arctan_lt_bias (by rw [f32_bias]; norm_num) _) (by rw [f32_bias]; norm_num) hsum (δ := 0.49) (by rw [f32_sb]; norm_num) (by norm_num) (by norm_num) (by norm_num)

/-- table entry 2, reduced argument at most 0.2014 -/
theorem val_f {y : Flt f32} {t X : ℝ} (yf : y.isFinite) (ht : |t| ≤ 1007 / 5000) (he : |y.val - t| ≤ (1973 / 2 ^ 36)) (hX : Real.arctan X = Real.arctan (3 / 2) + Real.arctan t) (hj : 2 ^ (0 : ℤ) ≤ |Real.arctan X|) :
    WithinUlp 0.99 (atanfVal 9.8279368877e-01 3.4473217170e-08 y) (Real.arctan X) := by
  have yb : |y.val| ≤ (13199 / 2 ^ 16) := by
    have := abs_sub_abs_le_abs_sub y.val t
    norm_num at this he ht ⊢; linarith
  have hy : Ap32 y y.val 0 (13199 / 2 ^ 16) := .exact yf rfl yb
  have hP := (Atanf.poly_as yf (yb.trans (by norm_num))).ap32
  have hlo : Ap32 (3.4473217170e-08 : Flt f32) (3.4473217170e-08 : Flt f32).val 0 (2369 / 2 ^ 36) := .exact (by decide +kernel) rfl (by rw [lo2_val, abs_le]; constructor <;> norm_num)
  have hA := Ap32.mul hy hP (-6) (by norm_num) (by norm_num) (by norm_num) (g := (18405 / 2 ^ 42)) (D := (15267 / 2 ^ 20)) (by norm_num) (by norm_num)
  have hB := Ap32.sub hA hlo (-6) (by norm_num) (by norm_num) (g := (20453 / 2 ^ 42)) (D := (30535 / 2 ^ 21)) (by norm_num) (by norm_num)
  have hC := Ap32.sub hB hy (-2) (by norm_num) (by norm_num) (g := (26611 / 2 ^ 41)) (D := (28307 / 2 ^ 17)) (by norm_num) (by norm_num)
  have ha := (approx (s := y.val) (yb.trans (by norm_num))).trans (mul_le_mul_of_nonneg_right yb (by norm_num))
  have hsum := atan_sum base2 hC.err ha he (s := (2861 / 2 ^ 36)) (by norm_num)
  rw [← hX] at hsum
  exact WithinUlp.of_rne_abs2 (0) (sub_rne (x := (9.8279368877e-01 : Flt f32)) (by decide +kernel) hC.fin) hj (arctan_lt_bias (by rw [f32_bias]; norm_num) _) (by rw [f32_bias]; norm_num) hsum (δ := 0.49) (by rw [f32_sb]; norm_num) (by norm_num) (by norm_num) (by norm_num)

/-- table entry 3, reduced argument at most 0.4103 -/
theorem val_g {y : Flt f32} {t X : ℝ} (yf : y.isFinite) (ht : |t| ≤ 4103 / 10000) (he : |y.val - t| ≤ (1 / 2 ^ 26)) (hX : Real.arctan X = Real.pi / 2 + Real.arctan t) (hj : 2 ^ (0 : ℤ) ≤ |Real.arctan X|) :
    WithinUlp 0.99 (atanfVal 1.5707962513e+00 7.5497894159e-08 y) (Real.arctan X) := by
  have yb : |y.val| ≤ (13445 / 2 ^ 15) := by
    have := abs_sub_abs_le_abs_sub y.val t
    norm_num at this he ht ⊢; linarith
  have hy : Ap32 y y.val 0 (13445 / 2 ^ 15) := .exact yf rfl yb
  have hP := (Atanf.poly_as yf (yb.trans (by norm_num))).ap32
  have hlo : Ap32 (7.5497894159e-08 : Flt f32) (7.5497894159e-08 : Flt f32).val 0 (5189 / 2 ^ 36) := .exact (by decide +kernel) rfl (by rw [lo3_val, abs_le]; constructor <;> norm_num)
  have hA := Ap32.mul hy hP (-5) (by norm_num) (by norm_num) (by norm_num) (g := (9355 / 2 ^ 40)) (D := (31103 / 2 ^ 20)) (by norm_num) (by norm_num)
  have hB := Ap32.sub hA hlo (-5) (by norm_num) (by norm_num) (g := (10379 / 2 ^ 40)) (D := (243 / 2 ^ 13)) (by norm_num) (by norm_num)
  have hC := Ap32.sub hB hy (-1) (by norm_num) (by norm_num) (g := (26763 / 2 ^ 40)) (D := (28835 / 2 ^ 16)) (by norm_num) (by norm_num)
  have ha := (approx (s := y.val) (yb.trans (by norm_num))).trans (mul_le_mul_of_nonneg_right yb (by norm_num))
  have hsum := atan_sum base3 hC.err ha he (s := (5623 / 2 ^ 37)) (by norm_num)
  rw [← hX] at hsum
  exact WithinUlp.of_rne_abs2 (0) (sub_rne (x := (1.5707962513e+00 : Flt f32)) (by decide +kernel) hC.fin) hj (arctan_lt_bias (by rw [f32_bias]; norm_num) _) (by rw [f32_bias]; norm_num) hsum (δ := 0.49) (by rw [f32_sb]; norm_num) (by norm_num) (by norm_num) (by norm_num)

theorem red_a {a : Flt f32} (af : a.isFinite) (h1 : 7 / 16 ≤ a.val) (h2 : a.val ≤ 0.56) :
    ((2.0 * a - 1.0) / (2.0 + a)).isFinite ∧ |(2 * a.val - 1) / (2 + a.val)| ≤ 513 / 10000 ∧ |((2.0 * a - 1.0) / (2.0 + a)).val - (2 * a.val - 1) / (2 + a.val)| ≤ (301 / 2 ^ 36) := by
  have v10 : (1.0 : Flt f32).val = 1.0 := by rw [val_const32 (x := (1.0 : Flt f32)) 1 149 (0) (by decide +kernel) (by norm_num)]; norm_num
  norm_num at h1 h2
  have hp : 0 < a.val := by linarith
  have hT : |(2 * a.val - 1) / (2 + a.val)| ≤ 513 / 10000 := by
    rw [abs_div, abs_of_pos (a := 2 + a.val) (by linarith), div_le_iff₀ (by linarith), abs_le]
    norm_num
    constructor <;> linarith
  have v20 : (2.0 : Flt f32).val = 2.0 := by rw [val_const32 (x := (2.0 : Flt f32)) 1 150 (1) (by decide +kernel) (by norm_num)]; norm_num
  have ha2 : |a.val * 2 ^ (1 : ℤ)| = 2 * a.val := by rw [abs_mul, abs_of_pos hp]; norm_num; ring
  obtain ⟨c, cf, cv⟩ := scale_exact (x := a) 1 (by rw [ha2]; exact (zp_le_quarter (by rw [f32_bias]; norm_num)).trans (by linarith)) (by rw [ha2]; exact lt_of_lt_of_le (by linarith : 2 * a.val < 2) (two_le_zp (by rw [f32_bias]; norm_num)))
  obtain ⟨mf, mv⟩ := (mul_rne (x := (2.0 : Flt f32)) (y := a) (by decide +kernel) af).exact_real cf (by rw [v20, cv]; norm_num; ring)
  rw [v20] at mv
  norm_num at mv
  have tiny : (2 : ℝ) ^ (1 - (f32.bias : ℤ)) ≤ 1 / 4 := by
    rw [f32_bias]; exact le_trans (zpow_le_zpow_right₀ (by norm_num) (by norm_num : (_ : ℤ) ≤ -2)) (by norm_num)
  have nb : |2 * a.val - 1| ≤ 3 / 8 := by rw [abs_le]; constructor <;> linarith
  obtain ⟨nf, nv⟩ := sterbenz_val (x := 2.0 * a) (y := (1.0 : Flt f32)) mf (by decide +kernel) (by rw [mv, v10]; norm_num; rw [abs_of_pos hp]; linarith) (by rw [mv, v10]; norm_num; linarith) (tiny.trans (by rw [mv, abs_of_pos (by linarith)]; linarith)) (tiny.trans (by rw [v10]; norm_num))
  rw [mv, v10] at nv
  obtain ⟨df, de⟩ := add_err32 (x := (2.0 : Flt f32)) (y := a) (by decide +kernel) af 2 (by rw [v20, abs_of_pos (by norm_num; linarith)]; norm_num; linarith) (by norm_num)
  rw [v20] at de
  generalize 2.0 * a - 1.0 = n at *
  generalize (2.0 + a) = d at *
  norm_num at nv de hT
  have de' := abs_le.1 de
  have hL : 243 / 100 ≤ d.val := by norm_num at de' ⊢; linarith [de'.1]
  have hq := quot_err hT (by linarith) (by norm_num) hL (he := de.trans (by norm_num : (_ : ℝ) ≤ (1 / 2 ^ 23)))
  have hq2 : |n.val / d.val| ≤ 2 ^ (-4 : ℤ) := by
    rw [nv]
    have := abs_sub_abs_le_abs_sub (2 * a.val - 1 : ℝ) 0
    refine le_trans ?_ (by norm_num : (513 / 10000 + 513 / 10000 * (1 / 2 ^ 23) / (243 / 100) : ℝ) ≤ 2 ^ (-4 : ℤ))
    have := abs_sub_abs_le_abs_sub ((2 * a.val - 1) / d.val) ((2 * a.val - 1) / (2 + a.val))
    linarith
  obtain ⟨rf, re⟩ := div_err32 nf df (by norm_num at hL; linarith) (-4) hq2 (by norm_num) (by norm_num)
  rw [nv] at re
  norm_num
  refine ⟨rf, hT, ?_⟩
  refine (abs_sub_le _ _ _).trans ((add_le_add re hq).trans (by norm_num))

theorem red_b {a : Flt f32} (af : a.isFinite) (h1 : 0.56 ≤ a.val) (h2 : a.val ≤ 11 / 16) :
    ((2.0 * a - 1.0) / (2.0 + a)).isFinite ∧ |(2 * a.val - 1) / (2 + a.val)| ≤ 349 / 2500 ∧ |((2.0 * a - 1.0) / (2.0 + a)).val - (2 * a.val - 1) / (2 + a.val)| ≤ (1921 / 2 ^ 37) := by
  have v10 : (1.0 : Flt f32).val = 1.0 := by rw [val_const32 (x := (1.0 : Flt f32)) 1 149 (0) (by decide +kernel) (by norm_num)]; norm_num
  norm_num at h1 h2
  have hp : 0 < a.val := by linarith
  have hT : |(2 * a.val - 1) / (2 + a.val)| ≤ 349 / 2500 := by
    rw [abs_div, abs_of_pos (a := 2 + a.val) (by linarith), div_le_iff₀ (by linarith), abs_le]
    norm_num
    constructor <;> linarith
  have v20 : (2.0 : Flt f32).val = 2.0 := by rw [val_const32 (x := (2.0 : Flt f32)) 1 150 (1) (by decide +kernel) (by norm_num)]; norm_num
  have ha2 : |a.val * 2 ^ (1 : ℤ)| = 2 * a.val := by rw [abs_mul, abs_of_pos hp]; norm_num; ring
  obtain ⟨c, cf, cv⟩ := scale_exact (x := a) 1 (by rw [ha2]; exact (zp_le_quarter (by rw [f32_bias]; norm_num)).trans (by linarith)) (by rw [ha2]; exact lt_of_lt_of_le (by linarith : 2 * a.val < 2) (two_le_zp (by rw [f32_bias]; norm_num)))
  obtain ⟨mf, mv⟩ := (mul_rne (x := (2.0 : Flt f32)) (y := a) (by decide +kernel) af).exact_real cf (by rw [v20, cv]; norm_num; ring)
  rw [v20] at mv
  norm_num at mv
  have tiny : (2 : ℝ) ^ (1 - (f32.bias : ℤ)) ≤ 1 / 4 := by
    rw [f32_bias]; exact le_trans (zpow_le_zpow_right₀ (by norm_num) (by norm_num : (_ : ℤ) ≤ -2)) (by norm_num)
  have nb : |2 * a.val - 1| ≤ 3 / 8 := by rw [abs_le]; constructor <;> linarith
  obtain ⟨nf, nv⟩ := sterbenz_val (x := 2.0 * a) (y := (1.0 : Flt f32)) mf (by decide +kernel) (by rw [mv, v10]; norm_num; rw [abs_of_pos hp]; linarith) (by rw [mv, v10]; norm_num; linarith) (tiny.trans (by rw [mv, abs_of_pos (by linarith)]; linarith)) (tiny.trans (by rw [v10]; norm_num))
  rw [mv, v10] at nv
  obtain ⟨df, de⟩ := add_err32 (x := (2.0 : Flt f32)) (y := a) (by decide +kernel) af 2 (by rw [v20, abs_of_pos (by norm_num; linarith)]; norm_num; linarith) (by norm_num)
  rw [v20] at de
  generalize 2.0 * a - 1.0 = n at *
  generalize (2.0 + a) = d at *
  norm_num at nv de hT
  have de' := abs_le.1 de
  have hL : 51 / 20 ≤ d.val := by norm_num at de' ⊢; linarith [de'.1]
  have hq := quot_err hT (by linarith) (by norm_num) hL (he := de.trans (by norm_num : (_ : ℝ) ≤ (1 / 2 ^ 23)))
  have hq2 : |n.val / d.val| ≤ 2 ^ (-2 : ℤ) := by
    rw [nv]
    have := abs_sub_abs_le_abs_sub (2 * a.val - 1 : ℝ) 0
    refine le_trans ?_ (by norm_num : (349 / 2500 + 349 / 2500 * (1 / 2 ^ 23) / (51 / 20) : ℝ) ≤ 2 ^ (-2 : ℤ))
    have := abs_sub_abs_le_abs_sub ((2 * a.val - 1) / d.val) ((2 * a.val - 1) / (2 + a.val))
    linarith
  obtain ⟨rf, re⟩ := div_err32 nf df (by norm_num at hL; linarith) (-2) hq2 (by norm_num) (by norm_num)
  rw [nv] at re
  norm_num
  refine ⟨rf, hT, ?_⟩
  refine (abs_sub_le _ _ _).trans ((add_le_add re hq).trans (by norm_num))

theorem red_c {a : Flt f32} (af : a.isFinite) (h1 : 11 / 16 ≤ a.val) (h2 : a.val ≤ 1) :
    ((a - 1.0) / (a + 1.0)).isFinite ∧ |(a.val - 1) / (a.val + 1)| ≤ 18519 / 100000 ∧ |((a - 1.0) / (a + 1.0)).val - (a.val - 1) / (a.val + 1)| ≤ (241 / 2 ^ 34) := by
  have v10 : (1.0 : Flt f32).val = 1.0 := by rw [val_const32 (x := (1.0 : Flt f32)) 1 149 (0) (by decide +kernel) (by norm_num)]; norm_num
  norm_num at h1 h2
  have hp : 0 < a.val := by linarith
  have hT : |(a.val - 1) / (a.val + 1)| ≤ 18519 / 100000 := by
    rw [abs_div, abs_of_pos (a := a.val + 1) (by linarith), div_le_iff₀ (by linarith), abs_le]
    norm_num
    constructor <;> linarith
  have tiny : (2 : ℝ) ^ (1 - (f32.bias : ℤ)) ≤ 1 / 4 := by
    rw [f32_bias]; exact le_trans (zpow_le_zpow_right₀ (by norm_num) (by norm_num : (_ : ℤ) ≤ -2)) (by norm_num)
  have nb : |a.val - 1| ≤ 5 / 16 := by rw [abs_le]; constructor <;> linarith
  obtain ⟨nf, nv⟩ := sterbenz_val (x := a) (y := (1.0 : Flt f32)) af (by decide +kernel) (by rw [v10, abs_of_pos hp]; norm_num; linarith) (by rw [v10]; norm_num; linarith) (tiny.trans (by rw [abs_of_pos hp]; linarith)) (tiny.trans (by rw [v10]; norm_num))
  rw [v10] at nv
  obtain ⟨df, de⟩ := add_err32 (x := a) (y := (1.0 : Flt f32)) af (by decide +kernel) 1 (by rw [v10, abs_of_pos (by norm_num; linarith)]; norm_num; linarith) (by norm_num)
  rw [v10] at de
  generalize a - 1.0 = n at *
  generalize (a + 1.0) = d at *
  norm_num at nv de hT
  have de' := abs_le.1 de
  have hL : 42 / 25 ≤ d.val := by norm_num at de' ⊢; linarith [de'.1]
  have hq := quot_err hT (by linarith) (by norm_num) hL (he := de.trans (by norm_num : (_ : ℝ) ≤ (1 / 2 ^ 24)))
  have hq2 : |n.val / d.val| ≤ 2 ^ (-2 : ℤ) := by
    rw [nv]
    have := abs_sub_abs_le_abs_sub (a.val - 1 : ℝ) 0
    refine le_trans ?_ (by norm_num : (18519 / 100000 + 18519 / 100000 * (1 / 2 ^ 24) / (42 / 25) : ℝ) ≤ 2 ^ (-2 : ℤ))
    have := abs_sub_abs_le_abs_sub ((a.val - 1) / d.val) ((a.val - 1) / (a.val + 1))
    linarith
  obtain ⟨rf, re⟩ := div_err32 nf df (by norm_num at hL; linarith) (-2) hq2 (by norm_num) (by norm_num)
  rw [nv] at re
  norm_num
  refine ⟨rf, hT, ?_⟩
  refine (abs_sub_le _ _ _).trans ((add_le_add re hq).trans (by norm_num))

theorem red_d {a : Flt f32} (af : a.isFinite) (h1 : 1 ≤ a.val) (h2 : a.val ≤ 19 / 16) :
    ((a - 1.0) / (a + 1.0)).isFinite ∧ |(a.val - 1) / (a.val + 1)| ≤ 429 / 5000 ∧ |((a - 1.0) / (a + 1.0)).val - (a.val - 1) / (a.val + 1)| ≤ (1219 / 2 ^ 37) := by
  have v10 : (1.0 : Flt f32).val = 1.0 := by rw [val_const32 (x := (1.0 : Flt f32)) 1 149 (0) (by decide +kernel) (by norm_num)]; norm_num
  norm_num at h1 h2
  have hp : 0 < a.val := by linarith
  have hT : |(a.val - 1) / (a.val + 1)| ≤ 429 / 5000 := by
    rw [abs_div, abs_of_pos (a := a.val + 1) (by linarith), div_le_iff₀ (by linarith), abs_le]
    norm_num
    constructor <;> linarith
  have tiny : (2 : ℝ) ^ (1 - (f32.bias : ℤ)) ≤ 1 / 4 := by
    rw [f32_bias]; exact le_trans (zpow_le_zpow_right₀ (by norm_num) (by norm_num : (_ : ℤ) ≤ -2)) (by norm_num)
  have nb : |a.val - 1| ≤ 5 / 16 := by rw [abs_le]; constructor <;> linarith
  obtain ⟨nf, nv⟩ := sterbenz_val (x := a) (y := (1.0 : Flt f32)) af (by decide +kernel) (by rw [v10, abs_of_pos hp]; norm_num; linarith) (by rw [v10]; norm_num; linarith) (tiny.trans (by rw [abs_of_pos hp]; linarith)) (tiny.trans (by rw [v10]; norm_num))
  rw [v10] at nv
  obtain ⟨df, de⟩ := add_err32 (x := a) (y := (1.0 : Flt f32)) af (by decide +kernel) 2 (by rw [v10, abs_of_pos (by norm_num; linarith)]; norm_num; linarith) (by norm_num)
  rw [v10] at de
  generalize a - 1.0 = n at *
  generalize (a + 1.0) = d at *
  norm_num at nv de hT
  have de' := abs_le.1 de
  have hL : 199 / 100 ≤ d.val := by norm_num at de' ⊢; linarith [de'.1]
  have hq := quot_err hT (by linarith) (by norm_num) hL (he := de.trans (by norm_num : (_ : ℝ) ≤ (1 / 2 ^ 23)))
  have hq2 : |n.val / d.val| ≤ 2 ^ (-3 : ℤ) := by
    rw [nv]
    have := abs_sub_abs_le_abs_sub (a.val - 1 : ℝ) 0
    refine le_trans ?_ (by norm_num : (429 / 5000 + 429 / 5000 * (1 / 2 ^ 23) / (199 / 100) : ℝ) ≤ 2 ^ (-3 : ℤ))
    have := abs_sub_abs_le_abs_sub ((a.val - 1) / d.val) ((a.val - 1) / (a.val + 1))
    linarith
  obtain ⟨rf, re⟩ := div_err32 nf df (by norm_num at hL; linarith) (-3) hq2 (by norm_num) (by norm_num)
  rw [nv] at re
  norm_num
  refine ⟨rf, hT, ?_⟩
  refine (abs_sub_le _ _ _).trans ((add_le_add re hq).trans (by norm_num))

theorem red_e {a : Flt f32} (af : a.isFinite) (h1 : 19 / 16 ≤ a.val) (h2 : a.val ≤ 1.6) :
    ((a - 1.5) / (1.0 + 1.5 * a)).isFinite ∧ |(a.val - 1.5) / (1 + 1.5 * a.val)| ≤ 9 / 80 ∧ |((a - 1.5) / (1.0 + 1.5 * a)).val - (a.val - 1.5) / (1 + 1.5 * a.val)| ≤ (1839 / 2 ^ 37) := by
  have v10 : (1.0 : Flt f32).val = 1.0 := by rw [val_const32 (x := (1.0 : Flt f32)) 1 149 (0) (by decide +kernel) (by norm_num)]; norm_num
  norm_num at h1 h2
  have hp : 0 < a.val := by linarith
  have hT : |(a.val - 1.5) / (1 + 1.5 * a.val)| ≤ 9 / 80 := by
    rw [abs_div, abs_of_pos (a := 1 + 1.5 * a.val) (by linarith), div_le_iff₀ (by linarith), abs_le]
    norm_num
    constructor <;> linarith
  have v15 : (1.5 : Flt f32).val = 1.5 := by rw [val_const32 (x := (1.5 : Flt f32)) 3 148 (-1) (by decide +kernel) (by norm_num)]; norm_num
  have tiny : (2 : ℝ) ^ (1 - (f32.bias : ℤ)) ≤ 1 / 4 := by
    rw [f32_bias]; exact le_trans (zpow_le_zpow_right₀ (by norm_num) (by norm_num : (_ : ℤ) ≤ -2)) (by norm_num)
  have nb : |a.val - 3 / 2| ≤ 15 / 16 := by rw [abs_le]; constructor <;> linarith
  obtain ⟨nf, nv⟩ := sterbenz_val (x := a) (y := (1.5 : Flt f32)) af (by decide +kernel) (by rw [v15, abs_of_pos hp]; norm_num; linarith) (by rw [v15]; norm_num; linarith) (tiny.trans (by rw [abs_of_pos hp]; linarith)) (tiny.trans (by rw [v15]; norm_num))
  rw [v15] at nv
  obtain ⟨mf, me⟩ := mul_err32 (x := (1.5 : Flt f32)) (y := a) (by decide +kernel) af 2 (by rw [v15, abs_of_pos (by norm_num; linarith)]; norm_num; linarith) (by norm_num) (by norm_num)
  rw [v15] at me
  have me' := abs_le.1 me
  norm_num at me'
  obtain ⟨df, de1⟩ := add_err32 (x := (1.0 : Flt f32)) (y := 1.5 * a) (by decide +kernel) mf 2 (by rw [v10, abs_of_pos (by norm_num; linarith [me'.1])]; norm_num; linarith [me'.2]) (by norm_num)
  rw [v10] at de1
  have de : |(1.0 + 1.5 * a : Flt f32).val - (1 + 1.5 * a.val)| ≤ (1 / 2 ^ 22) := by
    rw [abs_le] at de1 me ⊢
    norm_num at de1 me ⊢
    constructor <;> linarith [de1.1, de1.2, me.1, me.2]
  generalize a - 1.5 = n at *
  generalize (1.0 + 1.5 * a) = d at *
  norm_num at nv de hT
  have de' := abs_le.1 de
  have hL : 139 / 50 ≤ d.val := by norm_num at de' ⊢; linarith [de'.1]
  have hq := quot_err hT (by linarith) (by norm_num) hL (he := de.trans (by norm_num : (_ : ℝ) ≤ (1 / 2 ^ 22)))
  have hq2 : |n.val / d.val| ≤ 2 ^ (-3 : ℤ) := by
    rw [nv]
    have := abs_sub_abs_le_abs_sub (a.val - 3 / 2 : ℝ) 0
    refine le_trans ?_ (by norm_num : (9 / 80 + 9 / 80 * (1 / 2 ^ 22) / (139 / 50) : ℝ) ≤ 2 ^ (-3 : ℤ))
    have := abs_sub_abs_le_abs_sub ((a.val - 3 / 2) / d.val) ((a.val - 3 / 2) / (1 + 3 / 2 * a.val))
    linarith
  obtain ⟨rf, re⟩ := div_err32 nf df (by norm_num at hL; linarith) (-3) hq2 (by norm_num) (by norm_num)
  rw [nv] at re
  norm_num
  refine ⟨rf, hT, ?_⟩
  refine (abs_sub_le _ _ _).trans ((add_le_add re hq).trans (by norm_num))

theorem red_f {a : Flt f32} (af : a.isFinite) (h1 : 1.6 ≤ a.val) (h2 : a.val ≤ 39 / 16) :
    ((a - 1.5) / (1.0 + 1.5 * a)).isFinite ∧ |(a.val - 1.5) / (1 + 1.5 * a.val)| ≤ 1007 / 5000 ∧ |((a - 1.5) / (1.0 + 1.5 * a)).val - (a.val - 1.5) / (1 + 1.5 * a.val)| ≤ (1973 / 2 ^ 36) := by
  have v10 : (1.0 : Flt f32).val = 1.0 := by rw [val_const32 (x := (1.0 : Flt f32)) 1 149 (0) (by decide +kernel) (by norm_num)]; norm_num
  norm_num at h1 h2
  have hp : 0 < a.val := by linarith
  have hT : |(a.val - 1.5) / (1 + 1.5 * a.val)| ≤ 1007 / 5000 := by
    rw [abs_div, abs_of_pos (a := 1 + 1.5 * a.val) (by linarith), div_le_iff₀ (by linarith), abs_le]
    norm_num
    constructor <;> linarith
  have v15 : (1.5 : Flt f32).val = 1.5 := by rw [val_const32 (x := (1.5 : Flt f32)) 3 148 (-1) (by decide +kernel) (by norm_num)]; norm_num
  have tiny : (2 : ℝ) ^ (1 - (f32.bias : ℤ)) ≤ 1 / 4 := by
    rw [f32_bias]; exact le_trans (zpow_le_zpow_right₀ (by norm_num) (by norm_num : (_ : ℤ) ≤ -2)) (by norm_num)
  have nb : |a.val - 3 / 2| ≤ 15 / 16 := by rw [abs_le]; constructor <;> linarith
  obtain ⟨nf, nv⟩ := sterbenz_val (x := a) (y := (1.5 : Flt f32)) af (by decide +kernel) (by rw [v15, abs_of_pos hp]; norm_num; linarith) (by rw [v15]; norm_num; linarith) (tiny.trans (by rw [abs_of_pos hp]; linarith)) (tiny.trans (by rw [v15]; norm_num))
  rw [v15] at nv
  obtain ⟨mf, me⟩ := mul_err32 (x := (1.5 : Flt f32)) (y := a) (by decide +kernel) af 2 (by rw [v15, abs_of_pos (by norm_num; linarith)]; norm_num; linarith) (by norm_num) (by norm_num)
  rw [v15] at me
  have me' := abs_le.1 me
  norm_num at me'
  obtain ⟨df, de1⟩ := add_err32 (x := (1.0 : Flt f32)) (y := 1.5 * a) (by decide +kernel) mf 3 (by rw [v10, abs_of_pos (by norm_num; linarith [me'.1])]; norm_num; linarith [me'.2]) (by norm_num)
  rw [v10] at de1
  have de : |(1.0 + 1.5 * a : Flt f32).val - (1 + 1.5 * a.val)| ≤ (3 / 2 ^ 23) := by
    rw [abs_le] at de1 me ⊢
    norm_num at de1 me ⊢
    constructor <;> linarith [de1.1, de1.2, me.1, me.2]
  generalize a - 1.5 = n at *
  generalize (1.0 + 1.5 * a) = d at *
  norm_num at nv de hT
  have de' := abs_le.1 de
  have hL : 339 / 100 ≤ d.val := by norm_num at de' ⊢; linarith [de'.1]
  have hq := quot_err hT (by linarith) (by norm_num) hL (he := de.trans (by norm_num : (_ : ℝ) ≤ (3 / 2 ^ 23)))
  have hq2 : |n.val / d.val| ≤ 2 ^ (-2 : ℤ) := by
    rw [nv]
    have := abs_sub_abs_le_abs_sub (a.val - 3 / 2 : ℝ) 0
    refine le_trans ?_ (by norm_num : (1007 / 5000 + 1007 / 5000 * (3 / 2 ^ 23) / (339 / 100) : ℝ) ≤ 2 ^ (-2 : ℤ))
    have := abs_sub_abs_le_abs_sub ((a.val - 3 / 2) / d.val) ((a.val - 3 / 2) / (1 + 3 / 2 * a.val))
    linarith
  obtain ⟨rf, re⟩ := div_err32 nf df (by norm_num at hL; linarith) (-2) hq2 (by norm_num) (by norm_num)
  rw [nv] at re
  norm_num
  refine ⟨rf, hT, ?_⟩
  refine (abs_sub_le _ _ _).trans ((add_le_add re hq).trans (by norm_num))

theorem red_g {a : Flt f32} (af : a.isFinite) (h1 : 39 / 16 ≤ a.val) :
    (-1.0 / a).isFinite ∧ |(-1) / (a.val)| ≤ 4103 / 10000 ∧ |(-1.0 / a).val - (-1) / (a.val)| ≤ (1 / 2 ^ 26) := by
  have v10 : (1.0 : Flt f32).val = 1.0 := by rw [val_const32 (x := (1.0 : Flt f32)) 1 149 (0) (by decide +kernel) (by norm_num)]; norm_num
  norm_num at h1
  have hp : 0 < a.val := by linarith
  have hT : |(-1) / (a.val)| ≤ 4103 / 10000 := by
    rw [abs_div, abs_of_pos hp, div_le_iff₀ hp, abs_neg, abs_one]
    linarith
  have hn : (-1.0 : Flt f32).val = -1 := by rw [val_const32 (x := (-1.0 : Flt f32)) (-1) 149 0 (by decide +kernel) (by norm_num)]; norm_num
  obtain ⟨f, e⟩ := div_err32 (x := (-1.0 : Flt f32)) (y := a) (by decide +kernel) af hp.ne' (-1) (by rw [hn]; exact hT.trans (by norm_num)) (by norm_num) (by norm_num)
  rw [hn] at e
  exact ⟨f, hT, e.trans (by norm_num)⟩
end Atanf

end Verif
