import Verif.Theory.As
import Verif.Theory.TrigConst
import Verif.Theory.SinSeries

/-!
# The binary64 kernels of sine and cosine against the real functions

On `|x| ≤ 3219/4096`, slightly more than `π/4`, with a tail `y` of at most `2^-52 |x|`.
-/

namespace Verif
open Flt

theorem As.congr_v {F : Fmt} {t : ℝ} {a : Flt F} {v w e B : ℝ} (h : As t a v e B) (hv : v = w) : As t a w e B := hv ▸ h

theorem half64_val : (0.5 : Flt f64).val = 1 / 2 := by
  rw [show (0.5 : Flt f64) = bits64 0x3fe0000000000000 from by decide +kernel,
    val_const64 (1) 1073 (-1) (by decide +kernel) (by norm_num)]; norm_num

namespace KernD

theorem sin_add_small {x y : ℝ} (hx : |x| ≤ 3219 / 4096) (hy : |y| ≤ 13 / 2 ^ 56 * |x|) :
    |Real.sin (x + y) - (Real.sin x + y * (1 - x ^ 2 / 2))| ≤ (x ^ 4 / 24 + 1 / 2 ^ 50) * |y| := by
  have hy1 : |y| ≤ 1 / 2 ^ 52 := hy.trans (by nlinarith [abs_nonneg x])
  have h1 := Poly.sin_series 1 (x := y) (hy1.trans (by norm_num))
  have h2 := Poly.cos_series 1 (x := y) (hy1.trans (by norm_num))
  have h3 := Poly.cos_series 2 (x := x) (hx.trans (by norm_num))
  have e1 : Poly.ev (Poly.sinc 1) (y ^ 2) = 1 := by simp [Poly.sinc, Poly.ev]
  have e2 : Poly.ev (Poly.cosc 1) (y ^ 2) = 1 := by simp [Poly.cosc, Poly.ev]
  have e3 : Poly.ev (Poly.cosc 2) (x ^ 2) = 1 - x ^ 2 / 2 := by
    simp [Poly.cosc, Poly.ev, List.range_succ]; ring
  rw [e1] at h1; rw [e2] at h2; rw [e3] at h3
  norm_num [Nat.factorial] at h1 h2 h3
  rw [Real.sin_add]
  have e : Real.sin x * Real.cos y + Real.cos x * Real.sin y - (Real.sin x + y * (1 - x ^ 2 / 2))
      = Real.sin x * (Real.cos y - 1) + Real.cos x * (Real.sin y - y) + y * (Real.cos x - (1 - x ^ 2 / 2)) := by ring
  rw [e]
  refine (abs_add_three _ _ _).trans ?_
  rw [abs_mul, abs_mul, abs_mul]
  have hs := Real.abs_sin_le_one x
  have hc := Real.abs_cos_le_one x
  have a1 : |Real.sin x| * |Real.cos y - 1| ≤ 1 * (y ^ 2 / 2) := mul_le_mul hs h2 (abs_nonneg _) zero_le_one
  have a2 : |Real.cos x| * |Real.sin y - y| ≤ 1 * (|y| * (y ^ 2 / 6)) := mul_le_mul hc h1 (abs_nonneg _) zero_le_one
  have a3 := mul_le_mul_of_nonneg_left h3 (abs_nonneg y)
  have hy2 : y ^ 2 = |y| * |y| := by rw [← sq_abs]; ring
  have hn := abs_nonneg y
  have b1 : |y| * |y| ≤ 1 / 2 ^ 52 * |y| := mul_le_mul_of_nonneg_right hy1 hn
  have b2 : |y| * (y ^ 2 / 6) ≤ |y| * (1 / 2 ^ 52) := mul_le_mul_of_nonneg_left (by rw [hy2]; nlinarith) hn
  have b3 : (x ^ 2) ^ 2 = x ^ 4 := by ring
  rw [b3] at a3
  rw [hy2] at a1
  nlinarith

theorem cos_add_small {x y : ℝ} (hx : |x| ≤ 3219 / 4096) (hy : |y| ≤ 13 / 2 ^ 56 * |x|) :
    |Real.cos (x + y) - (Real.cos x - x * y)| ≤ (x ^ 2 / 6 * |x| + 1 / 2 ^ 50) * |y| := by
  have hy1 : |y| ≤ 1 / 2 ^ 52 := hy.trans (by nlinarith [abs_nonneg x])
  have h1 := Poly.sin_series 1 (x := y) (hy1.trans (by norm_num))
  have h2 := Poly.cos_series 1 (x := y) (hy1.trans (by norm_num))
  have h3 := Poly.sin_series 1 (x := x) (hx.trans (by norm_num))
  have e1 (y : ℝ) : Poly.ev (Poly.sinc 1) (y ^ 2) = 1 := by simp [Poly.sinc, Poly.ev]
  have e2 : Poly.ev (Poly.cosc 1) (y ^ 2) = 1 := by simp [Poly.cosc, Poly.ev]
  rw [e1] at h1 h3; rw [e2] at h2
  norm_num [Nat.factorial] at h1 h2 h3
  rw [Real.cos_add]
  have e : Real.cos x * Real.cos y - Real.sin x * Real.sin y - (Real.cos x - x * y)
      = Real.cos x * (Real.cos y - 1) + -(Real.sin x * (Real.sin y - y)) + -(y * (Real.sin x - x)) := by ring
  rw [e]
  refine (abs_add_three _ _ _).trans ?_
  rw [abs_neg, abs_neg, abs_mul, abs_mul, abs_mul]
  have hs := Real.abs_sin_le_one x
  have hc := Real.abs_cos_le_one x
  have a1 : |Real.cos x| * |Real.cos y - 1| ≤ 1 * (y ^ 2 / 2) := mul_le_mul hc h2 (abs_nonneg _) zero_le_one
  have a2 : |Real.sin x| * |Real.sin y - y| ≤ 1 * (|y| * (y ^ 2 / 6)) := mul_le_mul hs h1 (abs_nonneg _) zero_le_one
  have a3 := mul_le_mul_of_nonneg_left h3 (abs_nonneg y)
  have hy2 : y ^ 2 = |y| * |y| := by rw [← sq_abs]; ring
  have hn := abs_nonneg y
  have b1 : |y| * |y| ≤ 1 / 2 ^ 52 * |y| := mul_le_mul_of_nonneg_right hy1 hn
  have b2 : |y| * (y ^ 2 / 6) ≤ |y| * (1 / 2 ^ 52) := mul_le_mul_of_nonneg_left (by rw [hy2]; nlinarith) hn
  rw [hy2] at a1
  nlinarith

/-- the polynomial of `k_sin` -/
def sinPoly : List ℚ := [1, -6004799503160649 / 2 ^ 55, 2401919801261139 / 2 ^ 58, -7320136532976085 / 2 ^ 65, 6506786730409597 / 2 ^ 71, -7571127717829867 / 2 ^ 78, 1537454791456095 / 2 ^ 83]

theorem poly_sin {x : ℝ} (hx : |x| ≤ 3219 / 4096) : |x * Poly.ev sinPoly (x ^ 2) - Real.sin x| ≤ 1 / 2 ^ 57 * (5 / 8) * |x| := by
  have hu : x ^ 2 ≤ 10361961 / 16777216 := by rw [← sq_abs]; nlinarith [abs_nonneg x]
  have h1 := Poly.sin_series 11 (x := x) (hx.trans (by norm_num))
  have h2 := Poly.bound (p := Poly.add sinPoly (Poly.smul (-1) (Poly.sinc 11))) (a := 0) (h := 10361961 / 16777216 / 128) (B := 1 / 2 ^ 57 * (9 / 16)) (n := 64)
    (by decide +kernel) (by norm_num) (by norm_num) (x ^ 2) (by push_cast; positivity) (by push_cast; linarith)
  rw [Poly.ev_add, Poly.ev_smul] at h2
  push_cast at h2
  have h3 : (x ^ 2) ^ 11 / (Nat.factorial (2 * 11 + 1) : ℝ) ≤ 1 / 2 ^ 74 := by
    have : (x ^ 2) ^ 11 ≤ 1 := pow_le_one₀ (by positivity) (by linarith)
    rw [show Nat.factorial (2 * 11 + 1) = 25852016738884976640000 from by decide]
    push_cast
    linarith
  have e1 : x * Poly.ev sinPoly (x ^ 2) - Real.sin x = x * (Poly.ev sinPoly (x ^ 2) + -1 * Poly.ev (Poly.sinc 11) (x ^ 2))
      + -(Real.sin x - x * Poly.ev (Poly.sinc 11) (x ^ 2)) := by ring
  rw [e1]
  refine (abs_add_le _ _).trans ?_
  rw [abs_mul, abs_neg]
  have h4 := mul_le_mul_of_nonneg_left h2 (abs_nonneg x)
  have h5 := mul_le_mul_of_nonneg_left h3 (abs_nonneg x)
  have := abs_nonneg x
  linarith

theorem sin0 {x y : Flt f64} (hf : x.isFinite) (hx : |x.val| ≤ 3219 / 2 ^ 12) (ht : 2 ^ (-900 : ℤ) ≤ |x.val|) :
    ∃ q : ℝ, IsRNE q (kSin x y 0) ∧ |q - (x.val * Poly.ev sinPoly (x.val ^ 2))| ≤ (897 / 2 ^ 64) * |x.val| := by
  have hnn : (0 : ℝ) ≤ |x.val| := abs_nonneg _
  have hle : |x.val| ≤ 1 := hx.trans (by norm_num)
  have hxt : As |x.val| x x.val 0 1 := .exact hf rfl (by rw [one_mul])
  have hxo : As 1 x x.val 0 (3219 / 2 ^ 12) := .exact hf rfl (by rw [mul_one]; exact hx)
  have hs1 : As 1 KSin.s1 KSin.s1.val 0 (2731 / 2 ^ 14) := .exact (by decide +kernel) rfl (by rw [KSin.s1_val, abs_le]; constructor <;> norm_num)
  have hs2 : As 1 KSin.s2 KSin.s2.val 0 (2185 / 2 ^ 18) := .exact (by decide +kernel) rfl (by rw [KSin.s2_val, abs_le]; constructor <;> norm_num)
  have hs3 : As 1 KSin.s3 KSin.s3.val 0 (3329 / 2 ^ 24) := .exact (by decide +kernel) rfl (by rw [KSin.s3_val, abs_le]; constructor <;> norm_num)
  have hs4 : As 1 KSin.s4 KSin.s4.val 0 (2959 / 2 ^ 30) := .exact (by decide +kernel) rfl (by rw [KSin.s4_val, abs_le]; constructor <;> norm_num)
  have hs5 : As 1 KSin.s5 KSin.s5.val 0 (3443 / 2 ^ 37) := .exact (by decide +kernel) rfl (by rw [KSin.s5_val, abs_le]; constructor <;> norm_num)
  have hs6 : As 1 KSin.s6 KSin.s6.val 0 (2797 / 2 ^ 44) := .exact (by decide +kernel) rfl (by rw [KSin.s6_val, abs_le]; constructor <;> norm_num)
  have hz := As64.mul one_lo le_rfl hxo hxo (by norm_num) (by norm_num) (by norm_num) (by norm_num) (g := (1265 / 2 ^ 64)) (D := (1265 / 2 ^ 11)) (by norm_num) (by norm_num)
  have hw := As64.mul one_lo le_rfl hz hz (by norm_num) (by norm_num) (by norm_num) (by norm_num) (g := (4689 / 2 ^ 65)) (D := (6251 / 2 ^ 14)) (by norm_num) (by norm_num)
  have ha1 := As64.mul one_lo le_rfl hz hs4 (by norm_num) (by norm_num) (by norm_num) (by norm_num) (g := (7311 / 2 ^ 84)) (D := (7311 / 2 ^ 32)) (by norm_num) (by norm_num)
  have ha2 := As64.add zero_le_one le_rfl hs3 ha1 (by norm_num) (by norm_num) (g := (3415 / 2 ^ 77)) (D := (1679 / 2 ^ 23)) (by norm_num) (by norm_num)
  have ha3 := As64.mul one_lo le_rfl hz ha2 (by norm_num) (by norm_num) (by norm_num) (by norm_num) (g := (3129 / 2 ^ 76)) (D := (4149 / 2 ^ 25)) (by norm_num) (by norm_num)
  have ha4 := As64.add zero_le_one le_rfl hs2 ha3 (by norm_num) (by norm_num) (g := (4631 / 2 ^ 72)) (D := (4435 / 2 ^ 19)) (by norm_num) (by norm_num)
  have hb1 := As64.mul one_lo le_rfl hz hw (by norm_num) (by norm_num) (by norm_num) (by norm_num) (g := (4827 / 2 ^ 65)) (D := (7723 / 2 ^ 15)) (by norm_num) (by norm_num)
  have hb2 := As64.mul one_lo le_rfl hz hs6 (by norm_num) (by norm_num) (by norm_num) (by norm_num) (g := (6911 / 2 ^ 98)) (D := (6911 / 2 ^ 46)) (by norm_num) (by norm_num)
  have hb3 := As64.add zero_le_one le_rfl hs5 hb2 (by norm_num) (by norm_num) (g := (6967 / 2 ^ 91)) (D := (6913 / 2 ^ 38)) (by norm_num) (by norm_num)
  have hb4 := As64.mul one_lo le_rfl hb1 hb3 (by norm_num) (by norm_num) (by norm_num) (by norm_num) (g := (2855 / 2 ^ 89)) (D := (3259 / 2 ^ 39)) (by norm_num) (by norm_num)
  have hr := As64.add zero_le_one le_rfl ha4 hb4 (by norm_num) (by norm_num) (g := (2267 / 2 ^ 70)) (D := (1109 / 2 ^ 17)) (by norm_num) (by norm_num)
  have hv := As64.mulr ht hle hz hxt (by norm_num) (by norm_num) (by norm_num) (by norm_num) (g := (5061 / 2 ^ 65)) (D := (5061 / 2 ^ 13)) (by norm_num) (by norm_num)
  have hd1 := As64.mul one_lo le_rfl hz hr (by norm_num) (by norm_num) (by norm_num) (by norm_num) (g := (5541 / 2 ^ 71)) (D := (5481 / 2 ^ 20)) (by norm_num) (by norm_num)
  have hd2 := As64.add zero_le_one le_rfl hs1 hd1 (by norm_num) (by norm_num) (g := (3163 / 2 ^ 67)) (D := (2817 / 2 ^ 14)) (by norm_num) (by norm_num)
  have hd := As64.mul ht hle hv hd2 (by norm_num) (by norm_num) (by norm_num) (by norm_num) (g := (897 / 2 ^ 64)) (D := (3481 / 2 ^ 15)) (by norm_num) (by norm_num)
  refine ⟨_, by unfold kSin; dsimp only; (first | rw [if_pos rfl] | rw [if_neg one_ne_zero]); exact add_rne hf hd.fin, ?_⟩
  have h := hd.err
  refine (le_of_eq ?_).trans h
  
  congr 1
  simp only [sinPoly, Poly.ev, KSin.s1_val, KSin.s2_val, KSin.s3_val, KSin.s4_val, KSin.s5_val, KSin.s6_val]
  push_cast
  norm_num
  ring

theorem sin1 {x y : Flt f64} (hf : x.isFinite) (hx : |x.val| ≤ 3219 / 2 ^ 12) (ht : 2 ^ (-900 : ℤ) ≤ |x.val|)
    (hyf : y.isFinite) (hyb : |y.val| ≤ 13 / 2 ^ 56 * |x.val|) :
    ∃ q : ℝ, IsRNE q (kSin x y 1) ∧ |q - (x.val * Poly.ev sinPoly (x.val ^ 2) + y.val * (1 - x.val ^ 2 / 2))| ≤ (7281 / 2 ^ 67) * |x.val| := by
  have hnn : (0 : ℝ) ≤ |x.val| := abs_nonneg _
  have hle : |x.val| ≤ 1 := hx.trans (by norm_num)
  have hxt : As |x.val| x x.val 0 1 := .exact hf rfl (by rw [one_mul])
  have hxo : As 1 x x.val 0 (3219 / 2 ^ 12) := .exact hf rfl (by rw [mul_one]; exact hx)
  have hy : As |x.val| y y.val 0 (13 / 2 ^ 56) := .exact hyf rfl hyb
  have hhf : As 1 (0.5 : Flt f64) (0.5 : Flt f64).val 0 (1 / 2) := .exact (by decide +kernel) rfl (by rw [half64_val]; norm_num)
  have hs1 : As 1 KSin.s1 KSin.s1.val 0 (2731 / 2 ^ 14) := .exact (by decide +kernel) rfl (by rw [KSin.s1_val, abs_le]; constructor <;> norm_num)
  have hs2 : As 1 KSin.s2 KSin.s2.val 0 (2185 / 2 ^ 18) := .exact (by decide +kernel) rfl (by rw [KSin.s2_val, abs_le]; constructor <;> norm_num)
  have hs3 : As 1 KSin.s3 KSin.s3.val 0 (3329 / 2 ^ 24) := .exact (by decide +kernel) rfl (by rw [KSin.s3_val, abs_le]; constructor <;> norm_num)
  have hs4 : As 1 KSin.s4 KSin.s4.val 0 (2959 / 2 ^ 30) := .exact (by decide +kernel) rfl (by rw [KSin.s4_val, abs_le]; constructor <;> norm_num)
  have hs5 : As 1 KSin.s5 KSin.s5.val 0 (3443 / 2 ^ 37) := .exact (by decide +kernel) rfl (by rw [KSin.s5_val, abs_le]; constructor <;> norm_num)
  have hs6 : As 1 KSin.s6 KSin.s6.val 0 (2797 / 2 ^ 44) := .exact (by decide +kernel) rfl (by rw [KSin.s6_val, abs_le]; constructor <;> norm_num)
  have hz := As64.mul one_lo le_rfl hxo hxo (by norm_num) (by norm_num) (by norm_num) (by norm_num) (g := (1265 / 2 ^ 64)) (D := (1265 / 2 ^ 11)) (by norm_num) (by norm_num)
  have hw := As64.mul one_lo le_rfl hz hz (by norm_num) (by norm_num) (by norm_num) (by norm_num) (g := (4689 / 2 ^ 65)) (D := (6251 / 2 ^ 14)) (by norm_num) (by norm_num)
  have ha1 := As64.mul one_lo le_rfl hz hs4 (by norm_num) (by norm_num) (by norm_num) (by norm_num) (g := (7311 / 2 ^ 84)) (D := (7311 / 2 ^ 32)) (by norm_num) (by norm_num)
  have ha2 := As64.add zero_le_one le_rfl hs3 ha1 (by norm_num) (by norm_num) (g := (3415 / 2 ^ 77)) (D := (1679 / 2 ^ 23)) (by norm_num) (by norm_num)
  have ha3 := As64.mul one_lo le_rfl hz ha2 (by norm_num) (by norm_num) (by norm_num) (by norm_num) (g := (3129 / 2 ^ 76)) (D := (4149 / 2 ^ 25)) (by norm_num) (by norm_num)
  have ha4 := As64.add zero_le_one le_rfl hs2 ha3 (by norm_num) (by norm_num) (g := (4631 / 2 ^ 72)) (D := (4435 / 2 ^ 19)) (by norm_num) (by norm_num)
  have hb1 := As64.mul one_lo le_rfl hz hw (by norm_num) (by norm_num) (by norm_num) (by norm_num) (g := (4827 / 2 ^ 65)) (D := (7723 / 2 ^ 15)) (by norm_num) (by norm_num)
  have hb2 := As64.mul one_lo le_rfl hz hs6 (by norm_num) (by norm_num) (by norm_num) (by norm_num) (g := (6911 / 2 ^ 98)) (D := (6911 / 2 ^ 46)) (by norm_num) (by norm_num)
  have hb3 := As64.add zero_le_one le_rfl hs5 hb2 (by norm_num) (by norm_num) (g := (6967 / 2 ^ 91)) (D := (6913 / 2 ^ 38)) (by norm_num) (by norm_num)
  have hb4 := As64.mul one_lo le_rfl hb1 hb3 (by norm_num) (by norm_num) (by norm_num) (by norm_num) (g := (2855 / 2 ^ 89)) (D := (3259 / 2 ^ 39)) (by norm_num) (by norm_num)
  have hr := As64.add zero_le_one le_rfl ha4 hb4 (by norm_num) (by norm_num) (g := (2267 / 2 ^ 70)) (D := (1109 / 2 ^ 17)) (by norm_num) (by norm_num)
  have hv := As64.mulr ht hle hz hxt (by norm_num) (by norm_num) (by norm_num) (by norm_num) (g := (5061 / 2 ^ 65)) (D := (5061 / 2 ^ 13)) (by norm_num) (by norm_num)
  have he1 := As64.mulr ht hle hhf hy (by norm_num) (by norm_num) (by norm_num) (by norm_num) (g := (6657 / 2 ^ 119)) (D := (6657 / 2 ^ 66)) (by norm_num) (by norm_num)
  have he2 := As64.mul ht hle hv hr (by norm_num) (by norm_num) (by norm_num) (by norm_num) (g := (27 / 2 ^ 63)) (D := (2741 / 2 ^ 19)) (by norm_num) (by norm_num)
  have he3 := As64.sub hnn hle he1 he2 (by norm_num) (by norm_num) (g := (2071 / 2 ^ 69)) (D := (5483 / 2 ^ 20)) (by norm_num) (by norm_num)
  have he4 := As64.mulr ht hle hz he3 (by norm_num) (by norm_num) (by norm_num) (by norm_num) (g := (6811 / 2 ^ 71)) (D := (3387 / 2 ^ 20)) (by norm_num) (by norm_num)
  have he5 := As64.sub hnn hle he4 hy (by norm_num) (by norm_num) (g := (3829 / 2 ^ 70)) (D := (6775 / 2 ^ 21)) (by norm_num) (by norm_num)
  have he6 := As64.mul ht hle hv hs1 (by norm_num) (by norm_num) (by norm_num) (by norm_num) (g := (2531 / 2 ^ 66)) (D := (6749 / 2 ^ 16)) (by norm_num) (by norm_num)
  have hd := As64.sub hnn hle he5 he6 (by norm_num) (by norm_num) (g := (7281 / 2 ^ 67)) (D := (6961 / 2 ^ 16)) (by norm_num) (by norm_num)
  refine ⟨_, by unfold kSin; dsimp only; (first | rw [if_pos rfl] | rw [if_neg one_ne_zero]); exact sub_rne hf hd.fin, ?_⟩
  have h := hd.err
  refine (le_of_eq ?_).trans h
  rw [← abs_neg]
  congr 1
  simp only [sinPoly, Poly.ev, KSin.s1_val, KSin.s2_val, KSin.s3_val, KSin.s4_val, KSin.s5_val, KSin.s6_val, half64_val]
  push_cast
  norm_num
  ring

theorem sin0_small {x y : Flt f64} (hf : x.isFinite) (hx : |x.val| ≤ 17 / 2 ^ 5) (ht : 2 ^ (-900 : ℤ) ≤ |x.val|) :
    ∃ q : ℝ, IsRNE q (kSin x y 0) ∧ |q - (x.val * Poly.ev sinPoly (x.val ^ 2))| ≤ (6345 / 2 ^ 68) * |x.val| := by
  have hnn : (0 : ℝ) ≤ |x.val| := abs_nonneg _
  have hle : |x.val| ≤ 1 := hx.trans (by norm_num)
  have hxt : As |x.val| x x.val 0 1 := .exact hf rfl (by rw [one_mul])
  have hxo : As 1 x x.val 0 (17 / 2 ^ 5) := .exact hf rfl (by rw [mul_one]; exact hx)
  have hs1 : As 1 KSin.s1 KSin.s1.val 0 (2731 / 2 ^ 14) := .exact (by decide +kernel) rfl (by rw [KSin.s1_val, abs_le]; constructor <;> norm_num)
  have hs2 : As 1 KSin.s2 KSin.s2.val 0 (2185 / 2 ^ 18) := .exact (by decide +kernel) rfl (by rw [KSin.s2_val, abs_le]; constructor <;> norm_num)
  have hs3 : As 1 KSin.s3 KSin.s3.val 0 (3329 / 2 ^ 24) := .exact (by decide +kernel) rfl (by rw [KSin.s3_val, abs_le]; constructor <;> norm_num)
  have hs4 : As 1 KSin.s4 KSin.s4.val 0 (2959 / 2 ^ 30) := .exact (by decide +kernel) rfl (by rw [KSin.s4_val, abs_le]; constructor <;> norm_num)
  have hs5 : As 1 KSin.s5 KSin.s5.val 0 (3443 / 2 ^ 37) := .exact (by decide +kernel) rfl (by rw [KSin.s5_val, abs_le]; constructor <;> norm_num)
  have hs6 : As 1 KSin.s6 KSin.s6.val 0 (2797 / 2 ^ 44) := .exact (by decide +kernel) rfl (by rw [KSin.s6_val, abs_le]; constructor <;> norm_num)
  have hz := As64.mul one_lo le_rfl hxo hxo (by norm_num) (by norm_num) (by norm_num) (by norm_num) (g := (4625 / 2 ^ 67)) (D := (4625 / 2 ^ 14)) (by norm_num) (by norm_num)
  have hw := As64.mul one_lo le_rfl hz hz (by norm_num) (by norm_num) (by norm_num) (by norm_num) (g := (3917 / 2 ^ 67)) (D := (5223 / 2 ^ 16)) (by norm_num) (by norm_num)
  have ha1 := As64.mul one_lo le_rfl hz hs4 (by norm_num) (by norm_num) (by norm_num) (by norm_num) (g := (6683 / 2 ^ 85)) (D := (6683 / 2 ^ 33)) (by norm_num) (by norm_num)
  have ha2 := As64.add zero_le_one le_rfl hs3 ha1 (by norm_num) (by norm_num) (g := (6737 / 2 ^ 78)) (D := (6685 / 2 ^ 25)) (by norm_num) (by norm_num)
  have ha3 := As64.mul one_lo le_rfl hz ha2 (by norm_num) (by norm_num) (by norm_num) (by norm_num) (g := (1419 / 2 ^ 76)) (D := (7549 / 2 ^ 27)) (by norm_num) (by norm_num)
  have ha4 := As64.add zero_le_one le_rfl hs2 ha3 (by norm_num) (by norm_num) (g := (4489 / 2 ^ 72)) (D := (275 / 2 ^ 15)) (by norm_num) (by norm_num)
  have hb1 := As64.mul one_lo le_rfl hz hw (by norm_num) (by norm_num) (by norm_num) (by norm_num) (g := (1843 / 2 ^ 67)) (D := (2949 / 2 ^ 17)) (by norm_num) (by norm_num)
  have hb2 := As64.mul one_lo le_rfl hz hs6 (by norm_num) (by norm_num) (by norm_num) (by norm_num) (g := (6317 / 2 ^ 99)) (D := (6317 / 2 ^ 47)) (by norm_num) (by norm_num)
  have hb3 := As64.add zero_le_one le_rfl hs5 hb2 (by norm_num) (by norm_num) (g := (1731 / 2 ^ 89)) (D := (6899 / 2 ^ 38)) (by norm_num) (by norm_num)
  have hb4 := As64.mul one_lo le_rfl hb1 hb3 (by norm_num) (by norm_num) (by norm_num) (by norm_num) (g := (4349 / 2 ^ 93)) (D := (621 / 2 ^ 40)) (by norm_num) (by norm_num)
  have hr := As64.add zero_le_one le_rfl ha4 hb4 (by norm_num) (by norm_num) (g := (4445 / 2 ^ 71)) (D := (4401 / 2 ^ 19)) (by norm_num) (by norm_num)
  have hv := As64.mulr ht hle hz hxt (by norm_num) (by norm_num) (by norm_num) (by norm_num) (g := (2313 / 2 ^ 65)) (D := (2313 / 2 ^ 13)) (by norm_num) (by norm_num)
  have hd1 := As64.mul one_lo le_rfl hz hr (by norm_num) (by norm_num) (by norm_num) (by norm_num) (g := (4995 / 2 ^ 72)) (D := (2485 / 2 ^ 20)) (by norm_num) (by norm_num)
  have hd2 := As64.add zero_le_one le_rfl hs1 hd1 (by norm_num) (by norm_num) (g := (1463 / 2 ^ 66)) (D := (1385 / 2 ^ 13)) (by norm_num) (by norm_num)
  have hd := As64.mul ht hle hv hd2 (by norm_num) (by norm_num) (by norm_num) (by norm_num) (g := (6345 / 2 ^ 68)) (D := (6257 / 2 ^ 17)) (by norm_num) (by norm_num)
  refine ⟨_, by unfold kSin; dsimp only; (first | rw [if_pos rfl] | rw [if_neg one_ne_zero]); exact add_rne hf hd.fin, ?_⟩
  have h := hd.err
  refine (le_of_eq ?_).trans h
  
  congr 1
  simp only [sinPoly, Poly.ev, KSin.s1_val, KSin.s2_val, KSin.s3_val, KSin.s4_val, KSin.s5_val, KSin.s6_val]
  push_cast
  norm_num
  ring

theorem sin1_small {x y : Flt f64} (hf : x.isFinite) (hx : |x.val| ≤ 17 / 2 ^ 5) (ht : 2 ^ (-900 : ℤ) ≤ |x.val|)
    (hyf : y.isFinite) (hyb : |y.val| ≤ 13 / 2 ^ 56 * |x.val|) :
    ∃ q : ℝ, IsRNE q (kSin x y 1) ∧ |q - (x.val * Poly.ev sinPoly (x.val ^ 2) + y.val * (1 - x.val ^ 2 / 2))| ≤ (6389 / 2 ^ 68) * |x.val| := by
  have hnn : (0 : ℝ) ≤ |x.val| := abs_nonneg _
  have hle : |x.val| ≤ 1 := hx.trans (by norm_num)
  have hxt : As |x.val| x x.val 0 1 := .exact hf rfl (by rw [one_mul])
  have hxo : As 1 x x.val 0 (17 / 2 ^ 5) := .exact hf rfl (by rw [mul_one]; exact hx)
  have hy : As |x.val| y y.val 0 (13 / 2 ^ 56) := .exact hyf rfl hyb
  have hhf : As 1 (0.5 : Flt f64) (0.5 : Flt f64).val 0 (1 / 2) := .exact (by decide +kernel) rfl (by rw [half64_val]; norm_num)
  have hs1 : As 1 KSin.s1 KSin.s1.val 0 (2731 / 2 ^ 14) := .exact (by decide +kernel) rfl (by rw [KSin.s1_val, abs_le]; constructor <;> norm_num)
  have hs2 : As 1 KSin.s2 KSin.s2.val 0 (2185 / 2 ^ 18) := .exact (by decide +kernel) rfl (by rw [KSin.s2_val, abs_le]; constructor <;> norm_num)
  have hs3 : As 1 KSin.s3 KSin.s3.val 0 (3329 / 2 ^ 24) := .exact (by decide +kernel) rfl (by rw [KSin.s3_val, abs_le]; constructor <;> norm_num)
  have hs4 : As 1 KSin.s4 KSin.s4.val 0 (2959 / 2 ^ 30) := .exact (by decide +kernel) rfl (by rw [KSin.s4_val, abs_le]; constructor <;> norm_num)
  have hs5 : As 1 KSin.s5 KSin.s5.val 0 (3443 / 2 ^ 37) := .exact (by decide +kernel) rfl (by rw [KSin.s5_val, abs_le]; constructor <;> norm_num)
  have hs6 : As 1 KSin.s6 KSin.s6.val 0 (2797 / 2 ^ 44) := .exact (by decide +kernel) rfl (by rw [KSin.s6_val, abs_le]; constructor <;> norm_num)
  have hz := As64.mul one_lo le_rfl hxo hxo (by norm_num) (by norm_num) (by norm_num) (by norm_num) (g := (4625 / 2 ^ 67)) (D := (4625 / 2 ^ 14)) (by norm_num) (by norm_num)
  have hw := As64.mul one_lo le_rfl hz hz (by norm_num) (by norm_num) (by norm_num) (by norm_num) (g := (3917 / 2 ^ 67)) (D := (5223 / 2 ^ 16)) (by norm_num) (by norm_num)
  have ha1 := As64.mul one_lo le_rfl hz hs4 (by norm_num) (by norm_num) (by norm_num) (by norm_num) (g := (6683 / 2 ^ 85)) (D := (6683 / 2 ^ 33)) (by norm_num) (by norm_num)
  have ha2 := As64.add zero_le_one le_rfl hs3 ha1 (by norm_num) (by norm_num) (g := (6737 / 2 ^ 78)) (D := (6685 / 2 ^ 25)) (by norm_num) (by norm_num)
  have ha3 := As64.mul one_lo le_rfl hz ha2 (by norm_num) (by norm_num) (by norm_num) (by norm_num) (g := (1419 / 2 ^ 76)) (D := (7549 / 2 ^ 27)) (by norm_num) (by norm_num)
  have ha4 := As64.add zero_le_one le_rfl hs2 ha3 (by norm_num) (by norm_num) (g := (4489 / 2 ^ 72)) (D := (275 / 2 ^ 15)) (by norm_num) (by norm_num)
  have hb1 := As64.mul one_lo le_rfl hz hw (by norm_num) (by norm_num) (by norm_num) (by norm_num) (g := (1843 / 2 ^ 67)) (D := (2949 / 2 ^ 17)) (by norm_num) (by norm_num)
  have hb2 := As64.mul one_lo le_rfl hz hs6 (by norm_num) (by norm_num) (by norm_num) (by norm_num) (g := (6317 / 2 ^ 99)) (D := (6317 / 2 ^ 47)) (by norm_num) (by norm_num)
  have hb3 := As64.add zero_le_one le_rfl hs5 hb2 (by norm_num) (by norm_num) (g := (1731 / 2 ^ 89)) (D := (6899 / 2 ^ 38)) (by norm_num) (by norm_num)
  have hb4 := As64.mul one_lo le_rfl hb1 hb3 (by norm_num) (by norm_num) (by norm_num) (by norm_num) (g := (4349 / 2 ^ 93)) (D := (621 / 2 ^ 40)) (by norm_num) (by norm_num)
  have hr := As64.add zero_le_one le_rfl ha4 hb4 (by norm_num) (by norm_num) (g := (4445 / 2 ^ 71)) (D := (4401 / 2 ^ 19)) (by norm_num) (by norm_num)
  have hv := As64.mulr ht hle hz hxt (by norm_num) (by norm_num) (by norm_num) (by norm_num) (g := (2313 / 2 ^ 65)) (D := (2313 / 2 ^ 13)) (by norm_num) (by norm_num)
  have he1 := As64.mulr ht hle hhf hy (by norm_num) (by norm_num) (by norm_num) (by norm_num) (g := (6657 / 2 ^ 119)) (D := (6657 / 2 ^ 66)) (by norm_num) (by norm_num)
  have he2 := As64.mul ht hle hv hr (by norm_num) (by norm_num) (by norm_num) (by norm_num) (g := (3119 / 2 ^ 71)) (D := (4971 / 2 ^ 21)) (by norm_num) (by norm_num)
  have he3 := As64.sub hnn hle he1 he2 (by norm_num) (by norm_num) (g := (7481 / 2 ^ 72)) (D := (1243 / 2 ^ 19)) (by norm_num) (by norm_num)
  have he4 := As64.mulr ht hle hz he3 (by norm_num) (by norm_num) (by norm_num) (by norm_num) (g := (1407 / 2 ^ 71)) (D := (5615 / 2 ^ 23)) (by norm_num) (by norm_num)
  have he5 := As64.sub hnn hle he4 hy (by norm_num) (by norm_num) (g := (3165 / 2 ^ 72)) (D := (351 / 2 ^ 19)) (by norm_num) (by norm_num)
  have he6 := As64.mul ht hle hv hs1 (by norm_num) (by norm_num) (by norm_num) (by norm_num) (g := (4627 / 2 ^ 68)) (D := (6169 / 2 ^ 17)) (by norm_num) (by norm_num)
  have hd := As64.sub hnn hle he5 he6 (by norm_num) (by norm_num) (g := (6389 / 2 ^ 68)) (D := (6257 / 2 ^ 17)) (by norm_num) (by norm_num)
  refine ⟨_, by unfold kSin; dsimp only; (first | rw [if_pos rfl] | rw [if_neg one_ne_zero]); exact sub_rne hf hd.fin, ?_⟩
  have h := hd.err
  refine (le_of_eq ?_).trans h
  rw [← abs_neg]
  congr 1
  simp only [sinPoly, Poly.ev, KSin.s1_val, KSin.s2_val, KSin.s3_val, KSin.s4_val, KSin.s5_val, KSin.s6_val, half64_val]
  push_cast
  norm_num
  ring

/-- the polynomial of `k_cos` -/
def cosPoly : List ℚ := [1, -1 / 2 ^ 1, 1501199875790163 / 2 ^ 55, -6405119470031223 / 2 ^ 62, 457508533350745 / 2 ^ 64, -5205429506036397 / 2 ^ 74, 1261860039765105 / 2 ^ 79, -1757820317994549 / 2 ^ 87]

theorem poly_cos {x : ℝ} (hx : |x| ≤ 3219 / 4096) : |Poly.ev cosPoly (x ^ 2) - Real.cos x| ≤ 21 / 2 ^ 64 := by
  have hu : x ^ 2 ≤ 10361961 / 16777216 := by rw [← sq_abs]; nlinarith [abs_nonneg x]
  have h1 := Poly.cos_series 11 (x := x) (hx.trans (by norm_num))
  have h2 := Poly.bound (p := Poly.add cosPoly (Poly.smul (-1) (Poly.cosc 11))) (a := 0) (h := 10361961 / 16777216 / 64) (B := 5 / 2 ^ 62) (n := 32)
    (by decide +kernel) (by norm_num) (by norm_num) (x ^ 2) (by push_cast; positivity) (by push_cast; linarith)
  rw [Poly.ev_add, Poly.ev_smul] at h2
  push_cast at h2
  have h3 : (x ^ 2) ^ 11 / (Nat.factorial (2 * 11) : ℝ) ≤ 1 / 2 ^ 69 := by
    have : (x ^ 2) ^ 11 ≤ 1 := pow_le_one₀ (by positivity) (by linarith)
    rw [show Nat.factorial (2 * 11) = 1124000727777607680000 from by decide]
    push_cast
    linarith
  have e1 : Poly.ev cosPoly (x ^ 2) - Real.cos x = (Poly.ev cosPoly (x ^ 2) + -1 * Poly.ev (Poly.cosc 11) (x ^ 2))
      + -(Real.cos x - Poly.ev (Poly.cosc 11) (x ^ 2)) := by ring
  rw [e1]
  refine (abs_add_le _ _).trans ?_
  rw [abs_neg]
  linarith

/-- the part of `k_cos` after `1 - z/2` -/
theorem cos_tail {x y : Flt f64} (hf : x.isFinite) (hx : |x.val| ≤ 3219 / 4096) (hyf : y.isFinite) (hyb : |y.val| ≤ 13 / 2 ^ 56 * |x.val|) :
    ∃ g hz : Flt f64, kCos x y = (1.0 - hz) + (((1.0 - (1.0 - hz)) - hz) + g) ∧ g.isFinite ∧ hz.isFinite ∧ 0 ≤ hz.val ∧ hz.val ≤ 5 / 16 ∧
      |g.val| ≤ 1 / 40 ∧ |g.val - hz.val - (Poly.ev cosPoly (x.val ^ 2) - 1 - x.val * y.val)| ≤ (7515 / 2 ^ 69) + 1 / 2 ^ 55 + 1 / 2 ^ 101 := by
  have hle : |x.val| ≤ 1 := hx.trans (by norm_num)
  have hxo : As 1 x x.val 0 (3219 / 4096) := .exact hf rfl (by rw [mul_one]; exact hx)
  have hy : As 1 y y.val 0 (13 / 2 ^ 56) := .exact hyf rfl (hyb.trans (by rw [mul_one]; nlinarith))
  have hc1 : As 1 KCos.c1 KCos.c1.val 0 (2731 / 2 ^ 16) := .exact (by decide +kernel) rfl (by rw [KCos.c1_val, abs_le]; constructor <;> norm_num)
  have hc2 : As 1 KCos.c2 KCos.c2.val 0 (2913 / 2 ^ 21) := .exact (by decide +kernel) rfl (by rw [KCos.c2_val, abs_le]; constructor <;> norm_num)
  have hc3 : As 1 KCos.c3 KCos.c3.val 0 (3329 / 2 ^ 27) := .exact (by decide +kernel) rfl (by rw [KCos.c3_val, abs_le]; constructor <;> norm_num)
  have hc4 : As 1 KCos.c4 KCos.c4.val 0 (4735 / 2 ^ 34) := .exact (by decide +kernel) rfl (by rw [KCos.c4_val, abs_le]; constructor <;> norm_num)
  have hc5 : As 1 KCos.c5 KCos.c5.val 0 (4591 / 2 ^ 41) := .exact (by decide +kernel) rfl (by rw [KCos.c5_val, abs_le]; constructor <;> norm_num)
  have hc6 : As 1 KCos.c6 KCos.c6.val 0 (6395 / 2 ^ 49) := .exact (by decide +kernel) rfl (by rw [KCos.c6_val, abs_le]; constructor <;> norm_num)
  have hz := As64.mul one_lo le_rfl hxo hxo (by norm_num) (by norm_num) (by norm_num) (by norm_num) (g := (1265 / 2 ^ 64)) (D := (1265 / 2 ^ 11)) (by norm_num) (by norm_num)
  have hw := As64.mul one_lo le_rfl hz hz (by norm_num) (by norm_num) (by norm_num) (by norm_num) (g := (4689 / 2 ^ 65)) (D := (6251 / 2 ^ 14)) (by norm_num) (by norm_num)
  have ha1 := As64.mul one_lo le_rfl hz hc3 (by norm_num) (by norm_num) (by norm_num) (by norm_num) (g := (4113 / 2 ^ 80)) (D := (4113 / 2 ^ 28)) (by norm_num) (by norm_num)
  have ha2 := As64.add zero_le_one le_rfl hc2 ha1 (by norm_num) (by norm_num) (g := (6019 / 2 ^ 75)) (D := (5891 / 2 ^ 22)) (by norm_num) (by norm_num)
  have ha3 := As64.mul one_lo le_rfl hz ha2 (by norm_num) (by norm_num) (by norm_num) (by norm_num) (g := (2749 / 2 ^ 73)) (D := (3639 / 2 ^ 22)) (by norm_num) (by norm_num)
  have ha4 := As64.add zero_le_one le_rfl hc1 ha3 (by norm_num) (by norm_num) (g := (185 / 2 ^ 65)) (D := (697 / 2 ^ 14)) (by norm_num) (by norm_num)
  have ha5 := As64.mul one_lo le_rfl hz ha4 (by norm_num) (by norm_num) (by norm_num) (by norm_num) (g := (5273 / 2 ^ 69)) (D := (6889 / 2 ^ 18)) (by norm_num) (by norm_num)
  have hb0 := As64.mul one_lo le_rfl hw hw (by norm_num) (by norm_num) (by norm_num) (by norm_num) (g := (4175 / 2 ^ 65)) (D := (2385 / 2 ^ 14)) (by norm_num) (by norm_num)
  have hb1 := As64.mul one_lo le_rfl hz hc6 (by norm_num) (by norm_num) (by norm_num) (by norm_num) (g := (7901 / 2 ^ 102)) (D := (7901 / 2 ^ 50)) (by norm_num) (by norm_num)
  have hb2 := As64.add zero_le_one le_rfl hc5 hb1 (by norm_num) (by norm_num) (g := (2319 / 2 ^ 93)) (D := (4607 / 2 ^ 41)) (by norm_num) (by norm_num)
  have hb3 := As64.mul one_lo le_rfl hz hb2 (by norm_num) (by norm_num) (by norm_num) (by norm_num) (g := (4279 / 2 ^ 93)) (D := (1423 / 2 ^ 40)) (by norm_num) (by norm_num)
  have hb4 := As64.add zero_le_one le_rfl hc4 hb3 (by norm_num) (by norm_num) (g := (4825 / 2 ^ 87)) (D := (2379 / 2 ^ 33)) (by norm_num) (by norm_num)
  have hb5 := As64.mul one_lo le_rfl hb0 hb4 (by norm_num) (by norm_num) (by norm_num) (by norm_num) (g := (6245 / 2 ^ 87)) (D := (5541 / 2 ^ 37)) (by norm_num) (by norm_num)
  have hr := As64.add zero_le_one le_rfl ha5 hb5 (by norm_num) (by norm_num) (g := (1749 / 2 ^ 67)) (D := (3445 / 2 ^ 17)) (by norm_num) (by norm_num)
  have hzr := As64.mul one_lo le_rfl hz hr (by norm_num) (by norm_num) (by norm_num) (by norm_num) (g := (3225 / 2 ^ 68)) (D := (133 / 2 ^ 13)) (by norm_num) (by norm_num)
  have hxy := As64.mul one_lo le_rfl hxo hy (by norm_num) (by norm_num) (by norm_num) (by norm_num) (g := (5231 / 2 ^ 118)) (D := (5231 / 2 ^ 65)) (by norm_num) (by norm_num)
  have hg := As64.sub zero_le_one le_rfl hzr hxy (by norm_num) (by norm_num) (g := (7515 / 2 ^ 69)) (D := (4257 / 2 ^ 18)) (by norm_num) (by norm_num)
  obtain ⟨zf, z1⟩ := mul_err64 hf hf 0 (by rw [abs_mul, zpow_zero]; nlinarith [abs_nonneg x.val]) (by norm_num) (by norm_num)
  have z0 : 0 ≤ (x * x).val := by
    have := (mul_rne hf hf).ge_of_ge zf (s := zero f64 false) (isFinite_zero _) (by rw [val_zero]; exact mul_self_nonneg _)
    rwa [val_zero] at this
  have hhf : (0.5 : Flt f64).isFinite := by decide +kernel
  have r5 := mul_rne hhf zf
  have hxx : x.val * x.val ≤ 10361961 / 16777216 := by rw [← abs_mul_abs_self]; nlinarith [abs_nonneg x.val]
  rw [zero_sub, abs_le] at z1
  have zt : (x * x).val ≤ 10361961 / 16777216 + 1 / 2 ^ 54 := by have := z1.2; norm_num at this ⊢; linarith
  obtain ⟨f5, -⟩ := mul_err64 hhf zf 0 (by rw [half64_val, abs_mul, abs_of_nonneg z0, abs_of_pos (by norm_num), zpow_zero]; norm_num at zt ⊢; linarith) (by norm_num) (by norm_num)
  have h5 := scale_err64 (x := x * x) (-1) (r := 0.5 * (x * x)) (by convert r5 using 1; rw [half64_val]; norm_num; ring) f5
  have h6 : 0 ≤ (0.5 * (x * x)).val := by
    have := r5.ge_of_ge f5 (s := zero f64 false) (isFinite_zero _) (by rw [val_zero, half64_val]; positivity)
    rwa [val_zero] at this
  have h7 : |(0.5 * (x * x)).val - (x * x).val * 2 ^ (-1 : ℤ)| ≤ 1 / 2 ^ 200 := h5.trans (by
    rw [one_div, ← zpow_natCast, ← zpow_neg]; exact zpow_le_zpow_right₀ (by norm_num) (by norm_num))
  rw [zpow_neg_one, abs_le] at h7
  refine ⟨_, _, by unfold kCos; dsimp only, hg.fin, f5, h6, ?_, ?_, ?_⟩
  · have := h7.2; norm_num at zt this ⊢; linarith
  · have := hg.bd; rw [mul_one] at this; exact this.trans (by norm_num)
  · have hg' := As.congr_v hg (w := Poly.ev cosPoly (x.val ^ 2) - 1 + x.val * x.val / 2 - x.val * y.val) (by
      simp only [cosPoly, Poly.ev, KCos.c1_val, KCos.c2_val, KCos.c3_val, KCos.c4_val, KCos.c5_val, KCos.c6_val]
      push_cast
      norm_num
      ring)
    have h := hg'.err
    rw [mul_one] at h
    generalize (0.5 * (x * x)).val = hz at *
    generalize (x * x).val = zz at *
    have a := abs_le.1 h
    rw [abs_le]
    obtain ⟨b1, b2⟩ := h7
    obtain ⟨c1, c2⟩ := z1
    clear * - a b1 b2 c1 c2
    norm_num at *
    constructor <;> linarith [a.1, a.2]

/-- `k_cos` rounds a number close to the cosine of `x + y` -/
theorem cos_core {x y : Flt f64} (hf : x.isFinite) (hx : |x.val| ≤ 3219 / 4096) (hyf : y.isFinite) (hyb : |y.val| ≤ 13 / 2 ^ 56 * |x.val|) :
    ∃ q : ℝ, IsRNE q (kCos x y) ∧ |q - (Poly.ev cosPoly (x.val ^ 2) - x.val * y.val)| ≤ (7515 / 2 ^ 69) + 1 / 2 ^ 55 + 1 / 2 ^ 59 + 1 / 2 ^ 100 := by
  obtain ⟨g, hz, e, gf, zf, z0, z1, gb, ge⟩ := cos_tail hf hx hyf hyb
  have e1 : (1.0 : Flt f64) = one f64 := by decide +kernel
  have of : (1.0 : Flt f64).isFinite := by decide +kernel
  have ov : (1.0 : Flt f64).val = 1 := by rw [e1, val_one]
  rw [e]
  clear e e1
  obtain ⟨wf, we⟩ := sub_err64 of zf 0 (by rw [ov, abs_le]; constructor <;> norm_num <;> linarith) (by norm_num)
  rw [ov] at we
  set w := (1.0 : Flt f64) - hz with hw
  have we' := abs_le.1 we
  norm_num at we'
  have w1 : w.val ≤ 1 := by
    have := (sub_rne of zf).le_of_le wf of (by rw [ov]; linarith)
    rwa [ov] at this
  obtain ⟨n, hn⟩ := grid64 w (-1) (by rw [abs_of_pos (by linarith [we'.1])]; norm_num; linarith [we'.1])
  obtain ⟨uf, uv⟩ : ((1.0 : Flt f64) - w).isFinite ∧ ((1.0 : Flt f64) - w).val = 1 - w.val := by
    have hb : (0 : ℝ) ≤ 2 ^ 53 - n ∧ (2 ^ 53 - n : ℝ) ≤ 2 ^ 53 := by
      norm_num at hn
      constructor <;> nlinarith [we'.1]
    have n1 : (0 : ℤ) ≤ 2 ^ 53 - n := by exact_mod_cast hb.1
    have n2 : (2 ^ 53 - n : ℤ) ≤ 2 ^ 53 := by exact_mod_cast hb.2
    obtain ⟨c, cf, cv⟩ := exists_val64' (n := 2 ^ 53 - n) (k := -53) (by rw [abs_of_nonneg n1]; exact n2) (by norm_num) (by norm_num)
    have := (sub_rne of wf).exact_real cf (by
      rw [cv, ov, hn, show (-1 - 52 : ℤ) = -53 by norm_num]; push_cast; rw [sub_mul]; refine congrArg (· - _) ?_; norm_num)
    rwa [ov] at this
  obtain ⟨sf, se⟩ := sub_err64 uf zf (-54) (by rw [uv]; rw [show 1 - w.val - hz.val = -(w.val - (1 - hz.val)) by ring, abs_neg]; norm_num at we ⊢; exact we) (by norm_num)
  rw [uv] at se
  set s := (1.0 : Flt f64) - w - hz with hs
  have se' := abs_le.1 se
  have gb' := abs_le.1 gb
  norm_num at se'
  obtain ⟨cf, ce⟩ := add_err64 sf gf (-5) (by rw [abs_le]; constructor <;> norm_num <;> linarith [se'.1, se'.2, gb'.1, gb'.2, we'.1, we'.2]) (by norm_num)
  refine ⟨_, add_rne wf cf, ?_⟩
  have ce' := abs_le.1 ce
  have ge' := abs_le.1 ge
  norm_num at ce' ge'
  rw [abs_le]
  clear * - ce' ge' se'
  constructor <;> norm_num <;> linarith [ce'.1, ce'.2, ge'.1, ge'.2, se'.1, se'.2]

end KernD
end Verif
