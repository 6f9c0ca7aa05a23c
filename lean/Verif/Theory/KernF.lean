import Verif.Theory.As
import Verif.Theory.TrigConst
import Verif.Theory.SinSeries

/-!
# The kernels of `sinf`, `cosf` and `tanf` against sine, cosine and tangent

On `|x| ≤ 3219/4096`, slightly more than `π/4`.
-/

namespace Verif
open Flt

/-- the polynomial of `k_sinf` -/
def KSinf.poly : List ℚ := [1, -6004799494138999 / 2 ^ 55, 2401918663491033 / 2 ^ 58, -1829855661570525 / 2 ^ 63, 6418431544608423 / 2 ^ 71]

theorem KSinf.sum {x : Flt f64} (hf : x.isFinite) (hx : |x.val| ≤ 3219 / 4096) (ht : 2 ^ (-900 : ℤ) ≤ |x.val|) :
    ∃ q : Flt f64, kSinf x = q.cast f32 ∧ q.isFinite ∧ |q.val - x.val * Poly.ev KSinf.poly (x.val ^ 2)| ≤ (5415 / 2 ^ 64) * |x.val| := by
  have hnn : (0 : ℝ) ≤ |x.val| := abs_nonneg _
  have hle : |x.val| ≤ 1 := hx.trans (by norm_num)
  have hxt : As |x.val| x x.val 0 1 := .exact hf rfl (by rw [one_mul])
  have hxo : As 1 x x.val 0 (3219 / 4096) := .exact hf rfl (by rw [mul_one]; exact hx)
  have hs1 : As 1 KSinf.s1 KSinf.s1.val 0 (2731 / 2 ^ 14) := .exact (by decide +kernel) rfl (by rw [KSinf.s1_val, abs_le]; constructor <;> norm_num)
  have hs2 : As 1 KSinf.s2 KSinf.s2.val 0 (2185 / 2 ^ 18) := .exact (by decide +kernel) rfl (by rw [KSinf.s2_val, abs_le]; constructor <;> norm_num)
  have hs3 : As 1 KSinf.s3 KSinf.s3.val 0 (6657 / 2 ^ 25) := .exact (by decide +kernel) rfl (by rw [KSinf.s3_val, abs_le]; constructor <;> norm_num)
  have hs4 : As 1 KSinf.s4 KSinf.s4.val 0 (2919 / 2 ^ 30) := .exact (by decide +kernel) rfl (by rw [KSinf.s4_val, abs_le]; constructor <;> norm_num)
  have hz := As64.mul one_lo le_rfl hxo hxo (by norm_num) (by norm_num) (by norm_num) (by norm_num) (g := (1265 / 2 ^ 64)) (D := (1265 / 2 ^ 11)) (by norm_num) (by norm_num)
  have hw := As64.mul one_lo le_rfl hz hz (by norm_num) (by norm_num) (by norm_num) (by norm_num) (g := (4689 / 2 ^ 65)) (D := (6251 / 2 ^ 14)) (by norm_num) (by norm_num)
  have hzs4 := As64.mul one_lo le_rfl hz hs4 (by norm_num) (by norm_num) (by norm_num) (by norm_num) (g := (1803 / 2 ^ 82)) (D := (1803 / 2 ^ 30)) (by norm_num) (by norm_num)
  have hr := As64.add zero_le_one le_rfl hs3 hzs4 (by norm_num) (by norm_num) (g := (6827 / 2 ^ 78)) (D := (3357 / 2 ^ 24)) (by norm_num) (by norm_num)
  have hs := As64.mulr ht hle hz hxt (by norm_num) (by norm_num) (by norm_num) (by norm_num) (g := (5061 / 2 ^ 65)) (D := (5061 / 2 ^ 13)) (by norm_num) (by norm_num)
  have hzs2 := As64.mul one_lo le_rfl hz hs2 (by norm_num) (by norm_num) (by norm_num) (by norm_num) (g := (5399 / 2 ^ 72)) (D := (5399 / 2 ^ 20)) (by norm_num) (by norm_num)
  have ha := As64.add zero_le_one le_rfl hs1 hzs2 (by norm_num) (by norm_num) (g := (5969 / 2 ^ 68)) (D := (5631 / 2 ^ 15)) (by norm_num) (by norm_num)
  have hb := As64.mul ht hle hs ha (by norm_num) (by norm_num) (by norm_num) (by norm_num) (g := (7063 / 2 ^ 67)) (D := (3479 / 2 ^ 15)) (by norm_num) (by norm_num)
  have hc := As64.add hnn hle hxt hb (by norm_num) (by norm_num) (g := (6297 / 2 ^ 65)) (D := (4531 / 2 ^ 12)) (by norm_num) (by norm_num)
  have hsw := As64.mul ht hle hs hw (by norm_num) (by norm_num) (by norm_num) (by norm_num) (g := (2897 / 2 ^ 64)) (D := (1931 / 2 ^ 13)) (by norm_num) (by norm_num)
  have hd := As64.mul ht hle hsw hr (by norm_num) (by norm_num) (by norm_num) (by norm_num) (g := (6345 / 2 ^ 77)) (D := (6331 / 2 ^ 27)) (by norm_num) (by norm_num)
  have hq := As64.add hnn hle hc hd (by norm_num) (by norm_num) (g := (5415 / 2 ^ 64)) (D := (1133 / 2 ^ 10)) (by norm_num) (by norm_num)
  refine ⟨_, by unfold kSinf; dsimp only, hq.fin, ?_⟩
  convert hq.err using 2
  simp only [KSinf.poly, Poly.ev, KSinf.s1_val, KSinf.s2_val, KSinf.s3_val, KSinf.s4_val]
  push_cast
  norm_num
  ring

theorem KSinf.poly_sin {x : ℝ} (hx : |x| ≤ 3219 / 4096) : |x * Poly.ev KSinf.poly (x ^ 2) - Real.sin x| ≤ 3 / 2 ^ 38 * |x| := by
  have hu : x ^ 2 ≤ 10361961 / 16777216 := by rw [← sq_abs]; nlinarith [abs_nonneg x]
  have h1 := Poly.sin_series 8 (x := x) (hx.trans (by norm_num))
  have h2 := Poly.bound (p := Poly.add KSinf.poly (Poly.smul (-1) (Poly.sinc 8))) (a := 0) (h := 10361961 / 16777216 / 64) (B := 5 / 2 ^ 39) (n := 32)
    (by decide +kernel) (by norm_num) (by norm_num) (x ^ 2) (by push_cast; positivity) (by push_cast; linarith)
  rw [Poly.ev_add, Poly.ev_smul] at h2
  push_cast at h2
  have h3 : (x ^ 2) ^ 8 / (Nat.factorial (2 * 8 + 1) : ℝ) ≤ 1 / 2 ^ 45 := by
    have : (x ^ 2) ^ 8 ≤ 1 := pow_le_one₀ (by positivity) (by linarith)
    rw [show Nat.factorial (2 * 8 + 1) = 355687428096000 from rfl]
    push_cast
    linarith
  have e1 : x * Poly.ev KSinf.poly (x ^ 2) - Real.sin x = x * (Poly.ev KSinf.poly (x ^ 2) + -1 * Poly.ev (Poly.sinc 8) (x ^ 2))
      + -(Real.sin x - x * Poly.ev (Poly.sinc 8) (x ^ 2)) := by ring
  rw [e1]
  refine (abs_add_le _ _).trans ?_
  rw [abs_mul, abs_neg]
  have h4 := mul_le_mul_of_nonneg_left h2 (abs_nonneg x)
  have h5 := mul_le_mul_of_nonneg_left h3 (abs_nonneg x)
  have := abs_nonneg x
  linarith

/-- `k_sinf` rounds a number that differs from the sine by at most `2^-36` relatively -/
theorem kSinf_acc {x : Flt f64} (hf : x.isFinite) (hx : |x.val| ≤ 3219 / 4096) (ht : 2 ^ (-900 : ℤ) ≤ |x.val|) :
    ∃ q : ℝ, IsRNE q (kSinf x) ∧ |q - Real.sin x.val| ≤ 1 / 2 ^ 36 * |x.val| := by
  obtain ⟨q, h1, h2, h3⟩ := KSinf.sum hf hx ht
  refine ⟨q.val, h1 ▸ cast_rne h2, ?_⟩
  have h4 := KSinf.poly_sin hx
  have := abs_sub_le q.val (x.val * Poly.ev KSinf.poly (x.val ^ 2)) (Real.sin x.val)
  have := abs_nonneg x.val
  linarith

/-- the polynomial of `k_cosf` -/
def KCosf.poly : List ℚ := [1, -9007199205219969 / 2 ^ 54, 3002396628393249 / 2 ^ 56, -6404139434057255 / 2 ^ 62, 7198789868605545 / 2 ^ 68]

theorem KCosf.sum {x : Flt f64} (hf : x.isFinite) (hx : |x.val| ≤ 3219 / 4096) :
    ∃ q : Flt f64, kCosf x = q.cast f32 ∧ q.isFinite ∧ |q.val - Poly.ev KCosf.poly (x.val ^ 2)| ≤ (4755 / 2 ^ 63) := by
  have hxo : As 1 x x.val 0 (3219 / 4096) := .exact hf rfl (by rw [mul_one]; exact hx)
  have e1 : (1.0 : Flt f64) = one f64 := by decide +kernel
  have hone : As 1 (1.0 : Flt f64) 1 0 1 := .exact (by decide +kernel) (by rw [e1, val_one]) (by norm_num)
  have hc0 : As 1 KCosf.c0 KCosf.c0.val 0 (1 / 2 ^ 1) := .exact (by decide +kernel) rfl (by rw [KCosf.c0_val, abs_le]; constructor <;> norm_num)
  have hc1 : As 1 KCosf.c1 KCosf.c1.val 0 (2731 / 2 ^ 16) := .exact (by decide +kernel) rfl (by rw [KCosf.c1_val, abs_le]; constructor <;> norm_num)
  have hc2 : As 1 KCosf.c2 KCosf.c2.val 0 (5825 / 2 ^ 22) := .exact (by decide +kernel) rfl (by rw [KCosf.c2_val, abs_le]; constructor <;> norm_num)
  have hc3 : As 1 KCosf.c3 KCosf.c3.val 0 (1637 / 2 ^ 26) := .exact (by decide +kernel) rfl (by rw [KCosf.c3_val, abs_le]; constructor <;> norm_num)
  have hz := As64.mul one_lo le_rfl hxo hxo (by norm_num) (by norm_num) (by norm_num) (by norm_num) (g := (1265 / 2 ^ 64)) (D := (1265 / 2 ^ 11)) (by norm_num) (by norm_num)
  have hw := As64.mul one_lo le_rfl hz hz (by norm_num) (by norm_num) (by norm_num) (by norm_num) (g := (4689 / 2 ^ 65)) (D := (6251 / 2 ^ 14)) (by norm_num) (by norm_num)
  have hzc3 := As64.mul one_lo le_rfl hz hc3 (by norm_num) (by norm_num) (by norm_num) (by norm_num) (g := (4045 / 2 ^ 80)) (D := (4045 / 2 ^ 28)) (by norm_num) (by norm_num)
  have hr := As64.add zero_le_one le_rfl hc2 hzc3 (by norm_num) (by norm_num) (g := (6015 / 2 ^ 75)) (D := (5889 / 2 ^ 22)) (by norm_num) (by norm_num)
  have hzc0 := As64.mul one_lo le_rfl hz hc0 (by norm_num) (by norm_num) (by norm_num) (by norm_num) (g := (5061 / 2 ^ 66)) (D := (5061 / 2 ^ 14)) (by norm_num) (by norm_num)
  have ha := As64.add zero_le_one le_rfl hone hzc0 (by norm_num) (by norm_num) (g := (1973 / 2 ^ 63)) (D := (2681 / 2 ^ 11)) (by norm_num) (by norm_num)
  have hb := As64.mul one_lo le_rfl hw hc1 (by norm_num) (by norm_num) (by norm_num) (by norm_num) (g := (4169 / 2 ^ 69)) (D := (521 / 2 ^ 15)) (by norm_num) (by norm_num)
  have hcc := As64.add zero_le_one le_rfl ha hb (by norm_num) (by norm_num) (g := (3395 / 2 ^ 63)) (D := (1357 / 2 ^ 10)) (by norm_num) (by norm_num)
  have hwz := As64.mul one_lo le_rfl hw hz (by norm_num) (by norm_num) (by norm_num) (by norm_num) (g := (4827 / 2 ^ 65)) (D := (7723 / 2 ^ 15)) (by norm_num) (by norm_num)
  have hd := As64.mul one_lo le_rfl hwz hr (by norm_num) (by norm_num) (by norm_num) (by norm_num) (g := (4873 / 2 ^ 74)) (D := (347 / 2 ^ 20)) (by norm_num) (by norm_num)
  have hq := As64.add zero_le_one le_rfl hcc hd (by norm_num) (by norm_num) (g := (4755 / 2 ^ 63)) (D := (2715 / 2 ^ 11)) (by norm_num) (by norm_num)
  refine ⟨_, by unfold kCosf; dsimp only, hq.fin, ?_⟩
  have h := hq.err
  rw [mul_one] at h
  convert h using 2
  simp only [KCosf.poly, Poly.ev, KCosf.c0_val, KCosf.c1_val, KCosf.c2_val, KCosf.c3_val]
  push_cast
  norm_num
  ring

theorem KCosf.poly_cos {x : ℝ} (hx : |x| ≤ 3219 / 4096) : |Poly.ev KCosf.poly (x ^ 2) - Real.cos x| ≤ 5 / 2 ^ 36 := by
  have hu : x ^ 2 ≤ 10361961 / 16777216 := by rw [← sq_abs]; nlinarith [abs_nonneg x]
  have h1 := Poly.cos_series 8 (x := x) (hx.trans (by norm_num))
  have h2 := Poly.bound (p := Poly.add KCosf.poly (Poly.smul (-1) (Poly.cosc 8))) (a := 0) (h := 10361961 / 16777216 / 64) (B := 9 / 2 ^ 37) (n := 32)
    (by decide +kernel) (by norm_num) (by norm_num) (x ^ 2) (by push_cast; positivity) (by push_cast; linarith)
  rw [Poly.ev_add, Poly.ev_smul] at h2
  push_cast at h2
  have h3 : (x ^ 2) ^ 8 / (Nat.factorial (2 * 8) : ℝ) ≤ 1 / 2 ^ 44 := by
    have : (x ^ 2) ^ 8 ≤ 1 := pow_le_one₀ (by positivity) (by linarith)
    rw [show Nat.factorial (2 * 8) = 20922789888000 from rfl]
    push_cast
    linarith
  have e1 : Poly.ev KCosf.poly (x ^ 2) - Real.cos x = (Poly.ev KCosf.poly (x ^ 2) + -1 * Poly.ev (Poly.cosc 8) (x ^ 2))
      + -(Real.cos x - Poly.ev (Poly.cosc 8) (x ^ 2)) := by ring
  rw [e1]
  refine (abs_add_le _ _).trans ?_
  rw [abs_neg]
  linarith

theorem kCosf_acc {x : Flt f64} (hf : x.isFinite) (hx : |x.val| ≤ 3219 / 4096) :
    ∃ q : ℝ, IsRNE q (kCosf x) ∧ |q - Real.cos x.val| ≤ 3 / 2 ^ 35 := by
  obtain ⟨q, h1, h2, h3⟩ := KCosf.sum hf hx
  refine ⟨q.val, h1 ▸ cast_rne h2, ?_⟩
  have h4 := KCosf.poly_cos hx
  have := abs_sub_le q.val (Poly.ev KCosf.poly (x.val ^ 2)) (Real.cos x.val)
  linarith

/-- the polynomial of `k_tanf` -/
def KTanf.poly : List ℚ := [1, 6004764585806239 / 2 ^ 54, 2402976694849465 / 2 ^ 54, 3846523565845887 / 2 ^ 56, 3534903178566119 / 2 ^ 57, 3429200647584295 / 2 ^ 60, 5456574480325581 / 2 ^ 59]

theorem KTanf.sum {x : Flt f64} (hf : x.isFinite) (hx : |x.val| ≤ 3219 / 4096) (ht : 2 ^ (-900 : ℤ) ≤ |x.val|) :
    ∃ q : Flt f64, (∀ odd, kTanf x odd = (if odd then -1.0 / q else q).cast f32) ∧ q.isFinite ∧
      |q.val - x.val * Poly.ev KTanf.poly (x.val ^ 2)| ≤ (3917 / 2 ^ 63) * |x.val| ∧ |q.val| ≤ 2 * |x.val| := by
  have hnn : (0 : ℝ) ≤ |x.val| := abs_nonneg _
  have hle : |x.val| ≤ 1 := hx.trans (by norm_num)
  have hxt : As |x.val| x x.val 0 1 := .exact hf rfl (by rw [one_mul])
  have hxo : As 1 x x.val 0 (3219 / 4096) := .exact hf rfl (by rw [mul_one]; exact hx)
  have ht0 : As 1 KTanf.t0 KTanf.t0.val 0 (2731 / 2 ^ 13) := .exact (by decide +kernel) rfl (by rw [KTanf.t0_val, abs_le]; constructor <;> norm_num)
  have ht1 : As 1 KTanf.t1 KTanf.t1.val 0 (4371 / 2 ^ 15) := .exact (by decide +kernel) rfl (by rw [KTanf.t1_val, abs_le]; constructor <;> norm_num)
  have ht2 : As 1 KTanf.t2 KTanf.t2.val 0 (6997 / 2 ^ 17) := .exact (by decide +kernel) rfl (by rw [KTanf.t2_val, abs_le]; constructor <;> norm_num)
  have ht3 : As 1 KTanf.t3 KTanf.t3.val 0 (3215 / 2 ^ 17) := .exact (by decide +kernel) rfl (by rw [KTanf.t3_val, abs_le]; constructor <;> norm_num)
  have ht4 : As 1 KTanf.t4 KTanf.t4.val 0 (3119 / 2 ^ 20) := .exact (by decide +kernel) rfl (by rw [KTanf.t4_val, abs_le]; constructor <;> norm_num)
  have ht5 : As 1 KTanf.t5 KTanf.t5.val 0 (4963 / 2 ^ 19) := .exact (by decide +kernel) rfl (by rw [KTanf.t5_val, abs_le]; constructor <;> norm_num)
  have hz := As64.mul one_lo le_rfl hxo hxo (by norm_num) (by norm_num) (by norm_num) (by norm_num) (g := (1265 / 2 ^ 64)) (D := (1265 / 2 ^ 11)) (by norm_num) (by norm_num)
  have hzt5 := As64.mul one_lo le_rfl hz ht5 (by norm_num) (by norm_num) (by norm_num) (by norm_num) (g := (1533 / 2 ^ 70)) (D := (1533 / 2 ^ 18)) (by norm_num) (by norm_num)
  have hr := As64.add zero_le_one le_rfl ht4 hzt5 (by norm_num) (by norm_num) (g := (5379 / 2 ^ 71)) (D := (2313 / 2 ^ 18)) (by norm_num) (by norm_num)
  have hzt3 := As64.mul one_lo le_rfl hz ht3 (by norm_num) (by norm_num) (by norm_num) (by norm_num) (g := (993 / 2 ^ 68)) (D := (993 / 2 ^ 16)) (by norm_num) (by norm_num)
  have htt := As64.add zero_le_one le_rfl ht2 hzt3 (by norm_num) (by norm_num) (g := (3239 / 2 ^ 68)) (D := (1123 / 2 ^ 14)) (by norm_num) (by norm_num)
  have hw := As64.mul one_lo le_rfl hz hz (by norm_num) (by norm_num) (by norm_num) (by norm_num) (g := (4689 / 2 ^ 65)) (D := (6251 / 2 ^ 14)) (by norm_num) (by norm_num)
  have hs := As64.mulr ht hle hz hxt (by norm_num) (by norm_num) (by norm_num) (by norm_num) (g := (5061 / 2 ^ 65)) (D := (5061 / 2 ^ 13)) (by norm_num) (by norm_num)
  have hzt1 := As64.mul one_lo le_rfl hz ht1 (by norm_num) (by norm_num) (by norm_num) (by norm_num) (g := (675 / 2 ^ 65)) (D := (675 / 2 ^ 13)) (by norm_num) (by norm_num)
  have hu := As64.add zero_le_one le_rfl ht0 hzt1 (by norm_num) (by norm_num) (g := (1189 / 2 ^ 64)) (D := (6813 / 2 ^ 14)) (by norm_num) (by norm_num)
  have hsu := As64.mul ht hle hs hu (by norm_num) (by norm_num) (by norm_num) (by norm_num) (g := (2313 / 2 ^ 64)) (D := (2105 / 2 ^ 13)) (by norm_num) (by norm_num)
  have ha := As64.add hnn hle hxt hsu (by norm_num) (by norm_num) (g := (611 / 2 ^ 61)) (D := (5149 / 2 ^ 12)) (by norm_num) (by norm_num)
  have hsw := As64.mul ht hle hs hw (by norm_num) (by norm_num) (by norm_num) (by norm_num) (g := (2897 / 2 ^ 64)) (D := (1931 / 2 ^ 13)) (by norm_num) (by norm_num)
  have hwr := As64.mul one_lo le_rfl hw hr (by norm_num) (by norm_num) (by norm_num) (by norm_num) (g := (5583 / 2 ^ 71)) (D := (1765 / 2 ^ 19)) (by norm_num) (by norm_num)
  have htwr := As64.add zero_le_one le_rfl htt hwr (by norm_num) (by norm_num) (g := (3147 / 2 ^ 67)) (D := (4713 / 2 ^ 16)) (by norm_num) (by norm_num)
  have hd := As64.mul ht hle hsw htwr (by norm_num) (by norm_num) (by norm_num) (by norm_num) (g := (5373 / 2 ^ 68)) (D := (1111 / 2 ^ 16)) (by norm_num) (by norm_num)
  have hq := As64.add hnn hle ha hd (by norm_num) (by norm_num) (g := (3917 / 2 ^ 63)) (D := (5219 / 2 ^ 12)) (by norm_num) (by norm_num)
  refine ⟨_, fun odd => by unfold kTanf; dsimp only, hq.fin, ?_, (hq.weaken hnn le_rfl (by norm_num)).bd⟩
  convert hq.err using 2
  simp only [KTanf.poly, Poly.ev, KTanf.t0_val, KTanf.t1_val, KTanf.t2_val, KTanf.t3_val, KTanf.t4_val, KTanf.t5_val]
  push_cast
  norm_num
  ring

theorem KTanf.poly_tan {x : ℝ} (hx : |x| ≤ 3219 / 4096) :
    |x * Poly.ev KTanf.poly (x ^ 2) * Real.cos x - Real.sin x| ≤ 3 / 2 ^ 27 * |x| := by
  have hu : x ^ 2 ≤ 10361961 / 16777216 := by rw [← sq_abs]; nlinarith [abs_nonneg x]
  have h1 := Poly.sin_series 9 (x := x) (hx.trans (by norm_num))
  have h0 := Poly.cos_series 9 (x := x) (hx.trans (by norm_num))
  have h2 := Poly.bound (p := Poly.add (Poly.mul KTanf.poly (Poly.cosc 9)) (Poly.smul (-1) (Poly.sinc 9))) (a := 0) (h := 10361961 / 16777216 / 128) (B := 23 / 2 ^ 30) (n := 64)
    (by decide +kernel) (by norm_num) (by norm_num) (x ^ 2) (by push_cast; positivity) (by push_cast; linarith)
  have h6 := Poly.bound (p := KTanf.poly) (a := 0) (h := 5 / 16) (B := 3) (n := 1)
    (by decide +kernel) (by norm_num) (by norm_num) (x ^ 2) (by push_cast; positivity) (by push_cast; linarith)
  rw [Poly.ev_add, Poly.ev_smul, Poly.ev_mul] at h2
  push_cast at h2 h6
  have h3 : (x ^ 2) ^ 9 / (Nat.factorial (2 * 9 + 1) : ℝ) ≤ 1 / 2 ^ 50 := by
    have : (x ^ 2) ^ 9 ≤ 1 := pow_le_one₀ (by positivity) (by linarith)
    rw [show Nat.factorial (2 * 9 + 1) = 121645100408832000 from rfl]
    push_cast
    linarith
  have h3' : (x ^ 2) ^ 9 / (Nat.factorial (2 * 9) : ℝ) ≤ 1 / 2 ^ 50 := by
    have : (x ^ 2) ^ 9 ≤ 1 := pow_le_one₀ (by positivity) (by linarith)
    rw [show Nat.factorial (2 * 9) = 6402373705728000 from rfl]
    push_cast
    linarith
  have e1 : x * Poly.ev KTanf.poly (x ^ 2) * Real.cos x - Real.sin x =
      x * (Poly.ev KTanf.poly (x ^ 2) * Poly.ev (Poly.cosc 9) (x ^ 2) + -1 * Poly.ev (Poly.sinc 9) (x ^ 2))
      + -(Real.sin x - x * Poly.ev (Poly.sinc 9) (x ^ 2)) + x * (Poly.ev KTanf.poly (x ^ 2) * (Real.cos x - Poly.ev (Poly.cosc 9) (x ^ 2))) := by ring
  rw [e1]
  refine (abs_add_three _ _ _).trans ?_
  rw [abs_mul, abs_neg, abs_mul x (_ * _), abs_mul (Poly.ev KTanf.poly (x ^ 2)) (_ - _)]
  have h4 := mul_le_mul_of_nonneg_left h2 (abs_nonneg x)
  have h5 := mul_le_mul_of_nonneg_left h3 (abs_nonneg x)
  have := abs_nonneg x
  have h7 := mul_le_mul_of_nonneg_left (mul_le_mul h6 (h0.trans h3') (abs_nonneg _) (by norm_num)) (abs_nonneg x)
  linarith

end Verif
