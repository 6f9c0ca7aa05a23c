import Verif.Theory.As32
import Verif.Theory.ErfConst
import Verif.Theory.PolyBd

/-!
# The rational kernel of the error function near zero: rounding errors
-/

namespace Verif
open Flt

/-- numerator of `ratio` -/
def Erf.pl : List ℚ := [578168369093485 / 2 ^ 52, -5855438052309267 / 2 ^ 54, -8209305393633615 / 2 ^ 58, -1663167178054201 / 2 ^ 58, -1753401146738091 / 2 ^ 66]
/-- denominator of `ratio` -/
def Erf.ql : List ℚ := [1, 7168239446187017 / 2 ^ 54, 2342673446561629 / 2 ^ 55, 5858347283868431 / 2 ^ 60, 305512065384865 / 2 ^ 61, -146106635064073 / 2 ^ 65]

theorem Erf.ql_ge {z : ℝ} (h0 : 0 ≤ z) (h1 : z ≤ 729 / 1024) : 1 - 1 / 2 ^ 10 ≤ Poly.ev Erf.ql z := by
  have h2 := Poly.bound (p := Poly.add Erf.ql [-(75 / 64)]) (a := 0) (h := 729 / 131072) (B := 11 / 64 + 1 / 1024) (n := 64)
    (by decide +kernel) (by norm_num) (by norm_num) z (by push_cast; exact h0) (by push_cast; linarith)
  rw [Poly.ev_add, abs_le] at h2
  have h3 : Poly.ev [-(75 / 64)] z = -(75 / 64) := by simp [Poly.ev]
  rw [h3] at h2
  have := h2.1
  push_cast at this
  linarith

theorem Erf.pl_le {z : ℝ} (h0 : 0 ≤ z) (h1 : z ≤ 729 / 1024) : |Poly.ev Erf.pl z| ≤ 3 / 16 := by
  have h2 := Poly.bound (p := Erf.pl) (a := 0) (h := 729 / 131072) (B := 3 / 16) (n := 64)
    (by decide +kernel) (by norm_num) (by norm_num) z (by push_cast; exact h0) (by push_cast; linarith)
  push_cast at h2
  exact h2

theorem Erf.ratio_as {x : Flt f64} (hf : x.isFinite) (h1 : |x.val| ≤ 27 / 32) :
    As 1 (Erf.ratio x) (Poly.ev Erf.pl (x.val * x.val) / Poly.ev Erf.ql (x.val * x.val)) (5481 / 2 ^ 64) (26309 / 2 ^ 16) := by
  have hx : As 1 x x.val 0 (27 / 32) := .exact hf rfl (by rw [mul_one]; exact h1)
  have e1 : (1.0 : Flt f64) = one f64 := by decide +kernel
  have hone : As 1 (1.0 : Flt f64) 1 0 1 := .exact (by decide +kernel) (by rw [e1, val_one]) (by norm_num)
  have hpp0 : As 1 Erf.pp0 Erf.pp0.val 0 (16827 / 2 ^ 17) := .exact (by decide +kernel) rfl (by rw [Erf.pp0_val, abs_le]; constructor <;> norm_num)
  have hpp1 : As 1 Erf.pp1 Erf.pp1.val 0 (10651 / 2 ^ 15) := .exact (by decide +kernel) rfl (by rw [Erf.pp1_val, abs_le]; constructor <;> norm_num)
  have hpp2 : As 1 Erf.pp2 Erf.pp2.val 0 (14933 / 2 ^ 19) := .exact (by decide +kernel) rfl (by rw [Erf.pp2_val, abs_le]; constructor <;> norm_num)
  have hpp3 : As 1 Erf.pp3 Erf.pp3.val 0 (24203 / 2 ^ 22) := .exact (by decide +kernel) rfl (by rw [Erf.pp3_val, abs_le]; constructor <;> norm_num)
  have hpp4 : As 1 Erf.pp4 Erf.pp4.val 0 (6379 / 2 ^ 28) := .exact (by decide +kernel) rfl (by rw [Erf.pp4_val, abs_le]; constructor <;> norm_num)
  have hqq1 : As 1 Erf.qq1 Erf.qq1.val 0 (13039 / 2 ^ 15) := .exact (by decide +kernel) rfl (by rw [Erf.qq1_val, abs_le]; constructor <;> norm_num)
  have hqq2 : As 1 Erf.qq2 Erf.qq2.val 0 (8523 / 2 ^ 17) := .exact (by decide +kernel) rfl (by rw [Erf.qq2_val, abs_le]; constructor <;> norm_num)
  have hqq3 : As 1 Erf.qq3 Erf.qq3.val 0 (21313 / 2 ^ 22) := .exact (by decide +kernel) rfl (by rw [Erf.qq3_val, abs_le]; constructor <;> norm_num)
  have hqq4 : As 1 Erf.qq4 Erf.qq4.val 0 (2223 / 2 ^ 24) := .exact (by decide +kernel) rfl (by rw [Erf.qq4_val, abs_le]; constructor <;> norm_num)
  have hqq5 : As 1 Erf.qq5 Erf.qq5.val 0 (8505 / 2 ^ 31) := .exact (by decide +kernel) rfl (by rw [Erf.qq5_val, abs_le]; constructor <;> norm_num)
  have hz := As64.mul one_lo le_rfl hx hx (by norm_num) (by norm_num) (by norm_num) (by norm_num) (g := (23329 / 2 ^ 68)) (D := (23329 / 2 ^ 15)) (by norm_num) (by norm_num)
  have hpmpp3 := As64.mul one_lo le_rfl hz hpp4 (by norm_num) (by norm_num) (by norm_num) (by norm_num) (g := (9083 / 2 ^ 81)) (D := (9083 / 2 ^ 29)) (by norm_num) (by norm_num)
  have hpapp3 := As64.add zero_le_one le_rfl hpp3 hpmpp3 (by norm_num) (by norm_num) (g := (763 / 2 ^ 70)) (D := (12137 / 2 ^ 21)) (by norm_num) (by norm_num)
  have hpmpp2 := As64.mul one_lo le_rfl hz hpapp3 (by norm_num) (by norm_num) (by norm_num) (by norm_num) (g := (12987 / 2 ^ 73)) (D := (8641 / 2 ^ 21)) (by norm_num) (by norm_num)
  have hpapp2 := As64.add zero_le_one le_rfl hpp2 hpmpp2 (by norm_num) (by norm_num) (g := (23587 / 2 ^ 72)) (D := (8547 / 2 ^ 18)) (by norm_num) (by norm_num)
  have hpmpp1 := As64.mul one_lo le_rfl hz hpapp2 (by norm_num) (by norm_num) (by norm_num) (by norm_num) (g := (20567 / 2 ^ 71)) (D := (6085 / 2 ^ 18)) (by norm_num) (by norm_num)
  have hpapp1 := As64.add zero_le_one le_rfl hpp1 hpmpp1 (by norm_num) (by norm_num) (g := (27965 / 2 ^ 69)) (D := (2853 / 2 ^ 13)) (by norm_num) (by norm_num)
  have hpmpp0 := As64.mul one_lo le_rfl hz hpapp1 (by norm_num) (by norm_num) (by norm_num) (by norm_num) (g := (26205 / 2 ^ 68)) (D := (32499 / 2 ^ 17)) (by norm_num) (by norm_num)
  have hpapp0 := As64.add zero_le_one le_rfl hpp0 hpmpp0 (by norm_num) (by norm_num) (g := (19269 / 2 ^ 67)) (D := (3083 / 2 ^ 13)) (by norm_num) (by norm_num)
  have hqmqq4 := As64.mul one_lo le_rfl hz hqq5 (by norm_num) (by norm_num) (by norm_num) (by norm_num) (g := (24221 / 2 ^ 85)) (D := (24221 / 2 ^ 33)) (by norm_num) (by norm_num)
  have hqaqq4 := As64.add zero_le_one le_rfl hqq4 hqmqq4 (by norm_num) (by norm_num) (g := (2365 / 2 ^ 77)) (D := (18163 / 2 ^ 27)) (by norm_num) (by norm_num)
  have hqmqq3 := As64.mul one_lo le_rfl hz hqaqq4 (by norm_num) (by norm_num) (by norm_num) (by norm_num) (g := (19667 / 2 ^ 79)) (D := (25863 / 2 ^ 28)) (by norm_num) (by norm_num)
  have hqaqq3 := As64.add zero_le_one le_rfl hqq3 hqmqq3 (by norm_num) (by norm_num) (g := (22947 / 2 ^ 75)) (D := (10859 / 2 ^ 21)) (by norm_num) (by norm_num)
  have hqmqq2 := As64.mul one_lo le_rfl hz hqaqq3 (by norm_num) (by norm_num) (by norm_num) (by norm_num) (g := (23631 / 2 ^ 74)) (D := (30925 / 2 ^ 23)) (by norm_num) (by norm_num)
  have hqaqq2 := As64.add zero_le_one le_rfl hqq2 hqmqq2 (by norm_num) (by norm_num) (g := (20967 / 2 ^ 71)) (D := (18013 / 2 ^ 18)) (by norm_num) (by norm_num)
  have hqmqq1 := As64.mul one_lo le_rfl hz hqaqq2 (by norm_num) (by norm_num) (by norm_num) (by norm_num) (g := (317 / 2 ^ 64)) (D := (25649 / 2 ^ 19)) (by norm_num) (by norm_num)
  have hqaqq1 := As64.add zero_le_one le_rfl hqq1 hqmqq1 (by norm_num) (by norm_num) (g := (19715 / 2 ^ 68)) (D := (29285 / 2 ^ 16)) (by norm_num) (by norm_num)
  have hqm := As64.mul one_lo le_rfl hz hqaqq1 (by norm_num) (by norm_num) (by norm_num) (by norm_num) (g := (17443 / 2 ^ 67)) (D := (10425 / 2 ^ 15)) (by norm_num) (by norm_num)
  have hq := As64.add zero_le_one le_rfl hone hqm (by norm_num) (by norm_num) (g := (305 / 2 ^ 60)) (D := (21597 / 2 ^ 14)) (by norm_num) (by norm_num)
  have ep : Poly.ev Erf.pl (x.val * x.val) = (Erf.pp0.val + (x.val * x.val) * (Erf.pp1.val + (x.val * x.val) * (Erf.pp2.val + (x.val * x.val) * (Erf.pp3.val + (x.val * x.val) * Erf.pp4.val)))) := by
    simp only [Erf.pl, Poly.ev, Erf.pp0_val, Erf.pp1_val, Erf.pp2_val, Erf.pp3_val, Erf.pp4_val, Erf.qq1_val, Erf.qq2_val, Erf.qq3_val, Erf.qq4_val, Erf.qq5_val]
    push_cast
    norm_num
  have eq : Poly.ev Erf.ql (x.val * x.val) = 1 + (x.val * x.val) * (Erf.qq1.val + (x.val * x.val) * (Erf.qq2.val + (x.val * x.val) * (Erf.qq3.val + (x.val * x.val) * (Erf.qq4.val + (x.val * x.val) * Erf.qq5.val)))) := by
    simp only [Erf.ql, Poly.ev, Erf.pp0_val, Erf.pp1_val, Erf.pp2_val, Erf.pp3_val, Erf.pp4_val, Erf.qq1_val, Erf.qq2_val, Erf.qq3_val, Erf.qq4_val, Erf.qq5_val]
    push_cast
    norm_num
  have hL : (15 / 2 ^ 4) ≤ |(1.0 + (x * x) * (Erf.qq1 + (x * x) * (Erf.qq2 + (x * x) * (Erf.qq3 + (x * x) * (Erf.qq4 + (x * x) * Erf.qq5))))).val| := by
    have h3 := hq.err
    rw [← eq, abs_le] at h3
    have h4 := Erf.ql_ge (mul_self_nonneg x.val) (by have := mul_self_le_mul_self (abs_nonneg _) h1; rw [abs_mul_abs_self] at this; linarith)
    refine le_trans ?_ (le_abs_self _)
    norm_num at h3 h4 ⊢
    linarith [h3.1]
  have hr := As64.div one_lo le_rfl hpapp0 hq (15 / 2 ^ 4) hL (by norm_num) (by norm_num) (by norm_num) (by norm_num) (by norm_num) (g := (5481 / 2 ^ 64)) (D := (26309 / 2 ^ 16)) (by norm_num) (by norm_num)
  rw [ep, eq]
  exact hr

theorem Erf.ratio_small {x : Flt f64} (hf : x.isFinite) (h1 : |x.val| ≤ 27 / 32) :
    (Erf.ratio x).isFinite ∧ |(Erf.ratio x).val| ≤ 1 / 4 := by
  have h2 := Erf.ratio_as hf h1
  have hz : x.val * x.val ≤ 729 / 1024 := by have := mul_self_le_mul_self (abs_nonneg _) h1; rw [abs_mul_abs_self] at this; linarith
  have h3 := Erf.ql_ge (mul_self_nonneg x.val) hz
  have h4 := Erf.pl_le (mul_self_nonneg x.val) hz
  have h5 : |Poly.ev Erf.pl (x.val * x.val) / Poly.ev Erf.ql (x.val * x.val)| ≤ 1 / 5 := by
    rw [abs_div, div_le_iff₀ (by rw [abs_pos]; norm_num at h3; linarith)]
    have := le_abs_self (Poly.ev Erf.ql (x.val * x.val))
    norm_num at h3
    linarith
  refine ⟨h2.fin, ?_⟩
  have h6 := h2.err
  generalize Poly.ev Erf.pl (x.val * x.val) / Poly.ev Erf.ql (x.val * x.val) = v at *
  rw [abs_le] at *
  norm_num at h6
  constructor <;> linarith [h5.1, h5.2, h6.1, h6.2]

/-- numerator of `ratio` -/
def Erff.pl : List ℚ := [2153845 / 2 ^ 24, -10906603 / 2 ^ 25, -15291023 / 2 ^ 29, -12391561 / 2 ^ 31, -13063857 / 2 ^ 39]
/-- denominator of `ratio` -/
def Erff.ql : List ℚ := [1, 6675943 / 2 ^ 24, 8727139 / 2 ^ 27, 5456011 / 2 ^ 30, 9104969 / 2 ^ 36, -4354317 / 2 ^ 40]

theorem Erff.ql_ge {z : ℝ} (h0 : 0 ≤ z) (h1 : z ≤ 729 / 1024) : 1 - 1 / 2 ^ 10 ≤ Poly.ev Erff.ql z := by
  have h2 := Poly.bound (p := Poly.add Erff.ql [-(75 / 64)]) (a := 0) (h := 729 / 131072) (B := 11 / 64 + 1 / 1024) (n := 64)
    (by decide +kernel) (by norm_num) (by norm_num) z (by push_cast; exact h0) (by push_cast; linarith)
  rw [Poly.ev_add, abs_le] at h2
  have h3 : Poly.ev [-(75 / 64)] z = -(75 / 64) := by simp [Poly.ev]
  rw [h3] at h2
  have := h2.1
  push_cast at this
  linarith

theorem Erff.pl_le {z : ℝ} (h0 : 0 ≤ z) (h1 : z ≤ 729 / 1024) : |Poly.ev Erff.pl z| ≤ 3 / 16 := by
  have h2 := Poly.bound (p := Erff.pl) (a := 0) (h := 729 / 131072) (B := 3 / 16) (n := 64)
    (by decide +kernel) (by norm_num) (by norm_num) z (by push_cast; exact h0) (by push_cast; linarith)
  push_cast at h2
  exact h2

theorem Erff.ratio_as {x : Flt f32} (hf : x.isFinite) (h1 : |x.val| ≤ 27 / 32) :
    As 1 (Erff.ratio x) (Poly.ev Erff.pl (x.val * x.val) / Poly.ev Erff.ql (x.val * x.val)) (5481 / 2 ^ 35) (26309 / 2 ^ 16) := by
  have hx : As 1 x x.val 0 (27 / 32) := .exact hf rfl (by rw [mul_one]; exact h1)
  have e1 : (1.0 : Flt f32) = one f32 := by decide +kernel
  have hone : As 1 (1.0 : Flt f32) 1 0 1 := .exact (by decide +kernel) (by rw [e1, val_one]) (by norm_num)
  have hpp0 : As 1 Erff.pp0 Erff.pp0.val 0 (16827 / 2 ^ 17) := .exact (by decide +kernel) rfl (by rw [Erff.pp0_val, abs_le]; constructor <;> norm_num)
  have hpp1 : As 1 Erff.pp1 Erff.pp1.val 0 (10651 / 2 ^ 15) := .exact (by decide +kernel) rfl (by rw [Erff.pp1_val, abs_le]; constructor <;> norm_num)
  have hpp2 : As 1 Erff.pp2 Erff.pp2.val 0 (14933 / 2 ^ 19) := .exact (by decide +kernel) rfl (by rw [Erff.pp2_val, abs_le]; constructor <;> norm_num)
  have hpp3 : As 1 Erff.pp3 Erff.pp3.val 0 (24203 / 2 ^ 22) := .exact (by decide +kernel) rfl (by rw [Erff.pp3_val, abs_le]; constructor <;> norm_num)
  have hpp4 : As 1 Erff.pp4 Erff.pp4.val 0 (6379 / 2 ^ 28) := .exact (by decide +kernel) rfl (by rw [Erff.pp4_val, abs_le]; constructor <;> norm_num)
  have hqq1 : As 1 Erff.qq1 Erff.qq1.val 0 (13039 / 2 ^ 15) := .exact (by decide +kernel) rfl (by rw [Erff.qq1_val, abs_le]; constructor <;> norm_num)
  have hqq2 : As 1 Erff.qq2 Erff.qq2.val 0 (8523 / 2 ^ 17) := .exact (by decide +kernel) rfl (by rw [Erff.qq2_val, abs_le]; constructor <;> norm_num)
  have hqq3 : As 1 Erff.qq3 Erff.qq3.val 0 (21313 / 2 ^ 22) := .exact (by decide +kernel) rfl (by rw [Erff.qq3_val, abs_le]; constructor <;> norm_num)
  have hqq4 : As 1 Erff.qq4 Erff.qq4.val 0 (2223 / 2 ^ 24) := .exact (by decide +kernel) rfl (by rw [Erff.qq4_val, abs_le]; constructor <;> norm_num)
  have hqq5 : As 1 Erff.qq5 Erff.qq5.val 0 (8505 / 2 ^ 31) := .exact (by decide +kernel) rfl (by rw [Erff.qq5_val, abs_le]; constructor <;> norm_num)
  have hz := As32.mul one_lo32 le_rfl hx hx (by norm_num) (by norm_num) (by norm_num) (by norm_num) (g := (23329 / 2 ^ 39)) (D := (23329 / 2 ^ 15)) (by norm_num) (by norm_num)
  have hpmpp3 := As32.mul one_lo32 le_rfl hz hpp4 (by norm_num) (by norm_num) (by norm_num) (by norm_num) (g := (9083 / 2 ^ 52)) (D := (9083 / 2 ^ 29)) (by norm_num) (by norm_num)
  have hpapp3 := As32.add zero_le_one le_rfl hpp3 hpmpp3 (by norm_num) (by norm_num) (g := (763 / 2 ^ 41)) (D := (12137 / 2 ^ 21)) (by norm_num) (by norm_num)
  have hpmpp2 := As32.mul one_lo32 le_rfl hz hpapp3 (by norm_num) (by norm_num) (by norm_num) (by norm_num) (g := (12987 / 2 ^ 44)) (D := (8641 / 2 ^ 21)) (by norm_num) (by norm_num)
  have hpapp2 := As32.add zero_le_one le_rfl hpp2 hpmpp2 (by norm_num) (by norm_num) (g := (23587 / 2 ^ 43)) (D := (8547 / 2 ^ 18)) (by norm_num) (by norm_num)
  have hpmpp1 := As32.mul one_lo32 le_rfl hz hpapp2 (by norm_num) (by norm_num) (by norm_num) (by norm_num) (g := (20567 / 2 ^ 42)) (D := (6085 / 2 ^ 18)) (by norm_num) (by norm_num)
  have hpapp1 := As32.add zero_le_one le_rfl hpp1 hpmpp1 (by norm_num) (by norm_num) (g := (27965 / 2 ^ 40)) (D := (2853 / 2 ^ 13)) (by norm_num) (by norm_num)
  have hpmpp0 := As32.mul one_lo32 le_rfl hz hpapp1 (by norm_num) (by norm_num) (by norm_num) (by norm_num) (g := (26205 / 2 ^ 39)) (D := (32499 / 2 ^ 17)) (by norm_num) (by norm_num)
  have hpapp0 := As32.add zero_le_one le_rfl hpp0 hpmpp0 (by norm_num) (by norm_num) (g := (19269 / 2 ^ 38)) (D := (3083 / 2 ^ 13)) (by norm_num) (by norm_num)
  have hqmqq4 := As32.mul one_lo32 le_rfl hz hqq5 (by norm_num) (by norm_num) (by norm_num) (by norm_num) (g := (24221 / 2 ^ 56)) (D := (24221 / 2 ^ 33)) (by norm_num) (by norm_num)
  have hqaqq4 := As32.add zero_le_one le_rfl hqq4 hqmqq4 (by norm_num) (by norm_num) (g := (2365 / 2 ^ 48)) (D := (18163 / 2 ^ 27)) (by norm_num) (by norm_num)
  have hqmqq3 := As32.mul one_lo32 le_rfl hz hqaqq4 (by norm_num) (by norm_num) (by norm_num) (by norm_num) (g := (19667 / 2 ^ 50)) (D := (25863 / 2 ^ 28)) (by norm_num) (by norm_num)
  have hqaqq3 := As32.add zero_le_one le_rfl hqq3 hqmqq3 (by norm_num) (by norm_num) (g := (22947 / 2 ^ 46)) (D := (10859 / 2 ^ 21)) (by norm_num) (by norm_num)
  have hqmqq2 := As32.mul one_lo32 le_rfl hz hqaqq3 (by norm_num) (by norm_num) (by norm_num) (by norm_num) (g := (23631 / 2 ^ 45)) (D := (30925 / 2 ^ 23)) (by norm_num) (by norm_num)
  have hqaqq2 := As32.add zero_le_one le_rfl hqq2 hqmqq2 (by norm_num) (by norm_num) (g := (20967 / 2 ^ 42)) (D := (18013 / 2 ^ 18)) (by norm_num) (by norm_num)
  have hqmqq1 := As32.mul one_lo32 le_rfl hz hqaqq2 (by norm_num) (by norm_num) (by norm_num) (by norm_num) (g := (317 / 2 ^ 35)) (D := (25649 / 2 ^ 19)) (by norm_num) (by norm_num)
  have hqaqq1 := As32.add zero_le_one le_rfl hqq1 hqmqq1 (by norm_num) (by norm_num) (g := (19715 / 2 ^ 39)) (D := (29285 / 2 ^ 16)) (by norm_num) (by norm_num)
  have hqm := As32.mul one_lo32 le_rfl hz hqaqq1 (by norm_num) (by norm_num) (by norm_num) (by norm_num) (g := (17443 / 2 ^ 38)) (D := (10425 / 2 ^ 15)) (by norm_num) (by norm_num)
  have hq := As32.add zero_le_one le_rfl hone hqm (by norm_num) (by norm_num) (g := (305 / 2 ^ 31)) (D := (21597 / 2 ^ 14)) (by norm_num) (by norm_num)
  have ep : Poly.ev Erff.pl (x.val * x.val) = (Erff.pp0.val + (x.val * x.val) * (Erff.pp1.val + (x.val * x.val) * (Erff.pp2.val + (x.val * x.val) * (Erff.pp3.val + (x.val * x.val) * Erff.pp4.val)))) := by
    simp only [Erff.pl, Poly.ev, Erff.pp0_val, Erff.pp1_val, Erff.pp2_val, Erff.pp3_val, Erff.pp4_val, Erff.qq1_val, Erff.qq2_val, Erff.qq3_val, Erff.qq4_val, Erff.qq5_val]
    push_cast
    norm_num
  have eq : Poly.ev Erff.ql (x.val * x.val) = 1 + (x.val * x.val) * (Erff.qq1.val + (x.val * x.val) * (Erff.qq2.val + (x.val * x.val) * (Erff.qq3.val + (x.val * x.val) * (Erff.qq4.val + (x.val * x.val) * Erff.qq5.val)))) := by
    simp only [Erff.ql, Poly.ev, Erff.pp0_val, Erff.pp1_val, Erff.pp2_val, Erff.pp3_val, Erff.pp4_val, Erff.qq1_val, Erff.qq2_val, Erff.qq3_val, Erff.qq4_val, Erff.qq5_val]
    push_cast
    norm_num
  have hL : (15 / 2 ^ 4) ≤ |(1.0 + (x * x) * (Erff.qq1 + (x * x) * (Erff.qq2 + (x * x) * (Erff.qq3 + (x * x) * (Erff.qq4 + (x * x) * Erff.qq5))))).val| := by
    have h3 := hq.err
    rw [← eq, abs_le] at h3
    have h4 := Erff.ql_ge (mul_self_nonneg x.val) (by have := mul_self_le_mul_self (abs_nonneg _) h1; rw [abs_mul_abs_self] at this; linarith)
    refine le_trans ?_ (le_abs_self _)
    norm_num at h3 h4 ⊢
    linarith [h3.1]
  have hr := As32.div one_lo32 le_rfl hpapp0 hq (15 / 2 ^ 4) hL (by norm_num) (by norm_num) (by norm_num) (by norm_num) (by norm_num) (g := (5481 / 2 ^ 35)) (D := (26309 / 2 ^ 16)) (by norm_num) (by norm_num)
  rw [ep, eq]
  exact hr

theorem Erff.ratio_small {x : Flt f32} (hf : x.isFinite) (h1 : |x.val| ≤ 27 / 32) :
    (Erff.ratio x).isFinite ∧ |(Erff.ratio x).val| ≤ 1 / 4 := by
  have h2 := Erff.ratio_as hf h1
  have hz : x.val * x.val ≤ 729 / 1024 := by have := mul_self_le_mul_self (abs_nonneg _) h1; rw [abs_mul_abs_self] at this; linarith
  have h3 := Erff.ql_ge (mul_self_nonneg x.val) hz
  have h4 := Erff.pl_le (mul_self_nonneg x.val) hz
  have h5 : |Poly.ev Erff.pl (x.val * x.val) / Poly.ev Erff.ql (x.val * x.val)| ≤ 1 / 5 := by
    rw [abs_div, div_le_iff₀ (by rw [abs_pos]; norm_num at h3; linarith)]
    have := le_abs_self (Poly.ev Erff.ql (x.val * x.val))
    norm_num at h3
    linarith
  refine ⟨h2.fin, ?_⟩
  have h6 := h2.err
  generalize Poly.ev Erff.pl (x.val * x.val) / Poly.ev Erff.ql (x.val * x.val) = v at *
  rw [abs_le] at *
  norm_num at h6
  constructor <;> linarith [h5.1, h5.2, h6.1, h6.2]

end Verif
