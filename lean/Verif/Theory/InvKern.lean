import Verif.Theory.As32
import Verif.Theory.InvTrigConst
import Verif.Theory.PolyBd

/-!
# The polynomial and rational kernels of the inverse trigonometric functions: rounding errors
-/

namespace Verif
open Flt

/-- numerator of `compR`, without its factor `z` -/
def Asin.pl : List ℚ := [6004799503160661 / 2 ^ 55, -5864872397729661 / 2 ^ 54, 7249445477958741 / 2 ^ 55, -5772610888044347 / 2 ^ 57, 912577716565585 / 2 ^ 60, 5134586392475401 / 2 ^ 67]
/-- denominator of `compR` -/
def Asin.ql : List ℚ := [1, -5411964214455627 / 2 ^ 51, 568845660795225 / 2 ^ 48, -6199510876094809 / 2 ^ 53, 2775591889094977 / 2 ^ 55]

theorem Asin.ql_ge {z : ℝ} (h0 : 0 ≤ z) (h1 : z ≤ 1 / 4) : (1 / 2 ^ 1) + 1 / 2 ^ 10 ≤ Poly.ev Asin.ql z := by
  have h2 := Poly.bound (p := Poly.add Asin.ql [-(385 / 2 ^ 9)]) (a := 0) (h := 1 / 64) (B := (1 / 2 ^ 2)) (n := 8)
    (by decide +kernel) (by norm_num) (by norm_num) z (by push_cast; exact h0) (by push_cast; linarith)
  rw [Poly.ev_add, abs_le] at h2
  have h3 : Poly.ev [-(385 / 2 ^ 9)] z = -(385 / 2 ^ 9) := by simp [Poly.ev]
  rw [h3] at h2
  have := h2.1
  push_cast at this
  linarith

theorem Asin.compR_as {z : Flt f64} (hf : z.isFinite) (h0 : 0 ≤ z.val) (h1 : z.val ≤ 1 / 4) :
    As 1 (Asin.compR z) (z.val * Poly.ev Asin.pl z.val / Poly.ev Asin.ql z.val) (23235 / 2 ^ 67) (8563 / 2 ^ 16) := by
  have hz : As 1 z z.val 0 (1 / 4) := .exact hf rfl (by rw [mul_one, abs_of_nonneg h0]; exact h1)
  have e1 : (1.0 : Flt f64) = one f64 := by decide +kernel
  have hone : As 1 (1.0 : Flt f64) 1 0 1 := .exact (by decide +kernel) (by rw [e1, val_one]) (by norm_num)
  have hps0 : As 1 Asin.ps0 Asin.ps0.val 0 (10923 / 2 ^ 16) := .exact (by decide +kernel) rfl (by rw [Asin.ps0_val, abs_le]; constructor <;> norm_num)
  have hps1 : As 1 Asin.ps1 Asin.ps1.val 0 (21337 / 2 ^ 16) := .exact (by decide +kernel) rfl (by rw [Asin.ps1_val, abs_le]; constructor <;> norm_num)
  have hps2 : As 1 Asin.ps2 Asin.ps2.val 0 (13187 / 2 ^ 16) := .exact (by decide +kernel) rfl (by rw [Asin.ps2_val, abs_le]; constructor <;> norm_num)
  have hps3 : As 1 Asin.ps3 Asin.ps3.val 0 (21001 / 2 ^ 19) := .exact (by decide +kernel) rfl (by rw [Asin.ps3_val, abs_le]; constructor <;> norm_num)
  have hps4 : As 1 Asin.ps4 Asin.ps4.val 0 (415 / 2 ^ 19) := .exact (by decide +kernel) rfl (by rw [Asin.ps4_val, abs_le]; constructor <;> norm_num)
  have hps5 : As 1 Asin.ps5 Asin.ps5.val 0 (2335 / 2 ^ 26) := .exact (by decide +kernel) rfl (by rw [Asin.ps5_val, abs_le]; constructor <;> norm_num)
  have hqs1 : As 1 Asin.qs1 Asin.qs1.val 0 (19689 / 2 ^ 13) := .exact (by decide +kernel) rfl (by rw [Asin.qs1_val, abs_le]; constructor <;> norm_num)
  have hqs2 : As 1 Asin.qs2 Asin.qs2.val 0 (4139 / 2 ^ 11) := .exact (by decide +kernel) rfl (by rw [Asin.qs2_val, abs_le]; constructor <;> norm_num)
  have hqs3 : As 1 Asin.qs3 Asin.qs3.val 0 (11277 / 2 ^ 14) := .exact (by decide +kernel) rfl (by rw [Asin.qs3_val, abs_le]; constructor <;> norm_num)
  have hqs4 : As 1 Asin.qs4 Asin.qs4.val 0 (5049 / 2 ^ 16) := .exact (by decide +kernel) rfl (by rw [Asin.qs4_val, abs_le]; constructor <;> norm_num)
  have hpmps4 := As64.mul one_lo le_rfl hz hps5 (by norm_num) (by norm_num) (by norm_num) (by norm_num) (g := (18681 / 2 ^ 84)) (D := (18681 / 2 ^ 31)) (by norm_num) (by norm_num)
  have hpaps4 := As64.add zero_le_one le_rfl hps4 hpmps4 (by norm_num) (by norm_num) (g := (3393 / 2 ^ 75)) (D := (6713 / 2 ^ 23)) (by norm_num) (by norm_num)
  have hpmps3 := As64.mul one_lo le_rfl hz hpaps4 (by norm_num) (by norm_num) (by norm_num) (by norm_num) (g := (26999 / 2 ^ 79)) (D := (26853 / 2 ^ 27)) (by norm_num) (by norm_num)
  have hpaps3 := As64.add zero_le_one le_rfl hps3 hpmps3 (by norm_num) (by norm_num) (g := (21317 / 2 ^ 72)) (D := (10553 / 2 ^ 18)) (by norm_num) (by norm_num)
  have hpmps2 := As64.mul one_lo le_rfl hz hpaps3 (by norm_num) (by norm_num) (by norm_num) (by norm_num) (g := (5303 / 2 ^ 71)) (D := (21107 / 2 ^ 21)) (by norm_num) (by norm_num)
  have hpaps2 := As64.add zero_le_one le_rfl hps2 hpmps2 (by norm_num) (by norm_num) (g := (30345 / 2 ^ 70)) (D := (13847 / 2 ^ 16)) (by norm_num) (by norm_num)
  have hpmps1 := As64.mul one_lo le_rfl hz hpaps2 (by norm_num) (by norm_num) (by norm_num) (by norm_num) (g := (7255 / 2 ^ 69)) (D := (27695 / 2 ^ 19)) (by norm_num) (by norm_num)
  have hpaps1 := As64.add zero_le_one le_rfl hps1 hpmps1 (by norm_num) (by norm_num) (g := (16027 / 2 ^ 68)) (D := (24799 / 2 ^ 16)) (by norm_num) (by norm_num)
  have hpmps0 := As64.mul one_lo le_rfl hz hpaps1 (by norm_num) (by norm_num) (by norm_num) (by norm_num) (g := (28427 / 2 ^ 70)) (D := (775 / 2 ^ 13)) (by norm_num) (by norm_num)
  have hpaps0 := As64.add zero_le_one le_rfl hps0 hpmps0 (by norm_num) (by norm_num) (g := (31337 / 2 ^ 69)) (D := (4281 / 2 ^ 14)) (by norm_num) (by norm_num)
  have hp := As64.mul one_lo le_rfl hz hpaps0 (by norm_num) (by norm_num) (by norm_num) (by norm_num) (g := (24231 / 2 ^ 70)) (D := (17125 / 2 ^ 18)) (by norm_num) (by norm_num)
  have hqmqs3 := As64.mul one_lo le_rfl hz hqs4 (by norm_num) (by norm_num) (by norm_num) (by norm_num) (g := (20197 / 2 ^ 73)) (D := (20197 / 2 ^ 20)) (by norm_num) (by norm_num)
  have hqaqs3 := As64.add zero_le_one le_rfl hqs3 hqmqs3 (by norm_num) (by norm_num) (g := (23817 / 2 ^ 68)) (D := (11593 / 2 ^ 14)) (by norm_num) (by norm_num)
  have hqmqs2 := As64.mul one_lo le_rfl hz hqaqs3 (by norm_num) (by norm_num) (by norm_num) (by norm_num) (g := (11751 / 2 ^ 68)) (D := (23187 / 2 ^ 17)) (by norm_num) (by norm_num)
  have hqaqs2 := As64.add zero_le_one le_rfl hqs2 hqmqs2 (by norm_num) (by norm_num) (g := (20943 / 2 ^ 66)) (D := (9003 / 2 ^ 12)) (by norm_num) (by norm_num)
  have hqmqs1 := As64.mul one_lo le_rfl hz hqaqs2 (by norm_num) (by norm_num) (by norm_num) (by norm_num) (g := (19475 / 2 ^ 67)) (D := (18007 / 2 ^ 15)) (by norm_num) (by norm_num)
  have hqaqs1 := As64.add zero_le_one le_rfl hqs1 hqmqs1 (by norm_num) (by norm_num) (g := (16965 / 2 ^ 65)) (D := (24191 / 2 ^ 13)) (by norm_num) (by norm_num)
  have hqm := As64.mul one_lo le_rfl hz hqaqs1 (by norm_num) (by norm_num) (by norm_num) (by norm_num) (g := (29061 / 2 ^ 67)) (D := (189 / 2 ^ 8)) (by norm_num) (by norm_num)
  have hq := As64.add zero_le_one le_rfl hone hqm (by norm_num) (by norm_num) (g := (28771 / 2 ^ 66)) (D := (28481 / 2 ^ 14)) (by norm_num) (by norm_num)
  have ep : Poly.ev Asin.pl z.val = (Asin.ps0.val + z.val * (Asin.ps1.val + z.val * (Asin.ps2.val + z.val * (Asin.ps3.val + z.val * (Asin.ps4.val + z.val * Asin.ps5.val))))) := by
    simp only [Asin.pl, Poly.ev, Asin.ps0_val, Asin.ps1_val, Asin.ps2_val, Asin.ps3_val, Asin.ps4_val, Asin.ps5_val, Asin.qs1_val, Asin.qs2_val, Asin.qs3_val, Asin.qs4_val]
    push_cast
    norm_num
  have eq : Poly.ev Asin.ql z.val = 1 + z.val * (Asin.qs1.val + z.val * (Asin.qs2.val + z.val * (Asin.qs3.val + z.val * Asin.qs4.val))) := by
    simp only [Asin.ql, Poly.ev, Asin.ps0_val, Asin.ps1_val, Asin.ps2_val, Asin.ps3_val, Asin.ps4_val, Asin.ps5_val, Asin.qs1_val, Asin.qs2_val, Asin.qs3_val, Asin.qs4_val]
    push_cast
    norm_num
  have hL : (1 / 2 ^ 1) ≤ |(1.0 + z * (Asin.qs1 + z * (Asin.qs2 + z * (Asin.qs3 + z * Asin.qs4)))).val| := by
    have h3 := hq.err
    rw [← eq, abs_le] at h3
    have h4 := Asin.ql_ge h0 h1
    refine le_trans ?_ (le_abs_self _)
    norm_num at h3 h4 ⊢
    linarith [h3.1]
  have hr := As64.div one_lo le_rfl hp hq (1 / 2 ^ 1) hL (by norm_num) (by norm_num) (by norm_num) (by norm_num) (by norm_num) (g := (23235 / 2 ^ 67)) (D := (8563 / 2 ^ 16)) (by norm_num) (by norm_num)
  rw [ep, eq]
  exact hr

/-- numerator of `r`, without its factor `z` -/
def Asinf.pl : List ℚ := [11184757 / 2 ^ 26, -5736925 / 2 ^ 27, -9294699 / 2 ^ 30]
/-- denominator of `r` -/
def Asinf.ql : List ℚ := [1, -5927639 / 2 ^ 23]

theorem Asinf.ql_ge {z : ℝ} (h0 : 0 ≤ z) (h1 : z ≤ 1 / 4) : (13 / 2 ^ 4) + 1 / 2 ^ 10 ≤ Poly.ev Asinf.ql z := by
  have h2 := Poly.bound (p := Poly.add Asinf.ql [-(15 / 2 ^ 4)]) (a := 0) (h := 1 / 8) (B := (127 / 2 ^ 10)) (n := 1)
    (by decide +kernel) (by norm_num) (by norm_num) z (by push_cast; exact h0) (by push_cast; linarith)
  rw [Poly.ev_add, abs_le] at h2
  have h3 : Poly.ev [-(15 / 2 ^ 4)] z = -(15 / 2 ^ 4) := by simp [Poly.ev]
  rw [h3] at h2
  have := h2.1
  push_cast at this
  linarith

theorem Asinf.r_as {z : Flt f32} (hf : z.isFinite) (h0 : 0 ≤ z.val) (h1 : z.val ≤ 1 / 4) :
    As 1 (Asinf.r z) (z.val * Poly.ev Asinf.pl z.val / Poly.ev Asinf.ql z.val) (8601 / 2 ^ 39) (28701 / 2 ^ 19) := by
  have hz : As 1 z z.val 0 (1 / 4) := .exact hf rfl (by rw [mul_one, abs_of_nonneg h0]; exact h1)
  have e1 : (1.0 : Flt f32) = one f32 := by decide +kernel
  have hone : As 1 (1.0 : Flt f32) 1 0 1 := .exact (by decide +kernel) (by rw [e1, val_one]) (by norm_num)
  have hps0 : As 1 Asinf.ps0 Asinf.ps0.val 0 (10923 / 2 ^ 16) := .exact (by decide +kernel) rfl (by rw [Asinf.ps0_val, abs_le]; constructor <;> norm_num)
  have hps1 : As 1 Asinf.ps1 Asinf.ps1.val 0 (11205 / 2 ^ 18) := .exact (by decide +kernel) rfl (by rw [Asinf.ps1_val, abs_le]; constructor <;> norm_num)
  have hps2 : As 1 Asinf.ps2 Asinf.ps2.val 0 (9077 / 2 ^ 20) := .exact (by decide +kernel) rfl (by rw [Asinf.ps2_val, abs_le]; constructor <;> norm_num)
  have hqs1 : As 1 Asinf.qs1 Asinf.qs1.val 0 (23155 / 2 ^ 15) := .exact (by decide +kernel) rfl (by rw [Asinf.qs1_val, abs_le]; constructor <;> norm_num)
  have hpmps1 := As32.mul one_lo32 le_rfl hz hps2 (by norm_num) (by norm_num) (by norm_num) (by norm_num) (g := (18155 / 2 ^ 47)) (D := (18155 / 2 ^ 23)) (by norm_num) (by norm_num)
  have hpaps1 := As32.add zero_le_one le_rfl hps1 hpmps1 (by norm_num) (by norm_num) (g := (3085 / 2 ^ 40)) (D := (23545 / 2 ^ 19)) (by norm_num) (by norm_num)
  have hpmps0 := As32.mul one_lo32 le_rfl hz hpaps1 (by norm_num) (by norm_num) (by norm_num) (by norm_num) (g := (24113 / 2 ^ 44)) (D := (11773 / 2 ^ 20)) (by norm_num) (by norm_num)
  have hpaps0 := As32.add zero_le_one le_rfl hps0 hpmps0 (by norm_num) (by norm_num) (g := (6583 / 2 ^ 39)) (D := (11659 / 2 ^ 16)) (by norm_num) (by norm_num)
  have hp := As32.mul one_lo32 le_rfl hz hpaps0 (by norm_num) (by norm_num) (by norm_num) (by norm_num) (g := (12413 / 2 ^ 41)) (D := (23319 / 2 ^ 19)) (by norm_num) (by norm_num)
  have hqm := As32.mul one_lo32 le_rfl hz hqs1 (by norm_num) (by norm_num) (by norm_num) (by norm_num) (g := (5789 / 2 ^ 39)) (D := (5789 / 2 ^ 15)) (by norm_num) (by norm_num)
  have hq := As32.add zero_le_one le_rfl hone hqm (by norm_num) (by norm_num) (g := (22173 / 2 ^ 38)) (D := (19279 / 2 ^ 14)) (by norm_num) (by norm_num)
  have ep : Poly.ev Asinf.pl z.val = (Asinf.ps0.val + z.val * (Asinf.ps1.val + z.val * Asinf.ps2.val)) := by
    simp only [Asinf.pl, Poly.ev, Asinf.ps0_val, Asinf.ps1_val, Asinf.ps2_val, Asinf.qs1_val]
    push_cast
    norm_num
  have eq : Poly.ev Asinf.ql z.val = 1 + z.val * Asinf.qs1.val := by
    simp only [Asinf.ql, Poly.ev, Asinf.ps0_val, Asinf.ps1_val, Asinf.ps2_val, Asinf.qs1_val]
    push_cast
    norm_num
  have hL : (13 / 2 ^ 4) ≤ |(1.0 + z * Asinf.qs1).val| := by
    have h3 := hq.err
    rw [← eq, abs_le] at h3
    have h4 := Asinf.ql_ge h0 h1
    refine le_trans ?_ (le_abs_self _)
    norm_num at h3 h4 ⊢
    linarith [h3.1]
  have hr := As32.div one_lo32 le_rfl hp hq (13 / 2 ^ 4) hL (by norm_num) (by norm_num) (by norm_num) (by norm_num) (by norm_num) (g := (8601 / 2 ^ 39)) (D := (28701 / 2 ^ 19)) (by norm_num) (by norm_num)
  rw [ep, eq]
  exact hr

/-- the polynomial of `atan`: `poly x` is `z` times its value at `z = x²` -/
def Atan.pl : List ℚ := [6004799503160589 / 2 ^ 54, -1801439850937073 / 2 ^ 53, 5146970997949439 / 2 ^ 55, -8006398829074033 / 2 ^ 56, 3275337272528951 / 2 ^ 55, -5542580929731181 / 2 ^ 56, 4799809039908177 / 2 ^ 56, -4203530284924621 / 2 ^ 56, 7172437082246635 / 2 ^ 57, -5264754476739631 / 2 ^ 57, 4694068057790993 / 2 ^ 58]

theorem Atan.poly_as {x : Flt f64} (hf : x.isFinite) (h1 : |x.val| ≤ 7 / 16) :
    As 1 (Atan.poly x) (x.val ^ 2 * Poly.ev Atan.pl (x.val ^ 2)) (5083 / 2 ^ 67) (4739 / 2 ^ 16) := by
  have hx : As 1 x x.val 0 (7 / 16) := .exact hf rfl (by rw [mul_one]; exact h1)
  have hat0 : As 1 Atan.at0 Atan.at0.val 0 (43691 / 2 ^ 17) := .exact (by decide +kernel) rfl (by rw [Atan.at0_val, abs_le]; constructor <;> norm_num)
  have hat1 : As 1 Atan.at1 Atan.at1.val 0 (52429 / 2 ^ 18) := .exact (by decide +kernel) rfl (by rw [Atan.at1_val, abs_le]; constructor <;> norm_num)
  have hat2 : As 1 Atan.at2 Atan.at2.val 0 (74899 / 2 ^ 19) := .exact (by decide +kernel) rfl (by rw [Atan.at2_val, abs_le]; constructor <;> norm_num)
  have hat3 : As 1 Atan.at3 Atan.at3.val 0 (116509 / 2 ^ 20) := .exact (by decide +kernel) rfl (by rw [Atan.at3_val, abs_le]; constructor <;> norm_num)
  have hat4 : As 1 Atan.at4 Atan.at4.val 0 (95325 / 2 ^ 20) := .exact (by decide +kernel) rfl (by rw [Atan.at4_val, abs_le]; constructor <;> norm_num)
  have hat5 : As 1 Atan.at5 Atan.at5.val 0 (5041 / 2 ^ 16) := .exact (by decide +kernel) rfl (by rw [Atan.at5_val, abs_le]; constructor <;> norm_num)
  have hat6 : As 1 Atan.at6 Atan.at6.val 0 (69847 / 2 ^ 20) := .exact (by decide +kernel) rfl (by rw [Atan.at6_val, abs_le]; constructor <;> norm_num)
  have hat7 : As 1 Atan.at7 Atan.at7.val 0 (122339 / 2 ^ 21) := .exact (by decide +kernel) rfl (by rw [Atan.at7_val, abs_le]; constructor <;> norm_num)
  have hat8 : As 1 Atan.at8 Atan.at8.val 0 (104373 / 2 ^ 21) := .exact (by decide +kernel) rfl (by rw [Atan.at8_val, abs_le]; constructor <;> norm_num)
  have hat9 : As 1 Atan.at9 Atan.at9.val 0 (76613 / 2 ^ 21) := .exact (by decide +kernel) rfl (by rw [Atan.at9_val, abs_le]; constructor <;> norm_num)
  have hat10 : As 1 Atan.at10 Atan.at10.val 0 (17077 / 2 ^ 20) := .exact (by decide +kernel) rfl (by rw [Atan.at10_val, abs_le]; constructor <;> norm_num)
  have hz := As64.mul one_lo le_rfl hx hx (by norm_num) (by norm_num) (by norm_num) (by norm_num) (g := (100353 / 2 ^ 72)) (D := (100353 / 2 ^ 19)) (by norm_num) (by norm_num)
  have hw := As64.mul one_lo le_rfl hz hz (by norm_num) (by norm_num) (by norm_num) (by norm_num) (g := (115251 / 2 ^ 73)) (D := (38417 / 2 ^ 20)) (by norm_num) (by norm_num)
  have hemat8 := As64.mul one_lo le_rfl hw hat10 (by norm_num) (by norm_num) (by norm_num) (by norm_num) (g := (20021 / 2 ^ 76)) (D := (20021 / 2 ^ 25)) (by norm_num) (by norm_num)
  have heaat8 := As64.add zero_le_one le_rfl hat8 hemat8 (by norm_num) (by norm_num) (g := (55315 / 2 ^ 73)) (D := (105625 / 2 ^ 21)) (by norm_num) (by norm_num)
  have hemat6 := As64.mul one_lo le_rfl hw heaat8 (by norm_num) (by norm_num) (by norm_num) (by norm_num) (g := (39065 / 2 ^ 75)) (D := (123835 / 2 ^ 26)) (by norm_num) (by norm_num)
  have heaat6 := As64.add zero_le_one le_rfl hat6 hemat6 (by norm_num) (by norm_num) (g := (81549 / 2 ^ 73)) (D := (35891 / 2 ^ 19)) (by norm_num) (by norm_num)
  have hemat4 := As64.mul one_lo le_rfl hw heaat6 (by norm_num) (by norm_num) (by norm_num) (by norm_num) (g := (108059 / 2 ^ 76)) (D := (84157 / 2 ^ 25)) (by norm_num) (by norm_num)
  have heaat4 := As64.add zero_le_one le_rfl hat4 hemat4 (by norm_num) (by norm_num) (g := (111463 / 2 ^ 73)) (D := (97955 / 2 ^ 20)) (by norm_num) (by norm_num)
  have hemat2 := As64.mul one_lo le_rfl hw heaat4 (by norm_num) (by norm_num) (by norm_num) (by norm_num) (g := (18439 / 2 ^ 73)) (D := (57421 / 2 ^ 24)) (by norm_num) (by norm_num)
  have heaat2 := As64.add zero_le_one le_rfl hat2 hemat2 (by norm_num) (by norm_num) (g := (85913 / 2 ^ 72)) (D := (38347 / 2 ^ 18)) (by norm_num) (by norm_num)
  have hemat0 := As64.mul one_lo le_rfl hw heaat2 (by norm_num) (by norm_num) (by norm_num) (by norm_num) (g := (115097 / 2 ^ 75)) (D := (22479 / 2 ^ 22)) (by norm_num) (by norm_num)
  have heaat0 := As64.add zero_le_one le_rfl hat0 hemat0 (by norm_num) (by norm_num) (g := (95981 / 2 ^ 71)) (D := (88787 / 2 ^ 18)) (by norm_num) (by norm_num)
  have hs1 := As64.mul one_lo le_rfl hz heaat0 (by norm_num) (by norm_num) (by norm_num) (by norm_num) (g := (52361 / 2 ^ 71)) (D := (67979 / 2 ^ 20)) (by norm_num) (by norm_num)
  have homat7 := As64.mul one_lo le_rfl hw hat9 (by norm_num) (by norm_num) (by norm_num) (by norm_num) (g := (89821 / 2 ^ 77)) (D := (89821 / 2 ^ 26)) (by norm_num) (by norm_num)
  have hoaat7 := As64.add zero_le_one le_rfl hat7 homat7 (by norm_num) (by norm_num) (g := (68187 / 2 ^ 73)) (D := (62573 / 2 ^ 20)) (by norm_num) (by norm_num)
  have homat5 := As64.mul one_lo le_rfl hw hoaat7 (by norm_num) (by norm_num) (by norm_num) (by norm_num) (g := (46673 / 2 ^ 75)) (D := (73361 / 2 ^ 25)) (by norm_num) (by norm_num)
  have hoaat5 := As64.add zero_le_one le_rfl hat5 homat5 (by norm_num) (by norm_num) (g := (94617 / 2 ^ 73)) (D := (82949 / 2 ^ 20)) (by norm_num) (by norm_num)
  have homat3 := As64.mul one_lo le_rfl hw hoaat5 (by norm_num) (by norm_num) (by norm_num) (by norm_num) (g := (124981 / 2 ^ 76)) (D := (97249 / 2 ^ 25)) (by norm_num) (by norm_num)
  have hoaat3 := As64.add zero_le_one le_rfl hat3 homat3 (by norm_num) (by norm_num) (g := (33793 / 2 ^ 71)) (D := (119549 / 2 ^ 20)) (by norm_num) (by norm_num)
  have homat1 := As64.mul one_lo le_rfl hw hoaat3 (by norm_num) (by norm_num) (by norm_num) (by norm_num) (g := (89889 / 2 ^ 75)) (D := (1095 / 2 ^ 18)) (by norm_num) (by norm_num)
  have hoaat1 := As64.add zero_le_one le_rfl hat1 homat1 (by norm_num) (by norm_num) (g := (118285 / 2 ^ 72)) (D := (107049 / 2 ^ 19)) (by norm_num) (by norm_num)
  have hs2 := As64.mul one_lo le_rfl hw hoaat1 (by norm_num) (by norm_num) (by norm_num) (by norm_num) (g := (80087 / 2 ^ 74)) (D := (1961 / 2 ^ 18)) (by norm_num) (by norm_num)
  have hs := As64.add zero_le_one le_rfl hs1 hs2 (by norm_num) (by norm_num) (g := (5083 / 2 ^ 67)) (D := (4739 / 2 ^ 16)) (by norm_num) (by norm_num)
  have ep : x.val ^ 2 * Poly.ev Atan.pl (x.val ^ 2) = x.val * x.val * (Atan.at0.val + (x.val * x.val * (x.val * x.val)) * (Atan.at2.val + (x.val * x.val * (x.val * x.val)) * (Atan.at4.val + (x.val * x.val * (x.val * x.val)) * (Atan.at6.val + (x.val * x.val * (x.val * x.val)) * (Atan.at8.val + (x.val * x.val * (x.val * x.val)) * Atan.at10.val))))) + x.val * x.val * (x.val * x.val) * (Atan.at1.val + (x.val * x.val * (x.val * x.val)) * (Atan.at3.val + (x.val * x.val * (x.val * x.val)) * (Atan.at5.val + (x.val * x.val * (x.val * x.val)) * (Atan.at7.val + (x.val * x.val * (x.val * x.val)) * Atan.at9.val)))) := by
    simp only [Atan.pl, Poly.ev, Atan.at0_val, Atan.at1_val, Atan.at2_val, Atan.at3_val, Atan.at4_val, Atan.at5_val, Atan.at6_val, Atan.at7_val, Atan.at8_val, Atan.at9_val, Atan.at10_val]
    push_cast
    norm_num
    ring
  rw [ep]
  exact hs

/-- the polynomial of `atan`: `poly x` is `z` times its value at `z = x²` -/
def Atanf.pl : List ℚ := [11184809 / 2 ^ 25, -1677651 / 2 ^ 23, 9565453 / 2 ^ 26, -14291527 / 2 ^ 27, 16559141 / 2 ^ 28]

theorem Atanf.poly_as {x : Flt f32} (hf : x.isFinite) (h1 : |x.val| ≤ 7 / 16) :
    As 1 (Atanf.poly x) (x.val ^ 2 * Poly.ev Atanf.pl (x.val ^ 2)) (1269 / 2 ^ 36) (37901 / 2 ^ 19) := by
  have hx : As 1 x x.val 0 (7 / 16) := .exact hf rfl (by rw [mul_one]; exact h1)
  have hat0 : As 1 Atanf.at0 Atanf.at0.val 0 (43691 / 2 ^ 17) := .exact (by decide +kernel) rfl (by rw [Atanf.at0_val, abs_le]; constructor <;> norm_num)
  have hat1 : As 1 Atanf.at1 Atanf.at1.val 0 (52427 / 2 ^ 18) := .exact (by decide +kernel) rfl (by rw [Atanf.at1_val, abs_le]; constructor <;> norm_num)
  have hat2 : As 1 Atanf.at2 Atanf.at2.val 0 (74731 / 2 ^ 19) := .exact (by decide +kernel) rfl (by rw [Atanf.at2_val, abs_le]; constructor <;> norm_num)
  have hat3 : As 1 Atanf.at3 Atanf.at3.val 0 (111653 / 2 ^ 20) := .exact (by decide +kernel) rfl (by rw [Atanf.at3_val, abs_le]; constructor <;> norm_num)
  have hat4 : As 1 Atanf.at4 Atanf.at4.val 0 (129369 / 2 ^ 21) := .exact (by decide +kernel) rfl (by rw [Atanf.at4_val, abs_le]; constructor <;> norm_num)
  have hz := As32.mul one_lo32 le_rfl hx hx (by norm_num) (by norm_num) (by norm_num) (by norm_num) (g := (100353 / 2 ^ 43)) (D := (100353 / 2 ^ 19)) (by norm_num) (by norm_num)
  have hw := As32.mul one_lo32 le_rfl hz hz (by norm_num) (by norm_num) (by norm_num) (by norm_num) (g := (115251 / 2 ^ 44)) (D := (38417 / 2 ^ 20)) (by norm_num) (by norm_num)
  have hemat2 := As32.mul one_lo32 le_rfl hw hat4 (by norm_num) (by norm_num) (by norm_num) (by norm_num) (g := (18959 / 2 ^ 45)) (D := (18959 / 2 ^ 23)) (by norm_num) (by norm_num)
  have heaat2 := As32.add zero_le_one le_rfl hat2 hemat2 (by norm_num) (by norm_num) (g := (5041 / 2 ^ 39)) (D := (18979 / 2 ^ 17)) (by norm_num) (by norm_num)
  have hemat0 := As32.mul one_lo32 le_rfl hw heaat2 (by norm_num) (by norm_num) (by norm_num) (by norm_num) (g := (28161 / 2 ^ 44)) (D := (22251 / 2 ^ 22)) (by norm_num) (by norm_num)
  have heaat0 := As32.add zero_le_one le_rfl hat0 hemat0 (by norm_num) (by norm_num) (g := (95813 / 2 ^ 42)) (D := (88773 / 2 ^ 18)) (by norm_num) (by norm_num)
  have hs1 := As32.mul one_lo32 le_rfl hz heaat0 (by norm_num) (by norm_num) (by norm_num) (by norm_num) (g := (104647 / 2 ^ 43)) (D := (531 / 2 ^ 13)) (by norm_num) (by norm_num)
  have homat1 := As32.mul one_lo32 le_rfl hw hat3 (by norm_num) (by norm_num) (by norm_num) (by norm_num) (g := (65451 / 2 ^ 46)) (D := (65451 / 2 ^ 24)) (by norm_num) (by norm_num)
  have hoaat1 := As32.add zero_le_one le_rfl hat1 homat1 (by norm_num) (by norm_num) (g := (115081 / 2 ^ 43)) (D := (26725 / 2 ^ 17)) (by norm_num) (by norm_num)
  have hs2 := As32.mul one_lo32 le_rfl hw hoaat1 (by norm_num) (by norm_num) (by norm_num) (by norm_num) (g := (39765 / 2 ^ 44)) (D := (125329 / 2 ^ 24)) (by norm_num) (by norm_num)
  have hs := As32.add zero_le_one le_rfl hs1 hs2 (by norm_num) (by norm_num) (g := (1269 / 2 ^ 36)) (D := (37901 / 2 ^ 19)) (by norm_num) (by norm_num)
  have ep : x.val ^ 2 * Poly.ev Atanf.pl (x.val ^ 2) = x.val * x.val * (Atanf.at0.val + (x.val * x.val * (x.val * x.val)) * (Atanf.at2.val + (x.val * x.val * (x.val * x.val)) * Atanf.at4.val)) + x.val * x.val * (x.val * x.val) * (Atanf.at1.val + (x.val * x.val * (x.val * x.val)) * Atanf.at3.val) := by
    simp only [Atanf.pl, Poly.ev, Atanf.at0_val, Atanf.at1_val, Atanf.at2_val, Atanf.at3_val, Atanf.at4_val]
    push_cast
    norm_num
    ring
  rw [ep]
  exact hs

end Verif
