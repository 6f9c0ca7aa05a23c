import Verif.Theory.TrigConst
import Verif.Theory.TrigD

/-!
# The polynomial of `k_tan` (k_tan.rs 66-113)
-/

namespace Verif
open Flt Trig

/-- the correction `r` of k_tan.rs 78-92, for the argument `x` and its tail `y` -/
noncomputable def KTanD.rr (x y : Flt f64) : Flt f64 :=
  let z := x * x
  let w := z * z
  let r := KTan.t1 + w * (KTan.t3 + w * (KTan.t5 + w * (KTan.t7 + w * (KTan.t9 + w * KTan.t11))))
  let v := z * (KTan.t2 + w * (KTan.t4 + w * (KTan.t6 + w * (KTan.t8 + w * (KTan.t10 + w * KTan.t12)))))
  let s := z * x
  y + z * (s * (r + v) + y) + s * KTan.t0

/-- the polynomial of `k_tan` -/
def KTanD.poly : List ℚ := [1, 6004799503160675 / 2 ^ 54, 2401919801261885 / 2 ^ 54, 3888822535954687 / 2 ^ 56, 6303450837472823 / 2 ^ 58, 5109309896557715 / 2 ^ 59, 1035346312347749 / 2 ^ 58, 6715580780413717 / 2 ^ 62, 5423723137099009 / 2 ^ 63, 568305296450061 / 2 ^ 61, 2884312401430867 / 2 ^ 65, 5268924999444457 / 2 ^ 66, -5477542976836467 / 2 ^ 68, 1911621713649333 / 2 ^ 66]


set_option maxHeartbeats 1000000 in
theorem KTanD.chain1 {x y : Flt f64} (hf : x.isFinite) (hxx : |x.val| ≤ (475 / 2 ^ 10)) (hlo : 2 ^ (-900 : ℤ) ≤ |x.val|) (yf : y.isFinite) (tail : |y.val| ≤ 13 / 2 ^ 56 * |x.val|) :
    (KTanD.rr x y).isFinite ∧ |(KTanD.rr x y).val - (x.val * Poly.ev KTanD.poly (x.val ^ 2) - x.val + y.val * (1 + x.val ^ 2))| ≤ (2917 / 2 ^ 66) * |x.val| ∧
      |(KTanD.rr x y).val| ≤ (2573 / 2 ^ 15) * |x.val| := by
  have hnn : (0 : ℝ) ≤ |x.val| := abs_nonneg _
  have hle : |x.val| ≤ 1 := hxx.trans (by norm_num)
  have hx : As |x.val| x x.val 0 1 := .exact hf rfl (by rw [one_mul])
  have hxo : As 1 x x.val 0 (475 / 2 ^ 10) := .exact hf rfl (by rw [mul_one]; exact hxx)
  have hy : As |x.val| y y.val 0 (13 / 2 ^ 56) := .exact yf rfl tail
  have ht0 : As 1 KTan.t0 KTan.t0.val 0 (2731 / 2 ^ 13) := .exact (by decide +kernel) rfl (by rw [KTan.t0_val, abs_le]; constructor <;> norm_num)
  have ht1 : As 1 KTan.t1 KTan.t1.val 0 (2185 / 2 ^ 14) := .exact (by decide +kernel) rfl (by rw [KTan.t1_val, abs_le]; constructor <;> norm_num)
  have ht2 : As 1 KTan.t2 KTan.t2.val 0 (3537 / 2 ^ 16) := .exact (by decide +kernel) rfl (by rw [KTan.t2_val, abs_le]; constructor <;> norm_num)
  have ht3 : As 1 KTan.t3 KTan.t3.val 0 (5733 / 2 ^ 18) := .exact (by decide +kernel) rfl (by rw [KTan.t3_val, abs_le]; constructor <;> norm_num)
  have ht4 : As 1 KTan.t4 KTan.t4.val 0 (4647 / 2 ^ 19) := .exact (by decide +kernel) rfl (by rw [KTan.t4_val, abs_le]; constructor <;> norm_num)
  have ht5 : As 1 KTan.t5 KTan.t5.val 0 (3767 / 2 ^ 20) := .exact (by decide +kernel) rfl (by rw [KTan.t5_val, abs_le]; constructor <;> norm_num)
  have ht6 : As 1 KTan.t6 KTan.t6.val 0 (1527 / 2 ^ 20) := .exact (by decide +kernel) rfl (by rw [KTan.t6_val, abs_le]; constructor <;> norm_num)
  have ht7 : As 1 KTan.t7 KTan.t7.val 0 (4933 / 2 ^ 23) := .exact (by decide +kernel) rfl (by rw [KTan.t7_val, abs_le]; constructor <;> norm_num)
  have ht8 : As 1 KTan.t8 KTan.t8.val 0 (4135 / 2 ^ 24) := .exact (by decide +kernel) rfl (by rw [KTan.t8_val, abs_le]; constructor <;> norm_num)
  have ht9 : As 1 KTan.t9 KTan.t9.val 0 (5247 / 2 ^ 26) := .exact (by decide +kernel) rfl (by rw [KTan.t9_val, abs_le]; constructor <;> norm_num)
  have ht10 : As 1 KTan.t10 KTan.t10.val 0 (4793 / 2 ^ 26) := .exact (by decide +kernel) rfl (by rw [KTan.t10_val, abs_le]; constructor <;> norm_num)
  have ht11 : As 1 KTan.t11 KTan.t11.val 0 (2491 / 2 ^ 27) := .exact (by decide +kernel) rfl (by rw [KTan.t11_val, abs_le]; constructor <;> norm_num)
  have ht12 : As 1 KTan.t12 KTan.t12.val 0 (6955 / 2 ^ 28) := .exact (by decide +kernel) rfl (by rw [KTan.t12_val, abs_le]; constructor <;> norm_num)
  have hz := As64.mul one_lo le_rfl hxo hxo (by norm_num) (by norm_num) (by norm_num) (by norm_num) (g := (7051 / 2 ^ 68)) (D := (7051 / 2 ^ 15)) (by norm_num) (by norm_num)
  have hw := As64.mul one_lo le_rfl hz hz (by norm_num) (by norm_num) (by norm_num) (by norm_num) (g := (569 / 2 ^ 65)) (D := (6069 / 2 ^ 17)) (by norm_num) (by norm_num)
  have hrm9 := As64.mul one_lo le_rfl hw ht11 (by norm_num) (by norm_num) (by norm_num) (by norm_num) (g := (7383 / 2 ^ 84)) (D := (3691 / 2 ^ 32)) (by norm_num) (by norm_num)
  have hra9 := As64.add zero_le_one le_rfl ht9 hrm9 (by norm_num) (by norm_num) (g := (173 / 2 ^ 74)) (D := (5305 / 2 ^ 26)) (by norm_num) (by norm_num)
  have hrm7 := As64.mul one_lo le_rfl hw hra9 (by norm_num) (by norm_num) (by norm_num) (by norm_num) (g := (1239 / 2 ^ 79)) (D := (7861 / 2 ^ 31)) (by norm_num) (by norm_num)
  have hra7 := As64.add zero_le_one le_rfl ht7 hrm7 (by norm_num) (by norm_num) (g := (5119 / 2 ^ 76)) (D := (1241 / 2 ^ 21)) (by norm_num) (by norm_num)
  have hrm5 := As64.mul one_lo le_rfl hw hra7 (by norm_num) (by norm_num) (by norm_num) (by norm_num) (g := (2313 / 2 ^ 77)) (D := (1839 / 2 ^ 26)) (by norm_num) (by norm_num)
  have hra5 := As64.add zero_le_one le_rfl ht5 hrm5 (by norm_num) (by norm_num) (g := (7881 / 2 ^ 74)) (D := (949 / 2 ^ 18)) (by norm_num) (by norm_num)
  have hrm3 := As64.mul one_lo le_rfl hw hra5 (by norm_num) (by norm_num) (by norm_num) (by norm_num) (g := (7085 / 2 ^ 76)) (D := (5625 / 2 ^ 25)) (by norm_num) (by norm_num)
  have hra3 := As64.add zero_le_one le_rfl ht3 hrm3 (by norm_num) (by norm_num) (g := (5999 / 2 ^ 71)) (D := (5777 / 2 ^ 18)) (by norm_num) (by norm_num)
  have hrm1 := As64.mul one_lo le_rfl hw hra3 (by norm_num) (by norm_num) (by norm_num) (by norm_num) (g := (337 / 2 ^ 69)) (D := (535 / 2 ^ 19)) (by norm_num) (by norm_num)
  have hra1 := As64.add zero_le_one le_rfl ht1 hrm1 (by norm_num) (by norm_num) (g := (1143 / 2 ^ 66)) (D := (1101 / 2 ^ 13)) (by norm_num) (by norm_num)
  have hvm10 := As64.mul one_lo le_rfl hw ht12 (by norm_num) (by norm_num) (by norm_num) (by norm_num) (g := (5153 / 2 ^ 83)) (D := (5153 / 2 ^ 32)) (by norm_num) (by norm_num)
  have hva10 := As64.add zero_le_one le_rfl ht10 hvm10 (by norm_num) (by norm_num) (g := (1299 / 2 ^ 77)) (D := (2437 / 2 ^ 25)) (by norm_num) (by norm_num)
  have hvm8 := As64.mul one_lo le_rfl hw hva10 (by norm_num) (by norm_num) (by norm_num) (by norm_num) (g := (2287 / 2 ^ 80)) (D := (3611 / 2 ^ 30)) (by norm_num) (by norm_num)
  have hva8 := As64.add zero_le_one le_rfl ht8 hvm8 (by norm_num) (by norm_num) (g := (2239 / 2 ^ 76)) (D := (131 / 2 ^ 19)) (by norm_num) (by norm_num)
  have hvm6 := As64.mul one_lo le_rfl hw hva8 (by norm_num) (by norm_num) (by norm_num) (by norm_num) (g := (7871 / 2 ^ 80)) (D := (1553 / 2 ^ 27)) (by norm_num) (by norm_num)
  have hva6 := As64.add zero_le_one le_rfl ht6 hvm6 (by norm_num) (by norm_num) (g := (6403 / 2 ^ 75)) (D := (6157 / 2 ^ 22)) (by norm_num) (by norm_num)
  have hvm4 := As64.mul one_lo le_rfl hw hva6 (by norm_num) (by norm_num) (by norm_num) (by norm_num) (g := (1437 / 2 ^ 75)) (D := (2281 / 2 ^ 25)) (by norm_num) (by norm_num)
  have hva4 := As64.add zero_le_one le_rfl ht4 hvm4 (by norm_num) (by norm_num) (g := (4863 / 2 ^ 72)) (D := (4683 / 2 ^ 19)) (by norm_num) (by norm_num)
  have hvm2 := As64.mul one_lo le_rfl hw hva4 (by norm_num) (by norm_num) (by norm_num) (by norm_num) (g := (4371 / 2 ^ 74)) (D := (6939 / 2 ^ 24)) (by norm_num) (by norm_num)
  have hva2 := As64.add zero_le_one le_rfl ht2 hvm2 (by norm_num) (by norm_num) (g := (3701 / 2 ^ 69)) (D := (7129 / 2 ^ 17)) (by norm_num) (by norm_num)
  have hv := As64.mul one_lo le_rfl hz hva2 (by norm_num) (by norm_num) (by norm_num) (by norm_num) (g := (4661 / 2 ^ 70)) (D := (6137 / 2 ^ 19)) (by norm_num) (by norm_num)
  have hs := As64.mulr hlo hle hz hx (by norm_num) (by norm_num) (by norm_num) (by norm_num) (g := (1763 / 2 ^ 65)) (D := (1763 / 2 ^ 13)) (by norm_num) (by norm_num)
  have hrv := As64.add zero_le_one le_rfl hra1 hv (by norm_num) (by norm_num) (g := (5263 / 2 ^ 67)) (D := (1197 / 2 ^ 13)) (by norm_num) (by norm_num)
  have hsrv := As64.mul hlo hle hs hrv (by norm_num) (by norm_num) (by norm_num) (by norm_num) (g := (5357 / 2 ^ 68)) (D := (2061 / 2 ^ 16)) (by norm_num) (by norm_num)
  have hsrvy := As64.add hnn hle hsrv hy (by norm_num) (by norm_num) (g := (1597 / 2 ^ 66)) (D := (4123 / 2 ^ 17)) (by norm_num) (by norm_num)
  have hzs := As64.mulr hlo hle hz hsrvy (by norm_num) (by norm_num) (by norm_num) (by norm_num) (g := (7273 / 2 ^ 70)) (D := (3549 / 2 ^ 19)) (by norm_num) (by norm_num)
  have hyzs := As64.add hnn hle hy hzs (by norm_num) (by norm_num) (g := (8161 / 2 ^ 70)) (D := (7099 / 2 ^ 20)) (by norm_num) (by norm_num)
  have hst := As64.mul hlo hle hs ht0 (by norm_num) (by norm_num) (by norm_num) (by norm_num) (g := (7053 / 2 ^ 68)) (D := (2351 / 2 ^ 15)) (by norm_num) (by norm_num)
  have hR := As64.add hnn hle hyzs hst (by norm_num) (by norm_num) (g := (2917 / 2 ^ 66)) (D := (2573 / 2 ^ 15)) (by norm_num) (by norm_num)
  refine ⟨hR.fin, ?_, hR.bd⟩
  refine (congrArg (fun v => |(KTanD.rr x y).val - v|) ?_).trans_le hR.err
  simp only [KTanD.poly, Poly.ev, KTan.t0_val, KTan.t1_val, KTan.t2_val, KTan.t3_val, KTan.t4_val, KTan.t5_val, KTan.t6_val, KTan.t7_val, KTan.t8_val, KTan.t9_val, KTan.t10_val, KTan.t11_val, KTan.t12_val]
  push_cast
  norm_num
  ring

set_option maxHeartbeats 1000000 in
theorem KTanD.chain2 {x y : Flt f64} (hf : x.isFinite) (hxx : |x.val| ≤ (307 / 2 ^ 9)) (hlo : 2 ^ (-900 : ℤ) ≤ |x.val|) (yf : y.isFinite) (tail : |y.val| ≤ 13 / 2 ^ 56 * |x.val|) :
    (KTanD.rr x y).isFinite ∧ |(KTanD.rr x y).val - (x.val * Poly.ev KTanD.poly (x.val ^ 2) - x.val + y.val * (1 + x.val ^ 2))| ≤ (5643 / 2 ^ 66) * |x.val| ∧
      |(KTanD.rr x y).val| ≤ (4591 / 2 ^ 15) * |x.val| := by
  have hnn : (0 : ℝ) ≤ |x.val| := abs_nonneg _
  have hle : |x.val| ≤ 1 := hxx.trans (by norm_num)
  have hx : As |x.val| x x.val 0 1 := .exact hf rfl (by rw [one_mul])
  have hxo : As 1 x x.val 0 (307 / 2 ^ 9) := .exact hf rfl (by rw [mul_one]; exact hxx)
  have hy : As |x.val| y y.val 0 (13 / 2 ^ 56) := .exact yf rfl tail
  have ht0 : As 1 KTan.t0 KTan.t0.val 0 (2731 / 2 ^ 13) := .exact (by decide +kernel) rfl (by rw [KTan.t0_val, abs_le]; constructor <;> norm_num)
  have ht1 : As 1 KTan.t1 KTan.t1.val 0 (2185 / 2 ^ 14) := .exact (by decide +kernel) rfl (by rw [KTan.t1_val, abs_le]; constructor <;> norm_num)
  have ht2 : As 1 KTan.t2 KTan.t2.val 0 (3537 / 2 ^ 16) := .exact (by decide +kernel) rfl (by rw [KTan.t2_val, abs_le]; constructor <;> norm_num)
  have ht3 : As 1 KTan.t3 KTan.t3.val 0 (5733 / 2 ^ 18) := .exact (by decide +kernel) rfl (by rw [KTan.t3_val, abs_le]; constructor <;> norm_num)
  have ht4 : As 1 KTan.t4 KTan.t4.val 0 (4647 / 2 ^ 19) := .exact (by decide +kernel) rfl (by rw [KTan.t4_val, abs_le]; constructor <;> norm_num)
  have ht5 : As 1 KTan.t5 KTan.t5.val 0 (3767 / 2 ^ 20) := .exact (by decide +kernel) rfl (by rw [KTan.t5_val, abs_le]; constructor <;> norm_num)
  have ht6 : As 1 KTan.t6 KTan.t6.val 0 (1527 / 2 ^ 20) := .exact (by decide +kernel) rfl (by rw [KTan.t6_val, abs_le]; constructor <;> norm_num)
  have ht7 : As 1 KTan.t7 KTan.t7.val 0 (4933 / 2 ^ 23) := .exact (by decide +kernel) rfl (by rw [KTan.t7_val, abs_le]; constructor <;> norm_num)
  have ht8 : As 1 KTan.t8 KTan.t8.val 0 (4135 / 2 ^ 24) := .exact (by decide +kernel) rfl (by rw [KTan.t8_val, abs_le]; constructor <;> norm_num)
  have ht9 : As 1 KTan.t9 KTan.t9.val 0 (5247 / 2 ^ 26) := .exact (by decide +kernel) rfl (by rw [KTan.t9_val, abs_le]; constructor <;> norm_num)
  have ht10 : As 1 KTan.t10 KTan.t10.val 0 (4793 / 2 ^ 26) := .exact (by decide +kernel) rfl (by rw [KTan.t10_val, abs_le]; constructor <;> norm_num)
  have ht11 : As 1 KTan.t11 KTan.t11.val 0 (2491 / 2 ^ 27) := .exact (by decide +kernel) rfl (by rw [KTan.t11_val, abs_le]; constructor <;> norm_num)
  have ht12 : As 1 KTan.t12 KTan.t12.val 0 (6955 / 2 ^ 28) := .exact (by decide +kernel) rfl (by rw [KTan.t12_val, abs_le]; constructor <;> norm_num)
  have hz := As64.mul one_lo le_rfl hxo hxo (by norm_num) (by norm_num) (by norm_num) (by norm_num) (g := (5891 / 2 ^ 67)) (D := (5891 / 2 ^ 14)) (by norm_num) (by norm_num)
  have hw := As64.mul one_lo le_rfl hz hz (by norm_num) (by norm_num) (by norm_num) (by norm_num) (g := (6355 / 2 ^ 67)) (D := (4237 / 2 ^ 15)) (by norm_num) (by norm_num)
  have hrm9 := As64.mul one_lo le_rfl hw ht11 (by norm_num) (by norm_num) (by norm_num) (by norm_num) (g := (2577 / 2 ^ 81)) (D := (2577 / 2 ^ 30)) (by norm_num) (by norm_num)
  have hra9 := As64.add zero_le_one le_rfl ht9 hrm9 (by norm_num) (by norm_num) (g := (6053 / 2 ^ 79)) (D := (5409 / 2 ^ 26)) (by norm_num) (by norm_num)
  have hrm7 := As64.mul one_lo le_rfl hw hra9 (by norm_num) (by norm_num) (by norm_num) (by norm_num) (g := (7161 / 2 ^ 80)) (D := (1399 / 2 ^ 27)) (by norm_num) (by norm_num)
  have hra7 := As64.add zero_le_one le_rfl ht7 hrm7 (by norm_num) (by norm_num) (g := (1367 / 2 ^ 74)) (D := (5021 / 2 ^ 23)) (by norm_num) (by norm_num)
  have hrm5 := As64.mul one_lo le_rfl hw hra7 (by norm_num) (by norm_num) (by norm_num) (by norm_num) (g := (413 / 2 ^ 73)) (D := (2597 / 2 ^ 25)) (by norm_num) (by norm_num)
  have hra5 := As64.add zero_le_one le_rfl ht5 hrm5 (by norm_num) (by norm_num) (g := (2131 / 2 ^ 72)) (D := (7697 / 2 ^ 21)) (by norm_num) (by norm_num)
  have hrm3 := As64.mul one_lo le_rfl hw hra5 (by norm_num) (by norm_num) (by norm_num) (by norm_num) (g := (5083 / 2 ^ 74)) (D := (3981 / 2 ^ 23)) (by norm_num) (by norm_num)
  have hra3 := As64.add zero_le_one le_rfl ht3 hrm3 (by norm_num) (by norm_num) (g := (6493 / 2 ^ 71)) (D := (2929 / 2 ^ 17)) (by norm_num) (by norm_num)
  have hrm1 := As64.mul one_lo le_rfl hw hra3 (by norm_num) (by norm_num) (by norm_num) (by norm_num) (g := (7739 / 2 ^ 72)) (D := (1515 / 2 ^ 19)) (by norm_num) (by norm_num)
  have hra1 := As64.add zero_le_one le_rfl ht1 hrm1 (by norm_num) (by norm_num) (g := (4949 / 2 ^ 68)) (D := (4465 / 2 ^ 15)) (by norm_num) (by norm_num)
  have hvm10 := As64.mul one_lo le_rfl hw ht12 (by norm_num) (by norm_num) (by norm_num) (by norm_num) (g := (3597 / 2 ^ 81)) (D := (7195 / 2 ^ 31)) (by norm_num) (by norm_num)
  have hva10 := As64.add zero_le_one le_rfl ht10 hvm10 (by norm_num) (by norm_num) (g := (2959 / 2 ^ 78)) (D := (2509 / 2 ^ 25)) (by norm_num) (by norm_num)
  have hvm8 := As64.mul one_lo le_rfl hw hva10 (by norm_num) (by norm_num) (by norm_num) (by norm_num) (g := (6721 / 2 ^ 80)) (D := (5191 / 2 ^ 29)) (by norm_num) (by norm_num)
  have hva8 := As64.add zero_le_one le_rfl ht8 hvm8 (by norm_num) (by norm_num) (g := (2569 / 2 ^ 76)) (D := (2149 / 2 ^ 23)) (by norm_num) (by norm_num)
  have hvm6 := As64.mul one_lo le_rfl hw hva8 (by norm_num) (by norm_num) (by norm_num) (by norm_num) (g := (5775 / 2 ^ 78)) (D := (2223 / 2 ^ 26)) (by norm_num) (by norm_num)
  have hva6 := As64.add zero_le_one le_rfl ht6 hvm6 (by norm_num) (by norm_num) (g := (6969 / 2 ^ 75)) (D := (6247 / 2 ^ 22)) (by norm_num) (by norm_num)
  have hvm4 := As64.mul one_lo le_rfl hw hva6 (by norm_num) (by norm_num) (by norm_num) (by norm_num) (g := (1033 / 2 ^ 73)) (D := (6463 / 2 ^ 25)) (by norm_num) (by norm_num)
  have hva4 := As64.add zero_le_one le_rfl ht4 hvm4 (by norm_num) (by norm_num) (g := (5265 / 2 ^ 72)) (D := (1187 / 2 ^ 17)) (by norm_num) (by norm_num)
  have hvm2 := As64.mul one_lo le_rfl hw hva4 (by norm_num) (by norm_num) (by norm_num) (by norm_num) (g := (6273 / 2 ^ 73)) (D := (307 / 2 ^ 18)) (by norm_num) (by norm_num)
  have hva2 := As64.add zero_le_one le_rfl ht2 hvm2 (by norm_num) (by norm_num) (g := (2003 / 2 ^ 68)) (D := (1807 / 2 ^ 15)) (by norm_num) (by norm_num)
  have hv := As64.mul one_lo le_rfl hz hva2 (by norm_num) (by norm_num) (by norm_num) (by norm_num) (g := (8079 / 2 ^ 70)) (D := (2599 / 2 ^ 17)) (by norm_num) (by norm_num)
  have hs := As64.mulr hlo hle hz hx (by norm_num) (by norm_num) (by norm_num) (by norm_num) (g := (1473 / 2 ^ 64)) (D := (1473 / 2 ^ 12)) (by norm_num) (by norm_num)
  have hrv := As64.add zero_le_one le_rfl hra1 hv (by norm_num) (by norm_num) (g := (3021 / 2 ^ 66)) (D := (5115 / 2 ^ 15)) (by norm_num) (by norm_num)
  have hsrv := As64.mul hlo hle hs hrv (by norm_num) (by norm_num) (by norm_num) (by norm_num) (g := (1233 / 2 ^ 65)) (D := (3679 / 2 ^ 16)) (by norm_num) (by norm_num)
  have hsrvy := As64.add hnn hle hsrv hy (by norm_num) (by norm_num) (g := (1463 / 2 ^ 65)) (D := (7359 / 2 ^ 17)) (by norm_num) (by norm_num)
  have hzs := As64.mulr hlo hle hz hsrvy (by norm_num) (by norm_num) (by norm_num) (by norm_num) (g := (1383 / 2 ^ 66)) (D := (1323 / 2 ^ 16)) (by norm_num) (by norm_num)
  have hyzs := As64.add hnn hle hy hzs (by norm_num) (by norm_num) (g := (3097 / 2 ^ 67)) (D := (5293 / 2 ^ 18)) (by norm_num) (by norm_num)
  have hst := As64.mul hlo hle hs ht0 (by norm_num) (by norm_num) (by norm_num) (by norm_num) (g := (5893 / 2 ^ 67)) (D := (7857 / 2 ^ 16)) (by norm_num) (by norm_num)
  have hR := As64.add hnn hle hyzs hst (by norm_num) (by norm_num) (g := (5643 / 2 ^ 66)) (D := (4591 / 2 ^ 15)) (by norm_num) (by norm_num)
  refine ⟨hR.fin, ?_, hR.bd⟩
  refine (congrArg (fun v => |(KTanD.rr x y).val - v|) ?_).trans_le hR.err
  simp only [KTanD.poly, Poly.ev, KTan.t0_val, KTan.t1_val, KTan.t2_val, KTan.t3_val, KTan.t4_val, KTan.t5_val, KTan.t6_val, KTan.t7_val, KTan.t8_val, KTan.t9_val, KTan.t10_val, KTan.t11_val, KTan.t12_val]
  push_cast
  norm_num
  ring

set_option maxHeartbeats 1000000 in
theorem KTanD.chain3 {x y : Flt f64} (hf : x.isFinite) (hxx : |x.val| ≤ (691 / 2 ^ 10)) (hlo : 2 ^ (-900 : ℤ) ≤ |x.val|) (yf : y.isFinite) (tail : |y.val| ≤ 13 / 2 ^ 56 * |x.val|) :
    (KTanD.rr x y).isFinite ∧ |(KTanD.rr x y).val - (x.val * Poly.ev KTanD.poly (x.val ^ 2) - x.val + y.val * (1 + x.val ^ 2))| ≤ (3945 / 2 ^ 65) * |x.val| ∧
      |(KTanD.rr x y).val| ≤ (6089 / 2 ^ 15) * |x.val| := by
  have hnn : (0 : ℝ) ≤ |x.val| := abs_nonneg _
  have hle : |x.val| ≤ 1 := hxx.trans (by norm_num)
  have hx : As |x.val| x x.val 0 1 := .exact hf rfl (by rw [one_mul])
  have hxo : As 1 x x.val 0 (691 / 2 ^ 10) := .exact hf rfl (by rw [mul_one]; exact hxx)
  have hy : As |x.val| y y.val 0 (13 / 2 ^ 56) := .exact yf rfl tail
  have ht0 : As 1 KTan.t0 KTan.t0.val 0 (2731 / 2 ^ 13) := .exact (by decide +kernel) rfl (by rw [KTan.t0_val, abs_le]; constructor <;> norm_num)
  have ht1 : As 1 KTan.t1 KTan.t1.val 0 (2185 / 2 ^ 14) := .exact (by decide +kernel) rfl (by rw [KTan.t1_val, abs_le]; constructor <;> norm_num)
  have ht2 : As 1 KTan.t2 KTan.t2.val 0 (3537 / 2 ^ 16) := .exact (by decide +kernel) rfl (by rw [KTan.t2_val, abs_le]; constructor <;> norm_num)
  have ht3 : As 1 KTan.t3 KTan.t3.val 0 (5733 / 2 ^ 18) := .exact (by decide +kernel) rfl (by rw [KTan.t3_val, abs_le]; constructor <;> norm_num)
  have ht4 : As 1 KTan.t4 KTan.t4.val 0 (4647 / 2 ^ 19) := .exact (by decide +kernel) rfl (by rw [KTan.t4_val, abs_le]; constructor <;> norm_num)
  have ht5 : As 1 KTan.t5 KTan.t5.val 0 (3767 / 2 ^ 20) := .exact (by decide +kernel) rfl (by rw [KTan.t5_val, abs_le]; constructor <;> norm_num)
  have ht6 : As 1 KTan.t6 KTan.t6.val 0 (1527 / 2 ^ 20) := .exact (by decide +kernel) rfl (by rw [KTan.t6_val, abs_le]; constructor <;> norm_num)
  have ht7 : As 1 KTan.t7 KTan.t7.val 0 (4933 / 2 ^ 23) := .exact (by decide +kernel) rfl (by rw [KTan.t7_val, abs_le]; constructor <;> norm_num)
  have ht8 : As 1 KTan.t8 KTan.t8.val 0 (4135 / 2 ^ 24) := .exact (by decide +kernel) rfl (by rw [KTan.t8_val, abs_le]; constructor <;> norm_num)
  have ht9 : As 1 KTan.t9 KTan.t9.val 0 (5247 / 2 ^ 26) := .exact (by decide +kernel) rfl (by rw [KTan.t9_val, abs_le]; constructor <;> norm_num)
  have ht10 : As 1 KTan.t10 KTan.t10.val 0 (4793 / 2 ^ 26) := .exact (by decide +kernel) rfl (by rw [KTan.t10_val, abs_le]; constructor <;> norm_num)
  have ht11 : As 1 KTan.t11 KTan.t11.val 0 (2491 / 2 ^ 27) := .exact (by decide +kernel) rfl (by rw [KTan.t11_val, abs_le]; constructor <;> norm_num)
  have ht12 : As 1 KTan.t12 KTan.t12.val 0 (6955 / 2 ^ 28) := .exact (by decide +kernel) rfl (by rw [KTan.t12_val, abs_le]; constructor <;> norm_num)
  have hz := As64.mul one_lo le_rfl hxo hxo (by norm_num) (by norm_num) (by norm_num) (by norm_num) (g := (7461 / 2 ^ 67)) (D := (7461 / 2 ^ 14)) (by norm_num) (by norm_num)
  have hw := As64.mul one_lo le_rfl hz hz (by norm_num) (by norm_num) (by norm_num) (by norm_num) (g := (5097 / 2 ^ 66)) (D := (1699 / 2 ^ 13)) (by norm_num) (by norm_num)
  have hrm9 := As64.mul one_lo le_rfl hw ht11 (by norm_num) (by norm_num) (by norm_num) (by norm_num) (g := (2067 / 2 ^ 80)) (D := (2067 / 2 ^ 29)) (by norm_num) (by norm_num)
  have hra9 := As64.add zero_le_one le_rfl ht9 hrm9 (by norm_num) (by norm_num) (g := (6539 / 2 ^ 79)) (D := (2753 / 2 ^ 25)) (by norm_num) (by norm_num)
  have hrm7 := As64.mul one_lo le_rfl hw hra9 (by norm_num) (by norm_num) (by norm_num) (by norm_num) (g := (1481 / 2 ^ 77)) (D := (571 / 2 ^ 25)) (by norm_num) (by norm_num)
  have hra7 := As64.add zero_le_one le_rfl ht7 hrm7 (by norm_num) (by norm_num) (g := (5817 / 2 ^ 76)) (D := (1269 / 2 ^ 21)) (by norm_num) (by norm_num)
  have hrm5 := As64.mul one_lo le_rfl hw hra7 (by norm_num) (by norm_num) (by norm_num) (by norm_num) (g := (2709 / 2 ^ 75)) (D := (4211 / 2 ^ 25)) (by norm_num) (by norm_num)
  have hra5 := As64.add zero_le_one le_rfl ht5 hrm5 (by norm_num) (by norm_num) (g := (143 / 2 ^ 68)) (D := (3899 / 2 ^ 20)) (by norm_num) (by norm_num)
  have hrm3 := As64.mul one_lo le_rfl hw hra5 (by norm_num) (by norm_num) (by norm_num) (by norm_num) (g := (523 / 2 ^ 70)) (D := (3235 / 2 ^ 22)) (by norm_num) (by norm_num)
  have hra3 := As64.add zero_le_one le_rfl ht3 hrm3 (by norm_num) (by norm_num) (g := (3491 / 2 ^ 70)) (D := (371 / 2 ^ 14)) (by norm_num) (by norm_num)
  have hrm1 := As64.mul one_lo le_rfl hw hra3 (by norm_num) (by norm_num) (by norm_num) (by norm_num) (g := (6373 / 2 ^ 71)) (D := (4925 / 2 ^ 20)) (by norm_num) (by norm_num)
  have hra1 := As64.add zero_le_one le_rfl ht1 hrm1 (by norm_num) (by norm_num) (g := (5321 / 2 ^ 68)) (D := (1131 / 2 ^ 13)) (by norm_num) (by norm_num)
  have hvm10 := As64.mul one_lo le_rfl hw ht12 (by norm_num) (by norm_num) (by norm_num) (by norm_num) (g := (2885 / 2 ^ 80)) (D := (2885 / 2 ^ 29)) (by norm_num) (by norm_num)
  have hva10 := As64.add zero_le_one le_rfl ht10 hvm10 (by norm_num) (by norm_num) (g := (6597 / 2 ^ 79)) (D := (2577 / 2 ^ 25)) (by norm_num) (by norm_num)
  have hvm8 := As64.mul one_lo le_rfl hw hva10 (by norm_num) (by norm_num) (by norm_num) (by norm_num) (g := (1411 / 2 ^ 77)) (D := (1069 / 2 ^ 26)) (by norm_num) (by norm_num)
  have hva8 := As64.add zero_le_one le_rfl ht8 hvm8 (by norm_num) (by norm_num) (g := (2907 / 2 ^ 76)) (D := (4403 / 2 ^ 24)) (by norm_num) (by norm_num)
  have hvm6 := As64.mul one_lo le_rfl hw hva8 (by norm_num) (by norm_num) (by norm_num) (by norm_num) (g := (4859 / 2 ^ 77)) (D := (3653 / 2 ^ 26)) (by norm_num) (by norm_num)
  have hva6 := As64.add zero_le_one le_rfl ht6 hvm6 (by norm_num) (by norm_num) (g := (59 / 2 ^ 68)) (D := (6337 / 2 ^ 22)) (by norm_num) (by norm_num)
  have hvm4 := As64.mul one_lo le_rfl hw hva6 (by norm_num) (by norm_num) (by norm_num) (by norm_num) (g := (853 / 2 ^ 72)) (D := (2629 / 2 ^ 23)) (by norm_num) (by norm_num)
  have hva4 := As64.add zero_le_one le_rfl ht4 hvm4 (by norm_num) (by norm_num) (g := (5665 / 2 ^ 72)) (D := (1203 / 2 ^ 17)) (by norm_num) (by norm_num)
  have hvm2 := As64.mul one_lo le_rfl hw hva4 (by norm_num) (by norm_num) (by norm_num) (by norm_num) (g := (5167 / 2 ^ 72)) (D := (499 / 2 ^ 18)) (by norm_num) (by norm_num)
  have hva2 := As64.add zero_le_one le_rfl ht2 hvm2 (by norm_num) (by norm_num) (g := (1077 / 2 ^ 67)) (D := (1831 / 2 ^ 15)) (by norm_num) (by norm_num)
  have hv := As64.mul one_lo le_rfl hz hva2 (by norm_num) (by norm_num) (by norm_num) (by norm_num) (g := (2649 / 2 ^ 68)) (D := (6671 / 2 ^ 18)) (by norm_num) (by norm_num)
  have hs := As64.mulr hlo hle hz hx (by norm_num) (by norm_num) (by norm_num) (by norm_num) (g := (3731 / 2 ^ 65)) (D := (3731 / 2 ^ 13)) (by norm_num) (by norm_num)
  have hrv := As64.add zero_le_one le_rfl hra1 hv (by norm_num) (by norm_num) (g := (833 / 2 ^ 64)) (D := (2679 / 2 ^ 14)) (by norm_num) (by norm_num)
  have hsrv := As64.mul hlo hle hs hrv (by norm_num) (by norm_num) (by norm_num) (by norm_num) (g := (837 / 2 ^ 64)) (D := (4881 / 2 ^ 16)) (by norm_num) (by norm_num)
  have hsrvy := As64.add hnn hle hsrv hy (by norm_num) (by norm_num) (g := (7917 / 2 ^ 67)) (D := (2441 / 2 ^ 15)) (by norm_num) (by norm_num)
  have hzs := As64.mulr hlo hle hz hsrvy (by norm_num) (by norm_num) (by norm_num) (by norm_num) (g := (4717 / 2 ^ 67)) (D := (4447 / 2 ^ 17)) (by norm_num) (by norm_num)
  have hyzs := As64.add hnn hle hy hzs (by norm_num) (by norm_num) (g := (5273 / 2 ^ 67)) (D := (139 / 2 ^ 12)) (by norm_num) (by norm_num)
  have hst := As64.mul hlo hle hs ht0 (by norm_num) (by norm_num) (by norm_num) (by norm_num) (g := (7463 / 2 ^ 67)) (D := (311 / 2 ^ 11)) (by norm_num) (by norm_num)
  have hR := As64.add hnn hle hyzs hst (by norm_num) (by norm_num) (g := (3945 / 2 ^ 65)) (D := (6089 / 2 ^ 15)) (by norm_num) (by norm_num)
  refine ⟨hR.fin, ?_, hR.bd⟩
  refine (congrArg (fun v => |(KTanD.rr x y).val - v|) ?_).trans_le hR.err
  simp only [KTanD.poly, Poly.ev, KTan.t0_val, KTan.t1_val, KTan.t2_val, KTan.t3_val, KTan.t4_val, KTan.t5_val, KTan.t6_val, KTan.t7_val, KTan.t8_val, KTan.t9_val, KTan.t10_val, KTan.t11_val, KTan.t12_val]
  push_cast
  norm_num
  ring

set_option maxHeartbeats 1000000 in
theorem KTanD.chain0 {x y : Flt f64} (hf : x.isFinite) (hxx : |x.val| ≤ (57 / 2 ^ 9)) (yf : y.isFinite) (y0 : y.val = 0) :
    (KTanD.rr x y).isFinite ∧ |(KTanD.rr x y).val - (x.val * Poly.ev KTanD.poly (x.val ^ 2) - x.val + y.val * (1 + x.val ^ 2))| ≤ (7817 / 2 ^ 75) * 1 ∧
      |(KTanD.rr x y).val| ≤ (7759 / 2 ^ 24) * 1 := by
  have hxo : As 1 x x.val 0 (57 / 2 ^ 9) := .exact hf rfl (by rw [mul_one]; exact hxx)
  have hy : As 1 y y.val 0 (1 / 2 ^ 100) := .exact yf rfl (by rw [y0, abs_zero]; norm_num)
  have ht0 : As 1 KTan.t0 KTan.t0.val 0 (2731 / 2 ^ 13) := .exact (by decide +kernel) rfl (by rw [KTan.t0_val, abs_le]; constructor <;> norm_num)
  have ht1 : As 1 KTan.t1 KTan.t1.val 0 (2185 / 2 ^ 14) := .exact (by decide +kernel) rfl (by rw [KTan.t1_val, abs_le]; constructor <;> norm_num)
  have ht2 : As 1 KTan.t2 KTan.t2.val 0 (3537 / 2 ^ 16) := .exact (by decide +kernel) rfl (by rw [KTan.t2_val, abs_le]; constructor <;> norm_num)
  have ht3 : As 1 KTan.t3 KTan.t3.val 0 (5733 / 2 ^ 18) := .exact (by decide +kernel) rfl (by rw [KTan.t3_val, abs_le]; constructor <;> norm_num)
  have ht4 : As 1 KTan.t4 KTan.t4.val 0 (4647 / 2 ^ 19) := .exact (by decide +kernel) rfl (by rw [KTan.t4_val, abs_le]; constructor <;> norm_num)
  have ht5 : As 1 KTan.t5 KTan.t5.val 0 (3767 / 2 ^ 20) := .exact (by decide +kernel) rfl (by rw [KTan.t5_val, abs_le]; constructor <;> norm_num)
  have ht6 : As 1 KTan.t6 KTan.t6.val 0 (1527 / 2 ^ 20) := .exact (by decide +kernel) rfl (by rw [KTan.t6_val, abs_le]; constructor <;> norm_num)
  have ht7 : As 1 KTan.t7 KTan.t7.val 0 (4933 / 2 ^ 23) := .exact (by decide +kernel) rfl (by rw [KTan.t7_val, abs_le]; constructor <;> norm_num)
  have ht8 : As 1 KTan.t8 KTan.t8.val 0 (4135 / 2 ^ 24) := .exact (by decide +kernel) rfl (by rw [KTan.t8_val, abs_le]; constructor <;> norm_num)
  have ht9 : As 1 KTan.t9 KTan.t9.val 0 (5247 / 2 ^ 26) := .exact (by decide +kernel) rfl (by rw [KTan.t9_val, abs_le]; constructor <;> norm_num)
  have ht10 : As 1 KTan.t10 KTan.t10.val 0 (4793 / 2 ^ 26) := .exact (by decide +kernel) rfl (by rw [KTan.t10_val, abs_le]; constructor <;> norm_num)
  have ht11 : As 1 KTan.t11 KTan.t11.val 0 (2491 / 2 ^ 27) := .exact (by decide +kernel) rfl (by rw [KTan.t11_val, abs_le]; constructor <;> norm_num)
  have ht12 : As 1 KTan.t12 KTan.t12.val 0 (6955 / 2 ^ 28) := .exact (by decide +kernel) rfl (by rw [KTan.t12_val, abs_le]; constructor <;> norm_num)
  have hz := As64.mul one_lo le_rfl hxo hxo (by norm_num) (by norm_num) (by norm_num) (by norm_num) (g := (6499 / 2 ^ 72)) (D := (6499 / 2 ^ 19)) (by norm_num) (by norm_num)
  have hw := As64.mul one_lo le_rfl hz hz (by norm_num) (by norm_num) (by norm_num) (by norm_num) (g := (3867 / 2 ^ 76)) (D := (1289 / 2 ^ 23)) (by norm_num) (by norm_num)
  have hrm9 := As64.mul one_lo le_rfl hw ht11 (by norm_num) (by norm_num) (by norm_num) (by norm_num) (g := (49 / 2 ^ 85)) (D := (49 / 2 ^ 34)) (by norm_num) (by norm_num)
  have hra9 := As64.add zero_le_one le_rfl ht9 hrm9 (by norm_num) (by norm_num) (g := (41 / 2 ^ 72)) (D := (41 / 2 ^ 19)) (by norm_num) (by norm_num)
  have hrm7 := As64.mul one_lo le_rfl hw hra9 (by norm_num) (by norm_num) (by norm_num) (by norm_num) (g := (4129 / 2 ^ 89)) (D := (6607 / 2 ^ 39)) (by norm_num) (by norm_num)
  have hra7 := As64.add zero_le_one le_rfl ht7 hrm7 (by norm_num) (by norm_num) (g := (2467 / 2 ^ 75)) (D := (2467 / 2 ^ 22)) (by norm_num) (by norm_num)
  have hrm5 := As64.mul one_lo le_rfl hw hra7 (by norm_num) (by norm_num) (by norm_num) (by norm_num) (g := (1941 / 2 ^ 85)) (D := (6211 / 2 ^ 36)) (by norm_num) (by norm_num)
  have hra5 := As64.add zero_le_one le_rfl ht5 hrm5 (by norm_num) (by norm_num) (g := (471 / 2 ^ 70)) (D := (7535 / 2 ^ 21)) (by norm_num) (by norm_num)
  have hrm3 := As64.mul one_lo le_rfl hw hra5 (by norm_num) (by norm_num) (by norm_num) (by norm_num) (g := (5929 / 2 ^ 84)) (D := (4743 / 2 ^ 33)) (by norm_num) (by norm_num)
  have hra3 := As64.add zero_le_one le_rfl ht3 hrm3 (by norm_num) (by norm_num) (g := (2867 / 2 ^ 70)) (D := (2867 / 2 ^ 17)) (by norm_num) (by norm_num)
  have hrm1 := As64.mul one_lo le_rfl hw hra3 (by norm_num) (by norm_num) (by norm_num) (by norm_num) (g := (141 / 2 ^ 76)) (D := (3609 / 2 ^ 30)) (by norm_num) (by norm_num)
  have hra1 := As64.add zero_le_one le_rfl ht1 hrm1 (by norm_num) (by norm_num) (g := (4371 / 2 ^ 68)) (D := (4371 / 2 ^ 15)) (by norm_num) (by norm_num)
  have hvm10 := As64.mul one_lo le_rfl hw ht12 (by norm_num) (by norm_num) (by norm_num) (by norm_num) (g := (2189 / 2 ^ 90)) (D := (2189 / 2 ^ 39)) (by norm_num) (by norm_num)
  have hva10 := As64.add zero_le_one le_rfl ht10 hvm10 (by norm_num) (by norm_num) (g := (4795 / 2 ^ 79)) (D := (2397 / 2 ^ 25)) (by norm_num) (by norm_num)
  have hvm8 := As64.mul one_lo le_rfl hw hva10 (by norm_num) (by norm_num) (by norm_num) (by norm_num) (g := (943 / 2 ^ 87)) (D := (6035 / 2 ^ 39)) (by norm_num) (by norm_num)
  have hva8 := As64.add zero_le_one le_rfl ht8 hvm8 (by norm_num) (by norm_num) (g := (4137 / 2 ^ 77)) (D := (517 / 2 ^ 21)) (by norm_num) (by norm_num)
  have hvm6 := As64.mul one_lo le_rfl hw hva8 (by norm_num) (by norm_num) (by norm_num) (by norm_num) (g := (6509 / 2 ^ 88)) (D := (5207 / 2 ^ 37)) (by norm_num) (by norm_num)
  have hva6 := As64.add zero_le_one le_rfl ht6 hvm6 (by norm_num) (by norm_num) (g := (6109 / 2 ^ 75)) (D := (6109 / 2 ^ 22)) (by norm_num) (by norm_num)
  have hvm4 := As64.mul one_lo le_rfl hw hva6 (by norm_num) (by norm_num) (by norm_num) (by norm_num) (g := (4807 / 2 ^ 85)) (D := (3845 / 2 ^ 34)) (by norm_num) (by norm_num)
  have hva4 := As64.add zero_le_one le_rfl ht4 hvm4 (by norm_num) (by norm_num) (g := (581 / 2 ^ 69)) (D := (581 / 2 ^ 16)) (by norm_num) (by norm_num)
  have hvm2 := As64.mul one_lo le_rfl hw hva4 (by norm_num) (by norm_num) (by norm_num) (by norm_num) (g := (3657 / 2 ^ 82)) (D := (5851 / 2 ^ 32)) (by norm_num) (by norm_num)
  have hva2 := As64.add zero_le_one le_rfl ht2 hvm2 (by norm_num) (by norm_num) (g := (1769 / 2 ^ 68)) (D := (7075 / 2 ^ 17)) (by norm_num) (by norm_num)
  have hv := As64.mul one_lo le_rfl hz hva2 (by norm_num) (by norm_num) (by norm_num) (by norm_num) (g := (2105 / 2 ^ 73)) (D := (5613 / 2 ^ 23)) (by norm_num) (by norm_num)
  have hs := As64.mul one_lo le_rfl hz hxo (by norm_num) (by norm_num) (by norm_num) (by norm_num) (g := (5789 / 2 ^ 74)) (D := (5789 / 2 ^ 22)) (by norm_num) (by norm_num)
  have hrv := As64.add zero_le_one le_rfl hra1 hv (by norm_num) (by norm_num) (g := (4415 / 2 ^ 67)) (D := (4393 / 2 ^ 15)) (by norm_num) (by norm_num)
  have hsrv := As64.mul one_lo le_rfl hs hrv (by norm_num) (by norm_num) (by norm_num) (by norm_num) (g := (7777 / 2 ^ 76)) (D := (6209 / 2 ^ 25)) (by norm_num) (by norm_num)
  have hsrvy := As64.add zero_le_one le_rfl hsrv hy (by norm_num) (by norm_num) (g := (4665 / 2 ^ 75)) (D := (3105 / 2 ^ 24)) (by norm_num) (by norm_num)
  have hzs := As64.mul one_lo le_rfl hz hsrvy (by norm_num) (by norm_num) (by norm_num) (by norm_num) (g := (4933 / 2 ^ 81)) (D := (4927 / 2 ^ 31)) (by norm_num) (by norm_num)
  have hyzs := As64.add zero_le_one le_rfl hy hzs (by norm_num) (by norm_num) (g := (5549 / 2 ^ 81)) (D := (77 / 2 ^ 25)) (by norm_num) (by norm_num)
  have hst := As64.mul one_lo le_rfl hs ht0 (by norm_num) (by norm_num) (by norm_num) (by norm_num) (g := (2895 / 2 ^ 74)) (D := (965 / 2 ^ 21)) (by norm_num) (by norm_num)
  have hR := As64.add zero_le_one le_rfl hyzs hst (by norm_num) (by norm_num) (g := (7817 / 2 ^ 75)) (D := (7759 / 2 ^ 24)) (by norm_num) (by norm_num)
  refine ⟨hR.fin, ?_, hR.bd⟩
  refine (congrArg (fun v => |(KTanD.rr x y).val - v|) ?_).trans_le hR.err
  simp only [KTanD.poly, Poly.ev, KTan.t0_val, KTan.t1_val, KTan.t2_val, KTan.t3_val, KTan.t4_val, KTan.t5_val, KTan.t6_val, KTan.t7_val, KTan.t8_val, KTan.t9_val, KTan.t10_val, KTan.t11_val, KTan.t12_val]
  push_cast
  norm_num
  ring

theorem KTanD.poly_tan {x : ℝ} (hx : |x| ≤ 691 / 1024) :
    |x * Poly.ev KTanD.poly (x ^ 2) * Real.cos x - Real.sin x| ≤ 19 / 2 ^ 62 * |x| := by
  have hu : x ^ 2 ≤ 456 / 1000 := by rw [← sq_abs]; nlinarith [abs_nonneg x]
  have h1 := Poly.sin_series 12 (x := x) (hx.trans (by norm_num))
  have h0 := Poly.cos_series 12 (x := x) (hx.trans (by norm_num))
  have h2 := Poly.bound (p := Poly.add (Poly.mul KTanD.poly (Poly.cosc 12)) (Poly.smul (-1) (Poly.sinc 12))) (a := 0) (h := 456 / 1000 / 128) (B := 18 / 2 ^ 62) (n := 64)
    (by decide +kernel) (by norm_num) (by norm_num) (x ^ 2) (by push_cast; positivity) (by push_cast; linarith)
  have h6 := Poly.bound (p := KTanD.poly) (a := 0) (h := 456 / 2000) (B := 3) (n := 1)
    (by decide +kernel) (by norm_num) (by norm_num) (x ^ 2) (by push_cast; positivity) (by push_cast; linarith)
  rw [Poly.ev_add, Poly.ev_smul, Poly.ev_mul] at h2
  push_cast at h2 h6
  have hp : (x ^ 2) ^ 12 ≤ (456 / 1000) ^ 12 := pow_le_pow_left₀ (by positivity) hu 12
  have h3 : (x ^ 2) ^ 12 / (Nat.factorial (2 * 12 + 1) : ℝ) ≤ 1 / 2 ^ 80 := by
    rw [show Nat.factorial (2 * 12 + 1) = 15511210043330985984000000 from rfl]
    push_cast
    norm_num at hp ⊢
    linarith
  have h3' : (x ^ 2) ^ 12 / (Nat.factorial (2 * 12) : ℝ) ≤ 1 / 2 ^ 80 := by
    rw [show Nat.factorial (2 * 12) = 620448401733239439360000 from rfl]
    push_cast
    norm_num at hp ⊢
    linarith
  have e1 : x * Poly.ev KTanD.poly (x ^ 2) * Real.cos x - Real.sin x =
      x * (Poly.ev KTanD.poly (x ^ 2) * Poly.ev (Poly.cosc 12) (x ^ 2) + -1 * Poly.ev (Poly.sinc 12) (x ^ 2))
      + -(Real.sin x - x * Poly.ev (Poly.sinc 12) (x ^ 2)) + x * (Poly.ev KTanD.poly (x ^ 2) * (Real.cos x - Poly.ev (Poly.cosc 12) (x ^ 2))) := by ring
  rw [e1]
  refine (abs_add_three _ _ _).trans ?_
  rw [abs_mul, abs_neg, abs_mul x (_ * _), abs_mul (Poly.ev KTanD.poly (x ^ 2)) (_ - _)]
  have h4 := mul_le_mul_of_nonneg_left h2 (abs_nonneg x)
  have h5 := mul_le_mul_of_nonneg_left h3 (abs_nonneg x)
  have := abs_nonneg x
  have h7 := mul_le_mul_of_nonneg_left (mul_le_mul h6 (h0.trans h3') (abs_nonneg _) (by norm_num)) (abs_nonneg x)
  norm_num at h1 h4 h5 h7 ⊢
  linarith

end Verif
