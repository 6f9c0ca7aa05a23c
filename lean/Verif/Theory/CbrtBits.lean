import Verif.Theory.CbrtFin
import Verif.Theory.RplArg
import Verif.Theory.Odd
import Mathlib.Analysis.SpecialFunctions.Pow.Real

/-!
# cbrt: significand, exponent and sign
-/

namespace Verif
namespace Cbrt
open Flt

theorem bits64_of {b : BitVec 64} (s : Bool) {m : ℕ} (hm : m < 2 ^ 63) (h : b.toNat = m + if s then 2 ^ 63 else 0) : bits64 b = mk' f64 s m := by
  apply ext_enc
  rw [enc_mk' hm]
  exact h

/-- a number in a binade -/
theorem abs_mk {x : Flt f64} {E m : ℕ} (hE : 1 ≤ E) (hm : m < 2 ^ 52) (h : x.mb = E * 2 ^ 52 + m) :
    |x.val| = ((2 ^ 52 + m : ℕ) : ℝ) * 2 ^ ((E : ℤ) - 1075) := by
  rw [val_normal64 x (by omega), show x.mb % 2 ^ 52 = m by omega, show x.mb / 2 ^ 52 = E by omega]

/-- the sign as a number -/
def sg (s : Bool) : ℝ := if s then -1 else 1

theorem sg_abs (s : Bool) : |sg s| = 1 := by cases s <;> simp [sg]
theorem sg_sq (s : Bool) : sg s * sg s = 1 := by cases s <;> simp [sg]
theorem sg_cube (s : Bool) : sg s ^ 3 = sg s := by rw [pow_succ, pow_two, sg_sq, one_mul]

theorem val_sg (x : Flt f64) : x.val = sg x.sign * |x.val| := by
  unfold sg
  cases h : x.sign
  · rw [abs_of_nonneg (val_nonneg h)]; simp
  · rw [abs_of_nonpos (val_nonpos h)]; simp

/-- the argument scaled to [1, 8) -/
def ZZ (s : Bool) (it m : ℕ) : Flt f64 := mk' f64 s ((1023 + it) * 2 ^ 52 + m)

theorem ZZ_lt {it m : ℕ} (hi : it < 3) (hm : m < 2 ^ 52) : (1023 + it) * 2 ^ 52 + m < 2 ^ (f64.ew + f64.sb) := by
  show _ < 2 ^ 63
  omega

theorem ZZ_val {s : Bool} {it m : ℕ} (hi : it < 3) (hm : m < 2 ^ 52) :
    (ZZ s it m).isFinite ∧ (ZZ s it m).sign = s ∧ (ZZ s it m).val = sg s * (((2 ^ 52 + m : ℕ) : ℝ) / 2 ^ 52 * 2 ^ it) := by
  have h := ZZ_lt hi hm
  have e1 : (ZZ s it m).mb = (1023 + it) * 2 ^ 52 + m := mb_mk' h
  have e2 : (ZZ s it m).sign = s := sign_mk' h
  refine ⟨(isFinite64 _).2 (by omega), e2, ?_⟩
  rw [val_sg, e2, abs_mk (E := 1023 + it) (by omega) hm e1]
  congr 1
  have : (2 : ℝ) ^ (((1023 + it : ℕ) : ℤ) - 1075) = 2 ^ it / 2 ^ 52 := by
    rw [show ((1023 + it : ℕ) : ℤ) - 1075 = (it : ℤ) - (52 : ℕ) by push_cast; ring, zpow_sub₀ (by norm_num), zpow_natCast, zpow_natCast]
  rw [this]
  ring

theorem ZZ_neg {s : Bool} {it m : ℕ} (hi : it < 3) (hm : m < 2 ^ 52) : ZZ (!s) it m = -ZZ s it m := by
  have h := ZZ_lt hi hm
  apply ext_mb
  · rw [Flt.sign_neg]; unfold ZZ; rw [sign_mk' h, sign_mk' h]
  · rw [mb_neg]; unfold ZZ; rw [mb_mk' h, mb_mk' h]

/-- the cube roots of 1, 2 and 4 -/
def es : ℕ → Flt f64
  | 0 => 1.0
  | 1 => bits64 0x3ff428a2f98d728b#64
  | _ => bits64 0x3ff965fea53d6e3d#64

/-- the inverses of 1, 2 and 4 -/
def hs : ℕ → Flt f64
  | 0 => 1.0
  | 1 => 0.5
  | _ => 0.25

/-- the starting values of the iteration -/
def R (s : Bool) (it m : ℕ) : Flt f64 := (1.0 / ZZ false 0 m) * flip s (hs it)
def Y (s : Bool) (it m : ℕ) : Flt f64 := first (ZZ false 0 m) (1.0 / ZZ false 0 m) * flip s (es it)

theorem core_eq {s : Bool} {m n : ℕ} (hm : m < 2 ^ 52) (hn : n < 2 ^ 32) :
    core (BitVec.ofNat 64 (if s then 1 else 0)) (BitVec.ofNat 64 m) (BitVec.ofNat 32 n) =
      (iter (ZZ s (n % 3) m) (R s (n % 3) m) (Y s (n % 3) m)).map fun q => finish (ZZ s (n % 3) m) q.1 q.2 (BitVec.ofNat 32 (n / 3)) := by
  have e1 : (BitVec.ofNat 64 m ||| (0x3ff#64 <<< 52)).toNat = 1023 * 2 ^ 52 + m := by
    rw [BitVec.or_comm, BV.or_disjoint (k := 52)]
    · rw [show (0x3ff#64 <<< 52).toNat = 1023 * 2 ^ 52 by decide, BitVec.toNat_ofNat]; omega
    · decide
    · rw [BitVec.toNat_ofNat]; omega
  have e2 : BitVec.ofNat 32 n / 3#32 = BitVec.ofNat 32 (n / 3) := by
    apply BitVec.eq_of_toNat_eq
    rw [BitVec.toNat_udiv]
    simp only [BitVec.toNat_ofNat]
    rw [show (3 : ℕ) % 2 ^ 32 = 3 from rfl, Nat.mod_eq_of_lt hn]
    omega
  have e3 : BitVec.ofNat 32 n % 3#32 = BitVec.ofNat 32 (n % 3) := by
    apply BitVec.eq_of_toNat_eq
    rw [BitVec.toNat_umod]
    simp only [BitVec.toNat_ofNat]
    rw [show (3 : ℕ) % 2 ^ 32 = 3 from rfl, Nat.mod_eq_of_lt hn]
    omega
  have hi : n % 3 < 3 := Nat.mod_lt _ (by norm_num)
  have ez : bits64 (BitVec.ofNat 64 m ||| (0x3ff#64 <<< 52)) = ZZ false 0 m := by
    rw [bits64_of false (m := 1023 * 2 ^ 52 + m) (by omega) (by rw [e1]; rfl)]; rfl
  have hsg : (BitVec.ofNat 64 (if s then 1 else 0) <<< 63).toNat = if s then 2 ^ 63 else 0 := by cases s <;> decide
  have ezz : bits64 (((BitVec.ofNat 64 m ||| (0x3ff#64 <<< 52)) + ((BitVec.ofNat 32 (n % 3)).setWidth 64 <<< 52)) |||
      (BitVec.ofNat 64 (if s then 1 else 0) <<< 63)) = ZZ s (n % 3) m := by
    have e4 : ((BitVec.ofNat 64 m ||| (0x3ff#64 <<< 52)) + ((BitVec.ofNat 32 (n % 3)).setWidth 64 <<< 52)).toNat = (1023 + n % 3) * 2 ^ 52 + m := by
      rw [BitVec.toNat_add, e1, BV.shl, BitVec.toNat_setWidth, BitVec.toNat_ofNat]
      omega
    refine bits64_of s (by omega) ?_
    rw [BitVec.or_comm, BV.or_disjoint (k := 63) (by rw [hsg]; cases s <;> decide) (by rw [e4]; omega), e4, hsg]
    omega
  unfold core
  simp only [e2, e3, ez, ezz]
  have hr : 2 * (BitVec.ofNat 32 (n % 3)).toNat + (BitVec.ofNat 64 (if s then 1 else 0)).toNat = 2 * (n % 3) + if s then 1 else 0 := by
    simp only [BitVec.toNat_ofNat]
    split <;> omega
  have hi' : (BitVec.ofNat 32 (n % 3)).toNat = n % 3 := by simp only [BitVec.toNat_ofNat]; omega
  rw [hr, hi']
  have he : escale[n % 3]? = some (es (n % 3)) ∧ rsc[2 * (n % 3) + if s then 1 else 0]? = some (Flt.flip s (hs (n % 3))) ∧
      bits64 ((es (n % 3)).u64 ||| (BitVec.ofNat 64 (if s then 1 else 0) <<< 63)) = Flt.flip s (es (n % 3)) := by
    have : n % 3 = 0 ∨ n % 3 = 1 ∨ n % 3 = 2 := by omega
    rcases this with h | h | h <;> rw [h] <;> cases s <;> refine ⟨rfl, rfl, ?_⟩ <;> decide +kernel
  rw [he.1, he.2.1]
  simp only [Option.bind_some, he.2.2]
  unfold iter R Y
  rw [Option.map_bind]
  rfl

theorem pos_root {v : ℝ} (h : 1 ≤ v) : ∃ t : ℝ, 1 ≤ t ∧ t ^ 3 = v := by
  have e : (v ^ (1 / 3 : ℝ)) ^ 3 = v := by rw [← Real.rpow_natCast, ← Real.rpow_mul (by linarith)]; norm_num
  refine ⟨_, ?_, e⟩
  refine le_of_pow_le_pow_left₀ (n := 3) (by norm_num) (Real.rpow_nonneg (by linarith) _) ?_
  rw [e, one_pow]
  exact h

theorem root_near {v e d : ℝ} {t : ℝ} (ht : 1 ≤ t) (hv : t ^ 3 = v) (h0 : 0 ≤ e + d) (h1 : (e - d) ^ 3 ≤ v) (h2 : v ≤ (e + d) ^ 3) : |e - t| ≤ d := by
  have a1 := le_of_pow_le_pow_left₀ (n := 3) (by norm_num) (by linarith) (h1.trans hv.ge)
  have a2 := le_of_pow_le_pow_left₀ (n := 3) (by norm_num) h0 (hv.le.trans h2)
  rw [abs_le]; constructor <;> linarith

theorem one_v : (1.0 : Flt f64).val = 1 := by
  rw [val_const64 1 1074 0 (by decide +kernel) (by norm_num)]; norm_num

theorem es_spec {it : ℕ} (hi : it < 3) : (es it).isFinite ∧ ∀ K : ℝ, 1 ≤ K → K ^ 3 = 2 ^ it → |(es it).val - K| ≤ 1 / 2 ^ 52 := by
  have v1 : (bits64 0x3ff428a2f98d728b#64).val = (5674179970822795 : ℝ) * 2 ^ (-52 : ℤ) := by
    rw [val_const64 (5674179970822795) 1022 (-52) (by decide +kernel) (by norm_num)]; norm_num
  have v2 : (bits64 0x3ff965fea53d6e3d#64).val = (7149018786131517 : ℝ) * 2 ^ (-52 : ℤ) := by
    rw [val_const64 (7149018786131517) 1022 (-52) (by decide +kernel) (by norm_num)]; norm_num
  have : it = 0 ∨ it = 1 ∨ it = 2 := by omega
  rcases this with rfl | rfl | rfl
  · refine ⟨show (1.0 : Flt f64).isFinite by decide +kernel, fun K h1 hK => ?_⟩
    have e : (es 0).val = 1 := one_v
    exact root_near h1 hK (by rw [e]; norm_num) (by rw [e]; norm_num) (by rw [e]; norm_num)
  · refine ⟨show (bits64 0x3ff428a2f98d728b#64).isFinite by decide +kernel, fun K h1 hK => ?_⟩
    have e : (es 1).val = _ := v1
    exact root_near h1 hK (by rw [e]; norm_num) (by rw [e]; norm_num) (by rw [e]; norm_num)
  · refine ⟨show (bits64 0x3ff965fea53d6e3d#64).isFinite by decide +kernel, fun K h1 hK => ?_⟩
    have e : (es 2).val = _ := v2
    exact root_near h1 hK (by rw [e]; norm_num) (by rw [e]; norm_num) (by rw [e]; norm_num)

theorem hs_spec {it : ℕ} (hi : it < 3) : (hs it).isFinite ∧ (hs it).val * 2 ^ it = 1 ∧ 0 < (hs it).val ∧ (hs it).val = 2 ^ (-(it : ℤ)) := by
  have v1 : (0.5 : Flt f64).val = (1 : ℝ) * 2 ^ (-1 : ℤ) := by
    rw [val_const64 1 1073 (-1) (by decide +kernel) (by norm_num)]; norm_num
  have v2 : (0.25 : Flt f64).val = (1 : ℝ) * 2 ^ (-2 : ℤ) := by
    rw [val_const64 1 1072 (-2) (by decide +kernel) (by norm_num)]; norm_num
  have : it = 0 ∨ it = 1 ∨ it = 2 := by omega
  rcases this with rfl | rfl | rfl
  · have e : (hs 0).val = 1 := one_v
    exact ⟨show (1.0 : Flt f64).isFinite by decide +kernel, by rw [e]; norm_num, by rw [e]; norm_num, by rw [e]; norm_num⟩
  · have e : (hs 1).val = _ := v1
    exact ⟨show (0.5 : Flt f64).isFinite by decide +kernel, by rw [e]; norm_num, by rw [e]; norm_num, by rw [e]; norm_num⟩
  · have e : (hs 2).val = _ := v2
    exact ⟨show (0.25 : Flt f64).isFinite by decide +kernel, by rw [e]; norm_num, by rw [e]; norm_num, by rw [e]; norm_num⟩

theorem flip_sg (s : Bool) (x : Flt f64) : (Flt.flip s x).val = sg s * x.val := by
  rw [flip_val]; unfold sg; cases s <;> simp

theorem start_y {f e p c K S y : ℝ} (hc1 : 1 ≤ c) (hc2 : c ≤ 13 / 10) (hK1 : 1 ≤ K) (hK2 : K ≤ 8 / 5) (hf : |f - c| ≤ 1 / 2 ^ 38 * (3 / 4) * c)
    (he : |e - K| ≤ 1 / 2 ^ 52) (hS : |S| = 1) (hp : p = S * e) (hy : |y - f * p| ≤ 1 / 2 ^ 52) : |y - S * (c * K)| ≤ 1 / 2 ^ 38 * |S * (c * K)| := by
  have hcK : 1 ≤ c * K := one_le_mul_of_one_le_of_one_le hc1 hK1
  have h1 : |f * p - S * (c * K)| ≤ |f - c| * |e| + c * |e - K| := by
    rw [hp, show f * (S * e) - S * (c * K) = S * ((f - c) * e + c * (e - K)) by ring, abs_mul, hS, one_mul]
    refine (abs_add_le _ _).trans ?_
    rw [abs_mul, abs_mul, abs_of_pos (show (0 : ℝ) < c by linarith)]
  have he2 : |e| ≤ K * (1 + 1 / 2 ^ 52) := by
    have := abs_sub_abs_le_abs_sub e K
    rw [abs_of_pos (show (0 : ℝ) < K by linarith)] at this
    nlinarith
  have h2 : |f - c| * |e| ≤ 1 / 2 ^ 38 * (3 / 4) * c * (K * (1 + 1 / 2 ^ 52)) :=
    mul_le_mul hf he2 (abs_nonneg _) (by positivity)
  have h3 : c * |e - K| ≤ 13 / 10 * (1 / 2 ^ 52) := mul_le_mul hc2 he (abs_nonneg _) (by norm_num)
  have h4 := abs_sub_le y (f * p) (S * (c * K))
  rw [abs_mul S, hS, one_mul, abs_of_pos (show (0 : ℝ) < c * K by linarith)]
  rw [show 1 / 2 ^ 38 * (3 / 4) * c * (K * (1 + 1 / 2 ^ 52)) = 1 / 2 ^ 38 * (3 / 4) * (1 + 1 / 2 ^ 52) * (c * K) by ring] at h2
  norm_num at *
  linarith

theorem start_r {r z h rr zz S P : ℝ} (hS : |S| = 1) (hSS : S * S = 1) (hz1 : 1 ≤ z) (hz2 : z ≤ 2) (hr : |r - 1 / z| ≤ 1 / 2 ^ 54) (hP : 0 < P)
    (hh : h * P = 1) (hrr : |rr - r * (S * h)| ≤ 1 / 2 ^ 53 * h) (hzz : zz = S * (z * P)) : |rr * zz - 1| ≤ 1 / 2 ^ 50 := by
  have e : rr * zz - 1 = (rr - r * (S * h)) * (S * P) * z + (r - 1 / z) * z := by
    have hz : 1 / z * z = 1 := by field_simp
    rw [hzz]
    linear_combination hz + r * z * P * h * hSS + r * z * hh
  rw [e]
  refine (abs_add_le _ _).trans ?_
  rw [abs_mul, abs_mul, abs_mul S, abs_mul, hS, one_mul, abs_of_pos hP, abs_of_pos (show (0 : ℝ) < z by linarith)]
  have h1 : |rr - r * (S * h)| * P ≤ 1 / 2 ^ 53 := by
    have := mul_le_mul_of_nonneg_right hrr hP.le
    rwa [mul_assoc, hh, mul_one] at this
  have h2 : |rr - r * (S * h)| * P * z ≤ 1 / 2 ^ 53 * 2 := mul_le_mul h1 hz2 (by linarith) (by norm_num)
  have h3 : |r - 1 / z| * z ≤ 1 / 2 ^ 54 * 2 := mul_le_mul hr hz2 (by linarith) (by norm_num)
  norm_num at *
  linarith

/-- the iteration starts close enough to the cube root `C` -/
theorem start {s : Bool} {it m : ℕ} (hi : it < 3) (hm : m < 2 ^ 52) : ∃ C : ℝ, Start C (ZZ s it m) (R s it m) (Y s it m) := by
  obtain ⟨zf, -, zv⟩ := ZZ_val (s := false) (it := 0) (by norm_num) hm
  obtain ⟨zzf, -, zzv⟩ := ZZ_val (s := s) hi hm
  obtain ⟨ef, ev⟩ := es_spec hi
  obtain ⟨hf, hv, hpos, hv2⟩ := hs_spec hi
  have hm' : ((m : ℕ) : ℝ) ≤ 2 ^ 52 - 1 := by
    have : (m : ℝ) + 1 ≤ 2 ^ 52 := by exact_mod_cast hm
    linarith
  have hm0 : (0 : ℝ) ≤ m := Nat.cast_nonneg m
  have zv2 : (ZZ false 0 m).val = 1 + (m : ℝ) / 2 ^ 52 := by
    rw [zv]; rw [show sg false = 1 from if_neg (by decide)]; push_cast; ring
  have z1 : 1 ≤ (ZZ false 0 m).val := by rw [zv2]; norm_num; linarith
  have z2 : (ZZ false 0 m).val ≤ 2 - 1 / 2 ^ 52 := by rw [zv2]; clear * - hm'; norm_num; linarith
  have zpos : 0 < (ZZ false 0 m).val := lt_of_lt_of_le one_pos z1
  have zzv2 : (ZZ s it m).val = sg s * ((ZZ false 0 m).val * 2 ^ it) := by rw [zzv, zv2]; push_cast; ring
  obtain ⟨ff, fv⟩ := first_near zf z1 (by linarith)
  obtain ⟨c, c1, cc⟩ := pos_root z1
  obtain ⟨K, K1, KK⟩ := pos_root (show (1 : ℝ) ≤ 2 ^ it from one_le_pow₀ (by norm_num))
  have c2 : c ≤ 13 / 10 := le_of_pow_le_pow_left₀ (n := 3) (by norm_num) (by norm_num) (by rw [cc]; norm_num at *; linarith)
  have P4 : (2 : ℝ) ^ it ≤ 4 := by
    have : (2 : ℝ) ^ it ≤ 2 ^ 2 := pow_le_pow_right₀ (by norm_num) (by omega)
    linarith
  have K2 : K ≤ 8 / 5 := le_of_pow_le_pow_left₀ (n := 3) (by norm_num) (by norm_num) (by rw [KK]; norm_num at *; linarith)
  have hcK : 1 ≤ c * K := one_le_mul_of_one_le_of_one_le c1 K1
  have habs : |sg s * (c * K)| = c * K := by rw [abs_mul, sg_abs, one_mul, abs_of_pos (by linarith)]
  have hC3 : (ZZ s it m).val = (sg s * (c * K)) ^ 3 := by
    rw [zzv2, mul_pow, mul_pow, sg_cube, cc, KK]
  have z0 : ¬ (ZZ false 0 m).isZero := fun h => by rw [isZero_val.1 h] at z1; norm_num at z1
  have of : (1.0 : Flt f64).isFinite := by decide +kernel
  have ov : (1.0 : Flt f64).val = 1 := one_v
  have hinv : 1 / (ZZ false 0 m).val ≤ 1 := by rw [div_le_one (by linarith)]; exact z1
  obtain ⟨rf, re⟩ := (div_rne of zf z0).err64 0 (by
    rw [ov, zpow_zero, abs_of_pos (div_pos one_pos zpos)]; exact hinv) (by norm_num) (by norm_num)
  rw [ov] at re
  have re' : |(1.0 / ZZ false 0 m : Flt f64).val - 1 / (ZZ false 0 m).val| ≤ 1 / 2 ^ 54 := by norm_num at *; exact re
  have hsf : (Flt.flip s (hs it)).isFinite := by rw [flip_isFinite]; exact hf
  have esf : (Flt.flip s (es it)).isFinite := by rw [flip_isFinite]; exact ef
  have rb : |(1.0 / ZZ false 0 m : Flt f64).val| ≤ 2 := by
    have := abs_of_near re' (show |1 / (ZZ false 0 m).val| ≤ 1 by rw [abs_of_pos (div_pos one_pos zpos)]; exact hinv)
    norm_num at *; linarith
  obtain ⟨Rf, Re⟩ := mul_err64 rf hsf (1 - it) (by
    rw [flip_sg, abs_mul, abs_mul, sg_abs, one_mul, abs_of_pos hpos, hv2, zpow_sub₀ (by norm_num), zpow_one, zpow_neg, div_eq_mul_inv]
    exact mul_le_mul_of_nonneg_right rb (by positivity)) (by omega) (by omega)
  have he' := ev K K1 KK
  have hfn := fv c (by linarith) cc
  obtain ⟨Yf, Ye⟩ := mul_err64 ff esf 2 (by
    rw [flip_sg, abs_mul, abs_mul, sg_abs, one_mul]
    have a1 := abs_of_near hfn (abs_le.2 ⟨by linarith, c2⟩)
    have a2 := abs_of_near he' (abs_le.2 ⟨by linarith, K2⟩)
    refine (mul_le_mul (b := 7 / 5) (d := 9 / 5) ?_ ?_ (abs_nonneg _) (by norm_num)).trans (by norm_num)
    · norm_num at *; linarith
    · norm_num at *; linarith) (by norm_num) (by norm_num)
  refine ⟨sg s * (c * K), zzf, hC3, Rf, ?_, Yf, by rw [habs]; exact hcK, ?_, ?_⟩
  · rw [← hC3]
    refine start_r (sg_abs s) (sg_sq s) z1 (by linarith) re' (by positivity) hv ?_ zzv2
    rw [flip_sg] at Re
    refine Re.trans (le_of_eq ?_)
    rw [hv2, show (1 : ℤ) - it - 54 = -(53 : ℕ) + -it by push_cast; ring, zpow_add₀ (by norm_num), zpow_neg, zpow_natCast]
    norm_num
  · have h3 : |sg s * (c * K)| ^ 3 ≤ 8 - 1 / 2 ^ 50 := by
      rw [← abs_pow, ← hC3, zzv2, abs_mul, sg_abs, one_mul, abs_of_pos (mul_pos zpos (pow_pos two_pos _))]
      calc (ZZ false 0 m).val * 2 ^ it ≤ (2 - 1 / 2 ^ 52) * 4 := mul_le_mul z2 P4 (by positivity) (by norm_num)
        _ = _ := by norm_num
    exact le_of_pow_le_pow_left₀ (n := 3) (by norm_num) (by norm_num) (h3.trans (by norm_num))
  · exact start_y c1 c2 K1 K2 hfn he' (sg_abs s) (flip_sg s _) (Ye.trans (by norm_num))

end Cbrt
end Verif
