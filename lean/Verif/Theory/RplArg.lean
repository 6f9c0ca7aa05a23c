import Verif.Theory.RplFin
import Verif.Theory.Word

/-!
# The large argument reduction on doubles and floats
-/

namespace Verif
open Flt
open Generic (scalbn)

/-- the value of a normal double from its encoding -/
theorem val_normal64 (x : Flt f64) (h1 : 2 ^ 52 ≤ x.mb) :
    |x.val| = ((2 ^ 52 + x.mb % 2 ^ 52 : ℕ) : ℝ) * 2 ^ ((x.mb / 2 ^ 52 : ℕ) - 1075 : ℤ) := by
  have hm : x.mag = (2 ^ 52 + x.mb % 2 ^ 52) * 2 ^ (x.mb / 2 ^ 52 - 1) := by
    show magOf 52 x.mb = _
    unfold magOf
    rw [if_neg (by omega)]
  have hE : 1 ≤ x.mb / 2 ^ 52 := (Nat.le_div_iff_mul_le (by norm_num)).2 (by omega)
  rw [val_abs, hm, ulp_real, f64_bias, f64_sb, Nat.cast_mul, mul_assoc]
  congr 1
  rw [Nat.cast_pow, Nat.cast_ofNat, ← zpow_natCast, ← zpow_add₀ (by norm_num)]
  congr 1
  rw [Nat.cast_sub hE]
  generalize x.mb / _ = k
  push_cast
  ring

/-- the value of a normal float from its encoding -/
theorem val_normal32 (x : Flt f32) (h1 : 2 ^ 23 ≤ x.mb) :
    |x.val| = ((2 ^ 23 + x.mb % 2 ^ 23 : ℕ) : ℝ) * 2 ^ ((x.mb / 2 ^ 23 : ℕ) - 150 : ℤ) := by
  have hm : x.mag = (2 ^ 23 + x.mb % 2 ^ 23) * 2 ^ (x.mb / 2 ^ 23 - 1) := by
    show magOf 23 x.mb = _
    unfold magOf
    rw [if_neg (by omega)]
  have hE : 1 ≤ x.mb / 2 ^ 23 := (Nat.le_div_iff_mul_le (by norm_num)).2 (by omega)
  rw [val_abs, hm, ulp_real, f32_bias, f32_sb, Nat.cast_mul, mul_assoc]
  congr 1
  rw [Nat.cast_pow, Nat.cast_ofNat, ← zpow_natCast, ← zpow_add₀ (by norm_num)]
  congr 1
  rw [Nat.cast_sub hE]
  generalize x.mb / _ = k
  push_cast
  ring

namespace Rpl

/-- the three 24-bit words of a 53-bit integer -/
def words (M : ℕ) (j : ℕ) : ℕ :=
  match j with
  | 0 => M / 2 ^ 29
  | 1 => M % 2 ^ 29 / 2 ^ 5
  | 2 => M % 2 ^ 5 * 2 ^ 19
  | _ => 0

theorem words_U (M : ℕ) : U (words M) = M * 2 ^ 19 := by
  show M / 2 ^ 29 * 2 ^ 48 + M % 2 ^ 29 / 2 ^ 5 * 2 ^ 24 + M % 2 ^ 5 * 2 ^ 19 = M * 2 ^ 19
  omega

theorem words_lt {M : ℕ} (hM : M < 2 ^ 53) (j : ℕ) : words M j < 2 ^ 24 := by
  unfold words
  split <;> omega

theorem split24_spec {z : Flt f64} {M : ℕ} (hz : Is z M (-(29 : ℕ))) (hM : M < 2 ^ 53) :
    ∃ t0 t1 t2, RemPio2.split24 z = (t0, t1, t2) ∧ Is t0 (words M 0) 0 ∧ Is t1 (words M 1) 0 ∧ Is t2 (words M 2) 0 := by
  have c24 : Is (bits64 0x4170000000000000) 1 24 := is_x1p24
  have h0 : z.toSInt 32 = ((M / 2 ^ 29 : ℕ) : ℤ) := by
    rw [hz.toSInt 29 (by positivity) (by norm_num; omega)]
    norm_cast
  have t0 : Is (ofInt f64 ((M / 2 ^ 29 : ℕ) : ℤ)) ((M / 2 ^ 29 : ℕ) : ℤ) 0 := Is.ofInt _ (by
    rw [abs_of_nonneg (by positivity)]
    omega)
  have t0' : Is (ofInt f64 ((M / 2 ^ 29 : ℕ) : ℤ)) ((M / 2 ^ 29 * 2 ^ 29 : ℕ) : ℤ) (-(29 : ℕ)) := by
    have := t0.unshift 29
    push_cast at this ⊢
    simpa using this
  have e1 : (M : ℤ) - ((M / 2 ^ 29 * 2 ^ 29 : ℕ) : ℤ) = ((M % 2 ^ 29 : ℕ) : ℤ) := by omega
  have z1 : Is ((z - ofInt f64 ((M / 2 ^ 29 : ℕ) : ℤ)) * bits64 0x4170000000000000) ((M % 2 ^ 29 : ℕ) : ℤ) (-(5 : ℕ)) := by
    have a := (hz.sub t0' (by rw [e1, abs_of_nonneg (by positivity)]; omega) (by norm_num) (by norm_num)).congr e1
    have := a.mul c24 (by rw [mul_one, abs_of_nonneg (by positivity)]; omega) (by norm_num) (by norm_num)
    rw [mul_one] at this
    exact this
  have h1 : ((z - ofInt f64 ((M / 2 ^ 29 : ℕ) : ℤ)) * bits64 0x4170000000000000).toSInt 32 = ((M % 2 ^ 29 / 2 ^ 5 : ℕ) : ℤ) := by
    rw [z1.toSInt 5 (by positivity) (by norm_num; omega)]
    norm_cast
  have t1 : Is (ofInt f64 ((M % 2 ^ 29 / 2 ^ 5 : ℕ) : ℤ)) ((M % 2 ^ 29 / 2 ^ 5 : ℕ) : ℤ) 0 := Is.ofInt _ (by
    rw [abs_of_nonneg (by positivity)]
    omega)
  have t1' : Is (ofInt f64 ((M % 2 ^ 29 / 2 ^ 5 : ℕ) : ℤ)) ((M % 2 ^ 29 / 2 ^ 5 * 2 ^ 5 : ℕ) : ℤ) (-(5 : ℕ)) := by
    have := t1.unshift 5
    push_cast at this ⊢
    simpa using this
  have e2 : ((M % 2 ^ 29 : ℕ) : ℤ) - ((M % 2 ^ 29 / 2 ^ 5 * 2 ^ 5 : ℕ) : ℤ) = ((M % 2 ^ 5 : ℕ) : ℤ) := by omega
  refine ⟨_, _, _, rfl, ?_, ?_, ?_⟩
  · rw [h0]
    exact t0
  · rw [h0, h1]
    exact t1
  · rw [h0, h1]
    have a := (z1.sub t1' (by rw [e2, abs_of_nonneg (by positivity)]; omega) (by norm_num) (by norm_num)).congr e2
    have := (a.mul c24 (by rw [mul_one, abs_of_nonneg (by positivity)]; omega) (by norm_num) (by norm_num)).unshift 19
    rw [mul_one] at this
    unfold words
    push_cast at this ⊢
    norm_num at this ⊢
    exact this

theorem slice_spec {M : ℕ} (hM : M < 2 ^ 53) {t0 t1 t2 : Flt f64} (h0 : Is t0 (words M 0) 0) (h1 : Is t1 (words M 1) 0)
    (h2 : Is t2 (words M 2) 0) :
    ∃ jx, Inp (RemPio2.slice t0 t1 t2) jx (words M) ∧ (RemPio2.slice t0 t1 t2).length = jx + 1 := by
  unfold RemPio2.slice
  have hbig : ∀ j, 2 < j → words M j = 0 := by
    intro j hj
    unfold words
    split <;> omega
  by_cases a : words M 2 = 0
  · rw [if_pos (h2.feq_zero.2 (by exact_mod_cast a))]
    by_cases b : words M 1 = 0
    · rw [if_pos (h1.feq_zero.2 (by exact_mod_cast b))]
      refine ⟨0, ⟨by norm_num, ?_, words_lt hM, ?_⟩, rfl⟩
      · intro j hj
        obtain rfl : j = 0 := by omega
        exact ⟨t0, rfl, h0⟩
      · intro j hj
        by_cases e : j = 1
        · rw [e]; exact b
        · by_cases e : j = 2
          · rw [e]; exact a
          · exact hbig j (by omega)
    · rw [if_neg (by rw [h1.feq_zero]; exact_mod_cast b)]
      refine ⟨1, ⟨by norm_num, ?_, words_lt hM, ?_⟩, rfl⟩
      · intro j hj
        interval_cases j
        · exact ⟨t0, rfl, h0⟩
        · exact ⟨t1, rfl, h1⟩
      · intro j hj
        by_cases e : j = 2
        · rw [e]; exact a
        · exact hbig j (by omega)
  · rw [if_neg (by rw [h2.feq_zero]; exact_mod_cast a)]
    refine ⟨2, ⟨by norm_num, ?_, words_lt hM, hbig⟩, rfl⟩
    intro j hj
    interval_cases j
    · exact ⟨t0, rfl, h0⟩
    · exact ⟨t1, rfl, h1⟩
    · exact ⟨t2, rfl, h2⟩

/-- the reduction of `M * 2^(e0 - 29)` -/
theorem exps_of {e0 : ℤ} (h1 : -3 ≤ e0) (h2 : e0 ≤ 1000) {jv K : ℕ} {q0 : ℤ} (hjv : jv = ((e0 - 3).tdiv 24).toNat)
    (hq0 : q0 = e0 - 24 * ((jv : ℤ) + 1)) (hK : (K : ℤ) = 216 - q0) :
    Exps jv q0 K ∧ jv = CF.jvOf (e0 + 3).toNat ∧ K = 243 + 24 * jv - (e0 + 3).toNat := by
  have hjv2 : jv = ((e0 + 3).toNat - 6) / 24 := by
    rw [hjv]
    by_cases h : 3 ≤ e0
    · rw [Int.tdiv_eq_ediv_of_nonneg (by omega)]
      omega
    · have : (e0 - 3).tdiv 24 = 0 := by
        have : -6 ≤ e0 - 3 := by omega
        have : e0 - 3 < 0 := by omega
        generalize e0 - 3 = k at *
        interval_cases k <;> decide
      rw [this]
      omega
  refine ⟨⟨by omega, by omega, by omega, hK, by omega⟩, hjv2, by omega⟩

theorem marg53 {e0 : ℤ} (h1 : -3 ≤ e0) (h2 : e0 ≤ 1000) {jv K : ℕ} {q0 : ℤ} (hjv : jv = ((e0 - 3).tdiv 24).toNat)
    (hq0 : q0 = e0 - 24 * ((jv : ℤ) + 1)) (hK : (K : ℤ) = 216 - q0) {X : ℕ → ℕ} {M : ℕ} (hU : U X = M * 2 ^ 19)
    (h0 : 0 < M) (hM : M < 2 ^ 53) : Marg X jv K 62 := by
  obtain ⟨he, h3, h4⟩ := exps_of h1 h2 hjv hq0 hK
  intro m
  have := CF.away (e0 + 3).toNat (by omega) M m (by omega) (by exact_mod_cast hM)
  rw [← h3] at this
  have hhi := he.hi
  have e1 : (2 : ℤ) ^ K = 2 ^ (224 + 24 * jv - (e0 + 3).toNat) * 2 ^ 19 := by
    rw [← pow_add]
    congr 1
    omega
  have e2 : (2 : ℤ) ^ (K - 62) = 2 ^ (224 + 24 * jv - (e0 + 3).toNat - 62) * 2 ^ 19 := by
    rw [← pow_add]
    congr 1
    omega
  rw [hU, e1, e2]
  have e3 : ((M * 2 ^ 19 : ℕ) : ℤ) * (CF.A jv : ℤ) - m * (2 ^ (224 + 24 * jv - (e0 + 3).toNat) * 2 ^ 19) =
      ((M : ℤ) * (CF.A jv : ℤ) - m * 2 ^ (224 + 24 * jv - (e0 + 3).toNat)) * 2 ^ 19 := by
    rw [Nat.cast_mul]
    generalize (2 : ℤ) ^ (224 + 24 * jv - (e0 + 3).toNat) = T
    push_cast
    ring
  rw [e3, abs_mul, abs_of_pos (show (0 : ℤ) < 2 ^ 19 by norm_num)]
  exact mul_le_mul_of_nonneg_right this (by norm_num)

theorem marg24 {e0 : ℤ} (h1 : 5 ≤ e0) (h2 : e0 ≤ 104) {jv K : ℕ} {q0 : ℤ} (hjv : jv = ((e0 - 3).tdiv 24).toNat)
    (hq0 : q0 = e0 - 24 * ((jv : ℤ) + 1)) (hK : (K : ℤ) = 216 - q0) {X : ℕ → ℕ} {M : ℕ} (hU : U X = M * 2 ^ 48)
    (h0 : 0 < M) (hM : M < 2 ^ 24) : Marg X jv K 30 := by
  obtain ⟨he, h3, h4⟩ := exps_of (by omega) (by omega) hjv hq0 hK
  intro m
  have := CF.away24 (e0 + 3).toNat (by omega) (by omega) M m (by omega) (by exact_mod_cast hM)
  rw [← h3] at this
  have hhi := he.hi
  have e1 : (2 : ℤ) ^ K = 2 ^ (195 + 24 * jv - (e0 + 3).toNat) * 2 ^ 48 := by
    rw [← pow_add]
    congr 1
    omega
  have e2 : (2 : ℤ) ^ (K - 30) = 2 ^ (195 + 24 * jv - (e0 + 3).toNat - 30) * 2 ^ 48 := by
    rw [← pow_add]
    congr 1
    omega
  rw [hU, e1, e2]
  have e3 : ((M * 2 ^ 48 : ℕ) : ℤ) * (CF.A jv : ℤ) - m * (2 ^ (195 + 24 * jv - (e0 + 3).toNat) * 2 ^ 48) =
      ((M : ℤ) * (CF.A jv : ℤ) - m * 2 ^ (195 + 24 * jv - (e0 + 3).toNat)) * 2 ^ 48 := by
    rw [Nat.cast_mul]
    generalize (2 : ℤ) ^ (195 + 24 * jv - (e0 + 3).toNat) = T
    push_cast
    ring
  rw [e3, abs_mul, abs_of_pos (show (0 : ℤ) < 2 ^ 48 by norm_num)]
  exact mul_le_mul_of_nonneg_right this (by norm_num)

/-- the scaled copy `z` of a large double -/
theorem scaled_is (x : Flt f64) :
    Is (bits64 ((x.u64 &&& 0x000fffffffffffff#64) ||| ((0x3ff#64 + 23#64) <<< 52))) ((2 ^ 52 + x.mb % 2 ^ 52 : ℕ) : ℤ) (-(29 : ℕ)) := by
  have hn : ((x.u64 &&& 0x000fffffffffffff#64) ||| ((0x3ff#64 + 23#64) <<< 52)).toNat = 1046 * 2 ^ 52 + x.mb % 2 ^ 52 := by
    have e : ((0x3ff#64 + 23#64) <<< 52) = 0x4160000000000000#64 := by decide
    have e2 : (x.u64 &&& 0x000fffffffffffff#64).toNat = x.mb % 2 ^ 52 := by
      rw [BitVec.toNat_and]
      have : (0x000fffffffffffff#64).toNat = 2 ^ 52 - 1 := rfl
      rw [this, Nat.and_two_pow_sub_one_eq_mod, u64_toNat]
      split_ifs <;> omega
    rw [e, BitVec.toNat_or, e2]
    have : (0x4160000000000000#64).toNat = 1046 * 2 ^ 52 := rfl
    rw [this, Nat.or_comm, mul_comm, ← Nat.two_pow_add_eq_or_of_lt (Nat.mod_lt _ (by norm_num))]
  rw [bits64_mk (by rw [hn]; omega), hn]
  have hb : 1046 * 2 ^ 52 + x.mb % 2 ^ 52 < 2 ^ (f64.ew + f64.sb) := by
    have : f64.ew + f64.sb = 63 := rfl
    rw [this]
    omega
  set z := mk' f64 false (1046 * 2 ^ 52 + x.mb % 2 ^ 52) with hz
  have hmb : z.mb = 1046 * 2 ^ 52 + x.mb % 2 ^ 52 := mb_mk' hb
  have hs : z.sign = false := sign_mk' hb
  refine ⟨?_, ?_⟩
  · rw [isFinite64, hmb]
    omega
  · have := val_normal64 z (by omega)
    rw [abs_of_nonneg (val_nonneg hs), hmb] at this
    rw [this]
    have e1 : (1046 * 2 ^ 52 + x.mb % 2 ^ 52) % 2 ^ 52 = x.mb % 2 ^ 52 := by omega
    have e2 : (1046 * 2 ^ 52 + x.mb % 2 ^ 52) / 2 ^ 52 = 1046 := by omega
    rw [e1, e2]
    generalize 2 ^ 52 + x.mb % 2 ^ 52 = k
    norm_num

/-- facts about the reduction of a large double -/
structure Red64 (x : Flt f64) (n : ℤ) (y : Flt f64) : Prop where
  ex : ∃ (e0 : ℤ) (jv : ℕ) (q0 : ℤ) (n' : ℤ) (y' : Flt f64) (jz B G jz' : ℕ) (d : ℕ → ℕ) (sg : ℤ),
    e0 = ((x.mb / 2 ^ 52 : ℕ) : ℤ) - 1046 ∧ jv = ((e0 - 3).tdiv 24).toNat ∧ q0 = e0 - 24 * ((jv : ℤ) + 1) ∧
    Red (words (2 ^ 52 + x.mb % 2 ^ 52)) jv 4 62 q0 n' y' jz B G jz' d sg ∧
    n = (if x.sign then -n' else n') ∧ y = (if x.sign then -y' else y')

/-- large doubles: the reduction returns -/
theorem large64 {tbl : List ℤ} (ht : GoodTbl tbl) (x : Flt f64) (hx : x.isFinite) (hbig : 0x41300000 * 2 ^ 32 ≤ x.mb) :
    ∃ n y y1, RemPio2.large tbl x (getHighWord x &&& 0x7fffffff#32) = some (n, y, y1) ∧ y1.isFinite ∧ Red64 x n y := by
  obtain ⟨t0, t1, t2, hsp, h0, h1, h2⟩ := split24_spec (scaled_is x) (by omega)
  obtain ⟨jx, hinp, hlen⟩ := slice_spec (by omega) h0 h1 h2
  have hfin : x.mb < 2047 * 2 ^ 52 := (isFinite64 x).1 hx
  have he : (((getHighWord x &&& 0x7fffffff#32) >>> 20).toNat : ℤ) - (0x3ff + 23) = ((x.mb / 2 ^ 52 : ℕ) : ℤ) - 1046 := by
    rw [BitVec.toNat_ushiftRight, hi_abs, Nat.shiftRight_eq_div_pow, Nat.div_div_eq_div_mul]
    norm_num
  set e0 : ℤ := ((x.mb / 2 ^ 52 : ℕ) : ℤ) - 1046 with he0
  obtain ⟨jv, hjv⟩ : ∃ jv : ℕ, jv = ((e0 - 3).tdiv 24).toNat := ⟨_, rfl⟩
  obtain ⟨q0, hq0⟩ : ∃ q0 : ℤ, q0 = e0 - 24 * ((jv : ℤ) + 1) := ⟨_, rfl⟩
  have hlo : -3 ≤ e0 := by omega
  have hhi : e0 ≤ 1000 := by omega
  have hq2 : q0 ≤ 2 := by
    obtain ⟨a, -, -⟩ := exps_of hlo hhi hjv hq0 (K := (216 - q0).toNat) (by
      have : q0 ≤ 216 := by
        rw [hq0, hjv]
        by_cases h : 3 ≤ e0
        · rw [Int.tdiv_eq_ediv_of_nonneg (by omega)]
          omega
        · omega
      omega)
    exact a.hi
  have hK : (((216 - q0).toNat : ℕ) : ℤ) = 216 - q0 := by omega
  obtain ⟨hexp, -, -⟩ := exps_of hlo hhi hjv hq0 hK
  have hmarg := marg53 hlo hhi hjv hq0 hK (words_U (2 ^ 52 + x.mb % 2 ^ 52)) (by omega) (by omega)
  obtain ⟨n, y, y1, jz, B, G, jz', d, sg, hrun, hy1, hred⟩ := large1 ht hinp hlen (by omega) hjv hq0 hexp hmarg le_rfl (by omega) 0.0 0.0 0.0
  refine ⟨if x.sign then -n else n, if x.sign then -y else y, if x.sign then -y1 else y1, ?_, ?_,
    ⟨e0, jv, q0, n, y, jz, B, G, jz', d, sg, rfl, hjv, hq0, hred, rfl, rfl⟩⟩
  · rw [RemPio2.large]
    simp only
    rw [hsp]
    simp only
    rw [he, hrun]
    simp only [Option.bind_some]
    split_ifs <;> rfl
  · split_ifs
    · exact (isFinite_neg _).2 hy1
    · exact hy1

/-- the single word of a 24-bit integer -/
def word1 (M : ℕ) (j : ℕ) : ℕ := if j = 0 then M else 0

/-- facts about the reduction of a large float -/
structure Red32 (x : Flt f32) (n : ℤ) (y : Flt f64) : Prop where
  ex : ∃ (e0 : ℤ) (jv : ℕ) (q0 : ℤ) (n' : ℤ) (y' : Flt f64) (jz B G jz' : ℕ) (d : ℕ → ℕ) (sg : ℤ),
    e0 = ((x.mb / 2 ^ 23 : ℕ) : ℤ) - 150 ∧ jv = ((e0 - 3).tdiv 24).toNat ∧ q0 = e0 - 24 * ((jv : ℤ) + 1) ∧
    Red (word1 (2 ^ 23 + x.mb % 2 ^ 23)) jv 3 30 q0 n' y' jz B G jz' d sg ∧
    n = (if x.sign then -n' else n') ∧ y = (if x.sign then -y' else y')

/-- large floats: the reduction returns -/
theorem large32 {tbl : List ℤ} (ht : GoodTbl tbl) (x : Flt f32) (hx : x.isFinite) (hbig : 0x4dc90fdb ≤ x.mb) :
    ∃ n y, remPio2fWith tbl x = some (n, y) ∧ Red32 x n y := by
  have hfin : x.mb < 255 * 2 ^ 23 := (isFinite32 x).1 hx
  have hix : (x.u32 &&& 0x7fffffff#32).toNat = x.mb := u32_abs x
  set ix := x.u32 &&& 0x7fffffff#32 with hix'
  set M := 2 ^ 23 + x.mb % 2 ^ 23 with hM
  set e0 : ℤ := ((x.mb / 2 ^ 23 : ℕ) : ℤ) - 150 with he0
  have hsh : (ix >>> 23).toNat = x.mb / 2 ^ 23 := by
    rw [BitVec.toNat_ushiftRight, hix, Nat.shiftRight_eq_div_pow]
  have hu1 : usub (ix >>> 23) (0x7f#32 + 23#32) = some (ix >>> 23 - (0x7f#32 + 23#32)) := by
    unfold usub
    rw [if_pos]
    rw [hsh]
    show 150 ≤ _
    omega
  have hs1 : (ix >>> 23 - (0x7f#32 + 23#32)).toNat = x.mb / 2 ^ 23 - 150 := by
    rw [BitVec.toNat_sub_of_le]
    · rw [hsh]
      rfl
    · rw [BitVec.le_def, hsh]
      show 150 ≤ _
      omega
  have hs2 : ((ix >>> 23 - (0x7f#32 + 23#32)) <<< 23).toNat = (x.mb / 2 ^ 23 - 150) * 2 ^ 23 := by
    rw [BitVec.toNat_shiftLeft, hs1, Nat.shiftLeft_eq, Nat.mod_eq_of_lt (by omega)]
  have hle : (ix >>> 23 - (0x7f#32 + 23#32)) <<< 23 ≤ ix := by
    rw [BitVec.le_def, hs2, hix]
    omega
  have hu2 : usub ix ((ix >>> 23 - (0x7f#32 + 23#32)) <<< 23) = some (ix - (ix >>> 23 - (0x7f#32 + 23#32)) <<< 23) := by
    unfold usub
    rw [if_pos (BitVec.le_def.1 hle)]
  have hb : (ix - (ix >>> 23 - (0x7f#32 + 23#32)) <<< 23).toNat = 150 * 2 ^ 23 + x.mb % 2 ^ 23 := by
    rw [BitVec.toNat_sub_of_le hle, hs2, hix]
    omega
  have hcast : Is ((bits32 (ix - (ix >>> 23 - (0x7f#32 + 23#32)) <<< 23)).cast f64) (M : ℤ) 0 := by
    have hb31 : (ix - (ix >>> 23 - (0x7f#32 + 23#32)) <<< 23).toNat < 2 ^ 31 := by rw [hb]; omega
    rw [bits32_mk hb31, hb]
    have hb' : 150 * 2 ^ 23 + x.mb % 2 ^ 23 < 2 ^ (f32.ew + f32.sb) := by
      have : f32.ew + f32.sb = 31 := rfl
      rw [this]
      omega
    set z := mk' f32 false (150 * 2 ^ 23 + x.mb % 2 ^ 23) with hz
    have hmb : z.mb = 150 * 2 ^ 23 + x.mb % 2 ^ 23 := mb_mk' hb'
    have hs : z.sign = false := sign_mk' hb'
    have hzf : z.isFinite := by
      rw [isFinite32, hmb]
      omega
    have hM53 : |(M : ℤ)| ≤ 2 ^ 53 := by
      rw [Nat.abs_cast]
      have : M < 2 ^ 24 := by omega
      exact_mod_cast (by omega : M ≤ 2 ^ 53)
    refine Is.of_rne (cast_rne hzf) ?_ hM53 (by norm_num) (by norm_num)
    have := val_normal32 z (by omega)
    rw [abs_of_nonneg (val_nonneg hs), hmb] at this
    rw [this]
    have e1 : (150 * 2 ^ 23 + x.mb % 2 ^ 23) % 2 ^ 23 = x.mb % 2 ^ 23 := by omega
    have e2 : (150 * 2 ^ 23 + x.mb % 2 ^ 23) / 2 ^ 23 = 150 := by omega
    rw [e1, e2, ← hM]
    generalize M = k
    norm_num
  have hinp : Inp [(bits32 (ix - (ix >>> 23 - (0x7f#32 + 23#32)) <<< 23)).cast f64] 0 (word1 M) := by
    refine ⟨by norm_num, ?_, ?_, ?_⟩
    · intro j hj
      obtain rfl : j = 0 := by omega
      exact ⟨_, rfl, hcast⟩
    · intro j
      unfold word1
      split_ifs <;> omega
    · intro j hj
      unfold word1
      rw [if_neg (by omega)]
  have hU : U (word1 M) = M * 2 ^ 48 := by
    unfold U word1
    simp
  obtain ⟨jv, hjv⟩ : ∃ jv : ℕ, jv = ((e0 - 3).tdiv 24).toNat := ⟨_, rfl⟩
  obtain ⟨q0, hq0⟩ : ∃ q0 : ℤ, q0 = e0 - 24 * ((jv : ℤ) + 1) := ⟨_, rfl⟩
  have hlo : 5 ≤ e0 := by omega
  have hhi : e0 ≤ 104 := by omega
  have hq216 : q0 ≤ 216 := by
    rw [hq0, hjv, Int.tdiv_eq_ediv_of_nonneg (by omega)]
    omega
  have hK : (((216 - q0).toNat : ℕ) : ℤ) = 216 - q0 := by omega
  obtain ⟨hexp, -, -⟩ := exps_of (by omega) (by omega) hjv hq0 hK
  have hq2 := hexp.hi
  have hmarg := marg24 hlo hhi hjv hq0 hK hU (by omega) (by omega)
  obtain ⟨n, y, jz, B, G, jz', d, sg, hrun, hred⟩ := large0 ht hinp rfl (by omega) hjv hq0 hexp hmarg (by norm_num) (by omega) 0.0
  refine ⟨if x.sign then -n else n, if x.sign then -y else y, ?_,
    ⟨e0, jv, q0, n, y, jz, B, G, jz', d, sg, rfl, hjv, hq0, hred, rfl, rfl⟩⟩
  rw [remPio2fWith]
  simp only
  rw [← hix', if_neg (by rw [BitVec.lt_def, hix]; show ¬ _ < 0x4dc90fdb; omega),
    if_neg (by show ¬ (0x7f800000#32 ≤ ix); rw [BitVec.le_def, hix]; show ¬ 0x7f800000 ≤ _; omega), hu1]
  simp only [Option.bind_some]
  rw [hu2]
  simp only [Option.bind_some]
  rw [hs1]
  have : ((x.mb / 2 ^ 23 - 150 : ℕ) : ℤ) = e0 := by omega
  rw [this, hrun]
  simp only [Option.bind_some]
  split_ifs <;> rfl

end Rpl
end Verif
