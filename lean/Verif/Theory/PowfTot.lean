import Verif.Theory.PowTot2

/-!
# powf: every step returns
-/

namespace Verif
open Flt
namespace Powf
open PowT AsW

theorem v_one : (1.0 : Flt f32).val = 1 := by
  rw [val_const32 1 149 0 (by decide +kernel) (by norm_num)]; norm_num
theorem v_two : (2.0 : Flt f32).val = 2 := by
  rw [val_const32 1 150 1 (by decide +kernel) (by norm_num)]; norm_num
theorem v_three : (3.0 : Flt f32).val = 3 := by
  rw [val_const32 3 149 0 (by decide +kernel) (by norm_num)]; norm_num

/-- bounds on a constant, through integers -/
theorem bd_const {c : Flt f32} {a b : ℕ} (hf : c.isFinite) (h : |c.sval| * 2 ^ b ≤ a * 2 ^ 149) : Bd c (a / 2 ^ b) := by
  refine .mk hf ?_
  rw [abs_val_div, le_div_iff₀ (by positivity), div_mul_eq_mul_div, div_le_iff₀ (by exact_mod_cast f32.oneMag_pos)]
  have e : f32.oneMag = 2 ^ 149 := by rw [oneMag_eq, f32_bias, f32_sb]
  rw [e]
  have e2 : |c.sval| = (c.mag : ℤ) := by rw [← sval_natAbs, Int.abs_eq_natAbs]
  rw [e2] at h
  exact_mod_cast h

theorem bd_const' {c : Flt f32} {b : ℕ} (hf : c.isFinite) (h : |c.sval| * 2 ^ b ≤ 1 * 2 ^ 149) : Bd c (1 / 2 ^ b) := by
  have := bd_const (c := c) (a := 1) (b := b) hf (by exact_mod_cast h)
  exact_mod_cast this

theorem bd_one : Bd (1.0 : Flt f32) 1 := .mk (by decide +kernel) (by rw [v_one]; norm_num)
theorem bd_two : Bd (2.0 : Flt f32) 2 := .mk (by decide +kernel) (by rw [v_two]; norm_num)
theorem bd_three : Bd (3.0 : Flt f32) 3 := .mk (by decide +kernel) (by rw [v_three]; norm_num)

theorem bits_sign_mb (w : BitVec 32) : (bits32 w).sign = decide (2 ^ 31 ≤ w.toNat) ∧ (bits32 w).mb = w.toNat % 2 ^ 31 := by
  have h := u32_toNat (bits32 w)
  have h3 := mb32_lt (bits32 w)
  rw [u32_bits32] at h
  generalize (bits32 w).mb = M at *
  generalize (bits32 w).sign = S at *
  cases S
  · rw [if_neg (by decide)] at h
    exact ⟨(decide_eq_false (by omega)).symm, by omega⟩
  · rw [if_pos rfl] at h
    exact ⟨(decide_eq_true (by omega)).symm, by omega⟩

theorem exp2Tail_some {s ph pl : Flt f32} {n : ℤ} (hph : Bd ph 2048) (hpl : Bd pl 2048) (h : |pl.val + ph.val| ≤ 129 / 2 ^ 8)
    (h1 : -200 ≤ n) (h2 : n ≤ 128) : ∃ r, exp2Tail s ph pl n = some r ∧ SP s r := by
  obtain ⟨a, b, c⟩ := tail_core W32 cuts32' (lg2 := lg2) (lg2H := lg2H) (lg2L := lg2L) (p1 := p1) (p2 := p2) (p3 := p3) (p4 := p4) (p5 := p5)
    (one := 1.0) (two := 2.0) (ph := ph) (pl := pl)
    (bd_const (a := 89) (b := 7) (by decide +kernel) (by decide +kernel)) (bd_const (a := 89) (b := 7) (by decide +kernel) (by decide +kernel))
    (bd_const' (by decide +kernel) (by decide +kernel))
    (bd_const (a := 11) (b := 6) (by decide +kernel) (by decide +kernel))
    (bd_const' (by decide +kernel) (by decide +kernel))
    (bd_const' (by decide +kernel) (by decide +kernel))
    (bd_const' (by decide +kernel) (by decide +kernel))
    (bd_const' (by decide +kernel) (by decide +kernel))
    bd_two v_two bd_one v_one hph hpl h
  have hz : ∃ z, z = tailZ (fun x => bits32 (x.u32 &&& 0xffff8000#32)) lg2 lg2H lg2L p1 p2 p3 p4 p5 1.0 2.0 ph pl := ⟨_, rfl⟩
  obtain ⟨z, ez⟩ := hz
  have e : exp2Tail s ph pl n = (iadd z.u32 (BitVec.ofInt 32 n <<< 23)).bind fun j =>
      if (j.sshiftRight 23).toInt ≤ 0 then (Generic.scalbn z n).map fun z => s * z
      else some (s * bits32 j) := by rw [ez]; rfl
  rw [← ez] at a b c
  have hs : z.sign = false := by
    by_contra hs
    have := val_nonpos (x := z) (by simpa using hs)
    linarith
  have hm : z.mb < 128 * 2 ^ 23 := by
    by_contra hm
    have := val_ge_of_mb (x := z) (E := 128) (by norm_num) (by rw [f32_sb]; omega)
    rw [f32_bias, abs_of_nonneg (by linarith)] at this
    norm_num at this
    linarith
  obtain ⟨r, hr⟩ := iadd_some (j := z.u32) (n := n) (k := 23) (by rw [u32_toNat, hs]; simp; omega) (by omega) (by omega) (by norm_num)
  rw [e, hr]
  simp only [Option.bind_some]
  split
  · obtain ⟨q, hq, -, hqs⟩ := scalbn_finite (F := f32) (by simp [IsLibFmt]) z a n (by omega) (by omega)
    exact ⟨s * q, by rw [hq]; rfl, sp_mul (hqs.trans hs)⟩
  · rename_i hj
    refine ⟨_, rfl, sp_mul ?_⟩
    rw [(bits_sign_mb r).1]
    exact decide_eq_false (not_le.2 (word_pos hj))

/-- rounding to the nearest integer on the encoding -/
theorem split_nat {m : ℕ} (h : 0x3f000000 < m) (h2 : m ≤ 0x43160000) :
    ∃ s k N, s ≤ 8 ∧ m / 2 ^ 23 = 126 + s ∧ k ≤ 7 ∧ (m + 2 ^ (23 - s)) / 2 ^ 23 = 127 + k ∧
      ((m + 2 ^ (23 - s)) % 2 ^ 23 + 2 ^ 23) / 2 ^ (23 - k) = N ∧
      (2 ^ 23 + ((m + 2 ^ (23 - s)) - (m + 2 ^ (23 - s)) % 2 ^ (23 - k)) % 2 ^ 23) = N * 2 ^ (23 - k) ∧
      ((m + 2 ^ (23 - s)) - (m + 2 ^ (23 - s)) % 2 ^ (23 - k)) / 2 ^ 23 = 127 + k ∧
      N * 2 ^ (25 - s) ≤ (2 ^ 23 + m % 2 ^ 23) * 2 + 2 ^ (24 - s) ∧ (2 ^ 23 + m % 2 ^ 23) * 2 ≤ N * 2 ^ (25 - s) + 2 ^ (24 - s) ∧
      N ≤ 150 ∧ (m ≤ 0x43000000 → N ≤ 128) := by
  obtain ⟨s, hs, hs2⟩ : ∃ s, s ≤ 8 ∧ m / 2 ^ 23 = 126 + s := ⟨m / 2 ^ 23 - 126, by omega, by omega⟩
  interval_cases s
  · have h5 : (m + 2 ^ (23 - 0)) / 2 ^ 23 = 127 + 0 := by omega
    exact ⟨0, 0, _, by norm_num, hs2, by norm_num, h5, rfl, by omega, by omega, by omega, by omega, by omega, by omega⟩
  · have h5 : (m + 2 ^ (23 - 1)) / 2 ^ 23 = 127 + 0 ∨ (m + 2 ^ (23 - 1)) / 2 ^ 23 = 127 + 1 := by omega
    rcases h5 with h5 | h5
    · exact ⟨1, 0, _, by norm_num, hs2, by norm_num, h5, rfl, by omega, by omega, by omega, by omega, by omega, by omega⟩
    · exact ⟨1, 1, _, by norm_num, hs2, by norm_num, h5, rfl, by omega, by omega, by omega, by omega, by omega, by omega⟩
  · have h5 : (m + 2 ^ (23 - 2)) / 2 ^ 23 = 127 + 1 ∨ (m + 2 ^ (23 - 2)) / 2 ^ 23 = 127 + 2 := by omega
    rcases h5 with h5 | h5
    · exact ⟨2, 1, _, by norm_num, hs2, by norm_num, h5, rfl, by omega, by omega, by omega, by omega, by omega, by omega⟩
    · exact ⟨2, 2, _, by norm_num, hs2, by norm_num, h5, rfl, by omega, by omega, by omega, by omega, by omega, by omega⟩
  · have h5 : (m + 2 ^ (23 - 3)) / 2 ^ 23 = 127 + 2 ∨ (m + 2 ^ (23 - 3)) / 2 ^ 23 = 127 + 3 := by omega
    rcases h5 with h5 | h5
    · exact ⟨3, 2, _, by norm_num, hs2, by norm_num, h5, rfl, by omega, by omega, by omega, by omega, by omega, by omega⟩
    · exact ⟨3, 3, _, by norm_num, hs2, by norm_num, h5, rfl, by omega, by omega, by omega, by omega, by omega, by omega⟩
  · have h5 : (m + 2 ^ (23 - 4)) / 2 ^ 23 = 127 + 3 ∨ (m + 2 ^ (23 - 4)) / 2 ^ 23 = 127 + 4 := by omega
    rcases h5 with h5 | h5
    · exact ⟨4, 3, _, by norm_num, hs2, by norm_num, h5, rfl, by omega, by omega, by omega, by omega, by omega, by omega⟩
    · exact ⟨4, 4, _, by norm_num, hs2, by norm_num, h5, rfl, by omega, by omega, by omega, by omega, by omega, by omega⟩
  · have h5 : (m + 2 ^ (23 - 5)) / 2 ^ 23 = 127 + 4 ∨ (m + 2 ^ (23 - 5)) / 2 ^ 23 = 127 + 5 := by omega
    rcases h5 with h5 | h5
    · exact ⟨5, 4, _, by norm_num, hs2, by norm_num, h5, rfl, by omega, by omega, by omega, by omega, by omega, by omega⟩
    · exact ⟨5, 5, _, by norm_num, hs2, by norm_num, h5, rfl, by omega, by omega, by omega, by omega, by omega, by omega⟩
  · have h5 : (m + 2 ^ (23 - 6)) / 2 ^ 23 = 127 + 5 ∨ (m + 2 ^ (23 - 6)) / 2 ^ 23 = 127 + 6 := by omega
    rcases h5 with h5 | h5
    · exact ⟨6, 5, _, by norm_num, hs2, by norm_num, h5, rfl, by omega, by omega, by omega, by omega, by omega, by omega⟩
    · exact ⟨6, 6, _, by norm_num, hs2, by norm_num, h5, rfl, by omega, by omega, by omega, by omega, by omega, by omega⟩
  · have h5 : (m + 2 ^ (23 - 7)) / 2 ^ 23 = 127 + 6 ∨ (m + 2 ^ (23 - 7)) / 2 ^ 23 = 127 + 7 := by omega
    rcases h5 with h5 | h5
    · exact ⟨7, 6, _, by norm_num, hs2, by norm_num, h5, rfl, by omega, by omega, by omega, by omega, by omega, by omega⟩
    · exact ⟨7, 7, _, by norm_num, hs2, by norm_num, h5, rfl, by omega, by omega, by omega, by omega, by omega, by omega⟩
  · have h5 : (m + 2 ^ (23 - 8)) / 2 ^ 23 = 127 + 7 := by omega
    exact ⟨8, 7, _, by norm_num, hs2, by norm_num, h5, rfl, by omega, by omega, by omega, by omega, by omega, by omega⟩

theorem exp2Split_some {s ph pl z : Flt f32} (hph : ph.isFinite) (hpl : pl.isFinite) (h1 : |pl.val| ≤ 512) (h2 : |ph.val| ≤ 1600)
    (hz : |z.val - (pl.val + ph.val)| ≤ 1 / 2 ^ 12) (hi : z.mb ≤ 0x43160000) (hp : z.sign = false → z.mb ≤ 0x43000000) :
    ∃ r, exp2Split s ph pl (z.u32) = some r ∧ SP s r := by
  obtain ⟨j, ej⟩ : ∃ j, j = z.u32 := ⟨_, rfl⟩
  have hj := u32_toNat z
  have hm := and_mag hj (by omega)
  rw [← ej] at hj hm ⊢
  have hplB : Bd pl 2048 := .mk hpl (h1.trans (by norm_num))
  unfold exp2Split
  dsimp only
  split
  · rename_i hgt
    have hgt' : 0x3f000000 < z.mb := by rw [← hm]; exact BitVec.lt_def.1 hgt
    obtain ⟨q, k, N, hq, hE, hk, hk2, hN, hN2, hE2, hlo, hhi, hNb, hNp⟩ := split_nat hgt' hi
    have e1 : (((j &&& 0x7fffffff#32) >>> 23).toNat : ℤ) - 0x7f + 1 = (q : ℕ) := by
      rw [BV.shr, hm, hE]; push_cast; ring
    rw [Pow.sh32_some e1 (by omega), Option.bind_some]
    have e2 : (0x00800000#32 >>> q).toNat = 2 ^ (23 - q) := by
      rw [BV.shr, show (0x00800000#32).toNat = 2 ^ 23 by decide, Nat.pow_div (by omega) (by norm_num)]
    have hq20 : 2 ^ (23 - q) ≤ 2 ^ 23 := Nat.pow_le_pow_right (by norm_num) (by omega)
    obtain ⟨n, hn, hn2⟩ := iadd_mag (b := 0x00800000#32 >>> q) hj (by rw [e2]; omega)
    rw [e2] at hn2
    rw [hn, Option.bind_some]
    obtain ⟨i', ei⟩ : ∃ i', i' = z.mb + 2 ^ (23 - q) := ⟨_, rfl⟩
    rw [← ei] at hn2 hk2 hN hN2 hE2
    have hi' : i' < 2 ^ 31 := by omega
    have hm' := and_mag hn2 hi'
    have e3 : (((n &&& 0x7fffffff#32) >>> 23).toNat : ℤ) - 0x7f = (k : ℕ) := by
      rw [BV.shr, hm', hk2]; push_cast; ring
    have e3' : (((n &&& 0x7fffffff#32) >>> 23).toNat : ℤ) - 0x7f = k := e3
    rw [Pow.sh32_some e3 (by omega), Option.bind_some, e3', Pow.sh32_some (s := 23 - (k : ℤ)) (n := 23 - k) (by omega) (by omega), Option.bind_some]
    have e4 : (((n &&& 0x007fffff#32) ||| 0x00800000#32) >>> (23 - k)).toNat = N := by
      rw [BV.shr, BitVec.or_comm, BV.or_disjoint (k := 23) (by decide) (by rw [BV.and_low (k := 23) (by decide)]; omega),
        BV.and_low (k := 23) (by decide), show (0x00800000#32).toNat = 2 ^ 23 by decide, ← hN]
      congr 1
      rw [hn2]
      split <;> omega
    rw [e4]
    -- the integer as a float
    obtain ⟨t, et⟩ : ∃ t, t = bits32 (n &&& ~~~(0x007fffff#32 >>> k)) := ⟨_, rfl⟩
    rw [← et]
    have e5 : (n &&& ~~~(0x007fffff#32 >>> k)).toNat = n.toNat - n.toNat % 2 ^ (23 - k) := by
      refine BV.and_not_low ?_
      rw [BV.shr, show (0x007fffff#32).toNat = 2 ^ 23 - 1 by decide]
      interval_cases k <;> decide
    obtain ⟨t1, t2⟩ := bits_sign_mb (n &&& ~~~(0x007fffff#32 >>> k))
    rw [← et, e5] at t1 t2
    have hpow : 2 ^ (23 - k) ∣ 2 ^ 31 := pow_dvd_pow 2 (by omega)
    have hd : n.toNat % 2 ^ (23 - k) = i' % 2 ^ (23 - k) := by
      rw [hn2]
      split
      · obtain ⟨c, hc⟩ := hpow
        rw [hc, Nat.add_mul_mod_self_left]
      · rfl
    have hle := Nat.mod_le i' (2 ^ (23 - k))
    have ht2 : t.mb = i' - i' % 2 ^ (23 - k) := by
      rw [t2, hd, hn2]
      split <;> omega
    have ht1 : t.sign = z.sign := by
      rw [t1, hd, hn2]
      cases z.sign
      · exact decide_eq_false (by simp only [Bool.false_eq_true, if_false]; omega)
      · exact decide_eq_true (by simp only [if_true]; omega)
    have htE : t.mb / 2 ^ f32.sb = 127 + k := by rw [f32_sb, ht2]; omega
    have htv : |t.val| = N := by
      rw [abs_val_normal (by rw [f32_bias]; norm_num) (by omega) htE, f32_sb, f32_bias]
      have : 2 ^ 23 + t.mb % 2 ^ 23 = N * 2 ^ (23 - k) := by rw [ht2, ← hN2]
      rw [this, Nat.cast_mul, Nat.cast_pow, Nat.cast_ofNat, mul_assoc, ← zpow_natCast,
        ← zpow_add₀ (by norm_num),
        show (((23 - k : ℕ) : ℤ) + (((127 + k : ℕ) : ℤ) - ((127 : ℕ) : ℤ) - ((23 : ℕ) : ℤ))) = 0 by omega, zpow_zero, mul_one]
    have htf : t.isFinite := by
      rw [isFinite_iff, f32.infEnc_eq, f32_bias, f32_sb, ht2]
      omega
    have hzv : |z.val| = ((2 ^ 23 + z.mb % 2 ^ 23 : ℕ) : ℝ) * 2 ^ ((q : ℤ) - 24) := by
      rw [abs_val_normal (E := 126 + q) (by rw [f32_bias]; norm_num) (by omega) (by rw [f32_sb]; exact hE), f32_sb, f32_bias]
      congr 2
      push_cast; ring
    have hzt : |z.val - t.val| ≤ 1 / 2 := by
      rw [abs_sub_sign ht1, htv, hzv]
      have hP : (0 : ℝ) < 2 ^ (25 - q) := by positivity
      have hP2 : (2 : ℝ) ^ ((q : ℤ) - 24) * 2 ^ (25 - q) = 2 := by
        rw [← zpow_natCast, ← zpow_add₀ (by norm_num), show ((q : ℤ) - 24 + ((25 - q : ℕ) : ℤ)) = 1 by omega, zpow_one]
      have hP3 : (2 : ℝ) ^ (25 - q) = 2 * 2 ^ (24 - q) := by rw [show 25 - q = (24 - q) + 1 by omega, pow_succ]; ring
      have hlo' : (N : ℝ) * 2 ^ (25 - q) ≤ ((2 ^ 23 + z.mb % 2 ^ 23 : ℕ) : ℝ) * 2 + 2 ^ (24 - q) := by exact_mod_cast hlo
      have hhi' : ((2 ^ 23 + z.mb % 2 ^ 23 : ℕ) : ℝ) * 2 ≤ (N : ℝ) * 2 ^ (25 - q) + 2 ^ (24 - q) := by exact_mod_cast hhi
      generalize ((2 ^ 23 + z.mb % 2 ^ 23 : ℕ) : ℝ) = A at *
      rw [abs_le]
      constructor
      · refine le_of_mul_le_mul_right ?_ hP
        rw [sub_mul, mul_assoc, hP2]; linarith
      · refine le_of_mul_le_mul_right ?_ hP
        rw [sub_mul, mul_assoc, hP2]; linarith
    obtain ⟨r1, r2⟩ := red_core W32 hph hpl htf h1 hz hzt
    refine exp2Tail_some r1 hplB r2 ?_ ?_
    · split <;> omega
    · split
      · omega
      · rename_i hneg
        have hs : z.sign = false := by
          by_contra hs
          rw [ej, Pow.u32_toInt_neg] at hneg
          exact hneg (by simpa using hs)
        have := hNp (hp hs)
        omega
  · rename_i hgt
    have hgt' : z.mb ≤ 0x3f000000 := by
      rw [← hm]; exact not_lt.1 fun h => hgt (BitVec.lt_def.2 h)
    have hz1 : |z.val| ≤ 1 / 2 + 1 / 2 ^ 12 := by
      have hm2 : z.mb ≤ (bits32 0x3f000000).mb := by
        rw [show (bits32 0x3f000000).mb = 0x3f000000 by decide +kernel]; exact hgt'
      have := val_mono hm2
      rw [val_const32 (x := bits32 0x3f000000) 1 148 (-1) (by decide +kernel) (by norm_num)] at this
      refine this.trans ?_
      rw [zpow_neg, abs_of_nonneg (by positivity)]
      norm_num
    refine exp2Tail_some (.mk hph (h2.trans (by norm_num))) hplB ?_ (by norm_num) (by norm_num)
    have := abs_sub_abs_le_abs_sub (pl.val + ph.val) z.val
    rw [abs_sub_comm] at hz
    norm_num at *
    linarith

theorem u32_toInt (z : Flt f32) : z.u32.toInt = if z.sign then (z.mb : ℤ) - 2 ^ 31 else (z.mb : ℤ) := by
  have h := u32_toNat z
  have h3 := mb32_lt z
  cases hs : z.sign
  · rw [hs] at h
    simp only [Bool.false_eq_true, if_false] at h ⊢
    rw [BitVec.toInt_eq_toNat_of_lt (by omega)]; omega
  · rw [hs] at h
    simp only [if_true] at h ⊢
    rw [BitVec.toInt_eq_toNat_cond, if_neg (by omega)]; omega

/-- multiplying out and exponentiating returns -/
theorem mulOut_some {s y t1 t2 : Flt f32} (hy : y.isFinite) (h1 : t1.isFinite) (h2 : t2.isFinite) (h21 : |t2.val| ≤ |t1.val| / 4)
    (ht1 : |t1.val| ≤ 2 ^ 14) (hM : |y.val| * |t1.val| ≤ 2 ^ 110) : ∃ r, mulOut s y t1 t2 = some r ∧ SP s r := by
  obtain ⟨a, b, c, d⟩ := mul_core W32 cuts32 hy h1 h2 h21 ht1 hM
  unfold mulOut
  dsimp only at a b c d ⊢
  generalize (y - top y) * t1 + y * t2 = pl at *
  generalize top y * t1 = ph at *
  obtain ⟨z, ez⟩ : ∃ z, z = pl + ph := ⟨_, rfl⟩
  rw [← ez] at c d ⊢
  have hj := u32_toNat z
  have hI := u32_toInt z
  have hb := mb32_lt z
  have hm := and_mag hj (by omega)
  have key : z.mb ≤ 0x43160000 → (z.sign = false → z.mb ≤ 0x43000000) → ∃ r, exp2Split s ph pl z.u32 = some r ∧ SP s r := by
    intro k1 k2
    have hz : |z.val| ≤ 1101 := by
      have hm2 : z.mb ≤ (bits32 0x43800000).mb := by
        rw [show (bits32 0x43800000).mb = 0x43800000 by decide +kernel]; omega
      have := val_mono hm2
      rw [val_const32 (x := bits32 0x43800000) 1 157 8 (by decide +kernel) (by norm_num)] at this
      refine this.trans ?_
      rw [abs_of_nonneg (by positivity)]
      norm_num
    obtain ⟨d1, d2, d3⟩ := d hz
    exact exp2Split_some b a d1 d2 d3 k1 k2
  split
  · exact ⟨_, rfl, sp_mul2 (by decide +kernel)⟩
  rename_i hle
  have hp : z.sign = false → z.mb ≤ 0x43000000 := by
    intro hs
    rw [hI, hs] at hle
    simp only [Bool.false_eq_true, if_false] at hle
    omega
  split
  · rename_i he
    split
    · exact ⟨_, rfl, sp_mul2 (by decide +kernel)⟩
    · refine key ?_ hp
      rw [← hm, he]; decide
  split
  · exact ⟨_, rfl, sp_mul2 (by decide +kernel)⟩
  rename_i hlt
  rw [gt_iff_lt, BitVec.lt_def, hm, show (0x43160000#32).toNat = 0x43160000 from rfl] at hlt
  split
  · exact ⟨_, rfl, sp_mul2 (by decide +kernel)⟩
  · exact key (by omega) hp

theorem cpH_lo : 15 / 16 ≤ cpH.val := by
  rw [val_const32 (x := cpH) 985 139 (-10) (by decide +kernel) (by norm_num), zpow_neg]; norm_num

theorem v_dpH1 : (5.84960938e-01 : Flt f32).val = (599 : ℤ) * 2 ^ (-10 : ℤ) :=
  val_const32 599 139 (-10) (by decide +kernel) (by norm_num)
theorem v_15 : (1.5 : Flt f32).val = 3 / 2 := by
  rw [val_const32 3 148 (-1) (by decide +kernel) (by norm_num), zpow_neg]; norm_num
theorem v_0 : (0.0 : Flt f32).val = 0 := by
  rw [val_const32 0 0 (-149) (by decide +kernel) (by norm_num)]; norm_num

theorem ofInt_tab : ∀ k : Fin 513, (ofInt f32 ((k.val : ℤ) - 256)).isFinite ∧ (ofInt f32 ((k.val : ℤ) - 256)).sval = ((k.val : ℤ) - 256) * 2 ^ 149 := by
  decide +kernel

theorem ofInt_val {n : ℤ} (h : |n| ≤ 2 ^ 8) : (ofInt f32 n).isFinite ∧ (ofInt f32 n).val = n := by
  rw [abs_le] at h
  obtain ⟨a, b⟩ := ofInt_tab ⟨(n + 256).toNat, by omega⟩
  have e : (((n + 256).toNat : ℕ) : ℤ) - 256 = n := by omega
  simp only [e] at a b
  exact ⟨a, by rw [val_const32 n 149 0 b (by norm_num), zpow_zero, mul_one]⟩

theorem ge32 {x : Flt f32} (hs : x.sign = false) {b : BitVec 32} (m : ℤ) (k : ℕ) (e : ℤ) (h : b.toNat ≤ x.mb) (hb : (bits32 b).mb = b.toNat)
    (hv : (bits32 b).sval = m * 2 ^ k) (he : (k : ℤ) - 149 = e) (hm : 0 ≤ m) : (m : ℝ) * 2 ^ e ≤ x.val := by
  have := val_mono (x := x) (y := bits32 b) (by omega)
  rw [val_const32 (x := bits32 b) m k e hv he, abs_of_nonneg (val_nonneg hs), abs_of_nonneg (by positivity)] at this
  exact this

theorem le32 {x : Flt f32} {b : BitVec 32} (m : ℤ) (k : ℕ) (e : ℤ) (h : x.mb ≤ b.toNat) (hb : (bits32 b).mb = b.toNat)
    (hv : (bits32 b).sval = m * 2 ^ k) (he : (k : ℤ) - 149 = e) (hm : 0 ≤ m) : x.val ≤ (m : ℝ) * 2 ^ e := by
  have := val_mono (x := bits32 b) (y := x) (by omega)
  rw [val_const32 (x := bits32 b) m k e hv he, abs_of_nonneg (a := (m : ℝ) * _) (by positivity)] at this
  exact (le_abs_self _).trans this

/-- the word for the first approximation of the divisor -/
theorem th_word {ix : BitVec 32} {k : ℕ} (hk : k ≤ 1) (h1 : 0x3f000000 ≤ ix.toNat) (h2 : ix.toNat < 0x40000000) :
    ∃ w w', uadd (((ix >>> 1) &&& 0xfffff000#32) ||| 0x20000000#32) 0x00400000#32 = some w ∧ uadd w (BitVec.ofNat 32 k <<< 21) = some w' ∧ w'.toNat < 0x40800000 := by
  have e0 : ((ix >>> 1) &&& 0xfffff000#32).toNat = ix.toNat / 2 - ix.toNat / 2 % 2 ^ 12 := by
    rw [show (0xfffff000#32) = ~~~(0xfff#32) by decide, BV.and_not_low (k := 12) (by decide), BV.shr, pow_one]
  have e1 : (((ix >>> 1) &&& 0xfffff000#32) ||| 0x20000000#32).toNat = 0x20000000 + (ix.toNat / 2 - ix.toNat / 2 % 2 ^ 12) := by
    rw [BitVec.or_comm, BV.or_disjoint (k := 29) (by decide) (by rw [e0]; omega), e0]; rfl
  generalize ((ix >>> 1) &&& 0xfffff000#32) ||| 0x20000000#32 = v at *
  have e2 : (BitVec.ofNat 32 k <<< 21).toNat = k * 2 ^ 21 := by
    rw [BV.shl, BitVec.toNat_ofNat]; omega
  have e3 : (0x00400000#32).toNat = 0x400000 := by decide
  have e4 : (v + 0x00400000#32).toNat = v.toNat + 0x400000 := by
    rw [BitVec.toNat_add, e3]; omega
  refine ⟨v + 0x00400000#32, v + 0x00400000#32 + (BitVec.ofNat 32 k <<< 21), ?_, ?_, ?_⟩
  · rw [uadd, if_pos (by rw [e1, e3]; omega)]
  · rw [uadd, if_pos (by rw [e4, e2]; omega)]
  · rw [BitVec.toNat_add, e4, e2]; omega

theorem th_bd {w : BitVec 32} (h : w.toNat < 0x40800000) : Bd (bits32 w) 4 := by
  obtain ⟨-, h2⟩ := bits_sign_mb w
  refine .mk ?_ ?_
  · rw [isFinite_iff, f32.infEnc_eq, f32_bias, f32_sb, h2]; omega
  · have := val_lt_of_mb (x := bits32 w) (E := 129) (by norm_num) (by rw [f32_sb, h2]; omega)
    rw [f32_bias] at this
    norm_num at this
    exact this.le

theorem logCore_eq {ax b dph dpl : Flt f32} {ix w w' : BitVec 32} {k : ℕ} {n : ℤ} (hb : bp[k]? = some b) (hd : dpH[k]? = some dph) (hl : dpL[k]? = some dpl)
    (hw : uadd (((ix >>> 1) &&& 0xfffff000#32) ||| 0x20000000#32) 0x00400000#32 = some w) (hw' : uadd w (BitVec.ofNat 32 k <<< 21) = some w') :
    logCore ax ix k n = some (logAll top l1 l2 l3 l4 l5 l6 cp cpH cpL 1.0 3.0 ax b (bits32 w') dph dpl (ofInt f32 n)) := by
  unfold logCore
  rw [hb, hd, hl, Option.bind_some, Option.bind_some, Option.bind_some]
  extract_lets u v s sh is
  rw [show uadd is 0x00400000#32 = some w from hw, Option.bind_some, hw', Option.bind_some]
  rfl

/-- the logarithm of a reduced argument -/
theorem logCore_some {ax : Flt f32} {ix : BitVec 32} {k : ℕ} {n : ℤ} (hk : k ≤ 1) (h1 : 0x3f000000 ≤ ix.toNat) (h2 : ix.toNat < 0x40000000)
    (hn : |n| ≤ 2 ^ 8) (hax : ax.isFinite)
    (hr : k = 0 ∧ 0.8655 ≤ ax.val ∧ ax.val ≤ 1.2255 ∨ k = 1 ∧ 1.2241 ≤ ax.val ∧ ax.val ≤ 1.7325)
    (h0 : k = 0 → n = 0 → 1 / 2 ^ 54 ≤ |ax.val - 1|) : ∃ p, logCore ax ix k n = some p ∧ Split p := by
  obtain ⟨w, w', hw, hw', hw2⟩ := th_word (ix := ix) hk h1 h2
  have hth := th_bd hw2
  obtain ⟨f, v⟩ := ofInt_val hn
  have main : ∀ bp dph dpl : Flt f32, bp.isFinite → dph.isFinite → dpl.isFinite →
      (bp.val = 1 ∧ 0.8655 ≤ ax.val ∧ ax.val ≤ 1.2255 ∨ bp.val = 3 / 2 ∧ 1.2241 ≤ ax.val ∧ ax.val ≤ 1.7325) →
      (dph.val = 0 ∧ dpl.val = 0 ∧ (ofInt f32 n).val = 0 ∧ 1 / 2 ^ 54 ≤ |ax.val - bp.val| ∨
      ∃ W : ℝ, 1 ≤ W ∧ W ≤ 2 ^ 12 ∧ |(ofInt f32 n).val| ≤ W ∧ |dph.val| ≤ 5 / 8 ∧ |dpl.val| ≤ 1 / 2 ^ 16 ∧
        3 / 8 + W / 64 ≤ |(ofInt f32 n).val + dph.val|) →
      Split (logAll top l1 l2 l3 l4 l5 l6 cp cpH cpL 1.0 3.0 ax bp (bits32 w') dph dpl (ofInt f32 n)) := by
    intro bp dph dpl b1 b2 b3 b4 b5
    exact log_all W32 cuts32
      (bd_const (a := 5) (b := 3) (by decide +kernel) (by decide +kernel)) (bd_const (a := 5) (b := 3) (by decide +kernel) (by decide +kernel))
      (bd_const (a := 5) (b := 3) (by decide +kernel) (by decide +kernel)) (bd_const (a := 5) (b := 3) (by decide +kernel) (by decide +kernel))
      (bd_const (a := 5) (b := 3) (by decide +kernel) (by decide +kernel)) (bd_const (a := 5) (b := 3) (by decide +kernel) (by decide +kernel))
      (bd_const (a := 247) (b := 8) (by decide +kernel) (by decide +kernel)) (bd_const (a := 247) (b := 8) (by decide +kernel) (by decide +kernel))
      cpH_lo (bd_const' (b := 13) (by decide +kernel) (by decide +kernel)) bd_one v_one bd_three v_three hax b1 hth b2 b3 f b4 b5
  rcases hr with ⟨rfl, r1, r2⟩ | ⟨rfl, r1, r2⟩
  · refine ⟨_, ?_, main 1.0 0.0 0.0 (by decide +kernel) (by decide +kernel) (by decide +kernel) (Or.inl ⟨v_one, r1, r2⟩) ?_⟩
    · exact logCore_eq rfl rfl rfl hw hw'
    · by_cases hn0 : n = 0
      · left
        refine ⟨v_0, v_0, by rw [v, hn0]; simp, ?_⟩
        rw [v_one]; exact h0 rfl hn0
      · right
        obtain ⟨W, a, b, c, d, e⟩ := far (n := n) (d := 0) (hn.trans (by norm_num)) (Or.inl ⟨rfl, hn0⟩)
        exact ⟨W, a, b, by rw [v]; exact c, by rw [v_0]; exact d, by rw [v_0]; norm_num, by rw [v, v_0]; exact e⟩
  · refine ⟨_, ?_, main 1.5 5.84960938e-01 1.56322085e-06 (by decide +kernel) (by decide +kernel) (by decide +kernel) (Or.inr ⟨v_15, r1, r2⟩) ?_⟩
    · exact logCore_eq rfl rfl rfl hw hw'
    · right
      obtain ⟨W, a, b, c, d, e⟩ := far (n := n) (d := (5.84960938e-01 : Flt f32).val) (hn.trans (by norm_num)) (Or.inr (by
        rw [v_dpH1, zpow_neg]; norm_num))
      have := (bd_const' (c := (1.56322085e-06 : Flt f32)) (b := 16) (by decide +kernel) (by decide +kernel)).bd
      rw [mul_one] at this
      exact ⟨W, a, b, by rw [v]; exact c, d, this, by rw [v]; exact e⟩

theorem bits_mb {w : BitVec 32} (hw : w.toNat < 2 ^ 31) : (bits32 w).sign = false ∧ (bits32 w).mb = w.toNat := by
  obtain ⟨h1, h2⟩ := bits_sign_mb w
  exact ⟨by rw [h1]; exact decide_eq_false (by omega), by rw [h2]; omega⟩

theorem ix_top {ix : BitVec 32} {M : ℕ} (h : ix.toNat = M) (hM : M < 2 ^ 31) : (ix.sshiftRight 23).toInt = (M / 2 ^ 23 : ℕ) := by
  have : ix.toInt = ix.toNat := by rw [BitVec.toInt_eq_toNat_of_lt]; omega
  rw [BitVec.toInt_sshiftRight, this, Int.shiftRight_eq_div_pow, h]
  omega

/-- the reduction to the two intervals, for a normalized argument -/
theorem logStep {a : Flt f32} (hs : a.sign = false) (hf : a.mb < 0x7f800000) {n0 : ℤ}
    (h : n0 = 0 ∧ a.mb ≠ 0x3f800000 ∨ n0 = -24 ∧ a.mb < 26 * 2 ^ 23) :
    ∃ p, ((i32 (n0 + ((a.u32.sshiftRight 23).toInt - 0x7f))).bind fun n =>
      let j := a.u32 &&& 0x007fffff#32
      let ix := j ||| 0x3f800000#32
      if j ≤ 0x1cc471#32 then logCore (bits32 ix) ix 0 n
      else if j < 0x5db3d7#32 then logCore (bits32 ix) ix 1 n
      else
        (i32 (n + 1)).bind fun n =>
        (isub ix 0x00800000#32).bind fun ix =>
        logCore (bits32 ix) ix 0 n) = some p ∧ Split p := by
  have hi : a.u32.toNat = a.mb := by rw [u32_toNat, hs]; simp
  have hM := mb32_lt a
  rw [ix_top hi hM]
  obtain ⟨E, hE⟩ : ∃ E, a.mb / 2 ^ 23 = E := ⟨_, rfl⟩
  rw [hE, Pow.i32_some (by omega) (by omega), Option.bind_some]
  dsimp only
  have hj : (a.u32 &&& 0x007fffff#32).toNat = a.mb % 2 ^ 23 := by
    rw [BV.and_low (k := 23) (by decide), hi]
  have hix : ((a.u32 &&& 0x007fffff#32) ||| 0x3f800000#32).toNat = 0x3f800000 + a.mb % 2 ^ 23 := by
    rw [BitVec.or_comm, BV.or_disjoint (k := 23) (by decide) (by rw [hj]; omega), hj]; rfl
  generalize (a.u32 &&& 0x007fffff#32) = j at *
  generalize hx : (j ||| 0x3f800000#32) = ix at *
  have hn : |n0 + ((E : ℤ) - 0x7f)| ≤ 2 ^ 8 - 1 := by rw [abs_le]; omega
  have fin : ∀ {w : BitVec 32}, w.toNat < 0x40000000 → (bits32 w).isFinite := by
    intro w hw
    rw [isFinite_iff, f32.infEnc_eq, f32_bias, f32_sb, (bits_mb (by omega)).2]; omega
  split
  · rename_i h1
    rw [BitVec.le_def, hj, show (0x1cc471#32).toNat = 0x1cc471 from rfl] at h1
    obtain ⟨q1, q2⟩ := bits_mb (w := ix) (by omega)
    refine logCore_some (by omega) (by omega) (by omega) (by omega) (fin (by omega)) (Or.inl ⟨rfl, ?_, ?_⟩) ?_
    · have := ge32 (b := 0x3f800000#32) q1 1 149 0 (by rw [q2, hix, show (0x3f800000#32).toNat = 0x3f800000 from rfl]; omega) (by decide +kernel) (by decide +kernel) (by norm_num) (by norm_num)
      norm_num at this; linarith
    · have := le32 (x := bits32 ix) (b := 0x3f9cc472#32) 0x9cc472 126 (-23) (by rw [q2, hix, show (0x3f9cc472#32).toNat = 0x3f9cc472 from rfl]; omega) (by decide +kernel) (by decide +kernel) (by norm_num) (by norm_num)
      rw [zpow_neg] at this; norm_num at this; linarith
    · intro _ h0
      have := ge32 (b := 0x3f800001#32) q1 0x800001 126 (-23) (by rw [q2, hix, show (0x3f800001#32).toNat = 0x3f800001 from rfl]; omega) (by decide +kernel) (by decide +kernel) (by norm_num) (by norm_num)
      rw [zpow_neg] at this
      have h2 : 1 / 2 ^ 54 ≤ (bits32 ix).val - 1 := by
        refine le_trans ?_ (sub_le_sub_right this 1); norm_num
      exact h2.trans (le_abs_self _)
  · rename_i h1
    rw [BitVec.le_def, hj, show (0x1cc471#32).toNat = 0x1cc471 from rfl] at h1
    split
    · rename_i h2
      rw [BitVec.lt_def, hj, show (0x5db3d7#32).toNat = 0x5db3d7 from rfl] at h2
      obtain ⟨q1, q2⟩ := bits_mb (w := ix) (by omega)
      refine logCore_some (by omega) (by omega) (by omega) (by omega) (fin (by omega)) (Or.inr ⟨rfl, ?_, ?_⟩) (by intro h; omega)
      · have := ge32 (b := 0x3f9cc472#32) q1 0x9cc472 126 (-23) (by rw [q2, hix, show (0x3f9cc472#32).toNat = 0x3f9cc472 from rfl]; omega) (by decide +kernel) (by decide +kernel) (by norm_num) (by norm_num)
        rw [zpow_neg] at this; norm_num at this; linarith
      · have := le32 (x := bits32 ix) (b := 0x3fddb3d7#32) 0xddb3d7 126 (-23) (by rw [q2, hix, show (0x3fddb3d7#32).toNat = 0x3fddb3d7 from rfl]; omega) (by decide +kernel) (by decide +kernel) (by norm_num) (by norm_num)
        rw [zpow_neg] at this; norm_num at this; linarith
    · rename_i h2
      rw [BitVec.lt_def, hj, show (0x5db3d7#32).toNat = 0x5db3d7 from rfl] at h2
      rw [Pow.i32_some (by omega) (by omega), Option.bind_some]
      have t1 : ix.toInt = ix.toNat := by rw [BitVec.toInt_eq_toNat_of_lt]; omega
      have t2 : (0x00800000#32).toInt = 0x800000 := by decide
      obtain ⟨r, hr, e⟩ := isub_eq (a := ix) (b := 0x00800000#32) (by rw [t1, t2]; omega) (by rw [t1, t2]; omega)
      rw [hr, Option.bind_some]
      have hr2 : r.toNat = 0x3f000000 + a.mb % 2 ^ 23 := by
        rw [e, BitVec.toNat_sub, hix, show (0x00800000#32).toNat = 0x800000 from rfl]; omega
      obtain ⟨q1, q2⟩ := bits_mb (w := r) (by omega)
      have hup := le32 (x := bits32 r) (b := 0x3f7fffff#32) 0xffffff 125 (-24) (by rw [q2, hr2, show (0x3f7fffff#32).toNat = 0x3f7fffff from rfl]; omega) (by decide +kernel) (by decide +kernel) (by norm_num) (by norm_num)
      rw [zpow_neg] at hup
      have h3 : 1 / 2 ^ 54 ≤ 1 - (bits32 r).val := by
        refine le_trans ?_ (sub_le_sub_left hup 1); norm_num
      refine logCore_some (by omega) (by omega) (by omega) (by rw [abs_le] at hn ⊢; omega) (fin (by omega)) (Or.inl ⟨rfl, ?_, ?_⟩) ?_
      · have := ge32 (b := 0x3f5db3d7#32) q1 0xddb3d7 125 (-24) (by rw [q2, hr2, show (0x3f5db3d7#32).toNat = 0x3f5db3d7 from rfl]; omega) (by decide +kernel) (by decide +kernel) (by norm_num) (by norm_num)
        rw [zpow_neg] at this; norm_num at this; linarith
      · have : (0 : ℝ) < 1 / 2 ^ 54 := by positivity
        linarith
      · intro _ _
        rw [abs_sub_comm]
        exact h3.trans (le_abs_self _)

theorem logAx_some {a : Flt f32} (hs : a.sign = false) (hz : a.mb ≠ 0) (hf : a.mb < 0x7f800000) (h1 : a.mb ≠ 0x3f800000) :
    ∃ p, logAx a (BitVec.ofNat 32 a.mb) = some p ∧ Split p := by
  have hM := mb32_lt a
  have hi : a.u32 = BitVec.ofNat 32 a.mb := by
    rw [← BitVec.toNat_inj, u32_toNat, hs, BitVec.toNat_ofNat]
    simp only [Bool.false_eq_true, if_false]; omega
  rw [← hi]
  have hi' : a.u32.toNat = a.mb := by rw [u32_toNat, hs]; simp
  unfold logAx
  by_cases hc : a.u32 < 0x00800000#32
  · rw [if_pos hc]
    rw [BitVec.lt_def, hi', show (0x00800000#32).toNat = 0x800000 from rfl] at hc
    have hfin : a.isFinite := by rw [isFinite_iff, f32.infEnc_eq, f32_bias, f32_sb]; omega
    have h2 := mul_rne (x := a) (y := two24) hfin (by decide +kernel)
    have hv : two24.val = 2 ^ (24 : ℤ) := by
      rw [val_const32 (x := two24) 1 173 24 (by decide +kernel) (by norm_num)]; norm_num
    have hlt := le32 (x := a) (b := 0x00800000#32) 1 23 (-126) (by rw [show (0x00800000#32).toNat = 0x00800000 from rfl]; omega) (by decide +kernel) (by decide +kernel) (by norm_num) (by norm_num)
    have hgt := ge32 (b := 1#32) hs 1 0 (-149) (by rw [show (1#32).toNat = 1 from rfl]; omega) (by decide +kernel) (by decide +kernel) (by norm_num) (by norm_num)
    have v1 : (bits32 0x0c800000#32).val = 2 ^ (-102 : ℤ) := by
      rw [val_const32 1 47 (-102) (by decide +kernel) (by norm_num)]; norm_num
    have v2 : (bits32 0x01000000#32).val = 2 ^ (-125 : ℤ) := by
      rw [val_const32 1 24 (-125) (by decide +kernel) (by norm_num)]; norm_num
    rw [Int.cast_one, one_mul] at hlt hgt
    have q1 : a.val * two24.val ≤ (bits32 0x0c800000#32).val := by
      rw [v1, hv]
      refine (mul_le_mul_of_nonneg_right hlt (zp _).le).trans ?_
      rw [← zpow_add₀ two_ne_zero]; norm_num
    have q2 : (bits32 0x01000000#32).val ≤ a.val * two24.val := by
      rw [v2, hv]
      refine le_trans ?_ (mul_le_mul_of_nonneg_right hgt (zp _).le)
      rw [← zpow_add₀ two_ne_zero]; norm_num
    have q0 : 0 < a.val * two24.val := lt_of_lt_of_le (by rw [v2]; exact zp _) q2
    have hf2 := (rnd W32 h2 (by
      rw [abs_of_nonneg q0.le]
      refine q1.trans ?_
      rw [v1]
      refine le_trans ?_ (le_mul_of_one_le_left (zp _).le (by norm_num))
      exact zpow_le_zpow_right₀ (by norm_num) (by rw [f32_bias]; norm_num))).1
    have u1 := h2.le_of_le hf2 (by decide +kernel) q1
    have u2 := h2.ge_of_ge hf2 (by decide +kernel) q2
    rw [v1] at u1
    rw [v2] at u2
    have hpos : 0 < (a * two24).val := lt_of_lt_of_le (zp _) u2
    have hs2 : (a * two24).sign = false := by
      by_contra hc
      rw [Bool.not_eq_false] at hc
      exact absurd (val_nonpos hc) (not_le.2 hpos)
    have hm2 : (a * two24).mb < 26 * 2 ^ 23 := by
      by_contra hc
      have := val_ge_of_mb (x := a * two24) (E := 26) (by norm_num) (by rw [f32_sb]; omega)
      rw [f32_bias, abs_of_pos hpos] at this
      have h3 := this.trans u1
      rw [zpow_le_zpow_iff_right₀ (by norm_num)] at h3
      norm_num at h3
    exact logStep hs2 (by omega) (Or.inr ⟨rfl, hm2⟩)
  · rw [if_neg hc]
    exact logStep hs hf (Or.inl ⟨rfl, h1⟩)

theorem logNear1_split {a : Flt f32} (hs : a.sign = false) (h1 : 0x3f7ffff8 ≤ a.mb) (h2 : a.mb ≤ 0x3f800007)
    (h3 : a.mb ≠ 0x3f800000) : Split (logNear1 a) ∧ |(logNear1 a).1.val| ≤ 1 / 2 ^ 18 := by
  have hlo := ge32 (b := 0x3f7ffff8#32) hs 0xfffff8 125 (-24) (by rw [show (0x3f7ffff8#32).toNat = 0x3f7ffff8 from rfl]; omega) (by decide +kernel) (by decide +kernel) (by norm_num) (by norm_num)
  have hup := le32 (x := a) (b := 0x3f800007#32) 0x800007 126 (-23) (by rw [show (0x3f800007#32).toNat = 0x3f800007 from rfl]; omega) (by decide +kernel) (by decide +kernel) (by norm_num) (by norm_num)
  rw [zpow_neg] at hlo hup
  have hfin : a.isFinite := by rw [isFinite_iff, f32.infEnc_eq, f32_bias, f32_sb]; omega
  have far1 : 1 / 2 ^ 54 ≤ |a.val - 1| := by
    rcases lt_or_gt_of_ne h3 with hc | hc
    · have := le32 (x := a) (b := 0x3f7fffff#32) 0xffffff 125 (-24) (by rw [show (0x3f7fffff#32).toNat = 0x3f7fffff from rfl]; omega) (by decide +kernel) (by decide +kernel) (by norm_num) (by norm_num)
      rw [zpow_neg] at this
      rw [abs_sub_comm]
      refine le_trans ?_ (le_abs_self _)
      refine le_trans ?_ (sub_le_sub_left this 1); norm_num
    · have := ge32 (x := a) (b := 0x3f800001#32) hs 0x800001 126 (-23) (by rw [show (0x3f800001#32).toNat = 0x3f800001 from rfl]; omega) (by decide +kernel) (by decide +kernel) (by norm_num) (by norm_num)
      rw [zpow_neg] at this
      refine le_trans ?_ (le_abs_self _)
      refine le_trans ?_ (sub_le_sub_right this 1); norm_num
  have hclose : |a.val - 1| ≤ 7 / 2 ^ 23 := by
    rw [abs_le]
    norm_num at hlo hup ⊢
    constructor <;> linarith
  obtain ⟨f, l, u⟩ := Pow.near_arg W32 hfin (by decide +kernel) v_one far1 (hclose.trans (by norm_num))
  replace u : |(a - 1.0).val| ≤ 1 / 2 ^ 20 := by norm_num at hclose ⊢; linarith
  have hH : 1 ≤ ivln2H.val := by
    have := ge32 (x := ivln2H) (b := 0x3f800000#32) (by decide +kernel) 1 149 0 (by decide +kernel) (by decide +kernel) (by decide +kernel) (by norm_num) (by norm_num)
    norm_num at this; exact this
  have key := near_core W32 cuts32 (half := 0.5) (third := 0.333333333333) (quarter := 0.25) (iv := ivln2) (ivH := ivln2H) (ivL := ivln2L)
    f l (u.trans (by norm_num)) (.mk (by decide +kernel) (by
      have := (bd_const (c := (0.5 : Flt f32)) (a := 1) (b := 0) (by decide +kernel) (by decide +kernel)).bd; norm_num at this; exact this))
    (.mk (by decide +kernel) (by
      have := (bd_const (c := (0.333333333333 : Flt f32)) (a := 1) (b := 0) (by decide +kernel) (by decide +kernel)).bd; norm_num at this; exact this))
    (.mk (by decide +kernel) (by
      have := (bd_const (c := (0.25 : Flt f32)) (a := 1) (b := 0) (by decide +kernel) (by decide +kernel)).bd; norm_num at this; exact this))
    (.mk (by decide +kernel) (by
      have := (bd_const (c := ivln2) (a := 2) (b := 0) (by decide +kernel) (by decide +kernel)).bd; norm_num at this; exact this))
    (.mk (by decide +kernel) (by
      have := (bd_const (c := ivln2H) (a := 2) (b := 0) (by decide +kernel) (by decide +kernel)).bd; norm_num at this; exact this))
    hH (bd_const' (b := 16) (by decide +kernel) (by decide +kernel))
  obtain ⟨k1, k2, k3, k4⟩ := key
  have k5 : |(logNear1 a).1.val| ≤ 1 / 2 ^ 18 := k4.trans (by norm_num at u ⊢; linarith)
  exact ⟨⟨k1, k2, k3, k5.trans (by norm_num)⟩, k5⟩

theorem general_some {s x y : Flt f32} (hx : x.isFinite) (hy : y.isFinite) (h0 : ¬ x.isZero) (h1 : x.mag ≠ f32.oneMag) :
    ∃ r, general s x y y.u32 (x.u32 &&& 0x7fffffff#32) (y.u32 &&& 0x7fffffff#32) = some r ∧ SP s r := by
  have hix := u32_abs x
  have hiy := u32_abs y
  have hmx := mb32_lt x
  have hmy := mb32_lt y
  have hxf : x.mb < 0x7f800000 := by
    rw [isFinite_iff, f32.infEnc_eq, f32_bias, f32_sb] at hx; omega
  have hyf : y.mb < 255 * 2 ^ 23 := by
    rw [isFinite_iff, f32.infEnc_eq, f32_bias, f32_sb] at hy; omega
  have hx1 : x.mb ≠ 0x3f800000 := by
    rw [Ne, Pow.mb_iff_mag x (b := 0x3f800000) (m := f32.oneMag) (by decide +kernel)]; exact h1
  have hx0 : x.mb ≠ 0 := fun h => h0 ((isZero_iff _).2 h)
  have hs : (Generic.fabs x).sign = false := by rw [fabs_eq]; exact sign_mk' x.mb_lt
  have hm : (Generic.fabs x).mb = x.mb := by rw [fabs_eq]; exact mb_mk' x.mb_lt
  have key : ∀ p : Flt f32 × Flt f32, Split p → |y.val| * |p.1.val| ≤ 2 ^ 110 → ∃ r, mulOut s y p.1 p.2 = some r ∧ SP s r :=
    fun p hp hb => mulOut_some hy hp.1 hp.2.1 hp.2.2.1 hp.2.2.2 hb
  have hxe : x.u32 &&& 0x7fffffff#32 = BitVec.ofNat 32 x.mb := by
    rw [← BitVec.toNat_inj, hix, BitVec.toNat_ofNat]; omega
  unfold general
  dsimp only
  by_cases c : y.u32 &&& 0x7fffffff#32 > 0x4d000000#32
  · rw [if_pos c]
    split
    · exact ⟨_, rfl, by split <;> exact sp_mul2 (by decide +kernel)⟩
    split
    · exact ⟨_, rfl, by split <;> exact sp_mul2 (by decide +kernel)⟩
    rename_i c3 c4
    rw [BitVec.lt_def, hix, show (0x3f7ffff8#32).toNat = 0x3f7ffff8 from rfl] at c3
    rw [gt_iff_lt, BitVec.lt_def, hix, show (0x3f800007#32).toNat = 0x3f800007 from rfl] at c4
    obtain ⟨q1, q2⟩ := logNear1_split (a := Generic.fabs x) hs (by rw [hm]; omega) (by rw [hm]; omega) (by rw [hm]; exact hx1)
    refine key _ q1 ?_
    have hyv := val_lt_of_mb (x := y) (E := 255) (by norm_num) (by rw [f32_sb]; omega)
    rw [f32_bias] at hyv
    refine (mul_le_mul hyv.le q2 (abs_nonneg _) (zp _).le).trans ?_
    norm_num
  · rw [if_neg c, hxe, ← hm]
    rw [gt_iff_lt, BitVec.lt_def, hiy, show (0x4d000000#32).toNat = 0x4d000000 from rfl] at c
    obtain ⟨p, e, hp⟩ := logAx_some (a := Generic.fabs x) hs (by rw [hm]; exact hx0) (by rw [hm]; exact hxf) (by rw [hm]; exact hx1)
    rw [e, Option.bind_some]
    refine key _ hp ?_
    have hyv := val_lt_of_mb (x := y) (E := 155) (by norm_num) (by rw [f32_sb]; omega)
    rw [f32_bias] at hyv
    refine (mul_le_mul hyv.le hp.2.2.2 (abs_nonneg _) (zp _).le).trans ?_
    norm_num

end Powf
end Verif
