import Verif.Theory.PowSplit

/-!
# pow in `f64`: every step returns
-/

namespace Verif
open Flt

theorem iadd_eq {a b : BitVec 32} (h1 : -2 ^ 31 ≤ a.toInt + b.toInt) (h2 : a.toInt + b.toInt < 2 ^ 31) : iadd a b = some (a + b) := by
  rw [iadd, i32, if_pos ⟨h1, h2⟩, Option.map_some, BitVec.ofInt_add, BitVec.ofInt_toInt, BitVec.ofInt_toInt]

theorem isub_eq {a b : BitVec 32} (h1 : -2 ^ 31 ≤ a.toInt - b.toInt) (h2 : a.toInt - b.toInt < 2 ^ 31) : ∃ r, isub a b = some r ∧ r = a - b := by
  refine ⟨_, ?_, rfl⟩
  rw [isub, i32, if_pos ⟨h1, h2⟩, Option.map_some]
  congr 1
  apply BitVec.eq_of_toInt_eq
  rw [BitVec.toInt_ofInt, BitVec.toInt_sub]

/-- the sign and magnitude of a word holding the top of a float -/
theorem iadd_mag {j b : BitVec 32} {i : ℕ} {s : Bool} (hj : j.toNat = i + if s then 2 ^ 31 else 0) (hi : i + b.toNat < 2 ^ 31) :
    ∃ n, iadd j b = some n ∧ n.toNat = i + b.toNat + if s then 2 ^ 31 else 0 := by
  have hb : b.toInt = b.toNat := BitVec.toInt_eq_toNat_of_lt (by omega)
  cases s
  · simp only [Bool.false_eq_true, if_false, add_zero] at hj ⊢
    have h1 : j.toInt = j.toNat := BitVec.toInt_eq_toNat_of_lt (by omega)
    refine ⟨_, iadd_eq (by omega) (by omega), ?_⟩
    rw [BitVec.toNat_add, Nat.mod_eq_of_lt (by omega), hj]
  · simp only [if_true] at hj ⊢
    have h1 : j.toInt = (j.toNat : ℤ) - 2 ^ 32 := by
      rw [BitVec.toInt_eq_toNat_cond, if_neg (by omega)]; rfl
    refine ⟨_, iadd_eq (by omega) (by omega), ?_⟩
    rw [BitVec.toNat_add, Nat.mod_eq_of_lt (by omega), hj]
    omega

theorem and_mag {j : BitVec 32} {i : ℕ} {s : Bool} (hj : j.toNat = i + if s then 2 ^ 31 else 0) (hi : i < 2 ^ 31) :
    (j &&& 0x7fffffff#32).toNat = i := by
  rw [BV.and_low (k := 31) (by decide), hj]
  split <;> omega

namespace Pow
open PowT AsW

/-- pow.rs 357-372: the nearest integer is split off -/
theorem exp2Split_eq {s ph pl z : Flt f64} (hgt' : 0x3fe00000 < z.mb / 2 ^ 32) (hi : z.mb / 2 ^ 32 ≤ 0x4090cc00) :
    ∃ (t : Flt f64) (N : ℕ), exp2Split s ph pl (getHighWord z) = exp2Tail s (ph - t) pl (if z.sign then -(N : ℤ) else N) ∧
      t.isFinite ∧ t.sign = z.sign ∧ |t.val| = N ∧ |z.val - t.val| ≤ 1 / 2 ∧ N ≤ 1075 ∧ (z.mb / 2 ^ 32 ≤ 0x40900000 → N ≤ 1024) := by
  obtain ⟨j, ej⟩ : ∃ j, j = getHighWord z := ⟨_, rfl⟩
  have hj := hi_sign_mb z
  have hm := and_mag hj (by omega)
  rw [← ej] at hj hm ⊢
  unfold exp2Split
  dsimp only
  rw [if_pos (BitVec.lt_def.2 (by rw [hm]; exact hgt'))]
  obtain ⟨q, k, N, hq, hE, hk, hk2, hN, hN2, hE2, hlo, hhi, hNb, hNp⟩ := split_nat hgt' hi
  have e1 : (((j &&& 0x7fffffff#32) >>> 20).toNat : ℤ) - 0x3ff + 1 = (q : ℕ) := by
    rw [BV.shr, hm, Nat.div_div_eq_div_mul, show 2 ^ 32 * 2 ^ 20 = 2 ^ 52 by norm_num, hE]; push_cast; ring
  rw [sh32_some e1 (by omega), Option.bind_some]
  have e2 : (0x00100000#32 >>> q).toNat = 2 ^ (20 - q) := by
    rw [BV.shr, show (0x00100000#32).toNat = 2 ^ 20 by decide, Nat.pow_div (by omega) (by norm_num)]
  have hq20 : 2 ^ (20 - q) ≤ 2 ^ 20 := Nat.pow_le_pow_right (by norm_num) (by omega)
  obtain ⟨n, hn, hn2⟩ := iadd_mag (b := 0x00100000#32 >>> q) hj (by rw [e2]; omega)
  rw [e2] at hn2
  rw [hn, Option.bind_some]
  obtain ⟨i', ei⟩ : ∃ i', i' = z.mb / 2 ^ 32 + 2 ^ (20 - q) := ⟨_, rfl⟩
  rw [← ei] at hn2 hk2 hN hN2 hE2
  have hi' : i' < 2 ^ 31 := by omega
  have hm' := and_mag hn2 hi'
  have e3 : (((n &&& 0x7fffffff#32) >>> 20).toNat : ℤ) - 0x3ff = (k : ℕ) := by
    rw [BV.shr, hm', hk2]; push_cast; ring
  have e3' : (((n &&& 0x7fffffff#32) >>> 20).toNat : ℤ) - 0x3ff = k := e3
  rw [sh32_some e3 (by omega), Option.bind_some, e3', sh32_some (s := 20 - (k : ℤ)) (n := 20 - k) (by omega) (by omega), Option.bind_some]
  have e4 : (((n &&& 0x000fffff#32) ||| 0x00100000#32) >>> (20 - k)).toNat = N := by
    rw [BV.shr, BitVec.or_comm, BV.or_disjoint (k := 20) (by decide) (by rw [BV.and_low (k := 20) (by decide)]; omega),
      BV.and_low (k := 20) (by decide), show (0x00100000#32).toNat = 2 ^ 20 by decide, ← hN]
    congr 1
    rw [hn2]
    split <;> omega
  rw [e4]
  -- the integer as a float
  obtain ⟨t, et⟩ : ∃ t, t = withSetHighWord 0.0 (n &&& ~~~(0x000fffff#32 >>> k)) := ⟨_, rfl⟩
  rw [← et]
  have e5 : (n &&& ~~~(0x000fffff#32 >>> k)).toNat = n.toNat - n.toNat % 2 ^ (20 - k) := by
    refine BV.and_not_low ?_
    rw [BV.shr, show (0x000fffff#32).toNat = 2 ^ 20 - 1 by decide]
    interval_cases k <;> decide
  obtain ⟨t1, t2⟩ := set_high_zero (n &&& ~~~(0x000fffff#32 >>> k))
  rw [← et, e5] at t1 t2
  have hpow : 2 ^ (20 - k) ∣ 2 ^ 31 := pow_dvd_pow 2 (by omega)
  have hd : n.toNat % 2 ^ (20 - k) = i' % 2 ^ (20 - k) := by
    rw [hn2]
    split
    · obtain ⟨c, hc⟩ := hpow
      rw [hc, Nat.add_mul_mod_self_left]
    · rfl
  have hle := Nat.mod_le i' (2 ^ (20 - k))
  have ht2 : t.mb = (i' - i' % 2 ^ (20 - k)) * 2 ^ 32 := by
    rw [t2, hd, hn2]
    congr 1
    split <;> omega
  have ht1 : t.sign = z.sign := by
    rw [t1, hd, hn2]
    cases z.sign
    · exact decide_eq_false (by simp only [Bool.false_eq_true, if_false]; omega)
    · exact decide_eq_true (by simp only [if_true]; omega)
  have htE : t.mb / 2 ^ f64.sb = 1023 + k := by rw [f64_sb, ht2]; omega
  have htv : |t.val| = N := by
    rw [abs_val_normal (by rw [f64_bias]; norm_num) (by omega) htE, f64_sb, f64_bias]
    have : 2 ^ 52 + t.mb % 2 ^ 52 = N * 2 ^ (20 - k) * 2 ^ 32 := by rw [ht2, ← hN2]; omega
    rw [this, Nat.cast_mul, Nat.cast_mul, Nat.cast_pow, Nat.cast_pow, Nat.cast_ofNat, mul_assoc, mul_assoc, ← zpow_natCast, ← zpow_natCast,
      ← zpow_add₀ (by norm_num), ← zpow_add₀ (by norm_num),
      show (((20 - k : ℕ) : ℤ) + (((32 : ℕ) : ℤ) + (((1023 + k : ℕ) : ℤ) - ((1023 : ℕ) : ℤ) - ((52 : ℕ) : ℤ)))) = 0 by omega, zpow_zero, mul_one]
  have htf : t.isFinite := by
    rw [isFinite_iff, f64.infEnc_eq, f64_bias, f64_sb, ht2]
    omega
  have hzv : |z.val| = ((2 ^ 52 + z.mb % 2 ^ 52 : ℕ) : ℝ) * 2 ^ ((q : ℤ) - 53) := by
    rw [abs_val_normal (E := 1022 + q) (by rw [f64_bias]; norm_num) (by omega) (by rw [f64_sb]; exact hE), f64_sb, f64_bias]
    congr 2
    push_cast; ring
  have hzt : |z.val - t.val| ≤ 1 / 2 := by
    rw [abs_sub_sign ht1, htv, hzv]
    have hP : (0 : ℝ) < 2 ^ (54 - q) := by positivity
    have hP2 : (2 : ℝ) ^ ((q : ℤ) - 53) * 2 ^ (54 - q) = 2 := by
      rw [← zpow_natCast, ← zpow_add₀ (by norm_num), show ((q : ℤ) - 53 + ((54 - q : ℕ) : ℤ)) = 1 by omega, zpow_one]
    have hP3 : (2 : ℝ) ^ (54 - q) = 2 * 2 ^ (53 - q) := by rw [show 54 - q = (53 - q) + 1 by omega, pow_succ]; ring
    have hlo' : (N : ℝ) * 2 ^ (54 - q) ≤ ((2 ^ 52 + z.mb % 2 ^ 52 : ℕ) : ℝ) * 2 + 2 ^ (53 - q) := by exact_mod_cast hlo
    have hhi' : ((2 ^ 52 + z.mb % 2 ^ 52 : ℕ) : ℝ) * 2 ≤ (N : ℝ) * 2 ^ (54 - q) + 2 ^ (53 - q) := by exact_mod_cast hhi
    generalize ((2 ^ 52 + z.mb % 2 ^ 52 : ℕ) : ℝ) = A at *
    rw [abs_le]
    constructor
    · refine le_of_mul_le_mul_right ?_ hP
      rw [sub_mul, mul_assoc, hP2]; linarith
    · refine le_of_mul_le_mul_right ?_ hP
      rw [sub_mul, mul_assoc, hP2]; linarith
  refine ⟨t, N, ?_, htf, ht1, htv, hzt, hNb, hNp⟩
  rw [ej]
  cases hs : z.sign
  · rw [if_neg (by rw [hi_toInt_neg, hs]; decide), if_neg (by decide)]
  · rw [if_pos ((hi_toInt_neg z).2 hs), if_pos rfl]

theorem exp2Split_some {s ph pl z : Flt f64} (hph : ph.isFinite) (hpl : pl.isFinite) (h1 : |pl.val| ≤ 512) (h2 : |ph.val| ≤ 1600)
    (hz : |z.val - (pl.val + ph.val)| ≤ 1 / 2 ^ 12) (hi : z.mb / 2 ^ 32 ≤ 0x4090cc00) (hp : z.sign = false → z.mb / 2 ^ 32 ≤ 0x40900000) :
    ∃ r, exp2Split s ph pl (getHighWord z) = some r ∧ SP s r := by
  have hplB : Bd pl 2048 := .mk hpl (h1.trans (by norm_num))
  rcases lt_or_ge 0x3fe00000 (z.mb / 2 ^ 32) with hgt | hgt'
  · obtain ⟨t, N, e, htf, -, -, hzt, hNb, hNp⟩ := exp2Split_eq (s := s) (ph := ph) (pl := pl) hgt hi
    obtain ⟨r1, r2⟩ := red_core W64 hph hpl htf h1 hz hzt
    rw [e]
    refine exp2Tail_some r1 hplB r2 ?_ ?_
    · split <;> omega
    · split
      · omega
      · rename_i hs
        have := hNp (hp (by simpa using hs))
        omega
  · have hj := hi_sign_mb z
    have hm := and_mag hj (by omega)
    unfold exp2Split
    dsimp only
    rw [if_neg (fun h => by
      have := BitVec.lt_def.1 h
      rw [hm] at this
      exact absurd this (not_lt.2 hgt'))]
    have hz1 : |z.val| ≤ 1 / 2 + 1 / 2 ^ 12 := by
      have hm2 : z.mb ≤ (bits64 0x3fe0010000000000).mb := by
        rw [show (bits64 0x3fe0010000000000).mb = 0x3fe0010000000000 by decide +kernel]; omega
      have := val_mono hm2
      rw [val_const64 (x := bits64 0x3fe0010000000000) 4097 1061 (-13) (by decide +kernel) (by norm_num)] at this
      refine this.trans ?_
      rw [zpow_neg, abs_of_nonneg (by positivity)]
      norm_num
    refine exp2Tail_some (.mk hph (h2.trans (by norm_num))) hplB ?_ (by norm_num) (by norm_num)
    have := abs_sub_abs_le_abs_sub (pl.val + ph.val) z.val
    rw [abs_sub_comm] at hz
    norm_num at *
    linarith

theorem or_zero_left {a b : BitVec 32} (h : a ||| b = 0) : a = 0 := by
  apply BitVec.eq_of_getLsbD_eq
  intro i hi
  have := congrArg (fun v => v.getLsbD i) h
  simp only [BitVec.getLsbD_or] at this
  have h0 : (0 : BitVec 32).getLsbD i = false := by simp
  rw [h0] at this ⊢
  simp only [Bool.or_eq_false_iff] at this
  exact this.1

theorem hi_toInt (z : Flt f64) : (getHighWord z).toInt = if z.sign then (z.mb / 2 ^ 32 : ℤ) - 2 ^ 31 else (z.mb / 2 ^ 32 : ℤ) := by
  have h := hi_sign_mb z
  have h3 := z.mb_lt
  rw [show f64.ew + f64.sb = 63 from rfl] at h3
  cases hs : z.sign
  · rw [hs] at h
    simp only [Bool.false_eq_true, if_false] at h ⊢
    rw [BitVec.toInt_eq_toNat_of_lt (by omega)]; omega
  · rw [hs] at h
    simp only [if_true] at h ⊢
    rw [BitVec.toInt_eq_toNat_cond, if_neg (by omega)]; omega

/-- multiplying out and exponentiating returns -/
theorem mulOut_some {s y t1 t2 : Flt f64} (hy : y.isFinite) (h1 : t1.isFinite) (h2 : t2.isFinite) (h21 : |t2.val| ≤ |t1.val| / 4)
    (ht1 : |t1.val| ≤ 2 ^ 14) (hM : |y.val| * |t1.val| ≤ 2 ^ 110) : ∃ r, mulOut s y t1 t2 = some r ∧ SP s r := by
  obtain ⟨a, b, c, d⟩ := mul_core W64 cuts64 hy h1 h2 h21 ht1 hM
  unfold mulOut
  dsimp only at a b c d ⊢
  generalize (y - withSetLowWord y 0) * t1 + y * t2 = pl at *
  generalize withSetLowWord y 0 * t1 = ph at *
  obtain ⟨z, ez⟩ : ∃ z, z = pl + ph := ⟨_, rfl⟩
  rw [← ez] at c d ⊢
  have hj := hi_sign_mb z
  have hI := hi_toInt z
  have hb := z.mb_lt
  rw [show f64.ew + f64.sb = 63 from rfl] at hb
  have hm := and_mag hj (by omega)
  have key : z.mb / 2 ^ 32 ≤ 0x4090cc00 → (z.sign = false → z.mb / 2 ^ 32 ≤ 0x40900000) → ∃ r, exp2Split s ph pl (getHighWord z) = some r ∧ SP s r := by
    intro k1 k2
    have hz : |z.val| ≤ 1101 := by
      have hm2 : z.mb ≤ (bits64 0x4091000000000000).mb := by
        rw [show (bits64 0x4091000000000000).mb = 0x4091000000000000 by decide +kernel]; omega
      have := val_mono hm2
      rw [val_const64 (x := bits64 0x4091000000000000) 17 1080 6 (by decide +kernel) (by norm_num)] at this
      refine this.trans ?_
      rw [abs_of_nonneg (by positivity)]
      norm_num
    obtain ⟨d1, d2, d3⟩ := d hz
    exact exp2Split_some b a d1 d2 d3 k1 k2
  split
  · rename_i hge
    have hs : z.sign = false := by
      by_contra hs
      rw [Bool.not_eq_false] at hs
      rw [hI, hs, if_pos rfl] at hge
      omega
    obtain ⟨r, e1, e2⟩ := isub_eq (a := getHighWord z) (b := 0x40900000#32) (by rw [show (0x40900000#32).toInt = 0x40900000 by decide]; omega)
      (by rw [show (0x40900000#32).toInt = 0x40900000 by decide, hI, hs]; simp only [Bool.false_eq_true, if_false]; omega)
    rw [e1, Option.bind_some]
    split
    · exact ⟨_, rfl, sp_mul2 (by decide +kernel)⟩
    · rename_i hd
      rw [not_not] at hd
      have := or_zero_left hd
      rw [e2, sub_zero_iff] at this
      have hi : z.mb / 2 ^ 32 = 0x40900000 := by
        rw [this, hs] at hj; simp at hj; omega
      split
      · exact ⟨_, rfl, sp_mul2 (by decide +kernel)⟩
      · exact key (by omega) (fun _ => by omega)
  · rename_i hlt
    have hp : z.sign = false → z.mb / 2 ^ 32 ≤ 0x40900000 := by
      intro hs
      rw [hI, hs] at hlt
      simp only [Bool.false_eq_true, if_false] at hlt
      omega
    split
    · rename_i hge
      have hge' : 0x4090cc00 ≤ z.mb / 2 ^ 32 := by rw [← hm]; exact BitVec.le_def.1 hge
      have hs : z.sign = true := by
        by_contra hs
        have := hp (by simpa using hs)
        omega
      rw [hs, if_pos rfl] at hj
      rw [usub, if_pos (by rw [hj, show (0xc090cc00#32).toNat = 0x4090cc00 + 2 ^ 31 by decide]; omega), Option.bind_some]
      split
      · exact ⟨_, rfl, sp_mul2 (by decide +kernel)⟩
      · rename_i hd
        rw [not_not] at hd
        have := or_zero_left hd
        rw [sub_zero_iff] at this
        have hi : z.mb / 2 ^ 32 = 0x4090cc00 := by
          rw [this] at hj; simp at hj; omega
        split
        · exact ⟨_, rfl, sp_mul2 (by decide +kernel)⟩
        · exact key (by omega) hp
    · rename_i hge
      refine key ?_ hp
      rw [← hm]
      exact (not_le.1 fun h => hge (BitVec.le_def.2 h)).le

end Pow
end Verif
