import Verif.Theory.LogReal
import Verif.Theory.CbrtBits
import Verif.Theory.Cut

/-!
# Argument reduction of the logarithms: `x = 2^k (1+f)`
-/

namespace Verif
open Flt

theorem val_exp_shift64 {x y : Flt f64} {k : ℤ} (hx : x.sign = false) (hy : y.sign = false) (h1 : 2 ^ 52 ≤ x.mb) (h2 : 2 ^ 52 ≤ y.mb)
    (h : (x.mb : ℤ) = y.mb + k * 2 ^ 52) : x.val = y.val * 2 ^ k := by
  have a := Cbrt.abs_mk (x := x) (E := x.mb / 2 ^ 52) (m := x.mb % 2 ^ 52) (by omega) (by omega) (by omega)
  have b := Cbrt.abs_mk (x := y) (E := y.mb / 2 ^ 52) (m := y.mb % 2 ^ 52) (by omega) (by omega) (by omega)
  rw [abs_of_nonneg (val_nonneg hx)] at a
  rw [abs_of_nonneg (val_nonneg hy)] at b
  rw [a, b, mul_assoc, ← zpow_add₀ (by norm_num), show x.mb % 2 ^ 52 = y.mb % 2 ^ 52 by omega]
  rw [show ((x.mb / 2 ^ 52 : ℕ) : ℤ) - 1075 = ((y.mb / 2 ^ 52 : ℕ) : ℤ) - 1075 + k by omega]

namespace Log
theorem join_toNat (h : BitVec 32) (u : BitVec 64) : ((h.setWidth 64 <<< 32) ||| (u &&& 0xffffffff#64)).toNat = h.toNat * 2 ^ 32 + u.toNat % 2 ^ 32 := by
  have hh := h.isLt
  rw [BitVec.toNat_or, BV.and_low (k := 32) (by decide)]
  have e : (h.setWidth 64 <<< 32).toNat = h.toNat * 2 ^ 32 := by
    rw [BitVec.toNat_shiftLeft, BitVec.toNat_setWidth, Nat.mod_eq_of_lt (by omega : h.toNat < 2 ^ 64), Nat.shiftLeft_eq, Nat.mod_eq_of_lt (by omega)]
  rw [e, ← Nat.shiftLeft_eq, ← Nat.shiftLeft_add_eq_or_of_lt (by omega)]

/-- the reduced argument, as a float near one -/
theorem reduce_spec {x : Flt f64} (hs : x.sign = false) (h1 : 2 ^ 52 ≤ x.mb) (h2 : x.mb < 0x7ff * 2 ^ 52) (k0 : ℤ) (hk : |k0| ≤ 2 ^ 20) :
    ∃ (f : Flt f64) (k : ℤ), reduce x k0 = some (f, k0 + k) ∧ f.isFinite ∧ x.val = (1 + f.val) * 2 ^ k ∧ -0.29290 ≤ f.val ∧ f.val ≤ 0.41422 ∧
      (f.val = 0 ∨ 1 / 2 ^ 53 ≤ |f.val|) ∧ -1023 ≤ k ∧ k ≤ 1024 := by
  have hm := mb64_lt x
  have hu := hi_toNat x
  have hU := u64_toNat x
  rw [hs, if_neg (by decide), Nat.add_zero] at hu hU
  unfold reduce
  dsimp only
  have c1 : (0x3ff00000#32 - 0x3fe6a09e#32).toNat = 614242 := by rfl
  have a1 : uadd (getHighWord x) (0x3ff00000#32 - 0x3fe6a09e#32) = some (getHighWord x + (0x3ff00000#32 - 0x3fe6a09e#32)) := by
    unfold uadd; rw [if_pos]
    rw [c1]
    omega
  rw [a1]
  simp only [Option.bind_some]
  have hwn : (getHighWord x + (0x3ff00000#32 - 0x3fe6a09e#32)).toNat = x.mb / 2 ^ 32 + 614242 := by
    rw [BitVec.toNat_add, c1, hu]; omega
  generalize getHighWord x + (0x3ff00000#32 - 0x3fe6a09e#32) = w at *
  have hw : (w >>> 20).toNat = (x.mb / 2 ^ 32 + 614242) / 2 ^ 20 := by
    rw [BitVec.toNat_ushiftRight, Nat.shiftRight_eq_div_pow, hwn]
  rw [abs_le] at hk
  have hk2 : i32 (k0 + (((w >>> 20).toNat : ℤ) - 0x3ff)) = some (k0 + (((w >>> 20).toNat : ℤ) - 0x3ff)) :=
    i32_some (by omega) (by omega)
  rw [hk2, Option.bind_some]
  have c2 : (0x3fe6a09e#32).toNat = 0x3fe6a09e := rfl
  have hl : (w &&& 0x000fffff#32).toNat = (x.mb / 2 ^ 32 + 614242) % 2 ^ 20 := by
    rw [BV.and_low (k := 20) (by decide), hwn]
  have a2 : uadd (w &&& 0x000fffff#32) 0x3fe6a09e#32 = some ((w &&& 0x000fffff#32) + 0x3fe6a09e#32) := by
    unfold uadd; rw [if_pos]
    rw [c2, hl]
    omega
  rw [a2, Option.bind_some]
  have hh : ((w &&& 0x000fffff#32) + 0x3fe6a09e#32).toNat = (x.mb / 2 ^ 32 + 614242) % 2 ^ 20 + 0x3fe6a09e := by
    rw [BitVec.toNat_add, c2, hl]; omega
  generalize (w &&& 0x000fffff#32) + 0x3fe6a09e#32 = v at *
  have hj := join_toNat v x.u64
  rw [hh, hU] at hj
  generalize ((v.setWidth 64 <<< 32) ||| (x.u64 &&& 0xffffffff#64)) = b at *
  have hb : b.toNat < 2 ^ 63 := by omega
  have em : bits64 b = mk' f64 false b.toNat := bits64_mk hb
  have mm : (bits64 b).mb = b.toNat := by rw [em]; exact mb_mk' hb
  have ms : (bits64 b).sign = false := by rw [em]; exact sign_mk' hb
  generalize bits64 b = m at *
  set k : ℤ := ((w >>> 20).toNat : ℤ) - 0x3ff with hkdef
  have hv : x.val = m.val * 2 ^ k := by
    refine val_exp_shift64 hs ms h1 (by omega) ?_
    rw [mm, hkdef, hw, hj]; push_cast; omega
  have mf : m.isFinite := (isFinite64 _).2 (by omega)
  have lo : (0.7071 : ℝ) ≤ m.val := by
    have := val_mono (x := m) (y := mk' f64 false 0x3fe6a09e00000000) (by rw [mb_mk' (by decide)]; omega)
    rw [abs_of_nonneg (val_nonneg ms), val_const64 (x := mk' f64 false 0x3fe6a09e00000000) 741455 1054 (-20) (by decide +kernel) (by norm_num)] at this
    norm_num at this ⊢
    linarith
  have hi : m.val ≤ (1.41422 : ℝ) := by
    have := val_mono (x := mk' f64 false 0x3ff6a09e00000000) (y := m) (by rw [mb_mk' (by decide)]; omega)
    rw [abs_of_nonneg (val_nonneg ms), val_const64 (x := mk' f64 false 0x3ff6a09e00000000) 741455 1055 (-19) (by decide +kernel) (by norm_num)] at this
    norm_num at this ⊢
    linarith
  have sub := sterbenz_val (x := m) (y := (1.0 : Flt f64)) mf (by decide +kernel)
  rw [Cbrt.one_v] at sub
  norm_num at lo hi
  have hab : |m.val - 1| ≤ 1 / 2 := by rw [abs_le]; constructor <;> linarith
  have hn : (2 : ℝ) ^ (1 - (f64.bias : ℤ)) ≤ 1 / 2 := by
    rw [show (1 / 2 : ℝ) = 2 ^ (-1 : ℤ) by norm_num]
    exact zpow_le_zpow_right₀ (by norm_num) (by rw [f64_bias]; norm_num)
  obtain ⟨ff, fv⟩ := sub (by rw [abs_of_nonneg (by linarith : 0 ≤ m.val)]; linarith) (by rw [abs_one]; linarith)
    (by rw [abs_of_nonneg (by linarith : 0 ≤ m.val)]; linarith) (by rw [abs_one]; linarith)
  have gap : m.val - 1 = 0 ∨ 1 / 2 ^ 53 ≤ |m.val - 1| := by
    obtain ⟨n, hn⟩ := grid64 m (-1) (by rw [abs_of_nonneg (by linarith : 0 ≤ m.val)]; norm_num; linarith)
    have e : m.val - 1 = ((n - 2 ^ 53 : ℤ) : ℝ) * (1 / 2 ^ 53) := by rw [hn]; push_cast; norm_num; ring
    rcases eq_or_ne (n - 2 ^ 53) 0 with h0 | h0
    · left; rw [e, h0]; norm_num
    · right
      have : (1 : ℝ) ≤ |((n - 2 ^ 53 : ℤ) : ℝ)| := by exact_mod_cast Int.one_le_abs h0
      rw [e, abs_mul, abs_of_pos (by norm_num : (0 : ℝ) < 1 / 2 ^ 53)]
      exact le_mul_of_one_le_left (by norm_num) this
  refine ⟨_, k, rfl, ff, ?_, ?_, ?_, by rw [fv]; exact gap, ?_, ?_⟩
  · rw [fv, hv]; ring
  · rw [fv]; norm_num; linarith
  · rw [fv]; norm_num; linarith
  · omega
  · omega
end Log

theorem val_exp_shift32 {x y : Flt f32} {k : ℤ} (hx : x.sign = false) (hy : y.sign = false) (h1 : 2 ^ 23 ≤ x.mb) (h2 : 2 ^ 23 ≤ y.mb)
    (h : (x.mb : ℤ) = y.mb + k * 2 ^ 23) : x.val = y.val * 2 ^ k := by
  have a := val_normal32 x h1
  have b := val_normal32 y h2
  rw [abs_of_nonneg (val_nonneg hx)] at a
  rw [abs_of_nonneg (val_nonneg hy)] at b
  rw [a, b, mul_assoc, ← zpow_add₀ (by norm_num), show x.mb % 2 ^ 23 = y.mb % 2 ^ 23 by omega]
  rw [show ((x.mb / 2 ^ 23 : ℕ) : ℤ) - 150 = ((y.mb / 2 ^ 23 : ℕ) : ℤ) - 150 + k by omega]

namespace Logf
theorem reduce_spec {x : Flt f32} (hs : x.sign = false) (h1 : 2 ^ 23 ≤ x.mb) (h2 : x.mb < 0xff * 2 ^ 23) (k0 : ℤ) (hk : |k0| ≤ 2 ^ 20) :
    ∃ (f : Flt f32) (k : ℤ), reduce x k0 = some (f, k0 + k) ∧ f.isFinite ∧ x.val = (1 + f.val) * 2 ^ k ∧ -4913933 / 2 ^ 24 ≤ f.val ∧ f.val ≤ 3474674 / 2 ^ 23 ∧
      (f.val = 0 ∨ 1 / 2 ^ 24 ≤ |f.val|) ∧ -127 ≤ k ∧ k ≤ 128 ∧ ∃ n : ℤ, f.val = n * (1 / 2 ^ 24) := by
  have hm := mb32_lt x
  have hu := u32_toNat x
  rw [hs, if_neg (by decide), Nat.add_zero] at hu
  unfold reduce
  dsimp only
  have c1 : (0x3f800000#32 - 0x3f3504f3#32).toNat = 4913933 := by rfl
  have a1 : uadd x.u32 (0x3f800000#32 - 0x3f3504f3#32) = some (x.u32 + (0x3f800000#32 - 0x3f3504f3#32)) := by
    unfold uadd; rw [if_pos]
    rw [c1]
    omega
  rw [a1]
  simp only [Option.bind_some]
  have hwn : (x.u32 + (0x3f800000#32 - 0x3f3504f3#32)).toNat = x.mb + 4913933 := by
    rw [BitVec.toNat_add, c1, hu]; omega
  generalize x.u32 + (0x3f800000#32 - 0x3f3504f3#32) = w at *
  have hw : (w >>> 23).toNat = (x.mb + 4913933) / 2 ^ 23 := by
    rw [BitVec.toNat_ushiftRight, Nat.shiftRight_eq_div_pow, hwn]
  rw [abs_le] at hk
  have hk2 : i32 (k0 + (((w >>> 23).toNat : ℤ) - 0x7f)) = some (k0 + (((w >>> 23).toNat : ℤ) - 0x7f)) :=
    i32_some (by omega) (by omega)
  rw [hk2, Option.bind_some]
  have c2 : (0x3f3504f3#32).toNat = 0x3f3504f3 := rfl
  have hl : (w &&& 0x007fffff#32).toNat = (x.mb + 4913933) % 2 ^ 23 := by
    rw [BV.and_low (k := 23) (by decide), hwn]
  have a2 : uadd (w &&& 0x007fffff#32) 0x3f3504f3#32 = some ((w &&& 0x007fffff#32) + 0x3f3504f3#32) := by
    unfold uadd; rw [if_pos]
    rw [c2, hl]
    omega
  rw [a2, Option.bind_some]
  have hj : ((w &&& 0x007fffff#32) + 0x3f3504f3#32).toNat = (x.mb + 4913933) % 2 ^ 23 + 0x3f3504f3 := by
    rw [BitVec.toNat_add, c2, hl]; omega
  generalize (w &&& 0x007fffff#32) + 0x3f3504f3#32 = b at *
  have hb : b.toNat < 2 ^ 31 := by omega
  have em : bits32 b = mk' f32 false b.toNat := bits32_mk hb
  have mm : (bits32 b).mb = b.toNat := by rw [em]; exact mb_mk' hb
  have ms : (bits32 b).sign = false := by rw [em]; exact sign_mk' hb
  generalize bits32 b = m at *
  set k : ℤ := ((w >>> 23).toNat : ℤ) - 0x7f with hkdef
  have hv : x.val = m.val * 2 ^ k := by
    refine val_exp_shift32 hs ms h1 (by omega) ?_
    rw [mm, hkdef, hw, hj]; push_cast; omega
  have mf : m.isFinite := (isFinite32 _).2 (by omega)
  have lo : (11863283 / 2 ^ 24 : ℝ) ≤ m.val := by
    have := val_mono (x := m) (y := mk' f32 false 0x3f3504f3) (by rw [mb_mk' (by decide)]; omega)
    rw [abs_of_nonneg (val_nonneg ms), val_const32 (x := mk' f32 false 0x3f3504f3) 11863283 125 (-24) (by decide +kernel) (by norm_num)] at this
    norm_num at this ⊢
    linarith
  have hi : m.val ≤ (11863282 / 2 ^ 23 : ℝ) := by
    have := val_mono (x := mk' f32 false 0x3fb504f2) (y := m) (by rw [mb_mk' (by decide)]; omega)
    rw [abs_of_nonneg (val_nonneg ms), val_const32 (x := mk' f32 false 0x3fb504f2) 5931641 127 (-22) (by decide +kernel) (by norm_num)] at this
    norm_num at this ⊢
    linarith
  have sub := sterbenz_val (x := m) (y := (1.0 : Flt f32)) mf (by decide +kernel)
  rw [show (1.0 : Flt f32).val = 1 by rw [val_const32 (x := (1.0 : Flt f32)) 1 149 0 (by decide +kernel) (by norm_num)]; norm_num] at sub
  norm_num at lo hi
  have hab : |m.val - 1| ≤ 1 / 2 := by rw [abs_le]; constructor <;> linarith
  have hn : (2 : ℝ) ^ (1 - (f32.bias : ℤ)) ≤ 1 / 2 := by
    rw [show (1 / 2 : ℝ) = 2 ^ (-1 : ℤ) by norm_num]
    exact zpow_le_zpow_right₀ (by norm_num) (by rw [f32_bias]; norm_num)
  obtain ⟨ff, fv⟩ := sub (by rw [abs_of_nonneg (by linarith : 0 ≤ m.val)]; linarith) (by rw [abs_one]; linarith)
    (by rw [abs_of_nonneg (by linarith : 0 ≤ m.val)]; linarith) (by rw [abs_one]; linarith)
  have gap : m.val - 1 = 0 ∨ 1 / 2 ^ 24 ≤ |m.val - 1| := by
    obtain ⟨n, hn⟩ := grid32 m (-1) (by rw [abs_of_nonneg (by linarith : 0 ≤ m.val)]; norm_num; linarith)
    have e : m.val - 1 = ((n - 2 ^ 24 : ℤ) : ℝ) * (1 / 2 ^ 24) := by rw [hn]; push_cast; norm_num; ring
    rcases eq_or_ne (n - 2 ^ 24) 0 with h0 | h0
    · left; rw [e, h0]; norm_num
    · right
      have : (1 : ℝ) ≤ |((n - 2 ^ 24 : ℤ) : ℝ)| := by exact_mod_cast Int.one_le_abs h0
      rw [e, abs_mul, abs_of_pos (by norm_num : (0 : ℝ) < 1 / 2 ^ 24)]
      exact le_mul_of_one_le_left (by norm_num) this
  have gr : ∃ n : ℤ, m.val - 1 = n * (1 / 2 ^ 24) := by
    obtain ⟨n, hn⟩ := grid32 m (-1) (by rw [abs_of_nonneg (by linarith : 0 ≤ m.val)]; norm_num; linarith)
    exact ⟨n - 2 ^ 24, by rw [hn]; push_cast; norm_num; ring⟩
  refine ⟨_, k, rfl, ff, ?_, ?_, ?_, by rw [fv]; exact gap, ?_, ?_, by rw [fv]; exact gr⟩
  · rw [fv, hv]; ring
  · rw [fv]; norm_num; linarith
  · rw [fv]; norm_num; linarith
  · omega
  · omega
end Logf
end Verif
