import Verif.Theory.PowMul
import Mathlib.Tactic.IntervalCases

/-!
# Splitting off the nearest integer in pow, and the exponent of the result
-/

namespace Verif
open Flt
namespace PowT
open AsW
variable {F : Fmt}

/-- the value of a normal float from its fields -/
theorem abs_val_normal {x : Flt F} {E : ℕ} (hb : 1 ≤ F.bias) (hE : 1 ≤ E) (h : x.mb / 2 ^ F.sb = E) :
    |x.val| = ((2 ^ F.sb + x.mb % 2 ^ F.sb : ℕ) : ℝ) * 2 ^ ((E : ℤ) - F.bias - F.sb) := by
  have hge : ¬ x.mb < 2 ^ F.sb := by
    intro hlt
    rw [Nat.div_eq_of_lt hlt] at h; omega
  rw [abs_val_div, Flt.mag, magOf, if_neg hge, h, oneMag_eq]
  push_cast
  rw [mul_div_assoc]
  congr 1
  rw [← zpow_natCast, ← zpow_natCast, ← zpow_sub₀ (by norm_num)]
  congr 1
  omega

theorem abs_sub_sign {x y : Flt F} (hs : y.sign = x.sign) : |x.val - y.val| = abs (|x.val| - |y.val|) := by
  cases hx : x.sign
  · rw [abs_of_nonneg (val_nonneg hx), abs_of_nonneg (val_nonneg (hs.trans hx))]
  · rw [abs_of_nonpos (val_nonpos hx), abs_of_nonpos (val_nonpos (hs.trans hx)), ← abs_neg]
    congr 1; ring

theorem shl_toInt (n : ℤ) (k : ℕ) (h1 : -2 ^ 31 ≤ n * 2 ^ k) (h2 : n * 2 ^ k < 2 ^ 31) (hk : k < 32) :
    (BitVec.ofInt 32 n <<< k).toInt = n * 2 ^ k := by
  have e : (BitVec.ofInt 32 n <<< k) = BitVec.ofInt 32 (n * 2 ^ k) := by
    apply BitVec.eq_of_toNat_eq
    rw [BV.shl, BitVec.toNat_ofInt, BitVec.toNat_ofInt]
    have hp : (0 : ℤ) < 2 ^ 32 := by norm_num
    zify
    rw [Int.toNat_of_nonneg (Int.emod_nonneg _ hp.ne'), Int.toNat_of_nonneg (Int.emod_nonneg _ hp.ne')]
    push_cast
    exact Int.ModEq.mul_right _ (Int.mod_modEq n _)
  rw [e, BitVec.toInt_ofInt]
  exact Int.bmod_eq_of_le (by norm_num at h1 ⊢; omega) (by norm_num at h2 ⊢; omega)

/-- adding `n` to the exponent field of a number below two cannot overflow -/
theorem iadd_some {j : BitVec 32} {n : ℤ} {k : ℕ} (hj : j.toNat < 2 ^ 30) (h1 : -2 ^ 31 ≤ n * 2 ^ k) (h2 : n * 2 ^ k ≤ 2 ^ 30) (hk : k < 32) :
    ∃ r, iadd j (BitVec.ofInt 32 n <<< k) = some r := by
  rw [iadd, shl_toInt n k h1 (by omega) hk, BitVec.toInt_eq_toNat_of_lt (by omega), i32, if_pos (by constructor <;> omega)]
  exact ⟨_, rfl⟩

/-- a result carrying a sign factor without the sign bit is not negative -/
def SP {F : Fmt} (s r : Flt F) : Prop := s.sign = false → r.isNaN ∨ r.sign = false

theorem mul_sign' {F : Fmt} (x y : Flt F) : (x * y).isNaN ∨ (x * y).sign = (x.sign ^^ y.sign) := by
  show (Flt.mul x y).isNaN ∨ (Flt.mul x y).sign = _
  unfold Flt.mul
  split
  · exact Or.inl isNaN_qnan
  split
  · exact Or.inl isNaN_qnan
  split
  · exact Or.inr (by simp)
  · exact Or.inr (by simp)

theorem nn_mul {F : Fmt} {x y : Flt F} (hx : x.isNaN ∨ x.sign = false) (hy : y.sign = false) : (x * y).isNaN ∨ (x * y).sign = false := by
  rcases hx with hx | hx
  · left
    show (Flt.mul x y).isNaN
    unfold Flt.mul
    rw [if_pos (Or.inl hx)]
    exact isNaN_qnan
  · have := mul_sign' x y
    rwa [hx, hy] at this

theorem sp_mul {F : Fmt} {s z : Flt F} (hz : z.sign = false) : SP s (s * z) := fun h => nn_mul (Or.inr h) hz
theorem sp_mul2 {F : Fmt} {s z : Flt F} (hz : z.sign = false) : SP s (s * z * z) := fun h => nn_mul (sp_mul hz h) hz

/-- a word with a positive exponent field, read with its sign, has no sign bit -/
theorem word_pos {j : BitVec 32} {k : ℕ} (h : ¬ (j.sshiftRight k).toInt ≤ 0) : j.toNat < 2 ^ 31 := by
  rw [BitVec.toInt_sshiftRight, Int.shiftRight_eq_div_pow] at h
  by_contra hc
  have h1 : j.toInt < 0 := by
    have := j.isLt
    rw [BitVec.toInt_eq_toNat_cond, if_neg (by omega)]; omega
  have : j.toInt / ((2 ^ k : ℕ) : ℤ) < 0 := Int.ediv_neg_of_neg_of_pos h1 (by positivity)
  omega

end PowT

namespace Pow
open PowT AsW

theorem v_one : (1.0 : Flt f64).val = 1 := by
  rw [val_const64 1 1074 0 (by decide +kernel) (by norm_num)]; norm_num
theorem v_two : (2.0 : Flt f64).val = 2 := by
  rw [val_const64 1 1075 1 (by decide +kernel) (by norm_num)]; norm_num
theorem v_three : (3.0 : Flt f64).val = 3 := by
  rw [val_const64 3 1074 0 (by decide +kernel) (by norm_num)]; norm_num

/-- bounds on a constant, through integers -/
theorem bd_const {c : Flt f64} {a b : ℕ} (hf : c.isFinite) (h : |c.sval| * 2 ^ b ≤ a * 2 ^ 1074) : Bd c (a / 2 ^ b) := by
  refine .mk hf ?_
  rw [abs_val_div, le_div_iff₀ (by positivity), div_mul_eq_mul_div, div_le_iff₀ (by exact_mod_cast f64.oneMag_pos)]
  have e : f64.oneMag = 2 ^ 1074 := by rw [oneMag_eq, f64_bias, f64_sb]
  rw [e]
  have e2 : |c.sval| = (c.mag : ℤ) := by rw [← sval_natAbs, Int.abs_eq_natAbs]
  rw [e2] at h
  exact_mod_cast h

theorem bd_one : Bd (1.0 : Flt f64) 1 := .mk (by decide +kernel) (by rw [v_one]; norm_num)
theorem bd_two : Bd (2.0 : Flt f64) 2 := .mk (by decide +kernel) (by rw [v_two]; norm_num)
theorem bd_three : Bd (3.0 : Flt f64) 3 := .mk (by decide +kernel) (by rw [v_three]; norm_num)

theorem hi_sign_mb (z : Flt f64) : (getHighWord z).toNat = z.mb / 2 ^ 32 + if z.sign then 2 ^ 31 else 0 := by
  have h := words_split z
  have h2 := (getLowWord z).isLt
  have h3 := z.mb_lt
  rw [enc_eq, show f64.ew + f64.sb = 63 from rfl] at h
  rw [show f64.ew + f64.sb = 63 from rfl] at h3
  split at h <;> rename_i hs <;> simp only [hs, if_true, Bool.false_eq_true, if_false] <;> omega

/-- a float of sign `s` and encoding `b` from the words -/
theorem set_high_zero (w : BitVec 32) :
    (withSetHighWord 0.0 w).sign = decide (2 ^ 31 ≤ w.toNat) ∧ (withSetHighWord 0.0 w).mb = w.toNat % 2 ^ 31 * 2 ^ 32 := by
  obtain ⟨h1, h2⟩ := set_high_word 0.0 w
  have hl : getLowWord (0.0 : Flt f64) = 0 := by decide +kernel
  have h := words_split (withSetHighWord 0.0 w)
  rw [h1, h2, hl] at h
  have h3 := (withSetHighWord 0.0 w).mb_lt
  rw [enc_eq, show f64.ew + f64.sb = 63 from rfl] at h
  rw [show f64.ew + f64.sb = 63 from rfl] at h3
  have hw := w.isLt
  have h0 : (0 : BitVec 32).toNat = 0 := rfl
  clear h1 h2 hl
  generalize (withSetHighWord 0.0 w).mb = M at *
  generalize (withSetHighWord 0.0 w).sign = S at *
  rw [h0] at h
  generalize w.toNat = v at *
  cases S
  · rw [if_neg (by decide), add_zero, add_zero] at h
    subst h
    have hd : ¬ 2 ^ 31 ≤ v := by
      intro hd
      have := Nat.mul_le_mul_right (2 ^ 32) hd
      rw [← pow_add] at this
      exact absurd h3 (not_lt.2 this)
    exact ⟨(decide_eq_false hd).symm, by omega⟩
  · rw [if_pos rfl] at h
    have hd : 2 ^ 31 ≤ v := by omega
    exact ⟨(decide_eq_true hd).symm, by omega⟩

/-- the end of pow returns -/
theorem exp2Tail_some {s ph pl : Flt f64} {n : ℤ} (hph : Bd ph 2048) (hpl : Bd pl 2048) (h : |pl.val + ph.val| ≤ 129 / 2 ^ 8)
    (h1 : -1100 ≤ n) (h2 : n ≤ 1024) : ∃ r, exp2Tail s ph pl n = some r ∧ SP s r := by
  obtain ⟨a, b, c⟩ := tail_core W64 cuts64' (lg2 := lg2) (lg2H := lg2H) (lg2L := lg2L) (p1 := p1) (p2 := p2) (p3 := p3) (p4 := p4) (p5 := p5)
    (one := 1.0) (two := 2.0) (ph := ph) (pl := pl)
    (bd_const (a := 89) (b := 7) (by decide +kernel) (by decide +kernel)) (bd_const (a := 89) (b := 7) (by decide +kernel) (by decide +kernel))
    (by have := bd_const (c := lg2L) (a := 1) (b := 19) (by decide +kernel) (by decide +kernel); exact_mod_cast this)
    (bd_const (a := 11) (b := 6) (by decide +kernel) (by decide +kernel))
    (by have := bd_const (c := p2) (a := 1) (b := 8) (by decide +kernel) (by decide +kernel); exact_mod_cast this)
    (by have := bd_const (c := p3) (a := 1) (b := 13) (by decide +kernel) (by decide +kernel); exact_mod_cast this)
    (by have := bd_const (c := p4) (a := 1) (b := 19) (by decide +kernel) (by decide +kernel); exact_mod_cast this)
    (by have := bd_const (c := p5) (a := 1) (b := 24) (by decide +kernel) (by decide +kernel); exact_mod_cast this)
    bd_two v_two bd_one v_one hph hpl h
  have hz : ∃ z, z = tailZ (fun x => withSetLowWord x 0) lg2 lg2H lg2L p1 p2 p3 p4 p5 1.0 2.0 ph pl := ⟨_, rfl⟩
  obtain ⟨z, ez⟩ := hz
  have e : exp2Tail s ph pl n = (iadd (getHighWord z) (BitVec.ofInt 32 n <<< 20)).bind fun j =>
      if (j.sshiftRight 20).toInt ≤ 0 then (Generic.scalbn z n).map fun z => s * z
      else some (s * withSetHighWord z j) := by rw [ez]; rfl
  rw [← ez] at a b c
  have hs : z.sign = false := by
    by_contra hs
    have := val_nonpos (x := z) (by simpa using hs)
    linarith
  have hm : z.mb < 1024 * 2 ^ 52 := by
    by_contra hm
    have := val_ge_of_mb (x := z) (E := 1024) (by norm_num) (by rw [f64_sb]; omega)
    rw [f64_bias, abs_of_nonneg (by linarith)] at this
    norm_num at this
    linarith
  obtain ⟨r, hr⟩ := iadd_some (j := getHighWord z) (n := n) (k := 20) (by rw [hi_sign_mb, hs]; simp; omega) (by omega) (by omega) (by norm_num)
  rw [e, hr]
  simp only [Option.bind_some]
  split
  · obtain ⟨q, hq, -, hqs⟩ := scalbn_finite (F := f64) (by simp [IsLibFmt]) z a n (by omega) (by omega)
    exact ⟨s * q, by rw [hq]; rfl, sp_mul (hqs.trans hs)⟩
  · rename_i hj
    refine ⟨_, rfl, sp_mul ?_⟩
    have h3 := hi_sign_mb (withSetHighWord z r)
    rw [(set_high_word z r).1] at h3
    have h4 := word_pos hj
    by_contra hc
    rw [Bool.not_eq_false] at hc
    rw [hc, if_pos rfl] at h3
    omega

/-- rounding to the nearest integer on the high word -/
theorem split_nat {m : ℕ} (h : 0x3fe00000 < m / 2 ^ 32) (h2 : m / 2 ^ 32 ≤ 0x4090cc00) :
    ∃ s k N, s ≤ 11 ∧ m / 2 ^ 52 = 1022 + s ∧ k ≤ 10 ∧ (m / 2 ^ 32 + 2 ^ (20 - s)) / 2 ^ 20 = 1023 + k ∧
      ((m / 2 ^ 32 + 2 ^ (20 - s)) % 2 ^ 20 + 2 ^ 20) / 2 ^ (20 - k) = N ∧
      (2 ^ 20 + ((m / 2 ^ 32 + 2 ^ (20 - s)) - (m / 2 ^ 32 + 2 ^ (20 - s)) % 2 ^ (20 - k)) % 2 ^ 20) = N * 2 ^ (20 - k) ∧
      ((m / 2 ^ 32 + 2 ^ (20 - s)) - (m / 2 ^ 32 + 2 ^ (20 - s)) % 2 ^ (20 - k)) / 2 ^ 20 = 1023 + k ∧
      N * 2 ^ (54 - s) ≤ (2 ^ 52 + m % 2 ^ 52) * 2 + 2 ^ (53 - s) ∧ (2 ^ 52 + m % 2 ^ 52) * 2 ≤ N * 2 ^ (54 - s) + 2 ^ (53 - s) ∧
      N ≤ 1075 ∧ (m / 2 ^ 32 ≤ 0x40900000 → N ≤ 1024) := by
  obtain ⟨s, hs, hs2⟩ : ∃ s, s ≤ 11 ∧ m / 2 ^ 52 = 1022 + s := ⟨m / 2 ^ 52 - 1022, by omega, by omega⟩
  interval_cases s
  · have h5 : (m / 2 ^ 32 + 2 ^ (20 - 0)) / 2 ^ 20 = 1023 + 0 := by omega
    exact ⟨0, 0, _, by norm_num, hs2, by norm_num, h5, rfl, by omega, by omega, by omega, by omega, by omega, by omega⟩
  · have h5 : (m / 2 ^ 32 + 2 ^ (20 - 1)) / 2 ^ 20 = 1023 + 0 ∨ (m / 2 ^ 32 + 2 ^ (20 - 1)) / 2 ^ 20 = 1023 + 1 := by omega
    rcases h5 with h5 | h5
    · exact ⟨1, 0, _, by norm_num, hs2, by norm_num, h5, rfl, by omega, by omega, by omega, by omega, by omega, by omega⟩
    · exact ⟨1, 1, _, by norm_num, hs2, by norm_num, h5, rfl, by omega, by omega, by omega, by omega, by omega, by omega⟩
  · have h5 : (m / 2 ^ 32 + 2 ^ (20 - 2)) / 2 ^ 20 = 1023 + 1 ∨ (m / 2 ^ 32 + 2 ^ (20 - 2)) / 2 ^ 20 = 1023 + 2 := by omega
    rcases h5 with h5 | h5
    · exact ⟨2, 1, _, by norm_num, hs2, by norm_num, h5, rfl, by omega, by omega, by omega, by omega, by omega, by omega⟩
    · exact ⟨2, 2, _, by norm_num, hs2, by norm_num, h5, rfl, by omega, by omega, by omega, by omega, by omega, by omega⟩
  · have h5 : (m / 2 ^ 32 + 2 ^ (20 - 3)) / 2 ^ 20 = 1023 + 2 ∨ (m / 2 ^ 32 + 2 ^ (20 - 3)) / 2 ^ 20 = 1023 + 3 := by omega
    rcases h5 with h5 | h5
    · exact ⟨3, 2, _, by norm_num, hs2, by norm_num, h5, rfl, by omega, by omega, by omega, by omega, by omega, by omega⟩
    · exact ⟨3, 3, _, by norm_num, hs2, by norm_num, h5, rfl, by omega, by omega, by omega, by omega, by omega, by omega⟩
  · have h5 : (m / 2 ^ 32 + 2 ^ (20 - 4)) / 2 ^ 20 = 1023 + 3 ∨ (m / 2 ^ 32 + 2 ^ (20 - 4)) / 2 ^ 20 = 1023 + 4 := by omega
    rcases h5 with h5 | h5
    · exact ⟨4, 3, _, by norm_num, hs2, by norm_num, h5, rfl, by omega, by omega, by omega, by omega, by omega, by omega⟩
    · exact ⟨4, 4, _, by norm_num, hs2, by norm_num, h5, rfl, by omega, by omega, by omega, by omega, by omega, by omega⟩
  · have h5 : (m / 2 ^ 32 + 2 ^ (20 - 5)) / 2 ^ 20 = 1023 + 4 ∨ (m / 2 ^ 32 + 2 ^ (20 - 5)) / 2 ^ 20 = 1023 + 5 := by omega
    rcases h5 with h5 | h5
    · exact ⟨5, 4, _, by norm_num, hs2, by norm_num, h5, rfl, by omega, by omega, by omega, by omega, by omega, by omega⟩
    · exact ⟨5, 5, _, by norm_num, hs2, by norm_num, h5, rfl, by omega, by omega, by omega, by omega, by omega, by omega⟩
  · have h5 : (m / 2 ^ 32 + 2 ^ (20 - 6)) / 2 ^ 20 = 1023 + 5 ∨ (m / 2 ^ 32 + 2 ^ (20 - 6)) / 2 ^ 20 = 1023 + 6 := by omega
    rcases h5 with h5 | h5
    · exact ⟨6, 5, _, by norm_num, hs2, by norm_num, h5, rfl, by omega, by omega, by omega, by omega, by omega, by omega⟩
    · exact ⟨6, 6, _, by norm_num, hs2, by norm_num, h5, rfl, by omega, by omega, by omega, by omega, by omega, by omega⟩
  · have h5 : (m / 2 ^ 32 + 2 ^ (20 - 7)) / 2 ^ 20 = 1023 + 6 ∨ (m / 2 ^ 32 + 2 ^ (20 - 7)) / 2 ^ 20 = 1023 + 7 := by omega
    rcases h5 with h5 | h5
    · exact ⟨7, 6, _, by norm_num, hs2, by norm_num, h5, rfl, by omega, by omega, by omega, by omega, by omega, by omega⟩
    · exact ⟨7, 7, _, by norm_num, hs2, by norm_num, h5, rfl, by omega, by omega, by omega, by omega, by omega, by omega⟩
  · have h5 : (m / 2 ^ 32 + 2 ^ (20 - 8)) / 2 ^ 20 = 1023 + 7 ∨ (m / 2 ^ 32 + 2 ^ (20 - 8)) / 2 ^ 20 = 1023 + 8 := by omega
    rcases h5 with h5 | h5
    · exact ⟨8, 7, _, by norm_num, hs2, by norm_num, h5, rfl, by omega, by omega, by omega, by omega, by omega, by omega⟩
    · exact ⟨8, 8, _, by norm_num, hs2, by norm_num, h5, rfl, by omega, by omega, by omega, by omega, by omega, by omega⟩
  · have h5 : (m / 2 ^ 32 + 2 ^ (20 - 9)) / 2 ^ 20 = 1023 + 8 ∨ (m / 2 ^ 32 + 2 ^ (20 - 9)) / 2 ^ 20 = 1023 + 9 := by omega
    rcases h5 with h5 | h5
    · exact ⟨9, 8, _, by norm_num, hs2, by norm_num, h5, rfl, by omega, by omega, by omega, by omega, by omega, by omega⟩
    · exact ⟨9, 9, _, by norm_num, hs2, by norm_num, h5, rfl, by omega, by omega, by omega, by omega, by omega, by omega⟩
  · have h5 : (m / 2 ^ 32 + 2 ^ (20 - 10)) / 2 ^ 20 = 1023 + 9 ∨ (m / 2 ^ 32 + 2 ^ (20 - 10)) / 2 ^ 20 = 1023 + 10 := by omega
    rcases h5 with h5 | h5
    · exact ⟨10, 9, _, by norm_num, hs2, by norm_num, h5, rfl, by omega, by omega, by omega, by omega, by omega, by omega⟩
    · exact ⟨10, 10, _, by norm_num, hs2, by norm_num, h5, rfl, by omega, by omega, by omega, by omega, by omega, by omega⟩
  · have h5 : (m / 2 ^ 32 + 2 ^ (20 - 11)) / 2 ^ 20 = 1023 + 10 := by omega
    exact ⟨11, 10, _, by norm_num, hs2, by norm_num, h5, rfl, by omega, by omega, by omega, by omega, by omega, by omega⟩

end Pow
end Verif
