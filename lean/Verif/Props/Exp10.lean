import Verif.Props.Pow
import Verif.Props.Exp2

/-!
# C30, C36, C43 for exp10
-/

namespace Verif
open Flt

namespace Exp10
/-- C36 for `exp10`: an argument of magnitude below 16 indexes inside the table -/
theorem look_total (n : Flt f64) (hf : n.isFinite) (hn : |n.val| < 16) : ∃ r, look n = some r := by
  have h1 : |n.toSInt 64| ≤ 15 := by
    have h2 : |n.toInt| ≤ (15 : ℤ) := by
      have := (toInt_abs_le n).trans_lt hn
      have : |n.toInt| < 16 := by exact_mod_cast this
      omega
    unfold toSInt
    rw [if_neg (not_nan_of_finite hf), if_neg (not_inf_of_finite hf)]
    rw [abs_le] at *
    norm_num
    omega
  rw [abs_le] at h1
  unfold look
  have e : i64 (n.toSInt 64 + 15) = some (n.toSInt 64 + 15) := by
    unfold i64; rw [if_pos (by omega)]
  rw [e]
  simp only [Option.bind_some]
  rw [List.getElem?_eq_getElem (by
    rw [show p10.length = 31 by decide +kernel]
    omega)]
  exact ⟨_, rfl⟩

theorem exp_lt (n : Flt f64) : (n.u64 >>> 52) &&& 0x7ff < 0x3ff#64 + 4 ↔ n.mb < 1027 * 2 ^ 52 := by
  rw [BitVec.lt_def, BitVec.toNat_and, BitVec.toNat_ushiftRight, u64_toNat, Nat.shiftRight_eq_div_pow]
  have e : (0x7ff : BitVec 64).toNat = 2 ^ 11 - 1 := rfl
  rw [e, Nat.and_two_pow_sub_one_eq_mod]
  have e2 : (0x3ff#64 + 4 : BitVec 64).toNat = 1027 := rfl
  rw [e2]
  have := mb64_lt n
  split <;> omega
end Exp10

/-- `exp10` on NaN, the infinities and zeros, and its totality on `|x| < 16`.  Missing from `IsExpSpecial`: totality
for larger arguments, which are passed to `pow`. -/
theorem exp10_special_partial :
    (∀ x : Flt f64, x.isNaN → ∃ r, exp10 x = some r ∧ r.isNaN) ∧
    exp10 (inf f64 false) = some (inf f64 false) ∧
    exp10 (inf f64 true) = some (zero f64 false) ∧
    (∀ x : Flt f64, x.isZero → exp10 x = some (one f64)) ∧
    (∀ x : Flt f64, x.isFinite → |x.val| < 16 → ∃ r, exp10 x = some r) := by
  have big : ∀ x : Flt f64, ¬ x.isFinite → exp10 x = pow 10.0 x := by
    intro x hx
    unfold exp10
    have h2 : (modf x).2 = if x.isNaN then x else x := by
      rw [modf_nonfinite x hx]; split <;> rfl
    rw [ite_self] at h2
    dsimp only
    rw [if_neg]
    rw [Exp10.exp_lt, h2]
    rw [isFinite64] at hx
    omega
  refine ⟨?_, ?_, ?_, ?_, ?_⟩
  · intro x hx
    rw [big x (fun h => not_nan_of_finite h hx)]
    exact pow_special.nan _ _ (Or.inr hx) (fun h => not_nan_of_finite (finite_of_zero h) hx) (by decide +kernel)
  · rw [big _ (by decide +kernel)]; decide +kernel
  · rw [big _ (by decide +kernel)]; decide +kernel
  · intro x hx
    rw [eq_zero hx]
    cases x.sign <;> decide +kernel
  · intro x hf hx
    have hmn : (modf x).2.isFinite ∧ |(modf x).2.val| ≤ |x.val| := by
      obtain ⟨-, h1, -, -, h2, -⟩ := modf_finite x hf
      refine ⟨h1, ?_⟩
      have h3 : |(modf x).2.toRat| ≤ |x.toRat| := by
        rw [h2]
        split_ifs with h
        · have := Int.le_ceil x.toRat
          have h0 : ⌈x.toRat⌉ ≤ 0 := Int.ceil_le.2 (by exact_mod_cast h.le)
          have h0' : ((⌈x.toRat⌉ : ℤ) : ℚ) ≤ 0 := by exact_mod_cast h0
          rw [abs_of_nonpos h0', abs_of_neg h]; linarith
        · push Not at h
          have := Int.floor_le x.toRat
          have h0 : 0 ≤ ⌊x.toRat⌋ := Int.floor_nonneg.2 h
          have h0' : (0 : ℚ) ≤ ((⌊x.toRat⌋ : ℤ) : ℚ) := by exact_mod_cast h0
          rw [abs_of_nonneg h0', abs_of_nonneg h]; exact this
      unfold val
      exact_mod_cast h3
    have hm : (modf x).2.mb < 1027 * 2 ^ 52 := by
      by_contra hc
      have := val_ge_of_mb (F := f64) (x := (modf x).2) (E := 1027) (by norm_num) (by rw [f64_sb]; omega)
      rw [f64_bias] at this
      norm_num at this
      linarith [hmn.2]
    obtain ⟨r, hr⟩ := Exp10.look_total _ hmn.1 (hmn.2.trans_lt hx)
    unfold exp10
    dsimp only
    rw [if_pos ((Exp10.exp_lt _).2 hm)]
    split
    · exact ⟨r, hr⟩
    · obtain ⟨e, he⟩ := exp2_special.total (Exp10.ln10 * (modf x).1)
      rw [he, hr]
      exact ⟨_, rfl⟩

/-- `exp10` of an integer between -15 and 15 is the correctly rounded power of ten -/
theorem exp10_integer (x : Flt f64) (n : ℤ) (hn : |n| ≤ 15) (hx : x.val = n) :
    ∃ r, exp10 x = some r ∧ IsRNE ((10 : ℚ) ^ n) r := by
  by_cases h0 : n = 0
  · subst h0
    refine ⟨_, exp10_special_partial.2.2.2.1 x (isZero_val.2 (by simpa using hx)), ?_⟩
    have := ofDec_isRNE f64 1 false 0
    rw [show one f64 = ofDec f64 1 false 0 by decide +kernel]
    simpa using this
  · rw [abs_le] at hn
    have hc : (ofInt f64 n).val = n := by
      obtain ⟨c, hc1, hc2⟩ := exists_val64' (n := n) (k := 0) (by rw [abs_le]; omega) (by norm_num) (by norm_num)
      exact ((ofInt_rne n).exact_real hc1 (by simpa using hc2)).2
    have hx' : x = ofInt f64 n := eq_of_val (hx.trans hc.symm) (by rw [hc]; exact_mod_cast h0)
    have cases : ∀ (m : ℕ) (b : Bool), n = (if b then -(m : ℤ) else m) →
        exp10 (ofInt f64 (if b then -(m : ℤ) else m)) = some (ofDec f64 1 b m) →
        ∃ r, exp10 x = some r ∧ IsRNE ((10 : ℚ) ^ n) r := by
      intro m b hm he
      refine ⟨_, by rw [hx', hm]; exact he, ?_⟩
      have := ofDec_isRNE f64 1 b m
      rw [Nat.cast_one, one_mul, ← hm] at this
      exact this
    have all : ∀ m : Fin 16, ∀ b : Bool, m ≠ 0 →
        exp10 (ofInt f64 (if b then -((m : ℕ) : ℤ) else (m : ℕ))) = some (ofDec f64 1 b m) := by decide +kernel
    by_cases hs : n < 0
    · exact cases n.natAbs true (by rw [if_pos rfl]; omega) (all ⟨n.natAbs, by omega⟩ true (by intro h; simp [Fin.ext_iff] at h; omega))
    · exact cases n.natAbs false (by rw [if_neg (by decide)]; omega) (all ⟨n.natAbs, by omega⟩ false (by intro h; simp [Fin.ext_iff] at h; omega))

end Verif
