import Verif.Model.Gamma
import Verif.Theory.GammaR
import Verif.Props.PowTotal
import Verif.Props.Integral
import Verif.Theory.SymF
import Verif.Theory.Hypotf

/-! # C52: the Gamma function: totality, special values, poles, factorials and saturation; C36 for tgamma -/

namespace Verif
open Flt

/-- `f` treats the special arguments the way the Gamma function of C has to, is the correctly rounded Gamma function on the
integers `1 … 23` and far away from the origin, and returns for every argument. -/
structure IsGammaSpecial {F : Fmt} (f : Flt F → Option (Flt F)) : Prop where
  /-- no panic, no endless loop -/
  total : ∀ x, ∃ r, f x = some r
  nan : ∀ x r, x.isNaN → f x = some r → r.isNaN
  pinf : f (inf F false) = some (inf F false)
  ninf : ∀ r, f (inf F true) = some r → r.isNaN
  /-- an infinity with the sign of the zero -/
  zero : ∀ x, x.isZero → f x = some (inf F x.sign)
  /-- the poles at the negative integers -/
  pole : ∀ x r, x.isFinite → (∃ n : ℕ, 1 ≤ n ∧ x.val = -(n : ℝ)) → f x = some r → r.isNaN
  /-- factorials -/
  fact : ∀ x r, x.isFinite → (∃ n : ℕ, 1 ≤ n ∧ n ≤ 23 ∧ x.val = (n : ℝ)) → f x = some r → IsRNE (Real.Gamma x.val) r
  /-- overflow and underflow, with the sign of the Gamma function -/
  far : ∀ x r, x.isFinite → 184 ≤ |x.val| → ¬ (∃ n : ℕ, x.val = -(n : ℝ)) → f x = some r →
    IsRNE (Real.Gamma x.val) r ∧ (r.isInf ∨ r.isZero) ∧ (r.sign = true ↔ Real.Gamma x.val < 0)

namespace Flt
variable {F : Fmt}

theorem isRNE_inf_of {q : ℝ} (h : 2 ^ ((F.bias : ℤ) + 1) ≤ q) : IsRNE q (inf F false) := by
  have hp := zp ((F.bias : ℤ) + 1)
  have h0 : ((overflowThreshold F : ℚ) : ℝ) ≤ q := by
    refine le_trans ?_ h
    unfold overflowThreshold
    push_cast
    rw [zpow_add₀ (by norm_num), zpow_natCast, zpow_one]
    apply mul_le_mul_of_nonneg_left _ (by positivity)
    linarith [zp (-((F.sb : ℤ) + 1))]
  unfold IsRNE
  rw [abs_of_pos (by linarith), if_pos h0]
  refine ⟨isInf_inf _, ?_⟩
  simp only [sign_inf, Bool.false_eq_true, false_iff, not_lt]
  linarith

theorem isRNE_zero_of {q : ℝ} {s : Bool} (h : |q| < 2 ^ (-(F.bias : ℤ) - F.sb)) (hs : s = true ↔ q < 0) : IsRNE q (zero F s) := by
  have h0 : ¬ ((overflowThreshold F : ℚ) : ℝ) ≤ |q| := by
    have := overflow_ge F
    have h1 : (2 : ℝ) ^ (-(F.bias : ℤ) - F.sb) ≤ 2 ^ (F.bias : ℤ) := zpow_le_zpow_right₀ (by norm_num) (by omega)
    linarith
  unfold IsRNE
  rw [if_neg h0]
  have e : (((zero F s).toRat : ℚ) : ℝ) = 0 := val_zero s
  refine ⟨finite_of_zero (isZero_zero s), fun t ht => ?_, fun t ht h1 h2 => ?_, fun _ => by simpa using hs⟩
  · rw [e, zero_sub, abs_neg]
    change |q| ≤ |t.val - q|
    by_cases hz : t.isZero
    · rw [isZero_val.1 hz, zero_sub, abs_neg]
    · have h2 := val_ge_min hz
      have e2 : (2 : ℝ) ^ (1 - (F.bias : ℤ) - F.sb) = 2 * 2 ^ (-(F.bias : ℤ) - F.sb) := by
        rw [← zpow_one_add₀ (by norm_num)]; congr 1; ring
      have := abs_sub_abs_le_abs_sub t.val q
      linarith
  · have : (zero F s).fracField = 0 := by
      have := mb_eq (zero F s)
      rw [mb_zero] at this
      omega
    rw [this]

theorem isRNE_val {x : Flt F} (hx : x.isFinite) : IsRNE x.val x := by
  have h := mul_rne hx (y := one F) isFinite_one
  rwa [mul_one_self (not_nan_of_finite hx), val_one, mul_one] at h

theorem floor_val {x : Flt F} (hx : x.isFinite) : (Generic.floor x).isFinite ∧ (Generic.floor x).sign = x.sign ∧ (Generic.floor x).val = (⌊x.val⌋ : ℝ) := by
  obtain ⟨h1, h2, h3⟩ := floor_finite x hx
  refine ⟨h1, h2, ?_⟩
  unfold Flt.val
  rw [h3]
  simp

theorem feq_val {x y : Flt F} (hx : x.isFinite) (hy : y.isFinite) : (x =ᶠ y) = true ↔ x.val = y.val := by
  rw [feq_iff, le_antisymm_iff, le_antisymm_iff (a := x.val), val_le_iff, val_le_iff]
  have := not_nan_of_finite hx
  have := not_nan_of_finite hy
  tauto

theorem le_val {x y : Flt F} (hx : x.isFinite) (hy : y.isFinite) : (x ≤ᶠ y) = true ↔ x.val ≤ y.val := by
  rw [le_iff, val_le_iff]
  have := not_nan_of_finite hx
  have := not_nan_of_finite hy
  tauto
end Flt

namespace Tgamma

theorem fact_some {i : ℕ} (hi : i < 23) : ∃ r, fact[i]? = some r ∧ r.isFinite ∧ r.val = (Nat.factorial i : ℝ) := by
  have key : ∀ i < 23, ∃ r, fact[i]? = some r ∧ r.isFinite ∧ r.sval = (Nat.factorial i : ℤ) * 2 ^ 1074 := by
    have : ∀ i : Fin 23, (fact[i.val]?).any (fun r => decide (r.isFinite ∧ r.sval = (Nat.factorial i : ℤ) * 2 ^ 1074)) = true := by decide +kernel
    intro i hi
    have h := this ⟨i, hi⟩
    rw [Option.any_eq_true] at h
    obtain ⟨r, h1, h2⟩ := h
    exact ⟨r, h1, of_decide_eq_true h2⟩
  obtain ⟨r, h1, h2, h3⟩ := key i hi
  refine ⟨r, h1, h2, ?_⟩
  rw [val_const64 (Nat.factorial i : ℤ) 1074 0 h3 (by norm_num)]
  simp

theorem body_total (x : Flt f64) : ∃ r, body x = some r := by
  unfold body
  simp only
  obtain ⟨e, he⟩ := exp_special.total (-((if x.sign then -x else x) + gmhalf))
  rw [he, Option.bind_some]
  obtain ⟨p, hp⟩ := pow_total ((if x.sign then -x else x) + gmhalf) (0.5 * if (x <ᶠ 0.0) = true then -((if x.sign then -x else x) - 0.5) else (if x.sign then -x else x) - 0.5)
  rw [hp]
  exact ⟨_, rfl⟩

theorem is_int {x : Flt f64} (hx : x.isFinite) : (x =ᶠ Generic.floor x) = true ↔ ∃ n : ℤ, x.val = n := by
  obtain ⟨h1, -, h3⟩ := floor_val hx
  rw [feq_val hx h1, h3]
  constructor
  · intro h; exact ⟨_, h⟩
  · rintro ⟨n, hn⟩; rw [hn, Int.floor_intCast]

theorem ix_ge {x : Flt f64} {c : BitVec 32} : getHighWord x &&& 0x7fffffff#32 ≥ c ↔ c.toNat * 2 ^ 32 ≤ x.mb := by
  rw [ge_iff_le, BitVec.le_def, hi_abs]
  have := Nat.le_div_iff_mul_le (x := c.toNat) (y := x.mb) (k := 2 ^ 32) (by norm_num)
  exact this

theorem ix_lt {x : Flt f64} {c : BitVec 32} : getHighWord x &&& 0x7fffffff#32 < c ↔ x.mb < c.toNat * 2 ^ 32 := by
  rw [BitVec.lt_def, hi_abs]
  exact Nat.div_lt_iff_lt_mul (by norm_num)

theorem c23 : (23.0 : Flt f64).isFinite ∧ (23.0 : Flt f64).val = 23 := by
  refine ⟨by decide +kernel, ?_⟩
  rw [val_const64 23 1074 0 (by decide +kernel) (by norm_num)]
  norm_num

theorem half : (0.5 : Flt f64).isFinite ∧ (0.5 : Flt f64).val = 1 / 2 := by
  refine ⟨by decide +kernel, ?_⟩
  rw [val_const64 1 1073 (-1) (by decide +kernel) (by norm_num)]
  norm_num

/-- the four finite cases outside the general formula -/
theorem nonfin {x : Flt f64} (h : ¬ x.isFinite) : tgamma x = some (x + inf f64 false) := by
  unfold tgamma
  rw [isFinite64] at h
  simp only
  rw [if_pos (ix_ge.2 (by rw [show (0x7ff00000#32).toNat = 0x7ff00000 from rfl]; omega))]

theorem small {x : Flt f64} (h : x.mb < 0x3c90000000000000) : tgamma x = some (1.0 / x) := by
  unfold tgamma
  simp only
  rw [if_neg (by rw [ix_ge, show (0x7ff00000#32).toNat = 0x7ff00000 from rfl]; omega), if_pos (ix_lt.2 (by rw [show (0x3c900000#32).toNat = 0x3c900000 from rfl]; omega))]

/-- the chain of decisions for the finite arguments that are not tiny -/
theorem chain {x : Flt f64} (hf : x.isFinite) (h : 0x3c90000000000000 ≤ x.mb) :
    tgamma x = if x =ᶠ Generic.floor x ∧ x.sign = true then some (0.0 / 0.0)
      else if x =ᶠ Generic.floor x ∧ x ≤ᶠ 23.0 then (let i := x.toSInt 64 - 1; if i < 0 then none else fact[i.toNat]?)
      else if 0x4067000000000000 ≤ x.mb then
        if x.sign then
          if Generic.floor x * 0.5 =ᶠ Generic.floor (x * 0.5) then some 0.0 else some (-0.0)
        else some (x * bits64 0x7fe0000000000000#64)
      else body x := by
  rw [isFinite64] at hf
  conv_lhs => unfold tgamma
  simp only
  rw [if_neg (by rw [ix_ge, show (0x7ff00000#32).toNat = 0x7ff00000 from rfl]; omega), if_neg (by rw [ix_lt, show (0x3c900000#32).toNat = 0x3c900000 from rfl]; omega)]
  have e : (getHighWord x &&& 0x7fffffff#32 ≥ 0x40670000#32) ↔ 0x4067000000000000 ≤ x.mb := by
    rw [ix_ge, show (0x40670000#32).toNat = 0x40670000 from rfl, show 0x40670000 * 2 ^ 32 = 0x4067000000000000 from rfl]
  simp only [e]

theorem not_small_of_int {x : Flt f64} {n : ℤ} (hn : x.val = n) (h0 : n ≠ 0) : 0x3c90000000000000 ≤ x.mb := by
  by_contra hc
  have h := val_lt_of_mb (x := x) (E := 0x3c9) (by norm_num) (by rw [f64_sb]; omega)
  rw [hn, f64_bias] at h
  have h1 : (1 : ℝ) ≤ |(n : ℝ)| := by exact_mod_cast Int.one_le_abs h0
  have h2 : (2 : ℝ) ^ (((0x3c9 : ℕ) : ℤ) - (1023 : ℕ)) ≤ 1 := zpow_le_one_of_nonpos₀ (by norm_num) (by norm_num)
  linarith

theorem neg_int {x : Flt f64} (hf : x.isFinite) {n : ℕ} (h1 : 1 ≤ n) (hn : x.val = -(n : ℝ)) : tgamma x = some (0.0 / 0.0) := by
  have hn' : x.val = ((-(n : ℤ) : ℤ) : ℝ) := by rw [hn]; push_cast; rfl
  have hp : (1 : ℝ) ≤ n := by exact_mod_cast h1
  rw [chain hf (not_small_of_int hn' (by omega)), if_pos ⟨(is_int hf).2 ⟨_, hn'⟩, sign_of_val_neg (by linarith)⟩]

theorem sign_false_of_pos {F : Fmt} {x : Flt F} (h : 0 < x.val) : x.sign = false := by
  by_contra hc
  have := val_nonpos (Bool.not_eq_false _ ▸ hc : x.sign = true)
  linarith

theorem pos_int {x : Flt f64} (hf : x.isFinite) {n : ℕ} (h1 : 1 ≤ n) (h2 : n ≤ 23) (hn : x.val = (n : ℝ)) :
    ∃ r, tgamma x = some r ∧ r.isFinite ∧ r.val = Real.Gamma x.val := by
  have hn' : x.val = ((n : ℤ) : ℝ) := by rw [hn]; push_cast; rfl
  have hp : (1 : ℝ) ≤ n := by exact_mod_cast h1
  have hp2 : (n : ℝ) ≤ 23 := by exact_mod_cast h2
  have hs : x.sign = false := sign_false_of_pos (by linarith)
  rw [chain hf (not_small_of_int hn' (by omega)), if_neg (by rw [hs]; simp), if_pos ⟨(is_int hf).2 ⟨_, hn'⟩, (le_val hf c23.1).2 (by rw [c23.2, hn]; exact hp2)⟩]
  have hi : x.toSInt 64 = n := toSInt_int hf hn' (by rw [abs_of_nonneg (by omega)]; norm_num; omega)
  simp only [hi]
  rw [if_neg (by omega), show ((n : ℤ) - 1).toNat = n - 1 by omega]
  obtain ⟨r, h3, h4, h5⟩ := fact_some (i := n - 1) (by omega)
  refine ⟨r, h3, h4, ?_⟩
  rw [h5, hn]
  obtain ⟨m, rfl⟩ : ∃ m, n = m + 1 := ⟨n - 1, by omega⟩
  rw [Nat.add_sub_cancel]
  push_cast
  rw [Real.Gamma_nat_eq_factorial]

theorem mb_of_184 {x : Flt f64} (h : 184 ≤ |x.val|) : 0x4067000000000000 ≤ x.mb := by
  by_contra hc
  have h1 := val_mono (x := bits64 0x4066ffffffffffff#64) (y := x) (by rw [show (bits64 0x4066ffffffffffff#64).mb = 0x4066ffffffffffff by decide +kernel]; omega)
  rw [val_const64 (x := bits64 0x4066ffffffffffff#64) 6473924464345087 1029 (-45) (by decide +kernel) (by norm_num)] at h1
  norm_num at h1
  linarith

theorem large_pos {x : Flt f64} (hf : x.isFinite) (h : 184 ≤ x.val) : tgamma x = some (inf f64 false) := by
  have hm := mb_of_184 (h.trans (le_abs_self _))
  have hs : x.sign = false := sign_false_of_pos (by linarith)
  rw [chain hf (by omega), if_neg (by rw [hs]; simp), if_neg, if_pos hm, if_neg (by rw [hs]; simp)]
  · congr 1
    have hc : (bits64 0x7fe0000000000000#64).isFinite ∧ (bits64 0x7fe0000000000000#64).val = 2 ^ (1023 : ℤ) := by
      refine ⟨by decide +kernel, ?_⟩
      rw [val_const64 1 2097 1023 (by decide +kernel) (by norm_num), Int.cast_one, one_mul]
    apply rne_overflow (mul_rne hf hc.1)
    rw [hc.2, f64_bias, show ((1023 : ℕ) : ℤ) + 1 = 1 + 1023 by norm_num, zpow_add₀ (by norm_num)]
    apply mul_le_mul_of_nonneg_right _ (zp _).le
    norm_num
    linarith
  · rw [le_val hf c23.1, c23.2]
    intro hc
    linarith [hc.2]

theorem large_neg {x : Flt f64} (hf : x.isFinite) (h : x.val ≤ -184) (hi : ¬ ∃ n : ℤ, x.val = n) :
    ∃ s, tgamma x = some (zero f64 s) ∧ |Real.Gamma x.val| < 1 / 2 ^ 1075 ∧ (s = true ↔ Real.Gamma x.val < 0) := by
  have habs : 184 ≤ |x.val| := by rw [abs_of_nonpos (by linarith)]; linarith
  have hm := mb_of_184 habs
  have hs : x.sign = true := sign_of_val_neg (by linarith)
  have hni : ¬ (x =ᶠ Generic.floor x) = true := by rw [is_int hf]; exact hi
  have hfr : Int.fract x.val ≠ 0 := by
    intro h0
    apply hi
    refine ⟨⌊x.val⌋, ?_⟩
    have := Int.floor_add_fract x.val
    linarith
  obtain ⟨k, hk⟩ := grid x 7 (by norm_num; linarith)
  rw [f64_sb] at hk
  have hk' : x.val = k / 2 ^ 45 := by
    rw [hk, show (7 : ℤ) - ((52 : ℕ) : ℤ) = -45 by norm_num, zpow_neg]
    norm_num
    ring
  have hfv : Int.fract x.val = ((k % 2 ^ 45 : ℤ) : ℝ) / 2 ^ 45 := by
    rw [Int.fract_eq_iff]
    have e1 : (0 : ℤ) ≤ k % 2 ^ 45 := Int.emod_nonneg _ (by norm_num)
    have e2 : k % 2 ^ 45 < (2 ^ 45 : ℤ) := Int.emod_lt_of_pos _ (by norm_num)
    have e1' : (0 : ℝ) ≤ ((k % 2 ^ 45 : ℤ) : ℝ) := by exact_mod_cast e1
    have e2' : ((k % 2 ^ 45 : ℤ) : ℝ) < 2 ^ 45 := by exact_mod_cast e2
    refine ⟨by positivity, ?_, k / 2 ^ 45, ?_⟩
    · rw [div_lt_one (by norm_num)]
      exact e2'
    · rw [hk', div_sub_div_same, div_eq_iff (by norm_num)]
      have := Int.mul_ediv_add_emod k (2 ^ 45)
      have h3 : (k : ℝ) = 2 ^ 45 * ((k / 2 ^ 45 : ℤ) : ℝ) + ((k % 2 ^ 45 : ℤ) : ℝ) := by exact_mod_cast this.symm
      linarith
  have hr0 : k % 2 ^ 45 ≠ 0 := by
    intro h0
    rw [h0] at hfv
    apply hfr
    rw [hfv]
    simp
  have e1 : (1 : ℤ) ≤ k % 2 ^ 45 := by omega
  have e2 : k % 2 ^ 45 ≤ (2 ^ 45 - 1 : ℤ) := by omega
  have e1' : (1 : ℝ) ≤ ((k % 2 ^ 45 : ℤ) : ℝ) := by exact_mod_cast e1
  have e2' : ((k % 2 ^ 45 : ℤ) : ℝ) ≤ 2 ^ 45 - 1 := by exact_mod_cast e2
  have ht := GammaR.tiny h (by rw [hfv]; apply div_le_div_of_nonneg_right e1' (by norm_num)) (by
    rw [hfv, div_le_iff₀ (by norm_num)]
    norm_num at e2' ⊢
    linarith)
  have hsg := GammaR.sign (x := x.val) (by linarith) hfr
  -- the halves are exact
  have hx2 : (x * 0.5).isFinite ∧ (x * 0.5).val = x.val / 2 := by
    obtain ⟨c, hc, hcv⟩ := scale_exact (x := x) (-1) (by
      rw [f64_bias, abs_mul, abs_of_pos (zp (-1))]
      have : (2 : ℝ) ^ (1 - ((1023 : ℕ) : ℤ)) ≤ 1 := zpow_le_one_of_nonpos₀ (by norm_num) (by norm_num)
      norm_num
      norm_num at this
      linarith) (by
      have := val_lt_top hf
      rw [abs_mul, abs_of_pos (zp (-1))]
      have h3 := zp ((f64.bias : ℤ) + 1)
      norm_num at this h3 ⊢
      linarith [abs_nonneg x.val])
    have := (mul_rne hf half.1).exact_real hc (by rw [hcv, half.2]; norm_num)
    rw [half.2] at this
    exact ⟨this.1, by rw [this.2]; ring⟩
  obtain ⟨f1, f2, f3⟩ := floor_val hf
  obtain ⟨g1, g2, g3⟩ := floor_val hx2.1
  have hfl : (⌊x.val⌋ : ℝ) ≤ -184 := by
    have := Int.floor_le x.val
    linarith
  have hF2 : (Generic.floor x * 0.5).isFinite ∧ (Generic.floor x * 0.5).val = ⌊x.val⌋ / 2 := by
    obtain ⟨c, hc, hcv⟩ := scale_exact (x := Generic.floor x) (-1) (by
      rw [f64_bias, abs_mul, abs_of_pos (zp (-1)), f3, abs_of_nonpos (by linarith)]
      have : (2 : ℝ) ^ (1 - ((1023 : ℕ) : ℤ)) ≤ 1 := zpow_le_one_of_nonpos₀ (by norm_num) (by norm_num)
      norm_num
      norm_num at this
      linarith) (by
      have := val_lt_top f1
      rw [abs_mul, abs_of_pos (zp (-1))]
      have h3 := zp ((f64.bias : ℤ) + 1)
      norm_num at this h3 ⊢
      linarith [abs_nonneg (Generic.floor x).val])
    have := (mul_rne f1 half.1).exact_real hc (by rw [hcv, half.2]; norm_num)
    rw [half.2, f3] at this
    exact ⟨this.1, by rw [this.2]; ring⟩
  have hev : (Generic.floor x * 0.5 =ᶠ Generic.floor (x * 0.5)) = true ↔ Even ⌊x.val⌋ := by
    rw [feq_val hF2.1 g1, hF2.2, g3, hx2.2]
    have e : ⌊x.val / 2⌋ = ⌊x.val⌋ / 2 := by
      have := Int.floor_div_natCast x.val 2
      push_cast at this
      exact this
    rw [e, div_eq_iff (by norm_num), Int.even_iff]
    constructor
    · intro h3
      have h4 : ⌊x.val⌋ = ⌊x.val⌋ / 2 * 2 := by exact_mod_cast h3
      omega
    · intro h3
      have h4 : ⌊x.val⌋ = ⌊x.val⌋ / 2 * 2 := by omega
      exact_mod_cast h4
  have z0 : (0.0 : Flt f64) = zero f64 false := by decide +kernel
  have z1 : (-0.0 : Flt f64) = zero f64 true := by decide +kernel
  rw [chain hf (by omega), if_neg (fun h => hni h.1), if_neg (fun h => hni h.1), if_pos hm, if_pos hs]
  by_cases he : Even ⌊x.val⌋
  · refine ⟨false, by rw [if_pos (hev.2 he), z0], ht, ?_⟩
    rw [hsg.2]
    simp [he]
  · refine ⟨true, by rw [if_neg (fun h => he (hev.1 h)), z1], ht, ?_⟩
    rw [hsg.2]
    simp [he]

theorem total (x : Flt f64) : ∃ r, tgamma x = some r := by
  by_cases hf : x.isFinite
  · by_cases hm : x.mb < 0x3c90000000000000
    · exact ⟨_, small hm⟩
    push Not at hm
    by_cases c : (x =ᶠ Generic.floor x) = true ∧ x.sign = false ∧ (x ≤ᶠ 23.0) = true
    · obtain ⟨c1, c2, c3⟩ := c
      obtain ⟨n, hn⟩ := (is_int hf).1 c1
      rw [le_val hf c23.1, c23.2, hn] at c3
      have h0 := val_nonneg c2
      have hz : n ≠ 0 := by
        rintro rfl
        have := isZero_val.2 (by rw [hn]; simp : x.val = 0)
        rw [isZero_iff] at this
        omega
      rw [hn] at h0
      have h0' : 0 ≤ n := by exact_mod_cast h0
      have h1' : n ≤ 23 := by exact_mod_cast c3
      obtain ⟨m, rfl⟩ := Int.eq_ofNat_of_zero_le h0'
      obtain ⟨r, hr, -⟩ := pos_int hf (n := m) (by omega) (by omega) (by rw [hn]; push_cast; rfl)
      exact ⟨r, hr⟩
    · rw [chain hf hm]
      split
      · exact ⟨_, rfl⟩
      next c1 =>
        split
        next c2 =>
          exfalso
          apply c
          refine ⟨c2.1, ?_, c2.2⟩
          by_contra h3
          exact c1 ⟨c2.1, by simpa using h3⟩
        · split
          · split
            · split <;> exact ⟨_, rfl⟩
            · exact ⟨_, rfl⟩
          · exact body_total x
  · exact ⟨_, nonfin hf⟩

end Tgamma

/-- C52, binary64 -/
theorem tgamma_special : IsGammaSpecial tgamma where
  total := Tgamma.total
  nan x r hx hr := by
    rw [Tgamma.nonfin (fun h => not_nan_of_finite h hx), add_nan (Or.inl hx)] at hr
    obtain rfl := Option.some.inj hr
    exact isNaN_qnan
  pinf := by rw [Tgamma.nonfin (by decide +kernel)]; decide +kernel
  ninf r hr := by
    rw [Tgamma.nonfin (by decide +kernel)] at hr
    obtain rfl := Option.some.inj hr
    decide +kernel
  zero x hx := by
    rw [Tgamma.small (by rw [isZero_iff] at hx; omega), div_zero (by decide +kernel) (by decide +kernel) hx, show (1.0 : Flt f64).sign = false by decide +kernel, Bool.false_xor]
  pole x r hx := by
    rintro ⟨n, h1, hn⟩ hr
    rw [Tgamma.neg_int hx h1 hn] at hr
    obtain rfl := Option.some.inj hr
    decide +kernel
  fact x r hx := by
    rintro ⟨n, h1, h2, hn⟩ hr
    obtain ⟨r', h3, h4, h5⟩ := Tgamma.pos_int hx h1 h2 hn
    rw [h3] at hr
    obtain rfl := Option.some.inj hr
    rw [← h5]
    exact isRNE_val h4
  far x r hx h hn hr := by
    rcases le_total 0 x.val with h0 | h0
    · rw [abs_of_nonneg h0] at h
      rw [Tgamma.large_pos hx h] at hr
      obtain rfl := Option.some.inj hr
      have hb := GammaR.big h
      refine ⟨isRNE_inf_of (le_trans ?_ hb), Or.inl (isInf_inf _), ?_⟩
      · rw [f64_bias, ← zpow_natCast (2 : ℝ) 1116]
        exact zpow_le_zpow_right₀ (by norm_num) (by norm_num)
      · rw [sign_inf]
        simp only [Bool.false_eq_true, false_iff, not_lt]
        exact le_trans (by positivity) hb
    · rw [abs_of_nonpos h0] at h
      obtain ⟨s, h1, h2, h3⟩ := Tgamma.large_neg hx (by linarith) (by
        rintro ⟨n, h4⟩
        apply hn
        have : n ≤ 0 := by
          have : (n : ℝ) ≤ 0 := by linarith
          exact_mod_cast this
        refine ⟨n.natAbs, ?_⟩
        rw [h4]
        have h5 : (n.natAbs : ℤ) = -n := by omega
        have : ((n.natAbs : ℤ) : ℝ) = -n := by rw [h5]; push_cast; rfl
        rw [Int.cast_natCast] at this
        linarith)
      rw [h1] at hr
      obtain rfl := Option.some.inj hr
      refine ⟨isRNE_zero_of (lt_of_lt_of_le h2 ?_) h3, Or.inr (isZero_zero _), by simpa using h3⟩
      rw [f64_bias, f64_sb, one_div, ← zpow_natCast, ← zpow_neg]
      exact zpow_le_zpow_right₀ (by norm_num) (by norm_num)


example : ∃ r, tgamma (ofNat f64 0x4014000000000000) = some r ∧ r.val = 24 := by
  have hv : (ofNat f64 0x4014000000000000).val = ((5 : ℕ) : ℝ) := by
    rw [val_const64 5 1074 0 (by decide +kernel) (by norm_num)]
    norm_num
  obtain ⟨r, h1, -, h3⟩ := Tgamma.pos_int (by decide +kernel) (n := 5) (by norm_num) (by norm_num) hv
  refine ⟨r, h1, ?_⟩
  rw [h3, hv, show (((5 : ℕ) : ℝ)) = ((4 : ℕ) : ℝ) + 1 by norm_num, Real.Gamma_nat_eq_factorial]
  norm_num [Nat.factorial]

/-- `-185.5` underflows to `+0` and `-184.5` to `-0` -/
example : tgamma (ofNat f64 0xc067300000000000) = some (zero f64 false) ∧ tgamma (ofNat f64 0xc067100000000000) = some (zero f64 true) := by
  decide +kernel

namespace Tgamma
theorem wid_nf {x : Flt f32} (hx : x.isInf) : x.cast f64 = inf f64 x.sign := by
  unfold Flt.cast
  rw [if_neg (not_nan_of_inf hx), if_pos hx]

theorem inf_cast {F G : Fmt} (s : Bool) : (inf F s).cast G = inf G s := by
  unfold Flt.cast
  rw [if_neg (not_nan_of_inf (isInf_inf s)), if_pos (isInf_inf s), sign_inf]

theorem zero_cast {F G : Fmt} (s : Bool) : (zero F s).cast G = zero G s := by
  have hf := finite_of_zero (isZero_zero (F := F) s)
  unfold Flt.cast
  rw [if_neg (not_nan_of_finite hf), if_neg (not_inf_of_finite hf), (isZero_iff_mag _).1 (isZero_zero s), Flt.sign_zero,
    roundMag_exact (b := 0) F.oneMag_pos (Nat.zero_le _) (by rw [Nat.zero_mul, show magOf G.sb 0 = 0 from by simp [magOf], Nat.zero_mul])]
  rfl
end Tgamma

/-- C52, binary32 -/
theorem tgammaf_special : IsGammaSpecial tgammaf where
  total x := by
    obtain ⟨r, hr⟩ := Tgamma.total (x.cast f64)
    exact ⟨_, by rw [tgammaf, hr]; rfl⟩
  nan x r hx hr := by
    rw [tgammaf] at hr
    obtain ⟨r', h1, rfl⟩ := Option.map_eq_some_iff.1 hr
    exact cast_nan (tgamma_special.nan _ _ (cast_nan hx) h1)
  pinf := by rw [tgammaf, Tgamma.inf_cast, tgamma_special.pinf, Option.map_some, Tgamma.inf_cast]
  ninf r hr := by
    rw [tgammaf, Tgamma.inf_cast] at hr
    obtain ⟨r', h1, rfl⟩ := Option.map_eq_some_iff.1 hr
    exact cast_nan (tgamma_special.ninf _ h1)
  zero x hx := by
    have e : x.cast f64 = zero f64 x.sign := by
      conv_lhs => rw [eq_zero hx]
      exact Tgamma.zero_cast _
    rw [tgammaf, e, tgamma_special.zero _ (isZero_zero _), Option.map_some, Flt.sign_zero, Tgamma.inf_cast]
  pole x r hx hn hr := by
    rw [tgammaf] at hr
    obtain ⟨r', h1, rfl⟩ := Option.map_eq_some_iff.1 hr
    obtain ⟨w1, w2⟩ := Hypotf.widen hx
    exact cast_nan (tgamma_special.pole _ _ w1 (by rw [w2]; exact hn) h1)
  fact x r hx := by
    rintro ⟨n, h1, h2, hn⟩ hr
    obtain ⟨w1, w2⟩ := Hypotf.widen hx
    obtain ⟨r', h3, h4, h5⟩ := Tgamma.pos_int w1 h1 h2 (by rw [w2, hn])
    rw [tgammaf, h3] at hr
    obtain rfl := Option.some.inj hr
    rw [← w2, ← h5]
    exact cast_rne h4
  far x r hx h hn hr := by
    obtain ⟨w1, w2⟩ := Hypotf.widen hx
    rw [tgammaf] at hr
    rcases le_total 0 x.val with h0 | h0
    · rw [abs_of_nonneg h0] at h
      rw [Tgamma.large_pos w1 (by rwa [w2]), Option.map_some, Tgamma.inf_cast] at hr
      obtain rfl := Option.some.inj hr
      have hb := GammaR.big h
      refine ⟨isRNE_inf_of (le_trans ?_ hb), Or.inl (isInf_inf _), ?_⟩
      · rw [f32_bias, ← zpow_natCast (2 : ℝ) 1116]
        exact zpow_le_zpow_right₀ (by norm_num) (by norm_num)
      · rw [sign_inf]
        simp only [Bool.false_eq_true, false_iff, not_lt]
        exact le_trans (by positivity) hb
    · rw [abs_of_nonpos h0] at h
      obtain ⟨s, h1, h2, h3⟩ := Tgamma.large_neg w1 (by rw [w2]; linarith) (by
        rintro ⟨n, h4⟩
        apply hn
        rw [w2] at h4
        have : n ≤ 0 := by
          have : (n : ℝ) ≤ 0 := by linarith
          exact_mod_cast this
        refine ⟨n.natAbs, ?_⟩
        rw [h4]
        have h5 : (n.natAbs : ℤ) = -n := by omega
        have : ((n.natAbs : ℤ) : ℝ) = -n := by rw [h5]; push_cast; rfl
        rw [Int.cast_natCast] at this
        linarith)
      rw [h1, Option.map_some, Tgamma.zero_cast] at hr
      rw [w2] at h2 h3
      obtain rfl := Option.some.inj hr
      refine ⟨isRNE_zero_of (lt_of_lt_of_le h2 ?_) h3, Or.inr (isZero_zero _), by simpa using h3⟩
      rw [f32_bias, f32_sb, one_div, ← zpow_natCast, ← zpow_neg]
      exact zpow_le_zpow_right₀ (by norm_num) (by norm_num)

example : (ofNat f32 0xc3393000).isFinite ∧ tgammaf (ofNat f32 0xc3393000) = some (zero f32 false) ∧ tgammaf (ofNat f32 0x40c00000) = some (ofNat f32 0x42f00000) := by
  decide +kernel

end Verif
