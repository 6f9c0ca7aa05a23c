import Verif.Theory.Trans
import Verif.Props.Scalbn
import Verif.Props.Integral

/-!
# Exact double arithmetic

`Is a m e` says that the double `a` is finite with value `m * 2^e`.  Sums, differences and products of such numbers are
exact as long as the integers stay within 53 bits.
-/

namespace Verif
open Flt
open Generic (scalbn)
variable {F : Fmt}

theorem floor_int_div_pow {K : Type} [Field K] [LinearOrder K] [IsStrictOrderedRing K] [FloorRing K] (m : ℤ) (k : ℕ) :
    ⌊(m : K) / ((2 ^ k : ℤ) : K)⌋ = m / 2 ^ k := by
  have := Int.floor_div_natCast (m : K) (2 ^ k)
  push_cast at this ⊢
  rw [this, Int.floor_intCast]

namespace Flt
/-- the magnitude of the value, in units of one -/
theorem abs_val_div (x : Flt F) : |x.val| = (x.mag : ℝ) / (F.oneMag : ℝ) := by
  rw [val_abs, ulp_eq]
  push_cast
  ring

theorem floor_abs_val (x : Flt F) : ⌊|x.val|⌋ = ((x.mag / F.oneMag : ℕ) : ℤ) := by
  rw [abs_val_div, Int.floor_div_natCast, Int.floor_natCast]
  push_cast
  rfl

/-- conversion to an integer in range is truncation -/
theorem toSInt_eq {w : ℕ} {x : Flt F} (hx : x.isFinite) (h : |x.val| < 2 ^ (w - 1)) :
    x.toSInt w = if x.sign then -⌊|x.val|⌋ else ⌊|x.val|⌋ := by
  have h1 : ⌊|x.val|⌋ < 2 ^ (w - 1) := by
    rw [Int.floor_lt]
    push_cast
    exact h
  have h0 : 0 ≤ ⌊|x.val|⌋ := Int.floor_nonneg.2 (abs_nonneg _)
  have e : x.toInt = if x.sign then -⌊|x.val|⌋ else ⌊|x.val|⌋ := by
    rw [floor_abs_val]
    rfl
  unfold toSInt
  rw [if_neg (not_nan_of_finite hx), if_neg (not_inf_of_finite hx), e]
  split_ifs <;> omega

theorem sign_of_val_neg {x : Flt F} (h : x.val < 0) : x.sign = true := by
  by_contra hs
  have := val_nonneg (Bool.not_eq_true _ ▸ hs : x.sign = false)
  linarith

theorem val_nonpos {x : Flt F} (h : x.sign = true) : x.val ≤ 0 := by
  have : (-x).sign = false := by simp [h]
  have := val_nonneg this
  rw [val_neg] at this
  linarith

theorem toSInt_floor {w : ℕ} {x : Flt F} (hx : x.isFinite) (h0 : 0 ≤ x.val) (h : x.val < 2 ^ (w - 1)) :
    x.toSInt w = ⌊x.val⌋ := by
  rw [toSInt_eq hx (by rwa [abs_of_nonneg h0]), abs_of_nonneg h0]
  split_ifs with hs
  · have := le_antisymm (val_nonpos hs) h0
    simp [this]
  · rfl

theorem toSInt_int {w : ℕ} {x : Flt F} {n : ℤ} (hx : x.isFinite) (hn : x.val = n) (h : |n| < 2 ^ (w - 1)) :
    x.toSInt w = n := by
  have h' : |x.val| < 2 ^ (w - 1) := by
    rw [hn]
    exact_mod_cast h
  rw [toSInt_eq hx h', hn, ← Int.cast_abs, Int.floor_intCast]
  split_ifs with hs
  · have := val_nonpos hs
    rw [hn] at this
    have : n ≤ 0 := by exact_mod_cast this
    rw [abs_of_nonpos this]
    ring
  · have := val_nonneg (Bool.not_eq_true _ ▸ hs : x.sign = false)
    rw [hn] at this
    have : 0 ≤ n := by exact_mod_cast this
    rw [abs_of_nonneg this]

end Flt

/-- `a` is finite with value `m * 2^e` -/
def Is (a : Flt f64) (m e : ℤ) : Prop := a.isFinite ∧ a.val = (m : ℝ) * 2 ^ e

namespace Is
variable {a b : Flt f64} {m n e e' : ℤ}

theorem of_rne {q : ℝ} (h : IsRNE q a) (hq : q = (m : ℝ) * 2 ^ e) (hm : |m| ≤ 2 ^ 53) (h1 : -1074 ≤ e) (h2 : e ≤ 970) :
    Is a m e := by
  obtain ⟨c, hc, hv⟩ := exists_val64' hm h1 h2
  have := h.exact_real hc (by rw [hv, hq])
  exact ⟨this.1, by rw [this.2, hq]⟩

theorem add (ha : Is a m e) (hb : Is b n e) (hm : |m + n| ≤ 2 ^ 53) (h1 : -1074 ≤ e) (h2 : e ≤ 970) :
    Is (a + b) (m + n) e :=
  of_rne (add_rne ha.1 hb.1) (by rw [ha.2, hb.2]; push_cast; ring) hm h1 h2

theorem sub (ha : Is a m e) (hb : Is b n e) (hm : |m - n| ≤ 2 ^ 53) (h1 : -1074 ≤ e) (h2 : e ≤ 970) :
    Is (a - b) (m - n) e :=
  of_rne (sub_rne ha.1 hb.1) (by rw [ha.2, hb.2]; push_cast; ring) hm h1 h2

theorem mul (ha : Is a m e) (hb : Is b n e') (hm : |m * n| ≤ 2 ^ 53) (h1 : -1074 ≤ e + e') (h2 : e + e' ≤ 970) :
    Is (a * b) (m * n) (e + e') :=
  of_rne (mul_rne ha.1 hb.1) (by rw [ha.2, hb.2, zpow_add₀ (by norm_num)]; push_cast; ring) hm h1 h2

theorem ofInt (n : ℤ) (h : |n| ≤ 2 ^ 53) : Is (ofInt f64 n) n 0 :=
  of_rne (ofInt_rne n) (by simp) h (by norm_num) (by norm_num)

theorem shift (k : ℕ) (h : Is a (m * 2 ^ k) e) : Is a m (e + k) := by
  refine ⟨h.1, ?_⟩
  rw [h.2, zpow_add₀ (by norm_num), zpow_natCast]
  push_cast
  ring

theorem unshift (k : ℕ) (h : Is a m e) : Is a (m * 2 ^ k) (e - k) := by
  refine ⟨h.1, ?_⟩
  rw [h.2, zpow_sub₀ (by norm_num), zpow_natCast]
  push_cast
  field_simp

theorem scalbn (ha : Is a m e) (q : ℤ) (hm : |m| ≤ 2 ^ 53) (h1 : -1074 ≤ e + q) (h2 : e + q ≤ 970)
    (h3 : |q| ≤ 2 ^ 30) : ∃ r, Generic.scalbn a q = some r ∧ Is r m (e + q) := by
  have hq := abs_le.1 h3
  obtain ⟨r, hr, hi, -⟩ := scalbn_finite (F := f64) (by simp [IsLibFmt]) a ha.1 q (by omega) (by omega)
  refine ⟨r, hr, of_rne (isRNE_real hi) ?_ hm h1 h2⟩
  have : ((a.toRat : ℚ) : ℝ) = (m : ℝ) * 2 ^ e := ha.2
  push_cast
  rw [this, zpow_add₀ (by norm_num)]
  ring

/-- truncation of a nonnegative number with `k` fractional bits -/
theorem toSInt (k : ℕ) (ha : Is a m (-k)) (h0 : 0 ≤ m) (h : m < 2 ^ (31 + k)) : a.toSInt 32 = m / 2 ^ k := by
  have hv : a.val = (m : ℝ) / ((2 ^ k : ℤ) : ℝ) := by
    rw [ha.2, zpow_neg, zpow_natCast]
    push_cast
    rfl
  have hp : (0 : ℝ) < ((2 ^ k : ℤ) : ℝ) := by positivity
  rw [toSInt_floor ha.1, hv, floor_int_div_pow]
  · rw [hv]
    positivity
  · rw [hv, div_lt_iff₀ hp]
    have : (m : ℝ) < ((2 ^ (31 + k) : ℤ) : ℝ) := by exact_mod_cast h
    refine this.trans_eq ?_
    push_cast
    ring

theorem floor (k : ℕ) (ha : Is a m (-k)) : Is (Generic.floor a) (m / 2 ^ k) 0 := by
  obtain ⟨h1, -, h2⟩ := floor_finite a ha.1
  refine ⟨h1, ?_⟩
  have hv : (a.toRat : ℝ) = (m : ℝ) / ((2 ^ k : ℤ) : ℝ) := by
    have := ha.2
    rw [zpow_neg, zpow_natCast] at this
    push_cast
    exact this
  have hq : a.toRat = (m : ℚ) / ((2 ^ k : ℤ) : ℚ) := by exact_mod_cast hv
  have : ⌊a.toRat⌋ = m / 2 ^ k := by
    rw [hq, floor_int_div_pow]
  rw [zpow_zero, mul_one]
  show ((Generic.floor a).toRat : ℝ) = _
  rw [h2, this]
  push_cast
  rfl

theorem feq_zero (ha : Is a m e) : (a =ᶠ 0.0) = true ↔ m = 0 := by
  have h0 : (0.0 : Flt f64) = zero f64 false := by decide +kernel
  rw [h0, feq_iff]
  have : a.sval = (zero f64 false).sval ↔ a.val = 0 := by
    rw [← val_zero (F := f64) false, le_antisymm_iff, le_antisymm_iff, val_le_iff, val_le_iff]
  rw [this, ha.2]
  have hz : (2 : ℝ) ^ e ≠ 0 := (zp e).ne'
  have h1 : ¬ (zero f64 false).isNaN := by decide
  simp [not_nan_of_finite ha.1, hz, h1]

theorem ge_iff (ha : Is a m e) (hb : Is b n e) : (a ≥ᶠ b) = true ↔ n ≤ m := by
  show (b ≤ᶠ a) = true ↔ _
  rw [le_iff, ← val_le_iff, ha.2, hb.2]
  simp only [not_nan_of_finite ha.1, not_nan_of_finite hb.1, not_false_eq_true, true_and]
  rw [mul_le_mul_iff_of_pos_right (zp e)]
  exact_mod_cast Iff.rfl

theorem congr (ha : Is a m e) (h : m = n) : Is a n e := h ▸ ha
theorem cast_zero : Is (0.0 : Flt f64) 0 e := by
  have h0 : (0.0 : Flt f64) = zero f64 false := by decide +kernel
  rw [h0]
  exact ⟨by decide, by simp⟩
end Is

end Verif
