import Verif.Theory.Exp2Tab
import Verif.Theory.Ap
import Verif.Theory.ExpReal

/-!
# The polynomial of `exp2` (exp2.rs 382-386) in floating point
-/

namespace Verif
open Flt

namespace Exp2
theorem pv1 : (bits64 0x3fe62e42fefa39ef : Flt f64).val = (6243314768165359 : ℝ) * 2 ^ (-53 : ℤ) := by
  rw [val_const64 (x := bits64 0x3fe62e42fefa39ef) (6243314768165359) 1021 (-53) (by decide +kernel) (by norm_num)]; norm_num
theorem pv2 : (bits64 0x3fcebfbdff82c575 : Flt f64).val = (8655072057804149 : ℝ) * 2 ^ (-55 : ℤ) := by
  rw [val_const64 (x := bits64 0x3fcebfbdff82c575) (8655072057804149) 1019 (-55) (by decide +kernel) (by norm_num)]; norm_num
theorem pv3 : (bits64 0x3fac6b08d704a0a6 : Flt f64).val = (3999492529606739 : ℝ) * 2 ^ (-56 : ℤ) := by
  rw [val_const64 (x := bits64 0x3fac6b08d704a0a6) (3999492529606739) 1018 (-56) (by decide +kernel) (by norm_num)]; norm_num
theorem pv4 : (bits64 0x3f83b2ab88f70400 : Flt f64).val = (5414525746625 : ℝ) * 2 ^ (-49 : ℤ) := by
  rw [val_const64 (x := bits64 0x3f83b2ab88f70400) (5414525746625) 1025 (-49) (by decide +kernel) (by norm_num)]; norm_num
theorem pv5 : (bits64 0x3f55d88003875c74 : Flt f64).val = (1537254709384989 : ℝ) * 2 ^ (-60 : ℤ) := by
  rw [val_const64 (x := bits64 0x3f55d88003875c74) (1537254709384989) 1014 (-60) (by decide +kernel) (by norm_num)]; norm_num

/-- the coefficients `P1 … P5` of exp2.rs -/
def poly : List ℚ := [6243314768165359 / 2 ^ 53, 8655072057804149 / 2 ^ 55, 3999492529606739 / 2 ^ 56, 5414525746625 / 2 ^ 49, 1537254709384989 / 2 ^ 60]
/-- the Taylor polynomial of `2^y` -/
def taylor : List ℚ := (List.range 9).map fun i => l2 ^ i / (i.factorial : ℚ)
def errPoly : List ℚ := Poly.add (1 :: poly) (Poly.smul (-1) taylor)

theorem err_check : Poly.check errPoly (-1 / 511) (1 / 32704) (1 / 2 ^ 64) 64 = true := by decide +kernel

/-- `1 + y P(y)` against `2^y` -/
theorem approx {y : ℝ} (hy : |y| ≤ 1 / 511) : |1 + y * Poly.ev poly y - Real.exp (y * Real.log 2)| ≤ 1.01 / 2 ^ 64 := by
  have hy2 := abs_le.1 hy
  have l1 := Num.log2_gt
  have l2' := Num.log2_lt
  have hl : |Real.log 2 - (l2 : ℝ)| ≤ 1 / 10 ^ 22 := by
    rw [l2, abs_le]; push_cast; norm_num at l1 l2' ⊢; constructor <;> linarith
  have hl3 : |(l2 : ℝ)| ≤ 0.7 := by rw [l2]; push_cast; norm_num [abs_le]
  have he := Poly.bound err_check (by norm_num) (by norm_num) y (by push_cast; norm_num at hy2 ⊢; linarith [hy2.1]) (by push_cast; norm_num at hy2 ⊢; linarith [hy2.2])
  rw [errPoly, Poly.ev_add, Poly.ev_smul] at he
  rw [show Poly.ev (1 :: poly) y = 1 + y * Poly.ev poly y by rw [Poly.ev]; push_cast; ring] at he
  have hlb : |(l2 : ℝ) * y| ≤ 1 / 512 := by
    rw [abs_mul]
    have := mul_le_mul hl3 hy (abs_nonneg _) (by norm_num)
    norm_num at this ⊢; linarith
  have ht : Poly.ev taylor y = ∑ i ∈ Finset.range 9, ((l2 : ℝ) * y) ^ i / i.factorial := by
    rw [taylor, Poly.ev_map_range]
    refine Finset.sum_congr rfl fun i _ => ?_
    push_cast; ring
  have hb := Real.exp_bound (x := (l2 : ℝ) * y) (hlb.trans (by norm_num)) (n := 9) (by norm_num)
  rw [← ht] at hb
  have hb2 : |(l2 : ℝ) * y| ^ 9 * ((Nat.succ 9 : ℕ) / ((Nat.factorial 9 : ℕ) * (9 : ℕ)) : ℝ) ≤ 1 / 2 ^ 90 := by
    have : |(l2 : ℝ) * y| ^ 9 ≤ (1 / 512) ^ 9 := pow_le_pow_left₀ (abs_nonneg _) hlb 9
    refine (mul_le_mul_of_nonneg_right this (by positivity)).trans ?_
    norm_num [Nat.factorial]
  have hb3 := hb.trans hb2
  -- `log 2` and its rational approximation
  have hd : |y * Real.log 2 - l2 * y| ≤ 1 / 2 ^ 80 := by
    rw [show y * Real.log 2 - l2 * y = y * (Real.log 2 - l2) by ring, abs_mul]
    have := mul_le_mul hy hl (abs_nonneg _) (by norm_num)
    norm_num at this ⊢; linarith
  have hx : |Real.exp (y * Real.log 2) - Real.exp (l2 * y)| ≤ 1 / 2 ^ 78 := by
    have e1 : Real.exp (y * Real.log 2) = Real.exp (l2 * y) * Real.exp (y * Real.log 2 - l2 * y) := by
      rw [← Real.exp_add]; congr 1; ring
    have h1 := Real.abs_exp_sub_one_le (x := y * Real.log 2 - l2 * y) (hd.trans (by norm_num))
    have h2 : |Real.exp (l2 * y)| ≤ 2 := by
      rw [abs_of_pos (Real.exp_pos _)]
      have := Real.abs_exp_sub_one_le (x := l2 * y) (hlb.trans (by norm_num))
      have := (abs_le.1 this).2
      linarith
    rw [e1, show ∀ a b : ℝ, a * b - a = a * (b - 1) from fun a b => by ring, abs_mul]
    have := mul_le_mul h2 h1 (abs_nonneg _) (by norm_num)
    norm_num at this hd ⊢
    linarith
  push_cast at he
  have e : 1 + y * Poly.ev poly y - Real.exp (y * Real.log 2) =
      (1 + y * Poly.ev poly y + -1 * Poly.ev taylor y) - (Real.exp (l2 * y) - Poly.ev taylor y) - (Real.exp (y * Real.log 2) - Real.exp (l2 * y)) := by ring
  rw [e]
  have h1 := abs_sub (1 + y * Poly.ev poly y + -1 * Poly.ev taylor y - (Real.exp (l2 * y) - Poly.ev taylor y)) (Real.exp (y * Real.log 2) - Real.exp (l2 * y))
  have h2 := abs_sub (1 + y * Poly.ev poly y + -1 * Poly.ev taylor y) (Real.exp (l2 * y) - Poly.ev taylor y)
  generalize |1 + y * Poly.ev poly y + -1 * Poly.ev taylor y| = A at *
  generalize |Real.exp (l2 * y) - Poly.ev taylor y| = B at *
  generalize |Real.exp (y * Real.log 2) - Real.exp (l2 * y)| = C at *
  refine h1.trans ((add_le_add h2 le_rfl).trans ?_)
  norm_num at he hb3 hx ⊢
  linarith

/-- exp2.rs 382-386 without the final addition -/
def tail (t z : Flt f64) : Flt f64 :=
  t * z * (bits64 0x3fe62e42fefa39ef + z * (bits64 0x3fcebfbdff82c575 + z * (bits64 0x3fac6b08d704a0a6 + z * (bits64 0x3f83b2ab88f70400 + z * bits64 0x3f55d88003875c74))))

theorem tail_err {t z e : Flt f64} (tf : t.isFinite) (zf : z.isFinite) (ef : e.isFinite) (bt : |t.val| ≤ 3 / 2) (bz : |z.val| ≤ 1 / 2 ^ 9)
    (be : |e.val| ≤ 1 / 2 ^ 39) :
    Ap (tail t (z - e)) (t.val * (z.val - e.val) * Poly.ev poly (z.val - e.val)) (1785 / 2 ^ 71) (533 / 2 ^ 18) := by
  have hz0 : Ap z z.val 0 (1 / 2 ^ 9) := .exact zf rfl bz
  have he : Ap e e.val 0 (1 / 2 ^ 39) := .exact ef rfl be
  have ht : Ap t t.val 0 (3 / 2) := .exact tf rfl bt
  have hp1 : Ap (bits64 0x3fe62e42fefa39ef : Flt f64) (bits64 0x3fe62e42fefa39ef : Flt f64).val 0 (5679 / 2 ^ 13) := .exact (by decide +kernel) rfl (by rw [pv1, abs_le]; constructor <;> norm_num)
  have hp2 : Ap (bits64 0x3fcebfbdff82c575 : Flt f64) (bits64 0x3fcebfbdff82c575 : Flt f64).val 0 (123 / 2 ^ 9) := .exact (by decide +kernel) rfl (by rw [pv2, abs_le]; constructor <;> norm_num)
  have hp3 : Ap (bits64 0x3fac6b08d704a0a6 : Flt f64) (bits64 0x3fac6b08d704a0a6 : Flt f64).val 0 (1819 / 2 ^ 15) := .exact (by decide +kernel) rfl (by rw [pv3, abs_le]; constructor <;> norm_num)
  have hp4 : Ap (bits64 0x3f83b2ab88f70400 : Flt f64) (bits64 0x3f83b2ab88f70400 : Flt f64).val 0 (5043 / 2 ^ 19) := .exact (by decide +kernel) rfl (by rw [pv4, abs_le]; constructor <;> norm_num)
  have hp5 : Ap (bits64 0x3f55d88003875c74 : Flt f64) (bits64 0x3f55d88003875c74 : Flt f64).val 0 (5593 / 2 ^ 22) := .exact (by decide +kernel) rfl (by rw [pv5, abs_le]; constructor <;> norm_num)
  have hz := Ap.sub hz0 he (-8) (by norm_num) (by norm_num) (g := (1 / 2 ^ 62)) (D := (4097 / 2 ^ 21)) (by norm_num) (by norm_num)
  have ha5 := Ap.mul hz hp5 (-18) (by norm_num) (by norm_num) (by norm_num) (g := (4845 / 2 ^ 83)) (D := (5595 / 2 ^ 31)) (by norm_num) (by norm_num)
  have hb4 := Ap.add hp4 ha5 (-6) (by norm_num) (by norm_num) (g := (4099 / 2 ^ 72)) (D := (5045 / 2 ^ 19)) (by norm_num) (by norm_num)
  have ha4 := Ap.mul hz hb4 (-15) (by norm_num) (by norm_num) (by norm_num) (g := (6621 / 2 ^ 80)) (D := (5047 / 2 ^ 28)) (by norm_num) (by norm_num)
  have hb3 := Ap.add hp3 ha4 (-4) (by norm_num) (by norm_num) (g := (4103 / 2 ^ 70)) (D := (7279 / 2 ^ 17)) (by norm_num) (by norm_num)
  have ha3 := Ap.mul hz hb3 (-13) (by norm_num) (by norm_num) (by norm_num) (g := (1935 / 2 ^ 76)) (D := (7281 / 2 ^ 26)) (by norm_num) (by norm_num)
  have hb2 := Ap.add hp2 ha3 (-2) (by norm_num) (by norm_num) (g := (513 / 2 ^ 65)) (D := (1969 / 2 ^ 13)) (by norm_num) (by norm_num)
  have ha2 := Ap.mul hz hb2 (-11) (by norm_num) (by norm_num) (by norm_num) (g := (8039 / 2 ^ 76)) (D := (3939 / 2 ^ 23)) (by norm_num) (by norm_num)
  have hb1 := Ap.add hp1 ha2 (0) (by norm_num) (by norm_num) (g := (513 / 2 ^ 63)) (D := (5683 / 2 ^ 13)) (by norm_num) (by norm_num)
  have htz := Ap.mul ht hz (-8) (by norm_num) (by norm_num) (by norm_num) (g := (5 / 2 ^ 63)) (D := (3073 / 2 ^ 20)) (by norm_num) (by norm_num)
  have hs := Ap.mul htz hb1 (-8) (by norm_num) (by norm_num) (by norm_num) (g := (1785 / 2 ^ 71)) (D := (533 / 2 ^ 18)) (by norm_num) (by norm_num)
  have ev : t.val * (z.val - e.val) * Poly.ev poly (z.val - e.val) = t.val * (z.val - e.val) * ((bits64 0x3fe62e42fefa39ef : Flt f64).val + (z.val - e.val) * ((bits64 0x3fcebfbdff82c575 : Flt f64).val + (z.val - e.val) * ((bits64 0x3fac6b08d704a0a6 : Flt f64).val + (z.val - e.val) * ((bits64 0x3f83b2ab88f70400 : Flt f64).val + (z.val - e.val) * (bits64 0x3f55d88003875c74 : Flt f64).val)))) := by
    rw [pv1, pv2, pv3, pv4, pv5]
    simp only [poly, Poly.ev]
    push_cast
    generalize z.val - e.val = y
    ring
  rw [ev]
  exact hs

end Exp2
end Verif
