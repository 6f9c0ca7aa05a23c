import Verif.Theory.CbrtFirst
import Verif.Props.Fma

/-!
# cbrt: one step of the iteration with a compensated cube
-/

namespace Verif
namespace Cbrt
open Flt

theorem lib64 : IsLibFmt f64 := by unfold IsLibFmt; simp

/-- a fused multiply-add whose result is small in comparison with the summands -/
theorem fma_small {x y z : Flt f64} (hx : x.isFinite) (hy : y.isFinite) (hz : z.isFinite) {k : ℤ} (h1 : -1021 ≤ k) (h2 : k ≤ 0)
    (hk : |x.val * y.val + z.val| ≤ 2 ^ k) (hb : 1 / 2 ≤ |x.val * y.val|) :
    ∃ r, Generic.fma x y z = some r ∧ IsRNE (x.val * y.val + z.val) r ∧ r.isFinite ∧ |r.val - (x.val * y.val + z.val)| ≤ 2 ^ (k - 54) := by
  have hzb : |z.val| ≤ 2 ^ 12 * |x.val * y.val| := by
    have h3 : (2 : ℝ) ^ k ≤ 2 ^ (0 : ℤ) := zpow_le_zpow_right₀ (by norm_num) h2
    have := abs_add_le (x.val * y.val + z.val) (-(x.val * y.val))
    rw [show x.val * y.val + z.val + -(x.val * y.val) = z.val by ring, abs_neg] at this
    rw [zpow_zero] at h3
    linarith
  obtain ⟨r, e1, e2⟩ := fma_near lib64 (fun h => absurd (congrArg Fmt.ew h) (by decide)) hx hy hz (by
    have e : f64.ew + 1 = 12 := rfl
    rw [e]
    have h : ((|z.toRat| : ℚ) : ℝ) ≤ ((2 ^ 12 * |x.toRat * y.toRat| : ℚ) : ℝ) := by
      push_cast
      exact hzb
    exact_mod_cast h)
  have e3 : IsRNE (x.val * y.val + z.val) r := by
    have := isRNE_real e2
    push_cast at this
    exact this
  exact ⟨r, e1, e3, e3.err64 k hk h1 (by omega)⟩

/-- the step on exact numbers -/
theorem newton {Y C : ℝ} (h0 : C ≠ 0) (h : |Y - C| ≤ 1 / 2 ^ 38 * |C|) :
    |Y - (Y ^ 3 - C ^ 3) / C ^ 3 * (Y / 3) - C| ≤ 17 / 16 / 2 ^ 75 * |C| ∧ |(Y ^ 3 - C ^ 3) / C ^ 3| ≤ 25 / 8 / 2 ^ 38 := by
  obtain ⟨d, hd⟩ : ∃ d, Y = C * (1 + d) := ⟨Y / C - 1, by field_simp; ring⟩
  have hcp := abs_pos.2 h0
  have hda : |d| ≤ 1 / 2 ^ 38 := by
    rw [hd, show C * (1 + d) - C = d * C by ring, abs_mul] at h
    exact le_of_mul_le_mul_right h hcp
  have hd' := abs_le.1 hda
  have eH : (Y ^ 3 - C ^ 3) / C ^ 3 = d * (3 + 3 * d + d ^ 2) := by
    rw [hd]; field_simp; ring
  have sq0 : d ^ 2 ≤ 1 / 2 ^ 76 := by
    rw [← sq_abs]; exact (pow_le_pow_left₀ (abs_nonneg _) hda 2).trans (by norm_num)
  have sq1 := sq_nonneg d
  constructor
  · rw [eH, hd, show C * (1 + d) - d * (3 + 3 * d + d ^ 2) * (C * (1 + d) / 3) - C = -(d ^ 2 * (2 + 4 / 3 * d + d ^ 2 / 3) * C) by ring, abs_neg, abs_mul]
    refine mul_le_mul_of_nonneg_right ?_ hcp.le
    have k : |2 + 4 / 3 * d + d ^ 2 / 3| ≤ 17 / 8 := by
      norm_num at *
      rw [abs_le]; constructor <;> linarith [hd'.1, hd'.2]
    rw [abs_mul, abs_of_nonneg sq1]
    have := mul_le_mul sq0 k (abs_nonneg _) (by norm_num)
    norm_num at *
    linarith
  · rw [eH, abs_mul]
    have k : |3 + 3 * d + d ^ 2| ≤ 25 / 8 := by
      norm_num at *
      rw [abs_le]; constructor <;> linarith [hd'.1, hd'.2]
    have := mul_le_mul hda k (abs_nonneg _) (by norm_num)
    norm_num at *
    linarith

theorem mul_dev {a b A B ea eb : ℝ} (ha : |a - A| ≤ ea) (hb : |b - B| ≤ eb) {MA Mb : ℝ} (hA : |A| ≤ MA) (hb2 : |b| ≤ Mb) :
    |a * b - A * B| ≤ ea * Mb + MA * eb := by
  have h0 := (abs_nonneg _).trans ha
  have h1 := (abs_nonneg _).trans hA
  rw [show a * b - A * B = (a - A) * b + A * (b - B) by ring]
  refine (abs_add_le _ _).trans (add_le_add ?_ ?_) <;> rw [abs_mul]
  · exact mul_le_mul ha hb2 (abs_nonneg _) h0
  · exact mul_le_mul hA hb (abs_nonneg _) h1

theorem tri {a b c e f g : ℝ} (h1 : |a - b| ≤ e) (h2 : |b - c| ≤ f) (h : e + f ≤ g) : |a - c| ≤ g := by
  have := abs_add_le (a - b) (b - c)
  rw [sub_add_sub_cancel] at this
  linarith

theorem abs_of_near {a b e M : ℝ} (h1 : |a - b| ≤ e) (h2 : |b| ≤ M) : |a| ≤ M + e := by
  have := abs_add_le (a - b) b
  rw [sub_add_cancel] at this
  linarith

/-- what one step yields, as a statement about `step` -/
structure StepOk (y zz rr : Flt f64) (C : ℝ) (y1 d : Flt f64) : Prop where
  eq : step zz rr y = some (y1, d)
  rne : ∃ q : ℝ, IsRNE q y1 ∧ |q - C| ≤ 1 / 2 ^ 74 * |C|
  fin : d.isFinite
  small : |d.val| ≤ 1 / 2 ^ 32

set_option maxHeartbeats 1000000 in
theorem step_ok {zz rr y : Flt f64} {C : ℝ} (hz : zz.isFinite) (vz : zz.val = C ^ 3) (hr : rr.isFinite) (vr : |rr.val * C ^ 3 - 1| ≤ 1 / 2 ^ 50)
    (hy : y.isFinite) (hC1 : 1 ≤ |C|) (hC2 : |C| ≤ 2) (hn : |y.val - C| ≤ 1 / 2 ^ 38 * |C|) : ∃ y1 d, StepOk y zz rr C y1 d := by
  have hC0 : C ≠ 0 := by rw [← abs_pos]; linarith
  obtain ⟨nw1, nw2⟩ := newton hC0 hn
  have hn2 : |y.val - C| ≤ 1 / 2 ^ 37 := by norm_num at *; linarith
  have Yhi : |y.val| ≤ 2 + 1 / 2 ^ 37 := abs_of_near hn2 hC2
  have Ylo : 1 - 1 / 2 ^ 37 ≤ |y.val| := by
    have := abs_sub_abs_le_abs_sub C y.val
    rw [abs_sub_comm] at this; linarith
  have Y2hi : |y.val * y.val| ≤ 4 + 1 / 2 ^ 30 := by
    rw [abs_mul]
    have := mul_le_mul Yhi Yhi (abs_nonneg _) (by norm_num)
    norm_num at *; linarith
  have Y2lo : 1 - 1 / 2 ^ 30 ≤ |y.val * y.val| := by
    rw [abs_mul]
    have := mul_le_mul Ylo Ylo (by norm_num) (abs_nonneg _)
    norm_num at *; linarith
  -- y2 and its error
  obtain ⟨f2, e2⟩ := mul_err64 hy hy 3 (by norm_num at *; linarith) (by norm_num) (by norm_num)
  obtain ⟨y2l, q1, -, f2l, e2l⟩ := fma_small hy hy ((Flt.isFinite_neg _).2 f2) (k := -51) (by norm_num) (by norm_num)
    (by rw [val_neg, ← sub_eq_add_neg, abs_sub_comm]; refine e2.trans ?_; norm_num) (by norm_num at *; linarith)
  rw [val_neg] at e2l
  have y2hi : |(y * y).val| ≤ 4 + 1 / 2 ^ 29 := (abs_of_near e2 Y2hi).trans (by norm_num)
  have P3hi : |(y * y).val * y.val| ≤ 8 + 1 / 2 ^ 26 := by
    rw [abs_mul]
    have := mul_le_mul y2hi Yhi (abs_nonneg _) (by norm_num)
    norm_num at *; linarith
  have y2lo : 1 - 1 / 2 ^ 29 ≤ |(y * y).val| := by
    have := abs_sub_abs_le_abs_sub (y.val * y.val) (y * y).val
    rw [abs_sub_comm] at this
    norm_num at *; linarith
  have P3lo : 1 - 1 / 2 ^ 28 ≤ |y.val * (y * y).val| := by
    rw [abs_mul]
    have := mul_le_mul Ylo y2lo (by norm_num) (abs_nonneg _)
    norm_num at *; linarith
  -- y3 and its error
  obtain ⟨f3, e3⟩ := mul_err64 f2 hy 4 (by norm_num at *; linarith) (by norm_num) (by norm_num)
  obtain ⟨t, q2, -, ft, et⟩ := fma_small hy f2 ((Flt.isFinite_neg _).2 f3) (k := -50) (by norm_num) (by norm_num)
    (by rw [val_neg, ← sub_eq_add_neg, abs_sub_comm, mul_comm y.val]; refine e3.trans ?_; norm_num) (by norm_num at *; linarith)
  rw [val_neg] at et
  have y2lb : |y2l.val| ≤ 1 / 2 ^ 50 := by
    have := abs_of_near e2l (M := 1 / 2 ^ 51) (by rw [← sub_eq_add_neg, abs_sub_comm]; refine e2.trans ?_; norm_num)
    refine this.trans ?_
    norm_num
  have tb : |t.val| ≤ 1 / 2 ^ 49 := by
    have := abs_of_near et (M := 1 / 2 ^ 50) (by rw [← sub_eq_add_neg, abs_sub_comm, mul_comm y.val]; refine e3.trans ?_; norm_num)
    refine this.trans ?_
    norm_num
  have pb : |y.val * y2l.val| ≤ 1 / 2 ^ 48 := by
    rw [abs_mul]
    have := mul_le_mul Yhi y2lb (abs_nonneg _) (by norm_num)
    norm_num at *; linarith
  obtain ⟨fp, ep⟩ := mul_err64 hy f2l (-48) (by norm_num at *; exact pb) (by norm_num) (by norm_num)
  have pb2 : |(y * y2l).val| ≤ 1 / 2 ^ 47 := by
    refine (abs_of_near ep pb).trans ?_
    norm_num
  obtain ⟨fl, el⟩ := add_err64 ft fp (-46) (by refine (abs_add_le _ _).trans ?_; norm_num at *; linarith) (by norm_num)
  have lb : |(t + y * y2l).val| ≤ 1 / 2 ^ 45 := by
    refine (abs_of_near el (M := 1 / 2 ^ 46) (by refine (abs_add_le _ _).trans ?_; norm_num at *; linarith)).trans ?_
    norm_num
  -- the difference to zz
  have C3hi : |C ^ 3| ≤ 8 := by
    rw [abs_pow]; exact (pow_le_pow_left₀ (abs_nonneg _) hC2 3).trans (by norm_num)
  have C3lo : 1 ≤ |C ^ 3| := by
    rw [abs_pow]; exact one_le_pow₀ hC1
  have C30 : C ^ 3 ≠ 0 := by rw [← abs_pos]; linarith
  have Eb : |y.val ^ 3 - C ^ 3| ≤ 25 / 2 ^ 38 := by
    have e : y.val ^ 3 - C ^ 3 = (y.val ^ 3 - C ^ 3) / C ^ 3 * C ^ 3 := by field_simp
    rw [e, abs_mul]
    have := mul_le_mul nw2 C3hi (abs_nonneg _) (by norm_num)
    norm_num at *; linarith
  have s1 : |(y * y * y).val - y.val ^ 3| ≤ 1 / 2 ^ 47 := by
    have h1 : |(y * y).val * y.val - y.val ^ 3| ≤ 1 / 2 ^ 49 := by
      rw [show (y * y).val * y.val - y.val ^ 3 = ((y * y).val - y.val * y.val) * y.val by ring, abs_mul]
      have := mul_le_mul e2 Yhi (abs_nonneg _) (by norm_num)
      norm_num at *; linarith
    exact tri e3 h1 (by norm_num)
  have D1b : |(y * y * y).val - zz.val| ≤ 2 ^ (-33 : ℤ) := by
    rw [vz]
    exact tri s1 Eb (by norm_num)
  obtain ⟨fd1, ed1⟩ := sub_err64 f3 hz (-33) D1b (by norm_num)
  have D1b2 : |(y * y * y - zz).val| ≤ 1 / 2 ^ 33 + 1 / 2 ^ 87 := by
    refine (abs_of_near ed1 D1b).trans ?_
    norm_num
  obtain ⟨fD, eD⟩ := add_err64 fd1 fl (-32) (by refine (abs_add_le _ _).trans ?_; norm_num at *; linarith) (by norm_num)
  -- the compensated difference is accurate
  have dev : |(y * y * y - zz + (t + y * y2l)).val - (y.val ^ 3 - C ^ 3)| ≤ 1 / 2 ^ 85 := by
    have k1 : |y.val * y2l.val - y.val * (y.val * y.val + -(y * y).val)| ≤ 1 / 2 ^ 103 := by
      rw [← mul_sub, abs_mul]
      have := mul_le_mul Yhi e2l (abs_nonneg _) (by norm_num)
      norm_num at *; linarith
    rw [vz] at ed1
    have g1 := abs_le.1 k1
    have g2 := abs_le.1 et
    have g3 := abs_le.1 ep
    have g4 := abs_le.1 el
    have g5 := abs_le.1 ed1
    have g6 := abs_le.1 eD
    have e9 : y.val ^ 3 = y.val * (y.val * y.val + -(y * y).val) + (y.val * (y * y).val + -(y * y * y).val) + (y * y * y).val := by ring
    rw [e9, abs_le]
    norm_num at g1 g2 g3 g4 g5 g6 ⊢
    constructor <;> linarith [g1.1, g1.2, g2.1, g2.2, g3.1, g3.2, g4.1, g4.2, g5.1, g5.2, g6.1, g6.2]
  generalize hDd : y * y * y - zz + (t + y * y2l) = D at *
  have Db : |D.val| ≤ 1 / 2 ^ 33 := by
    refine (abs_of_near dev Eb).trans ?_
    norm_num
  have rb : |rr.val| ≤ 1 + 1 / 2 ^ 50 := by
    have h1 : |rr.val| * 1 ≤ |rr.val| * |C ^ 3| := mul_le_mul_of_nonneg_left C3lo (abs_nonneg _)
    rw [mul_one, ← abs_mul] at h1
    have := abs_of_near vr (M := 1) (by norm_num)
    linarith
  obtain ⟨fh, eh⟩ := mul_err64 fD hr (-32) (by
    rw [abs_mul]
    have := mul_le_mul Db rb (abs_nonneg _) (by norm_num)
    norm_num at *; linarith) (by norm_num) (by norm_num)
  set H := (y.val ^ 3 - C ^ 3) / C ^ 3 with hH
  have hdev : |(D * rr).val - H| ≤ 1 / 2 ^ 83 := by
    have k1 : |D.val * rr.val - H| ≤ 1 / 2 ^ 84 := by
      have e : D.val * rr.val - H = (D.val - (y.val ^ 3 - C ^ 3)) * rr.val + H * (rr.val * C ^ 3 - 1) := by
        have hHC : H * C ^ 3 = y.val ^ 3 - C ^ 3 := div_mul_cancel₀ _ C30
        linear_combination (-rr.val) * hHC
      rw [e]
      refine (abs_add_le _ _).trans ?_
      rw [abs_mul, abs_mul]
      have a1 := mul_le_mul dev rb (abs_nonneg _) (by norm_num)
      have a2 := mul_le_mul nw2 vr (abs_nonneg _) (by norm_num)
      norm_num at a1 a2 ⊢
      linarith
    exact tri eh k1 (by norm_num)
  have hb2 : |(D * rr).val| ≤ 26 / 8 / 2 ^ 38 := by
    refine (abs_of_near hdev nw2).trans ?_
    norm_num
  have u0d : |u0.val - 1 / 3| ≤ 1 / 2 ^ 55 := by
    rw [u0_val, abs_le]; constructor <;> norm_num
  have yub : |y.val * u0.val| ≤ 7 / 8 := by
    rw [abs_mul]
    have h1 : |u0.val| ≤ 3 / 8 := by rw [u0_val, abs_le]; constructor <;> norm_num
    refine (mul_le_mul Yhi h1 (abs_nonneg _) (by norm_num)).trans ?_
    norm_num
  obtain ⟨fyu, eyu⟩ := mul_err64 hy (y := u0) (by decide +kernel) 0 (by norm_num at *; linarith) (by norm_num) (by norm_num)
  have yudev : |(y * u0).val - y.val / 3| ≤ 1 / 2 ^ 52 := by
    have k1 : |y.val * u0.val - y.val / 3| ≤ 1 / 2 ^ 53 := by
      rw [show y.val * u0.val - y.val / 3 = y.val * (u0.val - 1 / 3) by ring, abs_mul]
      refine (mul_le_mul Yhi u0d (abs_nonneg _) (by norm_num)).trans ?_
      norm_num
    exact tri eyu k1 (by norm_num)
  have yub2 : |(y * u0).val| ≤ 1 := by
    refine (abs_of_near eyu yub).trans ?_
    norm_num
  obtain ⟨fdy, edy⟩ := mul_err64 fh fyu (-36) (by
    rw [abs_mul]
    have := mul_le_mul hb2 yub2 (abs_nonneg _) (by norm_num)
    refine this.trans ?_
    norm_num) (by norm_num) (by norm_num)
  have dydev : |(D * rr * (y * u0)).val - H * (y.val / 3)| ≤ 1 / 2 ^ 82 := by
    have k1 := mul_dev hdev yudev nw2 yub2
    exact tri edy k1 (by norm_num)
  have dyb : |(D * rr * (y * u0)).val| ≤ 1 / 2 ^ 36 := by
    refine (abs_of_near edy (M := 26 / 8 / 2 ^ 38) ?_).trans (by norm_num)
    rw [abs_mul]
    have := mul_le_mul hb2 yub2 (abs_nonneg _) (by norm_num)
    refine this.trans ?_
    norm_num
  have qd : |y.val - (D * rr * (y * u0)).val - C| ≤ 1 / 2 ^ 74 * |C| := by
    have k1 : |(y.val - (D * rr * (y * u0)).val) - (y.val - H * (y.val / 3))| ≤ 1 / 2 ^ 82 := by
      rw [show (y.val - (D * rr * (y * u0)).val) - (y.val - H * (y.val / 3)) = -((D * rr * (y * u0)).val - H * (y.val / 3)) by ring, abs_neg]
      exact dydev
    refine tri k1 nw1 ?_
    norm_num at *
    linarith
  obtain ⟨fy1, ey1⟩ := sub_err64 hy fdy 2 (by
    have := abs_of_near qd hC2
    refine this.trans ?_
    norm_num at *
    linarith) (by norm_num)
  have yy1 : |y.val - (y - D * rr * (y * u0)).val| ≤ 1 / 2 ^ 35 := by
    have a1 := abs_le.1 ey1
    have a2 := abs_le.1 dyb
    rw [abs_le]
    norm_num at a1 a2 ⊢
    constructor <;> linarith [a1.1, a1.2, a2.1, a2.2]
  obtain ⟨fe, ee⟩ := sub_err64 hy fy1 (-35) (by norm_num at *; exact yy1) (by norm_num)
  have yb : |(y - (y - D * rr * (y * u0))).val| ≤ 1 / 2 ^ 34 := by
    refine (abs_of_near ee yy1).trans ?_
    norm_num
  have db : |(y - (y - D * rr * (y * u0))).val - (D * rr * (y * u0)).val| ≤ 1 / 2 ^ 33 := by
    refine (abs_sub _ _).trans ?_
    norm_num at *
    linarith
  obtain ⟨fdd, edd⟩ := sub_err64 fe fdy (-33) (by norm_num at *; exact db) (by norm_num)
  refine ⟨y - D * rr * (y * u0), y - (y - D * rr * (y * u0)) - D * rr * (y * u0), ?_, ⟨_, sub_rne hy fdy, qd⟩, fdd, ?_⟩
  · unfold step
    simp only
    rw [q1]
    simp only [Option.bind_some]
    rw [q2]
    simp only [Option.map_some, hDd]
  · refine (abs_of_near edd db).trans ?_
    norm_num

end Cbrt
end Verif
