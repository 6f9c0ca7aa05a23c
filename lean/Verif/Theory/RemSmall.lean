import Verif.Theory.RemMed
import Verif.Props.Trig
import Mathlib.Analysis.Real.Pi.Bounds

/-!
# The short paths of the argument reduction, and the reduction of any finite double
-/

namespace Verif
open Flt

theorem small_core {x a b : Flt f64} {k : ℤ} (hx : x.isFinite) (hxlo : 1 / 2 ≤ |x.val|) (ha : Is a (k * 1686629713) (-30)) (hk : |k| ≤ 4)
    (hb : b.isFinite) (hhi : |x.val - k * (Real.pi / 2)| ≤ 0.7855) (hlo : 1 / 2 ^ 22 ≤ |x.val - k * (Real.pi / 2)|)
    (hE : |b.val - k * ((4701928774853425 : ℝ) * 2 ^ (-86 : ℤ))| + |(k : ℝ)| / 2 ^ 87 ≤ 1 / 2 ^ 63 * |x.val - k * (Real.pi / 2)|) :
    NearD (x - a - b) (x - a - (x - a - b) - b) (x.val - k * (Real.pi / 2)) := by
  obtain ⟨mx, hmx⟩ := grid64 x (-1) (by norm_num at hxlo ⊢; exact hxlo)
  have hkR : |(k : ℝ)| ≤ 4 := by exact_mod_cast hk
  have hke : |(k : ℝ) * (Real.pi / 2 - (1686629713 : ℝ) * 2 ^ (-30 : ℤ) - (4701928774853425 : ℝ) * 2 ^ (-86 : ℤ))| ≤ |(k : ℝ)| / 2 ^ 87 := by
    rw [abs_mul]
    refine (mul_le_mul_of_nonneg_left eps1 (abs_nonneg _)).trans (le_of_eq ?_)
    ring
  have hkt : |(k : ℝ) * ((4701928774853425 : ℝ) * 2 ^ (-86 : ℤ))| ≤ 1 / 2 ^ 31 := by
    rw [abs_mul, abs_of_pos (a := (4701928774853425 : ℝ) * 2 ^ (-86 : ℤ)) (by positivity)]
    norm_num at hkR ⊢
    linarith
  have hav : a.val = k * ((1686629713 : ℝ) * 2 ^ (-30 : ℤ)) := by rw [ha.2]; push_cast; ring
  have ha2 := ha.unshift 23
  rw [show (-30 : ℤ) - ((23 : ℕ) : ℤ) = -1 - 52 by norm_num] at ha2
  obtain ⟨r0, hr0⟩ : ∃ r0, r0 = x.val - k * (Real.pi / 2) := ⟨_, rfl⟩
  rw [← hr0] at hhi hlo hE ⊢
  have hbe : |b.val| ≤ 1 / 2 ^ 30 := by
    have := abs_sub_abs_le_abs_sub b.val (k * ((4701928774853425 : ℝ) * 2 ^ (-86 : ℤ)))
    have := abs_nonneg (k : ℝ)
    norm_num at *
    linarith
  have hbn := abs_nonneg (b.val - k * ((4701928774853425 : ℝ) * 2 ^ (-86 : ℤ)))
  have hkn := abs_nonneg (k : ℝ)
  have hra : x.val - a.val = r0 + (k * (Real.pi / 2 - (1686629713 : ℝ) * 2 ^ (-30 : ℤ) - (4701928774853425 : ℝ) * 2 ^ (-86 : ℤ)) +
      k * ((4701928774853425 : ℝ) * 2 ^ (-86 : ℤ))) := by rw [hr0, hav]; ring
  have hrb : |x.val - a.val| ≤ 0.79 := by
    rw [hra]
    have h6 := abs_add_le (k * (Real.pi / 2 - (1686629713 : ℝ) * 2 ^ (-30 : ℤ) - (4701928774853425 : ℝ) * 2 ^ (-86 : ℤ))) (k * ((4701928774853425 : ℝ) * 2 ^ (-86 : ℤ)))
    refine (abs_add_le _ _).trans ?_
    norm_num at *
    linarith
  have hrI : Is (x - a) (mx - k * 1686629713 * 2 ^ 23) (-1 - 52) := by
    refine Is.sub ⟨hx, hmx⟩ ha2 ?_ (by omega) (by omega)
    have e1 : |((mx - k * 1686629713 * 2 ^ 23 : ℤ) : ℝ)| * 2 ^ (-1 - 52 : ℤ) ≤ 2 ^ 53 * 2 ^ (-1 - 52 : ℤ) := by
      rw [← abs_of_pos (zp (-1 - 52)), ← abs_mul, abs_of_pos (zp (-1 - 52))]
      have e2 : ((mx - k * 1686629713 * 2 ^ 23 : ℤ) : ℝ) * 2 ^ (-1 - 52 : ℤ) = x.val - a.val := by
        rw [hmx, ha2.2]; push_cast; ring
      rw [e2]
      refine hrb.trans ?_
      norm_num
    have := le_of_mul_le_mul_right e1 (zp _)
    exact_mod_cast this
  have hrv : (x - a).val = x.val - a.val := by
    rw [hrI.2, hmx, ha2.2]; push_cast; ring
  generalize x - a = r at *
  have hR : |(r.val - b.val) - r0| ≤ 1 / 2 ^ 63 * |r0| := by
    have e : (r.val - b.val) - r0 = k * (Real.pi / 2 - (1686629713 : ℝ) * 2 ^ (-30 : ℤ) - (4701928774853425 : ℝ) * 2 ^ (-86 : ℤ)) -
        (b.val - k * ((4701928774853425 : ℝ) * 2 ^ (-86 : ℤ))) := by rw [hrv, hra]; ring
    rw [e]
    refine (abs_sub _ _).trans ?_
    linarith
  have hR1 : |r.val - b.val| ≤ 0.8 := by
    have := abs_sub_abs_le_abs_sub (r.val - b.val) r0
    norm_num at hR hhi ⊢
    linarith
  obtain ⟨yf, ye⟩ := sub_rel64 hrI.1 hb (Rpl.big64 (hR1.trans (by norm_num)))
  rw [mul_comm, show (2 : ℝ) ^ (-53 : ℤ) = 1 / 2 ^ 53 by norm_num] at ye
  obtain ⟨f0, g0, f1, g1⟩ := fin_stage (h := -75) (n := (mx - k * 1686629713 * 2 ^ 23) * 2 ^ 22) (by
    have := hrI.unshift 22
    rwa [show (-1 - 52 : ℤ) - ((22 : ℕ) : ℤ) = -75 by norm_num] at this) hb (by
    norm_num at hbe ⊢
    linarith) (hR1.trans (by norm_num)) (by
    have h5 := abs_sub_abs_le_abs_sub r0 (r.val - b.val)
    rw [abs_sub_comm r0] at h5
    have h6 := abs_sub_abs_le_abs_sub (r.val - b.val) (r - b).val
    rw [abs_sub_comm (r.val - b.val)] at h6
    norm_num at h5 h6 hR ye hlo ⊢
    linarith) (by norm_num at hR1 ⊢; linarith) (by omega) (by omega)
  exact near_of f0 f1 g0 g1 hR hhi (le_trans (by norm_num) hlo)

theorem add_eq_sub_neg (a b : Flt f64) : a + b = a - -b := by
  show _ = a + (- -b)
  rw [Flt.neg_neg]

theorem small_quad {x a b : Flt f64} {k : ℤ} (hx : x.isFinite) (hxlo : 1 / 2 ≤ |x.val|) (ha : Is a (k * 1686629713) (-30)) (hk : |k| ≤ 4)
    (hb : b.isFinite) (hhi : abs (|x.val| - k * (Real.pi / 2)) ≤ 0.7855) (hlo : 1 / 2 ^ 22 ≤ abs (|x.val| - k * (Real.pi / 2)))
    (hE : |b.val - k * ((4701928774853425 : ℝ) * 2 ^ (-86 : ℤ))| + |(k : ℝ)| / 2 ^ 87 ≤ 1 / 2 ^ 63 * abs (|x.val| - k * (Real.pi / 2))) :
    ∃ n y0 y1, RemPio2.small x x.sign k a b = (n, y0, y1) ∧ Quad64 x.val n y0 y1 := by
  unfold RemPio2.small
  dsimp only
  by_cases hs : x.sign = false
  · rw [if_pos hs]
    rw [abs_of_nonneg (val_nonneg hs)] at hhi hlo hE
    exact ⟨_, _, _, rfl, k, rfl, small_core hx hxlo ha hk hb hhi hlo hE⟩
  · rw [if_neg hs]
    have hxn : |x.val| = -x.val := abs_of_nonpos (val_nonpos (by simpa using hs))
    have e : -x.val - k * (Real.pi / 2) = -(x.val - ((-k : ℤ) : ℝ) * (Real.pi / 2)) := by push_cast; ring
    rw [hxn, e, abs_neg] at hhi hlo hE
    refine ⟨_, _, _, rfl, -k, rfl, ?_⟩
    rw [add_eq_sub_neg x a, add_eq_sub_neg _ b, add_eq_sub_neg _ b]
    refine small_core hx hxlo ⟨(isFinite_neg a).2 ha.1, ?_⟩ (by rwa [abs_neg]) ((isFinite_neg b).2 hb) hhi hlo ?_
    · rw [val_neg, ha.2]; push_cast; ring
    · rw [val_neg]
      have e2 : -b.val - ((-k : ℤ) : ℝ) * ((4701928774853425 : ℝ) * 2 ^ (-86 : ℤ)) = -(b.val - k * ((4701928774853425 : ℝ) * 2 ^ (-86 : ℤ))) := by push_cast; ring
      rw [e2, abs_neg]
      push_cast
      rw [abs_neg]
      push_cast at hE
      exact hE

namespace RemPio2

theorem a1_is : Is ((pio2_1 : Flt f64)) (1 * 1686629713) (-30) :=
  ⟨by decide +kernel, by rw [val_const64 (1 * 1686629713) 1044 (-30) (by decide +kernel) (by norm_num)]⟩
theorem b1_fin : ((pio2_1t : Flt f64)).isFinite := by decide +kernel
theorem b1_val : ((pio2_1t : Flt f64)).val = (4701928774853425 : ℝ) * 2 ^ (-86 : ℤ) := by
  rw [val_const64 4701928774853425 988 (-86) (by decide +kernel) (by norm_num)]; norm_num

theorem a2_is : Is ((2.0 * pio2_1 : Flt f64)) (2 * 1686629713) (-30) :=
  ⟨by decide +kernel, by rw [val_const64 (2 * 1686629713) 1044 (-30) (by decide +kernel) (by norm_num)]⟩
theorem b2_fin : ((2.0 * pio2_1t : Flt f64)).isFinite := by decide +kernel
theorem b2_val : ((2.0 * pio2_1t : Flt f64)).val = (4701928774853425 : ℝ) * 2 ^ (-85 : ℤ) := by
  rw [val_const64 4701928774853425 989 (-85) (by decide +kernel) (by norm_num)]; norm_num

theorem a3_is : Is ((3.0 * pio2_1 : Flt f64)) (3 * 1686629713) (-30) :=
  ⟨by decide +kernel, by rw [val_const64 (3 * 1686629713) 1044 (-30) (by decide +kernel) (by norm_num)]⟩
theorem b3_fin : ((3.0 * pio2_1t : Flt f64)).isFinite := by decide +kernel
theorem b3_val : ((3.0 * pio2_1t : Flt f64)).val = (3526446581140069 : ℝ) * 2 ^ (-84 : ℤ) := by
  rw [val_const64 3526446581140069 990 (-84) (by decide +kernel) (by norm_num)]; norm_num

theorem a4_is : Is ((4.0 * pio2_1 : Flt f64)) (4 * 1686629713) (-30) :=
  ⟨by decide +kernel, by rw [val_const64 (4 * 1686629713) 1044 (-30) (by decide +kernel) (by norm_num)]⟩
theorem b4_fin : ((4.0 * pio2_1t : Flt f64)).isFinite := by decide +kernel
theorem b4_val : ((4.0 * pio2_1t : Flt f64)).val = (4701928774853425 : ℝ) * 2 ^ (-84 : ℤ) := by
  rw [val_const64 4701928774853425 990 (-84) (by decide +kernel) (by norm_num)]; norm_num

end RemPio2

theorem thr_ge {x : Flt f64} (c : ℕ) (m : ℤ) (k : ℕ) (e : ℤ) (h : c * 2 ^ 32 ≤ x.mb) (hm : (bits64 (c * 2 ^ 32)).mb = c * 2 ^ 32)
    (hs : (bits64 (c * 2 ^ 32)).sval = m * 2 ^ k) (he : (k : ℤ) - 1074 = e) (m0 : 0 ≤ m) : (m : ℝ) * 2 ^ e ≤ |x.val| := by
  have := val_mono (x := x) (y := bits64 (c * 2 ^ 32)) (by rw [hm]; exact h)
  rw [val_const64 m k e hs he] at this
  exact (le_abs_self _).trans this

theorem thr_le {x : Flt f64} (c : ℕ) (m : ℤ) (k : ℕ) (e : ℤ) (h : x.mb ≤ c * 2 ^ 32) (hm : (bits64 (c * 2 ^ 32)).mb = c * 2 ^ 32)
    (hs : (bits64 (c * 2 ^ 32)).sval = m * 2 ^ k) (he : (k : ℤ) - 1074 = e) (m0 : 0 ≤ m) : |x.val| ≤ (m : ℝ) * 2 ^ e := by
  have := val_mono (x := bits64 (c * 2 ^ 32)) (y := x) (by rw [hm]; exact h)
  have m1 : (0 : ℝ) ≤ m := by exact_mod_cast m0
  rw [val_const64 m k e hs he, abs_of_nonneg (a := (m : ℝ) * 2 ^ e) (by positivity)] at this
  exact this

theorem small_quad1 {x : Flt f64} (hx : x.isFinite) (h1 : 0x3fe921fc * 2 ^ 32 ≤ x.mb) (h2 : x.mb < 0x4002d97d * 2 ^ 32)
    (h3 : x.mb < 0x3ff921fb * 2 ^ 32 ∨ 0x3ff921fc * 2 ^ 32 ≤ x.mb) :
    ∃ n y0 y1, RemPio2.small x x.sign 1 (RemPio2.pio2_1) (RemPio2.pio2_1t) = (n, y0, y1) ∧ Quad64 x.val n y0 y1 := by
  have e1 := thr_ge (x := x) 0x3fe921fc 1647100 1053 (-21) (by omega) (by decide +kernel) (by decide +kernel) (by norm_num) (by norm_num)
  have e2 := thr_le (x := x) 0x4002d97d 1235325 1055 (-19) (by omega) (by decide +kernel) (by decide +kernel) (by norm_num) (by norm_num)
  have p1 := Real.pi_gt_d20
  have p2 := Real.pi_lt_d20
  have hd : 1 / 2 ^ 22 * 1 ≤ abs (|x.val| - ((1 : ℤ) : ℝ) * (Real.pi / 2)) := by
    push_cast
    rcases h3 with h3 | h3
    · have e3 := thr_le (x := x) 0x3ff921fb 1647099 1054 (-20) (by omega) (by decide +kernel) (by decide +kernel) (by norm_num) (by norm_num)
      refine le_trans ?_ (neg_le_abs _)
      norm_num at e3 p1 p2 ⊢
      linarith
    · have e3 := thr_ge (x := x) 0x3ff921fc 1647100 1054 (-20) (by omega) (by decide +kernel) (by decide +kernel) (by norm_num) (by norm_num)
      refine le_trans ?_ (le_abs_self _)
      norm_num at e3 p1 p2 ⊢
      linarith
  refine small_quad hx (le_trans (by norm_num) e1) RemPio2.a1_is (by norm_num) RemPio2.b1_fin ?_ (le_trans (by norm_num) hd) (le_trans ?_ (mul_le_mul_of_nonneg_left hd (by norm_num)))
  · push_cast
    rw [abs_le]
    norm_num at e1 e2 p1 p2 ⊢
    constructor <;> linarith
  · rw [RemPio2.b1_val]
    push_cast
    norm_num [abs_le]

theorem small_quad2 {x : Flt f64} (hx : x.isFinite) (h1 : 0x4002d97d * 2 ^ 32 ≤ x.mb) (h2 : x.mb < 0x400f6a7b * 2 ^ 32)
    (h3 : x.mb < 0x400921fb * 2 ^ 32 ∨ 0x400921fc * 2 ^ 32 ≤ x.mb) :
    ∃ n y0 y1, RemPio2.small x x.sign 2 (2.0 * RemPio2.pio2_1) (2.0 * RemPio2.pio2_1t) = (n, y0, y1) ∧ Quad64 x.val n y0 y1 := by
  have e1 := thr_ge (x := x) 0x4002d97d 1235325 1055 (-19) (by omega) (by decide +kernel) (by decide +kernel) (by norm_num) (by norm_num)
  have e2 := thr_le (x := x) 0x400f6a7b 2058875 1055 (-19) (by omega) (by decide +kernel) (by decide +kernel) (by norm_num) (by norm_num)
  have p1 := Real.pi_gt_d20
  have p2 := Real.pi_lt_d20
  have hd : 1 / 2 ^ 22 * 2 ≤ abs (|x.val| - ((2 : ℤ) : ℝ) * (Real.pi / 2)) := by
    push_cast
    rcases h3 with h3 | h3
    · have e3 := thr_le (x := x) 0x400921fb 1647099 1055 (-19) (by omega) (by decide +kernel) (by decide +kernel) (by norm_num) (by norm_num)
      refine le_trans ?_ (neg_le_abs _)
      norm_num at e3 p1 p2 ⊢
      linarith
    · have e3 := thr_ge (x := x) 0x400921fc 1647100 1055 (-19) (by omega) (by decide +kernel) (by decide +kernel) (by norm_num) (by norm_num)
      refine le_trans ?_ (le_abs_self _)
      norm_num at e3 p1 p2 ⊢
      linarith
  refine small_quad hx (le_trans (by norm_num) e1) RemPio2.a2_is (by norm_num) RemPio2.b2_fin ?_ (le_trans (by norm_num) hd) (le_trans ?_ (mul_le_mul_of_nonneg_left hd (by norm_num)))
  · push_cast
    rw [abs_le]
    norm_num at e1 e2 p1 p2 ⊢
    constructor <;> linarith
  · rw [RemPio2.b2_val]
    push_cast
    norm_num [abs_le]

theorem small_quad3 {x : Flt f64} (hx : x.isFinite) (h1 : 0x400f6a7b * 2 ^ 32 ≤ x.mb) (h2 : x.mb < 0x4015fdbd * 2 ^ 32)
    (h3 : x.mb < 0x4012d97c * 2 ^ 32 ∨ 0x4012d97d * 2 ^ 32 ≤ x.mb) :
    ∃ n y0 y1, RemPio2.small x x.sign 3 (3.0 * RemPio2.pio2_1) (3.0 * RemPio2.pio2_1t) = (n, y0, y1) ∧ Quad64 x.val n y0 y1 := by
  have e1 := thr_ge (x := x) 0x400f6a7b 2058875 1055 (-19) (by omega) (by decide +kernel) (by decide +kernel) (by norm_num) (by norm_num)
  have e2 := thr_le (x := x) 0x4015fdbd 1441213 1056 (-18) (by omega) (by decide +kernel) (by decide +kernel) (by norm_num) (by norm_num)
  have p1 := Real.pi_gt_d20
  have p2 := Real.pi_lt_d20
  have hd : 1 / 2 ^ 22 * 3 ≤ abs (|x.val| - ((3 : ℤ) : ℝ) * (Real.pi / 2)) := by
    push_cast
    rcases h3 with h3 | h3
    · have e3 := thr_le (x := x) 0x4012d97c 1235324 1056 (-18) (by omega) (by decide +kernel) (by decide +kernel) (by norm_num) (by norm_num)
      refine le_trans ?_ (neg_le_abs _)
      norm_num at e3 p1 p2 ⊢
      linarith
    · have e3 := thr_ge (x := x) 0x4012d97d 1235325 1056 (-18) (by omega) (by decide +kernel) (by decide +kernel) (by norm_num) (by norm_num)
      refine le_trans ?_ (le_abs_self _)
      norm_num at e3 p1 p2 ⊢
      linarith
  refine small_quad hx (le_trans (by norm_num) e1) RemPio2.a3_is (by norm_num) RemPio2.b3_fin ?_ (le_trans (by norm_num) hd) (le_trans ?_ (mul_le_mul_of_nonneg_left hd (by norm_num)))
  · push_cast
    rw [abs_le]
    norm_num at e1 e2 p1 p2 ⊢
    constructor <;> linarith
  · rw [RemPio2.b3_val]
    push_cast
    norm_num [abs_le]

theorem small_quad4 {x : Flt f64} (hx : x.isFinite) (h1 : 0x4015fdbd * 2 ^ 32 ≤ x.mb) (h2 : x.mb < 0x401c463c * 2 ^ 32)
    (h3 : x.mb < 0x401921fb * 2 ^ 32 ∨ 0x401921fc * 2 ^ 32 ≤ x.mb) :
    ∃ n y0 y1, RemPio2.small x x.sign 4 (4.0 * RemPio2.pio2_1) (4.0 * RemPio2.pio2_1t) = (n, y0, y1) ∧ Quad64 x.val n y0 y1 := by
  have e1 := thr_ge (x := x) 0x4015fdbd 1441213 1056 (-18) (by omega) (by decide +kernel) (by decide +kernel) (by norm_num) (by norm_num)
  have e2 := thr_le (x := x) 0x401c463c 1852988 1056 (-18) (by omega) (by decide +kernel) (by decide +kernel) (by norm_num) (by norm_num)
  have p1 := Real.pi_gt_d20
  have p2 := Real.pi_lt_d20
  have hd : 1 / 2 ^ 22 * 4 ≤ abs (|x.val| - ((4 : ℤ) : ℝ) * (Real.pi / 2)) := by
    push_cast
    rcases h3 with h3 | h3
    · have e3 := thr_le (x := x) 0x401921fb 1647099 1056 (-18) (by omega) (by decide +kernel) (by decide +kernel) (by norm_num) (by norm_num)
      refine le_trans ?_ (neg_le_abs _)
      norm_num at e3 p1 p2 ⊢
      linarith
    · have e3 := thr_ge (x := x) 0x401921fc 1647100 1056 (-18) (by omega) (by decide +kernel) (by decide +kernel) (by norm_num) (by norm_num)
      refine le_trans ?_ (le_abs_self _)
      norm_num at e3 p1 p2 ⊢
      linarith
  refine small_quad hx (le_trans (by norm_num) e1) RemPio2.a4_is (by norm_num) RemPio2.b4_fin ?_ (le_trans (by norm_num) hd) (le_trans ?_ (mul_le_mul_of_nonneg_left hd (by norm_num)))
  · push_cast
    rw [abs_le]
    norm_num at e1 e2 p1 p2 ⊢
    constructor <;> linarith
  · rw [RemPio2.b4_val]
    push_cast
    norm_num [abs_le]

theorem ix_and (x : Flt f64) : (getHighWord x &&& 0x7fffffff#32) &&& 0xfffff#32 = 0x921fb#32 ↔ x.mb / 2 ^ 32 % 2 ^ 20 = 0x921fb := by
  rw [← BitVec.toNat_inj, BitVec.toNat_and, hi_abs]
  show _ &&& (2 ^ 20 - 1) = _ ↔ _
  rw [Nat.and_two_pow_sub_one_eq_mod]
  rfl

theorem ix_eq (x : Flt f64) (c : BitVec 32) : getHighWord x &&& 0x7fffffff#32 = c ↔ x.mb / 2 ^ 32 = c.toNat := by
  rw [← BitVec.toNat_inj, hi_abs]

attribute [local irreducible] RemPio2.small RemPio2.medium RemPio2.large

/-- `rem_pio2` reduces every finite double of magnitude at least `π/4`. -/
theorem remPio2_quad {tbl : List ℤ} (ht : Rpl.GoodTbl tbl) {x : Flt f64} (hx : x.isFinite) (h : 0x3fe921fc * 2 ^ 32 ≤ x.mb) :
    ∃ n y0 y1, remPio2With tbl x = some (n, y0, y1) ∧ Quad64 x.val n y0 y1 := by
  have hm : 1023 * 2 ^ 52 ≤ x.mb → x.mb < 0x413921fb * 2 ^ 32 → ∃ n y0 y1, some (RemPio2.medium x (getHighWord x &&& 0x7fffffff#32)) = some (n, y0, y1) ∧ Quad64 x.val n y0 y1 := by
    intro h1 h2
    obtain ⟨n, y0, y1, e, hq⟩ := medium_quad x h1 h2
    exact ⟨n, y0, y1, by rw [e], hq⟩
  have hs : ∀ {k a b}, (∃ n y0 y1, RemPio2.small x x.sign k a b = (n, y0, y1) ∧ Quad64 x.val n y0 y1) →
      ∃ n y0 y1, some (RemPio2.small x x.sign k a b) = some (n, y0, y1) ∧ Quad64 x.val n y0 y1 := by
    rintro k a b ⟨n, y0, y1, e, hq⟩
    exact ⟨n, y0, y1, by rw [e], hq⟩
  rw [remPio2With]
  simp only [Trig.ix_le, Trig.ix_lt, Trig.ix_ge, ix_and, ix_eq]
  simp only [BitVec.reduceToNat]
  have hf := (isFinite64 x).1 hx
  split_ifs with g1 g2 g3 g4 g5 g6 g7 g8 g9
  · exact hm (by omega) (by omega)
  · exact hs (small_quad1 hx (by omega) (by omega) (by omega))
  · exact hs (small_quad2 hx (by omega) (by omega) (by omega))
  · exact hm (by omega) (by omega)
  · exact hs (small_quad3 hx (by omega) (by omega) (by omega))
  · exact hm (by omega) (by omega)
  · exact hs (small_quad4 hx (by omega) (by omega) (by omega))
  · exact hm (by omega) (by omega)
  · omega
  · exact Rpl.large_quad ht x hx (by omega)

end Verif
