import Verif.Theory.TrigF

/-!
# The direct reductions of `sinf`, `cosf`, `tanf` and `sincosf` below `9π/4`, and the quadrants
-/

namespace Verif
open Flt

theorem pi_lo2 : (3.141592653589 : ℝ) < Real.pi := by have := pi_div_two_bits.1; norm_num at this ⊢; linarith
theorem pi_hi2 : Real.pi < 3.14159265359 := by have := pi_div_two_bits.2; norm_num at this ⊢; linarith

theorem fracPi2_err : |Real.pi / 2 - (884279719003555 : ℝ) * 2 ^ (-49 : ℤ)| ≤ 6.1233e-17 := by
  obtain ⟨p1, p2⟩ := pi_div_two_bits
  rw [abs_le]
  norm_num at *
  constructor <;> linarith

/-- an exact difference with a multiple of the double next to `π/2` -/
theorem Near.of_exact {x : ℝ} {y : Flt f64} {k : ℤ} (yf : y.isFinite) (yv : y.val = x - k * ((884279719003555 : ℝ) * 2 ^ (-49 : ℤ)))
    (hk : |k| ≤ 4) (hi : |x - k * (Real.pi / 2)| ≤ 0.7855) (lo : 3.95e-9 * |(k : ℝ)| ≤ |x - k * (Real.pi / 2)|)
    (lo2 : 1 / 2 ^ 32 ≤ |x - k * (Real.pi / 2)|) : Near y (x - k * (Real.pi / 2)) := by
  have hk' : |(k : ℝ)| ≤ 4 := by exact_mod_cast hk
  have he : |y.val - (x - k * (Real.pi / 2))| ≤ |(k : ℝ)| * 6.1233e-17 := by
    have e : y.val - (x - k * (Real.pi / 2)) = k * (Real.pi / 2 - (884279719003555 : ℝ) * 2 ^ (-49 : ℤ)) := by rw [yv]; ring
    rw [e, abs_mul]
    exact mul_le_mul_of_nonneg_left fracPi2_err (abs_nonneg _)
  refine ⟨yf, ?_, ?_, hi, lo2⟩
  · have := abs_nonneg (k : ℝ)
    norm_num at he lo ⊢
    linarith
  · norm_num at he ⊢
    linarith

/-- the multiples of `π/2` from which a float of each branch is subtracted -/
structure Win (x : Flt f32) (k : ℤ) : Prop where
  k1 : 1 ≤ k
  k4 : k ≤ 4
  half : (2 : ℝ) ^ (-1 : ℤ) ≤ |x.val|
  hi : abs (|x.val| - k * (Real.pi / 2)) ≤ 0.7855
  lo : 3.95e-9 * (k : ℝ) ≤ abs (|x.val| - k * (Real.pi / 2))

private theorem b1 : |(bits32 0x3f490fda).val| = 13176794 * 2 ^ (-24 : ℤ) := by
  rw [val_const32 (x := bits32 0x3f490fda) 6588397 126 (-23) (by decide +kernel) (by norm_num), abs_of_pos (by norm_num)]; norm_num
private theorem b2 : |(bits32 0x4016cbe3).val| = 9882595 * 2 ^ (-22 : ℤ) := by
  rw [val_const32 (x := bits32 0x4016cbe3) 9882595 127 (-22) (by decide +kernel) (by norm_num), abs_of_pos (by norm_num)]; norm_num
private theorem b3 : |(bits32 0x407b53d1).val| = 16470993 * 2 ^ (-22 : ℤ) := by
  rw [val_const32 (x := bits32 0x407b53d1) 16470993 127 (-22) (by decide +kernel) (by norm_num), abs_of_pos (by norm_num)]; norm_num
private theorem b4 : |(bits32 0x40afeddf).val| = 11529695 * 2 ^ (-21 : ℤ) := by
  rw [val_const32 (x := bits32 0x40afeddf) 11529695 128 (-21) (by decide +kernel) (by norm_num), abs_of_pos (by norm_num)]; norm_num
private theorem b5 : |(bits32 0x40e231d5).val| = 14823893 * 2 ^ (-21 : ℤ) := by
  rw [val_const32 (x := bits32 0x40e231d5) 14823893 128 (-21) (by decide +kernel) (by norm_num), abs_of_pos (by norm_num)]; norm_num

private theorem up {x : Flt f32} {c : ℕ} {v : ℝ} (hm : (bits32 (BitVec.ofNat 32 c)).mb = c) (hb : |(bits32 (BitVec.ofNat 32 c)).val| = v)
    (h : x.mb ≤ c) : |x.val| ≤ v := by
  rw [← hb]; exact val_mono (by rw [hm]; exact h)
private theorem down {x : Flt f32} {c : ℕ} {v : ℝ} (hm : (bits32 (BitVec.ofNat 32 c)).mb = c) (hb : |(bits32 (BitVec.ofNat 32 c)).val| = v)
    (h : c < x.mb) : v ≤ |x.val| := by
  rw [← hb]; exact val_mono (by rw [hm]; exact h.le)

/-- no float is close to `k` times `π/2` -/
private theorem gap {x : Flt f32} {k : ℤ} {g : ℤ} {n0 : ℤ} (hg : (2 : ℝ) ^ g ≤ |x.val|)
    (h1 : (n0 : ℝ) * 2 ^ (g - 23) + 3.95e-9 * k ≤ k * (Real.pi / 2)) (h2 : k * (Real.pi / 2) + 3.95e-9 * k ≤ (n0 + 1 : ℝ) * 2 ^ (g - 23)) :
    3.95e-9 * (k : ℝ) ≤ abs (|x.val| - k * (Real.pi / 2)) := by
  obtain ⟨n, hn⟩ := grid32 x g hg
  have e : |x.val| = ((|n| : ℤ) : ℝ) * 2 ^ (g - 23) := by rw [hn, abs_mul, abs_of_pos (zp _)]; push_cast; rfl
  rw [e]
  have hp := zp (g - 23)
  rcases lt_or_ge n0 |n| with h | h
  · rw [le_abs]; left
    have : (n0 + 1 : ℝ) ≤ ((|n| : ℤ) : ℝ) := by exact_mod_cast h
    have := mul_le_mul_of_nonneg_right this hp.le
    linarith
  · rw [le_abs]; right
    have : ((|n| : ℤ) : ℝ) ≤ n0 := by exact_mod_cast h
    have := mul_le_mul_of_nonneg_right this hp.le
    linarith

theorem win1 {x : Flt f32} (h1 : 0x3f490fda < x.mb) (h2 : x.mb ≤ 0x4016cbe3) : Win x 1 := by
  have l := down (c := 0x3f490fda) (by decide +kernel) b1 h1
  have u := up (c := 0x4016cbe3) (by decide +kernel) b2 h2
  have p1 := pi_lo2
  have p2 := pi_hi2
  refine ⟨by norm_num, by norm_num, by norm_num at l ⊢; linarith, ?_, ?_⟩
  · rw [abs_le]; norm_num at *; constructor <;> linarith
  · by_cases h : (2 : ℝ) ^ (0 : ℤ) ≤ |x.val|
    · exact gap (n0 := 13176794) h (by norm_num at *; linarith) (by norm_num at *; linarith)
    · rw [le_abs]; right; norm_num at *; linarith

theorem win2 {x : Flt f32} (h1 : 0x4016cbe3 < x.mb) (h2 : x.mb ≤ 0x407b53d1) : Win x 2 := by
  have l := down (c := 0x4016cbe3) (by decide +kernel) b2 h1
  have u := up (c := 0x407b53d1) (by decide +kernel) b3 h2
  have p1 := pi_lo2
  have p2 := pi_hi2
  refine ⟨by norm_num, by norm_num, by norm_num at l ⊢; linarith, ?_, ?_⟩
  · rw [abs_le]; norm_num at *; constructor <;> linarith
  · exact gap (g := 1) (n0 := 13176794) (by norm_num at *; linarith) (by norm_num at *; linarith) (by norm_num at *; linarith)

theorem win3 {x : Flt f32} (h1 : 0x407b53d1 < x.mb) (h2 : x.mb ≤ 0x40afeddf) : Win x 3 := by
  have l := down (c := 0x407b53d1) (by decide +kernel) b3 h1
  have u := up (c := 0x40afeddf) (by decide +kernel) b4 h2
  have p1 := pi_lo2
  have p2 := pi_hi2
  refine ⟨by norm_num, by norm_num, by norm_num at l ⊢; linarith, ?_, ?_⟩
  · rw [abs_le]; norm_num at *; constructor <;> linarith
  · by_cases h : (2 : ℝ) ^ (2 : ℤ) ≤ |x.val|
    · exact gap (n0 := 9882595) h (by norm_num at *; linarith) (by norm_num at *; linarith)
    · rw [le_abs]; right; norm_num at *; linarith

theorem win4 {x : Flt f32} (h1 : 0x40afeddf < x.mb) (h2 : x.mb ≤ 0x40e231d5) : Win x 4 := by
  have l := down (c := 0x40afeddf) (by decide +kernel) b4 h1
  have u := up (c := 0x40e231d5) (by decide +kernel) b5 h2
  have p1 := pi_lo2
  have p2 := pi_hi2
  refine ⟨by norm_num, by norm_num, by norm_num at l ⊢; linarith, ?_, ?_⟩
  · rw [abs_le]; norm_num at *; constructor <;> linarith
  · exact gap (g := 2) (n0 := 13176794) (by norm_num at *; linarith) (by norm_num at *; linarith) (by norm_num at *; linarith)

section
variable {x : Flt f32} {k : ℤ} {P : Flt f64} (hx : x.isFinite) (w : Win x k) (hPf : P.isFinite)
  (hPv : P.val = k * ((884279719003555 : ℝ) * 2 ^ (-49 : ℤ)))
include hx w hPf hPv

/-- the exact differences -/
theorem Win.is : ∃ m : ℤ, Is (x.cast f64) (m * 2 ^ 25) (-49) ∧ Is P (k * 884279719003555) (-49) ∧
    (x.sign = true → |m * 2 ^ 25 + k * 884279719003555| ≤ 2 ^ 53) ∧ (x.sign = false → |m * 2 ^ 25 - k * 884279719003555| ≤ 2 ^ 53) := by
  obtain ⟨wf, wv⟩ := Hypotf.widen hx
  obtain ⟨m, hm⟩ := grid32 x (-1) w.half
  have hk1 : (1 : ℝ) ≤ k := by exact_mod_cast w.k1
  have hk4 : (k : ℝ) ≤ 4 := by exact_mod_cast w.k4
  have he : abs (|x.val| - k * ((884279719003555 : ℝ) * 2 ^ (-49 : ℤ))) ≤ 1 := by
    have e : |x.val| - k * ((884279719003555 : ℝ) * 2 ^ (-49 : ℤ)) = (|x.val| - k * (Real.pi / 2)) + k * (Real.pi / 2 - (884279719003555 : ℝ) * 2 ^ (-49 : ℤ)) := by ring
    rw [e]
    refine (abs_add_le _ _).trans ?_
    have h1 := w.hi
    have h2 := mul_le_mul_of_nonneg_left fracPi2_err (abs_nonneg (k : ℝ))
    rw [← abs_mul] at h2
    rw [abs_of_pos (a := (k : ℝ)) (by linarith)] at h2
    norm_num at h1 h2 ⊢
    linarith
  refine ⟨m, ⟨wf, by rw [wv, hm]; push_cast; norm_num; ring⟩, ⟨hPf, by rw [hPv]; push_cast; ring⟩, ?_, ?_⟩
  · intro hs
    have h3 : |((m * 2 ^ 25 + k * 884279719003555 : ℤ) : ℝ)| ≤ 2 ^ 53 := by
      rw [abs_of_nonpos (val_nonpos hs), hm, show -(↑m * (2 : ℝ) ^ (-1 - 23 : ℤ)) - k * (884279719003555 * 2 ^ (-49 : ℤ)) =
        -(((m * 2 ^ 25 + k * 884279719003555 : ℤ) : ℝ) * 2 ^ (-49 : ℤ)) by push_cast; norm_num; ring, abs_neg, abs_mul, abs_of_pos (a := (2 : ℝ) ^ (-49 : ℤ)) (zp _)] at he
      norm_num at he ⊢
      linarith
    exact_mod_cast h3
  · intro hs
    have h3 : |((m * 2 ^ 25 - k * 884279719003555 : ℤ) : ℝ)| ≤ 2 ^ 53 := by
      rw [abs_of_nonneg (val_nonneg hs), hm, show (↑m * (2 : ℝ) ^ (-1 - 23 : ℤ)) - k * (884279719003555 * 2 ^ (-49 : ℤ)) =
        (((m * 2 ^ 25 - k * 884279719003555 : ℤ) : ℝ) * 2 ^ (-49 : ℤ)) by push_cast; norm_num; ring, abs_mul, abs_of_pos (a := (2 : ℝ) ^ (-49 : ℤ)) (zp _)] at he
      norm_num at he ⊢
      linarith
    exact_mod_cast h3

theorem Win.pos (hs : x.sign = false) : Near (x.cast f64 - P) (x.val - k * (Real.pi / 2)) ∧ Near (P - x.cast f64) (-(x.val - k * (Real.pi / 2))) := by
  obtain ⟨m, hxi, hpi, -, hb⟩ := w.is hx hPf hPv
  obtain ⟨wf, wv⟩ := Hypotf.widen hx
  have hxa : |x.val| = x.val := abs_of_nonneg (val_nonneg hs)
  have hk1 : (1 : ℝ) ≤ k := by exact_mod_cast w.k1
  have hka : |(k : ℝ)| = k := abs_of_pos (by linarith)
  have hlo := w.lo
  have hhi := w.hi
  rw [hxa] at hlo hhi
  have hv : (m * 2 ^ 25 : ℤ) * (2 : ℝ) ^ (-49 : ℤ) = x.val := by rw [← wv, hxi.2]
  have hv2 : (k * 884279719003555 : ℤ) * (2 : ℝ) ^ (-49 : ℤ) = k * ((884279719003555 : ℝ) * 2 ^ (-49 : ℤ)) := by push_cast; ring
  have mk : ∀ y : Flt f64, y.isFinite → y.val = x.val - k * ((884279719003555 : ℝ) * 2 ^ (-49 : ℤ)) → Near y (x.val - k * (Real.pi / 2)) := by
    intro y yf yv
    refine .of_exact yf yv (by have := w.k1; have := w.k4; rw [abs_le]; omega) hhi (by rw [hka]; exact hlo) (le_trans ?_ hlo)
    norm_num
    linarith
  refine ⟨?_, ?_⟩
  · have h := hxi.sub hpi (hb hs) (by norm_num) (by norm_num)
    exact mk _ h.1 (by rw [h.2, ← hv, ← hv2]; push_cast; ring)
  · have h := hpi.sub hxi (by rw [abs_sub_comm]; exact hb hs) (by norm_num) (by norm_num)
    have h2 := mk (-(P - x.cast f64)) ((Flt.isFinite_neg _).2 h.1) (by rw [val_neg, h.2, ← hv, ← hv2]; push_cast; ring)
    have h3 := h2.neg
    rwa [Flt.neg_neg] at h3

theorem Win.neg (hs : x.sign = true) : Near (x.cast f64 + P) (x.val - (-k : ℤ) * (Real.pi / 2)) ∧ Near (-x.cast f64 - P) (-(x.val - (-k : ℤ) * (Real.pi / 2))) := by
  obtain ⟨m, hxi, hpi, hb, -⟩ := w.is hx hPf hPv
  obtain ⟨wf, wv⟩ := Hypotf.widen hx
  have hxa : |x.val| = -x.val := abs_of_nonpos (val_nonpos hs)
  have hk1 : (1 : ℝ) ≤ k := by exact_mod_cast w.k1
  have hka : |((-k : ℤ) : ℝ)| = k := by push_cast; rw [abs_neg]; exact abs_of_pos (by linarith)
  have hlo := w.lo
  have hhi := w.hi
  have e : |x.val| - k * (Real.pi / 2) = -(x.val - (-k : ℤ) * (Real.pi / 2)) := by rw [hxa]; push_cast; ring
  rw [e, abs_neg] at hlo hhi
  have hv : (m * 2 ^ 25 : ℤ) * (2 : ℝ) ^ (-49 : ℤ) = x.val := by rw [← wv, hxi.2]
  have hv2 : (k * 884279719003555 : ℤ) * (2 : ℝ) ^ (-49 : ℤ) = k * ((884279719003555 : ℝ) * 2 ^ (-49 : ℤ)) := by push_cast; ring
  have mk : ∀ y : Flt f64, y.isFinite → y.val = x.val + k * ((884279719003555 : ℝ) * 2 ^ (-49 : ℤ)) → Near y (x.val - (-k : ℤ) * (Real.pi / 2)) := by
    intro y yf yv
    refine .of_exact yf (by rw [yv]; push_cast; ring) (by have := w.k1; have := w.k4; rw [abs_le]; omega) hhi (by rw [hka]; exact hlo) (le_trans ?_ hlo)
    norm_num
    linarith
  refine ⟨?_, ?_⟩
  · have h := hxi.add hpi (hb hs) (by norm_num) (by norm_num)
    exact mk _ h.1 (by rw [h.2, ← hv, ← hv2]; push_cast; ring)
  · have hxn : Is (-x.cast f64) (-(m * 2 ^ 25)) (-49) := ⟨(Flt.isFinite_neg _).2 wf, by rw [val_neg, hxi.2]; push_cast; ring⟩
    have h := hxn.sub hpi (by rw [← abs_neg]; convert hb hs using 2; ring) (by norm_num) (by norm_num)
    have h2 := mk (-(-x.cast f64 - P)) ((Flt.isFinite_neg _).2 h.1) (by rw [val_neg, h.2, ← hv, ← hv2]; push_cast; ring)
    have h3 := h2.neg
    rwa [Flt.neg_neg] at h3
end

/-! ## Quadrants -/

section
variable (x : ℝ) {N : ℤ}

private theorem shift {c : ℤ} (h : N % 4 = c) : x - N * (Real.pi / 2) = (x - c * (Real.pi / 2)) - (N / 4 : ℤ) * (2 * Real.pi) := by
  have : N = 4 * (N / 4) + c := by omega
  conv_lhs => rw [this]
  push_cast
  ring

theorem quad0 (h : N % 4 = 0) : Real.sin (x - N * (Real.pi / 2)) = Real.sin x ∧ Real.cos (x - N * (Real.pi / 2)) = Real.cos x := by
  rw [shift x h, Real.sin_sub_int_mul_two_pi, Real.cos_sub_int_mul_two_pi]
  simp

theorem quad1 (h : N % 4 = 1) : Real.sin (x - N * (Real.pi / 2)) = -Real.cos x ∧ Real.cos (x - N * (Real.pi / 2)) = Real.sin x := by
  rw [shift x h, Real.sin_sub_int_mul_two_pi, Real.cos_sub_int_mul_two_pi, Int.cast_one, one_mul, Real.sin_sub_pi_div_two, Real.cos_sub_pi_div_two]
  exact ⟨rfl, rfl⟩

theorem quad2 (h : N % 4 = 2) : Real.sin (x - N * (Real.pi / 2)) = -Real.sin x ∧ Real.cos (x - N * (Real.pi / 2)) = -Real.cos x := by
  rw [shift x h, Real.sin_sub_int_mul_two_pi, Real.cos_sub_int_mul_two_pi, show x - ((2 : ℤ) : ℝ) * (Real.pi / 2) = x - Real.pi by push_cast; ring,
    Real.sin_sub_pi, Real.cos_sub_pi]
  exact ⟨rfl, rfl⟩

theorem quad3 (h : N % 4 = 3) : Real.sin (x - N * (Real.pi / 2)) = Real.cos x ∧ Real.cos (x - N * (Real.pi / 2)) = -Real.sin x := by
  rw [shift x h, Real.sin_sub_int_mul_two_pi, Real.cos_sub_int_mul_two_pi, show x - ((3 : ℤ) : ℝ) * (Real.pi / 2) = x - Real.pi - Real.pi / 2 by push_cast; ring,
    Real.sin_sub_pi_div_two, Real.cos_sub_pi_div_two, Real.cos_sub_pi, Real.sin_sub_pi, _root_.neg_neg]
  exact ⟨rfl, rfl⟩

theorem quad_even (h : N % 2 = 0) : Real.tan (x - N * (Real.pi / 2)) = Real.tan x := by
  rw [Real.tan_eq_sin_div_cos, Real.tan_eq_sin_div_cos]
  rcases (by omega : N % 4 = 0 ∨ N % 4 = 2) with h | h
  · rw [(quad0 x h).1, (quad0 x h).2]
  · rw [(quad2 x h).1, (quad2 x h).2, neg_div_neg_eq]

theorem quad_odd (h : N % 2 = 1) : -(Real.cos (x - N * (Real.pi / 2)) / Real.sin (x - N * (Real.pi / 2))) = Real.tan x := by
  rw [Real.tan_eq_sin_div_cos]
  rcases (by omega : N % 4 = 1 ∨ N % 4 = 3) with h | h
  · rw [(quad1 x h).1, (quad1 x h).2, div_neg, _root_.neg_neg]
  · rw [(quad3 x h).1, (quad3 x h).2, neg_div, _root_.neg_neg]
end

end Verif
