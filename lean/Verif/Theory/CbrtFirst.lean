import Verif.Model.Cbrt
import Verif.Theory.As32
import Verif.Theory.PolyBd

/-!
# cbrt: the first approximation
-/

namespace Verif
namespace Cbrt
open Flt

theorem c0_val : c0.val = (1244847670557671 : ℝ) * 2 ^ (-51 : ℤ) := by
  rw [val_const64 (1244847670557671) 1023 (-51) (by decide +kernel) (by norm_num)]; norm_num

theorem c1_val : c1.val = (5288255411789221 : ℝ) * 2 ^ (-53 : ℤ) := by
  rw [val_const64 (5288255411789221) 1021 (-53) (by decide +kernel) (by norm_num)]; norm_num

theorem c2_val : c2.val = (-2935800615464669 : ℝ) * 2 ^ (-54 : ℤ) := by
  rw [val_const64 (-2935800615464669) 1020 (-54) (by decide +kernel) (by norm_num)]; norm_num

theorem c3_val : c3.val = (6659552496622343 : ℝ) * 2 ^ (-58 : ℤ) := by
  rw [val_const64 (6659552496622343) 1016 (-58) (by decide +kernel) (by norm_num)]; norm_num

theorem u0_val : u0.val = (6004799503160661 : ℝ) * 2 ^ (-54 : ℤ) := by
  rw [val_const64 (6004799503160661) 1020 (-54) (by decide +kernel) (by norm_num)]; norm_num

theorem u1_val : u1.val = (2001599834386887 : ℝ) * 2 ^ (-53 : ℤ) := by
  rw [val_const64 (2001599834386887) 1021 (-53) (by decide +kernel) (by norm_num)]; norm_num

/-- the polynomial of the first approximation -/
def fl : List ℚ := [1244847670557671 / 2 ^ 51, 5288255411789221 / 2 ^ 53, -2935800615464669 / 2 ^ 54, 6659552496622343 / 2 ^ 58]

theorem fl_bd {z : ℝ} (h0 : 1 ≤ z) (h1 : z ≤ 2) : |Poly.ev fl z ^ 3 - z| ≤ 1 / 4500 * z ∧ |Poly.ev fl z - 9 / 8| ≤ 1 / 7 := by
  have key : ∀ n : ℕ, n < 64 → 1 + (n : ℝ) / 64 ≤ z → z ≤ 1 + (n + 1 : ℝ) / 64 → |Poly.ev fl z ^ 3 - z| ≤ 1 / 4500 * z := by
    intro n hn a b
    have hc : Poly.check (Poly.add (Poly.mul fl (Poly.mul fl fl)) [0, -1]) (1 + n / 64) (1 / 512) (1 / 4500 * (1 + n / 64)) 4 = true := by
      have : ∀ n : Fin 64, Poly.check (Poly.add (Poly.mul fl (Poly.mul fl fl)) [0, -1]) (1 + (n : ℕ) / 64) (1 / 512) (1 / 4500 * (1 + (n : ℕ) / 64)) 4 = true := by
        decide +kernel
      exact this ⟨n, hn⟩
    have h2 := Poly.bound hc (by norm_num) (by norm_num) z (by push_cast; exact a) (by push_cast; linarith)
    rw [Poly.ev_add, Poly.ev_mul, Poly.ev_mul] at h2
    have h3 : Poly.ev [0, -1] z = -z := by simp [Poly.ev]
    rw [h3] at h2
    push_cast at h2
    rw [show Poly.ev fl z ^ 3 - z = Poly.ev fl z * (Poly.ev fl z * Poly.ev fl z) + -z by ring]
    linarith
  constructor
  · rcases lt_or_eq_of_le h1 with h1 | h1
    · have hf := Nat.floor_le (show 0 ≤ (z - 1) * 64 by linarith)
      have hf2 := Nat.lt_floor_add_one ((z - 1) * 64)
      refine key ⌊(z - 1) * 64⌋₊ ?_ (by linarith) (by linarith)
      rw [Nat.floor_lt (by linarith)]
      push_cast; linarith
    · exact key 63 (by norm_num) (by rw [h1]; norm_num) (by rw [h1]; norm_num)
  · have h2 := Poly.bound (p := Poly.add fl [-(9 / 8)]) (a := 1) (h := 1 / 128) (B := 1 / 7) (n := 64)
      (by decide +kernel) (by norm_num) (by norm_num) z (by push_cast; exact h0) (by push_cast; linarith)
    rw [Poly.ev_add] at h2
    have h3 : Poly.ev [-(9 / 8)] z = -(9 / 8) := by simp [Poly.ev]
    rw [h3] at h2
    push_cast at h2
    rw [← sub_eq_add_neg] at h2
    exact h2

/-- the polynomial in floating point -/
theorem poly_as {z : Flt f64} (hf : z.isFinite) (h0 : 1 ≤ z.val) (h1 : z.val ≤ 2) :
    As 1 ((c0 + z * c1) + (z * z) * (c2 + z * c3)) (Poly.ev fl z.val) (8357 / 2 ^ 63) (13 / 10) := by
  have hz : As 1 z z.val 0 2 := .exact hf rfl (by rw [mul_one, abs_le]; constructor <;> linarith)
  have hc0 : As 1 c0 c0.val 0 (18115 / 2 ^ 15) := .exact (by decide +kernel) rfl (by rw [c0_val, abs_le]; constructor <;> norm_num)
  have hc1 : As 1 c1 c1.val 0 (19239 / 2 ^ 15) := .exact (by decide +kernel) rfl (by rw [c1_val, abs_le]; constructor <;> norm_num)
  have hc2 : As 1 c2 c2.val 0 (21361 / 2 ^ 17) := .exact (by decide +kernel) rfl (by rw [c2_val, abs_le]; constructor <;> norm_num)
  have hc3 : As 1 c3 c3.val 0 (6057 / 2 ^ 18) := .exact (by decide +kernel) rfl (by rw [c3_val, abs_le]; constructor <;> norm_num)
  have hu0 : As 1 u0 u0.val 0 (10923 / 2 ^ 15) := .exact (by decide +kernel) rfl (by rw [u0_val, abs_le]; constructor <;> norm_num)
  have hu1 : As 1 u1 u1.val 0 (3641 / 2 ^ 14) := .exact (by decide +kernel) rfl (by rw [u1_val, abs_le]; constructor <;> norm_num)
  have hz2 := As64.mul one_lo le_rfl hz hz (by norm_num) (by norm_num) (by norm_num) (by norm_num) (g := (16385 / 2 ^ 65)) (D := (16385 / 2 ^ 12)) (by norm_num) (by norm_num)
  have hzc1 := As64.mul one_lo le_rfl hz hc1 (by norm_num) (by norm_num) (by norm_num) (by norm_num) (g := (2405 / 2 ^ 64)) (D := (2405 / 2 ^ 11)) (by norm_num) (by norm_num)
  have ha0 := As64.add zero_le_one le_rfl hc0 hzc1 (by norm_num) (by norm_num) (g := (23769 / 2 ^ 66)) (D := (14149 / 2 ^ 13)) (by norm_num) (by norm_num)
  have hzc3 := As64.mul one_lo le_rfl hz hc3 (by norm_num) (by norm_num) (by norm_num) (by norm_num) (g := (24229 / 2 ^ 72)) (D := (24229 / 2 ^ 19)) (by norm_num) (by norm_num)
  have ha2 := As64.add zero_le_one le_rfl hc2 hzc3 (by norm_num) (by norm_num) (g := (8369 / 2 ^ 68)) (D := (27419 / 2 ^ 17)) (by norm_num) (by norm_num)
  have hza := As64.mul one_lo le_rfl hz2 ha2 (by norm_num) (by norm_num) (by norm_num) (by norm_num) (g := (345 / 2 ^ 60)) (D := (27421 / 2 ^ 15)) (by norm_num) (by norm_num)
  have hy := As64.add zero_le_one le_rfl ha0 hza (by norm_num) (by norm_num) (g := (8357 / 2 ^ 63)) (D := (21005 / 2 ^ 13)) (by norm_num) (by norm_num)
  have ep : Poly.ev fl z.val = c0.val + z.val * c1.val + z.val * z.val * (c2.val + z.val * c3.val) := by
    simp only [fl, Poly.ev, c0_val, c1_val, c2_val, c3_val]
    push_cast
    norm_num
    ring
  rw [ep]
  refine ⟨hy.fin, hy.err, ?_⟩
  have h2 := hy.err
  rw [← ep, mul_one] at h2
  have h3 := (fl_bd h0 h1).2
  have h4 := abs_le.1 h2
  have h5 := abs_le.1 h3
  rw [abs_le]
  norm_num at h4 h5 ⊢
  constructor <;> linarith [h4.1, h4.2, h5.1, h5.2]

/-- the first approximation with its error, in terms of the cube of the polynomial -/
theorem first_as {z : Flt f64} (hf : z.isFinite) (h0 : 1 ≤ z.val) (h1 : z.val ≤ 2) :
    ∃ Y : ℝ, 1 / 2 ≤ Y ∧ Y ≤ 13 / 10 ∧ |Y ^ 3 / z.val - 1| ≤ 1 / 4400 ∧ (first z (1.0 / z)).isFinite ∧
      |(first z (1.0 / z)).val - (Y - ((Y ^ 3 / z.val - 1) * Y) * (1 / 3 - 2 / 9 * (Y ^ 3 / z.val - 1)))| ≤ 1 / 2 ^ 47 := by
  have hz : As 1 z z.val 0 2 := .exact hf rfl (by rw [mul_one, abs_le]; constructor <;> linarith)
  have hp := poly_as hf h0 h1
  have e1 : (1.0 : Flt f64) = one f64 := by decide +kernel
  have hone : As 1 (1.0 : Flt f64) 1 0 1 := .exact (by decide +kernel) (by rw [e1, val_one]) (by norm_num)
  unfold first
  simp only
  generalize (c0 + z * c1) + (z * z) * (c2 + z * c3) = y at hp ⊢
  have hY : As 1 y y.val 0 (13 / 10) := .exact hp.fin rfl hp.bd
  have hu0 : As 1 u0 u0.val 0 (21846 / 2 ^ 16) := .exact (by decide +kernel) rfl (by rw [u0_val, abs_le]; constructor <;> norm_num)
  have hu1 : As 1 u1 u1.val 0 (14564 / 2 ^ 16) := .exact (by decide +kernel) rfl (by rw [u1_val, abs_le]; constructor <;> norm_num)
  have hL : (1 : ℝ) ≤ |z.val| := le_trans h0 (le_abs_self _)
  have hr := As64.div one_lo le_rfl hone hz 1 hL (by norm_num) (by norm_num) (by norm_num) (by norm_num) (by norm_num) (g := (16385 / 2 ^ 67)) (D := (16385 / 2 ^ 14)) (by norm_num) (by norm_num)
  have hy2 := As64.mul one_lo le_rfl hY hY (by norm_num) (by norm_num) (by norm_num) (by norm_num) (g := (27689 / 2 ^ 67)) (D := (27689 / 2 ^ 14)) (by norm_num) (by norm_num)
  have hyr := As64.mul one_lo le_rfl hY hr (by norm_num) (by norm_num) (by norm_num) (by norm_num) (g := (21301 / 2 ^ 66)) (D := (21301 / 2 ^ 14)) (by norm_num) (by norm_num)
  have hy3 := As64.mul one_lo le_rfl hy2 hyr (by norm_num) (by norm_num) (by norm_num) (by norm_num) (g := (1125 / 2 ^ 60)) (D := (1125 / 2 ^ 9)) (by norm_num) (by norm_num)
  have hh := As64.sub zero_le_one le_rfl hy3 hone (by norm_num) (by norm_num) (g := (6137 / 2 ^ 62)) (D := (26193 / 2 ^ 13)) (by norm_num) (by norm_num)
  have zp0 : (0 : ℝ) < z.val := by linarith
  have eH : y.val * y.val * (y.val * (1 / z.val)) - 1 = y.val ^ 3 / z.val - 1 := by
    field_simp
  rw [eH] at hh
  obtain ⟨b1, b2⟩ := fl_bd h0 h1
  have h2 := hp.err
  rw [mul_one] at h2
  have hYb : |y.val| ≤ 13 / 10 := by have := hp.bd; rwa [mul_one] at this
  have hP : |Poly.ev fl z.val| ≤ 13 / 10 := by
    have := abs_le.1 b2
    rw [abs_le]; constructor <;> linarith
  have hcub : |y.val ^ 3 - z.val| ≤ 1 / 4400 * z.val := by
    have e : y.val ^ 3 - z.val = (y.val - Poly.ev fl z.val) * (y.val ^ 2 + y.val * Poly.ev fl z.val + Poly.ev fl z.val ^ 2) + (Poly.ev fl z.val ^ 3 - z.val) := by ring
    have k1 : |y.val ^ 2 + y.val * Poly.ev fl z.val + Poly.ev fl z.val ^ 2| ≤ 6 := by
      have a1 := abs_le.1 hYb
      have a2 := abs_le.1 hP
      rw [abs_le]; constructor <;> nlinarith
    rw [e]
    refine (abs_add_le _ _).trans ?_
    rw [abs_mul]
    have k2 := mul_le_mul h2 k1 (abs_nonneg _) (by norm_num)
    norm_num at k2 b1 ⊢
    linarith
  have hHb : |y.val ^ 3 / z.val - 1| ≤ 1 / 4400 := by
    rw [div_sub_one (ne_of_gt zp0), abs_div, abs_of_pos zp0, div_le_iff₀ zp0]; exact hcub
  have hylo : 1 / 2 ≤ y.val := by
    have a1 := abs_le.1 h2
    have a2 := abs_le.1 b2
    norm_num at a1 a2 ⊢
    linarith [a1.1, a2.1]
  refine ⟨y.val, hylo, (abs_le.1 hYb).2, hHb, ?_⟩
  generalize y.val ^ 3 / z.val - 1 = H at hh hHb ⊢
  have hH : As 1 (y * y * (y * (1.0 / z)) - 1.0) H (6137 / 2 ^ 62) (1 / 4000) := by
    refine ⟨hh.fin, hh.err, ?_⟩
    have a1 := abs_le.1 hh.err
    have a2 := abs_le.1 hHb
    rw [abs_le]
    norm_num at a1 a2 ⊢
    constructor <;> linarith [a1.1, a1.2, a2.1, a2.2]
  have hhy := As64.mul one_lo le_rfl hH hY (by norm_num) (by norm_num) (by norm_num) (by norm_num) (g := (15957 / 2 ^ 63)) (D := (21811 / 2 ^ 26)) (by norm_num) (by norm_num)
  have huh := As64.mul one_lo le_rfl hu1 hH (by norm_num) (by norm_num) (by norm_num) (by norm_num) (g := (10911 / 2 ^ 65)) (D := (7457 / 2 ^ 27)) (by norm_num) (by norm_num)
  have hv := As64.sub zero_le_one le_rfl hu0 huh (by norm_num) (by norm_num) (g := (12277 / 2 ^ 65)) (D := (10925 / 2 ^ 15)) (by norm_num) (by norm_num)
  have hw := As64.mul one_lo le_rfl hhy hv (by norm_num) (by norm_num) (by norm_num) (by norm_num) (g := (21285 / 2 ^ 65)) (D := (909 / 2 ^ 23)) (by norm_num) (by norm_num)
  have hg := As64.sub zero_le_one le_rfl hY hw (by norm_num) (by norm_num) (g := (26611 / 2 ^ 65)) (D := (21301 / 2 ^ 14)) (by norm_num) (by norm_num)
  refine ⟨hg.fin, ?_⟩
  have h9 := hg.err
  rw [mul_one] at h9
  have hd : |(y.val - H * y.val * (u0.val - u1.val * H)) - (y.val - H * y.val * (1 / 3 - 2 / 9 * H))| ≤ 1 / 2 ^ 53 := by
    rw [show (y.val - H * y.val * (u0.val - u1.val * H)) - (y.val - H * y.val * (1 / 3 - 2 / 9 * H)) = H * y.val * ((1 / 3 - u0.val) - (2 / 9 - u1.val) * H) by ring,
      abs_mul, abs_mul]
    have k1 : |H| * |y.val| ≤ 1 / 4400 * (13 / 10) := mul_le_mul hHb hYb (abs_nonneg _) (by norm_num)
    have k2 : |(1 / 3 - u0.val) - (2 / 9 - u1.val) * H| ≤ 1 / 2 ^ 52 := by
      have a2 := abs_le.1 hHb
      rw [u0_val, u1_val, abs_le]
      norm_num
      constructor <;> linarith [a2.1, a2.2]
    have := mul_le_mul k1 k2 (abs_nonneg _) (by norm_num)
    norm_num at this ⊢
    linarith
  have := abs_add_le _ _ |>.trans (add_le_add h9 hd)
  rw [sub_add_sub_cancel] at this
  refine this.trans ?_
  norm_num

/-- one step of the iteration of third order on exact numbers -/
theorem cubic {Y c H : ℝ} (hc : 0 < c) (hH : H = Y ^ 3 / c ^ 3 - 1) (hb : |H| ≤ 1 / 4400) :
    |Y - (H * Y) * (1 / 3 - 2 / 9 * H) - c| ≤ 1 / 2 ^ 38 * (5 / 8) * c := by
  obtain ⟨d, hd⟩ : ∃ d, Y = c * (1 + d) := ⟨Y / c - 1, by field_simp; ring⟩
  have hH' : H = (1 + d) ^ 3 - 1 := by rw [hH, hd, mul_pow, mul_div_cancel_left₀ _ (by positivity)]
  have hb' := abs_le.1 hb
  have d1 : d ≤ 1 / 13100 := by
    by_contra h
    push Not at h
    have : (1 + 1 / 13100 : ℝ) ^ 3 < (1 + d) ^ 3 := pow_lt_pow_left₀ (by linarith) (by norm_num) (by norm_num)
    rw [hH'] at hb'
    norm_num at this hb'
    linarith [hb'.2]
  have d2 : -(1 / 13100) ≤ d := by
    by_contra h
    push Not at h
    have : (1 + d) ^ 3 < (1 - 1 / 13100 : ℝ) ^ 3 := Odd.strictMono_pow (by decide) (by linarith)
    rw [hH'] at hb'
    norm_num at this hb'
    linarith [hb'.1]
  have hda : |d| ≤ 1 / 13100 := abs_le.2 ⟨d2, d1⟩
  have e : Y - (H * Y) * (1 / 3 - 2 / 9 * H) - c = c * (d ^ 3 * (14 / 3 + 7 * d + 14 / 3 * d ^ 2 + 14 / 9 * d ^ 3 + 2 / 9 * d ^ 4)) := by
    rw [hd, hH']; ring
  rw [e, abs_mul, abs_mul, abs_of_pos hc, abs_pow]
  have k1 : |d| ^ 3 ≤ (1 / 13100) ^ 3 := pow_le_pow_left₀ (abs_nonneg _) hda 3
  have k2 : |14 / 3 + 7 * d + 14 / 3 * d ^ 2 + 14 / 9 * d ^ 3 + 2 / 9 * d ^ 4| ≤ 5 := by
    have p2 : |d ^ 2| ≤ 1 / 100 := by rw [abs_pow]; exact (pow_le_pow_left₀ (abs_nonneg _) hda 2).trans (by norm_num)
    have p3 : |d ^ 3| ≤ 1 / 100 := by rw [abs_pow]; exact k1.trans (by norm_num)
    have p4 : |d ^ 4| ≤ 1 / 100 := by rw [abs_pow]; exact (pow_le_pow_left₀ (abs_nonneg _) hda 4).trans (by norm_num)
    have := abs_le.1 p2
    have := abs_le.1 p3
    have := abs_le.1 p4
    rw [abs_le]; constructor <;> linarith
  have := mul_le_mul k1 k2 (abs_nonneg _) (by norm_num)
  have h3 := mul_le_mul_of_nonneg_left this hc.le
  refine h3.trans ?_
  rw [mul_comm]
  exact mul_le_mul_of_nonneg_right (by norm_num) hc.le

/-- the first approximation of the cube root of a number in [1, 2] -/
theorem first_near {z : Flt f64} (hf : z.isFinite) (h0 : 1 ≤ z.val) (h1 : z.val ≤ 2) : (first z (1.0 / z)).isFinite ∧
    ∀ c : ℝ, 0 < c → c ^ 3 = z.val → |(first z (1.0 / z)).val - c| ≤ 1 / 2 ^ 38 * (3 / 4) * c := by
  obtain ⟨Y, y1, y2, hH, hg, herr⟩ := first_as hf h0 h1
  refine ⟨hg, fun c c0 hc => ?_⟩
  rw [← hc] at hH herr
  have h2 := cubic c0 rfl hH
  have c1 : 1 ≤ c := by
    by_contra h
    push Not at h
    have : c ^ 3 < 1 := pow_lt_one₀ c0.le h (by norm_num)
    linarith
  have := abs_add_le _ _ |>.trans (add_le_add herr h2)
  rw [sub_add_sub_cancel] at this
  refine this.trans ?_
  norm_num
  linarith

end Cbrt
end Verif
