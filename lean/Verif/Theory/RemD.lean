import Verif.Theory.RplNear

/-!
# Argument reduction of doubles of moderate size

Subtracting `k` times the head of `π/2` is exact; the two results are the sum and what its rounding loses.
-/

namespace Verif
open Flt

/-- `y0 = r - w` and `y1 = (r - y0) - w` -/
theorem fin_stage {r w : Flt f64} {n h : ℤ} (hr : Is r n h) (hw : w.isFinite) (hwb : |w.val| ≤ 2 ^ (h + 52))
    (hb : |r.val - w.val| ≤ 4) (hlo : 2 ^ (h + 52) ≤ |(r - w).val|) (hhi : |r.val - w.val| ≤ 2 ^ (h + 104)) (h1 : -900 ≤ h) (h2 : h ≤ 0) :
    (r - w).isFinite ∧ |(r - w).val - (r.val - w.val)| ≤ 1 / 2 ^ 53 * |r.val - w.val| ∧ (r - (r - w) - w).isFinite ∧
      |(r - w).val + (r - (r - w) - w).val - (r.val - w.val)| ≤ 1 / 2 ^ 106 * |r.val - w.val| := by
  have hp : (2 : ℝ) ^ (-53 : ℤ) = 1 / 2 ^ 53 := by norm_num
  obtain ⟨yf, ye⟩ := sub_rel64 hr.1 hw (Rpl.big64 (hb.trans (by norm_num)))
  rw [mul_comm, hp] at ye
  refine ⟨yf, ye, ?_⟩
  generalize r - w = y at *
  obtain ⟨m, hm⟩ := grid64 y (h + 52) hlo
  rw [show h + 52 - 52 = h by ring] at hm
  have hz := zp h
  have e52 : (2 : ℝ) ^ (h + 52) = 2 ^ h * 2 ^ 52 := by rw [zpow_add₀ (by norm_num)]; norm_num
  have e104 : (2 : ℝ) ^ (h + 104) = 2 ^ h * 2 ^ 104 := by rw [zpow_add₀ (by norm_num)]; norm_num
  rw [e52] at hwb hlo
  rw [e104] at hhi
  have hI : Is (r - y) (n - m) h := by
    refine hr.sub ⟨yf, hm⟩ ?_ (by omega) (by omega)
    have e : |((n - m : ℤ) : ℝ)| * 2 ^ h ≤ 2 ^ 53 * 2 ^ h := by
      rw [← abs_of_pos hz, ← abs_mul, abs_of_pos hz]
      have e : ((n - m : ℤ) : ℝ) * 2 ^ h = w.val - (y.val - (r.val - w.val)) := by
        have := hr.2
        push_cast
        rw [sub_mul, ← this, ← hm]
        ring
      rw [e]
      refine (abs_sub _ _).trans ((add_le_add hwb ye).trans ?_)
      norm_num at hhi ⊢
      linarith
    have := le_of_mul_le_mul_right e hz
    exact_mod_cast this
  have hv : (r - y).val = r.val - y.val := by
    rw [hI.2, hr.2, hm]; push_cast; ring
  have hb2 : |(r - y).val - w.val| ≤ 1 / 2 ^ 53 * |r.val - w.val| := by
    rw [hv, show r.val - y.val - w.val = -(y.val - (r.val - w.val)) by ring, abs_neg]
    exact ye
  obtain ⟨zf, ze⟩ := sub_rel64 hI.1 hw (Rpl.big64 (hb2.trans (by norm_num; linarith)))
  rw [mul_comm, hp] at ze
  refine ⟨zf, ?_⟩
  have e : y.val + (r - y - w).val - (r.val - w.val) = (r - y - w).val - ((r - y).val - w.val) := by rw [hv]; ring
  rw [e]
  refine ze.trans ?_
  norm_num at hb2 ⊢
  linarith

/-- `t - w` split into a double and an exact remainder -/
theorem split_stage {t w : Flt f64} {a b g : ℤ} (ht : Is t a g) (hw : Is w b g) (hwb : |w.val| ≤ 2 ^ (g + 52))
    (hb : |t.val - w.val| ≤ 1) (hhi : (1 : ℝ) ≤ 2 ^ (g + 104)) (h1 : -900 ≤ g) (h2 : g ≤ 0) :
    (∃ m, Is (t - w) m g) ∧ (t - (t - w) - w).isFinite ∧ (t - (t - w) - w).val = t.val - w.val - (t - w).val ∧
      |(t - (t - w) - w).val| ≤ 1 / 2 ^ 53 * |t.val - w.val| ∧ (|t.val - w.val| ≤ 2 ^ (g + 53) → (t - w).val = t.val - w.val) := by
  have hp : (2 : ℝ) ^ (-53 : ℤ) = 1 / 2 ^ 53 := by norm_num
  have hz := zp g
  have e52 : (2 : ℝ) ^ (g + 52) = 2 ^ g * 2 ^ 52 := by rw [zpow_add₀ (by norm_num)]; norm_num
  have e53 : (2 : ℝ) ^ (g + 53) = 2 ^ g * 2 ^ 53 := by rw [zpow_add₀ (by norm_num)]; norm_num
  have e104 : (2 : ℝ) ^ (g + 104) = 2 ^ g * 2 ^ 104 := by rw [zpow_add₀ (by norm_num)]; norm_num
  obtain ⟨yf, ye⟩ := sub_rel64 ht.1 hw.1 (Rpl.big64 (hb.trans (by norm_num)))
  rw [mul_comm, hp] at ye
  have hab : t.val - w.val = ((a - b : ℤ) : ℝ) * 2 ^ g := by rw [ht.2, hw.2]; push_cast; ring
  have hex : |t.val - w.val| ≤ 2 ^ (g + 53) → Is (t - w) (a - b) g := by
    intro h
    refine ht.sub hw ?_ (by omega) (by omega)
    rw [hab, abs_mul, abs_of_pos hz, e53, mul_comm] at h
    have := le_of_mul_le_mul_left h hz
    exact_mod_cast this
  have hex2 : |t.val - w.val| ≤ 2 ^ (g + 53) → (t - w).val = t.val - w.val := by
    intro h
    rw [(hex h).2, hab]
  have hG : ∃ m, Is (t - w) m g := by
    by_cases h : |t.val - w.val| ≤ 2 ^ (g + 53)
    · exact ⟨_, hex h⟩
    · push Not at h
      have h3 : 2 ^ (g + 52) ≤ |(t - w).val| := by
        have h4 := abs_sub_abs_le_abs_sub (t.val - w.val) (t - w).val
        rw [abs_sub_comm (t.val - w.val)] at h4
        rw [e53] at h
        rw [e52]
        norm_num at ye h ⊢
        linarith
      obtain ⟨m, hm⟩ := grid64 (t - w) (g + 52) h3
      rw [show g + 52 - 52 = g by ring] at hm
      exact ⟨m, yf, hm⟩
  refine ⟨hG, ?_⟩
  obtain ⟨m, hm⟩ := hG
  have hI : Is (t - (t - w)) (a - m) g := by
    refine ht.sub hm ?_ (by omega) (by omega)
    have e : |((a - m : ℤ) : ℝ)| * 2 ^ g ≤ 2 ^ 53 * 2 ^ g := by
      rw [← abs_of_pos hz, ← abs_mul, abs_of_pos hz]
      have e : ((a - m : ℤ) : ℝ) * 2 ^ g = w.val - ((t - w).val - (t.val - w.val)) := by
        push_cast
        rw [sub_mul, ← ht.2, ← hm.2]
        ring
      rw [e]
      refine (abs_sub _ _).trans ((add_le_add hwb ye).trans ?_)
      rw [e52]
      rw [e104] at hhi
      norm_num at hhi ⊢
      linarith
    have := le_of_mul_le_mul_right e hz
    exact_mod_cast this
  have hJ : Is (t - (t - w) - w) (a - m - b) g := by
    refine hI.sub hw ?_ (by omega) (by omega)
    have e : |((a - m - b : ℤ) : ℝ)| * 2 ^ g ≤ 2 ^ 53 * 2 ^ g := by
      rw [← abs_of_pos hz, ← abs_mul, abs_of_pos hz]
      have e : ((a - m - b : ℤ) : ℝ) * 2 ^ g = -((t - w).val - (t.val - w.val)) := by
        push_cast
        rw [sub_mul, sub_mul, ← ht.2, ← hm.2, ← hw.2]
        ring
      rw [e, abs_neg]
      refine ye.trans ?_
      rw [e104] at hhi
      norm_num at hhi ⊢
      linarith
    have := le_of_mul_le_mul_right e hz
    exact_mod_cast this
  have hv : (t - (t - w) - w).val = t.val - w.val - (t - w).val := by
    rw [hJ.2]
    push_cast
    rw [sub_mul, sub_mul, ← ht.2, ← hm.2, ← hw.2]
    ring
  refine ⟨hJ.1, hv, ?_, hex2⟩
  rw [hv, abs_sub_comm]
  exact ye

/-- the last step towards `NearD` -/
theorem near_of {y0 y1 : Flt f64} {R r0 : ℝ} (f0 : y0.isFinite) (f1 : y1.isFinite) (h0 : |y0.val - R| ≤ 1 / 2 ^ 53 * |R|)
    (h1 : |y0.val + y1.val - R| ≤ 1 / 2 ^ 106 * |R|) (hR : |R - r0| ≤ 1 / 2 ^ 63 * |r0|) (hi : |r0| ≤ 0.7855) (lo : 1 / 2 ^ 100 ≤ |r0|) :
    NearD y0 y1 r0 := by
  have a1 := abs_sub_abs_le_abs_sub R r0
  have a2 := abs_sub_abs_le_abs_sub R y0.val
  rw [abs_sub_comm R] at a2
  refine ⟨f0, f1, ?_, ?_, hi, lo⟩
  · have e : y1.val = (y0.val + y1.val - R) - (y0.val - R) := by ring
    rw [e]
    refine (abs_sub _ _).trans ((add_le_add h1 h0).trans ?_)
    have := abs_nonneg y0.val
    norm_num at h0 ⊢
    linarith
  · have e : y0.val + y1.val - r0 = (y0.val + y1.val - R) + (R - r0) := by ring
    rw [e]
    refine (abs_add_le _ _).trans ((add_le_add h1 hR).trans ?_)
    have := abs_nonneg r0
    norm_num at hR ⊢
    linarith

theorem eps1 : |Real.pi / 2 - (1686629713 : ℝ) * 2 ^ (-30 : ℤ) - (4701928774853425 : ℝ) * 2 ^ (-86 : ℤ)| ≤ 1 / 2 ^ 87 := by
  obtain ⟨p1, p2⟩ := pi_div_two_bits
  rw [abs_le]
  norm_num at *
  constructor <;> linarith

theorem eps2 : |Real.pi / 2 - (1686629713 : ℝ) * 2 ^ (-30 : ℤ) - (2242054355 : ℝ) * 2 ^ (-65 : ℤ) - (5376105825661043 : ℝ) * 2 ^ (-121 : ℤ)| ≤ 1 / 2 ^ 122 := by
  obtain ⟨p1, p2⟩ := pi_div_two_bits
  rw [abs_le]
  norm_num at *
  constructor <;> linarith

theorem eps3 : |Real.pi / 2 - (1686629713 : ℝ) * 2 ^ (-30 : ℤ) - (2242054355 : ℝ) * 2 ^ (-65 : ℤ) - (160220439 : ℝ) * 2 ^ (-96 : ℤ) -
    (7744522442262977 : ℝ) * 2 ^ (-156 : ℤ)| ≤ 1 / 2 ^ 157 := by
  obtain ⟨p1, p2⟩ := pi_div_two_bits
  rw [abs_le]
  norm_num at *
  constructor <;> linarith

/-- no double from `1/2` to `2^21` is close to a multiple of `π/2` -/
theorem away_val64 {x : Flt f64} (h1 : 1022 * 2 ^ 52 ≤ x.mb) (h2 : x.mb < 1044 * 2 ^ 52) (k : ℤ) :
    1.57 / 2 ^ 62 ≤ |x.val - k * (Real.pi / 2)| := by
  have hv := val_normal64 x (by omega)
  have hE : 1022 ≤ x.mb / 2 ^ 52 := by omega
  have hE2 : x.mb / 2 ^ 52 ≤ 1043 := by omega
  generalize hM : 2 ^ 52 + x.mb % 2 ^ 52 = M at *
  have hM1 : M < 2 ^ 53 := by omega
  have hM0 : 0 < M := by omega
  have hi : ((x.mb / 2 ^ 52 - 1021 : ℕ) : ℤ) - 54 = (x.mb / 2 ^ 52 : ℕ) - 1075 := by omega
  have hw : ∀ m : ℤ, 1.57 / 2 ^ 62 ≤ abs (|x.val| - m * (Real.pi / 2)) := by
    intro m
    have h := CF.away53m (x.mb / 2 ^ 52 - 1021) (by omega) M m hM0 hM1
    rw [hi, ← hv] at h
    have e : |x.val| - m * (Real.pi / 2) = (|x.val| * (2 / Real.pi) - m) * (Real.pi / 2) := by
      have := Real.pi_pos.ne'
      field_simp
    rw [e, abs_mul, abs_of_pos (a := Real.pi / 2) (by have := Real.pi_pos; positivity)]
    refine le_trans (le_of_eq ?_) (mul_le_mul h (show (1.57 : ℝ) ≤ Real.pi / 2 by have := pi_lo; norm_num at this ⊢; linarith) (by norm_num) (abs_nonneg _))
    norm_num
  rcases abs_choice x.val with h | h
  · have := hw k
    rwa [h] at this
  · have := hw (-k)
    rw [h] at this
    have e : -x.val - ((-k : ℤ) : ℝ) * (Real.pi / 2) = -(x.val - k * (Real.pi / 2)) := by push_cast; ring
    rwa [e, abs_neg] at this

theorem ey_eq (y : Flt f64) : RemPio2.ey y = ((y.mb / 2 ^ 52 : ℕ) : ℤ) := by
  unfold RemPio2.ey
  congr 1
  have h1 := mb64_lt y
  rw [show (0x7ff : BitVec 64) = 2047#64 from rfl, BV.and_low (k := 11) (by decide), BitVec.toNat_ushiftRight, Nat.shiftRight_eq_div_pow]
  have := u64_toNat y
  rw [this]
  split <;> omega

end Verif
