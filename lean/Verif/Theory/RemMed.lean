import Verif.Theory.RemD

/-!
# The medium path of the argument reduction
-/

namespace Verif
open Flt

theorem mul_tail {fn c : Flt f64} {k : ℤ} {v : ℝ} (hk : Is fn k 0) (hk0 : k ≠ 0) (hk1 : |(k : ℝ)| ≤ 2 ^ 22) (hc : c.isFinite) (hv : c.val = v)
    (h1 : (1 : ℝ) / 2 ^ 200 ≤ v) (h2 : v ≤ 1) : (fn * c).isFinite ∧ |(fn * c).val - k * v| ≤ 1 / 2 ^ 53 * (|(k : ℝ)| * v) := by
  have h1k : (1 : ℝ) ≤ |(k : ℝ)| := by exact_mod_cast Int.one_le_abs hk0
  have hpv : fn.val * c.val = k * v := by rw [hk.2, hv]; norm_num
  have hpa : |(k : ℝ) * v| = |(k : ℝ)| * v := by rw [abs_mul, abs_of_pos (a := v) (lt_of_lt_of_le (by positivity) h1)]
  have h3 := mul_rel64 hk.1 hc (by
    rw [hpv, hpa]
    have h7 : (2 : ℝ) ^ (-1022 : ℤ) ≤ 2 ^ (-200 : ℤ) := zpow_le_zpow_right₀ (by norm_num) (by norm_num)
    have h8 : (2 : ℝ) ^ (-200 : ℤ) = 1 / 2 ^ 200 := by rw [zpow_neg, one_div]; norm_cast
    rw [h8] at h7
    generalize (2 : ℝ) ^ (-1022 : ℤ) = T at *
    have h9 : 0 < v := lt_of_lt_of_le (by positivity) h1
    have := le_mul_of_one_le_left h9.le h1k
    generalize (1 : ℝ) / 2 ^ 200 = V at *
    linarith) (by
    rw [hpv]
    refine Rpl.big64 ?_
    rw [hpa]
    have h9 : (0 : ℝ) < v := lt_of_lt_of_le (by positivity) h1
    norm_num at hk1 ⊢
    nlinarith)
  rw [hpv, hpa] at h3
  refine ⟨h3.1, h3.2.trans (le_of_eq ?_)⟩
  rw [mul_comm]
  norm_num

theorem ge_of_exp {y : Flt f64} {E : ℕ} (hE : 1 ≤ E) (h : E ≤ y.mb / 2 ^ 52) : (2 : ℝ) ^ ((E : ℤ) - 1023) ≤ |y.val| := by
  have := val_ge_of_mb (x := y) (E := E) hE (by rw [f64_sb]; omega)
  rwa [f64_bias] at this

theorem lt_of_exp {y : Flt f64} {E : ℕ} (hE : 1 ≤ E) (h : y.mb / 2 ^ 52 < E) : |y.val| < (2 : ℝ) ^ ((E : ℤ) - 1023) := by
  have := val_lt_of_mb (x := y) (E := E) hE (by rw [f64_sb]; omega)
  rwa [f64_bias] at this

set_option maxHeartbeats 2000000 in
theorem medium_quad (x : Flt f64) (h1 : 1023 * 2 ^ 52 ≤ x.mb) (h2 : x.mb < 0x413921fb * 2 ^ 32) :
    ∃ n y0 y1, RemPio2.medium x (getHighWord x &&& 0x7fffffff#32) = (n, y0, y1) ∧ Quad64 x.val n y0 y1 := by
  have hx : x.isFinite := by rw [isFinite64]; omega
  have hex : (((getHighWord x &&& 0x7fffffff#32) >>> 20).toNat : ℤ) = ((x.mb / 2 ^ 52 : ℕ) : ℤ) := by
    rw [BitVec.toNat_ushiftRight, hi_abs, Nat.shiftRight_eq_div_pow, Nat.div_div_eq_div_mul]
    norm_num
  obtain ⟨e, he⟩ : ∃ e : ℕ, x.mb / 2 ^ 52 = e + 1023 := ⟨x.mb / 2 ^ 52 - 1023, by omega⟩
  have he20 : e ≤ 20 := by omega
  obtain ⟨s, hs⟩ : ∃ s : ℝ, s = 2 ^ e := ⟨_, rfl⟩
  have hs1 : 1 ≤ s := by rw [hs]; exact one_le_pow₀ (by norm_num)
  have hs2 : s ≤ 2 ^ 20 := by rw [hs]; exact pow_le_pow_right₀ (by norm_num) he20
  have hze : ∀ c : ℤ, (2 : ℝ) ^ ((e : ℤ) + c) = s * 2 ^ c := by
    intro c
    rw [zpow_add₀ (by norm_num), zpow_natCast, hs]
  have hlo : s ≤ |x.val| := by
    have := ge_of_exp (y := x) (E := e + 1023) (by omega) (by omega)
    push_cast at this
    rw [show ((e : ℤ) + 1023 - 1023) = e by ring, zpow_natCast, ← hs] at this
    exact this
  have hhi : |x.val| < 2 * s := by
    have := lt_of_exp (y := x) (E := e + 1024) (by omega) (by omega)
    push_cast at this
    rw [show ((e : ℤ) + 1024 - 1023) = e + 1 by ring, hze] at this
    norm_num at this
    linarith
  obtain ⟨k, hk, hkd, hkb⟩ := fn_spec (x := x) (inv := RemPio2.invPio2) (toint := RemPio2.toint) hx
    (by norm_num at *; linarith) (by decide +kernel) (by decide +kernel) RemPio2.invPio2_val RemPio2.toint_val
  have hkx : |(k : ℝ)| ≤ 1.8 * s := by
    have e : (k : ℝ) = x.val * (2 / Real.pi) - (x.val * (2 / Real.pi) - k) := by ring
    have h3 : |x.val * (2 / Real.pi)| ≤ |x.val| * 0.63662 := by
      rw [abs_mul, abs_of_pos (a := 2 / Real.pi) (by have := Real.pi_pos; positivity)]
      exact mul_le_mul_of_nonneg_left two_div_pi_hi.le (abs_nonneg _)
    have h4 := abs_sub (x.val * (2 / Real.pi)) (x.val * (2 / Real.pi) - k)
    rw [← e] at h4
    norm_num at *
    linarith
  have hk0 : k ≠ 0 := by
    rintro rfl
    rw [Int.cast_zero, sub_zero, abs_mul, abs_of_pos (a := 2 / Real.pi) (by have := Real.pi_pos; positivity)] at hkd
    have h3 := mul_le_mul_of_nonneg_left two_div_pi_lo.le (abs_nonneg x.val)
    norm_num at hkd h3
    linarith
  have hr0 : |x.val - k * (Real.pi / 2)| ≤ 0.7855 := by
    have e : x.val - k * (Real.pi / 2) = (x.val * (2 / Real.pi) - k) * (Real.pi / 2) := by
      have := Real.pi_pos.ne'
      field_simp
    rw [e, abs_mul, abs_of_pos (a := Real.pi / 2) (by have := Real.pi_pos; positivity)]
    have := pi_hi
    have h5 := mul_le_mul hkd (show Real.pi / 2 ≤ 1.57079634 by norm_num at *; linarith) (by have := Real.pi_pos; positivity) (by norm_num)
    norm_num at h5 ⊢
    linarith
  have haway := away_val64 (by omega) (by omega) (x := x) k
  have htoS : (x * RemPio2.invPio2 + RemPio2.toint - RemPio2.toint).toSInt 32 = k := by
    have hkS : |k| ≤ 2 ^ 30 := hkb
    rw [toSInt_int (n := k) hk.1 (by rw [hk.2]; norm_num) (by rw [abs_le] at hkS; norm_num at hkS ⊢; omega)]
  unfold RemPio2.medium
  dsimp only
  rw [htoS, hex, he]
  generalize x * RemPio2.invPio2 + RemPio2.toint - RemPio2.toint = fn at *
  have hkI : |k| ≤ 2 ^ 21 := by
    have : |(k : ℝ)| ≤ 2 ^ 21 := by norm_num at *; linarith
    exact_mod_cast this
  have hkR : |(k : ℝ)| ≤ 2 ^ 22 := by norm_num at *; linarith
  -- `r`
  have hp1 : Is RemPio2.pio2_1 1686629713 (-30) := ⟨by decide +kernel, by rw [RemPio2.pio2_1_val]; norm_num⟩
  have hm1 := hk.mul hp1 (by rw [abs_mul]; norm_num at *; omega) (by norm_num) (by norm_num)
  obtain ⟨mx, hmx⟩ := grid64 x e (by rw [zpow_natCast, ← hs]; exact hlo)
  have hm2 := hm1.unshift (22 - e)
  have ee : (0 + -30 : ℤ) - ((22 - e : ℕ) : ℤ) = (e : ℤ) - 52 := by omega
  rw [ee] at hm2
  have hrI0 : Is x mx ((e : ℤ) - 52) := ⟨hx, hmx⟩
  have hkt1 : |(k : ℝ) * ((4701928774853425 : ℝ) * 2 ^ (-86 : ℤ))| ≤ s / 2 ^ 33 := by
    rw [abs_mul, abs_of_pos (a := (4701928774853425 : ℝ) * 2 ^ (-86 : ℤ)) (by positivity)]
    norm_num at hkx ⊢
    linarith
  have hke1 : |(k : ℝ) * (Real.pi / 2 - (1686629713 : ℝ) * 2 ^ (-30 : ℤ) - (4701928774853425 : ℝ) * 2 ^ (-86 : ℤ))| ≤ s / 2 ^ 86 := by
    rw [abs_mul]
    refine (mul_le_mul hkx eps1 (abs_nonneg _) (by linarith)).trans ?_
    norm_num
    linarith
  have hke2 : |(k : ℝ) * (Real.pi / 2 - (1686629713 : ℝ) * 2 ^ (-30 : ℤ) - (2242054355 : ℝ) * 2 ^ (-65 : ℤ) - (5376105825661043 : ℝ) * 2 ^ (-121 : ℤ))| ≤ s / 2 ^ 121 := by
    rw [abs_mul]
    refine (mul_le_mul hkx eps2 (abs_nonneg _) (by linarith)).trans ?_
    norm_num
    linarith
  have hke3 : |(k : ℝ) * (Real.pi / 2 - (1686629713 : ℝ) * 2 ^ (-30 : ℤ) - (2242054355 : ℝ) * 2 ^ (-65 : ℤ) - (160220439 : ℝ) * 2 ^ (-96 : ℤ) -
    (7744522442262977 : ℝ) * 2 ^ (-156 : ℤ))| ≤ s / 2 ^ 156 := by
    rw [abs_mul]
    refine (mul_le_mul hkx eps3 (abs_nonneg _) (by linarith)).trans ?_
    norm_num
    linarith
  have hrv0 : x.val - (fn * RemPio2.pio2_1).val = x.val - k * ((1686629713 : ℝ) * 2 ^ (-30 : ℤ)) := by
    rw [hm1.2]; push_cast; norm_num; ring
  have hrb : |x.val - k * ((1686629713 : ℝ) * 2 ^ (-30 : ℤ))| ≤ 0.79 := by
    have e : x.val - k * ((1686629713 : ℝ) * 2 ^ (-30 : ℤ)) = (x.val - k * (Real.pi / 2)) + (k * (Real.pi / 2 - (1686629713 : ℝ) * 2 ^ (-30 : ℤ) - (4701928774853425 : ℝ) * 2 ^ (-86 : ℤ))
      + k * ((4701928774853425 : ℝ) * 2 ^ (-86 : ℤ))) := by ring
    rw [e]
    have h6 := abs_add_le (k * (Real.pi / 2 - (1686629713 : ℝ) * 2 ^ (-30 : ℤ) - (4701928774853425 : ℝ) * 2 ^ (-86 : ℤ))) (k * ((4701928774853425 : ℝ) * 2 ^ (-86 : ℤ)))
    refine (abs_add_le _ _).trans ?_
    norm_num at hr0 h6 hke1 hkt1 hs2 ⊢
    linarith
  have hrI : Is (x - fn * RemPio2.pio2_1) (mx - k * 1686629713 * 2 ^ (22 - e)) ((e : ℤ) - 52) := by
    refine hrI0.sub hm2 ?_ (by omega) (by omega)
    have e1 : |((mx - k * 1686629713 * 2 ^ (22 - e) : ℤ) : ℝ)| * 2 ^ ((e : ℤ) - 52) ≤ 2 ^ 53 * 2 ^ ((e : ℤ) - 52) := by
      rw [← abs_of_pos (zp ((e : ℤ) - 52)), ← abs_mul, abs_of_pos (zp ((e : ℤ) - 52))]
      have e2 : ((mx - k * 1686629713 * 2 ^ (22 - e) : ℤ) : ℝ) * 2 ^ ((e : ℤ) - 52) = x.val - (fn * RemPio2.pio2_1).val := by
        rw [hmx, hm2.2]; push_cast; ring
      rw [e2, hrv0, sub_eq_add_neg (e : ℤ) 52, hze]
      refine hrb.trans ?_
      norm_num
      linarith
    have := le_of_mul_le_mul_right e1 (zp _)
    exact_mod_cast this
  have hrv : (x - fn * RemPio2.pio2_1).val = x.val - k * ((1686629713 : ℝ) * 2 ^ (-30 : ℤ)) := by
    rw [hrI.2, ← hrv0, hmx, hm2.2]; push_cast; ring
  generalize x - fn * RemPio2.pio2_1 = r at *
  obtain ⟨w1f, w1e⟩ := mul_tail hk hk0 hkR (c := RemPio2.pio2_1t) (by decide +kernel) RemPio2.pio2_1t_val (by norm_num) (by norm_num)
  generalize fn * RemPio2.pio2_1t = w1 at *
  obtain ⟨r0, hr0d⟩ : ∃ r0, r0 = x.val - k * (Real.pi / 2) := ⟨_, rfl⟩
  rw [← hr0d] at hr0 haway
  have hkt1' : |(k : ℝ)| * ((4701928774853425 : ℝ) * 2 ^ (-86 : ℤ)) ≤ s / 2 ^ 33 := by
    rw [abs_mul, abs_of_pos (a := (4701928774853425 : ℝ) * 2 ^ (-86 : ℤ)) (by positivity)] at hkt1
    exact hkt1
  have hw1b : |w1.val| ≤ s / 2 ^ 32 := by
    have h5 := abs_sub_abs_le_abs_sub w1.val (k * ((4701928774853425 : ℝ) * 2 ^ (-86 : ℤ)))
    norm_num at h5 w1e hkt1 hkt1' ⊢
    linarith
  have hE1 : |(r.val - w1.val) - r0| ≤ s / 2 ^ 84 := by
    have e : (r.val - w1.val) - r0 = k * (Real.pi / 2 - (1686629713 : ℝ) * 2 ^ (-30 : ℤ) - (4701928774853425 : ℝ) * 2 ^ (-86 : ℤ)) -
        (w1.val - k * ((4701928774853425 : ℝ) * 2 ^ (-86 : ℤ))) := by rw [hrv, hr0d]; ring
    rw [e]
    refine (abs_sub _ _).trans ((add_le_add hke1 w1e).trans ?_)
    norm_num at hkt1' ⊢
    linarith
  have hR1 : |r.val - w1.val| ≤ 0.8 := by
    have := abs_sub_abs_le_abs_sub (r.val - w1.val) r0
    norm_num at hE1 hr0 hs2 ⊢
    linarith
  obtain ⟨yf1, ye1⟩ := sub_rel64 hrI.1 w1f (Rpl.big64 (hR1.trans (by norm_num)))
  rw [mul_comm, show (2 : ℝ) ^ (-53 : ℤ) = 1 / 2 ^ 53 by norm_num] at ye1
  rw [ey_eq]
  by_cases hc1 : ((e + 1023 : ℕ) : ℤ) - (((r - w1).mb / 2 ^ 52 : ℕ) : ℤ) > 16
  swap
  · -- the first stage is accurate
    rw [if_neg hc1]
    have hy : s / 2 ^ 16 ≤ |(r - w1).val| := by
      have := ge_of_exp (y := r - w1) (E := e + 1007) (by omega) (by omega)
      push_cast at this
      rw [show ((e : ℤ) + 1007 - 1023) = e + (-16) by ring, hze] at this
      refine le_trans (le_of_eq ?_) this
      norm_num
      ring
    obtain ⟨f0, g0, f1, g1⟩ := fin_stage (h := (e : ℤ) - 68) (n := (mx - k * 1686629713 * 2 ^ (22 - e)) * 2 ^ 16) (by
      have := hrI.unshift 16
      rwa [show ((e : ℤ) - 52) - ((16 : ℕ) : ℤ) = (e : ℤ) - 68 by push_cast; ring] at this) w1f (by
      rw [show ((e : ℤ) - 68 + 52) = e + (-16) by ring, hze]
      norm_num at hw1b ⊢
      linarith) (hR1.trans (by norm_num)) (by
      rw [show ((e : ℤ) - 68 + 52) = e + (-16) by ring, hze]
      norm_num at hy ⊢
      linarith) (by
      rw [show ((e : ℤ) - 68 + 104) = e + 36 by ring, hze]
      norm_num at hR1 ⊢
      linarith) (by omega) (by omega)
    refine ⟨k, _, _, rfl, k, rfl, ?_⟩
    rw [← hr0d]
    refine near_of f0 f1 g0 g1 ?_ hr0 (le_trans (by norm_num) haway)
    refine hE1.trans ?_
    have h5 := abs_sub_abs_le_abs_sub (r.val - w1.val) r0
    have h6 := abs_sub_abs_le_abs_sub (r - w1).val (r.val - w1.val)
    norm_num at hy h5 h6 g0 hE1 ⊢
    linarith
  rw [if_pos hc1]
  have hy1 : |(r - w1).val| ≤ s / 2 ^ 16 := by
    have := lt_of_exp (y := r - w1) (E := e + 1007) (by omega) (by omega)
    push_cast at this
    rw [show ((e : ℤ) + 1007 - 1023) = e + (-16) by ring, hze] at this
    refine this.le.trans (le_of_eq ?_)
    norm_num
    ring
  have hrs : |r.val| ≤ s / 2 ^ 15 := by
    have h5 := abs_sub_abs_le_abs_sub (r.val - w1.val) (r - w1).val
    rw [abs_sub_comm (r.val - w1.val)] at h5
    have h6 := abs_sub_abs_le_abs_sub r.val w1.val
    norm_num at hy1 h5 h6 ye1 hw1b ⊢
    linarith
  clear hc1 hy1 ye1 yf1 hE1 hR1 w1e
  -- second stage
  have hp2 : Is RemPio2.pio2_2 2242054355 (-65) := ⟨by decide +kernel, by rw [RemPio2.pio2_2_val]; norm_num⟩
  have hw2 := hk.mul hp2 (by rw [abs_mul]; norm_num at *; omega) (by norm_num) (by norm_num)
  have hw2v : (fn * RemPio2.pio2_2).val = k * ((2242054355 : ℝ) * 2 ^ (-65 : ℤ)) := by
    rw [hw2.2]; push_cast; norm_num; ring
  generalize fn * RemPio2.pio2_2 = w2 at *
  have hw2s : |w2.val| ≤ s / 2 ^ 33 := by
    rw [hw2v, abs_mul, abs_of_pos (a := (2242054355 : ℝ) * 2 ^ (-65 : ℤ)) (by positivity)]
    norm_num at hkx ⊢
    linarith
  have hrI65 := hrI.unshift (e + 13)
  rw [show ((e : ℤ) - 52) - ((e + 13 : ℕ) : ℤ) = 0 + -65 by push_cast; ring] at hrI65
  have hd2 : |r.val - w2.val| ≤ s / 2 ^ 14 := by
    refine (abs_sub _ _).trans ?_
    norm_num at hrs hw2s ⊢
    linarith
  obtain ⟨⟨m2, hm2I⟩, δf, δv, δb, δe⟩ := split_stage hrI65 hw2 (by
    norm_num at hw2s hs2 ⊢
    linarith) (by
    refine (abs_sub _ _).trans ?_
    rw [← hrv] at hrb
    norm_num at hw2s hs2 hrb ⊢
    linarith) (by norm_num) (by norm_num) (by norm_num)
  obtain ⟨tf2, te2⟩ := mul_tail hk hk0 hkR (c := RemPio2.pio2_2t) (by decide +kernel) RemPio2.pio2_2t_val (by norm_num) (by norm_num)
  generalize hdl : r - (r - w2) - w2 = δ at *
  have hdl2 : r - (r - w2) - w2 = δ := hdl
  generalize fn * RemPio2.pio2_2t = u2 at *
  have hkt2' : |(k : ℝ)| * ((5376105825661043 : ℝ) * 2 ^ (-121 : ℤ)) ≤ s / 2 ^ 67 := by
    norm_num at hkx ⊢
    linarith
  have hkt2 : |(k : ℝ) * ((5376105825661043 : ℝ) * 2 ^ (-121 : ℤ))| ≤ s / 2 ^ 67 := by
    rw [abs_mul, abs_of_pos (a := (5376105825661043 : ℝ) * 2 ^ (-121 : ℤ)) (by positivity)]
    exact hkt2'
  have hu2b : |u2.val - δ.val| ≤ s / 2 ^ 65 := by
    have h5 := abs_sub_abs_le_abs_sub u2.val (k * ((5376105825661043 : ℝ) * 2 ^ (-121 : ℤ)))
    refine (abs_sub _ _).trans ?_
    norm_num at h5 te2 hkt2 hkt2' δb hd2 ⊢
    linarith
  obtain ⟨wf2, we2⟩ := sub_rel64 tf2 δf (Rpl.big64 (hu2b.trans (by norm_num at hs2 ⊢; linarith)))
  rw [mul_comm, show (2 : ℝ) ^ (-53 : ℤ) = 1 / 2 ^ 53 by norm_num] at we2
  generalize u2 - δ = v2 at *
  have hv2b : |v2.val| ≤ s / 2 ^ 64 := by
    have h5 := abs_sub_abs_le_abs_sub v2.val (u2.val - δ.val)
    norm_num at h5 we2 hu2b ⊢
    linarith
  have hE2 : |((r - w2).val - v2.val) - r0| ≤ s / 2 ^ 117 := by
    have e : ((r - w2).val - v2.val) - r0 = k * (Real.pi / 2 - (1686629713 : ℝ) * 2 ^ (-30 : ℤ) - (2242054355 : ℝ) * 2 ^ (-65 : ℤ) - (5376105825661043 : ℝ) * 2 ^ (-121 : ℤ)) -
        ((v2.val - (u2.val - δ.val)) + (u2.val - k * ((5376105825661043 : ℝ) * 2 ^ (-121 : ℤ)))) := by
      have : (r - w2).val = r.val - w2.val - δ.val := by rw [δv]; ring
      rw [this, hrv, hr0d, hw2v]; ring
    rw [e]
    have h5 := abs_add_le (v2.val - (u2.val - δ.val)) (u2.val - k * ((5376105825661043 : ℝ) * 2 ^ (-121 : ℤ)))
    refine (abs_sub _ _).trans ?_
    norm_num at h5 hke2 we2 te2 hkt2' hu2b ⊢
    linarith
  have hR2 : |(r - w2).val - v2.val| ≤ 0.8 := by
    have := abs_sub_abs_le_abs_sub ((r - w2).val - v2.val) r0
    norm_num at hE2 hr0 hs2 ⊢
    linarith
  obtain ⟨yf2, ye2⟩ := sub_rel64 hm2I.1 wf2 (Rpl.big64 (hR2.trans (by norm_num)))
  rw [mul_comm, show (2 : ℝ) ^ (-53 : ℤ) = 1 / 2 ^ 53 by norm_num] at ye2
  rw [ey_eq]
  by_cases hc2 : ((e + 1023 : ℕ) : ℤ) - (((r - w2 - v2).mb / 2 ^ 52 : ℕ) : ℤ) > 49
  swap
  · rw [if_neg hc2]
    generalize hr2 : r - w2 = r2 at *
    have hy : s / 2 ^ 49 ≤ |(r2 - v2).val| := by
      have := ge_of_exp (y := r2 - v2) (E := e + 974) (by omega) (by omega)
      push_cast at this
      rw [show ((e : ℤ) + 974 - 1023) = e + (-49) by ring, hze] at this
      refine le_trans (le_of_eq ?_) this
      norm_num
      ring
    obtain ⟨f0, g0, f1, g1⟩ := fin_stage (h := (e : ℤ) - 101) (n := m2 * 2 ^ (36 - e)) (by
      have := hm2I.unshift (36 - e)
      rwa [show (0 + -65 : ℤ) - ((36 - e : ℕ) : ℤ) = (e : ℤ) - 101 by omega] at this) wf2 (by
      rw [show ((e : ℤ) - 101 + 52) = e + (-49) by ring, hze]
      norm_num at hv2b ⊢
      linarith) (hR2.trans (by norm_num)) (by
      rw [show ((e : ℤ) - 101 + 52) = e + (-49) by ring, hze]
      norm_num at hy ⊢
      linarith) (by
      rw [show ((e : ℤ) - 101 + 104) = e + 3 by ring, hze]
      norm_num at hR2 ⊢
      linarith) (by omega) (by omega)
    refine ⟨k, _, _, rfl, k, rfl, ?_⟩
    rw [← hr0d]
    refine near_of f0 f1 g0 g1 ?_ hr0 (le_trans (by norm_num) haway)
    refine hE2.trans ?_
    have h5 := abs_sub_abs_le_abs_sub (r2.val - v2.val) r0
    have h6 := abs_sub_abs_le_abs_sub (r2 - v2).val (r2.val - v2.val)
    norm_num at hy h5 h6 g0 hE2 ⊢
    linarith
  rw [if_pos hc2]
  have hy2 : |(r - w2 - v2).val| ≤ s / 2 ^ 49 := by
    have := lt_of_exp (y := r - w2 - v2) (E := e + 974) (by omega) (by omega)
    push_cast at this
    rw [show ((e : ℤ) + 974 - 1023) = e + (-49) by ring, hze] at this
    refine this.le.trans (le_of_eq ?_)
    norm_num
    ring
  have hrs2 : |(r - w2).val| ≤ s / 2 ^ 48 := by
    have h5 := abs_sub_abs_le_abs_sub ((r - w2).val - v2.val) (r - w2 - v2).val
    rw [abs_sub_comm ((r - w2).val - v2.val)] at h5
    have h6 := abs_sub_abs_le_abs_sub (r - w2).val v2.val
    norm_num at hy2 h5 h6 ye2 hv2b ⊢
    linarith
  -- nothing was lost in the second stage
  have hex2 : (r - w2).val = r.val - w2.val := by
    refine δe ?_
    have : |r.val - w2.val| ≤ |(r - w2).val| + |δ.val| := by
      have e : r.val - w2.val = (r - w2).val + δ.val := by rw [δv]; ring
      rw [e]
      exact abs_add_le _ _
    norm_num at this δb hrs2 hd2 hs2 ⊢
    linarith
  clear hc2 hy2 ye2 yf2 hE2 hR2 te2 we2 hv2b hu2b δb δe δv δf
  generalize hr2 : r - w2 = r2 at *
  -- third stage
  have hp3 : Is RemPio2.pio2_3 160220439 (-96) := ⟨by decide +kernel, by rw [RemPio2.pio2_3_val]; norm_num⟩
  have hw3 := hk.mul hp3 (by rw [abs_mul]; norm_num at *; omega) (by norm_num) (by norm_num)
  have hw3v : (fn * RemPio2.pio2_3).val = k * ((160220439 : ℝ) * 2 ^ (-96 : ℤ)) := by
    rw [hw3.2]; push_cast; norm_num; ring
  generalize fn * RemPio2.pio2_3 = w3 at *
  have hw3s : |w3.val| ≤ s / 2 ^ 67 := by
    rw [hw3v, abs_mul, abs_of_pos (a := (160220439 : ℝ) * 2 ^ (-96 : ℤ)) (by positivity)]
    norm_num at hkx ⊢
    linarith
  have hr2I := hm2I.unshift 31
  rw [show (0 + -65 : ℤ) - ((31 : ℕ) : ℤ) = 0 + -96 by norm_num] at hr2I
  have hd3 : |r2.val - w3.val| ≤ s / 2 ^ 47 := by
    refine (abs_sub _ _).trans ?_
    norm_num at hrs2 hw3s ⊢
    linarith
  obtain ⟨⟨m3, hm3I⟩, δf, δv, δb, -⟩ := split_stage hr2I hw3 (by
    norm_num at hw3s hs2 ⊢
    linarith) (hd3.trans (by
    norm_num at hs2 ⊢
    linarith)) (by norm_num) (by norm_num) (by norm_num)
  obtain ⟨tf3, te3⟩ := mul_tail hk hk0 hkR (c := RemPio2.pio2_3t) (by decide +kernel) RemPio2.pio2_3t_val (by norm_num) (by norm_num)
  generalize r2 - (r2 - w3) - w3 = δ3 at *
  generalize fn * RemPio2.pio2_3t = u3 at *
  have hkt3' : |(k : ℝ)| * ((7744522442262977 : ℝ) * 2 ^ (-156 : ℤ)) ≤ s / 2 ^ 102 := by
    norm_num at hkx ⊢
    linarith
  have hkt3 : |(k : ℝ) * ((7744522442262977 : ℝ) * 2 ^ (-156 : ℤ))| ≤ s / 2 ^ 102 := by
    rw [abs_mul, abs_of_pos (a := (7744522442262977 : ℝ) * 2 ^ (-156 : ℤ)) (by positivity)]
    exact hkt3'
  have hu3b : |u3.val - δ3.val| ≤ s / 2 ^ 98 := by
    have h5 := abs_sub_abs_le_abs_sub u3.val (k * ((7744522442262977 : ℝ) * 2 ^ (-156 : ℤ)))
    refine (abs_sub _ _).trans ?_
    norm_num at h5 te3 hkt3 hkt3' δb hd3 ⊢
    linarith
  obtain ⟨wf3, we3⟩ := sub_rel64 tf3 δf (Rpl.big64 (hu3b.trans (by norm_num at hs2 ⊢; linarith)))
  rw [mul_comm, show (2 : ℝ) ^ (-53 : ℤ) = 1 / 2 ^ 53 by norm_num] at we3
  generalize u3 - δ3 = v3 at *
  have hv3b : |v3.val| ≤ s / 2 ^ 97 := by
    have h5 := abs_sub_abs_le_abs_sub v3.val (u3.val - δ3.val)
    norm_num at h5 we3 hu3b ⊢
    linarith
  have hE3 : |((r2 - w3).val - v3.val) - r0| ≤ s / 2 ^ 150 := by
    have e : ((r2 - w3).val - v3.val) - r0 = k * (Real.pi / 2 - (1686629713 : ℝ) * 2 ^ (-30 : ℤ) - (2242054355 : ℝ) * 2 ^ (-65 : ℤ) - (160220439 : ℝ) * 2 ^ (-96 : ℤ) -
        (7744522442262977 : ℝ) * 2 ^ (-156 : ℤ)) - ((v3.val - (u3.val - δ3.val)) + (u3.val - k * ((7744522442262977 : ℝ) * 2 ^ (-156 : ℤ)))) := by
      have : (r2 - w3).val = r2.val - w3.val - δ3.val := by rw [δv]; ring
      rw [this, hex2, hrv, hr0d, hw2v, hw3v]; ring
    rw [e]
    have h5 := abs_add_le (v3.val - (u3.val - δ3.val)) (u3.val - k * ((7744522442262977 : ℝ) * 2 ^ (-156 : ℤ)))
    refine (abs_sub _ _).trans ?_
    norm_num at h5 hke3 we3 te3 hkt3' hu3b ⊢
    linarith
  have hR3 : |(r2 - w3).val - v3.val| ≤ 0.8 := by
    have := abs_sub_abs_le_abs_sub ((r2 - w3).val - v3.val) r0
    norm_num at hE3 hr0 hs2 ⊢
    linarith
  obtain ⟨yf3, ye3⟩ := sub_rel64 hm3I.1 wf3 (Rpl.big64 (hR3.trans (by norm_num)))
  rw [mul_comm, show (2 : ℝ) ^ (-53 : ℤ) = 1 / 2 ^ 53 by norm_num] at ye3
  have hrel3 : |((r2 - w3).val - v3.val) - r0| ≤ 1 / 2 ^ 63 * |r0| := by
    refine hE3.trans ?_
    norm_num at haway hs2 ⊢
    linarith
  generalize hr3 : r2 - w3 = r3 at *
  obtain ⟨f0, g0, f1, g1⟩ := fin_stage (h := -115) (n := m3 * 2 ^ 19) (by
    have := hm3I.unshift 19
    rwa [show (0 + -96 : ℤ) - ((19 : ℕ) : ℤ) = -115 by norm_num] at this) wf3 (by
    norm_num at hv3b hs2 ⊢
    linarith) (hR3.trans (by norm_num)) (by
    have h5 := abs_sub_abs_le_abs_sub r0 (r3.val - v3.val)
    rw [abs_sub_comm r0] at h5
    have h6 := abs_sub_abs_le_abs_sub (r3.val - v3.val) (r3 - v3).val
    rw [abs_sub_comm (r3.val - v3.val)] at h6
    norm_num at h5 h6 hrel3 ye3 haway ⊢
    linarith) (by
    have h5 : |r3.val| ≤ s / 2 ^ 46 := by
      have e : r3.val = r2.val - w3.val - δ3.val := by rw [δv]; ring
      rw [e]
      refine (abs_sub _ _).trans ?_
      norm_num at hd3 δb ⊢
      linarith
    refine (abs_sub _ _).trans ?_
    norm_num at h5 hv3b hs2 ⊢
    linarith) (by omega) (by omega)
  refine ⟨k, _, _, rfl, k, rfl, ?_⟩
  rw [← hr0d]
  exact near_of f0 f1 g0 g1 hrel3 hr0 (le_trans (by norm_num) haway)

end Verif
