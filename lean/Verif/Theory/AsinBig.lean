import Verif.Theory.AsinAcc

/-!
# `asin`, `asinf`: accuracy above `1/2`
-/

namespace Verif
open Flt InvTrig

namespace Asin

/-- near one -/
theorem big_near {z s : Flt f64} (zf : z.isFinite) (sf : s.isFinite) (h0 : 0 ≤ z.val) (h1 : z.val ≤ 1 / 4) (hl : 2 ^ (-28 : ℤ) ≤ √z.val) (hu : √z.val ≤ 0.113) (hs : |s.val - √z.val| ≤ 2 ^ (-1 - 54 : ℤ)) :
    WithinUlp 0.99 (pio2Hi - (2.0 * (s + s * compR z) - pio2Lo)) (Real.pi / 2 - 2 * Real.arcsin (√z.val)) := by
  have hR := kern_rt zf h0 h1
  have hσ0 := Real.sqrt_nonneg z.val
  set σ := √z.val
  have hs2 := abs_le.1 hs
  have hS : Ap s σ (1 / 2 ^ 55) (29 / 2 ^ 8) := ⟨sf, hs.trans (by norm_num), by
    rw [abs_le]; norm_num at hs2 hu ⊢; constructor <;> linarith [hs2.1, hs2.2]⟩
  have hm := Ap.mul hS hR (-7) (by norm_num) (by norm_num) (by norm_num) (g := (6373 / 2 ^ 70)) (D := (5627 / 2 ^ 20)) (by norm_num) (by norm_num)
  have hy := Ap.add hS hm (-3) (by norm_num) (by norm_num) (g := (5917 / 2 ^ 67)) (D := (243 / 2 ^ 11)) (by norm_num) (by norm_num)
  have hσ : |σ| ≤ 1 / 2 := by rw [abs_of_nonneg hσ0]; norm_num at hu ⊢; linarith
  have hrb := rho_bd hσ
  have ha := rho_approx hσ
  have hc := arcsin_le_c hσ
  rw [abs_of_nonneg hσ0] at ha hc
  have hlow : 2 ^ (-100 : ℤ) ≤ |(s + s * compR z).val| := by
    have e := abs_le.1 hy.err
    have hr2 := abs_le.1 hrb
    have : 0.9 * σ ≤ σ + σ * rho σ := by
      have := mul_le_mul_of_nonneg_left hr2.1 hσ0
      norm_num at this ⊢; linarith
    refine le_trans ?_ (le_abs_self _)
    norm_num at e this hl ⊢
    linarith [e.1]
  obtain ⟨df, dv⟩ := dbl hy.fin hlow (hy.bd.trans (by norm_num))
  have hd : Ap (2.0 * (s + s * compR z)) (2 * (σ + σ * rho σ)) (5917 / 2 ^ 66) (243 / 2 ^ 10) := by
    refine ⟨df, ?_, ?_⟩
    · rw [dv, ← mul_sub, abs_mul, abs_of_pos (by norm_num : (0 : ℝ) < 2)]
      have := hy.err; norm_num at this ⊢; linarith
    · rw [dv, abs_mul, abs_of_pos (by norm_num : (0 : ℝ) < 2)]
      have := hy.bd; norm_num at this ⊢; linarith
  have hw := Ap.sub hd lo_ap (-2) (by norm_num) (by norm_num) (g := (6941 / 2 ^ 66)) (D := (7777 / 2 ^ 15)) (by norm_num) (by norm_num)
  have hp := pi_split
  have p1 := Real.pi_gt_d20
  have p2 := Real.pi_lt_d20
  have hc2 := abs_le.1 hc
  have t1 : (1 : ℝ) ≤ Real.pi / 2 - 2 * Real.arcsin σ := by
    norm_num at hc2 p1 hu ⊢; linarith [hc2.2]
  have t2 : Real.pi / 2 - 2 * Real.arcsin σ < 4 := by
    norm_num at hc2 p2 hu ⊢; linarith [hc2.1]
  have ta : |Real.pi / 2 - 2 * Real.arcsin σ| = Real.pi / 2 - 2 * Real.arcsin σ := abs_of_pos (by linarith)
  refine WithinUlp.of_rne_abs2 0 (sub_rne hi_fin hw.fin) (by rw [ta]; norm_num; linarith) (small_lt_bias (by rw [f64_bias]; norm_num) (by rw [ta]; exact t2)) (by rw [f64_bias]; norm_num) (a := 0.96 * (1 / 2 ^ 53)) ?_ (δ := 0.48) (by rw [f64_sb]; norm_num) (by norm_num) (by norm_num) (by norm_num)
  have e : pio2Hi.val - (2.0 * (s + s * compR z) - pio2Lo).val - (Real.pi / 2 - 2 * Real.arcsin σ) = (pio2Hi.val + pio2Lo.val - Real.pi / 2) - ((2.0 * (s + s * compR z) - pio2Lo).val - (2 * (σ + σ * rho σ) - pio2Lo.val)) - 2 * (σ + σ * rho σ - Real.arcsin σ) := by ring
  rw [e]
  refine (abs_sub _ _).trans ((add_le_add (abs_sub _ _) le_rfl).trans ?_)
  rw [abs_mul, abs_of_pos (by norm_num : (0 : ℝ) < 2)]
  have := hw.err
  norm_num at this hp ha hσ hu ⊢
  linarith

theorem half_hi : (0.5 * pio2Hi : Flt f64).isFinite ∧ (0.5 * pio2Hi : Flt f64).val = 7074237752028440 * 2 ^ (-53 : ℤ) := by
  refine ⟨by decide +kernel, ?_⟩
  rw [val_const64 884279719003555 1024 (-50) (by decide +kernel) (by norm_num)]; norm_num

/-- the exact difference of the high parts -/
theorem hi_diff {f : Flt f64} (ff : f.isFinite) (h1 : 0.11 ≤ f.val) (h2 : f.val ≤ 0.51) (hg : ∃ n k : ℤ, |n| ≤ 2 ^ 21 ∧ f.val = n * 2 ^ k) :
    (0.5 * pio2Hi - 2.0 * f : Flt f64).isFinite ∧ (0.5 * pio2Hi - 2.0 * f : Flt f64).val = (0.5 * pio2Hi : Flt f64).val - 2 * f.val := by
  norm_num at h1 h2
  have fp : |f.val| = f.val := abs_of_pos (by linarith)
  obtain ⟨df, dv⟩ := dbl ff (by rw [fp]; norm_num; linarith) (by rw [fp]; linarith)
  obtain ⟨n, k, hn, hv⟩ := hg
  have hk : -25 ≤ k := by
    by_contra hk
    push Not at hk
    have h3 : (2 : ℝ) ^ k ≤ 2 ^ (-26 : ℤ) := zpow_le_zpow_right₀ (by norm_num) (by omega)
    have h4 : |(n : ℝ)| ≤ 2 ^ 21 := by exact_mod_cast hn
    have h5 : |f.val| ≤ 2 ^ 21 * 2 ^ (-26 : ℤ) := by
      rw [hv, abs_mul, abs_of_pos (zp k)]
      exact mul_le_mul h4 h3 (zp k).le (by norm_num)
    rw [fp] at h5; norm_num at h5; linarith
  obtain ⟨m, hm⟩ : ∃ m : ℤ, 2 * f.val = m * 2 ^ (-53 : ℤ) := by
    refine ⟨n * 2 ^ (k + 54).toNat, ?_⟩
    rw [hv]; push_cast
    rw [← zpow_natCast (2 : ℝ) (k + 54).toNat, Int.toNat_of_nonneg (by omega), mul_assoc, ← zpow_add₀ (by norm_num), show k + 54 + -53 = k + 1 by ring, zpow_add₀ (by norm_num)]
    norm_num; ring
  obtain ⟨hf, he⟩ := half_hi
  have hb : |((7074237752028440 - m : ℤ) : ℝ)| ≤ 2 ^ 53 := by
    have h3 : (m : ℝ) = 2 * f.val * 2 ^ 53 := by rw [hm]; norm_num; ring
    push_cast
    rw [h3, abs_le]; norm_num; constructor <;> linarith
  obtain ⟨c, cf, cv⟩ := exists_val64' (n := 7074237752028440 - m) (k := -53) (by exact_mod_cast hb) (by norm_num) (by norm_num)
  have := (sub_rne hf df).exact_real (z := c) cf (by rw [cv, dv, he, hm]; push_cast; ring)
  refine ⟨this.1, ?_⟩
  rw [this.2, dv]

/-- between one half and `0.975` -/
theorem big_far {z s f c : Flt f64} (zf : z.isFinite) (sf : s.isFinite) (ff : f.isFinite) (cf : c.isFinite) (h0 : 0 ≤ z.val) (h1 : z.val ≤ 1 / 4) (hl : 0.111 ≤ √z.val) (hu : √z.val ≤ 1 / 2) (hs1 : s.val ≤ 1 / 2)
    (hs : |s.val - √z.val| ≤ 2 ^ (-1 - 54 : ℤ)) (hc : |c.val - (√z.val - f.val)| ≤ √z.val * (3 / 2 ^ 19 / 2 ^ 53)) (hf : |√z.val - f.val| ≤ √z.val * (1 / 2 ^ 19)) (hg : ∃ n k : ℤ, |n| ≤ 2 ^ 21 ∧ f.val = n * 2 ^ k) :
    WithinUlp 1.15 (0.5 * pio2Hi - (2.0 * s * compR z - (pio2Lo - 2.0 * c) - (0.5 * pio2Hi - 2.0 * f))) (Real.pi / 2 - 2 * Real.arcsin (√z.val)) := by
  have hR := kern_rt zf h0 h1
  have hpos : 0 < √z.val := by norm_num at hl; linarith
  set σ := √z.val
  have hs2 := abs_le.1 hs
  have hf2 := abs_le.1 hf
  norm_num at hs2 hf2 hl
  have sp : |s.val| = s.val := abs_of_pos (by linarith [hs2.1])
  obtain ⟨df, dv⟩ := dbl sf (by rw [sp]; norm_num; linarith [hs2.1]) (by rw [sp]; linarith)
  have hd : Ap (2.0 * s) (2 * σ) (1 / 2 ^ 54) 1 := by
    refine ⟨df, ?_, ?_⟩
    · rw [dv, ← mul_sub, abs_mul, abs_of_pos (by norm_num : (0 : ℝ) < 2)]
      norm_num at hs ⊢; linarith
    · rw [dv, abs_mul, abs_of_pos (by norm_num : (0 : ℝ) < 2), sp]; linarith
  have hC : Ap c (σ - f.val) (3 / 2 ^ 73) (1 / 2 ^ 19) := by
    have a : |c.val - (σ - f.val)| ≤ 3 / 2 ^ 73 := by
      refine hc.trans ?_
      have := mul_le_mul_of_nonneg_right hu (by norm_num : (0 : ℝ) ≤ 3 / 2 ^ 19 / 2 ^ 53)
      refine this.trans (by norm_num)
    refine ⟨cf, a, ?_⟩
    rw [abs_le]; have := abs_le.1 a; norm_num at this ⊢
    constructor <;> linarith [this.1, this.2, hf2.1, hf2.2]
  have h2 : Ap (2.0 : Flt f64) 2 0 2 := .exact (by decide +kernel) two_val (by norm_num)
  have hT := Ap.mul hd hR (-4) (by norm_num) (by norm_num) (by norm_num) (g := (5655 / 2 ^ 67)) (D := (6209 / 2 ^ 17)) (by norm_num) (by norm_num)
  have hc2 := Ap.mul h2 hC (-18) (by norm_num) (by norm_num) (by norm_num) (g := (1 / 2 ^ 70)) (D := (4097 / 2 ^ 30)) (by norm_num) (by norm_num)
  have hl := Ap.sub lo_ap hc2 (-17) (by norm_num) (by norm_num) (g := (3 / 2 ^ 71)) (D := (2049 / 2 ^ 29)) (by norm_num) (by norm_num)
  have hW := Ap.sub hT hl (-4) (by norm_num) (by norm_num) (g := (771 / 2 ^ 64)) (D := (3105 / 2 ^ 16)) (by norm_num) (by norm_num)
  obtain ⟨Hf, Hv⟩ := hi_diff ff (by norm_num; linarith [hf2.2]) (by norm_num; linarith [hf2.1]) hg
  obtain ⟨pf, pv⟩ := half_hi
  have pv2 : 2 * (0.5 * pio2Hi : Flt f64).val = pio2Hi.val := by rw [pv, pio2Hi_val]; norm_num
  set P := (0.5 * pio2Hi : Flt f64)
  set H := P - 2.0 * f
  have hp := pi_split
  have p1 := Real.pi_gt_d20
  have p2 := Real.pi_lt_d20
  have hσ : |σ| ≤ 1 / 2 := by rw [abs_of_pos hpos]; exact hu
  have ha := rho_approx hσ
  rw [abs_of_pos hpos] at ha
  have hWe := hW.err
  set W := 2.0 * s * compR z - (pio2Lo - 2.0 * c)
  have hAge := arcsin_ge hpos.le (by linarith : σ ≤ 1)
  have hAle : Real.arcsin σ ≤ Real.pi / 6 := by
    rw [Real.arcsin_le_iff_le_sin ⟨by linarith, by linarith⟩ ⟨by linarith, by linarith⟩, Real.sin_pi_div_six]; exact hu
  have key : |(W.val - H.val) - (P.val - (Real.pi / 2 - 2 * Real.arcsin σ))| ≤ 0.4 * (1 / 2 ^ 53) := by
    have e : (W.val - H.val) - (P.val - (Real.pi / 2 - 2 * Real.arcsin σ)) = (W.val - (2 * σ * rho σ - (pio2Lo.val - 2 * (σ - f.val)))) - (pio2Hi.val + pio2Lo.val - Real.pi / 2) + 2 * (σ + σ * rho σ - Real.arcsin σ) := by
      rw [Hv, ← pv2]; ring
    rw [e]
    refine (abs_add_le _ _).trans ((add_le_add (abs_sub _ _) le_rfl).trans ?_)
    rw [abs_mul, abs_of_pos (by norm_num : (0 : ℝ) < 2)]
    norm_num at hWe hp ha ⊢
    linarith
  have hP : |P.val - Real.pi / 4| ≤ 1 / 2 ^ 52 := by
    rw [pv, abs_le]; norm_num at p1 p2 ⊢; constructor <;> linarith
  generalize hA : Real.arcsin σ = A at *
  have t0 : 0.5 ≤ Real.pi / 2 - 2 * A := by norm_num at p1 ⊢; linarith
  have t2 : Real.pi / 2 - 2 * A < 4 := by norm_num at p2 ⊢; linarith
  have ta : |Real.pi / 2 - 2 * A| = Real.pi / 2 - 2 * A := abs_of_pos (by norm_num at t0; linarith)
  have hP2 := abs_le.1 hP
  have hk2 := abs_le.1 key
  norm_num at hP2 hk2 p1 p2 t0
  by_cases ht : Real.pi / 2 - 2 * A ≤ 1
  · obtain ⟨Mf, Me⟩ := sub_err64 hW.fin Hf (-1) (by
      rw [abs_le]; norm_num; constructor <;> linarith [hP2.1, hP2.2, hk2.1, hk2.2]) (by norm_num)
    refine WithinUlp.of_rne_abs2 (-1) (sub_rne pf Mf) (by rw [ta]; norm_num; linarith) (small_lt_bias (by rw [f64_bias]; norm_num) (by rw [ta]; exact t2)) (by rw [f64_bias]; norm_num) (a := 0.65 * (1 / 2 ^ 53)) ?_ (δ := 0.65) (by rw [f64_sb]; norm_num) (by norm_num) (by norm_num) (by norm_num)
    have e : P.val - (W - H).val - (Real.pi / 2 - 2 * A) = -((W - H).val - (W.val - H.val)) - ((W.val - H.val) - (P.val - (Real.pi / 2 - 2 * A))) := by ring
    rw [e]
    refine (abs_sub _ _).trans ?_
    rw [abs_neg]
    norm_num at Me key ⊢
    linarith
  · push Not at ht
    obtain ⟨Mf, Me⟩ := sub_err64 hW.fin Hf 0 (by
      rw [abs_le]; norm_num; constructor <;> linarith [hP2.1, hP2.2, hk2.1, hk2.2]) (by norm_num)
    refine WithinUlp.of_rne_abs2 0 (sub_rne pf Mf) (by rw [ta]; norm_num; linarith) (small_lt_bias (by rw [f64_bias]; norm_num) (by rw [ta]; exact t2)) (by rw [f64_bias]; norm_num) (a := 0.9 * (1 / 2 ^ 53)) ?_ (δ := 0.65) (by rw [f64_sb]; norm_num) (by norm_num) (by norm_num) (by norm_num)
    have e : P.val - (W - H).val - (Real.pi / 2 - 2 * A) = -((W - H).val - (W.val - H.val)) - ((W.val - H.val) - (P.val - (Real.pi / 2 - 2 * A))) := by ring
    rw [e]
    refine (abs_sub _ _).trans ?_
    rw [abs_neg]
    norm_num at Me key ⊢
    linarith

/-- all of the upper branch -/
theorem big_acc {a : Flt f64} (af : a.isFinite) (hsg : a.sign = false) (h1 : 0x3fe00000 * 2 ^ 32 ≤ a.mb) (h2 : a.mb < 0x3ff00000 * 2 ^ 32) : ∃ r, big a (getHighWord a) = some r ∧ WithinUlp 1.15 r (Real.arcsin a.val) := by
  have a0 : 0 ≤ a.val := val_nonneg hsg
  have aa : |a.val| = a.val := abs_of_nonneg a0
  have l1 := val_ge_of_mb (x := a) (E := 1022) (by norm_num) (le_trans (by rw [f64_sb]; norm_num) h1)
  have l2 := val_lt_of_mb (x := a) (E := 1023) (by norm_num) (lt_of_lt_of_le h2 (by rw [f64_sb]; norm_num))
  obtain ⟨n, hn⟩ := grid64 a (-1) (by rw [f64_bias] at l1; norm_num at l1 ⊢; exact l1)
  rw [f64_bias, aa] at l1 l2
  norm_num at l1 l2
  have e1 : (1.0 : Flt f64) = one f64 := by decide +kernel
  have of : (one f64).isFinite := by decide +kernel
  have ov : (one f64).val = 1 := by rw [val_const64 1 1074 0 (by decide +kernel) (by norm_num)]; norm_num
  have hd := sub_rne of af
  rw [ov, ← e1] at hd
  obtain ⟨zf, zv, z1, z2⟩ := half_setup (n := n) hd (by rw [hn]; norm_num) l1 l2
  unfold big
  rw [fabs_ab, ab_of_pos hsg]
  dsimp only
  generalize hz : (1.0 - a) * 0.5 = z at *
  rw [← zv] at z1 z2
  obtain ⟨s, hs, sf, s1, s2, s3, s4, s5, -⟩ := sqrt_setup zf z1 z2
  have zn : 0 ≤ z.val := le_trans (by positivity) z1
  have hA : Real.arcsin a.val = Real.pi / 2 - 2 * Real.arcsin (√z.val) := by rw [zv]; exact arcsin_half a0 (by linarith)
  rw [hs, hA]
  simp only [Option.bind_eq_bind, Option.bind_some]
  have hw : (0x3fef3333#32 ≤ getHighWord a) ↔ 0x3fef3333 * 2 ^ 32 ≤ a.mb := by
    rw [BitVec.le_def, hi_toNat, hsg]
    simp
    omega
  have cv : (bits64 0x3fef333300000000).val = 2044723 * 2 ^ (-21 : ℤ) := by
    rw [val_const64 2044723 1053 (-21) (by decide +kernel) (by norm_num)]; norm_num
  by_cases hb : 0x3fef3333 * 2 ^ 32 ≤ a.mb
  · rw [if_pos (hw.2 hb)]
    refine ⟨_, rfl, (big_near zf sf zn z2 s4 ?_ s2).mono (by norm_num)⟩
    have := abs_val_mono (x := bits64 0x3fef333300000000) (c := a) (le_trans (by decide +kernel) hb)
    rw [cv, aa, abs_of_pos (by positivity)] at this
    rw [Real.sqrt_le_left (by norm_num), zv]
    norm_num at this ⊢
    linarith
  · rw [if_neg (fun h => hb (hw.1 h))]
    push Not at hb
    have l3 : 0.111 ≤ √z.val := by
      have := abs_val_mono (x := a) (c := bits64 0x3fef333300000000) (le_trans hb.le (by decide +kernel))
      rw [cv, aa, abs_of_pos (a := (2044723 * 2 ^ (-21 : ℤ) : ℝ)) (by positivity)] at this
      refine Real.le_sqrt_of_sq_le ?_
      rw [zv]
      norm_num at this ⊢
      linarith
    have s6 : 0.1 ≤ s.val := by
      have := abs_le.1 s2; norm_num at this l3 ⊢; linarith [this.1]
    norm_num at s6
    obtain ⟨ff, fe, fg⟩ := zeroLowWord_spec sf (by rw [abs_of_pos (by linarith)]; exact le_trans (zpow_le_zpow_right₀ (by norm_num) (by norm_num : (-1022 : ℤ) ≤ -10)) (by norm_num; linarith))
    rw [zeroLowWord_eq] at ff fe fg
    obtain ⟨cf, ce, fe2⟩ := csplit zf sf z1 z2 s4 s5 s1 ff fe fg
    exact ⟨_, rfl, big_far zf sf ff cf zn z2 l3 s5 s3 s2 ce fe2 fg⟩
end Asin

namespace Asinf

/-- the upper branch, in double precision and then rounded -/
theorem big_val {z : Flt f32} {s : Flt f64} (zf : z.isFinite) (sf : s.isFinite) (h0 : 0 ≤ z.val) (h1 : z.val ≤ 1 / 4) (hu : √z.val ≤ 1 / 2) (hs : |s.val - √z.val| ≤ 2 ^ (-1 - 54 : ℤ)) (hs0 : 0 ≤ s.val) (hs1 : s.val ≤ 1 / 2) :
    WithinUlp 0.99 ((pio2 - 2.0 * (s + s * (r z).cast f64)).cast f32) (Real.pi / 2 - 2 * Real.arcsin (√z.val)) := by
  have hR32 := kern_rt zf h0 h1
  obtain ⟨Rf, Rv⟩ := Hypotf.widen hR32.fin
  have hR : Ap ((r z).cast f64) (rho (√z.val)) (19 / 2 ^ 31) (1589249 / 2 ^ 25) := ⟨Rf, by rw [Rv]; exact hR32.err, by rw [Rv]; exact hR32.bd⟩
  have hS : Ap s (√z.val) (1 / 2 ^ 55) (1 / 2) := ⟨sf, hs.trans (by norm_num), by rw [abs_of_nonneg hs0]; exact hs1⟩
  have h2 : Ap (2.0 : Flt f64) 2 0 2 := .exact (by decide +kernel) Asin.two_val (by norm_num)
  have p1 := Real.pi_gt_d20
  have p2 := Real.pi_lt_d20
  have hP : Ap pio2 (Real.pi / 2) (1 / 2 ^ 50) (13 / 8) := by
    have e : pio2 = Asin.pio2Hi := by decide +kernel
    rw [e]
    refine ⟨Asin.hi_fin, ?_, ?_⟩
    · rw [Asin.pio2Hi_val, abs_le]; norm_num at p1 p2 ⊢; constructor <;> linarith
    · rw [Asin.pio2Hi_val, abs_le]; norm_num
  have hm := Ap.mul hS hR (-5) (by norm_num) (by norm_num) (by norm_num) (g := (4865 / 2 ^ 40)) (D := (6209 / 2 ^ 18)) (by norm_num) (by norm_num)
  have hy := Ap.add hS hm (0) (by norm_num) (by norm_num) (g := (2433 / 2 ^ 39)) (D := (4291 / 2 ^ 13)) (by norm_num) (by norm_num)
  have hd := Ap.mul h2 hy (1) (by norm_num) (by norm_num) (by norm_num) (g := (4867 / 2 ^ 39)) (D := (1073 / 2 ^ 10)) (by norm_num) (by norm_num)
  have hw := Ap.sub hP hd (2) (by norm_num) (by norm_num) (g := (1217 / 2 ^ 37)) (D := (5475 / 2 ^ 11)) (by norm_num) (by norm_num)
  have hσ0 := Real.sqrt_nonneg z.val
  set σ := √z.val
  have hσ : |σ| ≤ 1 / 2 := by rw [abs_of_nonneg hσ0]; exact hu
  have ha := rho_approx hσ
  rw [abs_of_nonneg hσ0] at ha
  have hAge := arcsin_ge hσ0 (by linarith : σ ≤ 1)
  have hAle : Real.arcsin σ ≤ Real.pi / 6 := by
    rw [Real.arcsin_le_iff_le_sin ⟨by linarith, by linarith⟩ ⟨by linarith, by linarith⟩, Real.sin_pi_div_six]; exact hu
  have t0 : 0.5 ≤ Real.pi / 2 - 2 * Real.arcsin σ := by norm_num at p1 ⊢; linarith
  have t2 : Real.pi / 2 - 2 * Real.arcsin σ < 4 := by norm_num at p2 ⊢; linarith
  have ta : |Real.pi / 2 - 2 * Real.arcsin σ| = Real.pi / 2 - 2 * Real.arcsin σ := abs_of_pos (by norm_num at t0; linarith)
  norm_num at t0
  refine WithinUlp.of_rne_abs2 (-1) (cast_rne hw.fin) (by rw [ta]; norm_num; linarith) (small_lt_bias (by rw [f32_bias]; norm_num) (by rw [ta]; exact t2)) (by rw [f32_bias]; norm_num) (a := 0.4 * (1 / 2 ^ 24)) ?_ (δ := 0.4) (by rw [f32_sb]; norm_num) (by norm_num) (by norm_num) (by norm_num)
  have e : (pio2 - 2.0 * (s + s * (r z).cast f64)).val - (Real.pi / 2 - 2 * Real.arcsin σ) = ((pio2 - 2.0 * (s + s * (r z).cast f64)).val - (Real.pi / 2 - 2 * (σ + σ * rho σ))) - 2 * (σ + σ * rho σ - Real.arcsin σ) := by ring
  rw [e]
  refine (abs_sub _ _).trans ?_
  rw [abs_mul, abs_of_pos (by norm_num : (0 : ℝ) < 2)]
  have := hw.err
  norm_num at this ha ⊢
  linarith

theorem big_acc {a : Flt f32} (af : a.isFinite) (hsg : a.sign = false) (h1 : 0x3f000000 ≤ a.mb) (h2 : a.mb < 0x3f800000) : ∃ r, big a = some r ∧ WithinUlp 0.99 r (Real.arcsin a.val) := by
  have a0 : 0 ≤ a.val := val_nonneg hsg
  have aa : |a.val| = a.val := abs_of_nonneg a0
  have l1 := val_ge_of_mb (x := a) (E := 126) (by norm_num) (le_trans (by rw [f32_sb]; norm_num) h1)
  have l2 := val_lt_of_mb (x := a) (E := 127) (by norm_num) (lt_of_lt_of_le h2 (by rw [f32_sb]; norm_num))
  obtain ⟨n, hn⟩ := grid32 a (-1) (by rw [f32_bias] at l1; norm_num at l1 ⊢; exact l1)
  rw [f32_bias, aa] at l1 l2
  norm_num at l1 l2
  have e1 : (1.0 : Flt f32) = one f32 := by decide +kernel
  have of : (one f32).isFinite := by decide +kernel
  have ov : (one f32).val = 1 := by rw [val_const32 1 149 0 (by decide +kernel) (by norm_num)]; norm_num
  have hd := sub_rne of af
  rw [ov, ← e1] at hd
  obtain ⟨zf, zv, z1, z2⟩ := half_setup (n := n) hd (by rw [hn]; norm_num) l1 l2
  unfold big
  rw [fabs_ab, ab_of_pos hsg]
  dsimp only
  generalize hz : (1.0 - a) * 0.5 = z at *
  rw [← zv] at z1 z2
  obtain ⟨wf, wv⟩ := Hypotf.widen zf
  obtain ⟨s, hs, sf, s1, s2, s3, s4, s5, -⟩ := Asin.sqrt_setup wf (by rw [wv]; exact le_trans (zpow_le_zpow_right₀ (by norm_num) (by norm_num)) z1) (by rw [wv]; exact z2)
  rw [wv] at s1 s2 s4 s5
  have zn : 0 ≤ z.val := le_trans (by positivity) z1
  have hA : Real.arcsin a.val = Real.pi / 2 - 2 * Real.arcsin (√z.val) := by rw [zv]; exact arcsin_half a0 (by linarith)
  rw [hs, hA]
  have s0 : 0 ≤ s.val := by have := abs_le.1 s2; norm_num at this s4 ⊢; linarith [this.1]
  exact ⟨_, rfl, big_val zf sf zn z2 s5 s2 s0 s3⟩
end Asinf

end Verif
