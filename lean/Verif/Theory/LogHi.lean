import Verif.Theory.LogBody
import Verif.Theory.Cut

/-!
# The logarithms to bases 2 and 10: the leading part of `f - f²/2`
-/

namespace Verif
open Flt

/-- clearing the low twelve bits of a normal float -/
theorem top_spec {x : Flt f32} (hx : x.isFinite) (hn : 2 ^ (-126 : ℤ) ≤ |x.val|) :
    (Powf.top x).isFinite ∧ |(Powf.top x).val - x.val| ≤ 1 / 2 ^ 11 * |x.val| ∧
      ∃ n k : ℤ, |n| ≤ 2 ^ 12 ∧ (Powf.top x).val = n * 2 ^ k := by
  obtain ⟨hs, hm⟩ := top_cut x
  set y := Powf.top x with hy
  have hf : y.isFinite := by rw [isFinite32] at hx ⊢; rw [hm]; omega
  have hmb : 2 ^ 23 ≤ x.mb := by
    by_contra hc
    have := val_lt_of_mb (x := x) (E := 1) le_rfl (by rw [f32_sb]; omega)
    rw [f32_bias] at this
    push_cast at this
    exact absurd hn (not_le.2 this)
  obtain ⟨c1, c2, -, -⟩ := magOf_chop 23 x.mb 12 hmb (by norm_num)
  have hym : y.mag = x.mag - x.mag % 2 ^ (12 + (x.mb / 2 ^ 23 - 1)) := by
    show magOf f32.sb y.mb = magOf f32.sb x.mb - magOf f32.sb x.mb % _
    rw [hm, f32_sb]; exact c2
  have hxm : x.mag = (2 ^ 23 + x.mb % 2 ^ 23) * 2 ^ (x.mb / 2 ^ 23 - 1) := by
    show magOf f32.sb x.mb = _
    rw [magOf, f32_sb, if_neg (by omega)]
  have hle : y.mag ≤ x.mag := by rw [hym]; omega
  refine ⟨hf, ?_, ?_⟩
  · rw [abs_sub_of_sign hs hle, Flt.abs_val_div x]
    have hp : (0 : ℝ) < f32.oneMag := (by exact_mod_cast f32.oneMag_pos)
    rw [← mul_div_assoc]
    refine div_le_div_of_nonneg_right ?_ hp.le
    have h1 : (x.mag - y.mag) * 2 ^ 11 ≤ x.mag := by
      have e : x.mag - y.mag = x.mb % 2 ^ 12 * 2 ^ (x.mb / 2 ^ 23 - 1) := by
        have : x.mag % 2 ^ (12 + (x.mb / 2 ^ 23 - 1)) = x.mb % 2 ^ 12 * 2 ^ (x.mb / 2 ^ 23 - 1) := by
          have := c1; rw [← f32_sb] at this; rw [f32_sb] at this; exact this
        rw [hym, ← this]
        have := Nat.mod_le x.mag (2 ^ (12 + (x.mb / 2 ^ 23 - 1)))
        omega
      rw [e, hxm]
      calc x.mb % 2 ^ 12 * 2 ^ (x.mb / 2 ^ 23 - 1) * 2 ^ 11 = x.mb % 2 ^ 12 * 2 ^ 11 * 2 ^ (x.mb / 2 ^ 23 - 1) := by ring
        _ ≤ _ := Nat.mul_le_mul_right _ (by omega)
    have h2 : ((x.mag - y.mag : ℕ) : ℝ) * 2 ^ 11 ≤ x.mag := by exact_mod_cast h1
    norm_num at h2 ⊢
    linarith
  · obtain ⟨m, hm1, hm2⟩ : ∃ m : ℕ, m ≤ 2 ^ 12 ∧ y.mag = m * 2 ^ (12 + (x.mb / 2 ^ 23 - 1)) := by
      refine ⟨x.mag / 2 ^ (12 + (x.mb / 2 ^ 23 - 1)), ?_, ?_⟩
      · apply Nat.div_le_of_le_mul
        rw [hxm]
        calc (2 ^ 23 + x.mb % 2 ^ 23) * 2 ^ (x.mb / 2 ^ 23 - 1) ≤ 2 ^ 24 * 2 ^ (x.mb / 2 ^ 23 - 1) := Nat.mul_le_mul_right _ (by omega)
          _ = _ := by rw [← pow_add, ← pow_add]; congr 1; omega
      · rw [hym]
        have := Nat.div_add_mod' x.mag (2 ^ (12 + (x.mb / 2 ^ 23 - 1)))
        omega
    have hv : |y.val| = (m : ℝ) * 2 ^ ((12 + (x.mb / 2 ^ 23 - 1) : ℕ) : ℤ) * 2 ^ (-149 : ℤ) := by
      rw [val_abs, hm2, ulp_real, f32_bias, f32_sb, zpow_natCast]
      push_cast
      norm_num
    set k : ℤ := ((12 + (x.mb / 2 ^ 23 - 1) : ℕ) : ℤ) + -149 with hk
    have hv' : |y.val| = (m : ℝ) * 2 ^ k := by rw [hv, mul_assoc, ← zpow_add₀ (by norm_num)]
    rcases abs_choice y.val with h | h
    · exact ⟨m, k, by rw [Nat.abs_cast]; exact_mod_cast hm1, by rw [← h, hv', Int.cast_natCast]⟩
    · refine ⟨-m, k, by rw [abs_neg, Nat.abs_cast]; exact_mod_cast hm1, ?_⟩
      have : y.val = -|y.val| := by rw [h]; ring
      rw [this, hv']; push_cast; ring


/-- **Fast2Sum**, with the error term as the source computes it -/
theorem fast2 {y v : Flt f64} (yf : y.isFinite) (vf : v.isFinite) (h : |v.val| ≤ 0.499 * |y.val|) (hy : 2 ^ (-3 : ℤ) ≤ |y.val|) (hy2 : |y.val| ≤ 2 ^ (11 : ℤ)) :
    (y + v).isFinite ∧ ((y - (y + v)) + v).isFinite ∧ ((y - (y + v)) + v).val = y.val + v.val - (y + v).val ∧ |y.val + v.val - (y + v).val| ≤ 1 / 2 ^ 42 := by
  have hyp : 0 < |y.val| := lt_of_lt_of_le (by positivity) hy
  have hs : |y.val + v.val| ≤ 1.499 * |y.val| := by
    have := abs_add_le y.val v.val; norm_num at h ⊢; linarith
  have hs2 : 0.501 * |y.val| ≤ |y.val + v.val| := by
    have := abs_sub_abs_le_abs_sub y.val (-v.val)
    rw [abs_neg, sub_neg_eq_add] at this
    norm_num at h ⊢; linarith
  have hs3 : |y.val + v.val| ≤ 2 ^ (12 : ℤ) := by norm_num at hs hy2 ⊢; linarith
  have r := add_rne yf vf
  obtain ⟨wf, we⟩ := add_rel64 yf vf (hs3.trans (le_trans (zpow_le_zpow_right₀ (by norm_num) (by norm_num : (12 : ℤ) ≤ 1023)) (le_mul_of_one_le_left (by positivity) (by norm_num))))
  have we2 := (add_err64 yf vf 12 hs3 (by norm_num)).2
  have hcand : |(y + v).val - (y.val + v.val)| ≤ |v.val| := by
    have hb : |y.val + v.val| ≤ 3 / 2 * 2 ^ (1023 : ℤ) :=
      hs3.trans (le_trans (zpow_le_zpow_right₀ (by norm_num) (by norm_num : (12 : ℤ) ≤ 1023)) (le_mul_of_one_le_left (by positivity) (by norm_num)))
    have hb' := (IsRNE.finite (F := f64) r (by rwa [f64_bias])).2.1 y yf
    have : |y.val - (y.val + v.val)| = |v.val| := by rw [show y.val - (y.val + v.val) = -v.val by ring, abs_neg]
    rw [← this]
    exact hb'
  have hab : |v.val| < 2 ^ (-900 : ℤ) → (y + v).val = y.val := fun hsm => by
    refine rne_absorb (-4) yf r wf
      (hs3.trans (le_trans (zpow_le_zpow_right₀ (by norm_num) (by norm_num : (12 : ℤ) ≤ 1023)) (le_mul_of_one_le_left (by positivity) (by norm_num)))) ?_ ?_
    · rw [add_sub_cancel_left]
      exact hsm.trans_le (zpow_le_zpow_right₀ (by norm_num) (by norm_num))
    · norm_num at hy ⊢; linarith
  generalize y + v = w at *
  have hw : 0.5009 * |y.val| ≤ |w.val| := by
    have := abs_sub_abs_le_abs_sub (y.val + v.val) w.val
    rw [abs_sub_comm] at this
    norm_num at hs hs2 we this ⊢; linarith
  have hyw : |y.val - w.val| ≤ 0.5 * |y.val| := by
    have e : y.val - w.val = -(w.val - (y.val + v.val)) + -v.val := by ring
    rw [e]
    refine (abs_add_le _ _).trans ?_
    rw [abs_neg, abs_neg]
    norm_num at h hs we ⊢; linarith
  have n0 : (2 : ℝ) ^ (1 - (f64.bias : ℤ)) ≤ 2 ^ (-5 : ℤ) := zpow_le_zpow_right₀ (by norm_num) (by rw [f64_bias]; norm_num)
  obtain ⟨df, dv⟩ := sterbenz_val yf wf (by norm_num at hyw; linarith) (by norm_num at hyw hw; linarith)
    (n0.trans (by norm_num at hy ⊢; linarith)) (n0.trans (by norm_num at hy hw ⊢; linarith))
  refine ⟨wf, ?_⟩
  obtain ⟨c, cf, cv⟩ : ∃ c : Flt f64, c.isFinite ∧ c.val = y.val - w.val + v.val := by
    by_cases hv0 : v.val = 0
    · exact ⟨y - w, df, by rw [dv, hv0]; ring⟩
    · have hvp := abs_pos.2 hv0
      by_cases hsm : |v.val| < 2 ^ (-900 : ℤ)
      · -- nothing is added
        exact ⟨v, vf, by rw [hab hsm]; ring⟩
      · push Not at hsm
        set j := Int.log 2 |v.val| with hj
        have j1 : (2 : ℝ) ^ j ≤ |v.val| := by exact_mod_cast Int.zpow_log_le_self (b := 2) (by norm_num) hvp
        have j2 : |v.val| < 2 ^ (j + 1) := by exact_mod_cast Int.lt_zpow_succ_log_self (b := 2) (by norm_num) |v.val|
        have j3 : -901 ≤ j := by
          by_contra hc
          push Not at hc
          have : (2 : ℝ) ^ (j + 1) ≤ 2 ^ (-900 : ℤ) := zpow_le_zpow_right₀ (by norm_num) (by omega)
          linarith
        have j4 : j ≤ 12 := by
          by_contra hc
          push Not at hc
          have : (2 : ℝ) ^ (12 : ℤ) ≤ 2 ^ j := zpow_le_zpow_right₀ (by norm_num) (by omega)
          norm_num at this hy2 h
          linarith
        obtain ⟨a, ha⟩ := grid64 y j (by norm_num at h; linarith)
        obtain ⟨b, hb⟩ := grid64 w j (by norm_num at h hw; linarith)
        obtain ⟨n, hn⟩ := grid64 v j j1
        have e : y.val - w.val + v.val = ((a - b + n : ℤ) : ℝ) * 2 ^ (j - 52) := by rw [ha, hb, hn]; push_cast; ring
        have hN : |a - b + n| ≤ 2 ^ 53 := by
          have h1 : |((a - b + n : ℤ) : ℝ)| * 2 ^ (j - 52) ≤ 2 ^ 53 * 2 ^ (j - 52) := by
            rw [← abs_of_pos (a := (2 : ℝ) ^ (j - 52)) (by positivity), ← abs_mul, ← e, abs_of_pos (a := (2 : ℝ) ^ (j - 52)) (by positivity),
              show (2 : ℝ) ^ 53 = 2 ^ (53 : ℤ) by norm_num, ← zpow_add₀ (by norm_num), show (53 + (j - 52) : ℤ) = j + 1 by ring]
            rw [show y.val - w.val + v.val = -(w.val - (y.val + v.val)) by ring, abs_neg]
            exact hcand.trans j2.le
          have := le_of_mul_le_mul_right h1 (by positivity)
          exact_mod_cast this
        obtain ⟨c, cf, cv⟩ := exists_val64' (n := a - b + n) (k := j - 52) hN (by omega) (by omega)
        exact ⟨c, cf, by rw [cv, e]⟩
  obtain ⟨ef, ev⟩ := (add_rne df vf).exact_real cf (by rw [cv, dv])
  refine ⟨ef, by rw [ev, dv]; ring, ?_⟩
  rw [abs_sub_comm]
  exact we2.trans (by norm_num)


/-- just above a power of two, the nearest datum is the power of two -/
theorem near_eq {r q T u : ℝ} {N : ℤ} (hu : 0 < u) (hn : |r - q| ≤ |T - q|) (hg : T ≤ |r| → ∃ n : ℤ, r = n * (2 * u)) (hT : T = N * (2 * u)) (h0 : 0 ≤ T)
    (h1 : T < q) (h2 : q - T < u) : r = T := by
  rw [abs_of_neg (a := T - q) (by linarith), abs_le] at hn
  rcases lt_trichotomy r T with h | h | h
  · linarith [hn.1]
  · exact h
  · obtain ⟨n, hn'⟩ := hg (h.le.trans (le_abs_self r))
    rw [hn', hT] at h
    have h3 : N < n := by
      have := lt_of_mul_lt_mul_right h (by linarith)
      exact_mod_cast this
    have h4 : (N : ℝ) + 1 ≤ n := by exact_mod_cast h3
    have := mul_le_mul_of_nonneg_right h4 (by linarith : 0 ≤ 2 * u)
    rw [add_mul, one_mul, ← hT, ← hn'] at this
    linarith [hn.2]

/-- rounding a number close to the exact result, not necessarily within half a unit -/
theorem WithinUlp.of_rne_two {F : Fmt} {q t δ c : ℝ} {r : Flt F} (h : IsRNE q r) (ht : t ≠ 0) (hb : |t| < 2 ^ ((F.bias : ℤ) - 1)) (hF : 2 ≤ F.bias)
    (hq : |q - t| ≤ δ * ulpAt F t) (hδ : δ < 1) (hc : 1 / 2 + δ ≤ c) : WithinUlp c r t := by
  have htp : 0 < |t| := abs_pos.2 ht
  rw [WithinUlp.def']
  set k := max (Int.log 2 |t|) (1 - F.bias) with hk
  have hu : ulpAt F t = 2 ^ (k - F.sb) := if_neg ht
  have hlt : |t| < 2 ^ (k + 1) := by
    have := lt_ulpAt (F := F) ht
    rw [hu, ← zpow_natCast, ← zpow_add₀ (by norm_num : (2 : ℝ) ≠ 0)] at this
    push_cast at this
    rwa [show ((F.sb : ℤ) + 1 + (k - F.sb)) = k + 1 by ring] at this
  have hlog : Int.log 2 |t| < (F.bias : ℤ) - 1 := by
    have h1 : ((2 : ℕ) : ℝ) ^ Int.log 2 |t| ≤ |t| := Int.zpow_log_le_self (by norm_num) htp
    have h2 := h1.trans_lt hb
    exact (zpow_lt_zpow_iff_right₀ (by norm_num : (1 : ℝ) < 2)).1 (by exact_mod_cast h2)
  have hkb : k + 1 ≤ F.bias - 1 := by
    rw [hk]
    have : max (Int.log 2 |t|) (1 - (F.bias : ℤ)) ≤ F.bias - 2 := max_le (by omega) (by omega)
    omega
  have hkl : 1 - (F.bias : ℤ) ≤ k := le_max_right _ _
  have hup : 0 < ulpAt F t := by rw [hu]; exact zp _
  by_cases hqk : |q| ≤ 2 ^ (k + 1)
  · obtain ⟨rf, re⟩ := h.err (k + 1) hqk (by omega) (by omega)
    refine ⟨rf, ?_⟩
    have e : (2 : ℝ) ^ (k + 1 - 2 - F.sb : ℤ) = 1 / 2 * ulpAt F t := by
      rw [hu, show (k + 1 - 2 - F.sb : ℤ) = -1 + (k - F.sb) by ring, zpow_add₀ (by norm_num)]
      norm_num
    rw [e] at re
    have e2 : r.val - t = (r.val - q) + (q - t) := by ring
    rw [e2]
    refine (abs_add_le _ _).trans ?_
    have := mul_le_mul_of_nonneg_right hc hup.le
    linarith
  · rw [not_le] at hqk
    have hδ0 : 0 ≤ δ := by
      by_contra hn
      rw [not_le] at hn
      have := mul_neg_of_neg_of_pos hn hup
      have := abs_nonneg (q - t)
      linarith
    -- `q` is just above the binade
    have hqb : |q| ≤ 3 / 2 * 2 ^ (F.bias : ℤ) := by
      have h1 : |q| ≤ |t| + δ * ulpAt F t := by
        have := abs_sub_abs_le_abs_sub q t; linarith
      have h2 : ulpAt F t ≤ 2 ^ (k + 1) := by
        rw [hu]; exact zpow_le_zpow_right₀ (by norm_num) (by omega)
      have h3 : (2 : ℝ) ^ (k + 1) ≤ 2 ^ ((F.bias : ℤ) - 1) := zpow_le_zpow_right₀ (by norm_num) hkb
      have h4 : (2 : ℝ) ^ (F.bias : ℤ) = 2 ^ ((F.bias : ℤ) - 1) * 2 := by
        rw [← zpow_add_one₀ (by norm_num)]; congr 1; ring
      have h5 : δ * ulpAt F t ≤ 1 * ulpAt F t := mul_le_mul_of_nonneg_right hδ.le hup.le
      rw [h4]
      have := zp ((F.bias : ℤ) - 1)
      linarith
    obtain ⟨rf, rmin, -⟩ := h.finite hqb
    refine ⟨rf, ?_⟩
    obtain ⟨c0, cf, cv⟩ := exists_val (F := F) (n := 1) (k := k + 1) (by
      rw [abs_one]; exact one_le_pow₀ (by norm_num)) (by omega) (by
      rw [Int.cast_one, abs_one, one_mul]; exact zpow_lt_zpow_right₀ (by norm_num) (by omega))
    rw [Int.cast_one, one_mul] at cv
    have hT : (2 : ℝ) ^ (k + 1) = ((2 ^ F.sb : ℤ) : ℝ) * (2 * 2 ^ (k - F.sb)) := by
      rw [← zpow_one_add₀ (by norm_num)]
      push_cast
      rw [← zpow_natCast, ← zpow_add₀ (by norm_num)]
      congr 1
      ring
    have hgr : (2 : ℝ) ^ (k + 1) ≤ |r.val| → ∃ n : ℤ, r.val = n * (2 * 2 ^ (k - F.sb)) := fun hr => by
      obtain ⟨n, hn⟩ := grid r (k + 1) hr
      refine ⟨n, ?_⟩
      rw [hn, ← zpow_one_add₀ (by norm_num)]
      congr 2
      ring
    have hd1 : δ * ulpAt F t < ulpAt F t := by
      have := mul_lt_mul_of_pos_right hδ hup
      rwa [one_mul] at this
    have hc' := mul_le_mul_of_nonneg_right hc hup.le
    have hle : |r.val - t| ≤ |q - t| := by
      rcases le_total 0 q with h0 | h0
      · rw [abs_of_nonneg h0] at hqk
        have := (abs_lt.1 hlt).2
        have hq' := abs_le.1 hq
        have hr : r.val = 2 ^ (k + 1) := near_eq (u := 2 ^ (k - F.sb)) (by positivity) (by rw [← cv]; exact rmin c0 cf) hgr hT (by positivity) hqk (by rw [← hu]; linarith [hq'.2])
        rw [hr, abs_of_pos (by linarith), abs_of_pos (by linarith)]
        linarith
      · rw [abs_of_nonpos h0] at hqk
        have := (abs_lt.1 hlt).1
        have hq' := abs_le.1 hq
        have hm := rmin (-c0) ((Flt.isFinite_neg c0).2 cf)
        change |r.val - q| ≤ |(-c0).val - q| at hm
        rw [val_neg, cv] at hm
        have hr : -r.val = 2 ^ (k + 1) := near_eq (q := -q) (u := 2 ^ (k - F.sb)) (by positivity) (by
            rw [show -r.val - -q = -(r.val - q) by ring, abs_neg, show (2 : ℝ) ^ (k + 1) - -q = -(-2 ^ (k + 1) - q) by ring, abs_neg]; exact hm) (fun hh => by
            rw [abs_neg] at hh
            obtain ⟨n, hn⟩ := hgr hh
            exact ⟨-n, by rw [hn]; push_cast; ring⟩) hT (by positivity) hqk (by rw [← hu]; linarith [hq'.1])
        have hr2 : r.val = -2 ^ (k + 1) := by linarith
        rw [hr2, abs_of_neg (by linarith), abs_of_neg (by linarith)]
        linarith
    linarith

theorem WithinUlp.of_rne_abs2 {F : Fmt} {q t δ c a : ℝ} {r : Flt F} (j : ℤ) (h : IsRNE q r) (hj : 2 ^ j ≤ |t|) (hb : |t| < 2 ^ ((F.bias : ℤ) - 1)) (hF : 2 ≤ F.bias)
    (hq : |q - t| ≤ a) (ha : a ≤ δ * 2 ^ (j - F.sb)) (h0 : 0 ≤ δ) (hδ : δ < 1) (hc : 1 / 2 + δ ≤ c) : WithinUlp c r t := by
  have ht : t ≠ 0 := by
    rintro rfl
    rw [abs_zero] at hj
    exact absurd hj (not_le.2 (by positivity))
  exact WithinUlp.of_rne_two h ht hb hF (hq.trans (ha.trans (mul_le_mul_of_nonneg_left (le_ulpAt_of_le hj) h0))) hδ hc

namespace Log
variable {f : Flt f64}

/-- the leading part of `f - f²/2` -/
theorem hi_spec (ff : f.isFinite) (h1 : -0.29291 ≤ f.val) (h2 : f.val ≤ 0.41423) (h0 : f.val = 0 ∨ 1 / 2 ^ 53 ≤ |f.val|) :
    (hiOf f).isFinite ∧ (∃ n k : ℤ, |n| ≤ 2 ^ 21 ∧ -80 ≤ k ∧ k ≤ 0 ∧ (hiOf f).val = n * 2 ^ k) ∧ |(hiOf f).val| ≤ 1.16 * |f.val| ∧
      (f - hiOf f - hfsq f).isFinite ∧ |(f - hiOf f - hfsq f).val - (f.val - (hiOf f).val - (hfsq f).val)| ≤ 1 / 2 ^ 72 * |f.val| ∧
      |f.val - (hiOf f).val - (hfsq f).val| ≤ 1.17 / 2 ^ 20 * |f.val| := by
  rcases h0 with h0 | h0
  · have hz : ∀ s, (hiOf (zero f64 s)).isFinite ∧ (hiOf (zero f64 s)).isZero ∧ (zero f64 s - hiOf (zero f64 s) - hfsq (zero f64 s)).isFinite ∧
        (zero f64 s - hiOf (zero f64 s) - hfsq (zero f64 s)).isZero ∧ (hfsq (zero f64 s)).isZero := by decide +kernel
    obtain ⟨s, rfl⟩ : ∃ s, f = zero f64 s := ⟨f.sign, ext_mb (by rw [sign_zero]) (by rw [mb_zero]; exact (isZero_iff f).1 (isZero_val.2 h0))⟩
    obtain ⟨a, b, c, d, e⟩ := hz s
    rw [isZero_val] at b d e
    rw [b, d, e, h0]
    exact ⟨a, ⟨0, 0, by norm_num, by norm_num, by norm_num, by norm_num⟩, by norm_num, c, by norm_num, by norm_num⟩
  norm_num at h1 h2
  have ha1 : |f.val| ≤ 0.41423 := by rw [abs_le]; constructor <;> norm_num <;> linarith
  have hp : 0 < |f.val| := lt_of_lt_of_le (by positivity) h0
  have hsq : |f.val ^ 2 / 2| ≤ 0.20712 * |f.val| := by
    rw [show f.val ^ 2 / 2 = f.val * (f.val / 2) by ring, abs_mul, mul_comm]
    refine mul_le_mul_of_nonneg_right ?_ hp.le
    rw [abs_div]; norm_num at ha1 ⊢; linarith
  have t100 : (2 : ℝ) ^ (-100 : ℤ) ≤ |f.val| := le_trans (by norm_num) h0
  -- half of the square
  obtain ⟨hf, hv⟩ := half_exact ff (ha1.trans (by norm_num)) (Or.inr t100)
  have e : f.val / 2 * f.val = f.val ^ 2 / 2 := by ring
  have hlow : (2 : ℝ) ^ (-110 : ℤ) ≤ |f.val ^ 2 / 2| := by
    have := pow_le_pow_left₀ (by positivity) h0 2
    rw [abs_div, abs_pow]
    norm_num at this ⊢; linarith
  have B0 : (1 : ℝ) ≤ 3 / 2 * 2 ^ (1023 : ℤ) := le_trans (by norm_num) (mul_le_mul_of_nonneg_left (one_le_zpow₀ (by norm_num) (by norm_num)) (by norm_num))
  have m := mul_rel64 hf ff (by
    rw [hv, e]; exact (zpow_le_zpow_right₀ (by norm_num) (by norm_num)).trans hlow) (by
    rw [hv, e]; exact le_trans (by norm_num at hsq ha1 ⊢; linarith) B0)
  rw [hv, e] at m
  change (hfsq f).isFinite ∧ |(hfsq f).val - _| ≤ _ at m
  obtain ⟨mf, me⟩ := m
  have hio : hiOf f = KTan.zeroLowWord (f - hfsq f) := rfl
  generalize hfsq f = q at *
  have me' : |q.val - f.val ^ 2 / 2| ≤ 1 / 2 ^ 53 * |f.val| := by
    refine me.trans ?_
    norm_num at hsq ⊢; linarith
  -- the difference
  have s1 : |f.val - q.val| ≤ 1.15 * |f.val| := by
    have h3 : |f.val - f.val ^ 2 / 2| ≤ 1.147 * |f.val| := by
      rw [show f.val - f.val ^ 2 / 2 = f.val * (1 - f.val / 2) by ring, abs_mul, mul_comm]
      refine mul_le_mul_of_nonneg_right ?_ hp.le
      rw [abs_le]; constructor <;> norm_num <;> linarith
    have := abs_sub_le f.val (f.val ^ 2 / 2) q.val
    rw [show f.val - q.val = (f.val - f.val ^ 2 / 2) - (q.val - f.val ^ 2 / 2) by ring]
    refine (abs_sub _ _).trans ?_
    norm_num at h3 me' ⊢; linarith
  obtain ⟨gf, ge⟩ := sub_rel64 ff mf (s1.trans (le_trans (by norm_num at ha1 ⊢; linarith) B0))
  have hn : (2 : ℝ) ^ (-60 : ℤ) ≤ |(f - q).val| := by
    have a1 := abs_sub_abs_le_abs_sub (f.val - q.val) (f - q).val
    rw [abs_sub_comm (f.val - q.val) (f - q).val] at a1
    have a2 := abs_sub_abs_le_abs_sub f.val q.val
    have a3 := abs_sub_abs_le_abs_sub q.val (f.val ^ 2 / 2)
    norm_num at a1 a2 a3 me' hsq ge s1 h0 ⊢
    linarith
  have hg : |(f - q).val| ≤ 1.1501 * |f.val| := by
    have a1 := abs_sub_abs_le_abs_sub (f - q).val (f.val - q.val)
    norm_num at a1 ge s1 ⊢
    linarith
  obtain ⟨cf, ce, n, k, hnb, hnk⟩ := zeroLowWord_spec gf ((zpow_le_zpow_right₀ (by norm_num) (by norm_num)).trans hn)
  rw [← hio] at cf ce hnk
  generalize hiOf f = hi at *
  -- what is left
  have d1 : |f.val - hi.val - q.val| ≤ 1.17 / 2 ^ 20 * |f.val| := by
    have := abs_sub_le (f.val - q.val) (f - q).val hi.val
    rw [abs_sub_comm (f - q).val hi.val, abs_sub_comm (f.val - q.val) (f - q).val] at this
    rw [show f.val - hi.val - q.val = f.val - q.val - hi.val by ring]
    norm_num at this ge s1 ce hg ⊢
    linarith
  have d2 : |f.val - hi.val| ≤ 0.22 * |f.val| := by
    have a1 : |f.val - hi.val| ≤ |f.val - hi.val - q.val| + |q.val| := by
      have := abs_add_le (f.val - hi.val - q.val) q.val
      rwa [_root_.sub_add_cancel] at this
    have a3 := abs_sub_abs_le_abs_sub q.val (f.val ^ 2 / 2)
    norm_num at a1 a3 me' hsq d1 ⊢
    linarith
  have d3 : 0.78 * |f.val| ≤ |hi.val| := by
    have := abs_sub_abs_le_abs_sub f.val hi.val
    norm_num at this d2 ⊢; linarith
  have n0 : (2 : ℝ) ^ (1 - (f64.bias : ℤ)) ≤ 2 ^ (-60 : ℤ) := zpow_le_zpow_right₀ (by norm_num) (by rw [f64_bias]; norm_num)
  obtain ⟨df, dv⟩ := sterbenz_val ff cf (by norm_num at d2; linarith) (by norm_num at d2 d3; linarith)
    (n0.trans (le_trans (by norm_num) h0)) (n0.trans (by norm_num at d3 h0 ⊢; linarith))
  have hhi : |hi.val| ≤ 1.16 * |f.val| := by
    have := abs_sub_abs_le_abs_sub hi.val (f - q).val
    norm_num at this ce hg ⊢; linarith
  obtain ⟨ef, ee⟩ := sub_rel64 df mf (by
    rw [dv]; exact d1.trans (le_trans (by norm_num at ha1 ⊢; linarith) B0))
  rw [dv] at ee
  refine ⟨cf, ⟨n, k, hnb, ?_, ?_, hnk⟩, hhi, ef, ?_, d1⟩
  · by_contra hc
    push Not at hc
    have h3 : |hi.val| ≤ 2 ^ (-80 + 21 : ℤ) := by
      rw [hnk, abs_mul, abs_of_pos (a := (2 : ℝ) ^ k) (by positivity), zpow_add₀ (by norm_num), mul_comm]
      refine mul_le_mul (zpow_le_zpow_right₀ (by norm_num) hc.le) (by exact_mod_cast hnb) (abs_nonneg _) (by positivity)
    norm_num at h3 d3 h0
    linarith
  · by_contra hc
    push Not at hc
    have hn0 : n ≠ 0 := by
      rintro rfl
      rw [Int.cast_zero, zero_mul] at hnk
      rw [hnk, abs_zero] at d3
      norm_num at d3
      linarith
    have h3 : (1 : ℝ) ≤ |hi.val| := by
      rw [hnk, abs_mul, abs_of_pos (a := (2 : ℝ) ^ k) (by positivity)]
      have : (1 : ℝ) ≤ |(n : ℝ)| := by exact_mod_cast Int.one_le_abs hn0
      exact one_le_mul_of_one_le_of_one_le this (one_le_zpow₀ (by norm_num) hc.le)
    norm_num at hhi ha1
    linarith
  · refine ee.trans ?_
    norm_num at d1 ⊢; linarith
end Log

namespace Logf
variable {f : Flt f32}

/-- the leading part of `f - f²/2` -/
theorem hi_spec (ff : f.isFinite) (h1 : -0.29291 ≤ f.val) (h2 : f.val ≤ 0.41423) (h0 : f.val = 0 ∨ 1 / 2 ^ 25 ≤ |f.val|) :
    (hiOf f).isFinite ∧ (∃ n k : ℤ, |n| ≤ 2 ^ 12 ∧ -45 ≤ k ∧ k ≤ 0 ∧ (hiOf f).val = n * 2 ^ k) ∧ |(hiOf f).val| ≤ 1.16 * |f.val| ∧
      (f - hiOf f - hfsq f).isFinite ∧ |(f - hiOf f - hfsq f).val - (f.val - (hiOf f).val - (hfsq f).val)| ≤ 1 / 2 ^ 34 * |f.val| ∧
      |f.val - (hiOf f).val - (hfsq f).val| ≤ 1.17 / 2 ^ 11 * |f.val| := by
  rcases h0 with h0 | h0
  · have hz : ∀ s, (hiOf (zero f32 s)).isFinite ∧ (hiOf (zero f32 s)).isZero ∧ (zero f32 s - hiOf (zero f32 s) - hfsq (zero f32 s)).isFinite ∧
        (zero f32 s - hiOf (zero f32 s) - hfsq (zero f32 s)).isZero ∧ (hfsq (zero f32 s)).isZero := by decide +kernel
    obtain ⟨s, rfl⟩ : ∃ s, f = zero f32 s := ⟨f.sign, ext_mb (by rw [sign_zero]) (by rw [mb_zero]; exact (isZero_iff f).1 (isZero_val.2 h0))⟩
    obtain ⟨a, b, c, d, e⟩ := hz s
    rw [isZero_val] at b d e
    rw [b, d, e, h0]
    exact ⟨a, ⟨0, 0, by norm_num, by norm_num, by norm_num, by norm_num⟩, by norm_num, c, by norm_num, by norm_num⟩
  norm_num at h1 h2
  have ha1 : |f.val| ≤ 0.41423 := by rw [abs_le]; constructor <;> norm_num <;> linarith
  have hp : 0 < |f.val| := lt_of_lt_of_le (by positivity) h0
  have hsq : |f.val ^ 2 / 2| ≤ 0.20712 * |f.val| := by
    rw [show f.val ^ 2 / 2 = f.val * (f.val / 2) by ring, abs_mul, mul_comm]
    refine mul_le_mul_of_nonneg_right ?_ hp.le
    rw [abs_div]; norm_num at ha1 ⊢; linarith
  have t100 : (2 : ℝ) ^ (-100 : ℤ) ≤ |f.val| := le_trans (by norm_num) h0
  -- half of the square
  obtain ⟨hf, hv⟩ := half_exact ff (ha1.trans (by norm_num)) (Or.inr t100)
  have e : f.val / 2 * f.val = f.val ^ 2 / 2 := by ring
  have hlow : (2 : ℝ) ^ (-110 : ℤ) ≤ |f.val ^ 2 / 2| := by
    have := pow_le_pow_left₀ (by positivity) h0 2
    rw [abs_div, abs_pow]
    norm_num at this ⊢; linarith
  have B0 : (1 : ℝ) ≤ 3 / 2 * 2 ^ (127 : ℤ) := le_trans (by norm_num) (mul_le_mul_of_nonneg_left (one_le_zpow₀ (by norm_num) (by norm_num)) (by norm_num))
  have m := mul_rel32 hf ff (by
    rw [hv, e]; exact (zpow_le_zpow_right₀ (by norm_num) (by norm_num)).trans hlow) (by
    rw [hv, e]; exact le_trans (by norm_num at hsq ha1 ⊢; linarith) B0)
  rw [hv, e] at m
  change (hfsq f).isFinite ∧ |(hfsq f).val - _| ≤ _ at m
  obtain ⟨mf, me⟩ := m
  have hio : hiOf f = Powf.top (f - hfsq f) := rfl
  generalize hfsq f = q at *
  have me' : |q.val - f.val ^ 2 / 2| ≤ 1 / 2 ^ 24 * |f.val| := by
    refine me.trans ?_
    norm_num at hsq ⊢; linarith
  -- the difference
  have s1 : |f.val - q.val| ≤ 1.15 * |f.val| := by
    have h3 : |f.val - f.val ^ 2 / 2| ≤ 1.147 * |f.val| := by
      rw [show f.val - f.val ^ 2 / 2 = f.val * (1 - f.val / 2) by ring, abs_mul, mul_comm]
      refine mul_le_mul_of_nonneg_right ?_ hp.le
      rw [abs_le]; constructor <;> norm_num <;> linarith
    have := abs_sub_le f.val (f.val ^ 2 / 2) q.val
    rw [show f.val - q.val = (f.val - f.val ^ 2 / 2) - (q.val - f.val ^ 2 / 2) by ring]
    refine (abs_sub _ _).trans ?_
    norm_num at h3 me' ⊢; linarith
  obtain ⟨gf, ge⟩ := sub_rel32 ff mf (s1.trans (le_trans (by norm_num at ha1 ⊢; linarith) B0))
  have hn : (2 : ℝ) ^ (-60 : ℤ) ≤ |(f - q).val| := by
    have a1 := abs_sub_abs_le_abs_sub (f.val - q.val) (f - q).val
    rw [abs_sub_comm (f.val - q.val) (f - q).val] at a1
    have a2 := abs_sub_abs_le_abs_sub f.val q.val
    have a3 := abs_sub_abs_le_abs_sub q.val (f.val ^ 2 / 2)
    norm_num at a1 a2 a3 me' hsq ge s1 h0 ⊢
    linarith
  have hg : |(f - q).val| ≤ 1.1501 * |f.val| := by
    have a1 := abs_sub_abs_le_abs_sub (f - q).val (f.val - q.val)
    norm_num at a1 ge s1 ⊢
    linarith
  obtain ⟨cf, ce, n, k, hnb, hnk⟩ := top_spec gf ((zpow_le_zpow_right₀ (by norm_num) (by norm_num)).trans hn)
  rw [← hio] at cf ce hnk
  generalize hiOf f = hi at *
  -- what is left
  have d1 : |f.val - hi.val - q.val| ≤ 1.17 / 2 ^ 11 * |f.val| := by
    have := abs_sub_le (f.val - q.val) (f - q).val hi.val
    rw [abs_sub_comm (f - q).val hi.val, abs_sub_comm (f.val - q.val) (f - q).val] at this
    rw [show f.val - hi.val - q.val = f.val - q.val - hi.val by ring]
    norm_num at this ge s1 ce hg ⊢
    linarith
  have d2 : |f.val - hi.val| ≤ 0.22 * |f.val| := by
    have a1 : |f.val - hi.val| ≤ |f.val - hi.val - q.val| + |q.val| := by
      have := abs_add_le (f.val - hi.val - q.val) q.val
      rwa [_root_.sub_add_cancel] at this
    have a3 := abs_sub_abs_le_abs_sub q.val (f.val ^ 2 / 2)
    norm_num at a1 a3 me' hsq d1 ⊢
    linarith
  have d3 : 0.78 * |f.val| ≤ |hi.val| := by
    have := abs_sub_abs_le_abs_sub f.val hi.val
    norm_num at this d2 ⊢; linarith
  have n0 : (2 : ℝ) ^ (1 - (f32.bias : ℤ)) ≤ 2 ^ (-60 : ℤ) := zpow_le_zpow_right₀ (by norm_num) (by rw [f32_bias]; norm_num)
  obtain ⟨df, dv⟩ := sterbenz_val ff cf (by norm_num at d2; linarith) (by norm_num at d2 d3; linarith)
    (n0.trans (le_trans (by norm_num) h0)) (n0.trans (by norm_num at d3 h0 ⊢; linarith))
  have hhi : |hi.val| ≤ 1.16 * |f.val| := by
    have := abs_sub_abs_le_abs_sub hi.val (f - q).val
    norm_num at this ce hg ⊢; linarith
  obtain ⟨ef, ee⟩ := sub_rel32 df mf (by
    rw [dv]; exact d1.trans (le_trans (by norm_num at ha1 ⊢; linarith) B0))
  rw [dv] at ee
  refine ⟨cf, ⟨n, k, hnb, ?_, ?_, hnk⟩, hhi, ef, ?_, d1⟩
  · by_contra hc
    push Not at hc
    have h3 : |hi.val| ≤ 2 ^ (-45 + 12 : ℤ) := by
      rw [hnk, abs_mul, abs_of_pos (a := (2 : ℝ) ^ k) (by positivity), zpow_add₀ (by norm_num), mul_comm]
      refine mul_le_mul (zpow_le_zpow_right₀ (by norm_num) hc.le) (by exact_mod_cast hnb) (abs_nonneg _) (by positivity)
    norm_num at h3 d3 h0
    linarith
  · by_contra hc
    push Not at hc
    have hn0 : n ≠ 0 := by
      rintro rfl
      rw [Int.cast_zero, zero_mul] at hnk
      rw [hnk, abs_zero] at d3
      norm_num at d3
      linarith
    have h3 : (1 : ℝ) ≤ |hi.val| := by
      rw [hnk, abs_mul, abs_of_pos (a := (2 : ℝ) ^ k) (by positivity)]
      have : (1 : ℝ) ≤ |(n : ℝ)| := by exact_mod_cast Int.one_le_abs hn0
      exact one_le_mul_of_one_le_of_one_le this (one_le_zpow₀ (by norm_num) hc.le)
    norm_num at hhi ha1
    linarith
  · refine ee.trans ?_
    norm_num at d1 ⊢; linarith
end Logf

end Verif
