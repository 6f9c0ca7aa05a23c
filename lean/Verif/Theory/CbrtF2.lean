import Verif.Theory.CbrtF
import Verif.Theory.Hypotf
import Verif.Theory.RplArg
import Verif.Theory.Ulp
import Verif.Props.Erf

/-! # cbrtf: the first approximation in bits, and the result in terms of the real cube root -/

namespace Verif
namespace Cbrtf
open Flt

/-- the sign of one word with the magnitude of another -/
theorem sign_or (w : Flt f32) {h : BitVec 32} (hh : h.toNat < 2 ^ 31) :
    bits32 ((w.u32 &&& 0x80000000#32) ||| h) = mk' f32 w.sign h.toNat := by
  have e1 : (w.u32 &&& 0x80000000#32).toNat = if w.sign then 2 ^ 31 else 0 := by
    have : (0x80000000#32 : BitVec 32) = ~~~0x7fffffff#32 := by decide
    rw [this, BV.and_not_low (k := 31) rfl, u32_toNat]
    have := mb32_lt w
    split_ifs <;> omega
  have e2 : ((w.u32 &&& 0x80000000#32) ||| h).toNat = (if w.sign then 2 ^ 31 else 0) + h.toNat := by
    rw [BV.or_disjoint (k := 31) (by rw [e1]; split_ifs <;> norm_num) hh, e1]
  apply ext_enc
  rw [enc_mk' (by rw [f32_es]; exact hh), f32_es, add_comm]
  exact e2

/-- a number very close to a datum is rounded to it -/
theorem _root_.Verif.rne_of_near {F : Fmt} {q ε : ℝ} {r y : Flt F} (h : IsRNE q r) (hy : y.isFinite) (hq : |q| ≤ 3 / 2 * 2 ^ (F.bias : ℤ))
    (hn : |q - y.val| ≤ ε * |y.val|) (hε : ε * 2 ^ (F.sb + 4) ≤ 1) : r.isFinite ∧ r.val = y.val := by
  obtain ⟨hr, hb, -⟩ := h.finite hq
  refine ⟨hr, ?_⟩
  by_contra hne
  have hb := hb y hy
  have hp0 : (0 : ℝ) < 2 ^ (F.sb + 4) := by positivity
  have hy0 : 0 < |y.val| := by
    rw [abs_pos]; intro h0
    rw [h0, abs_zero, mul_zero, sub_zero] at hn
    have hq0 : q = 0 := abs_eq_zero.1 (le_antisymm hn (abs_nonneg _))
    rw [h0, hq0, sub_zero, sub_zero, abs_zero] at hb
    exact hne (by rw [h0]; exact abs_eq_zero.1 (le_antisymm hb (abs_nonneg _)))
  have hd : |r.val - y.val| ≤ 2 * (ε * |y.val|) := by
    have := abs_add_le (r.val - q) (q - y.val)
    rw [sub_add_sub_cancel] at this
    rw [abs_sub_comm] at hn
    have h3 : |q - y.val| ≤ ε * |y.val| := by rw [abs_sub_comm]; exact hn
    linarith
  obtain ⟨k, k1, k2⟩ := exists_mem_Ico_zpow (y := (2 : ℝ)) hy0 (by norm_num)
  have hsm : 2 * (ε * |y.val|) < 2 ^ (k - 1 - F.sb) := by
    have e1 : (2 : ℝ) ^ (k + 1) = 2 ^ (k - 1 - F.sb) * 2 ^ (F.sb + 4) / 4 := by
      rw [← zpow_natCast, ← zpow_add₀ (by norm_num), eq_div_iff (by norm_num), show (4 : ℝ) = 2 ^ (2 : ℤ) by norm_num, ← zpow_add₀ (by norm_num)]
      congr 1; push_cast; ring
    have e2 : ε * |y.val| * 2 ^ (F.sb + 4) ≤ |y.val| := by
      have := mul_le_mul_of_nonneg_right hε hy0.le
      linarith
    have e3 : 2 * (ε * |y.val|) * 2 ^ (F.sb + 4) < 2 ^ (k - 1 - F.sb) * 2 ^ (F.sb + 4) := by
      have h5 : (0 : ℝ) < 2 ^ (k - 1 - F.sb) * 2 ^ (F.sb + 4) := mul_pos (zp _) hp0
      linarith
    exact lt_of_mul_lt_mul_right e3 hp0.le
  have hr1 : (2 : ℝ) ^ (k - 1) ≤ |r.val| := by
    have h1 : |y.val| - |r.val - y.val| ≤ |r.val| := by
      have := abs_sub_abs_le_abs_sub y.val r.val
      rw [abs_sub_comm] at this; linarith
    have h2 : (2 : ℝ) ^ (k - 1 - F.sb) ≤ 2 ^ (k - 1) := zpow_le_zpow_right₀ (by norm_num) (by omega)
    have h3 : (2 : ℝ) ^ k = 2 * 2 ^ (k - 1) := by
      rw [← zpow_one_add₀ (by norm_num)]; congr 1; ring
    linarith
  obtain ⟨n, hn1⟩ := grid r (k - 1) hr1
  obtain ⟨m, hm1⟩ := grid y (k - 1) (le_trans (zpow_le_zpow_right₀ (by norm_num) (by omega)) k1)
  rw [hn1, hm1, ← sub_mul, abs_mul, abs_of_pos (zp _)] at hd
  rw [hm1] at hsm
  have h6 : |((n : ℝ) - m)| * 2 ^ (k - 1 - F.sb) < 1 * 2 ^ (k - 1 - F.sb) := by linarith
  have h7 := lt_of_mul_lt_mul_right h6 (zp _).le
  have h8 : |n - m| < 1 := by exact_mod_cast h7
  have h9 : n = m := by rw [abs_lt] at h8; omega
  exact hne (by rw [hn1, hm1, h9])

theorem chk {a b : BitVec 32} (h : a.toNat + b.toNat < 2 ^ 32) : ∃ c, chkAdd a b = some c ∧ c.toNat = a.toNat + b.toNat := by
  refine ⟨a + b, ?_, ?_⟩
  · unfold chkAdd
    exact if_pos h
  · rw [BitVec.toNat_add, Nat.mod_eq_of_lt h]

/-- comparing cubes -/
theorem of_cubes {t c : ℝ} (ht : 0 < t) (hc : 0 < c) (h1 : (29 / 30) ^ 3 * c ^ 3 ≤ t ^ 3) (h2 : t ^ 3 ≤ (31 / 30) ^ 3 * c ^ 3) :
    |t - c| ≤ 1 / 30 * c := by
  rw [← mul_pow] at h1 h2
  have a := le_of_pow_le_pow_left₀ (by norm_num) ht.le h1
  have b := le_of_pow_le_pow_left₀ (by norm_num) (by positivity) h2
  rw [abs_le]; constructor <;> linarith

theorem cube_abs {c v : ℝ} (h : c ^ 3 = v) : |c| ^ 3 = |v| := by rw [← abs_pow, h]

/-- the sign of the cube root -/
theorem near_of_abs {t c v : ℝ} (h : c ^ 3 = v) (hs : 0 < t * v) (ha : |(|t| - |c|)| ≤ 1 / 30 * |c|) : |t - c| ≤ 1 / 30 * |c| := by
  have hcv : 0 ≤ c * v := by
    rw [← h, show c * c ^ 3 = (c ^ 2) ^ 2 by ring]; positivity
  rcases lt_trichotomy v 0 with hv | hv | hv
  · have ht : t < 0 := by nlinarith
    have hc : c ≤ 0 := by nlinarith
    rw [abs_of_neg ht, abs_of_nonpos hc, show -t - -c = -(t - c) by ring, abs_neg] at ha
    rwa [abs_of_nonpos hc]
  · rw [hv, mul_zero] at hs; exact absurd hs (lt_irrefl _)
  · have ht : 0 < t := by nlinarith
    have hc : 0 ≤ c := by nlinarith
    rw [abs_of_pos ht, abs_of_nonneg hc] at ha
    rwa [abs_of_nonneg hc]

theorem range {x : Flt f32} (hx : x.isFinite) (h0 : ¬ x.isZero) {c : ℝ} (hc : c ^ 3 = x.val) :
    (2 : ℝ) ^ (-50 : ℤ) ≤ |c| ∧ |c| ≤ 2 ^ (43 : ℤ) := by
  have hc' := cube_abs hc
  have hlo := val_ge_min h0
  have hhi := val_lt_top hx
  rw [f32_bias, f32_sb] at hlo
  rw [f32_bias] at hhi
  constructor
  · refine le_of_pow_le_pow_left₀ (n := 3) (by norm_num) (abs_nonneg c) ?_
    rw [hc']
    refine le_trans ?_ hlo
    norm_num
  · refine le_of_pow_le_pow_left₀ (n := 3) (by norm_num) (by positivity) ?_
    rw [hc']
    refine hhi.le.trans ?_
    norm_num

theorem sign_same {x w : Flt f32} {k : ℝ} (h0 : x.val ≠ 0) (hk : 0 < k) (hv : w.val = x.val * k) : w.sign = x.sign := by
  cases h1 : w.sign <;> cases h2 : x.sign <;> try rfl
  · have a := val_nonneg h1
    have b := lt_of_le_of_ne (val_nonpos h2) h0
    have := mul_neg_of_neg_of_pos b hk
    linarith
  · have a := val_nonpos h1
    have b := lt_of_le_of_ne (val_nonneg h2) h0.symm
    have := mul_pos b hk
    linarith

/-- what is known of the word from which the approximation is taken -/
theorem approx {x w : Flt f32} {b : ℕ} {h : BitVec 32} (hw1 : 2 ^ 23 ≤ w.mb) (hw2 : w.isFinite) (hs : w.sign = x.sign) (x0 : ¬ x.isZero)
    (hb : b ≤ 84) (hv : |w.val| * 2 ^ (3 * ((b : ℤ) - 84)) = |x.val|) (hb2 : 60 ≤ b) (hh : h.toNat = w.mb / 3 + (b * 2 ^ 23 + 5315058)) :
    (bits32 ((w.u32 &&& 0x80000000#32) ||| h)).isFinite ∧ bits32 ((w.u32 &&& 0x80000000#32) ||| h) = mk' f32 x.sign h.toNat ∧
    ∀ c : ℝ, c ^ 3 = x.val → |(bits32 ((w.u32 &&& 0x80000000#32) ||| h)).val - c| ≤ 1 / 30 * |c| := by
  rw [isFinite32] at hw2
  have hlt : h.toNat < 2 ^ 31 := by omega
  rw [sign_or w hlt]
  set t := mk' f32 w.sign h.toNat with htd
  have hmb : t.mb = h.toNat := mb_mk' (by rw [f32_es]; exact hlt)
  have hsg : t.sign = x.sign := by rw [← hs]; exact sign_mk' (by rw [f32_es]; exact hlt)
  have tv : |t.val| = V h.toNat := by
    rw [val_normal32 t (by omega), hmb]; rfl
  have wv : |w.val| = V w.mb := by
    rw [val_normal32 w hw1]; rfl
  refine ⟨by rw [isFinite32, hmb]; omega, by rw [htd, hs], fun c hc => ?_⟩
  have tn : t.val ≠ 0 := by rw [← abs_pos, tv]; exact V_pos _
  have xn : x.val ≠ 0 := fun e => x0 (isZero_val.2 e)
  have cn : 0 < |c| := by rw [abs_pos]; rintro rfl; norm_num at hc; exact xn hc.symm
  have hsv : 0 < t.val * x.val := by
    cases hsx : x.sign
    · exact mul_pos (lt_of_le_of_ne (val_nonneg (hsg.trans hsx)) tn.symm) (lt_of_le_of_ne (val_nonneg hsx) xn.symm)
    · exact mul_pos_of_neg_of_neg (lt_of_le_of_ne (val_nonpos (hsg.trans hsx)) tn) (lt_of_le_of_ne (val_nonpos hsx) xn)
  refine near_of_abs hc hsv (of_cubes (by rw [tv]; exact V_pos _) cn ?_ ?_)
  · rw [cube_abs hc, ← hv, wv, tv, hh]; exact (hack w.mb b).1
  · rw [cube_abs hc, ← hv, wv, tv, hh]; exact (hack w.mb b).2

/-- the magnitude of the first approximation -/
def tmag (x : Flt f32) : ℕ :=
  if x.mb < 2 ^ 23 then (x * bits32 0x4b800000#32).mb / 3 + 642849266 else x.mb / 3 + 709958130

theorem c24 : (bits32 0x4b800000#32).val = 2 ^ 24 := by
  have := val_const32 (x := bits32 0x4b800000#32) 1 173 24 (by decide +kernel) (by norm_num)
  rw [this]; norm_num

theorem small {x : Flt f32} (h : x.mb < 2 ^ 23) : |x.val| < (2 : ℝ) ^ (-126 : ℤ) := by
  have := val_lt_of_mb (F := f32) (x := x) (E := 1) le_rfl (by rw [f32_sb]; omega)
  rw [f32_bias] at this; exact this

/-- a subnormal argument is scaled without error -/
theorem scaled {x : Flt f32} (h : x.mb < 2 ^ 23) : (x * bits32 0x4b800000#32).isFinite ∧ (x * bits32 0x4b800000#32).val = x.val * 2 ^ 24 := by
  have xb := small h
  obtain ⟨d, d1, d2⟩ := Erf.exists_scale_up x 24 (by
    rw [f32_bias]
    calc |x.val| * 2 ^ 24 ≤ (2 : ℝ) ^ (-126 : ℤ) * 2 ^ 24 := by gcongr
      _ < _ := by norm_num)
  obtain ⟨p1, p2⟩ := (mul_rne (x := x) (y := bits32 0x4b800000#32) (by rw [isFinite32]; omega) (by decide +kernel)).exact_real d1 (by rw [d2, c24])
  rw [c24] at p2
  exact ⟨p1, p2⟩

theorem tmag_lt {x : Flt f32} (h : x.isFinite) : tmag x < 2 ^ 31 := by
  unfold tmag
  rw [isFinite32] at h
  split_ifs with h2
  · have := (scaled h2).1
    rw [isFinite32] at this
    omega
  · omega

theorem tmag_neg (x : Flt f32) : tmag (-x) = tmag x := by
  unfold tmag
  rw [mb_neg]
  split_ifs with h
  · have h : (-x * bits32 0x4b800000#32).mb = (x * bits32 0x4b800000#32).mb := by
      rcases Opp.mul (s := true) (t := false) (Opp.neg x) (Opp.refl (bits32 0x4b800000#32)) with h | h
      · rw [h]; exact mb_neg _
      · have := (scaled ‹_›).1
        have h2 := h.1
        rw [isNaN32] at h2; rw [isFinite32] at this; omega
    rw [h]
  · rfl

/-- for a nonzero number the result is a double within 2^-45 of the cube root, rounded to a float -/
theorem main {x : Flt f32} (hx : x.isFinite) (h0 : ¬ x.isZero) :
    ∃ t : Flt f32, t.isFinite ∧ t = mk' f32 x.sign (tmag x) ∧
      cbrtf x = some ((step (x.cast f64) (step (x.cast f64) (t.cast f64))).cast f32) ∧
      ∀ c : ℝ, c ^ 3 = x.val → (step (x.cast f64) (t.cast f64)).isFinite ∧ RA (step (x.cast f64) (step (x.cast f64) (t.cast f64))) c (1 / 2 ^ 45 - 1 / 2 ^ 46 + 1 / 2 ^ 48) := by
  have hfin := hx
  rw [isFinite32] at hx
  have hz : x.mb ≠ 0 := fun e => h0 ((isZero_iff x).2 e)
  have n1 : ¬ (x.u32 &&& 0x7fffffff#32) ≥ 0x7f800000#32 := by
    rw [ge_iff_le, BitVec.le_def, u32_abs]
    simp only [BitVec.ofNat_eq_ofNat, BitVec.reduceToNat]; omega
  have n2 : ¬ (x.u32 &&& 0x7fffffff#32) = 0#32 := fun h => by
    have := congrArg BitVec.toNat h
    rw [u32_abs] at this
    exact hz this
  have key : ∀ (w : Flt f32) (b : ℕ) (B : BitVec 32), 2 ^ 23 ≤ w.mb → w.isFinite → w.sign = x.sign → b ≤ 84 → 60 ≤ b →
      |w.val| * 2 ^ (3 * ((b : ℤ) - 84)) = |x.val| → B.toNat = b * 2 ^ 23 + 5315058 → tmag x = w.mb / 3 + (b * 2 ^ 23 + 5315058) →
      (∃ t : Flt f32, t.isFinite ∧ t = mk' f32 x.sign (tmag x) ∧
      ((chkAdd ((w.u32 &&& 0x7fffffff#32) / 3#32) B).map fun h =>
        (step (x.cast f64) (step (x.cast f64) ((bits32 ((w.u32 &&& 0x80000000#32) ||| h)).cast f64))).cast f32) =
        some ((step (x.cast f64) (step (x.cast f64) (t.cast f64))).cast f32) ∧
      ∀ c : ℝ, c ^ 3 = x.val → (step (x.cast f64) (t.cast f64)).isFinite ∧ RA (step (x.cast f64) (step (x.cast f64) (t.cast f64))) c (1 / 2 ^ 45 - 1 / 2 ^ 46 + 1 / 2 ^ 48)) := by
    intro w b B k1 k2 k3 k4 k5 k6 k7 k8
    have e3 : ((w.u32 &&& 0x7fffffff#32) / 3#32).toNat = w.mb / 3 := by
      rw [BitVec.toNat_udiv, u32_abs]; rfl
    have := mb32_lt w
    obtain ⟨h, q1, q2⟩ := chk (a := (w.u32 &&& 0x7fffffff#32) / 3#32) (b := B) (by rw [e3, k7]; omega)
    rw [e3, k7] at q2
    obtain ⟨a1, a2, a3⟩ := approx (x := x) k1 k2 k3 h0 k4 k6 k5 q2
    refine ⟨_, a1, by rw [a2, q2, k8], by rw [q1, Option.map_some], fun c hc => ?_⟩
    obtain ⟨r1, r2⟩ := range hfin h0 hc
    obtain ⟨f1, f2⟩ := Hypotf.widen hfin
    obtain ⟨g1, g2⟩ := Hypotf.widen a1
    refine two_steps f1 (by rw [f2, hc]) g1 (le_trans (zpow_le_zpow_right₀ (by norm_num) (by norm_num)) r1)
      (r2.trans (zpow_le_zpow_right₀ (by norm_num) (by norm_num))) ?_
    rw [g2]
    exact a3 c hc
  unfold cbrtf
  simp only [if_neg n1, if_neg n2]
  by_cases hsub : (x.u32 &&& 0x7fffffff#32) < 0x00800000#32
  · simp only [hsub, decide_true, if_true]
    have hs : x.mb < 2 ^ 23 := by
      rw [BitVec.lt_def, u32_abs] at hsub; exact hsub
    obtain ⟨p1, p2⟩ := scaled hs
    have xm : (2 : ℝ) ^ (-149 : ℤ) ≤ |x.val| := by
      have := val_ge_min h0
      rw [f32_bias, f32_sb] at this; exact this
    refine key (x * bits32 0x4b800000#32) 76 642849266#32 ?_ p1 ?_ (by norm_num) (by norm_num) ?_ rfl (if_pos hs)
    · by_contra hc
      have := val_lt_of_mb (F := f32) (x := x * bits32 0x4b800000#32) (E := 1) le_rfl (by rw [f32_sb]; omega)
      rw [p2, f32_bias, abs_mul, abs_of_pos (by positivity : (0 : ℝ) < 2 ^ 24)] at this
      have h2 : (2 : ℝ) ^ (-149 : ℤ) * 2 ^ 24 ≤ |x.val| * 2 ^ 24 := by gcongr
      have h3 : (2 : ℝ) ^ (((1 : ℕ) : ℤ) - ((127 : ℕ) : ℤ)) ≤ (2 : ℝ) ^ (-149 : ℤ) * 2 ^ 24 := by norm_num
      linarith
    · have xn : x.val ≠ 0 := fun e => h0 (isZero_val.2 e)
      exact sign_same xn (by norm_num) p2
    · rw [p2, abs_mul, abs_of_pos (by positivity : (0 : ℝ) < 2 ^ 24), mul_assoc]
      norm_num
  · have hs : 2 ^ 23 ≤ x.mb := by
      rw [BitVec.lt_def, u32_abs] at hsub
      simp only [BitVec.ofNat_eq_ofNat, BitVec.reduceToNat] at hsub
      omega
    simp only [hsub, decide_false, if_false, Bool.false_eq_true]
    exact key x 84 709958130#32 hs hfin rfl le_rfl (by norm_num) (by norm_num) rfl (if_neg (by omega))

end Cbrtf
end Verif
