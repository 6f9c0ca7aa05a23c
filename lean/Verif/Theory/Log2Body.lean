import Verif.Theory.LogHi
import Verif.Props.Exp10Sat

/-!
# `log2`, `log10`, `log2f`, `log10f`: the sum before the last rounding
-/

namespace Verif
open Flt

/-- the reciprocal of a logarithm, from an approximation of the logarithm -/
theorem inv_near {c l l0 e δ : ℝ} (hl : |l - l0| ≤ e) (h1 : 0.69 ≤ l) (hc0 : 0 ≤ c) (hc : |c * l0 - 1| + c * e ≤ δ * 0.69) : |c - 1 / l| ≤ δ := by
  have hp : 0 < l := by norm_num at h1; linarith
  have e1 : c - 1 / l = (c * l - 1) / l := by field_simp
  have h2 : |c * l - 1| ≤ δ * 0.69 := by
    have : c * l - 1 = (c * l0 - 1) + c * (l - l0) := by ring
    rw [this]
    refine (abs_add_le _ _).trans ?_
    rw [abs_mul, abs_of_nonneg hc0]
    have := mul_le_mul_of_nonneg_left hl hc0
    linarith
  have hδ : 0 ≤ δ := by
    have := (abs_nonneg _).trans h2
    norm_num at this; linarith
  rw [e1, abs_div, abs_of_pos hp, div_le_iff₀ hp]
  exact h2.trans (mul_le_mul_of_nonneg_left h1 hδ)

theorem log2_ge : 0.69 ≤ Real.log 2 := by have := Num.log2_gt; norm_num at this ⊢; linarith
theorem log10_ge : 0.69 ≤ Real.log 10 := by
  have := abs_le.1 Num.log10_near; norm_num at this ⊢; linarith [this.1]

namespace Log
theorem ivln2hi_val : ivln2hi.val = (3098164009 : ℝ) * 2 ^ (-31 : ℤ) := by
  rw [val_const64 (x := ivln2hi) (3098164009) 1043 (-31) (by decide +kernel) (by norm_num)]; norm_num
theorem ivln2lo_val : ivln2lo.val = (12657236604881 : ℝ) * 2 ^ (-76 : ℤ) := by
  rw [val_const64 (x := ivln2lo) (12657236604881) 998 (-76) (by decide +kernel) (by norm_num)]; norm_num
theorem ivln10hi_val : ivln10hi.val = (3730561193 : ℝ) * 2 ^ (-33 : ℤ) := by
  rw [val_const64 (x := ivln10hi) (3730561193) 1041 (-33) (by decide +kernel) (by norm_num)]; norm_num
theorem ivln10lo_val : ivln10lo.val = (7762796009401813 : ℝ) * 2 ^ (-88 : ℤ) := by
  rw [val_const64 (x := ivln10lo) (7762796009401813) 986 (-88) (by decide +kernel) (by norm_num)]; norm_num
theorem log10_2hi_val : log10_2hi.val = (661971961083 : ℝ) * 2 ^ (-41 : ℤ) := by
  rw [val_const64 (x := log10_2hi) (661971961083) 1033 (-41) (by decide +kernel) (by norm_num)]; norm_num
theorem log10_2lo_val : log10_2lo.val = (3658597174646171 : ℝ) * 2 ^ (-93 : ℤ) := by
  rw [val_const64 (x := log10_2lo) (3658597174646171) 981 (-93) (by decide +kernel) (by norm_num)]; norm_num
theorem iv2_split : |ivln2hi.val + ivln2lo.val - 1 / Real.log 2| ≤ (65 / 2 ^ 72) := by
  rw [ivln2hi_val, ivln2lo_val]
  refine inv_near Num.log2_near log2_ge (by norm_num) ?_
  norm_num [abs_of_pos, abs_of_neg]
theorem iv10_split : |ivln10hi.val + ivln10lo.val - 1 / Real.log 10| ≤ (65 / 2 ^ 72) := by
  rw [ivln10hi_val, ivln10lo_val]
  refine inv_near Num.log10_near log10_ge (by norm_num) ?_
  norm_num [abs_of_pos, abs_of_neg]
theorem l10_split : |log10_2hi.val + log10_2lo.val - Real.log 2 / Real.log 10| ≤ (65 / 2 ^ 74) := by
  have a := Num.log10_near
  have b := Num.log2_near
  have hp : (2 : ℝ) ≤ Real.log 10 := by have := abs_le.1 a; norm_num at this ⊢; linarith [this.1]
  rw [log10_2hi_val, log10_2lo_val]
  have e : ∀ c : ℝ, c - Real.log 2 / Real.log 10 = (c * Real.log 10 - Real.log 2) / Real.log 10 := fun c => by field_simp
  rw [e, abs_div, abs_of_pos (by linarith : 0 < Real.log 10), div_le_iff₀ (by linarith)]
  rw [abs_le] at a b ⊢
  have h2 : (65 / 2 ^ 74) * 2 ≤ (65 / 2 ^ 74) * Real.log 10 := mul_le_mul_of_nonneg_left hp (by norm_num)
  norm_num at a b h2 ⊢
  constructor <;> linarith [a.1, a.2, b.1, b.2]
variable {f : Flt f64} {k : ℤ}
/-- the leading product is exact -/
theorem vh2_exact (ff : f.isFinite) (h1 : -0.29291 ≤ f.val) (h2 : f.val ≤ 0.41423) (h0 : f.val = 0 ∨ 1 / 2 ^ 53 ≤ |f.val|) :
    (hiOf f * ivln2hi).isFinite ∧ (hiOf f * ivln2hi).val = (hiOf f).val * ivln2hi.val := by
  obtain ⟨hf, ⟨n, j, hn, hj1, hj2, hv⟩, -⟩ := hi_spec ff h1 h2 h0
  obtain ⟨c, cf, cv⟩ := exists_val64' (n := n * 3098164009) (k := j + (-31)) (by
    rw [abs_mul]
    refine (mul_le_mul hn (by norm_num : |(3098164009 : ℤ)| ≤ 3098164009) (abs_nonneg _) (by norm_num)).trans (by norm_num)) (by omega) (by omega)
  have hr := (mul_rne hf (by decide +kernel : ivln2hi.isFinite)).exact_real cf (by
    rw [cv, hv, ivln2hi_val, zpow_add₀ (by norm_num)]; push_cast; ring)
  exact hr
/-- the leading product is exact -/
theorem vh10_exact (ff : f.isFinite) (h1 : -0.29291 ≤ f.val) (h2 : f.val ≤ 0.41423) (h0 : f.val = 0 ∨ 1 / 2 ^ 53 ≤ |f.val|) :
    (hiOf f * ivln10hi).isFinite ∧ (hiOf f * ivln10hi).val = (hiOf f).val * ivln10hi.val := by
  obtain ⟨hf, ⟨n, j, hn, hj1, hj2, hv⟩, -⟩ := hi_spec ff h1 h2 h0
  obtain ⟨c, cf, cv⟩ := exists_val64' (n := n * 3730561193) (k := j + (-33)) (by
    rw [abs_mul]
    refine (mul_le_mul hn (by norm_num : |(3730561193 : ℤ)| ≤ 3730561193) (abs_nonneg _) (by norm_num)).trans (by norm_num)) (by omega) (by omega)
  have hr := (mul_rne hf (by decide +kernel : ivln10hi.isFinite)).exact_real cf (by
    rw [cv, hv, ivln10hi_val, zpow_add₀ (by norm_num)]; push_cast; ring)
  exact hr
theorem y10_exact (hk : |k| ≤ 1100) : (ofInt f64 k * log10_2hi).isFinite ∧ (ofInt f64 k * log10_2hi).val = k * log10_2hi.val := by
  obtain ⟨kf, kv⟩ := Pow.ofInt_val (n := k) (hk.trans (by norm_num))
  obtain ⟨c, cf, cv⟩ := exists_val64' (n := k * 661971961083) (k := -41) (by
    rw [abs_mul]
    refine (mul_le_mul hk (by norm_num : |(661971961083 : ℤ)| ≤ 661971961083) (abs_nonneg _) (by norm_num)).trans (by norm_num)) (by omega) (by omega)
  have hr := (mul_rne kf (by decide +kernel : log10_2hi.isFinite)).exact_real cf (by
    rw [cv, kv, log10_2hi_val]; push_cast; ring)
  rw [kv] at hr
  exact hr

set_option maxHeartbeats 1000000 in
theorem hilo (ff : f.isFinite) (h1 : -0.29291 ≤ f.val) (h2 : f.val ≤ 0.41423) (h0 : f.val = 0 ∨ 1 / 2 ^ 53 ≤ |f.val|) :
    (hiOf f).isFinite ∧ |(hiOf f).val| ≤ (5503 / 2 ^ 14) ∧ Ap (loOf f) (f.val - f.val ^ 2 / 2 + w f.val - (hiOf f).val) (2763 / 2 ^ 67) (2383 / 2 ^ 17) := by
  have t100 : f.val = 0 ∨ (2 : ℝ) ^ (-100 : ℤ) ≤ |f.val| := h0.imp_right (fun h => le_trans (by norm_num) h)
  obtain ⟨hh, hc⟩ := core1 ff h1 h2 t100
  obtain ⟨a1, -, -, a4, a5, a6⟩ := hi_spec ff h1 h2 h0
  unfold loOf
  generalize hiOf f = hi at *
  generalize sOf f * (hfsq f + rOf (sOf f)) = c at *
  generalize f - hi - hfsq f = d at *
  generalize hfsq f = h at *
  have ha : |f.val| ≤ 0.41423 := by rw [abs_le]; norm_num at h1 h2 ⊢; constructor <;> linarith
  have he := hh.err
  have hd : Ap d (f.val - hi.val - f.val ^ 2 / 2) (4097 / 2 ^ 69) (7941 / 2 ^ 34) := by
    refine ⟨a4, ?_, ?_⟩
    · have := abs_add_le (d.val - (f.val - hi.val - h.val)) (-(h.val - f.val ^ 2 / 2))
      rw [abs_neg, show d.val - (f.val - hi.val - h.val) + -(h.val - f.val ^ 2 / 2) = d.val - (f.val - hi.val - f.val ^ 2 / 2) by ring] at this
      refine this.trans ?_
      norm_num at a5 he ha ⊢
      linarith
    · have := abs_sub_abs_le_abs_sub d.val (f.val - hi.val - h.val)
      norm_num at this a5 a6 ha ⊢
      linarith
  refine ⟨a1, ?_, ?_⟩
  · have q1 : |f.val - f.val ^ 2 / 2| ≤ 0.33581 := by
      norm_num at h1 h2
      rw [abs_le]; constructor <;> norm_num <;> nlinarith
    have := abs_le.1 he
    have := abs_le.1 a6
    have := abs_le.1 q1
    rw [abs_le]
    norm_num at *
    constructor <;> linarith
  · clear he a4 a5 a6 hh h0 t100 h1 h2
    have hlo := Ap.add hd hc (-5) (by norm_num) (by norm_num) (g := (2763 / 2 ^ 67)) (D := (2383 / 2 ^ 17)) (by norm_num) (by norm_num)
    exact ⟨hlo.fin, by
      have := hlo.err
      rwa [show f.val - hi.val - f.val ^ 2 / 2 + w f.val = f.val - f.val ^ 2 / 2 + w f.val - hi.val by ring] at this, hlo.bd⟩

theorem y2_two (hk : |k| ≤ 1100) (ff : f.isFinite) (h1 : -0.29291 ≤ f.val) (h2 : f.val ≤ 0.41423) (h0 : f.val = 0 ∨ 1 / 2 ^ 53 ≤ |f.val|) :
    (ofInt f64 k + hiOf f * ivln2hi).isFinite ∧ ((ofInt f64 k - (ofInt f64 k + hiOf f * ivln2hi)) + hiOf f * ivln2hi).isFinite ∧
      ((ofInt f64 k - (ofInt f64 k + hiOf f * ivln2hi)) + hiOf f * ivln2hi).val = (k : ℝ) + (hiOf f).val * ivln2hi.val - (ofInt f64 k + hiOf f * ivln2hi).val ∧
      |(k : ℝ) + (hiOf f).val * ivln2hi.val - (ofInt f64 k + hiOf f * ivln2hi).val| ≤ 1 / 2 ^ 42 ∧
      (k = 0 → (ofInt f64 k + hiOf f * ivln2hi).val = (hiOf f).val * ivln2hi.val) := by
  obtain ⟨yf, yv⟩ := Pow.ofInt_val (n := k) (hk.trans (by norm_num))
  obtain ⟨vf, vv⟩ := vh2_exact ff h1 h2 h0
  have hb := (hilo ff h1 h2 h0).2.1
  rw [← vv, ← yv]
  have hv : |(hiOf f * ivln2hi).val| ≤ 0.499 := by
    rw [vv, ivln2hi_val, abs_mul]
    norm_num at hb ⊢; linarith
  generalize hiOf f * ivln2hi = v at *
  generalize ofInt f64 k = y at *
  have hk' : |(k : ℝ)| ≤ 1100 := by exact_mod_cast hk
  by_cases hk0 : k = 0
  · have y0 : y.val = 0 := by rw [yv, hk0]; norm_num
    obtain ⟨wf, wv⟩ := (add_rne yf vf).exact_real vf (by rw [y0, _root_.zero_add])
    rw [y0, _root_.zero_add] at wv
    generalize y + v = w at *
    obtain ⟨uf, uv⟩ := (sub_rne yf wf).exact_real ((isFinite_neg v).2 vf) (by rw [y0, wv, val_neg, zero_sub])
    rw [y0, wv, zero_sub] at uv
    generalize y - w = z at *
    obtain ⟨tf, tv⟩ := (add_rne uf vf).exact_real (z := zero f64 false) (isFinite_zero _) (by rw [uv, val_zero]; ring)
    rw [uv, neg_add_cancel] at tv
    refine ⟨wf, tf, ?_, ?_, fun _ => wv⟩
    · rw [tv, y0, wv]; ring
    · rw [y0, wv, _root_.zero_add, sub_self, abs_zero]; positivity
  · have hk1 : (1 : ℝ) ≤ |(k : ℝ)| := by exact_mod_cast Int.one_le_abs hk0
    have hya : |y.val| = |(k : ℝ)| := by
      rw [yv]
    
    obtain ⟨c1, c2, c3, c4⟩ := fast2 yf vf (by rw [hya]; norm_num at hv ⊢; linarith) (by rw [hya]; norm_num; linarith) (by rw [hya]; norm_num; linarith)
    exact ⟨c1, c2, c3, c4, fun h => absurd h hk0⟩

theorem lin2 {x h : ℝ}  (h1 : -0.29291 ≤ x) (h2 : x ≤ 0.41423) :
    |((x - x ^ 2 / 2 + w x - h + h) * ivln2lo.val + (x - x ^ 2 / 2 + w x - h) * ivln2hi.val) + h * ivln2hi.val
      - (Real.log (1 + x) / Real.log 2)| ≤ (2969 / 2 ^ 71) := by
  have a := w_log h1 h2
  have l := log_red_bd h1 h2
  have s := iv2_split
  generalize x - x ^ 2 / 2 + w x = L at *
  generalize Real.log (1 + x) = l0 at *
  have hc : |ivln2hi.val + ivln2lo.val| ≤ (5913 / 2 ^ 12) := by
    rw [ivln2hi_val, ivln2lo_val, abs_le]; constructor <;> norm_num
  have e : (L - h + h) * ivln2lo.val + (L - h) * ivln2hi.val + h * ivln2hi.val - l0 / Real.log 2
      = (L - l0) * (ivln2hi.val + ivln2lo.val) + l0 * (ivln2hi.val + ivln2lo.val - 1 / Real.log 2) := by ring
  rw [e]
  refine (abs_add_le _ _).trans ?_
  rw [abs_mul, abs_mul]
  refine (add_le_add (mul_le_mul a hc (abs_nonneg _) (by norm_num)) (mul_le_mul l s (abs_nonneg _) (by norm_num))).trans (by norm_num)

set_option maxHeartbeats 1000000 in
theorem abs2 (hk : |k| ≤ 1100) (ff : f.isFinite) (h1 : -0.29291 ≤ f.val) (h2 : f.val ≤ 0.41423) (h0 : f.val = 0 ∨ 1 / 2 ^ 53 ≤ |f.val|) :
    ∃ q : ℝ, IsRNE q (body2 f k) ∧ |q - (Real.log (1 + f.val) / Real.log 2 + k)| ≤ (2471 / 2 ^ 66) := by
  obtain ⟨wf, rf, rv, rb, -⟩ := y2_two hk ff h1 h2 h0
  obtain ⟨hf, hb, hlo⟩ := hilo ff h1 h2 h0
  obtain ⟨kf, kv⟩ := Pow.ofInt_val (n := k) (hk.trans (by norm_num))
  have hk' : |(k : ℝ)| ≤ 1100 := by exact_mod_cast hk
  have hdk : Ap (ofInt f64 k) k 0 1100 := .exact kf kv hk'
  have hhi : Ap (hiOf f) (hiOf f).val 0 (5503 / 2 ^ 14) := .exact hf rfl hb
  have hl := lin2 (x := f.val) (h := (hiOf f).val) h1 h2 
  have e : body2 f k = ((loOf f + hiOf f) * ivln2lo + loOf f * ivln2hi + ((ofInt f64 k - (ofInt f64 k + hiOf f * ivln2hi)) + hiOf f * ivln2hi)) + (ofInt f64 k + hiOf f * ivln2hi) := rfl
  rw [e]
  have hr : Ap ((ofInt f64 k - (ofInt f64 k + hiOf f * ivln2hi)) + hiOf f * ivln2hi) _ 0 (1 / 2 ^ 42) := .exact rf rv rb
  clear rf rv rb e
  generalize (ofInt f64 k - (ofInt f64 k + hiOf f * ivln2hi)) + hiOf f * ivln2hi = r at *
  generalize ofInt f64 k + hiOf f * ivln2hi = W at *
  generalize loOf f = lo at *
  generalize hiOf f = hi at *
  
  have hih : Ap ivln2hi ivln2hi.val 0 (2955 / 2 ^ 11) := .exact (by decide +kernel) rfl (by rw [ivln2hi_val, abs_le]; constructor <;> norm_num)
  have hil : Ap ivln2lo ivln2lo.val 0 (2947 / 2 ^ 44) := .exact (by decide +kernel) rfl (by rw [ivln2lo_val, abs_le]; constructor <;> norm_num)
  have hlh := Ap.add hlo hhi (-1) (by norm_num) (by norm_num) (g := (6859 / 2 ^ 67)) (D := (5801 / 2 ^ 14)) (by norm_num) (by norm_num)
  have hm1 := Ap.mul hlh hil (-33) (by norm_num) (by norm_num) (by norm_num) (g := (1129 / 2 ^ 96)) (D := (2087 / 2 ^ 45)) (by norm_num) (by norm_num)
  have hm2 := Ap.mul hlo hih (-5) (by norm_num) (by norm_num) (by norm_num) (g := (4243 / 2 ^ 67)) (D := (6877 / 2 ^ 18)) (by norm_num) (by norm_num)
  have hvl := Ap.add hm1 hm2 (-5) (by norm_num) (by norm_num) (g := (1125 / 2 ^ 65)) (D := (3439 / 2 ^ 17)) (by norm_num) (by norm_num)
  have hq := Ap.add hvl hr (-5) (by norm_num) (by norm_num) (g := (1189 / 2 ^ 65)) (D := (6879 / 2 ^ 18)) (by norm_num) (by norm_num)
  refine ⟨_, add_rne hq.fin wf, ?_⟩
  have he := hq.err
  refine le_trans ?_ ((add_le_add he hl).trans (by norm_num))
  refine le_trans (le_of_eq ?_) (abs_add_le _ _)
  congr 1
  ring

theorem y10_two (hk : |k| ≤ 1100) (ff : f.isFinite) (h1 : -0.29291 ≤ f.val) (h2 : f.val ≤ 0.41423) (h0 : f.val = 0 ∨ 1 / 2 ^ 53 ≤ |f.val|) :
    (ofInt f64 k * log10_2hi + hiOf f * ivln10hi).isFinite ∧ ((ofInt f64 k * log10_2hi - (ofInt f64 k * log10_2hi + hiOf f * ivln10hi)) + hiOf f * ivln10hi).isFinite ∧
      ((ofInt f64 k * log10_2hi - (ofInt f64 k * log10_2hi + hiOf f * ivln10hi)) + hiOf f * ivln10hi).val = k * log10_2hi.val + (hiOf f).val * ivln10hi.val - (ofInt f64 k * log10_2hi + hiOf f * ivln10hi).val ∧
      |k * log10_2hi.val + (hiOf f).val * ivln10hi.val - (ofInt f64 k * log10_2hi + hiOf f * ivln10hi).val| ≤ 1 / 2 ^ 42 ∧
      (k = 0 → (ofInt f64 k * log10_2hi + hiOf f * ivln10hi).val = (hiOf f).val * ivln10hi.val) := by
  obtain ⟨yf, yv⟩ := y10_exact hk
  obtain ⟨vf, vv⟩ := vh10_exact ff h1 h2 h0
  have hb := (hilo ff h1 h2 h0).2.1
  rw [← vv, ← yv]
  have hv : |(hiOf f * ivln10hi).val| ≤ 0.15 := by
    rw [vv, ivln10hi_val, abs_mul]
    norm_num at hb ⊢; linarith
  generalize hiOf f * ivln10hi = v at *
  generalize ofInt f64 k * log10_2hi = y at *
  have hk' : |(k : ℝ)| ≤ 1100 := by exact_mod_cast hk
  by_cases hk0 : k = 0
  · have y0 : y.val = 0 := by rw [yv, hk0]; norm_num
    obtain ⟨wf, wv⟩ := (add_rne yf vf).exact_real vf (by rw [y0, _root_.zero_add])
    rw [y0, _root_.zero_add] at wv
    generalize y + v = w at *
    obtain ⟨uf, uv⟩ := (sub_rne yf wf).exact_real ((isFinite_neg v).2 vf) (by rw [y0, wv, val_neg, zero_sub])
    rw [y0, wv, zero_sub] at uv
    generalize y - w = z at *
    obtain ⟨tf, tv⟩ := (add_rne uf vf).exact_real (z := zero f64 false) (isFinite_zero _) (by rw [uv, val_zero]; ring)
    rw [uv, neg_add_cancel] at tv
    refine ⟨wf, tf, ?_, ?_, fun _ => wv⟩
    · rw [tv, y0, wv]; ring
    · rw [y0, wv, _root_.zero_add, sub_self, abs_zero]; positivity
  · have hk1 : (1 : ℝ) ≤ |(k : ℝ)| := by exact_mod_cast Int.one_le_abs hk0
    have hya : |y.val| = |(k : ℝ)| * log10_2hi.val := by
      rw [yv, abs_mul, abs_of_pos (a := log10_2hi.val) (by rw [log10_2hi_val]; norm_num)]
    rw [log10_2hi_val] at hya
    obtain ⟨c1, c2, c3, c4⟩ := fast2 yf vf (by rw [hya]; norm_num at hv ⊢; linarith) (by rw [hya]; norm_num; linarith) (by rw [hya]; norm_num; linarith)
    exact ⟨c1, c2, c3, c4, fun h => absurd h hk0⟩

theorem lin10 {x h : ℝ} {κ : ℝ} (h1 : -0.29291 ≤ x) (h2 : x ≤ 0.41423) :
    |(κ * log10_2lo.val + (x - x ^ 2 / 2 + w x - h + h) * ivln10lo.val + (x - x ^ 2 / 2 + w x - h) * ivln10hi.val) + h * ivln10hi.val + κ * log10_2hi.val
      - (Real.log (1 + x) / Real.log 10 + κ * (Real.log 2 / Real.log 10))| ≤ (7213 / 2 ^ 74) + |κ| * (65 / 2 ^ 74) := by
  have a := w_log h1 h2
  have l := log_red_bd h1 h2
  have s := iv10_split
  generalize x - x ^ 2 / 2 + w x = L at *
  generalize Real.log (1 + x) = l0 at *
  have hc : |ivln10hi.val + ivln10lo.val| ≤ (445 / 2 ^ 10) := by
    rw [ivln10hi_val, ivln10lo_val, abs_le]; constructor <;> norm_num
  have s2 := l10_split
  have e : κ * log10_2lo.val + (L - h + h) * ivln10lo.val + (L - h) * ivln10hi.val + h * ivln10hi.val + κ * log10_2hi.val - (l0 / Real.log 10 + κ * (Real.log 2 / Real.log 10))
      = (L - l0) * (ivln10hi.val + ivln10lo.val) + l0 * (ivln10hi.val + ivln10lo.val - 1 / Real.log 10) + κ * (log10_2hi.val + log10_2lo.val - Real.log 2 / Real.log 10) := by ring
  rw [e]
  refine (abs_add_le _ _).trans ((add_le_add_left (abs_add_le _ _) _).trans ?_)
  rw [abs_mul, abs_mul, abs_mul]
  refine (add_le_add (add_le_add (mul_le_mul a hc (abs_nonneg _) (by norm_num)) (mul_le_mul l s (abs_nonneg _) (by norm_num))) (mul_le_mul_of_nonneg_left s2 (abs_nonneg _))).trans (_root_.add_le_add_left (by norm_num) _)

set_option maxHeartbeats 1000000 in
theorem abs10 (hk : |k| ≤ 1100) (ff : f.isFinite) (h1 : -0.29291 ≤ f.val) (h2 : f.val ≤ 0.41423) (h0 : f.val = 0 ∨ 1 / 2 ^ 53 ≤ |f.val|) :
    ∃ q : ℝ, IsRNE q (body10 f k) ∧ |q - (Real.log (1 + f.val) / Real.log 10 + k * (Real.log 2 / Real.log 10))| ≤ (1641 / 2 ^ 67) + |(k : ℝ)| * (65 / 2 ^ 74) := by
  obtain ⟨wf, rf, rv, rb, -⟩ := y10_two hk ff h1 h2 h0
  obtain ⟨hf, hb, hlo⟩ := hilo ff h1 h2 h0
  obtain ⟨kf, kv⟩ := Pow.ofInt_val (n := k) (hk.trans (by norm_num))
  have hk' : |(k : ℝ)| ≤ 1100 := by exact_mod_cast hk
  have hdk : Ap (ofInt f64 k) k 0 1100 := .exact kf kv hk'
  have hhi : Ap (hiOf f) (hiOf f).val 0 (5503 / 2 ^ 14) := .exact hf rfl hb
  have hl := lin10 (x := f.val) (h := (hiOf f).val) h1 h2 (κ := k)
  have e : body10 f k = (ofInt f64 k * log10_2lo + (loOf f + hiOf f) * ivln10lo + loOf f * ivln10hi + ((ofInt f64 k * log10_2hi - (ofInt f64 k * log10_2hi + hiOf f * ivln10hi)) + hiOf f * ivln10hi)) + (ofInt f64 k * log10_2hi + hiOf f * ivln10hi) := rfl
  rw [e]
  have hr : Ap ((ofInt f64 k * log10_2hi - (ofInt f64 k * log10_2hi + hiOf f * ivln10hi)) + hiOf f * ivln10hi) _ 0 (1 / 2 ^ 42) := .exact rf rv rb
  clear rf rv rb e
  generalize (ofInt f64 k * log10_2hi - (ofInt f64 k * log10_2hi + hiOf f * ivln10hi)) + hiOf f * ivln10hi = r at *
  generalize ofInt f64 k * log10_2hi + hiOf f * ivln10hi = W at *
  generalize loOf f = lo at *
  generalize hiOf f = hi at *
  generalize ofInt f64 k = dk at *
  have hih : Ap ivln10hi ivln10hi.val 0 (1779 / 2 ^ 12) := .exact (by decide +kernel) rfl (by rw [ivln10hi_val, abs_le]; constructor <;> norm_num)
  have hil : Ap ivln10lo ivln10lo.val 0 (7061 / 2 ^ 48) := .exact (by decide +kernel) rfl (by rw [ivln10lo_val, abs_le]; constructor <;> norm_num)
  have hll : Ap log10_2lo log10_2lo.val 0 (6655 / 2 ^ 54) := .exact (by decide +kernel) rfl (by rw [log10_2lo_val, abs_le]; constructor <;> norm_num)
  have hm0 := Ap.mul hdk hll (-31) (by norm_num) (by norm_num) (by norm_num) (g := (1 / 2 ^ 85)) (D := (7149 / 2 ^ 44)) (by norm_num) (by norm_num)
  have hlh := Ap.add hlo hhi (-1) (by norm_num) (by norm_num) (g := (6859 / 2 ^ 67)) (D := (5801 / 2 ^ 14)) (by norm_num) (by norm_num)
  have hm1 := Ap.mul hlh hil (-36) (by norm_num) (by norm_num) (by norm_num) (g := (5005 / 2 ^ 101)) (D := (5001 / 2 ^ 49)) (by norm_num) (by norm_num)
  have hm01 := Ap.add hm0 hm1 (-31) (by norm_num) (by norm_num) (g := (4253 / 2 ^ 96)) (D := (3653 / 2 ^ 43)) (by norm_num) (by norm_num)
  have hm2 := Ap.mul hlo hih (-6) (by norm_num) (by norm_num) (by norm_num) (g := (5313 / 2 ^ 69)) (D := (1035 / 2 ^ 17)) (by norm_num) (by norm_num)
  have hvl := Ap.add hm01 hm2 (-6) (by norm_num) (by norm_num) (g := (2913 / 2 ^ 68)) (D := (4141 / 2 ^ 19)) (by norm_num) (by norm_num)
  have hq := Ap.add hvl hr (-6) (by norm_num) (by norm_num) (g := (3169 / 2 ^ 68)) (D := (2071 / 2 ^ 18)) (by norm_num) (by norm_num)
  refine ⟨_, add_rne hq.fin wf, ?_⟩
  have he := hq.err
  refine le_trans ?_ ((add_le_add he hl).trans (by norm_num [← add_assoc]))
  refine le_trans (le_of_eq ?_) (abs_add_le _ _)
  congr 1
  ring

theorem w_rel {x : ℝ} (h : |x| ≤ 0.2) : |x - x ^ 2 / 2 + w x - Real.log (1 + x)| ≤ 0.56 * (1 / 2 ^ 58 * 1.01) * |x| := by
  have hf := abs_le.1 h
  have hs : |x / (2 + x)| ≤ 0.56 * |x| := by
    norm_num at hf
    rw [abs_div, abs_of_pos (by linarith : 0 < 2 + x), div_le_iff₀ (by linarith)]
    norm_num
    nlinarith [abs_nonneg x]
  have a := approx (f := x) (s := x / (2 + x)) (by norm_num at hf; linarith) rfl (hs.trans (by norm_num at h ⊢; linarith))
  have h2 : (2 : ℝ) + x ≠ 0 := by norm_num at hf; linarith
  have e : x - x ^ 2 / 2 + w x = 2 * (x / (2 + x)) + x / (2 + x) * ((x / (2 + x)) ^ 2 * Poly.ev poly ((x / (2 + x)) ^ 2)) := by
    unfold w
    generalize Poly.ev poly ((x / (2 + x)) ^ 2) = P
    field_simp
    ring
  rw [← e] at a
  refine a.trans ((mul_le_mul_of_nonneg_right hs (by norm_num)).trans (le_of_eq (by ring)))

theorem _root_.Verif.log_upper {x : ℝ} (h : |x| ≤ 0.2) : |Real.log (1 + x)| ≤ 1.25 * |x| := by
  have hf := abs_le.1 h
  norm_num at hf
  rcases le_total 0 x with h0 | h0
  · have := Real.log_le_sub_one_of_pos (x := 1 + x) (by linarith)
    rw [abs_of_nonneg (Real.log_nonneg (by linarith)), abs_of_nonneg h0]
    norm_num; linarith
  · have := Real.one_sub_inv_le_log_of_pos (x := 1 + x) (by linarith)
    rw [abs_of_nonpos (Real.log_nonpos (by linarith) (by linarith)), abs_of_nonpos h0]
    have h3 : (1 + x)⁻¹ - 1 ≤ 1.25 * -x := by
      rw [inv_eq_one_div, sub_le_iff_le_add, div_le_iff₀ (by linarith)]
      norm_num
      nlinarith
    linarith

set_option maxHeartbeats 1000000 in
theorem rel2 (ff : f.isFinite) (h : |f.val| ≤ 0.2) (h0 : 1 / 2 ^ 53 ≤ |f.val|) :
    ∃ (q : ℝ), IsRNE q (body2 f 0) ∧ |q - Real.log (1 + f.val) / Real.log 2| ≤ (2707 / 2 ^ 66) * |Real.log (1 + f.val) / Real.log 2| := by
  have hab := abs_le.1 h
  have h1 : -0.29291 ≤ f.val := by norm_num at hab ⊢; linarith [hab.1]
  have h2 : f.val ≤ 0.41423 := by norm_num at hab ⊢; linarith [hab.2]
  obtain ⟨hh, hc⟩ := core3 ff h (le_trans ((zpow_le_zpow_right₀ (by norm_num) (by norm_num : (-900 : ℤ) ≤ -53)).trans (by norm_num)) h0) (le_trans (by norm_num) h0)
  obtain ⟨a1, -, a3, a4, a5, a6⟩ := hi_spec ff h1 h2 (Or.inr h0)
  obtain ⟨vf, vv⟩ := vh2_exact ff h1 h2 (Or.inr h0)
  have hw := w_rel h
  have hup := log_upper h
  have hlw := log_lower h
  have hs := iv2_split
  have hlb : 0 < Real.log 2 := Real.log_pos (by norm_num)
  have hl2 : Real.log 2 ≤ 0.693148 := by have := abs_le.1 Num.log2_near; norm_num at this ⊢; linarith [this.2]
  obtain ⟨wf, rf, rv, rb, wz⟩ := y2_two (k := 0) (by norm_num) ff h1 h2 (Or.inr h0)
  have wz := wz rfl
  have rz : ((ofInt f64 0 - (ofInt f64 0 + hiOf f * ivln2hi)) + hiOf f * ivln2hi).val = 0 := by
    rw [rv, wz]; push_cast; ring
  have e : body2 f 0 = ((loOf f + hiOf f) * ivln2lo + loOf f * ivln2hi + ((ofInt f64 0 - (ofInt f64 0 + hiOf f * ivln2hi)) + hiOf f * ivln2hi)) + (ofInt f64 0 + hiOf f * ivln2hi) := rfl
  rw [e]
  have hr : As |f.val| ((ofInt f64 0 - (ofInt f64 0 + hiOf f * ivln2hi)) + hiOf f * ivln2hi) 0 0 0 := .exact rf rz (by norm_num)
  clear rf rv rb e rz
  generalize (ofInt f64 0 - (ofInt f64 0 + hiOf f * ivln2hi)) + hiOf f * ivln2hi = r at *
  generalize ofInt f64 0 + hiOf f * ivln2hi = W at *
  unfold loOf
  generalize hiOf f * ivln2hi = vh at *
  generalize hiOf f = hi at *
  generalize sOf f * (hfsq f + rOf (sOf f)) = c at *
  generalize f - hi - hfsq f = d at *
  generalize hfsq f = g at *
  have he := hh.err
  have hd : As |f.val| d (f.val - hi.val - f.val ^ 2 / 2) (3281 / 2 ^ 68) (2417 / 2 ^ 31) := by
    refine ⟨a4, ?_, ?_⟩
    · have := abs_add_le (d.val - (f.val - hi.val - g.val)) (-(g.val - f.val ^ 2 / 2))
      rw [abs_neg, show d.val - (f.val - hi.val - g.val) + -(g.val - f.val ^ 2 / 2) = d.val - (f.val - hi.val - f.val ^ 2 / 2) by ring] at this
      refine this.trans ?_
      norm_num at a5 he ⊢
      linarith [abs_nonneg f.val]
    · have := abs_sub_abs_le_abs_sub d.val (f.val - hi.val - g.val)
      norm_num at this a5 a6 ⊢
      linarith [abs_nonneg f.val]
  have hhi : As |f.val| hi hi.val 0 (297 / 2 ^ 8) := .exact a1 rfl (a3.trans (mul_le_mul_of_nonneg_right (by norm_num) (abs_nonneg _)))
  have ht0 : 0 ≤ |f.val| := abs_nonneg _
  have ht1 : |f.val| ≤ 1 := h.trans (by norm_num)
  have ht : (2 : ℝ) ^ (-900 : ℤ) ≤ |f.val| := le_trans ((zpow_le_zpow_right₀ (by norm_num) (by norm_num : (-900 : ℤ) ≤ -53)).trans (by norm_num)) h0
  clear he a4 a5 a6 hh h1 h2 hab
  have hlo := As64.add ht0 ht1 hd hc (by norm_num) (by norm_num) (g := (961 / 2 ^ 65)) (D := (4173 / 2 ^ 18)) (by norm_num) (by norm_num)
  have hih : As 1 ivln2hi ivln2hi.val 0 (2955 / 2 ^ 11) := .exact (by decide +kernel) rfl (by rw [ivln2hi_val, abs_le]; constructor <;> norm_num)
  have hil : As 1 ivln2lo ivln2lo.val 0 (2947 / 2 ^ 44) := .exact (by decide +kernel) rfl (by rw [ivln2lo_val, abs_le]; constructor <;> norm_num)
  have hlh := As64.add ht0 ht1 hlo hhi (by norm_num) (by norm_num) (g := (5779 / 2 ^ 65)) (D := (2409 / 2 ^ 11)) (by norm_num) (by norm_num)
  have hm1 := As64.mul ht ht1 hlh hil (by norm_num) (by norm_num) (by norm_num) (by norm_num) (g := (7625 / 2 ^ 97)) (D := (6933 / 2 ^ 45)) (by norm_num) (by norm_num)
  have hm2 := As64.mul ht ht1 hlo hih (by norm_num) (by norm_num) (by norm_num) (by norm_num) (g := (5923 / 2 ^ 67)) (D := (3011 / 2 ^ 17)) (by norm_num) (by norm_num)
  have hvl := As64.add ht0 ht1 hm1 hm2 (by norm_num) (by norm_num) (g := (1575 / 2 ^ 65)) (D := (6023 / 2 ^ 18)) (by norm_num) (by norm_num)
  have hq := As64.add ht0 ht1 hvl hr (by norm_num) (by norm_num) (g := (6677 / 2 ^ 67)) (D := (753 / 2 ^ 15)) (by norm_num) (by norm_num)
  refine ⟨_, add_rne hq.fin wf, ?_⟩
  have he := hq.err
  rw [wz]
  generalize (d + c + hi) * ivln2lo + (d + c) * ivln2hi + r = Q at *
  have e1 : Q.val + hi.val * ivln2hi.val - Real.log (1 + f.val) / Real.log 2
      = (Q.val - ((f.val - hi.val - f.val ^ 2 / 2 + w f.val + hi.val) * ivln2lo.val + (f.val - hi.val - f.val ^ 2 / 2 + w f.val) * ivln2hi.val + 0))
        + ((f.val - f.val ^ 2 / 2 + w f.val - Real.log (1 + f.val)) * (ivln2hi.val + ivln2lo.val) + Real.log (1 + f.val) * (ivln2hi.val + ivln2lo.val - 1 / Real.log 2)) := by ring
  have hc2 : |ivln2hi.val + ivln2lo.val| ≤ (5913 / 2 ^ 12) := by
    rw [ivln2hi_val, ivln2lo_val, abs_le]; constructor <;> norm_num
  have h5 : |Q.val + hi.val * ivln2hi.val - Real.log (1 + f.val) / Real.log 2| ≤ (3549 / 2 ^ 66) * |f.val| := by
    rw [e1]
    refine (abs_add_le _ _).trans ((add_le_add he (abs_add_le _ _)).trans ?_)
    rw [abs_mul, abs_mul]
    refine (add_le_add le_rfl (add_le_add (mul_le_mul hw hc2 (abs_nonneg _) (by positivity)) (mul_le_mul hup hs (abs_nonneg _) (by positivity)))).trans ?_
    generalize |f.val| = t at *
    norm_num
    linarith
  refine h5.trans ?_
  rw [abs_div, abs_of_pos hlb, mul_div_assoc', le_div_iff₀ hlb]
  have h6 := mul_le_mul_of_nonneg_left hl2 (mul_nonneg (by norm_num : (0 : ℝ) ≤ (3549 / 2 ^ 66)) ht0)
  refine h6.trans ?_
  norm_num at hlw ⊢
  linarith

set_option maxHeartbeats 1000000 in
theorem rel10 (ff : f.isFinite) (h : |f.val| ≤ 0.2) (h0 : 1 / 2 ^ 53 ≤ |f.val|) :
    ∃ (q : ℝ), IsRNE q (body10 f 0) ∧ |q - Real.log (1 + f.val) / Real.log 10| ≤ (2709 / 2 ^ 66) * |Real.log (1 + f.val) / Real.log 10| := by
  have hab := abs_le.1 h
  have h1 : -0.29291 ≤ f.val := by norm_num at hab ⊢; linarith [hab.1]
  have h2 : f.val ≤ 0.41423 := by norm_num at hab ⊢; linarith [hab.2]
  obtain ⟨hh, hc⟩ := core3 ff h (le_trans ((zpow_le_zpow_right₀ (by norm_num) (by norm_num : (-900 : ℤ) ≤ -53)).trans (by norm_num)) h0) (le_trans (by norm_num) h0)
  obtain ⟨a1, -, a3, a4, a5, a6⟩ := hi_spec ff h1 h2 (Or.inr h0)
  obtain ⟨vf, vv⟩ := vh10_exact ff h1 h2 (Or.inr h0)
  have hw := w_rel h
  have hup := log_upper h
  have hlw := log_lower h
  have hs := iv10_split
  have hlb : 0 < Real.log 10 := Real.log_pos (by norm_num)
  have hl2 : Real.log 10 ≤ 2.302586 := by have := abs_le.1 Num.log10_near; norm_num at this ⊢; linarith [this.2]
  obtain ⟨wf, rf, rv, rb, wz⟩ := y10_two (k := 0) (by norm_num) ff h1 h2 (Or.inr h0)
  have wz := wz rfl
  have rz : ((ofInt f64 0 * log10_2hi - (ofInt f64 0 * log10_2hi + hiOf f * ivln10hi)) + hiOf f * ivln10hi).val = 0 := by
    rw [rv, wz]; push_cast; ring
  have e : body10 f 0 = (ofInt f64 0 * log10_2lo + (loOf f + hiOf f) * ivln10lo + loOf f * ivln10hi + ((ofInt f64 0 * log10_2hi - (ofInt f64 0 * log10_2hi + hiOf f * ivln10hi)) + hiOf f * ivln10hi)) + (ofInt f64 0 * log10_2hi + hiOf f * ivln10hi) := rfl
  rw [e]
  have hr : As |f.val| ((ofInt f64 0 * log10_2hi - (ofInt f64 0 * log10_2hi + hiOf f * ivln10hi)) + hiOf f * ivln10hi) 0 0 0 := .exact rf rz (by norm_num)
  clear rf rv rb e rz
  generalize (ofInt f64 0 * log10_2hi - (ofInt f64 0 * log10_2hi + hiOf f * ivln10hi)) + hiOf f * ivln10hi = r at *
  generalize ofInt f64 0 * log10_2hi + hiOf f * ivln10hi = W at *
  have hm0 : As |f.val| (ofInt f64 0 * log10_2lo) 0 0 0 := .exact (by decide +kernel) (isZero_val.1 (by decide +kernel)) (by norm_num)
  generalize ofInt f64 0 * log10_2lo = m0 at *
  unfold loOf
  generalize hiOf f * ivln10hi = vh at *
  generalize hiOf f = hi at *
  generalize sOf f * (hfsq f + rOf (sOf f)) = c at *
  generalize f - hi - hfsq f = d at *
  generalize hfsq f = g at *
  have he := hh.err
  have hd : As |f.val| d (f.val - hi.val - f.val ^ 2 / 2) (3281 / 2 ^ 68) (2417 / 2 ^ 31) := by
    refine ⟨a4, ?_, ?_⟩
    · have := abs_add_le (d.val - (f.val - hi.val - g.val)) (-(g.val - f.val ^ 2 / 2))
      rw [abs_neg, show d.val - (f.val - hi.val - g.val) + -(g.val - f.val ^ 2 / 2) = d.val - (f.val - hi.val - f.val ^ 2 / 2) by ring] at this
      refine this.trans ?_
      norm_num at a5 he ⊢
      linarith [abs_nonneg f.val]
    · have := abs_sub_abs_le_abs_sub d.val (f.val - hi.val - g.val)
      norm_num at this a5 a6 ⊢
      linarith [abs_nonneg f.val]
  have hhi : As |f.val| hi hi.val 0 (297 / 2 ^ 8) := .exact a1 rfl (a3.trans (mul_le_mul_of_nonneg_right (by norm_num) (abs_nonneg _)))
  have ht0 : 0 ≤ |f.val| := abs_nonneg _
  have ht1 : |f.val| ≤ 1 := h.trans (by norm_num)
  have ht : (2 : ℝ) ^ (-900 : ℤ) ≤ |f.val| := le_trans ((zpow_le_zpow_right₀ (by norm_num) (by norm_num : (-900 : ℤ) ≤ -53)).trans (by norm_num)) h0
  clear he a4 a5 a6 hh h1 h2 hab
  have hlo := As64.add ht0 ht1 hd hc (by norm_num) (by norm_num) (g := (961 / 2 ^ 65)) (D := (4173 / 2 ^ 18)) (by norm_num) (by norm_num)
  have hih : As 1 ivln10hi ivln10hi.val 0 (1779 / 2 ^ 12) := .exact (by decide +kernel) rfl (by rw [ivln10hi_val, abs_le]; constructor <;> norm_num)
  have hil : As 1 ivln10lo ivln10lo.val 0 (7061 / 2 ^ 48) := .exact (by decide +kernel) rfl (by rw [ivln10lo_val, abs_le]; constructor <;> norm_num)
  have hlh := As64.add ht0 ht1 hlo hhi (by norm_num) (by norm_num) (g := (5779 / 2 ^ 65)) (D := (2409 / 2 ^ 11)) (by norm_num) (by norm_num)
  have hm1 := As64.mul ht ht1 hlh hil (by norm_num) (by norm_num) (by norm_num) (by norm_num) (g := (4567 / 2 ^ 99)) (D := (4153 / 2 ^ 47)) (by norm_num) (by norm_num)
  have hm01 := As64.add ht0 ht1 hm0 hm1 (by norm_num) (by norm_num) (g := (1661 / 2 ^ 97)) (D := (2077 / 2 ^ 46)) (by norm_num) (by norm_num)
  have hm2 := As64.mul ht ht1 hlo hih (by norm_num) (by norm_num) (by norm_num) (by norm_num) (g := (1783 / 2 ^ 67)) (D := (3625 / 2 ^ 19)) (by norm_num) (by norm_num)
  have hvl := As64.add ht0 ht1 hm01 hm2 (by norm_num) (by norm_num) (g := (3793 / 2 ^ 68)) (D := (7251 / 2 ^ 20)) (by norm_num) (by norm_num)
  have hq := As64.add ht0 ht1 hvl hr (by norm_num) (by norm_num) (g := (1005 / 2 ^ 66)) (D := (1813 / 2 ^ 18)) (by norm_num) (by norm_num)
  refine ⟨_, add_rne hq.fin wf, ?_⟩
  have he := hq.err
  rw [wz]
  generalize m0 + (d + c + hi) * ivln10lo + (d + c) * ivln10hi + r = Q at *
  have e1 : Q.val + hi.val * ivln10hi.val - Real.log (1 + f.val) / Real.log 10
      = (Q.val - (0 + (f.val - hi.val - f.val ^ 2 / 2 + w f.val + hi.val) * ivln10lo.val + (f.val - hi.val - f.val ^ 2 / 2 + w f.val) * ivln10hi.val + 0))
        + ((f.val - f.val ^ 2 / 2 + w f.val - Real.log (1 + f.val)) * (ivln10hi.val + ivln10lo.val) + Real.log (1 + f.val) * (ivln10hi.val + ivln10lo.val - 1 / Real.log 10)) := by ring
  have hc2 : |ivln10hi.val + ivln10lo.val| ≤ (445 / 2 ^ 10) := by
    rw [ivln10hi_val, ivln10lo_val, abs_le]; constructor <;> norm_num
  have h5 : |Q.val + hi.val * ivln10hi.val - Real.log (1 + f.val) / Real.log 10| ≤ (4277 / 2 ^ 68) * |f.val| := by
    rw [e1]
    refine (abs_add_le _ _).trans ((add_le_add he (abs_add_le _ _)).trans ?_)
    rw [abs_mul, abs_mul]
    refine (add_le_add le_rfl (add_le_add (mul_le_mul hw hc2 (abs_nonneg _) (by positivity)) (mul_le_mul hup hs (abs_nonneg _) (by positivity)))).trans ?_
    generalize |f.val| = t at *
    norm_num
    linarith
  refine h5.trans ?_
  rw [abs_div, abs_of_pos hlb, mul_div_assoc', le_div_iff₀ hlb]
  have h6 := mul_le_mul_of_nonneg_left hl2 (mul_nonneg (by norm_num : (0 : ℝ) ≤ (4277 / 2 ^ 68)) ht0)
  refine h6.trans ?_
  norm_num at hlw ⊢
  linarith
end Log

namespace Logf
theorem ivln2hi_val : ivln2hi.val = (2955 : ℝ) * 2 ^ (-11 : ℤ) := by
  rw [val_const32 (x := ivln2hi) (2955) 138 (-11) (by decide +kernel) (by norm_num)]; norm_num
theorem ivln2lo_val : ivln2lo.val = (-3024565 : ℝ) * 2 ^ (-34 : ℤ) := by
  rw [val_const32 (x := ivln2lo) (-3024565) 115 (-34) (by decide +kernel) (by norm_num)]; norm_num
theorem ivln10hi_val : ivln10hi.val = (1779 : ℝ) * 2 ^ (-12 : ℤ) := by
  rw [val_const32 (x := ivln10hi) (1779) 137 (-12) (by decide +kernel) (by norm_num)]; norm_num
theorem ivln10lo_val : ivln10lo.val = (-8710873 : ℝ) * 2 ^ (-38 : ℤ) := by
  rw [val_const32 (x := ivln10lo) (-8710873) 111 (-38) (by decide +kernel) (by norm_num)]; norm_num
theorem log10_2hi_val : log10_2hi.val = (78913 : ℝ) * 2 ^ (-18 : ℤ) := by
  rw [val_const32 (x := log10_2hi) (78913) 131 (-18) (by decide +kernel) (by norm_num)]; norm_num
theorem log10_2lo_val : log10_2lo.val = (13903835 : ℝ) * 2 ^ (-44 : ℤ) := by
  rw [val_const32 (x := log10_2lo) (13903835) 105 (-44) (by decide +kernel) (by norm_num)]; norm_num
theorem iv2_split : |ivln2hi.val + ivln2lo.val - 1 / Real.log 2| ≤ (63 / 2 ^ 43) := by
  rw [ivln2hi_val, ivln2lo_val]
  refine inv_near Num.log2_near log2_ge (by norm_num) ?_
  norm_num [abs_of_pos, abs_of_neg]
theorem iv10_split : |ivln10hi.val + ivln10lo.val - 1 / Real.log 10| ≤ (45 / 2 ^ 45) := by
  rw [ivln10hi_val, ivln10lo_val]
  refine inv_near Num.log10_near log10_ge (by norm_num) ?_
  norm_num [abs_of_pos, abs_of_neg]
theorem l10_split : |log10_2hi.val + log10_2lo.val - Real.log 2 / Real.log 10| ≤ (65 / 2 ^ 48) := by
  have a := Num.log10_near
  have b := Num.log2_near
  have hp : (2 : ℝ) ≤ Real.log 10 := by have := abs_le.1 a; norm_num at this ⊢; linarith [this.1]
  rw [log10_2hi_val, log10_2lo_val]
  have e : ∀ c : ℝ, c - Real.log 2 / Real.log 10 = (c * Real.log 10 - Real.log 2) / Real.log 10 := fun c => by field_simp
  rw [e, abs_div, abs_of_pos (by linarith : 0 < Real.log 10), div_le_iff₀ (by linarith)]
  rw [abs_le] at a b ⊢
  have h2 : (65 / 2 ^ 48) * 2 ≤ (65 / 2 ^ 48) * Real.log 10 := mul_le_mul_of_nonneg_left hp (by norm_num)
  norm_num at a b h2 ⊢
  constructor <;> linarith [a.1, a.2, b.1, b.2]
variable {f : Flt f32} {k : ℤ}
/-- the leading product is exact -/
theorem vh2_exact (ff : f.isFinite) (h1 : -0.29291 ≤ f.val) (h2 : f.val ≤ 0.41423) (h0 : f.val = 0 ∨ 1 / 2 ^ 25 ≤ |f.val|) :
    (hiOf f * ivln2hi).isFinite ∧ (hiOf f * ivln2hi).val = (hiOf f).val * ivln2hi.val := by
  obtain ⟨hf, ⟨n, j, hn, hj1, hj2, hv⟩, -⟩ := hi_spec ff h1 h2 h0
  obtain ⟨c, cf, cv⟩ := exists_val32' (n := n * 2955) (k := j + (-11)) (by
    rw [abs_mul]
    refine (mul_le_mul hn (by norm_num : |(2955 : ℤ)| ≤ 2955) (abs_nonneg _) (by norm_num)).trans (by norm_num)) (by omega) (by omega)
  have hr := (mul_rne hf (by decide +kernel : ivln2hi.isFinite)).exact_real cf (by
    rw [cv, hv, ivln2hi_val, zpow_add₀ (by norm_num)]; push_cast; ring)
  exact hr
/-- the leading product is exact -/
theorem vh10_exact (ff : f.isFinite) (h1 : -0.29291 ≤ f.val) (h2 : f.val ≤ 0.41423) (h0 : f.val = 0 ∨ 1 / 2 ^ 25 ≤ |f.val|) :
    (hiOf f * ivln10hi).isFinite ∧ (hiOf f * ivln10hi).val = (hiOf f).val * ivln10hi.val := by
  obtain ⟨hf, ⟨n, j, hn, hj1, hj2, hv⟩, -⟩ := hi_spec ff h1 h2 h0
  obtain ⟨c, cf, cv⟩ := exists_val32' (n := n * 1779) (k := j + (-12)) (by
    rw [abs_mul]
    refine (mul_le_mul hn (by norm_num : |(1779 : ℤ)| ≤ 1779) (abs_nonneg _) (by norm_num)).trans (by norm_num)) (by omega) (by omega)
  have hr := (mul_rne hf (by decide +kernel : ivln10hi.isFinite)).exact_real cf (by
    rw [cv, hv, ivln10hi_val, zpow_add₀ (by norm_num)]; push_cast; ring)
  exact hr
theorem y10_exact (hk : |k| ≤ 160) : (ofInt f32 k * log10_2hi).isFinite ∧ (ofInt f32 k * log10_2hi).val = k * log10_2hi.val := by
  obtain ⟨kf, kv⟩ := Powf.ofInt_val (n := k) (hk.trans (by norm_num))
  obtain ⟨c, cf, cv⟩ := exists_val32' (n := k * 78913) (k := -18) (by
    rw [abs_mul]
    refine (mul_le_mul hk (by norm_num : |(78913 : ℤ)| ≤ 78913) (abs_nonneg _) (by norm_num)).trans (by norm_num)) (by omega) (by omega)
  have hr := (mul_rne kf (by decide +kernel : log10_2hi.isFinite)).exact_real cf (by
    rw [cv, kv, log10_2hi_val]; push_cast; ring)
  rw [kv] at hr
  exact hr

set_option maxHeartbeats 1000000 in
theorem hilo (ff : f.isFinite) (h1 : -0.29291 ≤ f.val) (h2 : f.val ≤ 0.41423) (h0 : f.val = 0 ∨ 1 / 2 ^ 25 ≤ |f.val|) :
    (hiOf f).isFinite ∧ |(hiOf f).val| ≤ (5509 / 2 ^ 14) ∧ Ap32 (loOf f) (f.val - f.val ^ 2 / 2 + w f.val - (hiOf f).val) (5539 / 2 ^ 39) (1207 / 2 ^ 16) := by
  have t100 : f.val = 0 ∨ (2 : ℝ) ^ (-100 : ℤ) ≤ |f.val| := h0.imp_right (fun h => le_trans (by norm_num) h)
  obtain ⟨hh, hc⟩ := core1 ff h1 h2 t100
  obtain ⟨a1, -, -, a4, a5, a6⟩ := hi_spec ff h1 h2 h0
  unfold loOf
  generalize hiOf f = hi at *
  generalize sOf f * (hfsq f + rOf (sOf f)) = c at *
  generalize f - hi - hfsq f = d at *
  generalize hfsq f = h at *
  have ha : |f.val| ≤ 0.41423 := by rw [abs_le]; norm_num at h1 h2 ⊢; constructor <;> linarith
  have he := hh.err
  have hd : Ap32 d (f.val - hi.val - f.val ^ 2 / 2) (4123 / 2 ^ 40) (7941 / 2 ^ 25) := by
    refine ⟨a4, ?_, ?_⟩
    · have := abs_add_le (d.val - (f.val - hi.val - h.val)) (-(h.val - f.val ^ 2 / 2))
      rw [abs_neg, show d.val - (f.val - hi.val - h.val) + -(h.val - f.val ^ 2 / 2) = d.val - (f.val - hi.val - f.val ^ 2 / 2) by ring] at this
      refine this.trans ?_
      norm_num at a5 he ha ⊢
      linarith
    · have := abs_sub_abs_le_abs_sub d.val (f.val - hi.val - h.val)
      norm_num at this a5 a6 ha ⊢
      linarith
  refine ⟨a1, ?_, ?_⟩
  · have q1 : |f.val - f.val ^ 2 / 2| ≤ 0.33581 := by
      norm_num at h1 h2
      rw [abs_le]; constructor <;> norm_num <;> nlinarith
    have := abs_le.1 he
    have := abs_le.1 a6
    have := abs_le.1 q1
    rw [abs_le]
    norm_num at *
    constructor <;> linarith
  · clear he a4 a5 a6 hh h0 t100 h1 h2
    have hlo := Ap32.add hd hc (-5) (by norm_num) (by norm_num) (g := (5539 / 2 ^ 39)) (D := (1207 / 2 ^ 16)) (by norm_num) (by norm_num)
    exact ⟨hlo.fin, by
      have := hlo.err
      rwa [show f.val - hi.val - f.val ^ 2 / 2 + w f.val = f.val - f.val ^ 2 / 2 + w f.val - hi.val by ring] at this, hlo.bd⟩

theorem lin2 {x h : ℝ}  (h1 : -0.29291 ≤ x) (h2 : x ≤ 0.41423) :
    |((x - x ^ 2 / 2 + w x - h + h) * ivln2lo.val + (x - x ^ 2 / 2 + w x - h) * ivln2hi.val) + h * ivln2hi.val
      - (Real.log (1 + x) / Real.log 2)| ≤ (6615 / 2 ^ 48) := by
  have a := w_log h1 h2
  have l := log_red_bd h1 h2
  have s := iv2_split
  generalize x - x ^ 2 / 2 + w x = L at *
  generalize Real.log (1 + x) = l0 at *
  have hc : |ivln2hi.val + ivln2lo.val| ≤ (5913 / 2 ^ 12) := by
    rw [ivln2hi_val, ivln2lo_val, abs_le]; constructor <;> norm_num
  have e : (L - h + h) * ivln2lo.val + (L - h) * ivln2hi.val + h * ivln2hi.val - l0 / Real.log 2
      = (L - l0) * (ivln2hi.val + ivln2lo.val) + l0 * (ivln2hi.val + ivln2lo.val - 1 / Real.log 2) := by ring
  rw [e]
  refine (abs_add_le _ _).trans ?_
  rw [abs_mul, abs_mul]
  refine (add_le_add (mul_le_mul a hc (abs_nonneg _) (by norm_num)) (mul_le_mul l s (abs_nonneg _) (by norm_num))).trans (by norm_num)

set_option maxHeartbeats 1000000 in
theorem abs2 (hk : |k| ≤ 160) (ff : f.isFinite) (h1 : -0.29291 ≤ f.val) (h2 : f.val ≤ 0.41423) (h0 : f.val = 0 ∨ 1 / 2 ^ 25 ≤ |f.val|) :
    ∃ v : Flt f32, v.isFinite ∧ body2 f k = v + hiOf f * ivln2hi + ofInt f32 k ∧
      |v.val + (hiOf f).val * ivln2hi.val - (Real.log (1 + f.val) / Real.log 2)| ≤ (4519 / 2 ^ 38) := by
  obtain ⟨hf, hb, hlo⟩ := hilo ff h1 h2 h0
  obtain ⟨kf, kv⟩ := Powf.ofInt_val (n := k) (hk.trans (by norm_num))
  have hk' : |(k : ℝ)| ≤ 160 := by exact_mod_cast hk
  have hdk : Ap32 (ofInt f32 k) k 0 160 := .exact kf kv hk'
  have hhi : Ap32 (hiOf f) (hiOf f).val 0 (5509 / 2 ^ 14) := .exact hf rfl hb
  have hl := lin2 (x := f.val) (h := (hiOf f).val) h1 h2 
  refine ⟨(loOf f + hiOf f) * ivln2lo + loOf f * ivln2hi, ?_⟩
  unfold body2
  generalize loOf f = lo at *
  generalize hiOf f = hi at *
  
  have hih : Ap32 ivln2hi ivln2hi.val 0 (2955 / 2 ^ 11) := .exact (by decide +kernel) rfl (by rw [ivln2hi_val, abs_le]; constructor <;> norm_num)
  have hil : Ap32 ivln2lo ivln2lo.val 0 (1477 / 2 ^ 23) := .exact (by decide +kernel) rfl (by rw [ivln2lo_val, abs_le]; constructor <;> norm_num)
  have hlh := Ap32.add hlo hhi (-1) (by norm_num) (by norm_num) (g := (3433 / 2 ^ 37)) (D := (5811 / 2 ^ 14)) (by norm_num) (by norm_num)
  have hm1 := Ap32.mul hlh hil (-13) (by norm_num) (by norm_num) (by norm_num) (g := (1131 / 2 ^ 47)) (D := (4191 / 2 ^ 26)) (by norm_num) (by norm_num)
  have hm2 := Ap32.mul hlo hih (-5) (by norm_num) (by norm_num) (by norm_num) (g := (4253 / 2 ^ 38)) (D := (6967 / 2 ^ 18)) (by norm_num) (by norm_num)
  have hvl := Ap32.add hm1 hm2 (-5) (by norm_num) (by norm_num) (g := (141 / 2 ^ 33)) (D := (873 / 2 ^ 15)) (by norm_num) (by norm_num)
  refine ⟨hvl.fin, rfl, ?_⟩
  have he := hvl.err
  refine le_trans ?_ ((add_le_add he hl).trans (by norm_num))
  refine le_trans (le_of_eq ?_) (abs_add_le _ _)
  congr 1
  ring

theorem lin10 {x h : ℝ} {κ : ℝ} (h1 : -0.29291 ≤ x) (h2 : x ≤ 0.41423) :
    |(κ * log10_2lo.val + (x - x ^ 2 / 2 + w x - h + h) * ivln10lo.val + (x - x ^ 2 / 2 + w x - h) * ivln10hi.val) + h * ivln10hi.val + κ * log10_2hi.val
      - (Real.log (1 + x) / Real.log 10 + κ * (Real.log 2 / Real.log 10))| ≤ (7623 / 2 ^ 50) + |κ| * (65 / 2 ^ 48) := by
  have a := w_log h1 h2
  have l := log_red_bd h1 h2
  have s := iv10_split
  generalize x - x ^ 2 / 2 + w x = L at *
  generalize Real.log (1 + x) = l0 at *
  have hc : |ivln10hi.val + ivln10lo.val| ≤ (445 / 2 ^ 10) := by
    rw [ivln10hi_val, ivln10lo_val, abs_le]; constructor <;> norm_num
  have s2 := l10_split
  have e : κ * log10_2lo.val + (L - h + h) * ivln10lo.val + (L - h) * ivln10hi.val + h * ivln10hi.val + κ * log10_2hi.val - (l0 / Real.log 10 + κ * (Real.log 2 / Real.log 10))
      = (L - l0) * (ivln10hi.val + ivln10lo.val) + l0 * (ivln10hi.val + ivln10lo.val - 1 / Real.log 10) + κ * (log10_2hi.val + log10_2lo.val - Real.log 2 / Real.log 10) := by ring
  rw [e]
  refine (abs_add_le _ _).trans ((add_le_add_left (abs_add_le _ _) _).trans ?_)
  rw [abs_mul, abs_mul, abs_mul]
  refine (add_le_add (add_le_add (mul_le_mul a hc (abs_nonneg _) (by norm_num)) (mul_le_mul l s (abs_nonneg _) (by norm_num))) (mul_le_mul_of_nonneg_left s2 (abs_nonneg _))).trans (_root_.add_le_add_left (by norm_num) _)

set_option maxHeartbeats 1000000 in
theorem abs10 (hk : |k| ≤ 160) (ff : f.isFinite) (h1 : -0.29291 ≤ f.val) (h2 : f.val ≤ 0.41423) (h0 : f.val = 0 ∨ 1 / 2 ^ 25 ≤ |f.val|) :
    ∃ v : Flt f32, v.isFinite ∧ body10 f k = v + hiOf f * ivln10hi + ofInt f32 k * log10_2hi ∧
      |v.val + (hiOf f).val * ivln10hi.val + k * log10_2hi.val - (Real.log (1 + f.val) / Real.log 10 + k * (Real.log 2 / Real.log 10))| ≤ (2931 / 2 ^ 39) + |(k : ℝ)| * (65 / 2 ^ 48) := by
  obtain ⟨hf, hb, hlo⟩ := hilo ff h1 h2 h0
  obtain ⟨kf, kv⟩ := Powf.ofInt_val (n := k) (hk.trans (by norm_num))
  have hk' : |(k : ℝ)| ≤ 160 := by exact_mod_cast hk
  have hdk : Ap32 (ofInt f32 k) k 0 160 := .exact kf kv hk'
  have hhi : Ap32 (hiOf f) (hiOf f).val 0 (5509 / 2 ^ 14) := .exact hf rfl hb
  have hl := lin10 (x := f.val) (h := (hiOf f).val) h1 h2 (κ := k)
  refine ⟨ofInt f32 k * log10_2lo + (loOf f + hiOf f) * ivln10lo + loOf f * ivln10hi, ?_⟩
  unfold body10
  generalize loOf f = lo at *
  generalize hiOf f = hi at *
  generalize ofInt f32 k = dk at *
  have hih : Ap32 ivln10hi ivln10hi.val 0 (1779 / 2 ^ 12) := .exact (by decide +kernel) rfl (by rw [ivln10hi_val, abs_le]; constructor <;> norm_num)
  have hil : Ap32 ivln10lo ivln10lo.val 0 (2127 / 2 ^ 26) := .exact (by decide +kernel) rfl (by rw [ivln10lo_val, abs_le]; constructor <;> norm_num)
  have hll : Ap32 log10_2lo log10_2lo.val 0 (6789 / 2 ^ 33) := .exact (by decide +kernel) rfl (by rw [log10_2lo_val, abs_le]; constructor <;> norm_num)
  have hm0 := Ap32.mul hdk hll (-12) (by norm_num) (by norm_num) (by norm_num) (g := (1 / 2 ^ 37)) (D := (1061 / 2 ^ 23)) (by norm_num) (by norm_num)
  have hlh := Ap32.add hlo hhi (-1) (by norm_num) (by norm_num) (g := (3433 / 2 ^ 37)) (D := (5811 / 2 ^ 14)) (by norm_num) (by norm_num)
  have hm1 := Ap32.mul hlh hil (-16) (by norm_num) (by norm_num) (by norm_num) (g := (2807 / 2 ^ 51)) (D := (1509 / 2 ^ 27)) (by norm_num) (by norm_num)
  have hm01 := Ap32.add hm0 hm1 (-12) (by norm_num) (by norm_num) (g := (4447 / 2 ^ 48)) (D := (2311 / 2 ^ 24)) (by norm_num) (by norm_num)
  have hm2 := Ap32.mul hlo hih (-6) (by norm_num) (by norm_num) (by norm_num) (g := (1331 / 2 ^ 38)) (D := (2097 / 2 ^ 18)) (by norm_num) (by norm_num)
  have hvl := Ap32.add hm01 hm2 (-6) (by norm_num) (by norm_num) (g := (2927 / 2 ^ 39)) (D := (4267 / 2 ^ 19)) (by norm_num) (by norm_num)
  refine ⟨hvl.fin, rfl, ?_⟩
  have he := hvl.err
  refine le_trans ?_ ((add_le_add he hl).trans (by norm_num [← add_assoc]))
  refine le_trans (le_of_eq ?_) (abs_add_le _ _)
  congr 1
  ring

theorem w_rel {x : ℝ} (h : |x| ≤ 0.2) : |x - x ^ 2 / 2 + w x - Real.log (1 + x)| ≤ 0.56 * (1 / 2 ^ 34 * 1.01) * |x| := by
  have hf := abs_le.1 h
  have hs : |x / (2 + x)| ≤ 0.56 * |x| := by
    norm_num at hf
    rw [abs_div, abs_of_pos (by linarith : 0 < 2 + x), div_le_iff₀ (by linarith)]
    norm_num
    nlinarith [abs_nonneg x]
  have a := approx (f := x) (s := x / (2 + x)) (by norm_num at hf; linarith) rfl (hs.trans (by norm_num at h ⊢; linarith))
  have h2 : (2 : ℝ) + x ≠ 0 := by norm_num at hf; linarith
  have e : x - x ^ 2 / 2 + w x = 2 * (x / (2 + x)) + x / (2 + x) * ((x / (2 + x)) ^ 2 * Poly.ev poly ((x / (2 + x)) ^ 2)) := by
    unfold w
    generalize Poly.ev poly ((x / (2 + x)) ^ 2) = P
    field_simp
    ring
  rw [← e] at a
  refine a.trans ((mul_le_mul_of_nonneg_right hs (by norm_num)).trans (le_of_eq (by ring)))

set_option maxHeartbeats 1000000 in
theorem rel2 (ff : f.isFinite) (h : |f.val| ≤ 0.2) (h0 : 1 / 2 ^ 25 ≤ |f.val|) :
    ∃ (q : ℝ) (r : Flt f32), IsRNE q r ∧ (body2 f 0).isFinite ∧ (body2 f 0).val = r.val ∧ |q - Real.log (1 + f.val) / Real.log 2| ≤ (2437 / 2 ^ 37) * |Real.log (1 + f.val) / Real.log 2| := by
  have hab := abs_le.1 h
  have h1 : -0.29291 ≤ f.val := by norm_num at hab ⊢; linarith [hab.1]
  have h2 : f.val ≤ 0.41423 := by norm_num at hab ⊢; linarith [hab.2]
  obtain ⟨hh, hc⟩ := core3 ff h (le_trans ((zpow_le_zpow_right₀ (by norm_num) (by norm_num : (-40 : ℤ) ≤ -25)).trans (by norm_num)) h0) (le_trans (by norm_num) h0)
  obtain ⟨a1, -, a3, a4, a5, a6⟩ := hi_spec ff h1 h2 (Or.inr h0)
  obtain ⟨vf, vv⟩ := vh2_exact ff h1 h2 (Or.inr h0)
  have hw := w_rel h
  have hup := log_upper h
  have hlw := log_lower h
  have hs := iv2_split
  have hlb : 0 < Real.log 2 := Real.log_pos (by norm_num)
  have hl2 : Real.log 2 ≤ 0.693148 := by have := abs_le.1 Num.log2_near; norm_num at this ⊢; linarith [this.2]
  have e : body2 f 0 = (loOf f + hiOf f) * ivln2lo + loOf f * ivln2hi + hiOf f * ivln2hi + ofInt f32 0 := rfl
  rw [e]
  have yz : (ofInt f32 0).isFinite ∧ (ofInt f32 0).val = 0 := ⟨by decide +kernel, isZero_val.1 (by decide +kernel)⟩
  generalize ofInt f32 0 = y at yz ⊢
  clear e
  unfold loOf
  generalize hiOf f * ivln2hi = vh at *
  generalize hiOf f = hi at *
  generalize sOf f * (hfsq f + rOf (sOf f)) = c at *
  generalize f - hi - hfsq f = d at *
  generalize hfsq f = g at *
  have he := hh.err
  have hd : As |f.val| d (f.val - hi.val - f.val ^ 2 / 2) (6625 / 2 ^ 40) (2417 / 2 ^ 22) := by
    refine ⟨a4, ?_, ?_⟩
    · have := abs_add_le (d.val - (f.val - hi.val - g.val)) (-(g.val - f.val ^ 2 / 2))
      rw [abs_neg, show d.val - (f.val - hi.val - g.val) + -(g.val - f.val ^ 2 / 2) = d.val - (f.val - hi.val - f.val ^ 2 / 2) by ring] at this
      refine this.trans ?_
      norm_num at a5 he ⊢
      linarith [abs_nonneg f.val]
    · have := abs_sub_abs_le_abs_sub d.val (f.val - hi.val - g.val)
      norm_num at this a5 a6 ⊢
      linarith [abs_nonneg f.val]
  have hhi : As |f.val| hi hi.val 0 (297 / 2 ^ 8) := .exact a1 rfl (a3.trans (mul_le_mul_of_nonneg_right (by norm_num) (abs_nonneg _)))
  have ht0 : 0 ≤ |f.val| := abs_nonneg _
  have ht1 : |f.val| ≤ 1 := h.trans (by norm_num)
  have ht : (2 : ℝ) ^ (-40 : ℤ) ≤ |f.val| := le_trans ((zpow_le_zpow_right₀ (by norm_num) (by norm_num : (-40 : ℤ) ≤ -25)).trans (by norm_num)) h0
  clear he a4 a5 a6 hh h1 h2 hab
  have hlo := As32.add ht0 ht1 hd hc (by norm_num) (by norm_num) (g := (3869 / 2 ^ 38)) (D := (1081 / 2 ^ 16)) (by norm_num) (by norm_num)
  have hih : As 1 ivln2hi ivln2hi.val 0 (2955 / 2 ^ 11) := .exact (by decide +kernel) rfl (by rw [ivln2hi_val, abs_le]; constructor <;> norm_num)
  have hil : As 1 ivln2lo ivln2lo.val 0 (1477 / 2 ^ 23) := .exact (by decide +kernel) rfl (by rw [ivln2lo_val, abs_le]; constructor <;> norm_num)
  have hlh := As32.add ht0 ht1 hlo hhi (by norm_num) (by norm_num) (g := (5787 / 2 ^ 36)) (D := (1205 / 2 ^ 10)) (by norm_num) (by norm_num)
  have hm1 := As32.mul ht ht1 hlh hil (by norm_num) (by norm_num) (by norm_num) (by norm_num) (g := (3825 / 2 ^ 47)) (D := (6953 / 2 ^ 25)) (by norm_num) (by norm_num)
  have hm2 := As32.mul ht ht1 hlo hih (by norm_num) (by norm_num) (by norm_num) (by norm_num) (g := (5973 / 2 ^ 38)) (D := (6239 / 2 ^ 18)) (by norm_num) (by norm_num)
  have hvl := As32.add ht0 ht1 hm1 hm2 (by norm_num) (by norm_num) (g := (3187 / 2 ^ 37)) (D := (3147 / 2 ^ 17)) (by norm_num) (by norm_num)
  have he := hvl.err
  have hr1 := add_rne hvl.fin vf
  have hfin := (add_err32 hvl.fin vf 2 (by
    have b1 := hvl.bd
    have b2 : |vh.val| ≤ 1 := by
      rw [vv, ivln2hi_val, abs_mul]
      norm_num at a3 h ⊢; linarith
    refine (abs_add_le _ _).trans ?_
    norm_num at b1 b2 h ⊢; linarith) (by norm_num)).1
  have hr2 := (add_rne hfin yz.1).exact_real hfin (by rw [yz.2, _root_.add_zero])
  refine ⟨_, _, hr1, hr2.1, by rw [hr2.2, yz.2, _root_.add_zero], ?_⟩
  rw [vv]
  generalize (d + c + hi) * ivln2lo + (d + c) * ivln2hi = Q at *
  have e1 : Q.val + hi.val * ivln2hi.val - Real.log (1 + f.val) / Real.log 2
      = (Q.val - ((f.val - hi.val - f.val ^ 2 / 2 + w f.val + hi.val) * ivln2lo.val + (f.val - hi.val - f.val ^ 2 / 2 + w f.val) * ivln2hi.val))
        + ((f.val - f.val ^ 2 / 2 + w f.val - Real.log (1 + f.val)) * (ivln2hi.val + ivln2lo.val) + Real.log (1 + f.val) * (ivln2hi.val + ivln2lo.val - 1 / Real.log 2)) := by ring
  have hc2 : |ivln2hi.val + ivln2lo.val| ≤ (5913 / 2 ^ 12) := by
    rw [ivln2hi_val, ivln2lo_val, abs_le]; constructor <;> norm_num
  have h5 : |Q.val + hi.val * ivln2hi.val - Real.log (1 + f.val) / Real.log 2| ≤ (3195 / 2 ^ 37) * |f.val| := by
    rw [e1]
    refine (abs_add_le _ _).trans ((add_le_add he (abs_add_le _ _)).trans ?_)
    rw [abs_mul, abs_mul]
    refine (add_le_add le_rfl (add_le_add (mul_le_mul hw hc2 (abs_nonneg _) (by positivity)) (mul_le_mul hup hs (abs_nonneg _) (by positivity)))).trans ?_
    generalize |f.val| = t at *
    norm_num
    linarith
  refine h5.trans ?_
  rw [abs_div, abs_of_pos hlb, mul_div_assoc', le_div_iff₀ hlb]
  have h6 := mul_le_mul_of_nonneg_left hl2 (mul_nonneg (by norm_num : (0 : ℝ) ≤ (3195 / 2 ^ 37)) ht0)
  refine h6.trans ?_
  norm_num at hlw ⊢
  linarith

set_option maxHeartbeats 1000000 in
theorem rel10 (ff : f.isFinite) (h : |f.val| ≤ 0.2) (h0 : 1 / 2 ^ 25 ≤ |f.val|) :
    ∃ (q : ℝ) (r : Flt f32), IsRNE q r ∧ (body10 f 0).isFinite ∧ (body10 f 0).val = r.val ∧ |q - Real.log (1 + f.val) / Real.log 10| ≤ (4871 / 2 ^ 38) * |Real.log (1 + f.val) / Real.log 10| := by
  have hab := abs_le.1 h
  have h1 : -0.29291 ≤ f.val := by norm_num at hab ⊢; linarith [hab.1]
  have h2 : f.val ≤ 0.41423 := by norm_num at hab ⊢; linarith [hab.2]
  obtain ⟨hh, hc⟩ := core3 ff h (le_trans ((zpow_le_zpow_right₀ (by norm_num) (by norm_num : (-40 : ℤ) ≤ -25)).trans (by norm_num)) h0) (le_trans (by norm_num) h0)
  obtain ⟨a1, -, a3, a4, a5, a6⟩ := hi_spec ff h1 h2 (Or.inr h0)
  obtain ⟨vf, vv⟩ := vh10_exact ff h1 h2 (Or.inr h0)
  have hw := w_rel h
  have hup := log_upper h
  have hlw := log_lower h
  have hs := iv10_split
  have hlb : 0 < Real.log 10 := Real.log_pos (by norm_num)
  have hl2 : Real.log 10 ≤ 2.302586 := by have := abs_le.1 Num.log10_near; norm_num at this ⊢; linarith [this.2]
  have e : body10 f 0 = ofInt f32 0 * log10_2lo + (loOf f + hiOf f) * ivln10lo + loOf f * ivln10hi + hiOf f * ivln10hi + ofInt f32 0 * log10_2hi := rfl
  rw [e]
  have yz : (ofInt f32 0 * log10_2hi).isFinite ∧ (ofInt f32 0 * log10_2hi).val = 0 := ⟨by decide +kernel, isZero_val.1 (by decide +kernel)⟩
  generalize ofInt f32 0 * log10_2hi = y at yz ⊢
  clear e
  have hm0 : As |f.val| (ofInt f32 0 * log10_2lo) 0 0 0 := .exact (by decide +kernel) (isZero_val.1 (by decide +kernel)) (by norm_num)
  generalize ofInt f32 0 * log10_2lo = m0 at *
  unfold loOf
  generalize hiOf f * ivln10hi = vh at *
  generalize hiOf f = hi at *
  generalize sOf f * (hfsq f + rOf (sOf f)) = c at *
  generalize f - hi - hfsq f = d at *
  generalize hfsq f = g at *
  have he := hh.err
  have hd : As |f.val| d (f.val - hi.val - f.val ^ 2 / 2) (6625 / 2 ^ 40) (2417 / 2 ^ 22) := by
    refine ⟨a4, ?_, ?_⟩
    · have := abs_add_le (d.val - (f.val - hi.val - g.val)) (-(g.val - f.val ^ 2 / 2))
      rw [abs_neg, show d.val - (f.val - hi.val - g.val) + -(g.val - f.val ^ 2 / 2) = d.val - (f.val - hi.val - f.val ^ 2 / 2) by ring] at this
      refine this.trans ?_
      norm_num at a5 he ⊢
      linarith [abs_nonneg f.val]
    · have := abs_sub_abs_le_abs_sub d.val (f.val - hi.val - g.val)
      norm_num at this a5 a6 ⊢
      linarith [abs_nonneg f.val]
  have hhi : As |f.val| hi hi.val 0 (297 / 2 ^ 8) := .exact a1 rfl (a3.trans (mul_le_mul_of_nonneg_right (by norm_num) (abs_nonneg _)))
  have ht0 : 0 ≤ |f.val| := abs_nonneg _
  have ht1 : |f.val| ≤ 1 := h.trans (by norm_num)
  have ht : (2 : ℝ) ^ (-40 : ℤ) ≤ |f.val| := le_trans ((zpow_le_zpow_right₀ (by norm_num) (by norm_num : (-40 : ℤ) ≤ -25)).trans (by norm_num)) h0
  clear he a4 a5 a6 hh h1 h2 hab
  have hlo := As32.add ht0 ht1 hd hc (by norm_num) (by norm_num) (g := (3869 / 2 ^ 38)) (D := (1081 / 2 ^ 16)) (by norm_num) (by norm_num)
  have hih : As 1 ivln10hi ivln10hi.val 0 (1779 / 2 ^ 12) := .exact (by decide +kernel) rfl (by rw [ivln10hi_val, abs_le]; constructor <;> norm_num)
  have hil : As 1 ivln10lo ivln10lo.val 0 (2127 / 2 ^ 26) := .exact (by decide +kernel) rfl (by rw [ivln10lo_val, abs_le]; constructor <;> norm_num)
  have hlh := As32.add ht0 ht1 hlo hhi (by norm_num) (by norm_num) (g := (5787 / 2 ^ 36)) (D := (1205 / 2 ^ 10)) (by norm_num) (by norm_num)
  have hm1 := As32.mul ht ht1 hlh hil (by norm_num) (by norm_num) (by norm_num) (by norm_num) (g := (5509 / 2 ^ 50)) (D := (2503 / 2 ^ 26)) (by norm_num) (by norm_num)
  have hm01 := As32.add ht0 ht1 hm0 hm1 (by norm_num) (by norm_num) (g := (2003 / 2 ^ 48)) (D := (5007 / 2 ^ 27)) (by norm_num) (by norm_num)
  have hm2 := As32.mul ht ht1 hlo hih (by norm_num) (by norm_num) (by norm_num) (by norm_num) (g := (899 / 2 ^ 37)) (D := (7513 / 2 ^ 20)) (by norm_num) (by norm_num)
  have hvl := As32.add ht0 ht1 hm01 hm2 (by norm_num) (by norm_num) (g := (959 / 2 ^ 37)) (D := (7553 / 2 ^ 20)) (by norm_num) (by norm_num)
  have he := hvl.err
  have hr1 := add_rne hvl.fin vf
  have hfin := (add_err32 hvl.fin vf 2 (by
    have b1 := hvl.bd
    have b2 : |vh.val| ≤ 1 := by
      rw [vv, ivln10hi_val, abs_mul]
      norm_num at a3 h ⊢; linarith
    refine (abs_add_le _ _).trans ?_
    norm_num at b1 b2 h ⊢; linarith) (by norm_num)).1
  have hr2 := (add_rne hfin yz.1).exact_real hfin (by rw [yz.2, _root_.add_zero])
  refine ⟨_, _, hr1, hr2.1, by rw [hr2.2, yz.2, _root_.add_zero], ?_⟩
  rw [vv]
  generalize m0 + (d + c + hi) * ivln10lo + (d + c) * ivln10hi = Q at *
  have e1 : Q.val + hi.val * ivln10hi.val - Real.log (1 + f.val) / Real.log 10
      = (Q.val - (0 + (f.val - hi.val - f.val ^ 2 / 2 + w f.val + hi.val) * ivln10lo.val + (f.val - hi.val - f.val ^ 2 / 2 + w f.val) * ivln10hi.val))
        + ((f.val - f.val ^ 2 / 2 + w f.val - Real.log (1 + f.val)) * (ivln10hi.val + ivln10lo.val) + Real.log (1 + f.val) * (ivln10hi.val + ivln10lo.val - 1 / Real.log 10)) := by ring
  have hc2 : |ivln10hi.val + ivln10lo.val| ≤ (445 / 2 ^ 10) := by
    rw [ivln10hi_val, ivln10lo_val, abs_le]; constructor <;> norm_num
  have h5 : |Q.val + hi.val * ivln10hi.val - Real.log (1 + f.val) / Real.log 10| ≤ (3845 / 2 ^ 39) * |f.val| := by
    rw [e1]
    refine (abs_add_le _ _).trans ((add_le_add he (abs_add_le _ _)).trans ?_)
    rw [abs_mul, abs_mul]
    refine (add_le_add le_rfl (add_le_add (mul_le_mul hw hc2 (abs_nonneg _) (by positivity)) (mul_le_mul hup hs (abs_nonneg _) (by positivity)))).trans ?_
    generalize |f.val| = t at *
    norm_num
    linarith
  refine h5.trans ?_
  rw [abs_div, abs_of_pos hlb, mul_div_assoc', le_div_iff₀ hlb]
  have h6 := mul_le_mul_of_nonneg_left hl2 (mul_nonneg (by norm_num : (0 : ℝ) ≤ (3845 / 2 ^ 39)) ht0)
  refine h6.trans ?_
  norm_num at hlw ⊢
  linarith
end Logf

end Verif
