import Verif.Theory.BesselD
import Verif.Theory.SymF

/-! # The Bessel functions in single precision -/

namespace Verif
open Flt

namespace BesselF
open BesselD (sq_inf not_zero_of_nan odd_iff neg_zero' neg_inf' alt_of opp_mul_neg opp_symm)

theorem nanw (x : Flt f32) : (x.u32 &&& 0x7fffffff#32 > 0x7f800000#32) ↔ x.isNaN := by
  rw [gt_iff_lt, BitVec.lt_def, u32_abs, isNaN32]; rfl

theorem z0 (x : Flt f32) : x.u32 &&& 0x7fffffff#32 = 0#32 ↔ x.isZero := by
  rw [← BitVec.toNat_inj, u32_abs, isZero_iff]; rfl

theorem hi_pos {x : Flt f32} (hs : x.sign = false) : x.u32 = x.u32 &&& 0x7fffffff#32 := by
  rw [← BitVec.toNat_inj, u32_abs, u32_toNat, hs]; simp

theorem sg_word {x : Flt f32} : x.u32 >>> 31 ≠ 0#32 ↔ x.sign = true := by
  rw [Ne, ← BitVec.toNat_inj, u32_sign]; cases x.sign <;> simp

theorem common0 (ix : BitVec 32) (x : Flt f32) (b : Bool) : ∃ r, J0f.common ix x b = some r := by
  obtain ⟨s, hs⟩ := sinf_trig.total x
  obtain ⟨c, hc⟩ := cosf_trig.total x
  obtain ⟨c2, hc2⟩ := cosf_trig.total (2.0 * x)
  obtain ⟨q, hq⟩ := sqrtf_tot x
  exact ⟨J0f.invsqrtpi * J0f.factor ix x b s c c2 / q, by unfold J0f.common; rw [hs, hc, hc2, hq]; rfl⟩

theorem common1 (ix : BitVec 32) (x : Flt f32) (b sg : Bool) : ∃ s c c2 q,
    J1f.common ix x b sg = some ((J1f.invsqrtpi.cast f64 * J1f.factor ix x b sg (Flt.cast f64 s) (Flt.cast f64 c) (Flt.cast f64 c2) / Flt.cast f64 q).cast f32) ∧
    sinf x = some s ∧ cosf x = some c ∧ cosf (2.0 * x) = some c2 ∧ sqrtf x = some q := by
  obtain ⟨s, hs⟩ := sinf_trig.total x
  obtain ⟨c, hc⟩ := cosf_trig.total x
  obtain ⟨c2, hc2⟩ := cosf_trig.total (2.0 * x)
  obtain ⟨q, hq⟩ := sqrtf_tot x
  exact ⟨s, c, c2, q, by unfold J1f.common; rw [hs, hc, hc2, hq]; rfl, hs, hc, hc2, hq⟩

theorem j0_total (x : Flt f32) : ∃ r, j0f x = some r := by
  unfold j0f
  extract_lets ix
  split_ifs
  · exact ⟨_, rfl⟩
  · exact common0 _ _ _
  · exact ⟨_, rfl⟩
  all_goals exact ⟨_, rfl⟩

theorem j1_total (x : Flt f32) : ∃ r, j1f x = some r := by
  unfold j1f
  extract_lets ix
  split_ifs
  · exact ⟨_, rfl⟩
  · obtain ⟨s, c, c2, q, h, -⟩ := common1 ix (Generic.fabs x) false x.sign
    exact ⟨_, h⟩
  all_goals exact ⟨_, rfl⟩

theorem y0_total (x : Flt f32) : ∃ r, y0f x = some r := by
  unfold y0f
  extract_lets ix z u v
  split_ifs
  · exact ⟨_, rfl⟩
  · exact ⟨_, rfl⟩
  · exact ⟨_, rfl⟩
  · exact common0 _ _ _
  · exact bind_total (j0_total x) fun _ => map_total (logf_tot x)
  · exact map_total (logf_tot x)

theorem y1_total (x : Flt f32) : ∃ r, y1f x = some r := by
  unfold y1f
  extract_lets ix z u v
  split_ifs
  · exact ⟨_, rfl⟩
  · exact ⟨_, rfl⟩
  · exact ⟨_, rfl⟩
  · obtain ⟨s, c, c2, q, h, -⟩ := common1 ix x true false
    exact ⟨_, h⟩
  · exact ⟨_, rfl⟩
  · exact bind_total (j1_total x) fun _ => map_total (logf_tot x)

theorem growK_eq (h : Flt f32) : ∀ (fuel : ℕ) (k : ℤ) (z q0 q1 : Flt f32), Jnf.growK h fuel k z q0 q1 = Grow.grow 1.0e4 h fuel k z q0 q1 := by
  intro fuel
  induction fuel with
  | zero => intro k z q0 q1; unfold Jnf.growK Grow.grow; rfl
  | succ n ih =>
    intro k z q0 q1
    unfold Jnf.growK Grow.grow
    dsimp only
    rw [ih]

theorem c1e4 : (1.0e4 : Flt f32).isFinite ∧ (1.0e4 : Flt f32).val = 10000 := by
  refine ⟨by decide +kernel, ?_⟩
  rw [val_const32 625 153 4 (by decide +kernel) (by norm_num)]
  norm_num

/-- the loop that determines the start of the continued fraction ends -/
theorem growK_total {nm1 : ℕ} {x : Flt f32} (hn : nm1 < 2 ^ 31) (h1 : 1 ≤ nm1) (hx : x.isFinite) (h0 : (2 : ℝ) ^ (-40 : ℤ) ≤ x.val) (hle : ¬ (ofInt f32 nm1 <ᶠ x) = true) :
    ∃ k, Jnf.growK (2.0 / x) 2147483646 1 (2.0 * (ofInt f32 nm1 + 1.0) / x + 2.0 / x) (2.0 * (ofInt f32 nm1 + 1.0) / x)
      (2.0 * (ofInt f32 nm1 + 1.0) / x * (2.0 * (ofInt f32 nm1 + 1.0) / x + 2.0 / x) - 1.0) = some k := by
  rw [growK_eq]
  have one1 : (1.0 : Flt f32).isFinite ∧ (1.0 : Flt f32).val = 1 := by rw [Trig.one32]; exact ⟨isFinite_one, val_one⟩
  exact Grow.total (K := 14) (by norm_num [f32_bias]) (by norm_num) (by norm_num) (by norm_num [f32_sb]) c1e4.1 (by rw [c1e4.2]; norm_num)
    Lgamma.c2f.1 Lgamma.c2f.2 one1.1 one1.2 hn h1 hx h0 hle _ (by rw [c1e4.2]; norm_num) _

theorem backward_total {nm1 : ℕ} {x : Flt f32} (hn : nm1 < 2 ^ 31) (h1 : 1 ≤ nm1) (hx : x.isFinite) (h0 : (2 : ℝ) ^ (-40 : ℤ) ≤ x.val) (hle : ¬ (ofInt f32 nm1 <ᶠ x) = true) :
    ∃ r, Jnf.backward nm1 x = some r := by
  unfold Jnf.backward
  extract_lets nf w h z
  refine bind_total (growK_total hn h1 hx h0 hle) fun k => ?_
  extract_lets t
  refine bind_total (logf_tot _) fun lw => ?_
  extract_lets r
  exact bind_total (j0_total x) fun _ => map_total (j1_total x)

theorem mag_total {nm1 : ℕ} {x : Flt f32} (hn : nm1 < 2 ^ 31) (h1 : 1 ≤ nm1) (hx : ¬ x.isNaN) (hs : x.sign = false) :
    ∃ r, Jnf.mag nm1 x = some r := by
  unfold Jnf.mag
  extract_lets ix
  by_cases a : ix = 0#32 ∨ ix = 0x7f800000#32
  · rw [if_pos a]; exact ⟨_, rfl⟩
  rw [if_neg a]
  by_cases b : (ofInt f32 nm1 <ᶠ x) = true
  · rw [if_pos b]; exact bind_total (j0_total x) fun _ => map_total (j1_total x)
  rw [if_neg b]
  by_cases d : ix < 0x35800000#32
  · rw [if_pos d]; exact ⟨_, rfl⟩
  · rw [if_neg d]
    have hi : ix = x.u32 &&& 0x7fffffff#32 := hi_pos hs
    rw [hi, BitVec.lt_def, u32_abs] at d
    push Not at a
    have hxf : x.isFinite := by
      apply finite_of_not hx
      intro hinf
      apply a.2
      rw [hi, ← BitVec.toNat_inj, u32_abs, (isInf32 x).1 hinf]
      norm_num
    refine backward_total hn h1 hxf ?_ b
    have d' : 0x35800000 ≤ x.mb := not_lt.1 d
    have := val_ge_of_mb (x := x) (E := 0x6b) (by norm_num) (by rw [f32_sb]; omega)
    rw [f32_bias, abs_of_nonneg (val_nonneg hs)] at this
    refine le_trans ?_ this
    exact zpow_le_zpow_right₀ (by norm_num) (by norm_num)

theorem magY_total (nm1 : ℕ) (x : Flt f32) : ∃ r, Jnf.magY nm1 x = some r := by
  unfold Jnf.magY
  exact bind_total (y0_total x) fun _ => map_total (y1_total x)

theorem jn_of {n : ℤ} {x : Flt f32} (hx : ¬ x.isNaN) : jnf n x = if n = 0 then j0f x else if n.natAbs - 1 = 0 then j1f (if n < 0 then -x else x) else
    (Jnf.mag (n.natAbs - 1) x.ab).map fun b => if ((if n < 0 then !x.sign else x.sign) && decide (n % 2 ≠ 0)) = true then -b else b := by
  unfold jnf
  extract_lets ix nm1 sign
  rw [if_neg (by rw [nanw]; exact hx)]
  have e : Generic.fabs (if n < 0 then -x else x) = x.ab := by split_ifs <;> rw [fabs_ab]; rw [ab_neg]
  rw [e]

theorem yn_of {n : ℤ} {x : Flt f32} (hx : ¬ x.isNaN) : ynf n x = if x.sign = true ∧ ¬ x.isZero then some (0.0 / 0.0) else if x.isInf then some 0.0 else
    if n = 0 then y0f x else if n.natAbs - 1 = 0 then (y1f x).map fun y => if (decide (n < 0) && decide (n % 2 ≠ 0)) = true then -y else y else
    (Jnf.magY (n.natAbs - 1) x).map fun b => if (decide (n < 0) && decide (n % 2 ≠ 0)) = true then -b else b := by
  unfold ynf
  extract_lets ix nm1 sign
  rw [if_neg (by rw [nanw]; exact hx)]
  have e1 : (x.sign = true ∧ ix ≠ 0#32) ↔ (x.sign = true ∧ ¬ x.isZero) := by rw [Ne, z0]
  have e2 : ix = 0x7f800000#32 ↔ x.isInf := by
    rw [← BitVec.toNat_inj, u32_abs, isInf32]
    rfl
  simp only [e1, e2]
  rfl

theorem jn_total {n : ℤ} (hn : IsI32 n) (x : Flt f32) : ∃ r, jnf n x = some r := by
  by_cases hx : x.isNaN
  · unfold jnf
    extract_lets ix
    rw [if_pos (by rw [nanw]; exact hx)]
    exact ⟨_, rfl⟩
  · rw [jn_of hx]
    unfold IsI32 at hn
    split_ifs
    · exact j0_total x
    · exact j1_total _
    · exact j1_total _
    all_goals exact map_total (mag_total (by omega) (by omega) (by simpa using hx) (by simp))

theorem yn_total (n : ℤ) (x : Flt f32) : ∃ r, ynf n x = some r := by
  by_cases hx : x.isNaN
  · unfold ynf
    extract_lets ix
    rw [if_pos (by rw [nanw]; exact hx)]
    exact ⟨_, rfl⟩
  · rw [yn_of hx]
    split_ifs
    · exact ⟨_, rfl⟩
    · exact ⟨_, rfl⟩
    · exact y0_total x
    · exact map_total (y1_total x)
    · exact map_total (y1_total x)
    · exact map_total (magY_total _ x)
    · exact map_total (magY_total _ x)

theorem nf_word {x : Flt f32} (h : x.isNaN ∨ x.isInf) : x.u32 &&& 0x7fffffff#32 ≥ 0x7f800000#32 := by
  rw [Tgamma.ix_ge32]
  exact Trig.nf32 h

theorem j0_nf {x : Flt f32} (h : x.isNaN ∨ x.isInf) : j0f x = some (1.0 / (x * x)) := by
  unfold j0f
  extract_lets ix
  rw [if_pos (nf_word h)]

theorem j1_nf {x : Flt f32} (h : x.isNaN ∨ x.isInf) : j1f x = some (1.0 / (x * x)) := by
  unfold j1f
  extract_lets ix
  rw [if_pos (nf_word h)]

theorem inv_inf : (1.0 : Flt f32) / inf f32 false = zero f32 false := by
  rw [Trig.one32, div_inf isFinite_one (isInf_inf _)]
  simp

theorem zero_ix {x : Flt f32} (h : x.isZero) : (x.u32 &&& 0x7fffffff#32) = 0#32 := by
  rw [← BitVec.toNat_inj, u32_abs, (isZero_iff x).1 h]
  rfl

theorem j0_zero {x : Flt f32} (h : x.isZero) : j0f x = some (one f32) := by
  rw [eq_zero h]
  cases x.sign <;> decide +kernel

theorem j1_zero {x : Flt f32} (h : x.isZero) : j1f x = some x := by
  rw [eq_zero h]
  cases x.sign <;> decide +kernel

theorem y0_zero {x : Flt f32} (h : x.isZero) : y0f x = some (inf f32 true) := by
  unfold y0f
  extract_lets ix
  rw [if_pos ((z0 x).2 h)]
  decide +kernel

theorem y1_zero {x : Flt f32} (h : x.isZero) : y1f x = some (inf f32 true) := by
  unfold y1f
  extract_lets ix
  rw [if_pos ((z0 x).2 h)]
  decide +kernel

theorem nan00 : ((0.0 : Flt f32) / 0.0).isNaN := by decide +kernel

theorem y0_neg {x : Flt f32} (h0 : ¬ x.isZero) (hs : x.sign = true) : y0f x = some (0.0 / 0.0) := by
  unfold y0f
  extract_lets ix
  rw [if_neg (by rw [z0]; exact h0), if_pos (sg_word.2 hs)]

theorem y1_neg {x : Flt f32} (h0 : ¬ x.isZero) (hs : x.sign = true) : y1f x = some (0.0 / 0.0) := by
  unfold y1f
  extract_lets ix
  rw [if_neg (by rw [z0]; exact h0), if_pos (sg_word.2 hs)]

theorem y0_nf {x : Flt f32} (h : x.isNaN ∨ x.isInf) (hs : x.sign = false) : y0f x = some (1.0 / x) := by
  unfold y0f
  extract_lets ix
  have h0 : ¬ x.isZero := fun hz => by
    have := finite_of_zero hz
    rcases h with h | h
    · exact not_nan_of_finite this h
    · exact not_inf_of_finite this h
  rw [if_neg (by rw [z0]; exact h0), if_neg (by rw [sg_word, hs]; simp), if_pos (by
    show x.u32 ≥ _
    rw [hi_pos hs]; exact nf_word h)]

theorem y1_nf {x : Flt f32} (h : x.isNaN ∨ x.isInf) (hs : x.sign = false) : y1f x = some (1.0 / x) := by
  unfold y1f
  extract_lets ix
  have h0 : ¬ x.isZero := fun hz => by
    have := finite_of_zero hz
    rcases h with h | h
    · exact not_nan_of_finite this h
    · exact not_inf_of_finite this h
  rw [if_neg (by rw [z0]; exact h0), if_neg (by rw [sg_word, hs]; simp), if_pos (by
    show x.u32 ≥ _
    rw [hi_pos hs]; exact nf_word h)]

theorem y0_nan {x r : Flt f32} (h : x.isNaN) (hr : y0f x = some r) : r.isNaN := by
  cases hs : x.sign
  · rw [y0_nf (Or.inl h) hs] at hr
    rw [← Option.some.inj hr, div_nan (Or.inr h)]; simp
  · rw [y0_neg (not_zero_of_nan h) hs] at hr
    rw [← Option.some.inj hr]; exact nan00

theorem y1_nan {x r : Flt f32} (h : x.isNaN) (hr : y1f x = some r) : r.isNaN := by
  cases hs : x.sign
  · rw [y1_nf (Or.inl h) hs] at hr
    rw [← Option.some.inj hr, div_nan (Or.inr h)]; simp
  · rw [y1_neg (not_zero_of_nan h) hs] at hr
    rw [← Option.some.inj hr]; exact nan00

theorem mag_zero {nm1 : ℕ} {x : Flt f32} (h : x.isZero ∨ x.isInf) (hs : x.sign = false) : Jnf.mag nm1 x = some 0.0 := by
  unfold Jnf.mag
  extract_lets ix
  rw [if_pos]
  have hi : ix = x.u32 &&& 0x7fffffff#32 := hi_pos hs
  rcases h with h | h
  · left; rw [hi]; exact (z0 x).2 h
  · right
    rw [hi, ← BitVec.toNat_inj, u32_abs, (isInf32 x).1 h]
    norm_num

theorem fwdY_inf (x : Flt f32) (k : ℕ) (i : ℤ) (a : Flt f32) : Jnf.fwdY x k i a (inf f32 true) = inf f32 true := by
  cases k with
  | zero => rfl
  | succ k =>
    unfold Jnf.fwdY
    rw [if_neg (by decide +kernel)]

theorem magY_zero {nm1 : ℕ} {x : Flt f32} (h : x.isZero) : Jnf.magY nm1 x = some (inf f32 true) := by
  unfold Jnf.magY
  rw [y0_zero h, y1_zero h]
  show some (Jnf.fwdY x nm1 0 _ _) = _
  rw [fwdY_inf]

theorem lit0 : (0.0 : Flt f32) = zero f32 false := by decide +kernel

theorem besselJ : IsBesselJ jnf j0f j1f where
  order0 x hx := by rw [jn_of hx, if_pos rfl]
  order1 x hx := by rw [jn_of hx, if_neg (by norm_num), if_pos (by norm_num), if_neg (by norm_num)]
  nan n x r hx hr := by
    unfold jnf at hr
    extract_lets ix at hr
    rw [if_pos (by rw [nanw]; exact hx)] at hr
    rw [← Option.some.inj hr]; exact hx
  nan0 x r hx hr := by
    rw [j0_nf (Or.inl hx)] at hr
    rw [← Option.some.inj hr, mul_nan (Or.inl hx), div_nan (Or.inr (by simp))]; simp
  nan1 x r hx hr := by
    rw [j1_nf (Or.inl hx)] at hr
    rw [← Option.some.inj hr, mul_nan (Or.inl hx), div_nan (Or.inr (by simp))]; simp
  inf n x r hn hx hr := by
    rw [jn_of (not_nan_of_inf hx)] at hr
    have hz : ∀ b, (zero f32 b).isZero := fun b => isZero_zero b
    split_ifs at hr with h1 h2 h3 h3
    · rw [j0_nf (Or.inr hx), sq_inf hx, inv_inf] at hr
      rw [← Option.some.inj hr]; exact hz _
    · rw [j1_nf (Or.inr (by simpa using hx)), sq_inf (by simpa using hx), inv_inf] at hr
      rw [← Option.some.inj hr]; exact hz _
    · rw [j1_nf (Or.inr hx), sq_inf hx, inv_inf] at hr
      rw [← Option.some.inj hr]; exact hz _
    all_goals
      rw [mag_zero (Or.inr (by simpa using hx)) (by simp), Option.map_some, lit0] at hr
      rw [← Option.some.inj hr]
      simp
  zero x hx := by rw [jn_of (not_nan_of_finite (finite_of_zero hx)), if_pos rfl, j0_zero hx]
  zero' n x hn h0 hx := by
    rw [jn_of (not_nan_of_finite (finite_of_zero hx)), if_neg h0]
    by_cases h1 : n.natAbs - 1 = 0
    · rw [if_pos h1]
      have : n = 1 ∨ n = -1 := by omega
      rcases this with rfl | rfl
      · rw [if_neg (by norm_num), j1_zero hx]
        conv_lhs => rw [eq_zero hx]
        simp
      · rw [if_pos (by norm_num), j1_zero (by simpa using hx)]
        conv_lhs => rw [eq_zero hx]
        rw [neg_zero']
        simp
    · rw [if_neg h1, mag_zero (Or.inl (by simpa using hx)) (by simp), Option.map_some, lit0, odd_iff, neg_zero']
      congr 1
      by_cases a : Odd n <;> by_cases b : n < 0 <;> cases x.sign <;> simp [a, b]

theorem besselY : IsBesselY ynf y0f y1f where
  order0 x hx := by
    rw [yn_of hx]
    split_ifs with h1 h2 h3
    · rw [y0_neg h1.2 h1.1]
    · have hs : x.sign = false := by
        by_contra hc
        exact h1 ⟨by simpa using hc, fun hz => not_inf_of_finite (finite_of_zero hz) h2⟩
      rw [y0_nf (Or.inr h2) hs, eq_inf h2, hs, inv_inf, lit0]
    · rfl
    all_goals exact absurd rfl h3
  order1 x hx := by
    rw [yn_of hx]
    split_ifs with h1 h2 h3 h4
    · rw [y1_neg h1.2 h1.1]
    · have hs : x.sign = false := by
        by_contra hc
        exact h1 ⟨by simpa using hc, fun hz => not_inf_of_finite (finite_of_zero hz) h2⟩
      rw [y1_nf (Or.inr h2) hs, eq_inf h2, hs, inv_inf, lit0]
    · exact absurd h3 (by norm_num)
    · rename_i h5
      exact absurd h5 (by decide)
    · simp
    · exact absurd rfl h4
    · exact absurd rfl h4
  nan n x r hx hr := by
    unfold ynf at hr
    extract_lets ix at hr
    rw [if_pos (by rw [nanw]; exact hx)] at hr
    rw [← Option.some.inj hr]; exact hx
  nan0 x r hx hr := y0_nan hx hr
  nan1 x r hx hr := y1_nan hx hr
  neg n x r hx h0 hs hr := by
    rw [yn_of hx, if_pos ⟨hs, h0⟩] at hr
    rw [← Option.some.inj hr]; exact nan00
  inf n := by
    rw [yn_of (not_nan_of_inf (isInf_inf _)), if_neg (by simp), if_pos (isInf_inf _), lit0]
  zero n x hn hx := by
    rw [yn_of (not_nan_of_finite (finite_of_zero hx)), if_neg (by tauto), if_neg (not_inf_of_finite (finite_of_zero hx))]
    by_cases h0 : n = 0
    · subst h0
      rw [if_pos rfl, y0_zero hx]; simp
    rw [if_neg h0, odd_iff, y1_zero hx, magY_zero hx, Option.map_some, ite_self, neg_inf']
    congr 1
    by_cases a : Odd n <;> by_cases b : n < 0 <;> simp [a, b]

theorem ix_neg (x : Flt f32) : (-x).u32 &&& 0x7fffffff#32 = x.u32 &&& 0x7fffffff#32 := by
  rw [← BitVec.toNat_inj, u32_abs, u32_abs, mb_neg]

theorem j0_even {x : Flt f32} : j0f (-x) = j0f x := by
  have e2 : Generic.fabs (-x) = Generic.fabs x := by rw [fabs_ab, fabs_ab, ab_neg]
  unfold j0f
  simp only [ix_neg, e2, neg_mul_neg']

theorem factor_sign (ix : BitVec 32) (x : Flt f32) (b : Bool) (s c c2 : Flt f64) (sg : Bool) : J1f.factor ix x b (!sg) s c c2 = -J1f.factor ix x b sg s c c2 := by
  unfold J1f.factor
  extract_lets s' cc ss swap cc' ss' cc2
  cases sg <;> simp

theorem opp_cast {F G : Fmt} {a b : Flt F} {s : Bool} (h : Opp s a b) : Opp s (a.cast G) (b.cast G) := by
  rcases h with rfl | ⟨h1, h2⟩
  · exact cast_flip s a
  · exact Or.inr ⟨cast_nan h1, cast_nan h2⟩

theorem j1_odd {x : Flt f32} (hx : x.isFinite) : ∃ r r', j1f x = some r ∧ j1f (-x) = some r' ∧ Opp true r r' := by
  have e2 : Generic.fabs (-x) = Generic.fabs x := by rw [fabs_ab, fabs_ab, ab_neg]
  unfold j1f
  simp only [ix_neg, e2, neg_mul_neg', sign_neg]
  set ix := x.u32 &&& 0x7fffffff#32
  have hix : ¬ ix ≥ 0x7f800000#32 := by
    rw [Tgamma.ix_ge32]
    have := (isFinite32 x).1 hx
    show ¬ 0x7f800000 ≤ x.mb
    omega
  rw [if_neg hix, if_neg hix]
  split_ifs with h1 h2
  · obtain ⟨s, c, c2, q, h, hs, hc, hc2, hq⟩ := common1 ix (Generic.fabs x) false x.sign
    obtain ⟨s', c', c2', q', h', hs', hc', hc2', hq'⟩ := common1 ix (Generic.fabs x) false (!x.sign)
    rw [hs, Option.some.injEq] at hs'
    rw [hc, Option.some.injEq] at hc'
    rw [hc2, Option.some.injEq] at hc2'
    rw [hq, Option.some.injEq] at hq'
    subst hs' hc' hc2' hq'
    refine ⟨_, _, h, h', ?_⟩
    rw [factor_sign]
    exact opp_cast (((Opp.refl (Flt.cast f64 J1f.invsqrtpi)).mul (Opp.neg _)).div (Opp.refl (Flt.cast f64 q)))
  · exact ⟨_, _, rfl, rfl, opp_mul_neg _ _⟩
  · exact ⟨_, _, rfl, rfl, opp_mul_neg _ _⟩

theorem parityJ : ParityJ jnf where
  arg n x hn hx := by
    have hnn := not_nan_of_finite hx
    rw [jn_of hnn, jn_of (by simpa using hnn), ab_neg, sign_neg]
    by_cases h0 : n = 0
    · subst h0
      rw [if_pos rfl, if_pos rfl, j0_even]
      obtain ⟨r, hr⟩ := j0_total x
      exact ⟨r, r, hr, hr, alt_of (Or.inl (by simp [Flt.flip]))⟩
    rw [if_neg h0, if_neg h0]
    by_cases h1 : n.natAbs - 1 = 0
    · rw [if_pos h1, if_pos h1]
      have ho : decide (Odd n) = true := by
        have : n = 1 ∨ n = -1 := by omega
        rcases this with rfl | rfl <;> decide
      obtain ⟨r, r', h, h', ho'⟩ := j1_odd hx
      by_cases hneg : n < 0
      · rw [if_pos hneg, if_pos hneg, Flt.neg_neg]
        exact ⟨r', r, h', h, alt_of (by rw [ho]; exact opp_symm ho')⟩
      · rw [if_neg hneg, if_neg hneg]
        exact ⟨r, r', h, h', alt_of (by rw [ho]; exact ho')⟩
    · rw [if_neg h1, if_neg h1]
      unfold IsI32 at hn
      obtain ⟨b, hb⟩ := mag_total (nm1 := n.natAbs - 1) (x := x.ab) (by omega) (by omega) (by simpa using hnn) (by simp)
      rw [hb, Option.map_some, Option.map_some]
      refine ⟨_, _, rfl, rfl, alt_of ?_⟩
      rw [odd_iff]
      left
      unfold Flt.flip
      by_cases a : Odd n <;> by_cases c : n < 0 <;> cases x.sign <;> simp [a, c]
  order n x hn hm hx := by
    have hnn := not_nan_of_finite hx
    rw [jn_of hnn, jn_of (by simpa using hnn)]
    by_cases h0 : n = 0
    · subst h0
      rw [if_pos rfl, if_pos (by norm_num)]
      obtain ⟨r, hr⟩ := j0_total x
      exact ⟨r, r, hr, hr, alt_of (Or.inl (by simp [Flt.flip]))⟩
    have h0' : ¬ -n = 0 := by omega
    rw [if_neg h0, if_neg h0', Int.natAbs_neg]
    by_cases h1 : n.natAbs - 1 = 0
    · rw [if_pos h1, if_pos h1]
      have ho : decide (Odd n) = true := by
        have : n = 1 ∨ n = -1 := by omega
        rcases this with rfl | rfl <;> decide
      obtain ⟨r, r', h, h', ho'⟩ := j1_odd hx
      by_cases hneg : n < 0
      · rw [if_pos hneg, if_neg (by omega)]
        exact ⟨r', r, h', h, alt_of (by rw [ho]; exact opp_symm ho')⟩
      · rw [if_neg hneg, if_pos (by omega)]
        exact ⟨r, r', h, h', alt_of (by rw [ho]; exact ho')⟩
    · rw [if_neg h1, if_neg h1]
      unfold IsI32 at hn
      obtain ⟨b, hb⟩ := mag_total (nm1 := n.natAbs - 1) (x := x.ab) (by omega) (by omega) (by simpa using hnn) (by simp)
      rw [hb, Option.map_some, Option.map_some]
      refine ⟨_, _, rfl, rfl, alt_of ?_⟩
      rw [odd_iff, odd_iff]
      left
      unfold Flt.flip
      by_cases a : Odd n <;> by_cases c : n < 0
      · have h3 : decide (-n < 0) = false := decide_eq_false (by omega)
        rw [if_pos c, if_neg (by omega : ¬ -n < 0)]
        cases x.sign <;> simp [a]
      · rw [if_neg c, if_pos (by omega : -n < 0)]
        cases x.sign <;> simp [a]
      · cases x.sign <;> simp [a]
      · cases x.sign <;> simp [a]

theorem parityY : ParityY ynf := by
  intro n x hn hm hx
  have hnn := not_nan_of_finite hx
  rw [yn_of hnn, yn_of hnn]
  by_cases hs : x.sign = true ∧ ¬ x.isZero
  · rw [if_pos hs, if_pos hs]
    exact ⟨_, _, rfl, rfl, Or.inr ⟨nan00, nan00⟩⟩
  rw [if_neg hs, if_neg hs, if_neg (not_inf_of_finite hx), if_neg (not_inf_of_finite hx)]
  by_cases h0 : n = 0
  · subst h0
    rw [if_pos rfl, if_pos (by norm_num)]
    obtain ⟨r, hr⟩ := y0_total x
    exact ⟨r, r, hr, hr, alt_of (Or.inl (by simp [Flt.flip]))⟩
  have h0' : ¬ -n = 0 := by omega
  rw [if_neg h0, if_neg h0', Int.natAbs_neg]
  have key : ∀ b : Flt f32, Opp (decide (Odd n)) (if (decide (n < 0) && decide (n % 2 ≠ 0)) = true then -b else b)
      (if (decide (-n < 0) && decide (-n % 2 ≠ 0)) = true then -b else b) := by
    intro b
    rw [odd_iff, odd_iff]
    left
    unfold Flt.flip
    by_cases a : Odd n <;> by_cases c : n < 0
    · rw [decide_eq_false (by omega : ¬ -n < 0)]
      simp [a, c]
    · rw [decide_eq_true (by omega : -n < 0)]
      simp [a, c]
    · simp [a]
    · simp [a]
  by_cases h1 : n.natAbs - 1 = 0
  · rw [if_pos h1, if_pos h1]
    obtain ⟨r, hr⟩ := y1_total x
    rw [hr, Option.map_some, Option.map_some]
    exact ⟨_, _, rfl, rfl, alt_of (key r)⟩
  · rw [if_neg h1, if_neg h1]
    obtain ⟨r, hr⟩ := magY_total (n.natAbs - 1) x
    rw [hr, Option.map_some, Option.map_some]
    exact ⟨_, _, rfl, rfl, alt_of (key r)⟩

end BesselF
end Verif
