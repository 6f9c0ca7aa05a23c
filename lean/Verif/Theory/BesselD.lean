import Verif.Spec.Bessel
import Verif.Theory.Grow
import Verif.Theory.Odd
import Verif.Props.Gamma
import Verif.Props.Lgamma
import Verif.Props.Trig

/-! # The Bessel functions in double precision -/

namespace Verif
open Flt

namespace BesselD

theorem nanw (x : Flt f64) : (getHighWord x &&& 0x7fffffff#32 ||| ((getLowWord x ||| (~~~(getLowWord x) + 1#32)) >>> 31) > 0x7ff00000#32) ↔ x.isNaN := by
  have hl := lo_toNat x
  have hh := hi_abs x
  have key : ((getLowWord x ||| (~~~(getLowWord x) + 1#32)) >>> 31).toNat = if (getLowWord x).toNat = 0 then 0 else 1 := by
    generalize getLowWord x = l
    have h1 := l.isLt
    rw [BitVec.toNat_ushiftRight, BitVec.toNat_or, Nat.shiftRight_or_distrib, BitVec.toNat_add, BitVec.toNat_not, Nat.shiftRight_eq_div_pow, Nat.shiftRight_eq_div_pow]
    norm_num at h1 ⊢
    split_ifs with h0
    · rw [h0]; decide
    · rcases lt_or_ge l.toNat (2 ^ 31) with h | h
      · have a : l.toNat / 2147483648 = 0 := by omega
        have b : ((4294967295 - l.toNat + 1) % 4294967296) / 2147483648 = 1 := by omega
        rw [a, b]; decide
      · have a : l.toNat / 2147483648 = 1 := by omega
        have b : ((4294967295 - l.toNat + 1) % 4294967296) / 2147483648 = 0 ∨ ((4294967295 - l.toNat + 1) % 4294967296) / 2147483648 = 1 := by omega
        rcases b with b | b <;> rw [a, b] <;> decide
  rw [gt_iff_lt, BitVec.lt_def, BitVec.toNat_or, key, hh, hl, isNaN64]
  have hlt := mb64_lt x
  split_ifs with h0
  · rw [Nat.or_zero]
    show 0x7ff00000 < _ ↔ _
    omega
  · have h3 : ∀ a : ℕ, a ≤ (a ||| 1) ∧ (a ||| 1) ≤ a + 1 ∧ (a % 2 = 0 → (a ||| 1) = a + 1) := by
      intro a
      have e : (a ||| 1) = 2 * (a / 2) + 1 := by
        have h1 : (a ||| 1) / 2 = a / 2 := by
          have := Nat.shiftRight_or_distrib (a := a) (b := 1) (i := 1)
          simpa [Nat.shiftRight_eq_div_pow] using this
        have h2 : (a ||| 1) % 2 = 1 := by
          rw [Nat.or_mod_two_eq_one]; simp
        omega
      omega
    obtain ⟨p, q, s⟩ := h3 (x.mb / 2 ^ 32)
    show 0x7ff00000 < _ ↔ _
    by_cases he : x.mb / 2 ^ 32 = 0x7ff00000
    · have := s (by rw [he])
      omega
    · omega

theorem or0 (x : Flt f64) : (getHighWord x &&& 0x7fffffff#32) ||| getLowWord x = 0#32 ↔ x.isZero := by
  rw [BitVec.or_eq_zero_iff, ← BitVec.toNat_inj, ← BitVec.toNat_inj, hi_abs, lo_toNat, isZero_iff]
  show x.mb / 2 ^ 32 = 0 ∧ x.mb % 2 ^ 32 = 0 ↔ _
  omega

theorem shl0 (x : Flt f64) : (getHighWord x <<< 1) ||| getLowWord x = 0#32 ↔ x.isZero := by
  rw [BitVec.or_eq_zero_iff, ← BitVec.toNat_inj, ← BitVec.toNat_inj, BitVec.toNat_shiftLeft, hi_toNat, lo_toNat, isZero_iff, Nat.shiftLeft_eq]
  have := mb64_lt x
  show _ % 2 ^ 32 = 0 ∧ x.mb % 2 ^ 32 = 0 ↔ _
  split_ifs <;> omega

theorem hi_pos {x : Flt f64} (hs : x.sign = false) : getHighWord x = getHighWord x &&& 0x7fffffff#32 := by
  rw [← BitVec.toNat_inj, hi_abs, hi_toNat, hs]; simp

/-! ### totality -/

theorem common0 (ix : BitVec 32) (x : Flt f64) (b : Bool) : ∃ r, J0.common ix x b = some r := by
  obtain ⟨s, hs⟩ := sin_trig.total x
  obtain ⟨c, hc⟩ := cos_trig.total x
  obtain ⟨c2, hc2⟩ := cos_trig.total (2.0 * x)
  obtain ⟨q, hq⟩ := sqrt_tot x
  exact ⟨J0.invsqrtpi * J0.factor ix x b s c c2 / q, by unfold J0.common; rw [hs, hc, hc2, hq]; rfl⟩

theorem common1 (ix : BitVec 32) (x : Flt f64) (b sg : Bool) : ∃ s c c2 q, J1.common ix x b sg = some (J1.invsqrtpi * J1.factor ix x b sg s c c2 / q) ∧
    sin x = some s ∧ cos x = some c ∧ cos (2.0 * x) = some c2 ∧ sqrt x = some q := by
  obtain ⟨s, hs⟩ := sin_trig.total x
  obtain ⟨c, hc⟩ := cos_trig.total x
  obtain ⟨c2, hc2⟩ := cos_trig.total (2.0 * x)
  obtain ⟨q, hq⟩ := sqrt_tot x
  exact ⟨s, c, c2, q, by unfold J1.common; rw [hs, hc, hc2, hq]; rfl, hs, hc, hc2, hq⟩

theorem j0_total (x : Flt f64) : ∃ r, j0 x = some r := by
  unfold j0
  extract_lets ix
  split_ifs
  · exact ⟨_, rfl⟩
  · exact common0 _ _ _
  · exact ⟨_, rfl⟩
  all_goals exact ⟨_, rfl⟩

theorem j1_total (x : Flt f64) : ∃ r, j1 x = some r := by
  unfold j1
  extract_lets ix
  split_ifs
  · exact ⟨_, rfl⟩
  · obtain ⟨s, c, c2, q, h, -⟩ := common1 ix (Generic.fabs x) false x.sign
    exact ⟨_, h⟩
  all_goals exact ⟨_, rfl⟩

theorem y0_total (x : Flt f64) : ∃ r, y0 x = some r := by
  unfold y0
  extract_lets ix z u v
  split_ifs
  · exact ⟨_, rfl⟩
  · exact ⟨_, rfl⟩
  · exact ⟨_, rfl⟩
  · exact common0 _ _ _
  · exact bind_total (j0_total x) fun _ => map_total (log_tot x)
  · exact map_total (log_tot x)

theorem y1_total (x : Flt f64) : ∃ r, y1 x = some r := by
  unfold y1
  extract_lets ix z u v
  split_ifs
  · exact ⟨_, rfl⟩
  · exact ⟨_, rfl⟩
  · exact ⟨_, rfl⟩
  · obtain ⟨s, c, c2, q, h, -⟩ := common1 ix x true false
    exact ⟨_, h⟩
  · exact ⟨_, rfl⟩
  · exact bind_total (j1_total x) fun _ => map_total (log_tot x)

theorem growK_eq (h : Flt f64) : ∀ (fuel : ℕ) (k : ℤ) (z q0 q1 : Flt f64), Jn.growK h fuel k z q0 q1 = Grow.grow 1.0e9 h fuel k z q0 q1 := by
  intro fuel
  induction fuel with
  | zero => intro k z q0 q1; unfold Jn.growK Grow.grow; rfl
  | succ n ih =>
    intro k z q0 q1
    unfold Jn.growK Grow.grow
    dsimp only
    rw [ih]

theorem c1e9 : (1.0e9 : Flt f64).isFinite ∧ (1.0e9 : Flt f64).val = 1000000000 := by
  refine ⟨by decide +kernel, ?_⟩
  rw [val_const64 1000000000 1074 0 (by decide +kernel) (by norm_num)]
  norm_num

/-- the loop that determines the start of the continued fraction ends -/
theorem growK_total {nm1 : ℕ} {x : Flt f64} (hn : nm1 < 2 ^ 31) (h1 : 1 ≤ nm1) (hx : x.isFinite) (h0 : (2 : ℝ) ^ (-40 : ℤ) ≤ x.val) (hle : ¬ (ofInt f64 nm1 <ᶠ x) = true) :
    ∃ k, Jn.growK (2.0 / x) 2147483646 1 (2.0 * (ofInt f64 nm1 + 1.0) / x + 2.0 / x) (2.0 * (ofInt f64 nm1 + 1.0) / x)
      (2.0 * (ofInt f64 nm1 + 1.0) / x * (2.0 * (ofInt f64 nm1 + 1.0) / x + 2.0 / x) - 1.0) = some k := by
  rw [growK_eq]
  have one1 : (1.0 : Flt f64).isFinite ∧ (1.0 : Flt f64).val = 1 := by rw [Trig.one64]; exact ⟨isFinite_one, val_one⟩
  exact Grow.total (K := 30) (by norm_num [f64_bias]) (by norm_num) (by norm_num) (by norm_num [f64_sb]) c1e9.1 (by rw [c1e9.2]; norm_num)
    Lgamma.c2.1 Lgamma.c2.2 one1.1 one1.2 hn h1 hx h0 hle _ (by rw [c1e9.2]; norm_num) _

theorem backward_total {nm1 : ℕ} {x : Flt f64} (hn : nm1 < 2 ^ 31) (h1 : 1 ≤ nm1) (hx : x.isFinite) (h0 : (2 : ℝ) ^ (-40 : ℤ) ≤ x.val) (hle : ¬ (ofInt f64 nm1 <ᶠ x) = true) :
    ∃ r, Jn.backward nm1 x = some r := by
  unfold Jn.backward
  extract_lets nf w h z
  refine bind_total (growK_total hn h1 hx h0 hle) fun k => ?_
  extract_lets t
  refine bind_total (log_tot _) fun lw => ?_
  extract_lets r
  exact bind_total (j0_total x) fun _ => map_total (j1_total x)

theorem mag_total {nm1 : ℕ} {x : Flt f64} (hn : nm1 < 2 ^ 31) (h1 : 1 ≤ nm1) (hx : ¬ x.isNaN) (hs : x.sign = false) :
    ∃ r, Jn.mag nm1 x = some r := by
  unfold Jn.mag
  extract_lets ix
  split_ifs with a b c d e
  · exact ⟨_, rfl⟩
  · unfold Jn.far
    exact bind_total (cos_trig.total x) fun _ => bind_total (sin_trig.total x) fun _ => map_total (sqrt_tot x)
  · exact bind_total (j0_total x) fun _ => map_total (j1_total x)
  · exact ⟨_, rfl⟩
  · exact ⟨_, rfl⟩
  · have hi : ix = getHighWord x &&& 0x7fffffff#32 := hi_pos hs
    rw [hi, Tgamma.ix_lt] at d
    push Not at a
    have hxf : x.isFinite := by
      apply finite_of_not hx
      intro hinf
      apply a.2
      rw [hi, ← BitVec.toNat_inj, hi_abs, (isInf64 x).1 hinf]
      norm_num
    refine backward_total hn h1 hxf ?_ b
    have d' : 0x3e100000 * 2 ^ 32 ≤ x.mb := not_lt.1 d
    have := val_ge_of_mb (x := x) (E := 0x3e1) (by norm_num) (by rw [f64_sb]; omega)
    rw [f64_bias, abs_of_nonneg (val_nonneg hs)] at this
    refine le_trans ?_ this
    exact zpow_le_zpow_right₀ (by norm_num) (by norm_num)

theorem magY_total (nm1 : ℕ) (x : Flt f64) : ∃ r, Jn.magY nm1 x = some r := by
  unfold Jn.magY
  split_ifs
  · unfold Jn.farY
    exact bind_total (cos_trig.total x) fun _ => bind_total (sin_trig.total x) fun _ => map_total (sqrt_tot x)
  · exact bind_total (y0_total x) fun _ => map_total (y1_total x)

theorem jn_of {n : ℤ} {x : Flt f64} (hx : ¬ x.isNaN) : jn n x = if n = 0 then j0 x else if n.natAbs - 1 = 0 then j1 (if n < 0 then -x else x) else
    (Jn.mag (n.natAbs - 1) x.ab).map fun b => if ((if n < 0 then !x.sign else x.sign) && decide (n % 2 ≠ 0)) = true then -b else b := by
  unfold jn
  extract_lets ix lx nm1 sign
  rw [if_neg (by rw [nanw]; exact hx)]
  have e : Generic.fabs (if n < 0 then -x else x) = x.ab := by split_ifs <;> rw [fabs_ab]; rw [ab_neg]
  rw [e]

theorem yn_of {n : ℤ} {x : Flt f64} (hx : ¬ x.isNaN) : yn n x = if x.sign = true ∧ ¬ x.isZero then some (0.0 / 0.0) else if x.isInf then some 0.0 else
    if n = 0 then y0 x else if n.natAbs - 1 = 0 then (y1 x).map fun y => if (decide (n < 0) && decide (n % 2 ≠ 0)) = true then -y else y else
    (Jn.magY (n.natAbs - 1) x).map fun b => if (decide (n < 0) && decide (n % 2 ≠ 0)) = true then -b else b := by
  unfold yn
  extract_lets ix lx nm1 sign
  rw [if_neg (by rw [nanw]; exact hx)]
  have e1 : (x.sign = true ∧ ix ||| lx ≠ 0#32) ↔ (x.sign = true ∧ ¬ x.isZero) := by rw [Ne, or0]
  have e2 : ix = 0x7ff00000#32 ↔ x.isInf := by
    rw [← BitVec.toNat_inj, hi_abs, isInf64]
    rw [isNaN64] at hx
    show x.mb / 2 ^ 32 = 0x7ff00000 ↔ _
    omega
  simp only [e1, e2]
  rfl

theorem jn_total {n : ℤ} (hn : IsI32 n) (x : Flt f64) : ∃ r, jn n x = some r := by
  by_cases hx : x.isNaN
  · unfold jn
    extract_lets ix lx
    rw [if_pos (by rw [nanw]; exact hx)]
    exact ⟨_, rfl⟩
  · rw [jn_of hx]
    unfold IsI32 at hn
    split_ifs
    · exact j0_total x
    · exact j1_total _
    · exact j1_total _
    all_goals exact map_total (mag_total (by omega) (by omega) (by simpa using hx) (by simp))

theorem yn_total (n : ℤ) (x : Flt f64) : ∃ r, yn n x = some r := by
  by_cases hx : x.isNaN
  · unfold yn
    extract_lets ix lx
    rw [if_pos (by rw [nanw]; exact hx)]
    exact ⟨_, rfl⟩
  · rw [yn_of hx]
    split_ifs
    · exact ⟨_, rfl⟩
    · exact ⟨_, rfl⟩
    · exact y0_total x
    · exact map_total (y1_total x)
    · exact map_total (y1_total x)
    · exact map_total (magY_total _ x)
    · exact map_total (magY_total _ x)

/-! ### special values -/

theorem sq_inf {F : Fmt} {x : Flt F} (h : x.isInf) : x * x = inf F false := by
  rw [inf_mul h (not_nan_of_inf h) (fun hz => not_inf_of_finite (finite_of_zero hz) h)]
  simp

theorem nf_word {x : Flt f64} (h : x.isNaN ∨ x.isInf) : getHighWord x &&& 0x7fffffff#32 ≥ 0x7ff00000#32 := by
  rw [Tgamma.ix_ge]
  exact Trig.nf64 h

theorem j0_nf {x : Flt f64} (h : x.isNaN ∨ x.isInf) : j0 x = some (1.0 / (x * x)) := by
  unfold j0
  extract_lets ix
  rw [if_pos (nf_word h)]

theorem j1_nf {x : Flt f64} (h : x.isNaN ∨ x.isInf) : j1 x = some (1.0 / (x * x)) := by
  unfold j1
  extract_lets ix
  rw [if_pos (nf_word h)]

theorem inv_inf : (1.0 : Flt f64) / inf f64 false = zero f64 false := by
  rw [Trig.one64, div_inf isFinite_one (isInf_inf _)]
  simp

theorem zero_ix {x : Flt f64} (h : x.isZero) : (getHighWord x &&& 0x7fffffff#32) = 0#32 := by
  rw [← BitVec.toNat_inj, hi_abs, (isZero_iff x).1 h]
  rfl

theorem j0_zero {x : Flt f64} (h : x.isZero) : j0 x = some (one f64) := by
  rw [eq_zero h]
  cases x.sign <;> decide +kernel

theorem j1_zero {x : Flt f64} (h : x.isZero) : j1 x = some x := by
  rw [eq_zero h]
  cases x.sign <;> decide +kernel

theorem y0_zero {x : Flt f64} (h : x.isZero) : y0 x = some (inf f64 true) := by
  unfold y0
  extract_lets ix
  rw [if_pos ((shl0 x).2 h)]
  decide +kernel

theorem y1_zero {x : Flt f64} (h : x.isZero) : y1 x = some (inf f64 true) := by
  unfold y1
  extract_lets ix
  rw [if_pos ((shl0 x).2 h)]
  decide +kernel

theorem nan00 : ((0.0 : Flt f64) / 0.0).isNaN := by decide +kernel

theorem sg_word {x : Flt f64} : getHighWord x >>> 31 ≠ 0#32 ↔ x.sign = true := by
  rw [Ne, ← BitVec.toNat_inj, hi_sign]; cases x.sign <;> simp

theorem y0_neg {x : Flt f64} (h0 : ¬ x.isZero) (hs : x.sign = true) : y0 x = some (0.0 / 0.0) := by
  unfold y0
  extract_lets ix
  rw [if_neg (by rw [shl0]; exact h0), if_pos (sg_word.2 hs)]

theorem y1_neg {x : Flt f64} (h0 : ¬ x.isZero) (hs : x.sign = true) : y1 x = some (0.0 / 0.0) := by
  unfold y1
  extract_lets ix
  rw [if_neg (by rw [shl0]; exact h0), if_pos (sg_word.2 hs)]

theorem y0_nf {x : Flt f64} (h : x.isNaN ∨ x.isInf) (hs : x.sign = false) : y0 x = some (1.0 / x) := by
  unfold y0
  extract_lets ix
  have h0 : ¬ x.isZero := fun hz => by
    have := finite_of_zero hz
    rcases h with h | h
    · exact not_nan_of_finite this h
    · exact not_inf_of_finite this h
  rw [if_neg (by rw [shl0]; exact h0), if_neg (by rw [sg_word, hs]; simp), if_pos (by
    show getHighWord x ≥ _
    rw [hi_pos hs]; exact nf_word h)]

theorem y1_nf {x : Flt f64} (h : x.isNaN ∨ x.isInf) (hs : x.sign = false) : y1 x = some (1.0 / x) := by
  unfold y1
  extract_lets ix
  have h0 : ¬ x.isZero := fun hz => by
    have := finite_of_zero hz
    rcases h with h | h
    · exact not_nan_of_finite this h
    · exact not_inf_of_finite this h
  rw [if_neg (by rw [shl0]; exact h0), if_neg (by rw [sg_word, hs]; simp), if_pos (by
    show getHighWord x ≥ _
    rw [hi_pos hs]; exact nf_word h)]

theorem not_zero_of_nan {F : Fmt} {x : Flt F} (h : x.isNaN) : ¬ x.isZero := fun hz => not_nan_of_finite (finite_of_zero hz) h

theorem y0_nan {x r : Flt f64} (h : x.isNaN) (hr : y0 x = some r) : r.isNaN := by
  cases hs : x.sign
  · rw [y0_nf (Or.inl h) hs] at hr
    rw [← Option.some.inj hr, div_nan (Or.inr h)]; simp
  · rw [y0_neg (not_zero_of_nan h) hs] at hr
    rw [← Option.some.inj hr]; exact nan00

theorem y1_nan {x r : Flt f64} (h : x.isNaN) (hr : y1 x = some r) : r.isNaN := by
  cases hs : x.sign
  · rw [y1_nf (Or.inl h) hs] at hr
    rw [← Option.some.inj hr, div_nan (Or.inr h)]; simp
  · rw [y1_neg (not_zero_of_nan h) hs] at hr
    rw [← Option.some.inj hr]; exact nan00

theorem mag_zero {nm1 : ℕ} {x : Flt f64} (h : x.isZero ∨ x.isInf) (hs : x.sign = false) : Jn.mag nm1 x = some 0.0 := by
  unfold Jn.mag
  extract_lets ix
  rw [if_pos]
  have hi : ix = getHighWord x &&& 0x7fffffff#32 := hi_pos hs
  rcases h with h | h
  · left; rw [hi]; exact (or0 x).2 h
  · right
    rw [hi, ← BitVec.toNat_inj, hi_abs, (isInf64 x).1 h]
    norm_num

theorem fwdY_inf (x : Flt f64) (k : ℕ) (i : ℤ) (a : Flt f64) : Jn.fwdY x k i a (inf f64 true) = inf f64 true := by
  cases k with
  | zero => rfl
  | succ k =>
    unfold Jn.fwdY
    rw [if_neg (by decide +kernel)]

theorem magY_zero {nm1 : ℕ} {x : Flt f64} (h : x.isZero) : Jn.magY nm1 x = some (inf f64 true) := by
  unfold Jn.magY
  rw [if_neg (by rw [zero_ix h]; decide), y0_zero h, y1_zero h]
  show some (Jn.fwdY x nm1 0 _ _) = _
  rw [fwdY_inf]

theorem lit0 : (0.0 : Flt f64) = zero f64 false := by decide +kernel

theorem odd_iff (n : ℤ) : decide (n % 2 ≠ 0) = decide (Odd n) := by
  rw [decide_eq_decide, Int.odd_iff]; omega

theorem neg_zero' {F : Fmt} (s : Bool) : -(zero F s) = zero F (!s) := by
  have := flip_zero (F := F) true s
  simpa [Flt.flip] using this
theorem neg_inf' {F : Fmt} (s : Bool) : -(inf F s) = inf F (!s) := by
  have := flip_inf (F := F) true s
  simpa [Flt.flip] using this

theorem besselJ : IsBesselJ jn j0 j1 where
  order0 x hx := by rw [jn_of hx, if_pos rfl]
  order1 x hx := by rw [jn_of hx, if_neg (by norm_num), if_pos (by norm_num), if_neg (by norm_num)]
  nan n x r hx hr := by
    unfold jn at hr
    extract_lets ix lx at hr
    rw [if_pos (by rw [nanw]; exact hx)] at hr
    rw [← Option.some.inj hr]; exact hx
  nan0 x r hx hr := by
    rw [j0_nf (Or.inl hx)] at hr
    rw [← Option.some.inj hr, mul_nan (Or.inl hx), div_nan (Or.inr (by simp))]; simp
  nan1 x r hx hr := by
    rw [j1_nf (Or.inl hx)] at hr
    rw [← Option.some.inj hr, mul_nan (Or.inl hx), div_nan (Or.inr (by simp))]; simp
  inf n x r hn hx hr := by
    rw [jn_of (not_nan_of_inf hx)] at hr
    have hz : ∀ b, (zero f64 b).isZero := fun b => isZero_zero b
    split_ifs at hr with h1 h2 h3 h3
    · rw [j0_nf (Or.inr hx), sq_inf hx, inv_inf] at hr
      rw [← Option.some.inj hr]; exact hz _
    · rw [j1_nf (Or.inr (by simpa using hx)), sq_inf (by simpa using hx), inv_inf] at hr
      rw [← Option.some.inj hr]; exact hz _
    · rw [j1_nf (Or.inr hx), sq_inf hx, inv_inf] at hr
      rw [← Option.some.inj hr]; exact hz _
    all_goals
      rw [mag_zero (Or.inr (by simpa using hx)) (by simp), Option.map_some, lit0] at hr
      rw [← Option.some.inj hr]
      simp
  zero x hx := by rw [jn_of (not_nan_of_finite (finite_of_zero hx)), if_pos rfl, j0_zero hx]
  zero' n x hn h0 hx := by
    rw [jn_of (not_nan_of_finite (finite_of_zero hx)), if_neg h0]
    by_cases h1 : n.natAbs - 1 = 0
    · rw [if_pos h1]
      have : n = 1 ∨ n = -1 := by omega
      rcases this with rfl | rfl
      · rw [if_neg (by norm_num), j1_zero hx]
        conv_lhs => rw [eq_zero hx]
        simp
      · rw [if_pos (by norm_num), j1_zero (by simpa using hx)]
        conv_lhs => rw [eq_zero hx]
        rw [neg_zero']
        simp
    · rw [if_neg h1, mag_zero (Or.inl (by simpa using hx)) (by simp), Option.map_some, lit0, odd_iff, neg_zero']
      congr 1
      by_cases a : Odd n <;> by_cases b : n < 0 <;> cases x.sign <;> simp [a, b]

theorem besselY : IsBesselY yn y0 y1 where
  order0 x hx := by
    rw [yn_of hx]
    split_ifs with h1 h2 h3
    · rw [y0_neg h1.2 h1.1]
    · have hs : x.sign = false := by
        by_contra hc
        exact h1 ⟨by simpa using hc, fun hz => not_inf_of_finite (finite_of_zero hz) h2⟩
      rw [y0_nf (Or.inr h2) hs, eq_inf h2, hs, inv_inf, lit0]
    · rfl
    all_goals exact absurd rfl h3
  order1 x hx := by
    rw [yn_of hx]
    split_ifs with h1 h2 h3 h4
    · rw [y1_neg h1.2 h1.1]
    · have hs : x.sign = false := by
        by_contra hc
        exact h1 ⟨by simpa using hc, fun hz => not_inf_of_finite (finite_of_zero hz) h2⟩
      rw [y1_nf (Or.inr h2) hs, eq_inf h2, hs, inv_inf, lit0]
    · exact absurd h3 (by norm_num)
    · rename_i h5
      exact absurd h5 (by decide)
    · simp
    · exact absurd rfl h4
    · exact absurd rfl h4
  nan n x r hx hr := by
    unfold yn at hr
    extract_lets ix lx at hr
    rw [if_pos (by rw [nanw]; exact hx)] at hr
    rw [← Option.some.inj hr]; exact hx
  nan0 x r hx hr := y0_nan hx hr
  nan1 x r hx hr := y1_nan hx hr
  neg n x r hx h0 hs hr := by
    rw [yn_of hx, if_pos ⟨hs, h0⟩] at hr
    rw [← Option.some.inj hr]; exact nan00
  inf n := by
    rw [yn_of (not_nan_of_inf (isInf_inf _)), if_neg (by simp), if_pos (isInf_inf _), lit0]
  zero n x hn hx := by
    rw [yn_of (not_nan_of_finite (finite_of_zero hx)), if_neg (by tauto), if_neg (not_inf_of_finite (finite_of_zero hx))]
    by_cases h0 : n = 0
    · subst h0
      rw [if_pos rfl, y0_zero hx]; simp
    rw [if_neg h0, odd_iff, y1_zero hx, magY_zero hx, Option.map_some, ite_self, neg_inf']
    congr 1
    by_cases a : Odd n <;> by_cases b : n < 0 <;> simp [a, b]

/-! ### symmetry -/

theorem alt_of {F : Fmt} {n : ℤ} {a b : Flt F} (h : Opp (decide (Odd n)) a b) : AltSign n a b := by
  unfold Opp Flt.flip at h
  unfold AltSign
  by_cases hn : Even n
  · rw [if_pos hn]
    rwa [if_neg (by simpa using hn)] at h
  · rw [if_neg hn]
    rwa [if_pos (by simpa using hn)] at h

theorem ix_neg (x : Flt f64) : getHighWord (-x) &&& 0x7fffffff#32 = getHighWord x &&& 0x7fffffff#32 := by
  rw [← BitVec.toNat_inj, hi_abs, hi_abs, mb_neg]

theorem j0_even {x : Flt f64} : j0 (-x) = j0 x := by
  have e2 : Generic.fabs (-x) = Generic.fabs x := by rw [fabs_ab, fabs_ab, ab_neg]
  unfold j0
  simp only [ix_neg, e2, neg_mul_neg']

/-- adding a tiny number to one half -/
theorem half_add {F : Fmt} {h x : Flt F} (hb : 110 ≤ F.bias) (hsb : F.sb ≤ 90) (hf : h.isFinite) (hv : h.val = 1 / 2) (hx : x.isFinite) (hx2 : |x.val| < 2 ^ (-100 : ℤ)) : h + x = h := by
  have hr := add_rne hf hx
  have p100 := zp (-100)
  have p100' : (2 : ℝ) ^ (-100 : ℤ) ≤ 1 / 8 := by norm_num
  rw [hv] at hr
  have hab := abs_lt.1 hx2
  have her := hr.err 0 (by rw [abs_le]; constructor <;> norm_num at * <;> linarith) (by omega) (by omega)
  have hfin := her.1
  apply eq_of_val (c := h) _ (by rw [hv]; norm_num)
  rw [hv]
  have hn : |(h + x).val - (1 / 2 + x.val)| ≤ |h.val - (1 / 2 + x.val)| := by
    unfold IsRNE at hr
    split_ifs at hr with hc
    · exact absurd hr.1 (not_inf_of_finite hfin)
    · exact hr.2.1 h hf
  rw [hv, show (1 / 2 : ℝ) - (1 / 2 + x.val) = -x.val by ring, abs_neg] at hn
  have hd : |(h + x).val - 1 / 2| < 2 ^ (-99 : ℤ) := by
    have e : (2 : ℝ) ^ (-99 : ℤ) = 2 ^ (-100 : ℤ) + 2 ^ (-100 : ℤ) := by norm_num
    rw [e, abs_lt]
    have := abs_le.1 hn
    generalize (2 : ℝ) ^ (-100 : ℤ) = B at *
    rcases abs_cases x.val with ⟨h1, h2⟩ | ⟨h1, h2⟩ <;> rw [h1] at this hx2 <;> constructor <;> linarith
  set r := h + x
  have hd' := abs_lt.1 hd
  obtain ⟨n, hn⟩ := grid r (-2) (by
    have : (2 : ℝ) ^ (-99 : ℤ) ≤ 1 / 8 := by norm_num
    rw [abs_of_nonneg (by linarith)]
    norm_num
    linarith)
  have hg : r.val - 1 / 2 = ((n - 2 ^ (F.sb + 1) : ℤ) : ℝ) * 2 ^ (-2 - (F.sb : ℤ)) := by
    rw [hn]
    push_cast
    rw [sub_mul, ← zpow_natCast, ← zpow_add₀ (by norm_num)]
    congr 1
    rw [show ((F.sb + 1 : ℕ) : ℤ) + (-2 - F.sb) = -1 by push_cast; ring]
    norm_num
  have hz : n - 2 ^ (F.sb + 1) = 0 := by
    by_contra hne
    have h1 : (1 : ℝ) ≤ |((n - 2 ^ (F.sb + 1) : ℤ) : ℝ)| := by exact_mod_cast Int.one_le_abs hne
    rw [hg, abs_mul, abs_of_pos (zp _)] at hd
    have h2 : (2 : ℝ) ^ (-99 : ℤ) ≤ 2 ^ (-2 - (F.sb : ℤ)) := zpow_le_zpow_right₀ (by norm_num) (by omega)
    have := mul_le_mul_of_nonneg_right h1 (zp (-2 - (F.sb : ℤ))).le
    linarith
  rw [hz] at hg
  simp at hg
  linarith

theorem factor_sign (ix : BitVec 32) (x : Flt f64) (b : Bool) (s c c2 : Flt f64) (sg : Bool) : J1.factor ix x b (!sg) s c c2 = -J1.factor ix x b sg s c c2 := by
  unfold J1.factor
  extract_lets s' cc ss swap cc' ss' cc2
  cases sg <;> simp

theorem opp_mul_neg {F : Fmt} (a x : Flt F) : Opp true (a * x) (a * -x) := (Opp.refl a).mul (Opp.neg x)

theorem j1_odd {x : Flt f64} (hx : x.isFinite) : ∃ r r', j1 x = some r ∧ j1 (-x) = some r' ∧ Opp true r r' := by
  have e2 : Generic.fabs (-x) = Generic.fabs x := by rw [fabs_ab, fabs_ab, ab_neg]
  unfold j1
  simp only [ix_neg, e2, neg_mul_neg', sign_neg]
  set ix := getHighWord x &&& 0x7fffffff#32
  have hix : ¬ ix ≥ 0x7ff00000#32 := by
    rw [Tgamma.ix_ge]
    have := (isFinite64 x).1 hx
    show ¬ 0x7ff00000 * 2 ^ 32 ≤ x.mb
    omega
  rw [if_neg hix, if_neg hix]
  split_ifs with h1 h2
  · obtain ⟨s, c, c2, q, h, hs, hc, hc2, hq⟩ := common1 ix (Generic.fabs x) false x.sign
    obtain ⟨s', c', c2', q', h', hs', hc', hc2', hq'⟩ := common1 ix (Generic.fabs x) false (!x.sign)
    rw [hs, Option.some.injEq] at hs'
    rw [hc, Option.some.injEq] at hc'
    rw [hc2, Option.some.injEq] at hc2'
    rw [hq, Option.some.injEq] at hq'
    subst hs' hc' hc2' hq'
    refine ⟨_, _, h, h', ?_⟩
    rw [factor_sign]
    exact ((Opp.refl J1.invsqrtpi).mul (Opp.neg _)).div (Opp.refl q)
  · exact ⟨_, _, rfl, rfl, opp_mul_neg _ _⟩
  · have hmb : x.mb < 0x38000000 * 2 ^ 32 := by
      rw [Tgamma.ix_ge] at h2
      exact not_le.1 h2
    have ht : |x.val| < 2 ^ (-100 : ℤ) := by
      refine lt_of_lt_of_le (val_lt_of_mb (x := x) (E := 0x380) (by norm_num) (by rw [f64_sb]; omega)) ?_
      exact zpow_le_zpow_right₀ (by norm_num) (by norm_num [f64_bias])
    have a := half_add (F := f64) (by norm_num [f64_bias]) (by norm_num [f64_sb]) (by decide +kernel) half64_val hx ht
    have b := half_add (F := f64) (x := -x) (by norm_num [f64_bias]) (by norm_num [f64_sb]) (by decide +kernel) half64_val (by simpa using hx) (by simpa using ht)
    rw [a, b]
    exact ⟨_, _, rfl, rfl, opp_mul_neg _ _⟩

theorem opp_symm {F : Fmt} {s : Bool} {a b : Flt F} (h : Opp s a b) : Opp s b a := by
  rcases h with rfl | ⟨h1, h2⟩
  · left; rw [Flt.flip_flip]; simp [Flt.flip]
  · exact Or.inr ⟨h2, h1⟩

theorem parityJ : ParityJ jn where
  arg n x hn hx := by
    have hnn := not_nan_of_finite hx
    rw [jn_of hnn, jn_of (by simpa using hnn), ab_neg, sign_neg]
    by_cases h0 : n = 0
    · subst h0
      rw [if_pos rfl, if_pos rfl, j0_even]
      obtain ⟨r, hr⟩ := j0_total x
      exact ⟨r, r, hr, hr, alt_of (Or.inl (by simp [Flt.flip]))⟩
    rw [if_neg h0, if_neg h0]
    by_cases h1 : n.natAbs - 1 = 0
    · rw [if_pos h1, if_pos h1]
      have ho : decide (Odd n) = true := by
        have : n = 1 ∨ n = -1 := by omega
        rcases this with rfl | rfl <;> decide
      obtain ⟨r, r', h, h', ho'⟩ := j1_odd hx
      by_cases hneg : n < 0
      · rw [if_pos hneg, if_pos hneg, Flt.neg_neg]
        exact ⟨r', r, h', h, alt_of (by rw [ho]; exact opp_symm ho')⟩
      · rw [if_neg hneg, if_neg hneg]
        exact ⟨r, r', h, h', alt_of (by rw [ho]; exact ho')⟩
    · rw [if_neg h1, if_neg h1]
      unfold IsI32 at hn
      obtain ⟨b, hb⟩ := mag_total (nm1 := n.natAbs - 1) (x := x.ab) (by omega) (by omega) (by simpa using hnn) (by simp)
      rw [hb, Option.map_some, Option.map_some]
      refine ⟨_, _, rfl, rfl, alt_of ?_⟩
      rw [odd_iff]
      left
      unfold Flt.flip
      by_cases a : Odd n <;> by_cases c : n < 0 <;> cases x.sign <;> simp [a, c]
  order n x hn hm hx := by
    have hnn := not_nan_of_finite hx
    rw [jn_of hnn, jn_of (by simpa using hnn)]
    by_cases h0 : n = 0
    · subst h0
      rw [if_pos rfl, if_pos (by norm_num)]
      obtain ⟨r, hr⟩ := j0_total x
      exact ⟨r, r, hr, hr, alt_of (Or.inl (by simp [Flt.flip]))⟩
    have h0' : ¬ -n = 0 := by omega
    rw [if_neg h0, if_neg h0', Int.natAbs_neg]
    by_cases h1 : n.natAbs - 1 = 0
    · rw [if_pos h1, if_pos h1]
      have ho : decide (Odd n) = true := by
        have : n = 1 ∨ n = -1 := by omega
        rcases this with rfl | rfl <;> decide
      obtain ⟨r, r', h, h', ho'⟩ := j1_odd hx
      by_cases hneg : n < 0
      · rw [if_pos hneg, if_neg (by omega)]
        exact ⟨r', r, h', h, alt_of (by rw [ho]; exact opp_symm ho')⟩
      · rw [if_neg hneg, if_pos (by omega)]
        exact ⟨r, r', h, h', alt_of (by rw [ho]; exact ho')⟩
    · rw [if_neg h1, if_neg h1]
      unfold IsI32 at hn
      obtain ⟨b, hb⟩ := mag_total (nm1 := n.natAbs - 1) (x := x.ab) (by omega) (by omega) (by simpa using hnn) (by simp)
      rw [hb, Option.map_some, Option.map_some]
      refine ⟨_, _, rfl, rfl, alt_of ?_⟩
      rw [odd_iff, odd_iff]
      left
      unfold Flt.flip
      by_cases a : Odd n <;> by_cases c : n < 0
      · have h3 : decide (-n < 0) = false := decide_eq_false (by omega)
        rw [if_pos c, if_neg (by omega : ¬ -n < 0)]
        cases x.sign <;> simp [a]
      · rw [if_neg c, if_pos (by omega : -n < 0)]
        cases x.sign <;> simp [a]
      · cases x.sign <;> simp [a]
      · cases x.sign <;> simp [a]

theorem parityY : ParityY yn := by
  intro n x hn hm hx
  have hnn := not_nan_of_finite hx
  rw [yn_of hnn, yn_of hnn]
  by_cases hs : x.sign = true ∧ ¬ x.isZero
  · rw [if_pos hs, if_pos hs]
    exact ⟨_, _, rfl, rfl, Or.inr ⟨nan00, nan00⟩⟩
  rw [if_neg hs, if_neg hs, if_neg (not_inf_of_finite hx), if_neg (not_inf_of_finite hx)]
  by_cases h0 : n = 0
  · subst h0
    rw [if_pos rfl, if_pos (by norm_num)]
    obtain ⟨r, hr⟩ := y0_total x
    exact ⟨r, r, hr, hr, alt_of (Or.inl (by simp [Flt.flip]))⟩
  have h0' : ¬ -n = 0 := by omega
  rw [if_neg h0, if_neg h0', Int.natAbs_neg]
  have key : ∀ b : Flt f64, Opp (decide (Odd n)) (if (decide (n < 0) && decide (n % 2 ≠ 0)) = true then -b else b)
      (if (decide (-n < 0) && decide (-n % 2 ≠ 0)) = true then -b else b) := by
    intro b
    rw [odd_iff, odd_iff]
    left
    unfold Flt.flip
    by_cases a : Odd n <;> by_cases c : n < 0
    · rw [decide_eq_false (by omega : ¬ -n < 0)]
      simp [a, c]
    · rw [decide_eq_true (by omega : -n < 0)]
      simp [a, c]
    · simp [a]
    · simp [a]
  by_cases h1 : n.natAbs - 1 = 0
  · rw [if_pos h1, if_pos h1]
    obtain ⟨r, hr⟩ := y1_total x
    rw [hr, Option.map_some, Option.map_some]
    exact ⟨_, _, rfl, rfl, alt_of (key r)⟩
  · rw [if_neg h1, if_neg h1]
    obtain ⟨r, hr⟩ := magY_total (n.natAbs - 1) x
    rw [hr, Option.map_some, Option.map_some]
    exact ⟨_, _, rfl, rfl, alt_of (key r)⟩

end BesselD
end Verif
