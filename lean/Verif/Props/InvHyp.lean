import Verif.Props.Hyperbolic
import Verif.Theory.AcoshDom

/-!
# C35: the domains of acosh and atanh

`acosh` is NaN below one only on part of the line: `acosh_full_fails` gives the counterexamples.
-/

namespace Verif
open Flt

/-- The claim about an inverse hyperbolic cosine, with the arguments below one restricted to `D`: it never fails; NaN gives
NaN; an argument below one (minus infinity included) that satisfies `D` gives NaN; `acosh 1 = +0`; `acosh(+inf) = +inf`.
The whole claim is the one with `D` always true. -/
structure IsAcosh {F : Fmt} (f : Flt F → Option (Flt F)) (D : Flt F → Prop) : Prop where
  total : ∀ x, ∃ r, f x = some r
  nan : ∀ x : Flt F, x.isNaN → ∃ r, f x = some r ∧ r.isNaN
  domain : ∀ x : Flt F, (x <ᶠ one F) = true → D x → ∃ r, f x = some r ∧ r.isNaN
  one : f (one F) = some (zero F false)
  pinf : f (inf F false) = some (inf F false)

/-- The claim about an inverse hyperbolic tangent: it never fails; NaN gives NaN; an argument outside `[-1, 1]` (the
infinities included) gives NaN; `±1` gives the infinity of that sign; a zero gives the same zero. -/
structure IsAtanh {F : Fmt} (f : Flt F → Option (Flt F)) : Prop where
  total : ∀ x, ∃ r, f x = some r
  nan : ∀ x : Flt F, x.isNaN → ∃ r, f x = some r ∧ r.isNaN
  domain : ∀ x : Flt F, ((one F <ᶠ x) = true ∨ (x <ᶠ -one F) = true) → ∃ r, f x = some r ∧ r.isNaN
  pole : f (one F) = some (inf F false) ∧ f (-one F) = some (inf F true)
  zero : ∀ x : Flt F, x.isZero → f x = some x

namespace InvHyp

theorem one64 : (1.0 : Flt f64) = one f64 := by decide +kernel
theorem one32 : (1.0 : Flt f32) = one f32 := by decide +kernel
theorem two64f : (2.0 : Flt f64).isFinite := by decide +kernel
theorem two32f : (2.0 : Flt f32).isFinite := by decide +kernel
theorem two64 : (2.0 : Flt f64).val = 2 := by
  rw [val, show (2.0 : Flt f64).toRat = 2 by decide +kernel]; norm_num
theorem two32 : (2.0 : Flt f32).val = 2 := by
  rw [val, show (2.0 : Flt f32).toRat = 2 by decide +kernel]; norm_num

theorem map_nan {F : Fmt} {o : Option (Flt F)} {g : Flt F → Flt F} (h : ∃ r, o = some r ∧ r.isNaN)
    (hg : ∀ r : Flt F, r.isNaN → (g r).isNaN) : ∃ r, o.map g = some r ∧ r.isNaN := by
  obtain ⟨r, h1, h2⟩ := h
  exact ⟨g r, by rw [h1]; rfl, hg r h2⟩

theorem add_isNaN {F : Fmt} (c : Flt F) : ∀ r : Flt F, r.isNaN → (r + c).isNaN := fun r h => by
  rw [add_nan (Or.inl h)]; exact isNaN_qnan
theorem mul_isNaN {F : Fmt} (c : Flt F) : ∀ r : Flt F, r.isNaN → (c * r).isNaN := fun r h => by
  rw [mul_nan (Or.inr h)]; exact isNaN_qnan
theorem flip_isNaN {F : Fmt} (s : Bool) : ∀ r : Flt F, r.isNaN → (flip s r).isNaN := fun r h => by
  simpa using h

theorem lt_one_val {F : Fmt} {x : Flt F} (h : (x <ᶠ one F) = true) : ¬ x.isNaN ∧ x.val < 1 := by
  obtain ⟨h1, -, h3⟩ := lt_iff.1 h
  exact ⟨h1, by rw [← val_one (F := F)]; exact val_lt_iff.2 h3⟩

theorem lt_zero {F : Fmt} {x : Flt F} (hx : ¬ x.isNaN) (h : x.val < 0) : (x <ᶠ zero F false) = true :=
  AcoshDom.lt_of_val hx (not_nan_of_finite (by simp)) (by rw [val_zero]; exact h)

theorem acosh_eq (x : Flt f64) : acosh x =
    if x.mb < 0x400 * 2 ^ 52 then
      (sqrt ((x - one f64) * (x - one f64) + 2.0 * (x - one f64))).bind fun s => log1p (x - one f64 + s)
    else if x.mb < 0x419 * 2 ^ 52 then (sqrt (x * x - one f64)).bind fun s => log (2.0 * x - one f64 / (x + s))
    else (log x).map (· + Asinh.ln2) := by
  unfold acosh
  simp only [exp64_field, one64]
  refine ite_congr ?_ (fun _ => rfl) (fun _ => ite_congr ?_ (fun _ => rfl) (fun _ => rfl)) <;>
  · apply propext
    rw [Nat.div_lt_iff_lt_mul (by norm_num)]

theorem acoshf_eq (x : Flt f32) : acoshf x =
    if x.mb < 0x80 * 2 ^ 23 then
      (sqrtf ((x - one f32) * (x - one f32) + 2.0 * (x - one f32))).bind fun s => log1pf (x - one f32 + s)
    else if x.mb < 0x8b * 2 ^ 23 then (sqrtf (x * x - one f32)).bind fun s => logf (2.0 * x - one f32 / (x + s))
    else (logf x).map (· + Asinhf.ln2) := by
  unfold acoshf
  have h : (x.u32 &&& 0x7fffffff).toNat = x.mb := u32_abs x
  simp only [one32]
  refine ite_congr ?_ (fun _ => rfl) (fun _ => ite_congr ?_ (fun _ => rfl) (fun _ => rfl)) <;>
  · apply propext
    rw [BitVec.lt_def, h]
    rfl

theorem acosh_tot (x : Flt f64) : ∃ r, acosh x = some r := by
  rw [acosh_eq]
  split_ifs
  · exact bind_total (sqrt_tot _) (fun _ => log1p_tot _)
  · exact bind_total (sqrt_tot _) (fun _ => log_tot _)
  · exact map_total (log_tot _)

theorem acoshf_tot (x : Flt f32) : ∃ r, acoshf x = some r := by
  rw [acoshf_eq]
  split_ifs
  · exact bind_total (sqrtf_tot _) (fun _ => log1pf_tot _)
  · exact bind_total (sqrtf_tot _) (fun _ => logf_tot _)
  · exact map_total (logf_tot _)

end InvHyp

open InvHyp

/-- `acosh`: NaN below one holds for arguments from `-4096` up and from `-2^26` down.  Missing: the arguments between, for
which the claim is false (`acosh_full_fails`). -/
theorem acosh_domain_partial : IsAcosh acosh (fun x => -4096 ≤ x.toRat ∨ x.toRat ≤ -2 ^ 26) where
  total := acosh_tot
  nan x hx := by
    rw [acosh_eq]
    have := (isNaN64 x).1 hx
    rw [if_neg (by omega), if_neg (by omega)]
    exact map_nan (log_domain.nan x hx) (add_isNaN _)
  domain x hx hD := by
    obtain ⟨hn, h1⟩ := lt_one_val hx
    have hD' : -4096 ≤ x.val ∨ x.val ≤ -2 ^ 26 := by
      rcases hD with h | h
      · left; rw [val]; exact_mod_cast h
      · right; rw [val]; exact_mod_cast h
    rw [acosh_eq]
    by_cases ha : x.mb < 0x400 * 2 ^ 52
    · rw [if_pos ha]
      have hv := val_lt_of_mb (x := x) (E := 0x400) (by norm_num) ha
      rw [show ((0x400 : ℕ) : ℤ) - (f64.bias : ℤ) = 1 by decide, zpow_one, abs_lt] at hv
      exact AcoshDom.small sqrt_correct log1p_domain (by decide) (by decide) (by decide) two64f two64
        (by rw [isFinite64]; omega) hv.1 h1
    · rw [if_neg ha]
      have hv := val_ge_of_mb (x := x) (E := 0x400) (by norm_num) (not_lt.1 ha)
      rw [show ((0x400 : ℕ) : ℤ) - (f64.bias : ℤ) = 1 by decide, zpow_one] at hv
      have hneg : x.val < 0 := by
        by_contra h
        rw [abs_of_nonneg (not_lt.1 h)] at hv; linarith
      rw [abs_of_neg hneg] at hv
      by_cases hb : x.mb < 0x419 * 2 ^ 52
      · rw [if_pos hb]
        have hv2 := val_lt_of_mb (x := x) (E := 0x419) (by norm_num) hb
        rw [show ((0x419 : ℕ) : ℤ) - (f64.bias : ℤ) = 26 by decide, abs_of_neg hneg] at hv2
        norm_num at hv2
        have h3 : -4096 ≤ x.val := by
          rcases hD' with h | h
          · exact h
          · norm_num at h; linarith
        refine AcoshDom.medium sqrt_correct log_domain (by decide) (by decide) two64f two64 (a := -x.val)
          (by rw [isFinite64]; omega) (by ring) hv ?_ (by linarith)
        rw [show (-1 - (f64.sb : ℤ)) = -53 by decide]
        have : (-x.val) ^ 4 ≤ 4096 ^ 4 := pow_le_pow_left₀ (by linarith) (by linarith) 4
        norm_num at this ⊢
        linarith
      · rw [if_neg hb]
        exact map_nan (log_domain.domain x (lt_zero hn hneg)) (add_isNaN _)
  one := by decide +kernel
  pinf := by decide +kernel

/-- `acoshf`: NaN below one holds for arguments from `-16` up and from `-2^12` down.  Missing: the arguments between, for
which the claim is false (`acoshf_full_fails`). -/
theorem acoshf_domain_partial : IsAcosh acoshf (fun x => -16 ≤ x.toRat ∨ x.toRat ≤ -2 ^ 12) where
  total := acoshf_tot
  nan x hx := by
    rw [acoshf_eq]
    have := (isNaN32 x).1 hx
    rw [if_neg (by omega), if_neg (by omega)]
    exact map_nan (logf_domain.nan x hx) (add_isNaN _)
  domain x hx hD := by
    obtain ⟨hn, h1⟩ := lt_one_val hx
    have hD' : -16 ≤ x.val ∨ x.val ≤ -2 ^ 12 := by
      rcases hD with h | h
      · left; rw [val]; exact_mod_cast h
      · right; rw [val]; exact_mod_cast h
    rw [acoshf_eq]
    by_cases ha : x.mb < 0x80 * 2 ^ 23
    · rw [if_pos ha]
      have hv := val_lt_of_mb (x := x) (E := 0x80) (by norm_num) ha
      rw [show ((0x80 : ℕ) : ℤ) - (f32.bias : ℤ) = 1 by decide, zpow_one, abs_lt] at hv
      exact AcoshDom.small sqrtf_correct log1pf_domain (by decide) (by decide) (by decide) two32f two32
        (by rw [isFinite32]; omega) hv.1 h1
    · rw [if_neg ha]
      have hv := val_ge_of_mb (x := x) (E := 0x80) (by norm_num) (not_lt.1 ha)
      rw [show ((0x80 : ℕ) : ℤ) - (f32.bias : ℤ) = 1 by decide, zpow_one] at hv
      have hneg : x.val < 0 := by
        by_contra h
        rw [abs_of_nonneg (not_lt.1 h)] at hv; linarith
      rw [abs_of_neg hneg] at hv
      by_cases hb : x.mb < 0x8b * 2 ^ 23
      · rw [if_pos hb]
        have hv2 := val_lt_of_mb (x := x) (E := 0x8b) (by norm_num) hb
        rw [show ((0x8b : ℕ) : ℤ) - (f32.bias : ℤ) = 12 by decide, abs_of_neg hneg] at hv2
        norm_num at hv2
        have h3 : -16 ≤ x.val := by
          rcases hD' with h | h
          · exact h
          · norm_num at h; linarith
        refine AcoshDom.medium sqrtf_correct logf_domain (by decide) (by decide) two32f two32 (a := -x.val)
          (by rw [isFinite32]; omega) (by ring) hv ?_ (by linarith)
        rw [show (-1 - (f32.sb : ℤ)) = -24 by decide]
        have : (-x.val) ^ 4 ≤ 16 ^ 4 := pow_le_pow_left₀ (by linarith) (by linarith) 4
        norm_num at this ⊢
        linarith
      · rw [if_neg hb]
        exact map_nan (logf_domain.domain x (lt_zero hn hneg)) (add_isNaN _)
  one := by decide +kernel
  pinf := by decide +kernel

/-- The whole claim is false of `acosh`: `acosh(-8192) = -inf`, and `acosh(-3·2^24)` is a finite number above 17. -/
theorem acosh_full_fails : ¬ IsAcosh acosh (fun _ => True) ∧
    acosh (bits64 0xc0c0000000000000) = some (inf f64 true) ∧ (bits64 0xc0c0000000000000).toRat = -8192 ∧
    acosh (bits64 0xc188000000000000) = some (bits64 0x4031542457337d43) ∧ (bits64 0xc188000000000000).toRat = -3 * 2 ^ 24 := by
  refine ⟨fun h => ?_, by decide +kernel, by decide +kernel, by decide +kernel, by decide +kernel⟩
  obtain ⟨r, h1, h2⟩ := h.domain (bits64 0xc0c0000000000000) (by decide +kernel) trivial
  rw [show acosh (bits64 0xc0c0000000000000) = some (inf f64 true) by decide +kernel] at h1
  cases h1
  exact absurd h2 (by decide)

/-- The whole claim is false of `acoshf`: `acoshf(-2048) = -inf`. -/
theorem acoshf_full_fails : ¬ IsAcosh acoshf (fun _ => True) ∧
    acoshf (bits32 0xc5000000) = some (inf f32 true) ∧ (bits32 0xc5000000).toRat = -2048 := by
  refine ⟨fun h => ?_, by decide +kernel, by decide +kernel⟩
  obtain ⟨r, h1, h2⟩ := h.domain (bits32 0xc5000000) (by decide +kernel) trivial
  rw [show acoshf (bits32 0xc5000000) = some (inf f32 true) by decide +kernel] at h1
  cases h1
  exact absurd h2 (by decide)

/-- the hypotheses of `acosh_domain_partial` are met by `-2`, `0.5`, `-1e300` -/
example : ((-2.0 : Flt f64) <ᶠ one f64) = true ∧ -4096 ≤ (-2.0 : Flt f64).toRat ∧ ((0.5 : Flt f64) <ᶠ one f64) = true := by
  decide +kernel

namespace InvHyp

theorem above_ab {F : Fmt} {x : Flt F} (h : (one F <ᶠ x) = true ∨ (x <ᶠ -one F) = true) : ¬ x.isNaN ∧ 1 < x.ab.val := by
  rw [ab_val]
  rcases h with h | h
  · obtain ⟨-, h2, h3⟩ := lt_iff.1 h
    have := val_lt_iff.2 h3
    rw [val_one] at this
    exact ⟨h2, lt_of_lt_of_le this (le_abs_self _)⟩
  · obtain ⟨h2, -, h3⟩ := lt_iff.1 h
    have := val_lt_iff.2 h3
    rw [val_neg, val_one] at this
    exact ⟨h2, by have := neg_abs_le x.val; linarith⟩

end InvHyp

/-- `atanh`: domain, poles and zeros. -/
theorem atanh_domain : IsAtanh atanh where
  total x := by rw [Hyp.atanh_eq]; exact map_total (Hyp.atanhA_tot _)
  nan x hx := by
    rw [Hyp.atanh_eq]
    refine map_nan ?_ (flip_isNaN _)
    unfold Hyp.atanhA
    have := (isNaN64 x).1 hx
    simp only [exp64_field, ab_mb]
    rw [if_neg (by rw [Nat.div_lt_iff_lt_mul (by norm_num)]; omega)]
    refine map_nan (log1p_domain.nan _ ?_) (mul_isNaN _)
    rw [div_nan (Or.inl (by simpa using hx)), mul_nan (Or.inr isNaN_qnan)]
    exact isNaN_qnan
  domain x hx := by
    obtain ⟨hn, h1⟩ := above_ab hx
    rw [Hyp.atanh_eq]
    refine map_nan ?_ (flip_isNaN _)
    unfold Hyp.atanhA
    have hm : 0x3ff * 2 ^ 52 ≤ x.mb := by
      by_contra h
      have hv := val_lt_of_mb (x := x) (E := 0x3ff) (by norm_num) (not_le.1 h)
      rw [show ((0x3ff : ℕ) : ℤ) - (f64.bias : ℤ) = 0 by decide, zpow_zero] at hv
      rw [ab_val] at h1
      linarith
    simp only [exp64_field, ab_mb]
    rw [if_neg (by rw [Nat.div_lt_iff_lt_mul (by norm_num)]; omega), one64]
    refine map_nan ?_ (mul_isNaN _)
    rcases class_cases x with h | h | h
    · exact absurd h hn
    · rw [show x.ab = inf f64 false by rw [eq_inf (x := x.ab) (by simpa using h)]; simp]
      exact log1p_domain.nan _ (by decide +kernel)
    · exact AcoshDom.above log1p_domain (by decide) (by decide) two64f two64 (by simpa using h) h1
  pole := by decide +kernel
  zero x hx := by rw [eq_zero hx]; cases x.sign <;> decide +kernel

/-- `atanhf`: domain, poles and zeros. -/
theorem atanhf_domain : IsAtanh atanhf where
  total x := by rw [Hyp.atanhf_eq]; exact map_total (Hyp.atanhfA_tot _)
  nan x hx := by
    rw [Hyp.atanhf_eq]
    refine map_nan ?_ (flip_isNaN _)
    unfold Hyp.atanhfA
    have h1 : x.ab.u32.toNat = x.mb := by rw [← ab_u32]; exact u32_abs x
    have := (isNaN32 x).1 hx
    dsimp only
    rw [if_neg (by rw [BitVec.lt_def, h1]; change ¬ x.mb < 0x3f000000; omega)]
    refine map_nan (log1pf_domain.nan _ ?_) (mul_isNaN _)
    rw [div_nan (Or.inl (by simpa using hx)), mul_nan (Or.inr isNaN_qnan)]
    exact isNaN_qnan
  domain x hx := by
    obtain ⟨hn, h1⟩ := above_ab hx
    rw [Hyp.atanhf_eq]
    refine map_nan ?_ (flip_isNaN _)
    unfold Hyp.atanhfA
    have hm : 0x7f * 2 ^ 23 ≤ x.mb := by
      by_contra h
      have hv := val_lt_of_mb (x := x) (E := 0x7f) (by norm_num) (not_le.1 h)
      rw [show ((0x7f : ℕ) : ℤ) - (f32.bias : ℤ) = 0 by decide, zpow_zero] at hv
      rw [ab_val] at h1
      linarith
    have h2 : x.ab.u32.toNat = x.mb := by rw [← ab_u32]; exact u32_abs x
    dsimp only
    rw [if_neg (by rw [BitVec.lt_def, h2]; change ¬ x.mb < 0x3f000000; omega), one32]
    refine map_nan ?_ (mul_isNaN _)
    rcases class_cases x with h | h | h
    · exact absurd h hn
    · rw [show x.ab = inf f32 false by rw [eq_inf (x := x.ab) (by simpa using h)]; simp]
      exact log1pf_domain.nan _ (by decide +kernel)
    · exact AcoshDom.above log1pf_domain (by decide) (by decide) two32f two32 (by simpa using h) h1
  pole := by decide +kernel
  zero x hx := by rw [eq_zero hx]; cases x.sign <;> decide +kernel

/-- the hypotheses of the domain clause are met by `1.5`, `-2` and the infinities -/
example : (one f64 <ᶠ (1.5 : Flt f64)) = true ∧ ((-2.0 : Flt f64) <ᶠ -one f64) = true ∧ (one f32 <ᶠ inf f32 false) = true ∧
    (inf f32 true <ᶠ -one f32) = true := by decide +kernel

end Verif
