import Verif.Spec.Symmetry
import Verif.Theory.SymF
import Verif.Props.TrigAcc
import Verif.Props.Sincos

/-!
# C33, C34 and C32 for the float trigonometric functions

`sincosf` returns the pair (`sinf`, `cosf`); `sinf` and `tanf` are odd and `cosf` is even, bit for bit.
-/

namespace Verif
open Flt Trig TrigAcc

attribute [local irreducible] kSinf kCosf kTanf remPio2f

/-- **C33** (f32): `sincosf` returns, bit for bit, the results of `sinf` and `cosf`, for every argument. -/
theorem sincosf_eq (x : Flt f32) : ∃ s c, sincosf x = some (s, c) ∧ sinf x = some s ∧ cosf x = some c := by
  have key : ∀ {o : Option (Flt f32 × Flt f32)} {a b : Option (Flt f32)} (s c : Flt f32), o = some (s, c) → a = some s → b = some c →
      ∃ s c, o = some (s, c) ∧ a = some s ∧ b = some c := fun _ _ h1 h2 h3 => ⟨_, _, h1, h2, h3⟩
  rw [sincosf, sinf, cosf]
  simp only [ix32_le, ix32_lt, ix32_gt, ix32_ge, s1_eq, s2_eq, s3_eq, s4_eq]
  simp only [BitVec.reduceToNat]
  by_cases h1 : x.mb ≤ 0x3f490fda
  · rw [if_pos h1, if_pos h1, if_pos h1]
    by_cases h2 : x.mb < 0x39800000
    · rw [if_pos h2, if_pos h2, if_pos h2]
      exact key _ _ rfl rfl rfl
    · rw [if_neg h2, if_neg h2, if_neg h2]
      exact key _ _ rfl rfl rfl
  rw [if_neg h1, if_neg h1, if_neg h1]
  by_cases h2 : x.mb ≤ 0x407b53d1
  · have hx : x.isFinite := by rw [isFinite32]; omega
    rw [if_pos h2, if_pos h2, if_pos h2]
    by_cases h3 : x.mb ≤ 0x4016cbe3
    · rw [if_pos h3, if_pos h3, if_neg (show ¬ 0x4016cbe3 < x.mb by omega)]
      have w := win1 (x := x) (by omega) (by omega)
      cases hs : x.sign
      · simp only [Bool.false_eq_true, if_false]
        have e := (Win.swap hx w pf1 pv1 hs).2
        rw [e, kCosf_neg]
        exact key _ _ rfl rfl rfl
      · simp only [if_true]
        exact key _ _ rfl rfl rfl
    · rw [if_neg h3, if_neg h3, if_pos (show 0x4016cbe3 < x.mb by omega)]
      have w := win2 (x := x) (by omega) (by omega)
      cases hs : x.sign
      · simp only [Bool.false_eq_true, if_false]
        have e := (Win.pos hx w pf2 pv2 hs).1
        rw [e.sin_neg]
        exact key _ _ rfl rfl rfl
      · simp only [if_true]
        have e := (Win.neg hx w pf2 pv2 hs).1
        rw [e.sin_neg]
        exact key _ _ rfl rfl rfl
  rw [if_neg h2, if_neg h2, if_neg h2]
  by_cases h4 : x.mb ≤ 0x40e231d5
  · have hx : x.isFinite := by rw [isFinite32]; omega
    rw [if_pos h4, if_pos h4, if_pos h4]
    by_cases h3 : x.mb ≤ 0x40afeddf
    · rw [if_pos h3, if_pos h3, if_neg (show ¬ 0x40afeddf < x.mb by omega)]
      have w := win3 (x := x) (by omega) (by omega)
      cases hs : x.sign
      · simp only [Bool.false_eq_true, if_false]
        exact key _ _ rfl rfl rfl
      · simp only [if_true]
        have e := (Win.neg hx w pf3 pv3 hs).1
        rw [Win.swap' hx w pf3 pv3 hs, e.sin_neg]
        exact key _ _ rfl rfl rfl
    · rw [if_neg h3, if_neg h3, if_pos (show 0x40afeddf < x.mb by omega)]
      cases hs : x.sign
      · simp only [Bool.false_eq_true, if_false]
        exact key _ _ rfl rfl rfl
      · simp only [if_true]
        exact key _ _ rfl rfl rfl
  rw [if_neg h4, if_neg h4, if_neg h4]
  by_cases h5 : 0x7f800000 ≤ x.mb
  · rw [if_pos h5, if_pos h5, if_pos h5]
    exact key _ _ rfl rfl rfl
  rw [if_neg h5, if_neg h5, if_neg h5]
  have hx : x.isFinite := by rw [isFinite32]; omega
  obtain ⟨n, y, hr, N, hN, hnear⟩ := rem_quad x hx (by omega)
  rw [hr, Option.bind_some, Option.map_some, Option.map_some]
  dsimp only
  rw [and3_eq, hnear.sin_neg]
  rcases (by omega : n % 4 = 0 ∨ n % 4 = 1 ∨ n % 4 = 2 ∨ n % 4 = 3) with h | h | h | h <;> rw [h]
  · rw [if_pos rfl, if_pos rfl, if_pos rfl]
    exact key _ _ rfl rfl rfl
  · rw [if_neg (by norm_num), if_pos rfl, if_neg (by norm_num), if_pos rfl, if_neg (by norm_num), if_pos rfl]
    exact key _ _ rfl rfl rfl
  · rw [if_neg (by norm_num), if_neg (by norm_num), if_pos rfl, if_neg (by norm_num), if_neg (by norm_num), if_pos rfl,
      if_neg (by norm_num), if_neg (by norm_num), if_pos rfl]
    exact key _ _ rfl rfl rfl
  · rw [if_neg (by norm_num), if_neg (by norm_num), if_neg (by norm_num), if_pos rfl, if_neg (by norm_num), if_neg (by norm_num), if_neg (by norm_num),
      if_neg (by norm_num), if_neg (by norm_num), if_neg (by norm_num)]
    exact key _ _ rfl rfl rfl

/-- `sincosf` is accurate: both results are within `0.8` units in the last place, for every finite float. -/
theorem sincosf_accurate (x : Flt f32) (hx : x.isFinite) : ∃ s c, sincosf x = some (s, c) ∧
    WithinUlp 0.8 s (Real.sin ((x.toRat : ℚ) : ℝ)) ∧ WithinUlp 0.8 c (Real.cos ((x.toRat : ℚ) : ℝ)) := by
  obtain ⟨s, c, h, hs, hc⟩ := sincosf_eq x
  obtain ⟨s', hs', h1⟩ := sinf_accurate x hx
  obtain ⟨c', hc', h2⟩ := cosf_accurate x hx
  rw [hs] at hs'
  rw [hc] at hc'
  obtain rfl := Option.some.inj hs'
  obtain rfl := Option.some.inj hc'
  exact ⟨s, c, h, h1, h2⟩

/-! ## Symmetry -/

private theorem sinf_pos {x : Flt f32} (hx : x.isFinite) (hs : x.sign = false) : ∃ r, sinf x = some r ∧ sinf (-x) = some (-r) := by
  have key : ∀ {a b : Option (Flt f32)} (s : Flt f32), a = some s → b = some (-s) →
      ∃ s, a = some s ∧ b = some (-s) := fun _ h2 h3 => ⟨_, h2, h3⟩
  have hs' : (-x).sign = true := by simp [hs]
  have hfin : x.mb < 0x7f800000 := by have := (isFinite32 x).1 hx; omega
  rw [sinf, sinf]
  simp only [ix32_le, ix32_lt, ix32_gt, ix32_ge, mb_neg, cast_neg (not_nan_of_finite hx), hs, hs']
  simp only [BitVec.reduceToNat, Bool.false_eq_true, if_false, if_true]
  by_cases h1 : x.mb ≤ 0x3f490fda
  · rw [if_pos h1, if_pos h1]
    by_cases h2 : x.mb < 0x39800000
    · rw [if_pos h2, if_pos h2]
      exact key _ (Eq.refl _) (Eq.refl _)
    · rw [if_neg h2, if_neg h2, (near0 hx (by omega) h1).sin_neg]
      exact key _ (Eq.refl _) (Eq.refl _)
  rw [if_neg h1, if_neg h1]
  by_cases h2 : x.mb ≤ 0x407b53d1
  · rw [if_pos h2, if_pos h2]
    by_cases h3 : x.mb ≤ 0x4016cbe3
    · rw [if_pos h3, if_pos h3]
      have w := win1 (x := x) (by omega) (by omega)
      rw [(Win.swap hx w pf1 pv1 hs).1, kCosf_neg]
      exact key _ (Eq.refl _) (Eq.refl _)
    · rw [if_neg h3, if_neg h3]
      have w := win2 (x := x) (by omega) (by omega)
      rw [(Win.swap hx w pf2 pv2 hs).1, Flt.neg_neg, (Win.pos hx w pf2 pv2 hs).1.sin_neg]
      exact key _ rfl (by rw [Flt.neg_neg])
  rw [if_neg h2, if_neg h2]
  by_cases h4 : x.mb ≤ 0x40e231d5
  · rw [if_pos h4, if_pos h4]
    by_cases h3 : x.mb ≤ 0x40afeddf
    · rw [if_pos h3, if_pos h3]
      have w := win3 (x := x) (by omega) (by omega)
      rw [(Win.swap hx w pf3 pv3 hs).1, kCosf_neg]
      exact key _ rfl (by rw [Flt.neg_neg])
    · rw [if_neg h3, if_neg h3]
      have w := win4 (x := x) (by omega) (by omega)
      rw [(Win.swap hx w pf4 pv4 hs).1, (Win.pos hx w pf4 pv4 hs).1.sin_neg]
      exact key _ (Eq.refl _) (Eq.refl _)
  rw [if_neg h4, if_neg h4, if_neg (by omega), if_neg (by omega)]
  obtain ⟨n, y, hr, N, hN, hnear⟩ := rem_quad x hx (by omega)
  rw [hr, rem_neg hx (by omega) hr, Option.map_some, Option.map_some]
  dsimp only
  rw [and3_eq, and3_eq, Flt.neg_neg, hnear.sin_neg, kCosf_neg]
  rcases (by omega : n % 4 = 0 ∨ n % 4 = 1 ∨ n % 4 = 2 ∨ n % 4 = 3) with h | h | h | h
  · rw [h, show (-n) % 4 = 0 by omega, if_pos rfl, if_pos rfl]
    exact key _ (Eq.refl _) (Eq.refl _)
  · rw [h, show (-n) % 4 = 3 by omega, if_neg (by norm_num), if_pos rfl, if_neg (by norm_num), if_neg (by norm_num), if_neg (by norm_num)]
    exact key _ (Eq.refl _) (Eq.refl _)
  · rw [h, show (-n) % 4 = 2 by omega, if_neg (by norm_num), if_neg (by norm_num), if_pos rfl, if_neg (by norm_num), if_neg (by norm_num), if_pos rfl]
    exact key _ rfl (by rw [Flt.neg_neg])
  · rw [h, show (-n) % 4 = 1 by omega, if_neg (by norm_num), if_neg (by norm_num), if_neg (by norm_num), if_neg (by norm_num), if_pos rfl]
    exact key _ rfl (by rw [Flt.neg_neg])

private theorem cosf_pos {x : Flt f32} (hx : x.isFinite) (hs : x.sign = false) : ∃ r, cosf x = some r ∧ cosf (-x) = some r := by
  have key : ∀ {a b : Option (Flt f32)} (s : Flt f32), a = some s → b = some s →
      ∃ s, a = some s ∧ b = some s := fun _ h2 h3 => ⟨_, h2, h3⟩
  have hs' : (-x).sign = true := by simp [hs]
  have hfin : x.mb < 0x7f800000 := by have := (isFinite32 x).1 hx; omega
  rw [cosf, cosf]
  simp only [ix32_le, ix32_lt, ix32_gt, ix32_ge, mb_neg, cast_neg (not_nan_of_finite hx), hs, hs']
  simp only [BitVec.reduceToNat, Bool.false_eq_true, if_false, if_true, Flt.neg_neg]
  by_cases h1 : x.mb ≤ 0x3f490fda
  · rw [if_pos h1, if_pos h1]
    by_cases h2 : x.mb < 0x39800000
    · rw [if_pos h2, if_pos h2]
      exact key _ (Eq.refl _) (Eq.refl _)
    · rw [if_neg h2, if_neg h2, kCosf_neg]
      exact key _ (Eq.refl _) (Eq.refl _)
  rw [if_neg h1, if_neg h1]
  by_cases h2 : x.mb ≤ 0x407b53d1
  · rw [if_pos h2, if_pos h2]
    by_cases h3 : x.mb ≤ 0x4016cbe3
    · rw [if_neg (by omega), if_neg (by omega)]
      have w := win1 (x := x) (by omega) (by omega)
      rw [(Win.swap hx w pf1 pv1 hs).1, (Win.swap hx w pf1 pv1 hs).2]
      exact key _ (Eq.refl _) (Eq.refl _)
    · rw [if_pos (by omega), if_pos (by omega)]
      have w := win2 (x := x) (by omega) (by omega)
      rw [(Win.swap hx w pf2 pv2 hs).1, kCosf_neg]
      exact key _ (Eq.refl _) (Eq.refl _)
  rw [if_neg h2, if_neg h2]
  by_cases h4 : x.mb ≤ 0x40e231d5
  · rw [if_pos h4, if_pos h4]
    by_cases h3 : x.mb ≤ 0x40afeddf
    · rw [if_neg (by omega), if_neg (by omega)]
      exact key _ (Eq.refl _) (Eq.refl _)
    · rw [if_pos (by omega), if_pos (by omega)]
      have w := win4 (x := x) (by omega) (by omega)
      rw [(Win.swap hx w pf4 pv4 hs).1, kCosf_neg]
      exact key _ (Eq.refl _) (Eq.refl _)
  rw [if_neg h4, if_neg h4, if_neg (by omega), if_neg (by omega)]
  obtain ⟨n, y, hr, N, hN, hnear⟩ := rem_quad x hx (by omega)
  rw [hr, rem_neg hx (by omega) hr, Option.map_some, Option.map_some]
  dsimp only
  rw [and3_eq, and3_eq, Flt.neg_neg, hnear.sin_neg, kCosf_neg]
  rcases (by omega : n % 4 = 0 ∨ n % 4 = 1 ∨ n % 4 = 2 ∨ n % 4 = 3) with h | h | h | h
  · rw [h, show (-n) % 4 = 0 by omega, if_pos rfl, if_pos rfl]
    exact key _ (Eq.refl _) (Eq.refl _)
  · rw [h, show (-n) % 4 = 3 by omega, if_neg (by norm_num), if_pos rfl, if_neg (by norm_num), if_neg (by norm_num), if_neg (by norm_num)]
    exact key _ (Eq.refl _) (Eq.refl _)
  · rw [h, show (-n) % 4 = 2 by omega, if_neg (by norm_num), if_neg (by norm_num), if_pos rfl, if_neg (by norm_num), if_neg (by norm_num), if_pos rfl]
    exact key _ (Eq.refl _) (Eq.refl _)
  · rw [h, show (-n) % 4 = 1 by omega, if_neg (by norm_num), if_neg (by norm_num), if_neg (by norm_num), if_neg (by norm_num), if_pos rfl]
    exact key _ (Eq.refl _) (Eq.refl _)

private theorem tanf_pos {x : Flt f32} (hx : x.isFinite) (hs : x.sign = false) : ∃ r, tanf x = some r ∧ tanf (-x) = some (-r) := by
  have key : ∀ {a b : Option (Flt f32)} (s : Flt f32), a = some s → b = some (-s) →
      ∃ s, a = some s ∧ b = some (-s) := fun _ h2 h3 => ⟨_, h2, h3⟩
  have hs' : (-x).sign = true := by simp [hs]
  have hfin : x.mb < 0x7f800000 := by have := (isFinite32 x).1 hx; omega
  rw [tanf, tanf]
  simp only [ix32_le, ix32_lt, ix32_gt, ix32_ge, mb_neg, cast_neg (not_nan_of_finite hx), hs, hs']
  simp only [BitVec.reduceToNat, Bool.false_eq_true, if_false, if_true]
  by_cases h1 : x.mb ≤ 0x3f490fda
  · rw [if_pos h1, if_pos h1]
    by_cases h2 : x.mb < 0x39800000
    · rw [if_pos h2, if_pos h2]
      exact key _ (Eq.refl _) (Eq.refl _)
    · rw [if_neg h2, if_neg h2, (near0 hx (by omega) h1).tan_neg]
      exact key _ (Eq.refl _) (Eq.refl _)
  rw [if_neg h1, if_neg h1]
  by_cases h2 : x.mb ≤ 0x407b53d1
  · rw [if_pos h2, if_pos h2]
    by_cases h3 : x.mb ≤ 0x4016cbe3
    · rw [if_pos h3, if_pos h3]
      have w := win1 (x := x) (by omega) (by omega)
      rw [(Win.swap hx w pf1 pv1 hs).1, (Win.pos hx w pf1 pv1 hs).1.tan_neg]
      exact key _ (Eq.refl _) (Eq.refl _)
    · rw [if_neg h3, if_neg h3]
      have w := win2 (x := x) (by omega) (by omega)
      rw [(Win.swap hx w pf2 pv2 hs).1, (Win.pos hx w pf2 pv2 hs).1.tan_neg]
      exact key _ (Eq.refl _) (Eq.refl _)
  rw [if_neg h2, if_neg h2]
  by_cases h4 : x.mb ≤ 0x40e231d5
  · rw [if_pos h4, if_pos h4]
    by_cases h3 : x.mb ≤ 0x40afeddf
    · rw [if_pos h3, if_pos h3]
      have w := win3 (x := x) (by omega) (by omega)
      rw [(Win.swap hx w pf3 pv3 hs).1, (Win.pos hx w pf3 pv3 hs).1.tan_neg]
      exact key _ (Eq.refl _) (Eq.refl _)
    · rw [if_neg h3, if_neg h3]
      have w := win4 (x := x) (by omega) (by omega)
      rw [(Win.swap hx w pf4 pv4 hs).1, (Win.pos hx w pf4 pv4 hs).1.tan_neg]
      exact key _ (Eq.refl _) (Eq.refl _)
  rw [if_neg h4, if_neg h4, if_neg (by omega), if_neg (by omega)]
  obtain ⟨n, y, hr, N, hN, hnear⟩ := rem_quad x hx (by omega)
  rw [hr, rem_neg hx (by omega) hr, Option.map_some, Option.map_some]
  dsimp only
  rw [and1_eq, and1_eq, show (-n) % 2 = n % 2 by omega, hnear.tan_neg]
  exact key _ (Eq.refl _) (Eq.refl _)

private theorem odd_of_pos {f : Flt f32 → Option (Flt f32)} (hp : ∀ x, x.isFinite → x.sign = false → ∃ r, f x = some r ∧ f (-x) = some (-r))
    (hi : ∀ x, x.isInf → ∃ r, f x = some r ∧ r.isNaN) : OddFn f := by
  intro x hx
  by_cases hf : x.isFinite
  · cases hs : x.sign
    · obtain ⟨r, h1, h2⟩ := hp x hf hs
      exact ⟨r, _, h1, h2, Or.inl rfl⟩
    · obtain ⟨r, h1, h2⟩ := hp (-x) ((Flt.isFinite_neg x).2 hf) (by simp [hs])
      rw [Flt.neg_neg] at h2
      exact ⟨-r, r, h2, h1, Or.inl (by rw [Flt.neg_neg])⟩
  · have hi' : x.isInf := by
      rcases class_cases x with h | h | h
      · exact absurd h hx
      · exact h
      · exact absurd h hf
    obtain ⟨r, h1, h2⟩ := hi x hi'
    obtain ⟨r', h3, h4⟩ := hi (-x) ((Flt.isInf_neg x).2 hi')
    exact ⟨r, r', h1, h3, Or.inr ⟨h2, h4⟩⟩

/-- **C32**: `sinf(-x) = -sinf(x)` -/
theorem sinf_odd : OddFn sinf := odd_of_pos (fun _ hx hs => sinf_pos hx hs) (fun x h => sinf_trig.nan x (Or.inr h))
/-- **C32**: `tanf(-x) = -tanf(x)` -/
theorem tanf_odd : OddFn tanf := odd_of_pos (fun _ hx hs => tanf_pos hx hs) (fun x h => tanf_trig.nan x (Or.inr h))
/-- **C32**: `cosf(-x) = cosf(x)` -/
theorem cosf_even : EvenFn cosf := by
  intro x hx
  by_cases hf : x.isFinite
  · cases hs : x.sign
    · obtain ⟨r, h1, h2⟩ := cosf_pos hf hs
      exact ⟨r, _, h1, h2, Or.inl rfl⟩
    · obtain ⟨r, h1, h2⟩ := cosf_pos ((Flt.isFinite_neg x).2 hf) (by simp [hs])
      rw [Flt.neg_neg] at h2
      exact ⟨r, r, h2, h1, Or.inl rfl⟩
  · have hi' : x.isInf := by
      rcases class_cases x with h | h | h
      · exact absurd h hx
      · exact h
      · exact absurd h hf
    obtain ⟨r, h1, h2⟩ := cosf_trig.nan x (Or.inr hi')
    obtain ⟨r', h3, h4⟩ := cosf_trig.nan (-x) (Or.inr ((Flt.isInf_neg x).2 hi'))
    exact ⟨r, r', h1, h3, Or.inr ⟨h2, h4⟩⟩

/-- the hypothesis is met: infinity, the largest float and a subnormal -/
example : ¬ (bits32 0x7f800000).isNaN ∧ ¬ (bits32 0x7f7fffff).isNaN ∧ ¬ (bits32 0x80000001).isNaN := by decide +kernel

/-! ## C34 for `sincos` and `sincosf` -/

/-- the domain of a function returning a sine and a cosine: total, NaN for NaN and infinite arguments, and the argument and one
below `2^t` -/
structure IsSincos {F : Fmt} (f : Flt F → Option (Flt F × Flt F)) (t : ℤ) : Prop where
  total : ∀ x, ∃ s c, f x = some (s, c)
  nan : ∀ x, x.isNaN ∨ x.isInf → ∃ s c, f x = some (s, c) ∧ s.isNaN ∧ c.isNaN
  tiny : ∀ x, x.isFinite → |x.val| < 2 ^ t → f x = some (x, one F)

private theorem pair_trig {F : Fmt} {f g : Flt F → Option (Flt F)} {h : Flt F → Option (Flt F × Flt F)} {t u : ℤ} (hf : IsTrig f u false)
    (hg : IsTrig g t true) (htu : t ≤ u) (e : ∀ x, ∃ s c, h x = some (s, c) ∧ f x = some s ∧ g x = some c) : IsSincos h t where
  total x := by obtain ⟨s, c, h1, -⟩ := e x; exact ⟨s, c, h1⟩
  nan x hx := by
    obtain ⟨s, c, h1, h2, h3⟩ := e x
    obtain ⟨s', h4, h5⟩ := hf.nan x hx
    obtain ⟨c', h6, h7⟩ := hg.nan x hx
    rw [h2] at h4
    rw [h3] at h6
    obtain rfl := Option.some.inj h4
    obtain rfl := Option.some.inj h6
    exact ⟨s, c, h1, h5, h7⟩
  tiny x hx hv := by
    obtain ⟨s, c, h1, h2, h3⟩ := e x
    have h4 := hf.tiny x hx (hv.trans_le (zpow_le_zpow_right₀ (by norm_num) htu))
    have h6 := hg.tiny x hx hv
    rw [h2] at h4
    rw [h3] at h6
    obtain rfl := Option.some.inj h4
    obtain rfl := Option.some.inj h6
    rw [h1]
    rfl

theorem sincos_trig : IsSincos sincos (-27) := pair_trig sin_trig cos_trig (by norm_num) sincos_eq
theorem sincosf_trig : IsSincos sincosf (-12) := pair_trig sinf_trig cosf_trig le_rfl sincosf_eq

/-- the hypotheses of the last field are met by the smallest subnormal -/
example : (bits32 1).isFinite ∧ |(bits32 1).val| < 2 ^ (-12 : ℤ) := by
  refine ⟨by decide +kernel, ?_⟩
  have := val_lt_of_mb (x := bits32 1) (E := 115) (by norm_num) (by decide +kernel)
  rw [f32_bias] at this
  norm_num at this ⊢
  exact this

end Verif
