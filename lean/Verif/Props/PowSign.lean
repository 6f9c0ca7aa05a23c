import Verif.Props.PowTotal
import Verif.Props.PowSym

/-!
# C77: the sign of a power

A power of a base without a sign bit, and a power with an exponent other than an odd integer, never has the sign bit set; an odd power of a base
with the sign bit always has it. NaN is left open: its sign carries no meaning.
-/

namespace Verif
open Flt

/-- Every result of a power has the sign of the exact power, or is NaN. -/
structure IsPowSign {F : Fmt} (f : Flt F → Flt F → Option (Flt F)) : Prop where
  /-- a base without a sign bit: zero, positive or `+inf`; any exponent -/
  pos : ∀ x y, x.sign = false → ∃ r, f x y = some r ∧ (r.isNaN ∨ r.sign = false)
  /-- any base; an exponent that is not an odd integer (an even integer, a fraction, an infinity) -/
  notOdd : ∀ x y, ¬ IsOddVal y → ∃ r, f x y = some r ∧ (r.isNaN ∨ r.sign = false)
  /-- a base with the sign bit, an odd integer exponent -/
  odd : ∀ x y, x.sign = true → IsOddVal y → ∃ r, f x y = some r ∧ (r.isNaN ∨ r.sign = true)

namespace Pow
variable {F : Fmt}
open PowT

theorem div_sign' (x y : Flt F) : (x / y).isNaN ∨ (x / y).sign = (x.sign ^^ y.sign) := by
  show (Flt.div x y).isNaN ∨ (Flt.div x y).sign = _
  unfold Flt.div
  split
  · exact Or.inl isNaN_qnan
  split
  · exact Or.inl isNaN_qnan
  split
  · exact Or.inr (by simp)
  split
  · exact Or.inr (by simp)
  · exact Or.inr (by simp)

theorem nn_one : (one F).isNaN ∨ (one F).sign = false := Or.inr (by simp)
theorem nn_div {x y : Flt F} (hx : x.sign = false) (hy : y.sign = false) : (x / y).isNaN ∨ (x / y).sign = false := by
  have := div_sign' x y
  rwa [hx, hy] at this
theorem nn_sq (x : Flt F) : (x * x).isNaN ∨ (x * x).sign = false := by
  have := mul_sign' x x
  rwa [Bool.xor_self] at this

/-- a square root of a float without a sign bit has none -/
theorem nn_sqrt {sq : Flt F → Option (Flt F)} (h : IsSqrt sq) {x : Flt F} (hx : x.sign = false) :
    ∃ r, sq x = some r ∧ (r.isNaN ∨ r.sign = false) := by
  by_cases hn : x.isNaN
  · obtain ⟨r, h1, h2⟩ := h.nan x hn
    exact ⟨r, h1, Or.inl h2⟩
  by_cases hi : x.isInf
  · exact ⟨x, h.inf x hi hx, Or.inr hx⟩
  by_cases hz : x.isZero
  · exact ⟨x, h.zero x hz, Or.inr hx⟩
  obtain ⟨r, h1, h2, -⟩ := h.pos x (finite_of_not hn hi) hx hz
  exact ⟨r, h1, Or.inr h2⟩

/-- the decision structure, whenever the exponent is not odd or the base has no sign bit -/
theorem sk_nn {sq : Flt F → Option (Flt F)} {gen : Flt F → Flt F → Flt F → Option (Flt F)} {yi : Flt F → Flt F → Option ℤ}
    (hsq : IsSqrt sq)
    (hyi : ∀ x y : Flt F, ∃ k, yi x y = some k ∧ (x.sign = true → y.isFinite → ¬ y.isZero → (k = 1 ↔ IsOddVal y)))
    (hg : ∀ s x y, x.isFinite → y.isFinite → ¬ x.isZero → x.mag ≠ F.oneMag → ∃ r, gen s x y = some r ∧ SP s r) (x y : Flt F)
    (hx : x.sign = true → ¬ IsOddVal y) : ∃ r, sk sq gen yi x y = some r ∧ (r.isNaN ∨ r.sign = false) := by
  have hone : (one F).sign = false := by simp
  have nnan : ∀ a b : Flt F, a.isNaN ∨ b.isNaN → (a + b).isNaN := fun a b h => by rw [add_nan h]; exact isNaN_qnan
  unfold sk
  by_cases c1 : y.isZero
  · exact ⟨_, if_pos c1, nn_one⟩
  rw [if_neg c1]
  by_cases c2 : x.sign = false ∧ x.mag = F.oneMag
  · exact ⟨_, if_pos c2, nn_one⟩
  rw [if_neg c2]
  by_cases c3 : x.isNaN ∨ y.isNaN
  · exact ⟨_, if_pos c3, Or.inl (nnan _ _ c3)⟩
  rw [if_neg c3]
  push Not at c3
  obtain ⟨k, hk, hk2⟩ := hyi x y
  rw [hk, Option.bind_some]
  by_cases c4 : y.isInf
  · rw [if_pos c4]
    split
    · exact ⟨_, rfl, nn_one⟩
    split
    · refine ⟨_, rfl, Or.inr ?_⟩
      split
      · assumption
      · simp
    · refine ⟨_, rfl, Or.inr ?_⟩
      split
      · simp
      · rename_i h
        rw [Flt.sign_neg]; simpa using h
  rw [if_neg c4]
  have hy : y.isFinite := finite_of_not c3.2 c4
  by_cases c5 : y.mag = F.oneMag
  · have ho : IsOddVal y := odd_one hy c5
    have hs : x.sign = false := by
      by_contra hs
      exact hx (by simpa using hs) ho
    rw [if_pos c5]
    split
    · exact ⟨_, rfl, Or.inr hs⟩
    · exact ⟨_, rfl, nn_div hone hs⟩
  rw [if_neg c5]
  split
  · exact ⟨_, rfl, nn_sq x⟩
  split
  · rename_i h
    exact nn_sqrt hsq h.2.2
  have hk1 : x.sign = true → k ≠ 1 := fun hs h => hx hs ((hk2 hs hy c1).1 h)
  split
  · dsimp only
    have hz : (mk' F false x.mb).sign = false := sign_mk' x.mb_lt
    have hz2 : (if y.sign = true then one F / mk' F false x.mb else mk' F false x.mb).isNaN ∨
        (if y.sign = true then one F / mk' F false x.mb else mk' F false x.mb).sign = false := by
      split
      · exact nn_div hone hz
      · exact Or.inr hz
    generalize (if y.sign = true then one F / mk' F false x.mb else mk' F false x.mb) = z at *
    split
    · rename_i hs
      split
      · refine ⟨_, rfl, ?_⟩
        have := div_sign' (z - z) (z - z)
        rwa [Bool.xor_self] at this
      rw [if_neg (hk1 hs)]
      exact ⟨_, rfl, hz2⟩
    · exact ⟨_, rfl, hz2⟩
  rename_i c6
  push Not at c6
  have hxf : x.isFinite := finite_of_not c3.1 c6.1
  obtain ⟨g, g1, g2⟩ := hg (one F) x y hxf hy c6.2.1 c6.2.2
  split
  · rename_i hs
    split
    · refine ⟨_, rfl, ?_⟩
      have := div_sign' (x - x) (x - x)
      rwa [Bool.xor_self] at this
    rw [if_neg (hk1 hs)]
    exact ⟨g, g1, g2 hone⟩
  · exact ⟨g, g1, g2 hone⟩

theorem sign_of_nn {f : Flt F → Flt F → Option (Flt F)} (hs : IsPowSym f)
    (h : ∀ x y, (x.sign = true → ¬ IsOddVal y) → ∃ r, f x y = some r ∧ (r.isNaN ∨ r.sign = false)) : IsPowSign f where
  pos x y hx := h x y fun hs => by rw [hx] at hs; cases hs
  notOdd x y ho := h x y fun _ => ho
  odd x y hx ho := by
    obtain ⟨r, h1, h2⟩ := h (-x) y fun hs => by rw [Flt.sign_neg, hx] at hs; cases hs
    obtain ⟨r', h3, h4⟩ := (hs.odd (-x) y ho).1 r h1
    rw [Flt.neg_neg] at h3
    refine ⟨r', h3, ?_⟩
    rcases h4 with rfl | h4
    · have e : Flt.flip true r = -r := rfl
      rw [e, isNaN_neg, Flt.sign_neg]
      exact h2.imp id fun h => by rw [h]; rfl
    · exact Or.inl h4.2

end Pow

/-- C77 for `pow` -/
theorem pow_sign : IsPowSign pow := by
  refine Pow.sign_of_nn pow_sym fun x y hx => ?_
  rw [Pow.pow_eq]
  refine Pow.sk_nn sqrt_correct (fun x y => ?_) (fun s x y hx hy h0 h1 => Pow.general_some hx hy h0 h1) x y hx
  obtain ⟨k, h1, h2⟩ := Pow.yisint_spec x y
  exact ⟨k, h1, fun a b c => (h2 a b c).1⟩

/-- C77 for `powf` -/
theorem powf_sign : IsPowSign powf := by
  refine Pow.sign_of_nn powf_sym fun x y hx => ?_
  rw [Powf.powf_eq]
  refine Pow.sk_nn sqrtf_correct (fun x y => ?_) (fun s x y hx hy h0 h1 => Powf.general_some hx hy h0 h1) x y hx
  obtain ⟨k, h1, h2⟩ := Powf.yisint_spec x y
  exact ⟨k, h1, fun a b c => (h2 a b c).1⟩

/-! ## concrete cases -/

/-- an odd power of a negative base, through the general case -/
example : (pow (-3.0) 3.0) = some (-27.0) ∧ (-3.0 : Flt f64).sign = true := by decide +kernel
/-- an even power of a negative base, scaled into the subnormals -/
example : pow (-1e-77) 4.0 = some 1.0e-308 := by decide +kernel

end Verif
