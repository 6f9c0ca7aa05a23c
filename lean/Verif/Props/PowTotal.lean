import Verif.Theory.PowfTot
import Verif.Props.Exp10

/-!
# C51: pow, powf and exp10 return for every argument; C36 for pow

`none` in the model is an overflow of a checked addition, subtraction or shift, an index outside a table, or the
failure of a called function.
-/

namespace Verif
open Flt

/-- whatever the decision structure needs from its parts -/
theorem Pow.sk_some {F : Fmt} {sq : Flt F → Option (Flt F)} {gen : Flt F → Flt F → Flt F → Option (Flt F)} {yi : Flt F → Flt F → Option ℤ}
    (hsq : ∀ x, ∃ r, sq x = some r) (hyi : ∀ x y, ∃ k, yi x y = some k)
    (hg : ∀ s x y, x.isFinite → y.isFinite → ¬ x.isZero → x.mag ≠ F.oneMag → ∃ r, gen s x y = some r) (x y : Flt F) :
    ∃ r, sk sq gen yi x y = some r := by
  unfold sk
  by_cases c1 : y.isZero
  · exact ⟨_, if_pos c1⟩
  rw [if_neg c1]
  by_cases c2 : x.sign = false ∧ x.mag = F.oneMag
  · exact ⟨_, if_pos c2⟩
  rw [if_neg c2]
  by_cases c3 : x.isNaN ∨ y.isNaN
  · exact ⟨_, if_pos c3⟩
  rw [if_neg c3]
  push Not at c3
  obtain ⟨k, hk⟩ := hyi x y
  rw [hk, Option.bind_some]
  by_cases c4 : y.isInf
  · rw [if_pos c4]
    split
    · exact ⟨_, rfl⟩
    split <;> exact ⟨_, rfl⟩
  rw [if_neg c4]
  have hy : y.isFinite := finite_of_not c3.2 c4
  by_cases c5 : y.mag = F.oneMag
  · exact ⟨_, if_pos c5⟩
  rw [if_neg c5]
  split
  · exact ⟨_, rfl⟩
  split
  · exact hsq x
  split
  · dsimp only
    split
    · split
      · exact ⟨_, rfl⟩
      split <;> exact ⟨_, rfl⟩
    · exact ⟨_, rfl⟩
  rename_i c6
  push Not at c6
  have hx : x.isFinite := finite_of_not c3.1 c6.1
  split
  · split
    · exact ⟨_, rfl⟩
    split
    · exact hg _ _ _ hx hy c6.2.1 c6.2.2
    · exact hg _ _ _ hx hy c6.2.1 c6.2.2
  · exact hg _ _ _ hx hy c6.2.1 c6.2.2

/-- C51 for `pow` -/
theorem pow_total (x y : Flt f64) : ∃ r, pow x y = some r := by
  rw [Pow.pow_eq]
  exact Pow.sk_some (fun x => Option.isSome_iff_exists.1 (sqrt_total x)) (fun x y => (Pow.yisint_spec x y).imp fun _ h => h.1)
    (fun s x y hx hy h0 h1 => (Pow.general_some hx hy h0 h1).imp fun _ h => h.1) x y

/-- C51 for `powf` -/
theorem powf_total (x y : Flt f32) : ∃ r, powf x y = some r := by
  rw [Powf.powf_eq]
  exact Pow.sk_some (fun x => Option.isSome_iff_exists.1 (sqrtf_total x)) (fun x y => (Powf.yisint_spec x y).imp fun _ h => h.1)
    (fun s x y hx hy h0 h1 => (Powf.general_some hx hy h0 h1).imp fun _ h => h.1) x y

/-- C51 for `exp10`, and its special values (C30) -/
theorem exp10_special : IsExpSpecial exp10 where
  total x := by
    unfold exp10
    dsimp only
    split
    · rename_i h
      have hm := (Exp10.exp_lt _).1 h
      have hf : (modf x).2.isFinite := by rw [isFinite64]; omega
      have hv := val_lt_of_mb (F := f64) (x := (modf x).2) (E := 1027) (by norm_num) (by rw [f64_sb]; exact hm)
      rw [f64_bias] at hv; norm_num at hv
      obtain ⟨r, hr⟩ := Exp10.look_total _ hf hv
      split
      · exact ⟨r, hr⟩
      · obtain ⟨e, he⟩ := exp2_special.total (Exp10.ln10 * (modf x).1)
        rw [he, hr]
        exact ⟨_, rfl⟩
    · exact pow_total _ _
  nan := exp10_special_partial.1
  pinf := exp10_special_partial.2.1
  ninf := exp10_special_partial.2.2.1
  zero := exp10_special_partial.2.2.2.1

/-! ## concrete cases -/

/-- the general case of `pow` runs through the reduction, the multiplication and the exponential -/
example : pow 3.0 2.5 = some 15.58845726811989564 := by decide +kernel
/-- subnormal base, result scaled by `scalbn` -/
example : pow (bits64 1) 0.9990234375 = some (bits64 0x0000000000000002) := by decide +kernel
/-- near one with a huge exponent -/
example : pow (bits64 0x3ff0000000000001) 1e18 = some (bits64 0x53f44a12826f5073) := by decide +kernel

end Verif
