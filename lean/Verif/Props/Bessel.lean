import Verif.Theory.BesselF

/-! # C54, C55, C56: the Bessel functions: totality, special values and symmetry -/

namespace Verif
open Flt

/-! ### C54: every function returns for every argument; the order is an `i32` -/

theorem j0_total (x : Flt f64) : ∃ r, j0 x = some r := BesselD.j0_total x
theorem j1_total (x : Flt f64) : ∃ r, j1 x = some r := BesselD.j1_total x
theorem y0_total (x : Flt f64) : ∃ r, y0 x = some r := BesselD.y0_total x
theorem y1_total (x : Flt f64) : ∃ r, y1 x = some r := BesselD.y1_total x
/-- in particular the loop that looks for the start of the continued fraction ends before its counter overflows -/
theorem jn_total (n : ℤ) (hn : IsI32 n) (x : Flt f64) : ∃ r, jn n x = some r := BesselD.jn_total hn x
theorem yn_total (n : ℤ) (_ : IsI32 n) (x : Flt f64) : ∃ r, yn n x = some r := BesselD.yn_total n x
theorem j0f_total (x : Flt f32) : ∃ r, j0f x = some r := BesselF.j0_total x
theorem j1f_total (x : Flt f32) : ∃ r, j1f x = some r := BesselF.j1_total x
theorem y0f_total (x : Flt f32) : ∃ r, y0f x = some r := BesselF.y0_total x
theorem y1f_total (x : Flt f32) : ∃ r, y1f x = some r := BesselF.y1_total x
theorem jnf_total (n : ℤ) (hn : IsI32 n) (x : Flt f32) : ∃ r, jnf n x = some r := BesselF.jn_total hn x
theorem ynf_total (n : ℤ) (_ : IsI32 n) (x : Flt f32) : ∃ r, ynf n x = some r := BesselF.yn_total n x

/-- a case that runs the loop: `n = 5`, `x = 1.5` -/
example : IsI32 5 ∧ ¬ (ofInt f64 4 <ᶠ (1.5 : Flt f64)) = true ∧ Jn.growK (2.0 / 1.5) 2147483646 1 (2.0 * (ofInt f64 4 + 1.0) / 1.5 + 2.0 / 1.5)
    (2.0 * (ofInt f64 4 + 1.0) / 1.5) (2.0 * (ofInt f64 4 + 1.0) / 1.5 * (2.0 * (ofInt f64 4 + 1.0) / 1.5 + 2.0 / 1.5) - 1.0) = some 8 := by
  refine ⟨by unfold IsI32; norm_num, by decide +kernel, by decide +kernel⟩

/-! ### C55 -/

theorem jn_special : IsBesselJ jn j0 j1 := BesselD.besselJ
theorem yn_special : IsBesselY yn y0 y1 := BesselD.besselY
theorem jnf_special : IsBesselJ jnf j0f j1f := BesselF.besselJ
theorem ynf_special : IsBesselY ynf y0f y1f := BesselF.besselY

example : IsI32 (-3) ∧ jn (-3) (zero f64 false) = some (zero f64 true) ∧ yn (-3) (zero f64 true) = some (inf f64 false) :=
  ⟨by unfold IsI32; norm_num, by decide +kernel, by decide +kernel⟩

/-! ### C56 -/

theorem jn_parity : ParityJ jn := BesselD.parityJ
theorem yn_parity : ParityY yn := BesselD.parityY
theorem jnf_parity : ParityJ jnf := BesselF.parityJ
theorem ynf_parity : ParityY ynf := BesselF.parityY

/-- the argument of `ParityJ` is finite because the law fails, for the sign of zero only, at the infinities -/
theorem j1_inf : j1 (inf f64 false) = some (zero f64 false) ∧ j1 (inf f64 true) = some (zero f64 false) :=
  ⟨by decide +kernel, by decide +kernel⟩

/-- a case with nonzero results -/
example : ∃ r, j1 1.5 = some r ∧ j1 (-1.5) = some (-r) ∧ ¬ r.isZero ∧ r.isFinite :=
  ⟨(j1 1.5).getD 0.0, by decide +kernel, by decide +kernel, by decide +kernel, by decide +kernel⟩

end Verif
