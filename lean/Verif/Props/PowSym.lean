import Verif.Theory.Neg
import Verif.Props.Pow

/-!
# C44: pow and powf of a negated base
-/

namespace Verif
open Flt

/-- A negated base changes only the sign of an odd power, and nothing in an even one. (A panic, `none`, is
preserved as well.) -/
structure IsPowSym {F : Fmt} (f : Flt F → Flt F → Option (Flt F)) : Prop where
  /-- even integer exponent: the same bits -/
  even : ∀ x y, IsIntVal y → ¬ IsOddVal y → f (-x) y = f x y
  /-- odd integer exponent: the opposite number, or both NaN -/
  odd : ∀ x y, IsOddVal y →
    (∀ r, f x y = some r → ∃ r', f (-x) y = some r' ∧ Opp true r r') ∧ (f x y = none → f (-x) y = none)

/-- lifted to results that may fail -/
def OppO {F : Fmt} (a b : Option (Flt F)) : Prop :=
  (∀ r, a = some r → ∃ r', b = some r' ∧ Opp true r r') ∧ (a = none → b = none)

namespace Pow
variable {F : Fmt}

theorem oppO_some {a b : Flt F} (h : Opp true a b) : OppO (some a) (some b) :=
  ⟨fun r hr => ⟨b, rfl, by cases hr; exact h⟩, fun h => by cases h⟩
theorem Opp.symm' {a b : Flt F} (h : Opp true a b) : Opp true b a := by
  rcases h with rfl | h
  · left; unfold Flt.flip; simp
  · exact Or.inr ⟨h.2, h.1⟩
theorem oppO_symm {a b : Option (Flt F)} (h : OppO a b) : OppO b a := by
  cases a with
  | none => rw [h.2 rfl]; exact ⟨fun r hr => (by cases hr), fun _ => rfl⟩
  | some r => obtain ⟨r', h1, h2⟩ := h.1 r rfl; rw [h1]; exact oppO_some (Opp.symm' h2)

theorem opp_of_nan {a b : Flt F} (ha : a.isNaN) (hb : b.isNaN) : Opp true a b := Or.inr ⟨ha, hb⟩

theorem oppO_bind {α : Type} {a : Option α} {f g : α → Option (Flt F)} (h : ∀ v, OppO (f v) (g v)) : OppO (a.bind f) (a.bind g) := by
  cases a with
  | none => exact ⟨fun r hr => (by cases hr), fun _ => rfl⟩
  | some v => exact h v
theorem oppO_map {α : Type} {a : Option α} {f g : α → Flt F} (h : ∀ v, Opp true (f v) (g v)) : OppO (a.map f) (a.map g) := by
  cases a with
  | none => exact ⟨fun r hr => (by cases hr), fun _ => rfl⟩
  | some v => exact oppO_some (h v)
theorem oppO_ite {P : Prop} [Decidable P] {a b c d : Option (Flt F)} (h1 : P → OppO a c) (h2 : ¬ P → OppO b d) :
    OppO (if P then a else b) (if P then c else d) := by
  by_cases h : P
  · rw [if_pos h, if_pos h]; exact h1 h
  · rw [if_neg h, if_neg h]; exact h2 h

theorem sk_sym {sq : Flt F → Option (Flt F)} {gen : Flt F → Flt F → Flt F → Option (Flt F)}
    {yi : Flt F → Flt F → Option ℤ}
    (hyi : ∀ x y, ¬ y.isNaN → ∃ k, yi x y = some k ∧
      (x.sign = true → y.isFinite → ¬ y.isZero → (k = 1 ↔ IsOddVal y) ∧ (k = 0 ↔ ¬ IsIntVal y)))
    (hg : ∀ s x y, gen s (-x) y = gen s x y) (ho : ∀ x y, IsOddVal y → OppO (gen (one F) x y) (gen (-one F) x y)) :
    IsPowSym (sk sq gen yi) := by
  have hone : ∀ x : Flt F, (x.sign = false ∧ x.mag = F.oneMag) → x = one F := fun x h =>
    eq_of_sign_mag (by rw [h.1, Flt.sign_one]) (by rw [h.2, mag_one])
  constructor
  · intro x y hy hyo
    -- enough for a nonnegative `x`
    have key : ∀ x : Flt F, x.sign = false → sk sq gen yi (-x) y = sk sq gen yi x y := by
      intro x hs
      have hs' : (-x).sign = true := by rw [Flt.sign_neg, hs]; rfl
      obtain ⟨k, hk, -⟩ := hyi x y (not_nan_of_finite hy.1)
      obtain ⟨k', hk', hk2⟩ := hyi (-x) y (not_nan_of_finite hy.1)
      unfold sk
      by_cases hz : y.isZero
      · rw [if_pos hz, if_pos hz]
      have hk1 : k' ≠ 1 := fun h => hyo ((hk2 hs' hy.1 hz).1.1 h)
      have hk0 : k' ≠ 0 := fun h => ((hk2 hs' hy.1 hz).2.1 h) hy
      simp only [isNaN_neg, isInf_neg, isZero_neg, mag_neg, mb_neg]
      have hs'' : ¬ ((-x).sign = false ∧ x.mag = F.oneMag) := fun h => by rw [hs'] at h; exact absurd h.1 (by decide)
      rw [if_neg hz, if_neg hz, if_neg hs'', hk, hk', Option.bind_some, Option.bind_some]
      by_cases hn : x.isNaN ∨ y.isNaN
      · rw [if_pos hn, if_pos hn]
        by_cases h1 : x.sign = false ∧ x.mag = F.oneMag
        · exfalso
          rcases hn with hn | hn
          · rw [hone x h1] at hn; exact not_nan_of_finite isFinite_one hn
          · exact not_nan_of_finite hy.1 hn
        · rw [if_neg h1, add_nan hn, add_nan (hn.imp (isNaN_neg _).2 id)]
      have hi := not_inf_of_finite hy.1
      have h1o : ¬ y.mag = F.oneMag := fun h => hyo (odd_one hy.1 h)
      have hhf : ¬ 2 * y.mag = F.oneMag := fun h => not_int_half h hy
      simp only [hn, hi, h1o, hhf, hs, hs', hk0, hk1, if_true, if_false, false_and, and_false, Bool.false_eq_true, hg]
      have e : -x * -x = x * x := neg_mul_neg' x x
      rw [e]
      by_cases h1 : x.mag = F.oneMag
      · rw [hone x ⟨hs, h1⟩]
        simp only [mag_one, or_true, and_self, if_true, mk_one mag_one, one_div_one, one_mul_one, ite_self]
      · simp only [h1, and_false, if_false]
    cases hs : x.sign
    · exact key x hs
    · have := key (-x) (by rw [Flt.sign_neg, hs]; rfl)
      rw [Flt.neg_neg] at this
      exact this.symm
  · intro x y hy
    have key : ∀ x : Flt F, x.sign = false → OppO (sk sq gen yi x y) (sk sq gen yi (-x) y) := by
      intro x hs
      have hs' : (-x).sign = true := by rw [Flt.sign_neg, hs]; rfl
      obtain ⟨k, hk, -⟩ := hyi x y (not_nan_of_finite hy.1)
      obtain ⟨k', hk', hk2⟩ := hyi (-x) y (not_nan_of_finite hy.1)
      have hz := odd_not_zero hy
      have hk1 : k' = 1 := (hk2 hs' hy.1 hz).1.2 hy
      unfold sk
      simp only [isNaN_neg, isInf_neg, isZero_neg, mag_neg, mb_neg]
      have hs'' : ¬ ((-x).sign = false ∧ x.mag = F.oneMag) := fun h => by rw [hs'] at h; exact absurd h.1 (by decide)
      rw [if_neg hz, if_neg hz, if_neg hs'', hk, hk', Option.bind_some, Option.bind_some]
      by_cases hn : x.isNaN ∨ y.isNaN
      · rw [if_pos hn, if_pos hn]
        by_cases h1 : x.sign = false ∧ x.mag = F.oneMag
        · exfalso
          rcases hn with hn | hn
          · rw [hone x h1] at hn; exact not_nan_of_finite isFinite_one hn
          · exact not_nan_of_finite hy.1 hn
        · rw [if_neg h1, add_nan hn, add_nan (hn.imp (isNaN_neg _).2 id)]
          exact oppO_some (opp_of_nan isNaN_qnan isNaN_qnan)
      have hi := not_inf_of_finite hy.1
      have h2o : ¬ y.mag = 2 * F.oneMag := fun h => not_odd_two h hy
      have hhf : ¬ 2 * y.mag = F.oneMag := fun h => not_int_half h (odd_int hy)
      have hk10 : ¬ ((1 : ℤ) = 0) := by decide
      subst hk1
      simp only [hn, hi, h2o, hhf, hs, hs', hk10, if_true, if_false, false_and, and_false, Bool.false_eq_true, hg]
      by_cases h1 : x.mag = F.oneMag
      · rw [hone x ⟨hs, h1⟩]
        simp only [mag_one, or_true, and_self, if_true, mk_one mag_one, one_div_one, one_div_neg_one, ite_self]
        exact oppO_some (Opp.neg _)
      · simp only [h1, and_false, if_false]
        refine oppO_ite (fun _ => oppO_some ?_) (fun _ => oppO_ite (fun _ => oppO_some (Opp.neg _)) (fun _ => ho x y hy))
        cases y.sign
        · exact Opp.neg _
        · have := div_flip false true (one F) x
          simpa [Flt.flip] using this
    cases hs : x.sign
    · exact key x hs
    · have := key (-x) (by rw [Flt.sign_neg, hs]; rfl)
      rw [Flt.neg_neg] at this
      exact oppO_symm this

theorem opp_smul (z : Flt F) : Opp true (one F * z) (-one F * z) := by
  have := mul_flip true false (one F) z
  simpa [Flt.flip] using this
theorem opp_smul2 (z w : Flt F) : Opp true (one F * z * w) (-one F * z * w) := by
  have := Opp.mul (opp_smul z) (Opp.refl w)
  simpa using this

theorem exp2Tail_opp (ph pl : Flt f64) (n : ℤ) : OppO (exp2Tail (one f64) ph pl n) (exp2Tail (-one f64) ph pl n) := by
  unfold exp2Tail
  exact oppO_bind fun j => oppO_ite (fun _ => oppO_map fun v => opp_smul v) (fun _ => oppO_some (opp_smul _))

theorem exp2Split_opp (ph pl : Flt f64) (j : BitVec 32) : OppO (exp2Split (one f64) ph pl j) (exp2Split (-one f64) ph pl j) := by
  unfold exp2Split
  exact oppO_ite (fun _ => oppO_bind fun _ => oppO_bind fun _ => oppO_bind fun _ => oppO_bind fun _ => exp2Tail_opp _ _ _)
    (fun _ => exp2Tail_opp _ _ _)

theorem mulOut_opp (y t1 t2 : Flt f64) : OppO (mulOut (one f64) y t1 t2) (mulOut (-one f64) y t1 t2) := by
  unfold mulOut
  exact oppO_ite (fun _ => oppO_bind fun _ => oppO_ite (fun _ => oppO_some (opp_smul2 _ _))
      (fun _ => oppO_ite (fun _ => oppO_some (opp_smul2 _ _)) (fun _ => exp2Split_opp _ _ _)))
    (fun _ => oppO_ite (fun _ => oppO_bind fun _ => oppO_ite (fun _ => oppO_some (opp_smul2 _ _))
      (fun _ => oppO_ite (fun _ => oppO_some (opp_smul2 _ _)) (fun _ => exp2Split_opp _ _ _))) (fun _ => exp2Split_opp _ _ _))

/-- an odd number is below `2^53` -/
theorem odd_lt (y : Flt f64) (hy : IsOddVal y) : y.mb / 2 ^ 32 < 0x43400000 := by
  by_contra hc
  have h := int_large y (by rw [f64_sb, f64_bias]; omega)
  have := ((isOddVal_iff y hy.1).1 hy).2
  omega

theorem general_opp (x y : Flt f64) (hy : IsOddVal y) :
    OppO (general (one f64) x y (getHighWord y) (getHighWord x &&& 0x7fffffff#32) (getHighWord y &&& 0x7fffffff#32))
      (general (-one f64) x y (getHighWord y) (getHighWord x &&& 0x7fffffff#32) (getHighWord y &&& 0x7fffffff#32)) := by
  have hlt := odd_lt y hy
  have hi := hi_abs y
  generalize getHighWord y &&& 0x7fffffff#32 = iy at *
  have hn : ¬ iy > 0x43f00000#32 := by
    rw [gt_iff_lt, BitVec.lt_def, hi, show (0x43f00000#32).toNat = 0x43f00000 by rfl]; omega
  unfold general
  refine oppO_ite (fun _ => ?_) (fun _ => oppO_bind fun _ => mulOut_opp _ _ _)
  simp only [hn, false_and, if_false]
  refine oppO_ite (fun _ => oppO_some ?_) (fun _ => oppO_ite (fun _ => oppO_some ?_) (fun _ => mulOut_opp _ _ _))
  · split_ifs <;> exact opp_smul2 _ _
  · split_ifs <;> exact opp_smul2 _ _

end Pow

namespace Powf
open Pow
theorem exp2Tail_opp (ph pl : Flt f32) (n : ℤ) : OppO (exp2Tail (one f32) ph pl n) (exp2Tail (-one f32) ph pl n) := by
  unfold exp2Tail
  exact oppO_bind fun j => oppO_ite (fun _ => oppO_map fun v => opp_smul v) (fun _ => oppO_some (opp_smul _))

theorem exp2Split_opp (ph pl : Flt f32) (j : BitVec 32) : OppO (exp2Split (one f32) ph pl j) (exp2Split (-one f32) ph pl j) := by
  unfold exp2Split
  exact oppO_ite (fun _ => oppO_bind fun _ => oppO_bind fun _ => oppO_bind fun _ => oppO_bind fun _ => exp2Tail_opp _ _ _)
    (fun _ => exp2Tail_opp _ _ _)

theorem mulOut_opp (y t1 t2 : Flt f32) : OppO (mulOut (one f32) y t1 t2) (mulOut (-one f32) y t1 t2) := by
  unfold mulOut
  exact oppO_ite (fun _ => oppO_some (opp_smul2 _ _)) (fun _ => oppO_ite (fun _ => oppO_ite (fun _ => oppO_some (opp_smul2 _ _))
    (fun _ => exp2Split_opp _ _ _)) (fun _ => oppO_ite (fun _ => oppO_some (opp_smul2 _ _))
    (fun _ => oppO_ite (fun _ => oppO_some (opp_smul2 _ _)) (fun _ => exp2Split_opp _ _ _))))

theorem general_opp (x y : Flt f32) (hy ix iy : BitVec 32) :
    OppO (general (one f32) x y hy ix iy) (general (-one f32) x y hy ix iy) := by
  unfold general
  refine oppO_ite (fun _ => ?_) (fun _ => oppO_bind fun _ => mulOut_opp _ _ _)
  refine oppO_ite (fun _ => oppO_some ?_) (fun _ => oppO_ite (fun _ => oppO_some ?_) (fun _ => mulOut_opp _ _ _))
  · split_ifs <;> exact opp_smul2 _ _
  · split_ifs <;> exact opp_smul2 _ _
end Powf

/-- C44 for `pow` -/
theorem pow_sym : IsPowSym pow := by
  have h := Pow.sk_sym (F := f64) (sq := sqrt)
    (gen := fun s x y => Pow.general s x y (getHighWord y) (getHighWord x &&& 0x7fffffff#32) (getHighWord y &&& 0x7fffffff#32))
    (yi := fun x y => Pow.yisint (getHighWord x) (getHighWord y &&& 0x7fffffff#32) (getLowWord y))
    (fun x y _ => Pow.yisint_spec x y) (fun s x y => by
      have e : getHighWord (-x) &&& 0x7fffffff#32 = getHighWord x &&& 0x7fffffff#32 := by
        apply BitVec.eq_of_toNat_eq; rw [hi_abs, hi_abs, mb_neg]
      rw [e]
      unfold Pow.general
      rw [fabs_eq, fabs_eq, mb_neg]) (fun x y hy => Pow.general_opp x y hy)
  have e : pow = Pow.sk sqrt _ _ := funext fun x => funext fun y => Pow.pow_eq x y
  rw [e]
  exact h

/-- C44 for `powf` -/
theorem powf_sym : IsPowSym powf := by
  have h := Pow.sk_sym (F := f32) (sq := sqrtf)
    (gen := fun s x y => Powf.general s x y y.u32 (x.u32 &&& 0x7fffffff#32) (y.u32 &&& 0x7fffffff#32))
    (yi := fun x y => Powf.yisint x.u32 (y.u32 &&& 0x7fffffff#32))
    (fun x y _ => Powf.yisint_spec x y) (fun s x y => by
      have e : (-x).u32 &&& 0x7fffffff#32 = x.u32 &&& 0x7fffffff#32 := by
        apply BitVec.eq_of_toNat_eq; rw [u32_abs, u32_abs, mb_neg]
      rw [e]
      unfold Powf.general
      rw [fabs_eq, fabs_eq, mb_neg]) (fun x y _ => Powf.general_opp x y _ _ _)
  have e : powf = Pow.sk sqrtf _ _ := funext fun x => funext fun y => Powf.powf_eq x y
  rw [e]
  exact h

end Verif
