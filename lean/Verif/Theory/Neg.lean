import Verif.Theory.Word
import Verif.Theory.Err

/-!
# Changing signs: how the arithmetic operations commute with negation

`SRel s a b`: `b` is `a` (`s = false`) or `-a` (`s = true`), except that two NaNs are related, and so are two zeros of
any signs: IEEE addition loses the sign of an exact zero sum.
-/

namespace Verif
namespace Flt
variable {F : Fmt}

/-- `x` with its sign flipped if `s` -/
def flip (s : Bool) (x : Flt F) : Flt F := if s = true then -x else x

/-- equal up to the sign `s`, or both NaN -/
def Opp (s : Bool) (a b : Flt F) : Prop := b = flip s a ∨ (a.isNaN ∧ b.isNaN)

/-- equal up to the sign `s`, or both NaN, or both zero -/
def SRel (s : Bool) (a b : Flt F) : Prop := b = flip s a ∨ (a.isNaN ∧ b.isNaN) ∨ (a.isZero ∧ b.isZero)

theorem Opp.toS {s : Bool} {a b : Flt F} (h : Opp s a b) : SRel s a b := h.elim Or.inl (fun h => Or.inr (Or.inl h))
theorem Opp.neg (a : Flt F) : Opp true a (-a) := Or.inl rfl
theorem SRel.neg (a : Flt F) : SRel true a (-a) := Or.inl rfl
theorem SRel.refl (a : Flt F) : SRel false a a := Or.inl rfl
theorem Opp.refl (a : Flt F) : Opp false a a := Or.inl rfl

@[simp] theorem flip_isNaN (s : Bool) (x : Flt F) : (flip s x).isNaN ↔ x.isNaN := by unfold flip; cases s <;> simp
@[simp] theorem flip_isInf (s : Bool) (x : Flt F) : (flip s x).isInf ↔ x.isInf := by unfold flip; cases s <;> simp
@[simp] theorem flip_isZero (s : Bool) (x : Flt F) : (flip s x).isZero ↔ x.isZero := by unfold flip; cases s <;> simp
@[simp] theorem flip_isFinite (s : Bool) (x : Flt F) : (flip s x).isFinite ↔ x.isFinite := by
  unfold flip; cases s <;> simp
@[simp] theorem flip_mag (s : Bool) (x : Flt F) : (flip s x).mag = x.mag := by unfold flip; cases s <;> simp
@[simp] theorem flip_sign (s : Bool) (x : Flt F) : (flip s x).sign = (s ^^ x.sign) := by unfold flip; cases s <;> simp
theorem flip_flip (s t : Bool) (x : Flt F) : flip s (flip t x) = flip (s ^^ t) x := by
  unfold flip; cases s <;> cases t <;> simp
theorem flip_roundMag (s t : Bool) (n d : ℕ) : flip s (roundMag F t n d) = roundMag F (s ^^ t) n d := by
  unfold flip; cases s <;> simp [neg_roundMag]
theorem flip_inf (s t : Bool) : flip s (inf F t) = inf F (s ^^ t) := by
  apply ext_mb
  · rw [flip_sign, sign_inf, sign_inf]
  · unfold flip; cases s <;> simp [mb_neg]
theorem flip_zero (s t : Bool) : flip s (zero F t) = zero F (s ^^ t) := by
  apply ext_mb
  · rw [flip_sign, sign_zero, sign_zero]
  · unfold flip; cases s <;> simp [mb_neg]
theorem flip_sval (s : Bool) (x : Flt F) : (flip s x).sval = if s = true then -x.sval else x.sval := by
  unfold flip; cases s <;> simp

/-- multiplication: signs multiply -/
theorem mul_flip (s t : Bool) (x y : Flt F) : Opp (s ^^ t) (x * y) (flip s x * flip t y) := by
  change Opp _ (Flt.mul x y) (Flt.mul (flip s x) (flip t y))
  unfold Flt.mul
  simp only [flip_isNaN, flip_isInf, flip_isZero, flip_mag, flip_sign]
  have e : ((s ^^ x.sign) ^^ (t ^^ y.sign)) = ((s ^^ t) ^^ (x.sign ^^ y.sign)) := by
    cases s <;> cases t <;> cases x.sign <;> cases y.sign <;> rfl
  split_ifs
  · exact Or.inr ⟨isNaN_qnan, isNaN_qnan⟩
  · exact Or.inr ⟨isNaN_qnan, isNaN_qnan⟩
  · exact Or.inl (by rw [flip_inf, e])
  · exact Or.inl (by rw [flip_roundMag, e])

theorem neg_mul_neg' (x y : Flt F) : -x * -y = x * y := by
  change Flt.mul _ _ = Flt.mul _ _
  unfold Flt.mul
  simp only [isNaN_neg, isInf_neg, isZero_neg, mag_neg, sign_neg, Bool.not_bne_not]

theorem div_flip (s t : Bool) (x y : Flt F) : Opp (s ^^ t) (x / y) (flip s x / flip t y) := by
  change Opp _ (Flt.div x y) (Flt.div (flip s x) (flip t y))
  unfold Flt.div
  simp only [flip_isNaN, flip_isInf, flip_isZero, flip_mag, flip_sign]
  have e : ((s ^^ x.sign) ^^ (t ^^ y.sign)) = ((s ^^ t) ^^ (x.sign ^^ y.sign)) := by
    cases s <;> cases t <;> cases x.sign <;> cases y.sign <;> rfl
  split_ifs
  · exact Or.inr ⟨isNaN_qnan, isNaN_qnan⟩
  · exact Or.inr ⟨isNaN_qnan, isNaN_qnan⟩
  · exact Or.inl (by rw [flip_inf, e])
  · exact Or.inl (by rw [flip_zero, e])
  · exact Or.inl (by rw [flip_roundMag, e])

theorem Opp.mul {s t : Bool} {x x' y y' : Flt F} (hx : Opp s x x') (hy : Opp t y y') :
    Opp (s ^^ t) (x * y) (x' * y') := by
  rcases hx with rfl | ⟨h1, h2⟩
  · rcases hy with rfl | ⟨h3, h4⟩
    · exact mul_flip s t x y
    · rw [mul_nan (Or.inr h3), mul_nan (Or.inr h4)]; exact Or.inr ⟨isNaN_qnan, isNaN_qnan⟩
  · rw [mul_nan (Or.inl h1), mul_nan (Or.inl h2)]; exact Or.inr ⟨isNaN_qnan, isNaN_qnan⟩

theorem Opp.div {s t : Bool} {x x' y y' : Flt F} (hx : Opp s x x') (hy : Opp t y y') :
    Opp (s ^^ t) (x / y) (x' / y') := by
  rcases hx with rfl | ⟨h1, h2⟩
  · rcases hy with rfl | ⟨h3, h4⟩
    · exact div_flip s t x y
    · rw [div_nan (Or.inr h3), div_nan (Or.inr h4)]; exact Or.inr ⟨isNaN_qnan, isNaN_qnan⟩
  · rw [div_nan (Or.inl h1), div_nan (Or.inl h2)]; exact Or.inr ⟨isNaN_qnan, isNaN_qnan⟩

theorem zero_mul_zero_or {x y : Flt F} (hx : x.isZero) : (x * y).isNaN ∧ (y.isNaN ∨ y.isInf) ∨ (x * y).isZero ∧ y.isFinite := by
  rcases class_cases y with h | h | h
  · left; rw [mul_nan (Or.inr h)]; exact ⟨isNaN_qnan, Or.inl h⟩
  · left; rw [mul_comm', inf_mul_zero h hx]; exact ⟨isNaN_qnan, Or.inr h⟩
  · right
    refine ⟨?_, h⟩
    have := (mul_rne (finite_of_zero hx) h).exact_real (z := zero F false) (by simp) (by rw [isZero_val.1 hx]; simp)
    rw [isZero_val, this.2, isZero_val.1 hx, zero_mul]

theorem SRel.class {s : Bool} {x x' : Flt F} (h : SRel s x x') :
    (x.isNaN ↔ x'.isNaN) ∧ (x.isInf ↔ x'.isInf) ∧ (x.isFinite ↔ x'.isFinite) ∧ (x.isZero ↔ x'.isZero) := by
  rcases h with rfl | ⟨h1, h2⟩ | ⟨h1, h2⟩
  · simp
  · simp only [isNaN_iff, isInf_iff, isFinite_iff, isZero_iff] at *
    refine ⟨?_, ?_, ?_, ?_⟩ <;> omega
  · have := F.infEnc_pos
    simp only [isNaN_iff, isInf_iff, isFinite_iff, isZero_iff] at *
    refine ⟨?_, ?_, ?_, ?_⟩ <;> omega

theorem SRel.symm {s : Bool} {x x' : Flt F} (h : SRel s x x') : SRel s x' x := by
  rcases h with rfl | h | h
  · left; rw [flip_flip]; simp [flip]
  · exact Or.inr (Or.inl ⟨h.2, h.1⟩)
  · exact Or.inr (Or.inr ⟨h.2, h.1⟩)

theorem SRel.mul {s t : Bool} {x x' y y' : Flt F} (hx : SRel s x x') (hy : SRel t y y') :
    SRel (s ^^ t) (x * y) (x' * y') := by
  have cy := hy.class
  have cx := hx.class
  by_cases hz : x.isZero
  · have hz' := cx.2.2.2.1 hz
    rcases zero_mul_zero_or hz (y := y) with h | h
    · rcases zero_mul_zero_or hz' (y := y') with h' | h'
      · exact Or.inr (Or.inl ⟨h.1, h'.1⟩)
      · have := cy.2.2.1.2 h'.2
        exact absurd h.2 (fun h => h.elim (not_nan_of_finite this) (not_inf_of_finite this))
    · rcases zero_mul_zero_or hz' (y := y') with h' | h'
      · have := cy.2.2.1.1 h.2
        exact absurd h'.2 (fun h => h.elim (not_nan_of_finite this) (not_inf_of_finite this))
      · exact Or.inr (Or.inr ⟨h.1, h'.1⟩)
  by_cases hw : y.isZero
  · have hw' := cy.2.2.2.1 hw
    rw [mul_comm' x, mul_comm' x']
    rcases zero_mul_zero_or hw (y := x) with h | h
    · rcases zero_mul_zero_or hw' (y := x') with h' | h'
      · exact Or.inr (Or.inl ⟨h.1, h'.1⟩)
      · have := cx.2.2.1.2 h'.2
        exact absurd h.2 (fun h => h.elim (not_nan_of_finite this) (not_inf_of_finite this))
    · rcases zero_mul_zero_or hw' (y := x') with h' | h'
      · have := cx.2.2.1.1 h.2
        exact absurd h'.2 (fun h => h.elim (not_nan_of_finite this) (not_inf_of_finite this))
      · exact Or.inr (Or.inr ⟨h.1, h'.1⟩)
  have hx' : Opp s x x' := by
    rcases hx with h | h | h
    exacts [Or.inl h, Or.inr h, absurd h.1 hz]
  have hy' : Opp t y y' := by
    rcases hy with h | h | h
    exacts [Or.inl h, Or.inr h, absurd h.1 hw]
  exact (hx'.mul hy').toS

theorem SRel.div {s t : Bool} {x x' y y' : Flt F} (hx : SRel s x x') (hy : SRel t y y') (h0 : ¬ y.isZero) :
    SRel (s ^^ t) (x / y) (x' / y') := by
  have cx := hx.class
  have cy := hy.class
  by_cases hz : x.isZero
  · have hz' := cx.2.2.2.1 hz
    have key : ∀ {a b : Flt F}, a.isZero → ¬ b.isZero → (a / b).isNaN ∧ b.isNaN ∨ (a / b).isZero ∧ ¬ b.isNaN := by
      intro a b ha hb
      rcases class_cases b with h | h | h
      · left; rw [div_nan (Or.inr h)]; exact ⟨isNaN_qnan, h⟩
      · right; rw [div_inf (finite_of_zero ha) h]; exact ⟨by simp, not_nan_of_inf h⟩
      · right
        refine ⟨?_, not_nan_of_finite h⟩
        have := (div_rne (finite_of_zero ha) h hb).exact_real (z := zero F false) (by simp)
          (by rw [isZero_val.1 ha]; simp)
        rw [isZero_val, this.2, isZero_val.1 ha, _root_.zero_div]
    have h0' : ¬ y'.isZero := fun h => h0 (cy.2.2.2.2 h)
    rcases key hz h0 with h | h
    · rcases key hz' h0' with h' | h'
      · exact Or.inr (Or.inl ⟨h.1, h'.1⟩)
      · exact absurd (cy.1.1 h.2) h'.2
    · rcases key hz' h0' with h' | h'
      · exact absurd (cy.1.2 h'.2) h.2
      · exact Or.inr (Or.inr ⟨h.1, h'.1⟩)
  have hx' : Opp s x x' := by
    rcases hx with h | h | h
    exacts [Or.inl h, Or.inr h, absurd h.1 hz]
  have hy' : Opp t y y' := by
    rcases hy with h | h | h
    exacts [Or.inl h, Or.inr h, absurd h.1 h0]
  exact (hx'.div hy').toS

theorem add_flip (s : Bool) (x y : Flt F) : SRel s (x + y) (flip s x + flip s y) := by
  cases s
  · left; simp [flip]
  change SRel _ (Flt.add x y) (Flt.add (flip true x) (flip true y))
  unfold Flt.add
  simp only [flip_isNaN, flip_isInf, flip_sign, flip_sval]
  have e : (true ^^ x.sign) ≠ (true ^^ y.sign) ↔ x.sign ≠ y.sign := by simp
  simp only [e]
  by_cases h1 : x.isNaN ∨ y.isNaN
  · rw [if_pos h1, if_pos h1]; exact Or.inr (Or.inl ⟨isNaN_qnan, isNaN_qnan⟩)
  rw [if_neg h1, if_neg h1]
  by_cases h2 : x.isInf
  · rw [if_pos h2, if_pos h2]
    split_ifs
    · exact Or.inr (Or.inl ⟨isNaN_qnan, isNaN_qnan⟩)
    · exact Or.inl rfl
  rw [if_neg h2, if_neg h2]
  by_cases h3 : y.isInf
  · rw [if_pos h3, if_pos h3]; exact Or.inl rfl
  rw [if_neg h3, if_neg h3]
  simp only [if_true]
  by_cases h4 : x.sval + y.sval = 0
  · rw [if_pos h4, if_pos (by omega)]; exact Or.inr (Or.inr ⟨by simp, by simp⟩)
  · rw [if_neg h4, if_neg (by omega)]
    left
    rw [flip_roundMag]
    congr 1
    · rw [Bool.true_xor, ← decide_not]; congr 1; rw [eq_iff_iff]; omega
    · omega

theorem SRel.add {s : Bool} {x x' y y' : Flt F} (hx : SRel s x x') (hy : SRel s y y') : SRel s (x + y) (x' + y') := by
  have cx := hx.class
  have cy := hy.class
  by_cases hn : x.isNaN ∨ y.isNaN
  · have hn' : x'.isNaN ∨ y'.isNaN := hn.imp cx.1.1 cy.1.1
    rw [add_nan hn, add_nan hn']; exact Or.inr (Or.inl ⟨isNaN_qnan, isNaN_qnan⟩)
  push Not at hn
  have hn' : ¬ x'.isNaN ∧ ¬ y'.isNaN := ⟨fun h => hn.1 (cx.1.2 h), fun h => hn.2 (cy.1.2 h)⟩
  by_cases hz : x.isZero
  · have hz' := cx.2.2.2.1 hz
    by_cases hw : y.isZero
    · have hw' := cy.2.2.2.1 hw
      have key : ∀ {a b : Flt F}, a.isZero → b.isZero → (a + b).isZero := by
        intro a b ha hb
        have := (add_rne (finite_of_zero ha) (finite_of_zero hb)).exact_real (z := zero F false) (by simp)
          (by rw [isZero_val.1 ha, isZero_val.1 hb]; simp)
        rw [isZero_val, this.2, isZero_val.1 ha, isZero_val.1 hb, add_zero]
      exact Or.inr (Or.inr ⟨key hz hw, key hz' hw'⟩)
    · rw [add_comm' x, add_comm' x', add_zero' hn.2 hw hz, add_zero' hn'.2 (fun h => hw (cy.2.2.2.2 h)) hz']
      exact hy
  by_cases hw : y.isZero
  · rw [add_zero' hn.1 hz hw, add_zero' hn'.1 (fun h => hz (cx.2.2.2.2 h)) (cy.2.2.2.1 hw)]
    exact hx
  have hx' : x' = flip s x := by
    rcases hx with h | h | h
    exacts [h, absurd h.1 hn.1, absurd h.1 hz]
  have hy' : y' = flip s y := by
    rcases hy with h | h | h
    exacts [h, absurd h.1 hn.2, absurd h.1 hw]
  rw [hx', hy']
  exact add_flip s x y

theorem SRel.neg' {s : Bool} {x x' : Flt F} (h : SRel s x x') : SRel s (-x) (-x') := by
  rcases h with rfl | h | h
  · left; unfold flip; cases s <;> simp
  · right; left; simpa using h
  · right; right; simpa using h

theorem sub_eq (x y : Flt F) : x - y = x + -y := rfl

theorem SRel.sub {s : Bool} {x x' y y' : Flt F} (hx : SRel s x x') (hy : SRel s y y') : SRel s (x - y) (x' - y') := by
  rw [sub_eq, sub_eq]; exact hx.add hy.neg'

theorem SRel.val {s : Bool} {x x' : Flt F} (h : SRel s x x') (hx : x.isFinite) : x'.val = if s = true then -x.val else x.val := by
  rcases h with rfl | h | h
  · unfold flip; cases s <;> simp
  · exact absurd h.1 (not_nan_of_finite hx)
  · rw [isZero_val.1 h.1, isZero_val.1 h.2]; simp

/-- a nonzero result with the relation is exactly opposite -/
theorem SRel.opp {s : Bool} {x x' : Flt F} (h : SRel s x x') (hz : ¬ x.isZero) : Opp s x x' := by
  rcases h with h | h | h
  exacts [Or.inl h, Or.inr h, absurd h.1 hz]

end Flt
end Verif
