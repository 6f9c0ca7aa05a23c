import Verif.Theory.CbrtStep
import Verif.Theory.RplArg
import Verif.Theory.SymF
import Verif.Theory.RNE
import Verif.Props.Sign

/-!
# cbrt: the scaled argument, the refinement and the sign
-/

namespace Verif

theorem IsRNE.neg_rat {F : Fmt} {q : ℚ} {r : Flt F} (h : IsRNE q r) : IsRNE (-q) (-r) := by
  unfold IsRNE at h ⊢
  rw [abs_neg]
  simp only [Rat.cast_id] at h ⊢
  have sgn : q ≠ 0 → (r.sign = true ↔ q < 0) → ((-r).sign = true ↔ -q < 0) := by
    intro h0 hs
    rw [Flt.sign_neg]
    cases hr : r.sign
    · rw [hr] at hs
      have : ¬ q < 0 := fun h => by simpa using hs.2 h
      have : 0 < q := lt_of_le_of_ne (not_lt.1 this) (Ne.symm h0)
      simp [this]
    · have := hs.1 hr
      simp [this.le]
  split_ifs at h ⊢ with hc
  · refine ⟨(Flt.isInf_neg r).2 h.1, sgn ?_ h.2⟩
    rintro rfl
    rw [abs_zero] at hc
    have h1 := Flt.overflow_ge F
    have h2 : ((overflowThreshold F : ℚ) : ℝ) ≤ 0 := by exact_mod_cast hc
    have := Flt.zp (F.bias : ℤ)
    linarith
  · obtain ⟨a1, a2, a3, a4⟩ := h
    have e : ∀ s : Flt F, |(-s).toRat - -q| = |s.toRat - q| := fun s => by
      rw [Flt.toRat_neg, show -s.toRat - -q = -(s.toRat - q) by ring, abs_neg]
    refine ⟨(Flt.isFinite_neg r).2 a1, fun s hs => ?_, fun s hs he hne => ?_, fun h0 => sgn (by simpa using h0) (a4 (by simpa using h0))⟩
    · have := a2 (-s) ((Flt.isFinite_neg s).2 hs)
      rw [e r, ← Flt.neg_neg s, e (-s)]
      exact this
    · have := a3 (-s) ((Flt.isFinite_neg s).2 hs) (by rw [← e r, he, ← e (-s), Flt.neg_neg]) (fun h => hne (by
        rw [Flt.toRat_neg] at h ⊢; rw [← h]; ring))
      rw [Flt.fracField_eq, Flt.mb_neg, ← Flt.fracField_eq]
      exact this

theorem Flt.SRel.of_rne {F : Fmt} {q : ℚ} {r r' : Flt F} (h : IsRNE q r) (h' : IsRNE (-q) r') : Flt.SRel true r r' := by
  by_cases h0 : q = 0
  · subst h0
    have z : ∀ s : Flt F, IsRNE (0 : ℚ) s → s.isZero := fun s hs => by
      rw [Flt.isZero_val]
      have h1 := isRNE_real hs
      obtain ⟨-, b⟩ := h1.exact_real (z := Flt.zero F false) (Flt.isFinite_zero _) (by rw [Flt.val_zero]; simp)
      simpa using b
    rw [neg_zero] at h'
    exact Or.inr (Or.inr ⟨z _ h, z _ h'⟩)
  · exact Or.inl (h'.unique h.neg_rat (fun h => absurd (neg_eq_zero.1 h) h0))

theorem Flt.SRel.of_rne' {F : Fmt} {q : ℚ} {r r' : Flt F} (h : IsRNE q r) (h' : IsRNE q r') : Flt.SRel false r r' := by
  by_cases h0 : q = 0
  · subst h0
    have z : ∀ s : Flt F, IsRNE (0 : ℚ) s → s.isZero := fun s hs => by
      rw [Flt.isZero_val]
      have h1 := isRNE_real hs
      obtain ⟨-, b⟩ := h1.exact_real (z := Flt.zero F false) (Flt.isFinite_zero _) (by rw [Flt.val_zero]; simp)
      simpa using b
    exact Or.inr (Or.inr ⟨z _ h, z _ h'⟩)
  · exact Or.inl (h'.unique h (fun h => absurd h h0))

namespace Cbrt
open Flt

theorem rat_le {x y z : Flt f64} (h : |z.val| ≤ 2 ^ 12 * |x.val * y.val|) : |z.toRat| ≤ 2 ^ (f64.ew + 1) * |x.toRat * y.toRat| := by
  have e : f64.ew + 1 = 12 := rfl
  rw [e]
  have h : ((|z.toRat| : ℚ) : ℝ) ≤ ((2 ^ 12 * |x.toRat * y.toRat| : ℚ) : ℝ) := by
    push_cast
    exact h
  exact_mod_cast h

theorem ne16 : f64 ≠ f16 := fun h => absurd (congrArg Fmt.ew h) (by decide)

theorem flip_val (s : Bool) (x : Flt f64) : (flip s x).val = if s then -x.val else x.val := by
  unfold Flt.flip; cases s <;> simp

/-- the fused multiply-add with changed signs -/
theorem fma_flip {x y z r r' : Flt f64} (s t : Bool) (hx : x.isFinite) (hy : y.isFinite) (hz : z.isFinite) (h : |z.val| ≤ 2 ^ 12 * |x.val * y.val|)
    (e : Generic.fma x y z = some r) (e' : Generic.fma (flip s x) (flip t y) (flip (s ^^ t) z) = some r') : SRel (s ^^ t) r r' := by
  obtain ⟨a, a1, a2⟩ := fma_near lib64 ne16 hx hy hz (rat_le h)
  obtain ⟨b, b1, b2⟩ := fma_near lib64 ne16 ((flip_isFinite s x).2 hx) ((flip_isFinite t y).2 hy) ((flip_isFinite (s ^^ t) z).2 hz) (rat_le (by
    rw [flip_val, flip_val, flip_val]
    cases s <;> cases t <;> simpa using h))
  rw [a1, Option.some.injEq] at e
  rw [b1, Option.some.injEq] at e'
  subst e e'
  have fr : ∀ (s : Bool) (w : Flt f64), (flip s w).toRat = if s then -w.toRat else w.toRat := fun s w => by
    unfold Flt.flip; cases s <;> simp
  rw [fr, fr, fr] at b2
  cases s <;> cases t <;> simp only [Bool.false_eq_true, if_false, if_true, Bool.xor_false, Bool.false_xor, Bool.xor_true, Bool.true_xor, Bool.not_false, Bool.not_true, Bool.xor_self] at b2 ⊢
  · exact SRel.of_rne' a2 b2
  · exact SRel.of_rne a2 (by rw [show -(x.toRat * y.toRat + z.toRat) = x.toRat * -y.toRat + -z.toRat by ring]; exact b2)
  · exact SRel.of_rne a2 (by rw [show -(x.toRat * y.toRat + z.toRat) = -x.toRat * y.toRat + -z.toRat by ring]; exact b2)
  · exact SRel.of_rne' a2 (by rw [show x.toRat * y.toRat + z.toRat = -x.toRat * -y.toRat + z.toRat by ring]; exact b2)

theorem flip_true (x : Flt f64) : Flt.flip true x = -x := if_pos rfl
theorem flip_false (x : Flt f64) : Flt.flip false x = x := if_neg (by decide)

theorem opp_fin {s : Bool} {a b : Flt f64} (h : Opp s a b) (hf : a.isFinite) : b = flip s a :=
  h.elim id (fun h => absurd h.1 (not_nan_of_finite hf))

/-- a step from the opposite numbers -/
theorem step_neg {zz rr y y1 d : Flt f64} (hy : y.isFinite) (h1 : 1 / 2 ≤ |y.val|) (h2 : |y.val| ≤ 4)
    (h : step zz rr y = some (y1, d)) : ∃ y1' d', step (-zz) (-rr) (-y) = some (y1', d') ∧ SRel true y1 y1' ∧ SRel true d d' := by
  have Y2lo : 1 / 4 ≤ |y.val * y.val| := by
    rw [abs_mul]; have := mul_le_mul h1 h1 (by norm_num) (abs_nonneg _); linarith
  have Y2hi : |y.val * y.val| ≤ 16 := by
    rw [abs_mul]; have := mul_le_mul h2 h2 (abs_nonneg _) (by norm_num); linarith
  obtain ⟨f2, e2⟩ := mul_err64 hy hy 4 (by norm_num at *; linarith) (by norm_num) (by norm_num)
  have y2hi : |(y * y).val| ≤ 17 := (Cbrt.abs_of_near e2 Y2hi).trans (by norm_num)
  have y2lo : 1 / 8 ≤ |(y * y).val| := by
    have := abs_sub_abs_le_abs_sub (y.val * y.val) (y * y).val
    rw [abs_sub_comm] at this
    norm_num at *; linarith
  have P3hi : |(y * y).val * y.val| ≤ 2 ^ (7 : ℤ) := by
    rw [abs_mul]
    have := mul_le_mul y2hi h2 (abs_nonneg _) (by norm_num)
    norm_num at *; linarith
  have P3lo : 1 / 16 ≤ |y.val * (y * y).val| := by
    rw [abs_mul]
    have := mul_le_mul h1 y2lo (by norm_num) (abs_nonneg _)
    norm_num at *; linarith
  obtain ⟨f3, e3⟩ := mul_err64 f2 hy 7 P3hi (by norm_num) (by norm_num)
  have y3hi : |(y * y * y).val| ≤ 2 ^ 8 := (Cbrt.abs_of_near e3 P3hi).trans (by norm_num)
  have b1 : |(-(y * y)).val| ≤ 2 ^ 12 * |y.val * y.val| := by rw [val_neg, abs_neg]; norm_num at *; linarith
  have b2 : |(-(y * y * y)).val| ≤ 2 ^ 12 * |y.val * (y * y).val| := by rw [val_neg, abs_neg]; norm_num at *; linarith
  unfold step at h ⊢
  simp only at h ⊢
  obtain ⟨l, hl, h⟩ := Option.bind_eq_some_iff.1 h
  obtain ⟨t, ht, h⟩ := Option.map_eq_some_iff.1 h
  have m2 : -y * -y = y * y := neg_mul_neg' y y
  have m3 : y * y * -y = -(y * y * y) := by
    have := opp_fin (Opp.mul (s := false) (t := true) (Opp.refl (y * y)) (Opp.neg y)) f3
    rw [Bool.false_xor, flip_true] at this
    exact this
  rw [m2, m3]
  obtain ⟨l', hl'⟩ := fma_total lib64 ne16 (-y) (-y) (-(y * y))
  obtain ⟨t', ht'⟩ := fma_total lib64 ne16 (-y) (y * y) (-(-(y * y * y)))
  have rl : SRel false l l' := by
    have := fma_flip (r' := l') true true hy hy ((Flt.isFinite_neg _).2 f2) b1 hl (by rw [Bool.xor_self, flip_true, flip_false]; exact hl')
    rwa [Bool.xor_self] at this
  have rt : SRel true t t' := by
    have := fma_flip (r' := t') true false hy f2 ((Flt.isFinite_neg _).2 f3) b2 ht (by rw [Bool.xor_false, flip_true, flip_true, flip_false]; exact ht')
    rwa [Bool.xor_false] at this
  rw [hl']
  simp only [Option.bind_some]
  rw [ht']
  simp only [Option.map_some]
  rw [Prod.mk.injEq] at h
  have ry : SRel true y (-y) := SRel.neg y
  have ryl : SRel true (y * l) (-y * l') := SRel.mul (s := true) (t := false) ry rl
  have rD := ((SRel.neg (y * y * y)).sub (SRel.neg zz)).add (rt.add ryl)
  have rh : SRel false ((y * y * y - zz + (t + y * l)) * rr) ((-(y * y * y) - -zz + (t' + -y * l')) * -rr) :=
    SRel.mul (s := true) (t := true) rD (SRel.neg rr)
  have ru : SRel true (y * u0) (-y * u0) := SRel.mul (s := true) (t := false) ry (SRel.refl u0)
  have rdy : SRel true ((y * y * y - zz + (t + y * l)) * rr * (y * u0)) ((-(y * y * y) - -zz + (t' + -y * l')) * -rr * (-y * u0)) :=
    SRel.mul (s := false) (t := true) rh ru
  have r1 := ry.sub rdy
  refine ⟨_, _, rfl, ?_, ?_⟩
  · rw [← h.1]; exact r1
  · rw [← h.2]; exact (ry.sub r1).sub rdy

end Cbrt
end Verif
