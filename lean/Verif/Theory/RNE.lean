import Verif.Theory.Arith
import Verif.Theory.Add

/-! # Consequences of the specification `IsRNE`: exactness and uniqueness -/

namespace Verif
open Flt
variable {F : Fmt}

theorem lt_overflow {z : Flt F} (hz : z.isFinite) : |z.toRat| < overflowThreshold F := by
  rw [toRat_abs]
  have h3 := overflowThreshold_eq F
  have h4 : z.mag ≤ magOf F.sb (F.infEnc - 1) := by
    unfold mag; rw [magOf_le]; have := (isFinite_iff z).mp hz; omega
  have h5 : magOf F.sb (F.infEnc - 1) < magOf F.sb F.infEnc := by
    rw [magOf_lt]; have := F.infEnc_pos; omega
  have h6 : 2 * z.mag < magOf F.sb (F.infEnc - 1) + magOf F.sb F.infEnc := by omega
  have h7 : (2 * z.mag : ℚ) < ((magOf F.sb (F.infEnc - 1) + magOf F.sb F.infEnc : ℕ) : ℚ) := by exact_mod_cast h6
  have hu := F.ulp_pos
  have h8 : (2 * z.mag : ℚ) * F.ulp < ((magOf F.sb (F.infEnc - 1) + magOf F.sb F.infEnc : ℕ) : ℚ) * F.ulp :=
    mul_lt_mul_of_pos_right h7 hu
  rw [← h3] at h8
  linarith

/-- the correct rounding of a representable number is that number -/
theorem IsRNE.exact {q : ℚ} {r z : Flt F} (h : IsRNE q r) (hz : z.isFinite) (hq : z.toRat = q) :
    r.isFinite ∧ r.toRat = q := by
  unfold IsRNE at h
  have hthr := lt_overflow hz
  rw [hq] at hthr
  rw [if_neg (by rw [Rat.cast_id]; exact not_le.mpr hthr)] at h
  refine ⟨h.1, ?_⟩
  have := h.2.1 z hz
  simp only [Rat.cast_id] at this
  rw [hq, sub_self, abs_zero] at this
  have := abs_nonpos_iff.mp this
  linarith

theorem frac_parity (x : Flt F) : x.fracField % 2 = x.mb % 2 := by
  rw [fracField_eq, Nat.mod_mod_of_dvd _ F.two_dvd_pow_sb]

theorem toRat_signed (x : Flt F) : x.toRat = (if x.sign then -1 else 1) * ((x.mag : ℚ) * F.ulp) := by
  rw [toRat_eq]; unfold sval
  split <;> simp

theorem not_two_nearest {q : ℚ} {r r' : Flt F} (hs : r.sign = r'.sign) (hr' : r'.isFinite)
    (h1 : ∀ s : Flt F, s.isFinite → |r.toRat - q| ≤ |s.toRat - q|)
    (he : |r.toRat - q| = |r'.toRat - q|) (p : r.fracField % 2 = 0) (p' : r'.fracField % 2 = 0) (hlt : r.mb < r'.mb) :
    False := by
  rw [frac_parity] at p p'
  have hu := F.ulp_pos
  have hfin := (isFinite_iff r').mp hr'
  have hinf := F.infEnc_lt
  let t : Flt F := mk' F r.sign (r.mb + 1)
  have ht1 : t.sign = r.sign := sign_mk' (by omega)
  have ht2 : t.mb = r.mb + 1 := mb_mk' (by omega)
  have ht3 : t.isFinite := by rw [isFinite_iff, ht2]; omega
  have m1 : r.mag < t.mag := by unfold mag; rw [magOf_lt, ht2]; omega
  have m2 : t.mag < r'.mag := by unfold mag; rw [magOf_lt, ht2]; omega
  have m1' : (r.mag : ℚ) * F.ulp < t.mag * F.ulp := mul_lt_mul_of_pos_right (by exact_mod_cast m1) hu
  have m2' : (t.mag : ℚ) * F.ulp < r'.mag * F.ulp := mul_lt_mul_of_pos_right (by exact_mod_cast m2) hu
  have h2 := h1 t ht3
  rw [toRat_signed r, toRat_signed r', ← hs] at he
  rw [toRat_signed r, toRat_signed t, ht1] at h2
  generalize (r.mag : ℚ) * F.ulp = a at *
  generalize (t.mag : ℚ) * F.ulp = b at *
  generalize (r'.mag : ℚ) * F.ulp = c at *
  cases hsg : r.sign <;> simp only [hsg, Bool.false_eq_true, if_false, if_true, one_mul, neg_mul] at he h2
  · rcases abs_eq_abs.mp he with h | h
    · linarith
    · rw [show q = (a + c) / 2 by linarith] at h2
      rw [abs_of_neg (by linarith)] at h2
      have := abs_lt.mpr (⟨by linarith, by linarith⟩ : -((c - a) / 2) < b - (a + c) / 2 ∧ b - (a + c) / 2 < (c - a) / 2)
      linarith
  · rcases abs_eq_abs.mp he with h | h
    · linarith
    · rw [show q = -(a + c) / 2 by linarith] at h2
      rw [abs_of_pos (by linarith)] at h2
      have := abs_lt.mpr (⟨by linarith, by linarith⟩ : -((c - a) / 2) < -b - -(a + c) / 2 ∧ -b - -(a + c) / 2 < (c - a) / 2)
      linarith

/-- `IsRNE` determines the result: at most one datum is the correct rounding of a nonzero number
(and of zero, once the sign is given) -/
theorem IsRNE.unique {q : ℚ} {r r' : Flt F} (h : IsRNE q r) (h' : IsRNE q r') (hs : q = 0 → r.sign = r'.sign) :
    r = r' := by
  unfold IsRNE at h h'
  split at h
  · rename_i hc
    rw [if_pos hc] at h'
    have hsg : r.sign = r'.sign := by
      have := h.2.trans h'.2.symm
      cases a : r.sign <;> cases b : r'.sign <;> simp_all
    rw [eq_inf h.1, eq_inf h'.1, hsg]
  · rename_i hc
    rw [if_neg hc] at h'
    obtain ⟨a1, a2, a3, a4⟩ := h
    obtain ⟨b1, b2, b3, b4⟩ := h'
    simp only [Rat.cast_id] at a2 a3 b2 b3
    have hsg : r.sign = r'.sign := by
      by_cases hq : q = 0
      · exact hs hq
      · have := (a4 hq).trans (b4 hq).symm
        cases a : r.sign <;> cases b : r'.sign <;> simp_all
    have he : |r.toRat - q| = |r'.toRat - q| := le_antisymm (a2 r' b1) (b2 r a1)
    apply ext_mb hsg
    by_contra hne
    have hr : r'.toRat ≠ r.toRat := by
      intro h
      rw [toRat_inj] at h
      apply hne
      have : r.mag = r'.mag := by rw [← natAbs_sval, ← natAbs_sval, h]
      exact magOf_inj.mp this
    have p := a3 r' b1 he hr
    have p' := b3 r a1 he.symm hr.symm
    rcases Nat.lt_or_gt_of_ne hne with hlt | hlt
    · exact not_two_nearest hsg b1 a2 he p p' hlt
    · exact not_two_nearest hsg.symm a1 b2 he.symm p' p hlt

/-- a strictly closer datum refutes correct rounding -/
theorem not_isRNE_of_closer {q : ℚ} {r s t : Flt F} (hs : s.isFinite) (ht : t.isFinite) (hq : |q| ≤ |t.toRat|)
    (hc : |s.toRat - q| < |r.toRat - q|) : ¬ IsRNE q r := by
  intro h
  unfold IsRNE at h
  have := lt_overflow ht
  rw [if_neg (by rw [Rat.cast_id]; exact not_le.mpr (lt_of_le_of_lt hq this))] at h
  have := h.2.1 s hs
  simp only [Rat.cast_id] at this
  exact absurd hc (not_lt.mpr this)

/-- the value of a concrete datum -/
theorem toRat_val {x : Flt F} (m : ℤ) (k : ℕ) (e : ℤ) (h : x.sval = m * 2 ^ k) (he : (k : ℤ) + (1 - F.bias - F.sb) = e) :
    x.toRat = m * (2 : ℚ) ^ e := by
  rw [toRat_eq, h, ← he, zpow_add₀ (by norm_num), Fmt.ulp]
  push_cast
  rw [zpow_natCast]
  ring

end Verif
