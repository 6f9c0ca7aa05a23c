import Mathlib.Data.Int.ModEq
import Verif.Theory.Sqrt3
import Verif.Theory.Rep
import Verif.Theory.Add

/-! # sqrt: rounding the result of the iteration -/

namespace Verif.Sqrt
open Verif Generic Flt

variable {F : Fmt} {t : ℝ}

/-! ## The nearest integer to the root -/

/-- the integer the code picks -/
def pick (M m : ℕ) : ℕ := if m * m + m < M then m + 1 else m

theorem pick_near {M m : ℕ} {T : ℝ} (hT : 0 ≤ T) (hM : T ^ 2 = M) (h1 : (m : ℝ) - 1 / 2 < T) (h2 : T < m + 3 / 2) :
    (pick M m : ℝ) - 1 / 2 < T ∧ T < pick M m + 1 / 2 := by
  unfold pick
  have hm : (0 : ℝ) ≤ m := Nat.cast_nonneg m
  split
  · rename_i h
    have h' : ((m * m + m + 1 : ℕ) : ℝ) ≤ M := by exact_mod_cast h
    push_cast at h' ⊢
    refine ⟨?_, by linarith⟩
    by_contra hc
    push Not at hc
    have : T ^ 2 ≤ ((m : ℝ) + 1 / 2) ^ 2 := pow_le_pow_left₀ hT (by linarith) 2
    nlinarith
  · rename_i h
    push Not at h
    have h' : (M : ℝ) ≤ ((m * m + m : ℕ) : ℝ) := by exact_mod_cast h
    push_cast at h'
    refine ⟨h1, ?_⟩
    by_contra hc
    push Not at hc
    have : ((m : ℝ) + 1 / 2) ^ 2 ≤ T ^ 2 := pow_le_pow_left₀ (by linarith) hc 2
    nlinarith

theorem root_bracket {W sb ew s : ℕ} (hW : W = ew + sb + 1) (he : 2 ≤ ew) (ht1 : 1 ≤ t) (ht2 : t < 2)
    (h : |rb W t (2 * s) - 1| ≤ 1 / 2 ^ (sb + 2)) :
    ((s / 2 ^ (ew - 2) : ℕ) : ℝ) - 1 / 2 < t * 2 ^ sb ∧ t * 2 ^ sb < (s / 2 ^ (ew - 2) : ℕ) + 3 / 2 := by
  obtain ⟨f1, f2⟩ := floor_bounds s (2 ^ (ew - 2)) (by positivity)
  push_cast at f1 f2
  have hv : (s : ℝ) / 2 ^ (ew - 2) = rb W t (2 * s) * (t * 2 ^ sb) := by
    have e : (2 : ℝ) ^ W = 2 ^ (ew - 2) * 2 ^ sb * 8 := by
      rw [hW, show ew + sb + 1 = (ew - 2) + sb + 3 by omega, pow_add, pow_add]; norm_num
    unfold rb
    push_cast
    rw [e]
    have : t ≠ 0 := by linarith
    field_simp
    ring
  rw [hv] at f1 f2
  rw [abs_le] at h
  have hp : (0 : ℝ) < 2 ^ sb := by positivity
  have hx : t * 2 ^ sb * (1 / 2 ^ (sb + 2)) < 1 / 2 := by
    rw [pow_add]; field_simp; linarith
  have hpos : 0 < t * 2 ^ sb := by positivity
  have a1 := mul_le_mul_of_nonneg_right h.1 hpos.le
  have a2 := mul_le_mul_of_nonneg_right h.2 hpos.le
  constructor <;> nlinarith

/-- the sign bit of `m - (M - m * m)`, computed modulo `2^W` -/
theorem top_bit {W m M : ℕ} (hW : 1 ≤ W) (h1 : m * m < M + m) (h2 : M ≤ m * m + 3 * m + 2) (hs : 2 * m + 2 < 2 ^ (W - 1))
    {d1 : ℕ} (hd1 : d1 < 2 ^ W) (hd : (d1 : ℤ) ≡ m - (M - m * m) [ZMOD 2 ^ W]) :
    d1 / 2 ^ (W - 1) = if m * m + m < M then 1 else 0 := by
  have hp : 2 ^ W = 2 * 2 ^ (W - 1) := by rw [← pow_succ', Nat.sub_add_cancel hW]
  generalize hP : 2 ^ (W - 1) = P at *
  generalize hQ : m * m = Q at *
  have hp' : (2 : ℤ) ^ W = 2 * P := by exact_mod_cast hp
  rw [hp'] at hd
  have hq : ((m : ℤ) * m) = Q := by exact_mod_cast hQ
  rw [hq] at hd
  obtain ⟨k, hk⟩ := hd.symm.dvd
  split
  · have hk1 : k = 1 := by
      have : (0 : ℤ) < P * (2 * k) := by
        have : (P : ℤ) * (2 * k) = 2 * P * k := by ring
        omega
      have k0 : 0 < k := by
        by_contra hc
        push Not at hc
        nlinarith [Int.natCast_nonneg P]
      by_contra hc
      have : 2 ≤ k := by omega
      nlinarith
    subst hk1
    apply Nat.div_eq_of_lt_le <;> omega
  · have hk1 : k = 0 := by
      by_contra hc
      rcases lt_or_gt_of_ne hc with h | h
      · nlinarith
      · nlinarith
    subst hk1
    apply Nat.div_eq_of_lt
    omega

theorem pick_bit {mu s : BitVec F.bits} {M : ℕ} {T : ℝ} {k j : ℕ} (hT : 0 ≤ T) (hMT : T ^ 2 = M) (hM : M = mu.toNat * 2 ^ k)
    (h0 : 1 ≤ s.toNat / 2 ^ j) (h1 : ((s.toNat / 2 ^ j : ℕ) : ℝ) - 1 / 2 < T) (h2 : T < (s.toNat / 2 ^ j : ℕ) + 3 / 2)
    (hs : 2 * (s.toNat / 2 ^ j) + 2 < 2 ^ (F.bits - 1)) :
    ((s >>> j - (mu <<< k - s >>> j * s >>> j)) >>> (F.bits - 1)).toNat =
      if s.toNat / 2 ^ j * (s.toNat / 2 ^ j) + s.toNat / 2 ^ j < M then 1 else 0 := by
  rw [BV.shr]
  generalize hm : s.toNat / 2 ^ j = m at *
  have em : (s >>> j).toNat = m := by rw [BV.shr, hm]
  have hm0 : (0 : ℝ) ≤ m := Nat.cast_nonneg m
  have bits1 : 1 ≤ F.bits := by have := F.bits_eq; omega
  apply top_bit (M := M) bits1 ?_ ?_ hs (BitVec.isLt _)
  · have e1 : ((mu <<< k).toNat : ℤ) ≡ M [ZMOD 2 ^ F.bits] := by
      rw [BV.shl, hM]
      push_cast
      exact Int.mod_modEq _ _
    have e2 : ((s >>> j * s >>> j).toNat : ℤ) ≡ m * m [ZMOD 2 ^ F.bits] := by
      rw [BitVec.toNat_mul, em]
      push_cast
      exact Int.mod_modEq _ _
    have sub (a b : BitVec F.bits) : ((a - b).toNat : ℤ) ≡ a.toNat - b.toNat [ZMOD 2 ^ F.bits] := by
      rw [BitVec.toNat_sub]
      have hb := b.isLt
      have : ((((2 ^ F.bits - b.toNat + a.toNat) % 2 ^ F.bits : ℕ)) : ℤ) =
          (2 ^ F.bits - b.toNat + a.toNat) % 2 ^ F.bits := by
        rw [Int.natCast_mod, Nat.cast_add, Nat.cast_sub hb.le]; push_cast; rfl
      rw [this]
      refine (Int.mod_modEq _ _).trans ?_
      rw [Int.modEq_iff_dvd]
      exact ⟨-1, by ring⟩
    refine (sub _ _).trans ?_
    rw [em]
    exact Int.ModEq.sub rfl ((sub _ _).trans (Int.ModEq.sub e1 e2))
  · -- m² - m < M
    have : ((m * m : ℕ) : ℝ) < ((M + m : ℕ) : ℝ) := by
      push_cast
      have hm1 : (1 : ℝ) ≤ m := by exact_mod_cast h0
      have : ((m : ℝ) - 1 / 2) ^ 2 < T ^ 2 := pow_lt_pow_left₀ h1 (by linarith) two_ne_zero
      nlinarith
    exact_mod_cast this
  · have : (M : ℝ) < ((m * m + 3 * m + 3 : ℕ) : ℝ) := by
      push_cast
      have : T ^ 2 < ((m : ℝ) + 3 / 2) ^ 2 := pow_lt_pow_left₀ h2 hT two_ne_zero
      nlinarith
    have : M < m * m + 3 * m + 3 := by exact_mod_cast this
    omega

/-! ## Bit fields -/

theorem and_expMask (x : BitVec F.bits) :
    (x &&& expMask F).toNat = x.toNat % 2 ^ (F.ew + F.sb) - x.toNat % 2 ^ F.sb := by
  have e : x &&& expMask F = (x &&& ~~~(signMask F)) &&& ~~~(sigMask F) := by
    unfold expMask; ext i; simp [Bool.and_assoc]
  rw [e, BV.and_not_low toNat_sigMask, and_not_signMask, Nat.mod_mod_of_dvd _ (pow_dvd_pow 2 (by omega))]

theorem toNat_expMask : (expMask F).toNat = F.infEnc := by
  have e : expMask F = BitVec.allOnes _ &&& expMask F := by simp
  rw [e, and_expMask, BitVec.toNat_allOnes]
  have h := F.infEnc_add
  have hb := F.two_pow_bits
  have d1 : (2 ^ F.bits - 1) % 2 ^ (F.ew + F.sb) = 2 ^ (F.ew + F.sb) - 1 := by
    have := Nat.two_pow_pos (F.ew + F.sb)
    rw [hb, show 2 ^ (F.ew + F.sb) + 2 ^ (F.ew + F.sb) - 1 = 2 ^ (F.ew + F.sb) - 1 + 2 ^ (F.ew + F.sb) by omega,
      Nat.add_mod_right, Nat.mod_eq_of_lt (by omega)]
  have d2 : (2 ^ F.bits - 1) % 2 ^ F.sb = 2 ^ F.sb - 1 := by
    have := Nat.two_pow_pos F.sb
    obtain ⟨c, hc⟩ := pow_dvd_pow 2 (show F.sb ≤ F.bits by have := F.bits_eq; omega)
    rw [hc]
    rcases c with _ | c
    · simp at hc
    · rw [mul_add, mul_one, show 2 ^ F.sb * c + 2 ^ F.sb - 1 = 2 ^ F.sb - 1 + 2 ^ F.sb * c by omega,
        Nat.add_mul_mod_self_left, Nat.mod_eq_of_lt (by omega)]
  rw [d1, d2]
  have := Nat.two_pow_pos F.sb
  omega

/-! ## Adding the tiny value changes nothing -/

theorem add_tiny {y u : Flt F} {R e : ℕ} (hy : y.isFinite) (hu : u.isFinite) (hs : y.sign = false) (hR1 : 2 ^ F.sb ≤ R)
    (hR2 : R < 2 ^ (F.sb + 1)) (hm : y.mb = e * 2 ^ F.sb + R) (he : F.sb + 3 ≤ e) (hum : u.mag ≤ 2 ^ F.sb) :
    y + u = y := by
  have hsb := F.one_le_sb
  have hmag : y.mag = R * 2 ^ e := by
    unfold Flt.mag; rw [hm]; exact magOf_split _ _ _ hR2.le (Or.inl hR1)
  have hup : magOf F.sb (y.mb + 1) = (R + 1) * 2 ^ e := by
    rw [hm, add_assoc]; exact magOf_split _ _ _ (by omega) (Or.inl (by omega))
  have hdn : magOf F.sb (y.mb - 1) + 2 ^ (e - 1) ≤ R * 2 ^ e := by
    have ee : 2 ^ e = 2 * 2 ^ (e - 1) := by rw [← pow_succ', Nat.sub_add_cancel (by omega)]
    rcases Nat.lt_or_ge (2 ^ F.sb) R with h | h
    · have hm1 : y.mb - 1 = e * 2 ^ F.sb + (R - 1) := by omega
      rw [hm1, magOf_split _ _ _ (by omega) (Or.inl (by omega)), ee]
      obtain ⟨c, rfl⟩ := Nat.exists_eq_add_of_le h
      simp only [show 2 ^ F.sb + 1 + c - 1 = 2 ^ F.sb + c by omega]
      nlinarith [Nat.two_pow_pos (e - 1)]
    · have hR : R = 2 ^ F.sb := le_antisymm h hR1
      have hp := Nat.two_pow_pos F.sb
      have hm1 : y.mb - 1 = (e - 1) * 2 ^ F.sb + (2 ^ (F.sb + 1) - 1) := by
        rw [hm, hR]
        obtain ⟨c, rfl⟩ := Nat.exists_eq_add_of_le (show 1 ≤ e by omega)
        rw [pow_succ]
        simp only [show 1 + c - 1 = c by omega, add_mul, one_mul]
        omega
      rw [hm1, magOf_split _ _ _ (by omega) (Or.inl (by rw [pow_succ]; omega)), hR, ee, pow_succ]
      have : (2 ^ F.sb * 2 - 1) * 2 ^ (e - 1) + 2 ^ (e - 1) = (2 ^ F.sb * 2) * 2 ^ (e - 1) := by
        rw [← Nat.succ_mul]; congr 1; omega
      rw [this]; apply le_of_eq; ring
  have hbig : 4 * 2 ^ F.sb ≤ 2 ^ (e - 1) := by
    rw [show 4 * 2 ^ F.sb = 2 ^ (F.sb + 2) by rw [pow_add]; ring]
    exact Nat.pow_le_pow_right (by norm_num) (by omega)
  have hlt : y.mb < F.infEnc := (isFinite_iff _).1 hy
  have fin (n : ℕ) (hn : roundU F.sb n 1 = y.mb) : roundMag F false n 1 = y := by
    unfold roundMag
    rw [hn, min_eq_left hlt.le, ← hs, mk'_self]
  have hmy : magOf F.sb y.mb = R * 2 ^ e := hmag
  have ee : 2 ^ e = 2 * 2 ^ (e - 1) := by rw [← pow_succ', Nat.sub_add_cancel (by omega)]
  have hpe := Nat.two_pow_pos (e - 1)
  have hmb1 : 1 ≤ y.mb := by rw [hm]; have := Nat.two_pow_pos F.sb; omega
  cases hus : u.sign with
  | false =>
    rw [add_same hy hu (by rw [hs, hus]), hs]
    apply fin
    apply le_antisymm
    · have := roundU_lt (sb := F.sb) (n := y.mag + u.mag) (d := 1) (a := y.mb) (t := y.mb + 1) hsb one_pos (by omega) (by
        rw [hmy, hup, hmag, show (R + 1) * 2 ^ e = R * 2 ^ e + 2 ^ e by ring]; omega)
      omega
    · exact le_roundU hsb one_pos (by rw [hmy, hmag]; omega)
  | true =>
    have hlt' : u.mag < y.mag := by
      have h1 : 1 * 2 ^ e ≤ R * 2 ^ e := Nat.mul_le_mul_right _ (by have := Nat.two_pow_pos F.sb; omega)
      rw [hmag]; omega
    rw [add_opp hy hu (by rw [hs, hus]; rfl) hlt', hs]
    apply fin
    apply le_antisymm
    · exact roundU_le hsb one_pos (by rw [hmy, hmag]; omega)
    · obtain ⟨a, ha⟩ := Nat.exists_eq_add_of_le hmb1
      rw [ha, show 1 + a - 1 = a by omega] at hdn
      have := roundU_ge (sb := F.sb) (n := y.mag - u.mag) (d := 1) (a := a) hsb one_pos (by
        rw [show a + 1 = y.mb by omega, hmy, hmag]; omega) (by
        rw [show a + 1 = y.mb by omega, hmy, hmag]; intro h; exfalso; omega)
      omega

end Verif.Sqrt
