import Verif.Theory.Integral
import Verif.Theory.Rep

/-! # Magnitude-level facts behind `round` and `rint` -/

namespace Verif
namespace Flt
open Generic
variable {F : Fmt}

/-- `0.5 - 0.25 * EPSILON` in units: the predecessor of one half -/
def halfPred (F : Fmt) : Nat := F.oneMag / 2 - 2 ^ (F.bias - 3)

/-- `oneMag` split as `8 * 2^(bias-4) * 2^sb` -/
theorem oneMag_split (F : Fmt) : F.oneMag = 4 * 2 ^ (F.bias - 3) * 2 ^ F.sb := by
  have := F.sb_lt_bias
  unfold Fmt.oneMag
  rw [show F.bias - 1 + F.sb = 2 + (F.bias - 3) + F.sb by omega, pow_add, pow_add]; norm_num

theorem int_rep (F : Fmt) (N : Nat) (h : N ≤ 2 ^ (F.sb + 1)) :
    ∃ b, magOf F.sb b = N * F.oneMag := rep_mul_pow F.sb N _ h

/-- The heart of `round`: adding the predecessor of one half to a magnitude `magOf b` and rounding
lands in the unit interval starting at the nearest integer (ties up). -/
theorem round_core (b : Nat) :
    (2 * magOf F.sb b + F.oneMag) / (2 * F.oneMag) * F.oneMag
        ≤ magOf F.sb (roundU F.sb (magOf F.sb b + halfPred F) 1) ∧
    magOf F.sb (roundU F.sb (magOf F.sb b + halfPred F) 1)
        < ((2 * magOf F.sb b + F.oneMag) / (2 * F.oneMag) + 1) * F.oneMag := by
  have hsb := F.one_le_sb
  have hb := F.sb_lt_bias
  have hpos := F.oneMag_pos
  have hO := oneMag_split F
  set q := 2 ^ (F.bias - 3) with hq
  have hqpos : 0 < q := Nat.two_pow_pos _
  set X := magOf F.sb b with hX
  set O := F.oneMag with hOdef
  have hsbp := F.sb_pow_ge
  have hC : 2 * halfPred F = O - 2 * q := by
    unfold halfPred
    rw [← hOdef]
    have : O = 2 * (2 * q * 2 ^ F.sb) := by rw [hO]; ring
    omega
  have hOq : 4 * q * 1024 ≤ O := by rw [hO]; exact Nat.mul_le_mul_left _ hsbp
  set C := halfPred F with hCdef
  set N := (2 * X + O) / (2 * O) with hN
  have hN1 : 2 * N * O ≤ 2 * X + O := by
    have := Nat.div_mul_le_self (2 * X + O) (2 * O)
    rw [← hN] at this
    calc 2 * N * O = N * (2 * O) := by ring
      _ ≤ _ := this
  have hN2 : 2 * X + O < 2 * (N + 1) * O := by
    have := Nat.lt_mul_div_succ (2 * X + O) (b := 2 * O) (by omega)
    rw [← hN] at this
    calc 2 * X + O < 2 * O * (N + 1) := this
      _ = _ := by ring
  have eNO : (N + 1) * O = N * O + O := by ring
  have e2 : 2 * (N + 1) * O = 2 * (N * O) + 2 * O := by ring
  have e3 : 2 * N * O = 2 * (N * O) := by ring
  rw [e2] at hN2
  rw [e3] at hN1
  rw [eNO]
  by_cases hbig : 2 ^ F.sb * O ≤ X
  · -- already an integer; the addition rounds back
    have hdvd : O ∣ X := by
      rw [hX, hOdef]; unfold Fmt.oneMag
      apply dvd_magOf
      rw [← hX, pow_add, Nat.mul_comm]; exact hbig
    obtain ⟨M, hM⟩ := hdvd
    have hNM : N = M := by
      rw [hN, hM]
      apply Nat.div_eq_of_lt_le
      · have : M * (2 * O) = 2 * (O * M) := by ring
        omega
      · have : (M + 1) * (2 * O) = 2 * (O * M) + 2 * O := by ring
        omega
    have hr1 : b ≤ roundU F.sb (X + C) 1 := le_roundU hsb (by norm_num) (by omega)
    have hr2 : roundU F.sb (X + C) 1 < b + 1 := by
      apply roundU_lt hsb (by norm_num) (show b < b + 1 by omega)
      have hs : O ≤ magOf F.sb (b + 1) - X := by
        have hd2 : O ∣ magOf F.sb (b + 1) := by
          rw [hOdef]; unfold Fmt.oneMag
          apply dvd_magOf
          have : magOf F.sb b < magOf F.sb (b + 1) := magOf_lt.mpr (by omega)
          rw [pow_add, Nat.mul_comm]
          have h4 : 2 ^ F.sb * O ≤ magOf F.sb (b+1) := by omega
          exact h4
        have hd3 : O ∣ magOf F.sb (b + 1) - X := Nat.dvd_sub hd2 ⟨M, hM⟩
        have : X < magOf F.sb (b + 1) := magOf_lt.mpr (by omega)
        exact Nat.le_of_dvd (by omega) hd3
      have hlt : X < magOf F.sb (b + 1) := magOf_lt.mpr (by omega)
      rw [mul_one, ← hX]; omega
    have : roundU F.sb (X + C) 1 = b := by omega
    rw [this, ← hX, hNM]
    have : M * O = O * M := by ring
    omega
  · have hbig : X < 2 ^ F.sb * O := by omega
    have hNle : N ≤ 2 ^ F.sb := by
      by_contra hc
      have : (2 ^ F.sb + 1) * O ≤ N * O := Nat.mul_le_mul_right _ (by omega)
      rw [Nat.add_mul] at this
      omega
    constructor
    · -- lower bound
      rcases Nat.eq_zero_or_pos N with h0 | h0
      · rw [h0]; simp
      obtain ⟨t, ht⟩ := int_rep F N (by rw [pow_succ]; omega)
      rw [← ht, magOf_le]
      rw [← hOdef] at ht
      have hNO : O ≤ N * O := Nat.le_mul_of_pos_left _ h0
      obtain ⟨a, rfl⟩ : ∃ a, t = a + 1 := by
        refine ⟨t - 1, ?_⟩
        have : t ≠ 0 := by rintro rfl; rw [magOf_zero] at ht; omega
        omega
      have hlt : magOf F.sb a < N * O := by rw [← ht]; exact magOf_lt.mpr (by omega)
      -- spacing below `N * O` is at least `2 * q`
      have hgap : magOf F.sb a + 2 * q ≤ N * O := by
        by_contra hc
        have hd : 2 * q ∣ magOf F.sb a := by
          have : 2 * q = 2 ^ (F.bias - 2) := by
            rw [hq, ← pow_succ']; congr 1; omega
          rw [this]
          apply dvd_magOf
          rw [pow_add, ← this]
          have : O = 2 * (2 * q * 2 ^ F.sb) := by rw [hO]; ring
          omega
        have hd2 : 2 * q ∣ N * O := ⟨N * (2 * 2 ^ F.sb), by rw [hO]; ring⟩
        have := Nat.le_of_dvd (by omega) (Nat.dvd_sub hd2 hd)
        omega
      apply roundU_ge hsb (by norm_num)
      · rw [ht]; omega
      · intro he
        rw [ht] at he
        -- equality only for N = 1
        have hN1' : N = 1 := by
          by_contra hne
          have h2 : 2 ≤ N := by omega
          have hNO2 : 2 * O ≤ N * O := Nat.mul_le_mul_right _ h2
          have hd : 4 * q ∣ magOf F.sb a := by
            have : 4 * q = 2 ^ (F.bias - 1) := by
              rw [hq, show F.bias - 1 = (F.bias - 3) + 2 by omega, pow_add]; ring
            rw [this]
            apply dvd_magOf
            rw [pow_add, ← this]
            omega
          have hd2 : 4 * q ∣ N * O := ⟨N * 2 ^ F.sb, by rw [hO]; ring⟩
          have := Nat.le_of_dvd (by omega) (Nat.dvd_sub hd2 hd)
          omega
        rw [hN1', one_mul] at ht
        have : a + 1 = F.bias * 2 ^ F.sb := by
          apply magOf_inj.mp
          rw [ht, hOdef, ← mag_one, mag, mb_one]
        rw [this]
        exact Nat.mod_eq_zero_of_dvd (Dvd.dvd.mul_left F.two_dvd_pow_sb _)
    · -- upper bound
      obtain ⟨t, ht⟩ := int_rep F (N + 1) (by rw [pow_succ]; omega)
      rw [← hOdef, eNO] at ht
      rw [← ht, magOf_lt]
      rcases Nat.eq_zero_or_pos N with h0 | h0
      · -- N = 0: X ≤ C
        rw [h0] at hN2 ht
        have hCrep : ∃ c, magOf F.sb c = C := by
          have : C = (2 ^ (F.sb + 1) - 1) * 2 ^ (F.bias - 3) := by
            rw [Nat.sub_mul, one_mul, ← hq, pow_succ]
            have : 2 ^ F.sb * 2 * q = 2 * (q * 2 ^ F.sb) := by ring
            have h4 : O = 4 * (q * 2 ^ F.sb) := by rw [hO]; ring
            omega
          rw [this]; exact rep_mul_pow _ _ _ (Nat.sub_le _ _)
        have hCrep2 : ∃ c, magOf F.sb c = 2 * C := by
          have : 2 * C = (2 ^ (F.sb + 1) - 1) * 2 ^ (F.bias - 2) := by
            rw [Nat.sub_mul, one_mul, show F.bias - 2 = (F.bias - 3) + 1 by omega, pow_succ 2 (F.bias - 3),
              ← hq, pow_succ]
            have : 2 ^ F.sb * 2 * (q * 2) = 4 * (q * 2 ^ F.sb) := by ring
            have h4 : O = 4 * (q * 2 ^ F.sb) := by rw [hO]; ring
            omega
          rw [this]; exact rep_mul_pow _ _ _ (Nat.sub_le _ _)
        have hHrep : ∃ c, magOf F.sb c = C + q := by
          have : C + q = 1 * 2 ^ (F.bias - 2 + F.sb) := by
            rw [one_mul, show F.bias - 2 + F.sb = 1 + (F.bias - 3) + F.sb by omega, pow_add, pow_add,
              ← hq, pow_one]
            have h4 : O = 2 * (2 * q * 2 ^ F.sb) := by rw [hO]; ring
            omega
          rw [this]; exact rep_mul_pow _ _ _ (by rw [pow_succ]; omega)
        obtain ⟨c, hc⟩ := hCrep
        obtain ⟨c2, hc2⟩ := hCrep2
        obtain ⟨h, hh⟩ := hHrep
        have hXC : X ≤ C := by
          have h1 : b < h := by
            rw [← magOf_lt (sb := F.sb), hh, ← hX]; omega
          have h2 : h ≤ c + 1 := by
            by_contra hlt
            -- an element strictly between C and C + q would be a multiple of q
            have h3 : magOf F.sb (c + 1) < C + q := by rw [← hh]; exact magOf_lt.mpr (by omega)
            have h4 : C < magOf F.sb (c + 1) := by rw [← hc]; exact magOf_lt.mpr (by omega)
            have hd : q ∣ magOf F.sb (c + 1) := by
              rw [hq]; apply dvd_magOf
              rw [pow_add, ← hq]
              have h5 : O = 4 * (q * 2 ^ F.sb) := by rw [hO]; ring
              have h6 : q * 1024 ≤ q * 2 ^ F.sb := Nat.mul_le_mul_left _ hsbp
              omega
            have hd2 : q ∣ C + q := by
              have : C + q = q * (2 * 2 ^ F.sb) := by
                have h4 : O = 2 * (q * (2 * 2 ^ F.sb)) := by rw [hO]; ring
                omega
              rw [this]; exact Dvd.intro _ rfl
            have := Nat.le_of_dvd (by omega) (Nat.dvd_sub hd2 hd)
            omega
          rw [← hc, hX, magOf_le]; omega
        have hr : roundU F.sb (X + C) 1 ≤ c2 := roundU_le hsb (by norm_num) (by rw [hc2]; omega)
        have : c2 < t := by rw [← magOf_lt (sb := F.sb), hc2, ht]; omega
        omega
      · -- N ≥ 1
        have hNO : O ≤ N * O := Nat.le_mul_of_pos_left _ h0
        have hNOne : N * O ≠ 0 := by omega
        set j := Nat.log2 (N * O) with hj
        have j1 : 2 ^ j ≤ N * O := Nat.log2_self_le hNOne
        have j2 : N * O < 2 ^ (j + 1) := Nat.lt_log2_self
        have jlo : F.bias - 1 + F.sb ≤ j := by
          rw [hj, Nat.le_log2 hNOne]; exact hNO
        have jhi : j ≤ F.bias - 1 + F.sb + F.sb := by
          by_contra hc
          have h1 : 2 ^ (F.bias - 1 + F.sb + F.sb + 1) ≤ 2 ^ j := Nat.pow_le_pow_right (by norm_num) (by omega)
          have h2 : N * O ≤ 2 ^ F.sb * O := Nat.mul_le_mul_right _ hNle
          have h3 : 2 ^ (F.bias - 1 + F.sb + F.sb + 1) = 2 * (2 ^ F.sb * O) := by
            rw [hOdef]; unfold Fmt.oneMag; ring
          omega
        -- T = (N+1) O ≤ 2^(j+1)
        have hT : N * O + O ≤ 2 ^ (j + 1) := by
          have hd : O ∣ 2 ^ (j + 1) := by
            rw [hOdef]; unfold Fmt.oneMag; exact pow_dvd_pow 2 (by omega)
          have := Nat.le_of_dvd (by omega) (Nat.dvd_sub hd (Dvd.intro_left N rfl))
          omega
        obtain ⟨i, hi⟩ : ∃ i, j = i + F.sb + 1 := ⟨j - F.sb - 1, by omega⟩
        set g := 2 ^ i with hg
        have hgpos : 0 < g := Nat.two_pow_pos _
        -- X is a multiple of g
        have hXg : g ∣ X := by
          rw [hX, hg]; apply dvd_magOf
          have : 2 ^ j = 2 * 2 ^ (i + F.sb) := by rw [hi, pow_succ]; ring
          rw [← hX]; omega
        have h2g : 2 * g ∣ O := by
          rw [hg, hOdef]; unfold Fmt.oneMag
          rw [← pow_succ']; exact pow_dvd_pow 2 (by omega)
        have hXle : 2 * X + 2 * g ≤ 2 * (N * O) + O := by
          have hd1 : 2 * g ∣ 2 * (N * O) + O :=
            (Dvd.dvd.mul_left (Dvd.dvd.mul_left h2g _) _).add h2g
          have hd2 : 2 * g ∣ 2 * X := Nat.mul_dvd_mul_left 2 hXg
          have := Nat.le_of_dvd (by omega) (Nat.dvd_sub hd1 hd2)
          omega
        have h2gT : 2 * g ∣ N * O + O := (Dvd.dvd.mul_left h2g _).add h2g
        obtain ⟨r, hr⟩ := h2gT
        have hgO : 2 * g ≤ O := Nat.le_of_dvd hpos h2g
        have hrle : r ≤ 2 ^ (F.sb + 1) := by
          have e : 2 ^ (j + 1) = 2 * g * 2 ^ (F.sb + 1) := by
            rw [hi, hg]; ring
          rw [hr, e] at hT
          exact Nat.le_of_mul_le_mul_left hT (by omega)
        obtain ⟨a, ha⟩ := rep_mul_pow F.sb (r - 1) (i + 1) (by omega)
        have ha' : magOf F.sb a + 2 * g = N * O + O := by
          rw [ha, Nat.sub_mul, one_mul, pow_succ, ← hg, hr]
          have h1 : 1 ≤ r := by
            by_contra h; have : r = 0 := by omega
            rw [this] at hr; omega
          have h2 : 1 * (g * 2) ≤ r * (g * 2) := Nat.mul_le_mul_right _ h1
          have h3 : 2 * g * r = r * (g * 2) := by ring
          omega
        apply roundU_lt hsb (by norm_num) (a := a)
        · rw [← magOf_lt (sb := F.sb), ht]; omega
        · rw [mul_one, ht]; omega

end Flt
end Verif
