import Verif.Theory.RNE
import Verif.Theory.Integral

/-!
# Fast2Sum and double rounding through binary64

Supporting facts for `fmaf`.
-/

namespace Verif
open Flt
variable {F : Fmt}

/-! ### Fast2Sum -/

theorem rep_of_mul {sb t k : Nat} (h : t ≤ 2 ^ (sb + 1)) {n : Nat} (hn : n = t * 2 ^ k) : ∃ c, magOf sb c = n := by
  obtain ⟨c, hc⟩ := rep_mul_pow sb t k h
  exact ⟨c, hc.trans hn.symm⟩

theorem fast2sum_same {sb a b : Nat} (hsb : 1 ≤ sb) (h : b ≤ a) :
    magOf sb a ≤ magOf sb (roundU sb (magOf sb a + magOf sb b) 1) ∧
    ∃ c, magOf sb c = magOf sb (roundU sb (magOf sb a + magOf sb b) 1) - magOf sb a := by
  have hBA : magOf sb b ≤ magOf sb a := magOf_le.mpr h
  obtain ⟨d, hd⟩ := rep_shift sb a 1
  have h1 : a ≤ roundU sb (magOf sb a + magOf sb b) 1 := le_roundU hsb Nat.one_pos (by omega)
  have h2 : roundU sb (magOf sb a + magOf sb b) 1 ≤ d := roundU_le hsb Nat.one_pos (by rw [hd]; omega)
  have h1' := magOf_le (sb := sb).mpr h1
  have h2' := magOf_le (sb := sb).mpr h2
  refine ⟨h1', ?_⟩
  obtain ⟨k, r, hk, hr, hkr⟩ := exists_split sb a
  have hA : magOf sb a = r * 2 ^ k := by rw [hk]; exact magOf_split sb k r hr.le hkr
  have hdv : 2 ^ k ∣ magOf sb (roundU sb (magOf sb a + magOf sb b) 1) := by
    rcases hkr with h | h
    · apply dvd_magOf
      refine le_trans ?_ h1'
      rw [hA, Nat.add_comm, pow_add]
      exact Nat.mul_le_mul_right _ h
    · rw [h]; simp
  obtain ⟨t, ht⟩ : 2 ^ k ∣ magOf sb (roundU sb (magOf sb a + magOf sb b) 1) - magOf sb a :=
    Nat.dvd_sub hdv (by rw [hA]; exact Nat.dvd_mul_left _ _)
  have hle : magOf sb (roundU sb (magOf sb a + magOf sb b) 1) - magOf sb a ≤ r * 2 ^ k := by rw [hd] at h2'; omega
  rw [ht] at hle
  have : t ≤ r := by
    rw [Nat.mul_comm] at hle
    exact Nat.le_of_mul_le_mul_right hle (Nat.two_pow_pos k)
  exact rep_of_mul (t := t) (k := k) (by omega) (by rw [ht, Nat.mul_comm])

theorem fast2sum_opp {sb a b : Nat} (hsb : 1 ≤ sb) (h : b ≤ a) :
    magOf sb (roundU sb (magOf sb a - magOf sb b) 1) ≤ magOf sb a ∧
    ∃ c, magOf sb c = magOf sb a - magOf sb (roundU sb (magOf sb a - magOf sb b) 1) := by
  have hBA : magOf sb b ≤ magOf sb a := magOf_le.mpr h
  have h1 : roundU sb (magOf sb a - magOf sb b) 1 ≤ a := roundU_le hsb Nat.one_pos (by omega)
  have h1' := magOf_le (sb := sb).mpr h1
  refine ⟨h1', ?_⟩
  obtain ⟨k, r, hk, hr, hkr⟩ := exists_split sb a
  have hA : magOf sb a = r * 2 ^ k := by rw [hk]; exact magOf_split sb k r hr.le hkr
  -- an exact difference leaves `b`
  have exact : (∃ c, magOf sb c = magOf sb a - magOf sb b) →
      ∃ c, magOf sb c = magOf sb a - magOf sb (roundU sb (magOf sb a - magOf sb b) 1) := by
    rintro ⟨c, hc⟩
    refine ⟨b, ?_⟩
    rw [roundU_exact' hsb c _ 1 Nat.one_pos (by omega), hc]
    omega
  rcases Nat.eq_zero_or_pos k with hk0 | hkp
  · apply exact
    refine rep_of_mul (t := magOf sb a - magOf sb b) (k := 0) ?_ (by simp)
    rw [hA, hk0, pow_zero, Nat.mul_one]
    omega
  rcases Nat.lt_or_ge (2 * magOf sb b) (magOf sb a) with hlt | hge
  · -- far: the result is at least half of `a`
    obtain ⟨j, rfl⟩ : ∃ j, k = j + 1 := ⟨k - 1, by omega⟩
    have hr' : 2 ^ sb ≤ r := by rcases hkr with h | h <;> omega
    have hA2 : magOf sb a = 2 * (r * 2 ^ j) := by rw [hA, pow_succ]; ring
    obtain ⟨d, hd⟩ := rep_mul_pow sb r j hr.le
    have h2 : d ≤ roundU sb (magOf sb a - magOf sb b) 1 := le_roundU hsb Nat.one_pos (by rw [hd]; omega)
    have h2' := magOf_le (sb := sb).mpr h2
    rw [hd] at h2'
    have hdv : 2 ^ j ∣ magOf sb (roundU sb (magOf sb a - magOf sb b) 1) := by
      apply dvd_magOf
      refine le_trans ?_ h2'
      rw [Nat.add_comm, pow_add]
      exact Nat.mul_le_mul_right _ hr'
    obtain ⟨t, ht⟩ : 2 ^ j ∣ magOf sb a - magOf sb (roundU sb (magOf sb a - magOf sb b) 1) :=
      Nat.dvd_sub (by rw [hA2]; exact Dvd.dvd.mul_left (Nat.dvd_mul_left _ _) _) hdv
    have hle : magOf sb a - magOf sb (roundU sb (magOf sb a - magOf sb b) 1) ≤ r * 2 ^ j := by omega
    rw [ht] at hle
    have : t ≤ r := by
      rw [Nat.mul_comm] at hle
      exact Nat.le_of_mul_le_mul_right hle (Nat.two_pow_pos j)
    exact rep_of_mul (t := t) (k := j) (by omega) (by rw [ht, Nat.mul_comm])
  · -- near: the difference is exact
    apply exact
    obtain ⟨j, q, hj, hq, hjq⟩ := exists_split sb b
    have hB : magOf sb b = q * 2 ^ j := by rw [hj]; exact magOf_split sb j q hq.le hjq
    have hdA : 2 ^ j ∣ magOf sb a := by
      rcases hjq with h | h
      · apply dvd_magOf
        refine le_trans ?_ hBA
        rw [hB, Nat.add_comm, pow_add]
        exact Nat.mul_le_mul_right _ h
      · rw [h]; simp
    obtain ⟨t, ht⟩ : 2 ^ j ∣ magOf sb a - magOf sb b := Nat.dvd_sub hdA (by rw [hB]; exact Nat.dvd_mul_left _ _)
    have hle : magOf sb a - magOf sb b ≤ q * 2 ^ j := by omega
    rw [ht] at hle
    have : t ≤ q := by
      rw [Nat.mul_comm] at hle
      exact Nat.le_of_mul_le_mul_right hle (Nat.two_pow_pos j)
    exact rep_of_mul (t := t) (k := j) (by omega) (by rw [ht, Nat.mul_comm])

/-- a datum with a given representable magnitude below infinity -/
theorem exists_datum {m : Nat} (hr : ∃ b, magOf F.sb b = m) (hm : m < 2 ^ (2 * F.bias + F.sb)) (s : Bool) :
    ∃ c : Flt F, c.isFinite ∧ c.sign = s ∧ c.mag = m := by
  obtain ⟨b, hb⟩ := hr
  have hlt : b < F.infEnc := lt_infEnc_of_mag (by rw [hb]; exact hm)
  have hl := F.infEnc_lt
  refine ⟨mk' F s b, ?_, sign_mk' (by omega), ?_⟩
  · rw [isFinite_iff, mb_mk' (by omega)]; exact hlt
  · rw [mag_mk' (by omega), hb]

/-- **Fast2Sum**: if `|b| ≤ |a|`, the machine sum minus `a` is a datum. -/
theorem fast2sum {a b : Flt F} (ha : a.isFinite) (hb : b.isFinite) (h : b.mag ≤ a.mag) (hf : (a + b).isFinite) :
    ∃ c : Flt F, c.isFinite ∧ c.sval = (a + b).sval - a.sval := by
  have hsb := F.one_le_sb
  have hmb : b.mb ≤ a.mb := magOf_le.mp h
  have hfm := mag_lt_inf hf
  have haf := mag_lt_inf ha
  by_cases hs : b.sign = a.sign
  · obtain ⟨h1, h2⟩ := fast2sum_same (sb := F.sb) hsb hmb
    have e := add_same ha hb hs
    have hm : (a + b).mag = magOf F.sb (roundU F.sb (a.mag + b.mag) 1) := by
      have hfi := (isFinite_iff _).mp hf
      have : (a + b).mb = roundU F.sb (a.mag + b.mag) 1 := by
        rw [e, mb_roundMag] at hfi ⊢
        omega
      rw [mag, this]
    change _ ≤ magOf F.sb (roundU F.sb (a.mag + b.mag) 1) at h1
    change ∃ c, _ = magOf F.sb (roundU F.sb (a.mag + b.mag) 1) - a.mag at h2
    change a.mag ≤ _ at h1
    rw [← hm] at h1 h2
    obtain ⟨c, c1, c2, c3⟩ := exists_datum h2 (by omega) a.sign
    refine ⟨c, c1, ?_⟩
    have hsg : (a + b).sign = a.sign := by rw [e, sign_roundMag]
    unfold sval
    rw [c2, c3, hsg]
    split <;> omega
  · have hs' : b.sign = !a.sign := by cases hA : a.sign <;> cases hB : b.sign <;> simp_all
    obtain ⟨h1, h2⟩ := fast2sum_opp (sb := F.sb) hsb hmb
    rcases Nat.lt_or_ge b.mag a.mag with hlt | hge
    · have e := add_opp ha hb hs' hlt
      have hm : (a + b).mag = magOf F.sb (roundU F.sb (a.mag - b.mag) 1) := by
        have hfi := (isFinite_iff _).mp hf
        have : (a + b).mb = roundU F.sb (a.mag - b.mag) 1 := by
          rw [e, mb_roundMag] at hfi ⊢
          omega
        rw [mag, this]
      change magOf F.sb (roundU F.sb (a.mag - b.mag) 1) ≤ a.mag at h1
      change ∃ c, _ = a.mag - magOf F.sb (roundU F.sb (a.mag - b.mag) 1) at h2
      rw [← hm] at h1 h2
      obtain ⟨c, c1, c2, c3⟩ := exists_datum h2 (by omega) (!a.sign)
      refine ⟨c, c1, ?_⟩
      have hsg : (a + b).sign = a.sign := by rw [e, sign_roundMag]
      unfold sval
      rw [c2, c3, hsg]
      cases a.sign <;> simp <;> omega
    · have e := add_cancel ha hb hs' (by omega)
      refine ⟨-a, by rw [isFinite_neg]; exact ha, ?_⟩
      rw [e, sval_zero, sval_neg]
      omega

/-- a machine difference whose exact value is a datum is exact -/
theorem sub_sval {a b c : Flt F} (ha : a.isFinite) (hb : b.isFinite) (hc : c.isFinite) (h : c.sval = a.sval - b.sval) :
    (a - b).isFinite ∧ (a - b).sval = a.sval - b.sval := by
  have hr := (sub_isRNE ha hb).exact hc (by rw [toRat_eq, toRat_eq, toRat_eq, h]; push_cast; ring)
  refine ⟨hr.1, ?_⟩
  have := hr.2
  rw [toRat_eq, toRat_eq, toRat_eq, ← sub_mul] at this
  have := mul_right_cancel₀ F.ulp_ne this
  exact_mod_cast this

/-- the sign of a machine sum is the sign of the exact sum -/
theorem add_lt_zero {a b : Flt F} (ha : a.isFinite) (hb : b.isFinite) (s : Bool) :
    ((a + b) <ᶠ zero F s) = true ↔ a.sval + b.sval < 0 := by
  rw [lt_iff, sval_zero]
  have hz : ¬ (zero F s).isNaN := not_nan_of_finite (isFinite_zero s)
  rw [add_finite ha hb]
  split
  · rename_i h
    rw [sval_zero, h]
    simp
  · rename_i h
    have hp : 0 < (roundMag F (decide (a.sval + b.sval < 0)) (a.sval + b.sval).natAbs 1).mag := by
      rw [mag, mb_roundMag, magOf_pos]
      have : 1 ≤ roundU F.sb (a.sval + b.sval).natAbs 1 := by
        apply le_roundU F.one_le_sb Nat.one_pos
        have : magOf F.sb 1 = 1 := by
          have := magOf_split F.sb 0 1 (Nat.one_le_two_pow) (Or.inr rfl)
          simpa using this
        rw [this]; omega
      have := F.infEnc_pos
      omega
    obtain ⟨S, hS⟩ : ∃ S, S = a.sval + b.sval := ⟨_, rfl⟩
    rw [← hS] at hp h ⊢
    simp only [not_nan_roundMag, hz, not_false_iff, true_and]
    unfold sval
    rw [sign_roundMag]
    by_cases hneg : S < 0
    · simp only [hneg, decide_true, if_true, iff_true] at hp ⊢
      omega
    · simp only [hneg, decide_false, iff_false, Bool.false_eq_true, if_false] at hp ⊢
      omega

/-! ### Double rounding -/

/-- Rounding depends only on the position relative to the midpoints. -/
theorem roundU_transfer {sb n n' d : Nat} (hsb : 1 ≤ sb) (hd : 0 < d)
    (h : ∀ c, (2 * n < (magOf sb c + magOf sb (c + 1)) * d ↔ 2 * n' < (magOf sb c + magOf sb (c + 1)) * d) ∧
      (2 * n = (magOf sb c + magOf sb (c + 1)) * d ↔ 2 * n' = (magOf sb c + magOf sb (c + 1)) * d)) :
    roundU sb n d = roundU sb n' d := by
  have hn := roundU_isNear hsb n' d hd
  apply IsNear.eq_round hsb hd
  generalize roundU sb n' d = b at hn
  refine ⟨?_, ?_, ?_, ?_⟩
  · rintro c rfl
    have := hn.lo c rfl
    have := h c
    omega
  · rintro c rfl he
    have := h c
    exact hn.loEven c rfl (by omega)
  · have := hn.hi
    have := h b
    omega
  · intro he
    have := h b
    exact hn.hiEven (by omega)

theorem odd_pow_inj {a b i j : Nat} (h : (2 * a + 1) * 2 ^ i = (2 * b + 1) * 2 ^ j) : a = b := by
  rcases Nat.lt_trichotomy i j with hij | hij | hij
  · obtain ⟨d, rfl⟩ : ∃ d, j = i + 1 + d := ⟨j - i - 1, by omega⟩
    have e : (2 * b + 1) * 2 ^ (i + 1 + d) = (2 * ((2 * b + 1) * 2 ^ d)) * 2 ^ i := by
      rw [pow_add, pow_succ]; ring
    rw [e] at h
    have := Nat.eq_of_mul_eq_mul_right (Nat.two_pow_pos i) h
    omega
  · subst hij
    have := Nat.eq_of_mul_eq_mul_right (Nat.two_pow_pos i) h
    omega
  · obtain ⟨d, rfl⟩ : ∃ d, i = j + 1 + d := ⟨i - j - 1, by omega⟩
    have e : (2 * a + 1) * 2 ^ (j + 1 + d) = (2 * ((2 * a + 1) * 2 ^ d)) * 2 ^ j := by
      rw [pow_add, pow_succ]; ring
    rw [e] at h
    have := Nat.eq_of_mul_eq_mul_right (Nat.two_pow_pos j) h
    omega

/-- the midpoints of binary32 are odd multiples of powers of two with a short odd part -/
theorem midpoint_form (c : Nat) : ∃ r k, magOf 23 c + magOf 23 (c + 1) = (2 * r + 1) * 2 ^ k ∧ r < 2 ^ 24 ∧ (2 ^ 23 ≤ r ∨ k = 0) := by
  obtain ⟨k, r, hk, hr, hkr⟩ := exists_split 23 c
  refine ⟨r, k, ?_, hr, hkr⟩
  have h1 : magOf 23 c = r * 2 ^ k := by rw [hk]; exact magOf_split 23 k r hr.le hkr
  have h2 : magOf 23 (c + 1) = (r + 1) * 2 ^ k := by
    rw [hk, Nat.add_assoc]
    exact magOf_split 23 k (r + 1) hr (by omega)
  rw [h1, h2]; ring

/-- midpoints of binary32 in units of the least binary64 subnormal -/
def mid (c : Nat) : Nat := (magOf 23 c + magOf 23 (c + 1)) * 2 ^ 924

theorem mid_form (c : Nat) : ∃ r k, mid c = (2 * r + 1) * 2 ^ (k + 924) ∧ r < 2 ^ 24 ∧ (2 ^ 23 ≤ r ∨ k = 0) := by
  obtain ⟨r, k, h1, h2, h3⟩ := midpoint_form c
  exact ⟨r, k, by rw [mid, h1, pow_add, Nat.mul_assoc], h2, h3⟩

theorem mid_rep (c : Nat) : ∃ b, magOf 52 b = mid c := by
  obtain ⟨r, k, h1, h2, h3⟩ := mid_form c
  exact rep_of_mul (t := 2 * r + 1) (by omega) h1

theorem mid_ge (c : Nat) : 2 ^ 924 ≤ mid c := by
  obtain ⟨r, k, h1, h2, h3⟩ := mid_form c
  have hp : 0 < (2 * r + 1) * 2 ^ k := Nat.mul_pos (by omega) (Nat.two_pow_pos k)
  rw [h1, pow_add, ← Nat.mul_assoc]
  exact Nat.le_mul_of_pos_left _ hp

/-- an odd encoding of binary64 is not a binary32 midpoint -/
theorem odd_not_mid {m c : Nat} (hm : m % 2 = 1) : magOf 52 m ≠ mid c := by
  intro h
  obtain ⟨r, k, h1, h2, h3⟩ := mid_form c
  obtain ⟨e, s, he, hs, hes⟩ := exists_split 52 m
  have hM : magOf 52 m = s * 2 ^ e := by rw [he]; exact magOf_split 52 e s hs.le hes
  have hodd : s % 2 = 1 := by
    have : (2:Nat) ^ 52 = 2 * 2 ^ 51 := by norm_num
    rw [this] at he
    have e2 : e * (2 * 2 ^ 51) = 2 * (e * 2 ^ 51) := by ring
    omega
  obtain ⟨t, ht⟩ : ∃ t, s = 2 * t + 1 := ⟨s / 2, by omega⟩
  have hge := mid_ge c
  rcases hes with hes | hes
  · rw [hM, h1, ht] at h
    have := odd_pow_inj h
    omega
  · rw [← h, hM, hes, pow_zero, Nat.mul_one] at hge
    have : (2:Nat) ^ (52 + 1) ≤ 2 ^ 924 := Nat.pow_le_pow_right (by norm_num) (by norm_num)
    omega

/-- a normal binary32 midpoint has the bit pattern `10…0` below the binary32 precision -/
theorem mid_low_bits {m c : Nat} (h : magOf 52 m = mid c) (hn : 2 ^ 948 ≤ mid c) : m % 2 ^ 29 = 2 ^ 28 := by
  obtain ⟨r, k, h1, h2, h3⟩ := mid_form c
  have hr : 2 ^ 23 ≤ r := by
    rcases h3 with h3 | h3
    · exact h3
    · rw [h1, h3, Nat.zero_add, show (948:Nat) = 24 + 924 by rfl, pow_add] at hn
      have := Nat.le_of_mul_le_mul_right hn (Nat.two_pow_pos 924)
      omega
  have hk : magOf 52 ((k + 896) * 2 ^ 52 + (2 * r + 1) * 2 ^ 28) = mid c := by
    rw [magOf_split 52 (k + 896) _ (by omega) (by omega), h1, Nat.mul_assoc, ← pow_add,
      show 28 + (k + 896) = k + 924 by omega]
  rw [← hk, magOf_inj] at h
  omega

/-- the double-rounding step is harmless if the binary64 result is not a midpoint, or is exact -/
theorem same_side_of_not_mid {v : Nat} (h : ∀ c, magOf 52 (roundU 52 v 1) = mid c → v = mid c) (c : Nat) :
    (v < mid c ↔ magOf 52 (roundU 52 v 1) < mid c) ∧ (v = mid c ↔ magOf 52 (roundU 52 v 1) = mid c) := by
  obtain ⟨b, hb⟩ := mid_rep c
  have h0 := h c
  have h1 : v = mid c → magOf 52 (roundU 52 v 1) = mid c := by
    intro e
    rw [roundU_exact' (by norm_num) b v 1 Nat.one_pos (by rw [hb]; omega), hb]
  have h2 : v ≤ mid c → magOf 52 (roundU 52 v 1) ≤ mid c := by
    intro e
    rw [← hb, magOf_le]
    exact roundU_le (by norm_num) Nat.one_pos (by rw [hb]; omega)
  have h3 : mid c ≤ v → mid c ≤ magOf 52 (roundU 52 v 1) := by
    intro e
    rw [← hb, magOf_le]
    exact le_roundU (by norm_num) Nat.one_pos (by rw [hb]; omega)
  omega

theorem same_side_up {v m : Nat} (hm : m = roundU 52 v 1) (he : m % 2 = 0) (hlt : magOf 52 m < v) (c : Nat) :
    (v < mid c ↔ magOf 52 (m + 1) < mid c) ∧ (v = mid c ↔ magOf 52 (m + 1) = mid c) := by
  obtain ⟨b, hb⟩ := mid_rep c
  have hn := roundU_isNear (sb := 52) (by norm_num) v 1 Nat.one_pos
  rw [← hm] at hn
  have h1 : magOf 52 m < magOf 52 (m + 1) := magOf_lt.mpr (Nat.lt_succ_self m)
  have h2 : v < magOf 52 (m + 1) := by have := hn.hi; omega
  have h3 : magOf 52 (m + 1) ≠ mid c := odd_not_mid (by omega)
  rcases Nat.lt_or_ge m b with hmb | hmb
  · have : magOf 52 (m + 1) ≤ magOf 52 b := magOf_le.mpr hmb
    omega
  · have : magOf 52 b ≤ magOf 52 m := magOf_le.mpr hmb
    omega

theorem same_side_down {v m : Nat} (hm : m + 1 = roundU 52 v 1) (he : m % 2 = 1) (hlt : v < magOf 52 (m + 1)) (c : Nat) :
    (v < mid c ↔ magOf 52 m < mid c) ∧ (v = mid c ↔ magOf 52 m = mid c) := by
  obtain ⟨b, hb⟩ := mid_rep c
  have hn := roundU_isNear (sb := 52) (by norm_num) v 1 Nat.one_pos
  rw [← hm] at hn
  have h1 : magOf 52 m < magOf 52 (m + 1) := magOf_lt.mpr (Nat.lt_succ_self m)
  have h2 : magOf 52 m < v := by have := hn.lo m rfl; omega
  have h3 : magOf 52 m ≠ mid c := odd_not_mid he
  rcases Nat.lt_or_ge m b with hmb | hmb
  · have : magOf 52 (m + 1) ≤ magOf 52 b := magOf_le.mpr hmb
    omega
  · have : magOf 52 b ≤ magOf 52 m := magOf_le.mpr hmb
    omega

end Verif
