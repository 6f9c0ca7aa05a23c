import Verif.Model.Scalbn
import Verif.Theory.Add
import Verif.Theory.Rep
import Verif.Theory.Bits

/-! # Scaling by powers of two -/

namespace Verif
open Flt Generic
variable {F : Fmt}

theorem roundMag_scale {s : Bool} {n d n' d' : Nat} (hd : 0 < d) (hd' : 0 < d')
    (h : n * d' = n' * d) : roundMag F s n d = roundMag F s n' d' := by
  unfold roundMag; rw [roundU_scale F.one_le_sb hd hd' h]

/-- at most half a unit rounds to zero -/
theorem roundMag_tiny {s : Bool} {n d : Nat} (hd : 0 < d) (h : 2 * n ≤ d) : roundMag F s n d = zero F s := by
  unfold roundMag roundU rneDiv
  have h0 : n / d = 0 := Nat.div_eq_of_lt (by omega)
  have h1 : n % d = n := Nat.mod_eq_of_lt (by omega)
  rw [h0]
  simp only [Nat.log2_zero, Nat.zero_sub, pow_zero, mul_one, zero_mul, h1]
  rw [h0]
  have : ¬ d < 2 * n := by omega
  simp [this]
  rfl

theorem roundMag_huge {s : Bool} {n d : Nat} (hd : 0 < d) (h : 2 ^ (2 * F.bias + F.sb) * d ≤ n) :
    roundMag F s n d = inf F s := by
  unfold roundMag inf
  rw [min_eq_right]
  apply le_roundU F.one_le_sb hd
  rw [F.magOf_infEnc]; exact h

/-- magnitude `m` times `2^n`, rounded once -/
def scaled (F : Fmt) (s : Bool) (m : Nat) (n : Int) : Flt F :=
  roundMag F s (m * 2 ^ n.toNat) (2 ^ (-n).toNat)

@[simp] theorem sign_scaled (s : Bool) (m : Nat) (n : Int) : (scaled F s m n).sign = s := by
  unfold scaled; simp

theorem fromParts_pow {e : Nat} (h1 : 1 ≤ e) (h2 : e < 2 ^ F.ew - 1) :
    (fromParts F false e 0#_).isFinite ∧ (fromParts F false e 0#_).sign = false ∧
    (fromParts F false e 0#_).mag = 2 ^ (e - 1 + F.sb) := by
  have hlt : e * 2 ^ F.sb < F.infEnc := by
    unfold Fmt.infEnc
    exact Nat.mul_lt_mul_of_pos_right h2 (Nat.two_pow_pos _)
  have hlt' := hlt.trans F.infEnc_lt
  rw [fromParts_eq]
  simp only [BitVec.toNat_ofNat, Nat.zero_mod, add_zero]
  rw [Nat.mod_eq_of_lt (show e < 2 ^ F.ew by omega)]
  refine ⟨?_, sign_mk' hlt', ?_⟩
  · rw [isFinite_iff, mb_mk' hlt']; exact hlt
  · rw [mag_mk' hlt', magOf_pow _ _ h1]

theorem mul_pow_scaled {x : Flt F} (hx : x.isFinite) {e : Nat} (h1 : 1 ≤ e) (h2 : e < 2 ^ F.ew - 1) :
    x * fromParts F false e 0#_ = scaled F x.sign x.mag ((e : Int) - F.bias) := by
  obtain ⟨a, b, c⟩ := fromParts_pow h1 h2
  have hb := F.sb_lt_bias
  rw [mul_finite hx a, b, c, Bool.xor_false]
  unfold scaled
  apply roundMag_scale F.oneMag_pos (Nat.two_pow_pos _)
  rw [oneMag_eq, mul_assoc, mul_assoc, ← pow_add, ← pow_add]
  congr 2
  omega

theorem inf_mul_pow (s : Bool) {e : Nat} (h1 : 1 ≤ e) (h2 : e < 2 ^ F.ew - 1) :
    inf F s * fromParts F false e 0#_ = inf F s := by
  obtain ⟨a, b, c⟩ := fromParts_pow h1 h2
  have h0 : ¬ (fromParts F false e 0#_).isZero := by
    rw [isZero_iff_mag, c]; exact (Nat.two_pow_pos _).ne'
  show Flt.mul _ _ = _
  unfold Flt.mul
  rw [if_neg (by simp [not_nan_of_finite a, not_nan_of_inf (show (inf F s).isInf by simp)]), if_neg (by simp [h0]; exact fun _ => not_inf_of_finite a),
    if_pos (Or.inl (by simp)), b]
  simp

theorem nan_mul (x y : Flt F) (h : x.isNaN) : (x * y).isNaN := by
  show (Flt.mul _ _).isNaN
  unfold Flt.mul
  rw [if_pos (Or.inl h)]; simp

/-- scaling up in two steps -/
theorem scaled_up {s : Bool} {m : Nat} (hm : ∃ b, magOf F.sb b = m) {k : Int} (hk : 0 ≤ k) :
    ((scaled F s m k).isFinite ∧ ∀ j : Int, 0 ≤ j → scaled F s (scaled F s m k).mag j = scaled F s m (k + j)) ∨
    (scaled F s m k = inf F s ∧ ∀ j : Int, 0 ≤ j → scaled F s m (k + j) = inf F s) := by
  have h0 : (-k).toNat = 0 := by omega
  by_cases hlt : m * 2 ^ k.toNat < 2 ^ (2 * F.bias + F.sb)
  · left
    obtain ⟨b, hb⟩ := hm
    have hr := rep_shift F.sb b k.toNat
    rw [hb] at hr
    obtain ⟨r1, r2, r3⟩ := roundMag_rep (F := F) (s := s) (n := m * 2 ^ k.toNat) (d := 2 ^ (-k).toNat)
      (m := m * 2 ^ k.toNat) (Nat.two_pow_pos _) hr hlt (by rw [h0]; ring)
    refine ⟨r1, fun j hj => ?_⟩
    unfold scaled
    rw [r3]
    apply roundMag_scale (Nat.two_pow_pos _) (Nat.two_pow_pos _)
    rw [show (-j).toNat = 0 by omega, show (-(k + j)).toNat = 0 by omega,
      show (k + j).toNat = k.toNat + j.toNat by omega]
    ring
  · right
    refine ⟨?_, fun j hj => ?_⟩
    · unfold scaled
      rw [h0]
      apply roundMag_huge (by norm_num); omega
    · unfold scaled
      rw [show (-(k + j)).toNat = 0 by omega, show (k + j).toNat = k.toNat + j.toNat by omega]
      apply roundMag_huge (by norm_num)
      rw [pow_add 2 k.toNat, ← mul_assoc]
      have : m * 2 ^ k.toNat * 1 ≤ m * 2 ^ k.toNat * 2 ^ j.toNat := Nat.mul_le_mul_left _ (Nat.two_pow_pos _)
      omega

/-- scaling down in two steps is safe when the second step is by at least `sb+1` -/
theorem scaled_down {s : Bool} {m : Nat} (hm : ∃ b, magOf F.sb b = m) (hf : m < 2 ^ (2 * F.bias + F.sb))
    {k : Int} (hk : k ≤ 0) :
    (scaled F s m k).isFinite ∧ ∀ j : Int, j ≤ -(F.sb + 1) →
      scaled F s (scaled F s m k).mag j = scaled F s m (k + j) := by
  obtain ⟨b, hb⟩ := hm
  have h0 : k.toNat = 0 := by omega
  have hp := Nat.two_pow_pos (-k).toNat
  have hbinf : b < F.infEnc := by apply lt_infEnc_of_mag; rw [hb]; exact hf
  have hle : roundU F.sb m (2 ^ (-k).toNat) ≤ b := by
    apply roundU_le F.one_le_sb hp
    rw [hb]
    have : m * 1 ≤ m * 2 ^ (-k).toNat := Nat.mul_le_mul_left _ hp
    omega
  have hmb : (scaled F s m k).mb = roundU F.sb m (2 ^ (-k).toNat) := by
    unfold scaled
    rw [mb_roundMag, h0, pow_zero, mul_one, min_eq_left (by omega)]
  refine ⟨by rw [isFinite_iff, hmb]; omega, fun j hj => ?_⟩
  by_cases hbig : 2 ^ ((-k).toNat + F.sb) ≤ m
  · -- exact
    obtain ⟨K, r, hbK, e1, e2⟩ := exists_split F.sb b
    have hmK : m = r * 2 ^ K := by rw [← hb, hbK]; exact magOf_split _ _ _ (by omega) e2
    have hKk : (-k).toNat ≤ K := by
      by_contra hc
      have : r * 2 ^ K < 2 ^ (F.sb + 1) * 2 ^ K := Nat.mul_lt_mul_of_pos_right e1 (Nat.two_pow_pos _)
      rw [← pow_add] at this
      have h3 : 2 ^ (F.sb + 1 + K) ≤ 2 ^ ((-k).toNat + F.sb) := Nat.pow_le_pow_right (by norm_num) (by omega)
      omega
    obtain ⟨c, hc⟩ := Nat.exists_eq_add_of_le hKk
    have hmc : m = r * 2 ^ c * 2 ^ (-k).toNat := by rw [hmK, hc, pow_add]; ring
    obtain ⟨r1, r2, r3⟩ := roundMag_rep (F := F) (s := s) (n := m * 2 ^ k.toNat) (d := 2 ^ (-k).toNat)
      (m := r * 2 ^ c) hp (rep_mul_pow F.sb r c (by omega))
      (lt_of_le_of_lt (by rw [hmc]; exact Nat.le_mul_of_pos_right _ hp) hf)
      (by rw [h0, pow_zero, mul_one]; exact hmc)
    unfold scaled
    rw [r3]
    apply roundMag_scale (Nat.two_pow_pos _) (Nat.two_pow_pos _)
    rw [show j.toNat = 0 by omega, show (k + j).toNat = 0 by omega,
      show (-(k + j)).toNat = (-k).toNat + (-j).toNat by omega, pow_add, hmc]
    ring
  · have hsm : (scaled F s m k).mag ≤ 2 ^ F.sb := by
      have h2 : magOf F.sb (2 ^ F.sb) = 2 ^ F.sb := by
        have := magOf_pow F.sb 1 le_rfl; simpa using this
      unfold mag
      rw [hmb, ← h2, magOf_le]
      apply roundU_le F.one_le_sb hp
      rw [h2, mul_comm, ← pow_add]; omega
    have l1 : scaled F s (scaled F s m k).mag j = zero F s := by
      unfold scaled at hsm ⊢
      rw [show j.toNat = 0 by omega, pow_zero, mul_one]
      apply roundMag_tiny (Nat.two_pow_pos _)
      have : 2 ^ (F.sb + 1) ≤ 2 ^ (-j).toNat := Nat.pow_le_pow_right (by norm_num) (by omega)
      rw [pow_succ] at this
      omega
    rw [l1]
    unfold scaled
    rw [show (k + j).toNat = 0 by omega, pow_zero, mul_one]
    symm
    apply roundMag_tiny (Nat.two_pow_pos _)
    have : 2 ^ ((-k).toNat + F.sb + 1) ≤ 2 ^ (-(k + j)).toNat := Nat.pow_le_pow_right (by norm_num) (by omega)
    rw [pow_succ] at this
    omega

theorem two_pow_int (n : Int) : (2 : ℚ) ^ n = 2 ^ n.toNat / 2 ^ (-n).toNat := by
  rcases Int.le_total 0 n with h | h
  · obtain ⟨k, rfl⟩ := Int.eq_ofNat_of_zero_le h
    have : (-(k : Int)).toNat = 0 := by omega
    simp
  · obtain ⟨k, hk⟩ := Int.eq_ofNat_of_zero_le (show 0 ≤ -n by omega)
    have : n = -(k : Int) := by omega
    rw [this]
    simp

/-- `scaled` is the correctly rounded product with `2^n` -/
theorem scaled_isRNE {x : Flt F} (n : Int) :
    IsRNE (x.toRat * 2 ^ n) (scaled F x.sign x.mag n) := by
  have hp : (0 : ℚ) < 2 ^ n := zpow_pos (by norm_num) _
  apply roundMag_isRNE (Nat.two_pow_pos _)
  · rw [abs_mul, toRat_abs, abs_of_pos hp, two_pow_int]
    push_cast; ring
  · intro h
    have hx : x.toRat ≠ 0 := left_ne_zero_of_mul h
    have hs : x.sval ≠ 0 := fun h0 => hx (by rw [toRat_eq_zero, isZero_iff_sval]; exact h0)
    rw [sval_neg_iff x hs]
    constructor
    · intro h; exact mul_neg_of_neg_of_pos h hp
    · intro h; by_contra hc; push Not at hc
      have := mul_nonneg hc hp.le; linarith

end Verif
