import Verif.Model.HexFloat
import Verif.Theory.Sticky
import Verif.Theory.Fma2

/-! # Rounding and encoding stage of the hex float parser -/

namespace Verif
namespace HexFloat
open Flt

theorem trailingZeros_lt (x : BitVec 128) (k : Nat) (hk : k ≤ 128) :
    trailingZeros x < k ↔ x.toNat % 2 ^ k ≠ 0 := by
  unfold trailingZeros
  have hbit : ∀ i, x.getLsbD i = x.toNat.testBit i := fun i => rfl
  constructor
  · intro h h0
    cases hf : (List.range 128).find? (fun i => x.getLsbD i) with
    | none => rw [hf] at h; simp at h; omega
    | some i =>
      rw [hf] at h
      have h1 := List.find?_some hf
      simp only [Option.getD_some] at h
      have h2 : (x.toNat % 2 ^ k).testBit i = true := by
        rw [Nat.testBit_mod_two_pow]
        simp only [hbit] at h1
        simp [h, h1]
      rw [h0] at h2
      simp at h2
  · intro h0
    obtain ⟨i, hi⟩ := Nat.exists_testBit_of_ne_zero h0
    rw [Nat.testBit_mod_two_pow] at hi
    simp only [Bool.and_eq_true, decide_eq_true_eq] at hi
    cases hf : (List.range 128).find? (fun i => x.getLsbD i) with
    | none =>
      rw [List.find?_eq_none] at hf
      have := hf i (by simp; omega)
      rw [hbit, hi.2] at this
      simp at this
    | some j =>
      simp only [Option.getD_some]
      rw [List.find?_range_eq_some] at hf
      by_contra hc
      have := hf.2.2 i (by omega)
      rw [hbit, hi.2] at this
      simp at this

theorem toNat_or_bit (x : BitVec 128) (p : Prop) [Decidable p] :
    (x ||| (if p then 1#128 else 0#128)).toNat = if p then x.toNat / 2 * 2 + 1 else x.toNat := by
  have h := BV.or_bit (by norm_num) x (decide p)
  unfold Generic.bit at h
  by_cases hp : p
  · simpa [hp] using h
  · simp [hp]

theorem shrOddRounding_toNat (x : BitVec 128) (k : Nat) : (shrOddRounding x k).toNat = stk x.toNat k := by
  unfold shrOddRounding stk
  split
  · rename_i h
    rw [toNat_or_bit, BV.shr]
    simp only [trailingZeros_lt x k (by omega)]
    by_cases h0 : x.toNat % 2 ^ k = 0
    · simp [h0]
    · simp [h0]
  · rename_i h
    have hx : x.toNat < 2 ^ k := lt_of_lt_of_le x.isLt (Nat.pow_le_pow_right (by norm_num) (by omega))
    rw [Nat.mod_eq_of_lt hx, Nat.div_eq_of_lt hx]
    by_cases h0 : x = 0#128
    · simp [h0]
    · have : x.toNat ≠ 0 := by
        intro h; apply h0; apply BitVec.eq_of_toNat_eq; simpa using h
      simp [h0, this]

/-- integer quotient of natural numbers rounded in a mode (for the absolute value) -/
def modeDiv (m : Round) (n d : Nat) : Nat :=
  match m with
  | .Nearest => rneDiv n d
  | .Negative => n / d
  | .Zero => n / d
  | .Positive => n / d + if n % d = 0 then 0 else 1

theorem lut (t : Nat) (h : t < 8) : 200 >>> t % 2 = if t % 4 = 3 ∨ t = 6 then 1 else 0 := by
  have : ∀ t : Fin 8, 200 >>> t.val % 2 = if t.val % 4 = 3 ∨ t.val = 6 then 1 else 0 := by decide
  exact this ⟨t, h⟩

theorem shr2Round_toNat (x : BitVec 128) (m : Round) : (shr2Round x m).toNat = modeDiv m x.toNat 4 := by
  have hx := x.isLt
  have h2 : (x >>> 2).toNat = x.toNat / 4 := BV.shr x 2
  unfold shr2Round modeDiv
  cases m with
  | Negative => exact h2
  | Zero => exact h2
  | Positive =>
    simp only
    rw [BitVec.toNat_add, h2]
    have h8 : x.toNat % 8 % 4 = x.toNat % 4 := by omega
    rw [h8]
    by_cases h : x.toNat % 4 = 0
    · simp only [h, ne_eq, not_true_eq_false, if_false, if_true]
      simp only [BitVec.toNat_ofNat]
      omega
    · simp only [h, ne_eq, not_false_eq_true, if_true, if_false]
      simp only [BitVec.toNat_ofNat]
      omega
  | Nearest =>
    simp only
    rw [BitVec.toNat_add, h2, lut _ (Nat.mod_lt _ (by norm_num)), BitVec.toNat_ofNat]
    unfold rneDiv
    simp only
    by_cases h : x.toNat % 8 % 4 = 3 ∨ x.toNat % 8 = 6
    · rw [if_pos h]
      split
      · omega
      · split
        · omega
        · split <;> omega
    · rw [if_neg h]
      split
      · omega
      · split
        · omega
        · split <;> omega

theorem stk_div (n a m : Nat) (hm : 1 ≤ m) : stk n a / 2 ^ m = n / (2 ^ a * 2 ^ m) := by
  rw [← Nat.div_div_eq_div_mul]
  unfold stk
  split
  · rfl
  · obtain ⟨j, rfl⟩ : ∃ j, m = j + 1 := ⟨m - 1, by omega⟩
    have h : (2 : Nat) ^ (j + 1) = 2 * 2 ^ j := by rw [pow_succ]; ring
    rw [h, ← Nat.div_div_eq_div_mul, ← Nat.div_div_eq_div_mul]
    congr 1
    omega

theorem stk_mod (n a m : Nat) (hm : 1 ≤ m) : stk n a % 2 ^ m = 0 ↔ n % (2 ^ a * 2 ^ m) = 0 := by
  unfold stk
  have h2 : (2 : Nat) ∣ 2 ^ m := dvd_pow_self 2 (by omega)
  split
  · rename_i h
    obtain ⟨c, hc⟩ := Nat.dvd_of_mod_eq_zero h
    rw [hc, Nat.mul_div_cancel_left _ (Nat.two_pow_pos a), Nat.mul_mod_mul_left]
    constructor
    · intro h; rw [h, Nat.mul_zero]
    · intro h
      rcases Nat.mul_eq_zero.mp h with h | h
      · exact absurd h (Nat.two_pow_pos a).ne'
      · exact h
  · rename_i h
    constructor
    · intro h'
      exfalso
      have := Nat.dvd_trans h2 (Nat.dvd_of_mod_eq_zero h')
      omega
    · intro h'
      exact absurd (Nat.mod_eq_zero_of_dvd (Nat.dvd_trans (Dvd.intro _ rfl) (Nat.dvd_of_mod_eq_zero h'))) h

theorem modeDiv_stk (md : Round) (n a m : Nat) (hm : 2 ≤ m) :
    modeDiv md (stk n a) (2 ^ m) = modeDiv md n (2 ^ a * 2 ^ m) := by
  have h1 := stk_div n a m (by omega)
  have h2 := stk_mod n a m (by omega)
  cases md with
  | Nearest => exact rneDiv_stk n a m hm
  | Negative => exact h1
  | Zero => exact h1
  | Positive => unfold modeDiv; simp only [h1, h2]

theorem modeDiv_scale (md : Round) (n d c : Nat) (hc : 0 < c) : modeDiv md (n * c) (d * c) = modeDiv md n d := by
  have h1 : n * c / (d * c) = n / d := Nat.mul_div_mul_right _ _ hc
  have h2 : n * c % (d * c) = 0 ↔ n % d = 0 := by
    rw [Nat.mul_mod_mul_right, Nat.mul_eq_zero]
    constructor
    · intro h; exact h.elim id (fun h => absurd h hc.ne')
    · exact Or.inl
  cases md with
  | Nearest => exact rneDiv_scale n d c hc
  | Negative => exact h1
  | Zero => exact h1
  | Positive => unfold modeDiv; simp only [h1, h2]

theorem modeDiv_one (md : Round) (n : Nat) : modeDiv md n 1 = n := by
  cases md with
  | Nearest => have := rneDiv_dvd n 1 (by norm_num); rw [Nat.mul_one] at this; exact this
  | Negative => exact Nat.div_one n
  | Zero => exact Nat.div_one n
  | Positive => unfold modeDiv; simp [Nat.mod_one]

theorem modeDiv_bounds (md : Round) {n d a b : Nat} (hd : 0 < d) (h1 : a * d ≤ n) (h2 : n ≤ b * d) :
    a ≤ modeDiv md n d ∧ modeDiv md n d ≤ b := by
  have ha : a ≤ n / d := (Nat.le_div_iff_mul_le hd).mpr h1
  have hb : n / d ≤ b := by
    apply Nat.div_le_of_le_mul
    rw [Nat.mul_comm]; exact h2
  cases md with
  | Nearest => exact rneDiv_bounds hd h1 h2
  | Negative => exact ⟨ha, hb⟩
  | Zero => exact ⟨ha, hb⟩
  | Positive =>
    unfold modeDiv
    simp only
    split
    · exact ⟨ha, hb⟩
    · rename_i h
      refine ⟨by omega, ?_⟩
      by_contra hc
      have hbe : n / d = b := by omega
      have := Nat.div_add_mod n d
      rw [hbe, Nat.mul_comm] at this
      omega

theorem stk_log2 (n a : Nat) (h : 2 ≤ n / 2 ^ a) : (stk n a).log2 = (n / 2 ^ a).log2 := by
  have hlo := stk_lo n a
  have hhi := stk_hi n a
  set q := n / 2 ^ a
  have hl : 1 ≤ q.log2 := by
    rw [Nat.le_log2 (by omega)]; omega
  obtain ⟨j, hj⟩ : ∃ j, q.log2 = j + 1 := ⟨q.log2 - 1, by omega⟩
  have hq1 : 2 ^ (j + 1) ≤ q := by rw [← hj]; exact Nat.log2_self_le (by omega)
  have hq2 : q < 2 ^ (j + 2) := by
    have := (Nat.log2_lt (n := q) (k := q.log2 + 1) (by omega)).mp (by omega)
    rw [hj] at this; exact this
  have hp := Nat.two_pow_pos j
  have e1 : (2 : Nat) ^ (j + 1) = 2 * 2 ^ j := by rw [pow_succ]; ring
  have e2 : (2 : Nat) ^ (j + 2) = 4 * 2 ^ j := by rw [pow_add]; ring
  have hs : stk n a ≠ 0 := by omega
  rw [hj]
  have h1 : j + 1 ≤ (stk n a).log2 := (Nat.le_log2 hs).mpr (by omega)
  have h2 : (stk n a).log2 < j + 2 := (Nat.log2_lt hs).mpr (by omega)
  omega

theorem and3 (x : BitVec 128) : x &&& 3#128 ≠ 0#128 ↔ ¬ x.toNat % 4 = 0 := by
  have h := BV.and_low (x := x) (m := 3#128) (k := 2) rfl
  rw [not_iff_not]
  constructor
  · intro h0; rw [h0] at h; simpa using h.symm
  · intro h0; apply BitVec.eq_of_toNat_eq; rw [h]; simpa using h0

/-- lines 133-152 for a given number `rb` of bits to round off -/
def roundOff (md : Round) (sig : BitVec 128) (rb : Int) : BitVec 128 × Status :=
  if rb > 0 then
    let sig := if rb = 1 then sig <<< (1 : Nat) else if rb > 2 then shrOddRounding sig (rb - 2).toNat else sig
    (shr2Round sig md, if sig &&& 3#128 ≠ 0#128 then Status.INEXACT else Status.OK)
  else if rb < 0 then (sig <<< (-rb).toNat, Status.OK)
  else (sig, Status.OK)

theorem roundOff_spec (md : Round) (sig : BitVec 128) (rb : Int) (M a l sb : Nat) (hs : sig.toNat = stk M a)
    (h1 : 2 ^ l * 2 ^ a ≤ M) (h2 : M < 2 ^ (l + 1) * 2 ^ a) (ha : a = 0 ∨ 124 ≤ l) (hsb : sb ≤ 119)
    (hrb : (l : Int) - sb ≤ rb) :
    ∃ (n d : Nat), 0 < d ∧ (roundOff md sig rb).1.toNat = modeDiv md n d ∧
      (roundOff md sig rb).2 = (if n % d = 0 then Status.OK else Status.INEXACT) ∧
      (n : ℚ) / d = (M : ℚ) * 2 ^ (-(a : ℤ) - rb) ∧ n < 2 ^ (sb + 1) * d ∧
      (rb = (l : Int) - sb → 2 ^ sb * d ≤ n) := by
  unfold roundOff
  rcases lt_trichotomy rb 0 with hneg | hz | hpos
  · obtain ⟨j, hj⟩ : ∃ j : Nat, rb = -(j : Int) := ⟨rb.natAbs, by omega⟩
    subst hj
    obtain rfl : a = 0 := by omega
    have hlj : l + j ≤ sb := by omega
    have hM : sig.toNat = M := by rw [hs]; simp [stk, Nat.mod_one]
    simp only [pow_zero, Nat.mul_one] at h1 h2
    have hle : M * 2 ^ j < 2 ^ (sb + 1) := by
      calc M * 2 ^ j < 2 ^ (l + 1) * 2 ^ j := Nat.mul_lt_mul_of_pos_right h2 (Nat.two_pow_pos j)
        _ = 2 ^ (l + j + 1) := by rw [← pow_add]; congr 1; omega
        _ ≤ _ := Nat.pow_le_pow_right (by norm_num) (by omega)
    have hlt : M * 2 ^ j < 2 ^ 128 := lt_of_lt_of_le hle (Nat.pow_le_pow_right (by norm_num) (by omega))
    refine ⟨M * 2 ^ j, 1, by norm_num, ?_, ?_, ?_, by omega, ?_⟩
    · rw [if_neg (by omega), if_pos hneg, modeDiv_one, BV.shl, hM]
      have : (- -(j : Int)).toNat = j := by omega
      rw [this, Nat.mod_eq_of_lt hlt]
    · rw [if_neg (by omega), if_pos hneg]
      simp [Nat.mod_one]
    · push_cast
      rw [div_one]
      congr 1
      simp
    · intro h
      have : sb = l + j := by omega
      rw [this, pow_add, Nat.mul_one]
      exact Nat.mul_le_mul_right _ h1
  · subst hz
    obtain rfl : a = 0 := by omega
    have hM : sig.toNat = M := by rw [hs]; simp [stk, Nat.mod_one]
    simp only [pow_zero, Nat.mul_one] at h1 h2
    refine ⟨M, 1, by norm_num, ?_, ?_, ?_, ?_, ?_⟩
    · rw [if_neg (by omega), if_neg (by omega), modeDiv_one, hM]
    · rw [if_neg (by omega), if_neg (by omega)]
      simp [Nat.mod_one]
    · simp
    · rw [Nat.mul_one]
      exact lt_of_lt_of_le h2 (Nat.pow_le_pow_right (by norm_num) (by omega))
    · intro h
      have : sb = l := by omega
      rw [this, Nat.mul_one]; exact h1
  · obtain ⟨j, hj⟩ : ∃ j : Nat, rb = (j : Int) := ⟨rb.natAbs, by omega⟩
    subst hj
    have hlb : M < 2 ^ (sb + 1) * (2 ^ a * 2 ^ j) := by
      calc M < 2 ^ (l + 1) * 2 ^ a := h2
        _ ≤ 2 ^ (sb + 1 + j) * 2 ^ a :=
            Nat.mul_le_mul_right _ (Nat.pow_le_pow_right (by norm_num) (by omega))
        _ = _ := by rw [pow_add 2 (sb + 1) j]; ring
    have hub : (j : Int) = (l : Int) - sb → 2 ^ sb * (2 ^ a * 2 ^ j) ≤ M := by
      intro h
      have : l = sb + j := by omega
      rw [this, pow_add] at h1
      calc 2 ^ sb * (2 ^ a * 2 ^ j) = 2 ^ sb * 2 ^ j * 2 ^ a := by ring
        _ ≤ M := h1
    refine ⟨M, 2 ^ a * 2 ^ j, Nat.mul_pos (Nat.two_pow_pos a) (Nat.two_pow_pos j), ?_, ?_, ?_, hlb, hub⟩
    rotate_left 2
    · push_cast
      rw [sub_eq_add_neg, zpow_add₀ (by norm_num), zpow_neg, zpow_neg, zpow_natCast, zpow_natCast]
      field_simp
    all_goals
      rw [if_pos hpos]
      simp only [shr2Round_toNat, and3]
    all_goals
      by_cases hj1 : (j : Int) = 1
    · obtain rfl : j = 1 := by omega
      obtain rfl : a = 0 := by omega
      have hM : sig.toNat = M := by rw [hs]; simp [stk, Nat.mod_one]
      have hlt : M * 2 ^ 1 < 2 ^ 128 := by
        have : M < 2 ^ (l + 1) := by simpa using h2
        have h3 : (2 : Nat) ^ (l + 1) ≤ 2 ^ 127 := Nat.pow_le_pow_right (by norm_num) (by omega)
        omega
      simp only [hj1, if_true, BV.shl, hM, Nat.mod_eq_of_lt hlt]
      have := modeDiv_scale md M 2 2 (by norm_num)
      simpa using this
    · rw [if_neg hj1]
      by_cases hj2 : (j : Int) > 2
      · rw [if_pos hj2, shrOddRounding_toNat, hs]
        have e : ((j : Int) - 2).toNat = j - 2 := by omega
        rw [e]
        have e1 := modeDiv_stk md (stk M a) (j - 2) 2 (le_refl _)
        have e2 : (2 : Nat) ^ (j - 2) * 2 ^ 2 = 2 ^ j := by rw [← pow_add]; congr 1; omega
        rw [e2, modeDiv_stk md M a j (by omega)] at e1
        exact e1
      · obtain rfl : j = 2 := by omega
        obtain rfl : a = 0 := by omega
        have hM : sig.toNat = M := by rw [hs]; simp [stk, Nat.mod_one]
        rw [if_neg hj2, hM]
        norm_num
    · obtain rfl : j = 1 := by omega
      obtain rfl : a = 0 := by omega
      have hM : sig.toNat = M := by rw [hs]; simp [stk, Nat.mod_one]
      have hlt : M * 2 ^ 1 < 2 ^ 128 := by
        have : M < 2 ^ (l + 1) := by simpa using h2
        have h3 : (2 : Nat) ^ (l + 1) ≤ 2 ^ 127 := Nat.pow_le_pow_right (by norm_num) (by omega)
        omega
      simp only [hj1, if_true, BV.shl, hM, Nat.mod_eq_of_lt hlt]
      have : (M * 2 ^ 1 % 4 = 0) ↔ (M % (2 ^ 0 * 2 ^ 1) = 0) := by omega
      simp only [this, ite_not]
    · rw [if_neg hj1]
      by_cases hj2 : (j : Int) > 2
      · rw [if_pos hj2, shrOddRounding_toNat, hs]
        have e : ((j : Int) - 2).toNat = j - 2 := by omega
        rw [e]
        have e1 := stk_mod (stk M a) (j - 2) 2 (by norm_num)
        have e2 : (2 : Nat) ^ (j - 2) * 2 ^ 2 = 2 ^ j := by rw [← pow_add]; congr 1; omega
        rw [e2, stk_mod M a j (by omega)] at e1
        have e3 : (2 : Nat) ^ 2 = 4 := rfl
        rw [e3] at e1
        simp only [e1, ite_not]
      · obtain rfl : j = 2 := by omega
        obtain rfl : a = 0 := by omega
        have hM : sig.toNat = M := by rw [hs]; simp [stk, Nat.mod_one]
        rw [if_neg hj2, hM]
        have : (2 : Nat) ^ 0 * 2 ^ 2 = 4 := rfl
        simp only [this, ite_not]

theorem ilog2_eq {x : BitVec 128} (h : x.toNat ≠ 0) : ilog2 x = some x.toNat.log2 := by
  have h0 : x ≠ 0#128 := fun h' => h (by rw [h']; rfl)
  have := clz_eq x h
  unfold ilog2
  rw [if_neg h0]
  congr 1
  omega

theorem i32_ok {v : Int} (h1 : -2 ^ 31 ≤ v) (h2 : v < 2 ^ 31) : i32 v = some v := if_pos ⟨h1, h2⟩

/-- the parsed number `M * 2^(exp - a)`, of which `sig` holds the leading bits and a sticky bit, is divided into
an integer power of two and a quotient that is rounded in the mode -/
theorem roundSig_spec (sb : Nat) (minLsb : Int) (md : Round) (sig : BitVec 128) (exp : Int) (M a : Nat) (hM : 0 < M)
    (hs : sig.toNat = stk M a) (ha : a = 0 ∨ 2 ^ 124 ≤ M / 2 ^ a) (hsb : sb ≤ 119)
    (hml : -2 ^ 29 ≤ minLsb ∧ minLsb ≤ -1) (hexp : -2 ^ 31 ≤ exp ∧ exp ≤ 2 ^ 30) :
    ∃ (s : BitVec 128) (E n d : Nat), 0 < d ∧
      roundSig sb minLsb md sig exp = some (s, minLsb + E, if n % d = 0 then Status.OK else Status.INEXACT) ∧
      s.toNat = modeDiv md n d ∧ (n : ℚ) / d * 2 ^ E = (M : ℚ) * 2 ^ (exp - a - minLsb) ∧
      n < 2 ^ (sb + 1) * d ∧ (E = 0 ∨ 2 ^ sb * d ≤ n) ∧ E < 2 ^ 31 := by
  have hne : stk M a ≠ 0 := by
    have := stk_lo M a
    rcases ha with rfl | ha
    · simp [stk, Nat.mod_one]; omega
    · omega
  set l := (M / 2 ^ a).log2 with hl
  have hlog : sig.toNat.log2 = l := by
    rw [hs, hl]
    rcases ha with rfl | ha
    · simp [stk, Nat.mod_one]
    · exact stk_log2 M a (by omega)
  have hq : M / 2 ^ a ≠ 0 := by
    rcases ha with rfl | ha
    · simp; omega
    · omega
  have h1 : 2 ^ l * 2 ^ a ≤ M := by
    have := Nat.log2_self_le hq
    exact (Nat.le_div_iff_mul_le (Nat.two_pow_pos a)).mp this
  have h2 : M < 2 ^ (l + 1) * 2 ^ a := by
    have := (Nat.log2_lt (n := M / 2 ^ a) (k := l + 1) hq).mp (by omega)
    exact (Nat.div_lt_iff_lt_mul (Nat.two_pow_pos a)).mp this
  have hla : a = 0 ∨ 124 ≤ l := ha.imp id (fun h => (Nat.le_log2 hq).mpr h)
  have hl128 : l < 128 := by
    rw [← hlog]
    exact (Nat.log2_lt (by rw [hs]; exact hne)).mpr sig.isLt
  -- the number of bits to round off
  obtain ⟨rb, hrb, hrb1, hE, hE2⟩ : ∃ rb : Int,
      (if exp < minLsb - ((l : Int) - sb) then i32 (minLsb - exp) else some ((l : Int) - sb)) = some rb ∧
      (l : Int) - sb ≤ rb ∧ 0 ≤ exp + rb - minLsb ∧ (exp + rb - minLsb = 0 ∨ rb = (l : Int) - sb) := by
    by_cases h : exp < minLsb - ((l : Int) - sb)
    · exact ⟨minLsb - exp, by rw [if_pos h, i32_ok (by omega) (by omega)], by omega, by omega, by omega⟩
    · exact ⟨(l : Int) - sb, if_neg h, le_refl _, by omega, by omega⟩
  obtain ⟨n, d, hd, e1, e2, e3, e4, e5⟩ := roundOff_spec md sig rb M a l sb hs h1 h2 hla hsb hrb1
  obtain ⟨E, hEE⟩ : ∃ E : Nat, exp + rb - minLsb = E := ⟨_, (Int.toNat_of_nonneg hE).symm⟩
  refine ⟨(roundOff md sig rb).1, E, n, d, hd, ?_, e1, ?_, e4, ?_, by omega⟩
  · unfold roundSig
    rw [ilog2_eq (by rw [hs]; exact hne), Option.bind_some, hlog]
    simp only
    rw [i32_ok (v := minLsb - ((l : Int) - sb)) (by omega) (by omega), Option.bind_some, hrb, Option.bind_some,
      i32_ok (by omega) (by omega), Option.map_some, ← e2]
    have : minLsb + (E : Int) = exp + rb := by omega
    rw [this]
    unfold roundOff
    congr 1
    split
    · rfl
    · split <;> rfl
  · rw [e3, mul_assoc]
    congr 1
    have : (2 : ℚ) ^ E = 2 ^ (E : ℤ) := (zpow_natCast _ _).symm
    rw [this, ← zpow_add₀ (by norm_num)]
    congr 1
    omega
  · rcases hE2 with h | h
    · left; omega
    · right; exact e5 h

end HexFloat
end Verif
