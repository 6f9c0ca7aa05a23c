import Verif.Theory.Scale
import Verif.Props.Basic
import Verif.Theory.RNE

/-! # C17 scalbn and ldexp -/

namespace Verif
open Flt Generic
variable {F : Fmt}

theorem i32_some {v : Int} (h1 : -2 ^ 31 ≤ v) (h2 : v < 2 ^ 31) : i32 v = some v := by
  unfold i32; rw [if_pos ⟨h1, h2⟩]

theorem asU32_eq {v : Int} (h1 : 0 ≤ v) (h2 : v < 2 ^ 32) : asU32 v = v.toNat := by
  unfold asU32; rw [Int.emod_eq_of_lt h1 h2]

/-- the formats of the library: what `scalbn` needs to know of them -/
structure ScaleFmt (F : Fmt) : Prop where
  small : F.bias < 2 ^ 20
  big : 16 < F.bits → 3 * F.sb + 6 ≤ F.bias
  f16 : ¬ 16 < F.bits → F.sb = 10 ∧ F.bias = 15

theorem scaleFmt_f16 : ScaleFmt f16 := by constructor <;> decide
theorem scaleFmt_f32 : ScaleFmt f32 := by constructor <;> decide
theorem scaleFmt_f64 : ScaleFmt f64 := by constructor <;> decide
theorem scaleFmt_f128 : ScaleFmt f128 := by constructor <;> decide

/-- `y` stands for `m * 2^j` while scaling up -/
def Up (F : Fmt) (s : Bool) (m : Nat) (j : Int) (y : Flt F) : Prop :=
  y.sign = s ∧ ((y.isFinite ∧ ∀ n : Int, 0 ≤ n → scaled F s y.mag n = scaled F s m (j + n)) ∨
    (y = inf F s ∧ ∀ n : Int, 0 ≤ n → scaled F s m (j + n) = inf F s))

/-- `y` stands for `m * 2^-j` while scaling down -/
def Dn (F : Fmt) (s : Bool) (m : Nat) (j : Int) (y : Flt F) : Prop :=
  y.sign = s ∧ y.isFinite ∧ ∀ n : Int, n ≤ -(F.sb + 1) → scaled F s y.mag n = scaled F s m (n - j)

theorem Up.init {x : Flt F} (hx : x.isFinite) : Up F x.sign x.mag 0 x :=
  ⟨rfl, Or.inl ⟨hx, fun n _ => by rw [zero_add]⟩⟩

theorem Dn.init {x : Flt F} (hx : x.isFinite) : Dn F x.sign x.mag 0 x :=
  ⟨rfl, hx, fun n _ => by rw [sub_zero]⟩

theorem Up.mul {s : Bool} {m : Nat} {j k : Int} {y : Flt F} (h : Up F s m j y) (h0 : 0 ≤ k) (h1 : k ≤ F.bias) :
    y * fromParts F false (F.bias + k).toNat 0#_ = scaled F s m (j + k) := by
  have htb := F.two_bias
  have hb := F.sb_lt_bias
  obtain ⟨rfl, ⟨h2, h3⟩ | ⟨h2, h3⟩⟩ := h
  · rw [mul_pow_scaled h2 (by omega) (by omega), ← h3 k h0]
    congr 1; omega
  · rw [h3 k h0]
    conv_lhs => rw [h2]
    rw [inf_mul_pow _ (by omega) (by omega)]

theorem Up.step {s : Bool} {m : Nat} {j k : Int} {y : Flt F} (h : Up F s m j y) (h0 : 0 ≤ k) (h1 : k ≤ F.bias) :
    Up F s m (j + k) (y * fromParts F false (F.bias + k).toNat 0#_) := by
  have htb := F.two_bias
  have hb := F.sb_lt_bias
  obtain ⟨rfl, ⟨h2, h3⟩ | ⟨h2, h3⟩⟩ := h
  · rw [mul_pow_scaled h2 (by omega) (by omega)]
    rw [show (((F.bias + k).toNat : Int) - F.bias) = k by omega]
    refine ⟨by simp, ?_⟩
    rcases scaled_up (s := y.sign) (mag_rep y) h0 with ⟨a, b⟩ | ⟨a, b⟩
    · left
      refine ⟨a, fun n hn => ?_⟩
      rw [b n hn, h3 _ (by omega)]; congr 1; omega
    · right
      refine ⟨a, fun n hn => ?_⟩
      rw [← b n hn, h3 _ (by omega)]; congr 1; omega
  · have : y * fromParts F false (F.bias + k).toNat 0#_ = inf F y.sign := by
      conv_lhs => rw [h2]
      rw [inf_mul_pow _ (by omega) (by omega)]
    rw [this]
    refine ⟨by simp, Or.inr ⟨rfl, fun n hn => ?_⟩⟩
    rw [← h3 (k + n) (by omega)]; congr 1; omega

theorem Dn.mul {s : Bool} {m : Nat} {j k : Int} {y : Flt F} (h : Dn F s m j y) (h0 : k ≤ -(F.sb + 1))
    (h1 : 1 - (F.bias : Int) ≤ k) :
    y * fromParts F false (F.bias + k).toNat 0#_ = scaled F s m (k - j) := by
  have htb := F.two_bias
  have hb := F.sb_lt_bias
  obtain ⟨rfl, h2, h3⟩ := h
  rw [mul_pow_scaled h2 (by omega) (by omega), ← h3 k h0]
  congr 1; omega

theorem Dn.step {s : Bool} {m : Nat} {j k : Int} {y : Flt F} (h : Dn F s m j y) (h0 : k ≤ 0)
    (h1 : 1 - (F.bias : Int) ≤ k) : Dn F s m (j - k) (y * fromParts F false (F.bias + k).toNat 0#_) := by
  have htb := F.two_bias
  have hb := F.sb_lt_bias
  obtain ⟨rfl, h2, h3⟩ := h
  rw [mul_pow_scaled h2 (by omega) (by omega)]
  rw [show (((F.bias + k).toNat : Int) - F.bias) = k by omega]
  obtain ⟨a, b⟩ := scaled_down (s := y.sign) (mag_rep y) (mag_lt_inf h2) h0
  refine ⟨by simp, a, fun n hn => ?_⟩
  rw [b n hn, h3 _ (by omega)]
  congr 1; omega

/-- both sides overflow (or are zero) -/
theorem scaled_clamp_up {s : Bool} {m : Nat} {a b : Int} (ha : (3 * F.bias : Int) ≤ a) (hb : (3 * F.bias : Int) ≤ b) :
    scaled F s m a = scaled F s m b := by
  have hsb := F.sb_lt_bias
  have key : ∀ c : Int, (3 * F.bias : Int) ≤ c → scaled F s m c = if m = 0 then zero F s else inf F s := by
    intro c hc
    unfold scaled
    split
    · rename_i h; rw [h, zero_mul]; exact roundMag_tiny (Nat.two_pow_pos _) (by simp)
    · rename_i h
      rw [show (-c).toNat = 0 by omega]
      apply roundMag_huge (by norm_num)
      have h1 : 2 ^ (2 * F.bias + F.sb) ≤ 2 ^ c.toNat := Nat.pow_le_pow_right (by norm_num) (by omega)
      have h2 : 1 * 2 ^ c.toNat ≤ m * 2 ^ c.toNat := Nat.mul_le_mul_right _ (by omega)
      omega
  rw [key a ha, key b hb]

/-- both sides underflow to zero -/
theorem scaled_clamp_dn {s : Bool} {m : Nat} (hm : m < 2 ^ (2 * F.bias + F.sb)) {a b : Int}
    (ha : a ≤ -(2 * F.bias + F.sb + 1)) (hb : b ≤ -(2 * F.bias + F.sb + 1)) :
    scaled F s m a = scaled F s m b := by
  have key : ∀ c : Int, c ≤ -(2 * F.bias + F.sb + 1) → scaled F s m c = zero F s := by
    intro c hc
    unfold scaled
    rw [show c.toNat = 0 by omega, pow_zero, mul_one]
    apply roundMag_tiny (Nat.two_pow_pos _)
    have h1 : 2 ^ (2 * F.bias + F.sb + 1) ≤ 2 ^ (-c).toNat := Nat.pow_le_pow_right (by norm_num) (by omega)
    rw [pow_succ] at h1
    omega
  rw [key a ha, key b hb]

theorem expMin_eq (F : Fmt) : expMin F = 1 - (F.bias : Int) := by
  unfold expMin expMax; rw [expBias_eq]; ring
theorem expMax_eq (F : Fmt) : expMax F = (F.bias : Int) := by
  unfold expMax; rw [expBias_eq]

theorem mul_subnorm (hF : ScaleFmt F) (h : 16 < F.bits) :
    fromParts F false 1 0#_ * fromParts F false (F.sb + 1 + F.bias) 0#_ =
      fromParts F false (F.sb + 2) 0#_ := by
  have htb := F.two_bias
  have hb := F.sb_lt_bias
  have hbig := hF.big h
  obtain ⟨a1, a2, a3⟩ := fromParts_pow (F := F) (e := 1) le_rfl (by omega)
  obtain ⟨c1, c2, c3⟩ := fromParts_pow (F := F) (e := F.sb + 2) (by omega) (by omega)
  rw [mul_pow_scaled a1 (by omega) (by omega), a2, a3]
  obtain ⟨r1, r2, r3⟩ := roundMag_rep (F := F) (s := false) (n := 2 ^ (1 - 1 + F.sb) * 2 ^ (F.sb + 1)) (d := 1)
      (m := 2 ^ F.sb * 2 ^ (F.sb + 1)) (by norm_num) (rep_mul_pow F.sb _ _ (Nat.pow_le_pow_right (by norm_num) (by omega)))
      (by rw [← pow_add]; exact Nat.pow_lt_pow_right (by norm_num) (by omega)) (by simp)
  have he : scaled F false (2 ^ (1 - 1 + F.sb)) (((F.sb + 1 + F.bias : ℕ) : Int) - F.bias) =
      roundMag F false (2 ^ (1 - 1 + F.sb) * 2 ^ (F.sb + 1)) 1 := by
    unfold scaled
    rw [show (((F.sb + 1 + F.bias : ℕ) : Int) - F.bias).toNat = F.sb + 1 by omega,
      show (-(((F.sb + 1 + F.bias : ℕ) : Int) - F.bias)).toNat = 0 by omega, pow_zero]
  rw [he]
  apply eq_of_sign_mag
  · rw [c2]; simp
  · rw [r3, c3, ← pow_add]; congr 1; omega

theorem scalbnPre16_spec (hF : ScaleFmt F) (h16 : ¬ 16 < F.bits) (x : Flt F) {n : Int} (hn0 : -2 ^ 31 ≤ n)
    (hn : n < expMin F) :
    ∃ k : Int, 1 - (F.bias : Int) ≤ k ∧ k ≤ 0 ∧ n - k ≤ -(F.sb + 1) ∧ (n - k < expMin F → k = 1 - (F.bias : Int)) ∧
      scalbnPre16 x n = some (x * fromParts F false (F.bias + k).toNat 0#_, n - k) := by
  obtain ⟨h1, h2⟩ := hF.f16 h16
  rw [expMin_eq] at hn
  unfold scalbnPre16
  rw [i32_some (by omega) (by omega)]
  simp only [Option.bind_some, expMin_eq, expBias_eq]
  refine ⟨max (1 - (F.bias : Int)) (min (F.sb + 1) (n + (F.sb + 1))), by omega, by omega, by omega, by omega, ?_⟩
  rw [i32_some (by omega) (by omega)]
  simp only [Option.bind_some]
  rw [i32_some (by omega) (by omega), asU32_eq (by omega) (by omega)]
  simp only [Option.map_some]
  simp only [sub_neg_eq_add, ← sub_eq_add_neg]

/-- `scalbn` on a finite argument, in terms of a single rounding -/
theorem scalbn_core (hF : ScaleFmt F) (x : Flt F) (hx : x.isFinite) (n : Int) (h1 : -2 ^ 31 ≤ n) (h2 : n < 2 ^ 31) :
    scalbn x n = some (scaled F x.sign x.mag n) := by
  have htb := F.two_bias
  have hb := F.sb_lt_bias
  have hsm := hF.small
  have hxm := mag_lt_inf hx
  have fin : ∀ (y : Flt F) (k : Int) (r : Flt F), 1 - (F.bias : Int) ≤ k → k ≤ F.bias →
      y * fromParts F false (F.bias + k).toNat 0#_ = r →
      ((i32 (F.bias + k)).map fun e => y * fromParts F false (asU32 e) 0#_) = some r := by
    intro y k r a1 a2 a3
    rw [i32_some (by omega) (by omega)]
    simp only [Option.map_some]
    rw [asU32_eq (by omega) (by omega), a3]
  unfold scalbn scalbnPre
  simp only [expMax_eq, expMin_eq, expBias_eq]
  have hmax : fromParts F false (F.bias <<< 1) 0#_ = fromParts F false ((F.bias : Int) + F.bias).toNat 0#_ := by
    congr 1; rw [Nat.shiftLeft_eq]; omega
  by_cases c1 : n > F.bias
  · rw [if_pos c1, if_pos (by omega), i32_some (by omega) (by omega)]
    simp only [Option.bind_some]
    have u1 := (Up.init hx).step (k := F.bias) (by omega) le_rfl
    rw [hmax]
    by_cases c2 : n - F.bias > F.bias
    · rw [if_pos c2, i32_some (by omega) (by omega)]
      simp only [Option.map_some, Option.bind_some]
      have u2 := u1.step (k := F.bias) (by omega) le_rfl
      by_cases c3 : n - F.bias - F.bias > F.bias
      · rw [if_pos c3]
        refine fin _ _ _ (by omega) le_rfl ?_
        rw [u2.mul (by omega) le_rfl]
        exact scaled_clamp_up (by omega) (by omega)
      · rw [if_neg c3]
        refine fin _ _ _ (by omega) (by omega) ?_
        rw [u2.mul (by omega) (by omega)]
        congr 1; omega
    · rw [if_neg c2]
      simp only [Option.bind_some]
      refine fin _ _ _ (by omega) (by omega) ?_
      rw [u1.mul (by omega) (by omega)]
      congr 1; omega
  · rw [if_neg c1]
    by_cases c2 : n < 1 - F.bias
    · rw [if_pos c2]
      by_cases c3 : F.bits > 16
      · have hbig := hF.big c3
        rw [if_pos c3, if_pos (by omega), i32_some (by omega) (by omega)]
        simp only [Option.bind_some]
        rw [mul_subnorm hF c3]
        have hmul : fromParts F false (F.sb + 2) 0#_ =
            fromParts F false ((F.bias : Int) + (F.sb + 2 - F.bias)).toNat 0#_ := by
          congr 1; omega
        rw [hmul]
        have u1 := (Dn.init hx).step (k := F.sb + 2 - F.bias) (by omega) (by omega)
        by_cases c4 : n + (-(1 - (F.bias : Int)) - (F.sb + 1)) < 1 - F.bias
        · rw [if_pos c4, i32_some (by omega) (by omega)]
          simp only [Option.map_some, Option.bind_some]
          have u2 := u1.step (k := F.sb + 2 - F.bias) (by omega) (by omega)
          by_cases c5 : n + (-(1 - (F.bias : Int)) - (F.sb + 1)) + (-(1 - (F.bias : Int)) - (F.sb + 1)) < 1 - F.bias
          · rw [if_pos c5]
            refine fin _ _ _ le_rfl (by omega) ?_
            rw [u2.mul (by omega) (by omega)]
            exact scaled_clamp_dn hxm (by omega) (by omega)
          · rw [if_neg c5]
            refine fin _ _ _ (by omega) (by omega) ?_
            rw [u2.mul (by omega) (by omega)]
            congr 1; omega
        · rw [if_neg c4]
          simp only [Option.bind_some]
          refine fin _ _ _ (by omega) (by omega) ?_
          rw [u1.mul (by omega) (by omega)]
          congr 1; omega
      · obtain ⟨s1, s2⟩ := hF.f16 c3
        rw [if_neg c3]
        obtain ⟨k, k1, k2, k3, k4, k5⟩ := scalbnPre16_spec hF c3 x h1 (by rw [expMin_eq]; exact c2)
        rw [k5]
        simp only [Option.bind_some]
        have u1 := (Dn.init hx).step (k := k) k2 k1
        by_cases c4 : n - k < 1 - F.bias
        · rw [if_pos c4]
          rw [expMin_eq] at k4
          have hk := k4 c4
          obtain ⟨l, l1, l2, l3, l4, l5⟩ := scalbnPre16_spec hF c3 (x * fromParts F false (F.bias + k).toNat 0#_)
            (n := n - k) (by omega) (by rw [expMin_eq]; exact c4)
          rw [l5]
          simp only [Option.map_some, Option.bind_some]
          have u2 := u1.step (k := l) l2 l1
          by_cases c5 : n - k - l < 1 - F.bias
          · rw [if_pos c5]
            refine fin _ _ _ le_rfl (by omega) ?_
            rw [u2.mul (by omega) (by omega)]
            rw [expMin_eq] at l4
            have hl := l4 c5
            exact scaled_clamp_dn hxm (by omega) (by omega)
          · rw [if_neg c5]
            refine fin _ _ _ (by omega) (by omega) ?_
            rw [u2.mul (by omega) (by omega)]
            congr 1; omega
        · rw [if_neg c4]
          simp only [Option.bind_some]
          refine fin _ _ _ (by omega) (by omega) ?_
          rw [u1.mul (by omega) (by omega)]
          congr 1; omega
    · rw [if_neg c2]
      simp only [Option.bind_some]
      refine fin _ _ _ (by omega) (by omega) ?_
      rw [mul_pow_scaled hx (by omega) (by omega)]
      congr 1; omega

/-- The formats of the library. -/
def IsLibFmt (F : Fmt) : Prop := F = f16 ∨ F = f32 ∨ F = f64 ∨ F = f128

theorem IsLibFmt.scale (h : IsLibFmt F) : ScaleFmt F := by
  rcases h with rfl | rfl | rfl | rfl
  · exact scaleFmt_f16
  · exact scaleFmt_f32
  · exact scaleFmt_f64
  · exact scaleFmt_f128

/-- C17: for every finite `x` and every `i32` exponent, `scalbn` returns (no panic) the single
correct rounding of `x * 2^n`, with the sign of `x` -/
theorem scalbn_finite (hF : IsLibFmt F) (x : Flt F) (hx : x.isFinite) (n : Int) (h1 : -2 ^ 31 ≤ n) (h2 : n < 2 ^ 31) :
    ∃ r, scalbn x n = some r ∧ IsRNE (x.toRat * 2 ^ n) r ∧ r.sign = x.sign :=
  ⟨_, scalbn_core hF.scale x hx n h1 h2, scaled_isRNE n, by simp⟩

/-- C17: when `x * 2^n` is representable the result is exact -/
theorem scalbn_exact (hF : IsLibFmt F) (x : Flt F) (hx : x.isFinite) (n : Int) (h1 : -2 ^ 31 ≤ n) (h2 : n < 2 ^ 31)
    (z : Flt F) (hz : z.isFinite) (hzx : z.toRat = x.toRat * 2 ^ n) :
    ∃ r, scalbn x n = some r ∧ r.isFinite ∧ r.toRat = x.toRat * 2 ^ n := by
  obtain ⟨r, e1, e2, e3⟩ := scalbn_finite hF x hx n h1 h2
  exact ⟨r, e1, e2.exact hz hzx⟩

theorem scalbn_map (hF : ScaleFmt F) (n : Int) (h1 : -2 ^ 31 ≤ n) (h2 : n < 2 ^ 31) (P : Flt F → Prop)
    (hP : ∀ (y : Flt F) (e : Nat), P y → 1 ≤ e → e < 2 ^ F.ew - 1 → P (y * fromParts F false e 0#_))
    (x : Flt F) (hx : P x) : ∃ r, scalbn x n = some r ∧ P r := by
  have htb := F.two_bias
  have hb := F.sb_lt_bias
  have hsm := hF.small
  have hP' : ∀ (y : Flt F) (k : Int), P y → 1 - (F.bias : Int) ≤ k → k ≤ F.bias →
      P (y * fromParts F false (F.bias + k).toNat 0#_) :=
    fun y k a b c => hP y _ a (by omega) (by omega)
  suffices h : ∃ y k, scalbnPre x n = some (y, k) ∧ P y ∧ 1 - (F.bias : Int) ≤ k ∧ k ≤ F.bias by
    obtain ⟨y, k, e1, e2, e3, e4⟩ := h
    unfold scalbn
    rw [e1]
    simp only [Option.bind_some, expBias_eq]
    rw [i32_some (by omega) (by omega)]
    refine ⟨_, rfl, ?_⟩
    simp only
    rw [asU32_eq (by omega) (by omega)]
    exact hP' y k e2 e3 e4
  unfold scalbnPre
  simp only [expMax_eq, expMin_eq, expBias_eq]
  by_cases c1 : n > F.bias
  · rw [if_pos c1, if_pos (by omega), i32_some (by omega) (by omega)]
    simp only [Option.bind_some]
    have hm : ∀ y, P y → P (y * fromParts F false (F.bias <<< 1) 0#_) := fun y hy =>
      hP y _ hy (by rw [Nat.shiftLeft_eq]; omega) (by rw [Nat.shiftLeft_eq]; omega)
    by_cases c2 : n - F.bias > F.bias
    · rw [if_pos c2, i32_some (by omega) (by omega)]
      exact ⟨_, _, rfl, hm _ (hm _ hx), by split <;> omega, by split <;> omega⟩
    · rw [if_neg c2]
      exact ⟨_, _, rfl, hm _ hx, by omega, by omega⟩
  · rw [if_neg c1]
    by_cases c2 : n < 1 - F.bias
    · rw [if_pos c2]
      by_cases c3 : F.bits > 16
      · have hbig := hF.big c3
        rw [if_pos c3, if_pos (by omega), i32_some (by omega) (by omega)]
        simp only [Option.bind_some]
        rw [mul_subnorm hF c3]
        have hm : ∀ y, P y → P (y * fromParts F false (F.sb + 2) 0#_) := fun y hy =>
          hP y _ hy (by omega) (by omega)
        by_cases c4 : n + (-(1 - (F.bias : Int)) - (F.sb + 1)) < 1 - F.bias
        · rw [if_pos c4, i32_some (by omega) (by omega)]
          exact ⟨_, _, rfl, hm _ (hm _ hx), by split <;> omega, by split <;> omega⟩
        · rw [if_neg c4]
          exact ⟨_, _, rfl, hm _ hx, by omega, by omega⟩
      · obtain ⟨s1, s2⟩ := hF.f16 c3
        rw [if_neg c3]
        obtain ⟨k, k1, k2, k3, k4, k5⟩ := scalbnPre16_spec hF c3 x h1 (by rw [expMin_eq]; exact c2)
        rw [k5]
        simp only [Option.bind_some]
        by_cases c4 : n - k < 1 - F.bias
        · rw [if_pos c4]
          obtain ⟨l, l1, l2, l3, l4, l5⟩ := scalbnPre16_spec hF c3 (x * fromParts F false (F.bias + k).toNat 0#_)
            (n := n - k) (by omega) (by rw [expMin_eq]; exact c4)
          rw [l5]
          exact ⟨_, _, rfl, hP' _ _ (hP' _ _ hx k1 (by omega)) l1 (by omega), by dsimp only; split <;> omega,
            by dsimp only; split <;> omega⟩
        · rw [if_neg c4]
          exact ⟨_, _, rfl, hP' _ _ hx k1 (by omega), by omega, by omega⟩
    · rw [if_neg c2]
      exact ⟨_, _, rfl, hx, by omega, by omega⟩

/-- C17: zeros and infinities are returned unchanged, NaN gives NaN -/
theorem scalbn_special (hF : IsLibFmt F) (x : Flt F) (n : Int) (h1 : -2 ^ 31 ≤ n) (h2 : n < 2 ^ 31) :
    (x.isZero ∨ x.isInf → scalbn x n = some x) ∧ (x.isNaN → ∃ r, scalbn x n = some r ∧ r.isNaN) := by
  refine ⟨?_, fun h => scalbn_map hF.scale n h1 h2 (fun y => y.isNaN) (fun y e hy _ _ => nan_mul _ _ hy) x h⟩
  rintro (h | h)
  · rw [scalbn_core hF.scale x (finite_of_zero h) n h1 h2, (isZero_iff_mag x).mp h]
    unfold scaled
    rw [zero_mul, roundMag_tiny (Nat.two_pow_pos _) (by simp), ← eq_zero h]
  · obtain ⟨r, e1, e2⟩ := scalbn_map hF.scale n h1 h2 (fun y => y = inf F x.sign)
      (fun y e hy a b => by rw [hy, inf_mul_pow _ a b]) x (eq_inf h)
    rw [e1, e2, ← eq_inf h]

/-- C17 for `ldexp` -/
theorem ldexp_finite (hF : IsLibFmt F) (x : Flt F) (hx : x.isFinite) (n : Int) (h1 : -2 ^ 31 ≤ n) (h2 : n < 2 ^ 31) :
    ∃ r, ldexp x n = some r ∧ IsRNE (x.toRat * 2 ^ n) r ∧ r.sign = x.sign :=
  scalbn_finite hF x hx n h1 h2

@[inherit_doc ldexp_finite]
theorem ldexp_special (hF : IsLibFmt F) (x : Flt F) (n : Int) (h1 : -2 ^ 31 ≤ n) (h2 : n < 2 ^ 31) :
    (x.isZero ∨ x.isInf → ldexp x n = some x) ∧ (x.isNaN → ∃ r, ldexp x n = some r ∧ r.isNaN) :=
  scalbn_special hF x n h1 h2

/-- the hypotheses are met: scalbn(1.5, -1074) is a tie that rounds to 2 least subnormals;
scalbn(least subnormal, 2097) is 2^1023 -/
example : scalbn (ofNat f64 0x3ff8000000000000) (-1074) = some (ofNat f64 2) ∧
    scalbn (ofNat f64 1) 2097 = some (ofNat f64 0x7fe0000000000000) := by
  constructor <;> decide +kernel

end Verif
