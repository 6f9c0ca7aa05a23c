import Verif.Props.InvTrig

/-!
# C35: special cases of atan2

The table of C (Annex F) and IEEE 754-2019, 9.2.1, for `atan2(y, x)`: the angle of the point `(x, y)`.
-/

namespace Verif
open Flt InvHyp InvTrig

/-- `t` with the sign `s` -/
def signed (s : Bool) (t : ℝ) : ℝ := if s then -t else t

/-- The special cases of `atan2(y, x)`; multiples of π are met up to one unit in the last place -/
structure IsAtan2 {F : Fmt} (f : Flt F → Flt F → Option (Flt F)) : Prop where
  total : ∀ y x, ∃ r, f y x = some r
  nan : ∀ y x : Flt F, y.isNaN ∨ x.isNaN → ∃ r, f y x = some r ∧ r.isNaN
  /-- `atan2(±0, x)` is `±0` for `x` positive or `+0` -/
  zero_pos : ∀ y x : Flt F, y.isZero → ¬ x.isNaN → x.sign = false → f y x = some y
  /-- `atan2(±0, x)` is `±π` for `x` negative or `-0` -/
  zero_neg : ∀ y x : Flt F, y.isZero → ¬ x.isNaN → x.sign = true →
    ∃ r, f y x = some r ∧ WithinUlp 1 r (signed y.sign Real.pi)
  /-- `atan2(y, ±0)` is `±π/2` for `y` not zero -/
  vertical : ∀ y x : Flt F, ¬ y.isNaN → ¬ y.isZero → x.isZero →
    ∃ r, f y x = some r ∧ WithinUlp 1 r (signed y.sign (Real.pi / 2))
  /-- `atan2(±y, +∞)` is `±0` for finite `y` -/
  right : ∀ y : Flt F, y.isFinite → f y (inf F false) = some (zero F y.sign)
  /-- `atan2(±y, -∞)` is `±π` for finite `y` -/
  left : ∀ y : Flt F, y.isFinite → ∃ r, f y (inf F true) = some r ∧ WithinUlp 1 r (signed y.sign Real.pi)
  /-- `atan2(±∞, x)` is `±π/2` for finite `x` -/
  up : ∀ s, ∀ x : Flt F, x.isFinite → ∃ r, f (inf F s) x = some r ∧ WithinUlp 1 r (signed s (Real.pi / 2))
  /-- `atan2(±∞, +∞)` is `±π/4`, `atan2(±∞, -∞)` is `±3π/4` -/
  corner : ∀ s t, ∃ r, f (inf F s) (inf F t) = some r ∧
    WithinUlp 1 r (signed s (if t then 3 * Real.pi / 4 else Real.pi / 4))

namespace Atan2

/-- the two sign bits of `(y, x)` as in atan2.rs -/
def mOf (sy sx : Bool) : BitVec 32 := (if sy then 1#32 else 0#32) ||| (if sx then 2#32 else 0#32)

theorem mOf_ff : mOf false false = 0#32 := rfl
theorem mOf_tf : mOf true false = 1#32 := rfl
theorem mOf_ft : mOf false true = 2#32 := rfl
theorem mOf_tt : mOf true true = 3#32 := rfl

macro "m_simp" : tactic => `(tactic| simp only [mOf_ff, mOf_tf, mOf_ft, mOf_tt, Flt.flip, BitVec.reduceAnd, BitVec.reduceEq,
  ne_eq, not_true_eq_false, not_false_eq_true, if_true, if_false, or_self, or_true, true_or, Bool.false_eq_true, or_false, false_or])

theorem shr_sign {w : BitVec 32} {s : Bool} (h : w >>> 31 ≠ 0 ↔ s = true) :
    (w >>> 31) &&& 1#32 = (if s then 1#32 else 0#32) ∧ (w >>> 30) &&& 2#32 = (if s then 2#32 else 0#32) := by
  have e : w >>> 31 = if w.getLsbD 31 then 1#32 else 0#32 := by
    apply BitVec.eq_of_getLsbD_eq
    intro i hi
    rw [BitVec.getLsbD_ushiftRight]
    rcases Nat.eq_zero_or_pos i with rfl | hi'
    · cases w.getLsbD 31 <;> rfl
    · rw [BitVec.getLsbD_of_ge _ _ (by omega)]
      split_ifs
      · interval_cases i <;> rfl
      · simp
  have hs : s = w.getLsbD 31 := by
    rw [e] at h
    cases s <;> cases hw : w.getLsbD 31 <;> simp_all
  constructor
  · rw [e, hs]; split_ifs <;> rfl
  · rw [hs]
    apply BitVec.eq_of_getLsbD_eq
    intro i hi
    rw [BitVec.getLsbD_and, BitVec.getLsbD_ushiftRight]
    cases hw : w.getLsbD 31
    · by_cases h1 : i = 1
      · subst h1; rw [hw]; rfl
      · have : (2#32).getLsbD i = false := by interval_cases i <;> first | rfl | exact absurd rfl h1
        simp [this]
    · by_cases h1 : i = 1
      · subst h1; rw [hw]; rfl
      · have : (2#32).getLsbD i = false := by interval_cases i <;> first | rfl | exact absurd rfl h1
        simp [this]

theorem m64 (y x : Flt f64) : ((BitVec.setWidth 32 (y.u64 >>> 32) >>> 31) &&& 1#32 ||| (BitVec.setWidth 32 (x.u64 >>> 32) >>> 30) &&& 2#32) =
    mOf y.sign x.sign := by
  rw [(shr_sign (hi_sign_ne' y)).1, (shr_sign (hi_sign_ne' x)).2]; rfl

theorem m32 (y x : Flt f32) : ((y.u32 >>> 31) &&& 1#32 ||| (x.u32 >>> 30) &&& 2#32) = mOf y.sign x.sign := by
  rw [(shr_sign (u32_sign_ne y)).1, (shr_sign (u32_sign_ne x)).2]; rfl

theorem or_zero (x : Flt f64) : (BitVec.setWidth 32 (x.u64 >>> 32) &&& 0x7fffffff#32) ||| BitVec.setWidth 32 x.u64 = 0#32 ↔ x.mb = 0 := by
  have h1 : (BitVec.setWidth 32 (x.u64 >>> 32) &&& 0x7fffffff#32).toNat = x.mb / 2 ^ 32 := hi_abs x
  have h2 : (BitVec.setWidth 32 x.u64).toNat = x.mb % 2 ^ 32 := lo_toNat x
  rw [BitVec.or_eq_zero_iff, ← BitVec.toNat_inj, ← BitVec.toNat_inj, h1, h2]
  show x.mb / 2 ^ 32 = 0 ∧ x.mb % 2 ^ 32 = 0 ↔ _
  omega

theorem hi_inf {x : Flt f64} (hx : ¬ x.isNaN) : BitVec.setWidth 32 (x.u64 >>> 32) &&& 0x7fffffff#32 = 0x7ff00000#32 ↔ x.isInf := by
  have h1 : (BitVec.setWidth 32 (x.u64 >>> 32) &&& 0x7fffffff#32).toNat = x.mb / 2 ^ 32 := hi_abs x
  rw [← BitVec.toNat_inj, h1, isInf64]
  rw [isNaN64] at hx
  show x.mb / 2 ^ 32 = 0x7ff00000 ↔ _
  omega

theorem inf32 {x : Flt f32} : x.u32 &&& 0x7fffffff#32 = 0x7f800000#32 ↔ x.isInf := by
  rw [eq32_iff, isInf32]; rfl

theorem is_one (x : Flt f64) : BitVec.setWidth 32 (x.u64 >>> 32) - 0x3ff00000#32 ||| BitVec.setWidth 32 x.u64 = 0#32 ↔ x = one f64 := by
  have h1 : (BitVec.setWidth 32 (x.u64 >>> 32)).toNat = _ := hi_toNat x
  have h2 : (BitVec.setWidth 32 x.u64).toNat = x.mb % 2 ^ 32 := lo_toNat x
  generalize BitVec.setWidth 32 (x.u64 >>> 32) = a at *
  generalize BitVec.setWidth 32 x.u64 = b at *
  have e : a - 0x3ff00000#32 ||| b = 0#32 ↔ a = 0x3ff00000#32 ∧ b = 0#32 := by
    rw [BitVec.or_eq_zero_iff]
    constructor
    · rintro ⟨h, h'⟩; exact ⟨by rw [← sub_eq_zero]; exact h, h'⟩
    · rintro ⟨h, h'⟩; exact ⟨by rw [h]; rfl, h'⟩
  have hm := x.mb_lt
  have h3 : f64.ew + f64.sb = 63 := by decide
  rw [h3] at hm
  rw [e, ← BitVec.toNat_inj, ← BitVec.toNat_inj, h1, h2]
  constructor
  · rintro ⟨h, h'⟩
    have g : (0x3ff00000#32).toNat = 0x3ff00000 := rfl
    have g' : (0#32).toNat = 0 := rfl
    rw [g] at h; rw [g'] at h'
    cases hs : x.sign
    · rw [hs] at h
      simp only [Bool.false_eq_true, if_false] at h
      exact ext_mb (by rw [hs]; rfl) (by rw [show (one f64).mb = 0x3ff0000000000000 by decide +kernel]; omega)
    · rw [hs] at h
      simp only [if_true] at h
      omega
  · rintro rfl
    decide +kernel

theorem is_one32 (x : Flt f32) : x.u32 = 0x3f800000#32 ↔ x = one f32 := by
  constructor
  · intro h
    have h1 := bits32_u32 x
    rw [h] at h1
    rw [← h1]
    decide +kernel
  · rintro rfl; decide +kernel

/-- the special cases, then the quotient -/
theorem eq64 {y x : Flt f64} (hy : ¬ y.isNaN) (hx : ¬ x.isNaN) : atan2 y x =
    if x = one f64 then atan y
    else if y.isZero then if x.sign then some (flip y.sign pi) else some y
    else if x.isZero then some (flip y.sign (pi / 2.0))
    else if x.isInf then
      if y.isInf then some (flip y.sign (if x.sign then 3.0 * pi / 4.0 else pi / 4.0))
      else some (flip y.sign (if x.sign then pi else 0.0))
    else quot y x (BitVec.setWidth 32 (y.u64 >>> 32) &&& 0x7fffffff#32) (BitVec.setWidth 32 (x.u64 >>> 32) &&& 0x7fffffff#32)
      (mOf y.sign x.sign) := by
  have e1 : -pi / 2.0 = -(pi / 2.0) := by decide +kernel
  have e2 : -pi / 4.0 = -(pi / 4.0) := by decide +kernel
  have e3 : -3.0 * pi / 4.0 = -(3.0 * pi / 4.0) := by decide +kernel
  unfold atan2
  rw [if_neg (not_or.2 ⟨hx, hy⟩)]
  dsimp only
  rw [m64]
  simp only [BitVec.ofNat_eq_ofNat, is_one, or_zero, hi_inf hx, hi_inf hy, ← isZero_iff, e1, e2, e3]
  cases y.sign <;> cases x.sign <;> m_simp

theorem eq32 {y x : Flt f32} (hy : ¬ y.isNaN) (hx : ¬ x.isNaN) : atan2f y x =
    if x = one f32 then atanf y
    else if y.isZero then if x.sign then some (flip y.sign Atan2f.pi) else some y
    else if x.isZero then some (flip y.sign (Atan2f.pi / 2.0))
    else if x.isInf then
      if y.isInf then some (flip y.sign (if x.sign then 3.0 * Atan2f.pi / 4.0 else Atan2f.pi / 4.0))
      else some (flip y.sign (if x.sign then Atan2f.pi else 0.0))
    else Atan2f.quot y x (y.u32 &&& 0x7fffffff#32) (x.u32 &&& 0x7fffffff#32) (mOf y.sign x.sign) := by
  have e1 : -Atan2f.pi / 2.0 = -(Atan2f.pi / 2.0) := by decide +kernel
  have e2 : -Atan2f.pi / 4.0 = -(Atan2f.pi / 4.0) := by decide +kernel
  have e3 : -3.0 * Atan2f.pi / 4.0 = -(3.0 * Atan2f.pi / 4.0) := by decide +kernel
  have z (w : Flt f32) : w.u32 &&& 0x7fffffff#32 = 0#32 ↔ w.isZero := by rw [eq32_iff, isZero_iff]; rfl
  unfold atan2f
  rw [if_neg (not_or.2 ⟨hx, hy⟩)]
  dsimp only
  rw [m32]
  simp only [BitVec.ofNat_eq_ofNat, is_one32, z, inf32, e1, e2, e3]
  cases y.sign <;> cases x.sign <;> m_simp

theorem quot_tot (y x : Flt f64) (a b c : BitVec 32) : ∃ r, quot y x a b c = some r := by
  unfold quot
  by_cases h : b + (64#32 <<< 20) < a ∨ a = 0x7ff00000#32
  · rw [if_pos h]
    by_cases h' : c &&& 1#32 ≠ 0#32
    · exact ⟨_, if_pos h'⟩
    · exact ⟨_, if_neg h'⟩
  · rw [if_neg h]
    refine map_total ?_
    by_cases h' : c &&& 2#32 ≠ 0#32 ∧ a + (64#32 <<< 20) < b
    · exact ⟨_, if_pos h'⟩
    · rw [if_neg h']
      exact atan_tot _

theorem uadd_tot {a : BitVec 32} (h : a.toNat < 2 ^ 31) : uadd a (26#32 <<< 23) = some (a + (26#32 <<< 23)) := by
  unfold uadd
  rw [if_pos]
  have : (26#32 <<< 23).toNat = 26 * 2 ^ 23 := by decide
  omega

theorem quotf_tot' (y x : Flt f32) {a b : BitVec 32} (ha : a.toNat < 2 ^ 31) (hb : b.toNat < 2 ^ 31) (c : BitVec 32) :
    ∃ r, Atan2f.quot y x a b c = some r := by
  unfold Atan2f.quot
  rw [uadd_tot hb, uadd_tot ha, Option.bind_some, Option.bind_some]
  by_cases h : b + (26#32 <<< 23) < a ∨ a = 0x7f800000#32
  · rw [if_pos h]
    by_cases h' : c &&& 1#32 ≠ 0#32
    · exact ⟨_, if_pos h'⟩
    · exact ⟨_, if_neg h'⟩
  · rw [if_neg h]
    refine map_total ?_
    obtain ⟨r, hr⟩ := atanf_tot (Generic.fabs (y / x))
    rw [hr]
    split_ifs <;> exact ⟨_, rfl⟩

theorem quotf_tot (y x : Flt f32) (c : BitVec 32) : ∃ r, Atan2f.quot y x (y.u32 &&& 0x7fffffff#32) (x.u32 &&& 0x7fffffff#32) c = some r :=
  quotf_tot' y x (by rw [u32_abs]; exact y.mb_lt) (by rw [u32_abs]; exact x.mb_lt) c

/-- with `y` infinite and `x` finite the quotient is not formed -/
theorem quot_inf (y x : Flt f64) (b : BitVec 32) (sy sx : Bool) :
    quot y x 0x7ff00000#32 b (mOf sy sx) = some (flip sy (pi / 2.0)) := by
  have e1 : -pi / 2.0 = -(pi / 2.0) := by decide +kernel
  unfold quot
  simp only [or_true, if_true, e1]
  cases sy <;> cases sx <;> m_simp

theorem quotf_inf (y x : Flt f32) {b : BitVec 32} (hb : b.toNat < 2 ^ 31) (sy sx : Bool) :
    Atan2f.quot y x 0x7f800000#32 b (mOf sy sx) = some (flip sy (Atan2f.pi / 2.0)) := by
  have e1 : -Atan2f.pi / 2.0 = -(Atan2f.pi / 2.0) := by decide +kernel
  unfold Atan2f.quot
  rw [uadd_tot hb, Option.bind_some]
  simp only [or_true, if_true, e1]
  cases sy <;> cases sx <;> m_simp

theorem not_nan_zero {F : Fmt} {x : Flt F} (h : x.isZero) : ¬ x.isNaN := by
  rw [eq_zero h]; exact not_nan_of_finite (by simp)

theorem flip_ulp {F : Fmt} {r : Flt F} {t : ℝ} (h : WithinUlp 1 r t) (s : Bool) : WithinUlp 1 (flip s r) (signed s t) := by
  cases s
  · simpa [Flt.flip, signed] using h
  · simpa [Flt.flip, signed] using h.neg

end Atan2
open Atan2

theorem atan2_special : IsAtan2 atan2 where
  total y x := by
    by_cases h : x.isNaN ∨ y.isNaN
    · exact ⟨_, by unfold atan2; rw [if_pos h]⟩
    · rw [eq64 (fun h' => h (Or.inr h')) (fun h' => h (Or.inl h'))]
      by_cases h1 : x = one f64
      · rw [if_pos h1]; exact atan_tot _
      · rw [if_neg h1]
        obtain ⟨q, hq⟩ := quot_tot y x (BitVec.setWidth 32 (y.u64 >>> 32) &&& 0x7fffffff#32)
          (BitVec.setWidth 32 (x.u64 >>> 32) &&& 0x7fffffff#32) (mOf y.sign x.sign)
        rw [hq]
        split_ifs <;> exact ⟨_, rfl⟩
  nan y x h := ⟨x + y, by unfold atan2; rw [if_pos h.symm], by rw [add_nan h.symm]; exact isNaN_qnan⟩
  zero_pos y x hy hx hs := by
    rw [eq64 (not_nan_zero hy) hx, if_pos hy, hs, if_neg (by decide : ¬ false = true)]
    split_ifs
    · exact atan_special.zero y hy
    · rfl
  zero_neg y x hy hx hs := by
    refine ⟨_, ?_, flip_ulp pi_ulp y.sign⟩
    rw [eq64 (not_nan_zero hy) hx, if_neg (by rintro rfl; exact absurd hs (by decide)), if_pos hy, if_pos hs]
    rw [show pi = bits64 0x400921fb54442d18 by decide +kernel]
  vertical y x hn hy hx := by
    refine ⟨_, ?_, flip_ulp (pio2_ulp.mono (by norm_num)) y.sign⟩
    rw [eq64 hn (not_nan_zero hx), if_neg (by rintro rfl; exact absurd hx (by decide +kernel)), if_neg hy, if_pos hx]
    rw [show pi / 2.0 = bits64 0x3ff921fb54442d18 by decide +kernel]
  right y hy := by
    rw [eq64 (not_nan_of_finite hy) (by decide +kernel), if_neg (by decide +kernel)]
    by_cases hz : y.isZero
    · rw [if_pos hz, if_neg (by decide +kernel), ← eq_zero hz]
    · rw [if_neg hz, if_neg (by decide +kernel), if_pos (by decide +kernel), if_neg (not_inf_of_finite hy), if_neg (by decide +kernel)]
      cases y.sign <;> decide +kernel
  left y hy := by
    refine ⟨_, ?_, flip_ulp pi_ulp y.sign⟩
    rw [← show pi = bits64 0x400921fb54442d18 by decide +kernel]
    rw [eq64 (not_nan_of_finite hy) (by decide +kernel), if_neg (by decide +kernel)]
    by_cases hz : y.isZero
    · rw [if_pos hz, if_pos (by decide +kernel)]
    · rw [if_neg hz, if_neg (by decide +kernel), if_pos (by decide +kernel), if_neg (not_inf_of_finite hy), if_pos (by decide +kernel)]
  up s x hx := by
    refine ⟨_, ?_, flip_ulp (pio2_ulp.mono (by norm_num)) s⟩
    rw [← show pi / 2.0 = bits64 0x3ff921fb54442d18 by decide +kernel]
    rw [eq64 (by cases s <;> decide +kernel) (not_nan_of_finite hx)]
    have es : (inf f64 s).sign = s := by cases s <;> decide +kernel
    split_ifs with h1 h2 h3 h4 h5
    · cases s <;> decide +kernel
    · cases s <;> exact absurd h2 (by decide +kernel)
    · cases s <;> exact absurd h2 (by decide +kernel)
    · rw [es]
    all_goals try exact absurd h5 (not_inf_of_finite hx)
    · have : BitVec.setWidth 32 ((inf f64 s).u64 >>> 32) &&& 0x7fffffff#32 = 0x7ff00000#32 :=
        (hi_inf (by cases s <;> decide +kernel)).2 (by cases s <;> decide +kernel)
      rw [this, quot_inf, es]
  corner s t := by
    refine ⟨flip s (if t then bits64 0x4002d97c7f3321d2 else bits64 0x3fe921fb54442d18), ?_, ?_⟩
    · cases s <;> cases t <;> decide +kernel
    · cases t
      · exact flip_ulp pio4_ulp s
      · exact flip_ulp pio34_ulp s

theorem atan2f_special : IsAtan2 atan2f where
  total y x := by
    by_cases h : x.isNaN ∨ y.isNaN
    · exact ⟨_, by unfold atan2f; rw [if_pos h]⟩
    · rw [eq32 (fun h' => h (Or.inr h')) (fun h' => h (Or.inl h'))]
      by_cases h1 : x = one f32
      · rw [if_pos h1]; exact atanf_tot _
      · rw [if_neg h1]
        obtain ⟨q, hq⟩ := quotf_tot y x (mOf y.sign x.sign)
        rw [hq]
        split_ifs <;> exact ⟨_, rfl⟩
  nan y x h := ⟨x + y, by unfold atan2f; rw [if_pos h.symm], by rw [add_nan h.symm]; exact isNaN_qnan⟩
  zero_pos y x hy hx hs := by
    rw [eq32 (not_nan_zero hy) hx, if_pos hy, hs, if_neg (by decide : ¬ false = true)]
    split_ifs
    · exact atanf_special.zero y hy
    · rfl
  zero_neg y x hy hx hs := by
    refine ⟨_, ?_, flip_ulp pif_ulp.1 y.sign⟩
    rw [eq32 (not_nan_zero hy) hx, if_neg (by rintro rfl; exact absurd hs (by decide)), if_pos hy, if_pos hs]
    rw [show Atan2f.pi = bits32 0x40490fdb by decide +kernel]
  vertical y x hn hy hx := by
    refine ⟨_, ?_, flip_ulp (pio2f_ulp.1.mono (by norm_num)) y.sign⟩
    rw [eq32 hn (not_nan_zero hx), if_neg (by rintro rfl; exact absurd hx (by decide +kernel)), if_neg hy, if_pos hx]
    rw [show Atan2f.pi / 2.0 = bits32 0x3fc90fdb by decide +kernel]
  right y hy := by
    rw [eq32 (not_nan_of_finite hy) (by decide +kernel), if_neg (by decide +kernel)]
    by_cases hz : y.isZero
    · rw [if_pos hz, if_neg (by decide +kernel), ← eq_zero hz]
    · rw [if_neg hz, if_neg (by decide +kernel), if_pos (by decide +kernel), if_neg (not_inf_of_finite hy), if_neg (by decide +kernel)]
      cases y.sign <;> decide +kernel
  left y hy := by
    refine ⟨_, ?_, flip_ulp pif_ulp.1 y.sign⟩
    rw [← show Atan2f.pi = bits32 0x40490fdb by decide +kernel]
    rw [eq32 (not_nan_of_finite hy) (by decide +kernel), if_neg (by decide +kernel)]
    by_cases hz : y.isZero
    · rw [if_pos hz, if_pos (by decide +kernel)]
    · rw [if_neg hz, if_neg (by decide +kernel), if_pos (by decide +kernel), if_neg (not_inf_of_finite hy), if_pos (by decide +kernel)]
  up s x hx := by
    have es : (inf f32 s).sign = s := by cases s <;> decide +kernel
    by_cases h1 : x = one f32
    · subst h1
      refine ⟨_, ?_, flip_ulp pio2f_ulp.2 s⟩
      cases s <;> decide +kernel
    refine ⟨_, ?_, flip_ulp (pio2f_ulp.1.mono (by norm_num)) s⟩
    rw [← show Atan2f.pi / 2.0 = bits32 0x3fc90fdb by decide +kernel]
    rw [eq32 (by cases s <;> decide +kernel) (not_nan_of_finite hx), if_neg h1]
    split_ifs with h2 h3 h4 h5
    · cases s <;> exact absurd h2 (by decide +kernel)
    · cases s <;> exact absurd h2 (by decide +kernel)
    · rw [es]
    all_goals try exact absurd h5 (not_inf_of_finite hx)
    · have : (inf f32 s).u32 &&& 0x7fffffff#32 = 0x7f800000#32 := inf32.2 (by cases s <;> decide +kernel)
      rw [this, quotf_inf _ _ (by rw [u32_abs]; exact x.mb_lt), es]
  corner s t := by
    refine ⟨flip s (if t then bits32 0x4016cbe4 else bits32 0x3f490fdb), ?_, ?_⟩
    · cases s <;> cases t <;> decide +kernel
    · cases t
      · exact flip_ulp pio4f_ulp s
      · exact flip_ulp pio34f_ulp s

end Verif
