import Verif.Theory.RplArg
import Verif.Props.Log

/-!
# C37, C34: the argument reduction always returns; domains of the trigonometric functions
-/

namespace Verif
open Flt

/-! ## C37 -/

/-- The reductions of the code, with the table for 64-bit targets (`wide`) or the one for 32-bit targets.  In the model a
table lookup or an array access out of bounds, an overflow, or a loop that does not stop, is `none`. -/
def rplTable (wide : Bool) : List ℤ := if wide then Rpl.ipio2 else Rpl.ipio2Narrow

theorem goodTable (wide : Bool) : Rpl.GoodTbl (rplTable wide) := by
  cases wide
  · exact Rpl.goodTbl_narrow
  · exact Rpl.goodTbl_wide

/-- **C37** (f64): the reduction of a large finite double returns, whatever the target; the quadrant is between 0 and 7
(for a negative argument, between -7 and 0) and the remainder is finite. -/
theorem rem_pio2_large_total (wide : Bool) (x : Flt f64) (hx : x.isFinite) (hbig : 0x413921fb00000000 ≤ x.mb) :
    ∃ n y0 y1, remPio2With (rplTable wide) x = some (n, y0, y1) ∧ y0.isFinite ∧ y1.isFinite ∧
      (x.sign = false → 0 ≤ n ∧ n ≤ 7) ∧ (x.sign = true → -7 ≤ n ∧ n ≤ 0) := by
  have hfin := (isFinite64 x).1 hx
  have hix := hi_abs x
  obtain ⟨n, y, y1, h, hy1, ⟨e0, jv, q0, n', y', jz, B, G, jz', d, sg, -, -, -, hr, hn, hy⟩⟩ :=
    Rpl.large64 (goodTable wide) x hx (by omega)
  refine ⟨n, y, y1, ?_, ?_, hy1, ?_, ?_⟩
  · rw [remPio2With]
    rw [if_neg (by rw [BitVec.le_def, hix]; show ¬ _ ≤ 0x400f6a7a; omega),
      if_neg (by rw [BitVec.le_def, hix]; show ¬ _ ≤ 0x401c463b; omega),
      if_neg (by rw [BitVec.lt_def, hix]; show ¬ _ < 0x413921fb; omega),
      if_neg (by show ¬ (0x7ff00000#32 ≤ _); rw [BitVec.le_def, hix]; show ¬ 0x7ff00000 ≤ _; omega)]
    exact h
  · rw [hy]
    split_ifs
    · exact (isFinite_neg _).2 hr.fin
    · exact hr.fin
  · intro hs
    rw [hn, hs]
    exact ⟨hr.n0, hr.n7⟩
  · intro hs
    rw [hn, hs]
    have h0 := hr.n0
    have h7 := hr.n7
    simp only [if_true]
    omega

/-- **C37** (f32) -/
theorem rem_pio2f_large_total (wide : Bool) (x : Flt f32) (hx : x.isFinite) (hbig : 0x4dc90fdb ≤ x.mb) :
    ∃ n y, remPio2fWith (rplTable wide) x = some (n, y) ∧ y.isFinite ∧
      (x.sign = false → 0 ≤ n ∧ n ≤ 7) ∧ (x.sign = true → -7 ≤ n ∧ n ≤ 0) := by
  obtain ⟨n, y, h, ⟨e0, jv, q0, n', y', jz, B, G, jz', d, sg, -, -, -, hr, hn, hy⟩⟩ :=
    Rpl.large32 (goodTable wide) x hx hbig
  refine ⟨n, y, h, ?_, ?_, ?_⟩
  · rw [hy]
    split_ifs
    · exact (isFinite_neg _).2 hr.fin
    · exact hr.fin
  · intro hs
    rw [hn, hs]
    exact ⟨hr.n0, hr.n7⟩
  · intro hs
    rw [hn, hs]
    have h0 := hr.n0
    have h7 := hr.n7
    simp only [if_true]
    omega

/-- the hypotheses are met by the largest doubles and floats -/
example : (bits64 0xffefffffffffffff).isFinite ∧ 0x413921fb00000000 ≤ (bits64 0xffefffffffffffff).mb ∧
    (bits32 0x7f7fffff).isFinite ∧ 0x4dc90fdb ≤ (bits32 0x7f7fffff).mb := by decide +kernel

/-- the reduction returns for every double -/
theorem rem_pio2_total (wide : Bool) (x : Flt f64) : ∃ n y0 y1, remPio2With (rplTable wide) x = some (n, y0, y1) := by
  by_cases hx : x.isFinite ∧ 0x413921fb00000000 ≤ x.mb
  · obtain ⟨n, y0, y1, h, -⟩ := rem_pio2_large_total wide x hx.1 hx.2
    exact ⟨n, y0, y1, h⟩
  · have hix := hi_abs x
    rw [remPio2With]
    split_ifs with h1 h2 h3 h4 h5 h6 h7 h8 h9
    all_goals try exact ⟨_, _, _, rfl⟩
    exfalso
    apply hx
    rw [isFinite64]
    rw [BitVec.lt_def, hix] at h8
    have h8 : ¬ x.mb / 2 ^ 32 < 0x413921fb := h8
    have h9 : ¬ (0x7ff00000#32 ≤ getHighWord x &&& 0x7fffffff#32) := h9
    rw [BitVec.le_def, hix] at h9
    have h9 : ¬ 0x7ff00000 ≤ x.mb / 2 ^ 32 := h9
    omega

/-- the reduction returns for every float -/
theorem rem_pio2f_total (wide : Bool) (x : Flt f32) : ∃ n y, remPio2fWith (rplTable wide) x = some (n, y) := by
  by_cases hx : x.isFinite ∧ 0x4dc90fdb ≤ x.mb
  · obtain ⟨n, y, h, -⟩ := rem_pio2f_large_total wide x hx.1 hx.2
    exact ⟨n, y, h⟩
  · have hix := u32_abs x
    rw [remPio2fWith]
    simp only
    by_cases h1 : x.u32 &&& 0x7fffffff#32 < 0x4dc90fdb#32
    · rw [if_pos h1]
      exact ⟨_, _, rfl⟩
    · rw [if_neg h1, if_pos]
      · exact ⟨_, _, rfl⟩
      · by_contra h9
        apply hx
        rw [isFinite32]
        rw [BitVec.lt_def, hix] at h1
        have h1 : ¬ x.mb < 0x4dc90fdb := h1
        have h9 : ¬ (0x7f800000#32 ≤ x.u32 &&& 0x7fffffff#32) := h9
        rw [BitVec.le_def, hix] at h9
        have h9 : ¬ 0x7f800000 ≤ x.mb := h9
        omega

/-! ## C34 -/

/-- The argument domain of a trigonometric function `f`: it always returns (in particular no branch marked unreachable is
reached), infinities and NaN give NaN, and an argument below `2^t` is returned unchanged, or gives one if `f` is even. -/
structure IsTrig {F : Fmt} (f : Flt F → Option (Flt F)) (t : ℤ) (even : Bool) : Prop where
  total : ∀ x, ∃ r, f x = some r
  nan : ∀ x, x.isNaN ∨ x.isInf → ∃ r, f x = some r ∧ r.isNaN
  tiny : ∀ x, x.isFinite → |x.val| < 2 ^ t → f x = some (if even then one F else x)

namespace Trig

/-- the branches of `sin`, `cos`, `tan` and `sincos`, on the encoding of the argument -/
theorem ix_le (x : Flt f64) (c : BitVec 32) : getHighWord x &&& 0x7fffffff#32 ≤ c ↔ x.mb < (c.toNat + 1) * 2 ^ 32 := by
  rw [BitVec.le_def, hi_abs, ← Nat.lt_succ_iff, Nat.div_lt_iff_lt_mul (by norm_num)]

theorem ix_lt (x : Flt f64) (c : BitVec 32) : getHighWord x &&& 0x7fffffff#32 < c ↔ x.mb < c.toNat * 2 ^ 32 := by
  rw [BitVec.lt_def, hi_abs, Nat.div_lt_iff_lt_mul (by norm_num)]

theorem ix_ge (x : Flt f64) (c : BitVec 32) : getHighWord x &&& 0x7fffffff#32 ≥ c ↔ c.toNat * 2 ^ 32 ≤ x.mb := by
  show c ≤ _ ↔ _
  rw [BitVec.le_def, hi_abs, Nat.le_div_iff_mul_le (by norm_num)]

theorem nf64 {x : Flt f64} (h : x.isNaN ∨ x.isInf) : 0x7ff0000000000000 ≤ x.mb := by
  rw [isNaN64, isInf64] at h
  omega

theorem nf32 {x : Flt f32} (h : x.isNaN ∨ x.isInf) : 0x7f800000 ≤ x.mb := by
  rw [isNaN32, isInf32] at h
  omega

theorem sub_self_nan {F : Fmt} {x : Flt F} (h : x.isNaN ∨ x.isInf) : (x - x).isNaN := by
  rcases h with h | h
  · rw [sub_nan (Or.inl h)]
    exact isNaN_qnan
  · rw [inf_sub_inf h h rfl]
    exact isNaN_qnan

theorem mb_of_tiny64 {x : Flt f64} {E : ℕ} (hE : 1 ≤ E) (h : |x.val| < 2 ^ ((E : ℤ) - 1023)) : x.mb < E * 2 ^ 52 := by
  by_contra hc
  have := val_ge_of_mb (F := f64) (x := x) hE (by rw [f64_sb]; omega)
  rw [f64_bias] at this
  exact absurd h (not_lt.2 this)

theorem mb_of_tiny32 {x : Flt f32} {E : ℕ} (hE : 1 ≤ E) (h : |x.val| < 2 ^ ((E : ℤ) - 127)) : x.mb < E * 2 ^ 23 := by
  by_contra hc
  have := val_ge_of_mb (F := f32) (x := x) hE (by rw [f32_sb]; omega)
  rw [f32_bias] at this
  exact absurd h (not_lt.2 this)

theorem and3_cases (n : ℤ) : and3 n = 0 ∨ and3 n = 1 ∨ and3 n = 2 ∨ and3 n = 3 := by
  unfold and3 Rpl.and32
  have h : ∀ b : BitVec 32, (b &&& BitVec.ofInt 32 3).toNat ≤ 3 := by
    intro b
    rw [BitVec.toNat_and]
    exact Nat.and_le_right
  have := h (BitVec.ofInt 32 n)
  rw [BitVec.toInt_eq_toNat_of_lt (by omega)]
  omega

theorem one64 : (1.0 : Flt f64) = one f64 := by decide +kernel
theorem one32 : (1.0 : Flt f32) = one f32 := by decide +kernel

end Trig
open Trig

theorem sin_trig : IsTrig sin (-26) false where
  total x := by
    obtain ⟨n, y0, y1, h⟩ := rem_pio2_total true x
    rw [sin]
    simp only
    rw [remPio2, show Rpl.ipio2 = rplTable true from rfl, h]
    split_ifs <;> exact ⟨_, rfl⟩
  nan x hx := by
    have h := nf64 hx
    refine ⟨x - x, ?_, sub_self_nan hx⟩
    rw [sin]
    simp only
    rw [if_neg (by rw [ix_le]; show ¬ _ < 0x3fe921fc * 2 ^ 32; omega),
      if_pos (by rw [ix_ge]; show 0x7ff00000 * 2 ^ 32 ≤ _; omega)]
  tiny x hx h := by
    have h := mb_of_tiny64 (x := x) (E := 997) (by norm_num) h
    rw [sin]
    simp only
    rw [if_pos (by rw [ix_le]; show _ < 0x3fe921fc * 2 ^ 32; omega),
      if_pos (by rw [ix_lt]; show _ < 0x3e500000 * 2 ^ 32; omega)]
    rfl

theorem tan_trig : IsTrig tan (-27) false where
  total x := by
    obtain ⟨n, y0, y1, h⟩ := rem_pio2_total true x
    rw [tan]
    simp only
    rw [remPio2, show Rpl.ipio2 = rplTable true from rfl, h]
    split_ifs <;> exact ⟨_, rfl⟩
  nan x hx := by
    have h := nf64 hx
    refine ⟨x - x, ?_, sub_self_nan hx⟩
    rw [tan]
    simp only
    rw [if_neg (by rw [ix_le]; show ¬ _ < 0x3fe921fc * 2 ^ 32; omega),
      if_pos (by rw [ix_ge]; show 0x7ff00000 * 2 ^ 32 ≤ _; omega)]
  tiny x hx h := by
    have h := mb_of_tiny64 (x := x) (E := 996) (by norm_num) h
    rw [tan]
    simp only
    rw [if_pos (by rw [ix_le]; show _ < 0x3fe921fc * 2 ^ 32; omega),
      if_pos (by rw [ix_lt]; show _ < 0x3e400000 * 2 ^ 32; omega)]
    rfl

/-- the cast in `cos` -/
theorem Trig.toSInt_tiny {x : Flt f64} (h : x.mb < 0x3ff0000000000000) : x.toSInt 32 = 0 := by
  have hf : x.isFinite := by rw [isFinite64]; omega
  have hv : |x.val| < 1 := by
    have := val_lt_of_mb (F := f64) (x := x) (E := 1023) (by norm_num) (by rw [f64_sb]; omega)
    rw [f64_bias] at this
    simpa using this
  rw [toSInt_eq hf (hv.trans_le (by norm_num))]
  have : ⌊|x.val|⌋ = 0 := by
    rw [Int.floor_eq_zero_iff]
    exact ⟨abs_nonneg _, hv⟩
  rw [this]
  split_ifs <;> rfl

theorem cos_trig : IsTrig cos (-27) true where
  total x := by
    obtain ⟨n, y0, y1, h⟩ := rem_pio2_total true x
    rw [cos]
    simp only
    rw [remPio2, show Rpl.ipio2 = rplTable true from rfl, h]
    split_ifs <;> exact ⟨_, rfl⟩
  nan x hx := by
    have h := nf64 hx
    refine ⟨x - x, ?_, sub_self_nan hx⟩
    rw [cos]
    simp only
    rw [if_neg (by rw [ix_le]; show ¬ _ < 0x3fe921fc * 2 ^ 32; omega),
      if_pos (by rw [ix_ge]; show 0x7ff00000 * 2 ^ 32 ≤ _; omega)]
  tiny x hx h := by
    have h := mb_of_tiny64 (x := x) (E := 996) (by norm_num) h
    rw [cos]
    simp only
    rw [if_pos (by rw [ix_le]; show _ < 0x3fe921fc * 2 ^ 32; omega),
      if_pos ⟨by rw [ix_lt]; show _ < 0x3e46a09e * 2 ^ 32; omega, toSInt_tiny (by omega)⟩, one64]
    rfl

/-- the match of `sincos` covers every quadrant -/
theorem Trig.quad {α : Type} (n : ℤ) (a b c d : α) :
    ∃ r, (if and3 n = 0 then some a else if and3 n = 1 then some b else if and3 n = 2 then some c
      else if and3 n = 3 then some d else none) = some r := by
  rcases and3_cases n with h | h | h | h <;> rw [h] <;> exact ⟨_, rfl⟩

theorem sincos_total (x : Flt f64) : ∃ s c, sincos x = some (s, c) := by
  obtain ⟨n, y0, y1, h⟩ := rem_pio2_total true x
  rw [sincos]
  simp only
  rw [remPio2, show Rpl.ipio2 = rplTable true from rfl, h]
  simp only [Option.bind_some]
  obtain ⟨r, hr⟩ := quad n (kSin y0 y1 1, kCos y0 y1) (kCos y0 y1, -kSin y0 y1 1) (-kSin y0 y1 1, -kCos y0 y1) (-kCos y0 y1, kSin y0 y1 1)
  rw [hr]
  split_ifs <;> exact ⟨_, _, rfl⟩

theorem Trig.ix32_le (x : Flt f32) (c : BitVec 32) : x.u32 &&& 0x7fffffff#32 ≤ c ↔ x.mb ≤ c.toNat := by
  rw [BitVec.le_def, u32_abs]
theorem Trig.ix32_lt (x : Flt f32) (c : BitVec 32) : x.u32 &&& 0x7fffffff#32 < c ↔ x.mb < c.toNat := by
  rw [BitVec.lt_def, u32_abs]
theorem Trig.ix32_ge (x : Flt f32) (c : BitVec 32) : x.u32 &&& 0x7fffffff#32 ≥ c ↔ c.toNat ≤ x.mb := by
  show c ≤ _ ↔ _
  rw [BitVec.le_def, u32_abs]

theorem sinf_trig : IsTrig sinf (-12) false where
  total x := by
    obtain ⟨n, y, h⟩ := rem_pio2f_total true x
    rw [sinf]
    simp only
    rw [remPio2f, show Rpl.ipio2 = rplTable true from rfl, h]
    split_ifs <;> exact ⟨_, rfl⟩
  nan x hx := by
    have h := nf32 hx
    refine ⟨x - x, ?_, sub_self_nan hx⟩
    rw [sinf]
    simp only
    rw [if_neg (by rw [ix32_le]; show ¬ _ ≤ 0x3f490fda; omega), if_neg (by rw [ix32_le]; show ¬ _ ≤ 0x407b53d1; omega),
      if_neg (by rw [ix32_le]; show ¬ _ ≤ 0x40e231d5; omega), if_pos (by rw [ix32_ge]; show 0x7f800000 ≤ _; omega)]
  tiny x hx h := by
    have h := mb_of_tiny32 (x := x) (E := 115) (by norm_num) h
    rw [sinf]
    simp only
    rw [if_pos (by rw [ix32_le]; show _ ≤ 0x3f490fda; omega), if_pos (by rw [ix32_lt]; show _ < 0x39800000; omega)]
    rfl

theorem tanf_trig : IsTrig tanf (-12) false where
  total x := by
    obtain ⟨n, y, h⟩ := rem_pio2f_total true x
    rw [tanf]
    simp only
    rw [remPio2f, show Rpl.ipio2 = rplTable true from rfl, h]
    split_ifs <;> exact ⟨_, rfl⟩
  nan x hx := by
    have h := nf32 hx
    refine ⟨x - x, ?_, sub_self_nan hx⟩
    rw [tanf]
    simp only
    rw [if_neg (by rw [ix32_le]; show ¬ _ ≤ 0x3f490fda; omega), if_neg (by rw [ix32_le]; show ¬ _ ≤ 0x407b53d1; omega),
      if_neg (by rw [ix32_le]; show ¬ _ ≤ 0x40e231d5; omega), if_pos (by rw [ix32_ge]; show 0x7f800000 ≤ _; omega)]
  tiny x hx h := by
    have h := mb_of_tiny32 (x := x) (E := 115) (by norm_num) h
    rw [tanf]
    simp only
    rw [if_pos (by rw [ix32_le]; show _ ≤ 0x3f490fda; omega), if_pos (by rw [ix32_lt]; show _ < 0x39800000; omega)]
    rfl

theorem cosf_trig : IsTrig cosf (-12) true where
  total x := by
    obtain ⟨n, y, h⟩ := rem_pio2f_total true x
    rw [cosf]
    simp only
    rw [remPio2f, show Rpl.ipio2 = rplTable true from rfl, h]
    split_ifs <;> exact ⟨_, rfl⟩
  nan x hx := by
    have h := nf32 hx
    refine ⟨x - x, ?_, sub_self_nan hx⟩
    rw [cosf]
    simp only
    rw [if_neg (by rw [ix32_le]; show ¬ _ ≤ 0x3f490fda; omega), if_neg (by rw [ix32_le]; show ¬ _ ≤ 0x407b53d1; omega),
      if_neg (by rw [ix32_le]; show ¬ _ ≤ 0x40e231d5; omega), if_pos (by rw [ix32_ge]; show 0x7f800000 ≤ _; omega)]
  tiny x hx h := by
    have h := mb_of_tiny32 (x := x) (E := 115) (by norm_num) h
    rw [cosf]
    simp only
    rw [if_pos (by rw [ix32_le]; show _ ≤ 0x3f490fda; omega), if_pos (by rw [ix32_lt]; show _ < 0x39800000; omega), one32]
    rfl

theorem sincosf_total (x : Flt f32) : ∃ s c, sincosf x = some (s, c) := by
  obtain ⟨n, y, h⟩ := rem_pio2f_total true x
  rw [sincosf]
  simp only
  rw [remPio2f, show Rpl.ipio2 = rplTable true from rfl, h]
  simp only [Option.bind_some]
  obtain ⟨r, hr⟩ := quad n (kSinf y, kCosf y) (kCosf y, -kSinf y) (-kSinf y, -kCosf y) (-kCosf y, kSinf y)
  rw [hr]
  split_ifs <;> exact ⟨_, _, rfl⟩

/-- the hypotheses are met: negative NaN, infinity and subnormal arguments -/
example : (bits64 0xfff8000000000001).isNaN ∧ (bits32 0xff800000).isInf ∧ (bits64 0x8000000000000001).isFinite := by
  decide +kernel

end Verif
