import Verif.Theory.TrigDir

/-!
# C46: `sinf`, `cosf`, `tanf` and `sincosf` are accurate for every finite float
-/

namespace Verif
open Flt Trig

/-- A function of floats returns, for every finite argument, a finite float within `c` units in the
last place of the real function `g`. -/
def AccurateTo {F : Fmt} (c : ℝ) (f : Flt F → Option (Flt F)) (g : ℝ → ℝ) : Prop :=
  ∀ x : Flt F, x.isFinite → ∃ r, f x = some r ∧ WithinUlp c r (g ((x.toRat : ℚ) : ℝ))

namespace TrigAcc

theorem and_mask (n : ℤ) (k : ℕ) (hk : k ≤ 2) : Rpl.and32 n ((2 ^ k - 1 : ℕ) : ℤ) = n % 2 ^ k := by
  unfold Rpl.and32
  have h1 : (BitVec.ofInt 32 n &&& BitVec.ofInt 32 ((2 ^ k - 1 : ℕ) : ℤ)).toNat = (BitVec.ofInt 32 n).toNat % 2 ^ k := by
    rw [BitVec.toNat_and, BitVec.ofInt_natCast, BitVec.toNat_ofNat, Nat.mod_eq_of_lt (a := 2 ^ k - 1), Nat.and_two_pow_sub_one_eq_mod]
    have := Nat.pow_le_pow_right (show 0 < 2 by norm_num) hk
    omega
  have h2 : (BitVec.ofInt 32 n).toNat % 2 ^ k < 4 := by
    have := Nat.mod_lt (BitVec.ofInt 32 n).toNat (Nat.two_pow_pos k)
    have := Nat.pow_le_pow_right (show 0 < 2 by norm_num) hk
    omega
  rw [BitVec.toInt_eq_toNat_of_lt (by rw [h1]; omega), h1, BitVec.toNat_ofInt]
  interval_cases k <;> omega

theorem and3_eq (n : ℤ) : and3 n = n % 4 := and_mask n 2 le_rfl
theorem and1_eq (n : ℤ) : Rpl.and32 n 1 = n % 2 := and_mask n 1 (by norm_num)

/-- multiples of the double next to `π/2` -/
theorem pv1 : Trigf.pio2x1.val = (1 : ℤ) * ((884279719003555 : ℝ) * 2 ^ (-49 : ℤ)) := by rw [Trigf.pio2x1_val]; norm_num
theorem pv2 : Trigf.pio2x2.val = (2 : ℤ) * ((884279719003555 : ℝ) * 2 ^ (-49 : ℤ)) := by rw [Trigf.pio2x2_val]; norm_num
theorem pv3 : Trigf.pio2x3.val = (3 : ℤ) * ((884279719003555 : ℝ) * 2 ^ (-49 : ℤ)) := by rw [Trigf.pio2x3_val]; norm_num
theorem pv4 : Trigf.pio2x4.val = (4 : ℤ) * ((884279719003555 : ℝ) * 2 ^ (-49 : ℤ)) := by rw [Trigf.pio2x4_val]; norm_num
theorem s1_eq : Trigf.s1pio2 = Trigf.pio2x1 := by decide +kernel
theorem s2_eq : Trigf.s2pio2 = Trigf.pio2x2 := by decide +kernel
theorem s3_eq : Trigf.s3pio2 = Trigf.pio2x3 := by decide +kernel
theorem s4_eq : Trigf.s4pio2 = Trigf.pio2x4 := by decide +kernel
theorem pf1 : Trigf.pio2x1.isFinite := by decide +kernel
theorem pf2 : Trigf.pio2x2.isFinite := by decide +kernel
theorem pf3 : Trigf.pio2x3.isFinite := by decide +kernel
theorem pf4 : Trigf.pio2x4.isFinite := by decide +kernel

/-- no reduction -/
theorem near0 {x : Flt f32} (hx : x.isFinite) (h1 : 0x39800000 ≤ x.mb) (h2 : x.mb ≤ 0x3f490fda) : Near (x.cast f64) x.val := by
  obtain ⟨wf, wv⟩ := Hypotf.widen hx
  have hlo : (2 : ℝ) ^ (-12 : ℤ) ≤ |x.val| := by
    have := val_ge_of_mb (x := x) (E := 115) (by norm_num) (by rw [f32_sb]; omega)
    rw [f32_bias] at this
    norm_num at this ⊢; exact this
  have hhi : |x.val| ≤ 0.7854 := by
    have := val_mono (x := bits32 0x3f490fda) (y := x) (by rw [show (bits32 0x3f490fda).mb = 0x3f490fda by decide +kernel]; omega)
    refine this.trans ?_
    rw [val_const32 (x := bits32 0x3f490fda) 6588397 126 (-23) (by decide +kernel) (by norm_num), abs_of_pos (by norm_num)]
    norm_num
  refine ⟨wf, ?_, ?_, ?_, ?_⟩
  · rw [wv, sub_self, abs_zero]; positivity
  · rw [wv, sub_self, abs_zero]; positivity
  · exact hhi.trans (by norm_num)
  · refine le_trans ?_ hlo; norm_num

theorem tiny_lt {x : Flt f32} (h : x.mb < 0x39800000) : |x.val| < 1 / 2 ^ 12 := by
  have := val_lt_of_mb (x := x) (E := 115) (by norm_num) (by rw [f32_sb]; omega)
  rw [f32_bias] at this
  norm_num at this ⊢; exact this

/-- `sin x`, `tan x` below `2^-12` -/
theorem sin_tiny {x : Flt f32} (hx : x.isFinite) (h : x.mb < 0x39800000) : WithinUlp 0.8 x (Real.sin x.val) := by
  have h1 := tiny_lt h
  have h2 := Poly.sin_series 1 (x := x.val) (h1.le.trans (by norm_num))
  rw [show Poly.sinc 1 = [1] by decide +kernel, show Nat.factorial (2 * 1 + 1) = 6 from rfl] at h2
  simp only [Poly.ev] at h2
  push_cast at h2
  rw [abs_sub_comm, pow_one, show x.val * (1 + x.val ^ 2 * 0) = x.val by ring] at h2
  have h3 := sin_lower (r := x.val) (h1.le.trans (by norm_num))
  have h4 : x.val ^ 2 ≤ 1 / 2 ^ 24 := by rw [← sq_abs]; nlinarith [abs_nonneg x.val]
  have h5 : |x.val| * (x.val ^ 2 / 6) ≤ |x.val| * (1 / 2 ^ 24 / 6) := mul_le_mul_of_nonneg_left (by linarith) (abs_nonneg _)
  refine WithinUlp.of_rel hx (ε := 1 / 2 ^ 26) ?_ (by norm_num) (by rw [f32_sb]; norm_num)
  norm_num at *
  linarith [abs_nonneg x.val]

theorem tan_tiny {x : Flt f32} (hx : x.isFinite) (h : x.mb < 0x39800000) : WithinUlp 0.95 x (Real.tan x.val) := by
  have h1 := tiny_lt h
  have h2 := Poly.sin_series 1 (x := x.val) (h1.le.trans (by norm_num))
  have h2' := Poly.cos_series 1 (x := x.val) (h1.le.trans (by norm_num))
  rw [show Poly.sinc 1 = [1] by decide +kernel, show Nat.factorial (2 * 1 + 1) = 6 from rfl] at h2
  rw [show Poly.cosc 1 = [1] by decide +kernel, show Nat.factorial (2 * 1) = 2 from rfl] at h2'
  simp only [Poly.ev] at h2 h2'
  push_cast at h2 h2'
  rw [abs_sub_comm, pow_one, show x.val * (1 + x.val ^ 2 * 0) = x.val by ring] at h2
  rw [pow_one, show (1 + x.val ^ 2 * 0) = (1 : ℝ) by ring] at h2'
  have h3 := sin_lower (r := x.val) (h1.le.trans (by norm_num))
  have h4 : x.val ^ 2 ≤ 1 / 2 ^ 24 := by rw [← sq_abs]; nlinarith [abs_nonneg x.val]
  have h5 : |x.val| * (x.val ^ 2 / 6) ≤ |x.val| * (1 / 2 ^ 24 / 6) := mul_le_mul_of_nonneg_left (by linarith) (abs_nonneg _)
  have hc := cos_lower (r := x.val) (h1.le.trans (by norm_num))
  have hc0 : 0 < Real.cos x.val := by linarith
  refine WithinUlp.of_rel hx (ε := 0.95 / 2 ^ 24) ?_ (by norm_num) (by rw [f32_sb]; norm_num)
  have e : x.val - Real.tan x.val = (x.val * (Real.cos x.val - 1) + (x.val - Real.sin x.val)) / Real.cos x.val := by
    rw [Real.tan_eq_sin_div_cos]; field_simp; ring
  rw [e, Real.tan_eq_sin_div_cos, abs_div, abs_div, abs_of_pos hc0, ← mul_div_assoc]
  refine div_le_div_of_nonneg_right ?_ hc0.le
  refine (abs_add_le _ _).trans ?_
  rw [abs_mul]
  have h6 : |x.val| * |Real.cos x.val - 1| ≤ |x.val| * (1 / 2 ^ 24 / 2) := mul_le_mul_of_nonneg_left (by linarith) (abs_nonneg _)
  norm_num at *
  linarith [abs_nonneg x.val]

theorem cos_tiny {x : Flt f32} (h : x.mb < 0x39800000) : WithinUlp 0.8 (1.0 : Flt f32) (Real.cos x.val) := by
  have h1 := tiny_lt h
  have h2' := Poly.cos_series 1 (x := x.val) (h1.le.trans (by norm_num))
  rw [show Poly.cosc 1 = [1] by decide +kernel, show Nat.factorial (2 * 1) = 2 from rfl] at h2'
  simp only [Poly.ev] at h2'
  push_cast at h2'
  rw [pow_one, show (1 + x.val ^ 2 * 0) = (1 : ℝ) by ring, abs_sub_comm] at h2'
  have h4 : x.val ^ 2 ≤ 1 / 2 ^ 24 := by rw [← sq_abs]; nlinarith [abs_nonneg x.val]
  have hv : (1.0 : Flt f32).val = 1 := by rw [Trig.one32, val_one]
  refine WithinUlp.of_rel (by decide +kernel) (ε := 0.6 / 2 ^ 24) ?_ (by norm_num) (by rw [f32_sb]; norm_num)
  rw [hv]
  have h5 := (abs_le.1 h2').2
  have hc : 0.9 ≤ Real.cos x.val := by norm_num at *; linarith
  rw [abs_of_pos (a := Real.cos x.val) (by linarith)]
  norm_num at *
  linarith

theorem ix32_gt (x : Flt f32) (c : BitVec 32) : x.u32 &&& 0x7fffffff#32 > c ↔ c.toNat < x.mb := by
  show c < _ ↔ _
  rw [BitVec.lt_def, u32_abs]

end TrigAcc

open TrigAcc

attribute [local irreducible] kSinf kCosf kTanf remPio2f

/-- `sinf` is within `0.8` units in the last place of the sine, for every finite float. -/
theorem sinf_accurate : AccurateTo 0.8 sinf Real.sin := by
  intro x hx
  show ∃ r, sinf x = some r ∧ WithinUlp 0.8 r (Real.sin x.val)
  have hfin : x.mb < 0x7f800000 := by have := (isFinite32 x).1 hx; omega
  rw [sinf]
  simp only [ix32_le, ix32_lt, ix32_gt, ix32_ge]
  simp only [BitVec.reduceToNat]
  split_ifs with h1 h2 h3 h4 hs hs h5 h6 hs hs h7
  · exact ⟨_, rfl, sin_tiny hx (by omega)⟩
  · exact ⟨_, rfl, (near0 hx (by omega) (by omega)).sin⟩
  · have := (Win.neg hx (win1 (by omega) (by omega)) pf1 pv1 hs).1.cos.neg
    rw [(quad3 _ (by norm_num)).2] at this
    try rw [_root_.neg_neg] at this
    try rw [_root_.neg_neg] at this
    exact ⟨_, rfl, this⟩
  · have := (Win.pos hx (win1 (by omega) (by omega)) pf1 pv1 (by simpa using hs)).1.cos
    rw [(quad1 _ (by norm_num)).2] at this
    try rw [_root_.neg_neg] at this
    try rw [_root_.neg_neg] at this
    exact ⟨_, rfl, this⟩
  · have := (Win.neg hx (win2 (by omega) (by omega)) pf2 pv2 hs).1.neg.sin
    rw [Real.sin_neg, (quad2 _ (by norm_num)).1] at this
    try rw [_root_.neg_neg] at this
    try rw [_root_.neg_neg] at this
    exact ⟨_, rfl, this⟩
  · have := (Win.pos hx (win2 (by omega) (by omega)) pf2 pv2 (by simpa using hs)).1.neg.sin
    rw [Real.sin_neg, (quad2 _ (by norm_num)).1] at this
    try rw [_root_.neg_neg] at this
    try rw [_root_.neg_neg] at this
    exact ⟨_, rfl, this⟩
  · have := (Win.neg hx (win3 (by omega) (by omega)) pf3 pv3 hs).1.cos
    rw [(quad1 _ (by norm_num)).2] at this
    try rw [_root_.neg_neg] at this
    try rw [_root_.neg_neg] at this
    exact ⟨_, rfl, this⟩
  · have := (Win.pos hx (win3 (by omega) (by omega)) pf3 pv3 (by simpa using hs)).1.cos.neg
    rw [(quad3 _ (by norm_num)).2] at this
    try rw [_root_.neg_neg] at this
    try rw [_root_.neg_neg] at this
    exact ⟨_, rfl, this⟩
  · have := (Win.neg hx (win4 (by omega) (by omega)) pf4 pv4 hs).1.sin
    rw [(quad0 _ (by norm_num)).1] at this
    try rw [_root_.neg_neg] at this
    try rw [_root_.neg_neg] at this
    exact ⟨_, rfl, this⟩
  · have := (Win.pos hx (win4 (by omega) (by omega)) pf4 pv4 (by simpa using hs)).1.sin
    rw [(quad0 _ (by norm_num)).1] at this
    try rw [_root_.neg_neg] at this
    try rw [_root_.neg_neg] at this
    exact ⟨_, rfl, this⟩
  · omega
  · obtain ⟨n, y, hr, N, hN, hnear⟩ := rem_quad x hx (by omega)
    rw [hr, Option.map_some]
    refine ⟨_, rfl, ?_⟩
    dsimp only
    rw [and3_eq]
    rcases (by omega : n % 4 = 0 ∨ n % 4 = 1 ∨ n % 4 = 2 ∨ n % 4 = 3) with h | h | h | h <;> rw [h] at hN <;> rw [h]
    · have := hnear.sin
      rw [(quad0 _ hN).1] at this
      try rw [_root_.neg_neg] at this
      rw [if_pos rfl]
      exact this
    · have := hnear.cos
      rw [(quad1 _ hN).2] at this
      try rw [_root_.neg_neg] at this
      rw [if_neg (by norm_num), if_pos rfl]
      exact this
    · have := hnear.neg.sin
      rw [Real.sin_neg, (quad2 _ hN).1] at this
      try rw [_root_.neg_neg] at this
      rw [if_neg (by norm_num), if_neg (by norm_num), if_pos rfl]
      exact this
    · have := hnear.cos.neg
      rw [(quad3 _ hN).2] at this
      try rw [_root_.neg_neg] at this
      rw [if_neg (by norm_num), if_neg (by norm_num), if_neg (by norm_num)]
      exact this

/-- `cosf` is within `0.8` units in the last place of the cosine, for every finite float. -/
theorem cosf_accurate : AccurateTo 0.8 cosf Real.cos := by
  intro x hx
  show ∃ r, cosf x = some r ∧ WithinUlp 0.8 r (Real.cos x.val)
  have hfin : x.mb < 0x7f800000 := by have := (isFinite32 x).1 hx; omega
  rw [cosf]
  simp only [ix32_le, ix32_lt, ix32_gt, ix32_ge]
  simp only [BitVec.reduceToNat]
  split_ifs with h1 h2 h3 h4 hs hs h5 h6 hs hs h7
  · exact ⟨_, rfl, cos_tiny (by omega)⟩
  · exact ⟨_, rfl, (near0 hx (by omega) (by omega)).cos⟩
  · have := (Win.neg hx (win2 (by omega) (by omega)) pf2 pv2 hs).1.cos.neg
    rw [(quad2 _ (by norm_num)).2] at this
    try rw [_root_.neg_neg] at this
    try rw [_root_.neg_neg] at this
    exact ⟨_, rfl, this⟩
  · have := (Win.pos hx (win2 (by omega) (by omega)) pf2 pv2 (by simpa using hs)).1.cos.neg
    rw [(quad2 _ (by norm_num)).2] at this
    try rw [_root_.neg_neg] at this
    try rw [_root_.neg_neg] at this
    exact ⟨_, rfl, this⟩
  · have := (Win.neg hx (win1 (by omega) (by omega)) pf1 pv1 hs).1.sin
    rw [(quad3 _ (by norm_num)).1] at this
    try rw [_root_.neg_neg] at this
    try rw [_root_.neg_neg] at this
    exact ⟨_, rfl, this⟩
  · have := (Win.pos hx (win1 (by omega) (by omega)) pf1 pv1 (by simpa using hs)).2.sin
    rw [Real.sin_neg, (quad1 _ (by norm_num)).1] at this
    try rw [_root_.neg_neg] at this
    try rw [_root_.neg_neg] at this
    exact ⟨_, rfl, this⟩
  · have := (Win.neg hx (win4 (by omega) (by omega)) pf4 pv4 hs).1.cos
    rw [(quad0 _ (by norm_num)).2] at this
    try rw [_root_.neg_neg] at this
    try rw [_root_.neg_neg] at this
    exact ⟨_, rfl, this⟩
  · have := (Win.pos hx (win4 (by omega) (by omega)) pf4 pv4 (by simpa using hs)).1.cos
    rw [(quad0 _ (by norm_num)).2] at this
    try rw [_root_.neg_neg] at this
    try rw [_root_.neg_neg] at this
    exact ⟨_, rfl, this⟩
  · have := (Win.neg hx (win3 (by omega) (by omega)) pf3 pv3 hs).2.sin
    rw [Real.sin_neg, (quad1 _ (by norm_num)).1] at this
    try rw [_root_.neg_neg] at this
    try rw [_root_.neg_neg] at this
    exact ⟨_, rfl, this⟩
  · have := (Win.pos hx (win3 (by omega) (by omega)) pf3 pv3 (by simpa using hs)).1.sin
    rw [(quad3 _ (by norm_num)).1] at this
    try rw [_root_.neg_neg] at this
    try rw [_root_.neg_neg] at this
    exact ⟨_, rfl, this⟩
  · omega
  · obtain ⟨n, y, hr, N, hN, hnear⟩ := rem_quad x hx (by omega)
    rw [hr, Option.map_some]
    refine ⟨_, rfl, ?_⟩
    dsimp only
    rw [and3_eq]
    rcases (by omega : n % 4 = 0 ∨ n % 4 = 1 ∨ n % 4 = 2 ∨ n % 4 = 3) with h | h | h | h <;> rw [h] at hN <;> rw [h]
    · have := hnear.cos
      rw [(quad0 _ hN).2] at this
      try rw [_root_.neg_neg] at this
      rw [if_pos rfl]
      exact this
    · have := hnear.neg.sin
      rw [Real.sin_neg, (quad1 _ hN).1] at this
      try rw [_root_.neg_neg] at this
      rw [if_neg (by norm_num), if_pos rfl]
      exact this
    · have := hnear.cos.neg
      rw [(quad2 _ hN).2] at this
      try rw [_root_.neg_neg] at this
      rw [if_neg (by norm_num), if_neg (by norm_num), if_pos rfl]
      exact this
    · have := hnear.sin
      rw [(quad3 _ hN).1] at this
      try rw [_root_.neg_neg] at this
      rw [if_neg (by norm_num), if_neg (by norm_num), if_neg (by norm_num)]
      exact this

/-- `tanf` is within `0.95` units in the last place of the tangent, for every finite float. -/
theorem tanf_accurate : AccurateTo 0.95 tanf Real.tan := by
  intro x hx
  show ∃ r, tanf x = some r ∧ WithinUlp 0.95 r (Real.tan x.val)
  have hfin : x.mb < 0x7f800000 := by have := (isFinite32 x).1 hx; omega
  rw [tanf]
  simp only [ix32_le, ix32_lt, ix32_gt, ix32_ge]
  simp only [BitVec.reduceToNat]
  split_ifs with h1 h2 h3 h4 hs hs h5 h6 hs hs h7
  · exact ⟨_, rfl, tan_tiny hx (by omega)⟩
  · exact ⟨_, rfl, (near0 hx (by omega) (by omega)).tan_even⟩
  · have := ((Win.neg hx (win1 (by omega) (by omega)) pf1 pv1 hs).1).tan_odd
    rw [quad_odd _ (by norm_num)] at this
    exact ⟨_, rfl, this⟩
  · have := ((Win.pos hx (win1 (by omega) (by omega)) pf1 pv1 (by simpa using hs)).1).tan_odd
    rw [quad_odd _ (by norm_num)] at this
    exact ⟨_, rfl, this⟩
  · have := ((Win.neg hx (win2 (by omega) (by omega)) pf2 pv2 hs).1).tan_even
    rw [quad_even _ (by norm_num)] at this
    exact ⟨_, rfl, this⟩
  · have := ((Win.pos hx (win2 (by omega) (by omega)) pf2 pv2 (by simpa using hs)).1).tan_even
    rw [quad_even _ (by norm_num)] at this
    exact ⟨_, rfl, this⟩
  · have := ((Win.neg hx (win3 (by omega) (by omega)) pf3 pv3 hs).1).tan_odd
    rw [quad_odd _ (by norm_num)] at this
    exact ⟨_, rfl, this⟩
  · have := ((Win.pos hx (win3 (by omega) (by omega)) pf3 pv3 (by simpa using hs)).1).tan_odd
    rw [quad_odd _ (by norm_num)] at this
    exact ⟨_, rfl, this⟩
  · have := ((Win.neg hx (win4 (by omega) (by omega)) pf4 pv4 hs).1).tan_even
    rw [quad_even _ (by norm_num)] at this
    exact ⟨_, rfl, this⟩
  · have := ((Win.pos hx (win4 (by omega) (by omega)) pf4 pv4 (by simpa using hs)).1).tan_even
    rw [quad_even _ (by norm_num)] at this
    exact ⟨_, rfl, this⟩
  · omega
  · obtain ⟨n, y, hr, N, hN, hnear⟩ := rem_quad x hx (by omega)
    rw [hr, Option.map_some]
    refine ⟨_, rfl, ?_⟩
    dsimp only
    rw [and1_eq]
    rcases (by omega : n % 2 = 0 ∨ n % 2 = 1) with h | h
    · have := hnear.tan_even
      rw [quad_even _ (by omega)] at this
      rw [h, show decide ((0 : ℤ) ≠ 0) = false from rfl]
      exact this
    · have := hnear.tan_odd
      rw [quad_odd _ (by omega)] at this
      rw [h, show decide ((1 : ℤ) ≠ 0) = true from rfl]
      exact this

/-- the hypothesis is met by the largest float, by a negative argument and by a subnormal one -/
example : (bits32 0x7f7fffff).isFinite ∧ (bits32 0xc2c80000).isFinite ∧ (bits32 0x00000001).isFinite := by
  decide +kernel

end Verif
