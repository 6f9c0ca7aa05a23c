import Verif.Theory.TrigDir
import Verif.Theory.Neg
import Verif.Props.Exp2

/-!
# Signs through the float kernels and the reduction of floats
-/

namespace Verif
open Flt

theorem cast_zero {F G : Fmt} {x : Flt F} (h : x.isZero) : (x.cast G).isZero := by
  have hf := finite_of_zero h
  have e : x.cast G = roundMag G x.sign (x.mag * G.oneMag) F.oneMag := by
    unfold Flt.cast
    rw [if_neg (not_nan_of_finite hf), if_neg (not_inf_of_finite hf)]
  rw [e, (isZero_iff_mag x).1 h, roundMag_exact (b := 0) F.oneMag_pos (Nat.zero_le _) (by rw [Nat.zero_mul, show magOf G.sb 0 = 0 from by simp [magOf], Nat.zero_mul])]
  exact isZero_zero _

theorem cast_flip {F G : Fmt} (s : Bool) (x : Flt F) : Opp s (x.cast G) ((flip s x).cast G) := by
  unfold Flt.cast
  simp only [flip_isNaN, flip_isInf, flip_mag, flip_sign]
  split_ifs with h1 h2
  · exact Or.inr ⟨by simp, by simp⟩
  · exact Or.inl (flip_inf _ _).symm
  · exact Or.inl (flip_roundMag _ _ _ _).symm

theorem cast_nan {F G : Fmt} {x : Flt F} (h : x.isNaN) : (x.cast G).isNaN := by
  unfold Flt.cast
  rw [if_pos h]
  simp

theorem cast_inf {F G : Fmt} {x : Flt F} (h : x.isInf) : (x.cast G).isInf := by
  unfold Flt.cast
  rw [if_neg (not_nan_of_inf h), if_pos h]
  exact isInf_inf _

theorem Flt.SRel.cast {F G : Fmt} {s : Bool} {x x' : Flt F} (h : SRel s x x') : SRel s (x.cast G) (x'.cast G) := by
  rcases h with h | ⟨h1, h2⟩ | ⟨h1, h2⟩
  · rw [h]; exact (cast_flip s x).toS
  · exact Or.inr (Or.inl ⟨cast_nan h1, cast_nan h2⟩)
  · exact Or.inr (Or.inr ⟨cast_zero h1, cast_zero h2⟩)

theorem Flt.SRel.of_eq {F : Fmt} {a b : Flt F} (h : SRel false a b) (hf : a.isFinite) (h0 : ¬ a.isZero) : b = a := by
  rcases h with h | ⟨h1, h2⟩ | ⟨h1, h2⟩
  · exact h
  · exact absurd h1 (not_nan_of_finite hf)
  · exact absurd h1 h0

theorem Flt.SRel.of_neg {F : Fmt} {a b : Flt F} (h : SRel true a b) (hf : a.isFinite) (h0 : ¬ a.isZero) : b = -a := by
  rcases h with h | ⟨h1, h2⟩ | ⟨h1, h2⟩
  · exact h
  · exact absurd h1 (not_nan_of_finite hf)
  · exact absurd h1 h0

theorem kSinf_srel {y y' : Flt f64} (h : SRel true y y') : SRel true (kSinf y) (kSinf y') := by
  unfold kSinf
  dsimp only
  have hz : SRel false (y * y) (y' * y') := h.mul h
  have hw : SRel false (y * y * (y * y)) (y' * y' * (y' * y')) := hz.mul hz
  have hs : SRel true (y * y * y) (y' * y' * y') := hz.mul h
  have c : ∀ a : Flt f64, SRel false a a := SRel.refl
  have t1 : SRel true (y * y * y * (KSinf.s1 + y * y * KSinf.s2)) (y' * y' * y' * (KSinf.s1 + y' * y' * KSinf.s2)) :=
    hs.mul ((c _).add (hz.mul (c _)))
  have t2 : SRel true (y * y * y * (y * y * (y * y)) * (KSinf.s3 + y * y * KSinf.s4))
      (y' * y' * y' * (y' * y' * (y' * y')) * (KSinf.s3 + y' * y' * KSinf.s4)) :=
    SRel.mul (s := true) (t := false) (hs.mul hw) ((c _).add (hz.mul (c _)))
  exact ((h.add t1).add t2).cast

theorem kCosf_neg (y : Flt f64) : kCosf (-y) = kCosf y := by
  unfold kCosf
  dsimp only
  rw [neg_mul_neg']

/-- a result within one unit of a normal number is not zero -/
theorem WithinUlp.ne_zero {F : Fmt} {c : ℝ} {r : Flt F} {t : ℝ} (h : WithinUlp c r t) (hc : c ≤ 1) (ht : (2 : ℝ) ^ (1 - F.bias : ℤ) ≤ |t|) :
    ¬ r.isZero := by
  intro h0
  have hp : 0 < |t| := lt_of_lt_of_le (zp _) ht
  have htn : t ≠ 0 := abs_pos.1 hp
  have h1 := (WithinUlp.def'.1 h).2
  rw [isZero_val.1 h0, zero_sub, abs_neg] at h1
  have h2 : ulpAt F t ≤ |t| / 2 := by
    unfold ulpAt
    rw [if_neg htn]
    have hl : (1 - F.bias : ℤ) ≤ Int.log 2 |t| := by
      rw [← Int.zpow_le_iff_le_log (by norm_num) hp]
      exact_mod_cast ht
    rw [max_eq_left hl]
    have h3 := Int.zpow_log_le_self (b := 2) (by norm_num) hp
    have h4 : (2 : ℝ) ^ (Int.log 2 |t| - F.sb) ≤ 2 ^ (Int.log 2 |t| - 1) :=
      zpow_le_zpow_right₀ (by norm_num) (by have := F.one_le_sb; omega)
    rw [zpow_sub_one₀ (by norm_num)] at h4
    push_cast at h3
    linarith
  have := ulpAt_nonneg (F := F) t
  nlinarith

namespace Near
variable {y : Flt f64} {r : ℝ} (h : Near y r)
include h

theorem y_nz : ¬ y.isZero := by
  intro h0
  have := h.y_lo
  rw [isZero_val.1 h0] at this
  norm_num at this

theorem sin_nz : ¬ (kSinf y).isZero := by
  refine h.sin.ne_zero (by norm_num) ?_
  rw [f32_bias]
  have h1 := sin_lower (r := r) (h.hi.trans (by norm_num))
  have h2 := h.lo
  have h3 : (2 : ℝ) ^ (1 - (127 : ℕ) : ℤ) ≤ 2 ^ (-33 : ℤ) := zpow_le_zpow_right₀ (by norm_num) (by norm_num)
  refine h3.trans ?_
  norm_num at *
  linarith

theorem sin_neg : kSinf (-y) = -kSinf y := (kSinf_srel (SRel.neg y)).of_neg h.sin.1 h.sin_nz

/-- two floats near the same reduced argument with opposite values -/
theorem eq_neg {y' : Flt f64} (hv : y'.val = -y.val) : y' = -y := by
  refine eq_of_val (by rw [hv, val_neg]) ?_
  rw [val_neg]
  have := h.y_lo
  intro h0
  rw [neg_eq_zero.1 h0] at this
  norm_num at this

theorem tan_neg (odd : Bool) : kTanf (-y) odd = -kTanf y odd := by
  have c : ∀ a : Flt f64, SRel false a a := SRel.refl
  have hy := SRel.neg y
  have hz : SRel false (y * y) (-y * -y) := hy.mul hy
  have hw := hz.mul hz
  have hs : SRel true (y * y * y) (-y * -y * -y) := hz.mul hy
  have e1 : (kTanf y true).isFinite ∧ ¬ (kTanf y true).isZero := by
    refine ⟨h.tan_odd.1, h.tan_odd.ne_zero (by norm_num) ?_⟩
    have hc := cos_lower (r := r) (h.hi.trans (by norm_num))
    have hs0 := abs_pos.2 h.sin_ne
    rw [abs_neg, abs_div, le_div_iff₀ hs0, f32_bias]
    have h3 : (2 : ℝ) ^ (1 - (127 : ℕ) : ℤ) ≤ 2 ^ (-1 : ℤ) := zpow_le_zpow_right₀ (by norm_num) (by norm_num)
    have := Real.abs_sin_le_one r
    rw [abs_of_pos (a := Real.cos r) (by linarith)]
    have h4 := mul_le_mul h3 this hs0.le (zp _).le
    norm_num at h4 hc ⊢
    linarith
  have e2 : (kTanf y false).isFinite ∧ ¬ (kTanf y false).isZero := by
    refine ⟨h.tan_even.1, h.tan_even.ne_zero (by norm_num) ?_⟩
    have hc := cos_lower (r := r) (h.hi.trans (by norm_num))
    have h1 := sin_lower (r := r) (h.hi.trans (by norm_num))
    have h2 := h.lo
    have h3 : (2 : ℝ) ^ (1 - (127 : ℕ) : ℤ) ≤ 2 ^ (-33 : ℤ) := zpow_le_zpow_right₀ (by norm_num) (by norm_num)
    rw [Real.tan_eq_sin_div_cos, abs_div, f32_bias]
    have hc1 := Real.cos_le_one r
    rw [abs_of_pos (a := Real.cos r) (by linarith), le_div_iff₀ (by linarith)]
    have h4 := mul_le_mul h3 hc1 (by linarith) (zp _).le
    norm_num at *
    linarith
  have hr : SRel true (y + y * y * y * (KTanf.t0 + y * y * KTanf.t1) +
        y * y * y * (y * y * (y * y)) * (KTanf.t2 + y * y * KTanf.t3 + y * y * (y * y) * (KTanf.t4 + y * y * KTanf.t5)))
      (-y + -y * -y * -y * (KTanf.t0 + -y * -y * KTanf.t1) +
        -y * -y * -y * (-y * -y * (-y * -y)) * (KTanf.t2 + -y * -y * KTanf.t3 + -y * -y * (-y * -y) * (KTanf.t4 + -y * -y * KTanf.t5))) := by
    have t1 := hs.mul ((c KTanf.t0).add (hz.mul (c KTanf.t1)))
    have t2 := SRel.mul (s := true) (t := false) (hs.mul hw)
      (((c KTanf.t2).add (hz.mul (c KTanf.t3))).add (SRel.mul (s := false) (t := false) hw ((c KTanf.t4).add (hz.mul (c KTanf.t5)))))
    exact (hy.add t1).add t2
  have d : ∀ (u : Flt f64) (odd : Bool), kTanf u odd = (if odd then -1.0 / (u + u * u * u * (KTanf.t0 + u * u * KTanf.t1) +
        u * u * u * (u * u * (u * u)) * (KTanf.t2 + u * u * KTanf.t3 + u * u * (u * u) * (KTanf.t4 + u * u * KTanf.t5))) else
        (u + u * u * u * (KTanf.t0 + u * u * KTanf.t1) +
        u * u * u * (u * u * (u * u)) * (KTanf.t2 + u * u * KTanf.t3 + u * u * (u * u) * (KTanf.t4 + u * u * KTanf.t5)))).cast f32 := fun u odd => rfl
  cases odd
  · refine SRel.of_neg ?_ e2.1 e2.2
    rw [d, d]
    simp only [Bool.false_eq_true, if_false]
    exact hr.cast
  · refine SRel.of_neg ?_ e1.1 e1.2
    rw [d, d]
    simp only [if_true]
    refine (SRel.div (s := false) (t := true) (c _) hr ?_).cast
    intro h0
    have h1 := e1.1
    rw [d, if_pos rfl, div_zero (by decide +kernel) (by decide +kernel) h0] at h1
    exact not_inf_of_finite h1 (cast_inf (isInf_inf _))
end Near

/-! ## Rounding to an integer is odd -/

/-- the last bit of an integer stored in a double of the binade of `2^52` -/
theorem frac_even {a : Flt f64} {n : ℤ} (hv : a.val = n) (h1 : 2 ^ 52 ≤ n) (h2 : n < 2 ^ 53) (he : a.fracField % 2 = 0) : n % 2 = 0 := by
  have hn1 : (2 : ℝ) ^ 52 ≤ a.val := by rw [hv]; exact_mod_cast h1
  have hn2 : a.val < (2 : ℝ) ^ 53 := by rw [hv]; exact_mod_cast h2
  have hp : 0 < a.val := lt_of_lt_of_le (by norm_num) hn1
  have ha : |a.val| = a.val := abs_of_pos hp
  have hm1 : 1075 * 2 ^ 52 ≤ a.mb := by
    by_contra hc
    have := val_lt_of_mb (x := a) (E := 1075) (by norm_num) (by rw [f64_sb]; omega)
    rw [f64_bias, ha] at this
    norm_num at this hn1
    linarith
  have hm2 : a.mb < 1076 * 2 ^ 52 := by
    by_contra hc
    have := val_ge_of_mb (x := a) (E := 1076) (by norm_num) (by rw [f64_sb]; omega)
    rw [f64_bias, ha] at this
    norm_num at this hn2
    linarith
  have h3 := val_normal64 a (by omega)
  rw [show a.mb / 2 ^ 52 = 1075 by omega, ha, hv] at h3
  rw [fracField_eq, f64_sb] at he
  norm_num at h3
  have h4 : n = 4503599627370496 + ((a.mb % 4503599627370496 : ℕ) : ℤ) := by
    have : (n : ℝ) = ((4503599627370496 + ((a.mb % 4503599627370496 : ℕ) : ℤ) : ℤ) : ℝ) := by push_cast; exact h3
    exact_mod_cast this
  omega

theorem round_even {q : ℝ} {a : Flt f64} {n : ℤ} (h : IsRNE q a) (hq : |q| < 2 ^ 60) (hv : a.val = n) (h1 : 2 ^ 52 < n) (h2 : n < 2 ^ 53 - 1)
    (hd : |(n : ℝ) - q| = 1 / 2) : n % 2 = 0 := by
  have ho : ¬ ((overflowThreshold f64 : ℚ) : ℝ) ≤ |q| := by
    have hh : (2 : ℝ) ^ 60 ≤ ((overflowThreshold f64 : ℚ) : ℝ) := by
      have : (2 : ℚ) ^ 60 ≤ overflowThreshold f64 := by decide +kernel
      exact_mod_cast this
    linarith
  unfold IsRNE at h
  rw [if_neg ho] at h
  obtain ⟨hf, -, ht, -⟩ := h
  refine frac_even hv h1.le (by omega) ?_
  have key : ∀ m : ℤ, |m| ≤ 2 ^ 53 → m ≠ n → |(m : ℝ) - q| = 1 / 2 → a.fracField % 2 = 0 := by
    intro m hm hne hmd
    obtain ⟨c, hc, hcv⟩ := exists_val64' (n := m) (k := 0) hm (by norm_num) (by norm_num)
    rw [zpow_zero, mul_one] at hcv
    refine ht c hc ?_ ?_
    · show |a.val - q| = |c.val - q|
      rw [hv, hcv, hd, hmd]
    · intro hh
      have : c.val = a.val := by show ((c.toRat : ℚ) : ℝ) = ((a.toRat : ℚ) : ℝ); rw [hh]
      rw [hv, hcv] at this
      exact hne (by exact_mod_cast this)
  rcases abs_choice ((n : ℝ) - q) with h3 | h3 <;> rw [h3] at hd
  · refine key (n - 1) (by rw [abs_le]; omega) (by omega) ?_
    push_cast
    rw [show (n : ℝ) - 1 - q = -(1 / 2) by linarith]; norm_num
  · refine key (n + 1) (by rw [abs_le]; omega) (by omega) ?_
    push_cast
    rw [show (n : ℝ) + 1 - q = (1 / 2) by linarith]; norm_num

/-- adding and subtracting `1.5 * 2^52` rounds to an integer, and opposite numbers to opposite integers -/
theorem round_int_odd {q T : Flt f64} (hq : q.isFinite) (hT : T.isFinite) (hTv : T.val = (3 : ℝ) * 2 ^ (51 : ℤ)) (hb : |q.val| ≤ 2 ^ 30) :
    ∃ k : ℤ, Is (q + T - T) k 0 ∧ Is (-q + T - T) (-k) 0 := by
  have core : ∀ q : Flt f64, q.isFinite → |q.val| ≤ 2 ^ 30 → ∃ n : ℤ, Is (q + T) n 0 ∧ |(n : ℝ) - (q.val + 3 * 2 ^ 51)| ≤ 1 / 2 ∧ |n - 3 * 2 ^ 51| ≤ 2 ^ 31 := by
    intro q hq hb
    have hb' := abs_le.1 hb
    obtain ⟨sf, se⟩ := add_err64 hq hT 53 (by
      rw [hTv, abs_le]; norm_num at hb' ⊢; constructor <;> linarith) (by norm_num)
    rw [hTv] at se
    have se' := abs_le.1 se
    obtain ⟨n, hn⟩ := grid64 (q + T) 52 (by rw [le_abs]; left; norm_num at *; linarith)
    have hn2 : (q + T).val = n := by rw [hn]; norm_num
    refine ⟨n, ⟨sf, by rw [hn]; norm_num⟩, ?_, ?_⟩
    · rw [← hn2]; norm_num at se ⊢; exact se
    · have : |((n - 3 * 2 ^ 51 : ℤ) : ℝ)| ≤ 2 ^ 31 := by
        push_cast
        rw [← hn2, abs_le]
        norm_num at *
        constructor <;> linarith
      exact_mod_cast this
  have hnf := (Flt.isFinite_neg q).2 hq
  obtain ⟨n, hn, hnd, hnb⟩ := core q hq hb
  obtain ⟨m, hm, hmd, hmb⟩ := core (-q) hnf (by rw [val_neg, abs_neg]; exact hb)
  have hTI : Is T (3 * 2 ^ 51) 0 := ⟨hT, by rw [hTv]; norm_num⟩
  have hnb' := abs_le.1 hnb
  have hmb' := abs_le.1 hmb
  have hb' := abs_le.1 hb
  have hsum : m = 2 * (3 * 2 ^ 51) - n := by
    rw [val_neg] at hmd
    have h1 := abs_le.1 hnd
    have h2 := abs_le.1 hmd
    have u : ((n + m - 2 * (3 * 2 ^ 51) : ℤ) : ℝ) ≤ 1 := by push_cast; linarith
    have l : (-1 : ℝ) ≤ ((n + m - 2 * (3 * 2 ^ 51) : ℤ) : ℝ) := by push_cast; linarith
    have u' : n + m - 2 * (3 * 2 ^ 51) ≤ 1 := by exact_mod_cast u
    have l' : -1 ≤ n + m - 2 * (3 * 2 ^ 51) := by exact_mod_cast l
    have ev : ∀ d : ℝ, |d| = 1 → ((n + m - 2 * (3 * 2 ^ 51) : ℤ) : ℝ) = d → n % 2 = 0 ∧ m % 2 = 0 := by
      intro d hd he
      push_cast at he
      have e1 : |(n : ℝ) - (q.val + 3 * 2 ^ 51)| = 1 / 2 ∧ |(m : ℝ) - (-q.val + 3 * 2 ^ 51)| = 1 / 2 := by
        rcases (abs_eq (by norm_num : (0 : ℝ) ≤ 1)).1 hd with h | h <;> rw [h] at he
        · rw [show (n : ℝ) - (q.val + 3 * 2 ^ 51) = 1 / 2 by linarith, show (m : ℝ) - (-q.val + 3 * 2 ^ 51) = 1 / 2 by linarith]
          norm_num
        · rw [show (n : ℝ) - (q.val + 3 * 2 ^ 51) = -(1 / 2) by linarith, show (m : ℝ) - (-q.val + 3 * 2 ^ 51) = -(1 / 2) by linarith]
          norm_num
      have r1 := add_rne hq hT
      have r2 := add_rne hnf hT
      rw [hTv, show (2 : ℝ) ^ (51 : ℤ) = 2 ^ 51 by norm_num] at r1 r2
      rw [val_neg] at r2
      refine ⟨round_even r1 ?_ (by rw [hn.2]; norm_num) (by omega) (by omega) e1.1, round_even r2 ?_ (by rw [hm.2]; norm_num) (by omega) (by omega) e1.2⟩
      · rw [abs_lt]; norm_num at *; constructor <;> linarith
      · rw [abs_lt]; norm_num at *; constructor <;> linarith
    rcases (by omega : n + m - 2 * (3 * 2 ^ 51) = 0 ∨ n + m - 2 * (3 * 2 ^ 51) = 1 ∨ n + m - 2 * (3 * 2 ^ 51) = -1) with h | h | h
    · omega
    · have := ev 1 (by norm_num) (by rw [h]; norm_num)
      omega
    · have := ev (-1) (by norm_num) (by rw [h]; norm_num)
      omega
  refine ⟨n - 3 * 2 ^ 51, hn.sub hTI (hnb.trans (by norm_num)) (by norm_num) (by norm_num), ?_⟩
  have := hm.sub hTI (hmb.trans (by norm_num)) (by norm_num) (by norm_num)
  rwa [show m - 3 * 2 ^ 51 = -(n - 3 * 2 ^ 51) by omega] at this

/-- numbers with opposite values -/
theorem Flt.SRel.of_is {a b : Flt f64} {k : ℤ} (ha : Is a k 0) (hb : Is b (-k) 0) : SRel true a b := by
  have hv : b.val = -a.val := by rw [ha.2, hb.2]; push_cast; ring
  by_cases h0 : a.val = 0
  · exact Or.inr (Or.inr ⟨isZero_val.2 h0, isZero_val.2 (by rw [hv, h0, neg_zero])⟩)
  · refine Or.inl (eq_of_val ?_ ?_)
    · show b.val = (-a).val
      rw [hv, val_neg]
    · show (-a).val ≠ 0
      rw [val_neg]; exact neg_ne_zero.2 h0

theorem u32_neg (x : Flt f32) : (-x).u32 &&& 0x7fffffff#32 = x.u32 &&& 0x7fffffff#32 := by
  apply BitVec.eq_of_toNat_eq
  rw [u32_abs, u32_abs, mb_neg]

theorem cast_neg {F G : Fmt} {x : Flt F} (h : ¬ x.isNaN) : (-x).cast G = -x.cast G := by
  rcases cast_flip (G := G) true x with h1 | ⟨h1, h2⟩
  · exact h1
  · exfalso
    unfold Flt.cast at h1
    rw [if_neg h] at h1
    split_ifs at h1 with h3
    · exact not_nan_of_inf (isInf_inf _) h1
    · exact not_nan_roundMag _ _ _ h1

/-- the reduction of the opposite float -/
theorem rem_neg {x : Flt f32} (hx : x.isFinite) (h : 0x3f000000 ≤ x.mb) {n : ℤ} {y : Flt f64} (hr : remPio2f x = some (n, y)) :
    remPio2f (-x) = some (-n, -y) := by
  by_cases h2 : x.mb < 0x4dc90fdb
  · obtain ⟨n', y', hr', N, hN, hnear⟩ := rem_medium Rpl.ipio2 x h h2
    rw [show remPio2fWith Rpl.ipio2 x = remPio2f x from rfl, hr] at hr'
    obtain ⟨rfl, rfl⟩ : n = n' ∧ y = y' := by simpa using hr'
    rw [show remPio2f x = remPio2fWith Rpl.ipio2 x from rfl, remPio2fWith_medium _ _ h2] at hr
    rw [show remPio2f (-x) = remPio2fWith Rpl.ipio2 (-x) from rfl, remPio2fWith_medium _ _ (by rw [mb_neg]; exact h2)]
    obtain ⟨wf, wv⟩ := Hypotf.widen hx
    rw [cast_neg (not_nan_of_finite hx)]
    have hhi : |x.val| < 2 ^ 29 := by
      have := val_lt_of_mb (x := x) (E := 156) (by norm_num) (by rw [f32_sb]; omega)
      rw [f32_bias] at this
      norm_num at this ⊢; exact this
    have hinv : RemPio2f.invPio2.isFinite := by decide +kernel
    have hq : (-x.cast f64) * RemPio2f.invPio2 = -(x.cast f64 * RemPio2f.invPio2) := by
      have := mul_flip true false (x.cast f64) RemPio2f.invPio2
      rcases this with h3 | ⟨h3, -⟩
      · exact h3
      · exfalso
        have := mul_err64 wf hinv 30 (by
          rw [abs_mul, wv, RemPio2f.invPio2_val, abs_of_pos (a := (5734161139222659 : ℝ) * 2 ^ (-53 : ℤ)) (by positivity)]
          norm_num at hhi ⊢
          nlinarith [abs_nonneg x.val]) (by norm_num) (by norm_num)
        exact not_nan_of_finite this.1 h3
    rw [hq]
    have hqb := mul_err64 wf hinv 29 (by
          rw [abs_mul, wv, RemPio2f.invPio2_val, abs_of_pos (a := (5734161139222659 : ℝ) * 2 ^ (-53 : ℤ)) (by positivity)]
          norm_num at hhi ⊢
          nlinarith [abs_nonneg x.val]) (by norm_num) (by norm_num)
    have hqv : |(x.cast f64 * RemPio2f.invPio2).val| ≤ 2 ^ 30 := by
      have h3 := abs_sub_abs_le_abs_sub (x.cast f64 * RemPio2f.invPio2).val ((x.cast f64).val * RemPio2f.invPio2.val)
      have h4 : |(x.cast f64).val * RemPio2f.invPio2.val| ≤ 2 ^ 29 := by
          rw [abs_mul, wv, RemPio2f.invPio2_val, abs_of_pos (a := (5734161139222659 : ℝ) * 2 ^ (-53 : ℤ)) (by positivity)]
          norm_num at hhi ⊢
          nlinarith [abs_nonneg x.val]
      have h5 := hqb.2
      norm_num at *
      linarith
    obtain ⟨k, hk1, hk2⟩ := round_int_odd hqb.1 (T := RemPio2f.toint) (by decide +kernel) RemPio2f.toint_val hqv
    have hkb : |k| < 2 ^ 31 := by
      obtain ⟨k', hk', -, hb'⟩ := fn_spec (x := x.cast f64) (inv := RemPio2f.invPio2) (toint := RemPio2f.toint) wf
        (by rw [wv]; norm_num at *; linarith) (by decide +kernel) (by decide +kernel) RemPio2f.invPio2_val RemPio2f.toint_val
      have : (k : ℝ) = k' := by
        have h1 := hk1.2
        rw [hk'.2] at h1
        simpa using h1.symm
      have : k = k' := by exact_mod_cast this
      rw [this]; exact lt_of_le_of_lt hb' (by norm_num)
    have hfn := SRel.of_is hk1 hk2
    have e1 := toSInt_int (w := 32) hk1.1 (n := k) (by rw [hk1.2]; simp) hkb
    have e2 := toSInt_int (w := 32) hk2.1 (n := -k) (by rw [hk2.2]; simp) (by rw [abs_neg]; exact hkb)
    rw [e2]
    rw [e1] at hr
    generalize x.cast f64 * RemPio2f.invPio2 + RemPio2f.toint - RemPio2f.toint = fn at *
    generalize -(x.cast f64 * RemPio2f.invPio2) + RemPio2f.toint - RemPio2f.toint = fn' at *
    obtain ⟨rfl, rfl⟩ : k = n ∧ x.cast f64 - fn * RemPio2f.pio2_1 - fn * RemPio2f.pio2_1t = y := by simpa using hr
    have hc : ∀ c : Flt f64, SRel true (fn * c) (fn' * c) := fun c => SRel.mul (s := true) (t := false) hfn (SRel.refl c)
    have hy := ((SRel.neg (x.cast f64)).sub (hc RemPio2f.pio2_1)).sub (hc RemPio2f.pio2_1t)
    rw [hy.of_neg hnear.fin hnear.y_nz]
  · have h3 : x.mb < 0x7f800000 := by have := (isFinite32 x).1 hx; omega
    have e : ∀ x : Flt f32, ¬ x.mb < 0x4dc90fdb → x.mb < 0x7f800000 → remPio2f x =
        ((usub ((x.u32 &&& 0x7fffffff#32) >>> 23) (0x7f#32 + 23#32)).bind fun e0 =>
        (usub (x.u32 &&& 0x7fffffff#32) (e0 <<< 23)).bind fun b =>
        (remPio2Large Rpl.ipio2 [(bits32 b).cast f64] [0.0] e0.toNat 0).bind fun ((n, ty) : Int × List (Flt f64)) =>
        (ty[0]?).map fun (y : Flt f64) => if x.sign then (-n, -y) else (n, y)) := by
      intro x h2 h3
      unfold remPio2f remPio2fWith
      dsimp only
      rw [if_neg (by rw [Trig.ix32_lt]; exact h2), if_neg (by rw [Trig.ix32_ge]; show ¬ 0x7f800000 ≤ x.mb; omega)]
    rw [e x h2 h3] at hr
    rw [e (-x) (by rw [mb_neg]; exact h2) (by rw [mb_neg]; exact h3), u32_neg]
    generalize usub ((x.u32 &&& 0x7fffffff#32) >>> 23) (0x7f#32 + 23#32) = o1 at *
    rcases o1 with _ | e0
    · simp at hr
    simp only [Option.bind_some] at hr ⊢
    generalize usub (x.u32 &&& 0x7fffffff#32) (e0 <<< 23) = o2 at *
    rcases o2 with _ | b
    · simp at hr
    simp only [Option.bind_some] at hr ⊢
    generalize remPio2Large Rpl.ipio2 [(bits32 b).cast f64] [0.0] e0.toNat 0 = o3 at *
    rcases o3 with _ | ⟨n', ty⟩
    · simp at hr
    simp only [Option.bind_some] at hr ⊢
    generalize ty[0]? = o4 at *
    rcases o4 with _ | y'
    · simp at hr
    simp only [Option.map_some, Option.some.injEq, sign_neg] at hr ⊢
    cases hs : x.sign <;> rw [hs] at hr <;> simp at hr ⊢
    · rw [hr.1, hr.2]; exact ⟨rfl, rfl⟩
    · rw [← hr.1, ← hr.2]; simp

/-! ## The direct reductions -/
section
variable {x : Flt f32} {k : ℤ} {P : Flt f64} (hx : x.isFinite) (w : Win x k) (hPf : P.isFinite)
  (hPv : P.val = k * ((884279719003555 : ℝ) * 2 ^ (-49 : ℤ)))
include hx w hPf hPv

theorem Win.swap (hs : x.sign = false) : -x.cast f64 + P = -(x.cast f64 - P) ∧ P - x.cast f64 = -(x.cast f64 - P) := by
  obtain ⟨m, hxi, hpi, -, hb⟩ := w.is hx hPf hPv
  have hn := (Win.pos hx w hPf hPv hs).1
  have h1 := hxi.sub hpi (hb hs) (by norm_num) (by norm_num)
  have h2 := hpi.sub hxi (by rw [abs_sub_comm]; exact hb hs) (by norm_num) (by norm_num)
  have hxn : Is (-x.cast f64) (-(m * 2 ^ 25)) (-49) := ⟨(Flt.isFinite_neg _).2 hxi.1, by rw [val_neg, hxi.2]; push_cast; ring⟩
  have h3 := hxn.add hpi (by rw [← abs_neg]; convert hb hs using 2; ring) (by norm_num) (by norm_num)
  exact ⟨hn.eq_neg (by rw [h3.2, h1.2]; push_cast; ring), hn.eq_neg (by rw [h2.2, h1.2]; push_cast; ring)⟩

theorem Win.swap' (hs : x.sign = true) : -x.cast f64 - P = -(x.cast f64 + P) := by
  obtain ⟨m, hxi, hpi, hb, -⟩ := w.is hx hPf hPv
  have hn := (Win.neg hx w hPf hPv hs).1
  have h1 := hxi.add hpi (hb hs) (by norm_num) (by norm_num)
  have hxn : Is (-x.cast f64) (-(m * 2 ^ 25)) (-49) := ⟨(Flt.isFinite_neg _).2 hxi.1, by rw [val_neg, hxi.2]; push_cast; ring⟩
  have h3 := hxn.sub hpi (by rw [← abs_neg]; convert hb hs using 2; ring) (by norm_num) (by norm_num)
  exact hn.eq_neg (by rw [h3.2, h1.2]; push_cast; ring)
end

end Verif
