import Verif.Theory.TanBig
import Verif.Props.SymTrigD

/-!
# The tangent in double precision: accuracy, and C32
-/

namespace Verif
open Flt Trig TrigAcc

attribute [local irreducible] kTan KTanD.refl

/-- `tan x` below `2^-27` -/
theorem TrigAccD.tan_tiny {x : Flt f64} (hx : x.isFinite) (h : x.mb < 996 * 2 ^ 52) : WithinUlp 1.5 x (Real.tan x.val) := by
  have h1 := TrigAccD.lt_pow (by norm_num) h
  norm_num at h1
  have h2 := Poly.sin_series 1 (x := x.val) (h1.le.trans (by norm_num))
  have h2' := Poly.cos_series 1 (x := x.val) (h1.le.trans (by norm_num))
  rw [show Poly.sinc 1 = [1] by decide +kernel, show Nat.factorial (2 * 1 + 1) = 6 from rfl] at h2
  rw [show Poly.cosc 1 = [1] by decide +kernel, show Nat.factorial (2 * 1) = 2 from rfl] at h2'
  simp only [Poly.ev] at h2 h2'
  push_cast at h2 h2'
  rw [abs_sub_comm, pow_one, show x.val * (1 + x.val ^ 2 * 0) = x.val by ring] at h2
  rw [pow_one, show (1 + x.val ^ 2 * 0) = (1 : ℝ) by ring] at h2'
  have h4 : x.val ^ 2 ≤ 1 / 2 ^ 54 := by rw [← sq_abs]; nlinarith [abs_nonneg x.val]
  have h5 : |x.val| * (x.val ^ 2 / 6) ≤ |x.val| * (1 / 2 ^ 54 / 6) := mul_le_mul_of_nonneg_left (by linarith) (abs_nonneg _)
  have hc := cos_lower (r := x.val) (h1.le.trans (by norm_num))
  have hc0 : 0 < Real.cos x.val := by linarith
  have h3 := TanR.le_tan (r := x.val) (h1.le.trans (by norm_num))
  refine WithinUlp.of_rel hx (ε := 1 / 2 ^ 53) ?_ (by norm_num) (by rw [f64_sb]; norm_num)
  have e : x.val - Real.tan x.val = (x.val * (Real.cos x.val - 1) + (x.val - Real.sin x.val)) / Real.cos x.val := by
    rw [Real.tan_eq_sin_div_cos]; field_simp; ring
  have h7 : |x.val| * |Real.cos x.val - 1| ≤ |x.val| * (1 / 2 ^ 54 / 2) := mul_le_mul_of_nonneg_left (by linarith) (abs_nonneg _)
  refine le_trans ?_ (mul_le_mul_of_nonneg_left h3 (by positivity))
  rw [e, abs_div, abs_of_pos hc0, div_le_iff₀ hc0]
  refine (abs_add_le _ _).trans ?_
  rw [abs_mul]
  have h8 : 1 / 2 ^ 53 * |x.val| * 0.69 ≤ 1 / 2 ^ 53 * |x.val| * Real.cos x.val := mul_le_mul_of_nonneg_left (by linarith) (by positivity)
  norm_num at h7 h5 h2 h8 ⊢
  linarith [abs_nonneg x.val]

theorem WithinUlp.ne_zero' {F : Fmt} {c : ℝ} {r : Flt F} {t : ℝ} (h : WithinUlp c r t) (hc : c < 2) (ht : (2 : ℝ) ^ (1 - F.bias : ℤ) ≤ |t|) :
    ¬ r.isZero := by
  intro h0
  have hp : 0 < |t| := lt_of_lt_of_le (zp _) ht
  have htn : t ≠ 0 := abs_pos.1 hp
  have h1 := (WithinUlp.def'.1 h).2
  rw [isZero_val.1 h0, zero_sub, abs_neg] at h1
  have h2 : ulpAt F t ≤ |t| / 2 := by
    unfold ulpAt
    rw [if_neg htn]
    have hl : (1 - F.bias : ℤ) ≤ Int.log 2 |t| := by
      rw [← Int.zpow_le_iff_le_log (by norm_num) hp]
      exact_mod_cast ht
    rw [max_eq_left hl]
    have h3 := Int.zpow_log_le_self (b := 2) (by norm_num) hp
    have h4 : (2 : ℝ) ^ (Int.log 2 |t| - F.sb) ≤ 2 ^ (Int.log 2 |t| - 1) :=
      zpow_le_zpow_right₀ (by norm_num) (by have := F.one_le_sb; omega)
    rw [zpow_sub_one₀ (by norm_num)] at h4
    push_cast at h3
    linarith
  have h5 := ulpAt_nonneg (F := F) t
  have h6 : c * ulpAt F t ≤ 2 * ulpAt F t := mul_le_mul_of_nonneg_right hc.le h5
  have h7 : ulpAt F t = |t| / 2 := by linarith
  rw [h7] at h1
  nlinarith

theorem KTanD.rr_srel {s : Bool} {x x' y y' : Flt f64} (hx : SRel s x x') (hy : SRel s y y') : SRel s (KTanD.rr x y) (KTanD.rr x' y') := by
  have c : ∀ a : Flt f64, SRel false a a := SRel.refl
  unfold KTanD.rr
  dsimp only
  have hz : SRel false (x * x) (x' * x') := by have := hx.mul hx; rwa [Bool.xor_self] at this
  generalize x * x = z at *
  generalize x' * x' = z' at *
  have hw : SRel false (z * z) (z' * z') := hz.mul hz
  generalize z * z = w at *
  generalize z' * z' = w' at *
  have hr := (c KTan.t1).add (hw.mul ((c KTan.t3).add (hw.mul ((c KTan.t5).add (hw.mul ((c KTan.t7).add (hw.mul ((c KTan.t9).add (hw.mul (c KTan.t11))))))))))
  have hv := hz.mul ((c KTan.t2).add (hw.mul ((c KTan.t4).add (hw.mul ((c KTan.t6).add (hw.mul ((c KTan.t8).add (hw.mul ((c KTan.t10).add (hw.mul (c KTan.t12)))))))))))
  have hs : SRel s (z * x) (z' * x') := by have := hz.mul hx; rwa [Bool.false_xor] at this
  have h1 := hs.mul (SRel.add hr hv)
  rw [Bool.xor_false] at h1
  have h2 := hz.mul (h1.add hy)
  rw [Bool.false_xor] at h2
  have h3 := hs.mul (c KTan.t0)
  rw [Bool.xor_false] at h3
  exact (hy.add h2).add h3

theorem KTanD.refl_srel {x x' : Flt f64} (hx : SRel false x x') (s : Flt f64) (h0 : ¬ (x + KTanD.rr x 0.0 + s).isZero) :
    SRel false (KTanD.refl x s) (KTanD.refl x' s) := by
  have c : ∀ a : Flt f64, SRel false a a := SRel.refl
  have hr := KTanD.rr_srel hx (c 0.0)
  have hw := hx.add hr
  rw [KTanD.refl.eq_1, KTanD.refl.eq_1]
  exact (c s).sub (SRel.mul (s := false) (t := false) (c 2.0) (hx.add (hr.sub (SRel.div (s := false) (t := false) (hw.mul hw) (hw.add (c s)) h0))))

theorem TanInv.inv_srel {x r r' : Flt f64} (hr : SRel true r r') (hw : ¬ (x + r).isZero) (hw2 : (x + r).isFinite) (ha : ¬ (-1.0 / (x + r)).isNaN) :
    SRel true (TanInv.inv x r) (TanInv.inv (-x) r') := by
  have c : ∀ a : Flt f64, SRel false a a := SRel.refl
  have e1 : -x + r' = -(x + r) := ((SRel.neg x).add hr).of_neg hw2 hw
  unfold TanInv.inv
  dsimp only
  rw [e1, zeroLowWord_neg]
  have e2 : (-1.0 : Flt f64) / -(x + r) = -(-1.0 / (x + r)) := by
    rcases Opp.div (Opp.refl (-1.0 : Flt f64)) (Opp.neg (x + r)) with h | ⟨h, -⟩
    · exact h
    · exact absurd h ha
  rw [e2, zeroLowWord_neg]
  generalize (-1.0 : Flt f64) / (x + r) = a
  generalize KTan.zeroLowWord a = a0
  generalize KTan.zeroLowWord (x + r) = w0
  have n : ∀ a : Flt f64, SRel true a (-a) := SRel.neg
  have hv := hr.sub ((n w0).sub (n x))
  exact (n a0).add (SRel.mul (s := true) (t := false) (n a) (((c 1.0).add (SRel.mul (s := true) (t := true) (n a0) (n w0))).add (SRel.mul (s := true) (t := true) (n a0) hv)))

namespace NearD
variable {a b a' b' : Flt f64} {r : ℝ} (h : NearD a b r)
include h

theorem tan_nz {odd : ℤ} (ho : odd = 0 ∨ odd = 1) : ¬ (kTan a b odd).isZero := by
  refine (h.tan_ulp ho).ne_zero' (by norm_num) ?_
  rw [f64_bias]
  have h1 := h.r_le_tan
  have h2 := h.lo
  have h0 := h.tan_ne
  have h3 : (2 : ℝ) ^ (1 - (1023 : ℕ) : ℤ) ≤ 1 / 2 ^ 100 := by
    rw [one_div, ← zpow_natCast, ← zpow_neg]; exact zpow_le_zpow_right₀ (by norm_num) (by norm_num)
  refine h3.trans ?_
  split_ifs
  · linarith
  · have h4 : |Real.tan r| ≤ 2 := by
      have := TanR.tan_lip (u := r) (v := 0) (c := 0.7855) (by norm_num) (by norm_num) h.hi (by norm_num)
      rw [Real.tan_zero, sub_zero, sub_zero] at this
      refine this.trans ?_
      rw [div_le_iff₀ (by norm_num)]
      have := h.hi
      norm_num at this ⊢; linarith
    rw [abs_neg, abs_div, abs_one]
    exact one_div_le_one_div_of_le (abs_pos.2 h0) (h4.trans (by norm_num))

theorem a_nz : ¬ a.isZero := by
  intro h0
  have h1 := h.r_le
  have h2 := h.lo
  rw [isZero_val.1 h0, abs_zero, mul_zero] at h1
  have : (0 : ℝ) < 1 / 2 ^ 100 := by positivity
  linarith

theorem tan_neg_small (hb : SRel true b b') (hm : a.mb < 0x3FE59428 * 2 ^ 32) {odd : ℤ} (ho : odd = 0 ∨ odd = 1) :
    kTan (-a) b' odd = -kTan a b odd := by
  have hu := (h.tan_ulp ho).1
  have hz := h.tan_nz ho
  rw [KTan.small_eq hm] at hu hz ⊢
  rw [KTan.small_eq (by rwa [mb_neg])]
  have hr := KTanD.rr_srel (SRel.neg a) hb
  rcases ho with rfl | rfl
  · simp only [if_true] at hu hz ⊢
    exact ((SRel.neg a).add hr).of_neg hu hz
  · simp only [one_ne_zero, if_false] at hu hz ⊢
    have hu0 := (h.tan_ulp (odd := 0) (Or.inl rfl)).1
    have hz0 := h.tan_nz (odd := 0) (Or.inl rfl)
    rw [KTan.small_eq hm] at hu0 hz0
    simp only [if_true] at hu0 hz0
    refine (TanInv.inv_srel hr hz0 hu0 ?_).of_neg hu hz
    intro hn
    apply not_nan_of_finite hu
    unfold TanInv.inv
    dsimp only
    rw [mul_nan (Or.inl hn), add_nan (Or.inr isNaN_qnan)]
    exact isNaN_qnan

theorem tan_neg_pos (hb : SRel true b b') (hm : 0x3FE59428 * 2 ^ 32 ≤ a.mb) (hs : a.sign = false) {odd : ℤ} (ho : odd = 0 ∨ odd = 1) :
    kTan (-a) b' odd = -kTan a b odd := by
  have hu := (h.tan_ulp ho).1
  have hz := h.tan_nz ho
  rw [KTan.big_eq hm] at hu hz ⊢
  rw [KTan.big_eq (by rwa [mb_neg]), sign_neg]
  simp only [hs, Bool.not_false, if_true, Bool.false_eq_true, if_false] at hu hz ⊢
  rw [Flt.neg_neg]
  refine congrArg (fun v : Flt f64 => -v) ?_
  have cv : (⟨(0x3FE5942800000000#64 : BitVec 64)⟩ : Flt f64).val = 1414184 * 2 ^ (-21 : ℤ) := val_const64 1414184 1053 (-21) (by decide +kernel) (by norm_num)
  have hl : 0.6743 ≤ |a.val| := by
    have := val_mono (x := a) (y := (⟨(0x3FE5942800000000#64 : BitVec 64)⟩ : Flt f64)) (le_trans (by decide +kernel) hm)
    rw [cv, zpow_neg] at this
    refine le_trans ?_ this
    rw [abs_of_pos (by positivity)]; norm_num
  rw [abs_of_nonneg (val_nonneg hs)] at hl
  obtain ⟨f, bd, er⟩ := h.refl_arg hl
  obtain ⟨sf, sv⟩ := KTanD.odd_sign ho
  obtain ⟨q, hq, qe, hnz⟩ := KTanD.refl_spec f bd er sf sv (by split_ifs <;> simp)
  have hb2 : SRel false b (-b') := by
    rcases hb with rfl | ⟨h1, h2⟩ | ⟨h1, h2⟩
    · left; show - (-b) = b; rw [Flt.neg_neg]
    · right; left; simpa using ⟨h1, h2⟩
    · right; right; simpa using ⟨h1, h2⟩
  exact (KTanD.refl_srel ((SRel.refl (KTan.pio4 - a)).add ((SRel.refl KTan.pio4lo).sub hb2)) _ hnz).of_eq hu hz

theorem tan_neg (ha : SRel true a a') (hb : SRel true b b') {odd : ℤ} (ho : odd = 0 ∨ odd = 1) : kTan a' b' odd = -kTan a b odd := by
  rw [ha.of_neg h.af h.a_nz]
  rcases lt_or_ge a.mb (0x3FE59428 * 2 ^ 32) with hm | hm
  · exact h.tan_neg_small hb hm ho
  cases hs : a.sign
  · exact h.tan_neg_pos hb hm hs ho
  · have hbv := hb.val h.bf
    rw [if_pos rfl] at hbv
    have h' : NearD (-a) b' (-r) := by
      obtain ⟨af, bf, h1, h2, h3, h4⟩ := h.neg'
      exact ⟨af, (hb.class.2.2.1).1 h.bf, by rwa [val_neg b, ← hbv] at h1, by rwa [val_neg b, ← hbv] at h2, h3, h4⟩
    have := h'.tan_neg_pos hb.symm (by rwa [mb_neg]) (by rw [sign_neg, hs]; rfl) ho
    rw [Flt.neg_neg] at this
    rw [this, Flt.neg_neg]

end NearD

/-- `tan` is within one and a half units in the last place of the tangent, for every finite double. -/
theorem tan_accurate : AccurateTo 1.5 tan Real.tan := by
  intro x hx
  show ∃ r, tan x = some r ∧ WithinUlp 1.5 r (Real.tan x.val)
  have hfin : x.mb < 0x7ff0000000000000 := by have := (isFinite64 x).1 hx; omega
  rw [tan]
  simp only [ix_le, ix_lt, ix_ge]
  simp only [BitVec.reduceToNat]
  split_ifs with h1 h2 h3
  · exact ⟨_, rfl, TrigAccD.tan_tiny hx (by omega)⟩
  · exact ⟨_, rfl, (TrigAccD.near0 hx (by omega) (by omega)).tan_ulp (Or.inl rfl)⟩
  · omega
  · obtain ⟨n, y0, y1, hr, N, hN, hnear⟩ := remPio2_quad Rpl.goodTbl_wide hx (by omega)
    rw [remPio2, hr, Option.map_some]
    refine ⟨_, rfl, ?_⟩
    dsimp only
    rw [and1_eq]
    rcases (by omega : n % 2 = 0 ∨ n % 2 = 1) with h | h <;> rw [h]
    · have := hnear.tan_ulp (odd := 0) (Or.inl rfl)
      rw [if_pos rfl, quad_even _ (by omega)] at this
      exact this
    · have := hnear.tan_ulp (odd := 1) (Or.inr rfl)
      rw [if_neg one_ne_zero, Real.tan_eq_sin_div_cos, one_div_div, quad_odd _ (by omega)] at this
      exact this

/-- `tan` is odd, bit for bit. -/
theorem tan_odd : OddFn tan := by
  intro x hn
  rw [tan, tan]
  simp only [ix_neg]
  simp only [ix_le, ix_lt, ix_ge]
  simp only [BitVec.reduceToNat]
  split_ifs with h1 h2 h3
  · exact ⟨_, _, rfl, rfl, Or.inl rfl⟩
  · have hx : x.isFinite := by rw [isFinite64]; omega
    have := (TrigAccD.near0 hx (by omega) (by omega)).tan_neg (SRel.neg x) (b' := 0.0) (Or.inr (Or.inr ⟨by decide +kernel, by decide +kernel⟩)) (odd := 0) (Or.inl rfl)
    exact ⟨_, _, rfl, rfl, Or.inl this⟩
  · refine ⟨_, _, rfl, rfl, Or.inr ?_⟩
    exact TrigAccD.inf_sub (by rw [isFinite64]; omega) hn
  · have hx : x.isFinite := by rw [isFinite64]; omega
    obtain ⟨n, y0, y1, y0', y1', e, e', s0, s1⟩ := rem_neg64 Rpl.goodTbl_wide hx (by omega)
    obtain ⟨_, _, _, er, N, hN, hnear⟩ := remPio2_quad Rpl.goodTbl_wide hx (by omega)
    rw [e] at er
    simp only [Option.some.injEq, Prod.mk.injEq] at er
    obtain ⟨rfl, rfl, rfl⟩ := er
    rw [remPio2, remPio2, e, e', Option.map_some, Option.map_some]
    refine ⟨_, _, rfl, rfl, Or.inl ?_⟩
    dsimp only
    rw [and1_eq, and1_eq, show -n % 2 = n % 2 by omega]
    exact hnear.tan_neg s0 s1 (by omega)

end Verif
