import Verif.Theory.CbrtCore
import Verif.Theory.CbrtF2

/-!
# cbrt: the refinement, the two hard cases, and the exponent
-/

namespace Verif
namespace Cbrt
open Flt

/-- a good approximation of `C`: within little more than half a unit, and exact when it can be -/
structure Good (C : ℝ) (y : Flt f64) : Prop where
  fin : y.isFinite
  near : |y.val - C| ≤ 1 / 2 ^ 53 + 1 / 2 ^ 73
  exact : ∀ w : Flt f64, w.isFinite → w.val = C → y.val = w.val

theorem good_of_rne {C : ℝ} {y : Flt f64} (hC1 : 1 ≤ |C|) (hC2 : |C| ≤ 2 - 1 / 2 ^ 54) (h : ∃ q : ℝ, IsRNE q y ∧ |q - C| ≤ 1 / 2 ^ 74 * |C|) : Good C y := by
  obtain ⟨q, hq, hn⟩ := h
  have hn2 : |q - C| ≤ 1 / 2 ^ 73 := by norm_num at *; linarith
  have qb : |q| ≤ 2 := (abs_of_near hn2 hC2).trans (by norm_num)
  obtain ⟨f, e⟩ := hq.err64 1 (by rw [zpow_one]; exact qb) (by norm_num) (by norm_num)
  refine ⟨f, tri e hn2 (by norm_num), fun w hw hv => ?_⟩
  rw [← hv] at hn
  refine (rne_of_near hq hw ?_ hn (by rw [f64_sb]; norm_num)).2
  rw [f64_bias]
  refine qb.trans ?_
  have : (2 : ℝ) ^ (1 : ℤ) ≤ 2 ^ ((1023 : ℕ) : ℤ) := zpow_le_zpow_right₀ (by norm_num) (by norm_num)
  generalize (2 : ℝ) ^ ((1023 : ℕ) : ℤ) = T at *
  norm_num at this
  linarith

theorem grid_eq {y w : Flt f64} (h1 : 1 ≤ |y.val|) (h2 : 1 ≤ |w.val|) (h : |y.val - w.val| < 1 / 2 ^ 52) : y.val = w.val := by
  obtain ⟨n, hn⟩ := grid y 0 (by simpa using h1)
  obtain ⟨m, hm⟩ := grid w 0 (by simpa using h2)
  rw [f64_sb] at hn hm
  rw [hn, hm, ← sub_mul, abs_mul, abs_of_pos (zp _)] at h
  have e : (2 : ℝ) ^ ((0 : ℤ) - ((52 : ℕ) : ℤ)) = 1 / 2 ^ 52 := by norm_num
  rw [e] at h
  have h3 : |(n : ℝ) - m| < 1 := by
    by_contra hc
    push Not at hc
    have := mul_le_mul_of_nonneg_right hc (show (0 : ℝ) ≤ 1 / 2 ^ 52 by norm_num)
    linarith
  have h4 : |n - m| < 1 := by exact_mod_cast h3
  have h5 : n = m := by rw [abs_lt] at h4; omega
  rw [hn, hm, h5]

/-- a stored result for one hard case -/
theorem good_const {zz k c : Flt f64} {C K Y : ℝ} (vz : zz.val = C ^ 3) (hk : (Generic.fabs zz =ᶠ k) = true) (vk : k.val = K)
    (hc : c.isFinite) (hcs : c.sign = false) (vc : c.val = Y)
    (h1 : (Y - (1 / 2 ^ 53 + 1 / 2 ^ 73)) ^ 3 ≤ K) (h2 : K ≤ (Y + (1 / 2 ^ 53 + 1 / 2 ^ 73)) ^ 3) (hY : 5 / 4 ≤ Y) :
    Good C (Generic.copysign c zz) := by
  have hK : |zz.val| = K := by
    rw [feq_iff] at hk
    have h3 : (Generic.fabs zz).val = k.val := by
      show (((Generic.fabs zz).toRat : ℚ) : ℝ) = ((k.toRat : ℚ) : ℝ)
      rw [toRat_inj.2 hk.2.2]
    rw [fabs_ab, ab_val, vk] at h3
    exact h3
  have hCK : |C| ^ 3 = K := by rw [← abs_pow, ← vz, hK]
  have a1 := le_of_pow_le_pow_left₀ (n := 3) (by norm_num) (abs_nonneg C) (h1.trans hCK.ge)
  have a2 := le_of_pow_le_pow_left₀ (n := 3) (by norm_num) (by linarith) (hCK.le.trans h2)
  have e : Generic.copysign c zz = Flt.flip zz.sign c := by
    rw [copysign_eq]
    apply ext_mb
    · rw [flip_sign, hcs, Bool.xor_false]; exact sign_mk' (mb64_lt c)
    · rw [mb_mk' (mb64_lt c)]
      unfold Flt.flip; split <;> simp
  have near : |(Generic.copysign c zz).val - C| ≤ 1 / 2 ^ 53 + 1 / 2 ^ 73 := by
    rw [e, flip_val, vc]
    have hb : |Y - abs C| ≤ 1 / 2 ^ 53 + 1 / 2 ^ 73 := by rw [abs_le]; constructor <;> linarith
    cases hs : zz.sign
    · have h3 : 0 ≤ C ^ 3 := by rw [← vz]; exact val_nonneg hs
      have h4 : 0 ≤ C := by
        by_contra hc
        push Not at hc
        have := Odd.pow_neg (n := 3) (by decide) hc
        linarith
      rw [abs_of_nonneg h4] at hb
      simpa using hb
    · have h3 : C ^ 3 ≤ 0 := by rw [← vz]; exact val_nonpos hs
      have h4 : C ≤ 0 := by
        by_contra hc
        push Not at hc
        have := pow_pos hc 3
        linarith
      rw [abs_of_nonpos h4] at hb
      rw [if_pos rfl, show -Y - C = -(Y - -C) by ring, abs_neg]
      exact hb
  have fin : (Generic.copysign c zz).isFinite := by rw [e, flip_isFinite]; exact hc
  refine ⟨fin, near, fun w hw hv => ?_⟩
  have hca : |(Generic.copysign c zz).val| = Y := by
    rw [e, flip_val, vc]
    cases zz.sign
    · simp only [Bool.false_eq_true, if_false]; exact abs_of_pos (by linarith)
    · simp only [if_true, abs_neg]; exact abs_of_pos (by linarith)
  refine grid_eq (by rw [hca]; linarith) (by rw [hv]; norm_num at *; linarith) ?_
  rw [hv]
  exact lt_of_le_of_lt near (by norm_num)

theorem hard_good {zz y1 : Flt f64} {C : ℝ} (vz : zz.val = C ^ 3) (h : Good C y1) : Good C (hard zz y1) := by
  unfold hard
  simp only
  have v1 : (bits64 0x4009b78223aa307c#64).val = (1809660997438495 : ℝ) * 2 ^ (-49 : ℤ) := by
    rw [val_const64 (1809660997438495) 1025 (-49) (by decide +kernel) (by norm_num)]; norm_num
  have v2 : (bits64 0x401a202bfc89ddff#64).val = (7353722687053311 : ℝ) * 2 ^ (-50 : ℤ) := by
    rw [val_const64 (7353722687053311) 1024 (-50) (by decide +kernel) (by norm_num)]; norm_num
  have w1 : (bits64 0x3ff79d15d0e8d59c#64).val = (1661660372284775 : ℝ) * 2 ^ (-50 : ℤ) := by
    rw [val_const64 (1661660372284775) 1024 (-50) (by decide +kernel) (by norm_num)]; norm_num
  have w2 : (bits64 0x3ffde87aa837820f#64).val = (8418387830473231 : ℝ) * 2 ^ (-52 : ℤ) := by
    rw [val_const64 (8418387830473231) 1022 (-52) (by decide +kernel) (by norm_num)]; norm_num
  split_ifs with h2 h1
  · exact good_const vz h2 v2 (by decide +kernel) (by decide +kernel) w2 (by norm_num) (by norm_num) (by norm_num)
  · exact good_const vz h1 v1 (by decide +kernel) (by decide +kernel) w1 (by norm_num) (by norm_num) (by norm_num)
  · exact h

/-- both iterations -/
def iter (zz rr y : Flt f64) : Option (Flt f64 × Flt f64) := (step zz rr y).bind fun p => refine zz rr p.1 p.2

structure Start (C : ℝ) (zz rr y : Flt f64) : Prop where
  hz : zz.isFinite
  vz : zz.val = C ^ 3
  hr : rr.isFinite
  vr : |rr.val * C ^ 3 - 1| ≤ 1 / 2 ^ 50
  hy : y.isFinite
  hC1 : 1 ≤ |C|
  hC2 : |C| ≤ 2 - 1 / 2 ^ 54
  hn : |y.val - C| ≤ 1 / 2 ^ 38 * |C|

theorem Start.neg {C : ℝ} {zz rr y : Flt f64} (h : Start C zz rr y) : Start (-C) (-zz) (-rr) (-y) where
  hz := (Flt.isFinite_neg _).2 h.hz
  vz := by rw [val_neg, h.vz]; ring
  hr := (Flt.isFinite_neg _).2 h.hr
  vr := by rw [val_neg, show -rr.val * (-C) ^ 3 - 1 = rr.val * C ^ 3 - 1 by ring]; exact h.vr
  hy := (Flt.isFinite_neg _).2 h.hy
  hC1 := by rw [abs_neg]; exact h.hC1
  hC2 := by rw [abs_neg]; exact h.hC2
  hn := by rw [val_neg, abs_neg, show -y.val - -C = -(y.val - C) by ring, abs_neg]; exact h.hn

theorem Start.ok {C : ℝ} {zz rr y : Flt f64} (h : Start C zz rr y) : ∃ y1 d, StepOk y zz rr C y1 d :=
  step_ok h.hz h.vz h.hr h.vr h.hy h.hC1 (h.hC2.trans (by norm_num)) h.hn

/-- the second iteration starts from the result of the first -/
theorem Start.next {C : ℝ} {zz rr y y1 : Flt f64} (h : Start C zz rr y) (g : Good C y1) : Start C zz rr y1 :=
  { h with
    hy := g.fin
    hn := by
      refine g.near.trans ?_
      have := h.hC1
      norm_num
      linarith }

theorem Start.lo {C : ℝ} {zz rr y : Flt f64} (h : Start C zz rr y) : 1 / 2 ≤ |y.val| ∧ |y.val| ≤ 4 := by
  have h1 := h.hC1
  have h2 := h.hC2
  have h3 := h.hn
  constructor
  · have := abs_sub_abs_le_abs_sub C y.val
    rw [abs_sub_comm] at this
    norm_num at *
    linarith
  · have := abs_of_near h3 h2
    norm_num at *
    linarith

theorem iter_ok {C : ℝ} {zz rr y : Flt f64} (h : Start C zz rr y) :
    ∃ y1 d, iter zz rr y = some (y1, d) ∧ Good C y1 ∧ d.isFinite ∧ |d.val| ≤ 1 / 2 ^ 32 := by
  obtain ⟨y1, d, s⟩ := h.ok
  have g := good_of_rne h.hC1 h.hC2 s.rne
  obtain ⟨y2, d2, s2⟩ := (h.next g).ok
  have g2 := good_of_rne h.hC1 h.hC2 s2.rne
  unfold iter
  rw [s.eq]
  simp only [Option.bind_some]
  unfold refine
  split_ifs
  · rw [s2.eq]
    simp only [Option.map_some]
    split_ifs
    · exact ⟨_, _, rfl, hard_good h.vz g2, s2.fin, s2.small⟩
    · exact ⟨_, _, rfl, g2, s2.fin, s2.small⟩
  · exact ⟨_, _, rfl, g, s.fin, s.small⟩

theorem nearHalf_neg {d d' eps : Flt f64} (h : SRel true d d') (hd : d.isFinite) : nearHalf d' eps = nearHalf d eps := by
  have : Generic.fabs d' = Generic.fabs d := by
    rw [fabs_ab, fabs_ab]
    rcases h with h | h | h
    · rw [h, flip_true, ab_neg]
    · exact absurd h.1 (not_nan_of_finite hd)
    · apply ext_mb
      · rw [ab_sign, ab_sign]
      · rw [ab_mb, ab_mb, (isZero_iff d).1 h.1, (isZero_iff d').1 h.2]
  unfold nearHalf
  rw [this]

theorem fabs_neg' (x : Flt f64) : Generic.fabs (-x) = Generic.fabs x := by rw [fabs_ab, fabs_ab, ab_neg]

theorem copysign_neg' (c x : Flt f64) : Generic.copysign c (-x) = -Generic.copysign c x := by
  rw [copysign_eq, copysign_eq]
  apply ext_mb
  · rw [sign_mk' (mb64_lt c), Flt.sign_neg, Flt.sign_neg, sign_mk' (mb64_lt c)]
  · rw [mb_neg, mb_mk' (mb64_lt c), mb_mk' (mb64_lt c)]

theorem hard_neg (zz y1 : Flt f64) : hard (-zz) (-y1) = -hard zz y1 := by
  unfold hard
  simp only [fabs_neg', copysign_neg']
  split_ifs <;> rfl

theorem Good.ne {C : ℝ} {y : Flt f64} (g : Good C y) (hC1 : 1 ≤ |C|) : ¬ y.isZero := by
  intro h0
  have := g.near
  rw [isZero_val.1 h0, zero_sub, abs_neg] at this
  norm_num at this
  linarith

/-- the iterations from the opposite numbers end at the opposite number -/
theorem iter_neg {C : ℝ} {zz rr y y1 d : Flt f64} (h : Start C zz rr y) (e : iter zz rr y = some (y1, d)) :
    ∃ d', iter (-zz) (-rr) (-y) = some (-y1, d') := by
  obtain ⟨p, q, s⟩ := h.ok
  have g := good_of_rne h.hC1 h.hC2 s.rne
  obtain ⟨p2, q2, s2⟩ := (h.next g).ok
  have g2 := good_of_rne h.hC1 h.hC2 s2.rne
  obtain ⟨p', q', t, r1, r2⟩ := step_neg h.hy h.lo.1 h.lo.2 s.eq
  have ep : p' = -p := by rw [opp_fin (r1.opp (g.ne h.hC1)) g.fin, flip_true]
  subst ep
  obtain ⟨p2', q2', t2, r12, r22⟩ := step_neg (h.next g).hy (h.next g).lo.1 (h.next g).lo.2 s2.eq
  have ep2 : p2' = -p2 := by rw [opp_fin (r12.opp (g2.ne h.hC1)) g2.fin, flip_true]
  subst ep2
  unfold iter at e ⊢
  rw [s.eq] at e
  rw [t]
  simp only [Option.bind_some] at e ⊢
  unfold refine at e ⊢
  rw [nearHalf_neg r2 s.fin]
  split_ifs at e ⊢
  · rw [s2.eq] at e
    rw [t2]
    simp only [Option.map_some, nearHalf_neg r22 s2.fin] at e ⊢
    split_ifs at e ⊢
    · rw [Option.some.injEq, Prod.mk.injEq] at e
      rw [← e.1]
      exact ⟨_, by rw [hard_neg]⟩
    · rw [Option.some.injEq, Prod.mk.injEq] at e
      rw [← e.1]
      exact ⟨_, rfl⟩
  · rw [Option.some.injEq, Prod.mk.injEq] at e
    rw [← e.1]
    exact ⟨_, rfl⟩

end Cbrt
end Verif
