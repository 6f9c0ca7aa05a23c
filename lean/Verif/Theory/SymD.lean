import Verif.Theory.RemSmall
import Verif.Theory.SymF

/-!
# Opposite arguments of the reduction and of the kernels in double precision
-/

namespace Verif
open Flt

theorem ix_neg (x : Flt f64) : getHighWord (-x) &&& 0x7fffffff#32 = getHighWord x &&& 0x7fffffff#32 := by
  rw [← BitVec.toNat_inj, hi_abs, hi_abs, mb_neg]

theorem ey_srel {s : Bool} {a b : Flt f64} (h : SRel s a b) : RemPio2.ey b = RemPio2.ey a := by
  rw [ey_eq, ey_eq]
  congr 1
  rcases h with rfl | ⟨h1, h2⟩ | ⟨h1, h2⟩
  · unfold Flt.flip; split <;> simp
  · have := mb64_lt a
    have := mb64_lt b
    rw [isNaN64] at h1 h2
    omega
  · rw [isZero_iff] at h1 h2
    rw [h1, h2]

theorem small_neg (x : Flt f64) (k : ℤ) (a b : Flt f64) : ∃ n y0 y1 y0' y1', RemPio2.small x x.sign k a b = (n, y0, y1) ∧
    RemPio2.small (-x) (-x).sign k a b = (-n, y0', y1') ∧ SRel true y0 y0' ∧ SRel true y1 y1' := by
  have hp : ∀ c d : Flt f64, ∀ e : Flt f64, SRel true c d → SRel true (c - e) (d + e) := by
    intro c d e h
    rw [add_eq_sub_neg d e]
    exact h.sub (SRel.neg e)
  have hm : ∀ c d : Flt f64, ∀ e : Flt f64, SRel true c d → SRel true (c + e) (d - e) := by
    intro c d e h
    exact h.add (SRel.neg e)
  unfold RemPio2.small
  dsimp only
  rw [sign_neg]
  cases x.sign
  · refine ⟨_, _, _, _, _, rfl, rfl, ?_, ?_⟩
    · exact hp _ _ _ (hp _ _ _ (SRel.neg x))
    · exact hp _ _ _ ((hp _ _ _ (SRel.neg x)).sub (hp _ _ _ (hp _ _ _ (SRel.neg x))))
  · refine ⟨_, _, _, _, _, rfl, by rw [_root_.neg_neg]; rfl, ?_, ?_⟩
    · exact hm _ _ _ (hm _ _ _ (SRel.neg x))
    · exact hm _ _ _ ((hm _ _ _ (SRel.neg x)).sub (hm _ _ _ (hm _ _ _ (SRel.neg x))))

theorem medium_neg {x : Flt f64} (ix : BitVec 32) (h2 : x.mb < 0x413921fb * 2 ^ 32) : ∃ n y0 y1 y0' y1', RemPio2.medium x ix = (n, y0, y1) ∧
    RemPio2.medium (-x) ix = (-n, y0', y1') ∧ SRel true y0 y0' ∧ SRel true y1 y1' := by
  have hx : x.isFinite := by rw [isFinite64]; omega
  have hhi : |x.val| < 2 ^ 21 := by
    have := lt_of_exp (y := x) (E := 1044) (by norm_num) (by omega)
    norm_num at this ⊢; exact this
  have hinv : RemPio2.invPio2.isFinite := by decide +kernel
  have h4 : |x.val * RemPio2.invPio2.val| ≤ 2 ^ 21 := by
    rw [abs_mul, RemPio2.invPio2_val, abs_of_pos (a := (5734161139222659 : ℝ) * 2 ^ (-53 : ℤ)) (by positivity)]
    norm_num at hhi ⊢
    nlinarith [abs_nonneg x.val]
  have hqb := mul_err64 hx hinv 21 h4 (by norm_num) (by norm_num)
  have hq : -x * RemPio2.invPio2 = -(x * RemPio2.invPio2) := by
    rcases mul_flip true false x RemPio2.invPio2 with h3 | ⟨h3, -⟩
    · exact h3
    · exact absurd h3 (not_nan_of_finite hqb.1)
  have hqv : |(x * RemPio2.invPio2).val| ≤ 2 ^ 30 := by
    have h3 := abs_sub_abs_le_abs_sub (x * RemPio2.invPio2).val (x.val * RemPio2.invPio2.val)
    have h5 := hqb.2
    norm_num at h3 h4 h5 ⊢
    linarith
  obtain ⟨k, hk1, hk2⟩ := round_int_odd hqb.1 (T := RemPio2.toint) (by decide +kernel) RemPio2.toint_val hqv
  have hkb : |k| < 2 ^ 31 := by
    obtain ⟨k', hk', -, hb'⟩ := fn_spec (x := x) (inv := RemPio2.invPio2) (toint := RemPio2.toint) hx
      (by norm_num at *; linarith) (by decide +kernel) (by decide +kernel) RemPio2.invPio2_val RemPio2.toint_val
    have : (k : ℝ) = k' := by
      have h1 := hk1.2
      rw [hk'.2] at h1
      simpa using h1.symm
    have : k = k' := by exact_mod_cast this
    rw [this]; exact lt_of_le_of_lt hb' (by norm_num)
  have hfn := SRel.of_is hk1 hk2
  have e1 := toSInt_int (w := 32) hk1.1 (n := k) (by rw [hk1.2]; simp) hkb
  have e2 := toSInt_int (w := 32) hk2.1 (n := -k) (by rw [hk2.2]; simp) (by rw [abs_neg]; exact hkb)
  unfold RemPio2.medium
  dsimp only
  rw [hq]
  rw [e1, e2]
  generalize x * RemPio2.invPio2 + RemPio2.toint - RemPio2.toint = fn at *
  generalize -(x * RemPio2.invPio2) + RemPio2.toint - RemPio2.toint = fn' at *
  have hc : ∀ c : Flt f64, SRel true (fn * c) (fn' * c) := fun c => SRel.mul (s := true) (t := false) hfn (SRel.refl c)
  obtain ⟨r, hr⟩ : ∃ r, r = x - fn * RemPio2.pio2_1 := ⟨_, rfl⟩
  obtain ⟨r', hr'⟩ : ∃ r', r' = -x - fn' * RemPio2.pio2_1 := ⟨_, rfl⟩
  have hR : SRel true r r' := by rw [hr, hr']; exact (SRel.neg x).sub (hc _)
  rw [← hr, ← hr']
  clear hr hr'
  have hY := hR.sub (hc RemPio2.pio2_1t)
  rw [ey_srel hY]
  split
  · have hR2 := hR.sub (hc RemPio2.pio2_2)
    have hW2 := (hc RemPio2.pio2_2t).sub ((hR.sub hR2).sub (hc RemPio2.pio2_2))
    have hY2 := hR2.sub hW2
    rw [ey_srel hY2]
    split
    · have hR3 := hR2.sub (hc RemPio2.pio2_3)
      have hW3 := (hc RemPio2.pio2_3t).sub ((hR2.sub hR3).sub (hc RemPio2.pio2_3))
      have hY3 := hR3.sub hW3
      exact ⟨_, _, _, _, _, rfl, rfl, hY3, (hR3.sub hY3).sub hW3⟩
    · exact ⟨_, _, _, _, _, rfl, rfl, hY2, (hR2.sub hY2).sub hW2⟩
  · exact ⟨_, _, _, _, _, rfl, rfl, hY, (hR.sub hY).sub (hc _)⟩

theorem large_neg (tbl : List ℤ) (x : Flt f64) (ix : BitVec 32) {n : ℤ} {y0 y1 : Flt f64} (h : RemPio2.large tbl x ix = some (n, y0, y1)) :
    RemPio2.large tbl (-x) ix = some (-n, -y0, -y1) := by
  have e : (-x).u64 &&& 0x000fffffffffffff#64 = x.u64 &&& 0x000fffffffffffff#64 := by
    rw [← BitVec.toNat_inj]
    have h1 := u64_toNat x
    have h2 := u64_toNat (-x)
    rw [BV.and_low (k := 52) (by decide), BV.and_low (k := 52) (by decide), h1, h2, mb_neg, sign_neg]
    cases x.sign <;> simp <;> omega
  unfold RemPio2.large at h ⊢
  dsimp only at h ⊢
  rw [e]
  rw [sign_neg]
  simp only [Option.bind_eq_some_iff, Option.map_eq_some_iff] at h ⊢
  obtain ⟨⟨m, ty⟩, hR, a, h0, b, h1, h⟩ := h
  refine ⟨⟨m, ty⟩, hR, a, h0, b, h1, ?_⟩
  dsimp only at h ⊢
  revert h
  cases x.sign <;> intro h
  · rw [if_neg (by decide)] at h
    obtain ⟨rfl, rfl, rfl⟩ : m = n ∧ a = y0 ∧ b = y1 := by simpa using h
    rfl
  · rw [if_pos rfl] at h
    obtain ⟨rfl, rfl, rfl⟩ : -m = n ∧ -a = y0 ∧ -b = y1 := by simpa using h
    simp

attribute [local irreducible] RemPio2.small RemPio2.medium RemPio2.large

/-- opposite arguments have opposite reductions, up to the signs of zeros -/
theorem rem_neg64 {tbl : List ℤ} (ht : Rpl.GoodTbl tbl) {x : Flt f64} (hx : x.isFinite) (h : 0x3fe921fc * 2 ^ 32 ≤ x.mb) :
    ∃ n y0 y1 y0' y1', remPio2With tbl x = some (n, y0, y1) ∧ remPio2With tbl (-x) = some (-n, y0', y1') ∧ SRel true y0 y0' ∧ SRel true y1 y1' := by
  have hm : x.mb < 0x413921fb * 2 ^ 32 → ∃ n y0 y1 y0' y1', some (RemPio2.medium x (getHighWord x &&& 0x7fffffff#32)) = some (n, y0, y1) ∧
      some (RemPio2.medium (-x) (getHighWord x &&& 0x7fffffff#32)) = some (-n, y0', y1') ∧ SRel true y0 y0' ∧ SRel true y1 y1' := by
    intro h2
    obtain ⟨n, y0, y1, y0', y1', e, e', hq⟩ := medium_neg (x := x) (getHighWord x &&& 0x7fffffff#32) h2
    exact ⟨n, y0, y1, y0', y1', by rw [e], by rw [e'], hq⟩
  have hs : ∀ k a b, ∃ n y0 y1 y0' y1', some (RemPio2.small x x.sign k a b) = some (n, y0, y1) ∧
      some (RemPio2.small (-x) (-x).sign k a b) = some (-n, y0', y1') ∧ SRel true y0 y0' ∧ SRel true y1 y1' := by
    intro k a b
    obtain ⟨n, y0, y1, y0', y1', e, e', hq⟩ := small_neg x k a b
    exact ⟨n, y0, y1, y0', y1', by rw [e], by rw [e'], hq⟩
  rw [remPio2With, remPio2With]
  simp only [ix_neg]
  have hf := (isFinite64 x).1 hx
  split_ifs with g1 g2 g3 g4 g5 g6 g7 g8 g9
  · exact hm (by rw [Trig.ix_le] at g1; simp only [BitVec.reduceToNat] at g1; omega)
  · exact hs _ _ _
  · exact hs _ _ _
  · exact hm (by rw [Trig.ix_le] at g4; simp only [BitVec.reduceToNat] at g4; omega)
  · exact hs _ _ _
  · exact hm (by rw [Trig.ix_le] at g4; simp only [BitVec.reduceToNat] at g4; omega)
  · exact hs _ _ _
  · exact hm (by rw [Trig.ix_lt] at g8; exact g8)
  · rw [Trig.ix_ge] at g9; simp only [BitVec.reduceToNat] at g9; omega
  · obtain ⟨n, y0, y1, e, -⟩ := Rpl.large_quad ht x hx (by
      rw [Trig.ix_lt] at g8
      simp only [BitVec.reduceToNat] at g8
      omega)
    exact ⟨n, y0, y1, -y0, -y1, e, large_neg tbl x _ e, SRel.neg _, SRel.neg _⟩

theorem kSin_srel {x x' y y' : Flt f64} (hx : SRel true x x') (hy : SRel true y y') (iy : ℤ) : SRel true (kSin x y iy) (kSin x' y' iy) := by
  have c : ∀ a : Flt f64, SRel false a a := SRel.refl
  unfold kSin
  dsimp only
  have hz : SRel false (x * x) (x' * x') := hx.mul hx
  generalize x * x = z at *
  generalize x' * x' = z' at *
  have hw : SRel false (z * z) (z' * z') := hz.mul hz
  generalize z * z = w at *
  generalize z' * z' = w' at *
  have hr : SRel false (KSin.s2 + z * (KSin.s3 + z * KSin.s4) + z * w * (KSin.s5 + z * KSin.s6)) (KSin.s2 + z' * (KSin.s3 + z' * KSin.s4) + z' * w' * (KSin.s5 + z' * KSin.s6)) :=
    ((c _).add (hz.mul ((c _).add (hz.mul (c _))))).add (SRel.mul (s := false) (t := false) (hz.mul hw) ((c _).add (hz.mul (c _))))
  generalize KSin.s2 + z * (KSin.s3 + z * KSin.s4) + z * w * (KSin.s5 + z * KSin.s6) = r at *
  generalize KSin.s2 + z' * (KSin.s3 + z' * KSin.s4) + z' * w' * (KSin.s5 + z' * KSin.s6) = r' at *
  have hv : SRel true (z * x) (z' * x') := SRel.mul (s := false) (t := true) hz hx
  split
  · exact hx.add (SRel.mul (s := true) (t := false) hv ((c _).add (hz.mul hr)))
  · refine hx.sub (SRel.sub (SRel.sub (SRel.mul (s := false) (t := true) hz (SRel.sub (SRel.mul (s := false) (t := true) (c _) hy)
      (SRel.mul (s := true) (t := false) hv hr))) hy) (SRel.mul (s := true) (t := false) hv (c _)))

theorem kCos_srel {x x' y y' : Flt f64} (hx : SRel true x x') (hy : SRel true y y') : SRel false (kCos x y) (kCos x' y') := by
  have c : ∀ a : Flt f64, SRel false a a := SRel.refl
  unfold kCos
  dsimp only
  have hz : SRel false (x * x) (x' * x') := hx.mul hx
  generalize x * x = z at *
  generalize x' * x' = z' at *
  have hw : SRel false (z * z) (z' * z') := hz.mul hz
  generalize z * z = w at *
  generalize z' * z' = w' at *
  have hr : SRel false (z * (KCos.c1 + z * (KCos.c2 + z * KCos.c3)) + w * w * (KCos.c4 + z * (KCos.c5 + z * KCos.c6)))
      (z' * (KCos.c1 + z' * (KCos.c2 + z' * KCos.c3)) + w' * w' * (KCos.c4 + z' * (KCos.c5 + z' * KCos.c6))) :=
    SRel.add (hz.mul ((c KCos.c1).add (hz.mul ((c KCos.c2).add (hz.mul (c KCos.c3))))))
      (SRel.mul (s := false) (t := false) (hw.mul hw) ((c KCos.c4).add (hz.mul ((c KCos.c5).add (hz.mul (c KCos.c6))))))
  generalize z * (KCos.c1 + z * (KCos.c2 + z * KCos.c3)) + w * w * (KCos.c4 + z * (KCos.c5 + z * KCos.c6)) = r at *
  generalize z' * (KCos.c1 + z' * (KCos.c2 + z' * KCos.c3)) + w' * w' * (KCos.c4 + z' * (KCos.c5 + z' * KCos.c6)) = r' at *
  have hh : SRel false (0.5 * z) (0.5 * z') := SRel.mul (s := false) (t := false) (c (0.5 : Flt f64)) hz
  have h1 := (c (1.0 : Flt f64)).sub hh
  exact h1.add ((((c (1.0 : Flt f64)).sub h1).sub hh).add (SRel.sub (hz.mul hr) (SRel.mul (s := true) (t := true) hx hy)))

namespace NearD
variable {a b a' b' : Flt f64} {r : ℝ} (h : NearD a b r)
include h

theorem nz (iy : ℤ) (h01 : iy = 0 ∧ b.val = 0 ∨ iy = 1) : ¬ (kSin a b iy).isZero := by
  refine (h.sin_ulp iy h01).ne_zero le_rfl ?_
  rw [f64_bias]
  have h1 := sin_lower (r := r) (h.hi.trans (by norm_num))
  have h2 := h.lo
  have h3 : (2 : ℝ) ^ (1 - (1023 : ℕ) : ℤ) ≤ 2 ^ (-103 : ℤ) := zpow_le_zpow_right₀ (by norm_num) (by norm_num)
  refine h3.trans ?_
  norm_num at *
  linarith

theorem cos_nz : ¬ (kCos a b).isZero := by
  refine h.cos_ulp.ne_zero le_rfl ?_
  rw [f64_bias]
  have h1 := cos_lower (r := r) (h.hi.trans (by norm_num))
  have h3 : (2 : ℝ) ^ (1 - (1023 : ℕ) : ℤ) ≤ 2 ^ (-103 : ℤ) := zpow_le_zpow_right₀ (by norm_num) (by norm_num)
  refine h3.trans (le_trans ?_ (le_abs_self _))
  norm_num at *
  linarith

theorem sin_neg (ha : SRel true a a') (hb : SRel true b b') (iy : ℤ) (h01 : iy = 0 ∧ b.val = 0 ∨ iy = 1) : kSin a' b' iy = -kSin a b iy :=
  (kSin_srel ha hb iy).of_neg (h.sin_ulp iy h01).1 (h.nz iy h01)

theorem cos_neg (ha : SRel true a a') (hb : SRel true b b') : kCos a' b' = kCos a b :=
  (kCos_srel ha hb).of_eq h.cos_ulp.1 h.cos_nz

end NearD

end Verif
