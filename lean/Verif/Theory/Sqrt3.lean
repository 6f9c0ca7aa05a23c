import Verif.Theory.Sqrt2

/-! # The three sets of iterations of sqrt, format by format -/

namespace Verif.Sqrt
open Verif Generic

variable {w : ℕ} {t : ℝ}

section sets
variable {r m : BitVec w} (hw : 2 ≤ w)
  (h0 : m.toNat * r.toNat / 2 ^ w * r.toNat / 2 ^ w ≤ 3 * 2 ^ (w - 2))
include hw h0

theorem u0_toNat : ((3#w <<< (w - 2)) - wmulh (wmulh m r) r).toNat =
    gU w (m.toNat * r.toNat / 2 ^ w) r.toNat := by
  rw [u_toNat hw, wmulh_toNat]
  rw [wmulh_toNat]; exact h0

theorem final_two : 2 * (goldschmidt r m 2 true).2.toNat = (it0 w m.toNat r.toNat).2 := by
  have h : (goldschmidt r m 2 true).2 = wmulh (wmulh m r) ((3#w <<< (w - 2)) - wmulh (wmulh m r) r) := rfl
  rw [h, wmulh_toNat, u0_toNat hw h0, wmulh_toNat]; rfl

theorem set_one (h1 : (it0 w m.toNat r.toNat).1 < 2 ^ w) :
    (goldschmidt r m 1 false).1.toNat = (it0 w m.toNat r.toNat).1 := by
  have h : (goldschmidt r m 1 false).1 = wmulh r ((3#w <<< (w - 2)) - wmulh (wmulh m r) r) <<< 1 := rfl
  rw [h, dbl_toNat, u0_toNat hw h0]
  · rfl
  · rw [u0_toNat hw h0]; exact h1

variable (h1 : (it0 w m.toNat r.toNat).1 < 2 ^ w) (h2 : (it0 w m.toNat r.toNat).2 < 2 ^ w)
  (h3 : (it0 w m.toNat r.toNat).2 * (it0 w m.toNat r.toNat).1 / 2 ^ w ≤ 3 * 2 ^ (w - 2))
include h1 h2 h3

omit h2 h3 in
theorem r1_toNat : (wmulh r ((3#w <<< (w - 2)) - wmulh (wmulh m r) r) <<< 1).toNat = (it0 w m.toNat r.toNat).1 :=
  set_one hw h0 h1

omit h1 h3 in
theorem s1_toNat : (wmulh (wmulh m r) ((3#w <<< (w - 2)) - wmulh (wmulh m r) r) <<< 1).toNat =
    (it0 w m.toNat r.toNat).2 := by
  rw [dbl_toNat, u0_toNat hw h0, wmulh_toNat]
  · rfl
  · rw [u0_toNat hw h0, wmulh_toNat]; exact h2

theorem set_two (h4 : (it1 w m.toNat r.toNat).1 < 2 ^ w) :
    (goldschmidt r m 2 false).1.toNat = (it1 w m.toNat r.toNat).1 := by
  have e1 := r1_toNat hw h0 h1
  have e2 := s1_toNat hw h0 h2
  set r1 := wmulh r ((3#w <<< (w - 2)) - wmulh (wmulh m r) r) <<< 1 with hr1
  set s1 := wmulh (wmulh m r) ((3#w <<< (w - 2)) - wmulh (wmulh m r) r) <<< 1 with hs1
  have h : (goldschmidt r m 2 false).1 = wmulh r1 ((3#w <<< (w - 2)) - wmulh s1 r1) <<< 1 := rfl
  have e3 : ((3#w <<< (w - 2)) - wmulh s1 r1).toNat = gU w s1.toNat r1.toNat := by
    apply u_toNat hw; rw [e1, e2]; exact h3
  rw [h, dbl_toNat, e3, e1, e2]
  · rfl
  · rw [e3, e1, e2]; exact h4

theorem final_three : 2 * (goldschmidt r m 3 true).2.toNat = (it1 w m.toNat r.toNat).2 := by
  have e1 := r1_toNat hw h0 h1
  have e2 := s1_toNat hw h0 h2
  set r1 := wmulh r ((3#w <<< (w - 2)) - wmulh (wmulh m r) r) <<< 1 with hr1
  set s1 := wmulh (wmulh m r) ((3#w <<< (w - 2)) - wmulh (wmulh m r) r) <<< 1 with hs1
  have h : (goldschmidt r m 3 true).2 = wmulh s1 ((3#w <<< (w - 2)) - wmulh s1 r1) := rfl
  have e3 : ((3#w <<< (w - 2)) - wmulh s1 r1).toNat = gU w s1.toNat r1.toNat := by
    apply u_toNat hw; rw [e1, e2]; exact h3
  rw [h, wmulh_toNat, e3, e1, e2]; rfl

end sets

/-- a reciprocal widened with zeros keeps its relative value -/
theorem ra_widen {v : ℕ} (h : w ≤ v) (r : ℕ) : ra v t (r * 2 ^ (v - w)) = ra w t r := by
  unfold ra
  have : (2 : ℝ) ^ v = 2 ^ (v - w) * 2 ^ w := by rw [← pow_add]; congr 1; omega
  rw [this]; push_cast; field_simp

theorem castU_some {v k : ℕ} (x : BitVec v) (h : x.toNat < 2 ^ k) : ∃ y, castU k x = some y ∧ y.toNat = x.toNat := by
  refine ⟨x.setWidth k, by unfold castU; rw [if_pos h], ?_⟩
  rw [BitVec.toNat_setWidth]; exact Nat.mod_eq_of_lt h

theorem widen_toNat {v k : ℕ} (x : BitVec v) (h : v ≤ k) : (x.setWidth k <<< (k - v)).toNat = x.toNat * 2 ^ (k - v) := by
  have hx := x.isLt
  have h1 : 2 ^ v ≤ 2 ^ k := Nat.pow_le_pow_right (by norm_num) h
  have h2 : 2 ^ k = 2 ^ v * 2 ^ (k - v) := by rw [← pow_add]; congr 1; omega
  rw [BV.shl, BitVec.toNat_setWidth, Nat.mod_eq_of_lt (show x.toNat < 2 ^ k by omega)]
  apply Nat.mod_eq_of_lt
  rw [h2]
  exact Nat.mul_lt_mul_of_pos_right hx (Nat.two_pow_pos _)

/-- the square root of the mantissa -/
theorem mant_sqrt {W m : ℕ} (hW : 2 ≤ W) (h1 : 2 ^ (W - 2) ≤ m) (h2 : m < 2 ^ W) :
    ∃ t : ℝ, 1 ≤ t ∧ t < 2 ∧ t ^ 2 = (m : ℝ) * eu W := by
  have h4 := four_pow W hW
  have hp : (0 : ℝ) < 2 ^ (W - 2) := by positivity
  have h1' : (2 : ℝ) ^ (W - 2) ≤ m := by exact_mod_cast h1
  have h2' : (m : ℝ) < 2 ^ W := by exact_mod_cast h2
  have e1 : 1 ≤ (m : ℝ) * eu W := by
    unfold eu; rw [← mul_div_assoc, le_div_iff₀ (by positivity), h4]; linarith
  have e2 : (m : ℝ) * eu W < 4 := by
    unfold eu; rw [← mul_div_assoc, div_lt_iff₀ (by positivity)]; linarith
  refine ⟨Real.sqrt (m * eu W), ?_, ?_, Real.sq_sqrt (by linarith)⟩
  · exact Real.one_le_sqrt.mpr e1
  · rw [Real.sqrt_lt' (by norm_num)]; linarith

theorem tab_lt (i : ℕ) : tab i < 2 ^ 16 := (rsqrtTab[i]?.getD 0).isLt

theorem ra_tab {W m : ℕ} (hw : 16 ≤ w) (hW : 8 ≤ W) (h1 : 2 ^ (W - 2) ≤ m) (h2 : m < 2 ^ W) (ht : 1 ≤ t)
    (hm : t ^ 2 = (m : ℝ) * eu W) : |ra w t (tab (idx W m) * 2 ^ (w - 16)) - 1| ≤ 1 / 256 := by
  rw [ra_widen hw]
  exact tab_spec hW h1 h2 ht hm

/-- near 1 the table entry is the one of index 64 -/
theorem idx_near {W m w : ℕ} (hw : 12 ≤ w) (hwW : w ≤ W) (h1 : 2 ^ (W - 2) ≤ m)
    (h : m / 2 ^ (W - w) < 2 ^ (w - 2) + 16) : idx W m = 64 := by
  have hm : m < (2 ^ (w - 2) + 16) * 2 ^ (W - w) := by
    rw [Nat.div_lt_iff_lt_mul (by positivity)] at h; exact h
  have e1 : 2 ^ (w - 2) * 2 ^ (W - w) = 2 ^ (W - 2) := by rw [← pow_add]; congr 1; omega
  have e2 : 16 * 2 ^ (W - w) ≤ 2 ^ (W - 8) := by
    rw [show (16 : ℕ) = 2 ^ 4 by norm_num, ← pow_add]; exact Nat.pow_le_pow_right (by norm_num) (by omega)
  have e3 : 2 ^ (W - 2) = 64 * 2 ^ (W - 8) := by
    rw [show (64 : ℕ) = 2 ^ 6 by norm_num, ← pow_add]; congr 1; omega
  have e4 : 2 ^ (W - 1) = 128 * 2 ^ (W - 8) := by
    rw [show (128 : ℕ) = 2 ^ 7 by norm_num, ← pow_add]; congr 1; omega
  have hp := Nat.two_pow_pos (W - 8)
  rw [Nat.add_mul, e1] at hm
  unfold idx
  rw [if_pos (by omega)]
  apply Nat.div_eq_of_lt_le <;> omega

theorem near32 : ∀ k < 16, (it0 32 (2 ^ 30 + k) (0xff02 * 2 ^ 16)).1 < 2 ^ 32 ∧
    (it1 32 (2 ^ 30 + k) (0xff02 * 2 ^ 16)).1 < 2 ^ 32 := by decide +kernel

theorem near64 : ∀ k < 16, (it0 64 (2 ^ 62 + k) ((it0 32 (2 ^ 30) (0xff02 * 2 ^ 16)).1 * 2 ^ 32)).1 < 2 ^ 64 ∧
    (it1 64 (2 ^ 62 + k) ((it0 32 (2 ^ 30) (0xff02 * 2 ^ 16)).1 * 2 ^ 32)).1 < 2 ^ 64 := by decide +kernel

theorem tab64 : tab 64 = 0xff02 := by decide

/-- first set of 32-bit iterations, starting from the table -/
theorem fits32 {W m : ℕ} (hW : 32 ≤ W) (h1 : 2 ^ (W - 2) ≤ m) (h2 : m < 2 ^ W) (ht1 : 1 ≤ t) (ht2 : t ≤ 2)
    (hm : t ^ 2 = (m : ℝ) * eu W) :
    (it0 32 (m / 2 ^ (W - 32)) (tab (idx W m) * 2 ^ 16)).1 < 2 ^ 32 ∧
    (it1 32 (m / 2 ^ (W - 32)) (tab (idx W m) * 2 ^ 16)).1 < 2 ^ 32 := by
  obtain ⟨m1, m2⟩ := trunc_mant (w := 32) hW hm
  have ha := ra_tab (w := 32) (by norm_num) (by omega) h1 h2 ht1 hm
  have hlo : 2 ^ 30 ≤ m / 2 ^ (W - 32) := by
    rw [Nat.le_div_iff_mul_le (by positivity), ← pow_add]
    rwa [show 30 + (W - 32) = W - 2 by omega]
  by_cases hn : m / 2 ^ (W - 32) < 2 ^ (32 - 2) + 16
  · rw [idx_near (by norm_num) hW h1 hn, tab64]
    obtain ⟨k, hk⟩ := Nat.exists_eq_add_of_le hlo
    rw [hk]
    exact near32 k (by omega)
  · push Not at hn
    have hf := far_one (w := 32) hn (by norm_num) ht1 m1
    obtain ⟨-, -, -, -, a5⟩ := it0_spec (w := 32) (by norm_num) ht1 ht2 (by norm_num) m1 m2 ha
    obtain ⟨-, -, -, b4⟩ := it1_spec (w := 32) (by norm_num) ht1 ht2 (by norm_num) m1 m2 ha
    exact ⟨r_fits a5 hf, r_fits b4 hf⟩

/-- `sqrtIterate` in terms of the table and the mantissa -/
def IterOk (F : Fmt) (s : BitVec F.bits) (t : ℝ) : Prop :=
  |rb F.bits t (2 * s.toNat) - 1| ≤ 1 / 2 ^ (F.sb + 2)

theorem lookup {F : Fmt} (c : SqrtCfg) (ix m : BitVec F.bits) (hc : 16 ≤ c.w1) (hs : F.ew + 7 ≤ 32)
    (hi : ix.toNat / 2 ^ (F.sb - 6) % 128 = idx F.bits m.toNat) (hidx : idx F.bits m.toNat < 128) :
    ∃ t : BitVec c.w1, t.toNat = tab (idx F.bits m.toNat) ∧
    sqrtIterate c ix m = (
      let r1 := t <<< (c.w1 - 16)
      (castU c.w1 (m >>> (F.bits - c.w1))).bind fun s1 =>
      let (r1, _) := goldschmidt r1 s1 c.n1 false
      let r2 := r1.setWidth c.w2 <<< (c.w2 - c.w1)
      (castU c.w2 (m >>> (F.bits - c.w2))).bind fun s2 =>
      let (r2, _) := goldschmidt r2 s2 c.n2 false
      let r := r2.setWidth F.bits <<< (F.bits - c.w2)
      let (_, s) := goldschmidt r m c.n3 true
      some s) := by
  have hsb := F.hsb
  obtain ⟨i, hi1, hi2⟩ := castU_some (k := 32) (ix >>> (F.sb - 6)) (by
    rw [BV.shr]
    apply Nat.div_lt_of_lt_mul
    refine lt_of_lt_of_le ix.isLt ?_
    rw [← pow_add, F.bits_eq]
    exact Nat.pow_le_pow_right (by norm_num) (by omega))
  rw [BV.shr] at hi2
  have hi3 : (i &&& 0b1111111#32).toNat = idx F.bits m.toNat := by
    rw [BV.and_low (k := 7) (by decide), hi2]
    exact hi
  have hlen : rsqrtTab.length = 128 := rfl
  have hget : rsqrtTab[(i &&& 0b1111111#32).toNat]? = some (rsqrtTab[idx F.bits m.toNat]'(by rw [hlen]; exact hidx)) := by
    rw [hi3]; exact List.getElem?_eq_getElem _
  have htab : (rsqrtTab[idx F.bits m.toNat]'(by rw [hlen]; exact hidx)).toNat = tab (idx F.bits m.toNat) := by
    unfold tab
    rw [List.getElem?_eq_getElem (by rw [hlen]; exact hidx)]; rfl
  obtain ⟨tt, ht1, ht2⟩ := castU_some (k := c.w1) (rsqrtTab[idx F.bits m.toNat]'(by rw [hlen]; exact hidx)) (by
    rw [htab]
    exact lt_of_lt_of_le (tab_lt _) (Nat.pow_le_pow_right (by norm_num) hc))
  refine ⟨tt, by rw [ht2, htab], ?_⟩
  unfold sqrtIterate
  rw [hi1, Option.bind_some, hget, Option.bind_some, ht1, Option.bind_some]

theorem shl_tab {k : ℕ} (x : BitVec k) (hk : 16 ≤ k) (hx : x.toNat < 2 ^ 16) :
    (x <<< (k - 16)).toNat = x.toNat * 2 ^ (k - 16) := by
  rw [BV.shl]
  apply Nat.mod_eq_of_lt
  have : 2 ^ k = 2 ^ 16 * 2 ^ (k - 16) := by rw [← pow_add]; congr 1; omega
  rw [this]
  exact Nat.mul_lt_mul_of_pos_right hx (Nat.two_pow_pos _)

theorem eu_le {k : ℕ} (h : k + 2 ≤ w) : eu w ≤ 1 / 2 ^ k := by
  unfold eu
  rw [div_le_div_iff₀ (by positivity) (by positivity)]
  have : (2 : ℝ) ^ (k + 2) ≤ 2 ^ w := pow_le_pow_right₀ (by norm_num) h
  rw [pow_add] at this
  linarith

theorem mant_hi {m : ℕ} (hm : t ^ 2 = (m : ℝ) * eu w) : t ^ 2 ≤ ((m : ℝ) + 1) * eu w := by
  have := eu_pos (w := w)
  rw [hm]; linarith

theorem iter16 (ix m : BitVec f16.bits) (h1 : 2 ^ 14 ≤ m.toNat) (ht1 : 1 ≤ t) (ht2 : t ≤ 2)
    (hm : t ^ 2 = (m.toNat : ℝ) * eu 16) (hi : ix.toNat / 2 ^ 4 % 128 = idx 16 m.toNat) :
    ∃ s, sqrtIterate sqrtCfg16 ix m = some s ∧ IterOk f16 s t := by
  have h2 : m.toNat < 2 ^ 16 := m.isLt
  obtain ⟨(tb : BitVec 16), (tb1 : tb.toNat = tab (idx 16 m.toNat)), e⟩ :=
    lookup sqrtCfg16 ix m (by decide) (by decide) hi (idx_lt (by decide) h2)
  obtain ⟨s1, c1, c2⟩ := castU_some (k := 16) (m >>> (f16.bits - 16)) (by
    rw [BV.shr]; exact lt_of_le_of_lt (Nat.div_le_self _ _) h2)
  have e' : sqrtIterate sqrtCfg16 ix m = some (goldschmidt (w := f16.bits)
      (((tb <<< (16 - 16)).setWidth 16 <<< (16 - 16)).setWidth f16.bits <<< (f16.bits - 16)) m 2 true).2 := by
    rw [e]
    show (castU 16 (m >>> (f16.bits - 16))).bind _ = _
    rw [c1]
    show (castU 16 (m >>> (f16.bits - 16))).bind _ = _
    rw [c1]
    rfl
  have hr : (((tb <<< (16 - 16)).setWidth 16 <<< (16 - 16)).setWidth f16.bits <<< (f16.bits - 16)).toNat =
      tab (idx 16 m.toNat) * 2 ^ (16 - 16) := by
    rw [widen_toNat _ (by decide), widen_toNat (v := 16) (k := 16) _ (by decide)]
    rw [shl_tab (k := 16) tb (by norm_num) (by rw [tb1]; exact tab_lt _), tb1]
    simp [show f16.bits - 16 = 0 from rfl]
  refine ⟨_, e', ?_⟩
  set r := ((tb <<< (16 - 16)).setWidth 16 <<< (16 - 16)).setWidth f16.bits <<< (f16.bits - 16)
  have ha := ra_tab (w := 16) (by norm_num) (by norm_num) h1 h2 ht1 hm
  rw [← hr] at ha
  obtain ⟨a1, -, a3, -, -⟩ := it0_spec (w := 16) (by norm_num) ht1 ht2 (by norm_num) hm.ge
    (mant_hi hm) ha
  unfold IterOk
  rw [final_two (w := f16.bits) (by decide) a1]
  refine a3.trans ?_
  show 1.6 * (1 / 256 + 3 * eu 16) ^ 2 + 3.5 * eu 16 ≤ 1 / 2 ^ 12
  unfold eu
  norm_num

theorem iter32 (ix m : BitVec f32.bits) (h1 : 2 ^ 30 ≤ m.toNat) (ht1 : 1 ≤ t) (ht2 : t ≤ 2)
    (hm : t ^ 2 = (m.toNat : ℝ) * eu 32) (hi : ix.toNat / 2 ^ 17 % 128 = idx 32 m.toNat) :
    ∃ s, sqrtIterate sqrtCfg32 ix m = some s ∧ IterOk f32 s t := by
  have h2 : m.toNat < 2 ^ 32 := m.isLt
  obtain ⟨(tb : BitVec 32), (tb1 : tb.toNat = tab (idx 32 m.toNat)), e⟩ :=
    lookup sqrtCfg32 ix m (by decide) (by decide) hi (idx_lt (by decide) h2)
  obtain ⟨s1, c1, c2⟩ := castU_some (k := 32) (m >>> (f32.bits - 32)) (by
    rw [BV.shr]; exact lt_of_le_of_lt (Nat.div_le_self _ _) h2)
  have e' : sqrtIterate sqrtCfg32 ix m = some (goldschmidt (w := f32.bits)
      (((tb <<< (32 - 16)).setWidth 32 <<< (32 - 32)).setWidth f32.bits <<< (f32.bits - 32)) m 3 true).2 := by
    rw [e]
    show (castU 32 (m >>> (f32.bits - 32))).bind _ = _
    rw [c1]
    show (castU 32 (m >>> (f32.bits - 32))).bind _ = _
    rw [c1]
    rfl
  have hr : (((tb <<< (32 - 16)).setWidth 32 <<< (32 - 32)).setWidth f32.bits <<< (f32.bits - 32)).toNat =
      tab (idx 32 m.toNat) * 2 ^ (32 - 16) := by
    rw [widen_toNat _ (by decide), widen_toNat (v := 32) (k := 32) _ (by decide)]
    rw [shl_tab (k := 32) tb (by norm_num) (by rw [tb1]; exact tab_lt _), tb1]
    simp [show f32.bits - 32 = 0 from rfl]
  refine ⟨_, e', ?_⟩
  have ha := ra_tab (w := 32) (by norm_num) (by norm_num) h1 h2 ht1 hm
  obtain ⟨f1, -⟩ := fits32 (W := 32) (le_refl _) h1 h2 ht1 ht2 hm
  rw [Nat.sub_self, pow_zero, Nat.div_one] at f1
  change (it0 32 m.toNat (tab (idx 32 m.toNat) * 2 ^ (32 - 16))).1 < 2 ^ 32 at f1
  set r := ((tb <<< (32 - 16)).setWidth 32 <<< (32 - 32)).setWidth f32.bits <<< (f32.bits - 32)
  rw [← hr] at ha f1
  have hm2 : t ^ 2 ≤ ((m.toNat : ℝ) + 1) * eu 32 := mant_hi hm
  obtain ⟨a1, -, a3, -, -⟩ := it0_spec (w := 32) (by norm_num) ht1 ht2 (by norm_num) hm.ge hm2 ha
  obtain ⟨b1, -, b3, -⟩ := it1_spec (w := 32) (by norm_num) ht1 ht2 (by norm_num) hm.ge hm2 ha
  unfold IterOk
  rw [final_three (w := f32.bits) (by decide) a1 f1 (s_fits (w := 32) (a3.trans (by unfold eu; norm_num)) ht1 ht2) b1]
  refine b3.trans ?_
  show _ ≤ (1 : ℝ) / 2 ^ 25
  unfold eu
  norm_num

/-- the sets of iterations used for binary64 -/
theorem sets64 {m : BitVec 64} {s1 r0 : BitVec 32} (h1 : 2 ^ 62 ≤ m.toNat) (ht1 : 1 ≤ t) (ht2 : t ≤ 2)
    (hm : t ^ 2 = (m.toNat : ℝ) * eu 64) (c2 : s1.toNat = m.toNat / 2 ^ (64 - 32))
    (hr : r0.toNat = tab (idx 64 m.toNat) * 2 ^ (32 - 16)) :
    |rb 64 t (2 * (goldschmidt ((goldschmidt r0 s1 2 false).1.setWidth 64 <<< (64 - 32)) m 2 true).2.toNat) - 1| ≤
      1 / 2 ^ 54 := by
  have ha := ra_tab (w := 32) (by norm_num) (by norm_num) h1 m.isLt ht1 hm
  obtain ⟨m1, m2⟩ := trunc_mant (w := 32) (W := 64) (by norm_num) hm
  obtain ⟨f1, f2⟩ := fits32 (W := 64) (by norm_num) h1 m.isLt ht1 ht2 hm
  rw [← c2] at m1 m2 f1 f2
  rw [show (2 : ℕ) ^ 16 = 2 ^ (32 - 16) from rfl, ← hr] at f1 f2
  rw [← hr] at ha
  obtain ⟨a1, -, a3, -, -⟩ := it0_spec (w := 32) (by norm_num) ht1 ht2 (by norm_num) m1 m2 ha
  obtain ⟨b1, b2, -, -⟩ := it1_spec (w := 32) (by norm_num) ht1 ht2 (by norm_num) m1 m2 ha
  have hs2 := set_two (w := 32) (by norm_num) a1 f1 (s_fits (w := 32) (a3.trans (by unfold eu; norm_num)) ht1 ht2) b1 f2
  have hr2 := widen_toNat (k := 64) (goldschmidt r0 s1 2 false).1 (by norm_num)
  generalize (goldschmidt r0 s1 2 false).1.setWidth 64 <<< (64 - 32) = r2 at *
  have ha2 : |ra 64 t r2.toNat - 1| ≤ 4.8 / 2 ^ 30 := by
    rw [hr2, hs2, ra_widen (w := 32) (v := 64) (t := t) (by norm_num)]
    refine b2.trans ?_
    unfold eu
    norm_num
  obtain ⟨k1, -, k3, -, -⟩ := it0_spec (w := 64) (by norm_num) ht1 ht2 (by norm_num) hm.ge (mant_hi hm) ha2
  rw [final_two (w := 64) (by norm_num) k1]
  refine k3.trans ?_
  unfold eu
  norm_num

theorem iter64 (ix m : BitVec f64.bits) (h1 : 2 ^ 62 ≤ m.toNat) (ht1 : 1 ≤ t) (ht2 : t ≤ 2)
    (hm : t ^ 2 = (m.toNat : ℝ) * eu 64) (hi : ix.toNat / 2 ^ 46 % 128 = idx 64 m.toNat) :
    ∃ s, sqrtIterate sqrtCfg64 ix m = some s ∧ IterOk f64 s t := by
  have h2 : m.toNat < 2 ^ 64 := m.isLt
  obtain ⟨(tb : BitVec 32), (tb1 : tb.toNat = tab (idx 64 m.toNat)), e⟩ :=
    lookup sqrtCfg64 ix m (by decide) (by decide) hi (idx_lt (by decide) h2)
  obtain ⟨s1, c1, c2⟩ := castU_some (k := 32) (m >>> (f64.bits - 32)) (by
    rw [BV.shr]; exact Nat.div_lt_of_lt_mul (by rw [← pow_add]; exact h2))
  rw [BV.shr] at c2
  have e' : sqrtIterate sqrtCfg64 ix m = some (goldschmidt (w := f64.bits)
      ((goldschmidt ((tb <<< (32 - 16)).setWidth 32 <<< (32 - 32)) s1 2 false).1.setWidth f64.bits <<< (f64.bits - 32))
      m 2 true).2 := by
    rw [e]
    show (castU 32 (m >>> (f64.bits - 32))).bind _ = _
    rw [c1]
    show (castU 32 (m >>> (f64.bits - 32))).bind _ = _
    rw [c1]
    rfl
  have hr : ((tb <<< (32 - 16)).setWidth 32 <<< (32 - 32)).toNat = tab (idx 64 m.toNat) * 2 ^ (32 - 16) := by
    rw [widen_toNat (v := 32) (k := 32) _ (by decide)]
    rw [shl_tab (k := 32) tb (by norm_num) (by rw [tb1]; exact tab_lt _), tb1]
    simp
  exact ⟨_, e', sets64 (m := m) h1 ht1 ht2 hm c2 hr⟩

/-- the sets of iterations used for binary128 -/
theorem sets128 {m : BitVec 128} {s1 r0 : BitVec 32} {s2 : BitVec 64} (h1 : 2 ^ 126 ≤ m.toNat) (ht1 : 1 ≤ t) (ht2 : t ≤ 2)
    (hm : t ^ 2 = (m.toNat : ℝ) * eu 128) (c2 : s1.toNat = m.toNat / 2 ^ (128 - 32))
    (d2 : s2.toNat = m.toNat / 2 ^ (128 - 64)) (hr : r0.toNat = tab (idx 128 m.toNat) * 2 ^ (32 - 16)) :
    |rb 128 t (2 * (goldschmidt ((goldschmidt ((goldschmidt r0 s1 1 false).1.setWidth 64 <<< (64 - 32))
        s2 2 false).1.setWidth 128 <<< (128 - 64)) m 2 true).2.toNat) - 1| ≤ 1 / 2 ^ 114 := by
  have ha := ra_tab (w := 32) (by norm_num) (by norm_num) h1 m.isLt ht1 hm
  obtain ⟨m1, m2⟩ := trunc_mant (w := 32) (W := 128) (by norm_num) hm
  obtain ⟨n1, n2⟩ := trunc_mant (w := 64) (W := 128) (by norm_num) hm
  obtain ⟨f1, -⟩ := fits32 (W := 128) (by norm_num) h1 m.isLt ht1 ht2 hm
  rw [← c2] at m1 m2 f1
  rw [← d2] at n1 n2
  rw [show (2 : ℕ) ^ 16 = 2 ^ (32 - 16) from rfl, ← hr] at f1
  rw [← hr] at ha
  -- first set: one 32-bit iteration
  obtain ⟨a1, a2, -, -, -⟩ := it0_spec (w := 32) (by norm_num) ht1 ht2 (by norm_num) m1 m2 ha
  have hs1 := set_one (w := 32) (by norm_num) a1 f1
  -- second set: two 64-bit iterations
  have hr1 := widen_toNat (k := 64) (goldschmidt r0 s1 1 false).1 (by norm_num)
  generalize (goldschmidt r0 s1 1 false).1.setWidth 64 <<< (64 - 32) = r1 at *
  have ha1 : |ra 64 t r1.toNat - 1| ≤ 1.61 / 2 ^ 16 := by
    rw [hr1, hs1, ra_widen (w := 32) (v := 64) (t := t) (by norm_num)]
    refine a2.trans ?_
    unfold eu
    norm_num
  obtain ⟨p1, p2, p3, p4, p5⟩ := it0_spec (w := 64) (by norm_num) ht1 ht2 (by norm_num) n1 n2 ha1
  obtain ⟨q1, q2, -, q4⟩ := it1_spec (w := 64) (by norm_num) ht1 ht2 (by norm_num) n1 n2 ha1
  have hlo : 2 ^ 62 ≤ s2.toNat := by
    rw [d2, Nat.le_div_iff_mul_le (by positivity), ← pow_add]
    exact h1
  have fit : (it0 64 s2.toNat r1.toNat).1 < 2 ^ 64 ∧ (it1 64 s2.toNat r1.toNat).1 < 2 ^ 64 := by
    by_cases hn : s2.toNat < 2 ^ (64 - 2) + 16
    · have hidx : idx 128 m.toNat = 64 := by
        apply idx_near (w := 64) (by norm_num) (by norm_num) h1
        rw [← d2]; exact hn
      have hs30 : s1.toNat = 2 ^ 30 := by
        rw [c2]
        have : m.toNat < (2 ^ (64 - 2) + 16) * 2 ^ (128 - 64) := by
          rw [d2, Nat.div_lt_iff_lt_mul (by positivity)] at hn; exact hn
        apply Nat.div_eq_of_lt_le
        · exact h1
        · refine lt_trans this (by norm_num)
      have hr1' : r1.toNat = (it0 32 (2 ^ 30) (0xff02 * 2 ^ 16)).1 * 2 ^ 32 := by
        rw [hr1, hs1, hr, hidx, tab64, hs30]
      obtain ⟨k, hk⟩ := Nat.exists_eq_add_of_le hlo
      rw [hr1', hk]
      exact near64 k (by omega)
    · push Not at hn
      have hf := far_one (w := 64) hn (by norm_num) ht1 n1
      exact ⟨r_fits p5 hf, r_fits q4 hf⟩
  have hs2 := set_two (w := 64) (by norm_num) p1 fit.1
    (s_fits (w := 64) (p3.trans (by unfold eu; norm_num)) ht1 ht2) q1 fit.2
  have hr2 := widen_toNat (k := 128) (goldschmidt r1 s2 2 false).1 (by norm_num)
  generalize (goldschmidt r1 s2 2 false).1.setWidth 128 <<< (128 - 64) = r2 at *
  have ha2 : |ra 128 t r2.toNat - 1| ≤ 16 / 2 ^ 62 := by
    rw [hr2, hs2, ra_widen (w := 64) (v := 128) (t := t) (by norm_num)]
    refine q2.trans ?_
    unfold eu
    norm_num
  obtain ⟨k1, -, k3, -, -⟩ := it0_spec (w := 128) (by norm_num) ht1 ht2 (by norm_num) hm.ge (mant_hi hm) ha2
  rw [final_two (w := 128) (by norm_num) k1]
  refine k3.trans ?_
  unfold eu
  norm_num

theorem iter128 (ix m : BitVec f128.bits) (h1 : 2 ^ 126 ≤ m.toNat) (ht1 : 1 ≤ t) (ht2 : t ≤ 2)
    (hm : t ^ 2 = (m.toNat : ℝ) * eu 128) (hi : ix.toNat / 2 ^ 106 % 128 = idx 128 m.toNat) :
    ∃ s, sqrtIterate sqrtCfg128 ix m = some s ∧ IterOk f128 s t := by
  have h2 : m.toNat < 2 ^ 128 := m.isLt
  obtain ⟨(tb : BitVec 32), (tb1 : tb.toNat = tab (idx 128 m.toNat)), e⟩ :=
    lookup sqrtCfg128 ix m (by decide) (by decide) hi (idx_lt (by decide) h2)
  obtain ⟨s1, c1, c2⟩ := castU_some (k := 32) (m >>> (f128.bits - 32)) (by
    rw [BV.shr]; exact Nat.div_lt_of_lt_mul (by rw [← pow_add]; exact h2))
  rw [BV.shr] at c2
  obtain ⟨s2, d1, d2⟩ := castU_some (k := 64) (m >>> (f128.bits - 64)) (by
    rw [BV.shr]; exact Nat.div_lt_of_lt_mul (by rw [← pow_add]; exact h2))
  rw [BV.shr] at d2
  have e' : sqrtIterate sqrtCfg128 ix m = some (goldschmidt (w := f128.bits)
      ((goldschmidt ((goldschmidt (tb <<< (32 - 16)) s1 1 false).1.setWidth 64 <<< (64 - 32)) s2 2 false).1.setWidth f128.bits
        <<< (f128.bits - 64)) m 2 true).2 := by
    rw [e]
    show (castU 32 (m >>> (f128.bits - 32))).bind _ = _
    rw [c1]
    show (castU 64 (m >>> (f128.bits - 64))).bind _ = _
    rw [d1]
    rfl
  have hr : (tb <<< (32 - 16)).toNat = tab (idx 128 m.toNat) * 2 ^ (32 - 16) := by
    rw [shl_tab (k := 32) tb (by norm_num) (by rw [tb1]; exact tab_lt _), tb1]
  exact ⟨_, e', sets128 (m := m) h1 ht1 ht2 hm c2 d2 hr⟩

end Verif.Sqrt
