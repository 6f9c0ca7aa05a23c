import Verif.Theory.Fma3

/-! # C21: `fma`, `fmaf128` — the generic software algorithm -/

namespace Verif
open Flt Generic
variable {F : Fmt}

/-- The product lies a hair above a positive multiple of a quarter of the spacing of `z`:
with `2^E ≤ |z| < 2^(E+1)` (so that the spacing of the data around `z` is `2^(E-sb)`),
`q·2^(E-sb-2) < |x·y| < q·2^(E-sb-2) + 2^(E-sb-1-BITS)` for some `q > 0`. -/
def FmaHair (x y z : Flt F) : Prop :=
  ∃ (E : ℤ) (q : ℕ), (2 : ℚ) ^ E ≤ |z.toRat| ∧ |z.toRat| < 2 ^ (E + 1) ∧ 0 < q ∧
    (q : ℚ) * 2 ^ (E - F.sb - 2) < |x.toRat * y.toRat| ∧
    |x.toRat * y.toRat| < (q : ℚ) * 2 ^ (E - F.sb - 2) + 2 ^ (E - F.sb - 1 - F.bits)

theorem norm_e_range (hF : FmaFmt F) (x : Flt F) (hx : x.isFinite) (h0 : ¬ x.isZero) :
    -2 ^ 22 < (normFromFloat x).e ∧ (normFromFloat x).e < 2 ^ 22 := by
  have n := norm_finite hF hx h0
  have h1 := n.emin
  have h2 := n.emax
  have h3 := hF.scale.small
  have h4 := F.sb_lt_bias
  unfold zeroInfNan expUnbias at h2
  rw [expSat_eq, expBias_eq, F.two_bias] at h2
  omega

theorem sg_sq (b : Bool) : sg b * sg b = 1 := by cases b <;> rfl

theorem toRat_sg (x : Flt F) : x.toRat = sg x.sign * |x.toRat| := by
  rcases toRat_sign_cases x with ⟨h1, h2⟩ | ⟨h1, h2⟩
  · rw [h1]; unfold sg; simp; linarith
  · rw [h1]; unfold sg; simp; linarith

theorem not_hair_keep (hF : FmaFmt F) {x y z : Flt F} {nx ny nz : Norm F} (hx : IsNormOf x nx) (hy : IsNormOf y ny)
    (hz : IsNormOf z nz) (hh : ¬ FmaHair x y z) :
    ∀ k : Nat, 0 < k → k < F.bits → nz.e - (nx.e + ny.e) - F.bits = k →
      nx.m.toNat * ny.m.toNat % 2 ^ k ≠ 0 → nx.m.toNat * ny.m.toNat / 2 ^ k % 2 ^ (F.bits - 1) ≠ 0 := by
  intro k k0 kB hk hm hq
  apply hh
  have hbb := F.bits_eq
  have hew2 := hF.ew
  have zp : ∀ (a b : Int), (2 : ℚ) ^ (a + b) = 2 ^ a * 2 ^ b := fun a b => zpow_add₀ (by norm_num) a b
  obtain ⟨P, hP⟩ : ∃ P, P = nx.m.toNat * ny.m.toNat := ⟨_, rfl⟩
  have hxy : |x.toRat * y.toRat| = P * 2 ^ (nx.e + ny.e) := by
    rw [abs_mul, hx.val, hy.val, zp, hP]; push_cast; ring
  rw [← hP] at hm hq
  obtain ⟨q, hq'⟩ := Nat.dvd_of_mod_eq_zero hq
  have hdm := Nat.div_add_mod P (2 ^ k)
  have hml := Nat.mod_lt P (Nat.two_pow_pos k)
  have hPl : 2 ^ k ≤ P := by
    have : 2 ^ (F.sb + 1) * 2 ^ (F.sb + 1) ≤ P := by rw [hP]; exact Nat.mul_le_mul hx.lo hy.lo
    rw [← pow_add] at this
    exact le_trans (Nat.pow_le_pow_right (by norm_num) (by omega)) this
  have q0 : 0 < q := by
    rcases Nat.eq_zero_or_pos q with h | h
    · rw [h, Nat.mul_zero] at hq'
      rw [hq'] at hdm; omega
    · exact h
  have hsc : (2 : ℚ) ^ (nz.e + F.sb + 1 - F.sb - 2) = 2 ^ (F.bits - 1) * (2 ^ k * 2 ^ (nx.e + ny.e)) := by
    rw [← zpow_natCast, ← zpow_natCast, ← zp, ← zp]; congr 1; omega
  have hsc2 : (2 : ℚ) ^ (nz.e + F.sb + 1 - F.sb - 1 - F.bits) = 2 ^ k * 2 ^ (nx.e + ny.e) := by
    rw [← zpow_natCast, ← zp]; congr 1; omega
  have hu := zpow2_pos (nx.e + ny.e)
  have hzz : nz.m.toNat * (2 : ℚ) ^ nz.e = |z.toRat| := hz.val.symm
  have hPq : (P : ℚ) = 2 ^ k * (2 ^ (F.bits - 1) * q) + (P % 2 ^ k : ℕ) := by
    rw [hq'] at hdm; exact_mod_cast hdm.symm
  refine ⟨nz.e + F.sb + 1, q, ?_, ?_, q0, ?_, ?_⟩
  · rw [← hzz, add_assoc, add_comm, zp]
    refine mul_le_mul_of_nonneg_right ?_ (zpow2_pos _).le
    have := hz.lo
    exact_mod_cast this
  · rw [← hzz, show nz.e + F.sb + 1 + 1 = ((F.sb + 2 : ℕ) : Int) + nz.e by push_cast; ring, zp, zpow_natCast]
    refine mul_lt_mul_of_pos_right ?_ (zpow2_pos _)
    have := hz.hi
    exact_mod_cast this
  · rw [hxy, hsc, hPq]
    have : (0 : ℚ) < (P % 2 ^ k : ℕ) := by exact_mod_cast Nat.pos_of_ne_zero hm
    nlinarith
  · rw [hxy, hsc, hsc2, hPq]
    have : ((P % 2 ^ k : ℕ) : ℚ) < 2 ^ k := by exact_mod_cast hml
    nlinarith

/-- the case of three nonzero finite operands -/
theorem fma_nonzero (hF : FmaFmt F) {x y z : Flt F} (hx : x.isFinite) (hy : y.isFinite) (hz : z.isFinite)
    (x0 : ¬ x.isZero) (y0 : ¬ y.isZero) (z0 : ¬ z.isZero) (hh : ¬ FmaHair x y z) :
    ∃ r, fma x y z = some r ∧ IsRNE (x.toRat * y.toRat + z.toRat) r ∧
      (x.toRat * y.toRat + z.toRat = 0 → r = zero F false) := by
  have nx := norm_finite hF hx x0
  have ny := norm_finite hF hy y0
  have nz := norm_finite hF hz z0
  have rx := norm_e_range hF x hx x0
  have ry := norm_e_range hF y hy y0
  have rz := norm_e_range hF z hz z0
  have al := fmaAlign_spec hF _ _ _ nx.lo nx.hi nx.even ny.lo ny.hi nz.lo nz.hi
  have hkeep := not_hair_keep hF nx ny nz hh
  have hbb := F.bits_eq
  have hsm := hF.scale.small
  have hsl := F.sb_lt_bias
  have hewb : F.ew + F.sb < F.bias := hF.fit
  have zp : ∀ (a b : Int), (2 : ℚ) ^ (a + b) = 2 ^ a * 2 ^ b := fun a b => zpow_add₀ (by norm_num) a b
  unfold fma fmaRound
  simp only [norm_not_special hF hx x0, norm_not_special hF hy y0, norm_not_special hF hz z0, Bool.or_self,
    Bool.false_eq_true, if_false]
  obtain ⟨sx, hsx⟩ : ∃ s, s = normFromFloat x := ⟨_, rfl⟩
  obtain ⟨sy, hsy⟩ : ∃ s, s = normFromFloat y := ⟨_, rfl⟩
  obtain ⟨sz, hsz⟩ : ∃ s, s = normFromFloat z := ⟨_, rfl⟩
  rw [← hsx] at nx rx al hkeep ⊢
  rw [← hsy] at ny ry al hkeep ⊢
  rw [← hsz] at nz rz al hkeep ⊢
  obtain ⟨⟨rlo, rhi, zlo, zhi, e⟩, ho⟩ : ∃ o, o = fmaAlign sx sy sz := ⟨_, rfl⟩
  rw [← ho] at al ⊢
  have a1 := al.rhi
  have a2 := al.zhi
  have a3 := al.big
  have a4 := al.e
  have a5 := al.val hkeep (sg (x.sign ^^ y.sign) * sg z.sign) (by cases (x.sign ^^ y.sign) <;> cases z.sign <;> simp [sg])
  simp only at a1 a2 a3 a4 a5
  obtain ⟨rlo', rhi', neg', hsum, hr', hN⟩ := fmaSum_spec (sx.neg ^^ sy.neg) sz.neg rlo rhi zlo zhi a1 a2 a3
  simp only
  rw [hsum, Option.bind_some]
  rw [nx.neg, ny.neg, nz.neg] at hN
  obtain ⟨n1, n2⟩ := fmaNormalize_spec rlo' rhi' e hr'
  simp only
  obtain ⟨N, hNN⟩ : ∃ N, N = rhi'.toNat * 2 ^ F.bits + rlo'.toNat := ⟨_, rfl⟩
  rw [← hNN] at hN n1 n2
  obtain ⟨s, hs⟩ : ∃ s, s = (x.sign ^^ y.sign) := ⟨_, rfl⟩
  rw [← hs] at hN a5
  -- the exact value
  obtain ⟨V, hV⟩ : ∃ V, V = x.toRat * y.toRat + z.toRat := ⟨_, rfl⟩
  rw [← hV]
  have hVs : V = sg s * ((sx.m.toNat * sy.m.toNat : ℕ) * 2 ^ (sx.e + sy.e) + (sg s * sg z.sign : ℤ) * (sz.m.toNat * 2 ^ sz.e)) := by
    have e1 : sg s = sg x.sign * sg y.sign := by rw [hs]; cases x.sign <;> cases y.sign <;> rfl
    have e2 := sg_sq s
    have e2q : (sg s : ℚ) * sg s = 1 := by exact_mod_cast e2
    have ex : x.toRat = sg x.sign * (sx.m.toNat * 2 ^ sx.e) := (toRat_sg x).trans (by rw [nx.val])
    have ey : y.toRat = sg y.sign * (sy.m.toNat * 2 ^ sy.e) := (toRat_sg y).trans (by rw [ny.val])
    have ez : z.toRat = sg z.sign * (sz.m.toNat * 2 ^ sz.e) := (toRat_sg z).trans (by rw [nz.val])
    have e1q : (sg s : ℚ) = sg x.sign * sg y.sign := by exact_mod_cast e1
    rw [zp, hV, ex, ey, ez]
    push_cast
    linear_combination (-(sg z.sign * (sz.m.toNat * (2 : ℚ) ^ sz.e))) * e2q -
      (sx.m.toNat * (2 : ℚ) ^ sx.e * (sy.m.toNat * (2 : ℚ) ^ sy.e)) * e1q
  obtain ⟨M, hM⟩ : ∃ M : ℤ, M = (rhi.toNat * 2 ^ F.bits + rlo.toNat : ℕ) + sg s * sg z.sign * (zhi.toNat * 2 ^ F.bits + zlo.toNat : ℕ) := ⟨_, rfl⟩
  rw [← hM] at a5
  have hMN : sg s * M = sg neg' * N := by
    rw [hM, ← hN]
    linear_combination sg z.sign * (zhi.toNat * 2 ^ F.bits + zlo.toNat : ℕ) * sg_sq s
  have hMabs : |M| = N := by
    have h1 : ∀ b, |sg b| = 1 := by intro b; cases b <;> rfl
    have := congrArg abs hMN
    rwa [abs_mul, abs_mul, h1, h1, one_mul, one_mul, Nat.abs_cast] at this
  rw [hMabs] at a5
  have hMq : (sg s : ℚ) * M = sg neg' * N := by exact_mod_cast hMN
  have key : V = sg neg' * N * 2 ^ e ∨
      ∃ g : Nat, 2 ^ (g + F.sb + 1) ≤ N ∧ SS (2 ^ ((g : Int) + e)) V (sg neg' * N * 2 ^ e) := by
    rcases a5 with h | ⟨g, g1, g2⟩
    · left
      rw [hVs, h, ← hMq]; ring
    · right
      refine ⟨g, by exact_mod_cast g1, ?_⟩
      rw [hVs, ← hMq, mul_assoc]
      cases s
      · simpa [sg] using g2
      · simpa [sg] using g2.neg
  have hV0 : V = 0 ↔ N = 0 := by
    have h2e := (zpow2_pos e).ne'
    have hsn : (sg neg' : ℚ) ≠ 0 := by cases neg' <;> simp [sg]
    have : (sg neg' * N * 2 ^ e : ℚ) = 0 ↔ N = 0 := by
      rw [mul_eq_zero, mul_eq_zero]; simp [h2e, hsn]
    rcases key with h | ⟨g, -, g2⟩
    · rw [h, this]
    · rw [g2.zero_iff, this]
  rcases Nat.eq_zero_or_pos N with h0 | h0
  · -- exact cancellation
    rw [n1 h0, Option.bind_some]
    have hv := hV0.mpr h0
    have hxy : x.toRat * y.toRat = (-z).toRat := by rw [toRat_neg]; linarith
    obtain ⟨f1, f2⟩ := (mul_isRNE hx hy).exact (z := -z) (by simpa using hz) hxy.symm
    have hsum0 : (x * y).sval + z.sval = 0 := by
      rw [hxy] at f2
      have := toRat_inj.mp f2
      rw [this, sval_neg]; ring
    have hzs : z.sval ≠ 0 := fun h => z0 (z.isZero_iff_sval.mpr h)
    have hsg : ((x * y).sign && z.sign) = false := by
      have e1 := sval_neg_iff z hzs
      have e2 := sval_neg_iff (x * y) (by omega)
      rw [f2, hxy, toRat_neg] at e2
      by_contra hc
      rw [Bool.not_eq_false, Bool.and_eq_true] at hc
      have := e1.mp hc.2
      have := e2.mp hc.1
      linarith
    have hr : x * y + z = zero F false := by rw [add_finite f1 hz, if_pos hsum0, hsg]
    refine ⟨x * y + z, rfl, ?_, fun _ => hr⟩
    rw [hr, hv]
    exact isRNE_zero false
  · obtain ⟨m, t, hnorm, t1, t2, m1, m2, hss⟩ := n2 h0
    rw [hnorm, Option.bind_some]
    have hss2 := hss.scale (zpow2_pos e)
    have hNn : (N : ℚ) < 2 ^ (F.bits - 1) * 2 ^ t := by
      have hk := (hss (2 ^ (F.bits - 2))).1
      have hc : (((2 ^ (F.bits - 2) : ℕ) : ℤ) : ℚ) * 2 ^ (1 + t) = 2 ^ (F.bits - 1) * 2 ^ t := by
        push_cast
        rw [zp, ← mul_assoc, zpow_one, ← pow_succ, show F.bits - 2 + 1 = F.bits - 1 by have := F.hew; omega]
      push_cast at hk hc
      rw [hc] at hk
      rw [hk]
      exact mul_lt_mul_of_pos_right (by exact_mod_cast m2) (zpow2_pos t)
    have habs : |(sg neg' * N * 2 ^ e : ℚ)| = N * 2 ^ e := by
      have h1 : |(sg neg' : ℚ)| = 1 := by cases neg' <;> simp [sg]
      rw [abs_mul, abs_mul, h1, Nat.abs_cast, abs_of_pos (zpow2_pos e), one_mul]
    have hfin : SS (2 ^ ((F.ew : Int) - 2 + (e + t))) |V| (m.toNat * 2 ^ (e + t)) := by
      have hew := F.hew
      have hsecond : SS (2 ^ ((F.ew : Int) - 2 + (e + t))) (N * 2 ^ e) (m.toNat * 2 ^ (e + t)) := by
        have h1 := hss2.coarse' (g' := 2 ^ ((F.ew : Int) - 2 + (e + t))) (2 ^ (F.ew - 3)) (by
          push_cast
          rw [← zpow_natCast, ← zp, ← zp]; congr 1; omega)
        rw [zp, mul_comm (2 ^ e : ℚ) (N : ℚ), mul_comm (2 ^ e : ℚ) (m.toNat * 2 ^ t), mul_assoc] at h1
        rw [zp, zp e, mul_comm ((2 : ℚ) ^ e) (2 ^ t)]
        rw [zp e, mul_comm ((2 : ℚ) ^ e) (2 ^ t)] at h1
        exact h1
      refine SS.trans ?_ hsecond
      rcases key with h | ⟨g, g1, g2⟩
      · rw [h, habs]; exact SS.refl _ _
      · have h3 := g2.abs
        rw [habs] at h3
        have hg : (g : Int) + F.sb + 1 < F.bits - 1 + t := by
          have : (2 : ℚ) ^ ((g : Int) + F.sb + 1) < 2 ^ ((F.bits : Int) - 1 + t) := by
            calc (2 : ℚ) ^ ((g : Int) + F.sb + 1) = ((2 ^ (g + F.sb + 1) : ℕ) : ℚ) := by
                  push_cast; rw [← zpow_natCast]; push_cast; rfl
              _ ≤ N := by exact_mod_cast g1
              _ < _ := hNn
              _ = _ := by rw [zp, ← zpow_natCast]; congr 2; omega
          exact (zpow_lt_zpow_iff_right₀ (by norm_num)).mp this
        obtain ⟨c, hc⟩ : ∃ c : Nat, (F.ew : Int) - 2 + t = c + g := ⟨((F.ew : Int) - 2 + t - g).toNat, by omega⟩
        refine h3.coarse' (2 ^ c) ?_
        push_cast
        rw [← zpow_natCast, ← zp]; congr 1; omega
    have hsgn : V ≠ 0 → (neg' = true ↔ V < 0) := by
      intro _
      have hp : (0 : ℚ) < N * 2 ^ e := mul_pos (by exact_mod_cast h0) (zpow2_pos e)
      have h5 : (sg neg' * N * 2 ^ e : ℚ) < 0 ↔ neg' = true := by
        rw [mul_assoc]
        cases neg'
        · simp only [sg]; constructor
          · intro h; simp at h; linarith
          · intro h; simp at h
        · simp only [sg]; simp; exact hp
      rcases key with h | ⟨g, -, g2⟩
      · rw [h, h5]
      · rw [g2.neg_iff, h5]
    have hbnd : -2 ^ 30 ≤ e + t ∧ e + t < 2 ^ 30 := by
      clear * - a4 rx ry rz t1 t2 hbb hewb hsm
      omega
    obtain ⟨r, st, hr, hR⟩ := finish_isRNE hF neg' m (e := e + t) (V := V)
      (by rw [show F.ew + F.sb - 1 = F.bits - 2 by omega]; exact m1)
      (by rw [show F.ew + F.sb = F.bits - 1 by omega]; exact m2)
      hbnd.1 hbnd.2 hsgn hfin
    refine ⟨r, by simp only [hr, Option.map_some], hR, fun h => ?_⟩
    have := hV0.mp h
    omega

/-- no panic for nonzero finite operands -/
theorem fma_nonzero_total (hF : FmaFmt F) {x y z : Flt F} (hx : x.isFinite) (hy : y.isFinite) (hz : z.isFinite)
    (x0 : ¬ x.isZero) (y0 : ¬ y.isZero) (z0 : ¬ z.isZero) : ∃ r, fma x y z = some r := by
  have nx := norm_finite hF hx x0
  have ny := norm_finite hF hy y0
  have nz := norm_finite hF hz z0
  have rx := norm_e_range hF x hx x0
  have ry := norm_e_range hF y hy y0
  have rz := norm_e_range hF z hz z0
  have al := fmaAlign_spec hF _ _ _ nx.lo nx.hi nx.even ny.lo ny.hi nz.lo nz.hi
  have hbb := F.bits_eq
  have hsm := hF.scale.small
  have hewb : F.ew + F.sb < F.bias := hF.fit
  unfold fma fmaRound
  simp only [norm_not_special hF hx x0, norm_not_special hF hy y0, norm_not_special hF hz z0, Bool.or_self,
    Bool.false_eq_true, if_false]
  obtain ⟨⟨rlo, rhi, zlo, zhi, e⟩, ho⟩ : ∃ o, o = fmaAlign (normFromFloat x) (normFromFloat y) (normFromFloat z) := ⟨_, rfl⟩
  rw [← ho] at al ⊢
  have a4 := al.e
  simp only at a4
  obtain ⟨rlo', rhi', neg', hsum, hr', -⟩ := fmaSum_spec ((normFromFloat x).neg ^^ (normFromFloat y).neg) (normFromFloat z).neg
    rlo rhi zlo zhi al.rhi al.zhi al.big
  simp only
  rw [hsum, Option.bind_some]
  obtain ⟨n1, n2⟩ := fmaNormalize_spec rlo' rhi' e hr'
  simp only
  rcases Nat.eq_zero_or_pos (rhi'.toNat * 2 ^ F.bits + rlo'.toNat) with h0 | h0
  · rw [n1 h0, Option.bind_some]
    exact ⟨_, rfl⟩
  · obtain ⟨m, t, hnorm, t1, t2, m1, m2, -⟩ := n2 h0
    rw [hnorm, Option.bind_some]
    have hbnd : -2 ^ 30 ≤ e + t ∧ e + t < 2 ^ 30 := by
      clear * - a4 rx ry rz t1 t2 hbb hewb hsm
      omega
    obtain ⟨st, hst⟩ := fmaFinish_spec hF neg' m (e + t)
      (by rw [show F.ew + F.sb - 1 = F.bits - 2 by omega]; exact m1)
      (by rw [show F.ew + F.sb = F.bits - 1 by omega]; exact m2) hbnd.1 hbnd.2
    exact ⟨_, by simp only [hst, Option.map_some]; rfl⟩

theorem mul_zero_sign {x y : Flt F} (hx : x.isFinite) (hy : y.isFinite) (h : x.isZero ∨ y.isZero) :
    x * y = zero F (x.sign ^^ y.sign) := by
  rw [mul_finite hx hy]
  have : x.mag * y.mag = 0 := by
    rcases h with h | h
    · rw [x.isZero_iff_mag.mp h, Nat.zero_mul]
    · rw [y.isZero_iff_mag.mp h, Nat.mul_zero]
  rw [this, roundMag_zero _ _ F.oneMag_pos]

/-- **C21** (partial).  For all finite `x`, `y`, `z` the result of `fma` is the correctly rounded exact
`x·y + z`, with the IEEE sign for an exact zero, provided the product does not lie a hair above a
multiple of a quarter of the spacing of `z`.  Without the proviso the claim is false of the code:
`fma_hair_wrong`. -/
theorem fma_partial (h : IsLibFmt F) (h16 : F ≠ f16) {x y z : Flt F}
    (hx : x.isFinite) (hy : y.isFinite) (hz : z.isFinite) (hh : ¬ FmaHair x y z) :
    ∃ r, fma x y z = some r ∧ IsRNE (x.toRat * y.toRat + z.toRat) r ∧
      (x.toRat * y.toRat + z.toRat = 0 → r.sign = ((x.sign ^^ y.sign) && z.sign)) := by
  have hF := h.fma h16
  by_cases h0 : x.isZero ∨ y.isZero
  · refine ⟨x * y + z, ?_, ?_, ?_⟩
    · unfold fma fmaRound
      have : ((normFromFloat x).isZeroNanInf || (normFromFloat y).isZeroNanInf) = true := by
        rcases h0 with h0 | h0
        · rw [(norm_zero hF h0).1]; rfl
        · rw [(norm_zero hF h0).1, Bool.or_true]
      simp only [this, if_true]
      rfl
    · have hp : x.toRat * y.toRat = 0 := by
        rcases h0 with h0 | h0
        · rw [toRat_eq_zero.mpr h0, zero_mul]
        · rw [toRat_eq_zero.mpr h0, mul_zero]
      have := add_isRNE (isFinite_zero (F := F) (x.sign ^^ y.sign)) hz
      rw [toRat_zero] at this
      rw [hp, mul_zero_sign hx hy h0]
      exact this
    · intro hv
      have hp : x.toRat * y.toRat = 0 := by
        rcases h0 with h0 | h0
        · rw [toRat_eq_zero.mpr h0, zero_mul]
        · rw [toRat_eq_zero.mpr h0, mul_zero]
      rw [hp, zero_add] at hv
      have hz0 := toRat_eq_zero.mp hv
      rw [mul_zero_sign hx hy h0, add_finite (isFinite_zero _) hz, sval_zero, z.isZero_iff_sval.mp hz0, add_zero, if_pos rfl,
        sign_zero, sign_zero]
  · have x0 : ¬ x.isZero := fun hc => h0 (Or.inl hc)
    have y0 : ¬ y.isZero := fun hc => h0 (Or.inr hc)
    by_cases z0 : z.isZero
    · refine ⟨x * y, ?_, ?_, ?_⟩
      · unfold fma fmaRound
        simp only [norm_not_special hF hx x0, norm_not_special hF hy y0, (norm_zero hF z0).1, (norm_zero hF z0).2,
          Bool.or_self, Bool.false_eq_true, if_false, if_true]
        rfl
      · rw [toRat_eq_zero.mpr z0, add_zero]; exact mul_isRNE hx hy
      · intro hv
        rw [toRat_eq_zero.mpr z0, add_zero] at hv
        rcases mul_eq_zero.mp hv with hv | hv
        · exact absurd (toRat_eq_zero.mp hv) x0
        · exact absurd (toRat_eq_zero.mp hv) y0
    · obtain ⟨r, r1, r2, r3⟩ := fma_nonzero hF hx hy hz x0 y0 z0 hh
      refine ⟨r, r1, r2, fun hv => ?_⟩
      rw [r3 hv, sign_zero]
      have hp : x.toRat * y.toRat ≠ 0 := mul_ne_zero (fun hc => x0 (toRat_eq_zero.mp hc)) (fun hc => y0 (toRat_eq_zero.mp hc))
      have e1 := sign_mul_neg hp
      have e2 := sval_neg_iff z (fun hc => z0 (z.isZero_iff_sval.mpr hc))
      symm
      by_contra hc
      rw [Bool.not_eq_false, Bool.and_eq_true] at hc
      have := e1.mp hc.1
      have := e2.mp hc.2
      linarith

/-! ## When the product cannot lie a hair above -/

theorem no_hair_int {n q k : Nat} {u j : Int} (hj : u ≤ j) (h1 : (q : ℚ) * 2 ^ (u + k) < n * 2 ^ j)
    (h2 : (n : ℚ) * 2 ^ j < q * 2 ^ (u + k) + 2 ^ u) : False := by
  obtain ⟨d, hd⟩ : ∃ d : Nat, j = u + d := ⟨(j - u).toNat, by omega⟩
  have hu := zpow2_pos u
  rw [hd, zpow_add₀ (by norm_num), zpow_natCast, zpow_add₀ (by norm_num), zpow_natCast] at h1 h2
  have a1 : ((q * 2 ^ k : ℕ) : ℚ) < (n * 2 ^ d : ℕ) := by
    push_cast
    by_contra hc
    have := mul_le_mul_of_nonneg_right (not_lt.mp hc) hu.le
    nlinarith
  have a2 : ((n * 2 ^ d : ℕ) : ℚ) < (q * 2 ^ k + 1 : ℕ) := by
    push_cast
    by_contra hc
    have := mul_le_mul_of_nonneg_right (not_lt.mp hc) hu.le
    nlinarith
  have b1 : q * 2 ^ k < n * 2 ^ d := by exact_mod_cast a1
  have b2 : n * 2 ^ d < q * 2 ^ k + 1 := by exact_mod_cast a2
  omega

theorem abs_split (x : Flt F) : ∃ (n : Nat) (j : Int), n < 2 ^ (F.sb + 1) ∧ |x.toRat| = n * 2 ^ j := by
  have hf := x.fracField_lt
  rw [toRat_abs, ulp_zpow, mag_eq_fields]
  by_cases h : x.expField = 0
  · rw [if_pos h]
    exact ⟨x.fracField, _, by rw [pow_succ]; omega, rfl⟩
  · rw [if_neg h]
    refine ⟨2 ^ F.sb + x.fracField, (x.expField - 1 : ℕ) + -((F.bias - 1 + F.sb : ℕ) : Int), by rw [pow_succ]; omega, ?_⟩
    rw [zpow_add₀ (by norm_num), zpow_natCast]; push_cast; ring

/-- an addend that is not much larger than the product -/
theorem not_hair_of_le {x y z : Flt F} (h : |z.toRat| ≤ 2 ^ (F.ew + 1) * |x.toRat * y.toRat|) : ¬ FmaHair x y z := by
  rintro ⟨E, q, e1, e2, q0, q1, q2⟩
  obtain ⟨a, i, ha, hx⟩ := abs_split x
  obtain ⟨b, j, hb, hy⟩ := abs_split y
  have hbb := F.bits_eq
  have hxy : |x.toRat * y.toRat| = ((a * b : ℕ) : ℚ) * 2 ^ (i + j) := by
    rw [abs_mul, hx, hy, zpow_add₀ (by norm_num)]; push_cast; ring
  rw [hxy] at h q1 q2
  have hab : a * b < 2 ^ (2 * F.sb + 2) := by
    rw [show 2 * F.sb + 2 = (F.sb + 1) + (F.sb + 1) by ring, pow_add]; exact Nat.mul_lt_mul'' ha hb
  have hlt : (2 : ℚ) ^ E < 2 ^ (((F.ew + 1 + (2 * F.sb + 2) : ℕ) : Int) + (i + j)) := by
    rw [zpow_add₀ (by norm_num), zpow_natCast, pow_add]
    calc (2 : ℚ) ^ E ≤ 2 ^ (F.ew + 1) * (((a * b : ℕ) : ℚ) * 2 ^ (i + j)) := e1.trans h
      _ = 2 ^ (F.ew + 1) * ((a * b : ℕ) : ℚ) * 2 ^ (i + j) := by ring
      _ < _ := by
        apply mul_lt_mul_of_pos_right _ (zpow2_pos _)
        apply mul_lt_mul_of_pos_left _ (by positivity)
        exact_mod_cast hab
  have hE := (zpow_lt_zpow_iff_right₀ (by norm_num : (1 : ℚ) < 2)).mp hlt
  have hsc : E - F.sb - 2 = (E - F.sb - 1 - F.bits) + ((F.bits - 1 : ℕ) : Int) := by omega
  rw [hsc] at q1 q2
  exact no_hair_int (by omega) q1 q2

/-- a product that is itself a datum of the format -/
theorem not_hair_of_exact {x y z p : Flt F} (h : x.toRat * y.toRat = p.toRat) : ¬ FmaHair x y z := by
  rintro ⟨E, q, e1, e2, q0, q1, q2⟩
  obtain ⟨a, j, ha, hp⟩ := abs_split p
  have hbb := F.bits_eq
  have hew := F.hew
  rw [h, hp] at q1 q2
  have hsc : E - F.sb - 2 = (E - F.sb - 1 - F.bits) + ((F.bits - 1 : ℕ) : Int) := by omega
  rw [hsc] at q1 q2
  rcases le_or_gt (E - F.sb - 1 - F.bits) j with hj | hj
  · exact no_hair_int hj q1 q2
  · have h1 : (2 : ℚ) ^ ((E - F.sb - 1 - F.bits) + ((F.bits - 1 : ℕ) : Int)) ≤ q * 2 ^ ((E - F.sb - 1 - F.bits) + ((F.bits - 1 : ℕ) : Int)) := by
      have : (1 : ℚ) ≤ q := by exact_mod_cast q0
      exact le_mul_of_one_le_left (zpow2_pos _).le this
    have h2 : (a : ℚ) * 2 ^ j ≤ 2 ^ (((F.sb + 1 : ℕ) : Int) + j) := by
      rw [zpow_add₀ (by norm_num), zpow_natCast]
      exact mul_le_mul_of_nonneg_right (by exact_mod_cast ha.le) (zpow2_pos _).le
    have h3 : (2 : ℚ) ^ (((F.sb + 1 : ℕ) : Int) + j) ≤ 2 ^ ((E - F.sb - 1 - F.bits) + ((F.bits - 1 : ℕ) : Int)) :=
      zpow_le_zpow_right₀ (by norm_num) (by omega)
    linarith

/-- a negligible product -/
theorem not_hair_of_small {x y z : Flt F} (h : 2 ^ (F.sb + 3) * |x.toRat * y.toRat| ≤ |z.toRat|) : ¬ FmaHair x y z := by
  rintro ⟨E, q, e1, e2, q0, q1, q2⟩
  have h1 : (2 : ℚ) ^ (E - F.sb - 2) ≤ q * 2 ^ (E - F.sb - 2) :=
    le_mul_of_one_le_left (zpow2_pos _).le (by exact_mod_cast q0)
  have h2 : (2 : ℚ) ^ (E + 1) = 2 ^ (F.sb + 3) * 2 ^ (E - F.sb - 2) := by
    rw [← zpow_natCast, ← zpow_add₀ (by norm_num)]; congr 1; push_cast; ring
  have h3 : (0 : ℚ) < 2 ^ (F.sb + 3) := by positivity
  nlinarith

/-- **C21**: unconditional when `|z| ≤ 2^(ew+1)·|x·y|` (a factor 4096 for `f64`, 65536 for `f128`) -/
theorem fma_near (h : IsLibFmt F) (h16 : F ≠ f16) {x y z : Flt F}
    (hx : x.isFinite) (hy : y.isFinite) (hz : z.isFinite)
    (hn : |z.toRat| ≤ 2 ^ (F.ew + 1) * |x.toRat * y.toRat|) :
    ∃ r, fma x y z = some r ∧ IsRNE (x.toRat * y.toRat + z.toRat) r :=
  let ⟨r, h1, h2, _⟩ := fma_partial h h16 hx hy hz (not_hair_of_le hn)
  ⟨r, h1, h2⟩

/-- **C21**: unconditional when the exact product is a datum of the format -/
theorem fma_exact_product (h : IsLibFmt F) (h16 : F ≠ f16) {x y z p : Flt F}
    (hx : x.isFinite) (hy : y.isFinite) (hz : z.isFinite) (hp : x.toRat * y.toRat = p.toRat) :
    ∃ r, fma x y z = some r ∧ IsRNE (x.toRat * y.toRat + z.toRat) r :=
  let ⟨r, h1, h2, _⟩ := fma_partial h h16 hx hy hz (not_hair_of_exact hp)
  ⟨r, h1, h2⟩

/-- **C21**: unconditional when the product is too small to matter beyond its sign -/
theorem fma_far (h : IsLibFmt F) (h16 : F ≠ f16) {x y z : Flt F}
    (hx : x.isFinite) (hy : y.isFinite) (hz : z.isFinite)
    (hs : 2 ^ (F.sb + 3) * |x.toRat * y.toRat| ≤ |z.toRat|) :
    ∃ r, fma x y z = some r ∧ IsRNE (x.toRat * y.toRat + z.toRat) r :=
  let ⟨r, h1, h2, _⟩ := fma_partial h h16 hx hy hz (not_hair_of_small hs)
  ⟨r, h1, h2⟩

/-- the operand classes decide which of the three early returns is taken -/
theorem fma_dispatch (hF : FmaFmt F) (x y z : Flt F) :
    ((¬ x.isFinite ∨ x.isZero ∨ ¬ y.isFinite ∨ y.isZero) → fma x y z = some (x * y + z)) ∧
    ((x.isFinite ∧ ¬ x.isZero ∧ y.isFinite ∧ ¬ y.isZero) →
      (z.isZero → fma x y z = some (x * y)) ∧ (¬ z.isFinite → fma x y z = some z)) := by
  constructor
  · intro h
    have h' : ((normFromFloat x).isZeroNanInf || (normFromFloat y).isZeroNanInf) = true := by
      rcases h with h | h | h | h
      · rw [(norm_special h).1]; rfl
      · rw [(norm_zero hF h).1]; rfl
      · rw [(norm_special h).1, Bool.or_true]
      · rw [(norm_zero hF h).1, Bool.or_true]
    unfold fma fmaRound
    simp only [h', if_true]
    rfl
  · rintro ⟨hx, x0, hy, y0⟩
    constructor
    · intro hz
      unfold fma fmaRound
      simp only [norm_not_special hF hx x0, norm_not_special hF hy y0, (norm_zero hF hz).1, (norm_zero hF hz).2,
        Bool.or_self, Bool.false_eq_true, if_false, if_true]
      rfl
    · intro hz
      unfold fma fmaRound
      simp only [norm_not_special hF hx x0, norm_not_special hF hy y0, (norm_special hz).1, (norm_special hz).2,
        Bool.or_self, Bool.false_eq_true, if_false, if_true]
      rfl

/-- **C21**: `fma` never panics, on any operands of any class -/
theorem fma_total (h : IsLibFmt F) (h16 : F ≠ f16) (x y z : Flt F) : ∃ r, fma x y z = some r := by
  have hF := h.fma h16
  obtain ⟨d1, d2⟩ := fma_dispatch hF x y z
  by_cases hxy : ¬ x.isFinite ∨ x.isZero ∨ ¬ y.isFinite ∨ y.isZero
  · exact ⟨_, d1 hxy⟩
  · push Not at hxy
    by_cases hz : z.isFinite
    · by_cases z0 : z.isZero
      · exact ⟨_, (d2 hxy).1 z0⟩
      · exact fma_nonzero_total hF hxy.1 hxy.2.2.1 hz hxy.2.1 hxy.2.2.2 z0
    · exact ⟨_, (d2 hxy).2 hz⟩

/-- **C21**: infinities and NaNs follow IEEE 754: a NaN operand, `∞·0` and `∞ - ∞` give NaN; otherwise an
infinite product or addend decides. -/
theorem fma_special (h : IsLibFmt F) (h16 : F ≠ f16) (x y z r : Flt F) (hr : fma x y z = some r) :
    ((x.isNaN ∨ y.isNaN ∨ z.isNaN) → r.isNaN) ∧
    ((x.isInf ∧ y.isZero ∨ x.isZero ∧ y.isInf) → r.isNaN) ∧
    (¬ (x.isNaN ∨ y.isNaN ∨ z.isNaN) → ¬ (x.isInf ∧ y.isZero ∨ x.isZero ∧ y.isInf) →
      (x.isInf ∨ y.isInf → z.isInf → z.sign ≠ (x.sign ^^ y.sign) → r.isNaN) ∧
      (x.isInf ∨ y.isInf → ¬ (z.isInf ∧ z.sign ≠ (x.sign ^^ y.sign)) → r = inf F (x.sign ^^ y.sign)) ∧
      (¬ (x.isInf ∨ y.isInf) → z.isInf → r = z)) := by
  have hF := h.fma h16
  obtain ⟨d1, d2⟩ := fma_dispatch hF x y z
  have hadd : ∀ a b : Flt F, a + b = if a.isNaN ∨ b.isNaN then qnan F
    else if a.isInf then (if b.isInf ∧ a.sign ≠ b.sign then qnan F else a)
    else if b.isInf then b
    else if a.sval + b.sval = 0 then zero F (a.sign && b.sign)
      else roundMag F (decide (a.sval + b.sval < 0)) (a.sval + b.sval).natAbs 1 := fun a b => rfl
  have hmul : ∀ a b : Flt F, a * b = if a.isNaN ∨ b.isNaN then qnan F
    else if (a.isInf ∧ b.isZero) ∨ (a.isZero ∧ b.isInf) then qnan F
    else if a.isInf ∨ b.isInf then inf F (a.sign ^^ b.sign)
    else roundMag F (a.sign ^^ b.sign) (a.mag * b.mag) F.oneMag := fun a b => rfl
  by_cases hxy : ¬ x.isFinite ∨ x.isZero ∨ ¬ y.isFinite ∨ y.isZero
  · rw [d1 hxy] at hr
    have hr := (Option.some.inj hr).symm
    have hN : ∀ a b : Flt F, a.isNaN ∨ b.isNaN → (a + b).isNaN := fun a b hab => by
      rw [hadd, if_pos hab]; exact isNaN_qnan
    refine ⟨?_, ?_, ?_⟩
    · intro hn
      rw [hr]
      refine hN _ _ ?_
      by_cases hz : z.isNaN
      · exact Or.inr hz
      · refine Or.inl ?_
        rw [hmul, if_pos (hn.elim Or.inl fun k => k.elim Or.inr fun k => absurd k hz)]
        exact isNaN_qnan
    · intro h0
      rw [hr]
      refine hN _ _ (Or.inl ?_)
      have : x * y = qnan F := by
        rw [hmul, if_pos h0, ite_self]
      rw [this]; exact isNaN_qnan
    · intro hn h0
      push Not at hn
      obtain ⟨n1, n2, n3⟩ := hn
      have hi : x.isInf ∨ y.isInf → x * y = inf F (x.sign ^^ y.sign) := fun hi => by
        rw [hmul, if_neg (fun k => k.elim n1 n2), if_neg h0, if_pos hi]
      refine ⟨?_, ?_, ?_⟩
      · intro h1 h2 h3
        rw [hr, hi h1, hadd, if_neg (by push Not; exact ⟨not_nan_of_inf (isInf_inf _), not_nan_of_inf h2⟩),
          if_pos (isInf_inf _), if_pos ⟨h2, by rw [sign_inf]; exact fun h => h3 h.symm⟩]
        exact isNaN_qnan
      · intro h1 h2
        rw [hr, hi h1, hadd, if_neg (by push Not; exact ⟨not_nan_of_inf (isInf_inf _), n3⟩),
          if_pos (isInf_inf _), if_neg (by rw [sign_inf]; exact fun h => h2 ⟨h.1, fun e => h.2 e.symm⟩)]
      · intro h1 h2
        have fx : x.isFinite := finite_of_not n1 (fun k => h1 (Or.inl k))
        have fy : y.isFinite := finite_of_not n2 (fun k => h1 (Or.inr k))
        have hf : (x * y).isFinite := by
          rw [mul_zero_sign fx fy (hxy.elim (absurd fx) fun k => k.elim Or.inl fun k => k.elim (absurd fy) Or.inr)]
          exact finite_of_zero (isZero_zero _)
        rw [hr, hadd, if_neg (by push Not; exact ⟨not_nan_of_finite hf, not_nan_of_inf h2⟩),
          if_neg (not_inf_of_finite hf), if_pos h2]
  · push Not at hxy
    have nx := not_nan_of_finite hxy.1
    have ny := not_nan_of_finite hxy.2.2.1
    have ix := not_inf_of_finite hxy.1
    have iy := not_inf_of_finite hxy.2.2.1
    refine ⟨?_, ?_, ?_⟩
    · intro hn
      have hz : z.isNaN := hn.elim (fun k => absurd k nx) fun k => k.elim (fun k => absurd k ny) id
      have := (d2 hxy).2 (not_finite_of_nan hz)
      rw [hr] at this
      rw [Option.some.inj this]
      exact hz
    · exact fun h0 => h0.elim (fun k => absurd k.1 ix) fun k => absurd k.2 iy
    · intro hn h0
      refine ⟨fun k => absurd k (fun k => k.elim ix iy), fun k => absurd k (fun k => k.elim ix iy), ?_⟩
      intro _ h2
      have := (d2 hxy).2 (not_finite_of_inf h2)
      rw [hr] at this
      exact Option.some.inj this

/-! ### The remaining case fails in the code -/

/-- `1.42781…`, one factor of the failing product -/
def hairX : Flt f64 := ⟨0x3ff6d8538e85e9f2#64⟩
/-- `1.40074…`, the other factor -/
def hairY : Flt f64 := ⟨0x3ff669711654bd57#64⟩
/-- `2^54` -/
def hairZ : Flt f64 := ⟨0x4350000000000000#64⟩

theorem hair_vals : hairX.toRat = 6430302872660466 * (2 : ℚ) ^ (-52 : ℤ) ∧ hairY.toRat = 6308383914507607 * (2 : ℚ) ^ (-52 : ℤ) ∧
    hairZ.toRat = 2 ^ 54 ∧ (⟨0x4350000000000001#64⟩ : Flt f64).toRat = 2 ^ 54 + 4 := by
  refine ⟨?_, ?_, ?_, ?_⟩
  · exact_mod_cast toRat_val (x := hairX) 6430302872660466 1022 (-52) (by decide +kernel) (by decide)
  · exact_mod_cast toRat_val (x := hairY) 6308383914507607 1022 (-52) (by decide +kernel) (by decide)
  · rw [toRat_val (x := hairZ) 1 1128 54 (by decide +kernel) (by decide)]; norm_num
  · rw [toRat_val (x := (⟨0x4350000000000001#64⟩ : Flt f64)) 4503599627370497 1076 2 (by decide +kernel) (by decide)]
    norm_num

/-- **C21 is false of the code in the excluded case**: this double-precision `fma` returns `z = 2^54`
although the exact sum `2^54 + 2 + 2.6·10⁻²⁰` is nearer to the next datum `2^54 + 4`.  The operands
satisfy `FmaHair`. -/
theorem fma_hair_wrong : FmaHair hairX hairY hairZ ∧ fma hairX hairY hairZ = some hairZ ∧
    ¬ IsRNE (hairX.toRat * hairY.toRat + hairZ.toRat) hairZ := by
  obtain ⟨h1, h2, h3, h4⟩ := hair_vals
  have e52 : (2 : ℚ) ^ (-52 : ℤ) = 1 / 4503599627370496 := by norm_num
  refine ⟨⟨54, 2, ?_, ?_, by norm_num, ?_, ?_⟩, by decide +kernel, ?_⟩
  · rw [h3]; norm_num
  · rw [h3]; norm_num
  · rw [h1, h2, e52]; norm_num [f64]
  · rw [h1, h2, e52]; norm_num [f64, Fmt.bits]
  · refine not_isRNE_of_closer (s := ⟨0x4350000000000001#64⟩) (t := ⟨0x4350000000000001#64⟩) (by decide +kernel) (by decide +kernel) ?_ ?_
    · rw [h1, h2, h3, h4, e52]; norm_num [abs_of_pos]
    · rw [h1, h2, h3, h4, e52]; norm_num [abs_of_pos, abs_of_neg]

/-! ### Concrete cases meeting the hypotheses -/

/-- `fma_near` applies to the fused `(1+2^-52)(1-2^-52) - 1 = -2^-104`, which a separate multiplication and
addition would turn into 0 -/
example : ∃ r : Flt f64, fma (F := f64) ⟨0x3ff0000000000001#64⟩ ⟨0x3feffffffffffffe#64⟩ ⟨0xbff0000000000000#64⟩ = some r ∧
    r = ⟨0xb970000000000000#64⟩ ∧
    ((⟨0x3ff0000000000001#64⟩ : Flt f64) * (⟨0x3feffffffffffffe#64⟩ : Flt f64) + (⟨0xbff0000000000000#64⟩ : Flt f64)).isZero ∧
    |(⟨0xbff0000000000000#64⟩ : Flt f64).toRat| ≤
      2 ^ (f64.ew + 1) * |(⟨0x3ff0000000000001#64⟩ : Flt f64).toRat * (⟨0x3feffffffffffffe#64⟩ : Flt f64).toRat| := by
  refine ⟨⟨0xb970000000000000#64⟩, by decide +kernel, rfl, by decide +kernel, ?_⟩
  rw [toRat_val (x := (⟨0xbff0000000000000#64⟩ : Flt f64)) (-1) 1074 0 (by decide +kernel) (by decide),
    toRat_val (x := (⟨0x3ff0000000000001#64⟩ : Flt f64)) 4503599627370497 1022 (-52) (by decide +kernel) (by decide),
    toRat_val (x := (⟨0x3feffffffffffffe#64⟩ : Flt f64)) 4503599627370495 1022 (-52) (by decide +kernel) (by decide)]
  norm_num [f64, abs_of_pos]

end Verif
