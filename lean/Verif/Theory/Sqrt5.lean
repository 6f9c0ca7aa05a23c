import Verif.Theory.Sqrt4
import Verif.Theory.RNE

/-! # sqrt: assembling the result -/

namespace Verif.Sqrt
open Verif Generic Flt

variable {F : Fmt} {t : ℝ}

/-- the biased exponent of the result -/
def ExpIs (exp : SqrtExp F) (er : ℕ) : Prop :=
  match exp with
  | .shifted e => e.toNat = er
  | .noShift e => e.toNat = er * 2 ^ F.sb

theorem of_toNat {b : BitVec F.bits} {n : ℕ} (h : b.toNat = n) (hn : n < 2 ^ (F.ew + F.sb)) :
    (⟨b⟩ : Flt F) = mk' F false n := by
  apply ext_enc
  rw [enc_mk' hn]
  simpa [Flt.enc] using h

/-- the value of the root in least-subnormal units -/
theorem sqrt_units {x : Flt F} (hs : x.sign = false) {T : ℝ} {M k : ℕ} (hT : 0 ≤ T) (hM : T ^ 2 = M)
    (hv : M * 4 ^ k = x.mag * F.oneMag) : |√(x.toRat : ℝ)| = T * 2 ^ k * ((F.ulp : ℚ) : ℝ) := by
  have hu : (0 : ℝ) < ((F.ulp : ℚ) : ℝ) := by exact_mod_cast F.ulp_pos
  have h1 : ((F.oneMag : ℝ)) * ((F.ulp : ℚ) : ℝ) = 1 := by exact_mod_cast F.oneMag_mul_ulp
  have hx : (x.toRat : ℝ) = (x.mag : ℝ) * ((F.ulp : ℚ) : ℝ) := by
    have := toRat_signed x
    rw [hs] at this
    rw [this]; push_cast; simp
  rw [abs_of_nonneg (Real.sqrt_nonneg _)]
  apply (Real.sqrt_eq_iff_mul_self_eq (by rw [hx]; positivity) (by positivity)).2
  rw [hx]
  symm
  have hv' : (M : ℝ) * 4 ^ k = x.mag * F.oneMag := by exact_mod_cast hv
  have h4 : (4 : ℝ) ^ k = 2 ^ k * 2 ^ k := by rw [← mul_pow]; norm_num
  calc T * 2 ^ k * (F.ulp : ℝ) * (T * 2 ^ k * (F.ulp : ℝ)) = (T ^ 2 * (2 ^ k * 2 ^ k)) * (F.ulp : ℝ) * (F.ulp : ℝ) := by ring
    _ = (x.mag * F.oneMag) * (F.ulp : ℝ) * (F.ulp : ℝ) := by rw [hM, ← h4, hv']
    _ = (x.mag : ℝ) * (F.ulp : ℝ) * (F.oneMag * (F.ulp : ℝ)) := by ring
    _ = (x.mag : ℝ) * (F.ulp : ℝ) := by rw [h1, mul_one]

theorem near_of_int {sb R e : ℕ} {T : ℝ} (hR1 : 2 ^ sb ≤ R) (hR2 : R < 2 ^ (sb + 1)) (hT : (2 : ℝ) ^ sb ≤ T)
    (h1 : (R : ℝ) - 1 / 2 < T) (h2 : T < R + 1 / 2) : IsNearK sb (T * 2 ^ e) (e * 2 ^ sb + R) := by
  have hmag : magOf sb (e * 2 ^ sb + R) = R * 2 ^ e := magOf_split _ _ _ hR2.le (Or.inl hR1)
  have hup : magOf sb (e * 2 ^ sb + R + 1) = (R + 1) * 2 ^ e := by
    rw [add_assoc]; exact magOf_split _ _ _ (by omega) (Or.inl (by omega))
  have hp : (0 : ℝ) < 2 ^ e := by positivity
  have hlo : ∀ c, c + 1 = e * 2 ^ sb + R → ((magOf sb c + magOf sb (e * 2 ^ sb + R) : ℕ) : ℝ) < 2 * (T * 2 ^ e) := by
    intro c hc
    rcases Nat.lt_or_ge (2 ^ sb) R with h | h
    · have hm1 : c = e * 2 ^ sb + (R - 1) := by omega
      rw [hmag, hm1, magOf_split _ _ _ (by omega) (Or.inl (by omega))]
      obtain ⟨k, rfl⟩ := Nat.exists_eq_add_of_le h
      simp only [show 2 ^ sb + 1 + k - 1 = 2 ^ sb + k by omega]
      push_cast at h1 ⊢
      nlinarith
    · have hR : R = 2 ^ sb := le_antisymm h hR1
      have : magOf sb c < magOf sb (e * 2 ^ sb + R) := magOf_strictMono _ (by omega)
      have h' : ((magOf sb c : ℕ) : ℝ) < ((R * 2 ^ e : ℕ) : ℝ) := by rw [hmag] at this; exact_mod_cast this
      rw [hmag]
      push_cast at h' ⊢
      have hRr : (R : ℝ) ≤ T := by rw [hR]; push_cast; exact hT
      nlinarith
  have hhi : 2 * (T * 2 ^ e) < ((magOf sb (e * 2 ^ sb + R) + magOf sb (e * 2 ^ sb + R + 1) : ℕ) : ℝ) := by
    rw [hmag, hup]
    push_cast
    nlinarith
  exact ⟨fun c hc => (hlo c hc).le, fun c hc he => absurd he (hlo c hc).ne, hhi.le, fun he => absurd he hhi.ne⟩

theorem tiny_mag {lo : BitVec F.bits} (hlo : lo.toNat = 0 ∨ lo.toNat = 2 ^ F.sb) (z : BitVec F.bits) :
    (⟨lo ||| (z &&& signMask F)⟩ : Flt F).isFinite ∧ (⟨lo ||| (z &&& signMask F)⟩ : Flt F).mag ≤ 2 ^ F.sb := by
  have hinf : lo.toNat < F.infEnc := by
    rw [F.infEnc_eq]
    have h1 : 2 * 2 ^ F.sb ≤ (2 * F.bias + 1) * 2 ^ F.sb := Nat.mul_le_mul_right _ (by have := F.sb_lt_bias; omega)
    have := F.sb_pow_ge
    omega
  have hlo' : lo.toNat < 2 ^ (F.ew + F.sb) := hinf.trans F.infEnc_lt
  have hz := and_signMask z
  have hval : (lo ||| (z &&& signMask F)).toNat = (z &&& signMask F).toNat + lo.toNat := by
    rw [BitVec.or_comm]
    refine BV.or_disjoint (k := F.ew + F.sb) ?_ hlo'
    rw [hz]; split <;> simp
  obtain ⟨sg, hsg⟩ : ∃ sg, (⟨lo ||| (z &&& signMask F)⟩ : Flt F) = mk' F sg lo.toNat := by
    by_cases hc : 2 ^ (F.ew + F.sb) ≤ z.toNat
    · refine ⟨true, ext_enc ?_⟩
      rw [enc_mk' hlo']
      simp only [Flt.enc]
      rw [hval, hz, if_pos hc]; simp; omega
    · refine ⟨false, ext_enc ?_⟩
      rw [enc_mk' hlo']
      simp only [Flt.enc]
      rw [hval, hz, if_neg hc]; simp
  rw [hsg]
  refine ⟨(isFinite_iff _).2 (by rw [mb_mk' hlo']; exact hinf), ?_⟩
  rw [mag_mk' hlo']
  have h0 := magOf_split F.sb 0 lo.toNat (by have := Nat.pow_lt_pow_succ (a := 2) (n := F.sb) (by norm_num); omega) (Or.inr rfl)
  simp only [zero_mul, zero_add, pow_zero, mul_one] at h0
  rw [h0]
  rcases hlo with h | h <;> simp [h]

set_option maxHeartbeats 1000000 in
theorem finish_spec {x : Flt F} {mu s : BitVec F.bits} {exp : SqrtExp F} {er : ℕ} (hs : x.sign = false)
    (hsh : F.bits - 2 ≤ 2 * F.sb) (hmu : mu.toNat + 2 ^ F.ew ≤ 2 ^ F.bits) (ht1 : 1 ≤ t) (ht2 : t < 2)
    (hm : t ^ 2 = (mu.toNat : ℝ) * eu F.bits) (hit : IterOk F s t) (hexp : ExpIs exp er) (her1 : 1 ≤ er)
    (her2 : er + 2 ≤ 2 ^ F.ew) (htiny : 16 < F.bits → F.sb + 4 ≤ er)
    (hv : mu.toNat * 2 ^ (2 * F.sb - (F.bits - 2)) * 4 ^ (er - 1) = x.mag * F.oneMag) :
    ∃ y, sqrtFinish mu s exp = some y ∧ y.sign = false ∧ IsRNE (√(x.toRat : ℝ)) y := by
  have hb := F.bits_eq
  have hew := F.hew
  have hsb := F.hsb
  set M := mu.toNat * 2 ^ (2 * F.sb - (F.bits - 2)) with hMdef
  set T : ℝ := t * 2 ^ F.sb with hTdef
  have hT0 : 0 ≤ T := by positivity
  have hTM : T ^ 2 = M := by
    rw [hTdef, mul_pow, hm, hMdef]
    unfold eu
    push_cast
    have e1 : (2 : ℝ) ^ F.bits = 4 * 2 ^ (F.bits - 2) := four_pow _ (by omega)
    have e2 : ((2 : ℝ) ^ F.sb) ^ 2 = 2 ^ (F.bits - 2) * 2 ^ (2 * F.sb - (F.bits - 2)) := by
      rw [← pow_mul, ← pow_add]; congr 1; omega
    rw [e1, e2]
    field_simp
  obtain ⟨b1, b2⟩ := root_bracket (W := F.bits) (sb := F.sb) (ew := F.ew) hb (by omega) ht1 ht2 hit
  rw [← hTdef] at b1 b2
  obtain ⟨p1, p2⟩ := pick_near hT0 hTM b1 b2
  have hTlo : (2 : ℝ) ^ F.sb ≤ T := by
    rw [hTdef]; nlinarith [show (0 : ℝ) < 2 ^ F.sb by positivity]
  have hThi : T < 2 * 2 ^ F.sb := by
    rw [hTdef]; nlinarith [show (0 : ℝ) < 2 ^ F.sb by positivity]
  have hpow : (1024 : ℝ) ≤ 2 ^ F.sb := by exact_mod_cast F.sb_pow_ge
  have hm0 : 1 ≤ s.toNat / 2 ^ (F.ew - 2) := by
    by_contra hc
    have : s.toNat / 2 ^ (F.ew - 2) = 0 := Nat.lt_one_iff.1 (not_le.1 hc)
    rw [this] at b2
    norm_num at b2
    linarith
  have hsmall : 2 * (s.toNat / 2 ^ (F.ew - 2)) + 2 < 2 ^ (F.bits - 1) := by
    have h1 : ((s.toNat / 2 ^ (F.ew - 2) : ℕ) : ℝ) < ((2 * 2 ^ F.sb + 1 : ℕ) : ℝ) := by push_cast; linarith
    have h2 : s.toNat / 2 ^ (F.ew - 2) < 2 * 2 ^ F.sb + 1 := by exact_mod_cast h1
    have h3 : 32 * 2 ^ F.sb ≤ 2 ^ (F.bits - 1) := by
      rw [bits_sub_one, pow_add]; exact Nat.mul_le_mul_right _ F.ew_pow_ge
    have := F.sb_pow_ge
    omega
  have hbit := pick_bit (F := F) (mu := mu) (s := s) (k := 2 * F.sb - (F.bits - 2)) (j := F.ew - 2) hT0 hTM hMdef hm0 b1 b2
    hsmall
  have hR1 : 2 ^ F.sb ≤ pick M (s.toNat / 2 ^ (F.ew - 2)) := by
    have : ((2 ^ F.sb : ℕ) : ℝ) < ((pick M (s.toNat / 2 ^ (F.ew - 2)) + 1 : ℕ) : ℝ) := by push_cast; linarith
    have : 2 ^ F.sb < pick M (s.toNat / 2 ^ (F.ew - 2)) + 1 := by exact_mod_cast this
    omega
  have hR2 : pick M (s.toNat / 2 ^ (F.ew - 2)) < 2 ^ (F.sb + 1) := by
    have hMle : M + 2 ^ (F.sb + 1) ≤ 2 ^ (F.sb + 1) * 2 ^ (F.sb + 1) := by
      have h := Nat.mul_le_mul_right (2 ^ (2 * F.sb - (F.bits - 2))) hmu
      rw [add_mul, ← pow_add, ← pow_add] at h
      rw [← pow_add]
      rw [show F.ew + (2 * F.sb - (F.bits - 2)) = F.sb + 1 by omega,
        show F.bits + (2 * F.sb - (F.bits - 2)) = F.sb + 1 + (F.sb + 1) by omega] at h
      exact h
    have hMle' : (M : ℝ) + 2 * 2 ^ F.sb ≤ (2 * 2 ^ F.sb) * (2 * 2 ^ F.sb) := by
      have : ((M + 2 ^ (F.sb + 1) : ℕ) : ℝ) ≤ ((2 ^ (F.sb + 1) * 2 ^ (F.sb + 1) : ℕ) : ℝ) := by exact_mod_cast hMle
      push_cast at this
      rw [pow_succ] at this
      linarith
    have hTP : T < 2 * 2 ^ F.sb - 1 / 2 := by
      by_contra hc
      push Not at hc
      have h1 : (2 * 2 ^ F.sb - 1 / 2 : ℝ) ^ 2 ≤ T ^ 2 := pow_le_pow_left₀ (by linarith) hc 2
      rw [hTM] at h1
      nlinarith
    have : ((pick M (s.toNat / 2 ^ (F.ew - 2)) : ℕ) : ℝ) < ((2 ^ (F.sb + 1) : ℕ) : ℝ) := by
      push_cast; rw [pow_succ]; linarith
    exact_mod_cast this
  generalize hR : pick M (s.toNat / 2 ^ (F.ew - 2)) = R at *
  set b := (er - 1) * 2 ^ F.sb + R with hbdef
  have hberr : er * 2 ^ F.sb = (er - 1) * 2 ^ F.sb + 2 ^ F.sb := by
    rw [← Nat.succ_mul]; congr 1; omega
  have hp2 : 2 ^ (F.sb + 1) = 2 * 2 ^ F.sb := by rw [pow_succ]; ring
  have hlt : b < F.infEnc := by
    have h1 : (er + 2) * 2 ^ F.sb ≤ 2 ^ F.ew * 2 ^ F.sb := Nat.mul_le_mul_right _ her2
    have h2 := F.infEnc_add
    rw [F.two_pow_es] at h2
    rw [add_mul] at h1
    omega
  have hlt' : b < 2 ^ (F.ew + F.sb) := lt_trans hlt F.infEnc_lt
  have hy : IsRNE (√(x.toRat : ℝ)) (mk' F false b) := by
    have h := isRNE_of_near (F := F) (K := ℝ) (s := false) (sqrt_units hs hT0 hTM hv)
      (by intro _; simp [Real.sqrt_nonneg]) (near_of_int (e := er - 1) hR1 hR2 hTlo p1 p2)
    rwa [min_eq_left hlt.le] at h
  -- the mantissa
  have hmt : (s >>> (F.ew - 2)).toNat = s.toNat / 2 ^ (F.ew - 2) := BV.shr _ _
  have hsum : (s >>> (F.ew - 2)).toNat + ((s >>> (F.ew - 2) - (mu <<< (2 * F.sb - (F.bits - 2)) -
      s >>> (F.ew - 2) * s >>> (F.ew - 2))) >>> (F.bits - 1)).toNat = R := by
    rw [hbit, hmt, ← hR]; unfold pick; split <;> rfl
  have hRb : R < 2 ^ F.bits := lt_of_lt_of_le hR2 (Nat.pow_le_pow_right (by norm_num) (by omega))
  unfold sqrtFinish chkAdd
  simp only
  rw [if_pos (by rw [hsum]; exact hRb)]
  simp only [Option.bind_some]
  generalize hd : s >>> (F.ew - 2) - (mu <<< (2 * F.sb - (F.bits - 2)) - s >>> (F.ew - 2) * s >>> (F.ew - 2)) = d1 at *
  have hmant : ((s >>> (F.ew - 2) + d1 >>> (F.bits - 1)) &&& sigMask F).toNat = R - 2 ^ F.sb := by
    rw [and_sigMask, BitVec.toNat_add, hsum, Nat.mod_eq_of_lt hRb]
    rw [Nat.mod_eq_sub_mod hR1, Nat.mod_eq_of_lt (by omega)]
  generalize (s >>> (F.ew - 2) + d1 >>> (F.bits - 1)) &&& sigMask F = mm at *
  have hor : ∀ v : BitVec F.bits, v.toNat = er * 2 ^ F.sb → (⟨mm ||| v⟩ : Flt F) = mk' F false b := by
    intro v hv'
    apply of_toNat ?_ hlt'
    rw [BitVec.or_comm, BV.or_disjoint (k := F.sb) (by rw [hv']; exact Dvd.intro_left _ rfl) (by rw [hmant]; omega), hv', hmant]
    omega
  have hfin : ∀ v : BitVec F.bits, v.toNat = er * 2 ^ F.sb →
      (if F.bits > 16 then (⟨mm ||| v⟩ : Flt F) +
        ⟨(if d1 + (mm ||| v) + 1#F.bits = 0#F.bits then 0#F.bits else implicitBit F) |||
          ((d1 ^^^ (d1 + (mm ||| v) + 1#F.bits)) &&& signMask F)⟩ else ⟨mm ||| v⟩) = mk' F false b := by
    intro v hv'
    generalize d1 + (mm ||| v) + 1#F.bits = d2
    rw [hor v hv']
    split
    · rename_i hbig
      have hlo : (if d2 = 0#F.bits then 0#F.bits else implicitBit F).toNat = 0 ∨
          (if d2 = 0#F.bits then 0#F.bits else implicitBit F).toNat = 2 ^ F.sb := by
        split
        · left; simp
        · right; unfold implicitBit; exact BV.one_shl (by omega)
      obtain ⟨u1, u2⟩ := tiny_mag hlo (d1 ^^^ d2)
      exact add_tiny (R := R) (e := er - 1) ((isFinite_iff _).2 (by rw [mb_mk' hlt']; exact hlt)) u1 (sign_mk' hlt') hR1 hR2
        (by rw [mb_mk' hlt']) (by have := htiny hbig; omega) u2
    · rfl
  cases exp with
  | shifted e =>
    have he : e.toNat = er := hexp
    have her : er < 2 ^ F.ew := by omega
    obtain ⟨v, v1, v2⟩ := castU_some (k := F.bits) e (by
      rw [he]; exact lt_of_lt_of_le her (Nat.pow_le_pow_right (by norm_num) (by omega)))
    have hv' : (v <<< F.sb).toNat = er * 2 ^ F.sb := by
      rw [BV.shl, v2, he]
      apply Nat.mod_eq_of_lt
      have : er * 2 ^ F.sb < 2 ^ F.ew * 2 ^ F.sb := Nat.mul_lt_mul_of_pos_right her (by positivity)
      rw [F.two_pow_bits, F.two_pow_es]; omega
    refine ⟨mk' F false b, ?_, sign_mk' hlt', hy⟩
    simp only [v1, Option.map_some]
    rw [hfin _ hv']
  | noShift e =>
    refine ⟨mk' F false b, ?_, sign_mk' hlt', hy⟩
    simp only [Option.map_some]
    rw [hfin _ hexp]

end Verif.Sqrt
