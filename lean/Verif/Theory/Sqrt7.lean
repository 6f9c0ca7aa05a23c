import Verif.Theory.Sqrt6
import Verif.Theory.Scale
import Verif.Theory.Decomp

/-! # sqrt: the whole function -/

namespace Verif.Sqrt
open Verif Generic Flt

variable {F : Fmt} {c : SqrtCfg}

/-- what is needed of a format and its configuration -/
structure CfgOk (F : Fmt) (c : SqrtCfg) : Prop where
  ew30 : F.ew ≤ 30
  sh : F.bits - 2 ≤ 2 * F.sb
  tiny : 16 < F.bits → 3 * F.sb + 8 ≤ F.bias + 1
  even : 32 < F.bits → F.sb % 2 = 0
  iter : ∀ (ix m : BitVec F.bits) (t : ℝ), 2 ^ (F.bits - 2) ≤ m.toNat → 1 ≤ t → t ≤ 2 → t ^ 2 = (m.toNat : ℝ) * eu F.bits →
    ix.toNat / 2 ^ (F.sb - 6) % 128 = idx F.bits m.toNat → ∃ s, sqrtIterate c ix m = some s ∧ IterOk F s t

theorem cfg16 : CfgOk f16 sqrtCfg16 := ⟨by decide, by decide, by decide, by decide, fun ix m _ => iter16 ix m⟩
theorem cfg32 : CfgOk f32 sqrtCfg32 := ⟨by decide, by decide, by decide, by decide, fun ix m _ => iter32 ix m⟩
theorem cfg64 : CfgOk f64 sqrtCfg64 := ⟨by decide, by decide, by decide, by decide, fun ix m _ => iter64 ix m⟩
theorem cfg128 : CfgOk f128 sqrtCfg128 := ⟨by decide, by decide, by decide, by decide, fun ix m _ => iter128 ix m⟩

/-- from the reduction to the end (the local function `go` of the model) -/
theorem go_spec (hc : CfgOk F c) {x : Flt F} (hs : x.sign = false) {ix : BitVec F.bits} {top : Option (BitVec 32)}
    {A f er p a k : ℕ} (hp : A % 2 = p) (hix : ix.toNat = A * 2 ^ F.sb + f) (hf : f < 2 ^ F.sb)
    (hred : ∃ m exp, sqrtReduce ix top = some (m, exp) ∧ m.toNat = mant F p f ∧ ExpIs exp er)
    (ha1 : 1 ≤ a) (ha2 : a ≤ 2 * F.bias) (hk : k = 0 ∨ (k = F.sb))
    (hx : x.mag * 2 ^ k = (2 ^ F.sb + f) * 2 ^ (a - 1)) (her : 2 * er + k + 1 = a + F.bias + p) :
    ∃ y : Flt F, ((sqrtReduce ix top).bind fun (m, exp) => (sqrtIterate c ix m).bind fun s =>
      (sqrtFinish m s exp).map FpResult.ok) = some (FpResult.ok y) ∧ y.sign = false ∧ IsRNE (√(x.toRat : ℝ)) y := by
  have hb := F.bits_eq
  have hew := F.hew
  have hsb := F.hsb
  have hbias := F.sb_lt_bias
  have hp1 : p ≤ 1 := by omega
  obtain ⟨m, exp, e1, e2, e3⟩ := hred
  obtain ⟨m1, m2⟩ := mant_bounds (F := F) hp1 hf
  rw [← e2] at m1 m2
  obtain ⟨t, t1, t2, t3⟩ := mant_sqrt (W := F.bits) (m := m.toNat) (by omega) m1 m.isLt
  obtain ⟨s, s1, s2⟩ := hc.iter ix m t m1 t1 t2.le t3 (by rw [hix, mant_idx hf, e2, hp])
  have hv : m.toNat * 2 ^ (2 * F.sb - (F.bits - 2)) * 4 ^ (er - 1) = x.mag * F.oneMag := by
    apply Nat.eq_of_mul_eq_mul_right (Nat.two_pow_pos k)
    rw [show x.mag * F.oneMag * 2 ^ k = x.mag * 2 ^ k * F.oneMag by ring, hx, oneMag_eq, e2]
    unfold mant
    rw [show (4 : ℕ) = 2 ^ 2 by norm_num, ← pow_mul]
    simp only [mul_assoc, ← pow_add]
    congr 2
    have := hc.sh
    omega
  obtain ⟨y, y1, y2, y3⟩ := finish_spec (x := x) (mu := m) (s := s) (exp := exp) (er := er) hs hc.sh m2 t1 t2 t3 s2 e3
    (by rcases hk with h | h <;> omega) (by have := F.two_bias; omega)
    (fun h => by have := hc.tiny h; rcases hk with h | h <;> omega) hv
  refine ⟨y, ?_, y2, y3⟩
  rw [e1]
  simp only [Option.bind_some]
  rw [s1]
  simp only [Option.bind_some]
  rw [y1]
  rfl

/-- the fields of a non-negative datum -/
theorem toNat_pos {x : Flt F} (hs : x.sign = false) : x.toBits.toNat = x.mb := by
  have := enc_eq x
  rw [hs] at this
  simpa [Flt.enc] using this

theorem fields (x : Flt F) : x.mb = x.expField * 2 ^ F.sb + x.fracField := mb_eq x

/-- the condition of the special branch, `f16` and `f32` -/
theorem special_noshift (ix : BitVec F.bits) :
    decide (ix - (1#_ <<< F.sb) ≥ expMask F - (1#_ <<< F.sb)) = !decide (2 ^ F.sb ≤ ix.toNat ∧ ix.toNat < F.infEnc) := by
  have hb := F.bits_eq
  have h1 : (1#F.bits <<< F.sb).toNat = 2 ^ F.sb := BV.one_shl (by have := F.hew; omega)
  have hi := F.infEnc_lt
  have hbits := F.two_pow_bits
  have hinf : 2 ^ F.sb ≤ F.infEnc := by
    rw [F.infEnc_eq]; exact Nat.le_mul_of_pos_left _ (by omega)
  have h2 : (expMask F - (1#_ <<< F.sb)).toNat = F.infEnc - 2 ^ F.sb := by
    rw [BitVec.toNat_sub_of_le (by rw [BitVec.le_def, h1, toNat_expMask]; exact hinf), h1, toNat_expMask]
  rw [← decide_not]
  apply decide_eq_decide.2
  rw [ge_iff_le, BitVec.le_def, h2, BitVec.toNat_sub, h1]
  have hl := ix.isLt
  by_cases h : 2 ^ F.sb ≤ ix.toNat
  · rw [show 2 ^ F.bits - 2 ^ F.sb + ix.toNat = ix.toNat - 2 ^ F.sb + 2 ^ F.bits by omega, Nat.add_mod_right,
      Nat.mod_eq_of_lt (by omega)]
    omega
  · rw [Nat.mod_eq_of_lt (by omega)]
    omega

/-- the condition of the special branch, `f64` and `f128` -/
theorem special_shift (hew : F.ew ≤ 30) {n : ℕ} {top : BitVec 32} (ht : top.toNat = n / 2 ^ F.sb) (hn : n < 2 ^ F.bits) :
    decide (top - 1#32 ≥ BitVec.ofNat 32 (expSat F) - 1#32) = !decide (2 ^ F.sb ≤ n ∧ n < F.infEnc) := by
  have h30 : 2 ^ F.ew ≤ 2 ^ 30 := Nat.pow_le_pow_right (by norm_num) hew
  have h5 := F.ew_pow_ge
  have hsat : (BitVec.ofNat 32 (expSat F) - 1#32).toNat = 2 ^ F.ew - 2 := by
    rw [BitVec.toNat_sub, BitVec.toNat_ofNat, expSat_eq]
    simp
    omega
  have e : F.infEnc = (2 ^ F.ew - 1) * 2 ^ F.sb := by rw [F.infEnc_eq, F.two_bias]; congr 1
  rw [← decide_not]
  apply decide_eq_decide.2
  rw [ge_iff_le, BitVec.le_def, hsat, BitVec.toNat_sub]
  have a1 : 2 ^ F.sb ≤ n ↔ 1 ≤ n / 2 ^ F.sb := by rw [Nat.le_div_iff_mul_le (Nat.two_pow_pos _), one_mul]
  have a2 : n < F.infEnc ↔ n / 2 ^ F.sb < 2 ^ F.ew - 1 := by rw [Nat.div_lt_iff_lt_mul (Nat.two_pow_pos _), e]
  have a3 : n / 2 ^ F.sb < 2 * 2 ^ F.ew := by
    rw [Nat.div_lt_iff_lt_mul (Nat.two_pow_pos _)]
    rw [F.two_pow_bits, F.two_pow_es] at hn
    rw [mul_assoc]; omega
  rw [a1, a2, ← ht]
  rw [← ht] at a3
  simp only [BitVec.toNat_ofNat]
  norm_num
  rcases Nat.eq_zero_or_pos top.toNat with h | h
  · rw [h]; norm_num; omega
  · rw [show 4294967295 + top.toNat = top.toNat - 1 + 4294967296 by omega, Nat.add_mod_right, Nat.mod_eq_of_lt (by omega)]
    omega

/-- scaling a subnormal number up -/
theorem scaled_up' {x : Flt F} (hs : x.sign = false) (h0 : 0 < x.mb) (h1 : x.mb < 2 ^ F.sb) :
    ∃ a f, 1 ≤ a ∧ a ≤ F.sb ∧ f < 2 ^ F.sb ∧ x.mag * 2 ^ F.sb = (2 ^ F.sb + f) * 2 ^ (a - 1) ∧
      (x * fromParts F false (F.sb + expBias F) 0#_).toBits.toNat = a * 2 ^ F.sb + f ∧
      Flt.ex (x * fromParts F false (F.sb + expBias F) 0#_) = a := by
  have hbias := F.sb_lt_bias
  have htb := F.two_bias
  rw [expBias_eq]
  obtain ⟨p1, p2, p3⟩ := fromParts_pow (F := F) (e := F.sb + F.bias) (by omega) (by omega)
  generalize fromParts F false (F.sb + F.bias) 0#_ = u at *
  have hinf : 2 ^ F.sb ≤ F.infEnc := by rw [F.infEnc_eq]; exact Nat.le_mul_of_pos_left _ (by omega)
  have hfin : x.isFinite := (isFinite_iff _).2 (by omega)
  have hm : x.mag = x.mb := by
    have h := magOf_split F.sb 0 x.mb (by have := Nat.pow_lt_pow_succ (a := 2) (n := F.sb) (by norm_num); omega) (Or.inr rfl)
    simpa [Flt.mag] using h
  obtain ⟨q1, q2, q3⟩ := mul_pow2_exact (k := F.sb) hfin p1 (by rw [p3, oneMag_eq, ← pow_add]; congr 1; omega) (by
    rw [hm]
    calc x.mb * 2 ^ F.sb < 2 ^ F.sb * 2 ^ F.sb := Nat.mul_lt_mul_of_pos_right h1 (Nat.two_pow_pos _)
      _ = 2 ^ (F.sb + F.sb) := (pow_add _ _ _).symm
      _ ≤ _ := Nat.pow_le_pow_right (by norm_num) (by omega))
  rw [hs, p2] at q2
  have hmag := mag_eq_fields (x * u)
  have hff := fracField_lt (x * u)
  have hge : 2 ^ F.sb ≤ (x * u).mag := by rw [q3, hm]; exact Nat.le_mul_of_pos_left _ h0
  have he : (x * u).expField ≠ 0 := by
    intro h
    rw [if_pos h] at hmag
    omega
  rw [if_neg he] at hmag
  refine ⟨(x * u).expField, (x * u).fracField, by omega, ?_, hff, ?_, ?_, ex_eq _⟩
  · by_contra hcn
    push Not at hcn
    have h2 : (x * u).mag < 2 ^ F.sb * 2 ^ F.sb := by
      rw [q3, hm]; exact Nat.mul_lt_mul_of_pos_right h1 (Nat.two_pow_pos _)
    have h3 : 2 ^ F.sb * 2 ^ F.sb ≤ (2 ^ F.sb + (x * u).fracField) * 2 ^ ((x * u).expField - 1) :=
      Nat.mul_le_mul (by omega) (Nat.pow_le_pow_right (by norm_num) (by omega))
    omega
  · rw [← q3, hmag]
  · rw [toNat_pos (by simpa using q2), fields]

/-- the classification of the data, as the code makes it -/
theorem round_cases (hc : CfgOk F c) (x : Flt F) :
    (x.sign = false ∧ x.isFinite ∧ ¬ x.isZero ∧
      ∃ y : Flt F, sqrtRound c x = some (FpResult.ok y) ∧ y.sign = false ∧ IsRNE (√(x.toRat : ℝ)) y) ∨
    ((x.isZero ∨ (x.isInf ∧ x.sign = false)) ∧ sqrtRound c x = some (FpResult.ok x)) ∨
    ((x.isNaN ∨ (x.sign = true ∧ ¬ x.isZero)) ∧ sqrtRound c x = some ⟨qnan F, Status.INVALID⟩) := by
  have hb := F.bits_eq
  have hew := F.hew
  have hsb := F.hsb
  have hbias := F.sb_lt_bias
  have htb := F.two_bias
  have hbs := F.bias_succ
  have hodd : F.bias % 2 = 1 := by
    have : 2 ^ (F.ew - 1) = 2 * 2 ^ (F.ew - 2) := by rw [← pow_succ']; congr 1; omega
    omega
  have henc : x.toBits.toNat = x.mb + if x.sign then 2 ^ (F.ew + F.sb) else 0 := by
    simpa [Flt.enc] using enc_eq x
  have hmb := mb_lt x
  have hinf := F.infEnc_lt
  have hinf' : 2 ^ F.sb ≤ F.infEnc := by rw [F.infEnc_eq]; exact Nat.le_mul_of_pos_left _ (by omega)
  have hbits := F.two_pow_bits
  have hshl : (x.toBits <<< 1 = 0#_) ↔ x.isZero := by
    rw [isZero_iff, ← BitVec.toNat_inj, BV.shl, henc]
    have : (x.mb + if x.sign then 2 ^ (F.ew + F.sb) else 0) * 2 ^ 1 % 2 ^ F.bits = 2 * x.mb := by
      rw [hbits]
      split
      · rw [show (x.mb + 2 ^ (F.ew + F.sb)) * 2 ^ 1 = 2 * x.mb + (2 ^ (F.ew + F.sb) + 2 ^ (F.ew + F.sb)) by ring,
          Nat.add_mod_right, Nat.mod_eq_of_lt (by omega)]
      · rw [Nat.mod_eq_of_lt (by omega)]; ring
    rw [this]
    simp
  have hposinf : (x.toBits = expMask F) ↔ x.isInf ∧ x.sign = false := by
    rw [isInf_iff, ← BitVec.toNat_inj, toNat_expMask, henc]
    cases x.sign <;> simp
    omega
  have hgt : (x.toBits > expMask F) ↔ x.isNaN ∨ x.sign = true := by
    rw [isNaN_iff, gt_iff_lt, BitVec.lt_def, toNat_expMask, henc]
    cases x.sign <;> simp
    omega
  -- the normal case
  have hnormal : 2 ^ F.sb ≤ x.toBits.toNat → x.toBits.toNat < F.infEnc → x.sign = false ∧ x.isFinite ∧ ¬ x.isZero ∧
      x.mb = x.toBits.toNat ∧ 1 ≤ x.expField ∧ x.expField ≤ 2 * F.bias ∧
      x.mag * 2 ^ 0 = (2 ^ F.sb + x.fracField) * 2 ^ (x.expField - 1) := by
    intro h1 h2
    have hs : x.sign = false := by
      by_contra hcn
      have : x.sign = true := by simpa using hcn
      rw [henc, this] at h2
      simp at h2
      omega
    have hm : x.mb = x.toBits.toNat := (toNat_pos hs).symm
    have hexp := expField_eq x
    have he1 : 1 ≤ x.expField := by
      rw [hexp, Nat.le_div_iff_mul_le (Nat.two_pow_pos _), one_mul, hm]; exact h1
    refine ⟨hs, (isFinite_iff _).2 (by omega), ?_, hm, he1, ?_, ?_⟩
    · rw [isZero_iff]; have := Nat.two_pow_pos F.sb; omega
    · have : x.expField < 2 * F.bias + 1 := by
        rw [hexp, Nat.div_lt_iff_lt_mul (Nat.two_pow_pos _), ← F.infEnc_eq]; omega
      omega
    · rw [mag_eq_fields, if_neg (by omega)]; simp
  -- the special branch once the subnormal case is settled
  have hspecial : ∀ (go : Option (FpResult (Flt F))), ¬ (2 ^ F.sb ≤ x.toBits.toNat ∧ x.toBits.toNat < F.infEnc) →
      (x.sign = false → 0 < x.mb → x.mb < 2 ^ F.sb →
        ∃ y : Flt F, go = some (FpResult.ok y) ∧ y.sign = false ∧ IsRNE (√(x.toRat : ℝ)) y) →
      sqrtRound c x = (if x.toBits <<< 1 = 0#_ then some (FpResult.ok x)
        else if x.toBits = expMask F then some (FpResult.ok x)
        else if x.toBits > expMask F then some ⟨qnan F, Status.INVALID⟩ else go) →
    (x.sign = false ∧ x.isFinite ∧ ¬ x.isZero ∧
      ∃ y : Flt F, sqrtRound c x = some (FpResult.ok y) ∧ y.sign = false ∧ IsRNE (√(x.toRat : ℝ)) y) ∨
    ((x.isZero ∨ (x.isInf ∧ x.sign = false)) ∧ sqrtRound c x = some (FpResult.ok x)) ∨
    ((x.isNaN ∨ (x.sign = true ∧ ¬ x.isZero)) ∧ sqrtRound c x = some ⟨qnan F, Status.INVALID⟩) := by
    intro go hsp hgo heq
    by_cases h1 : x.toBits <<< 1 = 0#_
    · right; left
      rw [if_pos h1] at heq
      exact ⟨Or.inl (hshl.1 h1), heq⟩
    rw [if_neg h1] at heq
    by_cases h2 : x.toBits = expMask F
    · right; left
      rw [if_pos h2] at heq
      exact ⟨Or.inr (hposinf.1 h2), heq⟩
    rw [if_neg h2] at heq
    rw [hshl] at h1
    by_cases h3 : x.toBits > expMask F
    · right; right
      rw [if_pos h3] at heq
      exact ⟨(hgt.1 h3).imp id (fun h => ⟨h, h1⟩), heq⟩
    rw [if_neg h3] at heq
    left
    rw [hgt] at h3
    push Not at h3
    have hs : x.sign = false := by simpa using h3.2
    have hm := toNat_pos hs
    rw [hposinf] at h2
    have h2' : ¬ x.isInf := fun h => h2 ⟨h, hs⟩
    have hfin : x.isFinite := finite_of_not h3.1 h2'
    have hlt := (isFinite_iff _).1 hfin
    rw [hm] at hsp
    have hz : x.mb ≠ 0 := fun h => h1 ((isZero_iff _).2 h)
    refine ⟨hs, hfin, h1, ?_⟩
    rw [heq]
    exact hgo hs (by omega) (by omega)
  by_cases hn : F.bits ≤ 32
  · -- f16, f32
    by_cases hsp : 2 ^ F.sb ≤ x.toBits.toNat ∧ x.toBits.toNat < F.infEnc
    · left
      obtain ⟨n1, n2, n3, n4, n5, n6, n7⟩ := hnormal hsp.1 hsp.2
      refine ⟨n1, n2, n3, ?_⟩
      have hix : x.toBits.toNat = x.expField * 2 ^ F.sb + x.fracField := by rw [← n4, ← fields]
      have hr := reduce_noshift (ix := x.toBits) (er := (x.expField + F.bias) / 2) hix (fracField_lt x)
        (Nat.mod_eq_of_lt (by omega))
      obtain ⟨y, y1, y2⟩ := go_spec hc n1 rfl hix (fracField_lt x) hr n5 n6 (Or.inl rfl) n7 (by omega)
      refine ⟨y, ?_, y2⟩
      unfold sqrtRound
      simp only [hn, decide_true, if_true, Option.bind_some, special_noshift, hsp]
      simpa using y1
    · refine hspecial ((castU F.bits (BitVec.ofNat 32 F.sb <<< F.sb)).bind fun v =>
        ((sqrtReduce ((x * fromParts F false (F.sb + expBias F) 0#_).toBits - v) none).bind fun (m, exp) =>
          (sqrtIterate c ((x * fromParts F false (F.sb + expBias F) 0#_).toBits - v) m).bind fun s =>
          (sqrtFinish m s exp).map FpResult.ok)) hsp ?_ ?_
      · intro hs h0 h1
        obtain ⟨a, f, a1, a2, a3, a4, a5, -⟩ := scaled_up' hs h0 h1
        generalize (x * fromParts F false (F.sb + expBias F) 0#_).toBits = ix at *
        have hsbew : F.sb < 2 ^ F.ew := by omega
        have hlt1 : F.sb * 2 ^ F.sb < 2 ^ (F.ew + F.sb) := by
          rw [F.two_pow_es]; exact Nat.mul_lt_mul_of_pos_right hsbew (Nat.two_pow_pos _)
        have hbits32 : 2 ^ F.bits ≤ 2 ^ 32 := Nat.pow_le_pow_right (by norm_num) hn
        have hv : (BitVec.ofNat 32 F.sb <<< F.sb).toNat = F.sb * 2 ^ F.sb := by
          rw [BV.shl, BitVec.toNat_ofNat, Nat.mod_eq_of_lt (a := F.sb) (by omega), Nat.mod_eq_of_lt (by omega)]
        obtain ⟨v, v1, v2⟩ := castU_some (k := F.bits) (BitVec.ofNat 32 F.sb <<< F.sb) (by rw [hv]; omega)
        rw [hv] at v2
        rw [v1]
        simp only [Option.bind_some]
        have hW : 2 ^ F.bits = (2 * 2 ^ F.ew) * 2 ^ F.sb := by rw [hbits, F.two_pow_es]; ring
        have hA : ∃ A, (ix - v).toNat = A * 2 ^ F.sb + f ∧ A < 2 * 2 ^ F.ew ∧
            (A + F.sb = a ∨ A + F.sb = a + 2 * 2 ^ F.ew) := by
          by_cases hcmp : F.sb ≤ a
          · refine ⟨a - F.sb, ?_, by omega, Or.inl (by omega)⟩
            have hle : F.sb * 2 ^ F.sb ≤ a * 2 ^ F.sb := Nat.mul_le_mul_right _ hcmp
            rw [BitVec.toNat_sub_of_le (by rw [BitVec.le_def, v2, a5]; omega), a5, v2, Nat.sub_mul]
            omega
          · push Not at hcmp
            refine ⟨a + 2 * 2 ^ F.ew - F.sb, ?_, by omega, Or.inr (by omega)⟩
            have hle : (a + 1) * 2 ^ F.sb ≤ F.sb * 2 ^ F.sb := Nat.mul_le_mul_right _ hcmp
            have hle' : F.sb * 2 ^ F.sb ≤ (2 * 2 ^ F.ew) * 2 ^ F.sb := Nat.mul_le_mul_right _ (by omega)
            rw [add_mul, one_mul] at hle
            rw [BitVec.toNat_sub, a5, v2, Nat.sub_mul, add_mul, hW, Nat.mod_eq_of_lt (by omega)]
            omega
        obtain ⟨A, A1, A2, A3⟩ := hA
        have hr := reduce_noshift (ix := ix - v) (er := (a + F.bias - F.sb) / 2) A1 a3 (by
          rcases A3 with h | h
          · rw [Nat.mod_eq_of_lt (by omega)]; congr 1; omega
          · rw [show (A + F.bias) / 2 = (a + F.bias - F.sb) / 2 + 2 ^ F.ew by omega, Nat.add_mod_right,
              Nat.mod_eq_of_lt (by omega)])
        exact go_spec hc hs rfl A1 a3 hr a1 (by omega) (Or.inr rfl) a4 (by omega)
      · unfold sqrtRound
        simp only [hn, decide_true, if_true, Option.bind_some, special_noshift, hsp]
        rfl
  · -- f64, f128
    have hew30 := hc.ew30
    have hpe : 2 ^ F.ew ≤ 2 ^ 30 := Nat.pow_le_pow_right (by norm_num) hew30
    have hlim : x.toBits.toNat / 2 ^ F.sb < 2 ^ 32 := by
      rw [Nat.div_lt_iff_lt_mul (Nat.two_pow_pos _)]
      calc x.toBits.toNat < 2 ^ F.bits := x.toBits.isLt
        _ ≤ 2 ^ (32 + F.sb) := Nat.pow_le_pow_right (by norm_num) (by omega)
        _ = _ := pow_add _ _ _
    obtain ⟨top, tp1, tp2⟩ := castU_some (k := 32) (x.toBits >>> F.sb) (by rw [BV.shr]; exact hlim)
    rw [BV.shr] at tp2
    have hspec := special_shift hew30 tp2 x.toBits.isLt
    have heven : F.sb % 2 = 0 := hc.even (by omega)
    by_cases hsp : 2 ^ F.sb ≤ x.toBits.toNat ∧ x.toBits.toNat < F.infEnc
    · left
      obtain ⟨n1, n2, n3, n4, n5, n6, n7⟩ := hnormal hsp.1 hsp.2
      refine ⟨n1, n2, n3, ?_⟩
      have hix : x.toBits.toNat = x.expField * 2 ^ F.sb + x.fracField := by rw [← n4, ← fields]
      have htop : top.toNat = x.expField := by rw [tp2, expField_eq, n4]
      have hr := reduce_shifted (ix := x.toBits) (er := (x.expField + F.bias) / 2) (p := x.expField % 2) (top := top) hew30 hix
        (fracField_lt x) (by rw [htop]) (by rw [htop, Nat.mod_eq_of_lt (by omega)])
      obtain ⟨y, y1, y2⟩ := go_spec hc n1 rfl hix (fracField_lt x) hr n5 n6 (Or.inl rfl) n7 (by omega)
      refine ⟨y, ?_, y2⟩
      unfold sqrtRound
      simp only [hn, decide_false, tp1, Option.map_some, hspec, hsp]
      simpa using y1
    · refine hspecial
        ((sqrtReduce (x * fromParts F false (F.sb + expBias F) 0#_).toBits
          (some (BitVec.ofNat 32 (Flt.ex (x * fromParts F false (F.sb + expBias F) 0#_)) - BitVec.ofNat 32 F.sb))).bind
          fun (m, exp) =>
          (sqrtIterate c (x * fromParts F false (F.sb + expBias F) 0#_).toBits m).bind fun s =>
          (sqrtFinish m s exp).map FpResult.ok) hsp ?_ ?_
      · intro hs h0 h1
        obtain ⟨a, f, a1, a2, a3, a4, a5, a6⟩ := scaled_up' hs h0 h1
        rw [a6]
        generalize (x * fromParts F false (F.sb + expBias F) 0#_).toBits = ix at *
        have htop : (BitVec.ofNat 32 a - BitVec.ofNat 32 F.sb).toNat = (2 ^ 32 - F.sb + a) % 2 ^ 32 := by
          rw [BitVec.toNat_sub, BitVec.toNat_ofNat, BitVec.toNat_ofNat, Nat.mod_eq_of_lt (a := F.sb) (by omega),
            Nat.mod_eq_of_lt (a := a) (by omega)]
        have hr := reduce_shifted (ix := ix) (er := (a + F.bias - F.sb) / 2) (p := a % 2)
          (top := BitVec.ofNat 32 a - BitVec.ofNat 32 F.sb) hew30 a5 a3 (by rw [htop]; omega) (by rw [htop]; omega)
        exact go_spec hc hs rfl a5 a3 hr a1 (by omega) (Or.inr rfl) a4 (by omega)
      · unfold sqrtRound
        simp only [hn, decide_false, tp1, Option.map_some, hspec, hsp]
        rfl

end Verif.Sqrt
