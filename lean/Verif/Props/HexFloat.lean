import Verif.Theory.HexFloat3

/-!
# Hex float literals: parsing and formatting (C24, C25, C26)
-/

namespace Verif
namespace HexFloat
open Flt
variable {F : Fmt}

/-! ## Assembly of `parse_any` -/

/-- the encoding of a datum as the `u128` that the parser returns -/
def asU128 (x : Flt F) : BitVec 128 := x.toBits.setWidth 128

theorem asU128_toNat (hF : Supported F) (x : Flt F) : (asU128 x).toNat = x.enc := by
  unfold asU128
  rw [BitVec.toNat_setWidth]
  apply Nat.mod_eq_of_lt
  exact lt_of_lt_of_le x.toBits.isLt (Nat.pow_le_pow_right (by norm_num) hF.bits)

theorem xor_sign (hF : Supported F) (b : Nat) (hb : b < 2 ^ (F.ew + F.sb)) (s : Bool) :
    (if s then BitVec.ofNat 128 b ^^^ (1#128 <<< (F.bits - 1)) else BitVec.ofNat 128 b) = asU128 (mk' F s b) := by
  have hbits := hF.bits
  have hbe := F.bits_eq
  have h1 : (1#128 <<< (F.bits - 1) : BitVec 128).toNat = 2 ^ (F.ew + F.sb) := by
    rw [BV.one_shl (by omega)]; congr 1
  have hlt : (2 : Nat) ^ (F.ew + F.sb) + 2 ^ (F.ew + F.sb) ≤ 2 ^ 128 := by
    rw [← F.two_pow_bits]; exact Nat.pow_le_pow_right (by norm_num) hbits
  have hbn : (BitVec.ofNat 128 b).toNat = b := by
    rw [BitVec.toNat_ofNat]; exact Nat.mod_eq_of_lt (by omega)
  apply BitVec.eq_of_toNat_eq
  rw [asU128_toNat hF, enc_mk' hb]
  cases s with
  | false => simpa using hbn
  | true =>
    simp only [if_true]
    have hx : BitVec.ofNat 128 b ^^^ (1#128 <<< (F.bits - 1)) = (1#128 <<< (F.bits - 1)) ||| BitVec.ofNat 128 b := by
      apply BitVec.eq_of_getLsbD_eq
      intro i hi
      rw [BitVec.getLsbD_xor, BitVec.getLsbD_or]
      have g1 : (1#128 <<< (F.bits - 1) : BitVec 128).getLsbD i = decide (i = F.ew + F.sb) := by
        show (1#128 <<< (F.bits - 1) : BitVec 128).toNat.testBit i = _
        rw [h1, Nat.testBit_two_pow]
        by_cases h : F.ew + F.sb = i
        · simp [h]
        · simp [h, Ne.symm h]
      rw [g1]
      by_cases h : i = F.ew + F.sb
      · have g2 : (BitVec.ofNat 128 b).getLsbD i = false := by
          show (BitVec.ofNat 128 b).toNat.testBit i = false
          rw [hbn, h]; exact Nat.testBit_lt_two_pow hb
        simp [g2]
      · simp [h]
    rw [hx, BV.or_disjoint (k := F.ew + F.sb) (by rw [h1]) (by rw [hbn]; exact hb), h1, hbn]
    omega

/-- `parse_any` on a text that starts with `0x` after an optional sign -/
theorem parseAny_hex (hF : Supported F) {s : List UInt8} {neg : Bool} {x : UInt8} {rest : List UInt8} (m : Round)
    (hs : splitSign s = (neg, 48 :: x :: rest)) (hx : x = 120 ∨ x = 88) :
    parseAny s F.bits F.sb m =
      andThen (parseFinite rest F.bits F.sb (absMode neg m)) fun (v, st) =>
        ok (if neg then v ^^^ (1#128 <<< (F.bits - 1)) else v, st) := by
  have hbe := F.bits_eq
  have hew := F.hew
  have hsb := F.hsb
  have h1 := hF.sb
  have h2 := hF.bits
  have h3 := hF.ew
  unfold parseAny
  rw [if_neg (by omega), hs]
  simp only
  rw [if_neg (by omega)]
  have hl : isLetter 120 x = true := by rcases hx with rfl | rfl <;> decide
  have n1 : isLetter 105 48 = false := by decide
  have n2 : isLetter 110 48 = false := by decide
  rcases rest with _ | ⟨c3, _ | ⟨c4, rest⟩⟩
  · simp [hl]
  · simp [hl, n1, n2]
  · simp [hl]

theorem splitSign_bytes (sg : Option Bool) (c : UInt8) (rest : List UInt8) (hc : c ≠ 45 ∧ c ≠ 43) :
    splitSign (signBytes sg ++ c :: rest) = (sg == some true, c :: rest) := by
  rcases sg with _ | _ | _
  · simp only [signBytes, List.nil_append, splitSign]
    rw [if_neg hc.1, if_neg hc.2]; rfl
  · rfl
  · rfl

/-- everything after `0x` -/
def Lit.body (l : Lit) : List UInt8 :=
  l.int.map HexDig.char ++ (match l.frac with | none => [] | some ds => 46 :: ds.map HexDig.char) ++
    [if l.upperP then 80 else 112] ++ signBytes l.esign ++ l.edig.map fun d => UInt8.ofNat (48 + d.val)

theorem Lit.bytes_eq (l : Lit) : l.bytes = signBytes l.sign ++ 48 :: (if l.upperX then 88 else 120) :: l.body := by
  unfold Lit.bytes Lit.body
  simp only [List.append_assoc, List.cons_append, List.nil_append]
  rfl

theorem parseAny_bytes (hF : Supported F) (l : Lit) (m : Round) :
    parseAny l.bytes F.bits F.sb m =
      andThen (parseFinite l.body F.bits F.sb (absMode l.neg m)) fun (v, st) =>
        ok (if l.neg then v ^^^ (1#128 <<< (F.bits - 1)) else v, st) := by
  apply parseAny_hex hF m (x := if l.upperX then 88 else 120)
  · rw [l.bytes_eq]; exact splitSign_bytes _ _ _ (by decide)
  · cases l.upperX <;> simp

/-- a zero is the rounding of 0 in every mode -/
theorem rounded_zero (m : Round) (s : Bool) : IsRounded m 0 (mk' F s 0) ∧ FlagsFor m 0 (mk' F s 0) Status.OK := by
  have hp : 0 < 2 ^ (F.ew + F.sb) := Nat.two_pow_pos _
  have hfin : (mk' F s 0).isFinite := finite_mk F.infEnc_pos
  have hval : (mk' F s 0).toRat = 0 := by rw [toRat_mk _ _ hp]; simp
  have hup : IsUp 0 (mk' F s 0) := ⟨Or.inl ⟨hfin, by rw [hval]⟩, fun t _ ht => ⟨hfin, by rw [hval]; exact ht⟩⟩
  have hdn : IsDown 0 (mk' F s 0) := ⟨Or.inl ⟨hfin, by rw [hval]⟩, fun t _ ht => ⟨hfin, by rw [hval]; exact ht⟩⟩
  have hth : 0 < overflowThreshold F := by
    have := lt_overflow hfin
    rw [hval] at this; simpa using this
  have hmf : 0 ≤ maxFinite F := by rw [maxFinite_eq]; have := F.ulp_pos; positivity
  have he : (0 : ℚ) < 2 ^ ((F.bias : ℤ) + 1) := zpow2_pos _
  have hov : ¬ Overflows F m 0 := by
    cases m
    · show ¬ overflowThreshold F ≤ |0|; simp only [abs_zero, not_le]; exact hth
    · show ¬ ((0 : ℚ) < -maxFinite F ∨ (2 : ℚ) ^ ((F.bias : ℤ) + 1) ≤ 0)
      rintro (h | h) <;> linarith
    · show ¬ (maxFinite F < (0 : ℚ) ∨ (0 : ℚ) ≤ -2 ^ ((F.bias : ℤ) + 1))
      rintro (h | h) <;> linarith
    · show ¬ (2 : ℚ) ^ ((F.bias : ℤ) + 1) ≤ |0|; simp only [abs_zero, not_le]; exact he
  refine ⟨?_, ⟨?_, ?_, ?_, by decide⟩⟩
  · cases m
    · show IsRNE (0 : ℚ) (mk' F s 0)
      have := roundMag_isRNE (F := F) (q := 0) (s := s) (n := 0) (d := 1) (by norm_num) (by simp) (fun h => absurd rfl h)
      have e : roundMag F s 0 1 = mk' F s 0 := by
        unfold roundMag
        have : roundU F.sb 0 1 = 0 := by
          have := roundU_exact F.one_le_sb 0 1 (by norm_num)
          simpa using this
        rw [this]; simp
      rw [e] at this; exact this
    · exact hdn
    · exact hup
    · show (if (0 : ℚ) ≤ 0 then IsDown 0 (mk' F s 0) else IsUp 0 (mk' F s 0))
      rw [if_pos (le_refl _)]; exact hdn
  · constructor
    · intro h; exact absurd h (by decide)
    · intro h; exact absurd ⟨hfin, hval⟩ h
  · constructor
    · intro h; exact absurd h (by decide)
    · intro h; exact absurd h hov
  · constructor
    · intro h; exact absurd h (by decide)
    · intro h; exact absurd hval h.2.1

/-- **C24 (partial).**  For every well-formed hexadecimal literal - any number of digits, any exponent, any rounding
mode - the parser returns the datum obtained by rounding the exact value of the literal in that mode, with the sign
of the literal, and exactly the INEXACT, OVERFLOW and UNDERFLOW flags of that rounding.

Restrictions that the code needs (see `parse_exponent_panics`, `parse_f128_wraps`): the digits and the exponent
must not overflow the 32-bit exponent arithmetic (`4 * digits + exponent ≤ 2^30`), and for formats with more than 96
significand bits (binary128) the value must be below `2^(2^(128 - sb) + 1 - bias)`, because the exponent is shifted
out of a 128-bit word beyond that. -/
theorem parse_correct_partial (hF : Supported F) (l : Lit) (hw : l.WellFormed) (m : Round)
    (hr : 4 * (l.int ++ l.fracDigits).length + l.expAbs ≤ 2 ^ 30)
    (hsmall : F.sb ≤ 96 ∨ |l.value| < 2 ^ ((2 : ℤ) ^ (128 - F.sb) + 1 - F.bias)) :
    ∃ (r : Flt F) (st : Status), parseAny l.bytes F.bits F.sb m = ok (asU128 r, st) ∧
      r.sign = l.neg ∧ IsRounded m l.value r ∧ FlagsFor m l.value r st := by
  obtain ⟨sig, a, e1, e2, e3, e4⟩ := parseHex_lit l hw hr
  have e1 : parseHex l.body = _ := e1
  rw [parseAny_bytes hF]
  unfold parseFinite
  rw [e1]
  simp only [andThen, ok, Option.bind_some]
  rcases Nat.eq_zero_or_pos l.mantissa with hM | hM
  · -- zero
    have hs0 : sig = 0#128 := by
      apply BitVec.eq_of_toNat_eq
      rw [e2, hM]; simp [stk]
    have hv : l.value = 0 := by unfold Lit.value; rw [hM]; simp
    refine ⟨mk' F l.neg 0, Status.OK, ?_, sign_mk' (Nat.two_pow_pos _), ?_, ?_⟩
    · rw [if_pos hs0]
      simp only [Option.bind_some]
      have := xor_sign hF 0 (Nat.two_pow_pos _) l.neg
      rw [← this]
    · rw [hv]; exact (rounded_zero m l.neg).1
    · rw [hv]; exact (rounded_zero m l.neg).2
  · have hs0 : ¬ sig = 0#128 := by
      intro h
      rw [h] at e2
      have := stk_lo l.mantissa a
      rcases e3 with rfl | e3
      · simp [stk, Nat.mod_one] at e2; omega
      · have : (0#128).toNat = 0 := rfl
        omega
    set q : ℚ := (l.mantissa : ℚ) / 16 ^ l.fracDigits.length * 2 ^ l.exponent with hq
    have hexpo : |l.exponent| ≤ l.expAbs := by
      unfold Lit.exponent; split <;> simp
    have hexpo := abs_le.mp hexpo
    have hlen : (l.int ++ l.fracDigits).length = l.int.length + l.fracDigits.length := List.length_append
    have hval : (l.mantissa : ℚ) * 2 ^ ((a : Int) - 4 * l.fracDigits.length + l.exponent - a) = q := by
      rw [hq, div_mul_eq_mul_div, mul_div_assoc]
      congr 1
      have h16 : (16 : ℚ) ^ l.fracDigits.length = 2 ^ (4 * (l.fracDigits.length : ℤ)) := by
        rw [zpow_mul]; norm_num
      rw [h16, ← zpow_sub₀ (by norm_num)]
      congr 1; ring
    have hMq : (0 : ℚ) < l.mantissa := by exact_mod_cast hM
    have hqp : 0 < q := by rw [← hval]; exact mul_pos hMq (zpow2_pos _)
    have hlv : l.value = (if l.neg then -1 else 1) * q := rfl
    have habs : |l.value| = q := by
      rw [hlv]; cases l.neg <;> simp [abs_of_pos hqp]
    rw [if_neg hs0]
    obtain ⟨n, d, E, hQ, hv, henc⟩ := encodeFinite_spec hF (absMode l.neg m) sig
      ((a : Int) - 4 * l.fracDigits.length + l.exponent) l.mantissa a hM e2 e3 ⟨by omega, by omega⟩
      (hsmall.imp id (fun h => by rw [hval, ← habs]; exact h))
    rw [hval] at hv
    rw [henc]
    simp only [chk, Option.bind_some]
    set u := satEnc F (absMode l.neg m) (quotEnc F.sb (absMode l.neg m) n d E) with hu
    have hub : u < 2 ^ (F.ew + F.sb) := satEnc_lt _ _
    have hR := (hQ.rounded (absMode l.neg m)).1
    have hFl := hQ.flags (absMode l.neg m)
    rw [hv, ← hu] at hR hFl
    refine ⟨mk' F l.neg u, satStatus F (decide (n % d = 0)) (quotEnc F.sb (absMode l.neg m) n d E), ?_, sign_mk' hub, ?_, ?_⟩
    · simp only [ok, Option.bind_some]
      rw [xor_sign hF u hub]
    · rw [hlv]
      cases hn : l.neg with
      | true =>
        rw [hn] at hR hFl
        have := rounded_mirror hqp hub hR
        simpa using this
      | false =>
        rw [hn] at hR hFl
        have e : absMode false m = m := by cases m <;> rfl
        rw [e] at hR
        simpa using hR
    · rw [hlv]
      cases hn : l.neg with
      | true =>
        rw [hn] at hR hFl
        have := flags_mirror hub hFl
        simpa using this
      | false =>
        rw [hn] at hR hFl
        have e : absMode false m = m := by cases m <;> rfl
        rw [e] at hFl
        simpa [e] using hFl

theorem rounded_exact {m : Round} {z r : Flt F} (hz : z.isFinite) (h : IsRounded m z.toRat r) :
    r.isFinite ∧ r.toRat = z.toRat := by
  have up : IsUp z.toRat r → r.isFinite ∧ r.toRat = z.toRat := by
    intro h
    obtain ⟨h1, h2⟩ := h.2 z hz (le_refl _)
    refine ⟨h1, le_antisymm h2 ?_⟩
    rcases h.1 with h3 | h3
    · exact h3.2
    · exact absurd h1 (not_finite_of_inf h3.1)
  have down : IsDown z.toRat r → r.isFinite ∧ r.toRat = z.toRat := by
    intro h
    obtain ⟨h1, h2⟩ := h.2 z hz (le_refl _)
    refine ⟨h1, le_antisymm ?_ h2⟩
    rcases h.1 with h3 | h3
    · exact h3.2
    · exact absurd h1 (not_finite_of_inf h3.1)
  cases m with
  | Nearest => exact IsRNE.exact (q := z.toRat) h hz rfl
  | Positive => exact up h
  | Negative => exact down h
  | Zero =>
    have h : (if (0 : ℚ) ≤ z.toRat then IsDown z.toRat r else IsUp z.toRat r) := h
    split at h
    · exact down h
    · exact up h

theorem status_ok {st : Status} (h1 : st.inexact ≠ true) (h2 : st.overflow ≠ true) (h3 : st.underflow ≠ true)
    (h4 : st.bits &&& 0b11000111#8 = 0#8) : st = Status.OK := by
  obtain ⟨b⟩ := st
  have key : ∀ b : BitVec 8, (Status.mk b).inexact ≠ true → (Status.mk b).overflow ≠ true →
      (Status.mk b).underflow ≠ true → b &&& 0b11000111#8 = 0#8 → b = 0#8 := by
    have : ∀ b : Fin 256, (Status.mk (BitVec.ofFin b)).inexact ≠ true → (Status.mk (BitVec.ofFin b)).overflow ≠ true →
      (Status.mk (BitVec.ofFin b)).underflow ≠ true → BitVec.ofFin b &&& 0b11000111#8 = 0#8 → BitVec.ofFin b = 0#8 := by
      decide +kernel
    intro b
    exact this b.toFin
  show Status.mk b = Status.mk 0#8
  rw [key b h1 h2 h3 h4]

theorem exact_no_overflow {m : Round} {z : Flt F} (hz : z.isFinite) : ¬ Overflows F m z.toRat := by
  have h1 := lt_overflow hz
  have hb : |z.toRat| ≤ maxFinite F := by
    rw [maxFinite_eq, toRat_abs]
    apply mul_le_mul_of_nonneg_right _ F.ulp_pos.le
    have := (isFinite_iff z).mp hz
    exact_mod_cast magOf_le.mpr (by omega)
  have hlt : maxFinite F < 2 ^ ((F.bias : ℤ) + 1) := by
    rw [maxFinite_eq, two_emax_eq]
    apply mul_lt_mul_of_pos_right _ F.ulp_pos
    have := F.infEnc_pos
    exact_mod_cast magOf_lt.mpr (by omega)
  have h2 := abs_le.mp hb
  cases m
  · exact not_le.mpr h1
  · rintro (h | h) <;> linarith
  · rintro (h | h) <;> linarith
  · exact not_le.mpr (lt_of_le_of_lt hb hlt)

theorem eq_of_toRat {x y : Flt F} (hv : x.toRat = y.toRat) (hs : x.sign = y.sign) : x = y := by
  apply ext_mb hs
  have h := congrArg abs hv
  rw [toRat_abs, toRat_abs] at h
  have := mul_right_cancel₀ F.ulp_ne h
  exact magOf_inj.mp (by exact_mod_cast this)

/-- **C24, second part (partial, same restrictions).**  `hf16`, `hf32`, `hf64`, `hf128` accept a literal exactly when
its value is representable, and then return the representable number with the sign of the literal. -/
theorem hf_exact_partial (hF : Supported F) (l : Lit) (hw : l.WellFormed)
    (hr : 4 * (l.int ++ l.fracDigits).length + l.expAbs ≤ 2 ^ 30)
    (hsmall : F.sb ≤ 96 ∨ |l.value| < 2 ^ ((2 : ℤ) ^ (128 - F.sb) + 1 - F.bias)) (r : Flt F) :
    hf F l.bytes = some r ↔ r.isFinite ∧ r.toRat = l.value ∧ r.sign = l.neg := by
  obtain ⟨r', st, e1, e2, e3, e4⟩ := parse_correct_partial hF l hw .Nearest hr hsmall
  have hback : (⟨(asU128 r').setWidth F.bits⟩ : Flt F) = r' := by
    apply ext_enc
    show ((asU128 r').setWidth F.bits).toNat = r'.enc
    rw [BitVec.toNat_setWidth, asU128_toNat hF]
    exact Nat.mod_eq_of_lt r'.enc_lt
  have hok : st = Status.OK ↔ r'.isFinite ∧ r'.toRat = l.value := by
    constructor
    · intro h
      have := e4.inexact
      rw [h] at this
      by_contra hc
      exact absurd (this.mpr hc) (by decide)
    · intro h
      apply status_ok
      · intro h'; exact e4.inexact.mp h' h
      · intro h'; exact exact_no_overflow h.1 (by rw [h.2]; exact e4.overflow.mp h')
      · intro h'; exact (e4.underflow.mp h').2.1 h.2
      · exact e4.nothingElse
  unfold hf parseHexExact
  rw [e1]
  simp only [andThen, ok, Option.bind_some]
  by_cases hst : st = Status.OK
  · rw [if_pos hst]
    simp only [Option.bind_some, hback, Option.some.injEq]
    obtain ⟨h1, h2⟩ := hok.mp hst
    constructor
    · rintro rfl; exact ⟨h1, h2, e2⟩
    · rintro ⟨-, h3, h4⟩
      exact eq_of_toRat (by rw [h2, h3]) (by rw [e2, h4])
  · rw [if_neg hst]
    have hn : ¬ (r.isFinite ∧ r.toRat = l.value ∧ r.sign = l.neg) := by
      rintro ⟨h1, h2, h3⟩
      apply hst
      rw [hok]
      rw [← h2] at e3 ⊢
      exact rounded_exact h1 e3
    constructor
    · intro h
      exfalso
      split at h
      · simp [err] at h
      · split at h
        · simp [err] at h
        · split at h
          · simp [err] at h
          · simp at h
    · intro h; exact absurd h hn

/-! ## C25 -/

theorem digitLoop_inv (b : List UInt8) : ∀ (st st' : DigitState) (rest : List UInt8),
    digitLoop b st = ok (st', rest) →
    ∃ (ds : List HexDig) (fr : Option (List HexDig)) (pp : List UInt8),
      b = ds.map HexDig.char ++ (match fr with | none => [] | some fs => 46 :: fs.map HexDig.char) ++ pp ∧
      (pp = [] ∧ rest = [] ∨ ∃ c, (c = 112 ∨ c = 80) ∧ pp = c :: rest) ∧ (st.seenPoint = true → fr = none) ∧
      (st'.someDigits = true → st.someDigits = true ∨ ds ++ fr.getD [] ≠ []) := by
  induction b with
  | nil =>
    intro st st' rest h
    simp only [digitLoop, ok, Option.some.injEq, Except.ok.injEq, Prod.mk.injEq] at h
    obtain ⟨rfl, rfl⟩ := h
    exact ⟨[], none, [], rfl, Or.inl ⟨rfl, rfl⟩, fun _ => rfl, Or.inl⟩
  | cons c b ih =>
    intro st st' rest h
    rw [digitLoop] at h
    by_cases h1 : c = 46
    · rw [if_pos h1] at h
      by_cases h2 : st.seenPoint = true
      · rw [if_pos h2] at h; simp [err, ok] at h
      · rw [if_neg h2] at h
        obtain ⟨ds, fr, pp, g1, g2, g3, g4⟩ := ih _ _ _ h
        have g3 := g3 rfl
        subst g3
        refine ⟨[], some ds, pp, ?_, g2, fun h => absurd h h2, ?_⟩
        · rw [g1, h1]; simp
        · intro h; simpa using g4 h
    · rw [if_neg h1] at h
      by_cases h2 : c = 112 ∨ c = 80
      · rw [if_pos h2] at h
        simp only [ok, Option.some.injEq, Except.ok.injEq, Prod.mk.injEq] at h
        obtain ⟨rfl, rfl⟩ := h
        exact ⟨[], none, c :: b, rfl, Or.inr ⟨c, h2, rfl⟩, fun _ => rfl, Or.inl⟩
      · rw [if_neg h2] at h
        cases hd : hexDigit c with
        | none => rw [hd] at h; simp [err, ok] at h
        | some v =>
          rw [hd] at h
          obtain ⟨d, hd1, -⟩ := hexDigit_inv hd
          simp only [chk] at h
          cases hst : digitStep st v with
          | none => rw [hst] at h; simp [ok] at h
          | some st1 =>
            rw [hst, Option.bind_some] at h
            obtain ⟨ds, fr, pp, g1, g2, g3, g4⟩ := ih _ _ _ h
            refine ⟨d :: ds, fr, pp, ?_, g2, ?_, fun _ => Or.inr (by simp)⟩
            · rw [g1]; simp [hd1]
            · intro hp
              apply g3
              have : st1.seenPoint = st.seenPoint := by
                unfold digitStep at hst
                simp only at hst
                have key : ∀ o : Option DigitState, (∀ s ∈ o, s.seenPoint = st.seenPoint) →
                    (o.bind fun s => if s.seenPoint = true then
                      Option.map (fun e => { s with exp := e }) (i32 (s.exp - 4)) else some s) = some st1 →
                    st1.seenPoint = st.seenPoint := by
                  intro o ho he
                  cases o with
                  | none => simp at he
                  | some s =>
                    have hs := ho s rfl
                    rw [Option.bind_some] at he
                    split at he
                    · cases hi : i32 (s.exp - 4) with
                      | none => rw [hi] at he; simp at he
                      | some e =>
                        rw [hi] at he
                        simp only [Option.map_some, Option.some.injEq] at he
                        rw [← he]; exact hs
                    · simp only [Option.some.injEq] at he
                      rw [← he]; exact hs
                refine key _ ?_ hst
                intro s hs
                split at hs
                · simp only [Option.mem_def, Option.some.injEq] at hs
                  rw [← hs]
                · cases hi : i32 (st.exp + 4) with
                  | none => rw [hi] at hs; simp at hs
                  | some e =>
                    rw [hi] at hs
                    simp only [Option.map_some, Option.mem_def, Option.some.injEq] at hs
                    rw [← hs]
              rw [this]; exact hp

theorem expLoop_inv (b : List UInt8) : ∀ (p p' : Nat) (sd sd' : Bool), expLoop b p sd = ok (p', sd') →
    ∃ ds : List (Fin 10), b = ds.map (fun d => UInt8.ofNat (48 + d.val)) ∧ (sd' = true → sd = true ∨ ds ≠ []) := by
  induction b with
  | nil =>
    intro p p' sd sd' h
    simp only [expLoop, ok, Option.some.injEq, Except.ok.injEq, Prod.mk.injEq] at h
    exact ⟨[], rfl, fun h' => Or.inl (h.2.trans h')⟩
  | cons c b ih =>
    intro p p' sd sd' h
    rw [expLoop] at h
    cases hd : decDigit c with
    | none => rw [hd] at h; simp [err, ok] at h
    | some v =>
      rw [hd] at h
      obtain ⟨d, hd1, -⟩ := decDigit_inv hd
      simp only at h
      split at h
      · obtain ⟨ds, g1, g2⟩ := ih _ _ _ _ h
        exact ⟨d :: ds, by rw [g1, List.map_cons, hd1], fun _ => Or.inr (by simp)⟩
      · simp [ok] at h

theorem splitSign_inv (b : List UInt8) : ∃ sg : Option Bool, b = signBytes sg ++ (splitSign b).2 ∧
    (splitSign b).1 = (sg == some true) := by
  cases b with
  | nil => exact ⟨none, rfl, rfl⟩
  | cons c b =>
    simp only [splitSign]
    by_cases h1 : c = 45
    · rw [if_pos h1]; exact ⟨some true, by rw [h1]; rfl, rfl⟩
    · rw [if_neg h1]
      by_cases h2 : c = 43
      · rw [if_pos h2]; exact ⟨some false, by rw [h2]; rfl, rfl⟩
      · rw [if_neg h2]; exact ⟨none, rfl, rfl⟩

theorem parseHex_inv {b : List UInt8} {v} (h : parseHex b = ok v) :
    ∃ l : Lit, l.WellFormed ∧ l.sign = none ∧ l.upperX = false ∧ b = l.body := by
  unfold parseHex at h
  cases hd : digitLoop b ⟨0#128, 0, false, false, false⟩ with
  | none => rw [hd] at h; simp [andThen, ok] at h
  | some r =>
    cases r with
    | error e => rw [hd] at h; simp [andThen, ok, err] at h
    | ok r =>
      obtain ⟨st, rest⟩ := r
      obtain ⟨ds, fr, pp, g1, g2, -, g4⟩ := digitLoop_inv b _ _ _ hd
      rw [hd] at h
      simp only [andThen, Option.bind_some] at h
      by_cases hs : st.someDigits = true
      · rw [if_neg (by simp [hs])] at h
        have hdig : ds ++ fr.getD [] ≠ [] := by
          rcases g4 hs with h' | h'
          · simp at h'
          · exact h'
        cases he : expLoop (splitSign rest).2 0 false with
        | none => rw [he] at h; simp [ok] at h
        | some r =>
          cases r with
          | error e => rw [he] at h; simp [ok, err] at h
          | ok r =>
            obtain ⟨p, sd⟩ := r
            obtain ⟨eds, k1, k2⟩ := expLoop_inv _ _ _ _ _ he
            rw [he] at h
            simp only [Option.bind_some] at h
            by_cases hsd : sd = true
            · have heds : eds ≠ [] := by
                rcases k2 hsd with h' | h'
                · simp at h'
                · exact h'
              obtain ⟨sg, s1, -⟩ := splitSign_inv rest
              rcases g2 with ⟨rfl, rfl⟩ | ⟨c, hc, rfl⟩
              · exfalso
                have : (splitSign ([] : List UInt8)).2 = [] := rfl
                rw [this] at k1
                apply heds
                simpa using k1.symm
              · refine ⟨⟨none, false, ds, fr, decide (c = 80), sg, eds⟩, ⟨hdig, heds⟩, rfl, rfl, ?_⟩
                rw [g1]
                unfold Lit.body
                simp only [List.append_assoc]
                congr 2
                have hcc : (if decide (c = 80) = true then (80 : UInt8) else 112) = c := by
                  rcases hc with rfl | rfl <;> simp
                rw [hcc, ← k1, ← s1]; rfl
            · rw [if_pos hsd] at h; simp [ok, err] at h
      · rw [if_pos (by simpa using hs)] at h; simp [ok, err] at h

/-- the text of an infinity or NaN: three letters in any case -/
def isWord (w : List UInt8) (b : List UInt8) : Prop := b.map (fun c => if 65 ≤ c.toNat ∧ c.toNat ≤ 90 then c + 32 else c) = w

theorem isLetter_iff (lo c : UInt8) (h : 97 ≤ lo.toNat ∧ lo.toNat ≤ 122) : isLetter lo c = true ↔
    (if 65 ≤ c.toNat ∧ c.toNat ≤ 90 then c + 32 else c) = lo := by
  have key : ∀ a : Fin 256, 97 ≤ a.val ∧ a.val ≤ 122 → ∀ c : Fin 256,
      (isLetter (UInt8.ofNat a.val) (UInt8.ofNat c.val) = true ↔
      (if 65 ≤ (UInt8.ofNat c.val).toNat ∧ (UInt8.ofNat c.val).toNat ≤ 90 then UInt8.ofNat c.val + 32 else UInt8.ofNat c.val) = UInt8.ofNat a.val) := by
    decide +kernel
  have := key ⟨lo.toNat, UInt8.toNat_lt lo⟩ h ⟨c.toNat, UInt8.toNat_lt c⟩
  simpa using this

/-- **C25, malformed strings.**  Whatever the configuration and the mode, a string that the parser accepts is a
well-formed hexadecimal literal or an optionally signed `inf` or `nan` in any case. -/
theorem parse_accepts_only_literals {s : List UInt8} {bits sigBits : Nat} {m : Round} {v}
    (h : parseAny s bits sigBits m = ok v) :
    (∃ l : Lit, l.WellFormed ∧ s = l.bytes) ∨
    (∃ sg b, s = signBytes sg ++ b ∧ (isWord [105, 110, 102] b ∨ isWord [110, 97, 110] b)) := by
  obtain ⟨sg, s1, s2⟩ := splitSign_inv s
  have hexcase : ∀ (c1 c2 : UInt8) (rest : List UInt8), (splitSign s).2 = c1 :: c2 :: rest →
      c1 = 48 ∧ isLetter 120 c2 = true → (∃ v md, parseFinite rest bits sigBits md = ok v) →
      ∃ l : Lit, l.WellFormed ∧ s = l.bytes := by
    rintro c1 c2 rest hb ⟨rfl, hc⟩ ⟨v, md, hp⟩
    unfold parseFinite at hp
    cases hph : parseHex rest with
    | none => rw [hph] at hp; simp [andThen, ok] at hp
    | some r =>
      cases r with
      | error e => rw [hph] at hp; simp [andThen, ok, err] at hp
      | ok r =>
        obtain ⟨l, hl, -, -, hbd⟩ := parseHex_inv hph
        refine ⟨{ l with sign := sg, upperX := decide (c2 = 88) }, hl, ?_⟩
        rw [Lit.bytes_eq]
        have hbody : ({ l with sign := sg, upperX := decide (c2 = 88) } : Lit).body = l.body := rfl
        rw [hbody, ← hbd, s1, hb]
        have hx : (if decide (c2 = 88) = true then (88 : UInt8) else 120) = c2 := by
          unfold isLetter at hc
          simp only [Bool.or_eq_true, beq_iff_eq] at hc
          rcases hc with rfl | hc
          · rfl
          · have : c2 = 88 := hc
            simp [this]
        simp only [hx]
  unfold parseAny at h
  split at h
  · simp [ok, err] at h
  · simp only at h
    split at h
    · simp [ok] at h
    · rcases hb : (splitSign s).2 with _ | ⟨c1, _ | ⟨c2, _ | ⟨c3, _ | ⟨c4, rest⟩⟩⟩⟩
      · rw [hb] at h; simp [andThen, err, ok] at h
      · rw [hb] at h; simp [andThen, err, ok] at h
      · rw [hb] at h
        simp only at h
        by_cases h1 : c1 = 48 ∧ isLetter 120 c2 = true
        · rw [if_pos h1] at h
          left
          apply hexcase _ _ _ hb h1
          cases hp : parseFinite [] bits sigBits (absMode (splitSign s).1 m) with
          | none => rw [hp] at h; simp [andThen, ok] at h
          | some r =>
            cases r with
            | error e => rw [hp] at h; simp [andThen, ok, err] at h
            | ok r => exact ⟨r, _, hp⟩
        · rw [if_neg h1] at h; simp [andThen, err, ok] at h
      · rw [hb] at h
        simp only at h
        by_cases hi : isLetter 105 c1 = true ∧ isLetter 110 c2 = true ∧ isLetter 102 c3 = true
        · right
          refine ⟨sg, [c1, c2, c3], by rw [← hb]; exact s1, Or.inl ?_⟩
          unfold isWord
          simp only [List.map_cons, List.map_nil]
          rw [(isLetter_iff 105 c1 (by decide)).mp hi.1, (isLetter_iff 110 c2 (by decide)).mp hi.2.1,
            (isLetter_iff 102 c3 (by decide)).mp hi.2.2]
        · rw [if_neg hi] at h
          by_cases hn : isLetter 110 c1 = true ∧ isLetter 97 c2 = true ∧ isLetter 110 c3 = true
          · right
            refine ⟨sg, [c1, c2, c3], by rw [← hb]; exact s1, Or.inr ?_⟩
            unfold isWord
            simp only [List.map_cons, List.map_nil]
            rw [(isLetter_iff 110 c1 (by decide)).mp hn.1, (isLetter_iff 97 c2 (by decide)).mp hn.2.1,
              (isLetter_iff 110 c3 (by decide)).mp hn.2.2]
          · rw [if_neg hn] at h
            by_cases h1 : c1 = 48 ∧ isLetter 120 c2 = true
            · rw [if_pos h1] at h
              left
              apply hexcase _ _ _ hb h1
              cases hp : parseFinite [c3] bits sigBits (absMode (splitSign s).1 m) with
              | none => rw [hp] at h; simp [andThen, ok] at h
              | some r =>
                cases r with
                | error e => rw [hp] at h; simp [andThen, ok, err] at h
                | ok r => exact ⟨r, _, hp⟩
            · rw [if_neg h1] at h; simp [andThen, err, ok] at h
      · rw [hb] at h
        simp only at h
        by_cases h1 : c1 = 48 ∧ isLetter 120 c2 = true
        · rw [if_pos h1] at h
          left
          apply hexcase _ _ _ hb h1
          cases hp : parseFinite (c3 :: c4 :: rest) bits sigBits (absMode (splitSign s).1 m) with
          | none => rw [hp] at h; simp [andThen, ok] at h
          | some r =>
            cases r with
            | error e => rw [hp] at h; simp [andThen, ok, err] at h
            | ok r => exact ⟨r, _, hp⟩
        · rw [if_neg h1] at h; simp [andThen, err, ok] at h

theorem digitLoop_total (b : List UInt8) : ∀ (st : DigitState) (N f c : Nat), DInv st N f c →
    c + b.length ≤ 2 ^ 28 →
    (∃ e, digitLoop b st = err e) ∨
    ∃ st' rest N' f' c', digitLoop b st = ok (st', rest) ∧ DInv st' N' f' c' ∧ c' ≤ c + b.length ∧
      (rest = [] ∨ ∃ pre x, (x = 112 ∨ x = 80) ∧ b = pre ++ x :: rest) := by
  induction b with
  | nil => intro st N f c h _; exact Or.inr ⟨st, [], N, f, c, rfl, h, by simp, Or.inl rfl⟩
  | cons x b ih =>
    intro st N f c h hc
    simp only [List.length_cons] at hc
    rw [digitLoop]
    have push : ∀ rest, (rest = [] ∨ ∃ pre y, (y = 112 ∨ y = 80) ∧ b = pre ++ y :: rest) →
        (rest = [] ∨ ∃ pre y, (y = 112 ∨ y = 80) ∧ x :: b = pre ++ y :: rest) := by
      rintro rest (h | ⟨pre, y, h1, h2⟩)
      · exact Or.inl h
      · exact Or.inr ⟨x :: pre, y, h1, by rw [h2]; rfl⟩
    by_cases h1 : x = 46
    · rw [if_pos h1]
      by_cases h2 : st.seenPoint = true
      · rw [if_pos h2]; exact Or.inl ⟨_, rfl⟩
      · rw [if_neg h2]
        rcases ih { st with seenPoint := true } N f c ⟨h.hf, h.ex⟩ (by omega) with h3 | ⟨st', rest, N', f', c', g1, g2, g3, g4⟩
        · exact Or.inl h3
        · exact Or.inr ⟨st', rest, N', f', c', g1, g2, by simp; omega, push _ g4⟩
    · rw [if_neg h1]
      by_cases h2 : x = 112 ∨ x = 80
      · rw [if_pos h2]
        exact Or.inr ⟨st, b, N, f, c, rfl, h, by omega, Or.inr ⟨[], x, h2, rfl⟩⟩
      · rw [if_neg h2]
        cases hd : hexDigit x with
        | none => exact Or.inl ⟨_, rfl⟩
        | some v =>
          obtain ⟨d, -, hdv⟩ := hexDigit_inv hd
          obtain ⟨st1, e1, e2, -, -⟩ := digitStep_spec h (d := v) (by rw [← hdv]; exact d.val.isLt) (by omega)
          simp only [chk, e1, Option.bind_some]
          rcases ih st1 _ _ _ e2 (by omega) with h3 | ⟨st', rest, N', f', c', g1, g2, g3, g4⟩
          · exact Or.inl h3
          · exact Or.inr ⟨st', rest, N', f', c', g1, g2, by simp; omega, push _ g4⟩

theorem expLoop_total (b : List UInt8) : ∀ (p : Nat) (sd : Bool),
    (∀ (ds : List (Fin 10)) post, b = ds.map (fun d => UInt8.ofNat (48 + d.val)) ++ post →
      pushDigits 10 p (ds.map Fin.val) ≤ 2 ^ 29) →
    (∃ e, expLoop b p sd = err e) ∨ ∃ p' sd', expLoop b p sd = ok (p', sd') ∧ p' ≤ 2 ^ 29 := by
  induction b with
  | nil =>
    intro p sd h
    exact Or.inr ⟨p, sd, rfl, by simpa [pushDigits] using h [] [] rfl⟩
  | cons x b ih =>
    intro p sd h
    rw [expLoop]
    cases hd : decDigit x with
    | none => exact Or.inl ⟨_, rfl⟩
    | some v =>
      obtain ⟨d, hd1, hdv⟩ := decDigit_inv hd
      have h0 := h [d] b (by simp only [List.map_cons, List.map_nil, hd1]; rfl)
      have h0 : p * 10 + d.val ≤ 2 ^ 29 := h0
      simp only
      have h3 : min (p * 10) (2 ^ 32 - 1) = p * 10 := by omega
      rw [h3, if_pos (by omega)]
      apply ih
      intro ds post hb
      have := h (d :: ds) post (by rw [hb, List.map_cons, hd1]; rfl)
      rw [← hdv]; exact this

theorem encodeFinite_total (hF : Supported F) (md : Round) (sig : BitVec 128) (exp : Int) (M a : Nat) (hM : 0 < M)
    (hs : sig.toNat = stk M a) (ha : a = 0 ∨ 2 ^ 124 ≤ M / 2 ^ a) (hexp : -2 ^ 31 ≤ exp ∧ exp ≤ 2 ^ 30) :
    ∃ v, encodeFinite F.bits F.sb md sig exp = some v := by
  have hb29 : F.bias < 2 ^ 28 := by
    have h1 := F.bias_succ
    have : (2 : Nat) ^ (F.ew - 1) ≤ 2 ^ 28 := Nat.pow_le_pow_right (by norm_num) (by have := hF.ew; omega)
    omega
  have hbp : 13 ≤ F.bias := by have := F.sb_lt_bias; have := F.hsb; omega
  have hsb := hF.sb
  obtain ⟨s, E, n, d, hd, e1, e2, e3, e4, e5, e6⟩ := roundSig_spec F.sb (1 - (F.bias : Int) - F.sb) md sig exp M a hM hs ha
    hsb ⟨by omega, by omega⟩ hexp
  have hsle : s.toNat ≤ 2 ^ (F.sb + 1) := by
    rw [e2]; exact (modeDiv_bounds md hd (Nat.zero_mul _ ▸ Nat.zero_le n) e4.le).2
  have hsb1 : (2 : Nat) ^ (F.sb + 1) < 2 ^ 128 := Nat.pow_lt_pow_right (by norm_num) (by omega)
  have h2le : s ≤ 2#128 <<< F.sb := by
    rw [BitVec.le_def, BV.shl]
    have : (2#128).toNat * 2 ^ F.sb = 2 ^ (F.sb + 1) := by
      show 2 * 2 ^ F.sb = _
      rw [pow_succ]; ring
    rw [this, Nat.mod_eq_of_lt hsb1]; exact hsle
  unfold encodeFinite
  simp only [minLsb_eq, e1, Option.bind_some]
  have hsub : (1 - (F.bias : Int) - F.sb) + E - (1 - (F.bias : Int) - F.sb) = E := by ring
  rw [hsub, i32_ok (by omega) (by omega), Option.bind_some, if_pos h2le]
  split <;> exact ⟨_, rfl⟩

/-- no exponent digit string of `s` (digits right after `p` and an optional sign) exceeds `2^29` -/
def ExpBounded (s : List UInt8) : Prop :=
  ∀ (pre : List UInt8) (p : UInt8) (sg : Option Bool) (ds : List (Fin 10)) (post : List UInt8), (p = 112 ∨ p = 80) →
    s = pre ++ p :: (signBytes sg ++ (ds.map (fun d => UInt8.ofNat (48 + d.val)) ++ post)) →
    natOf 10 (ds.map Fin.val) ≤ 2 ^ 29

theorem parseFinite_total (hF : Supported F) (b : List UInt8) (md : Round) (hl : b.length ≤ 2 ^ 27)
    (hb : ExpBounded b) : parseFinite b F.bits F.sb md ≠ none := by
  have h0 : DInv ⟨0#128, 0, false, false, false⟩ 0 0 0 :=
    ⟨le_refl _, 0, le_refl _, rfl, Or.inl rfl, rfl, rfl⟩
  unfold parseFinite parseHex
  rcases digitLoop_total b _ 0 0 0 h0 (by omega) with ⟨e, h1⟩ | ⟨st, rest, N, f, c, g1, g2, g3, g4⟩
  · rw [h1]; simp [andThen, err]
  · rw [g1]
    simp only [andThen, ok, Option.bind_some]
    by_cases hsd : st.someDigits = true
    · rw [if_neg (by simp [hsd])]
      have hexp : ∀ (ds : List (Fin 10)) post, (splitSign rest).2 = ds.map (fun d => UInt8.ofNat (48 + d.val)) ++ post →
          pushDigits 10 0 (ds.map Fin.val) ≤ 2 ^ 29 := by
        intro ds post hds
        rcases g4 with rfl | ⟨pre, x, hx, hbx⟩
        · have : (splitSign ([] : List UInt8)).2 = [] := rfl
          rw [this] at hds
          have hn : ds = [] := by
            have := (List.append_eq_nil_iff.mp hds.symm).1
            simpa using this
          subst hn
          simp [pushDigits]
        · obtain ⟨sg, s1, -⟩ := splitSign_inv rest
          exact hb pre x sg ds post hx (by rw [hbx, ← hds, ← s1])
      rcases expLoop_total _ 0 false hexp with ⟨e, h2⟩ | ⟨p, sd, h2, h3⟩
      · rw [h2]; simp [err]
      · rw [h2]
        simp only [ok, Option.bind_some]
        by_cases hsd2 : sd = true
        · rw [if_neg (by simp [hsd2])]
          simp only [Option.bind_some]
          by_cases hne : (st.sig ||| (if st.inexact then 1#128 else 0#128)) = 0#128
          · rw [if_pos hne]; simp
          · rw [if_neg hne]
            obtain ⟨hfc, k, hk, s1, s2, s3, s4⟩ := g2
            have h16 : (16 : Nat) ^ k = 2 ^ (4 * k) := by rw [pow_mul]; norm_num
            rw [h16] at s1 s2 s3
            have hsig : (st.sig ||| (if st.inexact then 1#128 else 0#128)).toNat = stk N (4 * k) := by
              rw [toNat_or_bit, s1, s3]
              unfold stk
              by_cases h0 : N % 2 ^ (4 * k) = 0
              · simp [h0]
              · simp [h0]
            have hN : 0 < N := by
              rcases Nat.eq_zero_or_pos N with h | h
              · exfalso
                apply hne
                apply BitVec.eq_of_toNat_eq
                rw [hsig, h]; simp [stk]
              · exact h
            obtain ⟨v, hv⟩ := encodeFinite_total hF md _ (if (if (splitSign rest).1 = true then st.exp - ↑p else st.exp + ↑p) < -2 ^ 31 then
                  -2 ^ 31
                else
                  if (if (splitSign rest).1 = true then st.exp - ↑p else st.exp + ↑p) > 2 ^ 31 - 1 then 2 ^ 31 - 1
                  else if (splitSign rest).1 = true then st.exp - ↑p else st.exp + ↑p) N (4 * k) hN hsig
              (s2.imp (fun h => by omega) id) (by
                rw [s4]
                constructor <;> split_ifs <;> omega)
            rw [hv]
            simp [chk, ok]
        · rw [if_pos (by simpa using hsd2)]; simp [err]
    · rw [if_pos (by simpa using hsd)]; simp [err]

/-- **C25 (partial).**  On every byte string of at most `2^27` bytes, malformed or not, whose exponent digits stay
below `2^29`, the parser does not panic: it returns `Ok` or `Err`.  (Without a bound on the exponent the statement is
false: `parse_exponent_panics`.) -/
theorem parse_total_partial (hF : Supported F) (s : List UInt8) (m : Round) (hl : s.length ≤ 2 ^ 27)
    (hb : ExpBounded s) : parseAny s F.bits F.sb m ≠ none := by
  have hbe := F.bits_eq
  have hew := F.hew
  have hsb := F.hsb
  have k1 := hF.sb
  have k2 := hF.bits
  have k3 := hF.ew
  have wrap : ∀ r : Res (BitVec 128 × Status), r ≠ none →
      (andThen r fun (x, status) => ok (if (splitSign s).1 then x ^^^ (1#128 <<< (F.bits - 1)) else x, status)) ≠ none := by
    intro r hr
    rcases r with _ | (e | v)
    · exact absurd rfl hr
    · simp [andThen, err]
    · simp [andThen, ok]
  obtain ⟨sg, s1, -⟩ := splitSign_inv s
  have fin : ∀ (c1 c2 : UInt8) rest, (splitSign s).2 = c1 :: c2 :: rest → ∀ md, parseFinite rest F.bits F.sb md ≠ none := by
    intro c1 c2 rest h md
    have hs : s = signBytes sg ++ c1 :: c2 :: rest := by rw [← h]; exact s1
    apply parseFinite_total hF
    · have := congrArg List.length hs
      simp only [List.length_append, List.length_cons] at this
      omega
    · intro pre p sg' ds post hp he
      apply hb (signBytes sg ++ c1 :: c2 :: pre) p sg' ds post hp
      rw [hs, he]; simp
  unfold parseAny
  rw [if_neg (by omega)]
  simp only
  rw [if_neg (by omega)]
  rcases h : (splitSign s).2 with _ | ⟨c1, _ | ⟨c2, _ | ⟨c3, _ | ⟨c4, rest⟩⟩⟩⟩
  · exact wrap _ (by simp [err])
  · exact wrap _ (by simp [err])
  · refine wrap _ ?_
    simp only
    split
    · exact fin _ _ _ h _
    · simp [err]
  · refine wrap _ ?_
    simp only
    split
    · simp [ok]
    · split
      · simp [ok]
      · split
        · exact fin _ _ _ h _
        · simp [err]
  · refine wrap _ ?_
    simp only
    split
    · exact fin _ _ _ h _
    · simp [err]

/-- **C25, malformed strings are rejected** with an error value (same bounds). -/
theorem parse_malformed_partial (hF : Supported F) (s : List UInt8) (m : Round) (hl : s.length ≤ 2 ^ 27)
    (hb : ExpBounded s) (h1 : ¬ ∃ l : Lit, l.WellFormed ∧ s = l.bytes)
    (h2 : ¬ ∃ sg b, s = signBytes sg ++ b ∧ (isWord [105, 110, 102] b ∨ isWord [110, 97, 110] b)) :
    ∃ e, parseAny s F.bits F.sb m = err e := by
  have h := parse_total_partial hF s m hl hb
  rcases hp : parseAny s F.bits F.sb m with _ | (e | v)
  · exact absurd hp h
  · exact ⟨e, rfl⟩
  · rcases parse_accepts_only_literals hp with h' | h'
    · exact absurd h' h1
    · exact absurd h' h2

/-- ASCII text of a string literal (for examples) -/
def text (s : String) : List UInt8 := s.toList.map fun c => UInt8.ofNat c.toNat

/-- The parser panics (in builds with overflow checks) on two kinds of exponents: digits that overflow `u32`, and
an in-range exponent close to `i32::MAX`. -/
theorem parse_exponent_panics :
    parseAny (text "0x1p4294967296") f64.bits f64.sb .Nearest = none ∧
    parseAny (text "0x1p99999999999") f32.bits f32.sb .Nearest = none ∧
    parseAny (text "0x1p2147483647") f64.bits f64.sb .Nearest = none := by
  decide +kernel

/-- For binary128 the exponent is shifted out of the 128-bit word: the literal `0x1p65536`, far above the largest
finite number, is accepted as exactly `1.0`. -/
theorem parse_f128_wraps :
    parseAny (text "0x1p65536") f128.bits f128.sb .Nearest = ok (asU128 (mk' f128 false (16383 * 2 ^ 112)), Status.OK) ∧
    hf f128 (text "0x1p65536") = some (mk' f128 false (16383 * 2 ^ 112)) := by
  decide +kernel

/-- the four formats are supported -/
theorem supported : Supported f16 ∧ Supported f32 ∧ Supported f64 ∧ Supported f128 :=
  ⟨⟨by decide, by decide, by decide⟩, ⟨by decide, by decide, by decide⟩, ⟨by decide, by decide, by decide⟩,
    ⟨by decide, by decide, by decide⟩⟩

/-- a concrete literal that meets the hypotheses: `-0x1.fp-3` -/
def exampleLit : Lit := ⟨some true, false, [⟨1, false⟩], some [⟨15, false⟩], false, some true, [3]⟩

example : exampleLit.bytes = text "-0x1.fp-3" ∧ exampleLit.WellFormed ∧
    4 * (exampleLit.int ++ exampleLit.fracDigits).length + exampleLit.expAbs ≤ 2 ^ 30 := by
  refine ⟨by decide, ⟨by simp [exampleLit], by simp [exampleLit]⟩, by decide⟩

example : exampleLit.value = -31 / 128 := by
  have h1 : exampleLit.mantissa = 31 := by decide
  have h2 : exampleLit.exponent = -3 := by decide
  have h3 : exampleLit.fracDigits.length = 1 := by decide
  have h4 : exampleLit.neg = true := by decide
  unfold Lit.value
  rw [h1, h2, h3, h4]; norm_num

/-- inexact in every mode, with a rounding that depends on the mode: `0x1.001p0` in binary16 has 12 fraction bits -/
example : parseAny (text "0x1.003p0") f16.bits f16.sb .Nearest = ok (0x3c01#128, Status.INEXACT) ∧
    parseAny (text "0x1.003p0") f16.bits f16.sb .Zero = ok (0x3c00#128, Status.INEXACT) ∧
    parseAny (text "-0x1.003p0") f16.bits f16.sb .Positive = ok (0xbc00#128, Status.INEXACT) ∧
    parseAny (text "0x1p16") f16.bits f16.sb .Zero = ok (0x7bff#128, Status.OVERFLOW.with Status.INEXACT) ∧
    parseAny (text "0x0.8p-24") f16.bits f16.sb .Positive = ok (1#128, Status.INEXACT.with Status.UNDERFLOW) := by
  decide +kernel

end HexFloat
end Verif
