import Verif.Props.HexFloat
import Verif.Theory.Order

/-! # Hexadecimal formatting round-trips (C26) -/

namespace Verif
namespace HexFloat
open Flt
variable {F : Fmt}

/-- the last `w` hexadecimal digits of `n` -/
def hexDigs : Nat → Nat → List HexDig
  | 0, _ => []
  | w + 1, n => hexDigs w (n / 16) ++ [⟨⟨n % 16, Nat.mod_lt _ (by norm_num)⟩, false⟩]

theorem hexChar_eq (d : Nat) (h : d < 16) : hexChar d = (HexDig.mk ⟨d, h⟩ false).char := by
  have : ∀ d : Fin 16, hexChar d.val = (HexDig.mk d false).char := by decide
  exact this ⟨d, h⟩

theorem fmtHex_eq (w : Nat) : ∀ n, fmtHex w n = (hexDigs w n).map HexDig.char := by
  induction w with
  | zero => intro n; rfl
  | succ w ih =>
    intro n
    rw [fmtHex, hexDigs, List.map_append, ih, hexChar_eq _ (Nat.mod_lt _ (by norm_num))]; rfl

theorem hexDigs_len (w : Nat) : ∀ n, (hexDigs w n).length = w := by
  induction w with
  | zero => intro n; rfl
  | succ w ih => intro n; rw [hexDigs, List.length_append, ih]; rfl

theorem hexDigs_val (w : Nat) : ∀ n m, pushDigits 16 m ((hexDigs w n).map fun d => d.val.val) = m * 16 ^ w + n % 16 ^ w := by
  induction w with
  | zero => intro n m; simp [hexDigs, pushDigits, Nat.mod_one]
  | succ w ih =>
    intro n m
    rw [hexDigs, List.map_append, pushDigits_append, ih]
    show (m * 16 ^ w + n / 16 % 16 ^ w) * 16 + n % 16 = _
    rw [pow_succ, Nat.mul_comm (16 ^ w) 16, Nat.mod_mul]
    ring

/-- decimal digits of `n` -/
def decDigs (n : Nat) : List (Fin 10) :=
  if h : n < 10 then [⟨n, h⟩] else decDigs (n / 10) ++ [⟨n % 10, Nat.mod_lt _ (by norm_num)⟩]
decreasing_by omega

theorem fmtDec_eq (n : Nat) : fmtDec n = (decDigs n).map (fun d => UInt8.ofNat (48 + d.val)) := by
  induction n using Nat.strong_induction_on with
  | _ n ih =>
    rw [fmtDec, decDigs]
    split
    · rfl
    · rw [List.map_append, ih (n / 10) (by omega)]; rfl

theorem decDigs_val (n : Nat) : pushDigits 10 0 ((decDigs n).map Fin.val) = n := by
  induction n using Nat.strong_induction_on with
  | _ n ih =>
    rw [decDigs]
    split
    · simp [pushDigits]
    · rw [List.map_append, pushDigits_append, ih (n / 10) (by omega)]
      show n / 10 * 10 + n % 10 = n
      omega

theorem decDigs_ne (n : Nat) : decDigs n ≠ [] := by
  rw [decDigs]; split <;> simp

/-- the literal that the formatter writes -/
def fmtLit (sgn : Bool) (lead : Fin 16) (frac : Option (List HexDig)) (e : Int) : Lit :=
  ⟨if sgn then some true else none, false, [⟨lead, false⟩], frac, false, some (decide (e < 0)), decDigs e.natAbs⟩

theorem fmtSigned_eq (e : Int) : fmtSigned e =
    signBytes (some (decide (e < 0))) ++ (decDigs e.natAbs).map (fun d => UInt8.ofNat (48 + d.val)) := by
  unfold fmtSigned
  rw [fmtDec_eq]
  by_cases h : e < 0
  · simp [h, signBytes]
  · simp [h, signBytes]

theorem fmtLit_exponent (s lead frac e) : (fmtLit s lead frac e).exponent = e := by
  unfold Lit.exponent Lit.expAbs fmtLit
  have : natOf 10 ((decDigs e.natAbs).map Fin.val) = e.natAbs := decDigs_val _
  simp only [this]
  by_cases h : e < 0
  · simp only [h, decide_true, if_true]; omega
  · simp only [h, decide_false, Option.some.injEq, Bool.false_eq_true, if_false]; omega

theorem fmtLit_neg (s lead frac e) : (fmtLit s lead frac e).neg = s := by
  unfold Lit.neg fmtLit
  cases s <;> rfl

/-- a formatted finite number is a literal whose value is that number -/
theorem fmt_lit (hF : Supported F) (x : Flt F) (hx : x.isFinite) :
    ∃ l : Lit, l.WellFormed ∧ fmtAnyHex x = l.bytes ∧ l.neg = x.sign ∧ l.value = x.toRat ∧
      4 * (l.int ++ l.fracDigits).length + l.expAbs ≤ 2 ^ 30 := by
  have hn := not_nan_of_finite hx
  have hi := not_inf_of_finite hx
  have hsgn : (if x.sign then [45] else ([] : List UInt8)) = signBytes (if x.sign then some true else none) := by
    cases x.sign <;> rfl
  have hz : (x =ᶠ zero F false) ↔ x.isZero := by
    rw [feq_iff, isZero_iff_sval, sval_zero]
    exact ⟨fun h => h.2.2, fun h => ⟨hn, not_nan_of_finite (finite_of_zero (isZero_zero _)), h⟩⟩
  unfold fmtAnyHex
  simp only [hn, hi, if_false, hsgn]
  by_cases h0 : x.isZero
  · rw [if_pos (hz.mpr h0)]
    refine ⟨fmtLit x.sign 0 none 0, ⟨by simp [fmtLit], decDigs_ne _⟩, ?_, fmtLit_neg .., ?_, ?_⟩
    · rw [Lit.bytes_eq]
      have : (fmtLit x.sign 0 none 0).body = [48, 112, 43, 48] := by
        unfold Lit.body fmtLit
        have : decDigs (Int.natAbs 0) = [0] := by rw [decDigs]; rfl
        simp only [this]
        rfl
      rw [this]
      rfl
    · rw [toRat_eq_zero.mpr h0]
      unfold Lit.value
      have : (fmtLit x.sign 0 none 0).mantissa = 0 := rfl
      rw [this]; simp
    · have : (fmtLit x.sign 0 none 0).expAbs = 0 := by
        unfold Lit.expAbs fmtLit
        exact decDigs_val 0
      rw [this]
      simp [fmtLit, Lit.fracDigits]
  · rw [if_neg (fun h => h0 (hz.mp h))]
    have hef := x.expField_lt
    have hff := x.fracField_lt
    set mw := (F.sb + 3) / 4 with hmw
    set ms := (4 - F.sb % 4) % 4 with hms
    have hwm : 4 * mw = F.sb + ms := by omega
    have h16 : (16 : Nat) ^ mw = 2 ^ F.sb * 2 ^ ms := by
      rw [← pow_add, ← hwm, pow_mul]; norm_num
    have hsig : ((x.toBits &&& sigMask F) <<< ms).toNat = x.fracField * 2 ^ ms := by
      rw [BV.shl, and_sigMask]
      have : x.toBits.toNat % 2 ^ F.sb = x.fracField := rfl
      rw [this]
      apply Nat.mod_eq_of_lt
      calc x.fracField * 2 ^ ms < 2 ^ F.sb * 2 ^ ms := Nat.mul_lt_mul_of_pos_right hff (Nat.two_pow_pos _)
        _ = 2 ^ (F.sb + ms) := by rw [pow_add]
        _ ≤ 2 ^ F.bits := Nat.pow_le_pow_right (by norm_num) (by rw [F.bits_eq]; have := F.hew; omega)
    have hfr : x.fracField * 2 ^ ms < 16 ^ mw := by
      rw [h16]; exact Nat.mul_lt_mul_of_pos_right hff (Nat.two_pow_pos _)
    have hb29 : F.bias < 2 ^ 28 := by
      have h1 := F.bias_succ
      have : (2 : Nat) ^ (F.ew - 1) ≤ 2 ^ 28 := Nat.pow_le_pow_right (by norm_num) (by have := hF.ew; omega)
      omega
    have htb := F.two_bias
    have hsb := hF.sb
    -- both the subnormal and the normal case
    have key : ∀ (lead : Fin 16) (e : Int), lead.val < 10 → -(F.bias : Int) ≤ e → e ≤ F.bias + 1 →
        x.toRat = (if x.sign then -1 else 1) * (((lead.val * 2 ^ F.sb + x.fracField : ℕ) : ℚ) * 2 ^ (e - F.sb)) →
        ∃ l : Lit, l.WellFormed ∧
          signBytes (if x.sign then some true else none) ++ [48, 120] ++ [UInt8.ofNat (48 + lead.val), 46] ++
            fmtHex mw ((x.toBits &&& sigMask F) <<< ms).toNat ++ [112] ++ fmtSigned e = l.bytes ∧
          l.neg = x.sign ∧ l.value = x.toRat ∧ 4 * (l.int ++ l.fracDigits).length + l.expAbs ≤ 2 ^ 30 := by
      intro lead e hlead he1 he2 hv
      have hexpAbs : (fmtLit x.sign lead (some (hexDigs mw (x.fracField * 2 ^ ms))) e).expAbs = e.natAbs := decDigs_val _
      refine ⟨fmtLit x.sign lead (some (hexDigs mw (x.fracField * 2 ^ ms))) e, ⟨by simp [fmtLit], decDigs_ne _⟩, ?_,
        fmtLit_neg .., ?_, ?_⟩
      · rw [Lit.bytes_eq, hsig, fmtHex_eq, fmtSigned_eq]
        have hc : (HexDig.mk lead false).char = UInt8.ofNat (48 + lead.val) := by
          unfold HexDig.char; simp only [hlead, if_true]
        unfold Lit.body fmtLit
        simp only [List.append_assoc, List.cons_append, List.nil_append, List.map_cons, List.map_nil, hc]
        rfl
      · unfold Lit.value
        rw [fmtLit_neg, fmtLit_exponent, hv]
        congr 1
        have hm : (fmtLit x.sign lead (some (hexDigs mw (x.fracField * 2 ^ ms))) e).mantissa =
            lead.val * 16 ^ mw + x.fracField * 2 ^ ms := by
          unfold Lit.mantissa fmtLit Lit.fracDigits
          have := hexDigs_val mw (x.fracField * 2 ^ ms) lead.val
          rw [Nat.mod_eq_of_lt hfr] at this
          rw [← this]
          simp [natOf, pushDigits]
        have hl : (fmtLit x.sign lead (some (hexDigs mw (x.fracField * 2 ^ ms))) e).fracDigits.length = mw := by
          unfold Lit.fracDigits fmtLit
          simp [hexDigs_len]
        rw [hm, hl, h16]
        have h16q : (16 : ℚ) ^ mw = 2 ^ F.sb * 2 ^ ms := by exact_mod_cast h16
        rw [h16q]
        push_cast
        rw [zpow_sub₀ (by norm_num), zpow_natCast]
        field_simp
      · rw [hexpAbs]
        have hl : ((fmtLit x.sign lead (some (hexDigs mw (x.fracField * 2 ^ ms))) e).int ++
          (fmtLit x.sign lead (some (hexDigs mw (x.fracField * 2 ^ ms))) e).fracDigits).length = 1 + mw := by
          unfold Lit.fracDigits fmtLit
          simp [hexDigs_len]; omega
        rw [hl]
        omega
    rw [expUnbiased_eq, expBias_eq]
    have hefin : x.expField ≠ 2 ^ F.ew - 1 := hx
    by_cases hsub : x.expField = 0
    · have k := key 0 (1 - F.bias) (by decide) (by omega) (by omega) (by
        unfold toRat
        rw [if_pos hsub]
        congr 2
        show (x.fracField : ℚ) = ((0 * 2 ^ F.sb + x.fracField : ℕ) : ℚ)
        rw [Nat.zero_mul, Nat.zero_add])
      have hc : (x.expField : ℤ) - F.bias = -(F.bias : ℤ) := by rw [hsub]; simp
      simp only [hc, if_true]
      have e2 : -(F.bias : Int) + 1 = 1 - F.bias := by ring
      rw [e2]
      exact k
    · have hc : (x.expField : ℤ) - F.bias ≠ -(F.bias : ℤ) := by omega
      simp only [hc, if_false]
      exact key 1 ((x.expField : ℤ) - F.bias) (by decide) (by omega) (by omega) (by
        unfold toRat
        rw [if_neg hsub]
        congr 2
        show ((2 ^ F.sb + x.fracField : ℕ) : ℚ) = ((1 * 2 ^ F.sb + x.fracField : ℕ) : ℚ)
        rw [Nat.one_mul])

/-- **C26.**  Formatting any finite float in hexadecimal and parsing the text in any rounding mode gives back the same
bits with status OK. -/
theorem fmt_parse_finite (hF : Supported F) (x : Flt F) (hx : x.isFinite) (m : Round) :
    parseAny (fmtAnyHex x) F.bits F.sb m = ok (asU128 x, Status.OK) := by
  obtain ⟨l, hw, h1, h2, h3, h4⟩ := fmt_lit hF x hx
  have hsmall : F.sb ≤ 96 ∨ |l.value| < 2 ^ ((2 : ℤ) ^ (128 - F.sb) + 1 - F.bias) := by
    rw [h3]
    right
    have h5 := lt_overflow hx
    have h6 : overflowThreshold F ≤ 2 ^ ((F.bias : ℤ) + 1) := by
      unfold overflowThreshold
      rw [zpow_add_one₀ (by norm_num)]
      apply mul_le_mul_of_nonneg_left _ (zpow2_pos _).le
      have := zpow2_pos (-((F.sb : ℤ) + 1))
      linarith
    refine lt_of_lt_of_le h5 (le_trans h6 ?_)
    apply zpow_le_zpow_right₀ (by norm_num)
    have h7 : (2 : Nat) ^ F.ew ≤ 2 ^ (128 - F.sb) := by
      apply Nat.pow_le_pow_right (by norm_num)
      have := hF.bits
      rw [F.bits_eq] at this; omega
    have h8 := F.two_bias
    have h9 : ((2 : ℤ) ^ (128 - F.sb)) = ((2 ^ (128 - F.sb) : ℕ) : ℤ) := by push_cast; rfl
    rw [h9]
    omega
  obtain ⟨r, st, e1, e2, e3, e4⟩ := parse_correct_partial hF l hw m h4 hsmall
  rw [h3] at e3 e4
  obtain ⟨g1, g2⟩ := rounded_exact hx e3
  have hr : r = x := eq_of_toRat g2 (by rw [e2, h2])
  have hst : st = Status.OK := by
    apply status_ok
    · intro h; exact e4.inexact.mp h ⟨g1, g2⟩
    · intro h; exact exact_no_overflow hx (e4.overflow.mp h)
    · intro h; exact (e4.underflow.mp h).2.1 g2
    · exact e4.nothingElse
  rw [h1, e1, hr, hst]

/-- `hf16`, `hf32`, `hf64`, `hf128` also read the formatted text of any finite number -/
theorem fmt_hf_finite (hF : Supported F) (x : Flt F) (hx : x.isFinite) : hf F (fmtAnyHex x) = some x := by
  unfold hf parseHexExact
  rw [fmt_parse_finite hF x hx]
  simp only [andThen, ok, Option.bind_some, if_true]
  congr 1
  apply ext_enc
  show ((asU128 x).setWidth F.bits).toNat = x.enc
  rw [BitVec.toNat_setWidth, asU128_toNat hF]
  exact Nat.mod_eq_of_lt x.enc_lt

theorem parse_word (hF : Supported F) (sg : Bool) (w : List UInt8) (m : Round) (b : Nat) (hb : b < 2 ^ (F.ew + F.sb))
    (hw : w = [105, 110, 102] ∧ b = F.infEnc ∨ w = [78, 97, 78] ∧ b = F.infEnc + 2 ^ (F.sb - 1)) :
    parseAny ((if sg then [45] else []) ++ w) F.bits F.sb m = ok (asU128 (mk' F sg b), Status.OK) := by
  have hbe := F.bits_eq
  have hew := F.hew
  have hsb := F.hsb
  have k1 := hF.sb
  have k2 := hF.bits
  have k3 := hF.ew
  have hsplit : splitSign ((if sg then [45] else []) ++ w) = (sg, w) := by
    rcases hw with ⟨rfl, -⟩ | ⟨rfl, -⟩ <;> cases sg <;> rfl
  have hq : (1#128 <<< (F.sb - 1) : BitVec 128).toNat = 2 ^ (F.sb - 1) := BV.one_shl (by omega)
  have hs : (1#128 <<< (F.bits - 1) : BitVec 128).toNat = 2 ^ (F.ew + F.sb) := by
    rw [BV.one_shl (by omega)]; congr 1
  have hp : (2 : Nat) ^ F.sb = 2 ^ (F.sb - 1) + 2 ^ (F.sb - 1) := by
    have : F.sb = F.sb - 1 + 1 := by omega
    conv_lhs => rw [this, pow_succ]
    ring
  have hia := F.infEnc_add
  have h128 : (2 : Nat) ^ (F.ew + F.sb) < 2 ^ 128 := Nat.pow_lt_pow_right (by norm_num) (by omega)
  have hnan : (1#128 <<< (F.bits - 1) - 1#128 <<< (F.sb - 1) : BitVec 128).toNat = F.infEnc + 2 ^ (F.sb - 1) := by
    rw [BitVec.toNat_sub, hq, hs]; omega
  have hinf : (1#128 <<< (F.bits - 1) - 1#128 <<< (F.sb - 1) - 1#128 <<< (F.sb - 1) : BitVec 128).toNat = F.infEnc := by
    rw [BitVec.toNat_sub, hnan, hq]; omega
  unfold parseAny
  rw [if_neg (by omega), hsplit]
  simp only
  rw [if_neg (by omega), ← xor_sign hF b hb sg]
  rcases hw with ⟨rfl, hbb⟩ | ⟨rfl, hbb⟩
  · have h1 : isLetter 105 105 = true ∧ isLetter 110 110 = true ∧ isLetter 102 102 = true := by decide
    simp only [h1, and_self, if_true]
    have : (1#128 <<< (F.bits - 1) - 1#128 <<< (F.sb - 1) - 1#128 <<< (F.sb - 1) : BitVec 128) = BitVec.ofNat 128 b := by
      apply BitVec.eq_of_toNat_eq
      rw [hinf, BitVec.toNat_ofNat, Nat.mod_eq_of_lt (by omega), hbb]
    rw [this]; rfl
  · have h0 : ¬ (isLetter 105 78 = true ∧ isLetter 110 97 = true ∧ isLetter 102 78 = true) := by decide
    have h1 : isLetter 110 78 = true ∧ isLetter 97 97 = true ∧ isLetter 110 78 = true := by decide
    simp only [h0, h1, and_self, if_true, if_false]
    have : (1#128 <<< (F.bits - 1) - 1#128 <<< (F.sb - 1) : BitVec 128) = BitVec.ofNat 128 b := by
      apply BitVec.eq_of_toNat_eq
      rw [hnan, BitVec.toNat_ofNat, Nat.mod_eq_of_lt (by omega), hbb]
    rw [this]; rfl

/-- infinities round-trip too -/
theorem fmt_parse_inf (hF : Supported F) (x : Flt F) (hx : x.isInf) (m : Round) :
    parseAny (fmtAnyHex x) F.bits F.sb m = ok (asU128 x, Status.OK) := by
  have hm := (isInf_iff x).mp hx
  have h := parse_word hF x.sign [105, 110, 102] m F.infEnc F.infEnc_lt (Or.inl ⟨rfl, rfl⟩)
  have he : mk' F x.sign F.infEnc = x := by rw [← hm]; exact mk'_self x
  rw [he] at h
  rw [← h]
  unfold fmtAnyHex
  simp only [not_nan_of_inf hx, hx, if_false, if_true]

/-- a NaN is read back as a NaN with the same sign (the payload is not written) -/
theorem fmt_parse_nan (hF : Supported F) (x : Flt F) (hx : x.isNaN) (m : Round) :
    ∃ r : Flt F, parseAny (fmtAnyHex x) F.bits F.sb m = ok (asU128 r, Status.OK) ∧ r.isNaN ∧ r.sign = x.sign := by
  have hp : (2 : Nat) ^ F.sb = 2 ^ (F.sb - 1) + 2 ^ (F.sb - 1) := by
    have hsb := F.hsb
    have : F.sb = F.sb - 1 + 1 := by omega
    conv_lhs => rw [this, pow_succ]
    ring
  have hia := F.infEnc_add
  have hpos := Nat.two_pow_pos (F.sb - 1)
  have hb : F.infEnc + 2 ^ (F.sb - 1) < 2 ^ (F.ew + F.sb) := by omega
  refine ⟨mk' F x.sign (F.infEnc + 2 ^ (F.sb - 1)), ?_, ?_, sign_mk' hb⟩
  · rw [← parse_word hF x.sign [78, 97, 78] m _ hb (Or.inr ⟨rfl, rfl⟩)]
    unfold fmtAnyHex
    simp only [hx, if_true]
  · rw [isNaN_iff, mb_mk' hb]; omega

/-- the texts are the expected ones, for a normal, a subnormal and a negative zero -/
example : fmtAnyHex (⟨0x3d00#16⟩ : Flt f16) = text "0x1.400p+0" ∧
    fmtAnyHex (⟨0x80000001#32⟩ : Flt f32) = text "-0x0.000002p-126" ∧
    fmtAnyHex (⟨0x8000000000000000#64⟩ : Flt f64) = text "-0x0p+0" := by
  decide +kernel

example : Supported f64 ∧ (⟨0x3ff8000000000001#64⟩ : Flt f64).isFinite := ⟨supported.2.2.1, by decide⟩

end HexFloat
end Verif
