import Verif.Theory.HexFloat2

/-! # `parse_finite` after the digits are read; the digit loop; the grammar -/

namespace Verif
namespace HexFloat
open Flt
variable {F : Fmt}

/-- configurations of the format that `parse_any` accepts -/
structure Supported (F : Fmt) : Prop where
  sb : F.sb ≤ 119
  bits : F.bits ≤ 128
  ew : F.ew ≤ 29

theorem minLsb_eq (F : Fmt) : (1 : Int) - (2 ^ (F.bits - F.sb - 1 - 1) - 1) - F.sb = 1 - (F.bias : Int) - F.sb := by
  have h : F.bits - F.sb - 1 - 1 = F.ew - 1 := by rw [F.bits_eq]; omega
  have h1 := F.bias_succ
  have h2 : ((2 : Int) ^ (F.ew - 1)) = (F.bias : Int) + 1 := by exact_mod_cast h1.symm
  rw [h, h2]; ring

theorem encodeFinite_spec (hF : Supported F) (md : Round) (sig : BitVec 128) (exp : Int) (M a : Nat) (hM : 0 < M)
    (hs : sig.toNat = stk M a) (ha : a = 0 ∨ 2 ^ 124 ≤ M / 2 ^ a) (hexp : -2 ^ 31 ≤ exp ∧ exp ≤ 2 ^ 30)
    (hsmall : F.sb ≤ 96 ∨ (M : ℚ) * 2 ^ (exp - a) < 2 ^ ((2 : ℤ) ^ (128 - F.sb) + 1 - F.bias)) :
    ∃ n d E : Nat, Quot F.sb n d E ∧ (n : ℚ) / d * 2 ^ E * F.ulp = (M : ℚ) * 2 ^ (exp - a) ∧
      encodeFinite F.bits F.sb md sig exp =
        some (BitVec.ofNat 128 (satEnc F md (quotEnc F.sb md n d E)),
          satStatus F (decide (n % d = 0)) (quotEnc F.sb md n d E)) := by
  have hb29 : F.bias < 2 ^ 28 := by
    have h1 := F.bias_succ
    have : (2 : Nat) ^ (F.ew - 1) ≤ 2 ^ 28 := Nat.pow_le_pow_right (by norm_num) (by have := hF.ew; omega)
    omega
  have hbp : 13 ≤ F.bias := by have := F.sb_lt_bias; have := F.hsb; omega
  have hsb := hF.sb
  obtain ⟨s, E, n, d, hd, e1, e2, e3, e4, e5, e6⟩ := roundSig_spec F.sb (1 - (F.bias : Int) - F.sb) md sig exp M a hM hs ha
    hsb ⟨by omega, by omega⟩ hexp
  have hdq : (0 : ℚ) < d := by exact_mod_cast hd
  have hval : (n : ℚ) / d * 2 ^ E * F.ulp = (M : ℚ) * 2 ^ (exp - a) := by
    rw [e3, mul_assoc]
    unfold Fmt.ulp
    rw [← zpow_add₀ (by norm_num)]
    congr 2
    omega
  have hn : 0 < n := by
    rcases Nat.eq_zero_or_pos n with h | h
    · exfalso
      rw [h] at e3
      have hMq : (0 : ℚ) < M := by exact_mod_cast hM
      have h2 := mul_pos hMq (zpow2_pos (exp - a - (1 - (F.bias : Int) - F.sb)))
      simp at e3
      rcases e3 with h3 | h3
      · omega
      · exact absurd h3 (zpow2_pos _).ne'
    · exact h
  have hQ : Quot F.sb n d E := ⟨hd, hn, e4, e5⟩
  refine ⟨n, d, E, hQ, hval, ?_⟩
  -- no bits of the exponent are lost
  have hE : E * 2 ^ F.sb < 2 ^ 128 := by
    rcases hsmall with h | h
    · calc E * 2 ^ F.sb < 2 ^ 31 * 2 ^ F.sb := Nat.mul_lt_mul_of_pos_right e6 (Nat.two_pow_pos _)
        _ = 2 ^ (31 + F.sb) := by rw [pow_add]
        _ ≤ 2 ^ 128 := Nat.pow_le_pow_right (by norm_num) (by omega)
    · rcases e5 with h0 | h0
      · rw [h0]; simp
      · have h1 : ((2 ^ F.sb : ℕ) : ℚ) ≤ (n : ℚ) / d := by
          rw [le_div_iff₀ hdq]; exact_mod_cast h0
        have h2 : (2 : ℚ) ^ ((E : ℤ) + 1 - F.bias) ≤ (M : ℚ) * 2 ^ (exp - a) := by
          rw [← hval]
          calc (2 : ℚ) ^ ((E : ℤ) + 1 - F.bias) = ((2 ^ F.sb : ℕ) : ℚ) * 2 ^ E * F.ulp := by
                unfold Fmt.ulp
                push_cast
                rw [← zpow_natCast (2 : ℚ) F.sb, ← zpow_natCast (2 : ℚ) E, ← zpow_add₀ (by norm_num),
                  ← zpow_add₀ (by norm_num)]
                congr 1; ring
            _ ≤ _ := by
                apply mul_le_mul_of_nonneg_right _ F.ulp_pos.le
                exact mul_le_mul_of_nonneg_right h1 (by positivity)
        have h3 := lt_of_le_of_lt h2 h
        rw [zpow_lt_zpow_iff_right₀ (by norm_num)] at h3
        have h4 : (E : ℤ) < 2 ^ (128 - F.sb) := by omega
        have h5 : E < 2 ^ (128 - F.sb) := by exact_mod_cast h4
        calc E * 2 ^ F.sb < 2 ^ (128 - F.sb) * 2 ^ F.sb := Nat.mul_lt_mul_of_pos_right h5 (Nat.two_pow_pos _)
          _ = 2 ^ 128 := by rw [← pow_add]; congr 1; omega
  have hew := F.hew
  have hbits := hF.bits
  rw [F.bits_eq] at hbits
  have hfit : F.bits - F.sb - 1 = F.ew := by rw [F.bits_eq]; omega
  have hsle : s.toNat ≤ 2 ^ (F.sb + 1) := by
    rw [e2]; exact (modeDiv_bounds md hd (Nat.zero_mul _ ▸ Nat.zero_le n) e4.le).2
  have hsb1 : (2 : Nat) ^ (F.sb + 1) < 2 ^ 128 := Nat.pow_lt_pow_right (by norm_num) (by omega)
  unfold encodeFinite
  simp only [minLsb_eq, e1, Option.bind_some]
  have hsub : (1 - (F.bias : Int) - F.sb) + E - (1 - (F.bias : Int) - F.sb) = E := by ring
  rw [hsub, i32_ok (by omega) (by omega), Option.bind_some]
  have hU : (BitVec.ofInt 128 (E : Int) <<< F.sb).toNat = E * 2 ^ F.sb := by
    rw [BV.shl]
    have : (BitVec.ofInt 128 (E : Int)).toNat = E := by
      rw [BitVec.toNat_ofInt]
      have : (E : Int) % ((2 ^ 128 : ℕ) : Int) = E := Int.emod_eq_of_lt (by omega) (by push_cast; omega)
      rw [this]; simp
    rw [this, Nat.mod_eq_of_lt hE]
  have hinf : ((((1#128 <<< F.ew) - 1#128) <<< F.sb) : BitVec 128).toNat = F.infEnc := by
    rw [BV.shl, BV.mask (by omega)]
    apply Nat.mod_eq_of_lt
    calc F.infEnc < 2 ^ (F.ew + F.sb) := F.infEnc_lt
      _ ≤ 2 ^ 128 := Nat.pow_le_pow_right (by norm_num) (by omega)
  have hone : ((1#128 <<< F.sb) : BitVec 128).toNat = 2 ^ F.sb := BV.one_shl (by omega)
  have h2le : s ≤ 2#128 <<< F.sb := by
    rw [BitVec.le_def, BV.shl]
    have : (2#128).toNat * 2 ^ F.sb = 2 ^ (F.sb + 1) := by
      show 2 * 2 ^ F.sb = _
      rw [pow_succ]; ring
    rw [this, Nat.mod_eq_of_lt hsb1]; exact hsle
  rw [if_pos h2le, hfit]
  generalize hUU : BitVec.ofInt 128 (E : Int) <<< F.sb = U at *
  generalize hII : (((1#128 <<< F.ew) - 1#128) <<< F.sb : BitVec 128) = I at *
  have hu : quotEnc F.sb md n d E = s.toNat + U.toNat := by unfold quotEnc; rw [e2, hU]; ring
  set u := quotEnc F.sb md n d E with hu'
  have hI128 : F.infEnc < 2 ^ 128 := by rw [← hinf]; exact I.isLt
  have hi0 := F.infEnc_pos
  by_cases hlt : u < F.infEnc
  · have hsum : (s + U).toNat = u := by
      rw [BitVec.toNat_add, ← hu]; exact Nat.mod_eq_of_lt (by omega)
    rw [if_pos ⟨by omega, by rw [BitVec.lt_def, hsum, hinf]; exact hlt⟩]
    have hsat : satEnc F md u = u := if_pos hlt
    congr 2
    · apply BitVec.eq_of_toNat_eq
      rw [hsum, hsat, BitVec.toNat_ofNat, Nat.mod_eq_of_lt (by omega)]
    · have hlt' : (s + U < 1#128 <<< F.sb) ↔ u < 2 ^ F.sb := by rw [BitVec.lt_def, hsum, hone]
      unfold satStatus
      rw [if_pos hlt]
      by_cases hx : n % d = 0
      · simp only [hx, if_true, decide_true]
        rw [if_neg]
        rintro ⟨h1, -⟩
        exact absurd h1 (by decide)
      · simp only [hx, if_false, decide_false]
        by_cases hy : u < 2 ^ F.sb
        · rw [if_pos ⟨by decide, hlt'.mpr hy⟩]; simp [hy]
        · rw [if_neg (fun h => hy (hlt'.mp h.2))]; simp [hy]
  · rw [if_neg]
    · congr 2
      · have hnl : ¬ u < F.infEnc := hlt
        apply BitVec.eq_of_toNat_eq
        have hi1 : (I - 1#128).toNat = F.infEnc - 1 := by
          rw [BitVec.toNat_sub]
          simp only [BitVec.toNat_ofNat]
          rw [hinf]; omega
        rw [BitVec.toNat_ofNat]
        unfold satEnc
        rw [if_neg hnl]
        cases md
        · exact hinf.trans (Nat.mod_eq_of_lt hI128).symm
        · exact hi1.trans (Nat.mod_eq_of_lt (by omega)).symm
        · exact hinf.trans (Nat.mod_eq_of_lt hI128).symm
        · exact hi1.trans (Nat.mod_eq_of_lt (by omega)).symm
      · unfold satStatus
        rw [if_neg hlt]
        split <;> decide
    · rintro ⟨h1, h2⟩
      rw [BitVec.lt_def, BitVec.toNat_add, Nat.mod_eq_of_lt h1, hinf] at h2
      omega

/-! ## Digits -/

theorem hexDigit_char (h : HexDig) : hexDigit h.char = some h.val.val := by
  obtain ⟨v, u⟩ := h
  revert v u
  decide

theorem char_ne (h : HexDig) : h.char ≠ 46 ∧ h.char ≠ 112 ∧ h.char ≠ 80 := by
  obtain ⟨v, u⟩ := h
  revert v u
  decide

theorem decDigit_char (d : Fin 10) : decDigit (UInt8.ofNat (48 + d.val)) = some d.val := by
  revert d; decide

theorem hexDigit_inv {c : UInt8} {v : Nat} (h : hexDigit c = some v) : ∃ d : HexDig, d.char = c ∧ d.val.val = v := by
  have key : ∀ c : Fin 256, hexDigit (UInt8.ofNat c.val) = none ∨
      ∃ u : Bool, ∃ d : Fin 16, (HexDig.mk d u).char = UInt8.ofNat c.val ∧ hexDigit (UInt8.ofNat c.val) = some d.val := by
    decide +kernel
  have := key ⟨c.toNat, UInt8.toNat_lt c⟩
  simp only [UInt8.ofNat_toNat] at this
  rw [h] at this
  rcases this with h1 | ⟨u, d, h1, h2⟩
  · simp at h1
  · exact ⟨⟨d, u⟩, h1, by simpa using h2.symm⟩

theorem decDigit_inv {c : UInt8} {v : Nat} (h : decDigit c = some v) :
    ∃ d : Fin 10, UInt8.ofNat (48 + d.val) = c ∧ d.val = v := by
  have key : ∀ c : Fin 256, decDigit (UInt8.ofNat c.val) = none ∨
      ∃ d : Fin 10, UInt8.ofNat (48 + d.val) = UInt8.ofNat c.val ∧ decDigit (UInt8.ofNat c.val) = some d.val := by
    decide +kernel
  have := key ⟨c.toNat, UInt8.toNat_lt c⟩
  simp only [UInt8.ofNat_toNat] at this
  rw [h] at this
  rcases this with h1 | ⟨d, h1, h2⟩
  · simp at h1
  · exact ⟨d, h1, by simpa using h2.symm⟩

/-- the number written by the digits read after `n` -/
def pushDigits (base n : Nat) (ds : List Nat) : Nat := ds.foldl (fun n d => n * base + d) n

/-- the state after reading `c` digits of value `N`, `f` of them after the point -/
structure DInv (st : DigitState) (N f c : Nat) : Prop where
  hf : f ≤ c
  ex : ∃ k : Nat, k ≤ c ∧ st.sig.toNat = N / 16 ^ k ∧ (k = 0 ∨ 2 ^ 124 ≤ N / 16 ^ k) ∧
    st.inexact = decide (N % 16 ^ k ≠ 0) ∧ st.exp = 4 * (k : Int) - 4 * (f : Int)

theorem digitStep_spec {st : DigitState} {N f c d : Nat} (h : DInv st N f c) (hd : d < 16) (hc : c < 2 ^ 28) :
    ∃ st', digitStep st d = some st' ∧ DInv st' (N * 16 + d) (if st.seenPoint then f + 1 else f) (c + 1) ∧
      st'.seenPoint = st.seenPoint ∧ st'.someDigits = true := by
  obtain ⟨hf, k, hk, h1, h2, h3, h4⟩ := h
  have hx := st.sig.isLt
  have hhi : (st.sig >>> (124 : Nat)).toNat = st.sig.toNat / 2 ^ 124 := BV.shr _ _
  by_cases hs : st.sig >>> (124 : Nat) = 0#128
  · have hlt : st.sig.toNat < 2 ^ 124 := by
      rw [hs] at hhi
      have : (0#128).toNat = 0 := rfl
      omega
    obtain rfl : k = 0 := by
      rcases h2 with h2 | h2
      · exact h2
      · omega
    simp only [pow_zero, Nat.div_one, Nat.mod_one] at h1 h3
    have hsig : ((st.sig <<< (4 : Nat)) ||| BitVec.ofNat 128 d).toNat = N * 16 + d := by
      have hshl : (st.sig <<< (4 : Nat)).toNat = N * 16 := by
        rw [BV.shl, h1]; exact Nat.mod_eq_of_lt (by omega)
      have hdn : (BitVec.ofNat 128 d).toNat = d := by
        rw [BitVec.toNat_ofNat]; exact Nat.mod_eq_of_lt (by omega)
      rw [BV.or_disjoint (k := 4) (by rw [hshl]; exact Dvd.intro_left _ rfl) (by rw [hdn]; exact hd), hshl, hdn]
    unfold digitStep
    simp only [hs, if_true, Option.bind_some]
    cases hp : st.seenPoint with
    | false =>
      simp only [Bool.false_eq_true, if_false]
      refine ⟨_, rfl, ⟨by omega, 0, by omega, ?_, Or.inl rfl, ?_, h4⟩, rfl, rfl⟩
      · simpa using hsig
      · simpa [Nat.mod_one] using h3
    | true =>
      simp only [if_true]
      rw [i32_ok (by omega) (by omega)]
      refine ⟨_, rfl, ⟨by omega, 0, by omega, ?_, Or.inl rfl, ?_, ?_⟩, rfl, rfl⟩
      · simpa using hsig
      · simpa [Nat.mod_one] using h3
      · show st.exp - 4 = _
        push_cast; omega
  · have hge : 2 ^ 124 ≤ st.sig.toNat := by
      by_contra hc'
      apply hs
      apply BitVec.eq_of_toNat_eq
      rw [hhi, Nat.div_eq_of_lt (by omega)]; rfl
    have h16 : 0 < 16 ^ k := by positivity
    have e1 : (N * 16 + d) / 16 ^ (k + 1) = N / 16 ^ k := by
      rw [pow_succ, Nat.mul_comm (16 ^ k) 16, ← Nat.div_div_eq_div_mul]
      congr 1; omega
    have e2 : (N * 16 + d) % 16 ^ (k + 1) = N % 16 ^ k * 16 + d := by
      rw [pow_succ, Nat.mul_comm (16 ^ k) 16, Nat.mod_mul]
      have : (N * 16 + d) / 16 = N := by omega
      rw [this]; omega
    have e3 : (decide ((N * 16 + d) % 16 ^ (k + 1) ≠ 0)) = (st.inexact || decide (d ≠ 0)) := by
      rw [e2, h3]
      by_cases ha : N % 16 ^ k = 0
      · by_cases hb : d = 0
        · simp [ha, hb]
        · simp [ha, hb]
      · have : ¬ (N % 16 ^ k * 16 + d = 0) := by omega
        simp [ha]
    unfold digitStep
    simp only [hs, if_false]
    rw [i32_ok (by omega) (by omega)]
    simp only [Option.map_some, Option.bind_some]
    cases hp : st.seenPoint with
    | false =>
      simp only [Bool.false_eq_true, if_false]
      refine ⟨_, rfl, ⟨by omega, k + 1, by omega, ?_, Or.inr ?_, ?_, ?_⟩, rfl, rfl⟩
      · rw [e1]; exact h1
      · rw [e1, ← h1]; exact hge
      · rw [e3]
      · show st.exp + 4 = _
        push_cast; omega
    | true =>
      simp only [if_true]
      rw [i32_ok (by omega) (by omega)]
      refine ⟨_, rfl, ⟨by omega, k + 1, by omega, ?_, Or.inr ?_, ?_, ?_⟩, rfl, rfl⟩
      · rw [e1]; exact h1
      · rw [e1, ← h1]; exact hge
      · rw [e3]
      · show st.exp + 4 - 4 = _
        push_cast; omega

/-- reading a run of digits -/
theorem digitLoop_run (ds : List HexDig) : ∀ (st : DigitState) (N f c : Nat) (rest : List UInt8), DInv st N f c →
    c + ds.length ≤ 2 ^ 28 →
    ∃ st', digitLoop (ds.map HexDig.char ++ rest) st = digitLoop rest st' ∧
      DInv st' (pushDigits 16 N (ds.map fun d => d.val.val)) (if st.seenPoint then f + ds.length else f) (c + ds.length) ∧
      st'.seenPoint = st.seenPoint ∧ st'.someDigits = (st.someDigits || !ds.isEmpty) := by
  induction ds with
  | nil =>
    intro st N f c rest h hc
    refine ⟨st, rfl, ?_, rfl, by simp⟩
    cases st.seenPoint <;> simpa [pushDigits] using h
  | cons d ds ih =>
    intro st N f c rest h hc
    simp only [List.length_cons] at hc
    obtain ⟨st1, e1, e2, e3, e4⟩ := digitStep_spec h d.val.isLt (by omega)
    obtain ⟨st2, f1, f2, f3, f4⟩ := ih st1 _ _ (c + 1) rest e2 (by omega)
    refine ⟨st2, ?_, ?_, by rw [f3, e3], by rw [f4, e4]; simp⟩
    · rw [← f1, List.map_cons, List.cons_append]
      rw [digitLoop]
      obtain ⟨n1, n2, n3⟩ := char_ne d
      rw [if_neg n1, if_neg (by rintro (h | h) <;> contradiction), hexDigit_char]
      simp only [e1, chk, Option.bind_some]
    · rw [e3] at f2
      have : c + (d :: ds).length = c + 1 + ds.length := by simp; omega
      rw [this]
      cases hp : st.seenPoint with
      | false => rw [hp] at f2; simpa [pushDigits] using f2
      | true =>
        rw [hp] at f2
        simp only [if_true, List.length_cons] at f2 ⊢
        have : f + (ds.length + 1) = f + 1 + ds.length := by omega
        rw [this]
        simpa [pushDigits] using f2

theorem pushDigits_append (base n : Nat) (a b : List Nat) :
    pushDigits base n (a ++ b) = pushDigits base (pushDigits base n a) b := List.foldl_append

theorem pushDigits_ge (base : Nat) (hb : 1 ≤ base) (ds : List Nat) : ∀ n, n ≤ pushDigits base n ds := by
  induction ds with
  | nil => exact fun n => le_refl n
  | cons d ds ih =>
    intro n
    refine le_trans ?_ (ih (n * base + d))
    have : n * 1 ≤ n * base := Nat.mul_le_mul_left n hb
    omega

/-- reading the exponent digits -/
theorem expLoop_run (ds : List (Fin 10)) : ∀ (p : Nat) (sd : Bool), pushDigits 10 p (ds.map Fin.val) < 2 ^ 32 →
    expLoop (ds.map fun d => UInt8.ofNat (48 + d.val)) p sd =
      ok (pushDigits 10 p (ds.map Fin.val), sd || !ds.isEmpty) := by
  induction ds with
  | nil => intro p sd _; simp [expLoop, pushDigits]
  | cons d ds ih =>
    intro p sd h
    have h1 : pushDigits 10 p ((d :: ds).map Fin.val) = pushDigits 10 (p * 10 + d.val) (ds.map Fin.val) := rfl
    rw [h1] at h ⊢
    have h2 := pushDigits_ge 10 (by norm_num) (ds.map Fin.val) (p * 10 + d.val)
    rw [List.map_cons, expLoop, decDigit_char]
    simp only
    have h3 : min (p * 10) (2 ^ 32 - 1) = p * 10 := by omega
    rw [h3, if_pos (by omega), ih _ _ h]
    simp

/-- the significand and exponent of a literal, as `parse_hex` returns them -/
theorem parseHex_lit (l : Lit) (hw : l.WellFormed)
    (hr : 4 * (l.int ++ l.fracDigits).length + l.expAbs ≤ 2 ^ 30) :
    ∃ (sig : BitVec 128) (a : Nat),
      parseHex (l.int.map HexDig.char ++ (match l.frac with | none => [] | some ds => 46 :: ds.map HexDig.char) ++
        [if l.upperP then 80 else 112] ++ signBytes l.esign ++ l.edig.map fun d => UInt8.ofNat (48 + d.val)) =
        ok (sig, (a : Int) - 4 * l.fracDigits.length + l.exponent) ∧
      sig.toNat = stk l.mantissa a ∧ (a = 0 ∨ 2 ^ 124 ≤ l.mantissa / 2 ^ a) ∧
      a ≤ 4 * (l.int ++ l.fracDigits).length := by
  obtain ⟨hw1, hw2⟩ := hw
  have hlen : (l.int ++ l.fracDigits).length = l.int.length + l.fracDigits.length := List.length_append
  set tail : List UInt8 := signBytes l.esign ++ l.edig.map fun d => UInt8.ofNat (48 + d.val) with htail
  have hstop : ∀ st : DigitState, digitLoop ([if l.upperP then 80 else 112] ++ tail) st = ok (st, tail) := by
    intro st
    cases l.upperP <;> simp [digitLoop]
  -- the digit loop
  obtain ⟨st, e1, e2, e3⟩ : ∃ st, digitLoop (l.int.map HexDig.char ++
      (match l.frac with | none => [] | some ds => 46 :: ds.map HexDig.char) ++
        [if l.upperP then 80 else 112] ++ tail) ⟨0#128, 0, false, false, false⟩ = ok (st, tail) ∧
      DInv st l.mantissa l.fracDigits.length (l.int ++ l.fracDigits).length ∧ st.someDigits = true := by
    have h0 : DInv ⟨0#128, 0, false, false, false⟩ 0 0 0 :=
      ⟨le_refl _, 0, le_refl _, rfl, Or.inl rfl, rfl, rfl⟩
    rcases hfr : l.frac with _ | ds
    · have hfd : l.fracDigits = [] := by unfold Lit.fracDigits; rw [hfr]; rfl
      have hlen' : l.int.length ≤ 2 ^ 28 := by omega
      obtain ⟨st, f1, f2, f3, f4⟩ := digitLoop_run l.int _ 0 0 0 ([if l.upperP then 80 else 112] ++ tail) h0 (by omega)
      refine ⟨st, ?_, ?_, ?_⟩
      · simp only [List.append_nil, List.append_assoc]
        rw [f1, hstop]
      · unfold Lit.mantissa
        rw [hfd]
        simpa [natOf, pushDigits] using f2
      · rw [f4]
        rw [hfd] at hw1
        cases hi : l.int with
        | nil => rw [hi] at hw1; simp at hw1
        | cons => simp
    · have hfd : l.fracDigits = ds := by unfold Lit.fracDigits; rw [hfr]; rfl
      rw [hfd] at hlen
      obtain ⟨st, f1, f2, f3, f4⟩ := digitLoop_run l.int _ 0 0 0
        (46 :: (ds.map HexDig.char ++ ([if l.upperP then 80 else 112] ++ tail))) h0 (by rw [hfd] at hr; omega)
      have h1 : DInv { st with seenPoint := true } (pushDigits 16 0 (l.int.map fun d => d.val.val)) 0 l.int.length := by
        have := f2
        simp only [Bool.false_eq_true, if_false, Nat.zero_add] at this
        exact ⟨this.hf, this.ex⟩
      obtain ⟨st2, g1, g2, g3, g4⟩ := digitLoop_run ds _ _ _ _ ([if l.upperP then 80 else 112] ++ tail) h1
        (by rw [hfd] at hr; omega)
      refine ⟨st2, ?_, ?_, ?_⟩
      · have : l.int.map HexDig.char ++ 46 :: ds.map HexDig.char ++ [if l.upperP then 80 else 112] ++ tail =
            l.int.map HexDig.char ++ (46 :: (ds.map HexDig.char ++ ([if l.upperP then 80 else 112] ++ tail))) := by
          simp
        simp only
        rw [this, f1, digitLoop, if_pos rfl, if_neg (by rw [f3]; simp), g1, hstop]
      · unfold Lit.mantissa
        rw [hfd, hlen, List.map_append]
        have : natOf 16 (l.int.map (fun d => d.val.val) ++ ds.map fun d => d.val.val) =
          pushDigits 16 (pushDigits 16 0 (l.int.map fun d => d.val.val)) (ds.map fun d => d.val.val) :=
          pushDigits_append 16 0 _ _
        rw [this]
        simpa using g2
      · rw [g4]
        show (st.someDigits || !ds.isEmpty) = true
        rw [f4]
        rw [hfd] at hw1
        cases hi : l.int with
        | nil =>
          cases hd : ds with
          | nil => rw [hi, hd] at hw1; simp at hw1
          | cons => simp
        | cons => simp
  obtain ⟨-, k, hk, s1, s2, s3, s4⟩ := e2
  have h16 : (16 : Nat) ^ k = 2 ^ (4 * k) := by rw [pow_mul]; norm_num
  rw [h16] at s1 s2 s3
  refine ⟨st.sig ||| (if st.inexact then 1#128 else 0#128), 4 * k, ?_, ?_, ?_, by omega⟩
  · unfold parseHex
    have hassoc : l.int.map HexDig.char ++ (match l.frac with | none => [] | some ds => 46 :: ds.map HexDig.char) ++
        [if l.upperP then 80 else 112] ++ signBytes l.esign ++ (l.edig.map fun d => UInt8.ofNat (48 + d.val)) =
        l.int.map HexDig.char ++ (match l.frac with | none => [] | some ds => 46 :: ds.map HexDig.char) ++
        [if l.upperP then 80 else 112] ++ tail := by rw [htail]; simp only [List.append_assoc]
    rw [hassoc, e1]
    simp only [andThen, ok, Option.bind_some]
    rw [if_neg (by rw [e3]; simp)]
    have hP : pushDigits 10 0 (l.edig.map Fin.val) < 2 ^ 32 := by
      have : pushDigits 10 0 (l.edig.map Fin.val) = l.expAbs := rfl
      omega
    have hrun := expLoop_run l.edig 0 false hP
    obtain ⟨d0, dr, hdr⟩ : ∃ d0 dr, l.edig = d0 :: dr := List.exists_cons_of_ne_nil hw2
    have hchar : UInt8.ofNat (48 + d0.val) ≠ 45 ∧ UInt8.ofNat (48 + d0.val) ≠ 43 := by
      clear hdr; revert d0; decide
    -- the sign of the exponent
    have hsg : splitSign tail = (l.esign == some true, l.edig.map fun d => UInt8.ofNat (48 + d.val)) := by
      rw [htail]
      rcases l.esign with _ | _ | _
      · rw [hdr]
        simp only [signBytes, List.map_cons, List.nil_append, splitSign]
        rw [if_neg hchar.1, if_neg hchar.2]; rfl
      · rfl
      · rfl
    rw [hsg]
    simp only
    rw [hrun]
    simp only [ok, Option.bind_some]
    rw [if_neg (by rw [hdr]; simp)]
    have hPe : pushDigits 10 0 (l.edig.map Fin.val) = l.expAbs := rfl
    rw [hPe, s4]
    congr 3
    unfold Lit.exponent
    by_cases hes : l.esign = some true
    · simp only [hes, beq_self_eq_true, if_true]
      rw [if_neg (by push_cast; omega), if_neg (by push_cast; omega)]
      push_cast; omega
    · have : (l.esign == some true) = false := by simpa using hes
      simp only [this, hes, if_false, Bool.false_eq_true]
      rw [if_neg (by push_cast; omega), if_neg (by push_cast; omega)]
      push_cast; omega
  · rw [toNat_or_bit, s1, s3]
    unfold stk
    by_cases h0 : l.mantissa % 2 ^ (4 * k) = 0
    · simp [h0]
    · simp [h0]
  · rcases s2 with rfl | s2
    · exact Or.inl rfl
    · exact Or.inr s2

end HexFloat
end Verif
