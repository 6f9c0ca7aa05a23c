import Verif.Props.Fmod

/-! # C19 remquo and remainder -/

namespace Verif
open Flt Generic
variable {F : Fmt}

theorem checkedInc_some {w : Nat} {q : BitVec w} (h : q.toNat + 1 < 2 ^ w) :
    ∃ q', checkedInc q = some q' ∧ q'.toNat = q.toNat + 1 := by
  unfold checkedInc
  rw [if_neg (by rw [← BitVec.toNat_inj, BitVec.toNat_allOnes]; omega)]
  refine ⟨_, rfl, ?_⟩
  rw [BitVec.toNat_add, BitVec.toNat_ofNat, Nat.add_mod_mod, Nat.mod_eq_of_lt h]

theorem checkedInc32 {q : BitVec 32} (h : q.toNat % 2 = 0) :
    ∃ q', checkedInc q = some q' ∧ q'.toNat = q.toNat + 1 :=
  checkedInc_some (by have := q.isLt; omega)

theorem remquoLoop_spec (uy : BitVec F.bits) (hb : uy.toNat < 2 ^ (F.sb + 1)) :
    ∀ n (u : BitVec F.bits) (q : BitVec 32), q.toNat % 2 = 0 → u.toNat < 2 * uy.toNat →
      ∃ u' q' T, remquoLoop uy n u q = some (u', q') ∧ u'.toNat < 2 * uy.toNat ∧
        u.toNat * 2 ^ n = uy.toNat * T + u'.toNat ∧ q'.toNat = (q.toNat * 2 ^ n + T) % 2 ^ 32 ∧
        q'.toNat % 2 = 0 := by
  intro n
  induction n with
  | zero =>
    intro u q hq hu
    refine ⟨u, q, 0, rfl, hu, by simp, ?_, hq⟩
    rw [pow_zero, mul_one, add_zero, Nat.mod_eq_of_lt q.isLt]
  | succ n ih =>
    intro u q hq hu
    obtain ⟨t1, t2⟩ := sub_top hu hb
    unfold remquoLoop
    simp only
    by_cases hc : uy.toNat ≤ u.toNat
    · rw [if_pos (t1.mpr hc)]
      obtain ⟨q1, hq1, hq2⟩ := checkedInc32 hq
      rw [hq1]; simp only [Option.bind_some]
      have hs := t2 hc
      have hsh := shl_one_toNat (v := u - uy) (by omega)
      have hqs : (q1 <<< 1).toNat = (q1.toNat * 2) % 2 ^ 32 := by rw [BV.shl, pow_one]
      obtain ⟨u', q', T, h1, h2, h3, h4, h5⟩ := ih ((u - uy) <<< 1) (q1 <<< 1) (by rw [hqs]; omega) (by omega)
      refine ⟨u', q', 2 ^ (n + 1) + T, h1, h2, ?_, ?_, h5⟩
      · rw [hsh, hs] at h3
        obtain ⟨d, hd⟩ := Nat.exists_eq_add_of_le hc
        rw [hd, Nat.add_sub_cancel_left] at h3
        rw [hd, mul_add, add_mul, add_assoc, ← h3]; ring
      · rw [h4, hqs, hq2, Nat.add_mod, Nat.mod_mul_mod, ← Nat.add_mod]
        congr 1; ring
    · rw [if_neg (fun h => hc (t1.mp h))]
      have hsh := shl_one_toNat (v := u) (by omega)
      have hqs : (q <<< 1).toNat = (q.toNat * 2) % 2 ^ 32 := by rw [BV.shl, pow_one]
      obtain ⟨u', q', T, h1, h2, h3, h4, h5⟩ := ih (u <<< 1) (q <<< 1) (by rw [hqs]; omega) (by omega)
      refine ⟨u', q', T, h1, h2, ?_, ?_, h5⟩
      · rw [← h3, hsh]; ring
      · rw [h4, hqs, Nat.add_mod, Nat.mod_mul_mod, ← Nat.add_mod]
        congr 1; ring

theorem remquoShift_spec : ∀ (fuel : Nat) (u : BitVec F.bits) (e : Int), 0 < u.toNat → u.toNat < 2 ^ (F.sb + 1) →
    F.sb - u.toNat.log2 < fuel →
    ∃ u', remquoShift fuel u e = some (u', e - ((F.sb - u.toNat.log2 : ℕ) : ℤ)) ∧
      u'.toNat = u.toNat * 2 ^ (F.sb - u.toNat.log2) := by
  intro fuel
  induction fuel with
  | zero => intros; omega
  | succ fuel ih =>
    intro u e h0 h1 h2
    have a1 : 2 ^ u.toNat.log2 ≤ u.toNat := Nat.log2_self_le h0.ne'
    have a2 : u.toNat < 2 ^ (u.toNat.log2 + 1) := Nat.lt_log2_self
    have hl : u.toNat.log2 ≤ F.sb := by
      have := (Nat.log2_lt h0.ne').mpr h1; omega
    unfold remquoShift
    have hc : (u >>> F.sb = 0#_) ↔ u.toNat < 2 ^ F.sb := by
      rw [← BitVec.toNat_inj, BV.shr]; simp [Nat.div_eq_zero_iff_lt]
    by_cases hlt : u.toNat < 2 ^ F.sb
    · rw [if_pos (hc.mpr hlt)]
      have hsh := shl_one_toNat (v := u) h1
      have hlog : (u <<< 1).toNat.log2 = u.toNat.log2 + 1 := by rw [hsh]; exact Nat.log2_two_mul h0.ne'
      have hl' : u.toNat.log2 < F.sb := (Nat.log2_lt h0.ne').mpr hlt
      obtain ⟨u', k1, k2⟩ := ih (u <<< 1) (e - 1) (by omega) (by rw [hsh, pow_succ]; omega) (by omega)
      refine ⟨u', ?_, ?_⟩
      · rw [k1, hlog]; congr 2; omega
      · rw [k2, hlog, hsh]
        have : F.sb - u.toNat.log2 = (F.sb - (u.toNat.log2 + 1)) + 1 := by omega
        rw [this, pow_succ]; ring
    · rw [if_neg (fun h => hlt (hc.mp h))]
      have : u.toNat.log2 = F.sb := by
        have : F.sb ≤ u.toNat.log2 := (Nat.le_log2 h0.ne').mpr (by omega)
        omega
      refine ⟨u, ?_, ?_⟩ <;> simp [this]

theorem add_comm_fin {x y : Flt F} (hx : x.isFinite) (hy : y.isFinite) : x + y = y + x := by
  rw [add_finite hx hy, add_finite hy hx, add_comm, Bool.and_comm]

/-- Sterbenz: for `Y/2 ≤ R < Y` the difference is representable -/
theorem sterbenz {r y : Flt F} (h1 : r.mag < y.mag) (h2 : y.mag ≤ 2 * r.mag) :
    ∃ b, magOf F.sb b = y.mag - r.mag := by
  obtain ⟨k, m, e1, e2, e3⟩ : ∃ k m, r.mag = m * 2 ^ k ∧ m < 2 ^ (F.sb + 1) ∧ 2 ^ k ∣ y.mag := by
    have hf := r.fracField_lt
    have hm := mag_eq_fields r
    by_cases he : r.expField = 0
    · rw [if_pos he] at hm
      exact ⟨0, r.fracField, by rw [hm]; simp, by rw [pow_succ]; omega, by simp⟩
    · rw [if_neg he] at hm
      refine ⟨r.expField - 1, 2 ^ F.sb + r.fracField, hm, by rw [pow_succ]; omega, ?_⟩
      apply dvd_magOf
      show _ ≤ y.mag
      have : 2 ^ (r.expField - 1 + F.sb) ≤ r.mag := by
        rw [hm, pow_add, mul_comm]
        exact Nat.mul_le_mul_right _ (by omega)
      omega
  obtain ⟨c, hc⟩ := e3
  have hp := Nat.two_pow_pos k
  have hsub : y.mag - r.mag = (c - m) * 2 ^ k := by rw [hc, e1, Nat.sub_mul]; ring_nf
  rw [hsub]
  apply rep_mul_pow
  have : c ≤ 2 * m := by
    rw [hc, e1] at h2
    have : 2 ^ k * c ≤ 2 ^ k * (2 * m) := by linarith
    exact Nat.le_of_mul_le_mul_left this hp
  omega

/-- `n` is the integer nearest to `X/Y`, ties to even, on magnitudes -/
def roundUp (Q R Y : Nat) : Prop := Y < 2 * R ∨ (2 * R = Y ∧ Q % 2 = 1)

instance (Q R Y : Nat) : Decidable (roundUp Q R Y) := by unfold roundUp; infer_instance

theorem mag_two : (ofInt F 2).isFinite ∧ (ofInt F 2).sign = false ∧ (ofInt F 2).mag = 2 ^ 1 * F.oneMag := by
  unfold ofInt
  rw [if_neg (by norm_num)]
  have hb := F.sb_lt_bias
  have := roundMag_rep (F := F) (s := false) (n := 2 * F.oneMag) (d := 1) (m := 2 * F.oneMag) (by norm_num)
    (rep_mul_pow F.sb 2 (F.bias - 1 + F.sb) (by
      rw [pow_succ]; have := F.sb_pow_ge; omega))
    (by have := oneMag_lt_inf F 1 (by omega); simpa using this) (by ring)
  simpa using this

theorem remquoEnd_spec (wrap : Bool) (sentinel : Int) (hs1 : sentinel < -F.sb) (hs2 : -sentinel + 1 < F.bits)
    (y : Flt F) (hy : y.isFinite) (sx : Bool) {u : BitVec F.bits} {q : BitVec 32} {ex ey : Int} {v R Q : Nat}
    (hu : (R = 0 ∧ u = 0#_ ∧ ex = sentinel) ∨ IsNorm F R u.toNat ex) (hv : IsNorm F y.mag v ey)
    (hey : ey ≤ y.expField) (hR : R < y.mag) (hq : q.toNat = Q % 2 ^ 32)
    (hno : wrap = false → roundUp Q R y.mag → q.toNat + 1 < 2 ^ 32) :
    ∃ r : Flt F, remquoEnd wrap y sx y.sign u q ex ey = some (r,
        (if sx ^^ y.sign then -1 else 1) *
          (((Q + if roundUp Q R y.mag then 1 else 0) % 2 ^ 31 : ℕ) : ℤ)) ∧
      r.isFinite ∧
      (if roundUp Q R y.mag then r.sign = !sx ∧ r.mag = y.mag - R else r.sign = sx ∧ r.mag = R) := by
  have hb2 : (2 ^ F.ew : Int) = 2 * F.bias + 2 := by exact_mod_cast F.two_bias
  have hyexp : (y.expField : Int) < 2 ^ F.ew - 1 := by
    have h1 := y.expField_lt
    unfold isFinite at hy
    have : ((2 ^ F.ew : Nat) : Int) = 2 ^ F.ew := by push_cast; rfl
    omega
  have hvelo := hv.elo
  -- exponents
  have hexle : ex ≤ ey := by
    rcases hu with ⟨_, _, rfl⟩ | hu
    · omega
    · by_contra hc
      have := hv.lt hu (by omega)
      have h1 : y.mag * 1 ≤ y.mag * 2 ^ (ex - ey - 1).toNat := Nat.mul_le_mul_left _ (Nat.two_pow_pos _)
      omega
  obtain ⟨p, p1, p2, p3⟩ : ∃ p, (if ex > 0 then
          (subChecked u (1#_ <<< F.sb)).map fun u => u ||| (BitVec.ofInt F.bits ex <<< F.sb)
        else shrChecked u (-ex + 1)) = some p ∧ p.toNat < F.infEnc ∧ magOf F.sb p.toNat = R := by
    rcases hu with ⟨rfl, rfl, rfl⟩ | hu
    · rw [if_neg (by omega)]
      unfold shrChecked
      rw [if_pos ⟨by omega, hs2⟩]
      exact ⟨_, rfl, by simpa using F.infEnc_pos, by simp⟩
    · exact pack_spec hu (by omega)
  unfold remquoEnd
  rw [p1]
  simp only [Option.bind_some]
  -- the reassembled remainder
  obtain ⟨z, hz⟩ : ∃ z : Flt F, z = ⟨p⟩ := ⟨_, rfl⟩
  rw [← hz]
  have hlt := F.infEnc_lt
  have hzenc : z.enc = p.toNat := by rw [hz]; rfl
  have hzmb : z.mb = p.toNat := by unfold mb; rw [hzenc, Nat.mod_eq_of_lt (by omega)]
  have hzs : z.sign = false := by unfold sign; rw [hzenc]; simp; omega
  have hzm : z.mag = R := by unfold mag; rw [hzmb]; exact p3
  have hzf : z.isFinite := by rw [isFinite_iff, hzmb]; exact p2
  obtain ⟨y', hy'⟩ : ∃ y' : Flt F, y' = if y.sign then -y else y := ⟨_, rfl⟩
  rw [← hy']
  have hy's : y'.sign = false := by rw [hy']; cases h : y.sign <;> simp [h]
  have hy'm : y'.mag = y.mag := by rw [hy']; split <;> simp
  have hy'f : y'.isFinite := by rw [hy']; split <;> simp [hy]
  -- the comparison
  have hcond : (ex = ey ∨ (ex + 1 = ey ∧ ((ofInt F 2 * z >ᶠ y') ∨ ((ofInt F 2 * z =ᶠ y') ∧ q % 2#32 ≠ 0#32)))) ↔
      roundUp Q R y.mag := by
    by_cases h1 : ex = ey
    · refine ⟨fun _ => ?_, fun _ => Or.inl h1⟩
      left
      rcases hu with ⟨_, _, h2⟩ | hu
      · omega
      · have e1 := hu.eq
        have e2 := hv.eq
        have l1 := hu.lo
        have l2 := hv.hi
        have hp := Nat.two_pow_pos F.sb
        rw [h1] at e1
        have hp2 := Nat.two_pow_pos (ey - 1 + F.sb).toNat
        have : y.mag * 2 ^ F.sb < 2 * R * 2 ^ F.sb := by
          rw [e2, mul_assoc, e1, ← mul_assoc]
          exact Nat.mul_lt_mul_of_pos_right (by rw [pow_succ] at l2; omega) hp2
        exact Nat.lt_of_mul_lt_mul_right this
    · by_cases h2 : ex + 1 = ey
      · obtain ⟨c1, c2, c3⟩ := mag_two (F := F)
        have hu' : IsNorm F R u.toNat ex := by
          rcases hu with ⟨_, _, h3⟩ | hu
          · omega
          · exact hu
        have hRlt : z.mag * 2 ^ 1 < 2 ^ (2 * F.bias + F.sb) := by
          rw [hzm]
          have hp := Nat.two_pow_pos F.sb
          have helo := hu'.elo
          have : R * 2 ^ 1 * 2 ^ F.sb < 2 ^ (2 * F.bias + F.sb) * 2 ^ F.sb := by
            calc R * 2 ^ 1 * 2 ^ F.sb = u.toNat * 2 ^ (ex - 1 + F.sb).toNat * 2 := by rw [← hu'.eq]; ring
              _ < 2 ^ (F.sb + 1) * 2 ^ (ex - 1 + F.sb).toNat * 2 := by
                exact Nat.mul_lt_mul_of_pos_right
                  (Nat.mul_lt_mul_of_pos_right hu'.hi (Nat.two_pow_pos _)) (by norm_num)
              _ = 2 ^ (F.sb + 1 + (ex - 1 + F.sb).toNat + 1)   := by ring
              _ ≤ 2 ^ (2 * F.bias + F.sb + F.sb) := Nat.pow_le_pow_right (by norm_num) (by omega)
              _ = _ := by rw [pow_add]
          exact Nat.lt_of_mul_lt_mul_right this
        obtain ⟨d1, d2, d3⟩ := mul_pow2_exact hzf c1 c3 hRlt
        have hmc : ofInt F 2 * z = z * ofInt F 2 := by
          rw [mul_finite c1 hzf, mul_finite hzf c1, mul_comm, Bool.xor_comm]
        rw [hmc]
        rw [hzs, c2] at d2
        have hsv : (z * ofInt F 2).sval = ((2 * R : ℕ) : ℤ) := by
          unfold sval; rw [d2, d3, hzm]; simp; ring
        have hsy : y'.sval = (y.mag : ℤ) := by unfold sval; rw [hy's, hy'm]; simp
        have g1 : (z * ofInt F 2 >ᶠ y') = true ↔ y.mag < 2 * R := by
          rw [lt_iff, hsv, hsy]
          simp only [not_nan_of_finite d1, not_nan_of_finite hy'f, not_false_eq_true, true_and]
          omega
        have g2 : (z * ofInt F 2 =ᶠ y') = true ↔ 2 * R = y.mag := by
          rw [feq_iff, hsv, hsy]
          simp only [not_nan_of_finite d1, not_nan_of_finite hy'f, not_false_eq_true, true_and]
          omega
        have g3 : q % 2#32 ≠ 0#32 ↔ Q % 2 = 1 := by
          rw [ne_eq, ← BitVec.toNat_inj, BitVec.toNat_umod, hq]
          rw [show (2#32).toNat = 2 from rfl, show (0#32).toNat = 0 from rfl]
          omega
        rw [g1, g2, g3]
        unfold roundUp
        simp [h1, h2]
      · refine ⟨fun h => ?_, fun h => ?_⟩
        · rcases h with h | h
          · exact absurd h h1
          · exact absurd h.1 h2
        · exfalso
          have : 2 * R < y.mag := by
            rcases hu with ⟨h3, _, _⟩ | hu
            · omega
            · have := hu.lt hv (by omega)
              have h3 : R * 2 ^ 1 ≤ R * 2 ^ (ey - ex - 1).toNat :=
                Nat.mul_le_mul_left _ (Nat.pow_le_pow_right (by norm_num) (by omega))
              omega
          rcases h with h | h <;> omega
  have hmask : ∀ (q' : BitVec 32) N, q'.toNat = N % 2 ^ 32 → (q' &&& 0x7fffffff#32).toNat = N % 2 ^ 31 := by
    intro q' N h
    rw [BV.and_low (k := 31) (by decide), h]; omega
  have hquo : ∀ (b : Bool) (q' : BitVec 32) N, q'.toNat = N % 2 ^ 32 →
      (if b then -((q' &&& 0x7fffffff#32).toNat : Int) else (q' &&& 0x7fffffff#32).toNat) =
        (if b then -1 else 1) * ((N % 2 ^ 31 : ℕ) : ℤ) := by
    intro b q' N h
    rw [hmask q' N h]; cases b <;> simp
  by_cases hup : roundUp Q R y.mag
  · rw [if_pos (hcond.mpr hup)]
    obtain ⟨q', hq1, hq2⟩ : ∃ q', (if wrap then some (q + 1#32) else checkedInc q) = some q' ∧
        q'.toNat = (Q + 1) % 2 ^ 32 := by
      cases wrap
      · simp only [Bool.false_eq_true, if_false]
        obtain ⟨q', h1, h2⟩ := checkedInc_some (hno rfl hup)
        exact ⟨q', h1, by have := hno rfl hup; omega⟩
      · simp only [if_true]
        refine ⟨_, rfl, ?_⟩
        rw [BitVec.toNat_add, hq]; simp
    rw [hq1]
    simp only [Option.map_some, if_pos hup]
    refine ⟨_, by rw [hquo _ q' (Q + 1) hq2], ?_⟩
    -- the exact subtraction
    have hd : z - y' = roundMag F true (y.mag - R) 1 := by
      rw [sub_eq_add_neg', add_comm_fin hzf (by simpa using hy'f), add_opp (by simpa using hy'f) hzf
        (by simp [hzs, hy's]) (by rw [mag_neg, hy'm, hzm]; exact hR)]
      simp [hy's, hy'm, hzm]
    have h2 : y.mag ≤ 2 * R := by rcases hup with h | h <;> omega
    obtain ⟨k1, k2, k3⟩ := roundMag_rep (F := F) (s := true) (n := y.mag - R) (d := 1) (m := y.mag - R)
      (by norm_num) (by have := sterbenz (r := z) (y := y) (by omega) (by omega); rwa [hzm] at this)
      (lt_of_le_of_lt (Nat.sub_le _ _) (mag_lt_inf hy)) (by ring)
    rw [hd]
    cases sx
    · simp [k1, k2, k3]
    · simp [k1, k2, k3]
  · rw [if_neg (fun h => hup (hcond.mp h))]
    simp only [Option.map_some, if_neg hup]
    refine ⟨_, by rw [hquo _ q Q hq]; rfl, ?_⟩
    cases sx
    · simp [hzf, hzs, hzm]
    · simp [hzf, hzs, hzm]

theorem sign_shr (x : Flt F) : (x.toBits >>> (F.bits - 1) != 0#_) = x.sign := by
  rw [bits_sub_one]
  have h1 : x.toBits.toNat < 2 * 2 ^ (F.ew + F.sb) := by have := x.enc_lt; rw [F.two_pow_bits] at this; unfold enc at this; omega
  have : (x.toBits >>> (F.ew + F.sb) = 0#_) ↔ x.toBits.toNat < 2 ^ (F.ew + F.sb) := by
    rw [← BitVec.toNat_inj, BV.shr]; simp [Nat.div_eq_zero_iff_lt]
  unfold sign enc
  by_cases h : x.toBits.toNat < 2 ^ (F.ew + F.sb)
  · rw [this.mpr h]; simp; omega
  · have h2 : ¬ (x.toBits >>> (F.ew + F.sb) = 0#_) := fun hc => h (this.mp hc)
    have h3 : 2 ^ (F.ew + F.sb) ≤ x.toBits.toNat := by omega
    simp [h2, h3]

theorem remquo_ex (x : Flt F) :
    ((x.toBits >>> F.sb) &&& BitVec.ofNat F.bits (2 ^ F.ew - 1)).toNat = x.expField := by
  apply expField_bits
  rw [BitVec.toNat_ofNat, Nat.mod_eq_of_lt]
  have : 2 ^ F.ew ≤ 2 ^ F.bits := Nat.pow_le_pow_right (by norm_num) (by rw [F.bits_eq]; omega)
  have := Nat.two_pow_pos F.ew
  omega

/-- magnitude form of the result -/
theorem remquoG_core (sentinel : Int) (wrap : Bool) (hs1 : sentinel < -F.sb) (hs2 : -sentinel + 1 < F.bits)
    (x y : Flt F) (hx : x.isFinite) (hy : y.isFinite) (hy0 : ¬ y.isZero)
    (hno : wrap = false → ∀ u v n Q R : Nat, 2 ^ F.sb ≤ u → u < 2 ^ (F.sb + 1) → 2 ^ F.sb ≤ v →
      v < 2 ^ (F.sb + 1) → u * 2 ^ n = v * Q + R → R < v → Q % 2 ^ 32 + 1 < 2 ^ 32) :
    ∃ r : Flt F, remquoG sentinel wrap x y = some (r, (if x.sign ^^ y.sign then -1 else 1) *
          (((x.mag / y.mag + if roundUp (x.mag / y.mag) (x.mag % y.mag) y.mag then 1 else 0) % 2 ^ 31 : ℕ) : ℤ)) ∧
      r.isFinite ∧
      (if roundUp (x.mag / y.mag) (x.mag % y.mag) y.mag then r.sign = !x.sign ∧ r.mag = y.mag - x.mag % y.mag
        else r.sign = x.sign ∧ r.mag = x.mag % y.mag) := by
  have hY : 0 < y.mag := by
    have : y.mag ≠ 0 := fun h => hy0 ((isZero_iff_mag y).mpr h)
    omega
  unfold remquoG
  simp only
  rw [remquo_ex, remquo_ex, sign_shr, sign_shr]
  rw [if_neg]
  swap
  · rintro (h | h | h)
    · rw [shl_one_eq_zero] at h; exact hy0 ((isZero_iff y).mpr h)
    · exact not_nan_of_finite hy h
    · exact hx (by exact_mod_cast h)
  by_cases hx0 : x.isZero
  · rw [if_pos ((shl_one_eq_zero x).mpr ((isZero_iff x).mp hx0))]
    have hX : x.mag = 0 := (isZero_iff_mag x).mp hx0
    have hnu : ¬ roundUp 0 0 y.mag := by unfold roundUp; omega
    simp only [hX, Nat.zero_div, Nat.zero_mod, if_neg hnu]
    exact ⟨x, by simp, hx, rfl, hX⟩
  · rw [if_neg (fun h => hx0 ((isZero_iff x).mpr ((shl_one_eq_zero x).mp h)))]
    obtain ⟨u, e, hu1, hu2, hu3⟩ := remquoNorm_spec x hx0
    obtain ⟨v, f, hv1, hv2, hv3⟩ := remquoNorm_spec y hy0
    rw [hu1]; simp only [Option.bind_some]
    rw [hv1]; simp only [Option.bind_some]
    have hvlo := hv2.lo
    have hvhi := hv2.hi
    have hulo := hu2.lo
    have huhi := hu2.hi
    have hp := Nat.two_pow_pos F.sb
    by_cases h1 : e + 1 ≠ f
    · rw [if_pos h1]
      by_cases h2 : e < f
      · rw [if_pos h2]
        have h3 := hu2.lt hv2 h2
        have h4 : x.mag * 2 ^ 1 ≤ x.mag * 2 ^ (f - e - 1).toNat :=
          Nat.mul_le_mul_left _ (Nat.pow_le_pow_right (by norm_num) (by omega))
        have h5 : x.mag < y.mag := by omega
        have hnu : ¬ roundUp 0 x.mag y.mag := by unfold roundUp; omega
        simp only [Nat.div_eq_of_lt h5, Nat.mod_eq_of_lt h5, if_neg hnu]
        exact ⟨x, by simp, hx, rfl, rfl⟩
      · rw [if_neg h2]
        obtain ⟨hdiv, hmod⟩ := hu2.divmod hv2 (by omega)
        obtain ⟨w, q, T, l1, l2, l3, l4, l5⟩ := remquoLoop_spec v hvhi (e - f).toNat u 0#32 (by simp)
          (by rw [pow_succ] at huhi; omega)
        unfold remquoDiv
        rw [l1]
        simp only [Option.bind_some]
        rw [show min e f = f by omega]
        obtain ⟨t1, t2⟩ := sub_top l2 hvhi
        -- the last step
        obtain ⟨w', q', m1, m2, m3, m4⟩ : ∃ (w' : BitVec F.bits) (q' : BitVec 32),
            (if (w - v) >>> (F.bits - 1) = 0#_ then (checkedInc q).map fun q => (w - v, q) else some (w, q))
              = some (w', q') ∧ w'.toNat < v.toNat ∧
            u.toNat * 2 ^ (e - f).toNat = v.toNat * (x.mag / y.mag) + w'.toNat ∧
            q'.toNat = (x.mag / y.mag) % 2 ^ 32 := by
          simp only [BitVec.toNat_ofNat, Nat.zero_mod, zero_mul, zero_add] at l4
          by_cases hc : v.toNat ≤ w.toNat
          · rw [if_pos (t1.mpr hc)]
            obtain ⟨q', hq1, hq2⟩ := checkedInc32 l5
            rw [hq1]
            have hT : x.mag / y.mag = T + 1 := by
              rw [hdiv, l3]
              rw [show v.toNat * T + w.toNat = (w.toNat - v.toNat) + v.toNat * (T + 1) by
                rw [Nat.mul_add]; omega]
              rw [Nat.add_mul_div_left _ _ (by omega), Nat.div_eq_of_lt (by omega), zero_add]
            refine ⟨_, _, rfl, by rw [t2 hc]; omega, ?_, ?_⟩
            · rw [t2 hc, hT, l3, Nat.mul_add]; omega
            · rw [hT, hq2, l4]; omega
          · rw [if_neg (fun h => hc (t1.mp h))]
            have hT : x.mag / y.mag = T := by
              rw [hdiv, l3, Nat.add_comm, Nat.add_mul_div_left _ _ (by omega), Nat.div_eq_of_lt (by omega),
                zero_add]
            exact ⟨w, q, rfl, by omega, by rw [hT, l3], by rw [hT, l4]⟩
        rw [m1]
        simp only [Option.bind_some]
        have hr : u.toNat * 2 ^ (e - f).toNat % v.toNat = w'.toNat := by
          rw [m3, Nat.add_comm, Nat.add_mul_mod_self_left, Nat.mod_eq_of_lt m2]
        rw [hr] at hmod
        have hnoq : wrap = false → roundUp (x.mag / y.mag) (x.mag % y.mag) y.mag → q'.toNat + 1 < 2 ^ 32 := by
          intro hw _
          rw [m4]
          exact hno hw u.toNat v.toNat _ _ _ hulo huhi hvlo hvhi m3 m2
        have hRY : x.mag % y.mag < y.mag := Nat.mod_lt _ hY
        by_cases hz : w' = 0#_
        · rw [if_pos hz]
          simp only [Option.bind_some]
          have hR : x.mag % y.mag = 0 := by
            rw [hz] at hmod
            simp at hmod; exact hmod
          exact remquoEnd_spec wrap sentinel hs1 hs2 y hy x.sign (Or.inl ⟨hR, hz, rfl⟩) hv2 hv3 hRY m4 hnoq
        · rw [if_neg hz]
          have hw0 : 0 < w'.toNat := by
            by_contra h0; apply hz; rw [← BitVec.toNat_inj]; simp; omega
          obtain ⟨w'', n1, n2⟩ := remquoShift_spec F.bits w' f hw0 (by omega) (by have hbb := F.bits_eq; omega)
          rw [n1]
          simp only [Option.map_some, Option.bind_some]
          have hZ : 0 < x.mag % y.mag := by
            by_contra h0
            have : x.mag % y.mag = 0 := by omega
            rw [this, zero_mul] at hmod
            have := Nat.two_pow_pos (f - 1 + F.sb).toNat
            rcases Nat.mul_eq_zero.mp hmod.symm with h | h <;> omega
          have hn := isNorm_shift hZ hv2.elo (by omega) hmod
          rw [← n2] at hn
          exact remquoEnd_spec wrap sentinel hs1 hs2 y hy x.sign (Or.inr hn) hv2 hv3 hRY m4 hnoq
    · rw [if_neg h1]
      push Not at h1
      have h3 := hu2.lt hv2 (by omega)
      have h4 : x.mag * 1 ≤ x.mag * 2 ^ (f - e - 1).toNat :=
        Nat.mul_le_mul_left _ (Nat.two_pow_pos _)
      have h5 : x.mag < y.mag := by omega
      rw [Nat.div_eq_of_lt h5, Nat.mod_eq_of_lt h5]
      refine remquoEnd_spec wrap sentinel hs1 hs2 y hy x.sign (Or.inr hu2) hv2 hv3 h5 (by simp) ?_
      intros; simp

/-- What C19 says of a result `(r, q)`: `r = x - n*y` exactly, where the integer `n` is the nearest
to `x/y` with ties to even, a zero `r` has `x`'s sign, and `q` has `n`'s sign and the low 31 bits of
`|n|` -/
def IsRemquo (x y r : Flt F) (q : ℤ) : Prop :=
  r.isFinite ∧ ∃ n : ℤ, r.toRat = x.toRat - n * y.toRat ∧ |r.toRat| ≤ |y.toRat| / 2 ∧
    (|r.toRat| = |y.toRat| / 2 → n % 2 = 0) ∧ (r.isZero → r.sign = x.sign) ∧
    q.natAbs = n.natAbs % 2 ^ 31 ∧ (0 < q → 0 < n) ∧ (q < 0 → n < 0)

theorem remquoG_spec (sentinel : Int) (wrap : Bool) (hs1 : sentinel < -F.sb) (hs2 : -sentinel + 1 < F.bits)
    (x y : Flt F) (hx : x.isFinite) (hy : y.isFinite) (hy0 : ¬ y.isZero)
    (hno : wrap = false → ∀ u v n Q R : Nat, 2 ^ F.sb ≤ u → u < 2 ^ (F.sb + 1) → 2 ^ F.sb ≤ v →
      v < 2 ^ (F.sb + 1) → u * 2 ^ n = v * Q + R → R < v → Q % 2 ^ 32 + 1 < 2 ^ 32) :
    ∃ r q, remquoG sentinel wrap x y = some (r, q) ∧ IsRemquo x y r q := by
  obtain ⟨r, h1, h2, h3⟩ := remquoG_core sentinel wrap hs1 hs2 x y hx hy hy0 hno
  refine ⟨r, _, h1, h2, ?_⟩
  have hY : 0 < y.mag := by
    have : y.mag ≠ 0 := fun h => hy0 ((isZero_iff_mag y).mpr h)
    omega
  have hd : ((y.mag : ℕ) : ℚ) * ((x.mag / y.mag : ℕ) : ℚ) + ((x.mag % y.mag : ℕ) : ℚ) = x.mag := by
    exact_mod_cast Nat.div_add_mod x.mag y.mag
  have hRY : x.mag % y.mag < y.mag := Nat.mod_lt _ hY
  have hu := F.ulp_pos
  clear h1
  generalize x.mag / y.mag = Q at *
  generalize x.mag % y.mag = R at *
  refine ⟨(if x.sign ^^ y.sign then -1 else 1) * ((Q + if roundUp Q R y.mag then 1 else 0 : ℕ) : ℤ), ?_⟩
  have hquo : ∀ (b : Bool) (N : Nat),
      ((if b then -1 else 1) * ((N % 2 ^ 31 : ℕ) : ℤ)).natAbs =
        ((if b then -1 else 1) * (N : ℤ)).natAbs % 2 ^ 31 ∧
      (0 < (if b then -1 else 1) * ((N % 2 ^ 31 : ℕ) : ℤ) → 0 < (if b then -1 else 1) * (N : ℤ)) ∧
      ((if b then -1 else 1) * ((N % 2 ^ 31 : ℕ) : ℤ) < 0 → (if b then -1 else 1) * (N : ℤ) < 0) := by
    intro b N
    cases b <;> simp <;> omega
  have hY' : (0 : ℚ) < y.mag := by exact_mod_cast hY
  by_cases hup : roundUp Q R y.mag
  · rw [if_pos hup] at h3 ⊢
    obtain ⟨h3, h4⟩ := h3
    have hRq : (R : ℚ) < y.mag := by exact_mod_cast hRY
    have hcast : ((y.mag - R : ℕ) : ℚ) = (y.mag : ℚ) - R := by
      rw [Nat.cast_sub hRY.le]
    refine ⟨?_, ?_, ?_, ?_, hquo _ _⟩
    · rw [toRat_sign_mag r, toRat_sign_mag x, toRat_sign_mag y, h3, h4, hcast]
      cases x.sign <;> cases y.sign <;> simp only [Bool.xor_false, Bool.xor_true, Bool.not_false,
        Bool.not_true, Bool.false_eq_true, if_true, if_false, Int.cast_mul, Int.cast_neg, Int.cast_one,
        Int.cast_natCast, Nat.cast_add, Nat.cast_one, Int.cast_add]
      · linear_combination F.ulp * hd
      · linear_combination F.ulp * hd
      · linear_combination -F.ulp * hd
      · linear_combination -F.ulp * hd
    · rw [toRat_abs, toRat_abs, h4, hcast]
      have : (y.mag : ℚ) ≤ 2 * R := by
        have : y.mag ≤ 2 * R := by rcases hup with h | h <;> omega
        exact_mod_cast this
      nlinarith
    · rw [toRat_abs, toRat_abs, h4, hcast]
      intro h
      have : (y.mag : ℚ) = 2 * R := by
        have h5 : ((y.mag : ℚ) - R) * F.ulp = (y.mag / 2) * F.ulp := by rw [h]; ring
        have := mul_right_cancel₀ hu.ne' h5
        linarith
      have h6 : y.mag = 2 * R := by exact_mod_cast this
      have h7 : Q % 2 = 1 := by rcases hup with h | h <;> omega
      cases x.sign ^^ y.sign <;> simp <;> omega
    · intro hz
      rw [isZero_iff_mag] at hz; omega
  · rw [if_neg hup] at h3 ⊢
    obtain ⟨h3, h4⟩ := h3
    refine ⟨?_, ?_, ?_, fun _ => h3, hquo _ _⟩
    · rw [toRat_sign_mag r, toRat_sign_mag x, toRat_sign_mag y, h3, h4]
      cases x.sign <;> cases y.sign <;> simp only [Bool.xor_false, Bool.xor_true, Bool.not_false,
        Bool.not_true, Bool.false_eq_true, if_true, if_false, Int.cast_mul, Int.cast_neg, Int.cast_one,
        Int.cast_natCast, Nat.cast_add, Nat.cast_zero, Int.cast_add, Int.cast_zero]
      · linear_combination F.ulp * hd
      · linear_combination F.ulp * hd
      · linear_combination -F.ulp * hd
      · linear_combination -F.ulp * hd
    · rw [toRat_abs, toRat_abs, h4]
      have : (2 : ℚ) * R ≤ y.mag := by
        have : 2 * R ≤ y.mag := by by_contra h; exact hup (Or.inl (by omega))
        exact_mod_cast this
      nlinarith
    · rw [toRat_abs, toRat_abs, h4]
      intro h
      have : (2 : ℚ) * R = y.mag := by
        have h5 : (R : ℚ) * F.ulp = (y.mag / 2) * F.ulp := by rw [h]; ring
        have := mul_right_cancel₀ hu.ne' h5
        linarith
      have h6 : 2 * R = y.mag := by exact_mod_cast this
      have h7 : Q % 2 ≠ 1 := fun h => hup (Or.inr ⟨h6, h⟩)
      cases x.sign ^^ y.sign <;> simp <;> omega

/-- C19 (f64): exact remainder and quotient bits, and no panic -/
theorem remquo_spec (x y : Flt f64) (hx : x.isFinite) (hy : y.isFinite) (hy0 : ¬ y.isZero) :
    ∃ r q, remquo x y = some (r, q) ∧ IsRemquo x y r q :=
  remquoG_spec (-60) true (by decide) (by decide) x y hx hy hy0 (by simp)

/-- C19 (f32): as above; in particular the checked increment of the quotient cannot overflow -/
theorem remquof_spec (x y : Flt f32) (hx : x.isFinite) (hy : y.isFinite) (hy0 : ¬ y.isZero) :
    ∃ r q, remquof x y = some (r, q) ∧ IsRemquo x y r q := by
  refine remquoG_spec (-30) false (by decide) (by decide) x y hx hy hy0 ?_
  intro _ u v n Q R h1 h2 h3 h4 h5 h6
  have e1 : 2 ^ f32.sb = 8388608 := by decide
  have e2 : 2 ^ (f32.sb + 1) = 16777216 := by decide
  rw [e1] at h1 h3
  rw [e2] at h2 h4
  by_contra hc
  have hQ : Q % 2 ^ 32 = 2 ^ 32 - 1 := by have := Nat.mod_lt Q (show 0 < 2 ^ 32 by norm_num); omega
  obtain ⟨T, hT⟩ : ∃ T, Q + 1 = 2 ^ 32 * T := ⟨Q / 2 ^ 32 + 1, by omega⟩
  by_cases hn : 32 ≤ n
  · obtain ⟨k, rfl⟩ := Nat.exists_eq_add_of_le hn
    have : v * (Q + 1) + R = u * 2 ^ (32 + k) + v := by rw [h5]; ring
    rw [hT, pow_add] at this
    have e3 : v * (2 ^ 32 * T) = 2 ^ 32 * (v * T) := by ring
    have e4 : u * (2 ^ 32 * 2 ^ k) = 2 ^ 32 * (u * 2 ^ k) := by ring
    rw [e3, e4] at this
    omega
  · have h7 : u * 2 ^ n ≤ u * 2 ^ 31 := Nat.mul_le_mul_left _ (Nat.pow_le_pow_right (by norm_num) (by omega))
    have h8 : v * (2 ^ 32 - 1) ≤ v * Q := Nat.mul_le_mul_left _ (by
      rcases Nat.eq_zero_or_pos T with h | h
      · rw [h] at hT; omega
      · have : 2 ^ 32 * 1 ≤ 2 ^ 32 * T := Nat.mul_le_mul_left _ h
        omega)
    omega

/-- infinite divisor: `x` itself and quotient 0 -/
theorem remquoG_inf (sentinel : Int) (wrap : Bool) (x y : Flt F) (hx : x.isFinite) (hy : y.isInf) :
    remquoG sentinel wrap x y = some (x, 0) := by
  have hy0 : ¬ y.isZero := fun h => not_inf_of_finite (finite_of_zero h) hy
  have hye : y.expField = 2 ^ F.ew - 1 := hy.1
  have htb := F.two_bias
  have hbb := F.sb_lt_bias
  have hxe : x.expField < 2 ^ F.ew - 1 := by
    have h1 := x.expField_lt
    unfold isFinite at hx
    omega
  unfold remquoG
  simp only
  rw [remquo_ex, remquo_ex, sign_shr, sign_shr]
  rw [if_neg]
  swap
  · rintro (h | h | h)
    · rw [shl_one_eq_zero] at h; exact hy0 ((isZero_iff y).mpr h)
    · exact not_nan_of_inf hy h
    · exact hx (by exact_mod_cast h)
  by_cases hx0 : x.isZero
  · rw [if_pos ((shl_one_eq_zero x).mpr ((isZero_iff x).mp hx0))]
  · rw [if_neg (fun h => hx0 ((isZero_iff x).mpr ((shl_one_eq_zero x).mp h)))]
    obtain ⟨u, e, hu1, hu2, hu3⟩ := remquoNorm_spec x hx0
    obtain ⟨v, hv1, -⟩ := remquoNorm_normal y (by omega)
    rw [hu1]; simp only [Option.bind_some]
    rw [hv1]; simp only [Option.bind_some]
    by_cases h1 : e + 1 ≠ (y.expField : Int)
    · rw [if_pos h1, if_pos (by omega)]
    · rw [if_neg h1]
      push Not at h1
      obtain ⟨p, p1, p2, p3⟩ := pack_spec hu2 (by
        have : ((2 ^ F.ew : Nat) : Int) = 2 ^ F.ew := by push_cast; rfl
        omega)
      unfold remquoEnd
      rw [p1]
      simp only [Option.bind_some]
      obtain ⟨z, hz⟩ : ∃ z : Flt F, z = ⟨p⟩ := ⟨_, rfl⟩
      rw [← hz]
      have hlt := F.infEnc_lt
      have hzenc : z.enc = p.toNat := by rw [hz]; rfl
      have hzmb : z.mb = p.toNat := by unfold mb; rw [hzenc, Nat.mod_eq_of_lt (by omega)]
      have hzs : z.sign = false := by unfold sign; rw [hzenc]; simp; omega
      have hzm : z.mag = x.mag := by unfold mag; rw [hzmb]; exact p3
      have hzf : z.isFinite := by rw [isFinite_iff, hzmb]; exact p2
      obtain ⟨y', hy'⟩ : ∃ y' : Flt F, y' = if y.sign then -y else y := ⟨_, rfl⟩
      rw [← hy']
      have hy's : y'.sign = false := by rw [hy']; cases h : y.sign <;> simp [h]
      have hy'i : y'.isInf := by rw [hy']; split <;> simp [hy]
      have hnn : ¬ (ofInt F 2 * z).isNaN := by
        rw [mul_finite (mag_two (F := F)).1 hzf]; simp
      have hnlt : (ofInt F 2 * z >ᶠ y') = false := by
        rw [Bool.eq_false_iff, ne_eq, lt_iff]
        rintro ⟨_, _, h⟩
        have h1 : (ofInt F 2 * z).mb ≤ F.infEnc := by
          rw [isNaN_iff] at hnn; omega
        have h2 : (ofInt F 2 * z).mag ≤ y'.mag := by
          unfold mag; rw [magOf_le, (isInf_iff y').mp hy'i]; exact h1
        unfold sval at h
        rw [hy's] at h
        simp at h
        split at h <;> omega
      rw [if_neg]
      · simp only [Option.map_some]
        have hzx : (if x.sign then -z else z) = x := by
          refine eq_of_sign_mag ?_ ?_
          · cases h : x.sign <;> simp [hzs]
          · split <;> simp [hzm]
        rw [hzx]; simp
      · simp only [hnlt, Bool.false_eq_true, false_or, not_or, not_and]
        refine ⟨by omega, fun _ _ => by simp⟩

/-- C19: finite `x`, infinite `y` -/
theorem remquo_inf (x y : Flt f64) (hx : x.isFinite) (hy : y.isInf) : remquo x y = some (x, 0) :=
  remquoG_inf _ _ x y hx hy
/-- C19 (f32): finite `x`, infinite `y` -/
theorem remquof_inf (x y : Flt f32) (hx : x.isFinite) (hy : y.isInf) : remquof x y = some (x, 0) :=
  remquoG_inf _ _ x y hx hy

theorem remquoG_invalid (sentinel : Int) (wrap : Bool) (x y : Flt F)
    (h : x.isNaN ∨ y.isNaN ∨ x.isInf ∨ y.isZero) :
    ∃ r, remquoG sentinel wrap x y = some (r, 0) ∧ r.isNaN := by
  refine ⟨_, ?_, invalid_nan x y h⟩
  unfold remquoG
  simp only
  rw [if_pos]
  rw [remquo_ex]
  rcases h with h | h | h | h
  · right; right; rw [h.1]
  · right; left; exact h
  · right; right; rw [h.1]
  · left; rw [shl_one_eq_zero]; exact (isZero_iff y).mp h

/-- C19: exceptional arguments give NaN -/
theorem remquo_invalid (x y : Flt f64) (h : x.isNaN ∨ y.isNaN ∨ x.isInf ∨ y.isZero) :
    ∃ r, remquo x y = some (r, 0) ∧ r.isNaN := remquoG_invalid _ _ x y h
/-- C19 (f32): exceptional arguments give NaN -/
theorem remquof_invalid (x y : Flt f32) (h : x.isNaN ∨ y.isNaN ∨ x.isInf ∨ y.isZero) :
    ∃ r, remquof x y = some (r, 0) ∧ r.isNaN := remquoG_invalid _ _ x y h

/-- C19: `remainder` (f64) is exact -/
theorem remainder_spec (x y : Flt f64) (hx : x.isFinite) (hy : y.isFinite) (hy0 : ¬ y.isZero) :
    ∃ r, remainder x y = some r ∧ r.isFinite ∧ ∃ n : ℤ, r.toRat = x.toRat - n * y.toRat ∧
      |r.toRat| ≤ |y.toRat| / 2 ∧ (|r.toRat| = |y.toRat| / 2 → n % 2 = 0) ∧ (r.isZero → r.sign = x.sign) := by
  obtain ⟨r, q, h1, h2, n, h3, h4, h5, h6, _⟩ := remquo_spec x y hx hy hy0
  exact ⟨r, by unfold remainder; rw [h1]; rfl, h2, n, h3, h4, h5, h6⟩

/-- C19: `remainderf` (f32) is exact -/
theorem remainderf_spec (x y : Flt f32) (hx : x.isFinite) (hy : y.isFinite) (hy0 : ¬ y.isZero) :
    ∃ r, remainderf x y = some r ∧ r.isFinite ∧ ∃ n : ℤ, r.toRat = x.toRat - n * y.toRat ∧
      |r.toRat| ≤ |y.toRat| / 2 ∧ (|r.toRat| = |y.toRat| / 2 → n % 2 = 0) ∧ (r.isZero → r.sign = x.sign) := by
  obtain ⟨r, q, h1, h2, n, h3, h4, h5, h6, _⟩ := remquof_spec x y hx hy hy0
  exact ⟨r, by unfold remainderf; rw [h1]; rfl, h2, n, h3, h4, h5, h6⟩

/-- C19: `remainder` on an infinite divisor and on invalid arguments -/
theorem remainder_special (x y : Flt f64) :
    (x.isFinite → y.isInf → remainder x y = some x) ∧
    (x.isNaN ∨ y.isNaN ∨ x.isInf ∨ y.isZero → ∃ r, remainder x y = some r ∧ r.isNaN) := by
  constructor
  · intro h1 h2; unfold remainder; rw [remquo_inf x y h1 h2]; rfl
  · intro h
    obtain ⟨r, h1, h2⟩ := remquo_invalid x y h
    exact ⟨r, by unfold remainder; rw [h1]; rfl, h2⟩

/-- C19: `remainderf` on an infinite divisor and on invalid arguments -/
theorem remainderf_special (x y : Flt f32) :
    (x.isFinite → y.isInf → remainderf x y = some x) ∧
    (x.isNaN ∨ y.isNaN ∨ x.isInf ∨ y.isZero → ∃ r, remainderf x y = some r ∧ r.isNaN) := by
  constructor
  · intro h1 h2; unfold remainderf; rw [remquof_inf x y h1 h2]; rfl
  · intro h
    obtain ⟨r, h1, h2⟩ := remquof_invalid x y h
    exact ⟨r, by unfold remainderf; rw [h1]; rfl, h2⟩

/-- remquo(-7.5, 2) = (0.5, -4); remquo(5, 2): tie to even, (1, 2) -/
example : remquo (ofNat f64 0xc01e000000000000) (ofNat f64 0x4000000000000000)
      = some (ofNat f64 0x3fe0000000000000, -4) ∧
    remquof (ofNat f32 0x40a00000) (ofNat f32 0x40000000) = some (ofNat f32 0x3f800000, 2) := by
  constructor <;> decide +kernel

end Verif
