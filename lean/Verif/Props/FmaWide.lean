import Verif.Model.FmaWide
import Verif.Theory.FmaWide
import Verif.Theory.Scale
import Verif.Props.Modf

/-!
# C22: `fmaf` computed in binary64
-/

namespace Verif
open Flt Generic

/-- The exact sum is in the binary32 subnormal range and within a relative distance `2^-53` of, but not
equal to, a midpoint of two neighbouring binary32 data (an odd multiple of `2^-150`). -/
def FmafHair (x y z : Flt f32) : Prop :=
  ∃ k : ℕ, k % 2 = 1 ∧ k < 2 ^ 24 ∧ |x.toRat * y.toRat + z.toRat| ≠ k * 2 ^ (-150 : ℤ) ∧
    |(|x.toRat * y.toRat + z.toRat|) - k * 2 ^ (-150 : ℤ)| ≤ 2 ^ (-53 : ℤ) * (k * 2 ^ (-150 : ℤ))

/-! ### exactness of the operands in binary64 -/

theorem ulp32_eq : f32.ulp = (2 : ℚ) ^ (925 : ℤ) * f64.ulp := by
  rw [Fmt.ulp, Fmt.ulp, ← zpow_add₀ (by norm_num)]
  rfl

theorem zpow925 : (2 : ℚ) ^ (925 : ℤ) = ((2 ^ 925 : ℕ) : ℚ) := by
  rw [Nat.cast_pow]; exact zpow_natCast 2 925

theorem zpow776 : (2 : ℚ) ^ (776 : ℤ) = ((2 ^ 776 : ℕ) : ℚ) := by
  rw [Nat.cast_pow]; exact zpow_natCast 2 776

theorem ulp32_sq : f32.ulp * f32.ulp = (2 : ℚ) ^ (776 : ℤ) * f64.ulp := by
  rw [Fmt.ulp, Fmt.ulp, ← zpow_add₀ (by norm_num), ← zpow_add₀ (by norm_num)]
  rfl

theorem mag32_lt {x : Flt f32} (hx : x.isFinite) : x.mag < 2 ^ 277 := mag_lt_inf hx

theorem sval_of_toRat {F : Fmt} {x : Flt F} {v : ℤ} (h : x.toRat = (v : ℚ) * F.ulp) : x.sval = v := by
  rw [toRat_eq] at h
  exact_mod_cast mul_right_cancel₀ F.ulp_ne h

theorem sval_mk {F : Fmt} {c : Flt F} {s : Bool} {m : Nat} (h1 : c.sign = s) (h2 : c.mag = m) :
    c.sval = if s then -(m : ℤ) else m := by
  unfold sval; rw [h1, h2]

theorem widen_exact {x : Flt f32} (hx : x.isFinite) :
    (x.cast f64).isFinite ∧ (x.cast f64).sign = x.sign ∧ (x.cast f64).sval = x.sval * 2 ^ 925 := by
  have hlt := mag32_lt hx
  obtain ⟨b, hb⟩ := x.mag_rep
  obtain ⟨k, r, hk, hr, hkr⟩ := exists_split f32.sb b
  have hA : x.mag = r * 2 ^ k := by rw [← hb, hk]; exact magOf_split _ k r hr.le hkr
  have hrep : ∃ c, magOf f64.sb c = x.mag * 2 ^ 925 := by
    rw [hA, Nat.mul_assoc, ← pow_add]
    exact rep_mul_pow 52 r _ (le_trans hr.le (by decide))
  have hm : x.mag * 2 ^ 925 < 2 ^ (2 * f64.bias + f64.sb) := by
    calc x.mag * 2 ^ 925 < 2 ^ 277 * 2 ^ 925 := Nat.mul_lt_mul_of_pos_right hlt (Nat.two_pow_pos _)
      _ = 2 ^ 1202 := by rw [← pow_add]
      _ ≤ 2 ^ (2 * f64.bias + f64.sb) := Nat.pow_le_pow_right (by norm_num) (by decide)
  obtain ⟨c, c1, c2, c3⟩ := exists_datum hrep hm x.sign
  have cs : c.sval = x.sval * 2 ^ 925 := by
    rw [sval_mk c2 c3]
    unfold sval
    split
    · rw [Nat.cast_mul, neg_mul, Nat.cast_pow]; rfl
    · rw [Nat.cast_mul, Nat.cast_pow]; rfl
  have hv : c.toRat = x.toRat := by
    rw [toRat_eq, toRat_eq, cs, ulp32_eq, zpow925]
    rw [Int.cast_mul, Int.cast_pow, Nat.cast_pow]
    push_cast
    ring
  obtain ⟨h1, h2⟩ := (cast_isRNE (G := f64) hx).exact c1 hv
  refine ⟨h1, ?_, ?_⟩
  · unfold Flt.cast
    rw [if_neg (not_nan_of_finite hx), if_neg (not_inf_of_finite hx), sign_roundMag]
  · rw [← cs]
    exact toRat_inj.mp (h2.trans hv.symm)

theorem widen_mul_exact {x y : Flt f32} (hx : x.isFinite) (hy : y.isFinite) :
    (x.cast f64 * y.cast f64).isFinite ∧ (x.cast f64 * y.cast f64).sign = (x.sign ^^ y.sign) ∧
    (x.cast f64 * y.cast f64).toRat = x.toRat * y.toRat := by
  obtain ⟨x1, x2, x3⟩ := widen_exact hx
  obtain ⟨y1, y2, y3⟩ := widen_exact hy
  have hsg : (x.cast f64 * y.cast f64).sign = (x.sign ^^ y.sign) := by
    rw [mul_finite x1 y1, sign_roundMag, x2, y2]
  have vx : (x.cast f64).toRat = x.toRat := by
    rw [toRat_eq, toRat_eq, x3, ulp32_eq, zpow925, Int.cast_mul, Int.cast_pow, Nat.cast_pow]; push_cast; ring
  have vy : (y.cast f64).toRat = y.toRat := by
    rw [toRat_eq, toRat_eq, y3, ulp32_eq, zpow925, Int.cast_mul, Int.cast_pow, Nat.cast_pow]; push_cast; ring
  obtain ⟨b, hb⟩ := x.mag_rep
  obtain ⟨k, r, hk, hr, hkr⟩ := exists_split f32.sb b
  have hA : x.mag = r * 2 ^ k := by rw [← hb, hk]; exact magOf_split _ k r hr.le hkr
  obtain ⟨b', hb'⟩ := y.mag_rep
  obtain ⟨k', r', hk', hr', hkr'⟩ := exists_split f32.sb b'
  have hA' : y.mag = r' * 2 ^ k' := by rw [← hb', hk']; exact magOf_split _ k' r' hr'.le hkr'
  have hrep : ∃ c, magOf f64.sb c = x.mag * y.mag * 2 ^ 776 := by
    have e : x.mag * y.mag * 2 ^ 776 = r * r' * 2 ^ (k + k' + 776) := by
      rw [hA, hA', pow_add, pow_add]; ring
    rw [e]
    refine rep_mul_pow 52 (r * r') _ ?_
    calc r * r' ≤ 2 ^ 24 * 2 ^ 24 := Nat.mul_le_mul hr.le hr'.le
      _ ≤ 2 ^ (52 + 1) := by norm_num
  have hm : x.mag * y.mag * 2 ^ 776 < 2 ^ (2 * f64.bias + f64.sb) := by
    have h1 := mag32_lt hx
    have h2 := mag32_lt hy
    have h3 : x.mag * y.mag ≤ 2 ^ 277 * 2 ^ 277 := Nat.mul_le_mul h1.le h2.le
    calc x.mag * y.mag * 2 ^ 776 ≤ 2 ^ 277 * 2 ^ 277 * 2 ^ 776 := Nat.mul_le_mul_right _ h3
      _ = 2 ^ 1330 := by rw [← pow_add, ← pow_add]
      _ < 2 ^ (2 * f64.bias + f64.sb) := Nat.pow_lt_pow_right (by norm_num) (by decide)
  obtain ⟨c, c1, c2, c3⟩ := exists_datum hrep hm (x.sign ^^ y.sign)
  have cs : c.sval = x.sval * y.sval * 2 ^ 776 := by
    rw [sval_mk c2 c3]
    unfold sval
    cases x.sign <;> cases y.sign <;> simp only [Bool.xor_false, Bool.xor_true, Bool.not_true, Bool.not_false, Bool.false_eq_true, if_true, if_false] <;>
      rw [Nat.cast_mul, Nat.cast_mul, Nat.cast_pow] <;> push_cast <;> ring
  have hv : c.toRat = (x.cast f64).toRat * (y.cast f64).toRat := by
    rw [vx, vy, toRat_eq, toRat_eq, toRat_eq, cs]
    have e : (x.sval : ℚ) * f32.ulp * (y.sval * f32.ulp) = x.sval * y.sval * (f32.ulp * f32.ulp) := by ring
    rw [e, ulp32_sq, zpow776, Int.cast_mul, Int.cast_mul, Int.cast_pow, Nat.cast_pow]
    push_cast
    ring
  obtain ⟨h1, h2⟩ := (mul_isRNE x1 y1).exact c1 hv
  exact ⟨h1, hsg, by rw [h2, vx, vy]⟩

/-- narrowing a finite binary64 datum -/
theorem narrow_eq {r : Flt f64} (hr : r.isFinite) : r.cast f32 = roundMag f32 r.sign r.mag (2 ^ 925) := by
  unfold Flt.cast
  rw [if_neg (not_nan_of_finite hr), if_neg (not_inf_of_finite hr)]
  apply roundMag_scale f64.oneMag_pos (Nat.two_pow_pos _)
  have : f64.oneMag = 2 ^ 925 * f32.oneMag := by
    rw [oneMag_eq, oneMag_eq, ← pow_add]; rfl
  rw [this]
  ring

theorem roundMag_transfer {s : Bool} {v R : Nat} (h : ∀ c, (v < mid c ↔ R < mid c) ∧ (v = mid c ↔ R = mid c)) :
    roundMag f32 s R (2 ^ 925) = roundMag f32 s v (2 ^ 925) := by
  unfold roundMag
  have : roundU f32.sb R (2 ^ 925) = roundU f32.sb v (2 ^ 925) := by
    refine (roundU_transfer (by decide) (Nat.two_pow_pos _) ?_).symm
    intro c
    have e : (magOf f32.sb c + magOf f32.sb (c + 1)) * 2 ^ 925 = 2 * mid c := by
      unfold mid
      rw [show (925 : Nat) = 924 + 1 by rfl, pow_succ]
      show (magOf 23 c + magOf 23 (c + 1)) * _ = _
      ring
    rw [e]
    have := h c
    omega
  rw [this]

/-- relative error of a binary64 rounding -/
theorem near_rel {v m : Nat} (hm : m = roundU 52 v 1) (h : 2 ^ 52 ≤ m) :
    2 ^ 53 * v ≤ 2 ^ 53 * magOf 52 m + magOf 52 m ∧ 2 ^ 53 * magOf 52 m ≤ 2 ^ 53 * v + magOf 52 m := by
  have hn := roundU_isNear (sb := 52) (by norm_num) v 1 Nat.one_pos
  rw [← hm] at hn
  obtain ⟨e, s, he, hs, hes⟩ := exists_split 52 m
  have hs' : 2 ^ 52 ≤ s := by rcases hes with h' | h' <;> [exact h'; (rw [h'] at he; omega)]
  have hM : magOf 52 m = s * 2 ^ e := by rw [he]; exact magOf_split 52 e s hs.le hes
  have hM1 : magOf 52 (m + 1) = s * 2 ^ e + 2 ^ e := by
    rw [he, Nat.add_assoc, magOf_split 52 e (s + 1) hs (by omega)]; ring
  have hM0 : ∃ c, c + 1 = m ∧ s * 2 ^ e ≤ magOf 52 c + 2 ^ e := by
    obtain ⟨c, hc⟩ : ∃ c, m = c + 1 := ⟨m - 1, by omega⟩
    refine ⟨c, hc.symm, ?_⟩
    obtain ⟨e', s', he', hs', hes'⟩ := exists_split 52 c
    have hc' : magOf 52 c = s' * 2 ^ e' := by rw [he']; exact magOf_split 52 e' s' hs'.le hes'
    have hm' : magOf 52 m = s' * 2 ^ e' + 2 ^ e' := by
      rw [hc, he', Nat.add_assoc, magOf_split 52 e' (s' + 1) hs' (by omega)]; ring
    have : e' ≤ e := by
      by_contra hcon
      have : (e + 1) * 2 ^ 52 ≤ e' * 2 ^ 52 := Nat.mul_le_mul_right _ (by omega)
      have : s' ≥ 2 ^ 52 := by rcases hes' with h' | h' <;> omega
      omega
    have := Nat.pow_le_pow_right (n := 2) (by norm_num) this
    omega
  obtain ⟨c, hc, hc'⟩ := hM0
  have hlo := hn.lo c hc
  have hhi := hn.hi
  have hP : 2 ^ 52 * 2 ^ e ≤ s * 2 ^ e := Nat.mul_le_mul_right _ hs'
  omega

/-! ### the binary64 sum -/

/-- description of the nonzero binary64 sum -/
structure SumSpec (a b r : Flt f64) (v m : Nat) : Prop where
  fin : r.isFinite
  sgn : r.sign = decide (a.sval + b.sval < 0)
  hv : v = (a.sval + b.sval).natAbs
  hm : m = roundU 52 v 1
  hmb : r.mb = m
  hmag : r.mag = magOf 52 m

theorem sum_spec {a b : Flt f64} (ha : a.isFinite) (hb : b.isFinite) (hla : a.mag < 2 ^ 1331) (hlb : b.mag < 2 ^ 1331)
    (h0 : a.sval + b.sval ≠ 0) :
    ∃ v m, SumSpec a b (a + b) v m := by
  have e := add_finite ha hb
  rw [if_neg h0] at e
  have hv : (a.sval + b.sval).natAbs ≤ 2 ^ 1332 := by
    have h1 := a.natAbs_sval
    have h2 := b.natAbs_sval
    rw [show (1332 : Nat) = 1331 + 1 by rfl, pow_succ]
    omega
  have hlt : roundU 52 (a.sval + b.sval).natAbs 1 < f64.infEnc := by
    obtain ⟨c, hc⟩ := rep_mul_pow 52 1 1332 (by norm_num)
    rw [Nat.one_mul] at hc
    have h1 : roundU 52 (a.sval + b.sval).natAbs 1 ≤ c := roundU_le (by norm_num) Nat.one_pos (by rw [hc, Nat.mul_one]; exact hv)
    have h2 : c < f64.infEnc := lt_infEnc_of_mag (by
      show magOf 52 c < _
      rw [hc]; exact Nat.pow_lt_pow_right (by norm_num) (by decide))
    omega
  have hmb : (a + b).mb = roundU 52 (a.sval + b.sval).natAbs 1 := by
    rw [e, mb_roundMag]; exact Nat.min_eq_left hlt.le
  refine ⟨_, _, ?_, ?_, rfl, rfl, ?_, ?_⟩
  · rw [isFinite_iff, hmb]; exact hlt
  · rw [e, sign_roundMag]
  · exact hmb
  · rw [mag, hmb]; rfl

/-- the halfway test of the code -/
theorem halfway_iff (r : Flt f64) :
    (r.toBits &&& ((1#f64.bits <<< (f64.sb - f32.sb)) - 1#f64.bits) ≠ 1#f64.bits <<< (f64.sb - f32.sb - 1)) ↔ r.mb % 2 ^ 29 ≠ 2 ^ 28 := by
  have h1 : (r.toBits &&& ((1#f64.bits <<< (f64.sb - f32.sb)) - 1#f64.bits)).toNat = r.mb % 2 ^ 29 := by
    rw [BV.and_low (k := 29) (by decide)]
    exact mod_enc r (t := 29) (by decide)
  rw [ne_eq, ne_eq, ← BitVec.toNat_inj, h1]
  rfl

theorem neg_bit (r : Flt f64) : (r.toBits >>> (f64.bits - 1) ≠ 0#f64.bits) ↔ r.sign = true := by
  rw [ne_eq, ← BitVec.toNat_inj, BV.shr, bits_sub_one]
  have := r.enc_eq
  have hl := r.mb_lt
  have h2 : 0 < 2 ^ (f64.ew + f64.sb) := Nat.two_pow_pos _
  change r.enc / _ ≠ 0 ↔ _
  cases h : r.sign
  · rw [h] at this
    simp only [Bool.false_eq_true, if_false, Nat.add_zero] at this
    rw [this, Nat.div_eq_of_lt hl]; simp
  · rw [h] at this
    simp only [if_true] at this
    rw [this, Nat.add_div_right _ h2]; simp

theorem hair_of_mid {x y z : Flt f32} {V : ℤ} (hV : x.toRat * y.toRat + z.toRat = (V : ℚ) * f64.ulp) {v m c : Nat}
    (hv : v = V.natAbs) (hm : m = roundU 52 v 1) (hc : magOf 52 m = mid c) (hs : mid c < 2 ^ 948) (hne : v ≠ mid c) :
    FmafHair x y z := by
  obtain ⟨r, k, h1, h2, h3⟩ := mid_form c
  have hr : r < 2 ^ 23 := by
    by_contra hcon
    have hp : 2 ^ 24 * 2 ^ (k + 924) ≤ (2 * r + 1) * 2 ^ (k + 924) := Nat.mul_le_mul_right _ (by omega)
    rw [← h1, ← pow_add] at hp
    have : (2 : Nat) ^ 948 ≤ 2 ^ (24 + (k + 924)) := Nat.pow_le_pow_right (by norm_num) (by omega)
    omega
  have hk : k = 0 := by rcases h3 with h | h <;> omega
  subst hk
  rw [Nat.zero_add] at h1
  have hm52 : 2 ^ 52 ≤ m := by
    by_contra hcon
    have h4 : magOf 52 m = m := by
      have := magOf_split 52 0 m (by omega) (Or.inr rfl)
      simpa using this
    have h5 := mid_ge c
    have : (2 : Nat) ^ 52 ≤ 2 ^ 924 := Nat.pow_le_pow_right (by norm_num) (by norm_num)
    omega
  obtain ⟨n1, n2⟩ := near_rel hm hm52
  rw [hc] at n1 n2
  have eK : (((2 * r + 1 : ℕ) : ℚ)) * 2 ^ (-150 : ℤ) = (mid c : ℚ) * f64.ulp := by
    have e : (2 : ℚ) ^ (-150 : ℤ) = ((2 ^ 924 : ℕ) : ℚ) * f64.ulp := by
      rw [Nat.cast_pow, Fmt.ulp, ← zpow_natCast, Nat.cast_two, ← zpow_add₀ (by norm_num)]
      rfl
    rw [h1, Nat.cast_mul, mul_assoc, e]
  have eV : |x.toRat * y.toRat + z.toRat| = (v : ℚ) * f64.ulp := by
    rw [hV, abs_mul, abs_of_pos f64.ulp_pos, hv, natAbs_rat]
  refine ⟨2 * r + 1, by omega, by omega, ?_, ?_⟩
  · rw [eV, eK]
    intro h
    have := mul_right_cancel₀ f64.ulp_ne h
    exact hne (by exact_mod_cast this)
  · rw [eV, eK, ← sub_mul, abs_mul, abs_of_pos f64.ulp_pos, ← mul_assoc]
    refine mul_le_mul_of_nonneg_right ?_ f64.ulp_pos.le
    have e53 : (2 : ℚ) ^ (-53 : ℤ) = 1 / 9007199254740992 := by norm_num
    have q1 : (2 ^ 53 * v : ℚ) ≤ 2 ^ 53 * mid c + mid c := by exact_mod_cast n1
    have q2 : (2 ^ 53 * mid c : ℚ) ≤ 2 ^ 53 * v + mid c := by exact_mod_cast n2
    rw [e53, abs_le]
    constructor
    · linarith
    · linarith

theorem mag_lt_1331 {x y : Flt f32} (hx : x.isFinite) (hy : y.isFinite) {a : Flt f64} (h : a.toRat = x.toRat * y.toRat) :
    a.mag < 2 ^ 1331 := by
  have h1 := mag32_lt hx
  have h2 := mag32_lt hy
  have e : (a.mag : ℚ) * f64.ulp = ((x.mag * y.mag * 2 ^ 776 : ℕ) : ℚ) * f64.ulp := by
    rw [← toRat_abs, h, abs_mul, toRat_abs, toRat_abs]
    have e : (x.mag : ℚ) * f32.ulp * (y.mag * f32.ulp) = x.mag * y.mag * (f32.ulp * f32.ulp) := by ring
    rw [e, ulp32_sq, zpow776, Nat.cast_mul, Nat.cast_mul]
    ring
  have e := mul_right_cancel₀ f64.ulp_ne e
  have e : a.mag = x.mag * y.mag * 2 ^ 776 := by exact_mod_cast e
  have h3 : x.mag * y.mag ≤ 2 ^ 277 * 2 ^ 277 := Nat.mul_le_mul h1.le h2.le
  calc a.mag = x.mag * y.mag * 2 ^ 776 := e
    _ ≤ 2 ^ 277 * 2 ^ 277 * 2 ^ 776 := Nat.mul_le_mul_right _ h3
    _ = 2 ^ 1330 := by rw [← pow_add, ← pow_add]
    _ < 2 ^ 1331 := Nat.pow_lt_pow_right (by norm_num) (by norm_num)

theorem mag_lt_1331' {z : Flt f32} (hz : z.isFinite) {b : Flt f64} (h : b.sval = z.sval * 2 ^ 925) :
    b.mag < 2 ^ 1331 := by
  have h1 := mag32_lt hz
  have e : b.mag = z.mag * 2 ^ 925 := by
    rw [← natAbs_sval, h, Int.natAbs_mul, natAbs_sval, Int.natAbs_pow]
    rfl
  calc b.mag = z.mag * 2 ^ 925 := e
    _ ≤ 2 ^ 277 * 2 ^ 925 := Nat.mul_le_mul_right _ h1.le
    _ = 2 ^ 1202 := by rw [← pow_add]
    _ < 2 ^ 1331 := Nat.pow_lt_pow_right (by norm_num) (by norm_num)

/-- the test for an exact sum decides exactness -/
theorem exact_test {F : Fmt} {a b : Flt F} (ha : a.isFinite) (hb : b.isFinite) (hr : (a + b).isFinite) :
    (((a + b - a =ᶠ b) = true) ∧ ((a + b - b =ᶠ a) = true)) ↔ (a + b).sval = a.sval + b.sval := by
  have hcomm : a + b = b + a := by
    rw [add_finite ha hb, add_finite hb ha, Int.add_comm, Bool.and_comm]
  constructor
  · rintro ⟨h1, h2⟩
    rcases Nat.le_total b.mag a.mag with h | h
    · obtain ⟨c, c1, c2⟩ := fast2sum ha hb h hr
      have := (sub_sval hr ha c1 c2).2
      rw [feq_iff] at h1
      omega
    · obtain ⟨c, c1, c2⟩ := fast2sum hb ha h (hcomm ▸ hr)
      rw [← hcomm] at c2
      have := (sub_sval hr hb c1 c2).2
      rw [feq_iff] at h2
      omega
  · intro h
    obtain ⟨s1, s2⟩ := sub_sval hr ha hb (by omega)
    obtain ⟨t1, t2⟩ := sub_sval hr hb ha (by omega)
    rw [feq_iff, feq_iff]
    exact ⟨⟨not_nan_of_finite s1, not_nan_of_finite hb, by omega⟩, ⟨not_nan_of_finite t1, not_nan_of_finite ha, by omega⟩⟩

/-- the sign of the error term is the sign of the exact rounding error -/
theorem err_sign {F : Fmt} {a b : Flt F} (ha : a.isFinite) (hb : b.isFinite) (hr : (a + b).isFinite)
    (hs : (a + b).sign = decide (a.sval + b.sval < 0)) :
    ((if (a + b).sign = (b >ᶠ a) then a - (a + b) + b else b - (a + b) + a) <ᶠ zero F false) =
      decide (a.sval + b.sval < (a + b).sval) := by
  have hcomm : a + b = b + a := by
    rw [add_finite ha hb, add_finite hb ha, Int.add_comm, Bool.and_comm]
  have hlt : (b >ᶠ a) = decide (a.sval < b.sval) := by
    rw [Bool.eq_iff_iff, lt_iff, decide_eq_true_iff]
    exact ⟨fun h => h.2.2, fun h => ⟨not_nan_of_finite ha, not_nan_of_finite hb, h⟩⟩
  have na := a.natAbs_sval
  have nb := b.natAbs_sval
  rw [Bool.eq_iff_iff, decide_eq_true_iff]
  split
  · rename_i hc
    rw [hs, hlt, decide_eq_decide] at hc
    have hle : b.mag ≤ a.mag := by omega
    obtain ⟨c, c1, c2⟩ := fast2sum ha hb hle hr
    obtain ⟨s1, s2⟩ := sub_sval ha hr (c := -c) (by rw [isFinite_neg]; exact c1) (by rw [sval_neg]; omega)
    rw [add_lt_zero s1 hb]
    omega
  · rename_i hc
    rw [hs, hlt, decide_eq_decide] at hc
    have hle : a.mag ≤ b.mag := by omega
    obtain ⟨c, c1, c2⟩ := fast2sum hb ha hle (hcomm ▸ hr)
    rw [← hcomm] at c2
    obtain ⟨s1, s2⟩ := sub_sval hb hr (c := -c) (by rw [isFinite_neg]; exact c1) (by rw [sval_neg]; omega)
    rw [add_lt_zero s1 ha]
    omega

/-- **C22** (partial).  For all finite `x`, `y`, `z` the result of `fmaf` is the correctly rounded exact `x·y + z`,
with the IEEE sign for an exact zero, unless the sum is a subnormal number a hair away from a midpoint.  Without the
proviso the claim is false of the code: `fmaf_hair_wrong`. -/
theorem fmaf_partial {x y z : Flt f32} (hx : x.isFinite) (hy : y.isFinite) (hz : z.isFinite) (hh : ¬ FmafHair x y z) :
    ∃ r, fmaf x y z = some r ∧ IsRNE (x.toRat * y.toRat + z.toRat) r ∧
      (x.toRat * y.toRat + z.toRat = 0 → r.sign = ((x.sign ^^ y.sign) && z.sign)) := by
  obtain ⟨a1, a2, a3⟩ := widen_mul_exact hx hy
  obtain ⟨b1, b2, b3⟩ := widen_exact hz
  have vz : (z.cast f64).toRat = z.toRat := by
    rw [toRat_eq, toRat_eq, b3, ulp32_eq, zpow925, Int.cast_mul, Int.cast_pow, Nat.cast_pow]; push_cast; ring
  have la := mag_lt_1331 hx hy a3
  have lb := mag_lt_1331' hz b3
  unfold fmaf fmaWideRound
  simp only
  obtain ⟨a, ha⟩ : ∃ a, a = x.cast f64 * y.cast f64 := ⟨_, rfl⟩
  obtain ⟨b, hb⟩ : ∃ b, b = z.cast f64 := ⟨_, rfl⟩
  rw [← ha] at a1 a2 a3 la
  rw [← hb] at b1 b2 vz lb
  rw [← ha, ← hb]
  have hV : x.toRat * y.toRat + z.toRat = ((a.sval + b.sval : ℤ) : ℚ) * f64.ulp := by
    rw [← a3, ← vz, toRat_eq, toRat_eq]; push_cast; ring
  clear ha hb b3
  simp only [halfway_iff, neg_bit, Bool.decide_eq_true, ex_eq, expSat_eq]
  by_cases h0 : a.sval + b.sval = 0
  · have e := add_finite a1 b1
    rw [if_pos h0] at e
    refine ⟨zero f32 (a.sign && b.sign), ?_, ?_, ?_⟩
    · rw [e, if_pos (Or.inl (by rw [mb_zero]; norm_num))]
      simp only [Option.map_some, Option.some.injEq]
      rw [narrow_eq (isFinite_zero _), mag_zero, roundMag_zero _ _ (Nat.two_pow_pos _), sign_zero]
    · rw [hV, h0, Int.cast_zero, zero_mul]
      exact isRNE_zero _
    · intro _
      rw [sign_zero, a2, b2]
  · obtain ⟨v, m, S⟩ := sum_spec a1 b1 la lb h0
    have hq : |x.toRat * y.toRat + z.toRat| = (v : ℚ) / ((2 ^ 925 : ℕ) : ℚ) * f32.ulp := by
      have hp : ((2 ^ 925 : ℕ) : ℚ) ≠ 0 := by exact_mod_cast (Nat.two_pow_pos 925).ne'
      rw [hV, abs_mul, abs_of_pos f64.ulp_pos, ulp32_eq, zpow925, S.hv, natAbs_rat, ← mul_assoc, div_mul_cancel₀ _ hp]
    have hq0 : x.toRat * y.toRat + z.toRat ≠ 0 := by
      rw [hV]
      exact mul_ne_zero (by exact_mod_cast h0) f64.ulp_ne
    have hsg : x.toRat * y.toRat + z.toRat ≠ 0 → ((a + b).sign = true ↔ x.toRat * y.toRat + z.toRat < 0) := by
      intro _
      rw [S.sgn, decide_eq_true_iff, hV]
      constructor
      · intro h
        exact mul_neg_of_neg_of_pos (by exact_mod_cast h) f64.ulp_pos
      · intro h
        have := neg_of_mul_neg_left h f64.ulp_pos.le
        exact_mod_cast this
    -- it suffices to find a magnitude on the same side of all midpoints
    have finish : ∀ (R : Nat) (o : Option (Flt f32)), o = some (roundMag f32 (a + b).sign R (2 ^ 925)) →
        (∀ c, (v < mid c ↔ R < mid c) ∧ (v = mid c ↔ R = mid c)) →
        ∃ r, o = some r ∧ IsRNE (x.toRat * y.toRat + z.toRat) r ∧
          (x.toRat * y.toRat + z.toRat = 0 → r.sign = ((x.sign ^^ y.sign) && z.sign)) := by
      intro R o ho h
      refine ⟨_, ho, ?_, fun h => absurd h hq0⟩
      rw [roundMag_transfer h]
      exact roundMag_isRNE (Nat.two_pow_pos 925) hq hsg
    have hrs : (a + b).sval = if a.sval + b.sval < 0 then -(magOf 52 m : ℤ) else magOf 52 m := by
      rw [show (a + b).sval = if (a + b).sign then -((a + b).mag : ℤ) else (a + b).mag from rfl, S.sgn, S.hmag]
      simp only [decide_eq_true_iff]
    by_cases hmid : m % 2 ^ 29 = 2 ^ 28
    · by_cases hex : (a + b).sval = a.sval + b.sval
      · refine finish (magOf 52 m) _ ?_ ?_
        · rw [if_pos (Or.inr (Or.inr (Or.inl ((exact_test a1 b1 S.fin).mpr hex))))]
          simp only [Option.map_some]
          rw [narrow_eq S.fin, S.hmag]
        · intro c
          have : v = magOf 52 m := by
            rw [S.hv, ← hex, natAbs_sval, S.hmag]
          rw [this]
          exact ⟨Iff.rfl, Iff.rfl⟩
      · have hne : v ≠ magOf 52 m := by
          intro h
          apply hex
          rw [hrs]
          have := S.hv
          split <;> omega
        have hcond : ¬ ((a + b).mb % 2 ^ 29 ≠ 2 ^ 28 ∨ (a + b).expField = 2 ^ f64.ew - 1 ∨
            ((a + b - a =ᶠ b) = true ∧ (a + b - b =ᶠ a) = true) ∨ Round.Nearest ≠ Round.Nearest) := by
          rw [exact_test a1 b1 S.fin, S.hmb]
          have := S.fin
          rintro (h | h | h | h)
          · exact h hmid
          · exact this h
          · exact hex h
          · exact h rfl
        rw [if_neg hcond, err_sign a1 b1 S.fin S.sgn]
        have hinf : m < f64.infEnc := by rw [← S.hmb]; exact (isFinite_iff _).mp S.fin
        have hinf2 : f64.infEnc % 2 ^ 29 = 0 := by decide
        have hl := f64.infEnc_lt
        rcases Nat.lt_or_gt_of_ne hne with hlt | hgt
        · -- towards zero
          refine finish (magOf 52 (m - 1)) _ ?_ ?_
          · have hc : ¬ ((a + b).sign = decide (a.sval + b.sval < (a + b).sval)) := by
              rw [S.sgn, decide_eq_decide, hrs]
              have := S.hv
              split <;> omega
            have := dec_mk (a + b) (by rw [S.hmb]; omega)
            rw [if_neg hc, Option.map_map]
            rw [Option.map_eq_some_iff] at this ⊢
            obtain ⟨u, u1, u2⟩ := this
            refine ⟨u, u1, ?_⟩
            simp only [Function.comp, FpResult.ok]
            rw [u2, S.hmb, narrow_eq (by rw [isFinite_iff, mb_mk' (by omega)]; omega), sign_mk' (by omega), mag_mk' (by omega)]
            rfl
          · intro c
            exact same_side_down (v := v) (m := m - 1) (by have := S.hm; omega) (by omega)
              (by rw [show m - 1 + 1 = m by omega]; exact hlt) c
        · refine finish (magOf 52 (m + 1)) _ ?_ ?_
          · have hc : (a + b).sign = decide (a.sval + b.sval < (a + b).sval) := by
              rw [S.sgn, decide_eq_decide, hrs]
              have := S.hv
              split <;> omega
            have := inc_mk (a + b) (by rw [S.hmb]; omega)
            rw [if_pos hc, Option.map_map]
            rw [Option.map_eq_some_iff] at this ⊢
            obtain ⟨u, u1, u2⟩ := this
            refine ⟨u, u1, ?_⟩
            simp only [Function.comp, FpResult.ok]
            rw [u2, S.hmb, narrow_eq (by rw [isFinite_iff, mb_mk' (by omega)]; omega), sign_mk' (by omega), mag_mk' (by omega)]
            rfl
          · intro c
            exact same_side_up (v := v) (m := m) S.hm (by omega) hgt c
    · refine finish (magOf 52 m) _ ?_ ?_
      · rw [if_pos (Or.inl (by rw [S.hmb]; exact hmid))]
        simp only [Option.map_some]
        rw [narrow_eq S.fin, S.hmag]
      · rw [S.hm]
        apply same_side_of_not_mid
        intro c hc
        rw [← S.hm] at hc
        by_contra hne
        rcases Nat.lt_or_ge (mid c) (2 ^ 948) with hs | hs
        · exact hh (hair_of_mid hV S.hv S.hm hc hs hne)
        · exact hmid (mid_low_bits hc hs)

/-- **C22**: `fmaf` is correctly rounded whenever the exact result is not in the subnormal range. -/
theorem fmaf_normal {x y z : Flt f32} (hx : x.isFinite) (hy : y.isFinite) (hz : z.isFinite)
    (hn : 2 ^ (-126 : ℤ) ≤ |x.toRat * y.toRat + z.toRat|) :
    ∃ r, fmaf x y z = some r ∧ IsRNE (x.toRat * y.toRat + z.toRat) r := by
  obtain ⟨r, h1, h2, -⟩ := fmaf_partial hx hy hz (by
    rintro ⟨k, k1, k2, -, k4⟩
    have hk : (k : ℚ) ≤ 2 ^ 24 - 1 := by
      have : (k : ℚ) + 1 ≤ 2 ^ 24 := by exact_mod_cast k2
      linarith
    have hu : (0 : ℚ) < 2 ^ (-150 : ℤ) := zpow_pos (by norm_num) _
    have e : (2 : ℚ) ^ (-126 : ℤ) = 2 ^ 24 * 2 ^ (-150 : ℤ) := by
      rw [← zpow_natCast, ← zpow_add₀ (by norm_num)]; rfl
    have e53 : (2 : ℚ) ^ (-53 : ℤ) = 1 / 9007199254740992 := by norm_num
    rw [e] at hn
    rw [e53] at k4
    have := (abs_le.mp k4).2
    generalize (2 : ℚ) ^ (-150 : ℤ) = u at *
    have h3 : (k : ℚ) * u ≤ (2 ^ 24 - 1) * u := mul_le_mul_of_nonneg_right hk hu.le
    linarith)
  exact ⟨r, h1, h2⟩

/-- **C22**: exact zero results carry the IEEE sign, for all finite operands. -/
theorem fmaf_zero {x y z : Flt f32} (hx : x.isFinite) (hy : y.isFinite) (hz : z.isFinite)
    (h0 : x.toRat * y.toRat + z.toRat = 0) :
    fmaf x y z = some (zero f32 ((x.sign ^^ y.sign) && z.sign)) := by
  obtain ⟨r, h1, h2, h3⟩ := fmaf_partial hx hy hz (by
    rintro ⟨k, k1, k2, -, k4⟩
    rw [h0, abs_zero, zero_sub, abs_neg] at k4
    have hk : (1 : ℚ) ≤ k := by exact_mod_cast (by omega : 1 ≤ k)
    have hu : (0 : ℚ) < 2 ^ (-150 : ℤ) := zpow_pos (by norm_num) _
    have hp : (0 : ℚ) < k * 2 ^ (-150 : ℤ) := by positivity
    rw [abs_of_pos hp] at k4
    have e53 : (2 : ℚ) ^ (-53 : ℤ) = 1 / 9007199254740992 := by norm_num
    rw [e53] at k4
    linarith)
  rw [h1]
  congr 1
  rw [h0] at h2
  exact h2.unique (isRNE_zero _) (fun _ => by rw [h3 h0, sign_zero])

/-- **C22**: `fmaf` never panics, on any operands of any class -/
theorem fmaf_total (x y z : Flt f32) : ∃ r, fmaf x y z = some r := by
  unfold fmaf fmaWideRound
  simp only [halfway_iff, neg_bit, Bool.decide_eq_true, ex_eq, expSat_eq]
  split
  · exact ⟨_, rfl⟩
  · rename_i h
    push Not at h
    obtain ⟨h1, h2, -⟩ := h
    have hf : (x.cast f64 * y.cast f64 + z.cast f64).isFinite := h2
    have hi := inc_mk _ ((isFinite_iff _).mp hf)
    have hd := dec_mk (x.cast f64 * y.cast f64 + z.cast f64) (by omega)
    rw [Option.map_eq_some_iff] at hi hd
    obtain ⟨u, u1, u2⟩ := hi
    obtain ⟨w, w1, w2⟩ := hd
    rw [u1, w1]
    split <;> split <;> exact ⟨_, rfl⟩

/-! ### infinities and NaNs -/

theorem widen_class (x : Flt f32) : ((x.cast f64).isNaN ↔ x.isNaN) ∧ ((x.cast f64).isInf ↔ x.isInf) ∧
    ((x.cast f64).isZero ↔ x.isZero) ∧ (¬ x.isNaN → (x.cast f64).sign = x.sign) := by
  rcases class_cases x with h | h | h
  · have e : x.cast f64 = qnan f64 := by unfold Flt.cast; rw [if_pos h]
    have hq : (qnan f64).isNaN := isNaN_qnan
    rw [e]
    refine ⟨iff_of_true hq h, iff_of_false (not_inf_of_nan hq) (not_inf_of_nan h), ?_, fun k => absurd h k⟩
    exact iff_of_false (fun k => not_finite_of_nan hq (finite_of_zero k)) (fun k => not_finite_of_nan h (finite_of_zero k))
  · have e : x.cast f64 = inf f64 x.sign := by
      unfold Flt.cast; rw [if_neg (not_nan_of_inf h), if_pos h]
    have hq : (inf f64 x.sign).isInf := isInf_inf _
    rw [e]
    refine ⟨iff_of_false (not_nan_of_inf hq) (not_nan_of_inf h), iff_of_true hq h, ?_, fun _ => sign_inf _⟩
    exact iff_of_false (fun k => not_finite_of_inf hq (finite_of_zero k)) (fun k => not_finite_of_inf h (finite_of_zero k))
  · obtain ⟨h1, h2, h3⟩ := widen_exact h
    refine ⟨iff_of_false (not_nan_of_finite h1) (not_nan_of_finite h), iff_of_false (not_inf_of_finite h1) (not_inf_of_finite h), ?_, fun _ => h2⟩
    rw [isZero_iff_sval, isZero_iff_sval, h3]
    constructor
    · intro k
      rcases Int.mul_eq_zero.mp k with k | k
      · exact k
      · exact absurd k (pow_ne_zero _ (by norm_num))
    · intro k; rw [k, Int.zero_mul]

/-- **C22**: infinities and NaNs follow IEEE 754 -/
theorem fmaf_special (x y z r : Flt f32) (hr : fmaf x y z = some r) :
    ((x.isNaN ∨ y.isNaN ∨ z.isNaN) → r.isNaN) ∧
    ((x.isInf ∧ y.isZero ∨ x.isZero ∧ y.isInf) → r.isNaN) ∧
    (¬ (x.isNaN ∨ y.isNaN ∨ z.isNaN) → ¬ (x.isInf ∧ y.isZero ∨ x.isZero ∧ y.isInf) →
      (x.isInf ∨ y.isInf → z.isInf → z.sign ≠ (x.sign ^^ y.sign) → r.isNaN) ∧
      (x.isInf ∨ y.isInf → ¬ (z.isInf ∧ z.sign ≠ (x.sign ^^ y.sign)) → r = inf f32 (x.sign ^^ y.sign)) ∧
      (¬ (x.isInf ∨ y.isInf) → z.isInf → r = z)) := by
  obtain ⟨xn, xi, xz, xs⟩ := widen_class x
  obtain ⟨yn, yi, yz, ys⟩ := widen_class y
  obtain ⟨zn, zi, zz, zs⟩ := widen_class z
  have hadd : ∀ a b : Flt f64, a + b = if a.isNaN ∨ b.isNaN then qnan f64
    else if a.isInf then (if b.isInf ∧ a.sign ≠ b.sign then qnan f64 else a)
    else if b.isInf then b
    else if a.sval + b.sval = 0 then zero f64 (a.sign && b.sign)
      else roundMag f64 (decide (a.sval + b.sval < 0)) (a.sval + b.sval).natAbs 1 := fun a b => rfl
  have hmul : ∀ a b : Flt f64, a * b = if a.isNaN ∨ b.isNaN then qnan f64
    else if (a.isInf ∧ b.isZero) ∨ (a.isZero ∧ b.isInf) then qnan f64
    else if a.isInf ∨ b.isInf then inf f64 (a.sign ^^ b.sign)
    else roundMag f64 (a.sign ^^ b.sign) (a.mag * b.mag) f64.oneMag := fun a b => rfl
  -- a non-finite sum is returned converted
  have key : ∀ w : Flt f64, x.cast f64 * y.cast f64 + z.cast f64 = w → ¬ w.isFinite → r = w.cast f32 := by
    intro w hw hf
    unfold fmaf fmaWideRound at hr
    simp only [hw, ex_eq, expSat_eq] at hr
    rw [if_pos (Or.inr (Or.inl (not_not.mp hf)))] at hr
    exact (Option.some.inj hr).symm
  have keyN : x.cast f64 * y.cast f64 + z.cast f64 = qnan f64 → r.isNaN := by
    intro h
    rw [key _ h (not_finite_of_nan isNaN_qnan)]
    unfold Flt.cast
    rw [if_pos isNaN_qnan]
    exact isNaN_qnan
  have keyI : ∀ s, x.cast f64 * y.cast f64 + z.cast f64 = inf f64 s → r = inf f32 s := by
    intro s h
    rw [key _ h (not_finite_of_inf (isInf_inf _))]
    unfold Flt.cast
    rw [if_neg (not_nan_of_inf (isInf_inf _)), if_pos (isInf_inf _), sign_inf]
  have hN : ∀ a b : Flt f64, a.isNaN ∨ b.isNaN → a + b = qnan f64 := fun a b hab => by rw [hadd, if_pos hab]
  refine ⟨?_, ?_, ?_⟩
  · intro hn
    refine keyN (hN _ _ ?_)
    by_cases hz : z.isNaN
    · exact Or.inr (zn.mpr hz)
    · refine Or.inl ?_
      rw [hmul, if_pos (by rw [xn, yn]; exact hn.elim Or.inl fun k => k.elim Or.inr fun k => absurd k hz)]
      exact isNaN_qnan
  · intro h0
    refine keyN (hN _ _ (Or.inl ?_))
    have : x.cast f64 * y.cast f64 = qnan f64 := by
      have h0' : (x.cast f64).isInf ∧ (y.cast f64).isZero ∨ (x.cast f64).isZero ∧ (y.cast f64).isInf := by
        rw [xi, yi, xz, yz]; exact h0
      rw [hmul, if_pos h0', ite_self]
    rw [this]; exact isNaN_qnan
  · intro hn h0
    push Not at hn
    obtain ⟨n1, n2, n3⟩ := hn
    have hi : x.isInf ∨ y.isInf → x.cast f64 * y.cast f64 = inf f64 (x.sign ^^ y.sign) := fun hi => by
      rw [hmul, if_neg (by rw [xn, yn]; exact fun k => k.elim n1 n2), if_neg (by rw [xi, yi, xz, yz]; exact h0),
        if_pos (by rw [xi, yi]; exact hi), xs n1, ys n2]
    refine ⟨?_, ?_, ?_⟩
    · intro h1 h2 h3
      apply keyN
      rw [hi h1, hadd, if_neg (by push Not; exact ⟨not_nan_of_inf (isInf_inf _), by rw [zn]; exact n3⟩),
        if_pos (isInf_inf _), if_pos ⟨zi.mpr h2, by rw [sign_inf, zs n3]; exact fun h => h3 h.symm⟩]
    · intro h1 h2
      apply keyI
      rw [hi h1, hadd, if_neg (by push Not; exact ⟨not_nan_of_inf (isInf_inf _), by rw [zn]; exact n3⟩),
        if_pos (isInf_inf _), if_neg (by rw [sign_inf, zs n3, zi]; exact fun h => h2 ⟨h.1, fun e => h.2 e.symm⟩)]
    · intro h1 h2
      have fx : x.isFinite := finite_of_not n1 (fun k => h1 (Or.inl k))
      have fy : y.isFinite := finite_of_not n2 (fun k => h1 (Or.inr k))
      obtain ⟨hf, -, -⟩ := widen_mul_exact fx fy
      rw [eq_inf h2]
      apply keyI
      rw [hadd, if_neg (by push Not; exact ⟨not_nan_of_finite hf, by rw [zn]; exact n3⟩),
        if_neg (not_inf_of_finite hf), if_pos (zi.mpr h2), eq_inf (zi.mpr h2), zs n3]

/-! ### The remaining case fails in the code -/

/-- `8384513·2^-98` -/
def hair32X : Flt f32 := ⟨436199426#32⟩
/-- `8392705·2^-98` -/
def hair32Y : Flt f32 := ⟨436211713#32⟩
/-- `2^-127`, a subnormal number -/
def hair32Z : Flt f32 := ⟨0x400000#32⟩

/-- **C22 is false of the code in the excluded case**: the exact `x·y + z = 2^-127 + 2^-150 + 2^-196` is nearer to
`2^-127 + 2^-149`, but `fmaf` returns `2^-127`: the intermediate binary64 sum drops the `2^-196` and the test for
halfway cases looks at the position of the last bit of a *normal* binary32 result. -/
theorem fmaf_hair_wrong : FmafHair hair32X hair32Y hair32Z ∧ fmaf hair32X hair32Y hair32Z = some hair32Z ∧
    ¬ IsRNE (hair32X.toRat * hair32Y.toRat + hair32Z.toRat) hair32Z := by
  have h1 := toRat_val (x := hair32X) 8384513 51 (-98) (by decide +kernel) (by decide)
  have h2 := toRat_val (x := hair32Y) 8392705 51 (-98) (by decide +kernel) (by decide)
  have h3 := toRat_val (x := hair32Z) 1 22 (-127) (by decide +kernel) (by decide)
  have h4 := toRat_val (x := (⟨0x400001#32⟩ : Flt f32)) 4194305 0 (-149) (by decide +kernel) (by decide)
  refine ⟨⟨8388609, by norm_num, by norm_num, ?_, ?_⟩, by decide +kernel, ?_⟩
  · rw [h1, h2, h3]; norm_num
  · rw [h1, h2, h3]; norm_num [abs_of_pos]
  · refine not_isRNE_of_closer (s := ⟨0x400001#32⟩) (t := ⟨0x400001#32⟩) (by decide +kernel) (by decide +kernel) ?_ ?_
    · rw [h1, h2, h3, h4]; norm_num [abs_of_pos]
    · rw [h1, h2, h3, h4]; norm_num [abs_of_pos, abs_of_neg]

/-! ### Concrete cases meeting the hypotheses -/

/-- `fmaf_normal` on the regression input of fma_wide.rs 99-105, a true halfway case in binary64 -/
example : fmaf ⟨1266679807#32⟩ ⟨1300234242#32⟩ ⟨1115553792#32⟩ = some ⟨1501560833#32⟩ ∧
    2 ^ (-126 : ℤ) ≤ |(⟨1266679807#32⟩ : Flt f32).toRat * (⟨1300234242#32⟩ : Flt f32).toRat + (⟨1115553792#32⟩ : Flt f32).toRat| := by
  refine ⟨by decide +kernel, ?_⟩
  rw [toRat_val (x := (⟨1266679807#32⟩ : Flt f32)) 16777215 149 0 (by decide +kernel) (by decide),
    toRat_val (x := (⟨1300234242#32⟩ : Flt f32)) 8388610 154 5 (by decide +kernel) (by decide),
    toRat_val (x := (⟨1115553792#32⟩ : Flt f32)) 16646144 131 (-18) (by decide +kernel) (by decide)]
  norm_num [abs_of_pos]

end Verif
