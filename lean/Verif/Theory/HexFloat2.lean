import Verif.Theory.HexFloat
import Verif.Theory.RNE
import Verif.Theory.Rep
import Verif.Spec.HexFloat

/-! # The encoding stage of the hex float parser produces the correctly rounded number in every mode -/

namespace Verif
namespace HexFloat
open Flt
variable {F : Fmt}

theorem toRat_mk (s : Bool) (b : Nat) (hb : b < 2 ^ (F.ew + F.sb)) :
    (mk' F s b).toRat = (if s then -1 else 1) * ((magOf F.sb b : ℚ) * F.ulp) := by
  rw [toRat_signed, sign_mk' hb, mag_mk' hb]

theorem finite_mk {s : Bool} {b : Nat} (hb : b < F.infEnc) : (mk' F s b).isFinite := by
  have := F.infEnc_lt
  rw [isFinite_iff, mb_mk' (by omega)]; exact hb

theorem inf_mk {s : Bool} : (mk' F s F.infEnc).isInf := by
  rw [isInf_iff, mb_mk' F.infEnc_lt]

theorem isDown_of {t : ℚ} {u : Nat} (h1 : (magOf F.sb u : ℚ) ≤ t) (h2 : t < magOf F.sb (u + 1)) :
    IsDown (t * F.ulp) (mk' F false (min u (F.infEnc - 1))) := by
  have hi := F.infEnc_lt
  have hi0 := F.infEnc_pos
  have hu := F.ulp_pos
  have hfin : (mk' F false (min u (F.infEnc - 1))).isFinite := finite_mk (by omega)
  have hr : (mk' F false (min u (F.infEnc - 1))).toRat = (magOf F.sb (min u (F.infEnc - 1)) : ℚ) * F.ulp := by
    rw [toRat_mk _ _ (by omega)]; simp
  refine ⟨Or.inl ⟨hfin, ?_⟩, fun s hs hq => ⟨hfin, ?_⟩⟩
  · rw [hr]
    apply mul_le_mul_of_nonneg_right _ hu.le
    refine le_trans ?_ h1
    exact_mod_cast magOf_le.mpr (Nat.min_le_left _ _)
  · rw [hr]
    rw [toRat_signed] at hq ⊢
    have hm0 : (0 : ℚ) ≤ (magOf F.sb (min u (F.infEnc - 1)) : ℚ) * F.ulp := by positivity
    have hs0 : (0 : ℚ) ≤ (s.mag : ℚ) * F.ulp := by positivity
    cases hsg : s.sign with
    | true => simp only [if_true]; linarith
    | false =>
      rw [hsg] at hq
      simp only [Bool.false_eq_true, if_false, one_mul] at hq ⊢
      apply mul_le_mul_of_nonneg_right _ hu.le
      have h3 : (s.mag : ℚ) ≤ t := le_of_mul_le_mul_right hq hu
      have h4 : s.mag < magOf F.sb (u + 1) := by exact_mod_cast lt_of_le_of_lt h3 h2
      have h5 : s.mb < u + 1 := magOf_lt.mp h4
      have h6 := (isFinite_iff s).mp hs
      have h7 : s.mb ≤ min u (F.infEnc - 1) := by omega
      exact_mod_cast magOf_le.mpr h7

theorem isUp_of {t : ℚ} {u : Nat} (h1 : t ≤ (magOf F.sb u : ℚ)) (h2 : ∀ c, c < u → (magOf F.sb c : ℚ) < t)
    (ht : 0 < t) : IsUp (t * F.ulp) (mk' F false (min u F.infEnc)) := by
  have hi := F.infEnc_lt
  have hi0 := F.infEnc_pos
  have hu := F.ulp_pos
  have hr : (mk' F false (min u F.infEnc)).toRat = (magOf F.sb (min u F.infEnc) : ℚ) * F.ulp := by
    rw [toRat_mk _ _ (by omega)]; simp
  have key : ∀ s : Flt F, s.isFinite → t * F.ulp ≤ s.toRat → s.sign = false ∧ u ≤ s.mb := by
    intro s hs hq
    rw [toRat_signed] at hq
    have hs0 : (0 : ℚ) ≤ (s.mag : ℚ) * F.ulp := by positivity
    have ht0 : 0 < t * F.ulp := mul_pos ht hu
    cases hsg : s.sign with
    | true => rw [hsg] at hq; simp only [if_true] at hq; linarith
    | false =>
      refine ⟨rfl, ?_⟩
      rw [hsg] at hq
      simp only [Bool.false_eq_true, if_false, one_mul] at hq
      have h3 : t ≤ (s.mag : ℚ) := le_of_mul_le_mul_right hq hu
      by_contra hc
      exact absurd (h2 s.mb (by omega)) (not_lt.mpr h3)
  refine ⟨?_, ?_⟩
  · by_cases hlt : u < F.infEnc
    · left
      refine ⟨finite_mk (by omega), ?_⟩
      rw [hr, Nat.min_eq_left hlt.le]
      exact mul_le_mul_of_nonneg_right h1 hu.le
    · right
      rw [Nat.min_eq_right (by omega)]
      exact ⟨inf_mk, sign_mk' hi⟩
  · intro s hs hq
    obtain ⟨hsg, hle⟩ := key s hs hq
    have h6 := (isFinite_iff s).mp hs
    have hlt : u < F.infEnc := by omega
    refine ⟨finite_mk (by omega), ?_⟩
    rw [hr, Nat.min_eq_left hlt.le, toRat_signed, hsg]
    simp only [Bool.false_eq_true, if_false, one_mul]
    apply mul_le_mul_of_nonneg_right _ hu.le
    exact_mod_cast magOf_le.mpr hle

theorem maxFinite_eq (F : Fmt) : maxFinite F = (magOf F.sb (F.infEnc - 1) : ℚ) * F.ulp := by
  rw [F.magOf_infEnc_pred]
  have hb := F.sb_lt_bias
  have h1 : (2 : Nat) ^ (2 * F.bias - 1) ≤ 2 ^ (2 * F.bias + F.sb) := Nat.pow_le_pow_right (by norm_num) (by omega)
  rw [Nat.cast_sub h1]
  unfold maxFinite Fmt.ulp
  push_cast
  rw [sub_mul, ← zpow_natCast (2 : ℚ) (2 * F.bias + F.sb), ← zpow_natCast (2 : ℚ) (2 * F.bias - 1),
    ← zpow_add₀ (by norm_num), ← zpow_add₀ (by norm_num), mul_sub, ← zpow_add₀ (by norm_num)]
  have e1 : (2 : ℚ) ^ (F.bias : ℤ) * 2 = 2 ^ ((F.bias : ℤ) + 1) := by rw [zpow_add_one₀ (by norm_num)]
  rw [e1]
  congr 2 <;> · push_cast; omega

theorem two_emax_eq (F : Fmt) : (2 : ℚ) ^ ((F.bias : ℤ) + 1) = (magOf F.sb F.infEnc : ℚ) * F.ulp := by
  rw [F.magOf_infEnc]
  unfold Fmt.ulp
  push_cast
  rw [← zpow_natCast (2 : ℚ) (2 * F.bias + F.sb), ← zpow_add₀ (by norm_num)]
  congr 1
  push_cast
  ring

theorem minNormal_eq (F : Fmt) : (2 : ℚ) ^ (1 - (F.bias : ℤ)) = (magOf F.sb (2 ^ F.sb) : ℚ) * F.ulp := by
  have h := magOf_split F.sb 0 (2 ^ F.sb) (Nat.pow_le_pow_right (by norm_num) (by omega)) (Or.inr rfl)
  simp only [Nat.zero_mul, Nat.zero_add, pow_zero, Nat.mul_one] at h
  rw [h]
  unfold Fmt.ulp
  push_cast
  rw [← zpow_natCast (2 : ℚ) F.sb, ← zpow_add₀ (by norm_num)]
  congr 1
  ring

/-- a positive magnitude `n / d * 2^E` with its quotient `n / d` brought to the precision of the format -/
structure Quot (sb n d E : Nat) : Prop where
  pos : 0 < d
  npos : 0 < n
  hi : n < 2 ^ (sb + 1) * d
  lo : E = 0 ∨ 2 ^ sb * d ≤ n

/-- the encoding (not saturated) -/
def quotEnc (sb : Nat) (m : Round) (n d E : Nat) : Nat := E * 2 ^ sb + modeDiv m n d

section
variable {n d E : Nat}

theorem Quot.div_lt (h : Quot F.sb n d E) : n / d < 2 ^ (F.sb + 1) := (Nat.div_lt_iff_lt_mul h.pos).mpr h.hi

theorem Quot.le_div (h : Quot F.sb n d E) : 2 ^ F.sb ≤ n / d ∨ E = 0 :=
  h.lo.symm.imp (fun h' => (Nat.le_div_iff_mul_le h.pos).mpr h') id

theorem Quot.mag (h : Quot F.sb n d E) : magOf F.sb (E * 2 ^ F.sb + n / d) = n / d * 2 ^ E :=
  magOf_split F.sb E (n / d) h.div_lt.le h.le_div

theorem Quot.mag_succ (h : Quot F.sb n d E) : magOf F.sb (E * 2 ^ F.sb + n / d + 1) = (n / d + 1) * 2 ^ E := by
  rw [Nat.add_assoc]
  exact magOf_split F.sb E (n / d + 1) h.div_lt (h.le_div.imp (fun h => by omega) id)

theorem Quot.modeMag (h : Quot F.sb n d E) (m : Round) :
    magOf F.sb (quotEnc F.sb m n d E) = modeDiv m n d * 2 ^ E := by
  have hd := h.pos
  refine magOf_split F.sb E _ (modeDiv_bounds m hd (Nat.zero_mul _ ▸ Nat.zero_le n) h.hi.le).2 ?_
  rcases h.lo with h0 | h0
  · exact Or.inr h0
  · exact Or.inl (modeDiv_bounds m hd h0 h.hi.le).1

theorem cast_div_le (n d : Nat) (hd : 0 < d) : ((n / d : ℕ) : ℚ) ≤ (n : ℚ) / d := by
  rw [le_div_iff₀ (by exact_mod_cast hd)]
  exact_mod_cast Nat.div_mul_le_self n d

theorem lt_cast_div (n d : Nat) (hd : 0 < d) : (n : ℚ) / d < ((n / d : ℕ) : ℚ) + 1 := by
  rw [div_lt_iff₀ (by exact_mod_cast hd)]
  have := Nat.lt_mul_div_succ n hd
  have h2 : n < (n / d + 1) * d := by rw [Nat.mul_comm]; exact this
  exact_mod_cast h2

theorem Quot.floor_le (h : Quot F.sb n d E) :
    (magOf F.sb (E * 2 ^ F.sb + n / d) : ℚ) ≤ (n : ℚ) / d * 2 ^ E := by
  rw [h.mag]; push_cast
  exact mul_le_mul_of_nonneg_right (by exact_mod_cast cast_div_le n d h.pos) (by positivity)

theorem Quot.lt_succ (h : Quot F.sb n d E) :
    (n : ℚ) / d * 2 ^ E < (magOf F.sb (E * 2 ^ F.sb + n / d + 1) : ℚ) := by
  rw [h.mag_succ]; push_cast
  exact mul_lt_mul_of_pos_right (by exact_mod_cast lt_cast_div n d h.pos) (by positivity)

theorem Quot.exact_iff (h : Quot F.sb n d E) (m : Round) :
    (magOf F.sb (quotEnc F.sb m n d E) : ℚ) = (n : ℚ) / d * 2 ^ E ↔ n % d = 0 := by
  rw [h.modeMag]; push_cast
  have hd : (d : ℚ) ≠ 0 := by exact_mod_cast h.pos.ne'
  constructor
  · intro he
    have h1 : (modeDiv m n d : ℚ) = (n : ℚ) / d := mul_right_cancel₀ (by positivity) he
    rw [eq_div_iff hd] at h1
    have h2 : modeDiv m n d * d = n := by exact_mod_cast h1
    rw [← h2]; exact Nat.mul_mod_left _ _
  · intro he
    obtain ⟨c, rfl⟩ := Nat.dvd_of_mod_eq_zero he
    have h1 : modeDiv m (d * c) d = c := by
      have := modeDiv_scale m c 1 d h.pos
      rw [Nat.one_mul, Nat.mul_comm c d] at this
      rw [this, modeDiv_one]
    rw [h1]; push_cast; field_simp

theorem Quot.tpos (h : Quot F.sb n d E) : (0 : ℚ) < (n : ℚ) / d * 2 ^ E := by
  have h1 : (0 : ℚ) < d := by exact_mod_cast h.pos
  have h2 : (0 : ℚ) < n := by exact_mod_cast h.npos
  positivity

/-- the encoding returned: saturated as lines 167-183 do -/
def satEnc (F : Fmt) (m : Round) (u : Nat) : Nat :=
  if u < F.infEnc then u else
    match m with
    | .Positive | .Nearest => F.infEnc
    | .Negative | .Zero => F.infEnc - 1

/-- the status returned -/
def satStatus (F : Fmt) (exact : Bool) (u : Nat) : Status :=
  if u < F.infEnc then
    (if exact then Status.OK else if u < 2 ^ F.sb then Status.INEXACT.with Status.UNDERFLOW else Status.INEXACT)
  else (Status.OK.with Status.OVERFLOW).with Status.INEXACT

theorem satEnc_lt (m : Round) (u : Nat) : satEnc F m u < 2 ^ (F.ew + F.sb) := by
  have := F.infEnc_lt
  unfold satEnc
  split
  · omega
  · cases m <;> simp <;> omega

theorem Quot.rounded (h : Quot F.sb n d E) (m : Round) :
    IsRounded m ((n : ℚ) / d * 2 ^ E * F.ulp) (mk' F false (satEnc F m (quotEnc F.sb m n d E))) ∧
    (F.infEnc ≤ quotEnc F.sb m n d E ↔ Overflows F m ((n : ℚ) / d * 2 ^ E * F.ulp)) := by
  have hu := F.ulp_pos
  have hi0 := F.infEnc_pos
  have htp := h.tpos
  set t : ℚ := (n : ℚ) / d * 2 ^ E with ht
  have htu : 0 < t * F.ulp := mul_pos htp hu
  have hneg : ¬ t * F.ulp < 0 := not_lt.mpr htu.le
  -- rounding toward zero
  have down : IsDown (t * F.ulp) (mk' F false (satEnc F .Zero (quotEnc F.sb .Zero n d E))) ∧
      (F.infEnc ≤ quotEnc F.sb .Zero n d E ↔ (2 : ℚ) ^ ((F.bias : ℤ) + 1) ≤ t * F.ulp) := by
    have e : quotEnc F.sb .Zero n d E = E * 2 ^ F.sb + n / d := rfl
    constructor
    · have e2 : satEnc F .Zero (quotEnc F.sb .Zero n d E) = min (E * 2 ^ F.sb + n / d) (F.infEnc - 1) := by
        rw [e]; unfold satEnc; split <;> simp <;> omega
      rw [e2]
      exact isDown_of h.floor_le h.lt_succ
    · rw [e, two_emax_eq]
      constructor
      · intro h1
        apply mul_le_mul_of_nonneg_right _ hu.le
        exact le_trans (by exact_mod_cast magOf_le.mpr h1) h.floor_le
      · intro h1
        have h2 : (magOf F.sb F.infEnc : ℚ) ≤ t := le_of_mul_le_mul_right h1 hu
        have h3 : magOf F.sb F.infEnc < magOf F.sb (E * 2 ^ F.sb + n / d + 1) := by
          exact_mod_cast lt_of_le_of_lt h2 h.lt_succ
        have := magOf_lt.mp h3
        omega
  cases m with
  | Zero =>
    refine ⟨?_, ?_⟩
    · show (if (0 : ℚ) ≤ t * F.ulp then _ else _)
      rw [if_pos htu.le]; exact down.1
    · rw [down.2]
      show _ ↔ (2 : ℚ) ^ ((F.bias : ℤ) + 1) ≤ |t * F.ulp|
      rw [abs_of_pos htu]
  | Negative =>
    refine ⟨down.1, ?_⟩
    have e : quotEnc F.sb .Negative n d E = quotEnc F.sb .Zero n d E := rfl
    rw [e, down.2]
    show _ ↔ (t * F.ulp < -maxFinite F ∨ _)
    constructor
    · exact Or.inr
    · rintro (h1 | h1)
      · have : 0 ≤ maxFinite F := by rw [maxFinite_eq]; positivity
        linarith
      · exact h1
  | Positive =>
    set u := quotEnc F.sb .Positive n d E with hu'
    have h1 : t ≤ (magOf F.sb u : ℚ) := by
      by_cases h0 : n % d = 0
      · exact ((h.exact_iff .Positive).mpr h0).ge
      · have : u = E * 2 ^ F.sb + n / d + 1 := by
          rw [hu']; unfold quotEnc modeDiv; simp only [h0, if_false]; omega
        rw [this]; exact h.lt_succ.le
    have h2 : ∀ c, c < u → (magOf F.sb c : ℚ) < t := by
      intro c hc
      by_cases h0 : n % d = 0
      · rw [ht, ← (h.exact_iff .Positive).mpr h0]
        exact_mod_cast magOf_lt.mpr hc
      · have he : u = E * 2 ^ F.sb + n / d + 1 := by
          rw [hu']; unfold quotEnc modeDiv; simp only [h0, if_false]; omega
        have h3 : (magOf F.sb c : ℚ) ≤ (magOf F.sb (E * 2 ^ F.sb + n / d) : ℚ) := by
          exact_mod_cast magOf_le.mpr (by omega)
        refine lt_of_le_of_ne (le_trans h3 h.floor_le) ?_
        intro he2
        have h4 : (magOf F.sb (E * 2 ^ F.sb + n / d) : ℚ) = t := le_antisymm h.floor_le (he2 ▸ h3)
        exact h0 ((h.exact_iff .Zero).mp h4)
    constructor
    · have e2 : satEnc F .Positive u = min u F.infEnc := by
        unfold satEnc; split <;> simp <;> omega
      show IsUp _ _
      rw [e2]
      exact isUp_of h1 h2 htp
    · show _ ↔ (maxFinite F < t * F.ulp ∨ t * F.ulp ≤ -2 ^ ((F.bias : ℤ) + 1))
      rw [maxFinite_eq]
      constructor
      · intro h3
        left
        apply mul_lt_mul_of_pos_right _ hu
        exact h2 _ (by omega)
      · rintro (h3 | h3)
        · have h4 : (magOf F.sb (F.infEnc - 1) : ℚ) < t := lt_of_mul_lt_mul_right h3 hu.le
          have h5 : magOf F.sb (F.infEnc - 1) < magOf F.sb u := by exact_mod_cast lt_of_lt_of_le h4 h1
          have := magOf_lt.mp h5
          omega
        · have : (0 : ℚ) < 2 ^ ((F.bias : ℤ) + 1) := zpow2_pos _
          linarith
  | Nearest =>
    set u := quotEnc F.sb .Nearest n d E with hu'
    have hru : roundU F.sb (n * 2 ^ E) d = u := by
      have hE := Nat.two_pow_pos E
      rcases h.lo with rfl | h0
      · rw [pow_zero, Nat.mul_one, roundU_sub h.pos h.hi, hu']
        unfold quotEnc modeDiv; simp
      · rw [roundU_binade (k := E) h.pos, hu']
        · unfold quotEnc modeDiv
          rw [rneDiv_scale n d (2 ^ E) hE]
        · calc 2 ^ (F.sb + E) * d = 2 ^ F.sb * d * 2 ^ E := by rw [pow_add]; ring
            _ ≤ _ := Nat.mul_le_mul_right _ h0
        · calc n * 2 ^ E < 2 ^ (F.sb + 1) * d * 2 ^ E := Nat.mul_lt_mul_of_pos_right h.hi hE
            _ = _ := by
              have : F.sb + E + 1 = F.sb + 1 + E := by omega
              rw [this, pow_add 2 (F.sb + 1) E]; ring
    have hq : |t * F.ulp| = ((n * 2 ^ E : ℕ) : ℚ) / d * F.ulp := by
      rw [abs_of_pos htu, ht]; push_cast; ring
    have hrne := roundMag_isRNE (F := F) (q := t * F.ulp) (s := false) h.pos hq
      (fun _ => ⟨fun h => by simp at h, fun h => absurd h hneg⟩)
    have e2 : satEnc F .Nearest u = min u F.infEnc := by
      unfold satEnc; split <;> simp <;> omega
    have e3 : roundMag F false (n * 2 ^ E) d = mk' F false (satEnc F .Nearest u) := by
      unfold roundMag; rw [hru, e2]
    rw [e3] at hrne
    refine ⟨hrne, ?_⟩
    show _ ↔ overflowThreshold F ≤ |t * F.ulp|
    unfold IsRNE at hrne
    simp only [Rat.cast_id] at hrne
    constructor
    · intro h1
      by_contra hc
      rw [if_neg hc] at hrne
      have h2 := hrne.1
      rw [e2, Nat.min_eq_right h1] at h2
      exact not_finite_of_inf inf_mk h2
    · intro h1
      rw [if_pos h1] at hrne
      by_contra hc
      have h2 := hrne.1
      rw [e2, Nat.min_eq_left (by omega)] at h2
      exact not_inf_of_finite (finite_mk (by omega)) h2

theorem satStatus_flags (e : Bool) (u : Nat) :
    ((satStatus F e u).inexact = true ↔ (F.infEnc ≤ u ∨ e = false)) ∧
    ((satStatus F e u).overflow = true ↔ F.infEnc ≤ u) ∧
    ((satStatus F e u).underflow = true ↔ u < F.infEnc ∧ e = false ∧ u < 2 ^ F.sb) ∧
    (satStatus F e u).bits &&& 0b11000111#8 = 0#8 := by
  unfold satStatus
  by_cases h : u < F.infEnc
  · rw [if_pos h]
    have h' : ¬ F.infEnc ≤ u := by omega
    cases e
    · by_cases h2 : u < 2 ^ F.sb
      · simp only [h, h', h2]; decide
      · simp only [h, h', h2]; decide
    · by_cases h2 : u < 2 ^ F.sb <;> simp only [h, h', h2] <;> decide
  · have h' : F.infEnc ≤ u := by omega
    by_cases h2 : u < 2 ^ F.sb <;> cases e <;> simp only [h, h', h2, if_false] <;> decide

theorem Quot.flags (h : Quot F.sb n d E) (m : Round) :
    FlagsFor m ((n : ℚ) / d * 2 ^ E * F.ulp) (mk' F false (satEnc F m (quotEnc F.sb m n d E)))
      (satStatus F (decide (n % d = 0)) (quotEnc F.sb m n d E)) := by
  have hu := F.ulp_pos
  have hi := F.infEnc_lt
  have hi0 := F.infEnc_pos
  obtain ⟨f1, f2, f3, f4⟩ := satStatus_flags (F := F) (decide (n % d = 0)) (quotEnc F.sb m n d E)
  have hov := (h.rounded m).2
  have hex := h.exact_iff m
  set u := quotEnc F.sb m n d E with hu'
  have htp := h.tpos
  set t : ℚ := (n : ℚ) / d * 2 ^ E with ht
  have hval : (mk' F false (satEnc F m u)).toRat = (magOf F.sb (satEnc F m u) : ℚ) * F.ulp := by
    rw [toRat_mk _ _ (satEnc_lt m u)]; simp
  have hsat : u < F.infEnc → satEnc F m u = u := fun h => if_pos h
  -- when the encoding saturates to a finite number, that number differs from `q`
  have hne : F.infEnc ≤ u → (mk' F false (satEnc F m u)).isFinite → (mk' F false (satEnc F m u)).toRat ≠ t * F.ulp := by
    intro h1 hf he
    rw [hval] at he
    have h2 : (magOf F.sb (satEnc F m u) : ℚ) = t := mul_right_cancel₀ hu.ne' he
    have h3 : satEnc F m u < F.infEnc := by
      rw [isFinite_iff, mb_mk' (satEnc_lt m u)] at hf; exact hf
    -- `t` is at least the greatest encoding below `u`
    have h5 : (magOf F.sb (F.infEnc - 1) : ℚ) < t ∨ (magOf F.sb F.infEnc : ℚ) ≤ t := by
      rw [hov] at h1
      cases m with
      | Nearest =>
        exfalso
        have : satEnc F .Nearest u = F.infEnc := by
          unfold satEnc; rw [if_neg (by rw [← hov] at h1; omega)]
        omega
      | Positive =>
        exfalso
        have : satEnc F .Positive u = F.infEnc := by
          unfold satEnc; rw [if_neg (by rw [← hov] at h1; omega)]
        omega
      | Negative =>
        have h1 : t * F.ulp < -maxFinite F ∨ (2 : ℚ) ^ ((F.bias : ℤ) + 1) ≤ t * F.ulp := h1
        rcases h1 with h1 | h1
        · have : 0 ≤ maxFinite F := by rw [maxFinite_eq]; positivity
          have := mul_pos htp hu
          linarith
        · rw [two_emax_eq] at h1
          exact Or.inr (le_of_mul_le_mul_right h1 hu)
      | Zero =>
        have h1 : (2 : ℚ) ^ ((F.bias : ℤ) + 1) ≤ |t * F.ulp| := h1
        rw [abs_of_pos (mul_pos htp hu), two_emax_eq] at h1
        exact Or.inr (le_of_mul_le_mul_right h1 hu)
    rw [← h2] at h5
    rcases h5 with h5 | h5
    · have : magOf F.sb (F.infEnc - 1) < magOf F.sb (satEnc F m u) := by exact_mod_cast h5
      have := magOf_lt.mp this
      omega
    · have : magOf F.sb F.infEnc ≤ magOf F.sb (satEnc F m u) := by exact_mod_cast h5
      have := magOf_le.mp this
      omega
  have hexact : u < F.infEnc → ((mk' F false (satEnc F m u)).toRat = t * F.ulp ↔ n % d = 0) := by
    intro h1
    rw [hval, hsat h1, ← hex]
    constructor
    · exact fun h => mul_right_cancel₀ hu.ne' h
    · intro h; rw [h]
  have hfin : u < F.infEnc → (mk' F false (satEnc F m u)).isFinite := by
    intro h1; rw [hsat h1]; exact finite_mk h1
  refine ⟨?_, ?_, ?_, f4⟩
  · rw [f1]
    by_cases h1 : u < F.infEnc
    · rw [hexact h1]
      simp only [decide_eq_false_iff_not]
      constructor
      · rintro (h2 | h2)
        · omega
        · exact fun h3 => h2 h3.2
      · exact fun h2 => Or.inr fun h3 => h2 ⟨hfin h1, h3⟩
    · exact ⟨fun _ h3 => hne (by omega) h3.1 h3.2, fun _ => Or.inl (by omega)⟩
  · rw [f2, hov]
  · rw [f3]
    have hsmall : ∀ b, b < 2 ^ (F.ew + F.sb) → (|(mk' F false b).toRat| < 2 ^ (1 - (F.bias : ℤ)) ↔ b < 2 ^ F.sb) := by
      intro b hb
      rw [toRat_abs, mag_mk' hb, minNormal_eq]
      constructor
      · intro h
        have := lt_of_mul_lt_mul_right h hu.le
        exact magOf_lt.mp (by exact_mod_cast this)
      · intro h
        apply mul_lt_mul_of_pos_right _ hu
        exact_mod_cast magOf_lt.mpr h
    rw [hsmall _ (satEnc_lt m u)]
    by_cases h1 : u < F.infEnc
    · rw [ne_eq, hexact h1, hsat h1]
      simp only [decide_eq_false_iff_not]
      have := hfin h1
      rw [hsat h1] at this
      exact ⟨fun h => ⟨this, h.2.1, h.2.2⟩, fun h => ⟨h1, h.2.1, h.2.2⟩⟩
    · constructor
      · exact fun h => absurd h.1 h1
      · rintro ⟨h2, -, h4⟩
        exfalso
        have h5 : 2 ^ F.sb ≤ F.infEnc - 1 := by
          have := F.infEnc_eq
          have h6 : 1 ≤ F.bias := by have := F.sb_lt_bias; omega
          have h7 := F.sb_pow_ge
          have : 3 * 2 ^ F.sb ≤ F.infEnc := by
            rw [this]; exact Nat.mul_le_mul_right _ (by omega)
          omega
        unfold satEnc at h4
        rw [if_neg h1] at h4
        cases m <;> simp at h4 <;> omega

end

/-! ## Mirroring -/

theorem toRat_mk_true {b : Nat} (hb : b < 2 ^ (F.ew + F.sb)) :
    (mk' F true b).toRat = -(mk' F false b).toRat := by
  rw [toRat_mk _ _ hb, toRat_mk _ _ hb]; simp

/-- the datum with the other sign -/
theorem exists_neg (s : Flt F) (hs : s.isFinite) : ∃ s' : Flt F, s'.isFinite ∧ s'.toRat = -s.toRat := by
  refine ⟨mk' F (!s.sign) s.mb, ?_, ?_⟩
  · rw [isFinite_iff, mb_mk' s.mb_lt]; exact (isFinite_iff s).mp hs
  · rw [toRat_mk _ _ s.mb_lt]
    have : s.toRat = (mk' F s.sign s.mb).toRat := by rw [mk'_self]
    rw [this, toRat_mk _ _ s.mb_lt]
    cases s.sign <;> simp

theorem isFinite_mk_bool {b : Nat} (hb : b < 2 ^ (F.ew + F.sb)) (s s' : Bool) :
    (mk' F s b).isFinite ↔ (mk' F s' b).isFinite := by
  rw [isFinite_iff, isFinite_iff, mb_mk' hb, mb_mk' hb]

theorem isInf_mk_bool {b : Nat} (hb : b < 2 ^ (F.ew + F.sb)) (s s' : Bool) :
    (mk' F s b).isInf ↔ (mk' F s' b).isInf := by
  rw [isInf_iff, isInf_iff, mb_mk' hb, mb_mk' hb]

theorem IsUp.mirror {q : ℚ} {b : Nat} (hb : b < 2 ^ (F.ew + F.sb)) (h : IsUp q (mk' F false b)) :
    IsDown (-q) (mk' F true b) := by
  refine ⟨?_, fun s hs hq => ?_⟩
  · rcases h.1 with ⟨h1, h2⟩ | ⟨h1, -⟩
    · exact Or.inl ⟨(isFinite_mk_bool hb _ _).mp h1, by rw [toRat_mk_true hb]; linarith⟩
    · exact Or.inr ⟨(isInf_mk_bool hb _ _).mp h1, sign_mk' hb⟩
  · obtain ⟨s', hs', he⟩ := exists_neg s hs
    obtain ⟨h1, h2⟩ := h.2 s' hs' (by rw [he]; linarith)
    exact ⟨(isFinite_mk_bool hb _ _).mp h1, by rw [toRat_mk_true hb]; rw [he] at h2; linarith⟩

theorem IsDown.mirror {q : ℚ} {b : Nat} (hb : b < 2 ^ (F.ew + F.sb)) (h : IsDown q (mk' F false b)) :
    IsUp (-q) (mk' F true b) := by
  refine ⟨?_, fun s hs hq => ?_⟩
  · rcases h.1 with ⟨h1, h2⟩ | ⟨-, h2⟩
    · exact Or.inl ⟨(isFinite_mk_bool hb _ _).mp h1, by rw [toRat_mk_true hb]; linarith⟩
    · rw [sign_mk' hb] at h2; simp at h2
  · obtain ⟨s', hs', he⟩ := exists_neg s hs
    obtain ⟨h1, h2⟩ := h.2 s' hs' (by rw [he]; linarith)
    exact ⟨(isFinite_mk_bool hb _ _).mp h1, by rw [toRat_mk_true hb]; rw [he] at h2; linarith⟩

theorem IsRNE.mirror {q : ℚ} (hq : 0 < q) {b : Nat} (hb : b < 2 ^ (F.ew + F.sb)) (h : IsRNE q (mk' F false b)) :
    IsRNE (-q) (mk' F true b) := by
  unfold IsRNE at *
  simp only [Rat.cast_id] at *
  rw [abs_neg]
  split
  · rename_i ho
    rw [if_pos ho] at h
    exact ⟨(isInf_mk_bool hb _ _).mp h.1, by rw [sign_mk' hb]; simp [hq]⟩
  · rename_i ho
    rw [if_neg ho] at h
    obtain ⟨h1, h2, h3, -⟩ := h
    have hd : ∀ s s' : Flt F, s'.toRat = -s.toRat → |s.toRat - -q| = |s'.toRat - q| := by
      intro s s' he
      rw [he, ← abs_neg]; congr 1; ring
    have hd0 : |(mk' F true b).toRat - -q| = |(mk' F false b).toRat - q| := by
      rw [toRat_mk_true hb, ← abs_neg]; congr 1; ring
    refine ⟨(isFinite_mk_bool hb _ _).mp h1, ?_, ?_, ?_⟩
    · intro s hs
      obtain ⟨s', hs', he⟩ := exists_neg s hs
      rw [hd0, hd s s' he]
      exact h2 s' hs'
    · intro s hs he' hne
      obtain ⟨s', hs', he⟩ := exists_neg s hs
      rw [hd0, hd s s' he] at he'
      have := h3 s' hs' he' (by
        intro hc
        apply hne
        rw [toRat_mk_true hb, ← hc, he]; ring)
      rw [fracField_eq, mb_mk' hb] at this ⊢
      exact this
    · intro _
      rw [sign_mk' hb]; simp [hq]

theorem rounded_mirror {m : Round} {q : ℚ} (hq : 0 < q) {b : Nat} (hb : b < 2 ^ (F.ew + F.sb))
    (h : IsRounded (absMode true m) q (mk' F false b)) : IsRounded m (-q) (mk' F true b) := by
  cases m with
  | Nearest => exact IsRNE.mirror hq hb h
  | Positive => exact IsDown.mirror hb h
  | Negative => exact IsUp.mirror hb h
  | Zero =>
    have h : (if (0 : ℚ) ≤ q then IsDown q (mk' F false b) else IsUp q (mk' F false b)) := h
    rw [if_pos hq.le] at h
    show (if (0 : ℚ) ≤ -q then _ else _)
    rw [if_neg (by linarith)]
    exact IsDown.mirror hb h

theorem flags_mirror {m : Round} {q : ℚ} {b : Nat} (hb : b < 2 ^ (F.ew + F.sb)) {st : Status}
    (h : FlagsFor (absMode true m) q (mk' F false b) st) : FlagsFor m (-q) (mk' F true b) st := by
  obtain ⟨h1, h2, h3, h4⟩ := h
  refine ⟨?_, ?_, ?_, h4⟩
  · rw [h1, isFinite_mk_bool hb false true, toRat_mk_true hb, neg_inj]
  · rw [h2]
    cases m with
    | Nearest => show overflowThreshold F ≤ |q| ↔ overflowThreshold F ≤ |-q|; rw [abs_neg]
    | Zero => show (2 : ℚ) ^ ((F.bias : ℤ) + 1) ≤ |q| ↔ (2 : ℚ) ^ ((F.bias : ℤ) + 1) ≤ |-q|; rw [abs_neg]
    | Positive =>
      show (q < -maxFinite F ∨ (2 : ℚ) ^ ((F.bias : ℤ) + 1) ≤ q) ↔
        (maxFinite F < -q ∨ -q ≤ -(2 : ℚ) ^ ((F.bias : ℤ) + 1))
      constructor
      · rintro (h | h)
        · exact Or.inl (by linarith)
        · exact Or.inr (by linarith)
      · rintro (h | h)
        · exact Or.inl (by linarith)
        · exact Or.inr (by linarith)
    | Negative =>
      show (maxFinite F < q ∨ q ≤ -(2 : ℚ) ^ ((F.bias : ℤ) + 1)) ↔
        (-q < -maxFinite F ∨ (2 : ℚ) ^ ((F.bias : ℤ) + 1) ≤ -q)
      constructor
      · rintro (h | h)
        · exact Or.inl (by linarith)
        · exact Or.inr (by linarith)
      · rintro (h | h)
        · exact Or.inl (by linarith)
        · exact Or.inr (by linarith)
  · rw [h3, isFinite_mk_bool hb false true, toRat_mk_true hb, abs_neg, ne_eq, ne_eq, neg_inj]

end HexFloat
end Verif
