import Verif.Model.Round

/-! # Theory of rounding on natural numbers -/

namespace Verif

theorem magOf_split (sb k r : Nat) (h1 : r ≤ 2 ^ (sb + 1)) (h2 : 2 ^ sb ≤ r ∨ k = 0) :
    magOf sb (k * 2 ^ sb + r) = r * 2 ^ k := by
  have hp : 0 < 2 ^ sb := Nat.two_pow_pos sb
  unfold magOf
  rw [pow_succ] at h1
  by_cases hr : r < 2 ^ sb
  · have hk : k = 0 := by omega
    subst hk
    simp [hr]
  · obtain ⟨t, rfl⟩ := Nat.exists_eq_add_of_le (Nat.not_lt.mp hr)
    have hlt : ¬ (k * 2 ^ sb + (2 ^ sb + t) < 2 ^ sb) := by
      have := Nat.zero_le (k * 2 ^ sb)
      omega
    rw [if_neg hlt]
    have e1 : k * 2 ^ sb + (2 ^ sb + t) = t + 2 ^ sb * (k + 1) := by ring
    rw [e1, Nat.add_mul_mod_self_left, Nat.add_mul_div_left _ _ hp]
    rcases Nat.lt_or_ge t (2 ^ sb) with ht | ht
    · rw [Nat.mod_eq_of_lt ht, Nat.div_eq_of_lt ht]
      simp
    · have : t = 2 ^ sb := by omega
      subst this
      rw [Nat.mod_self, Nat.div_self hp]
      have : 1 + (k + 1) - 1 = k + 1 := by omega
      rw [this, pow_succ]; ring

theorem exists_split (sb b : Nat) :
    ∃ k r, b = k * 2 ^ sb + r ∧ r < 2 ^ (sb + 1) ∧ (2 ^ sb ≤ r ∨ k = 0) := by
  have hp : 0 < 2 ^ sb := Nat.two_pow_pos sb
  rcases Nat.lt_or_ge b (2 ^ sb) with h | h
  · exact ⟨0, b, by simp, by rw [pow_succ]; omega, Or.inr rfl⟩
  · have h1 : 1 ≤ b / 2 ^ sb := (Nat.one_le_div_iff hp).mpr h
    refine ⟨b / 2 ^ sb - 1, 2 ^ sb + b % 2 ^ sb, ?_, ?_, Or.inl (by omega)⟩
    · obtain ⟨q, hq⟩ := Nat.exists_eq_add_of_le h1
      have := Nat.div_add_mod b (2 ^ sb)
      rw [hq] at this ⊢
      have e : 1 + q - 1 = q := by omega
      rw [e]
      nlinarith
    · have := Nat.mod_lt b hp
      rw [pow_succ]; omega

theorem magOf_succ (sb b : Nat) :
    ∃ k, magOf sb (b + 1) = magOf sb b + 2 ^ k := by
  obtain ⟨k, r, rfl, h1, h2⟩ := exists_split sb b
  refine ⟨k, ?_⟩
  rw [magOf_split sb k r (by omega) h2, Nat.add_assoc,
    magOf_split sb k (r + 1) (by omega) (by omega)]
  ring

theorem magOf_strictMono (sb : Nat) : StrictMono (magOf sb) :=
  strictMono_nat_of_lt_succ fun b => by
    obtain ⟨k, hk⟩ := magOf_succ sb b
    have := Nat.two_pow_pos k
    omega

theorem magOf_lt {sb a b : Nat} : magOf sb a < magOf sb b ↔ a < b :=
  (magOf_strictMono sb).lt_iff_lt

theorem magOf_le {sb a b : Nat} : magOf sb a ≤ magOf sb b ↔ a ≤ b :=
  (magOf_strictMono sb).le_iff_le

theorem magOf_inj {sb a b : Nat} : magOf sb a = magOf sb b ↔ a = b :=
  (magOf_strictMono sb).injective.eq_iff

@[simp] theorem magOf_zero (sb : Nat) : magOf sb 0 = 0 := by
  simp [magOf]

theorem magOf_pos {sb b : Nat} : 0 < magOf sb b ↔ 0 < b := by
  conv_lhs => rw [← magOf_zero sb]
  exact magOf_lt

theorem magOf_eq_zero {sb b : Nat} : magOf sb b = 0 ↔ b = 0 := by
  conv_lhs => rw [← magOf_zero sb]
  exact magOf_inj

/-- `b` is the round-to-nearest-even encoding of `n / d`, expressed by midpoints. -/
structure IsNear (sb n d b : Nat) : Prop where
  lo : ∀ c, c + 1 = b → (magOf sb c + magOf sb b) * d ≤ 2 * n
  loEven : ∀ c, c + 1 = b → (magOf sb c + magOf sb b) * d = 2 * n → b % 2 = 0
  hi : 2 * n ≤ (magOf sb b + magOf sb (b + 1)) * d
  hiEven : 2 * n = (magOf sb b + magOf sb (b + 1)) * d → b % 2 = 0

theorem IsNear.mono {sb n d b n' d' b' : Nat} (hd : 0 < d) (hd' : 0 < d')
    (h : IsNear sb n d b) (h' : IsNear sb n' d' b') (hq : n * d' ≤ n' * d) : b ≤ b' := by
  by_contra hlt
  have hlt : b' < b := by omega
  obtain ⟨c, rfl⟩ : ∃ c, b = c + 1 := ⟨b - 1, by omega⟩
  have l := h.lo c rfl
  have u := h'.hi
  -- (mag c + mag (c+1)) d d' ≤ 2 n d' ≤ 2 n' d ≤ (mag b' + mag (b'+1)) d d'
  have m1 : magOf sb b' ≤ magOf sb c := magOf_le.mpr (by omega)
  have m2 : magOf sb (b' + 1) ≤ magOf sb (c + 1) := magOf_le.mpr (by omega)
  set A := magOf sb c + magOf sb (c + 1) with hA
  set B := magOf sb b' + magOf sb (b' + 1) with hB
  have hBA : B ≤ A := by omega
  have s1 : A * d * d' ≤ 2 * n * d' := Nat.mul_le_mul_right _ l
  have s2 : 2 * n' * d ≤ B * d' * d := Nat.mul_le_mul_right _ u
  have s3 : 2 * n * d' ≤ 2 * n' * d := by nlinarith
  have s4 : B * d' * d ≤ A * d * d' := by
    have : B * d' * d = B * (d * d') := by ring
    have h2 : A * d * d' = A * (d * d') := by ring
    rw [this, h2]; exact Nat.mul_le_mul_right _ hBA
  have e1 : A * d * d' = 2 * n * d' := by omega
  have e2 : 2 * n' * d = B * d' * d := by omega
  have e3 : A * (d * d') = B * (d * d') := by
    have : B * d' * d = B * (d * d') := by ring
    have h2 : A * d * d' = A * (d * d') := by ring
    omega
  have e4 : A = B := Nat.eq_of_mul_eq_mul_right (Nat.mul_pos hd hd') e3
  have e5 : c = b' := by
    have : magOf sb c = magOf sb b' := by omega
    exact magOf_inj.mp this
  have p1 := h.loEven c rfl (Nat.eq_of_mul_eq_mul_right hd' e1)
  have p2 := h'.hiEven (Nat.eq_of_mul_eq_mul_right hd e2)
  omega

theorem IsNear.unique {sb n d b b' : Nat} (hd : 0 < d)
    (h : IsNear sb n d b) (h' : IsNear sb n d b') : b = b' :=
  Nat.le_antisymm (h.mono hd hd h' le_rfl) (h'.mono hd hd h le_rfl)

theorem rneDiv_spec (n d : Nat) (hd : 0 < d) :
    let r := rneDiv n d
    (r = n / d ∨ r = n / d + 1) ∧
    (2 * n ≤ (2 * r + 1) * d ∧ (2 * n = (2 * r + 1) * d → r % 2 = 0)) ∧
    (2 * r * d ≤ 2 * n + d ∧ (2 * r * d = 2 * n + d → r % 2 = 0)) := by
  intro r
  have e := Nat.div_add_mod n d
  have hl := Nat.mod_lt n hd
  obtain ⟨q, hq⟩ : ∃ q, n / d = q := ⟨_, rfl⟩
  obtain ⟨m, hm⟩ : ∃ m, n % d = m := ⟨_, rfl⟩
  rw [hq, hm] at e
  rw [hm] at hl
  have hr : r = if 2 * m < d then q else if d < 2 * m then q + 1
      else if q % 2 = 0 then q else q + 1 := by
    show rneDiv n d = _
    unfold rneDiv
    simp only [hq, hm]
  rw [hq]
  have c1 : (2 * q + 1) * d = 2 * (d * q) + d := by ring
  have c2 : (2 * (q + 1) + 1) * d = 2 * (d * q) + 3 * d := by ring
  have c3 : 2 * q * d = 2 * (d * q) := by ring
  have c4 : 2 * (q + 1) * d = 2 * (d * q) + 2 * d := by ring
  clear_value r
  split_ifs at hr with h1 h2 h3 <;> subst hr
  · refine ⟨Or.inl rfl, ⟨by omega, fun h => by omega⟩, ⟨by omega, fun h => by omega⟩⟩
  · refine ⟨Or.inr rfl, ⟨by omega, fun h => by omega⟩, ⟨by omega, fun h => by omega⟩⟩
  · refine ⟨Or.inl rfl, ⟨by omega, fun h => by omega⟩, ⟨by omega, fun h => by omega⟩⟩
  · refine ⟨Or.inr rfl, ⟨by omega, fun h => by omega⟩, ⟨by omega, fun h => by omega⟩⟩

theorem roundU_isNear {sb : Nat} (hsb : 1 ≤ sb) (n d : Nat) (hd : 0 < d) :
    IsNear sb n d (roundU sb n d) := by
  set k := Nat.log2 (n / d) - sb with hk
  have hrU : roundU sb n d = k * 2 ^ sb + rneDiv n (d * 2 ^ k) := rfl
  set r := rneDiv n (d * 2 ^ k) with hr
  have hpk : 0 < 2 ^ k := Nat.two_pow_pos k
  have hps : 0 < 2 ^ sb := Nat.two_pow_pos sb
  have hD : 0 < d * 2 ^ k := Nat.mul_pos hd hpk
  obtain ⟨hq, ⟨hu, hue⟩, ⟨hl, hle⟩⟩ := rneDiv_spec n (d * 2 ^ k) hD
  rw [← hr] at hq hu hue hl hle
  have hQ : n / (d * 2 ^ k) = n / d / 2 ^ k := by rw [Nat.div_div_eq_div_mul]
  set Q := n / (d * 2 ^ k) with hQd
  have hQlt : Q < 2 ^ (sb + 1) := by
    rw [hQ]
    rw [Nat.div_lt_iff_lt_mul hpk, ← pow_add]
    rcases Nat.eq_zero_or_pos (n / d) with h0 | h0
    · rw [h0]; positivity
    · have := Nat.lt_log2_self (n := n / d)
      refine lt_of_lt_of_le this (Nat.pow_le_pow_right (by norm_num) (by omega))
  have hQge : 2 ^ sb ≤ Q ∨ k = 0 := by
    rcases Nat.eq_zero_or_pos k with h0 | h0
    · exact Or.inr h0
    · left
      rw [hQ, Nat.le_div_iff_mul_le hpk, ← pow_add]
      have hne : n / d ≠ 0 := by
        intro h; rw [h] at hk; simp at hk; omega
      have := Nat.log2_self_le hne
      have e : sb + k = Nat.log2 (n / d) := by omega
      rw [e]; exact this
  have hrle : r ≤ 2 ^ (sb + 1) := by omega
  have hrge : 2 ^ sb ≤ r ∨ k = 0 := by omega
  have hm : magOf sb (k * 2 ^ sb + r) = r * 2 ^ k := magOf_split sb k r hrle hrge
  -- parity of encoding = parity of r
  have hpar : (k * 2 ^ sb + r) % 2 = r % 2 := by
    obtain ⟨s, rfl⟩ : ∃ s, sb = s + 1 := ⟨sb - 1, by omega⟩
    have : k * 2 ^ (s + 1) + r = r + 2 * (k * 2 ^ s) := by rw [pow_succ]; ring
    rw [this, Nat.add_mul_mod_self_left]
  have hnlt : n < (Q + 1) * (d * 2 ^ k) := by
    have := Nat.lt_mul_div_succ n hD
    rw [← hQd] at this; linarith [mul_comm (d * 2 ^ k) (Q + 1)]
  have hnge : Q * (d * 2 ^ k) ≤ n := Nat.div_mul_le_self n _
  rw [hrU]
  have hup : magOf sb (k * 2 ^ sb + r) + 2 ^ k ≤ magOf sb (k * 2 ^ sb + r + 1) ∧
     (magOf sb (k * 2 ^ sb + r) + 2 ^ k = magOf sb (k * 2 ^ sb + r + 1) ∨ r = 2 ^ (sb + 1)) := by
    rcases Nat.lt_or_ge r (2 ^ (sb + 1)) with h | h
    · have : magOf sb (k * 2 ^ sb + r + 1) = (r + 1) * 2 ^ k := by
        rw [Nat.add_assoc]; exact magOf_split sb k (r + 1) (by omega) (by omega)
      rw [this, hm]
      constructor
      · apply le_of_eq; ring
      · left; ring
    · have hr' : r = 2 ^ (sb + 1) := by omega
      refine ⟨?_, Or.inr hr'⟩
      have e : k * 2 ^ sb + r + 1 = (k + 1) * 2 ^ sb + (2 ^ sb + 1) := by
        rw [hr', pow_succ]; ring
      have h2 : 2 ^ sb + 1 ≤ 2 ^ (sb + 1) := by rw [pow_succ]; omega
      rw [hm, e, magOf_split sb (k + 1) (2 ^ sb + 1) h2 (by omega), hr']
      rw [pow_succ, pow_succ]
      nlinarith
  refine ⟨?_, ?_, ?_, ?_⟩
  · -- lower
    intro c hc
    rcases Nat.lt_or_ge (2 ^ sb) r with h | h
    · have hc' : c = k * 2 ^ sb + (r - 1) := by omega
      have hmc : magOf sb c = (r - 1) * 2 ^ k := by
        rw [hc']; exact magOf_split sb k (r - 1) (by omega) (by omega)
      rw [hmc, hm]
      obtain ⟨r', hr'⟩ : ∃ r', r = r' + 1 := ⟨r - 1, by omega⟩
      rw [hr'] at hl ⊢
      have : r' + 1 - 1 = r' := by omega
      rw [this]
      have e1 : (r' * 2 ^ k + (r' + 1) * 2 ^ k) * d + d * 2 ^ k = 2 * (r' + 1) * (d * 2 ^ k) := by
        ring
      omega
    · rcases hrge with h3 | h3
      · have hr2 : r = 2 ^ sb := by omega
        rcases Nat.eq_zero_or_pos k with h0 | h0
        · rw [h0] at hc hm hl ⊢
          have hc' : c = 0 * 2 ^ sb + (r - 1) := by omega
          have hmc : magOf sb c = (r - 1) * 2 ^ 0 := by
            rw [hc']; exact magOf_split sb 0 (r - 1) (by omega) (by omega)
          rw [hmc, hm]
          obtain ⟨r', hr'⟩ : ∃ r', r = r' + 1 := ⟨r - 1, by omega⟩
          rw [hr'] at hl ⊢
          have : r' + 1 - 1 = r' := by omega
          rw [this]
          have e1 : (r' * 2 ^ 0 + (r' + 1) * 2 ^ 0) * d + d = 2 * (r' + 1) * d := by ring
          have e2 : d * 2 ^ 0 = d := by ring
          rw [e2] at hl
          omega
        · -- r = 2^sb, k>0: Q ≥ 2^sb so Q = r; n ≥ mag * d
          have hQ2 : Q = r := by
            rcases hQge with h | h <;> omega
          have : magOf sb c ≤ magOf sb (k * 2 ^ sb + r) := magOf_le.mpr (by omega)
          rw [hm] at this ⊢
          rw [hQ2] at hnge
          have e1 : (magOf sb c + r * 2 ^ k) * d ≤ (2 * (r * 2 ^ k)) * d :=
            Nat.mul_le_mul_right d (by omega)
          have e2 : (2 * (r * 2 ^ k)) * d = 2 * (r * (d * 2 ^ k)) := by ring
          omega
      · rw [h3] at hc hm hl ⊢
        have hc' : c = 0 * 2 ^ sb + (r - 1) := by omega
        have hmc : magOf sb c = (r - 1) * 2 ^ 0 := by
          rw [hc']; exact magOf_split sb 0 (r - 1) (by omega) (by omega)
        rw [hmc, hm]
        obtain ⟨r', hr'⟩ : ∃ r', r = r' + 1 := ⟨r - 1, by omega⟩
        rw [hr'] at hl ⊢
        have : r' + 1 - 1 = r' := by omega
        rw [this]
        have e1 : (r' * 2 ^ 0 + (r' + 1) * 2 ^ 0) * d + d = 2 * (r' + 1) * d := by ring
        have e2 : d * 2 ^ 0 = d := by ring
        rw [e2] at hl
        omega
  · intro c hc heq
    rw [hpar]
    apply hle
    by_cases hcase : 2 ^ sb < r ∨ k = 0
    · have hc' : c = k * 2 ^ sb + (r - 1) := by
        rcases hcase with h | h
        · omega
        · rw [h] at hc ⊢; omega
      have hmc : magOf sb c = (r - 1) * 2 ^ k := by
        rw [hc']; exact magOf_split sb k (r - 1) (by omega) (by omega)
      have hr0 : 1 ≤ r := by
        rcases hcase with h | h
        · omega
        · rw [h] at hc; omega
      rw [hmc, hm] at heq
      obtain ⟨r', hr'⟩ : ∃ r', r = r' + 1 := ⟨r - 1, by omega⟩
      rw [hr'] at heq ⊢
      have : r' + 1 - 1 = r' := by omega
      rw [this] at heq
      rw [← heq]; ring
    · exfalso
      have h3 : r = 2 ^ sb := by omega
      have hQ2 : Q = r := by
        rcases hQge with h | h <;> omega
      have hlt : magOf sb c < magOf sb (k * 2 ^ sb + r) := magOf_lt.mpr (by omega)
      rw [hm] at hlt heq
      rw [hQ2] at hnge
      have e1 : (magOf sb c + r * 2 ^ k) * d < (2 * (r * 2 ^ k)) * d :=
        Nat.mul_lt_mul_of_pos_right (by omega) hd
      have e2 : (2 * (r * 2 ^ k)) * d = 2 * (r * (d * 2 ^ k)) := by ring
      omega
  · rw [hm] at hup ⊢
    have : r * 2 ^ k + (r * 2 ^ k + 2 ^ k) ≤ r * 2 ^ k + magOf sb (k * 2 ^ sb + r + 1) := by omega
    calc 2 * n ≤ (2 * r + 1) * (d * 2 ^ k) := hu
      _ = (r * 2 ^ k + (r * 2 ^ k + 2 ^ k)) * d := by ring
      _ ≤ _ := Nat.mul_le_mul_right _ this
  · intro heq
    rw [hpar]
    apply hue
    rcases hup.2 with h | h
    · rw [heq, ← h, hm]; ring
    · exfalso
      have hr1 : r = Q + 1 := by omega
      rw [hr1] at hm
      have h1 := hup.1
      rw [hr1] at heq h1
      rw [hm] at heq h1
      have e1 : ((Q + 1) * 2 ^ k + (Q + 1) * 2 ^ k) * d ≤
          ((Q + 1) * 2 ^ k + magOf sb (k * 2 ^ sb + (Q + 1) + 1)) * d :=
        Nat.mul_le_mul_right d (by omega)
      have e2 : ((Q + 1) * 2 ^ k + (Q + 1) * 2 ^ k) * d = 2 * ((Q + 1) * (d * 2 ^ k)) := by ring
      omega

theorem IsNear.eq_round {sb n d b : Nat} (hsb : 1 ≤ sb) (hd : 0 < d) (h : IsNear sb n d b) :
    roundU sb n d = b :=
  (roundU_isNear hsb n d hd).unique hd h

theorem roundU_mono {sb n d n' d' : Nat} (hsb : 1 ≤ sb) (hd : 0 < d) (hd' : 0 < d')
    (hq : n * d' ≤ n' * d) : roundU sb n d ≤ roundU sb n' d' :=
  (roundU_isNear hsb n d hd).mono hd hd' (roundU_isNear hsb n' d' hd') hq

/-- exactly representable magnitudes are fixed points -/
theorem isNear_exact (sb b d : Nat) (hd : 0 < d) : IsNear sb (magOf sb b * d) d b := by
  have hu : magOf sb b < magOf sb (b + 1) := magOf_lt.mpr (by omega)
  refine ⟨?_, ?_, ?_, ?_⟩
  · intro c hc
    have : magOf sb c < magOf sb b := magOf_lt.mpr (by omega)
    nlinarith
  · intro c hc h
    have : magOf sb c < magOf sb b := magOf_lt.mpr (by omega)
    nlinarith
  · nlinarith
  · intro h; nlinarith

theorem roundU_exact {sb : Nat} (hsb : 1 ≤ sb) (b d : Nat) (hd : 0 < d) :
    roundU sb (magOf sb b * d) d = b :=
  (isNear_exact sb b d hd).eq_round hsb hd

theorem roundU_exact' {sb : Nat} (hsb : 1 ≤ sb) (b n d : Nat) (hd : 0 < d)
    (h : n = magOf sb b * d) : roundU sb n d = b := by
  rw [h]; exact roundU_exact hsb b d hd

/-- rounding only depends on the ratio -/
theorem roundU_scale {sb n d n' d' : Nat} (hsb : 1 ≤ sb) (hd : 0 < d) (hd' : 0 < d')
    (hq : n * d' = n' * d) : roundU sb n d = roundU sb n' d' :=
  Nat.le_antisymm (roundU_mono hsb hd hd' hq.le) (roundU_mono hsb hd' hd hq.ge)

end Verif
