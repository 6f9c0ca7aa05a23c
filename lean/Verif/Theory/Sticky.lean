import Verif.Theory.Scale
import Mathlib.Tactic.FieldSimp

/-!
# Sticky bits

`SS g a b`: the numbers `a` and `b` lie on the same side of every multiple of `g` (and hit the same
multiples).  Replacing a number by one that is on the same side of all rounding boundaries does not
change its rounding.
-/

namespace Verif

def SS (g a b : ℚ) : Prop := ∀ k : ℤ, (a < k * g ↔ b < k * g) ∧ (a = k * g ↔ b = k * g)

namespace SS
variable {g a b c : ℚ}

theorem refl (g a : ℚ) : SS g a a := fun _ => ⟨Iff.rfl, Iff.rfl⟩
theorem symm (h : SS g a b) : SS g b a := fun k => ⟨(h k).1.symm, (h k).2.symm⟩
theorem trans (h : SS g a b) (h' : SS g b c) : SS g a c :=
  fun k => ⟨(h k).1.trans (h' k).1, (h k).2.trans (h' k).2⟩

theorem coarse (h : SS g a b) (m : ℤ) : SS (m * g) a b := by
  intro k
  have := h (k * m)
  push_cast at this
  rw [mul_assoc] at this
  exact this

theorem coarse' {g' : ℚ} (h : SS g a b) (m : ℤ) (hg : g' = m * g) : SS g' a b := hg ▸ h.coarse m

theorem scale (h : SS g a b) (hc : 0 < c) : SS (c * g) (c * a) (c * b) := by
  intro k
  have := h k
  have e : (k : ℚ) * (c * g) = c * (k * g) := by ring
  rw [e, mul_lt_mul_iff_right₀ hc, mul_lt_mul_iff_right₀ hc, mul_right_inj' hc.ne',
    mul_right_inj' hc.ne']
  exact this

theorem add (h : SS g a b) (j : ℤ) : SS g (a + j * g) (b + j * g) := by
  intro k
  have := h (k - j)
  push_cast at this
  constructor
  · constructor <;> intro hh
    · have := this.1.mp (by linarith); linarith
    · have := this.1.mpr (by linarith); linarith
  · constructor <;> intro hh
    · have := this.2.mp (by linarith); linarith
    · have := this.2.mpr (by linarith); linarith

theorem add' (h : SS g a b) (j : ℤ) (hc : c = j * g) : SS g (a + c) (b + c) := hc ▸ h.add j

theorem neg (h : SS g a b) : SS g (-a) (-b) := by
  intro k
  have := h (-k)
  push_cast at this
  have e1 : a = -k * g ↔ b = -k * g := this.2
  have e2 : a < -k * g ↔ b < -k * g := this.1
  have f : ∀ x : ℚ, (-x < k * g ↔ ¬ (x < -k * g) ∧ ¬ (x = -k * g)) := by
    intro x
    constructor
    · intro h1; constructor <;> intro h2 <;> linarith
    · rintro ⟨h1, h2⟩
      have : -k * g < x := lt_of_le_of_ne (not_lt.mp h1) (Ne.symm h2)
      linarith
  have f' : ∀ x : ℚ, (-x = k * g ↔ x = -k * g) := by
    intro x; constructor <;> intro h1 <;> linarith
  exact ⟨by rw [f, f, e1, e2], by rw [f', f', e1]⟩

theorem neg_iff (h : SS g a b) : a < 0 ↔ b < 0 := by
  have := (h 0).1; simpa using this
theorem zero_iff (h : SS g a b) : a = 0 ↔ b = 0 := by
  have := (h 0).2; simpa using this

theorem abs (h : SS g a b) : SS g |a| |b| := by
  by_cases ha : a < 0
  · have hb := h.neg_iff.mp ha
    rw [abs_of_neg ha, abs_of_neg hb]; exact h.neg
  · have hb : ¬ b < 0 := fun hb => ha (h.neg_iff.mpr hb)
    rw [abs_of_nonneg (not_lt.mp ha), abs_of_nonneg (not_lt.mp hb)]; exact h

/-- lower bounds that are multiples of `g` transfer -/
theorem le (h : SS g a b) {m : ℚ} (k : ℤ) (hm : m = k * g) (hb : m ≤ b) : m ≤ a := by
  subst hm
  by_contra hc
  exact absurd ((h k).1.mp (not_le.mp hc)) (not_lt.mpr hb)

end SS

/-- Rounding depends only on the side of the rounding boundaries. -/
theorem IsNearK.transfer {sb : Nat} {t t' : ℚ} {b j : Nat} (h : IsNearK sb t' b)
    (hj : j = 0 ∨ (2 : ℚ) ^ (j + sb) ≤ t') (hs : SS (2 ^ j / 2) t t') : IsNearK sb t b := by
  have hg : (0 : ℚ) < 2 ^ j / 2 := by positivity
  -- boundaries that are multiples of `2^j / 2`
  have key : ∀ c, 2 ^ j ∣ magOf sb c → 2 ^ j ∣ magOf sb (c + 1) →
      ((((magOf sb c + magOf sb (c + 1) : ℕ) : ℚ) ≤ 2 * t' → ((magOf sb c + magOf sb (c + 1) : ℕ) : ℚ) ≤ 2 * t) ∧
       ((2 * t' ≤ ((magOf sb c + magOf sb (c + 1) : ℕ) : ℚ)) → 2 * t ≤ ((magOf sb c + magOf sb (c + 1) : ℕ) : ℚ)) ∧
       ((((magOf sb c + magOf sb (c + 1) : ℕ) : ℚ)) = 2 * t → (((magOf sb c + magOf sb (c + 1) : ℕ) : ℚ)) = 2 * t')) := by
    intro c h1 h2
    obtain ⟨m, hm⟩ := Dvd.dvd.add h1 h2 |>.choose_spec |> fun e => (⟨_, e⟩ : ∃ m, magOf sb c + magOf sb (c + 1) = 2 ^ j * m)
    rw [hm]
    have e : ((2 ^ j * m : ℕ) : ℚ) = 2 * (((m : ℤ) : ℚ) * (2 ^ j / 2)) := by push_cast; ring
    rw [e]
    have := hs m
    generalize ((m : ℤ) : ℚ) * (2 ^ j / 2) = β at this
    refine ⟨fun hh => ?_, fun hh => ?_, fun hh => ?_⟩
    · by_contra hc
      have := this.1.mp (by linarith)
      linarith
    · rcases lt_or_eq_of_le (show t' ≤ β by linarith) with h3 | h3
      · have := this.1.mpr h3; linarith
      · have := this.2.mpr h3; linarith
    · have := this.2.mp (by linarith)
      linarith
  -- the data above `2^(j+sb)` are multiples of `2^j`
  have hdvd : ∀ c, (j = 0 ∨ 2 ^ (j + sb) ≤ magOf sb c) → 2 ^ j ∣ magOf sb c := by
    rintro c (rfl | hc)
    · simp
    · exact dvd_magOf sb c j hc
  obtain ⟨P, hP⟩ : ∃ P, magOf sb P = 2 ^ (j + sb) := by
    obtain ⟨P, hP⟩ := rep_mul_pow sb (2 ^ sb) j (Nat.pow_le_pow_right (by norm_num) (by omega))
    exact ⟨P, by rw [hP, ← pow_add, Nat.add_comm]⟩
  have hbP : j = 0 ∨ P ≤ b := by
    rcases hj with hj | hj
    · left; exact hj
    right
    by_contra hc
    have h1 : magOf sb (b + 1) ≤ magOf sb P := magOf_le.mpr (by omega)
    have h2 : magOf sb b < magOf sb P := magOf_lt.mpr (by omega)
    have h3 := h.hi
    have h4 : ((magOf sb b + magOf sb (b + 1) : ℕ) : ℚ) < 2 * 2 ^ (j + sb) := by
      have : magOf sb b + magOf sb (b + 1) < 2 * 2 ^ (j + sb) := by omega
      exact_mod_cast this
    linarith
  have hup : 2 ^ j ∣ magOf sb b ∧ 2 ^ j ∣ magOf sb (b + 1) := by
    constructor
    · apply hdvd; rcases hbP with hh | hh
      · left; exact hh
      · right; rw [← hP, magOf_le]; exact hh
    · apply hdvd; rcases hbP with hh | hh
      · left; exact hh
      · right; rw [← hP, magOf_le]; omega
  obtain ⟨k1, k2, k3⟩ := key b hup.1 hup.2
  have low : ∀ c, c + 1 = b → ((magOf sb c + magOf sb b : ℕ) : ℚ) ≤ 2 * t ∧
      (((magOf sb c + magOf sb b : ℕ) : ℚ) = 2 * t → b % 2 = 0) := by
    intro c hc
    subst hc
    by_cases hd : 2 ^ j ∣ magOf sb c
    · obtain ⟨l1, l2, l3⟩ := key c hd hup.1
      exact ⟨l1 (h.lo c rfl), fun e => h.loEven c rfl (l3 e)⟩
    · -- then `b` is the power of two itself
      have hj0 : j ≠ 0 := fun e => hd (hdvd c (Or.inl e))
      have hcP : magOf sb c < 2 ^ (j + sb) := by
        by_contra hh; exact hd (hdvd c (Or.inr (not_lt.mp hh)))
      have hcP' : c < P := by rw [← hP, magOf_lt] at hcP; exact hcP
      have hb : c + 1 = P := by rcases hbP with hh | hh <;> omega
      have ht' : (2 : ℚ) ^ (j + sb) ≤ t' := by rcases hj with hh | hh <;> [exact absurd hh hj0; exact hh]
      have ht : (2 : ℚ) ^ (j + sb) ≤ t := by
        refine hs.le (2 * 2 ^ sb) ?_ ht'
        push_cast; rw [pow_add]; ring
      have : ((magOf sb c + magOf sb (c + 1) : ℕ) : ℚ) < 2 * t := by
        have h5 : magOf sb c + magOf sb (c + 1) < 2 * 2 ^ (j + sb) := by rw [hb, hP]; omega
        have h6 : ((magOf sb c + magOf sb (c + 1) : ℕ) : ℚ) < 2 * 2 ^ (j + sb) := by exact_mod_cast h5
        linarith
      exact ⟨this.le, fun e => absurd e this.ne⟩
  exact ⟨fun c hc => (low c hc).1, fun c hc => (low c hc).2, k2 h.hi,
    fun e => h.hiEven (k3 e.symm).symm⟩

/-! ## Shifting right with a sticky bit -/

/-- `n` shifted right by `a`, with the lowest bit of the result set if anything was lost -/
def stk (n a : Nat) : Nat := if n % 2 ^ a = 0 then n / 2 ^ a else n / 2 ^ a / 2 * 2 + 1

theorem stk_ss (n a : Nat) : SS 2 ((n : ℚ) / 2 ^ a) (stk n a : ℚ) := by
  unfold stk
  have hp : (0 : ℚ) < 2 ^ a := by positivity
  split
  · rename_i h
    have : (n : ℚ) / 2 ^ a = ((n / 2 ^ a : ℕ) : ℚ) := by
      rw [div_eq_iff hp.ne']
      have hdm := Nat.div_mul_cancel (Nat.dvd_of_mod_eq_zero h)
      exact_mod_cast hdm.symm
    rw [this]; exact SS.refl _ _
  · rename_i h
    set q := n / 2 ^ a with hq
    have hdm := Nat.div_add_mod n (2 ^ a)
    rw [← hq] at hdm
    have hlt := Nat.mod_lt n (Nat.two_pow_pos a)
    set r := n % 2 ^ a
    have e : (n : ℚ) = 2 ^ a * q + r := by exact_mod_cast hdm.symm
    have hr0 : (0 : ℚ) < r := by exact_mod_cast Nat.pos_of_ne_zero h
    have hr1 : (r : ℚ) < 2 ^ a := by exact_mod_cast hlt
    have h1 : (q : ℚ) < (n : ℚ) / 2 ^ a := by rw [lt_div_iff₀ hp, e]; linarith
    have h2 : (n : ℚ) / 2 ^ a < q + 1 := by rw [div_lt_iff₀ hp, e]; linarith
    obtain ⟨p, hp2⟩ : ∃ p, p = q / 2 := ⟨_, rfl⟩
    rw [← hp2]
    have h3 : ((2 * p : ℕ) : ℚ) ≤ q := by exact_mod_cast (by omega : 2 * p ≤ q)
    have h4 : ((q : ℕ) : ℚ) + 1 ≤ 2 * p + 2 := by exact_mod_cast (by omega : q + 1 ≤ 2 * p + 2)
    push_cast at h3
    push_cast
    intro k
    have hk : (k : ℚ) * 2 ≤ 2 * p ∨ 2 * p + 2 ≤ (k : ℚ) * 2 := by
      rcases le_or_gt k (p : ℤ) with hh | hh
      · left; have : (k : ℚ) ≤ ((p : ℤ) : ℚ) := by exact_mod_cast hh
        push_cast at this; linarith
      · right; have : ((p : ℤ) : ℚ) + 1 ≤ (k : ℚ) := by exact_mod_cast hh
        push_cast at this; linarith
    rcases hk with hk | hk
    · constructor <;> constructor <;> intro hh <;> linarith
    · constructor <;> constructor <;> intro hh <;> linarith

theorem stk_lo (n a : Nat) : n / 2 ^ a / 2 * 2 ≤ stk n a := by
  unfold stk; split <;> omega
theorem stk_hi (n a : Nat) : stk n a < n / 2 ^ a / 2 * 2 + 2 := by
  unfold stk; split <;> omega

/-- rounding after a sticky shift -/
theorem rneDiv_stk (n a m : Nat) (hm : 2 ≤ m) : rneDiv (stk n a) (2 ^ m) = rneDiv n (2 ^ a * 2 ^ m) := by
  obtain ⟨k, rfl⟩ : ∃ k, m = k + 2 := ⟨m - 2, by omega⟩
  have hk : (2 : Nat) ^ (k + 2) = 4 * 2 ^ k := by rw [pow_add]; ring
  have hpa := Nat.two_pow_pos a
  have hpk := Nat.two_pow_pos k
  have hst : stk n a = if n % 2 ^ a = 0 then n / 2 ^ a else n / 2 ^ a / 2 * 2 + 1 := rfl
  have hn := Nat.div_add_mod n (2 ^ a)
  have hlt := Nat.mod_lt n hpa
  set M := n / 2 ^ a
  set ρ := n % 2 ^ a
  set A := 2 ^ a
  -- split `M = q * 4K + u`
  have hM := Nat.div_add_mod M (4 * 2 ^ k)
  have hMlt := Nat.mod_lt M (show 0 < 4 * 2 ^ k by omega)
  set q := M / (4 * 2 ^ k)
  set u := M % (4 * 2 ^ k)
  set K := 2 ^ k
  have hqs : stk n a / (4 * K) = q ∧ stk n a % (4 * K) = if ρ = 0 then u else u / 2 * 2 + 1 := by
    have e : stk n a = 4 * K * q + (if ρ = 0 then u else u / 2 * 2 + 1) := by
      rw [hst]
      have : M / 2 * 2 = 4 * K * q + u / 2 * 2 := by
        have h1 : M = 2 * (2 * K * q) + u := by rw [← hM]; ring
        have h2 : 4 * K * q = 2 * (2 * K * q) := by ring
        omega
      split <;> omega
    have hlt' : (if ρ = 0 then u else u / 2 * 2 + 1) < 4 * K := by split <;> omega
    constructor
    · rw [e, Nat.mul_add_div (by omega), Nat.div_eq_of_lt hlt', Nat.add_zero]
    · rw [e, Nat.mul_add_mod, Nat.mod_eq_of_lt hlt']
  have hqn : n / (A * (4 * K)) = q ∧ n % (A * (4 * K)) = A * u + ρ := by
    have e : n = A * (4 * K) * q + (A * u + ρ) := by
      rw [← hn, ← hM]; ring
    have hlt' : A * u + ρ < A * (4 * K) := by
      have : A * (u + 1) ≤ A * (4 * K) := Nat.mul_le_mul_left _ hMlt
      rw [Nat.mul_add] at this; omega
    have hpos : 0 < A * (4 * K) := by positivity
    constructor
    · conv_lhs => rw [e]
      rw [Nat.mul_add_div hpos, Nat.div_eq_of_lt hlt', Nat.add_zero]
    · conv_lhs => rw [e]
      rw [Nat.mul_add_mod, Nat.mod_eq_of_lt hlt']
  unfold rneDiv
  simp only
  rw [hk, hqs.1, hqs.2, hqn.1, hqn.2]
  have c1 : 2 * (A * u + ρ) < A * (4 * K) ↔ u < 2 * K := by
    constructor
    · intro h
      by_contra hc
      have : A * (2 * K) ≤ A * u := Nat.mul_le_mul_left _ (by omega)
      have e : A * (4 * K) = 2 * (A * (2 * K)) := by ring
      omega
    · intro h
      have : A * (u + 1) ≤ A * (2 * K) := Nat.mul_le_mul_left _ (by omega)
      have e : A * (4 * K) = 2 * (A * (2 * K)) := by ring
      rw [Nat.mul_add] at this
      omega
  have c2 : A * (4 * K) < 2 * (A * u + ρ) ↔ 2 * K < u ∨ (u = 2 * K ∧ ρ ≠ 0) := by
    have e : A * (4 * K) = 2 * (A * (2 * K)) := by ring
    constructor
    · intro h
      rcases Nat.lt_trichotomy u (2 * K) with h1 | h1 | h1
      · have : A * (u + 1) ≤ A * (2 * K) := Nat.mul_le_mul_left _ (by omega)
        rw [Nat.mul_add] at this
        omega
      · right; refine ⟨h1, ?_⟩; rw [h1] at h; omega
      · left; exact h1
    · rintro (h | ⟨h1, h2⟩)
      · have : A * (2 * K + 1) ≤ A * u := Nat.mul_le_mul_left _ (by omega)
        rw [Nat.mul_add] at this
        omega
      · rw [h1]; omega
  by_cases hρ : ρ = 0
  · rw [if_pos hρ]
    have d1 : 2 * u < 4 * K ↔ u < 2 * K := by omega
    have d2 : 4 * K < 2 * u ↔ 2 * K < u ∨ (u = 2 * K ∧ ρ ≠ 0) := by omega
    simp only [c1, c2, d1, d2]
  · rw [if_neg hρ]
    have d1 : 2 * (u / 2 * 2 + 1) < 4 * K ↔ u < 2 * K := by omega
    have d2 : 4 * K < 2 * (u / 2 * 2 + 1) ↔ 2 * K < u ∨ (u = 2 * K ∧ ρ ≠ 0) := by omega
    simp only [c1, c2, d1, d2]

theorem rneDiv_scale (n d c : Nat) (hc : 0 < c) : rneDiv (n * c) (d * c) = rneDiv n d := by
  unfold rneDiv
  simp only
  rw [Nat.mul_div_mul_right _ _ hc, Nat.mul_mod_mul_right]
  have e1 : 2 * (n % d * c) < d * c ↔ 2 * (n % d) < d := by
    rw [← Nat.mul_assoc]; exact Nat.mul_lt_mul_right hc
  have e2 : d * c < 2 * (n % d * c) ↔ d < 2 * (n % d) := by
    rw [← Nat.mul_assoc]; exact Nat.mul_lt_mul_right hc
  simp only [e1, e2]

/-- rounding in the binade `[2^(sb+k), 2^(sb+k+1))` -/
theorem roundU_binade {sb n d k : Nat} (hd : 0 < d) (h1 : 2 ^ (sb + k) * d ≤ n) (h2 : n < 2 ^ (sb + k + 1) * d) :
    roundU sb n d = k * 2 ^ sb + rneDiv n (d * 2 ^ k) := by
  have hl : Nat.log2 (n / d) = sb + k := by
    have a1 : 2 ^ (sb + k) ≤ n / d := by rw [Nat.le_div_iff_mul_le hd]; exact h1
    have a2 : n / d < 2 ^ (sb + k + 1) := by rw [Nat.div_lt_iff_lt_mul hd]; exact h2
    rw [Nat.log2_eq_iff (by have := Nat.two_pow_pos (sb + k); omega)]
    exact ⟨a1, a2⟩
  unfold roundU
  simp only
  rw [hl, Nat.add_sub_cancel_left]

/-- rounding below `2^(sb+1)` -/
theorem roundU_sub {sb n d : Nat} (hd : 0 < d) (h2 : n < 2 ^ (sb + 1) * d) :
    roundU sb n d = rneDiv n d := by
  have hl : Nat.log2 (n / d) - sb = 0 := by
    have a2 : n / d < 2 ^ (sb + 1) := by rw [Nat.div_lt_iff_lt_mul hd]; exact h2
    by_cases h0 : n / d = 0
    · rw [h0]; simp
    have := (Nat.log2_lt h0).mpr a2
    omega
  unfold roundU
  simp only
  rw [hl]; simp

theorem rneDiv_bounds {n d a b : Nat} (hd : 0 < d) (h1 : a * d ≤ n) (h2 : n ≤ b * d) :
    a ≤ rneDiv n d ∧ rneDiv n d ≤ b := by
  have e1 : a ≤ n / d := (Nat.le_div_iff_mul_le hd).mpr h1
  have hn := Nat.div_add_mod n d
  have hlt := Nat.mod_lt n hd
  have e2 : n / d ≤ b := by
    have := Nat.div_le_div_right (c := d) h2
    rwa [Nat.mul_div_cancel _ hd] at this
  have e3 : n / d = b → n % d = 0 := by
    intro h
    rw [h] at hn
    have : d * b = b * d := Nat.mul_comm _ _
    omega
  unfold rneDiv
  simp only
  constructor
  · split
    · exact e1
    · split
      · omega
      · split <;> omega
  · split
    · exact e2
    · rename_i h
      have hne : n / d ≠ b := fun hh => by have := e3 hh; omega
      split
      · omega
      · split <;> omega

theorem rneDiv_dvd (q d : Nat) (hd : 0 < d) : rneDiv (q * d) d = q := by
  have := rneDiv_bounds hd (le_refl (q * d)) (le_refl (q * d))
  omega

theorem rneDiv_add (n d q : Nat) (hd : 0 < d) (hq : q % 2 = 0) : rneDiv (q * d + n) d = q + rneDiv n d := by
  unfold rneDiv
  simp only
  have e1 : (q * d + n) / d = q + n / d := by
    rw [Nat.mul_comm, Nat.mul_add_div hd]
  have e2 : (q * d + n) % d = n % d := by
    rw [Nat.mul_comm, Nat.mul_add_mod]
  rw [e1, e2]
  have e3 : (q + n / d) % 2 = (n / d) % 2 := by omega
  rw [e3]
  split
  · rfl
  · split
    · omega
    · split <;> omega

end Verif
