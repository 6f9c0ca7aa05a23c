import Verif.Theory.Bits

/-! # Representable magnitudes and comparison principles for rounding -/

namespace Verif

/-- `r * 2^k` with `r ≤ 2^(sb+1)` is representable -/
theorem rep_mul_pow (sb r k : Nat) (h : r ≤ 2 ^ (sb + 1)) : ∃ b, magOf sb b = r * 2 ^ k := by
  induction k generalizing r with
  | zero => exact ⟨0 * 2 ^ sb + r, magOf_split sb 0 r h (Or.inr rfl)⟩
  | succ k ih =>
    rcases Nat.lt_or_ge r (2 ^ sb) with h1 | h1
    · obtain ⟨b, hb⟩ := ih (2 * r) (by rw [pow_succ]; omega)
      exact ⟨b, by rw [hb, pow_succ]; ring⟩
    · exact ⟨_, magOf_split sb (k + 1) r h (Or.inl h1)⟩

/-- conversely large magnitudes are multiples of their spacing -/
theorem dvd_magOf (sb b k : Nat) (h : 2 ^ (k + sb) ≤ magOf sb b) : 2 ^ k ∣ magOf sb b := by
  obtain ⟨j, r, rfl, h1, h2⟩ := exists_split sb b
  rw [magOf_split sb j r h1.le h2] at h ⊢
  apply Dvd.dvd.mul_left
  apply pow_dvd_pow
  by_contra hlt
  have hlt : j + 1 ≤ k := by omega
  have : r * 2 ^ j < 2 ^ (sb + 1) * 2 ^ j := Nat.mul_lt_mul_of_pos_right h1 (Nat.two_pow_pos j)
  rw [← pow_add] at this
  have h3 : 2 ^ (sb + 1 + j) ≤ 2 ^ (k + sb) := Nat.pow_le_pow_right (by norm_num) (by omega)
  omega

theorem roundU_lt {sb n d a t : Nat} (hsb : 1 ≤ sb) (hd : 0 < d) (hat : a < t)
    (h : 2 * n < (magOf sb a + magOf sb t) * d) : roundU sb n d < t := by
  by_contra hc
  have hn := roundU_isNear hsb n d hd
  set b := roundU sb n d
  obtain ⟨c, hc'⟩ : ∃ c, c + 1 = b := ⟨b - 1, by omega⟩
  have h1 := hn.lo c hc'
  have m1 : magOf sb a ≤ magOf sb c := magOf_le.mpr (by omega)
  have m2 : magOf sb t ≤ magOf sb b := magOf_le.mpr (by omega)
  have := Nat.mul_le_mul_right d (Nat.add_le_add m1 m2)
  omega

theorem roundU_ge {sb n d a : Nat} (hsb : 1 ≤ sb) (hd : 0 < d)
    (h : (magOf sb a + magOf sb (a + 1)) * d ≤ 2 * n)
    (he : (magOf sb a + magOf sb (a + 1)) * d = 2 * n → (a + 1) % 2 = 0) :
    a + 1 ≤ roundU sb n d := by
  by_contra hc
  have hn := roundU_isNear hsb n d hd
  set b := roundU sb n d
  have h1 := hn.hi
  have m1 : magOf sb b ≤ magOf sb a := magOf_le.mpr (by omega)
  have m2 : magOf sb (b + 1) ≤ magOf sb (a + 1) := magOf_le.mpr (by omega)
  have m3 := Nat.mul_le_mul_right d (Nat.add_le_add m1 m2)
  have e1 : (magOf sb b + magOf sb (b + 1)) * d = (magOf sb a + magOf sb (a + 1)) * d := by omega
  have e2 := Nat.eq_of_mul_eq_mul_right hd e1
  have e3 : magOf sb b = magOf sb a := by omega
  have e4 := magOf_inj.mp e3
  have h2 := hn.hiEven (by omega)
  have h3 := he (by omega)
  omega

theorem le_roundU {sb n d b : Nat} (hsb : 1 ≤ sb) (hd : 0 < d) (h : magOf sb b * d ≤ n) :
    b ≤ roundU sb n d := by
  have h1 := roundU_mono (n := magOf sb b * d) (n' := n) hsb hd hd (Nat.mul_le_mul_right d h)
  rwa [roundU_exact hsb b d hd] at h1

theorem roundU_le {sb n d b : Nat} (hsb : 1 ≤ sb) (hd : 0 < d) (h : n ≤ magOf sb b * d) :
    roundU sb n d ≤ b := by
  have h1 := roundU_mono (n := n) (n' := magOf sb b * d) hsb hd hd (Nat.mul_le_mul_right d h)
  rwa [roundU_exact hsb b d hd] at h1

namespace Flt
variable {F : Fmt}

theorem oneMag_eq (F : Fmt) : F.oneMag = 2 ^ (F.bias - 1 + F.sb) := rfl

/-- finite data whose magnitude is below the virtual magnitude of infinity -/
theorem lt_infEnc_of_mag {b : Nat} (h : magOf F.sb b < 2 ^ (2 * F.bias + F.sb)) : b < F.infEnc := by
  rw [← F.magOf_infEnc, magOf_lt] at h; exact h

end Flt
end Verif

namespace Verif
/-- multiplying by a power of two keeps representability (unbounded exponent) -/
theorem rep_shift (sb b k : Nat) : ∃ c, magOf sb c = magOf sb b * 2 ^ k := by
  obtain ⟨j, r, rfl, h1, h2⟩ := exists_split sb b
  rw [magOf_split sb j r h1.le h2, mul_assoc, ← pow_add]
  exact rep_mul_pow sb r _ h1.le
end Verif
