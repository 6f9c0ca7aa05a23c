import Verif.Theory.Rpl

/-!
# One pass of the large argument reduction

The digits `q[]` are summed, the integer part is removed, and the rest is replaced by its distance to the nearest integer.
-/

namespace Verif
open Flt
open Generic (scalbn)
namespace Rpl

/-- value of `n` digits to base `2^24`, the least significant one first -/
def ds (d : ℕ → ℕ) (n : ℕ) : ℕ := ∑ t ∈ Finset.range n, d t * 2 ^ (24 * t)

theorem ds_succ (d : ℕ → ℕ) (n : ℕ) : ds d (n + 1) = ds d n + d n * 2 ^ (24 * n) := Finset.sum_range_succ _ _

theorem ds_lt {d : ℕ → ℕ} {n : ℕ} (h : ∀ t < n, d t < 2 ^ 24) : ds d n < 2 ^ (24 * n) := by
  induction n with
  | zero => simp [ds]
  | succ n ih =>
    have h1 := ih (fun t ht => h t (by omega))
    have h2 := h n (by omega)
    rw [ds_succ]
    have e : 2 ^ (24 * (n + 1)) = 2 ^ 24 * 2 ^ (24 * n) := by rw [← pow_add]; congr 1; omega
    rw [e]
    calc ds d n + d n * 2 ^ (24 * n) < 2 ^ (24 * n) + d n * 2 ^ (24 * n) := by omega
      _ = (d n + 1) * 2 ^ (24 * n) := by ring
      _ ≤ 2 ^ 24 * 2 ^ (24 * n) := Nat.mul_le_mul_right _ h2

theorem ds_congr {d d' : ℕ → ℕ} {n : ℕ} (h : ∀ t < n, d t = d' t) : ds d n = ds d' n :=
  Finset.sum_congr rfl fun t ht => by rw [h t (Finset.mem_range.1 ht)]

theorem ds_update (d : ℕ → ℕ) {n i : ℕ} (h : n ≤ i) (v : ℕ) : ds (Function.update d i v) n = ds d n :=
  ds_congr fun t ht => by rw [Function.update_of_ne (by omega)]

theorem ds_zero {d : ℕ → ℕ} {n : ℕ} (h : ∀ t < n, d t = 0) : ds d n = 0 :=
  Finset.sum_eq_zero fun t ht => by rw [h t (Finset.mem_range.1 ht)]; simp

/-- `iq[t]` for `t < n` -/
def Dig (iq : List ℤ) (n : ℕ) (d : ℕ → ℕ) : Prop := iq.length = 20 ∧ ∀ t < n, d t < 2 ^ 24 ∧ iq[t]? = some (d t : ℤ)

theorem Dig.set {iq : List ℤ} {n : ℕ} {d : ℕ → ℕ} (h : Dig iq n d) {i : ℕ} (hi : i < 20) {v : ℕ} (hv : v < 2 ^ 24) {m : ℕ}
    (hm : m ≤ n ∨ m = n + 1 ∧ i = n) : Dig (iq.set i v) m (Function.update d i v) := by
  refine ⟨by simpa using h.1, fun t ht => ?_⟩
  by_cases e : t = i
  · subst e
    rw [Function.update_self, List.getElem?_set_self (by rw [h.1]; exact hi)]
    exact ⟨hv, rfl⟩
  · rw [Function.update_of_ne e, List.getElem?_set_ne (Ne.symm e)]
    exact h.2 t (by omega)

theorem Dig.lt {iq : List ℤ} {n : ℕ} {d : ℕ → ℕ} (h : Dig iq n d) : ds d n < 2 ^ (24 * n) := ds_lt fun t ht => (h.2 t ht).1

theorem is_x1p24 : Is x1p24 1 24 := by
  have h : x1p24 = ofInt f64 (2 ^ 24) := by decide +kernel
  rw [h]
  exact ((Is.ofInt _ (by norm_num)).congr (by norm_num : (2 : ℤ) ^ 24 = 1 * 2 ^ 24)).shift 24

theorem is_x1pm24 : Is x1pm24 1 (-24) := by
  have h : (x1pm24 : Flt f64).toRat = 1 / 2 ^ 24 := by decide +kernel
  refine ⟨by decide +kernel, ?_⟩
  show ((x1pm24.toRat : ℚ) : ℝ) = _
  rw [h]
  norm_num [zpow_neg]

/-- the sum of the `q[i]` -/
def N (X : ℕ → ℕ) (jv jz : ℕ) : ℕ := ∑ t ∈ Finset.range (jz + 1), Q X jv (jz - t) * 2 ^ (24 * t)

theorem distill_spec {X : ℕ → ℕ} (hX : ∀ j, X j < 2 ^ 24) {jv jz : ℕ} {q : List (Flt f64)} (hq : Qz X jv q (jz + 1))
    (hjz : jz < 20) {iq : List ℤ} (hiq : iq.length = 20) :
    ∃ z iq' Z d, distill q jz iq = some (z, iq') ∧ Is z (Z : ℕ) 0 ∧ Z < 2 ^ 50 ∧ Dig iq' jz d ∧
      N X jv jz = Z * 2 ^ (24 * jz) + ds d jz := by
  obtain ⟨z0, hz0, hz0'⟩ := hq.2 jz (by omega)
  obtain ⟨⟨z, iq'⟩, h1, Z, d, h2⟩ := foldlM_range
    (fun i (s : Flt f64 × List ℤ) => ∃ Z d, Is s.1 (Z : ℕ) 0 ∧ Z < 2 ^ 50 ∧ Dig s.2 i d ∧
      ∑ t ∈ Finset.range (i + 1), Q X jv (jz - t) * 2 ^ (24 * t) = Z * 2 ^ (24 * i) + ds d i)
    (fun (s : Flt f64 × List Int) i =>
      let fw := ofInt f64 ((x1pm24 * s.1).toSInt 32)
      (setU s.2 i ((s.1 - x1p24 * fw).toSInt 32)).bind fun iq =>
      (q[jz - i - 1]?).map fun v => (v + fw, iq)) jz (z0, iq)
    ⟨Q X jv jz, fun _ => 0, hz0', by have := Q_lt hX jv jz; omega, ⟨hiq, by simp⟩, by simp [ds]⟩ (by
    rintro i hi ⟨z, iq⟩ ⟨Z, d, hz, hZ, hd, hsum⟩
    have h1 : Is (x1pm24 * z) (Z : ℕ) (-(24 : ℕ)) := by
      have := is_x1pm24.mul hz (by rw [abs_of_nonneg (by positivity)]; omega) (by norm_num) (by norm_num)
      simpa using this
    have h2 : (x1pm24 * z).toSInt 32 = ((Z / 2 ^ 24 : ℕ) : ℤ) := by
      rw [h1.toSInt 24 (by positivity) (by norm_num; omega)]
      norm_cast
    have hq24 : Z / 2 ^ 24 < 2 ^ 26 := by
      rw [Nat.div_lt_iff_lt_mul (by norm_num)]
      omega
    have h3 : Is (ofInt f64 ((Z / 2 ^ 24 : ℕ) : ℤ)) (Z / 2 ^ 24 : ℕ) 0 := by
      refine Is.ofInt _ ?_
      rw [abs_of_nonneg (by positivity)]
      omega
    have h4 : Is (x1p24 * ofInt f64 ((Z / 2 ^ 24 : ℕ) : ℤ)) (((Z / 2 ^ 24 * 2 ^ 24 : ℕ)) : ℤ) 0 := by
      have := (is_x1p24.mul h3 (by rw [abs_of_nonneg (by positivity)]; omega) (by norm_num) (by norm_num)).unshift 24
      push_cast at this ⊢
      simpa using this
    have h5 : Is (z - x1p24 * ofInt f64 ((Z / 2 ^ 24 : ℕ) : ℤ)) ((Z % 2 ^ 24 : ℕ) : ℤ) (-(0 : ℕ)) := by
      have hm := Nat.div_add_mod Z (2 ^ 24)
      have := hz.sub h4 (by
        have : (Z : ℤ) - ((Z / 2 ^ 24 * 2 ^ 24 : ℕ) : ℤ) = ((Z % 2 ^ 24 : ℕ) : ℤ) := by omega
        rw [this, abs_of_nonneg (by positivity)]
        omega) (by norm_num) (by norm_num)
      exact (this.congr (by omega))
    have h6 : (z - x1p24 * ofInt f64 ((Z / 2 ^ 24 : ℕ) : ℤ)).toSInt 32 = ((Z % 2 ^ 24 : ℕ) : ℤ) := by
      rw [h5.toSInt 0 (by positivity) (by norm_num; omega)]
      simp
    obtain ⟨v, hv, hv'⟩ := hq.2 (jz - i - 1) (by omega)
    have hQ := Q_lt hX jv (jz - i - 1)
    refine ⟨(v + ofInt f64 ((Z / 2 ^ 24 : ℕ) : ℤ), iq.set i ((Z % 2 ^ 24 : ℕ) : ℤ)), ?_,
      Q X jv (jz - i - 1) + Z / 2 ^ 24, Function.update d i (Z % 2 ^ 24), ?_, by omega, ?_, ?_⟩
    · simp only
      rw [h2, h6, setU_some _ (by rw [hd.1]; omega), hv]
      rfl
    · have := hv'.add h3 (by rw [abs_of_nonneg (by positivity)]; omega) (by norm_num) (by norm_num)
      push_cast at this ⊢
      exact this
    · exact hd.set (by omega) (Nat.mod_lt _ (by norm_num)) (Or.inr ⟨rfl, rfl⟩)
    · rw [Finset.sum_range_succ, hsum, ds_succ, ds_update d le_rfl, Function.update_self]
      have e : 2 ^ (24 * (i + 1)) = 2 ^ 24 * 2 ^ (24 * i) := by rw [← pow_add]; congr 1; omega
      have e2 : jz - (i + 1) = jz - i - 1 := by omega
      rw [e, e2]
      have hm := Nat.div_add_mod Z (2 ^ 24)
      generalize 2 ^ (24 * i) = T
      calc Z * T + ds d i + Q X jv (jz - i - 1) * (2 ^ 24 * T)
          = (2 ^ 24 * (Z / 2 ^ 24) + Z % 2 ^ 24) * T + ds d i + Q X jv (jz - i - 1) * (2 ^ 24 * T) := by rw [hm]
        _ = _ := by ring)
  exact ⟨z, iq', Z, d, by rw [distill, hz0]; exact h1, h2.1, h2.2.1, h2.2.2.1, h2.2.2.2⟩

/-- `1 - q` on the digits -/
theorem complement_spec {iq : List ℤ} {jz : ℕ} {d : ℕ → ℕ} (hjz : jz < 20) (h : Dig iq jz d) :
    ∃ c iq' d', complement jz iq = some (c, iq') ∧ Dig iq' jz d' ∧
      (c = 0 ∧ ds d jz = 0 ∧ ds d' jz = 0 ∨ c = 1 ∧ ds d jz + ds d' jz = 2 ^ (24 * jz)) := by
  obtain ⟨⟨c, iq'⟩, h1, d', h2, h3, h4⟩ := foldlM_range
    (fun i (s : ℤ × List ℤ) => ∃ d', Dig s.2 jz d' ∧ (∀ t, i ≤ t → d' t = d t) ∧
      (s.1 = 0 ∧ ds d i = 0 ∧ ds d' i = 0 ∨ s.1 = 1 ∧ ds d i + ds d' i = 2 ^ (24 * i)))
    (fun (s : Int × List Int) i =>
      (s.2[i]?).bind fun j =>
      if s.1 = 0 then
        if j ≠ 0 then (i32 (0x1000000 - j)).bind fun v => (setU s.2 i v).map fun iq => (1, iq)
        else some s
      else (i32 (0xffffff - j)).bind fun v => (setU s.2 i v).map fun iq => (s.1, iq)) jz (0, iq)
    ⟨d, h, fun _ _ => rfl, Or.inl ⟨rfl, rfl, rfl⟩⟩ (by
    rintro i hi ⟨c, iq⟩ ⟨d', hd, heq, hs⟩
    have hi' := hd.2 i hi
    have hdi := heq i le_rfl
    have e : 2 ^ (24 * (i + 1)) = 2 ^ 24 * 2 ^ (24 * i) := by rw [← pow_add]; congr 1; omega
    have hl : i < iq.length := by have := hd.1; simp only at this; omega
    have upd : ∀ v : ℕ, ∀ t, i + 1 ≤ t → Function.update d' i v t = d t := by
      intro v t ht
      rw [Function.update_of_ne (by omega)]
      exact heq t (by omega)
    rcases hs with ⟨rfl, h0, h0'⟩ | ⟨rfl, hs⟩
    · by_cases hz : d' i = 0
      · refine ⟨(0, iq), ?_, d', hd, fun t ht => heq t (by omega), Or.inl ⟨rfl, ?_, ?_⟩⟩
        · simp only [hi'.2, hz]
          rfl
        · rw [ds_succ, h0, ← hdi, hz]; simp
        · rw [ds_succ, h0', hz]; simp
      · refine ⟨(1, iq.set i ((2 ^ 24 - d' i : ℕ) : ℤ)), ?_, Function.update d' i (2 ^ 24 - d' i), ?_, upd _,
          Or.inr ⟨rfl, ?_⟩⟩
        · simp only [hi'.2, Option.bind_some, if_true]
          have hlt := hi'.1
          have e1 : (0x1000000 : ℤ) - (d' i : ℤ) = ((2 ^ 24 - d' i : ℕ) : ℤ) := by omega
          rw [if_pos (by exact_mod_cast hz), e1, i32_some (by omega) (by omega)]
          simp only [Option.bind_some]
          rw [setU_some _ hl]
          rfl
        · exact hd.set (by omega) (by have := hi'.1; omega) (Or.inl le_rfl)
        · rw [ds_succ, ds_succ, ds_update d' le_rfl, Function.update_self, h0, h0', e, ← hdi]
          have := hi'.1
          have e2 : d' i + (2 ^ 24 - d' i) = 2 ^ 24 := by omega
          rw [zero_add, zero_add, ← add_mul, e2]
    · refine ⟨(1, iq.set i ((2 ^ 24 - 1 - d' i : ℕ) : ℤ)), ?_, Function.update d' i (2 ^ 24 - 1 - d' i), ?_, upd _,
        Or.inr ⟨rfl, ?_⟩⟩
      · simp only [hi'.2, Option.bind_some]
        have hlt := hi'.1
        have e1 : (0xffffff : ℤ) - (d' i : ℤ) = ((2 ^ 24 - 1 - d' i : ℕ) : ℤ) := by omega
        rw [if_neg (by norm_num), e1, i32_some (by omega) (by omega)]
        simp only [Option.bind_some]
        rw [setU_some _ hl]
        rfl
      · exact hd.set (by omega) (by have := hi'.1; omega) (Or.inl le_rfl)
      · rw [ds_succ, ds_succ, ds_update d' le_rfl, Function.update_self, e, ← hdi]
        have := hi'.1
        have e2 : d' i + (2 ^ 24 - 1 - d' i) = 2 ^ 24 - 1 := by omega
        have h5 : d' i * 2 ^ (24 * i) + (2 ^ 24 - 1 - d' i) * 2 ^ (24 * i) = (2 ^ 24 - 1) * 2 ^ (24 * i) := by
          rw [← add_mul, e2]
        have h6 : 2 ^ 24 * 2 ^ (24 * i) = (2 ^ 24 - 1) * 2 ^ (24 * i) + 2 ^ (24 * i) := by
          generalize 2 ^ (24 * i) = T
          norm_num
          omega
        generalize 2 ^ (24 * i) = T at *
        omega)
  exact ⟨c, iq', d', h1, h2, h4⟩

end Rpl
end Verif
