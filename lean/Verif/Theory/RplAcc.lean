import Verif.Theory.RplArg
import Verif.Theory.CF2

/-!
# The large argument reduction is accurate
-/

namespace Verif
open Flt
namespace Rpl

/-- the first `k + 1` chunks of `π/2` -/
noncomputable def S2 (k : ℕ) : ℝ := ∑ i ∈ Finset.range (k + 1), (P i : ℝ) * 2 ^ (-(24 * i : ℤ) - 23)

theorem S2_bounds : ∀ k < 5, S2 k ≤ Real.pi / 2 ∧ Real.pi / 2 ≤ S2 k + 2 ^ (-(24 * k : ℤ) - 23) := by
  obtain ⟨h1, h2⟩ := pi_div_two_bits
  have hP : P 0 = 13176794 ∧ P 1 = 10625384 ∧ P 2 = 12727492 ∧ P 3 = 13001355 ∧ P 4 = 8444956 := by decide +kernel
  obtain ⟨p0, p1, p2, p3, p4⟩ := hP
  intro k hk
  unfold S2
  interval_cases k <;> simp only [Finset.sum_range_succ, Finset.sum_range_zero, p0, p1, p2, p3, p4] <;> push_cast <;>
    constructor <;> norm_num at h1 h2 ⊢ <;> linarith

/-- exchanging the order of summation -/
theorem fsum_eq (d : ℕ → ℕ) (jp jz B : ℕ) :
    fsum d jp jz B = ∑ m ∈ Finset.range (jz + 1), (d m : ℝ) * 2 ^ ((24 * m : ℤ) - B) * S2 (min jp m) := by
  have e1 : fsum d jp jz B = ∑ i ∈ Finset.range (jz + 1), (E d jp jz i : ℝ) * 2 ^ ((24 * i : ℤ) - B - 23) := by
    unfold fsum fv
    rw [← Finset.sum_range_reflect]
    apply Finset.sum_congr rfl
    intro i hi
    have := Finset.mem_range.1 hi
    have e : jz - (jz + 1 - 1 - i) = i := by omega
    rw [e]
  have e2 : ∀ i ∈ Finset.range (jz + 1), (E d jp jz i : ℝ) * 2 ^ ((24 * i : ℤ) - B - 23) =
      ∑ m ∈ Finset.range (jz + 1), if i ≤ m ∧ m - i ≤ jp then (P (m - i) : ℝ) * d m * 2 ^ ((24 * i : ℤ) - B - 23) else 0 := by
    intro i hi
    have hi := Finset.mem_range.1 hi
    unfold E
    push_cast
    rw [Finset.sum_mul, ← Finset.sum_filter]
    apply Finset.sum_bij' (fun k _ => i + k) (fun m _ => m - i)
    · intro k hk
      have := Finset.mem_range.1 hk
      simp only [Finset.mem_filter, Finset.mem_range]
      omega
    · intro m hm
      simp only [Finset.mem_filter, Finset.mem_range] at hm ⊢
      omega
    · intro k hk
      omega
    · intro m hm
      simp only [Finset.mem_filter, Finset.mem_range] at hm
      omega
    · intro k hk
      rw [show i + k - i = k by omega]
  rw [e1, Finset.sum_congr rfl e2, Finset.sum_comm]
  apply Finset.sum_congr rfl
  intro m hm
  have hm := Finset.mem_range.1 hm
  rw [S2, Finset.mul_sum, ← Finset.sum_filter]
  apply Finset.sum_bij' (fun i _ => m - i) (fun k _ => m - k)
  · intro i hi
    simp only [Finset.mem_filter, Finset.mem_range] at hi ⊢
    omega
  · intro k hk
    simp only [Finset.mem_filter, Finset.mem_range] at hk ⊢
    omega
  · intro i hi
    simp only [Finset.mem_filter, Finset.mem_range] at hi
    omega
  · intro k hk
    simp only [Finset.mem_range] at hk
    omega
  · intro i hi
    simp only [Finset.mem_filter, Finset.mem_range] at hi
    have e : ((m - i : ℕ) : ℤ) = (m : ℤ) - i := by omega
    rw [e, show (24 * (i : ℤ)) - B - 23 = (24 * (m : ℤ) - B) + (-(24 * ((m : ℤ) - i)) - 23) by ring, zpow_add₀ (by norm_num)]
    ring

theorem ds_real (d : ℕ → ℕ) (n B : ℕ) : (ds d n : ℝ) * 2 ^ (-(B : ℤ)) = ∑ m ∈ Finset.range n, (d m : ℝ) * 2 ^ ((24 * m : ℤ) - B) := by
  unfold ds
  push_cast
  rw [Finset.sum_mul]
  apply Finset.sum_congr rfl
  intro m _
  rw [sub_eq_add_neg, zpow_add₀ (by norm_num), mul_assoc]
  congr 2

/-- the sum is the product with π/2, up to eight units in the last place of the digits and a relative `2^-90` -/
theorem fsum_acc {d : ℕ → ℕ} {jp jz B : ℕ} (hd : ∀ t ≤ jz, d t < 2 ^ 24) (h3 : 3 ≤ jp) (h4 : jp ≤ 4) (hjz : jp ≤ jz) :
    fsum d jp jz B ≤ Real.pi / 2 * ((ds d (jz + 1) : ℝ) * 2 ^ (-(B : ℤ))) ∧
    Real.pi / 2 * ((ds d (jz + 1) : ℝ) * 2 ^ (-(B : ℤ))) ≤ fsum d jp jz B + (8 + (ds d (jz + 1) : ℝ) * 2 ^ (-90 : ℤ)) * 2 ^ (-(B : ℤ)) := by
  rw [fsum_eq, ds_real, Finset.mul_sum]
  constructor
  · apply Finset.sum_le_sum
    intro m _
    rw [mul_comm (Real.pi / 2)]
    exact mul_le_mul_of_nonneg_left (S2_bounds _ (by omega)).1 (by positivity)
  · have e : (8 + (ds d (jz + 1) : ℝ) * 2 ^ (-90 : ℤ)) * 2 ^ (-(B : ℤ)) = 8 * 2 ^ (-(B : ℤ)) + 2 ^ (-90 : ℤ) * ∑ m ∈ Finset.range (jz + 1), (d m : ℝ) * 2 ^ ((24 * m : ℤ) - B) := by
      rw [← ds_real]; ring
    rw [e, Finset.mul_sum]
    have h8 : (∑ m ∈ Finset.range (jz + 1), if m < 4 then (2 : ℝ) * 2 ^ (-(B : ℤ)) else 0) ≤ 8 * 2 ^ (-(B : ℤ)) := by
      rw [← Finset.sum_filter, Finset.sum_const, nsmul_eq_mul]
      have : (Finset.filter (fun m => m < 4) (Finset.range (jz + 1))).card ≤ 4 := by
        have h : Finset.filter (fun m => m < 4) (Finset.range (jz + 1)) ⊆ Finset.range 4 := by
          intro m hm
          simp only [Finset.mem_filter, Finset.mem_range] at hm ⊢
          omega
        simpa using Finset.card_le_card h
      have h' : ((Finset.filter (fun m => m < 4) (Finset.range (jz + 1))).card : ℝ) ≤ 4 := by exact_mod_cast this
      have hp := zp (-(B : ℤ))
      nlinarith
    refine le_trans ?_ (add_le_add_right (add_le_add_left h8 _) _)
    rw [← Finset.sum_add_distrib, ← Finset.sum_add_distrib]
    apply Finset.sum_le_sum
    intro m hm
    have hm := Finset.mem_range.1 hm
    have hb := (S2_bounds (min jp m) (by omega)).2
    have hdm : (d m : ℝ) ≤ 2 ^ 24 := by exact_mod_cast (hd m (by omega)).le
    have hp := zp ((24 * m : ℤ) - B)
    have hd0 : (0 : ℝ) ≤ d m := by positivity
    have h1 : Real.pi / 2 * ((d m : ℝ) * 2 ^ ((24 * m : ℤ) - B)) ≤
        (d m : ℝ) * 2 ^ ((24 * m : ℤ) - B) * S2 (min jp m) + (d m : ℝ) * 2 ^ ((24 * m : ℤ) - B) * 2 ^ (-(24 * (min jp m : ℕ) : ℤ) - 23) := by
      rw [← mul_add, mul_comm (Real.pi / 2)]
      exact mul_le_mul_of_nonneg_left hb (by positivity)
    refine h1.trans ?_
    by_cases hm4 : m < 4
    · rw [if_pos hm4]
      have hB := zp (-(B : ℤ))
      refine add_le_add_right ?_ _
      have h2 : (d m : ℝ) * 2 ^ ((24 * m : ℤ) - B) * 2 ^ (-(24 * (min jp m : ℕ) : ℤ) - 23) ≤ 2 * 2 ^ (-(B : ℤ)) := by
        have e2 : min jp m = m := by omega
        rw [e2, mul_assoc, ← zpow_add₀ (by norm_num), show ((24 * m : ℤ) - B) + (-(24 * m : ℤ) - 23) = -23 + -(B : ℤ) by ring, zpow_add₀ (by norm_num), ← mul_assoc]
        apply mul_le_mul_of_nonneg_right _ hB.le
        calc (d m : ℝ) * 2 ^ (-23 : ℤ) ≤ 2 ^ 24 * 2 ^ (-23 : ℤ) := mul_le_mul_of_nonneg_right hdm (zp _).le
          _ = 2 := by norm_num
      have h3 : (0 : ℝ) ≤ 2 ^ (-90 : ℤ) * ((d m : ℝ) * 2 ^ ((24 * m : ℤ) - B)) := by positivity
      linarith
    · rw [if_neg hm4, zero_add]
      refine add_le_add_right ?_ _
      rw [mul_comm ((2 : ℝ) ^ (-90 : ℤ))]
      apply mul_le_mul_of_nonneg_left _ (by positivity)
      exact zpow_le_zpow_right₀ (by norm_num) (by omega)

theorem digits_A : ∀ jv < 50, PiBits.number ipio2Narrow / 2 ^ (24 * (58 - jv)) % 2 ^ 240 = CF.A jv := by decide +kernel
theorem digits_0 : PiBits.number ipio2Narrow / 2 ^ (24 * 58) / 2 ^ 240 = 0 := by decide +kernel
theorem W01 : W 0 = 0 ∧ W 1 = 0 := by decide +kernel

/-- `2/π` to `24 (jv + 8)` bits -/
theorem two_div_pi_A {jv : ℕ} (hjv : jv < 50) : ∃ (H : ℕ) (t : ℝ), 0 ≤ t ∧ t ≤ 1 ∧ (jv = 0 → H = 0) ∧
    2 / Real.pi * 2 ^ (24 * (jv + 8)) = H * 2 ^ 240 + CF.A jv + t := by
  obtain ⟨h1, h2⟩ := PiBits.two_div_pi_1584
  have hA := digits_A jv hjv
  set n := PiBits.number ipio2Narrow with hn
  set s := 24 * (58 - jv) with hs
  have e1 := Nat.div_add_mod n (2 ^ s)
  have e2 := Nat.div_add_mod (n / 2 ^ s) (2 ^ 240)
  have hlt := Nat.mod_lt n (show 0 < 2 ^ s by positivity)
  rw [hA] at e2
  refine ⟨n / 2 ^ s / 2 ^ 240, 2 / Real.pi * 2 ^ (24 * (jv + 8)) - ((n / 2 ^ s : ℕ) : ℝ), ?_, ?_, ?_, ?_⟩
  · have p1 : (0 : ℝ) < 2 ^ s := by positivity
    have p2 : (0 : ℝ) < 2 ^ (24 * (jv + 8)) := by positivity
    have e3 : (2 : ℝ) ^ 1584 = 2 ^ s * 2 ^ (24 * (jv + 8)) := by rw [← pow_add]; congr 1; omega
    have l : ((n / 2 ^ s : ℕ) : ℝ) * 2 ^ s ≤ n := by exact_mod_cast Nat.div_mul_le_self n (2 ^ s)
    rw [e3] at h1
    clear e3 h2 e1 e2 hlt hA
    rw [div_le_iff₀ (by positivity)] at h1
    have : ((n / 2 ^ s : ℕ) : ℝ) * 2 ^ s ≤ (2 / Real.pi * 2 ^ (24 * (jv + 8))) * 2 ^ s := by
      refine l.trans (h1.trans (le_of_eq (by ring)))
    have := le_of_mul_le_mul_right this p1
    linarith
  · have p1 : (0 : ℝ) < 2 ^ s := by positivity
    have p2 : (0 : ℝ) < 2 ^ (24 * (jv + 8)) := by positivity
    have e3 : (2 : ℝ) ^ 1584 = 2 ^ s * 2 ^ (24 * (jv + 8)) := by rw [← pow_add]; congr 1; omega
    have l : (n : ℝ) + 1 ≤ (((n / 2 ^ s : ℕ) : ℝ) + 1) * 2 ^ s := by
      have : n + 1 ≤ (n / 2 ^ s + 1) * 2 ^ s := by
        rw [Nat.add_mul, one_mul, mul_comm]; omega
      exact_mod_cast this
    rw [e3] at h2
    clear e3 h1 e1 e2 hlt hA
    rw [lt_div_iff₀ (by positivity)] at h2
    have : (2 / Real.pi * 2 ^ (24 * (jv + 8))) * 2 ^ s ≤ (((n / 2 ^ s : ℕ) : ℝ) + 1) * 2 ^ s := by
      refine le_trans ?_ l
      refine le_trans (le_of_eq ?_) h2.le
      ring
    have := le_of_mul_le_mul_right this p1
    linarith
  · intro h
    rw [hs, h]
    exact digits_0
  · have e4 : ((n / 2 ^ s : ℕ) : ℝ) = ((n / 2 ^ s / 2 ^ 240 : ℕ) : ℝ) * 2 ^ 240 + CF.A jv := by
      rw [mul_comm (2 ^ 240)] at e2
      exact_mod_cast e2.symm
    rw [← e4]
    ring

/-- the exact number of quadrants -/
theorem quadrants {X : ℕ → ℕ} (hX : ∀ j, X j < 2 ^ 24) {jv jz K B : ℕ} {q0 : ℤ} (he : Exps jv q0 K) (h3 : 3 ≤ jz) (h7 : jz ≤ 7)
    (hB : (B : ℤ) = 24 * jz - q0) (h8 : q0 < -21 → jv = 0) :
    ∃ (I : ℤ) (t : ℝ), 0 ≤ t ∧ t ≤ 2 ^ 27 ∧
      (U X : ℝ) * 2 ^ (24 * jv - 24 + q0 : ℤ) * (2 / Real.pi) = 8 * I + (N X jv jz + t) * 2 ^ (-(B : ℤ)) := by
  have hjv := he.jv_le
  have hK := he.hK
  have hlo := he.lo
  obtain ⟨H, θ, t0, t1, hH, h2π⟩ := two_div_pi_A (jv := jv) (by omega)
  obtain ⟨tail, ht, htail⟩ := tail_spec hX (by omega : jv < 50) h3 h7
  set head := X 0 * W jv * 2 ^ 24 + (X 0 * W (jv + 1) + X 1 * W jv) with hhead
  have hhead0 : jv = 0 → head = 0 := by
    intro h
    rw [hhead, h]
    simp [W01.1, W01.2]
  have hU : U X < 2 ^ 72 := by
    have a := hX 0
    have b := hX 1
    have c := hX 2
    unfold U
    omega
  obtain ⟨I, hI⟩ : ∃ I : ℤ, ((U X * H + head : ℕ) : ℝ) * 2 ^ (q0 + 24) = 8 * I := by
    by_cases h : q0 < -21
    · exact ⟨0, by simp [hH (h8 h), hhead0 (h8 h)]⟩
    · obtain ⟨k, hk⟩ : ∃ k : ℕ, q0 + 24 = k + 3 := ⟨(q0 + 21).toNat, by omega⟩
      refine ⟨((U X * H + head : ℕ) : ℤ) * 2 ^ k, ?_⟩
      rw [hk, zpow_add₀ (by norm_num), zpow_natCast]
      push_cast
      ring
  refine ⟨I, (tail + U X * θ) * 2 ^ ((24 * jz : ℤ) - 216),
    mul_nonneg (add_nonneg (Nat.cast_nonneg _) (mul_nonneg (Nat.cast_nonneg _) t0)) (zp _).le, ?_, ?_⟩
  · have h1 : (tail : ℝ) * 2 ^ ((24 * jz : ℤ) - 216) ≤ 2 ^ 26 := by
      have : (tail : ℝ) ≤ 2 ^ 26 * 2 ^ (216 - 24 * jz) := by exact_mod_cast ht.le
      calc (tail : ℝ) * 2 ^ ((24 * jz : ℤ) - 216) ≤ 2 ^ 26 * 2 ^ (216 - 24 * jz) * 2 ^ ((24 * jz : ℤ) - 216) := mul_le_mul_of_nonneg_right this (zp _).le
        _ = 2 ^ 26 := by
          rw [mul_assoc, ← zpow_natCast 2 (216 - 24 * jz), ← zpow_add₀ (by norm_num), show ((216 - 24 * jz : ℕ) : ℤ) + ((24 * jz : ℤ) - 216) = 0 by omega]
          norm_num
    have h2 : (U X * θ : ℝ) * 2 ^ ((24 * jz : ℤ) - 216) ≤ 2 ^ 24 := by
      have : (U X : ℝ) ≤ 2 ^ 72 := by exact_mod_cast hU.le
      have h5 : (U X * θ : ℝ) ≤ 2 ^ 72 := by nlinarith
      calc (U X * θ : ℝ) * 2 ^ ((24 * jz : ℤ) - 216) ≤ 2 ^ 72 * 2 ^ (-48 : ℤ) :=
            mul_le_mul h5 (zpow_le_zpow_right₀ (by norm_num) (by omega)) (zp _).le (by norm_num)
        _ = 2 ^ 24 := by norm_num
    rw [add_mul]
    norm_num at h1 h2 ⊢
    linarith
  · have hta : (U X : ℝ) * CF.A jv = head * 2 ^ 240 + N X jv jz * 2 ^ (216 - 24 * jz) + tail := by exact_mod_cast htail
    have e1 : (2 : ℝ) / Real.pi = (H * 2 ^ 240 + CF.A jv + θ) * 2 ^ (-(24 * (jv + 8) : ℕ) : ℤ) := by
      rw [← h2π, zpow_neg, zpow_natCast]
      field_simp
    have e2 : (2 : ℝ) ^ (24 * jv - 24 + q0 : ℤ) * 2 ^ (-(24 * (jv + 8) : ℕ) : ℤ) = 2 ^ (q0 - 216) := by
      rw [← zpow_add₀ (by norm_num)]
      congr 1
      push_cast
      ring
    have e3 : (2 : ℝ) ^ 240 * 2 ^ (q0 - 216) = 2 ^ (q0 + 24) := by
      rw [← zpow_natCast, ← zpow_add₀ (by norm_num)]
      congr 1
      push_cast
      ring
    have e4 : (2 : ℝ) ^ (216 - 24 * jz) * 2 ^ (q0 - 216) = 2 ^ (-(B : ℤ)) := by
      rw [← zpow_natCast, ← zpow_add₀ (by norm_num)]
      congr 1
      omega
    have e5 : (2 : ℝ) ^ ((24 * jz : ℤ) - 216) * 2 ^ (-(B : ℤ)) = 2 ^ (q0 - 216) := by
      rw [← zpow_add₀ (by norm_num)]
      congr 1
      omega
    calc (U X : ℝ) * 2 ^ (24 * jv - 24 + q0 : ℤ) * (2 / Real.pi) = (U X * H * 2 ^ 240 + U X * CF.A jv + U X * θ) * 2 ^ (q0 - 216) := by
          rw [e1, ← e2]; ring
      _ = ((U X * H + head : ℕ) : ℝ) * (2 ^ 240 * 2 ^ (q0 - 216)) + N X jv jz * (2 ^ (216 - 24 * jz) * 2 ^ (q0 - 216)) + (tail + U X * θ) * 2 ^ (q0 - 216) := by
          rw [hta]; push_cast; ring
      _ = 8 * I + (N X jv jz + (tail + U X * θ) * 2 ^ ((24 * jz : ℤ) - 216)) * 2 ^ (-(B : ℤ)) := by
          rw [e3, e4, hI, ← e5]; ring

/-- what is left after removing quadrants is `sg` times the final sum -/
theorem Red.exact {X : ℕ → ℕ} (hX : ∀ j, X j < 2 ^ 24) {jv jk K r : ℕ} {q0 : ℤ} (he : Exps jv q0 K) (h8 : q0 < -21 → jv = 0)
    (h3 : 3 ≤ jk) (h4 : jk ≤ 4) {n : ℤ} {y : Flt f64} {jz B G jz' : ℕ} {d : ℕ → ℕ} {sg : ℤ} (hr : r + 1 ≤ B)
    (h : Red X jv jk r q0 n y jz B G jz' d sg) :
    ∃ m : ℤ, |(U X : ℝ) * 2 ^ (24 * jv - 24 + q0 : ℤ) - (n + 8 * m) * (Real.pi / 2) - sg * fsum d jk jz' B| ≤ 2 ^ (29 - 24 * jk : ℤ) * fsum d jk jz' B ∧
      2 ^ (-(r : ℤ) - 1) ≤ fsum d jk jz' B ∧ fsum d jk jz' B ≤ Real.pi / 4 := by
  obtain ⟨I, t, t0, t1, hq⟩ := quadrants hX he (h3.trans h.lo) (by have := h.hi; omega) h.hB h8
  obtain ⟨k, hk⟩ := h.eq
  obtain ⟨f1, f2⟩ := fsum_acc (B := B) h.dlt h3 h4 h.lo'
  have hk' : (N X jv jz : ℝ) = (n + 8 * k) * 2 ^ B + sg * G := by exact_mod_cast hk
  have hG : (2 : ℝ) ^ (24 * jk : ℤ) ≤ G := by
    have h1 : 2 ^ (24 * jk) ≤ ds d (jz' + 1) := by
      rw [ds_succ]
      have h2 : 1 * 2 ^ (24 * jk) ≤ d jz' * 2 ^ (24 * jz') :=
        Nat.mul_le_mul (by have := h.top; omega) (Nat.pow_le_pow_right (by norm_num) (by have := h.lo'; omega))
      omega
    rw [h.val] at h1
    have : ((24 * jk : ℕ) : ℤ) = 24 * jk := by push_cast; rfl
    rw [← this, zpow_natCast]
    exact_mod_cast h1
  rw [h.val] at f1 f2
  have hle : (G : ℝ) * 2 ^ (-(B : ℤ)) ≤ 1 / 2 := by
    have h1 : (2 * G : ℝ) ≤ 2 ^ B := by exact_mod_cast h.le
    rw [zpow_neg, zpow_natCast, ← div_eq_mul_inv, div_le_iff₀ (by positivity)]
    linarith
  have hge : (2 : ℝ) ^ (-(r : ℤ) - 1) ≤ (G : ℝ) * 2 ^ (-(B : ℤ)) := by
    have h1 : ((2 : ℝ) ^ (B - r - 1)) ≤ G := by exact_mod_cast h.ge
    rw [← zpow_natCast] at h1
    calc (2 : ℝ) ^ (-(r : ℤ) - 1) = 2 ^ ((B - r - 1 : ℕ) : ℤ) * 2 ^ (-(B : ℤ)) := by
          rw [← zpow_add₀ (by norm_num)]; congr 1; omega
      _ ≤ _ := mul_le_mul_of_nonneg_right h1 (zp _).le
  set b := (2 : ℝ) ^ (-(B : ℤ)) with hb
  have hb0 : 0 < b := zp _
  have hbB : b * 2 ^ B = 1 := by
    rw [hb, ← zpow_natCast, ← zpow_add₀ (by norm_num)]; simp
  have p1 : 3.14 < Real.pi := by have := pi_div_two_bits.1; norm_num at this ⊢; linarith
  have p2 : Real.pi < 3.15 := by have := pi_div_two_bits.2; norm_num at this ⊢; linarith
  have hpos := Real.pi_pos
  have hG72 : (2 : ℝ) ^ (72 : ℤ) ≤ G := (zpow_le_zpow_right₀ (by norm_num) (by omega)).trans hG
  -- G b ≤ fsum
  have hgf : (G : ℝ) * b ≤ fsum d jk jz' B := by
    have : (8 + (G : ℝ) * 2 ^ (-90 : ℤ)) ≤ G * (1 / 4) := by
      have h1 : (2 : ℝ) ^ (-90 : ℤ) ≤ 1 / 8 := by norm_num
      have h2 : (64 : ℝ) ≤ G := le_trans (by norm_num) hG72
      nlinarith
    have := mul_le_mul_of_nonneg_right this hb0.le
    nlinarith
  have hr0 : (U X : ℝ) * 2 ^ (24 * jv - 24 + q0 : ℤ) - (n + 8 * (I + k : ℤ)) * (Real.pi / 2) = Real.pi / 2 * ((sg * G + t) * b) := by
    have e : (U X : ℝ) * 2 ^ (24 * jv - 24 + q0 : ℤ) = ((U X : ℝ) * 2 ^ (24 * jv - 24 + q0 : ℤ) * (2 / Real.pi)) * (Real.pi / 2) := by
      field_simp
    rw [e, hq, hk']
    have e2 : ((n + 8 * (k : ℝ)) * 2 ^ B + sg * G + t) * b = (n + 8 * k) * (b * 2 ^ B) + (sg * G + t) * b := by ring
    rw [e2, hbB]
    push_cast
    ring
  refine ⟨I + k, ?_, hge.trans hgf, ?_⟩
  · rw [hr0]
    have e : Real.pi / 2 * ((sg * G + t) * b) - sg * fsum d jk jz' B = sg * (Real.pi / 2 * (G * b) - fsum d jk jz' B) + Real.pi / 2 * (t * b) := by ring
    rw [e]
    refine (abs_add_le _ _).trans ?_
    have hs : |(sg : ℝ)| = 1 := by rcases h.sg1 with h | h <;> simp [h]
    rw [abs_mul, hs, one_mul, abs_of_nonneg (by linarith : (0:ℝ) ≤ Real.pi / 2 * (G * b) - fsum d jk jz' B), abs_of_nonneg (by positivity)]
    have h5 : t * b ≤ 2 ^ 27 * b := mul_le_mul_of_nonneg_right t1 hb0.le
    have h6 : b ≤ 2 ^ (-(24 * jk : ℤ)) * (G * b) := by
      have h7 : 1 ≤ (2 : ℝ) ^ (-(24 * jk : ℤ)) * G := by
        have := mul_le_mul_of_nonneg_left hG (zp (-(24 * jk : ℤ))).le
        rw [← zpow_add₀ (by norm_num)] at this
        simpa using this
      have := mul_le_mul_of_nonneg_right h7 hb0.le
      linarith
    have h8 : b ≤ 2 ^ (-(24 * jk : ℤ)) * fsum d jk jz' B := h6.trans (mul_le_mul_of_nonneg_left hgf (zp _).le)
    have h9 : (G : ℝ) * 2 ^ (-90 : ℤ) * b ≤ (2 ^ 26 * 2 ^ (-(24 * jk : ℤ))) * fsum d jk jz' B := by
      have : (2 : ℝ) ^ (-90 : ℤ) ≤ 2 ^ 26 * 2 ^ (-(24 * jk : ℤ)) := by
        rw [← zpow_natCast, ← zpow_add₀ (by norm_num)]
        exact zpow_le_zpow_right₀ (by norm_num) (by push_cast; omega)
      calc (G : ℝ) * 2 ^ (-90 : ℤ) * b = 2 ^ (-90 : ℤ) * (G * b) := by ring
        _ ≤ (2 ^ 26 * 2 ^ (-(24 * jk : ℤ))) * fsum d jk jz' B := mul_le_mul this hgf (by positivity) (by positivity)
    have e9 : (2 : ℝ) ^ (29 - 24 * jk : ℤ) = 2 ^ 29 * 2 ^ (-(24 * jk : ℤ)) := by
      rw [sub_eq_add_neg, zpow_add₀ (by norm_num)]; norm_num
    rw [e9]
    have h10 : Real.pi / 2 * (t * b) ≤ 2 * (2 ^ 27 * b) := mul_le_mul (by linarith) h5 (by positivity) (by norm_num)
    set w := (2 : ℝ) ^ (-(24 * jk : ℤ)) with hw
    have h11 : 0 ≤ w * fsum d jk jz' B := by
      have : 0 ≤ (G : ℝ) * b := by positivity
      have : 0 ≤ w := (zp _).le
      nlinarith
    generalize (2 : ℝ) ^ (-90 : ℤ) = c at *
    nlinarith
  · nlinarith

end Rpl
end Verif
