import Verif.Theory.PiBits
import Verif.Theory.RplFin
import Mathlib.Algebra.Order.Floor.Semifield
import Mathlib.Data.Nat.Cast.Order.Field

/-!
# C45: the tables of the large argument reduction hold the digits of 2/π and of π/2
-/

namespace Verif

/-- **C45** statement: `tbl` holds consecutive 24-bit digits of the binary expansion of `2/π` -/
def IsTwoOverPi (tbl : List ℤ) : Prop :=
  ∀ k (h : k < tbl.length), tbl[k] = ⌊2 / Real.pi * 2 ^ (24 * (k + 1))⌋ % 2 ^ 24

namespace PiBits

theorem number_append (l m : List ℤ) : number (l ++ m) = number l * 2 ^ (24 * m.length) + number m := by
  unfold number
  induction m using List.reverseRecOn with
  | nil => simp
  | append_singleton m d ih =>
    rw [← List.append_assoc, List.map_append, List.foldl_append, ih, List.map_append, List.foldl_append]
    simp only [List.map_cons, List.map_nil, List.foldl_cons, List.foldl_nil, List.length_append, List.length_singleton]
    rw [show 24 * (m.length + 1) = 24 * m.length + 24 by ring, pow_add]
    ring

theorem number_lt (l : List ℤ) (h : ∀ d ∈ l, d < 2 ^ 24) : number l < 2 ^ (24 * l.length) := by
  induction l using List.reverseRecOn with
  | nil => simp [number]
  | append_singleton m d ih =>
    rw [number_append, List.length_append, List.length_singleton, show 24 * (m.length + 1) = 24 * m.length + 24 by ring, pow_add]
    have h1 := ih (fun d hd => h d (by simp [hd]))
    have h2 := h d (by simp)
    have h3 : number [d] < 2 ^ 24 := by
      show 0 * 2 ^ 24 + d.toNat < _
      omega
    rw [mul_one]
    have : number m + 1 ≤ 2 ^ (24 * m.length) := h1
    generalize 2 ^ (24 * m.length) = T at *
    omega

theorem digits_of_check {tbl : List ℤ} {d e : ℕ} (h : check (number tbl) (24 * tbl.length) d e = true)
    (hd : ∀ d ∈ tbl, 0 ≤ d ∧ d < 2 ^ 24) : IsTwoOverPi tbl := by
  intro k hk
  obtain ⟨h1, h2⟩ := two_div_pi h
  have hW : ⌊2 / Real.pi * 2 ^ (24 * tbl.length)⌋₊ = number tbl := by
    rw [Nat.floor_eq_iff (by have := Real.pi_pos; positivity)]
    rw [div_le_iff₀ (by positivity)] at h1
    rw [lt_div_iff₀ (by positivity)] at h2
    exact ⟨h1, h2⟩
  -- cut the table after digit `k`
  have hcut : tbl = (tbl.take k ++ [tbl[k]]) ++ tbl.drop (k + 1) := by
    rw [List.append_assoc, List.singleton_append, List.cons_getElem_drop_succ, List.take_append_drop]
  have hlen : (tbl.drop (k + 1)).length = tbl.length - (k + 1) := List.length_drop
  have hn := number_append (tbl.take k ++ [tbl[k]]) (tbl.drop (k + 1))
  rw [← hcut, hlen] at hn
  have hlt := number_lt (tbl.drop (k + 1)) (fun d hd' => (hd d (List.mem_of_mem_drop hd')).2)
  rw [hlen] at hlt
  have hn2 := number_append (tbl.take k) [tbl[k]]
  have hk0 := hd _ (List.getElem_mem hk)
  have hs : number [tbl[k]] = tbl[k].toNat := by
    show 0 * 2 ^ 24 + tbl[k].toNat = _
    omega
  rw [hs, List.length_singleton, mul_one] at hn2
  have hdiv : number tbl / 2 ^ (24 * (tbl.length - (k + 1))) = number (tbl.take k) * 2 ^ 24 + tbl[k].toNat := by
    rw [hn, mul_comm, Nat.mul_add_div (by positivity), Nat.div_eq_of_lt hlt, hn2, add_zero]
  have hfl : ⌊2 / Real.pi * 2 ^ (24 * (k + 1))⌋₊ = number tbl / 2 ^ (24 * (tbl.length - (k + 1))) := by
    rw [← hW, ← Nat.floor_div_natCast]
    congr 1
    push_cast
    rw [eq_div_iff (by positivity), mul_assoc, ← pow_add]
    congr 2
    omega
  have hfl' : ⌊2 / Real.pi * 2 ^ (24 * (k + 1))⌋ = ((number (tbl.take k) * 2 ^ 24 + tbl[k].toNat : ℕ) : ℤ) := by
    rw [← hdiv, ← hfl, Int.natCast_floor_eq_floor (by have := Real.pi_pos; positivity)]
  rw [hfl']
  push_cast
  rw [Int.toNat_of_nonneg hk0.1]
  omega

theorem narrow_digits : ∀ d ∈ Rpl.ipio2Narrow, 0 ≤ d ∧ d < 2 ^ 24 := by decide +kernel
theorem wide_digits : ∀ d ∈ Rpl.ipio2, 0 ≤ d ∧ d < 2 ^ 24 := by decide +kernel

end PiBits

/-- **C45** (32-bit targets): all 66 digits of the table are the true digits of 2/π. -/
theorem ipio2_narrow_correct : IsTwoOverPi Rpl.ipio2Narrow ∧ Rpl.ipio2Narrow.length = 66 :=
  ⟨PiBits.digits_of_check (d := 8) (e := 6) (by
    rw [show Rpl.ipio2Narrow.length = 66 by decide +kernel]; exact PiBits.check_narrow) PiBits.narrow_digits, by decide +kernel⟩

/-- **C45** (64-bit targets): all 690 digits of the table are the true digits of 2/π. -/
theorem ipio2_correct : IsTwoOverPi Rpl.ipio2 ∧ Rpl.ipio2.length = 690 :=
  ⟨PiBits.digits_of_check (d := 11) (e := 10) (by
    rw [show Rpl.ipio2.length = 690 by decide +kernel]; exact PiBits.check_wide) PiBits.wide_digits, by decide +kernel⟩

/-- `2/π` to 1584 bits -/
theorem PiBits.two_div_pi_1584 : (PiBits.number Rpl.ipio2Narrow : ℝ) / 2 ^ 1584 ≤ 2 / Real.pi ∧
    2 / Real.pi < (PiBits.number Rpl.ipio2Narrow + 1 : ℝ) / 2 ^ 1584 := PiBits.two_div_pi PiBits.check_narrow

/-- `π/2` to 191 bits -/
theorem pi_div_two_bits :
    (4930024174431634640599033341057067222865862716297522433140 : ℝ) / 2 ^ 191 ≤ Real.pi / 2 ∧
    Real.pi / 2 < (4930024174431634640599033341057067222865862716297522433141 : ℝ) / 2 ^ 191 := by
  obtain ⟨h1, h2⟩ := PiBits.two_div_pi_1584
  have hp := Real.pi_pos
  have hT : (0 : ℝ) < 2 ^ 1584 := by positivity
  have hV : (0 : ℝ) < 2 ^ 191 := by positivity
  have c1 : 4930024174431634640599033341057067222865862716297522433140 * (PiBits.number Rpl.ipio2Narrow + 1) ≤ 2 ^ 191 * 2 ^ 1584 := by decide +kernel
  have c2 : 2 ^ 191 * 2 ^ 1584 < 4930024174431634640599033341057067222865862716297522433141 * PiBits.number Rpl.ipio2Narrow := by decide +kernel
  have c1' : (4930024174431634640599033341057067222865862716297522433140 : ℝ) * (PiBits.number Rpl.ipio2Narrow + 1) ≤ 2 ^ 191 * 2 ^ 1584 := by exact_mod_cast c1
  have c2' : (2 : ℝ) ^ 191 * 2 ^ 1584 < 4930024174431634640599033341057067222865862716297522433141 * PiBits.number Rpl.ipio2Narrow := by exact_mod_cast c2
  generalize (PiBits.number Rpl.ipio2Narrow : ℝ) = w at *
  generalize (2 : ℝ) ^ 1584 = T at *
  clear c1 c2
  have hT : 0 < T := hT
  have hw : 0 < w := by
    have : (0 : ℝ) < 2 ^ 191 * T := by positivity
    nlinarith
  rw [div_le_div_iff₀ hT hp] at h1
  rw [div_lt_div_iff₀ hp hT] at h2
  generalize (2 : ℝ) ^ 191 = V at *
  have hV : 0 < V := hV
  constructor
  · rw [div_le_iff₀ hV]
    have h3 : V * T ≤ (Real.pi / 2 * V) * (w + 1) := by nlinarith
    exact le_of_mul_le_mul_right (c1'.trans h3) (by linarith)
  · rw [lt_div_iff₀ hV]
    have h3 : (Real.pi / 2 * V) * w ≤ V * T := by nlinarith
    exact lt_of_mul_lt_mul_right (h3.trans_lt c2') hw.le

theorem floor_pi_div_two (m : ℕ) (hm : m ≤ 191) :
    ⌊Real.pi / 2 * 2 ^ m⌋ = ((4930024174431634640599033341057067222865862716297522433140 / 2 ^ (191 - m) : ℕ) : ℤ) := by
  obtain ⟨h1, h2⟩ := pi_div_two_bits
  have h0 : 0 ≤ Real.pi / 2 := by have := Real.pi_pos; positivity
  have hf : ⌊Real.pi / 2 * 2 ^ 191⌋₊ = 4930024174431634640599033341057067222865862716297522433140 := by
    rw [Nat.floor_eq_iff (by positivity)]
    rw [div_le_iff₀ (by positivity)] at h1
    rw [lt_div_iff₀ (by positivity)] at h2
    refine ⟨by exact_mod_cast h1, h2.trans_eq (by norm_num)⟩
  rw [← hf, ← Nat.floor_div_natCast, ← Int.natCast_floor_eq_floor (by positivity)]
  congr 2
  push_cast
  rw [eq_div_iff (by positivity), mul_assoc, ← pow_add]
  congr 2
  omega

theorem pio2_vals : Rpl.pio2.map Flt.toRat = [13176794 / 2 ^ 23, 10625384 / 2 ^ 47, 12727492 / 2 ^ 71, 13001355 / 2 ^ 95, 8444956 / 2 ^ 119, 13707522 / 2 ^ 143, 5113994 / 2 ^ 167, 6802548 / 2 ^ 191] := by decide +kernel

/-- **C45**: the eight chunks of π/2 used by the reduction are the leading 24-bit digits of π/2: each is a double whose
value is a 24-bit integer scaled by a power of two, and the first `k + 1` of them sum to `π/2` rounded down. -/
theorem pio2_chunks_correct : Rpl.pio2.length = 8 ∧ (∀ v ∈ Rpl.pio2, v.isFinite) ∧ ∀ k < 8,
    ((Rpl.pio2.take (k + 1)).map Flt.val).sum = (⌊Real.pi / 2 * 2 ^ (23 + 24 * k)⌋ : ℝ) / 2 ^ (23 + 24 * k) := by
  refine ⟨by decide +kernel, by decide +kernel, fun k hk => ?_⟩
  have e : (Rpl.pio2.take (k + 1)).map Flt.val = ((Rpl.pio2.map Flt.toRat).take (k + 1)).map (fun q : ℚ => (q : ℝ)) := by
    rw [← List.map_take, List.map_map]
    rfl
  rw [e, pio2_vals, floor_pi_div_two _ (by omega)]
  interval_cases k <;> simp only [List.take, List.map, List.sum_cons, List.sum_nil] <;> push_cast <;> norm_num

end Verif
