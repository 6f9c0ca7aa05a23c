import Verif.Theory.Fma

/-! # The arithmetic stages of `fma_round` and their composition -/

namespace Verif
open Flt Generic
variable {F : Fmt}

theorem zpow2_pos (n : Int) : (0 : ℚ) < 2 ^ n := zpow_pos (by norm_num) _

theorem oneMag_zpow (F : Fmt) : (F.oneMag : ℚ) = 2 ^ ((F.bias - 1 + F.sb : ℕ) : Int) := by
  rw [oneMag_eq, zpow_natCast]; push_cast; rfl

theorem finish_isRNE (hF : FmaFmt F) (neg : Bool) (x : BitVec F.bits) {e : Int}
    (h1 : 2 ^ (F.ew + F.sb - 1) ≤ x.toNat) (h2 : x.toNat < 2 ^ (F.ew + F.sb))
    (he1 : -2 ^ 30 ≤ e) (he2 : e < 2 ^ 30) {V : ℚ} (hs : V ≠ 0 → (neg = true ↔ V < 0))
    (hSS : SS (2 ^ ((F.ew : Int) - 2 + e)) |V| (x.toNat * 2 ^ e)) :
    ∃ r st, fmaFinish neg x e = some ⟨r, st⟩ ∧ IsRNE V r := by
  obtain ⟨st, hst⟩ := fmaFinish_spec hF neg x e h1 h2 he1 he2
  refine ⟨_, st, hst, ?_⟩
  obtain ⟨E, hE⟩ : ∃ E : Int, E = e + (F.bias - 1 + F.sb : ℕ) := ⟨_, rfl⟩
  rw [← hE]
  have hew := F.hew
  have hD : 0 < 2 ^ (-E).toNat := Nat.two_pow_pos _
  have near := (roundU_isNear (sb := F.sb) (n := x.toNat * 2 ^ E.toNat) (d := 2 ^ (-E).toNat) F.one_le_sb hD).toK (K := ℚ) hD
  have ht : (((x.toNat * 2 ^ E.toNat : ℕ) : ℚ)) / ((2 ^ (-E).toNat : ℕ) : ℚ) = F.oneMag * (x.toNat * 2 ^ e) := by
    rw [oneMag_zpow, show (2 : ℚ) ^ ((F.bias - 1 + F.sb : ℕ) : Int) * (x.toNat * 2 ^ e) = x.toNat * 2 ^ E by
      rw [hE, zpow_add₀ (by norm_num)]; ring, two_pow_int E]
    push_cast
    ring
  rw [ht] at near
  have key : IsNearK F.sb ((F.oneMag : ℚ) * |V|) (roundU F.sb (x.toNat * 2 ^ E.toNat) (2 ^ (-E).toNat)) := by
    have ho : (0 : ℚ) < F.oneMag := by exact_mod_cast F.oneMag_pos
    refine near.transfer (j := ((F.ew : Int) - 1 + E).toNat) ?_ ?_
    · rcases le_or_gt ((F.ew : Int) - 1 + E) 0 with h | h
      · left; omega
      · right
        have : (2 : ℚ) ^ (((F.ew : Int) - 1 + E).toNat + F.sb) = F.oneMag * (2 ^ (F.ew + F.sb - 1 : ℕ) * 2 ^ e) := by
          rw [oneMag_zpow, ← zpow_natCast, ← zpow_natCast, ← zpow_add₀ (by norm_num), ← zpow_add₀ (by norm_num)]
          congr 1
          push_cast
          omega
        rw [this]
        refine mul_le_mul_of_nonneg_left (mul_le_mul_of_nonneg_right ?_ (zpow2_pos _).le) ho.le
        exact_mod_cast h1
    · have := hSS.scale ho
      refine this.coarse' (2 ^ (-((F.ew : Int) - 1 + E)).toNat) ?_
      push_cast
      rw [oneMag_zpow, ← zpow_natCast, ← zpow_natCast, ← zpow_add₀ (by norm_num), ← zpow_add₀ (by norm_num),
        div_eq_iff (by norm_num)]
      conv_rhs => rw [← zpow_add_one₀ (by norm_num)]
      congr 1
      omega
  exact isRNE_of_near (t := F.oneMag * |V|) (by
    have := F.oneMag_mul_ulp
    push_cast
    linear_combination (-|V|) * this) hs key

/-! ## Normalization -/

theorem clz_eq {w : Nat} (x : BitVec w) (h : x.toNat ≠ 0) : leadingZeros x + 1 + x.toNat.log2 = w := by
  unfold leadingZeros
  rw [if_neg h]
  have := (Nat.log2_lt h).mpr x.isLt
  omega

theorem stk_bounds {n a k : Nat} (h1 : 2 ^ (k + 1) ≤ n / 2 ^ a) (h2 : n / 2 ^ a < 2 ^ (k + 2)) :
    2 ^ (k + 1) ≤ stk n a ∧ stk n a < 2 ^ (k + 2) := by
  have l := stk_lo n a
  have h := stk_hi n a
  have e1 : 2 ^ (k + 1) = 2 ^ k * 2 := pow_succ _ _
  have e2 : 2 ^ (k + 2) = 2 ^ k * 4 := by rw [pow_add]; norm_num
  omega

theorem stk_SS (n a : Nat) : SS (2 ^ (1 + (a : Int))) n (stk n a * 2 ^ (a : Int)) := by
  have h := (stk_ss n a).scale (c := (2 : ℚ) ^ a) (by positivity)
  rw [show (2 : ℚ) ^ (1 + (a : Int)) = 2 ^ a * 2 by rw [zpow_add₀ (by norm_num), zpow_natCast]; ring, zpow_natCast]
  have e : (2 : ℚ) ^ a * (n / 2 ^ a) = n := by field_simp
  rw [e] at h
  rw [mul_comm (stk n a : ℚ)]
  exact h

theorem fmaNormalize_spec (rlo rhi : BitVec F.bits) (e : Int)
    (hr : rhi.toNat < 2 ^ (F.bits - 2)) :
    let N := rhi.toNat * 2 ^ F.bits + rlo.toNat
    (N = 0 → fmaNormalize rlo rhi (rhi != 0#_) e = some none) ∧
    (0 < N → ∃ (m : BitVec F.bits) (s : Int), fmaNormalize rlo rhi (rhi != 0#_) e = some (some (m, e + s)) ∧
      -(F.bits : Int) ≤ s ∧ s ≤ F.bits ∧ 2 ^ (F.bits - 2) ≤ m.toNat ∧ m.toNat < 2 ^ (F.bits - 1) ∧
      SS (2 ^ (1 + s)) N (m.toNat * 2 ^ s)) := by
  intro N
  have hbb := F.bits_eq
  have hew := F.hew
  have hsb := F.hsb
  have hlo := rlo.isLt
  by_cases h0 : rhi = 0#_
  · have hN : N = rlo.toNat := by simp [N, h0]
    have hb : (rhi != 0#F.bits) = false := by simp [h0]
    rw [hb]
    unfold fmaNormalize
    simp only [Bool.false_eq_true, if_false]
    by_cases h1 : rlo = 0#_
    · refine ⟨fun _ => by rw [if_neg (by simpa using h1)], fun h => ?_⟩
      rw [hN, h1] at h; simp at h
    · have hl0 : rlo.toNat ≠ 0 := by
        intro h; apply h1; apply BitVec.eq_of_toNat_eq; simpa using h
      refine ⟨fun h => absurd (hN ▸ h) hl0, fun _ => ?_⟩
      rw [if_pos h1]
      have hc := clz_eq rlo hl0
      have L1 := Nat.log2_self_le hl0
      have L2 := Nat.lt_log2_self (n := rlo.toNat)
      generalize rlo.toNat.log2 = L at *
      by_cases hd : (leadingZeros rlo : Int) - 1 < 0
      · rw [if_pos hd]
        have hL : L = F.bits - 1 := by omega
        have hst := BV.sticky_one rlo (by omega)
        obtain ⟨b1, b2⟩ := stk_bounds (n := rlo.toNat) (a := 1) (k := F.bits - 3)
          (by rw [Nat.le_div_iff_mul_le (by norm_num), ← pow_add]; rw [hL] at L1; exact le_trans (Nat.pow_le_pow_right (by norm_num) (by omega)) L1)
          (by rw [Nat.div_lt_iff_lt_mul (by norm_num), ← pow_add]; exact lt_of_lt_of_le hlo (Nat.pow_le_pow_right (by norm_num) (by omega)))
        refine ⟨rlo >>> 1 ||| rlo &&& 1#F.bits, 1, ?_, by omega, by omega, ?_, ?_, ?_⟩
        · congr 3; omega
        · rw [hst, show F.bits - 2 = F.bits - 3 + 1 by omega]; exact b1
        · rw [hst, show F.bits - 1 = F.bits - 3 + 2 by omega]; exact b2
        · rw [hst, hN]; exact stk_SS rlo.toNat 1
      · rw [if_neg hd]
        obtain ⟨d, hdd⟩ : ∃ d : Nat, (leadingZeros rlo : Int) - 1 = d := ⟨leadingZeros rlo - 1, by omega⟩
        rw [hdd]
        unfold shlChecked
        rw [if_pos (by omega), Option.map_some, Int.toNat_natCast]
        have hsh : (rlo <<< d).toNat = rlo.toNat * 2 ^ d := by
          rw [BV.shl, Nat.mod_eq_of_lt]
          calc rlo.toNat * 2 ^ d < 2 ^ (L + 1) * 2 ^ d := Nat.mul_lt_mul_of_pos_right L2 (Nat.two_pow_pos _)
            _ = 2 ^ (L + 1 + d) := (pow_add ..).symm
            _ ≤ 2 ^ F.bits := Nat.pow_le_pow_right (by norm_num) (by omega)
        refine ⟨rlo <<< d, -(d : Int), rfl, by omega, by omega, ?_, ?_, ?_⟩
        · rw [hsh, show F.bits - 2 = L + d by omega, pow_add]; exact Nat.mul_le_mul_right _ L1
        · rw [hsh, show F.bits - 1 = L + 1 + d by omega, pow_add]; exact Nat.mul_lt_mul_of_pos_right L2 (Nat.two_pow_pos _)
        · rw [hsh, hN]
          push_cast
          rw [mul_assoc, ← zpow_natCast (2 : ℚ) d, ← zpow_add₀ (by norm_num)]
          simp [SS.refl]
  · have hh0 : rhi.toNat ≠ 0 := by
      intro h; apply h0; apply BitVec.eq_of_toNat_eq; simpa using h
    have hb : (rhi != 0#F.bits) = true := by simpa using h0
    rw [hb]
    have hpB := Nat.two_pow_pos F.bits
    have hNp : 0 < N := by
      have : 0 < rhi.toNat * 2 ^ F.bits := Nat.mul_pos (Nat.pos_of_ne_zero hh0) hpB
      omega
    refine ⟨fun h => by omega, fun _ => ?_⟩
    have hc := clz_eq rhi hh0
    have L0 := (Nat.log2_lt hh0).mpr hr
    have L1 := Nat.log2_self_le hh0
    have L2 := Nat.lt_log2_self (n := rhi.toNat)
    generalize rhi.toNat.log2 = L at *
    obtain ⟨d, hdd⟩ : ∃ d : Nat, (leadingZeros rhi : Int) - 1 = d := ⟨leadingZeros rhi - 1, by omega⟩
    obtain ⟨a, ha⟩ : ∃ a : Nat, F.bits = a + d := ⟨F.bits - d, by omega⟩
    unfold fmaNormalize shlChecked shrChecked
    simp only [if_true, hdd]
    rw [if_pos (by omega), if_pos (by omega), if_pos (by omega), Option.bind_some, Option.bind_some, Option.map_some,
      Int.toNat_natCast, show ((F.bits : Int) - d).toNat = a by omega]
    have hsh : (rhi <<< d).toNat = rhi.toNat * 2 ^ d := by
      rw [BV.shl, Nat.mod_eq_of_lt]
      calc rhi.toNat * 2 ^ d < 2 ^ (L + 1) * 2 ^ d := Nat.mul_lt_mul_of_pos_right L2 (Nat.two_pow_pos _)
        _ = 2 ^ (L + 1 + d) := (pow_add ..).symm
        _ ≤ 2 ^ F.bits := Nat.pow_le_pow_right (by norm_num) (by omega)
    have hlo2 : rlo.toNat / 2 ^ a < 2 ^ d := by
      rw [Nat.div_lt_iff_lt_mul (Nat.two_pow_pos _), ← pow_add, Nat.add_comm, ← ha]; exact hlo
    have hor : (rhi <<< d ||| rlo >>> a).toNat = rhi.toNat * 2 ^ d + rlo.toNat / 2 ^ a := by
      rw [BV.or_disjoint (k := d) (by rw [hsh]; exact Nat.dvd_mul_left _ _) (by rw [BV.shr]; exact hlo2), hsh, BV.shr]
    have hND : N = rhi.toNat * 2 ^ d * 2 ^ a + rlo.toNat := by
      show rhi.toNat * 2 ^ F.bits + rlo.toNat = _
      rw [show 2 ^ F.bits = 2 ^ d * 2 ^ a by rw [← pow_add]; congr 1; omega, Nat.mul_assoc]
    have hq : N / 2 ^ a = rhi.toNat * 2 ^ d + rlo.toNat / 2 ^ a := by
      rw [hND, Nat.add_comm, Nat.add_mul_div_right _ _ (Nat.two_pow_pos _), Nat.add_comm]
    have hm : N % 2 ^ a = rlo.toNat % 2 ^ a := by
      rw [hND, Nat.add_comm, Nat.add_mul_mod_self_right]
    have hst : (rhi <<< d ||| rlo >>> a ||| bit F.bits (rlo <<< d != 0#F.bits)).toNat = stk N a := by
      rw [BV.or_bit (by omega), hor]
      have := BV.shl_ne_zero rlo (a := a) (by omega)
      rw [show F.bits - a = d by omega] at this
      rw [this]
      unfold stk
      rw [hq, hm]
      simp
    have q1 : 2 ^ (F.bits - 2) ≤ N / 2 ^ a := by
      rw [hq, show F.bits - 2 = L + d by omega, pow_add]
      exact le_trans (Nat.mul_le_mul_right (2 ^ d) L1) (Nat.le_add_right _ _)
    have q2 : N / 2 ^ a < 2 ^ (F.bits - 1) := by
      rw [hq, show F.bits - 1 = L + 1 + d by omega, pow_add]
      have := Nat.mul_le_mul_right (2 ^ d) (show rhi.toNat + 1 ≤ 2 ^ (L + 1) from L2)
      rw [Nat.add_mul, one_mul] at this
      exact lt_of_lt_of_le (by omega) this
    obtain ⟨b1, b2⟩ := stk_bounds (n := N) (a := a) (k := F.bits - 3)
      (by rw [show F.bits - 3 + 1 = F.bits - 2 by omega]; exact q1)
      (by rw [show F.bits - 3 + 2 = F.bits - 1 by omega]; exact q2)
    refine ⟨rhi <<< d ||| rlo >>> a ||| bit F.bits (rlo <<< d != 0#F.bits), (a : Int), ?_, by omega, by omega, ?_, ?_, ?_⟩
    · congr 3; omega
    · rw [hst, show F.bits - 2 = F.bits - 3 + 1 by omega]; exact b1
    · rw [hst, show F.bits - 1 = F.bits - 3 + 2 by omega]; exact b2
    · rw [hst]; exact stk_SS N a

/-! ## The aligned sum -/

/-- the sign of a product or sum as a factor -/
def sg (b : Bool) : Int := if b then -1 else 1

theorem fmaSum_spec (neg zneg : Bool) (rlo rhi zlo zhi : BitVec F.bits)
    (hr : rhi.toNat < 2 ^ (F.bits - 3)) (hz : zhi.toNat < 2 ^ (F.bits - 3))
    (hbig : 2 ^ F.bits ≤ (rhi.toNat + zhi.toNat) * 2 ^ F.bits + rlo.toNat + zlo.toNat) :
    ∃ (rlo' rhi' : BitVec F.bits) (neg' : Bool),
      fmaSum neg zneg rlo rhi zlo zhi = some (rlo', rhi', neg', rhi' != 0#_) ∧
      rhi'.toNat < 2 ^ (F.bits - 2) ∧
      sg neg * (rhi.toNat * 2 ^ F.bits + rlo.toNat : ℕ) + sg zneg * (zhi.toNat * 2 ^ F.bits + zlo.toNat : ℕ) =
        sg neg' * (rhi'.toNat * 2 ^ F.bits + rlo'.toNat : ℕ) := by
  have hbb := F.bits_eq
  have hew := F.hew
  have hsb := F.hsb
  have l1 := rlo.isLt
  have l2 := zlo.isLt
  have p3 := Nat.two_pow_pos (F.bits - 3)
  have e2 : 2 ^ (F.bits - 2) = 2 * 2 ^ (F.bits - 3) := by
    rw [show F.bits - 2 = (F.bits - 3) + 1 by omega, pow_succ]; ring
  have e1 : 2 ^ (F.bits - 1) = 4 * 2 ^ (F.bits - 3) := by
    rw [show F.bits - 1 = (F.bits - 3) + 2 by omega, pow_add]; ring
  have e0 : 2 ^ F.bits = 8 * 2 ^ (F.bits - 3) := by
    rw [show F.bits = (F.bits - 3) + 3 by omega, pow_add, show F.bits - 3 + 3 - 3 = F.bits - 3 by omega]; ring
  have bt : ∀ b, (bit F.bits b).toNat = if b then 1 else 0 := fun b => BV.bit_toNat (by omega) b
  unfold fmaSum
  simp only
  by_cases hs : neg = zneg
  · subst hs
    have : (!neg ^^ neg) = true := by cases neg <;> rfl
    rw [if_pos this]
    have hlo : (rlo + zlo).toNat = (rlo.toNat + zlo.toNat) % 2 ^ F.bits := BitVec.toNat_add ..
    have hc : decide (rlo + zlo < zlo) = decide (2 ^ F.bits ≤ rlo.toNat + zlo.toNat) := by
      rw [decide_eq_decide, BitVec.lt_def, hlo]
      rcases Nat.lt_or_ge (rlo.toNat + zlo.toNat) (2 ^ F.bits) with h | h
      · rw [Nat.mod_eq_of_lt h]; omega
      · rw [Nat.mod_eq_sub_mod h, Nat.mod_eq_of_lt (by omega)]; omega
    rw [hc]
    obtain ⟨c, hcc⟩ : ∃ c : Bool, c = decide (2 ^ F.bits ≤ rlo.toNat + zlo.toNat) := ⟨_, rfl⟩
    rw [← hcc]
    have hcn : (bit F.bits c).toNat = (if c then 1 else 0) := bt c
    have hlo' : (rlo + zlo).toNat + (if c then 1 else 0) * 2 ^ F.bits = rlo.toNat + zlo.toNat := by
      rw [hlo]
      rcases Nat.lt_or_ge (rlo.toNat + zlo.toNat) (2 ^ F.bits) with h | h
      · have : c = false := by rw [hcc]; simpa using h
        rw [Nat.mod_eq_of_lt h, this]; simp
      · have : c = true := by rw [hcc]; simpa using h
        rw [Nat.mod_eq_sub_mod h, Nat.mod_eq_of_lt (by omega), this]; simp; omega
    have hc1 : (bit F.bits c).toNat ≤ 1 := by rw [hcn]; split <;> omega
    have a1 : (zhi + bit F.bits c).toNat = zhi.toNat + (bit F.bits c).toNat := by
      rw [BitVec.toNat_add, Nat.mod_eq_of_lt (by omega)]
    have a2 : (rhi + (zhi + bit F.bits c)).toNat = rhi.toNat + (zhi.toNat + (bit F.bits c).toNat) := by
      rw [BitVec.toNat_add, a1, Nat.mod_eq_of_lt (by omega)]
    unfold chkAdd
    rw [if_pos (by omega), Option.bind_some, if_pos (by rw [a1]; omega), Option.map_some]
    have hN : (rhi + (zhi + bit F.bits c)).toNat * 2 ^ F.bits + (rlo + zlo).toNat =
        (rhi.toNat * 2 ^ F.bits + rlo.toNat) + (zhi.toNat * 2 ^ F.bits + zlo.toNat) := by
      rw [a2, hcn]
      linear_combination hlo'
    refine ⟨rlo + zlo, rhi + (zhi + bit F.bits c), neg, ?_, by omega, ?_⟩
    · have : (rhi + (zhi + bit F.bits c) != 0#F.bits) = true := by
        rw [bne_iff_ne]
        intro h
        rw [h] at hN
        have := (rlo + zlo).isLt
        simp only [BitVec.toNat_ofNat, Nat.zero_mod, Nat.zero_mul] at hN
        rw [Nat.add_mul] at hbig
        omega
      rw [this]
    · rw [hN]; push_cast; ring
  · have : (!neg ^^ zneg) = false := by revert hs; cases neg <;> cases zneg <;> simp
    rw [if_neg (by simp [this])]
    have hzs : sg zneg = - sg neg := by revert hs; unfold sg; cases neg <;> cases zneg <;> simp
    obtain ⟨c, hcc⟩ : ∃ c : Bool, c = decide (rlo < zlo) := ⟨_, rfl⟩
    rw [← hcc]
    have hcn : (bit F.bits c).toNat = (if c then 1 else 0) := bt c
    have hlo : ((rlo - zlo).toNat : ℤ) = rlo.toNat - zlo.toNat + (if c then 1 else 0) * 2 ^ F.bits := by
      rw [BitVec.toNat_sub]
      rcases Nat.lt_or_ge rlo.toNat zlo.toNat with h | h
      · have : c = true := by rw [hcc, decide_eq_true_iff, BitVec.lt_def]; exact h
        rw [this, Nat.mod_eq_of_lt (by omega)]
        push_cast [show zlo.toNat ≤ 2 ^ F.bits by omega]
        simp; ring
      · have : c = false := by rw [hcc, decide_eq_false_iff_not, BitVec.lt_def]; omega
        rw [this, show 2 ^ F.bits - zlo.toNat + rlo.toNat = (rlo.toNat - zlo.toNat) + 2 ^ F.bits by omega, Nat.add_mod_right,
          Nat.mod_eq_of_lt (by omega)]
        push_cast [h]
        simp
    have hc1 : (bit F.bits c).toNat ≤ 1 := by rw [hcn]; split <;> omega
    have a1 : (zhi + bit F.bits c).toNat = zhi.toNat + (bit F.bits c).toNat := by
      rw [BitVec.toNat_add, Nat.mod_eq_of_lt (by omega)]
    obtain ⟨b, hb⟩ : ∃ b, b = zhi + bit F.bits c := ⟨_, rfl⟩
    rw [← hb] at a1 ⊢
    rw [hcn] at a1 hc1
    have hbl : b.toNat ≤ 2 ^ (F.bits - 3) := by omega
    have hsub : (rhi - b).toNat = if rhi.toNat < b.toNat then 2 ^ F.bits - (b.toNat - rhi.toNat) else rhi.toNat - b.toNat := by
      rw [BitVec.toNat_sub]
      split
      · rw [Nat.mod_eq_of_lt (by omega)]; omega
      · rw [show 2 ^ F.bits - b.toNat + rhi.toNat = (rhi.toNat - b.toNat) + 2 ^ F.bits by omega, Nat.add_mod_right,
          Nat.mod_eq_of_lt (by omega)]
    have htop : (rhi - b) >>> (F.bits - 1) ≠ 0#F.bits ↔ rhi.toNat < b.toNat := by
      rw [Ne, ← BitVec.toNat_inj, BV.shr, hsub]
      simp only [BitVec.toNat_ofNat, Nat.zero_mod]
      rw [Nat.div_eq_zero_iff]
      have := Nat.two_pow_pos (F.bits - 1)
      split <;> omega
    by_cases hlt : rhi.toNat < b.toNat
    · rw [if_pos (htop.mpr hlt)]
      rw [if_pos hlt] at hsub
      have hnr : (-(rhi - b)).toNat = b.toNat - rhi.toNat := by
        rw [BitVec.toNat_neg, hsub, Nat.mod_eq_of_lt (by omega)]; omega
      obtain ⟨l, hl⟩ : ∃ l, l = -(rlo - zlo) := ⟨_, rfl⟩
      rw [← hl]
      have hll : (l.toNat : ℤ) = (if l != 0#F.bits then 1 else 0) * 2 ^ F.bits - (rlo - zlo).toNat := by
        have hx := (rlo - zlo).isLt
        have h5 : l.toNat = (2 ^ F.bits - (rlo - zlo).toNat) % 2 ^ F.bits := by rw [hl, BitVec.toNat_neg]
        rcases Nat.eq_zero_or_pos (rlo - zlo).toNat with h | h
        · rw [h] at h5
          have : l = 0#_ := by apply BitVec.eq_of_toNat_eq; simpa using h5
          rw [h, this]; simp
        · rw [Nat.mod_eq_of_lt (by omega)] at h5
          have : (l != 0#F.bits) = true := by
            rw [bne_iff_ne]; intro h6; rw [h6] at h5; simp at h5; omega
          rw [this, h5]
          push_cast [hx.le]
          simp
      have ht := bt (l != 0#F.bits)
      obtain ⟨t, htt⟩ : ∃ t, t = bit F.bits (l != 0#F.bits) := ⟨_, rfl⟩
      rw [← htt] at ht ⊢
      have ht1 : t.toNat ≤ 1 := by rw [ht]; split <;> omega
      rw [if_pos (by rw [hnr]; omega)]
      have hfin : (-(rhi - b) - t).toNat = b.toNat - rhi.toNat - t.toNat := by
        rw [BitVec.toNat_sub, hnr, show 2 ^ F.bits - t.toNat + (b.toNat - rhi.toNat) = (b.toNat - rhi.toNat - t.toNat) + 2 ^ F.bits by omega,
          Nat.add_mod_right, Nat.mod_eq_of_lt (by omega)]
      refine ⟨_, _, _, rfl, by rw [hfin]; omega, ?_⟩
      have hfinZ : ((-(rhi - b) - t).toNat : ℤ) = zhi.toNat + (if c then 1 else 0) - rhi.toNat - (if l != 0#F.bits then 1 else 0) := by
        rw [hfin, Nat.cast_sub (by omega), Nat.cast_sub (by omega), a1, ht]; push_cast; rfl
      push_cast
      rw [hfinZ, hll, hlo, hzs, show sg (!neg) = -sg neg by cases neg <;> rfl]
      ring
    · rw [if_neg (by rw [htop]; exact hlt)]
      rw [if_neg hlt] at hsub
      refine ⟨_, _, _, rfl, by rw [hsub]; omega, ?_⟩
      have hfinZ : ((rhi - b).toNat : ℤ) = rhi.toNat - (zhi.toNat + (if c then 1 else 0)) := by
        rw [hsub, Nat.cast_sub (by omega), a1]; push_cast; rfl
      push_cast
      rw [hfinZ, hlo, hzs]
      ring

end Verif
