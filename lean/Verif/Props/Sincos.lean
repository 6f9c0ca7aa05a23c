import Verif.Theory.Ap
import Verif.Theory.TrigConst
import Verif.Props.Trig
import Verif.Props.Exp2

/-!
# C33: sincos returns the pair (sin, cos)
-/

namespace Verif
open Flt
open Trig

/-- between the cutoffs of `sincos` and of `sin`, the kernel of the sine returns its argument -/
theorem Trig.kSin_tiny {x : Flt f64} (h1 : 0x3e46a09e00000000 ≤ x.mb) (h2 : x.mb < 0x3e50000000000000) : kSin x 0.0 0 = x := by
  have hfin : x.isFinite := by rw [isFinite64]; omega
  have hlt : |x.val| ≤ 1 / 2 ^ 26 := by
    have := val_lt_of_mb (F := f64) (x := x) (E := 997) (by norm_num) (by rw [f64_sb]; omega)
    rw [f64_bias] at this
    norm_num at this ⊢
    linarith
  have hge : (22 / 2 ^ 31 : ℝ) ≤ |x.val| := by
    have hc : (bits64 0x3e46a09e00000000).val = (741455 : ℝ) * 2 ^ (-46 : ℤ) := by
      rw [val_const64 (741455) 1028 (-46) (by decide +kernel) (by norm_num)]
      norm_num
    have := val_mono (F := f64) (x := x) (y := bits64 0x3e46a09e00000000) (by
      rw [show (bits64 0x3e46a09e00000000).mb = 0x3e46a09e00000000 by decide +kernel]; exact h1)
    rw [hc] at this
    norm_num [abs_of_pos] at this ⊢
    linarith
  have hx : Ap x x.val 0 (1 / 2 ^ 26) := .exact hfin rfl hlt
  have hs1 : Ap KSin.s1 KSin.s1.val 0 (2731 / 2 ^ 14) := .exact (by decide +kernel) rfl (by rw [KSin.s1_val, abs_le]; constructor <;> norm_num)
  have hs2 : Ap KSin.s2 KSin.s2.val 0 (2185 / 2 ^ 18) := .exact (by decide +kernel) rfl (by rw [KSin.s2_val, abs_le]; constructor <;> norm_num)
  have hs3 : Ap KSin.s3 KSin.s3.val 0 (3329 / 2 ^ 24) := .exact (by decide +kernel) rfl (by rw [KSin.s3_val, abs_le]; constructor <;> norm_num)
  have hs4 : Ap KSin.s4 KSin.s4.val 0 (2959 / 2 ^ 30) := .exact (by decide +kernel) rfl (by rw [KSin.s4_val, abs_le]; constructor <;> norm_num)
  have hs5 : Ap KSin.s5 KSin.s5.val 0 (3443 / 2 ^ 37) := .exact (by decide +kernel) rfl (by rw [KSin.s5_val, abs_le]; constructor <;> norm_num)
  have hs6 : Ap KSin.s6 KSin.s6.val 0 (2797 / 2 ^ 44) := .exact (by decide +kernel) rfl (by rw [KSin.s6_val, abs_le]; constructor <;> norm_num)
  have hz := Ap.mul hx hx (-52) (by norm_num) (by norm_num) (by norm_num) (g := (1 / 2 ^ 106)) (D := (4097 / 2 ^ 64)) (by norm_num) (by norm_num)
  have hw := Ap.mul hz hz (-103) (by norm_num) (by norm_num) (by norm_num) (g := (4097 / 2 ^ 168)) (D := (4099 / 2 ^ 116)) (by norm_num) (by norm_num)
  have ht1 := Ap.mul hz hs4 (-70) (by norm_num) (by norm_num) (by norm_num) (g := (7055 / 2 ^ 136)) (D := (185 / 2 ^ 78)) (by norm_num) (by norm_num)
  have ht2 := Ap.add hs3 ht1 (-12) (by norm_num) (by norm_num) (g := (4097 / 2 ^ 78)) (D := (6659 / 2 ^ 25)) (by norm_num) (by norm_num)
  have ht3 := Ap.mul hz ht2 (-64) (by norm_num) (by norm_num) (by norm_num) (g := (2881 / 2 ^ 128)) (D := (6661 / 2 ^ 77)) (by norm_num) (by norm_num)
  have ht4 := Ap.add hs2 ht3 (-6) (by norm_num) (by norm_num) (g := (4097 / 2 ^ 72)) (D := (4371 / 2 ^ 19)) (by norm_num) (by norm_num)
  have hzw := Ap.mul hz hw (-155) (by norm_num) (by norm_num) (by norm_num) (g := (7171 / 2 ^ 220)) (D := (4101 / 2 ^ 168)) (by norm_num) (by norm_num)
  have ht5 := Ap.mul hz hs6 (-84) (by norm_num) (by norm_num) (by norm_num) (g := (6893 / 2 ^ 150)) (D := (1399 / 2 ^ 95)) (by norm_num) (by norm_num)
  have ht6 := Ap.add hs5 ht5 (-25) (by norm_num) (by norm_num) (g := (4097 / 2 ^ 91)) (D := (6887 / 2 ^ 38)) (by norm_num) (by norm_num)
  have ht7 := Ap.mul hzw ht6 (-181) (by norm_num) (by norm_num) (by norm_num) (g := (8079 / 2 ^ 245)) (D := (431 / 2 ^ 190)) (by norm_num) (by norm_num)
  have hr := Ap.add ht4 ht7 (-6) (by norm_num) (by norm_num) (g := (4097 / 2 ^ 71)) (D := (1093 / 2 ^ 17)) (by norm_num) (by norm_num)
  have hv := Ap.mul hz hx (-77) (by norm_num) (by norm_num) (by norm_num) (g := (3 / 2 ^ 132)) (D := (2049 / 2 ^ 89)) (by norm_num) (by norm_num)
  have ht8 := Ap.mul hz hr (-58) (by norm_num) (by norm_num) (by norm_num) (g := (905 / 2 ^ 120)) (D := (2187 / 2 ^ 70)) (by norm_num) (by norm_num)
  have ht9 := Ap.add hs1 ht8 (-2) (by norm_num) (by norm_num) (g := (4097 / 2 ^ 68)) (D := (5463 / 2 ^ 15)) (by norm_num) (by norm_num)
  have hp := Ap.mul hv ht9 (-80) (by norm_num) (by norm_num) (by norm_num) (g := (2049 / 2 ^ 143)) (D := (2733 / 2 ^ 92)) (by norm_num) (by norm_num)
  have hk : kSin x 0.0 0 = x + x * x * x * (KSin.s1 + x * x * (KSin.s2 + x * x * (KSin.s3 + x * x * KSin.s4) +
      x * x * (x * x * (x * x)) * (KSin.s5 + x * x * KSin.s6))) := by
    unfold kSin
    simp only [if_true]
  rw [hk]
  generalize x * x * x * (KSin.s1 + x * x * (KSin.s2 + x * x * (KSin.s3 + x * x * KSin.s4) +
      x * x * (x * x * (x * x)) * (KSin.s5 + x * x * KSin.s6))) = p at hp ⊢
  have hpb := hp.bd
  have hpf := hp.fin
  clear hp hk
  have hq := add_rne hfin hpf
  have hb : |x.val + p.val| ≤ 3 / 2 * 2 ^ (1023 : ℤ) := by
    refine ((abs_add_le _ _).trans (add_le_add hlt hpb)).trans ?_
    have : (1 : ℝ) ≤ 2 ^ (1023 : ℤ) := one_le_zpow₀ (by norm_num) (by norm_num)
    generalize (2 : ℝ) ^ (1023 : ℤ) = T at *
    norm_num
    linarith
  have hr := (add_rel64 hfin hpf hb).1
  have := rne_absorb (-27) hfin hq hr hb (by
    rw [add_sub_cancel_left]
    refine hpb.trans_lt ?_
    norm_num) (by norm_num; linarith)
  refine eq_of_val this ?_
  intro h0
  rw [h0] at hge
  norm_num at hge

/-- **C33** (f64): `sincos` returns, bit for bit, the results of `sin` and `cos`, for every argument. -/
theorem sincos_eq (x : Flt f64) : ∃ s c, sincos x = some (s, c) ∧ sin x = some s ∧ cos x = some c := by
  obtain ⟨n, y0, y1, h⟩ := rem_pio2_total true x
  have h : remPio2 x = some (n, y0, y1) := h
  rw [sincos, sin, cos]
  simp only
  rw [h]
  simp only [Option.bind_some, Option.map_some]
  by_cases c1 : getHighWord x &&& 0x7fffffff#32 ≤ 0x3fe921fb#32
  · simp only [if_pos c1]
    by_cases c2 : getHighWord x &&& 0x7fffffff#32 < 0x3e46a09e#32
    · have c2' := (ix_lt x 0x3e46a09e#32).1 c2
      have c2' : x.mb < 0x3e46a09e * 2 ^ 32 := c2'
      rw [if_pos c2, if_pos (show getHighWord x &&& 0x7fffffff#32 < 0x3e500000#32 by
        rw [ix_lt]; exact lt_of_lt_of_le c2' (by decide)), if_pos ⟨c2, toSInt_tiny (lt_of_lt_of_le c2' (by norm_num))⟩]
      exact ⟨_, _, rfl, rfl, rfl⟩
    · rw [if_neg c2, if_neg (show ¬ (getHighWord x &&& 0x7fffffff#32 < 0x3e46a09e#32 ∧ x.toSInt 32 = 0) from fun h => c2 h.1)]
      by_cases c3 : getHighWord x &&& 0x7fffffff#32 < 0x3e500000#32
      · rw [if_pos c3]
        have c4 : ¬ x.mb < 0x3e46a09e * 2 ^ 32 := fun h => c2 ((ix_lt x 0x3e46a09e#32).2 h)
        have c5 : x.mb < 0x3e500000 * 2 ^ 32 := (ix_lt x 0x3e500000#32).1 c3
        clear c1 c2 c3 h
        have c6 : 0x3e46a09e00000000 ≤ x.mb := by omega
        have c7 : x.mb < 0x3e50000000000000 := by omega
        rw [kSin_tiny c6 c7]
        exact ⟨_, _, rfl, rfl, rfl⟩
      · rw [if_neg c3]
        exact ⟨_, _, rfl, rfl, rfl⟩
  · simp only [if_neg c1]
    by_cases c2 : getHighWord x &&& 0x7fffffff#32 ≥ 0x7ff00000#32
    · simp only [if_pos c2]
      exact ⟨_, _, rfl, rfl, rfl⟩
    · simp only [if_neg c2]
      rcases and3_cases n with e | e | e | e
      · simp only [e, if_true]
        exact ⟨_, _, rfl, rfl, rfl⟩
      · simp only [e, if_true, show ((1 : ℤ) = 0) = False by simp, if_false]
        exact ⟨_, _, rfl, rfl, rfl⟩
      · simp only [e, if_true, show ((2 : ℤ) = 0) = False by simp, show ((2 : ℤ) = 1) = False by simp, if_false]
        exact ⟨_, _, rfl, rfl, rfl⟩
      · simp only [e, if_true, show ((3 : ℤ) = 0) = False by simp, show ((3 : ℤ) = 1) = False by simp,
          show ((3 : ℤ) = 2) = False by simp, if_false]
        exact ⟨_, _, rfl, rfl, rfl⟩

end Verif
