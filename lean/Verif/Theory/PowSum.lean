import Verif.Theory.PowMul

/-!
# The logarithm inside pow, assembled
-/

namespace Verif
open Flt
namespace PowT
open AsW
variable {F : Fmt}

/-- head and tail of the logarithm: finite, the tail at most a quarter of the head -/
def Split (p : Flt F × Flt F) : Prop :=
  p.1.isFinite ∧ p.2.isFinite ∧ |p.2.val| ≤ |p.1.val| / 4 ∧ |p.1.val| ≤ 2 ^ 14

/-- pow.rs 286-320, powf.rs 233-268 -/
def logAll (T : Flt F → Flt F) (l1 l2 l3 l4 l5 l6 cp cpH cpL one three ax bp th dph dpl tn : Flt F) : Flt F × Flt F :=
  let z := logZ T l1 l2 l3 l4 l5 l6 cp cpH cpL one three ax bp th
  sumZ T z.1 (z.2 + dpl) dph tn

set_option maxHeartbeats 1000000 in
theorem log_all (hF : F.W) {T : Flt F → Flt F} (hT : Cuts T (1 / 2 ^ 11))
    {l1 l2 l3 l4 l5 l6 cp cpH cpL one three ax bp th dph dpl tn : Flt F}
    (hl1 : Bd l1 (5 / 2 ^ 3)) (hl2 : Bd l2 (5 / 2 ^ 3)) (hl3 : Bd l3 (5 / 2 ^ 3)) (hl4 : Bd l4 (5 / 2 ^ 3)) (hl5 : Bd l5 (5 / 2 ^ 3))
    (hl6 : Bd l6 (5 / 2 ^ 3)) (hcp : Bd cp (247 / 2 ^ 8)) (hcpH : Bd cpH (247 / 2 ^ 8)) (hcpHl : 15 / 16 ≤ cpH.val) (hcpL : Bd cpL (1 / 2 ^ 13))
    (hone : Bd one 1) (honev : one.val = 1) (hthree : Bd three 3) (hthreev : three.val = 3)
    (hax : ax.isFinite) (hbp : bp.isFinite) (hth : Bd th 4) (fdph : dph.isFinite) (fdpl : dpl.isFinite) (ftn : tn.isFinite)
    (hr : bp.val = 1 ∧ 0.8655 ≤ ax.val ∧ ax.val ≤ 1.2255 ∨ bp.val = 3 / 2 ∧ 1.2241 ≤ ax.val ∧ ax.val ≤ 1.7325)
    (hc : dph.val = 0 ∧ dpl.val = 0 ∧ tn.val = 0 ∧ 1 / 2 ^ 54 ≤ |ax.val - bp.val| ∨
      ∃ W : ℝ, 1 ≤ W ∧ W ≤ 2 ^ 12 ∧ |tn.val| ≤ W ∧ |dph.val| ≤ 5 / 8 ∧ |dpl.val| ≤ 1 / 2 ^ 16 ∧ 3 / 8 + W / 64 ≤ |tn.val + dph.val|) :
    Split (logAll T l1 l2 l3 l4 l5 l6 cp cpH cpL one three ax bp th dph dpl tn) := by
  have hP : (2 : ℝ) ^ 120 ≤ 3 / 2 * 2 ^ (F.bias : ℤ) := big hF _ le_rfl
  have hq : |ax.val - bp.val| ≤ 0.29 := by
    rcases hr with ⟨a, b, c⟩ | ⟨a, b, c⟩ <;> rw [a, abs_le] <;> constructor <;> linarith
  obtain ⟨fu, eu⟩ := rnd hF (sub_rne hax hbp) (by linarith)
  have haxB : Bd ax (7 / 2 ^ 2) := .mk hax (by
    rcases hr with ⟨a, b, c⟩ | ⟨a, b, c⟩ <;> rw [abs_of_nonneg (by linarith)] <;> linarith)
  have hbpB : Bd bp (3 / 2 ^ 1) := .mk hbp (by
    rcases hr with ⟨a, b, c⟩ | ⟨a, b, c⟩ <;> rw [a] <;> norm_num)
  have hD : 119 / 2 ^ 6 ≤ ax.val + bp.val := by
    rcases hr with ⟨a, b, c⟩ | ⟨a, b, c⟩ <;> rw [a] <;> linarith
  have e6 : |(ax - bp).val - (ax.val - bp.val)| ≤ 1 / 2 ^ 20 := by linarith
  have hub : |(ax - bp).val| ≤ 31 / 2 ^ 8 * (ax.val + bp.val) := by
    obtain ⟨k1, k2⟩ := abs_le.1 e6
    rw [abs_le]
    rcases hr with ⟨a, b, c⟩ | ⟨a, b, c⟩ <;> rw [a] at k1 k2 ⊢ <;> constructor <;> linarith
  have hu1 : |(ax - bp).val| ≤ 1 := by
    have := abs_sub_abs_le_abs_sub (ax - bp).val (ax.val - bp.val)
    linarith
  unfold logAll
  dsimp only
  rcases hc with ⟨c1, c2, c3, c4⟩ | ⟨W, w1, w2, w3, w4, w5, w6⟩
  · have hlo : 1 / 2 ^ 55 ≤ |(ax - bp).val| := by
      have := abs_sub_abs_le_abs_sub (ax.val - bp.val) (ax - bp).val
      rw [abs_sub_comm (ax.val - bp.val)] at this
      linarith
    obtain ⟨t, et⟩ : ∃ t, t = |(ax - bp).val| := ⟨_, rfl⟩
    have sc : (2 : ℝ) ^ (-60 : ℤ) ≤ t := by
      rw [et]; refine le_trans ?_ hlo
      rw [zpow_neg]; norm_num
    have st : t ≤ 1 := by rw [et]; exact hu1
    obtain ⟨a1, a2, a3, a4, a5, a6⟩ := log_core hF hT sc st hl1 hl2 hl3 hl4 hl5 hl6 hcp hcpH hcpHl hcpL hone honev hthree hthreev haxB hbpB hth hD
      ⟨fu, by simp, by rw [one_mul, et]⟩ hub
    generalize (logZ T l1 l2 l3 l4 l5 l6 cp cpH cpL one three ax bp th).1 = zh at *
    generalize (logZ T l1 l2 l3 l4 l5 l6 cp cpH cpL one three ax bp th).2 = zl at *
    have ht0 : 0 ≤ t := (Flt.zp _).le.trans sc
    rw [← et] at a6
    obtain ⟨b1, b2⟩ := rnd hF (add_rne a2 fdpl) (by rw [c2, add_zero]; linarith)
    rw [c2, add_zero] at b2
    have b3 : |(zl + dpl).val| ≤ 1 / 2 ^ 5 * t := by
      have := abs_sub_abs_le_abs_sub (zl + dpl).val zl.val
      have : (1 : ℝ) / 2 ^ 130 ≤ 1 / 2 ^ 70 * t := by
        refine le_trans ?_ (mul_le_mul_of_nonneg_left sc (by norm_num))
        rw [zpow_neg]; norm_num
      linarith
    obtain ⟨r1, r2, r3, r4⟩ := sum_core hF hT (t := t) sc (by linarith) (zh := zh) (zl := zl + dpl) (dph := dph) (tn := tn)
      ⟨a1, by simp, a3.trans (by linarith)⟩ ⟨b1, by simp, b3⟩ ⟨fdph, by simp, by rw [c1]; simp; linarith⟩ ⟨ftn, by simp, by rw [c3]; simp; linarith⟩ (by
        rw [c1, c3, add_zero, add_zero]
        have := abs_sub_abs_le_abs_sub zh.val (-(zl + dpl).val)
        rw [abs_neg, sub_neg_eq_add] at this
        linarith)
    exact ⟨r1, r2, r3, r4.trans (by linarith)⟩
  · obtain ⟨a1, a2, a3, a4, a5, a6⟩ := log_core hF hT AsW.one_lo le_rfl hl1 hl2 hl3 hl4 hl5 hl6 hcp hcpH hcpHl hcpL hone honev hthree hthreev haxB hbpB hth hD
      ⟨fu, by simp, by rw [one_mul]; exact hu1⟩ hub
    generalize (logZ T l1 l2 l3 l4 l5 l6 cp cpH cpL one three ax bp th).1 = zh at *
    generalize (logZ T l1 l2 l3 l4 l5 l6 cp cpH cpL one three ax bp th).2 = zl at *
    have k := abs_add_le zl.val dpl.val
    obtain ⟨b1, b2⟩ := rnd hF (add_rne a2 fdpl) (by linarith)
    have b3 : |(zl + dpl).val| ≤ 1 / 2 ^ 8 := by
      have := abs_sub_abs_le_abs_sub (zl + dpl).val (zl.val + dpl.val)
      linarith
    have sc : (2 : ℝ) ^ (-60 : ℤ) ≤ W := AsW.one_lo.trans w1
    obtain ⟨r1, r2, r3, r4⟩ := sum_core hF hT (t := W) sc w2 (zh := zh) (zl := zl + dpl) (dph := dph) (tn := tn)
      ⟨a1, by simp, by linarith⟩ ⟨b1, by simp, by linarith⟩ ⟨fdph, by simp, by linarith⟩ ⟨ftn, by simp, by linarith⟩ (by
        have := abs_sub_abs_le_abs_sub (tn.val + dph.val) (-(zh.val + (zl + dpl).val))
        rw [abs_neg, sub_neg_eq_add, show tn.val + dph.val + (zh.val + (zl + dpl).val) = zh.val + (zl + dpl).val + dph.val + tn.val by ring] at this
        have := abs_add_le zh.val (zl + dpl).val
        linarith)
    exact ⟨r1, r2, r3, r4.trans (by linarith)⟩

end PowT
end Verif
