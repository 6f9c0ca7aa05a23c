import Verif.Theory.ExpReal
import Verif.Theory.TanBig

/-!
# `exp` in double precision: the rational approximation in floating point
-/

namespace Verif
open Flt

namespace Exp

/-- exp.rs 145-148 -/
noncomputable def tail (x hi lo : Flt f64) : Flt f64 :=
  x * (x - x * x * (p1 + x * x * (p2 + x * x * (p3 + x * x * (p4 + x * x * p5))))) /
    (2.0 - (x - x * x * (p1 + x * x * (p2 + x * x * (p3 + x * x * (p4 + x * x * p5)))))) - lo + hi

set_option maxHeartbeats 1000000 in
theorem tail_err {x hi lo : Flt f64} (xf : x.isFinite) (hf : hi.isFinite) (lf : lo.isFinite) (bx : |x.val| ≤ 710 / 2048)
    (bh : |hi.val| ≤ 0.3466) (bl : |lo.val| ≤ 1 / 2 ^ 22) :
    (tail x hi lo).isFinite ∧ |(tail x hi lo).val - (x.val * (x.val - x.val ^ 2 * Poly.ev poly (x.val ^ 2)) / (2 - (x.val - x.val ^ 2 * Poly.ev poly (x.val ^ 2))) - lo.val + hi.val)| ≤ (5245 / 2 ^ 66) := by
  have hx : Ap x x.val 0 (355 / 2 ^ 10) := .exact xf rfl (bx.trans (by norm_num))
  have hlo : Ap lo lo.val 0 (1 / 2 ^ 22) := .exact lf rfl bl
  have hhi : Ap hi hi.val 0 0.3466 := .exact hf rfl bh
  have hp1 : Ap p1 p1.val 0 (2731 / 2 ^ 14) := .exact (by decide +kernel) rfl (by rw [p1_val, abs_le]; constructor <;> norm_num)
  have hp2 : Ap p2 p2.val 0 (2913 / 2 ^ 20) := .exact (by decide +kernel) rfl (by rw [p2_val, abs_le]; constructor <;> norm_num)
  have hp3 : Ap p3 p3.val 0 (4439 / 2 ^ 26) := .exact (by decide +kernel) rfl (by rw [p3_val, abs_le]; constructor <;> norm_num)
  have hp4 : Ap p4 p4.val 0 (3551 / 2 ^ 31) := .exact (by decide +kernel) rfl (by rw [p4_val, abs_le]; constructor <;> norm_num)
  have hp5 : Ap p5 p5.val 0 (711 / 2 ^ 34) := .exact (by decide +kernel) rfl (by rw [p5_val, abs_le]; constructor <;> norm_num)
  have htwo : Ap (2.0 : Flt f64) (2.0 : Flt f64).val 0 2 := .exact (by decide +kernel) rfl (by rw [KTanD.two_val, abs_le]; constructor <;> norm_num)
  have hz := Ap.mul hx hx (-3) (by norm_num) (by norm_num) (by norm_num) (g := (1 / 2 ^ 57)) (D := (7877 / 2 ^ 16)) (by norm_num) (by norm_num)
  have ha5 := Ap.mul hz hp5 (-27) (by norm_num) (by norm_num) (by norm_num) (g := (1735 / 2 ^ 91)) (D := (2735 / 2 ^ 39)) (by norm_num) (by norm_num)
  have hb4 := Ap.add hp4 ha5 (-19) (by norm_num) (by norm_num) (g := (1031 / 2 ^ 83)) (D := (1781 / 2 ^ 30)) (by norm_num) (by norm_num)
  have ha4 := Ap.mul hz hb4 (-22) (by norm_num) (by norm_num) (by norm_num) (g := (1453 / 2 ^ 85)) (D := (6851 / 2 ^ 35)) (by norm_num) (by norm_num)
  have hb3 := Ap.add hp3 ha4 (-13) (by norm_num) (by norm_num) (g := (4119 / 2 ^ 79)) (D := (4453 / 2 ^ 26)) (by norm_num) (by norm_num)
  have ha3 := Ap.mul hz hb3 (-16) (by norm_num) (by norm_num) (by norm_num) (g := (2571 / 2 ^ 80)) (D := (2141 / 2 ^ 28)) (by norm_num) (by norm_num)
  have hb2 := Ap.add hp2 ha3 (-8) (by norm_num) (by norm_num) (g := (4137 / 2 ^ 74)) (D := (5843 / 2 ^ 21)) (by norm_num) (by norm_num)
  have ha2 := Ap.mul hz hb2 (-11) (by norm_num) (by norm_num) (by norm_num) (g := (2749 / 2 ^ 75)) (D := (5619 / 2 ^ 24)) (by norm_num) (by norm_num)
  have hb1 := Ap.add hp1 ha2 (-2) (by norm_num) (by norm_num) (g := (2059 / 2 ^ 67)) (D := (5473 / 2 ^ 15)) (by norm_num) (by norm_num)
  have hq := Ap.mul hz hb1 (-5) (by norm_num) (by norm_num) (by norm_num) (g := (5397 / 2 ^ 70)) (D := (5263 / 2 ^ 18)) (by norm_num) (by norm_num)
  have hc := Ap.sub hx hq (-1) (by norm_num) (by norm_num) (g := (4771 / 2 ^ 67)) (D := (6009 / 2 ^ 14)) (by norm_num) (by norm_num)
  have hn := Ap.mul hx hc (-2) (by norm_num) (by norm_num) (by norm_num) (g := (7405 / 2 ^ 68)) (D := (4167 / 2 ^ 15)) (by norm_num) (by norm_num)
  have hd := Ap.sub htwo hc (2) (by norm_num) (by norm_num) (g := (4693 / 2 ^ 64)) (D := (303 / 2 ^ 7)) (by norm_num) (by norm_num)
  have hL : ((13 / 2 ^ 3) : ℝ) ≤ |((2.0 : Flt f64) - (x - x * x * (p1 + x * x * (p2 + x * x * (p3 + x * x * (p4 + x * x * p5)))))).val| := by
    have h1 := abs_le.1 hc.bd
    have h2 := abs_le.1 hc.err
    have h3 := abs_le.1 hd.err
    rw [KTanD.two_val] at h3
    refine le_trans ?_ (le_abs_self _)
    generalize (x - x * x * (p1 + x * x * (p2 + x * x * (p3 + x * x * (p4 + x * x * p5))))) = c at *
    norm_num at h1 h2 h3 ⊢
    linarith [h1.1, h1.2, h2.1, h2.2, h3.1, h3.2]
  have hw := (As64.div one_lo le_rfl hn.as hd.as (13 / 2 ^ 3) hL (by norm_num) (by norm_num) (by norm_num) (by norm_num) (by norm_num) (g := (5369 / 2 ^ 67)) (D := (5129 / 2 ^ 16)) (by norm_num) (by norm_num)).ap
  have hwl := Ap.sub hw hlo (-3) (by norm_num) (by norm_num) (g := (6393 / 2 ^ 67)) (D := (2565 / 2 ^ 15)) (by norm_num) (by norm_num)
  have ht := Ap.add hwl hhi (-1) (by norm_num) (by norm_num) (g := (5245 / 2 ^ 66)) (D := (3481 / 2 ^ 13)) (by norm_num) (by norm_num)
  refine ⟨ht.fin, ?_⟩
  refine (congrArg (fun v => |(tail x hi lo).val - v|) ?_).trans_le ht.err
  have e : x.val ^ 2 * Poly.ev poly (x.val ^ 2) = x.val * x.val * (p1.val + x.val * x.val * (p2.val + x.val * x.val * (p3.val + x.val * x.val * (p4.val + x.val * x.val * p5.val)))) := by
    simp only [poly, Poly.ev, p1_val, p2_val, p3_val, p4_val, p5_val]
    push_cast
    norm_num
    ring
  rw [KTanD.two_val, e]
end Exp
end Verif
