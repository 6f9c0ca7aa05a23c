import Verif.Props.Exp10Sat
import Verif.Theory.ExpD
import Verif.Theory.ExpEnd
import Verif.Theory.Cut
import Verif.Props.Scalbn

/-!
# The exponential at the end of `pow`, with its error
-/

namespace Verif
open Flt
namespace PowE
open Verif.Pow

theorem lg2H_val : lg2H.val = (1453635 : ℤ) * 2 ^ (-21 : ℤ) := val_const64 _ 1053 _ (by decide +kernel) (by norm_num)
theorem lg2L_val : lg2L.val = (-4605171521317945 : ℤ) * 2 ^ (-81 : ℤ) := val_const64 _ 993 _ (by decide +kernel) (by norm_num)
theorem lg2_val : lg2.val = (6243314768165359 : ℤ) * 2 ^ (-53 : ℤ) := val_const64 _ 1021 _ (by decide +kernel) (by norm_num)

theorem cuts20 : AsW.Cuts (F := f64) (fun x => withSetLowWord x 0) (1 / 2 ^ 20) :=
  cuts_of W64 (t := 32) (p := 20) (by rw [f64_sb]) (by rw [f64_bias, f64_sb]; norm_num) low_word_cut

/-- the leading product is exact, or small -/
theorem lead {s : Flt f64} (sf : s.isFinite) (hs : |(withSetLowWord s 0).val| ≤ 1) :
    (withSetLowWord s 0 * lg2H).isFinite ∧ |(withSetLowWord s 0 * lg2H).val - (withSetLowWord s 0).val * lg2H.val| ≤ 1 / 2 ^ 64 := by
  obtain ⟨ts, tm⟩ := low_word_cut s
  have tf := (cuts20 s sf).1
  dsimp only at tf
  generalize withSetLowWord s 0 = t at *
  have hH : |lg2H.val| ≤ 1 := by rw [lg2H_val]; norm_num [abs_of_pos]
  rcases le_or_gt |t.val| (2 ^ (-10 : ℤ)) with h | h
  · obtain ⟨h1, h2⟩ := mul_err64 tf (show lg2H.isFinite by decide +kernel) (-10) (by
      rw [abs_mul]
      have := mul_le_mul h hH (abs_nonneg _) (by positivity)
      linarith) (by norm_num) (by norm_num)
    exact ⟨h1, h2.trans (by norm_num)⟩
  · have hE1 : 1000 ≤ t.mb / 2 ^ 52 := by
      by_contra hc
      have := val_lt_of_mb (F := f64) (x := t) (E := 1000) (by norm_num) (by rw [f64_sb]; omega)
      rw [f64_bias] at this
      norm_num at this h; linarith
    have hE2 : t.mb / 2 ^ 52 ≤ 1023 := by
      by_contra hc
      have := val_ge_of_mb (F := f64) (x := t) (E := 1024) (by norm_num) (by rw [f64_sb]; omega)
      rw [f64_bias] at this
      norm_num at this; linarith
    obtain ⟨m, em⟩ : ∃ m, m = t.mb % 2 ^ 52 := ⟨_, rfl⟩
    obtain ⟨E, eE⟩ : ∃ E, E = t.mb / 2 ^ 52 := ⟨_, rfl⟩
    have a := Cbrt.abs_mk (x := t) (E := E) (m := m) (by omega) (by omega) (by omega)
    obtain ⟨H, eH⟩ : ∃ H, 2 ^ 52 + m = H * 2 ^ 32 := ⟨(2 ^ 52 + m) / 2 ^ 32, by omega⟩
    have hHb : H ≤ 2 ^ 21 := by omega
    rw [eH] at a
    rw [← eE] at hE1 hE2
    obtain ⟨k, ek⟩ : ∃ k : ℤ, k = (E : ℤ) - 1075 := ⟨_, rfl⟩
    rw [← ek] at a
    have k1 : -80 ≤ k := by omega
    have k2 : k ≤ 0 := by omega
    clear em eE tm ts eH
    obtain ⟨σ, hσ, s1⟩ : ∃ σ : ℤ, |σ| = 1 ∧ t.val = σ * |t.val| := by
      cases hs : t.sign
      · exact ⟨1, by norm_num, by rw [abs_of_nonneg (val_nonneg hs)]; simp⟩
      · exact ⟨-1, by norm_num, by rw [abs_of_nonpos (val_nonpos hs)]; simp⟩
    rw [a] at s1
    push_cast at s1
    obtain ⟨c, cf, cv⟩ := exists_val64' (n := σ * H * 1453635) (k := k + 32 + -21) (by
      rw [abs_mul, abs_mul, hσ, one_mul, abs_of_nonneg (by positivity), abs_of_nonneg (by norm_num)]
      omega) (by omega) (by omega)
    obtain ⟨uf, uv⟩ := (mul_rne tf (show lg2H.isFinite by decide +kernel)).exact_real cf (by
      rw [cv, s1, lg2H_val, zpow_add₀ (by norm_num), zpow_add₀ (by norm_num)]; push_cast; norm_num; ring)
    refine ⟨uf, ?_⟩
    rw [uv, sub_self, abs_zero]; norm_num

/-- pow.rs 374-380: the reduced argument as an unevaluated sum -/
theorem args {ph pl t u v z w : Flt f64} (phf : ph.isFinite) (plf : pl.isFinite) (h1 : |pl.val| ≤ 1 / 2 ^ 9) (hs : |pl.val + ph.val| ≤ 0.5001)
    (et : t = withSetLowWord (pl + ph) 0) (eu : u = t * lg2H) (ev : v = (pl - (t - ph)) * lg2 + t * lg2L) (ez : z = u + v)
    (ew : w = v - (z - u)) :
    z.isFinite ∧ w.isFinite ∧ |z.val| ≤ 0.34667 ∧ |w.val| ≤ 1 / 2 ^ 54 ∧ |z.val + w.val - (pl.val + ph.val) * Real.log 2| ≤ 1 / 2 ^ 60 := by
  have k0 := Num.log2_near
  have k1 := Num.log2_gt
  have k2 := Num.log2_lt
  obtain ⟨sf, se⟩ := add_err64 plf phf 0 (by norm_num at hs ⊢; linarith) (by norm_num)
  obtain ⟨tf, te⟩ := cuts20 _ sf
  dsimp only at tf te
  have sb : |(pl + ph).val| ≤ 0.5002 := by
    have := abs_sub_abs_le_abs_sub (pl + ph).val (pl.val + ph.val)
    norm_num at *; linarith
  rw [← et] at tf te
  have ts : |t.val - (pl.val + ph.val)| ≤ 0.6 / 2 ^ 20 := by
    have := abs_sub_le t.val (pl + ph).val (pl.val + ph.val)
    norm_num at *; linarith
  have tb : |t.val| ≤ 0.5002 := by
    have := abs_sub_abs_le_abs_sub t.val (pl.val + ph.val)
    norm_num at *; linarith
  obtain ⟨uf, ue⟩ := lead sf (by rw [← et]; norm_num at tb ⊢; linarith)
  rw [← et, ← eu] at uf ue
  obtain ⟨mf, me⟩ := sub_err64 tf phf (-8) (by
    have e : t.val - ph.val = (t.val - (pl.val + ph.val)) + pl.val := by ring
    rw [e]
    refine (abs_add_le _ _).trans ?_
    norm_num at *; linarith) (by norm_num)
  obtain ⟨qf, qe⟩ := sub_err64 plf mf (-20) (by
    have e : pl.val - (t - ph).val = -((t.val - (pl.val + ph.val)) + ((t - ph).val - (t.val - ph.val))) := by ring
    rw [e, abs_neg]
    refine (abs_add_le _ _).trans ?_
    norm_num at *; linarith) (by norm_num)
  generalize t - ph = m at *
  have qs : |(pl - m).val - (pl.val + ph.val - t.val)| ≤ 1.01 / 2 ^ 62 := by
    have e : (pl - m).val - (pl.val + ph.val - t.val) = ((pl - m).val - (pl.val - m.val)) + -(m.val - (t.val - ph.val)) := by ring
    rw [e]
    refine (abs_add_le _ _).trans ?_
    rw [abs_neg]
    norm_num at *; linarith
  generalize pl - m = q at *
  have qb : |q.val| ≤ 0.7 / 2 ^ 20 := by
    have e : q.val = (q.val - (pl.val + ph.val - t.val)) + -(t.val - (pl.val + ph.val)) := by ring
    have := abs_add_le (q.val - (pl.val + ph.val - t.val)) (-(t.val - (pl.val + ph.val)))
    rw [← e, abs_neg] at this
    norm_num at *; linarith
  have c1 : |lg2.val - Real.log 2| ≤ 1 / 2 ^ 54 := by
    rw [lg2_val]; rw [abs_le] at k0 ⊢; norm_num at k0 ⊢; constructor <;> linarith [k0.1, k0.2]
  have c2 : |lg2H.val + lg2L.val - Real.log 2| ≤ 1 / 2 ^ 65 := by
    rw [lg2H_val, lg2L_val]; rw [abs_le] at k0 ⊢; norm_num at k0 ⊢; constructor <;> linarith [k0.1, k0.2]
  have b1 : |lg2.val| ≤ 0.7 := by rw [lg2_val]; norm_num [abs_of_pos]
  have b2 : |lg2L.val| ≤ 1.1 / 2 ^ 29 := by rw [lg2L_val, abs_le]; norm_num
  have hq : Ap q q.val 0 (0.7 / 2 ^ 20) := .exact qf rfl qb
  have ht : Ap t t.val 0 0.5002 := .exact tf rfl tb
  have hl : Ap lg2 lg2.val 0 0.7 := .exact (by decide +kernel) rfl b1
  have hL : Ap lg2L lg2L.val 0 (1.1 / 2 ^ 29) := .exact (by decide +kernel) rfl b2
  have ha := Ap.mul hq hl (-21) (by norm_num) (by norm_num) (by norm_num) (g := 1 / 2 ^ 75) (D := 0.5 / 2 ^ 20) (by norm_num) (by norm_num)
  have hb := Ap.mul ht hL (-29) (by norm_num) (by norm_num) (by norm_num) (g := 1 / 2 ^ 83) (D := 1 / 2 ^ 29) (by norm_num) (by norm_num)
  have hv := Ap.add ha hb (-20) (by norm_num) (by norm_num) (g := 1 / 2 ^ 73) (D := 0.6 / 2 ^ 20) (by norm_num) (by norm_num)
  rw [← ev] at hv
  obtain ⟨vf, ve, vb⟩ := hv
  clear ha hb
  have ub : |u.val| ≤ 0.34672 := by
    have h3 : |t.val * lg2H.val| ≤ 0.5002 * 0.69315 := by
      rw [abs_mul]
      exact mul_le_mul tb (by rw [lg2H_val]; norm_num [abs_of_pos]) (abs_nonneg _) (by norm_num)
    have := abs_sub_abs_le_abs_sub u.val (t.val * lg2H.val)
    norm_num at *; linarith
  obtain ⟨zf, ze⟩ := add_err64 uf vf (-1) (by
    refine (abs_add_le _ _).trans ?_
    norm_num at *; linarith) (by norm_num)
  rw [← ez] at zf ze
  obtain ⟨df, de⟩ := sub_err64 zf uf (-19) (by
    have e : z.val - u.val = (z.val - (u.val + v.val)) + v.val := by ring
    rw [e]
    refine (abs_add_le _ _).trans ?_
    norm_num at *; linarith) (by norm_num)
  have dw : |v.val - (z - u).val| ≤ 1.01 / 2 ^ 55 := by
    have e : v.val - (z - u).val = -((z.val - (u.val + v.val)) + ((z - u).val - (z.val - u.val))) := by ring
    rw [e, abs_neg]
    refine (abs_add_le _ _).trans ?_
    norm_num at *; linarith
  obtain ⟨wf, we⟩ := sub_err64 vf df (-54) (dw.trans (by norm_num)) (by norm_num)
  rw [← ew] at wf we
  have hd2 : |z.val + w.val - (u.val + v.val)| ≤ 1 / 2 ^ 70 := by
    have e : z.val + w.val - (u.val + v.val) = (w.val - (v.val - (z - u).val)) + -((z - u).val - (z.val - u.val)) := by ring
    rw [e]
    refine (abs_add_le _ _).trans ?_
    rw [abs_neg]
    norm_num at *; linarith
  have wb : |w.val| ≤ 1 / 2 ^ 54 := by
    have := abs_sub_abs_le_abs_sub w.val (v.val - (z - u).val)
    norm_num at *; linarith
  have huv : |u.val + v.val - (pl.val + ph.val) * Real.log 2| ≤ 1 / 2 ^ 61 := by
    have e : u.val + v.val - (pl.val + ph.val) * Real.log 2 = (u.val - t.val * lg2H.val) + (v.val - (q.val * lg2.val + t.val * lg2L.val))
        + q.val * (lg2.val - Real.log 2) + t.val * (lg2H.val + lg2L.val - Real.log 2) + (q.val - (pl.val + ph.val - t.val)) * Real.log 2 := by ring
    rw [e]
    refine (abs_add_le _ _).trans ?_
    have e1 := abs_add_le ((u.val - t.val * lg2H.val) + (v.val - (q.val * lg2.val + t.val * lg2L.val)) + q.val * (lg2.val - Real.log 2)) (t.val * (lg2H.val + lg2L.val - Real.log 2))
    have e2 := abs_add_three (u.val - t.val * lg2H.val) (v.val - (q.val * lg2.val + t.val * lg2L.val)) (q.val * (lg2.val - Real.log 2))
    have m1 : |q.val * (lg2.val - Real.log 2)| ≤ 0.7 / 2 ^ 20 * (1 / 2 ^ 54) := by
      rw [abs_mul]; exact mul_le_mul qb c1 (abs_nonneg _) (by norm_num)
    have m2 : |t.val * (lg2H.val + lg2L.val - Real.log 2)| ≤ 0.5002 * (1 / 2 ^ 65) := by
      rw [abs_mul]; exact mul_le_mul tb c2 (abs_nonneg _) (by norm_num)
    have m3 : |(q.val - (pl.val + ph.val - t.val)) * Real.log 2| ≤ 1.01 / 2 ^ 62 * 1 := by
      rw [abs_mul, abs_of_pos (show 0 < Real.log 2 by norm_num at k1; linarith)]
      exact mul_le_mul qs (by norm_num at k2; linarith) (by norm_num at k1; linarith) (by norm_num)
    norm_num at *; linarith
  have hfin : |z.val + w.val - (pl.val + ph.val) * Real.log 2| ≤ 1 / 2 ^ 60 := by
    have e : z.val + w.val - (pl.val + ph.val) * Real.log 2 = (z.val + w.val - (u.val + v.val)) + (u.val + v.val - (pl.val + ph.val) * Real.log 2) := by ring
    rw [e]
    refine (abs_add_le _ _).trans ?_
    norm_num at *; linarith
  refine ⟨zf, wf, ?_, wb, hfin⟩
  have h5 : |(pl.val + ph.val) * Real.log 2| ≤ 0.5001 * 0.693148 := by
    rw [abs_mul, abs_of_pos (show 0 < Real.log 2 by norm_num at k1; linarith)]
    exact mul_le_mul hs (by norm_num at k2 ⊢; linarith) (by norm_num at k1; linarith) (by norm_num)
  have e : z.val = (z.val + w.val - (pl.val + ph.val) * Real.log 2) + (pl.val + ph.val) * Real.log 2 + -w.val := by ring
  have h6 := abs_add_three (z.val + w.val - (pl.val + ph.val) * Real.log 2) ((pl.val + ph.val) * Real.log 2) (-w.val)
  rw [← e, abs_neg] at h6
  norm_num at *; linarith

open Exp (poly) in
set_option maxHeartbeats 1000000 in
/-- pow.rs 381-385: the rational approximation -/
theorem kern {x w : Flt f64} (xf : x.isFinite) (wf : w.isFinite) (bx : |x.val| ≤ 0.34667) (bw : |w.val| ≤ 1 / 2 ^ 54) :
    (x * (x - x * x * (p1 + x * x * (p2 + x * x * (p3 + x * x * (p4 + x * x * p5))))) / ((x - x * x * (p1 + x * x * (p2 + x * x * (p3 + x * x * (p4 + x * x * p5))))) - 2.0) - (w + x * w) - x).isFinite ∧
    |(x * (x - x * x * (p1 + x * x * (p2 + x * x * (p3 + x * x * (p4 + x * x * p5))))) / ((x - x * x * (p1 + x * x * (p2 + x * x * (p3 + x * x * (p4 + x * x * p5))))) - 2.0) - (w + x * w) - x).val -
      (-(x.val * (x.val - x.val ^ 2 * Poly.ev poly (x.val ^ 2)) / (2 - (x.val - x.val ^ 2 * Poly.ev poly (x.val ^ 2)))) - (w.val + x.val * w.val) - x.val)| ≤ (5250 / 2 ^ 66) := by
  rw [show Pow.p1 = Exp.p1 from rfl, show Pow.p2 = Exp.p2 from rfl, show Pow.p3 = Exp.p3 from rfl, show Pow.p4 = Exp.p4 from rfl, show Pow.p5 = Exp.p5 from rfl]
  have hx : Ap x x.val 0 (355 / 2 ^ 10) := .exact xf rfl (bx.trans (by norm_num))
  have hW : Ap w w.val 0 (1 / 2 ^ 54) := .exact wf rfl bw
  have hp1 : Ap Exp.p1 Exp.p1.val 0 (2731 / 2 ^ 14) := .exact (by decide +kernel) rfl (by rw [Exp.p1_val, abs_le]; constructor <;> norm_num)
  have hp2 : Ap Exp.p2 Exp.p2.val 0 (2913 / 2 ^ 20) := .exact (by decide +kernel) rfl (by rw [Exp.p2_val, abs_le]; constructor <;> norm_num)
  have hp3 : Ap Exp.p3 Exp.p3.val 0 (4439 / 2 ^ 26) := .exact (by decide +kernel) rfl (by rw [Exp.p3_val, abs_le]; constructor <;> norm_num)
  have hp4 : Ap Exp.p4 Exp.p4.val 0 (3551 / 2 ^ 31) := .exact (by decide +kernel) rfl (by rw [Exp.p4_val, abs_le]; constructor <;> norm_num)
  have hp5 : Ap Exp.p5 Exp.p5.val 0 (711 / 2 ^ 34) := .exact (by decide +kernel) rfl (by rw [Exp.p5_val, abs_le]; constructor <;> norm_num)
  have htwo : Ap (2.0 : Flt f64) (2.0 : Flt f64).val 0 2 := .exact (by decide +kernel) rfl (by rw [KTanD.two_val, abs_le]; constructor <;> norm_num)
  have hz := Ap.mul hx hx (-3) (by norm_num) (by norm_num) (by norm_num) (g := (1 / 2 ^ 57)) (D := (7877 / 2 ^ 16)) (by norm_num) (by norm_num)
  have ha5 := Ap.mul hz hp5 (-27) (by norm_num) (by norm_num) (by norm_num) (g := (1735 / 2 ^ 91)) (D := (2735 / 2 ^ 39)) (by norm_num) (by norm_num)
  have hb4 := Ap.add hp4 ha5 (-19) (by norm_num) (by norm_num) (g := (1031 / 2 ^ 83)) (D := (1781 / 2 ^ 30)) (by norm_num) (by norm_num)
  have ha4 := Ap.mul hz hb4 (-22) (by norm_num) (by norm_num) (by norm_num) (g := (1453 / 2 ^ 85)) (D := (6851 / 2 ^ 35)) (by norm_num) (by norm_num)
  have hb3 := Ap.add hp3 ha4 (-13) (by norm_num) (by norm_num) (g := (4119 / 2 ^ 79)) (D := (4453 / 2 ^ 26)) (by norm_num) (by norm_num)
  have ha3 := Ap.mul hz hb3 (-16) (by norm_num) (by norm_num) (by norm_num) (g := (2571 / 2 ^ 80)) (D := (2141 / 2 ^ 28)) (by norm_num) (by norm_num)
  have hb2 := Ap.add hp2 ha3 (-8) (by norm_num) (by norm_num) (g := (4137 / 2 ^ 74)) (D := (5843 / 2 ^ 21)) (by norm_num) (by norm_num)
  have ha2 := Ap.mul hz hb2 (-11) (by norm_num) (by norm_num) (by norm_num) (g := (2749 / 2 ^ 75)) (D := (5619 / 2 ^ 24)) (by norm_num) (by norm_num)
  have hb1 := Ap.add hp1 ha2 (-2) (by norm_num) (by norm_num) (g := (2059 / 2 ^ 67)) (D := (5473 / 2 ^ 15)) (by norm_num) (by norm_num)
  have hq := Ap.mul hz hb1 (-5) (by norm_num) (by norm_num) (by norm_num) (g := (5397 / 2 ^ 70)) (D := (5263 / 2 ^ 18)) (by norm_num) (by norm_num)
  have hc := Ap.sub hx hq (-1) (by norm_num) (by norm_num) (g := (4771 / 2 ^ 67)) (D := (6009 / 2 ^ 14)) (by norm_num) (by norm_num)
  have hn := Ap.mul hx hc (-2) (by norm_num) (by norm_num) (by norm_num) (g := (7405 / 2 ^ 68)) (D := (4167 / 2 ^ 15)) (by norm_num) (by norm_num)
  have hd := Ap.sub hc htwo (2) (by norm_num) (by norm_num) (g := (4693 / 2 ^ 64)) (D := (303 / 2 ^ 7)) (by norm_num) (by norm_num)
  have hL : ((13 / 2 ^ 3) : ℝ) ≤ |((x - x * x * (Exp.p1 + x * x * (Exp.p2 + x * x * (Exp.p3 + x * x * (Exp.p4 + x * x * Exp.p5))))) - (2.0 : Flt f64)).val| := by
    have h1 := abs_le.1 hc.bd
    have h2 := abs_le.1 hc.err
    have h3 := abs_le.1 hd.err
    rw [KTanD.two_val] at h3
    refine le_trans ?_ (neg_le_abs _)
    generalize (x - x * x * (Exp.p1 + x * x * (Exp.p2 + x * x * (Exp.p3 + x * x * (Exp.p4 + x * x * Exp.p5))))) = c at *
    norm_num at h1 h2 h3 ⊢
    linarith [h1.1, h1.2, h2.1, h2.2, h3.1, h3.2]
  have hw := (As64.div one_lo le_rfl hn.as hd.as (13 / 2 ^ 3) hL (by norm_num) (by norm_num) (by norm_num) (by norm_num) (by norm_num) (g := (5369 / 2 ^ 67)) (D := (5129 / 2 ^ 16)) (by norm_num) (by norm_num)).ap
  have hxw := Ap.mul hx hW (-55) (by norm_num) (by norm_num) (by norm_num) (g := 1 / 2 ^ 109) (D := 1 / 2 ^ 55) (by norm_num) (by norm_num)
  have hww := Ap.add hW hxw (-53) (by norm_num) (by norm_num) (g := 1 / 2 ^ 106) (D := 1 / 2 ^ 53) (by norm_num) (by norm_num)
  have hr := Ap.sub hw hww (-3) (by norm_num) (by norm_num) (g := (6394 / 2 ^ 67)) (D := (2565 / 2 ^ 15)) (by norm_num) (by norm_num)
  have ht := Ap.sub hr hx (-1) (by norm_num) (by norm_num) (g := (5250 / 2 ^ 66)) (D := (3485 / 2 ^ 13)) (by norm_num) (by norm_num)
  refine ⟨ht.fin, ?_⟩
  refine (congrArg (fun v => |_ - v|) ?_).trans_le ht.err
  have e : x.val ^ 2 * Poly.ev poly (x.val ^ 2) = x.val * x.val * (Exp.p1.val + x.val * x.val * (Exp.p2.val + x.val * x.val * (Exp.p3.val + x.val * x.val * (Exp.p4.val + x.val * x.val * Exp.p5.val)))) := by
    simp only [poly, Poly.ev, Exp.p1_val, Exp.p2_val, Exp.p3_val, Exp.p4_val, Exp.p5_val]
    push_cast
    norm_num
    ring
  rw [KTanD.two_val, e]
  generalize x.val - x.val * x.val * (Exp.p1.val + x.val * x.val * (Exp.p2.val + x.val * x.val * (Exp.p3.val + x.val * x.val * (Exp.p4.val + x.val * x.val * Exp.p5.val)))) = C
  rw [show C - 2 = -(2 - C) by ring, div_neg]

/-- pow.rs 374-385: the exponential of the reduced argument, before its last rounding -/
theorem tail_q {ph pl t u v z w R : Flt f64} {θ : ℝ} (phf : ph.isFinite) (plf : pl.isFinite) (h1 : |pl.val| ≤ 1 / 2 ^ 9) (hs : |pl.val + ph.val| ≤ 0.5001)
    (et : t = withSetLowWord (pl + ph) 0) (eu : u = t * lg2H) (ev : v = (pl - (t - ph)) * lg2 + t * lg2L) (ez : z = u + v)
    (ew : w = v - (z - u)) (eR : R = z * (z - z * z * (p1 + z * z * (p2 + z * z * (p3 + z * z * (p4 + z * z * p5))))) / ((z - z * z * (p1 + z * z * (p2 + z * z * (p3 + z * z * (p4 + z * z * p5))))) - 2.0) - (w + z * w) - z)
    (hθ : |θ - (pl.val + ph.val) * Real.log 2| ≤ 1 / 2 ^ 56) :
    R.isFinite ∧ 0.6 ≤ Real.exp θ ∧ Real.exp θ ≤ 1.6 ∧ |1 - R.val - Real.exp θ| ≤ 0.95 * 2 ^ (-1 - (f64.sb : ℤ)) := by
  obtain ⟨zf, wf, zb, wb, hzw⟩ := args phf plf h1 hs et eu ev ez ew
  obtain ⟨Rf, Re⟩ := kern zf wf zb wb
  rw [← eR] at Rf Re
  have hA := Exp.approx (r := z.val) (zb.trans (by norm_num))
  generalize z.val * (z.val - z.val ^ 2 * Poly.ev Exp.poly (z.val ^ 2)) / (2 - (z.val - z.val ^ 2 * Poly.ev Exp.poly (z.val ^ 2))) = K at *
  clear eR ew ez ev eu et
  have hz2 : z.val ^ 2 ≤ 0.1202 := by
    have : |z.val| ^ 2 ≤ 0.34667 ^ 2 := pow_le_pow_left₀ (abs_nonneg _) zb 2
    rw [sq_abs] at this; norm_num at this ⊢; linarith
  have e1 := Real.abs_exp_sub_one_sub_id_le (x := z.val) (zb.trans (by norm_num))
  have e2 := Real.abs_exp_sub_one_sub_id_le (x := -z.val) (by rw [abs_neg]; exact zb.trans (by norm_num))
  rw [neg_sq] at e2
  have hinv : Real.exp z.val * Real.exp (-z.val) = 1 := by rw [← Real.exp_add, add_neg_cancel, Real.exp_zero]
  have hp := Real.exp_pos z.val
  have zb2 := abs_le.1 zb
  have eu1 : Real.exp z.val ≤ 1.467 := by have := (abs_le.1 e1).2; norm_num at *; linarith
  have eu2 : Real.exp (-z.val) ≤ 1.467 := by have := (abs_le.1 e2).2; norm_num at *; linarith
  have el : 0.68 ≤ Real.exp z.val := by
    have := mul_le_mul_of_nonneg_left eu2 hp.le
    rw [hinv] at this; norm_num at *; linarith
  obtain ⟨d, ed⟩ : ∃ d, d = θ - z.val := ⟨_, rfl⟩
  have hd1 : |d - w.val| ≤ 1 / 2 ^ 56 + 1 / 2 ^ 60 := by
    have e : d - w.val = (θ - (pl.val + ph.val) * Real.log 2) + -(z.val + w.val - (pl.val + ph.val) * Real.log 2) := by rw [ed]; ring
    rw [e]
    refine (abs_add_le _ _).trans ?_
    rw [abs_neg]; linarith
  have hd2 : |d| ≤ 1 / 2 ^ 53 := by
    have := abs_sub_abs_le_abs_sub d w.val
    norm_num at *; linarith
  have e3 := Real.abs_exp_sub_one_sub_id_le (x := d) (hd2.trans (by norm_num))
  have hd3 : d ^ 2 ≤ 1 / 2 ^ 100 := by
    have : |d| ^ 2 ≤ (1 / 2 ^ 53) ^ 2 := pow_le_pow_left₀ (abs_nonneg _) hd2 2
    rw [sq_abs] at this; norm_num at this ⊢; linarith
  have eθ : Real.exp θ = Real.exp z.val * Real.exp d := by rw [← Real.exp_add, ed]; ring_nf
  have hmain : |Real.exp z.val + w.val * (1 + z.val) - Real.exp θ| ≤ 0.27 / 2 ^ 53 := by
    have e : Real.exp z.val + w.val * (1 + z.val) - Real.exp θ =
        -(Real.exp z.val * (d - w.val) + w.val * (Real.exp z.val - 1 - z.val) + Real.exp z.val * (Real.exp d - 1 - d)) := by rw [eθ]; ring
    rw [e, abs_neg]
    refine (abs_add_three _ _ _).trans ?_
    rw [abs_mul, abs_mul, abs_mul, abs_of_pos hp]
    have m1 := mul_le_mul eu1 hd1 (abs_nonneg _) (by norm_num)
    have m2 := mul_le_mul wb (e1.trans hz2) (abs_nonneg _) (by norm_num)
    have m3 := mul_le_mul eu1 (e3.trans hd3) (abs_nonneg _) (by norm_num)
    norm_num at *; linarith
  have hq : |1 - R.val - Real.exp θ| ≤ 0.95 * 2 ^ (-1 - (f64.sb : ℤ)) := by
    have e : 1 - R.val - Real.exp θ = -(R.val - (-K - (w.val + z.val * w.val) - z.val)) + (1 + z.val + K - Real.exp z.val) + (Real.exp z.val + w.val * (1 + z.val) - Real.exp θ) := by ring
    rw [e]
    refine (abs_add_three _ _ _).trans ?_
    rw [abs_neg, f64_sb]
    norm_num at *; linarith
  have hθ2 : |Real.exp θ - Real.exp z.val| ≤ 0.01 := by
    have e : Real.exp θ - Real.exp z.val = -(Real.exp z.val + w.val * (1 + z.val) - Real.exp θ) + w.val * (1 + z.val) := by ring
    rw [e]
    refine (abs_add_le _ _).trans ?_
    rw [abs_neg, abs_mul]
    have h3 : |1 + z.val| ≤ 2 := by rw [abs_le]; norm_num at *; constructor <;> linarith [zb2.1, zb2.2]
    have m := mul_le_mul wb h3 (abs_nonneg _) (by norm_num)
    norm_num at *; linarith
  have h7 := abs_le.1 hθ2
  refine ⟨Rf, ?_, ?_, hq⟩ <;> norm_num at * <;> linarith [h7.1, h7.2]

/-- adding `n` to the exponent field multiplies by `2^n` -/
theorem set_high_scale {z : Flt f64} {j : BitVec 32} {n : ℤ} (hs : z.sign = false) (h1 : 1 ≤ z.mb / 2 ^ 52)
    (hj : (j.toNat : ℤ) = (z.mb / 2 ^ 32 : ℕ) + n * 2 ^ 20) (h2 : 1 ≤ ((z.mb / 2 ^ 52 : ℕ) : ℤ) + n) (h3 : ((z.mb / 2 ^ 52 : ℕ) : ℤ) + n ≤ 2046) :
    (withSetHighWord z j).isFinite ∧ (withSetHighWord z j).val = z.val * 2 ^ n := by
  obtain ⟨a, b⟩ := set_high_word z j
  have h := words_split (withSetHighWord z j)
  have g := words_split z
  rw [a, b] at h
  have hl := (getLowWord z).isLt
  have hh := hi_sign_mb z
  rw [hs] at hh
  simp only [Bool.false_eq_true, if_false, add_zero] at hh
  have hm1 := (withSetHighWord z j).mb_lt
  rw [enc_eq, show f64.ew + f64.sb = 63 from rfl] at h g
  rw [show f64.ew + f64.sb = 63 from rfl] at hm1
  rw [hs] at g
  simp only [Bool.false_eq_true, if_false, add_zero] at g
  clear a b
  generalize withSetHighWord z j = x at *
  have hxs : x.sign = false := by
    by_contra hc
    rw [Bool.not_eq_false] at hc
    rw [hc, if_pos rfl] at h
    omega
  rw [hxs] at h
  simp only [Bool.false_eq_true, if_false, add_zero] at h
  obtain ⟨m, em⟩ : ∃ m, m = z.mb % 2 ^ 52 := ⟨_, rfl⟩
  obtain ⟨E, eE⟩ : ∃ E, E = z.mb / 2 ^ 52 := ⟨_, rfl⟩
  obtain ⟨E', eE'⟩ : ∃ E' : ℕ, (E' : ℤ) = E + n := ⟨(E + n).toNat, by omega⟩
  have hzm : z.mb = E * 2 ^ 52 + m := by clear h g hj hh hm1 h1 h2 h3 eE'; omega
  have hm : m < 2 ^ 52 := by clear h g hj hh hm1 h1 h2 h3 eE'; omega
  have c1 : z.mb / 2 ^ 32 = E * 2 ^ 20 + m / 2 ^ 32 := by clear h g hj hh hm1 h1 h2 h3 eE' em eE; omega
  have c2 : (getLowWord z).toNat = m % 2 ^ 32 := by rw [lo_toNat]; clear h g hj hh hm1 h1 h2 h3 eE' em eE; omega
  have c3 : j.toNat = E' * 2 ^ 20 + m / 2 ^ 32 := by
    rw [c1] at hj
    push_cast at hj
    zify
    rw [hj, eE']; ring
  have hx : x.mb = E' * 2 ^ 52 + m := by
    rw [h, c3, c2]; clear h g hj hh hm1 h1 h2 h3 eE' em eE c1 c2 c3; omega
  have hE1 : 1 ≤ E := by rw [eE]; exact h1
  rw [← eE] at h2 h3
  clear c1 c2 c3 h g hj hh em eE h1 hl
  have a1 := Cbrt.abs_mk (x := z) (E := E) (m := m) hE1 hm hzm
  have a2 := Cbrt.abs_mk (x := x) (E := E') (m := m) (by omega) hm hx
  rw [abs_of_nonneg (val_nonneg hs)] at a1
  rw [abs_of_nonneg (val_nonneg hxs)] at a2
  refine ⟨(isFinite64 x).2 (by omega), ?_⟩
  rw [a1, a2, eE', mul_assoc, ← zpow_add₀ (by norm_num)]
  congr 2; ring_nf

theorem rne_self {x : Flt f64} (hx : x.isFinite) : IsRNE x.val x := by
  have h := mul_rne hx (y := one f64) isFinite_one
  rwa [mul_one_self (not_nan_of_finite hx), val_one, mul_one] at h

theorem one_mul_val {r : Flt f64} (rf : r.isFinite) : (1.0 * r).isFinite ∧ ((1.0 : Flt f64) * r).val = r.val := by
  have := (mul_rne (show (1.0 : Flt f64).isFinite by decide +kernel) rf).exact_real rf (by rw [v_one, one_mul])
  rw [v_one, one_mul] at this
  exact this

/-- pow.rs 374-393: the scaled exponential -/
theorem tail_acc {ph pl : Flt f64} {n : ℤ} {θ : ℝ} (phf : ph.isFinite) (plf : pl.isFinite) (h1 : |pl.val| ≤ 1 / 2 ^ 9) (hs : |pl.val + ph.val| ≤ 0.5001)
    (hθ : |θ - (pl.val + ph.val) * Real.log 2| ≤ 1 / 2 ^ 56) (hn : -1100 ≤ n) (hn2 : n ≤ 1023 ∨ n = 1024 ∧ Real.exp θ ≤ 1 - 1 / 2 ^ 50) :
    ∃ r, exp2Tail 1.0 ph pl n = some r ∧ WithinUlp 1.45 r (Real.exp θ * 2 ^ n) := by
  obtain ⟨Rf, hE1, hE2, hq⟩ := tail_q phf plf h1 hs rfl rfl rfl rfl rfl rfl hθ
  unfold exp2Tail
  dsimp only
  generalize hR : (_ - _ : Flt f64) = R at Rf hq
  clear hR
  have hy := sub_rne (show (1.0 : Flt f64).isFinite by decide +kernel) Rf
  rw [v_one] at hy
  obtain ⟨yf, y1, y2, y3, y4⟩ := near_scaled hy (by rw [f64_bias]; norm_num) (by rw [f64_sb]; norm_num) hE1 hE2 (by norm_num) (by norm_num) hq
  generalize (1.0 : Flt f64) - R = y at *
  have hk : n ≤ f64.bias ∨ n = f64.bias + 1 ∧ y.val < 1 := by
    rw [f64_bias]
    rcases hn2 with h | ⟨h, h2⟩
    · left; exact_mod_cast h
    · right
      refine ⟨by rw [h]; norm_num, ?_⟩
      have := (abs_le.1 y3).2
      rw [f64_sb] at this
      norm_num at this h2 ⊢; linarith
  have ys : y.sign = false := by
    by_contra hc
    have := val_nonpos (x := y) (by simpa using hc)
    linarith
  have hm1 : 1022 * 2 ^ 52 ≤ y.mb := by
    by_contra hc
    have := val_lt_of_mb (F := f64) (x := y) (E := 1022) (by norm_num) (by rw [f64_sb]; omega)
    rw [f64_bias, abs_of_pos (by linarith)] at this
    norm_num at this; linarith
  have hm2 : y.mb < 1024 * 2 ^ 52 := by
    by_contra hc
    have := val_ge_of_mb (F := f64) (x := y) (E := 1024) (by norm_num) (by rw [f64_sb]; omega)
    rw [f64_bias, abs_of_pos (by linarith)] at this
    norm_num at this; linarith
  have hm3 : y.val < 1 → y.mb < 1023 * 2 ^ 52 := by
    intro hlt
    by_contra hc
    have := val_ge_of_mb (F := f64) (x := y) (E := 1023) (by norm_num) (by rw [f64_sb]; omega)
    rw [f64_bias, abs_of_pos (by linarith)] at this
    norm_num at this; linarith
  have key : ∀ q : Flt f64, IsRNE (y.val * 2 ^ n) q → ∃ r, some (1.0 * q) = some r ∧ WithinUlp 1.45 r (Real.exp θ * 2 ^ n) := by
    intro q hq2
    have w := WithinUlp.scaled_of hy hq2 (by rw [f64_bias]; norm_num) (by rw [f64_sb]; norm_num) hE1 hE2 (by norm_num) (by norm_num) hq hk (c := 1.45) (by norm_num) (by norm_num)
    refine ⟨_, rfl, ?_⟩
    rw [WithinUlp.def'] at w ⊢
    obtain ⟨a, b⟩ := one_mul_val w.1
    rw [b]; exact ⟨a, w.2⟩
  have hhi := hi_sign_mb y
  rw [ys] at hhi
  simp only [Bool.false_eq_true, if_false, add_zero] at hhi
  have hnn : n ≤ 1024 := by rcases hn2 with h | ⟨h, -⟩ <;> omega
  have hsh := PowT.shl_toInt n 20 (by omega) (by omega) (by norm_num)
  have hI : (getHighWord y).toInt = (y.mb / 2 ^ 32 : ℕ) := by
    rw [BitVec.toInt_eq_toNat_of_lt (by omega), hhi]
  have hsum : -2 ^ 31 ≤ ((y.mb / 2 ^ 32 : ℕ) : ℤ) + n * 2 ^ 20 ∧ ((y.mb / 2 ^ 32 : ℕ) : ℤ) + n * 2 ^ 20 < 2 ^ 31 := by
    constructor
    · omega
    · rcases hn2 with h | ⟨h, -⟩
      · omega
      · have := hm3 (by
          rcases hk with hk | hk
          · rw [f64_bias] at hk; omega
          · exact hk.2)
        omega
  have hji : (getHighWord y + BitVec.ofInt 32 n <<< 20).toInt = ((y.mb / 2 ^ 32 : ℕ) : ℤ) + n * 2 ^ 20 := by
    rw [BitVec.toInt_add, hI, hsh]
    exact Int.bmod_eq_of_le (by norm_num at hsum ⊢; omega) (by norm_num at hsum ⊢; omega)
  rw [iadd_eq (by rw [hI, hsh]; exact hsum.1) (by rw [hI, hsh]; exact hsum.2), Option.bind_some]
  generalize getHighWord y + BitVec.ofInt 32 n <<< 20 = j at *
  have hsr : (j.sshiftRight 20).toInt = ((y.mb / 2 ^ 52 : ℕ) : ℤ) + n := by
    rw [BitVec.toInt_sshiftRight, hji, Int.shiftRight_eq_div_pow]
    push_cast
    omega
  split
  · rename_i hle
    obtain ⟨q, e1, e2, -⟩ := scalbn_finite (F := f64) (by simp [IsLibFmt]) y yf n (by omega) (by omega)
    change ∃ r, ((Generic.scalbn y n).map fun z => 1.0 * z) = some r ∧ _
    rw [e1, Option.map_some]
    refine key q ?_
    have : ((y.toRat * 2 ^ n : ℚ) : ℝ) = y.val * 2 ^ n := by unfold val; push_cast; rfl
    rw [← this]
    exact isRNE_real e2
  · rename_i hle
    rw [hsr] at hle
    have hE : ((y.mb / 2 ^ 52 : ℕ) : ℤ) + n ≤ 2046 := by
      rcases hn2 with h | ⟨h, -⟩
      · omega
      · have := hm3 (by
          rcases hk with hk | hk
          · rw [f64_bias] at hk; omega
          · exact hk.2)
        omega
    have hjn : (j.toNat : ℤ) = (y.mb / 2 ^ 32 : ℕ) + n * 2 ^ 20 := by
      rw [← hji, BitVec.toInt_eq_toNat_cond]
      have hpos : 0 ≤ j.toInt := by rw [hji]; omega
      rw [BitVec.toInt_eq_toNat_cond] at hpos
      split at hpos
      · rw [if_pos (by assumption)]
      · have := j.isLt; omega
    obtain ⟨xf, xv⟩ := set_high_scale (z := y) ys (by omega) hjn (by omega) hE
    refine key _ ?_
    rw [← xv]
    exact rne_self xf

/-- `mulOut` between the two filters, for the base 10 -/
theorem mulOut_ten {y : Flt f64} (yf : y.isFinite) (h1 : 16 ≤ |y.val|) (h2 : y.val ≤ (2711437152599295 : ℝ) * 2 ^ (-43 : ℤ))
    (h3 : -((5692958865320785 : ℝ) * 2 ^ (-44 : ℤ)) ≤ y.val) :
    ∃ r, mulOut 1.0 y Pow10.t1 Pow10.t2 = some r ∧ WithinUlp 1.45 r (Real.exp (y.val * Real.log 10)) := by
  have k0 := Num.log2_near
  have k1 := Num.log2_gt
  have k2 := Num.log2_lt
  have l0 := Num.log10_near
  have hE1 : 1027 ≤ y.mb / 2 ^ 52 := by
    by_contra hc
    have := val_lt_of_mb (F := f64) (x := y) (E := 1027) (by norm_num) (by rw [f64_sb]; omega)
    rw [f64_bias] at this
    norm_num at this; linarith
  have hyb : |y.val| ≤ 324 := by rw [abs_le]; norm_num at h2 h3 ⊢; constructor <;> linarith
  have hE2 : y.mb / 2 ^ 52 ≤ 1054 := by
    by_contra hc
    have := val_ge_of_mb (F := f64) (x := y) (E := 1055) (by norm_num) (by rw [f64_sb]; omega)
    rw [f64_bias] at this
    norm_num at this; linarith
  obtain ⟨lf, pf, er, -, lb, M, hM⟩ := Pow10.prod yf hE1 hE2
  unfold mulOut
  dsimp only
  generalize (y - withSetLowWord y 0) * Pow10.t1 + y * Pow10.t2 = pl at *
  generalize withSetLowWord y 0 * Pow10.t1 = ph at *
  have hR := add_rne lf pf
  have er' : |pl.val + ph.val - y.val * (Pow10.t1.val + Pow10.t2.val)| ≤ 324 * (1 / 2 ^ 66) := er.trans (mul_le_mul_of_nonneg_right hyb (by norm_num))
  rw [Pow10.v1, Pow10.v2] at er'
  have er2 := abs_le.1 er'
  have plb : |pl.val| ≤ 1 / 2 ^ 9 := lb.trans ((mul_le_mul_of_nonneg_right hyb (by norm_num)).trans (by norm_num))
  have q1 : pl.val + ph.val ≤ 1024 - 1 / 2 ^ 43 := by
    norm_num at er2 h2 ⊢; linarith [er2.2]
  have q2 : -(1075 - 1 / 2 ^ 42) ≤ pl.val + ph.val := by
    norm_num at er2 h3 ⊢; linarith [er2.1]
  have qb : |pl.val + ph.val| ≤ 1075 := by rw [abs_le]; norm_num at q1 q2 ⊢; constructor <;> linarith
  obtain ⟨zf, ze⟩ := add_err64 lf pf 11 (by norm_num at qb ⊢; linarith) (by norm_num)
  have q3 : 50 ≤ |pl.val + ph.val| := by
    have h5 : |y.val * (((1741647 : ℤ) : ℝ) * 2 ^ (-19 : ℤ) + ((2667017679128835 : ℤ) : ℝ) * 2 ^ (-75 : ℤ))| = |y.val| * (((1741647 : ℤ) : ℝ) * 2 ^ (-19 : ℤ) + ((2667017679128835 : ℤ) : ℝ) * 2 ^ (-75 : ℤ)) := by
      rw [abs_mul]; congr 1
      exact abs_of_pos (by positivity)
    have h6 := abs_sub_abs_le_abs_sub (y.val * (((1741647 : ℤ) : ℝ) * 2 ^ (-19 : ℤ) + ((2667017679128835 : ℤ) : ℝ) * 2 ^ (-75 : ℤ))) (pl.val + ph.val)
    rw [abs_sub_comm, h5] at h6
    norm_num at *; linarith
  have vc1 : (bits64 0x408fffffffffffff).val = (2 ^ 53 - 1 : ℤ) * 2 ^ (-43 : ℤ) := val_const64 _ 1031 _ (by decide +kernel) (by norm_num)
  have vc2 : (bits64 0xc090cbffffffffff).val = (-(1075 * 2 ^ 42 - 1) : ℤ) * 2 ^ (-42 : ℤ) := val_const64 _ 1032 _ (by decide +kernel) (by norm_num)
  have z1 := hR.le_of_le zf (s := bits64 0x408fffffffffffff) (by decide +kernel) (by
    rw [vc1]; norm_num at q1 ⊢; linarith)
  have z2 := hR.ge_of_ge zf (s := bits64 0xc090cbffffffffff) (by decide +kernel) (by
    rw [vc2]; norm_num at q2 ⊢; linarith)
  rw [vc1] at z1
  rw [vc2] at z2
  generalize pl + ph = z at *
  have hm1 : z.sign = false → z.mb < 0x4090000000000000 := by
    intro hs
    by_contra hc
    have := val_mono (x := z) (y := bits64 0x4090000000000000) (by
      rw [show (bits64 0x4090000000000000).mb = 0x4090000000000000 by decide +kernel]; omega)
    rw [abs_of_nonneg (val_nonneg hs), val_const64 (x := bits64 0x4090000000000000) 1 1084 10 (by decide +kernel) (by norm_num)] at this
    norm_num at this z1; linarith
  have hm2 : z.mb < 0x4090cc0000000000 := by
    by_contra hc
    have := val_mono (x := z) (y := bits64 0xc090cc0000000000) (by
      rw [show (bits64 0xc090cc0000000000).mb = 0x4090cc0000000000 by decide +kernel]; omega)
    rw [val_const64 (x := bits64 0xc090cc0000000000) (-1075) 1074 0 (by decide +kernel) (by norm_num)] at this
    have hz : |z.val| < 1075 := by rw [abs_lt]; norm_num at z1 z2 ⊢; constructor <;> linarith
    norm_num at this; linarith
  have hm3 : 0x3fe00000 < z.mb / 2 ^ 32 := by
    by_contra hc
    have := val_lt_of_mb (F := f64) (x := z) (E := 1024) (by norm_num) (by rw [f64_sb]; omega)
    rw [f64_bias] at this
    have h6 := abs_sub_abs_le_abs_sub (pl.val + ph.val) z.val
    rw [abs_sub_comm] at h6
    norm_num at *; linarith
  have hj := hi_sign_mb z
  have hI := hi_toInt z
  have hA := and_mag hj (by omega)
  rw [if_neg (by
    rw [hI]
    cases hs : z.sign
    · have := hm1 hs
      simp only [Bool.false_eq_true, if_false]; omega
    · simp only [if_true]; omega), if_neg (by
    rw [ge_iff_le, BitVec.le_def, hA, show (0x4090cc00#32).toNat = 0x4090cc00 from rfl]; omega)]
  obtain ⟨t, N, e, tf, ts, tv, hzt, hNb, hNp⟩ := exp2Split_eq (s := 1.0) (ph := ph) (pl := pl) hm3 (by omega)
  rw [e]
  clear e
  obtain ⟨n, en⟩ : ∃ n : ℤ, n = if z.sign then -(N : ℤ) else N := ⟨_, rfl⟩
  rw [← en]
  have hn1 : -1100 ≤ n := by rw [en]; split <;> omega
  have hn2 : n ≤ 1024 := by
    rw [en]
    cases hs : z.sign
    · have := hm1 hs
      have := hNp (by omega)
      simp only [Bool.false_eq_true, if_false]; omega
    · simp only [if_true]; omega
  have tn : t.val = n := by
    rw [en]
    cases hs : z.sign
    · rw [abs_of_nonneg (val_nonneg (ts.trans hs))] at tv
      rw [tv]; simp
    · rw [abs_of_nonpos (val_nonpos (ts.trans hs))] at tv
      simp only [if_true]; push_cast; linarith
  have hd : |pl.val + (ph.val - t.val)| ≤ 0.5001 := by
    have e : pl.val + (ph.val - t.val) = (z.val - t.val) + -(z.val - (pl.val + ph.val)) := by ring
    rw [e]
    refine (abs_add_le _ _).trans ?_
    rw [abs_neg]
    norm_num at *; linarith
  have hd2 : |ph.val - t.val| ≤ 1 := by
    have e : ph.val - t.val = (pl.val + (ph.val - t.val)) + -pl.val := by ring
    rw [e]
    refine (abs_add_le _ _).trans ?_
    rw [abs_neg]
    norm_num at *; linarith
  have ed : ph.val - t.val = ((M - n * 2 ^ 35 : ℤ) : ℝ) * 2 ^ (-35 : ℤ) := by
    rw [hM, tn]; push_cast; norm_num; ring
  obtain ⟨c, cf, cv⟩ := exists_val64' (n := M - n * 2 ^ 35) (k := -35) (by
    rw [ed, abs_mul, abs_of_pos (zp _)] at hd2
    have : |((M - n * 2 ^ 35 : ℤ) : ℝ)| ≤ 2 ^ 53 := by norm_num at hd2 ⊢; linarith
    exact_mod_cast this) (by norm_num) (by norm_num)
  obtain ⟨df, dv⟩ := (sub_rne pf tf).exact_real cf (by rw [cv, ed])
  generalize ph - t = d at *
  rw [← dv] at hd
  have eθ : Real.exp (y.val * Real.log 10) = Real.exp (y.val * Real.log 10 - n * Real.log 2) * 2 ^ n := by
    have : (2 : ℝ) ^ n = Real.exp (n * Real.log 2) := by
      rw [← Real.rpow_intCast, Real.rpow_def_of_pos (by norm_num), mul_comm]
    rw [this, ← Real.exp_add]; ring_nf
  rw [eθ]
  refine tail_acc df lf plb hd ?_ hn1 ?_
  · have e : y.val * Real.log 10 - n * Real.log 2 - (pl.val + d.val) * Real.log 2 =
        y.val * (Real.log 10 - (((1741647 : ℤ) : ℝ) * 2 ^ (-19 : ℤ) + ((2667017679128835 : ℤ) : ℝ) * 2 ^ (-75 : ℤ)) * Real.log 2) +
        -((pl.val + ph.val - y.val * (((1741647 : ℤ) : ℝ) * 2 ^ (-19 : ℤ) + ((2667017679128835 : ℤ) : ℝ) * 2 ^ (-75 : ℤ))) * Real.log 2) := by
      rw [dv, tn]; ring
    rw [e]
    refine (abs_add_le _ _).trans ?_
    rw [abs_neg, abs_mul, abs_mul, abs_of_pos (show 0 < Real.log 2 by norm_num at k1; linarith)]
    have c1 : |Real.log 10 - (((1741647 : ℤ) : ℝ) * 2 ^ (-19 : ℤ) + ((2667017679128835 : ℤ) : ℝ) * 2 ^ (-75 : ℤ)) * Real.log 2| ≤ 1 / 2 ^ 66 := by
      rw [abs_le] at k0 l0 ⊢
      norm_num at k0 l0 ⊢
      constructor <;> linarith [k0.1, k0.2, l0.1, l0.2]
    have m1 := mul_le_mul hyb c1 (abs_nonneg _) (by norm_num)
    have m2 := mul_le_mul er' k2.le (by norm_num at k1; linarith) (by norm_num)
    generalize |Real.log 10 - (((1741647 : ℤ) : ℝ) * 2 ^ (-19 : ℤ) + ((2667017679128835 : ℤ) : ℝ) * 2 ^ (-75 : ℤ)) * Real.log 2| = A at *
    generalize |pl.val + ph.val - y.val * (((1741647 : ℤ) : ℝ) * 2 ^ (-19 : ℤ) + ((2667017679128835 : ℤ) : ℝ) * 2 ^ (-75 : ℤ))| = B at *
    norm_num at m1 m2 ⊢; linarith
  · rcases lt_or_eq_of_le hn2 with h | h
    · left; omega
    · right
      refine ⟨h, ?_⟩
      have h9 := Num.exp_lt_thr (n := 1024) (k := 46) (t := y.val * Real.log 10) (by norm_num) (by
        have := mul_le_mul_of_nonneg_right h2 (show 0 ≤ Real.log 10 by have := abs_le.1 l0; norm_num at this; linarith [this.1])
        have l1 := abs_le.1 l0
        norm_num at this l1 k1 ⊢; linarith [l1.2])
      rw [eθ, h, mul_comm] at h9
      have := lt_of_mul_lt_mul_left h9 (zp 1024).le
      rw [h]
      norm_num at this ⊢; linarith

end PowE
end Verif
