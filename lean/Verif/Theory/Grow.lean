import Verif.Model.Bessel
import Verif.Theory.Err
import Verif.Theory.Exact
import Mathlib.Data.Int.Log

/-! # The loop of jn and jnf that looks for the start of the continued fraction ends

The real recurrence `q (k+1) = z k * q k - q (k-1)` with `z k ≥ 2` grows by at least one in each step.  In floating point a
step loses something only when its result lies in a higher binade than the older of its two operands, so that the total loss is
bounded by a number of units that does not depend on the number of steps. -/

namespace Verif
open Flt

namespace Grow
variable {F : Fmt}

theorem le_inf {s : Flt F} (hs : s.isFinite) : s.val ≤ (inf F false).val := by
  have h := val_mono (x := inf F false) (y := s) (by rw [mb_inf]; exact ((isFinite_iff s).1 hs).le)
  rw [abs_of_nonneg (val_nonneg (x := inf F false) (by simp))] at h
  exact (le_abs_self _).trans h

theorem inf_pos : 0 < (inf F false).val := by
  have := le_inf (F := F) (s := one F) isFinite_one
  rw [val_one] at this
  linarith

/-- an infinity with a nonnegative value is `+inf` -/
theorem eq_pinf {x : Flt F} (h : x.isInf) (h0 : 0 ≤ x.val) : x = inf F false := by
  rw [eq_inf h]
  congr 1
  by_contra hs
  have e : x = inf F true := by
    rw [eq_inf h]
    congr 1
    simpa using hs
  have : x.val = -(inf F false).val := by
    rw [e, ← val_neg]
    congr 1
    exact ext_mb (by simp) (by simp)
  have := inf_pos (F := F)
  linarith

theorem up {q : ℝ} {r s : Flt F} (h : IsRNE q r) (hs : s.isFinite) (h0 : 0 ≤ s.val) (hq : s.val ≤ q) : ¬ r.isNaN ∧ s.val ≤ r.val := by
  by_cases hr : r.isFinite
  · exact ⟨not_nan_of_finite hr, h.ge_of_ge hr hs hq⟩
  · unfold IsRNE at h
    split_ifs at h with hc
    · obtain ⟨h1, h2⟩ := h
      refine ⟨not_nan_of_inf h1, ?_⟩
      have : r = inf F false := by
        rw [eq_inf h1]
        congr 1
        rw [← Bool.not_eq_true, h2]
        linarith
      rw [this]
      exact le_inf hs
    · exact absurd h.1 hr

theorem two_mul {q : Flt F} (hb : 2 ≤ F.bias) (hq : q.isFinite) (h1 : 1 ≤ q.val) (h2 : q.val < 2 ^ (F.bias : ℤ)) : ∃ s : Flt F, s.isFinite ∧ s.val = 2 * q.val := by
  obtain ⟨c, hc, hv⟩ := scale_exact (x := q) 1 (by
    rw [abs_of_pos (by positivity)]
    have : (2 : ℝ) ^ (1 - (F.bias : ℤ)) ≤ 1 := zpow_le_one_of_nonpos₀ (by norm_num) (by omega)
    norm_num
    linarith) (by
    rw [abs_of_pos (by positivity), zpow_add₀ (by norm_num)]
    norm_num
    norm_num at h2
    exact h2)
  exact ⟨c, hc, by rw [hv]; norm_num; ring⟩

theorem mul_up {z q : Flt F} (hb : 2 ≤ F.bias) (hz : ¬ z.isNaN) (hz2 : 2 ≤ z.val) (hq : q.isFinite) (h1 : 1 ≤ q.val) (h2 : q.val < 2 ^ (F.bias : ℤ)) :
    (¬ (z * q).isNaN ∧ 2 * q.val ≤ (z * q).val) ∧ (¬ (q * z).isNaN ∧ 2 * q.val ≤ (q * z).val) := by
  obtain ⟨s, hs, hv⟩ := two_mul hb hq h1 h2
  by_cases hf : z.isFinite
  · have a := up (mul_rne hf hq) hs (by rw [hv]; linarith) (by rw [hv]; nlinarith)
    have b := up (mul_rne hq hf) hs (by rw [hv]; linarith) (by rw [hv]; nlinarith)
    rw [hv] at a b
    exact ⟨a, b⟩
  · have hi : z.isInf := by
      by_contra hc
      exact hf (finite_of_not hz hc)
    have hqz : ¬ q.isZero := fun h => by rw [isZero_val.1 h] at h1; linarith
    have hqs : q.sign = false := by
      by_contra hc
      have := val_nonpos (Bool.not_eq_false _ ▸ hc : q.sign = true)
      linarith
    have zi := eq_pinf hi (by linarith)
    have e1 : z * q = inf F false := by
      rw [inf_mul hi (not_nan_of_finite hq) hqz, hqs, zi]
      simp
    have e2 : q * z = inf F false := by rw [mul_comm', e1]
    rw [e1, e2, ← hv]
    have := le_inf hs
    have hn : ¬ (inf F false).isNaN := not_nan_of_inf (isInf_inf _)
    exact ⟨⟨hn, this⟩, hn, this⟩

/-- one step of the recurrence -/
theorem step {p q0 q1 C : Flt F} {K : ℤ} (hK : 1 ≤ K) (hKb : K ≤ F.bias) (hb : 2 ≤ F.bias) (hp : ¬ p.isNaN) (hp2 : 2 * q1.val ≤ p.val)
    (f0 : q0.isFinite) (f1 : q1.isFinite) (h0 : 1 ≤ q0.val) (h01 : q0.val ≤ q1.val) (hq1 : q1.val < 2 ^ K)
    (hC : C.isFinite) (hCK : C.val ≤ 2 ^ K) (hn : ¬ (p - q0).isNaN) (hlt : (p - q0).val < C.val)
    (hd : 1 - ((Int.log 2 q0.val + Int.log 2 q1.val : ℤ) : ℝ) * 2 ^ (K - 2 - F.sb) ≤ q1.val - q0.val) :
    (p - q0).isFinite ∧ q1.val ≤ (p - q0).val ∧
    1 - ((Int.log 2 q1.val + Int.log 2 (p - q0).val : ℤ) : ℝ) * 2 ^ (K - 2 - F.sb) ≤ (p - q0).val - q1.val := by
  have hηp := zp (K - 2 - F.sb)
  have hpf : p.isFinite := by
    by_contra hc
    have hi : p.isInf := by
      by_contra hc2
      exact hc (finite_of_not hp hc2)
    have e := eq_pinf hi (by linarith)
    have e2 : p - q0 = inf F false := by
      rw [sub_eq_add_neg', inf_add hi (by simpa using not_nan_of_finite f0) (fun h => absurd (by simpa using h : q0.isInf) (not_inf_of_finite f0)), e]
    rw [e2] at hlt
    have := le_inf hC
    linarith
  have hr := sub_rne hpf f0
  have hbig : q1.val ≤ p.val - q0.val := by linarith
  have u1 := up hr f1 (by linarith) hbig
  have hrf : (p - q0).isFinite := by
    by_contra hc
    have hi : (p - q0).isInf := by
      by_contra hc2
      exact hc (finite_of_not hn hc2)
    have e := eq_pinf hi (by linarith)
    rw [e] at hlt
    have := le_inf hC
    linarith
  set r := p - q0
  refine ⟨hrf, u1.2, ?_⟩
  have l01 : Int.log 2 q0.val ≤ Int.log 2 q1.val := Int.log_mono_right (by linarith) h01
  have l1r : Int.log 2 q1.val ≤ Int.log 2 r.val := Int.log_mono_right (by linarith) u1.2
  set e0 := Int.log 2 q0.val with he0
  have b0 : (2 : ℝ) ^ e0 ≤ q0.val := by
    have := Int.zpow_log_le_self (b := 2) (r := q0.val) (by norm_num) (by linarith)
    exact_mod_cast this
  have e00 : 0 ≤ e0 := by
    have := Int.log_mono_right (b := 2) (r₁ := (1 : ℝ)) (r₂ := q0.val) (by norm_num) h0
    rwa [Int.log_one_right] at this
  have e0K : e0 < K := by
    have h1 : (2 : ℝ) ^ e0 < 2 ^ K := by linarith
    exact (zpow_lt_zpow_iff_right₀ (by norm_num)).1 h1
  rcases lt_or_ge (2 * q1.val - q0.val) (2 ^ (e0 + 1)) with hs | hs
  · -- the step is exact
    obtain ⟨n0, hn0⟩ := grid q0 e0 (by rw [abs_of_pos (by linarith)]; exact b0)
    obtain ⟨n1, hn1⟩ := grid q1 e0 (by rw [abs_of_pos (by linarith)]; linarith)
    have hv : 2 * q1.val - q0.val = ((2 * n1 - n0 : ℤ) : ℝ) * 2 ^ (e0 - F.sb) := by
      rw [hn0, hn1]; push_cast; ring
    have hpos : 0 ≤ 2 * q1.val - q0.val := by linarith
    obtain ⟨c, hc, hcv⟩ := exists_val (F := F) (n := 2 * n1 - n0) (k := e0 - F.sb) (by
      have h1 : |((2 * n1 - n0 : ℤ) : ℝ)| * 2 ^ (e0 - F.sb) ≤ 2 ^ (F.sb + 1) * 2 ^ (e0 - F.sb) := by
        rw [← abs_of_pos (zp (e0 - F.sb)), ← abs_mul, ← hv, abs_of_nonneg hpos, abs_of_pos (zp (e0 - F.sb)), ← zpow_natCast, ← zpow_add₀ (by norm_num),
          show ((F.sb + 1 : ℕ) : ℤ) + (e0 - F.sb) = e0 + 1 by push_cast; ring]
        exact hs.le
      have := le_of_mul_le_mul_right h1 (zp _)
      exact_mod_cast this) (by omega) (by
      rw [← abs_of_pos (zp (e0 - F.sb)), ← abs_mul, ← hv, abs_of_nonneg hpos]
      refine hs.trans_le (zpow_le_zpow_right₀ (by norm_num) (by omega)))
    have u2 := hr.ge_of_ge hrf hc (by rw [hcv, ← hv]; linarith)
    rw [hcv, ← hv] at u2
    have : ((e0 + Int.log 2 q1.val : ℤ) : ℝ) * 2 ^ (K - 2 - F.sb) ≤ ((Int.log 2 q1.val + Int.log 2 r.val : ℤ) : ℝ) * 2 ^ (K - 2 - F.sb) := by
      apply mul_le_mul_of_nonneg_right _ hηp.le
      exact_mod_cast (by omega)
    linarith
  · -- the result is in a higher binade
    obtain ⟨c, hc, hcv⟩ := exists_val (F := F) (n := 1) (k := e0 + 1) (by
      rw [abs_one]; exact_mod_cast Nat.one_le_two_pow) (by omega) (by
      rw [Int.cast_one, abs_one, one_mul]
      exact zpow_lt_zpow_right₀ (by norm_num) (by omega))
    rw [Int.cast_one, one_mul] at hcv
    have u2 := hr.ge_of_ge hrf hc (by rw [hcv]; linarith)
    rw [hcv] at u2
    have l2 : e0 + 1 ≤ Int.log 2 r.val := by
      have := Int.zpow_le_iff_le_log (b := 2) (r := r.val) (x := e0 + 1) (by norm_num) (by linarith)
      apply this.1
      exact_mod_cast u2
    have hqK : p.val - q0.val ≤ 2 ^ K := by
      by_contra hc
      push Not at hc
      obtain ⟨d, hd1, hdv⟩ := exists_val (F := F) (n := 1) (k := K) (by
        rw [abs_one]; exact_mod_cast Nat.one_le_two_pow) (by omega) (by
        rw [Int.cast_one, abs_one, one_mul]
        exact zpow_lt_zpow_right₀ (by norm_num) (by omega))
      rw [Int.cast_one, one_mul] at hdv
      have := hr.ge_of_ge hrf hd1 (by rw [hdv]; exact hc.le)
      rw [hdv] at this
      linarith
    have herr := (hr.err K (by rw [abs_of_nonneg (by linarith)]; exact hqK) (by omega) hKb).2
    have := (abs_le.1 herr).1
    have h3 : ((e0 + Int.log 2 q1.val + 1 : ℤ) : ℝ) * 2 ^ (K - 2 - F.sb) ≤ ((Int.log 2 q1.val + Int.log 2 r.val : ℤ) : ℝ) * 2 ^ (K - 2 - F.sb) := by
      apply mul_le_mul_of_nonneg_right _ hηp.le
      exact_mod_cast (by omega)
    rw [Int.cast_add (e0 + Int.log 2 q1.val) 1, Int.cast_one, add_mul, one_mul] at h3
    linarith

/-- each step gains at least one half -/
theorem gain {q0 q1 : Flt F} {K : ℤ} (h0 : 1 ≤ q0.val) (h01 : q0.val ≤ q1.val) (hq1 : q1.val < 2 ^ K) (hη : (2 * K : ℝ) * 2 ^ (K - 2 - F.sb) ≤ 1 / 2)
    (hd : 1 - ((Int.log 2 q0.val + Int.log 2 q1.val : ℤ) : ℝ) * 2 ^ (K - 2 - F.sb) ≤ q1.val - q0.val) : 1 / 2 ≤ q1.val - q0.val := by
  have key : ∀ q : ℝ, 1 ≤ q → q < 2 ^ K → Int.log 2 q ≤ K := by
    intro q h1 h2
    have h3 := Int.zpow_log_le_self (b := 2) (r := q) (by norm_num) (by linarith)
    have h4 : (2 : ℝ) ^ (Int.log 2 q) < 2 ^ K := lt_of_le_of_lt (by exact_mod_cast h3) h2
    exact ((zpow_lt_zpow_iff_right₀ (by norm_num)).1 h4).le
  have a := key q0.val h0 (by linarith)
  have b := key q1.val (by linarith) hq1
  have c : ((Int.log 2 q0.val + Int.log 2 q1.val : ℤ) : ℝ) ≤ 2 * K := by exact_mod_cast (by omega)
  have := mul_le_mul_of_nonneg_right c (zp (K - 2 - F.sb)).le
  linarith

/-- the loop, for either format -/
def grow (C h : Flt F) : Nat → Int → Flt F → Flt F → Flt F → Option Int
  | fuel, k, z, q0, q1 =>
    if q1 <ᶠ C then
      match fuel with
      | 0 => none
      | fuel + 1 => grow C h fuel (k + 1) (z + h) q1 ((z + h) * q1 - q0)
    else some k

theorem grow_not {C h z q0 q1 : Flt F} {fuel : ℕ} {k : ℤ} (hc : ¬ (q1 <ᶠ C) = true) : grow C h fuel k z q0 q1 = some k := by
  unfold grow
  rw [if_neg hc]

theorem add_ge {z h : Flt F} (hh : h.isFinite) (h0 : 0 ≤ h.val) (hz : ¬ z.isNaN) (hz2 : 2 ≤ z.val) : ¬ (z + h).isNaN ∧ 2 ≤ (z + h).val := by
  by_cases hf : z.isFinite
  · have := up (add_rne hf hh) hf (by linarith) (by linarith)
    exact ⟨this.1, by linarith [this.2]⟩
  · have hi : z.isInf := by
      by_contra hc
      exact hf (finite_of_not hz hc)
    rw [inf_add hi (not_nan_of_finite hh) (fun h => absurd h (not_inf_of_finite hh))]
    exact ⟨hz, hz2⟩

theorem grow_some {C h : Flt F} {K : ℤ} (hK : 1 ≤ K) (hKb : K ≤ F.bias) (hb : 2 ≤ F.bias) (hη : (2 * K : ℝ) * 2 ^ (K - 2 - F.sb) ≤ 1 / 2) (hC : C.isFinite) (hCK : C.val ≤ 2 ^ K)
    (hh : h.isFinite) (hh0 : 0 ≤ h.val) :
    ∀ (fuel : ℕ) (k : ℤ) (z q0 q1 : Flt F), ¬ z.isNaN → 2 ≤ z.val → q0.isFinite → q1.isFinite → 1 ≤ q0.val → q0.val ≤ q1.val →
      1 - ((Int.log 2 q0.val + Int.log 2 q1.val : ℤ) : ℝ) * 2 ^ (K - 2 - F.sb) ≤ q1.val - q0.val → 2 * (C.val - q1.val) ≤ fuel →
      ∃ m, grow C h fuel k z q0 q1 = some m := by
  intro fuel
  induction fuel with
  | zero =>
    intro k z q0 q1 hz hz2 f0 f1 h0 h01 hd hfuel
    refine ⟨k, grow_not ?_⟩
    rw [lt_iff, ← val_lt_iff]
    push_cast at hfuel
    rintro ⟨_, _, h⟩
    linarith
  | succ n ih =>
    intro k z q0 q1 hz hz2 f0 f1 h0 h01 hd hfuel
    by_cases hc : (q1 <ᶠ C) = true
    · have hlt := (lt_iff.1 hc).2.2
      rw [← val_lt_iff] at hlt
      unfold grow
      rw [if_pos hc]
      obtain ⟨g1, g2⟩ := add_ge hh hh0 hz hz2
      by_cases hc2 : ((z + h) * q1 - q0 <ᶠ C) = true
      · obtain ⟨n1, -, hlt2⟩ := lt_iff.1 hc2
        rw [← val_lt_iff] at hlt2
        have hqK : q1.val < 2 ^ K := by linarith
        have hqb : q1.val < 2 ^ (F.bias : ℤ) := hqK.trans_le (zpow_le_zpow_right₀ (by norm_num) hKb)
        obtain ⟨⟨p1, p2⟩, -⟩ := mul_up hb g1 g2 f1 (by linarith) hqb
        obtain ⟨s1, s2, s3⟩ := step hK hKb hb p1 p2 f0 f1 h0 h01 hqK hC hCK n1 hlt2 hd
        have gn := gain (by linarith) s2 (by linarith) hη s3
        exact ih (k + 1) (z + h) q1 _ g1 g2 f1 s1 (by linarith) s2 s3 (by push_cast at hfuel; linarith)
      · exact ⟨_, grow_not hc2⟩
    · exact ⟨k, grow_not hc⟩

/-- from the start of the loop -/
theorem start {C h w one' : Flt F} {K : ℤ} (hK : 1 ≤ K) (hKb : K ≤ F.bias) (hKb1 : K + 1 ≤ F.bias) (hb : 2 ≤ F.bias) (hη : (2 * K : ℝ) * 2 ^ (K - 2 - F.sb) ≤ 1 / 2) (hC : C.isFinite) (hCK : C.val ≤ 2 ^ K)
    (hh : h.isFinite) (hh0 : 0 ≤ h.val) (hw : w.isFinite) (hw2 : 2 ≤ w.val) (ho : one'.isFinite) (hov : one'.val = 1) (fuel : ℕ) (hfuel : 2 * C.val ≤ fuel) (k : ℤ) :
    ∃ m, grow C h fuel k (w + h) w (w * (w + h) - one') = some m := by
  by_cases hc : (w * (w + h) - one' <ᶠ C) = true
  · obtain ⟨n1, -, hlt2⟩ := lt_iff.1 hc
    rw [← val_lt_iff] at hlt2
    obtain ⟨g1, g2⟩ := add_ge hh hh0 (not_nan_of_finite hw) hw2
    by_cases hwK : w.val < 2 ^ K
    · have hqb : w.val < 2 ^ (F.bias : ℤ) := hwK.trans_le (zpow_le_zpow_right₀ (by norm_num) hKb)
      obtain ⟨-, p1, p2⟩ := mul_up hb g1 g2 hw (by linarith) hqb
      have hlog : 0 ≤ Int.log 2 w.val := by
        have := Int.log_mono_right (b := 2) (r₁ := (1 : ℝ)) (r₂ := w.val) (by norm_num) (by linarith)
        rwa [Int.log_one_right] at this
      have hlog' : (0 : ℝ) ≤ ((Int.log 2 (one'.val) + Int.log 2 w.val : ℤ) : ℝ) := by
        rw [hov, Int.log_one_right]
        exact_mod_cast (by omega)
      obtain ⟨s1, s2, s3⟩ := step hK hKb hb p1 p2 ho hw (by linarith) (by linarith) hwK hC hCK n1 hlt2 (by
        have := mul_nonneg hlog' (zp (K - 2 - F.sb)).le
        linarith)
      exact grow_some hK hKb hb hη hC hCK hh hh0 fuel k _ w _ g1 g2 hw s1 (by linarith) s2 s3 (by linarith)
    · -- the first value is already above the limit
      exfalso
      have pw : ∀ j : ℤ, 0 ≤ j → j ≤ F.bias → ∃ s : Flt F, s.isFinite ∧ s.val = 2 ^ j := by
        intro j h0 h1
        obtain ⟨s, hs, hsv⟩ := exists_val (F := F) (n := 1) (k := j) (by
          rw [abs_one]; exact_mod_cast Nat.one_le_two_pow) (by omega) (by
          rw [Int.cast_one, abs_one, one_mul]
          exact zpow_lt_zpow_right₀ (by norm_num) (by omega))
        exact ⟨s, hs, by rw [hsv]; simp⟩
      obtain ⟨s, hs, hsv⟩ := pw K (by omega) hKb
      obtain ⟨t, ht, htv⟩ := pw (K + 1) (by omega) hKb1
      push Not at hwK
      have hK2 : (2 : ℝ) ^ (K + 1) = 2 * 2 ^ K := by rw [zpow_add₀ (by norm_num)]; norm_num; ring
      have hK1 : (1 : ℝ) ≤ 2 ^ K := one_le_zpow₀ (by norm_num) (by omega)
      have p : ¬ (w * (w + h)).isNaN ∧ (2 : ℝ) ^ (K + 1) ≤ (w * (w + h)).val := by
        by_cases hf : (w + h).isFinite
        · have := up (mul_rne hw hf) ht (by rw [htv]; positivity) (by rw [htv, hK2]; nlinarith)
          rwa [htv] at this
        · have hi : (w + h).isInf := by
            by_contra hc
            exact hf (finite_of_not g1 hc)
          have hqz : ¬ w.isZero := fun h => by rw [isZero_val.1 h] at hw2; linarith
          have hqs : w.sign = false := by
            by_contra hc
            have := val_nonpos (Bool.not_eq_false _ ▸ hc : w.sign = true)
            linarith
          have e1 : w * (w + h) = inf F false := by
            rw [mul_comm', inf_mul hi (not_nan_of_finite hw) hqz, hqs, eq_pinf hi (by linarith)]
            simp
          rw [e1, ← htv]
          exact ⟨not_nan_of_inf (isInf_inf _), le_inf ht⟩
      by_cases hf : (w * (w + h)).isFinite
      · have := up (sub_rne hf ho) hs (by rw [hsv]; positivity) (by rw [hsv, hov]; linarith [p.2])
        linarith [this.2]
      · have hi : (w * (w + h)).isInf := by
          by_contra hc
          exact hf (finite_of_not p.1 hc)
        have e := eq_pinf hi (by linarith [p.2])
        have e2 : w * (w + h) - one' = inf F false := by
          rw [sub_eq_add_neg', inf_add hi (by simpa using not_nan_of_finite ho) (fun h => absurd (by simpa using h : one'.isInf) (not_inf_of_finite ho)), e]
        rw [e2] at hlt2
        have := le_inf hC
        linarith
  · exact ⟨k, grow_not hc⟩

theorem total {C x one' two : Flt F} {K : ℤ} (hb : 100 ≤ F.bias) (hK : 1 ≤ K) (hK40 : K ≤ 40) (hη : (2 * K : ℝ) * 2 ^ (K - 2 - F.sb) ≤ 1 / 2) (hC : C.isFinite) (hCK : C.val ≤ 2 ^ K)
    (c2 : two.isFinite) (c2v : two.val = 2) (c1 : one'.isFinite) (c1v : one'.val = 1) {nm1 : ℕ} (hn : nm1 < 2 ^ 31) (h1 : 1 ≤ nm1) (hx : x.isFinite)
    (h0 : (2 : ℝ) ^ (-40 : ℤ) ≤ x.val) (hle : ¬ (ofInt F nm1 <ᶠ x) = true) (fuel : ℕ) (hfuel : 2 * C.val ≤ fuel) (k : ℤ) :
    ∃ m, grow C (two / x) fuel k (two * (ofInt F nm1 + one') / x + two / x) (two * (ofInt F nm1 + one') / x)
      (two * (ofInt F nm1 + one') / x * (two * (ofInt F nm1 + one') / x + two / x) - one') = some m := by
  have p40 := zp (-40)
  have hx0 : 0 < x.val := by linarith
  have hxz : ¬ x.isZero := fun h => by rw [isZero_val.1 h] at hx0; exact lt_irrefl _ hx0
  have pw : ∀ j : ℤ, 0 ≤ j → j ≤ 99 → ∃ s : Flt F, s.isFinite ∧ s.val = 2 ^ j := by
    intro j h0 h1
    obtain ⟨s, hs, hsv⟩ := exists_val (F := F) (n := 1) (k := j) (by
      rw [abs_one]; exact_mod_cast Nat.one_le_two_pow) (by omega) (by
      rw [Int.cast_one, abs_one, one_mul]
      exact zpow_lt_zpow_right₀ (by norm_num) (by omega))
    exact ⟨s, hs, by rw [hsv]; simp⟩
  have hN : (ofInt F nm1).isFinite ∧ 1 ≤ (ofInt F nm1).val ∧ (ofInt F nm1).val ≤ 2 ^ (31 : ℤ) := by
    have h := ofInt_rne (F := F) (nm1 : ℤ)
    have hnr : ((nm1 : ℤ) : ℝ) ≤ 2 ^ (31 : ℤ) := by exact_mod_cast hn.le
    have hnr1 : (1 : ℝ) ≤ ((nm1 : ℤ) : ℝ) := by exact_mod_cast h1
    obtain ⟨s, hs, hsv⟩ := pw 31 (by norm_num) (by norm_num)
    have hf := (h.err 31 (by rw [abs_of_nonneg (by linarith)]; exact hnr) (by omega) (by omega)).1
    refine ⟨hf, ?_, ?_⟩
    · have := h.ge_of_ge hf c1 (by rw [c1v]; exact hnr1)
      rwa [c1v] at this
    · have := h.le_of_le hf hs (by rw [hsv]; exact hnr)
      rwa [hsv] at this
  set nI := ofInt F (nm1 : ℤ)
  obtain ⟨hif, hi1, hi2⟩ := hN
  have hle' : x.val ≤ nI.val := by
    by_contra hcon
    push Not at hcon
    exact hle (lt_iff.2 ⟨not_nan_of_finite hif, not_nan_of_finite hx, val_lt_iff.1 hcon⟩)
  have ha := add_rne hif c1
  rw [c1v] at ha
  have hab : |nI.val + 1| ≤ 2 ^ (32 : ℤ) := by
    rw [abs_of_nonneg (by linarith)]
    norm_num at hi2 ⊢
    linarith
  have haf := (ha.err 32 hab (by omega) (by omega)).1
  have hage := ha.ge_of_ge haf hif (by linarith)
  have hale : (nI + one').val ≤ 2 ^ (32 : ℤ) := by
    obtain ⟨s, hs, hsv⟩ := pw 32 (by norm_num) (by norm_num)
    have := ha.le_of_le haf hs (by rw [hsv]; exact (le_abs_self _).trans hab)
    rwa [hsv] at this
  set nf := nI + one'
  have hm := mul_rne c2 haf
  rw [c2v] at hm
  obtain ⟨d, hd, hdv⟩ := two_mul (q := nf) (by omega) haf (by linarith) (hale.trans_lt (zpow_lt_zpow_right₀ (by norm_num) (by omega)))
  obtain ⟨hmf, hmv⟩ := hm.exact_real hd hdv
  have hw := div_rne hmf hx hxz
  rw [hmv] at hw
  have hq1 : (2 : ℝ) ≤ 2 * nf.val / x.val := by
    rw [le_div_iff₀ hx0]; linarith
  have hq2 : 2 * nf.val / x.val ≤ 2 ^ (80 : ℤ) := by
    rw [div_le_iff₀ hx0]
    have : (2 : ℝ) ^ (80 : ℤ) * 2 ^ (-40 : ℤ) ≤ 2 ^ (80 : ℤ) * x.val := mul_le_mul_of_nonneg_left h0 (by positivity)
    rw [← zpow_add₀ (by norm_num)] at this
    norm_num at this hale ⊢
    linarith
  have hwf := (hw.err 80 (by rw [abs_of_nonneg (by linarith)]; exact hq2) (by omega) (by omega)).1
  have hw2 := hw.ge_of_ge hwf c2 (by rw [c2v]; exact hq1)
  rw [c2v] at hw2
  have hh := div_rne c2 hx hxz
  rw [c2v] at hh
  have hh0 : 0 ≤ 2 / x.val := by positivity
  have hh2 : 2 / x.val ≤ 2 ^ (80 : ℤ) := by
    refine le_trans ?_ hq2
    gcongr
    linarith
  have hhf := (hh.err 80 (by rw [abs_of_nonneg (by linarith)]; exact hh2) (by omega) (by omega)).1
  have hhn := hh.ge_of_ge hhf (s := zero F false) (by simp) (by simpa using hh0)
  simp only [val_zero] at hhn
  exact start (K := K) hK (by omega) (by omega) (by omega) hη hC hCK hhf hhn hwf hw2 c1 c1v _ hfuel _

end Grow
end Verif
