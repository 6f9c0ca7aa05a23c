import Verif.Theory.RplAcc
import Verif.Theory.As
import Verif.Theory.TrigConst
import Verif.Theory.Hypotf
import Verif.Props.Trig

/-!
# Reduction of floats to a quadrant
-/

namespace Verif
open Flt Rpl

theorem pi_lo : (3.14159265 : ℝ) < Real.pi := by have := pi_div_two_bits.1; norm_num at this ⊢; linarith
theorem pi_hi : Real.pi < 3.14159266 := by have := pi_div_two_bits.2; norm_num at this ⊢; linarith

theorem two_div_pi_lo : (0.636619 : ℝ) < 2 / Real.pi := by
  rw [lt_div_iff₀ Real.pi_pos]; have := pi_hi; nlinarith
theorem two_div_pi_hi : 2 / Real.pi < 0.63662 := by
  rw [div_lt_iff₀ Real.pi_pos]; have := pi_lo; nlinarith

theorem invPio2_err : |(5734161139222659 : ℝ) * 2 ^ (-53 : ℤ) - 2 / Real.pi| ≤ 2 ^ (-54 : ℤ) := by
  obtain ⟨p1, p2⟩ := pi_div_two_bits
  have hp := Real.pi_pos
  rw [abs_le]
  constructor
  · have : 2 / Real.pi ≤ (5734161139222659 : ℝ) * 2 ^ (-53 : ℤ) + 2 ^ (-54 : ℤ) := by
      rw [div_le_iff₀ hp]
      norm_num at p1 ⊢
      nlinarith
    linarith
  · have : (5734161139222659 : ℝ) * 2 ^ (-53 : ℤ) - 2 ^ (-54 : ℤ) ≤ 2 / Real.pi := by
      rw [le_div_iff₀ hp]
      norm_num at p2 ⊢
      nlinarith
    linarith

/-- rounding `x * 2/π` to an integer by adding and subtracting `1.5 * 2^52` -/
theorem fn_spec {x inv toint : Flt f64} (hx : x.isFinite) (hb : |x.val| ≤ 2 ^ 30) (hif : inv.isFinite) (htf : toint.isFinite)
    (hi : inv.val = (5734161139222659 : ℝ) * 2 ^ (-53 : ℤ)) (ht : toint.val = (3 : ℝ) * 2 ^ (51 : ℤ)) :
    ∃ k : ℤ, Is (x * inv + toint - toint) k 0 ∧ |x.val * (2 / Real.pi) - k| ≤ 1 / 2 + 1 / 2 ^ 20 ∧ |k| ≤ 2 ^ 30 := by
  have hxi : |x.val * inv.val| ≤ 2 ^ (30 : ℤ) := by
    rw [abs_mul, hi, abs_of_pos (a := (5734161139222659 : ℝ) * 2 ^ (-53 : ℤ)) (by positivity)]
    have : (5734161139222659 : ℝ) * 2 ^ (-53 : ℤ) ≤ 1 := by norm_num
    have := abs_nonneg x.val
    norm_num at hb ⊢
    nlinarith
  obtain ⟨qf, qe⟩ := mul_err64 hx hif 30 hxi (by norm_num) (by norm_num)
  have herr : |(x * inv).val - x.val * (2 / Real.pi)| ≤ 1 / 2 ^ 21 := by
    have e1 : (x * inv).val - x.val * (2 / Real.pi) = ((x * inv).val - x.val * inv.val) + x.val * (inv.val - 2 / Real.pi) := by ring
    rw [e1]
    refine (abs_add_le _ _).trans ?_
    have h2 := invPio2_err
    rw [← hi] at h2
    rw [abs_mul]
    have h3 := mul_le_mul hb h2 (abs_nonneg _) (by norm_num)
    norm_num at qe h3 ⊢
    linarith
  have hxp : |x.val * (2 / Real.pi)| ≤ 2 ^ 30 * 0.63662 := by
    rw [abs_mul, abs_of_pos (a := 2 / Real.pi) (by have := Real.pi_pos; positivity)]
    exact mul_le_mul hb two_div_pi_hi.le (by have := Real.pi_pos; positivity) (by norm_num)
  have hq : |(x * inv).val| ≤ 2 ^ 30 * 0.63663 := by
    have := abs_sub_abs_le_abs_sub (x * inv).val (x.val * (2 / Real.pi))
    norm_num at *
    linarith
  have hq' := abs_le.1 hq
  obtain ⟨sf, se⟩ := add_err64 qf htf 53 (by
    rw [ht, abs_le]; norm_num at hq' ⊢; constructor <;> linarith) (by norm_num)
  have se' := abs_le.1 se
  rw [ht] at se'
  obtain ⟨n, hn⟩ := grid64 (x * inv + toint) 52 (by
    rw [le_abs]; left; norm_num at *; linarith)
  have hs : Is (x * inv + toint) n 0 := ⟨sf, by rw [hn]; norm_num⟩
  have htI : Is toint (3 * 2 ^ 51) 0 := ⟨htf, by rw [ht]; norm_num⟩
  have hn2 : (x * inv + toint).val = n := by rw [hn]; norm_num
  have hxp' := abs_le.1 hxp
  have herr' := abs_le.1 herr
  have hk : |((n - 3 * 2 ^ 51 : ℤ) : ℝ)| ≤ 2 ^ 30 := by
    push_cast
    rw [← hn2, abs_le]
    norm_num at *
    constructor <;> linarith
  have hk' : |n - 3 * 2 ^ 51| ≤ 2 ^ 30 := by exact_mod_cast hk
  refine ⟨n - 3 * 2 ^ 51, hs.sub htI (hk'.trans (by norm_num)) (by norm_num) (by norm_num), ?_, hk'⟩
  push_cast
  rw [← hn2, abs_le]
  norm_num at *
  constructor <;> linarith

/-- the double `y` approximates the reduced argument `r` -/
structure Near (y : Flt f64) (r : ℝ) : Prop where
  fin : y.isFinite
  rel : |y.val - r| ≤ 1.05 / 2 ^ 26 * |r|
  abs : |y.val - r| ≤ 1 / 2 ^ 42
  hi : |r| ≤ 0.7855
  lo : 1 / 2 ^ 32 ≤ |r|

/-- `y` is `x` minus a whole number of quadrants, and that number is `n` modulo four -/
def Quad32 (x : ℝ) (n : ℤ) (y : Flt f64) : Prop := ∃ N : ℤ, N % 4 = n % 4 ∧ Near y (x - N * (Real.pi / 2))

theorem Near.neg {y : Flt f64} {r : ℝ} (h : Near y r) : Near (-y) (-r) := by
  have e : (-y).val - -r = -(y.val - r) := by rw [val_neg]; ring
  refine ⟨(Flt.isFinite_neg y).2 h.fin, ?_, ?_, ?_, ?_⟩
  · rw [e, abs_neg, abs_neg]; exact h.rel
  · rw [e, abs_neg]; exact h.abs
  · rw [abs_neg]; exact h.hi
  · rw [abs_neg]; exact h.lo

/-- no float from `1/2` to `2^29` is close to a multiple of `π/2` -/
theorem away_val {x : Flt f32} (h1 : 0x3f000000 ≤ x.mb) (h2 : x.mb < 0x4e000000) (k : ℤ) :
    ∃ i : ℕ, 1 ≤ i ∧ i ≤ 30 ∧ |x.val| < 2 ^ 24 * 2 ^ ((i : ℤ) - 25) ∧ (CF.w24 i : ℝ) / 2 ^ 31 * 1.5707 ≤ |x.val - k * (Real.pi / 2)| := by
  have hv := val_normal32 x (by omega)
  have hE : 126 ≤ x.mb / 2 ^ 23 := by omega
  have hE2 : x.mb / 2 ^ 23 ≤ 155 := by omega
  generalize hM : 2 ^ 23 + x.mb % 2 ^ 23 = M at *
  have hM1 : M < 2 ^ 24 := by omega
  have hM0 : 0 < M := by omega
  have hi : ((x.mb / 2 ^ 23 - 125 : ℕ) : ℤ) - 25 = (x.mb / 2 ^ 23 : ℕ) - 150 := by omega
  have hw : ∀ m : ℤ, (CF.w24 (x.mb / 2 ^ 23 - 125) : ℝ) / 2 ^ 31 * 1.5707 ≤ abs (|x.val| - m * (Real.pi / 2)) := by
    intro m
    have h := CF.away24m (x.mb / 2 ^ 23 - 125) (by omega) M m hM0 hM1
    rw [hi, ← hv] at h
    have e : |x.val| - m * (Real.pi / 2) = (|x.val| * (2 / Real.pi) - m) * (Real.pi / 2) := by
      have := Real.pi_pos.ne'
      field_simp
    rw [e, abs_mul, abs_of_pos (a := Real.pi / 2) (by have := Real.pi_pos; positivity)]
    exact mul_le_mul h (by have := pi_lo; norm_num at this ⊢; linarith) (by norm_num) (abs_nonneg _)
  refine ⟨x.mb / 2 ^ 23 - 125, by omega, by omega, ?_, ?_⟩
  · rw [hi, hv]
    exact mul_lt_mul_of_pos_right (by exact_mod_cast hM1) (zp _)
  · rcases abs_choice x.val with h | h
    · have := hw k
      rwa [h] at this
    · have := hw (-k)
      rw [h] at this
      have e : -x.val - ((-k : ℤ) : ℝ) * (Real.pi / 2) = -(x.val - k * (Real.pi / 2)) := by push_cast; ring
      rwa [e, abs_neg] at this

theorem split_err : |Real.pi / 2 - (26353589 : ℝ) * 2 ^ (-24 : ℤ) - (4803441513357923 : ℝ) * 2 ^ (-78 : ℤ)| ≤ 0.8 * 2 ^ (-80 : ℤ) := by
  obtain ⟨p1, p2⟩ := pi_div_two_bits
  rw [abs_le]
  norm_num at *
  constructor <;> linarith

theorem med_bound {i : ℕ} (h1 : 1 ≤ i) (h2 : i ≤ 30) {X k : ℝ} (hX : X ≤ 2 ^ 24 * 2 ^ ((i : ℤ) - 25)) (hX2 : X ≤ 2 ^ 28 * 1.5708)
    (hk : k ≤ X * 0.63662 + 0.51) : k * (1.5 / 2 ^ 79) ≤ 0.9 / 2 ^ 26 * ((CF.w24 i : ℝ) / 2 ^ 31 * 1.5707) := by
  interval_cases i <;> simp [CF.w24] at * <;> norm_num at * <;> linarith

theorem remPio2fWith_medium (tbl : List ℤ) (x : Flt f32) (h2 : x.mb < 0x4dc90fdb) :
    remPio2fWith tbl x = some ((x.cast f64 * RemPio2f.invPio2 + RemPio2f.toint - RemPio2f.toint).toSInt 32,
      x.cast f64 - (x.cast f64 * RemPio2f.invPio2 + RemPio2f.toint - RemPio2f.toint) * RemPio2f.pio2_1 -
        (x.cast f64 * RemPio2f.invPio2 + RemPio2f.toint - RemPio2f.toint) * RemPio2f.pio2_1t) := by
  unfold remPio2fWith
  dsimp only
  rw [if_pos (by rw [Trig.ix32_lt]; exact h2)]

theorem rem_medium (tbl : List ℤ) (x : Flt f32) (h1 : 0x3f000000 ≤ x.mb) (h2 : x.mb < 0x4dc90fdb) :
    ∃ n y, remPio2fWith tbl x = some (n, y) ∧ Quad32 x.val n y := by
  rw [remPio2fWith_medium tbl x h2]
  have hx : x.isFinite := by rw [isFinite32]; omega
  obtain ⟨wf, wv⟩ := Hypotf.widen hx
  have hlo : (2 : ℝ) ^ (-1 : ℤ) ≤ |x.val| := by
    have := val_ge_of_mb (x := x) (E := 126) (by norm_num) (by rw [f32_sb]; omega)
    rw [f32_bias] at this
    norm_num at this ⊢; exact this
  have hhi : |x.val| ≤ 2 ^ 28 * 1.5708 := by
    have := val_mono (x := bits32 0x4dc90fdb) (y := x) (by rw [show (bits32 0x4dc90fdb).mb = 0x4dc90fdb by decide +kernel]; omega)
    refine this.trans ?_
    rw [val_const32 (x := bits32 0x4dc90fdb) 13176795 (149+5) 5 (by decide +kernel) (by norm_num), abs_of_pos (by norm_num)]
    norm_num
  obtain ⟨k, hk, hkd, hkb⟩ := fn_spec (x := x.cast f64) (inv := RemPio2f.invPio2) (toint := RemPio2f.toint) wf
    (by rw [wv]; norm_num at *; linarith) (by decide +kernel) (by decide +kernel) RemPio2f.invPio2_val RemPio2f.toint_val
  rw [wv] at hkd
  generalize x.cast f64 * RemPio2f.invPio2 + RemPio2f.toint - RemPio2f.toint = fn at *
  have hkx : |(k : ℝ)| ≤ |x.val| * 0.63662 + 0.51 := by
    have e : (k : ℝ) = x.val * (2 / Real.pi) - (x.val * (2 / Real.pi) - k) := by ring
    have h3 : |x.val * (2 / Real.pi)| ≤ |x.val| * 0.63662 := by
      rw [abs_mul, abs_of_pos (a := 2 / Real.pi) (by have := Real.pi_pos; positivity)]
      exact mul_le_mul_of_nonneg_left two_div_pi_hi.le (abs_nonneg _)
    have h4 := abs_sub (x.val * (2 / Real.pi)) (x.val * (2 / Real.pi) - k)
    rw [← e] at h4
    norm_num at *
    linarith
  obtain ⟨i, i1, i2, ix, iw⟩ := away_val h1 (by omega) k
  have hmb := med_bound i1 i2 ix.le hhi hkx
  -- the argument minus `k` times the head of `π/2` is exact
  have hkI : |k| ≤ 268500000 := by
    have : |(k : ℝ)| ≤ 268500000 := by norm_num at *; linarith
    exact_mod_cast this
  have hp1 : Is RemPio2f.pio2_1 26353589 (-24) := ⟨by decide +kernel, by rw [RemPio2f.pio2_1_val]; norm_num⟩
  have hm1 := hk.mul hp1 (by rw [abs_mul]; norm_num; omega) (by norm_num) (by norm_num)
  obtain ⟨m, hm⟩ := grid32 x (-1) hlo
  have hxI : Is (x.cast f64) m (0 + -24) := ⟨wf, by rw [wv, hm]; norm_num⟩
  have hr0 : |x.val - k * (Real.pi / 2)| ≤ 0.7855 := by
    have e : x.val - k * (Real.pi / 2) = (x.val * (2 / Real.pi) - k) * (Real.pi / 2) := by
      have := Real.pi_pos.ne'
      field_simp
    rw [e, abs_mul, abs_of_pos (a := Real.pi / 2) (by have := Real.pi_pos; positivity)]
    have := pi_hi
    have h5 := mul_le_mul hkd (show Real.pi / 2 ≤ 1.57079634 by norm_num at *; linarith) (by have := Real.pi_pos; positivity) (by norm_num)
    norm_num at h5 ⊢
    linarith
  have hsp := split_err
  have hr := abs_le.1 hr0
  have hse := abs_le.1 hsp
  set δ := Real.pi / 2 - (26353589 : ℝ) * 2 ^ (-24 : ℤ) - (4803441513357923 : ℝ) * 2 ^ (-78 : ℤ) with hδ
  have hkR : |(k : ℝ)| ≤ 268500000 := by exact_mod_cast hkI
  have hkδ : |k * δ| ≤ |(k : ℝ)| * (0.8 * 2 ^ (-80 : ℤ)) := by
    rw [abs_mul]; exact mul_le_mul_of_nonneg_left hsp (abs_nonneg _)
  have hd : (m : ℝ) * 2 ^ (-24 : ℤ) - k * 26353589 * 2 ^ (-24 : ℤ) = (x.val - k * (Real.pi / 2)) + k * ((4803441513357923 : ℝ) * 2 ^ (-78 : ℤ)) + k * δ := by
    rw [hδ, hm]; norm_num; ring
  have hkt : |k * ((4803441513357923 : ℝ) * 2 ^ (-78 : ℤ))| ≤ 5 := by
    rw [abs_mul, abs_of_pos (a := (4803441513357923 : ℝ) * 2 ^ (-78 : ℤ)) (by positivity)]
    norm_num at hkR ⊢; linarith
  have hmm : |m - k * 26353589| ≤ 2 ^ 53 := by
    have : |((m - k * 26353589 : ℤ) : ℝ) * 2 ^ (-24 : ℤ)| ≤ 8 := by
      push_cast
      rw [sub_mul, hd]
      refine (abs_add_le _ _).trans ?_
      have := abs_add_le (x.val - k * (Real.pi / 2)) (k * ((4803441513357923 : ℝ) * 2 ^ (-78 : ℤ)))
      norm_num at *
      linarith
    rw [abs_mul, abs_of_pos (zp _)] at this
    have h3 : |((m - k * 26353589 : ℤ) : ℝ)| ≤ 2 ^ 53 := by
      norm_num at this ⊢; linarith
    exact_mod_cast h3
  have hsub := hxI.sub hm1 hmm (by norm_num) (by norm_num)
  -- the tail
  have htf : RemPio2f.pio2_1t.isFinite := by decide +kernel
  have hpv : fn.val * RemPio2f.pio2_1t.val = k * ((4803441513357923 : ℝ) * 2 ^ (-78 : ℤ)) := by
    rw [hk.2, RemPio2f.pio2_1t_val]; norm_num
  have hpt : (fn * RemPio2f.pio2_1t).isFinite ∧ |(fn * RemPio2f.pio2_1t).val - k * ((4803441513357923 : ℝ) * 2 ^ (-78 : ℤ))| ≤ |(k : ℝ)| * ((4803441513357923 : ℝ) * 2 ^ (-78 : ℤ)) * 2 ^ (-53 : ℤ) := by
    rcases eq_or_ne k 0 with h0 | h0
    · have h3 : Is fn 0 0 := by rw [h0] at hk; exact hk
      have h4 := (mul_rne h3.1 htf).exact_real (isFinite_zero false) (by rw [val_zero, hpv, h0]; norm_num)
      refine ⟨h4.1, ?_⟩
      rw [h4.2, hpv, h0]; norm_num
    · have h1k : (1 : ℝ) ≤ |(k : ℝ)| := by exact_mod_cast Int.one_le_abs h0
      have h3 := mul_rel64 hk.1 htf (by
        rw [hpv, abs_mul, abs_of_pos (a := (4803441513357923 : ℝ) * 2 ^ (-78 : ℤ)) (by positivity)]
        have h7 : (2 : ℝ) ^ (-1022 : ℤ) ≤ 2 ^ (-30 : ℤ) := zpow_le_zpow_right₀ (by norm_num) (by norm_num)
        generalize (2 : ℝ) ^ (-1022 : ℤ) = T at *
        norm_num at h7 ⊢
        linarith) (by
        rw [hpv]
        refine hkt.trans ?_
        have h7 : (2 : ℝ) ^ (10 : ℤ) ≤ 2 ^ (1023 : ℤ) := zpow_le_zpow_right₀ (by norm_num) (by norm_num)
        generalize (2 : ℝ) ^ (1023 : ℤ) = T at *
        norm_num at h7
        linarith)
      rw [hpv, abs_mul _ (_ * _), abs_of_pos (a := (4803441513357923 : ℝ) * 2 ^ (-78 : ℤ)) (by positivity)] at h3
      exact h3
  obtain ⟨pf, pe⟩ := hpt
  generalize fn * RemPio2f.pio2_1t = p at *
  generalize hdef : x.cast f64 - fn * RemPio2f.pio2_1 = d at *
  have hdv : d.val = (x.val - k * (Real.pi / 2)) + k * ((4803441513357923 : ℝ) * 2 ^ (-78 : ℤ)) + k * δ := by
    rw [← hd, hsub.2]; push_cast; ring_nf
  set r := x.val - k * (Real.pi / 2) with hrdef
  have hE : |d.val - p.val - r| ≤ 0.9 / 2 ^ 26 * |r| := by
    have e : d.val - p.val - r = k * δ - (p.val - k * ((4803441513357923 : ℝ) * 2 ^ (-78 : ℤ))) := by rw [hdv]; ring
    rw [e]
    refine (abs_sub _ _).trans ?_
    have h9 : |(k : ℝ)| * (0.8 * 2 ^ (-80 : ℤ)) + |(k : ℝ)| * ((4803441513357923 : ℝ) * 2 ^ (-78 : ℤ)) * 2 ^ (-53 : ℤ) ≤ |(k : ℝ)| * (1.5 / 2 ^ 79) := by
      have := abs_nonneg (k : ℝ)
      norm_num
      linarith
    have h10 := mul_le_mul_of_nonneg_left iw (show (0 : ℝ) ≤ 0.9 / 2 ^ 26 by norm_num)
    exact (add_le_add hkδ pe).trans (h9.trans (hmb.trans h10))
  have hs : |d.val - p.val| ≤ |r| * (1 + 1 / 2 ^ 26) := by
    have h11 := abs_sub_abs_le_abs_sub (d.val - p.val) r
    have h12 := abs_nonneg r
    norm_num at hE ⊢
    linarith
  obtain ⟨yf, ye⟩ := sub_rel64 hsub.1 pf (by
    refine hs.trans ?_
    have h7 : (2 : ℝ) ^ (10 : ℤ) ≤ 2 ^ (1023 : ℤ) := zpow_le_zpow_right₀ (by norm_num) (by norm_num)
    generalize (2 : ℝ) ^ (1023 : ℤ) = T at *
    norm_num at h7 hr0 ⊢
    linarith)
  have hA : |d.val - p.val - r| ≤ 1 / 2 ^ 50 := by
    have e : d.val - p.val - r = k * δ - (p.val - k * ((4803441513357923 : ℝ) * 2 ^ (-78 : ℤ))) := by rw [hdv]; ring
    rw [e]
    refine (abs_sub _ _).trans ((add_le_add hkδ pe).trans ?_)
    norm_num at hkR ⊢
    linarith
  refine ⟨k, d - p, ?_, k, rfl, yf, ?_, ?_, hr0, ?_⟩
  · rw [toSInt_int (n := k) hk.1 (by rw [hk.2]; norm_num) (by norm_num; omega)]
  · have e : (d - p).val - r = ((d - p).val - (d.val - p.val)) + (d.val - p.val - r) := by ring
    rw [e]
    refine (abs_add_le _ _).trans ?_
    have h12 := abs_nonneg r
    norm_num at hE ye hs ⊢
    linarith
  · have e : (d - p).val - r = ((d - p).val - (d.val - p.val)) + (d.val - p.val - r) := by ring
    rw [e]
    refine (abs_add_le _ _).trans ?_
    norm_num at hA ye hs hr0 ⊢
    linarith
  · refine le_trans ?_ iw
    have : (1 : ℝ) ≤ CF.w24 i := by
      have : 1 ≤ CF.w24 i := by
        unfold CF.w24
        split
        · norm_num
        · have := Nat.two_pow_pos (i - 25); omega
      exact_mod_cast this
    norm_num
    linarith

theorem rem_large {tbl : List ℤ} (ht : GoodTbl tbl) (x : Flt f32) (hx : x.isFinite) (hbig : 0x4dc90fdb ≤ x.mb) :
    ∃ n y, remPio2fWith tbl x = some (n, y) ∧ Quad32 x.val n y := by
  obtain ⟨n, y, h, hR⟩ := large32 ht x hx hbig
  refine ⟨n, y, h, ?_⟩
  obtain ⟨e0, jv, q0, n', y', jz, B, G, jz', d, sg, he0, hjv, hq0, hred, hn, hy⟩ := hR
  have hfin : x.mb < 255 * 2 ^ 23 := (isFinite32 x).1 hx
  have hv := val_normal32 x (by omega)
  set M := 2 ^ 23 + x.mb % 2 ^ 23 with hM
  have hlo : 5 ≤ e0 := by omega
  have hhi : e0 ≤ 104 := by omega
  have hjq : -21 ≤ q0 ∧ q0 ≤ 2 := by
    rw [hq0, hjv, Int.tdiv_eq_ediv_of_nonneg (by omega)]
    omega
  obtain ⟨hexp, -, -⟩ := exps_of (K := (216 - q0).toNat) (by omega) (by omega) hjv hq0 (by omega)
  have hU : U (word1 M) = M * 2 ^ 48 := by
    unfold U word1
    simp
  have hB := hred.hB
  have hlo' := hred.lo
  obtain ⟨m, hm, hf1, hf2⟩ := hred.exact (by intro j; unfold word1; split <;> omega) hexp (by omega) le_rfl (by norm_num) (by omega)
  have hxv : (U (word1 M) : ℝ) * 2 ^ (24 * jv - 24 + q0 : ℤ) = |x.val| := by
    rw [hv, hU, show (24 * jv - 24 + q0 : ℤ) = -48 + ((x.mb / 2 ^ 23 : ℕ) - 150 : ℤ) by rw [hq0, he0]; ring, zpow_add₀ (by norm_num)]
    push_cast
    norm_num
    ring
  rw [hxv] at hm
  have herr := hred.err
  generalize fsum d 3 jz' B = f at *
  have hf0 : 0 < f := lt_of_lt_of_le (zp _) hf1
  -- the reduced argument of `|x|`
  set r := |x.val| - (n' + 8 * m) * (Real.pi / 2) with hr
  have hsg : |(sg : ℝ)| = 1 := by rcases hred.sg1 with h | h <;> rw [h] <;> norm_num
  have hsg2 : (sg : ℝ) * sg = 1 := by rcases hred.sg1 with h | h <;> rw [h] <;> norm_num
  have hrf : abs (|r| - f) ≤ 1 / 2 ^ 43 * f := by
    have h3 : abs (|r| - |sg * f|) ≤ |r - sg * f| := abs_abs_sub_abs_le _ _
    rw [abs_mul, hsg, one_mul, abs_of_pos hf0] at h3
    refine h3.trans (hm.trans (le_of_eq ?_))
    norm_num
  have hyf : |y'.val - sg * f| ≤ 1 / 2 ^ 48 * f := by
    have e : y'.val - sg * f = sg * (sg * y'.val - f) := by
      rw [mul_sub, ← mul_assoc, hsg2, one_mul]
    rw [e, abs_mul, hsg, one_mul]
    refine herr.trans (le_of_eq ?_)
    norm_num
  have hyr : |y'.val - r| ≤ 1 / 2 ^ 42 * |r| := by
    have e : y'.val - r = (y'.val - sg * f) - (r - sg * f) := by ring
    rw [e]
    refine (abs_sub _ _).trans ?_
    have h5 := (abs_le.1 hrf).1
    norm_num at hm hyf h5 ⊢
    linarith
  have hr1 : |r| ≤ 0.7855 := by
    have h5 := (abs_le.1 hrf).2
    have := pi_hi
    norm_num at h5 ⊢
    linarith
  have hr2 : 1 / 2 ^ 32 ≤ |r| := by
    have h5 := (abs_le.1 hrf).1
    norm_num at hf1 h5 ⊢
    linarith
  have hrel : |y'.val - r| ≤ 1.05 / 2 ^ 26 * |r| := by
    refine hyr.trans (mul_le_mul_of_nonneg_right (by norm_num) (abs_nonneg _))
  have habs : |y'.val - r| ≤ 1 / 2 ^ 42 := by
    norm_num at hyr hr1 ⊢
    linarith
  by_cases hs : x.sign
  · rw [if_pos hs] at hn hy
    have hxn : |x.val| = -x.val := abs_of_nonpos (val_nonpos hs)
    have e : x.val - ((-(n' + 8 * m) : ℤ) : ℝ) * (Real.pi / 2) = -r := by rw [hr, hxn]; push_cast; ring
    refine ⟨-(n' + 8 * m), by rw [hn]; omega, ?_⟩
    rw [e, hy]
    exact Near.neg ⟨hred.fin, hrel, habs, hr1, hr2⟩
  · rw [if_neg hs] at hn hy
    have hxn : |x.val| = x.val := abs_of_nonneg (val_nonneg (by simpa using hs))
    have e : x.val - ((n' + 8 * m : ℤ) : ℝ) * (Real.pi / 2) = r := by rw [hr, hxn]; push_cast; ring
    refine ⟨n' + 8 * m, by rw [hn]; omega, ?_⟩
    rw [e, hy]
    exact ⟨hred.fin, hrel, habs, hr1, hr2⟩

/-- the reduction of any finite float from `1/2` on -/
theorem rem_quad (x : Flt f32) (hx : x.isFinite) (h : 0x3f000000 ≤ x.mb) : ∃ n y, remPio2f x = some (n, y) ∧ Quad32 x.val n y := by
  by_cases h2 : x.mb < 0x4dc90fdb
  · exact rem_medium _ x h h2
  · exact rem_large goodTbl_wide x hx (by omega)

end Verif
