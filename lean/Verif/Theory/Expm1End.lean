import Verif.Theory.Expm1K
import Verif.Theory.LogHi
import Verif.Theory.UlpTop
import Verif.Theory.CbrtBits
import Verif.Theory.Atan2Acc
import Verif.Props.Exp2

/-!
# `expm1`, `expm1f`: from the kernel to the result, for every exponent
-/

namespace Verif
open Flt

theorem ulpAt_scale {F : Fmt} {t : ℝ} (ht : 2 ^ (1 - (F.bias : ℤ)) ≤ |t|) {k : ℤ} : ulpAt F t * 2 ^ k ≤ ulpAt F (t * 2 ^ k) := by
  have h0 : t ≠ 0 := by rintro rfl; rw [abs_zero] at ht; exact absurd ht (not_le.2 (zp _))
  have h1 : ((2 : ℕ) : ℝ) ^ Int.log 2 |t| ≤ |t| := Int.zpow_log_le_self (by norm_num) (abs_pos.2 h0)
  have h2 : 1 - (F.bias : ℤ) ≤ Int.log 2 |t| := (Int.zpow_le_iff_le_log (by norm_num) (abs_pos.2 h0)).1 (by exact_mod_cast ht)
  have h3 := le_ulpAt_of_le (F := F) (t := t * 2 ^ k) (k := Int.log 2 |t| + k) (by
    rw [abs_mul, abs_of_pos (zp k), zpow_add₀ (by norm_num)]
    exact mul_le_mul_of_nonneg_right (by exact_mod_cast h1) (zp k).le)
  refine le_trans (le_of_eq ?_) h3
  rw [ulpAt, if_neg h0, max_eq_left h2, ← zpow_add₀ (by norm_num)]
  congr 1; ring

theorem WithinUlp.scale_up {F : Fmt} {c t : ℝ} {r s : Flt F} {k : ℤ} (h : WithinUlp c r t) (ht : 2 ^ (1 - (F.bias : ℤ)) ≤ |t|) (hc : 0 ≤ c) (sf : s.isFinite)
    (hv : s.val = r.val * 2 ^ k) : WithinUlp c s (t * 2 ^ k) := by
  rw [WithinUlp.def'] at *
  refine ⟨sf, ?_⟩
  rw [hv, ← sub_mul, abs_mul, abs_of_pos (zp k)]
  refine (mul_le_mul_of_nonneg_right h.2 (zp k).le).trans ?_
  rw [mul_assoc]
  exact mul_le_mul_of_nonneg_left (ulpAt_scale ht) hc

theorem exp_tight {r : ℝ} (h : |r| ≤ 0.34662) : 0.70706 ≤ Real.exp r ∧ Real.exp r ≤ 1.4143 := by
  have key : ∀ r : ℝ, r ≤ 0.34662 → Real.exp r ≤ 1.4143 := by
    intro r h
    have l1 := Num.log2_gt
    have h1 : Real.exp r ^ 2 ≤ 2.0002 := by
      rw [← Real.exp_nat_mul]
      have h2 : Real.exp (Real.log 2 + 0.000095) = 2 * Real.exp 0.000095 := by rw [Real.exp_add, Real.exp_log (by norm_num)]
      refine (Real.exp_le_exp.2 (show ((2 : ℕ) : ℝ) * r ≤ Real.log 2 + 0.000095 by norm_num at h l1 ⊢; linarith)).trans ?_
      rw [h2]
      have := (abs_le.1 (Real.abs_exp_sub_one_sub_id_le (x := 0.000095) (by norm_num))).2
      generalize Real.exp 0.000095 = B at *
      norm_num at this ⊢; linarith
    by_contra hc
    rw [not_le] at hc
    have : (1.4143 : ℝ) ^ 2 < Real.exp r ^ 2 := pow_lt_pow_left₀ hc (by norm_num) (by norm_num)
    norm_num at this h1; linarith
  have h2 := abs_le.1 h
  refine ⟨?_, key r h2.2⟩
  have h3 := key (-r) (by linarith [h2.1])
  have h5 : Real.exp r * Real.exp (-r) = 1 := by rw [← Real.exp_add]; simp
  have p := Real.exp_pos r
  have := mul_le_mul_of_nonneg_left h3 p.le
  rw [h5] at this
  norm_num at this ⊢; linarith

theorem exp_shift {x c ρ a b η : ℝ} (hx : |x| ≤ 0.348) (hc : |c| ≤ a) (he : |x + c - ρ| ≤ η) (h1 : a + η ≤ b) (hb : b ≤ 1 / 2 ^ 20) :
    |Real.exp x + c * (1 + x) - Real.exp ρ| ≤ 0.122 * a + 1.6 * η + 1.6 * b ^ 2 := by
  have hx2 : x ^ 2 ≤ 0.12111 := by
    have := pow_le_pow_left₀ (abs_nonneg _) hx 2
    rw [sq_abs] at this; norm_num at this ⊢; linarith
  have e0 := Real.abs_exp_sub_one_sub_id_le (x := x) (hx.trans (by norm_num))
  have p := Real.exp_pos x
  have pu : Real.exp x ≤ 1.535 := by
    have h2 := abs_le.1 hx
    have h4 := Real.add_one_le_exp (-x)
    have h5 : Real.exp x * Real.exp (-x) = 1 := by rw [← Real.exp_add]; simp
    have h6 : Real.exp x * (1 - 0.348) ≤ 1 := by
      rw [← h5]; exact mul_le_mul_of_nonneg_left (by norm_num at h2 ⊢; linarith [h2.2]) p.le
    norm_num at h6 ⊢; linarith
  set s := ρ - x with hs
  have a0 : 0 ≤ a := (abs_nonneg _).trans hc
  have η0 : 0 ≤ η := (abs_nonneg _).trans he
  have hsb : |s| ≤ b := by
    have : s = c - (x + c - ρ) := by rw [hs]; ring
    rw [this]
    exact (abs_sub _ _).trans (by linarith)
  have e1 := Real.abs_exp_sub_one_sub_id_le (x := s) (hsb.trans (hb.trans (by norm_num)))
  have e2 : s ^ 2 ≤ b ^ 2 := by rw [← sq_abs s]; exact pow_le_pow_left₀ (abs_nonneg _) hsb 2
  have e3 : Real.exp ρ = Real.exp x * Real.exp s := by rw [← Real.exp_add, hs]; congr 1; ring
  have e4 : Real.exp x + c * (1 + x) - Real.exp ρ = -(Real.exp x * (Real.exp s - 1 - s)) + (-((Real.exp x - 1 - x) * c) + Real.exp x * (x + c - ρ)) := by
    rw [e3, hs]; ring
  rw [e4]
  refine (abs_add_le _ _).trans ?_
  have t1 : |-(Real.exp x * (Real.exp s - 1 - s))| ≤ 1.535 * b ^ 2 := by
    rw [abs_neg, abs_mul, abs_of_pos p]
    exact mul_le_mul pu (e1.trans e2) (abs_nonneg _) (by norm_num)
  have t2 : |-((Real.exp x - 1 - x) * c)| ≤ 0.12111 * a := by
    rw [abs_neg, abs_mul]
    exact mul_le_mul (e0.trans hx2) hc (abs_nonneg _) (by norm_num)
  have t3 : |Real.exp x * (x + c - ρ)| ≤ 1.535 * η := by
    rw [abs_mul, abs_of_pos p]
    exact mul_le_mul pu he (abs_nonneg _) (by norm_num)
  have t4 := abs_add_le (-((Real.exp x - 1 - x) * c)) (Real.exp x * (x + c - ρ))
  have b0 := sq_nonneg b
  linarith

theorem one_lt_bias {F : Fmt} {t : ℝ} (hF : 3 ≤ F.bias) (h : |t| < 2) : |t| < 2 ^ ((F.bias : ℤ) - 1) := by
  refine h.trans_le ?_
  have : (2 : ℝ) ^ (1 : ℤ) ≤ 2 ^ ((F.bias : ℤ) - 1) := zpow_le_zpow_right₀ (by norm_num) (by omega)
  simpa using this

theorem abs_mk32 {x : Flt f32} {E m : ℕ} (hE : 1 ≤ E) (hm : m < 2 ^ 23) (h : x.mb = E * 2 ^ 23 + m) :
    |x.val| = ((2 ^ 23 + m : ℕ) : ℝ) * 2 ^ ((E : ℤ) - 150) := by
  rw [val_normal32 x (by omega), show x.mb % 2 ^ 23 = m by omega, show x.mb / 2 ^ 23 = E by omega]

theorem exp_range' {r : ℝ} (h : |r| ≤ 0.348) : 0.6 ≤ Real.exp r ∧ Real.exp r ≤ 1.6 := by
  have h2 := abs_le.1 h
  norm_num at h2
  have h3 := Real.add_one_le_exp r
  have h4 := Real.add_one_le_exp (-r)
  have h5 : Real.exp r * Real.exp (-r) = 1 := by rw [← Real.exp_add]; simp
  have p := Real.exp_pos r
  constructor
  · norm_num; linarith [h2.1]
  · have h6 : Real.exp r * (1 - 0.348) ≤ 1 := by
      rw [← h5]; exact mul_le_mul_of_nonneg_left (by norm_num; linarith [h2.2]) p.le
    norm_num at h6 ⊢; linarith

namespace Expm1
theorem pow2_val {n : ℤ} (h1 : 1 ≤ n) (h2 : n ≤ 2046) : (bits64 (BitVec.ofInt 64 n <<< 52)).isFinite ∧ (bits64 (BitVec.ofInt 64 n <<< 52)).val = 2 ^ (n - 1023) := by
  have a3 : (BitVec.ofInt 64 n <<< 52).toNat = n.toNat * 2 ^ 52 := by
    rw [BitVec.toNat_shiftLeft, BitVec.toNat_ofInt, Nat.shiftLeft_eq]
    omega
  have hlt : n.toNat * 2 ^ 52 < 2 ^ 63 := by omega
  generalize BitVec.ofInt 64 n <<< 52 = b at *
  have hmk := bits64_mk (b := b) (by rw [a3]; exact hlt)
  have hmb : (bits64 b).mb = n.toNat * 2 ^ 52 + 0 := by
    rw [hmk, mb_mk' (by rw [a3]; exact hlt), a3, add_zero]
  have hs : (bits64 b).sign = false := by rw [hmk]; exact sign_mk' (by rw [a3]; exact hlt)
  refine ⟨?_, ?_⟩
  · refine (isFinite64 _).2 (hmb.trans_lt ?_)
    have : n.toNat ≤ 2046 := by omega
    clear hmb a3 hlt
    generalize n.toNat = K at this
    omega
  · have := Cbrt.abs_mk (x := bits64 b) (E := n.toNat) (m := 0) (by omega) (by norm_num) hmb
    rw [abs_of_nonneg (val_nonneg hs)] at this
    have hx : (52 : ℤ) + ((n.toNat : ℤ) - 1075) = n - 1023 := by omega
    rw [this, show ((2 ^ 52 + 0 : ℕ) : ℝ) = 2 ^ (52 : ℤ) by norm_num, ← zpow_add₀ (by norm_num), hx]

theorem two_val : (2.0 : Flt f64).val = 2 := by
  rw [val_const64 1 1075 1 (by decide +kernel) (by norm_num)]; norm_num
theorem big_val : (bits64 0x7fe0000000000000).val = 2 ^ (1023 : ℤ) := by
  rw [val_const64 1 2097 1023 (by decide +kernel) (by norm_num)]; rw [Int.cast_one, one_mul]

theorem kernel_eq (x c : Flt f64) (k : ℤ) : kernel x c k =
    if k = 0 then some (x - (x * (hxs x * quo x) - hxs x))
    else if k = -1 then some (0.5 * (x - ee x c) - 0.5)
    else if k = 1 then
      if (x <ᶠ -0.25) = true then some (-2.0 * (ee x c - (x + 0.5))) else some (1.0 + 2.0 * (x - ee x c))
    else scale x (ee x c) k := rfl

/-- what the reduction leaves: `x + c ≈ ρ` -/
structure Red (x c : Flt f64) (ρ : ℝ) : Prop where
  xf : x.isFinite
  bx : |x.val| ≤ 355 / 2 ^ 10
  cf : c.isFinite
  bc : |c.val| ≤ 0.26 * (1 / 2 ^ 53)
  er : |x.val + c.val - ρ| ≤ 1.01 / 2 ^ 62
  hρ : |ρ| ≤ 0.34662

variable {x c : Flt f64} {ρ : ℝ}

theorem Red.near (h : Red x c ρ) : (ee x c).isFinite ∧ |x.val - (ee x c).val - (Real.exp ρ - 1)| ≤ 0.215 * (1 / 2 ^ 53) ∧ |(ee x c).val| ≤ 0.0685 := by
  have hE := ee_ap h.xf h.bx h.cf (h.bc.trans (by norm_num))
  have ha := approx (r := x.val) (h.bx.trans (by norm_num))
  have hs := exp_shift (h.bx.trans (by norm_num)) h.bc h.er (b := 0.3 * (1 / 2 ^ 53)) (by norm_num) (by norm_num)
  have hx := mul_le_mul_of_nonneg_left h.bx (show (0 : ℝ) ≤ 2 / 2 ^ 62 by norm_num)
  refine ⟨hE.fin, ?_, hE.bd.trans (by norm_num)⟩
  have h1 := abs_le.1 hE.err
  have h2 := abs_le.1 (ha.trans hx)
  have h3 := abs_le.1 hs
  have e : x.val * (x.val * (x.val / 2) * W x.val - c.val) - c.val - x.val * (x.val / 2) = (x.val * (x.val * (x.val / 2) * W x.val) - x.val * (x.val / 2)) - c.val * (1 + x.val) := by ring
  rw [e] at h1
  generalize x.val * (x.val * (x.val / 2) * W x.val) - x.val * (x.val / 2) = A at *
  generalize c.val * (1 + x.val) = B at *
  generalize Real.exp ρ = E at *
  generalize Real.exp x.val = E' at *
  rw [abs_le]
  norm_num at h1 h2 h3 ⊢
  constructor <;> linarith [h1.1, h1.2, h2.1, h2.2, h3.1, h3.2]

/-- the difference `x - e` -/
theorem Red.diff (h : Red x c ρ) : (x - ee x c).isFinite ∧ |(x - ee x c).val - (Real.exp ρ - 1)| ≤ 0.465 * (1 / 2 ^ 53) ∧
    (|Real.exp ρ - 1| ≤ 0.2499 → |(x - ee x c).val - (Real.exp ρ - 1)| ≤ 0.34 * (1 / 2 ^ 53)) ∧
    (|Real.exp ρ - 1| ≤ 0.06 → |(x - ee x c).val - (Real.exp ρ - 1)| ≤ 0.2463 * (1 / 2 ^ 53)) := by
  obtain ⟨ef, ne, -⟩ := h.near
  obtain ⟨t1, t2⟩ := exp_tight h.hρ
  have n2 := abs_le.1 ne
  norm_num at n2 t1 t2
  have r := sub_rne h.xf ef
  refine ⟨?_, ?_, fun hg => ?_, fun hg => ?_⟩
  · exact (r.err64 (-1) (by rw [abs_le]; norm_num; constructor <;> linarith [n2.1, n2.2]) (by norm_num) (by norm_num)).1
  · have := (r.err64 (-1) (by rw [abs_le]; norm_num; constructor <;> linarith [n2.1, n2.2]) (by norm_num) (by norm_num)).2
    refine (abs_sub_le _ (x.val - (ee x c).val) _).trans ((add_le_add this ne).trans (by norm_num))
  · have hg := abs_le.1 hg
    have := (r.err64 (-2) (by rw [abs_le]; norm_num at hg ⊢; constructor <;> linarith [n2.1, n2.2]) (by norm_num) (by norm_num)).2
    refine (abs_sub_le _ (x.val - (ee x c).val) _).trans ((add_le_add this ne).trans (by norm_num))
  · have hg := abs_le.1 hg
    have := (r.err64 (-4) (by rw [abs_le]; norm_num at hg ⊢; constructor <;> linarith [n2.1, n2.2]) (by norm_num) (by norm_num)).2
    refine (abs_sub_le _ (x.val - (ee x c).val) _).trans ((add_le_add this ne).trans (by norm_num))

theorem Red.neg_one (h : Red x c ρ) : WithinUlp 1.45 (0.5 * (x - ee x c) - 0.5) (Real.exp ρ * 2 ^ (-1 : ℤ) - 1) := by
  obtain ⟨df, de, -⟩ := h.diff
  obtain ⟨t1, t2⟩ := exp_tight h.hρ
  have d2 := abs_le.1 de
  norm_num at d2 t1 t2
  obtain ⟨hf, he, -⟩ := half_ap df (by rw [abs_le]; constructor <;> linarith [d2.1, d2.2])
  have r := sub_rne hf (y := (0.5 : Flt f64)) (by decide +kernel)
  rw [half_val'] at r
  have h2 := abs_le.1 he
  norm_num at h2
  refine WithinUlp.of_rne_abs2 (-2) r ?_ (one_lt_bias (by rw [f64_bias]; norm_num) ?_) (by rw [f64_bias]; norm_num) (a := 0.24 * (1 / 2 ^ 53)) ?_ (δ := 0.48) (by rw [f64_sb]; norm_num) (by norm_num) (by norm_num) (by norm_num)
  · refine le_trans ?_ (neg_le_abs _)
    norm_num; linarith
  · rw [abs_lt]; norm_num; constructor <;> linarith
  · rw [abs_le]; norm_num; constructor <;> linarith [d2.1, d2.2, h2.1, h2.2]

theorem Red.one_low (h : Red x c ρ) (hx : x.val < -(1 / 4)) : WithinUlp 1.45 (-2.0 * (ee x c - (x + 0.5))) (Real.exp ρ * 2 ^ (1 : ℤ) - 1) := by
  obtain ⟨ef, ne, -⟩ := h.near
  obtain ⟨t1, t2⟩ := exp_tight h.hρ
  have n2 := abs_le.1 ne
  have bx := abs_le.1 h.bx
  norm_num at n2 t1 t2 bx
  have x1 : |x.val| = -x.val := abs_of_neg (by linarith)
  have hup : Real.exp ρ ≤ 0.81 := by
    have h1 := abs_le.1 h.er
    have h2 := abs_le.1 h.bc
    have h3 := Real.add_one_le_exp (-ρ)
    have h5 : Real.exp ρ * Real.exp (-ρ) = 1 := by rw [← Real.exp_add]; simp
    have h6 : Real.exp ρ * 1.24 ≤ 1 := by
      rw [← h5]; exact mul_le_mul_of_nonneg_left (by norm_num at h1 h2 ⊢; linarith [h1.1, h1.2, h2.1, h2.2]) (Real.exp_pos _).le
    norm_num at h6 ⊢; linarith
  norm_num at hup
  have hm : (2 : ℝ) ^ (1 - (f64.bias : ℤ)) ≤ 1 / 8 := by
    rw [f64_bias, show (1 / 8 : ℝ) = 2 ^ (-3 : ℤ) by norm_num]
    exact zpow_le_zpow_right₀ (by norm_num) (by norm_num)
  have hv : (-0.5 : Flt f64).val = -(1 / 2) := by rw [show (-0.5 : Flt f64) = -(0.5 : Flt f64) from rfl, val_neg, half_val']
  obtain ⟨sf, sv⟩ := sterbenz_val h.xf (y := (-0.5 : Flt f64)) (by decide +kernel) (by
      rw [hv, x1, abs_le]; constructor <;> linarith [bx.1]) (by
      rw [hv, abs_le, abs_neg, abs_of_pos (by norm_num)]; constructor <;> linarith [bx.1]) (by rw [x1]; linarith) (by
      rw [hv, abs_neg, abs_of_pos (by norm_num)]; linarith)
  have e : x - (-0.5 : Flt f64) = x + 0.5 := by
    rw [sub_eq_add_neg', show -(-0.5 : Flt f64) = (0.5 : Flt f64) by decide +kernel]
  rw [e] at sf sv
  rw [hv] at sv
  have r := sub_rne ef sf
  rw [sv] at r
  have hq : |(ee x c).val - (x.val - -(1 / 2)) - -(Real.exp ρ - 1 / 2)| ≤ 0.215 * (1 / 2 ^ 53) := by
    rw [abs_le]; norm_num; constructor <;> linarith [n2.1, n2.2]
  have w := WithinUlp.of_rne_abs2 (-3) r (t := -(Real.exp ρ - 1 / 2)) (by rw [abs_neg]; refine le_trans ?_ (le_abs_self _); norm_num; linarith)
    (one_lt_bias (by rw [f64_bias]; norm_num) (by rw [abs_neg, abs_lt]; constructor <;> linarith)) (by rw [f64_bias]; norm_num) hq (δ := 0.87) (c := 1.45) (by rw [f64_sb]; norm_num) (by norm_num) (by norm_num) (by norm_num)
  have rf := w.1
  have m := mul_rne (x := (-2.0 : Flt f64)) (by decide +kernel) rf
  have hv2 : (-2.0 : Flt f64).val = -2 := by rw [show (-2.0 : Flt f64) = -(2.0 : Flt f64) from rfl, val_neg, two_val]
  have hr := (r.err64 (-1) (by
    have := abs_le.1 hq; rw [abs_le]; norm_num at this ⊢; constructor <;> linarith [this.1, this.2]) (by norm_num) (by norm_num)).2
  have hr2 := abs_le.1 hr
  have hq2 := abs_le.1 hq
  norm_num at hr2 hq2
  obtain ⟨d, dfin, dv⟩ := scale_exact64 (x := -(ee x c - (x + 0.5))) 1 (by
      rw [val_neg, abs_mul, abs_neg, abs_of_pos (zp 1)]
      have : (1 / 8 : ℝ) ≤ |(ee x c - (x + 0.5)).val| := by
        refine le_trans ?_ (neg_le_abs _)
        linarith [hr2.2, hq2.1, hq2.2]
      refine (zpow_le_zpow_right₀ (a := (2 : ℝ)) (n := -3) (by norm_num) (by norm_num)).trans ?_
      norm_num; linarith) (by
      rw [val_neg, abs_mul, abs_neg, abs_of_pos (zp 1)]
      have : |(ee x c - (x + 0.5)).val| ≤ 1 := by
        rw [abs_le]; constructor <;> linarith [hr2.1, hr2.2, hq2.1, hq2.2]
      refine lt_of_lt_of_le (b := (2 : ℝ) ^ (2 : ℤ)) ?_ (zpow_le_zpow_right₀ (by norm_num) (by norm_num))
      norm_num; linarith)
  obtain ⟨mf, mv⟩ := m.exact_real dfin (by rw [dv, hv2, val_neg]; norm_num; ring)
  have := w.neg.scale_up (k := 1) (s := -2.0 * (ee x c - (x + 0.5))) (by
      rw [_root_.neg_neg]
      refine hm.trans (le_trans ?_ (le_abs_self _)); linarith) (by norm_num) mf (by rw [mv, hv2, val_neg]; norm_num; ring)
  rw [_root_.neg_neg] at this
  convert this using 1
  norm_num; ring

theorem Red.one_high (h : Red x c ρ) (hx : -(1 / 4) ≤ x.val) : WithinUlp 1.45 (1.0 + 2.0 * (x - ee x c)) (Real.exp ρ * 2 ^ (1 : ℤ) - 1) := by
  obtain ⟨df, de, de2, -⟩ := h.diff
  obtain ⟨t1, t2⟩ := exp_tight h.hρ
  have d2 := abs_le.1 de
  have hlo : 0.755 ≤ Real.exp ρ := by
    have h1 := abs_le.1 h.er
    have h2 := abs_le.1 h.bc
    have h3 := Real.add_one_le_exp (ρ / 2)
    have h4 : Real.exp ρ = Real.exp (ρ / 2) ^ 2 := by rw [← Real.exp_nat_mul]; congr 1; norm_num; ring
    rw [h4]
    have h5 : (0.87 : ℝ) ≤ Real.exp (ρ / 2) := by norm_num at h1 h2 ⊢; linarith [h1.1, h1.2, h2.1, h2.2]
    refine le_trans ?_ (pow_le_pow_left₀ (by norm_num) h5 2)
    norm_num
  norm_num at d2 t1 t2 hlo
  have m := mul_rne (x := (2.0 : Flt f64)) (by decide +kernel) df
  rw [two_val] at m
  have hm : (2.0 * (x - ee x c)).isFinite ∧ |(2.0 * (x - ee x c)).val - 2 * (x - ee x c).val| ≤ 1 / 2 ^ 150 := by
    by_cases hs : 2 ^ (-100 : ℤ) ≤ |(x - ee x c).val|
    · obtain ⟨d, dfin, dv⟩ := scale_exact64 (x := x - ee x c) 1 (by
        rw [abs_mul, abs_of_pos (zp 1)]
        refine (zpow_le_zpow_right₀ (a := (2 : ℝ)) (n := -100) (by norm_num) (by norm_num)).trans ?_
        norm_num at hs ⊢; linarith) (by
        rw [abs_mul, abs_of_pos (zp 1)]
        have : |(x - ee x c).val| ≤ 1 := by rw [abs_le]; constructor <;> linarith [d2.1, d2.2]
        refine lt_of_lt_of_le (b := (2 : ℝ) ^ (2 : ℤ)) ?_ (zpow_le_zpow_right₀ (by norm_num) (by norm_num))
        norm_num; linarith)
      obtain ⟨mf, mv⟩ := m.exact_real dfin (by rw [dv]; norm_num; ring)
      exact ⟨mf, by rw [mv, sub_self, abs_zero]; norm_num⟩
    · obtain ⟨a, b⟩ := m.err64 (-99) (by rw [abs_mul, abs_two]; norm_num at hs ⊢; linarith) (by norm_num) (by norm_num)
      exact ⟨a, b.trans (by norm_num)⟩
  obtain ⟨mf, me⟩ := hm
  have r := add_rne (x := (1.0 : Flt f64)) (by decide +kernel) mf
  rw [one_val] at r
  have m2 := abs_le.1 me
  norm_num at m2
  by_cases hc : 1 ≤ Real.exp ρ
  · refine WithinUlp.of_rne_abs2 0 r ?_ (one_lt_bias (by rw [f64_bias]; norm_num) ?_) (by rw [f64_bias]; norm_num) (a := 0.94 * (1 / 2 ^ 53)) ?_ (δ := 0.48) (by rw [f64_sb]; norm_num) (by norm_num) (by norm_num) (by norm_num)
    · refine le_trans ?_ (le_abs_self _)
      norm_num; linarith
    · rw [abs_lt]; norm_num; constructor <;> linarith
    · rw [abs_le]; norm_num; constructor <;> linarith [d2.1, d2.2, m2.1, m2.2]
  · rw [not_le] at hc
    have d3 := abs_le.1 (de2 (by rw [abs_le]; norm_num; constructor <;> linarith))
    norm_num at d3
    refine WithinUlp.of_rne_abs2 (-1) r ?_ (one_lt_bias (by rw [f64_bias]; norm_num) ?_) (by rw [f64_bias]; norm_num) (a := 0.69 * (1 / 2 ^ 53)) ?_ (δ := 0.7) (by rw [f64_sb]; norm_num) (by norm_num) (by norm_num) (by norm_num)
    · refine le_trans ?_ (le_abs_self _)
      norm_num; linarith
    · rw [abs_lt]; norm_num; constructor <;> linarith
    · rw [abs_le]; norm_num; constructor <;> linarith [d3.1, d3.2, m2.1, m2.2]

/-- multiplication of a number of order one by a power of two -/
theorem pow2_mul {y s : Flt f64} {k : ℤ} (yf : y.isFinite) (h1 : 1 / 4 ≤ y.val) (h2 : y.val < 2) (hk1 : -100 ≤ k) (hk2 : k ≤ 1023) (sf : s.isFinite) (hs : s.val = 2 ^ k) :
    (y * s).isFinite ∧ (y * s).val = y.val * 2 ^ k := by
  have m := mul_rne yf sf
  rw [hs] at m
  have ya : |y.val| = y.val := abs_of_pos (by linarith)
  obtain ⟨d, dfin, dv⟩ := scale_exact64 (x := y) k (by
    rw [abs_mul, abs_of_pos (zp k), ya]
    refine (zpow_le_zpow_right₀ (a := (2 : ℝ)) (n := -2 + k) (by norm_num) (by omega)).trans ?_
    rw [zpow_add₀ (by norm_num)]
    exact mul_le_mul_of_nonneg_right (by norm_num; linarith) (zp k).le) (by
    rw [abs_mul, abs_of_pos (zp k), ya]
    refine lt_of_lt_of_le (mul_lt_mul_of_pos_right h2 (zp k)) ?_
    rw [← zpow_one_add₀ (by norm_num)]
    exact zpow_le_zpow_right₀ (by norm_num) (by omega))
  exact m.exact_real dfin dv

/-- the branch that subtracts one at the end -/
theorem Red.ends (h : Red x c ρ) {Y : Flt f64} {k : ℤ} (Yf : Y.isFinite) (Yv : Y.val = (x - ee x c + 1.0).val * 2 ^ k) (hk : k ≤ -2 ∨ 57 ≤ k) :
    WithinUlp 1.45 (Y - 1.0) (Real.exp ρ * 2 ^ k - 1) := by
  obtain ⟨df, de, de2, de3⟩ := h.diff
  obtain ⟨t1, t2⟩ := exp_tight h.hρ
  have d2 := abs_le.1 de
  norm_num at d2 t1 t2
  have r := add_rne df (y := (1.0 : Flt f64)) (by decide +kernel)
  rw [one_val] at r
  obtain ⟨yf, ye⟩ := r.err64 1 (by rw [abs_le]; norm_num; constructor <;> linarith [d2.1, d2.2]) (by norm_num) (by norm_num)
  set y := x - ee x c + 1.0 with hy
  have s := sub_rne Yf (y := (1.0 : Flt f64)) (by decide +kernel)
  rw [one_val] at s
  have M := zp k
  have y2 := abs_le.1 ye
  norm_num at y2
  rcases hk with hk | hk
  · have hM : (2 : ℝ) ^ k ≤ 1 / 4 := by
      rw [show (1 / 4 : ℝ) = 2 ^ (-2 : ℤ) by norm_num]
      exact zpow_le_zpow_right₀ (by norm_num) hk
    have p1 : |y.val - Real.exp ρ| * 2 ^ k ≤ 1.47 * (1 / 2 ^ 53) * (1 / 4) := by
      refine mul_le_mul ?_ hM M.le (by norm_num)
      rw [abs_le]; norm_num; constructor <;> linarith [d2.1, d2.2, y2.1, y2.2]
    have p2 : Real.exp ρ * 2 ^ k ≤ 1.4143 * (1 / 4) := mul_le_mul (by norm_num; linarith) hM M.le (by norm_num)
    have p3 : 0 < Real.exp ρ * 2 ^ k := mul_pos (Real.exp_pos _) M
    refine WithinUlp.of_rne_abs2 (-1) s ?_ (one_lt_bias (by rw [f64_bias]; norm_num) ?_) (by rw [f64_bias]; norm_num) (a := 0.37 * (1 / 2 ^ 53)) ?_ (δ := 0.37) (by rw [f64_sb]; norm_num) (by norm_num) (by norm_num) (by norm_num)
    · refine le_trans ?_ (neg_le_abs _)
      norm_num at p2 ⊢; linarith
    · rw [abs_lt]; norm_num at p2 ⊢; constructor <;> linarith
    · rw [Yv, show y.val * 2 ^ k - 1 - (Real.exp ρ * 2 ^ k - 1) = (y.val - Real.exp ρ) * 2 ^ k by ring, abs_mul, abs_of_pos M]
      exact p1.trans (by norm_num)
  · have hM : (2 : ℝ) ^ (57 : ℤ) ≤ 2 ^ k := zpow_le_zpow_right₀ (by norm_num) hk
    have hM1 : (1 : ℝ) ≤ 0.0626 * (1 / 2 ^ 53) * 2 ^ k := by norm_num at hM ⊢; linarith
    have p1 : (0.5 : ℝ) * 2 ^ k ≤ y.val * 2 ^ k := mul_le_mul_of_nonneg_right (by norm_num; linarith [d2.1, d2.2, y2.1, y2.2]) M.le
    have hthr := lt_overflow Yf
    have hthr' : |Y.val| < ((overflowThreshold f64 : ℚ) : ℝ) := by unfold Flt.val; exact_mod_cast hthr
    rw [Yv, abs_of_pos (by linarith)] at hthr'
    rw [Yv] at s
    obtain ⟨sf, sn⟩ := s.fin (by
      rw [abs_of_pos (by norm_num at hM p1 ⊢; linarith)]; linarith)
    have sn := sn Y Yf
    rw [Yv, show y.val * 2 ^ k - (y.val * 2 ^ k - 1) = 1 by ring, abs_one] at sn
    have tot : ∀ a : ℝ, |y.val - Real.exp ρ| ≤ a * (1 / 2 ^ 53) → |(Y - 1.0).val - (Real.exp ρ * 2 ^ k - 1)| ≤ (a + 0.0626) * (1 / 2 ^ 53) * 2 ^ k := by
      intro a ha
      have e : (Y - 1.0).val - (Real.exp ρ * 2 ^ k - 1) = ((Y - 1.0).val - (y.val * 2 ^ k - 1)) + (y.val - Real.exp ρ) * 2 ^ k := by ring
      rw [e]
      refine (abs_add_le _ _).trans ?_
      rw [abs_mul, abs_of_pos M]
      have := mul_le_mul_of_nonneg_right ha M.le
      linarith
    by_cases hc : 1 + 1 / 2 ^ 12 ≤ Real.exp ρ
    · refine WithinUlp.of_abs k sf ?_ (tot 1.47 ?_) ?_ (by norm_num)
      · refine le_trans ?_ (le_abs_self _)
        have := mul_le_mul_of_nonneg_right hc M.le
        norm_num at hM this ⊢; linarith
      · rw [abs_le]; norm_num; constructor <;> linarith [d2.1, d2.2, y2.1, y2.2]
      · rw [f64_sb, zpow_sub₀ (by norm_num)]; norm_num; linarith
    · rw [not_le] at hc
      norm_num at hc
      have h01 : (0.7 : ℝ) * 2 ^ k ≤ Real.exp ρ * 2 ^ k := mul_le_mul_of_nonneg_right (by norm_num; linarith) M.le
      refine WithinUlp.of_abs (k - 1) sf ?_ (tot 1.38 ?_) ?_ (by norm_num)
      · refine le_trans ?_ (le_abs_self _)
        rw [zpow_sub_one₀ (by norm_num)]
        norm_num at hM h01 ⊢; linarith
      · by_cases h1 : Real.exp ρ ≤ 1 - 1 / 2 ^ 12
        · obtain ⟨-, ye'⟩ := r.err64 0 (by norm_num at h1; rw [abs_le]; norm_num; constructor <;> linarith [d2.1, d2.2]) (by norm_num) (by norm_num)
          have y3 := abs_le.1 ye'
          norm_num at y3
          rw [abs_le]; norm_num; constructor <;> linarith [d2.1, d2.2, y3.1, y3.2]
        · norm_num at h1
          have d3 := abs_le.1 (de3 (by rw [abs_le]; norm_num; constructor <;> linarith))
          norm_num at d3
          rw [abs_le]; norm_num; constructor <;> linarith [d3.1, d3.2, y2.1, y2.2]
      · rw [f64_sb, zpow_sub₀ (by norm_num), zpow_sub_one₀ (by norm_num)]; norm_num; linarith

/-- every other exponent -/
theorem Red.scaled (h : Red x c ρ) {k : ℤ} (hk0 : -60 ≤ k) (hk1 : k ≤ 1024) (hk : k ≤ -2 ∨ 2 ≤ k) (ht : k = 1024 → Real.exp ρ ≤ 1 - 1 / 2 ^ 47) :
    ∃ r, scale x (ee x c) k = some r ∧ WithinUlp 1.45 r (Real.exp ρ * 2 ^ k - 1) := by
  obtain ⟨df, de, de2, de3⟩ := h.diff
  obtain ⟨ef, ne, eb⟩ := h.near
  obtain ⟨t1, t2⟩ := exp_tight h.hρ
  have d2 := abs_le.1 de
  norm_num at d2 t1 t2
  have r := add_rne df (y := (1.0 : Flt f64)) (by decide +kernel)
  rw [one_val] at r
  obtain ⟨yf, ye⟩ := r.err64 1 (by rw [abs_le]; norm_num; constructor <;> linarith [d2.1, d2.2]) (by norm_num) (by norm_num)
  have y2 := abs_le.1 ye
  norm_num at y2
  unfold scale
  rw [i32_some (by omega) (by omega)]
  simp only [Option.bind_some]
  by_cases hr : ¬ (0 ≤ k ∧ k ≤ 56)
  · rw [if_pos hr]
    refine ⟨_, rfl, ?_⟩
    have hk' : k ≤ -2 ∨ 57 ≤ k := by omega
    by_cases hk2 : k = 1024
    · rw [if_pos hk2]
      have ht := ht hk2
      have hy1 : (x - ee x c + 1.0).val < 1 := by
        have pv : (bits64 0x3fefffffffffffff).val = 9007199254740991 * 2 ^ (-53 : ℤ) := by
          rw [val_const64 9007199254740991 1021 (-53) (by decide +kernel) (by norm_num)]; norm_num
        have := r.le_of_le yf (s := bits64 0x3fefffffffffffff) (by decide +kernel) (by
          rw [pv]; norm_num at ht ⊢; linarith [d2.2])
        rw [pv] at this
        refine this.trans_lt (by norm_num)
      obtain ⟨af, av⟩ := pow2_mul yf (by linarith [d2.1, y2.1]) (by linarith) (k := 1) (s := (2.0 : Flt f64)) (by norm_num) (by norm_num) (by decide +kernel) (by rw [two_val]; norm_num)
      norm_num at av
      obtain ⟨bf, bv⟩ := pow2_mul af (by rw [av]; linarith [d2.1, y2.1]) (by rw [av]; linarith) (k := 1023) (s := bits64 0x7fe0000000000000) (by norm_num) (by norm_num) (by decide +kernel) big_val
      refine h.ends bf ?_ hk'
      rw [bv, av, hk2, show (1024 : ℤ) = 1 + 1023 by norm_num, zpow_add₀ (by norm_num)]
      generalize (2 : ℝ) ^ (1023 : ℤ) = P
      norm_num; ring
    · rw [if_neg hk2]
      obtain ⟨pf, pv⟩ := pow2_val (n := 0x3ff + k) (by omega) (by omega)
      rw [show (0x3ff + k - 1023 : ℤ) = k by ring] at pv
      obtain ⟨bf, bv⟩ := pow2_mul yf (by linarith [d2.1, y2.1]) (by linarith [d2.2, y2.2]) (by omega) (by omega) pf pv
      exact h.ends bf bv hk'
  · rw [if_neg hr]
    rw [not_not] at hr
    rw [i32_some (by omega) (by omega)]
    simp only [Option.bind_some]
    obtain ⟨pf, pv⟩ := pow2_val (n := 0x3ff + k) (by omega) (by omega)
    rw [show (0x3ff + k - 1023 : ℤ) = k by ring] at pv
    obtain ⟨uf, uv⟩ := pow2_val (n := 0x3ff - k) (by omega) (by omega)
    rw [show (0x3ff - k - 1023 : ℤ) = -k by ring] at uv
    generalize bits64 (BitVec.ofInt 64 (0x3ff + k) <<< 52) = P at *
    generalize bits64 (BitVec.ofInt 64 (0x3ff - k) <<< 52) = V at *
    have v0 := zp (-k)
    have hk4 : (2 : ℝ) ^ (-k) ≤ 1 / 4 := by
      rw [show (1 / 4 : ℝ) = 2 ^ (-2 : ℤ) by norm_num]
      exact zpow_le_zpow_right₀ (by norm_num) (by omega)
    have et : Real.exp ρ * 2 ^ k - 1 = (Real.exp ρ - 2 ^ (-k)) * 2 ^ k := by
      rw [sub_mul, ← zpow_add₀ (by norm_num)]; simp
    have hmin : (2 : ℝ) ^ (1 - (f64.bias : ℤ)) ≤ 1 / 4 := by
      rw [f64_bias, show (1 / 4 : ℝ) = 2 ^ (-2 : ℤ) by norm_num]
      exact zpow_le_zpow_right₀ (by norm_num) (by norm_num)
    have fin : ∀ (S : Flt f64), WithinUlp 1.45 S (Real.exp ρ - 2 ^ (-k)) → 1 / 4 ≤ S.val → S.val < 2 → WithinUlp 1.45 (S * P) (Real.exp ρ * 2 ^ k - 1) := by
      intro S w s1 s2
      obtain ⟨mf, mv⟩ := pow2_mul w.1 s1 s2 (by omega) (by omega) pf pv
      rw [et]
      exact w.scale_up (hmin.trans (le_trans (by linarith) (le_abs_self _))) (by norm_num) mf mv
    have tl : |Real.exp ρ - 2 ^ (-k)| < 2 := by rw [abs_lt]; constructor <;> linarith
    by_cases hk20 : k < 20
    · rw [if_pos hk20]
      refine ⟨_, rfl, ?_⟩
      -- `1 - 2^-k` is exact
      have o := sub_rne (x := (1.0 : Flt f64)) (by decide +kernel) uf
      rw [one_val, uv] at o
      obtain ⟨d, dfin, dv⟩ := exists_val64' (n := 2 ^ k.toNat - 1) (k := -k) (by
        have h1 : (2 : ℤ) ^ k.toNat ≤ 2 ^ 53 := pow_le_pow_right₀ (by norm_num) (by omega)
        have h2 : (1 : ℤ) ≤ 2 ^ k.toNat := one_le_pow₀ (by norm_num)
        rw [_root_.abs_of_nonneg (by linarith)]; linarith) (by omega) (by omega)
      obtain ⟨of, ov⟩ := o.exact_real dfin (by
        rw [dv]; push_cast
        rw [sub_mul, one_mul, ← zpow_natCast, ← zpow_add₀ (by norm_num), show ((k.toNat : ℤ) + -k) = 0 by omega, zpow_zero])
      have s := add_rne df of
      rw [ov] at s
      have sb : |(x - ee x c).val + (1 - 2 ^ (-k)) - (Real.exp ρ - 2 ^ (-k))| ≤ 0.465 * (1 / 2 ^ 53) := by
        rw [show (x - ee x c).val + (1 - 2 ^ (-k)) - (Real.exp ρ - 2 ^ (-k)) = (x - ee x c).val - (Real.exp ρ - 1) by ring]; exact de
      generalize (2 : ℝ) ^ (-k) = v at *
      have hv := abs_le.1 (s.err64 1 (by rw [abs_le]; norm_num; constructor <;> linarith [d2.1, d2.2]) (by norm_num) (by norm_num)).2
      norm_num at hv
      refine fin _ ?_ (by linarith [hv.1, d2.1]) (by linarith [hv.2, d2.2])
      refine WithinUlp.of_rne_abs2 (-2) s ?_ (one_lt_bias (by rw [f64_bias]; norm_num) tl) (by rw [f64_bias]; norm_num) sb (δ := 0.94) (by rw [f64_sb]; norm_num) (by norm_num) (by norm_num) (by norm_num)
      refine le_trans ?_ (le_abs_self _)
      norm_num; linarith
    · rw [if_neg hk20]
      refine ⟨_, rfl, ?_⟩
      have hk5 : (2 : ℝ) ^ (-k) ≤ 1 / 2 ^ 20 := by
        rw [show (1 / 2 ^ 20 : ℝ) = 2 ^ (-20 : ℤ) by norm_num]
        exact zpow_le_zpow_right₀ (by norm_num) (by omega)
      have n2 := abs_le.1 ne
      have e2 := abs_le.1 eb
      generalize (2 : ℝ) ^ (-k) = v at *
      norm_num at hk5 n2 e2
      have a := add_rne ef uf
      rw [uv] at a
      obtain ⟨af, ae⟩ := a.err64 (-3) (by rw [abs_le]; norm_num; constructor <;> linarith [e2.1, e2.2]) (by norm_num) (by norm_num)
      have a2 := abs_le.1 ae
      norm_num at a2
      have b := sub_rne h.xf af
      obtain ⟨bf, be⟩ := b.err64 (-1) (by rw [abs_le]; norm_num; constructor <;> linarith [n2.1, n2.2, a2.1, a2.2]) (by norm_num) (by norm_num)
      have b2 := abs_le.1 be
      norm_num at b2
      have s := add_rne bf (y := (1.0 : Flt f64)) (by decide +kernel)
      rw [one_val] at s
      have sb : |(x - (ee x c + V)).val + 1 - (Real.exp ρ - v)| ≤ 0.53 * (1 / 2 ^ 53) := by
        rw [abs_le]; norm_num; constructor <;> linarith [n2.1, n2.2, a2.1, a2.2, b2.1, b2.2]
      have s2 := abs_le.1 sb
      norm_num at s2
      have hv := abs_le.1 (s.err64 1 (by rw [abs_le]; norm_num; constructor <;> linarith [s2.1, s2.2]) (by norm_num) (by norm_num)).2
      norm_num at hv
      refine fin _ ?_ (by linarith [hv.1, s2.1]) (by linarith [hv.2, s2.2])
      refine WithinUlp.of_rne_abs2 (-1) s ?_ (one_lt_bias (by rw [f64_bias]; norm_num) tl) (by rw [f64_bias]; norm_num) sb (δ := 0.94) (by rw [f64_sb]; norm_num) (by norm_num) (by norm_num) (by norm_num)
      refine le_trans ?_ (le_abs_self _)
      norm_num; linarith

/-- the kernel after a reduction -/
theorem Red.kernel (h : Red x c ρ) {k : ℤ} (hk0 : -60 ≤ k) (hk1 : k ≤ 1024) (hk : k ≠ 0) (ht : k = 1024 → Real.exp ρ ≤ 1 - 1 / 2 ^ 47) :
    ∃ r, kernel x c k = some r ∧ WithinUlp 1.45 r (Real.exp ρ * 2 ^ k - 1) := by
  rw [kernel_eq, if_neg hk]
  by_cases h1 : k = -1
  · rw [if_pos h1]
    exact ⟨_, rfl, by rw [h1]; exact h.neg_one⟩
  rw [if_neg h1]
  by_cases h2 : k = 1
  · rw [if_pos h2]
    have qv : (-0.25 : Flt f64).val = -(1 / 4) := by
      rw [show (-0.25 : Flt f64) = -(0.25 : Flt f64) from rfl, val_neg, val_const64 1 1072 (-2) (by decide +kernel) (by norm_num)]; norm_num
    by_cases h3 : (x <ᶠ -0.25) = true
    · rw [if_pos h3]
      have := (lt_iff.1 h3).2.2
      rw [← val_lt_iff, qv] at this
      exact ⟨_, rfl, by rw [h2]; exact h.one_low this⟩
    · rw [if_neg h3]
      have : -(1 / 4) ≤ x.val := by
        by_contra hc
        rw [not_le, ← qv] at hc
        exact h3 (lt_iff.2 ⟨not_nan_of_finite h.xf, by decide +kernel, val_lt_iff.1 hc⟩)
      exact ⟨_, rfl, by rw [h2]; exact h.one_high this⟩
  rw [if_neg h2]
  exact h.scaled hk0 hk1 (by omega) ht

/-- the kernel without a reduction -/
theorem kernel_zero {x c : Flt f64} (xf : x.isFinite) (bx : |x.val| ≤ 355 / 2 ^ 10) (h0 : 2 ^ (-900 : ℤ) ≤ |x.val|) :
    ∃ r, kernel x c 0 = some r ∧ WithinUlp 1.45 r (Real.exp x.val - 1) := by
  rw [kernel_eq, if_pos rfl]
  refine ⟨_, rfl, ?_⟩
  obtain ⟨sf, se⟩ := s_rel xf bx h0
  have ha := approx (r := x.val) (bx.trans (by norm_num))
  have hl := lower (r := x.val) (bx.trans (by norm_num))
  have r := sub_rne xf sf
  have a0 : 0 < |x.val| := lt_of_lt_of_le (zp _) h0
  have hne : Real.exp x.val - 1 ≠ 0 := by
    intro hc
    rw [hc, abs_zero] at hl
    norm_num at hl; linarith
  have tb : |Real.exp x.val - 1| < 2 := by
    have := exp_range' (r := x.val) (bx.trans (by norm_num))
    rw [abs_lt]; norm_num at this ⊢; constructor <;> linarith [this.1, this.2]
  refine WithinUlp.of_rne_two r hne (one_lt_bias (by rw [f64_bias]; norm_num) tb) (by rw [f64_bias]; norm_num) (δ := 0.7) ?_ (by norm_num) (by norm_num)
  have hu := lt_ulpAt (F := f64) hne
  rw [f64_sb] at hu
  generalize (x * (hxs x * quo x) - hxs x).val = S at *
  generalize x.val * (x.val * (x.val / 2) * W x.val) - x.val * (x.val / 2) = A at *
  have e : x.val - S - (Real.exp x.val - 1) = (x.val - A - (Real.exp x.val - 1)) - (S - A) := by ring
  rw [e]
  refine (abs_sub _ _).trans ((add_le_add ha se).trans ?_)
  norm_num at hl hu ⊢
  linarith
end Expm1

namespace Expm1f
theorem pow2_val {n : ℤ} (h1 : 1 ≤ n) (h2 : n ≤ 254) : (bits32 (BitVec.ofInt 32 n <<< 23)).isFinite ∧ (bits32 (BitVec.ofInt 32 n <<< 23)).val = 2 ^ (n - 127) := by
  have a3 : (BitVec.ofInt 32 n <<< 23).toNat = n.toNat * 2 ^ 23 := by
    rw [BitVec.toNat_shiftLeft, BitVec.toNat_ofInt, Nat.shiftLeft_eq]
    omega
  have hlt : n.toNat * 2 ^ 23 < 2 ^ 31 := by omega
  generalize BitVec.ofInt 32 n <<< 23 = b at *
  have hmk := bits32_mk (b := b) (by rw [a3]; exact hlt)
  have hmb : (bits32 b).mb = n.toNat * 2 ^ 23 + 0 := by
    rw [hmk, mb_mk' (by rw [a3]; exact hlt), a3, add_zero]
  have hs : (bits32 b).sign = false := by rw [hmk]; exact sign_mk' (by rw [a3]; exact hlt)
  refine ⟨?_, ?_⟩
  · refine (isFinite32 _).2 (hmb.trans_lt ?_)
    have : n.toNat ≤ 254 := by omega
    clear hmb a3 hlt
    generalize n.toNat = K at this
    omega
  · have := abs_mk32 (x := bits32 b) (E := n.toNat) (m := 0) (by omega) (by norm_num) hmb
    rw [abs_of_nonneg (val_nonneg hs)] at this
    have hx : (23 : ℤ) + ((n.toNat : ℤ) - 150) = n - 127 := by omega
    rw [this, show ((2 ^ 23 + 0 : ℕ) : ℝ) = 2 ^ (23 : ℤ) by norm_num, ← zpow_add₀ (by norm_num), hx]

theorem two_val : (2.0 : Flt f32).val = 2 := by
  rw [val_const32 1 150 1 (by decide +kernel) (by norm_num)]; norm_num
theorem big_val : (bits32 0x7f000000).val = 2 ^ (127 : ℤ) := by
  rw [val_const32 1 276 127 (by decide +kernel) (by norm_num)]; rw [Int.cast_one, one_mul]

theorem kernel_eq (x c : Flt f32) (k : ℤ) : kernel x c k =
    if k = 0 then some (x - (x * (hxs x * quo x) - hxs x))
    else if k = -1 then some (0.5 * (x - ee x c) - 0.5)
    else if k = 1 then
      if (x <ᶠ -0.25) = true then some (-2.0 * (ee x c - (x + 0.5))) else some (1.0 + 2.0 * (x - ee x c))
    else scale x (ee x c) k := rfl

/-- what the reduction leaves: `x + c ≈ ρ` -/
structure Red (x c : Flt f32) (ρ : ℝ) : Prop where
  xf : x.isFinite
  bx : |x.val| ≤ 89 / 2 ^ 8
  cf : c.isFinite
  bc : |c.val| ≤ 0.26 * (1 / 2 ^ 24)
  er : |x.val + c.val - ρ| ≤ 1.3 / 2 ^ 32
  hρ : |ρ| ≤ 0.34662

variable {x c : Flt f32} {ρ : ℝ}

theorem Red.near (h : Red x c ρ) : (ee x c).isFinite ∧ |x.val - (ee x c).val - (Real.exp ρ - 1)| ≤ 0.215 * (1 / 2 ^ 24) ∧ |(ee x c).val| ≤ 0.0685 := by
  have hE := ee_ap h.xf h.bx h.cf (h.bc.trans (by norm_num))
  have ha := approx (r := x.val) (h.bx.trans (by norm_num))
  have hs := exp_shift (h.bx.trans (by norm_num)) h.bc h.er (b := 0.3 * (1 / 2 ^ 24)) (by norm_num) (by norm_num)
  have hx := mul_le_mul_of_nonneg_left h.bx (show (0 : ℝ) ≤ 1 / 2 ^ 30 by norm_num)
  refine ⟨hE.fin, ?_, hE.bd.trans (by norm_num)⟩
  have h1 := abs_le.1 hE.err
  have h2 := abs_le.1 (ha.trans hx)
  have h3 := abs_le.1 hs
  have e : x.val * (x.val * (x.val / 2) * W x.val - c.val) - c.val - x.val * (x.val / 2) = (x.val * (x.val * (x.val / 2) * W x.val) - x.val * (x.val / 2)) - c.val * (1 + x.val) := by ring
  rw [e] at h1
  generalize x.val * (x.val * (x.val / 2) * W x.val) - x.val * (x.val / 2) = A at *
  generalize c.val * (1 + x.val) = B at *
  generalize Real.exp ρ = E at *
  generalize Real.exp x.val = E' at *
  rw [abs_le]
  norm_num at h1 h2 h3 ⊢
  constructor <;> linarith [h1.1, h1.2, h2.1, h2.2, h3.1, h3.2]

/-- the difference `x - e` -/
theorem Red.diff (h : Red x c ρ) : (x - ee x c).isFinite ∧ |(x - ee x c).val - (Real.exp ρ - 1)| ≤ 0.465 * (1 / 2 ^ 24) ∧
    (|Real.exp ρ - 1| ≤ 0.2499 → |(x - ee x c).val - (Real.exp ρ - 1)| ≤ 0.34 * (1 / 2 ^ 24)) ∧
    (|Real.exp ρ - 1| ≤ 0.06 → |(x - ee x c).val - (Real.exp ρ - 1)| ≤ 0.2463 * (1 / 2 ^ 24)) := by
  obtain ⟨ef, ne, -⟩ := h.near
  obtain ⟨t1, t2⟩ := exp_tight h.hρ
  have n2 := abs_le.1 ne
  norm_num at n2 t1 t2
  have r := sub_rne h.xf ef
  refine ⟨?_, ?_, fun hg => ?_, fun hg => ?_⟩
  · exact (r.err32 (-1) (by rw [abs_le]; norm_num; constructor <;> linarith [n2.1, n2.2]) (by norm_num) (by norm_num)).1
  · have := (r.err32 (-1) (by rw [abs_le]; norm_num; constructor <;> linarith [n2.1, n2.2]) (by norm_num) (by norm_num)).2
    refine (abs_sub_le _ (x.val - (ee x c).val) _).trans ((add_le_add this ne).trans (by norm_num))
  · have hg := abs_le.1 hg
    have := (r.err32 (-2) (by rw [abs_le]; norm_num at hg ⊢; constructor <;> linarith [n2.1, n2.2]) (by norm_num) (by norm_num)).2
    refine (abs_sub_le _ (x.val - (ee x c).val) _).trans ((add_le_add this ne).trans (by norm_num))
  · have hg := abs_le.1 hg
    have := (r.err32 (-4) (by rw [abs_le]; norm_num at hg ⊢; constructor <;> linarith [n2.1, n2.2]) (by norm_num) (by norm_num)).2
    refine (abs_sub_le _ (x.val - (ee x c).val) _).trans ((add_le_add this ne).trans (by norm_num))

theorem Red.neg_one (h : Red x c ρ) : WithinUlp 1.45 (0.5 * (x - ee x c) - 0.5) (Real.exp ρ * 2 ^ (-1 : ℤ) - 1) := by
  obtain ⟨df, de, -⟩ := h.diff
  obtain ⟨t1, t2⟩ := exp_tight h.hρ
  have d2 := abs_le.1 de
  norm_num at d2 t1 t2
  obtain ⟨hf, he, -⟩ := half_ap df (by rw [abs_le]; constructor <;> linarith [d2.1, d2.2])
  have r := sub_rne hf (y := (0.5 : Flt f32)) (by decide +kernel)
  rw [half_val'] at r
  have h2 := abs_le.1 he
  norm_num at h2
  refine WithinUlp.of_rne_abs2 (-2) r ?_ (one_lt_bias (by rw [f32_bias]; norm_num) ?_) (by rw [f32_bias]; norm_num) (a := 0.24 * (1 / 2 ^ 24)) ?_ (δ := 0.48) (by rw [f32_sb]; norm_num) (by norm_num) (by norm_num) (by norm_num)
  · refine le_trans ?_ (neg_le_abs _)
    norm_num; linarith
  · rw [abs_lt]; norm_num; constructor <;> linarith
  · rw [abs_le]; norm_num; constructor <;> linarith [d2.1, d2.2, h2.1, h2.2]

theorem Red.one_low (h : Red x c ρ) (hx : x.val < -(1 / 4)) : WithinUlp 1.45 (-2.0 * (ee x c - (x + 0.5))) (Real.exp ρ * 2 ^ (1 : ℤ) - 1) := by
  obtain ⟨ef, ne, -⟩ := h.near
  obtain ⟨t1, t2⟩ := exp_tight h.hρ
  have n2 := abs_le.1 ne
  have bx := abs_le.1 h.bx
  norm_num at n2 t1 t2 bx
  have x1 : |x.val| = -x.val := abs_of_neg (by linarith)
  have hup : Real.exp ρ ≤ 0.81 := by
    have h1 := abs_le.1 h.er
    have h2 := abs_le.1 h.bc
    have h3 := Real.add_one_le_exp (-ρ)
    have h5 : Real.exp ρ * Real.exp (-ρ) = 1 := by rw [← Real.exp_add]; simp
    have h6 : Real.exp ρ * 1.24 ≤ 1 := by
      rw [← h5]; exact mul_le_mul_of_nonneg_left (by norm_num at h1 h2 ⊢; linarith [h1.1, h1.2, h2.1, h2.2]) (Real.exp_pos _).le
    norm_num at h6 ⊢; linarith
  norm_num at hup
  have hm : (2 : ℝ) ^ (1 - (f32.bias : ℤ)) ≤ 1 / 8 := by
    rw [f32_bias, show (1 / 8 : ℝ) = 2 ^ (-3 : ℤ) by norm_num]
    exact zpow_le_zpow_right₀ (by norm_num) (by norm_num)
  have hv : (-0.5 : Flt f32).val = -(1 / 2) := by rw [show (-0.5 : Flt f32) = -(0.5 : Flt f32) from rfl, val_neg, half_val']
  obtain ⟨sf, sv⟩ := sterbenz_val h.xf (y := (-0.5 : Flt f32)) (by decide +kernel) (by
      rw [hv, x1, abs_le]; constructor <;> linarith [bx.1]) (by
      rw [hv, abs_le, abs_neg, abs_of_pos (by norm_num)]; constructor <;> linarith [bx.1]) (by rw [x1]; linarith) (by
      rw [hv, abs_neg, abs_of_pos (by norm_num)]; linarith)
  have e : x - (-0.5 : Flt f32) = x + 0.5 := by
    rw [sub_eq_add_neg', show -(-0.5 : Flt f32) = (0.5 : Flt f32) by decide +kernel]
  rw [e] at sf sv
  rw [hv] at sv
  have r := sub_rne ef sf
  rw [sv] at r
  have hq : |(ee x c).val - (x.val - -(1 / 2)) - -(Real.exp ρ - 1 / 2)| ≤ 0.215 * (1 / 2 ^ 24) := by
    rw [abs_le]; norm_num; constructor <;> linarith [n2.1, n2.2]
  have w := WithinUlp.of_rne_abs2 (-3) r (t := -(Real.exp ρ - 1 / 2)) (by rw [abs_neg]; refine le_trans ?_ (le_abs_self _); norm_num; linarith)
    (one_lt_bias (by rw [f32_bias]; norm_num) (by rw [abs_neg, abs_lt]; constructor <;> linarith)) (by rw [f32_bias]; norm_num) hq (δ := 0.87) (c := 1.45) (by rw [f32_sb]; norm_num) (by norm_num) (by norm_num) (by norm_num)
  have rf := w.1
  have m := mul_rne (x := (-2.0 : Flt f32)) (by decide +kernel) rf
  have hv2 : (-2.0 : Flt f32).val = -2 := by rw [show (-2.0 : Flt f32) = -(2.0 : Flt f32) from rfl, val_neg, two_val]
  have hr := (r.err32 (-1) (by
    have := abs_le.1 hq; rw [abs_le]; norm_num at this ⊢; constructor <;> linarith [this.1, this.2]) (by norm_num) (by norm_num)).2
  have hr2 := abs_le.1 hr
  have hq2 := abs_le.1 hq
  norm_num at hr2 hq2
  obtain ⟨d, dfin, dv⟩ := scale_exact32 (x := -(ee x c - (x + 0.5))) 1 (by
      rw [val_neg, abs_mul, abs_neg, abs_of_pos (zp 1)]
      have : (1 / 8 : ℝ) ≤ |(ee x c - (x + 0.5)).val| := by
        refine le_trans ?_ (neg_le_abs _)
        linarith [hr2.2, hq2.1, hq2.2]
      refine (zpow_le_zpow_right₀ (a := (2 : ℝ)) (n := -3) (by norm_num) (by norm_num)).trans ?_
      norm_num; linarith) (by
      rw [val_neg, abs_mul, abs_neg, abs_of_pos (zp 1)]
      have : |(ee x c - (x + 0.5)).val| ≤ 1 := by
        rw [abs_le]; constructor <;> linarith [hr2.1, hr2.2, hq2.1, hq2.2]
      refine lt_of_lt_of_le (b := (2 : ℝ) ^ (2 : ℤ)) ?_ (zpow_le_zpow_right₀ (by norm_num) (by norm_num))
      norm_num; linarith)
  obtain ⟨mf, mv⟩ := m.exact_real dfin (by rw [dv, hv2, val_neg]; norm_num; ring)
  have := w.neg.scale_up (k := 1) (s := -2.0 * (ee x c - (x + 0.5))) (by
      rw [_root_.neg_neg]
      refine hm.trans (le_trans ?_ (le_abs_self _)); linarith) (by norm_num) mf (by rw [mv, hv2, val_neg]; norm_num; ring)
  rw [_root_.neg_neg] at this
  convert this using 1
  norm_num; ring

theorem Red.one_high (h : Red x c ρ) (hx : -(1 / 4) ≤ x.val) : WithinUlp 1.45 (1.0 + 2.0 * (x - ee x c)) (Real.exp ρ * 2 ^ (1 : ℤ) - 1) := by
  obtain ⟨df, de, de2, -⟩ := h.diff
  obtain ⟨t1, t2⟩ := exp_tight h.hρ
  have d2 := abs_le.1 de
  have hlo : 0.755 ≤ Real.exp ρ := by
    have h1 := abs_le.1 h.er
    have h2 := abs_le.1 h.bc
    have h3 := Real.add_one_le_exp (ρ / 2)
    have h4 : Real.exp ρ = Real.exp (ρ / 2) ^ 2 := by rw [← Real.exp_nat_mul]; congr 1; norm_num; ring
    rw [h4]
    have h5 : (0.87 : ℝ) ≤ Real.exp (ρ / 2) := by norm_num at h1 h2 ⊢; linarith [h1.1, h1.2, h2.1, h2.2]
    refine le_trans ?_ (pow_le_pow_left₀ (by norm_num) h5 2)
    norm_num
  norm_num at d2 t1 t2 hlo
  have m := mul_rne (x := (2.0 : Flt f32)) (by decide +kernel) df
  rw [two_val] at m
  have hm : (2.0 * (x - ee x c)).isFinite ∧ |(2.0 * (x - ee x c)).val - 2 * (x - ee x c).val| ≤ 1 / 2 ^ 120 := by
    by_cases hs : 2 ^ (-100 : ℤ) ≤ |(x - ee x c).val|
    · obtain ⟨d, dfin, dv⟩ := scale_exact32 (x := x - ee x c) 1 (by
        rw [abs_mul, abs_of_pos (zp 1)]
        refine (zpow_le_zpow_right₀ (a := (2 : ℝ)) (n := -100) (by norm_num) (by norm_num)).trans ?_
        norm_num at hs ⊢; linarith) (by
        rw [abs_mul, abs_of_pos (zp 1)]
        have : |(x - ee x c).val| ≤ 1 := by rw [abs_le]; constructor <;> linarith [d2.1, d2.2]
        refine lt_of_lt_of_le (b := (2 : ℝ) ^ (2 : ℤ)) ?_ (zpow_le_zpow_right₀ (by norm_num) (by norm_num))
        norm_num; linarith)
      obtain ⟨mf, mv⟩ := m.exact_real dfin (by rw [dv]; norm_num; ring)
      exact ⟨mf, by rw [mv, sub_self, abs_zero]; norm_num⟩
    · obtain ⟨a, b⟩ := m.err32 (-99) (by rw [abs_mul, abs_two]; norm_num at hs ⊢; linarith) (by norm_num) (by norm_num)
      exact ⟨a, b.trans (by norm_num)⟩
  obtain ⟨mf, me⟩ := hm
  have r := add_rne (x := (1.0 : Flt f32)) (by decide +kernel) mf
  rw [one_val] at r
  have m2 := abs_le.1 me
  norm_num at m2
  by_cases hc : 1 ≤ Real.exp ρ
  · refine WithinUlp.of_rne_abs2 0 r ?_ (one_lt_bias (by rw [f32_bias]; norm_num) ?_) (by rw [f32_bias]; norm_num) (a := 0.94 * (1 / 2 ^ 24)) ?_ (δ := 0.48) (by rw [f32_sb]; norm_num) (by norm_num) (by norm_num) (by norm_num)
    · refine le_trans ?_ (le_abs_self _)
      norm_num; linarith
    · rw [abs_lt]; norm_num; constructor <;> linarith
    · rw [abs_le]; norm_num; constructor <;> linarith [d2.1, d2.2, m2.1, m2.2]
  · rw [not_le] at hc
    have d3 := abs_le.1 (de2 (by rw [abs_le]; norm_num; constructor <;> linarith))
    norm_num at d3
    refine WithinUlp.of_rne_abs2 (-1) r ?_ (one_lt_bias (by rw [f32_bias]; norm_num) ?_) (by rw [f32_bias]; norm_num) (a := 0.69 * (1 / 2 ^ 24)) ?_ (δ := 0.7) (by rw [f32_sb]; norm_num) (by norm_num) (by norm_num) (by norm_num)
    · refine le_trans ?_ (le_abs_self _)
      norm_num; linarith
    · rw [abs_lt]; norm_num; constructor <;> linarith
    · rw [abs_le]; norm_num; constructor <;> linarith [d3.1, d3.2, m2.1, m2.2]

/-- multiplication of a number of order one by a power of two -/
theorem pow2_mul {y s : Flt f32} {k : ℤ} (yf : y.isFinite) (h1 : 1 / 4 ≤ y.val) (h2 : y.val < 2) (hk1 : -100 ≤ k) (hk2 : k ≤ 127) (sf : s.isFinite) (hs : s.val = 2 ^ k) :
    (y * s).isFinite ∧ (y * s).val = y.val * 2 ^ k := by
  have m := mul_rne yf sf
  rw [hs] at m
  have ya : |y.val| = y.val := abs_of_pos (by linarith)
  obtain ⟨d, dfin, dv⟩ := scale_exact32 (x := y) k (by
    rw [abs_mul, abs_of_pos (zp k), ya]
    refine (zpow_le_zpow_right₀ (a := (2 : ℝ)) (n := -2 + k) (by norm_num) (by omega)).trans ?_
    rw [zpow_add₀ (by norm_num)]
    exact mul_le_mul_of_nonneg_right (by norm_num; linarith) (zp k).le) (by
    rw [abs_mul, abs_of_pos (zp k), ya]
    refine lt_of_lt_of_le (mul_lt_mul_of_pos_right h2 (zp k)) ?_
    rw [← zpow_one_add₀ (by norm_num)]
    exact zpow_le_zpow_right₀ (by norm_num) (by omega))
  exact m.exact_real dfin dv

/-- the branch that subtracts one at the end -/
theorem Red.ends (h : Red x c ρ) {Y : Flt f32} {k : ℤ} (Yf : Y.isFinite) (Yv : Y.val = (x - ee x c + 1.0).val * 2 ^ k) (hk : k ≤ -2 ∨ 57 ≤ k) :
    WithinUlp 1.45 (Y - 1.0) (Real.exp ρ * 2 ^ k - 1) := by
  obtain ⟨df, de, de2, de3⟩ := h.diff
  obtain ⟨t1, t2⟩ := exp_tight h.hρ
  have d2 := abs_le.1 de
  norm_num at d2 t1 t2
  have r := add_rne df (y := (1.0 : Flt f32)) (by decide +kernel)
  rw [one_val] at r
  obtain ⟨yf, ye⟩ := r.err32 1 (by rw [abs_le]; norm_num; constructor <;> linarith [d2.1, d2.2]) (by norm_num) (by norm_num)
  set y := x - ee x c + 1.0 with hy
  have s := sub_rne Yf (y := (1.0 : Flt f32)) (by decide +kernel)
  rw [one_val] at s
  have M := zp k
  have y2 := abs_le.1 ye
  norm_num at y2
  rcases hk with hk | hk
  · have hM : (2 : ℝ) ^ k ≤ 1 / 4 := by
      rw [show (1 / 4 : ℝ) = 2 ^ (-2 : ℤ) by norm_num]
      exact zpow_le_zpow_right₀ (by norm_num) hk
    have p1 : |y.val - Real.exp ρ| * 2 ^ k ≤ 1.47 * (1 / 2 ^ 24) * (1 / 4) := by
      refine mul_le_mul ?_ hM M.le (by norm_num)
      rw [abs_le]; norm_num; constructor <;> linarith [d2.1, d2.2, y2.1, y2.2]
    have p2 : Real.exp ρ * 2 ^ k ≤ 1.4143 * (1 / 4) := mul_le_mul (by norm_num; linarith) hM M.le (by norm_num)
    have p3 : 0 < Real.exp ρ * 2 ^ k := mul_pos (Real.exp_pos _) M
    refine WithinUlp.of_rne_abs2 (-1) s ?_ (one_lt_bias (by rw [f32_bias]; norm_num) ?_) (by rw [f32_bias]; norm_num) (a := 0.37 * (1 / 2 ^ 24)) ?_ (δ := 0.37) (by rw [f32_sb]; norm_num) (by norm_num) (by norm_num) (by norm_num)
    · refine le_trans ?_ (neg_le_abs _)
      norm_num at p2 ⊢; linarith
    · rw [abs_lt]; norm_num at p2 ⊢; constructor <;> linarith
    · rw [Yv, show y.val * 2 ^ k - 1 - (Real.exp ρ * 2 ^ k - 1) = (y.val - Real.exp ρ) * 2 ^ k by ring, abs_mul, abs_of_pos M]
      exact p1.trans (by norm_num)
  · have hM : (2 : ℝ) ^ (57 : ℤ) ≤ 2 ^ k := zpow_le_zpow_right₀ (by norm_num) hk
    have hM1 : (1 : ℝ) ≤ 0.0626 * (1 / 2 ^ 24) * 2 ^ k := by norm_num at hM ⊢; linarith
    have p1 : (0.5 : ℝ) * 2 ^ k ≤ y.val * 2 ^ k := mul_le_mul_of_nonneg_right (by norm_num; linarith [d2.1, d2.2, y2.1, y2.2]) M.le
    have hthr := lt_overflow Yf
    have hthr' : |Y.val| < ((overflowThreshold f32 : ℚ) : ℝ) := by unfold Flt.val; exact_mod_cast hthr
    rw [Yv, abs_of_pos (by linarith)] at hthr'
    rw [Yv] at s
    obtain ⟨sf, sn⟩ := s.fin (by
      rw [abs_of_pos (by norm_num at hM p1 ⊢; linarith)]; linarith)
    have sn := sn Y Yf
    rw [Yv, show y.val * 2 ^ k - (y.val * 2 ^ k - 1) = 1 by ring, abs_one] at sn
    have tot : ∀ a : ℝ, |y.val - Real.exp ρ| ≤ a * (1 / 2 ^ 24) → |(Y - 1.0).val - (Real.exp ρ * 2 ^ k - 1)| ≤ (a + 0.0626) * (1 / 2 ^ 24) * 2 ^ k := by
      intro a ha
      have e : (Y - 1.0).val - (Real.exp ρ * 2 ^ k - 1) = ((Y - 1.0).val - (y.val * 2 ^ k - 1)) + (y.val - Real.exp ρ) * 2 ^ k := by ring
      rw [e]
      refine (abs_add_le _ _).trans ?_
      rw [abs_mul, abs_of_pos M]
      have := mul_le_mul_of_nonneg_right ha M.le
      linarith
    by_cases hc : 1 + 1 / 2 ^ 12 ≤ Real.exp ρ
    · refine WithinUlp.of_abs k sf ?_ (tot 1.47 ?_) ?_ (by norm_num)
      · refine le_trans ?_ (le_abs_self _)
        have := mul_le_mul_of_nonneg_right hc M.le
        norm_num at hM this ⊢; linarith
      · rw [abs_le]; norm_num; constructor <;> linarith [d2.1, d2.2, y2.1, y2.2]
      · rw [f32_sb, zpow_sub₀ (by norm_num)]; norm_num; linarith
    · rw [not_le] at hc
      norm_num at hc
      have h01 : (0.7 : ℝ) * 2 ^ k ≤ Real.exp ρ * 2 ^ k := mul_le_mul_of_nonneg_right (by norm_num; linarith) M.le
      refine WithinUlp.of_abs (k - 1) sf ?_ (tot 1.38 ?_) ?_ (by norm_num)
      · refine le_trans ?_ (le_abs_self _)
        rw [zpow_sub_one₀ (by norm_num)]
        norm_num at hM h01 ⊢; linarith
      · by_cases h1 : Real.exp ρ ≤ 1 - 1 / 2 ^ 12
        · obtain ⟨-, ye'⟩ := r.err32 0 (by norm_num at h1; rw [abs_le]; norm_num; constructor <;> linarith [d2.1, d2.2]) (by norm_num) (by norm_num)
          have y3 := abs_le.1 ye'
          norm_num at y3
          rw [abs_le]; norm_num; constructor <;> linarith [d2.1, d2.2, y3.1, y3.2]
        · norm_num at h1
          have d3 := abs_le.1 (de3 (by rw [abs_le]; norm_num; constructor <;> linarith))
          norm_num at d3
          rw [abs_le]; norm_num; constructor <;> linarith [d3.1, d3.2, y2.1, y2.2]
      · rw [f32_sb, zpow_sub₀ (by norm_num), zpow_sub_one₀ (by norm_num)]; norm_num; linarith

/-- every other exponent -/
theorem Red.scaled (h : Red x c ρ) {k : ℤ} (hk0 : -40 ≤ k) (hk1 : k ≤ 128) (hk : k ≤ -2 ∨ 2 ≤ k) (ht : k = 128 → Real.exp ρ ≤ 1 - 1 / 2 ^ 12) :
    ∃ r, scale x (ee x c) k = some r ∧ WithinUlp 1.45 r (Real.exp ρ * 2 ^ k - 1) := by
  obtain ⟨df, de, de2, de3⟩ := h.diff
  obtain ⟨ef, ne, eb⟩ := h.near
  obtain ⟨t1, t2⟩ := exp_tight h.hρ
  have d2 := abs_le.1 de
  norm_num at d2 t1 t2
  have r := add_rne df (y := (1.0 : Flt f32)) (by decide +kernel)
  rw [one_val] at r
  obtain ⟨yf, ye⟩ := r.err32 1 (by rw [abs_le]; norm_num; constructor <;> linarith [d2.1, d2.2]) (by norm_num) (by norm_num)
  have y2 := abs_le.1 ye
  norm_num at y2
  unfold scale
  rw [i32_some (by omega) (by omega)]
  simp only [Option.bind_some]
  by_cases hr : ¬ (0 ≤ k ∧ k ≤ 56)
  · rw [if_pos hr]
    refine ⟨_, rfl, ?_⟩
    have hk' : k ≤ -2 ∨ 57 ≤ k := by omega
    by_cases hk2 : k = 128
    · rw [if_pos hk2]
      have ht := ht hk2
      have hy1 : (x - ee x c + 1.0).val < 1 := by
        have pv : (bits32 0x3f7fffff).val = 16777215 * 2 ^ (-24 : ℤ) := by
          rw [val_const32 16777215 125 (-24) (by decide +kernel) (by norm_num)]; norm_num
        have := r.le_of_le yf (s := bits32 0x3f7fffff) (by decide +kernel) (by
          rw [pv]; norm_num at ht ⊢; linarith [d2.2])
        rw [pv] at this
        refine this.trans_lt (by norm_num)
      obtain ⟨af, av⟩ := pow2_mul yf (by linarith [d2.1, y2.1]) (by linarith) (k := 1) (s := (2.0 : Flt f32)) (by norm_num) (by norm_num) (by decide +kernel) (by rw [two_val]; norm_num)
      norm_num at av
      obtain ⟨bf, bv⟩ := pow2_mul af (by rw [av]; linarith [d2.1, y2.1]) (by rw [av]; linarith) (k := 127) (s := bits32 0x7f000000) (by norm_num) (by norm_num) (by decide +kernel) big_val
      refine h.ends bf ?_ hk'
      rw [bv, av, hk2, show (128 : ℤ) = 1 + 127 by norm_num, zpow_add₀ (by norm_num)]
      generalize (2 : ℝ) ^ (127 : ℤ) = P
      norm_num; ring
    · rw [if_neg hk2]
      obtain ⟨pf, pv⟩ := pow2_val (n := 0x7f + k) (by omega) (by omega)
      rw [show (0x7f + k - 127 : ℤ) = k by ring] at pv
      obtain ⟨bf, bv⟩ := pow2_mul yf (by linarith [d2.1, y2.1]) (by linarith [d2.2, y2.2]) (by omega) (by omega) pf pv
      exact h.ends bf bv hk'
  · rw [if_neg hr]
    rw [not_not] at hr
    rw [i32_some (by omega) (by omega)]
    simp only [Option.bind_some]
    obtain ⟨pf, pv⟩ := pow2_val (n := 0x7f + k) (by omega) (by omega)
    rw [show (0x7f + k - 127 : ℤ) = k by ring] at pv
    obtain ⟨uf, uv⟩ := pow2_val (n := 0x7f - k) (by omega) (by omega)
    rw [show (0x7f - k - 127 : ℤ) = -k by ring] at uv
    generalize bits32 (BitVec.ofInt 32 (0x7f + k) <<< 23) = P at *
    generalize bits32 (BitVec.ofInt 32 (0x7f - k) <<< 23) = V at *
    have v0 := zp (-k)
    have hk4 : (2 : ℝ) ^ (-k) ≤ 1 / 4 := by
      rw [show (1 / 4 : ℝ) = 2 ^ (-2 : ℤ) by norm_num]
      exact zpow_le_zpow_right₀ (by norm_num) (by omega)
    have et : Real.exp ρ * 2 ^ k - 1 = (Real.exp ρ - 2 ^ (-k)) * 2 ^ k := by
      rw [sub_mul, ← zpow_add₀ (by norm_num)]; simp
    have hmin : (2 : ℝ) ^ (1 - (f32.bias : ℤ)) ≤ 1 / 4 := by
      rw [f32_bias, show (1 / 4 : ℝ) = 2 ^ (-2 : ℤ) by norm_num]
      exact zpow_le_zpow_right₀ (by norm_num) (by norm_num)
    have fin : ∀ (S : Flt f32), WithinUlp 1.45 S (Real.exp ρ - 2 ^ (-k)) → 1 / 4 ≤ S.val → S.val < 2 → WithinUlp 1.45 (S * P) (Real.exp ρ * 2 ^ k - 1) := by
      intro S w s1 s2
      obtain ⟨mf, mv⟩ := pow2_mul w.1 s1 s2 (by omega) (by omega) pf pv
      rw [et]
      exact w.scale_up (hmin.trans (le_trans (by linarith) (le_abs_self _))) (by norm_num) mf mv
    have tl : |Real.exp ρ - 2 ^ (-k)| < 2 := by rw [abs_lt]; constructor <;> linarith
    by_cases hk20 : k < 23
    · rw [if_pos hk20]
      refine ⟨_, rfl, ?_⟩
      -- `1 - 2^-k` is exact
      have o := sub_rne (x := (1.0 : Flt f32)) (by decide +kernel) uf
      rw [one_val, uv] at o
      obtain ⟨d, dfin, dv⟩ := exists_val32' (n := 2 ^ k.toNat - 1) (k := -k) (by
        have h1 : (2 : ℤ) ^ k.toNat ≤ 2 ^ 24 := pow_le_pow_right₀ (by norm_num) (by omega)
        have h2 : (1 : ℤ) ≤ 2 ^ k.toNat := one_le_pow₀ (by norm_num)
        rw [_root_.abs_of_nonneg (by linarith)]; linarith) (by omega) (by omega)
      obtain ⟨of, ov⟩ := o.exact_real dfin (by
        rw [dv]; push_cast
        rw [sub_mul, one_mul, ← zpow_natCast, ← zpow_add₀ (by norm_num), show ((k.toNat : ℤ) + -k) = 0 by omega, zpow_zero])
      have s := add_rne df of
      rw [ov] at s
      have sb : |(x - ee x c).val + (1 - 2 ^ (-k)) - (Real.exp ρ - 2 ^ (-k))| ≤ 0.465 * (1 / 2 ^ 24) := by
        rw [show (x - ee x c).val + (1 - 2 ^ (-k)) - (Real.exp ρ - 2 ^ (-k)) = (x - ee x c).val - (Real.exp ρ - 1) by ring]; exact de
      generalize (2 : ℝ) ^ (-k) = v at *
      have hv := abs_le.1 (s.err32 1 (by rw [abs_le]; norm_num; constructor <;> linarith [d2.1, d2.2]) (by norm_num) (by norm_num)).2
      norm_num at hv
      refine fin _ ?_ (by linarith [hv.1, d2.1]) (by linarith [hv.2, d2.2])
      refine WithinUlp.of_rne_abs2 (-2) s ?_ (one_lt_bias (by rw [f32_bias]; norm_num) tl) (by rw [f32_bias]; norm_num) sb (δ := 0.94) (by rw [f32_sb]; norm_num) (by norm_num) (by norm_num) (by norm_num)
      refine le_trans ?_ (le_abs_self _)
      norm_num; linarith
    · rw [if_neg hk20]
      refine ⟨_, rfl, ?_⟩
      have hk5 : (2 : ℝ) ^ (-k) ≤ 1 / 2 ^ 23 := by
        rw [show (1 / 2 ^ 23 : ℝ) = 2 ^ (-23 : ℤ) by norm_num]
        exact zpow_le_zpow_right₀ (by norm_num) (by omega)
      have n2 := abs_le.1 ne
      have e2 := abs_le.1 eb
      generalize (2 : ℝ) ^ (-k) = v at *
      norm_num at hk5 n2 e2
      have a := add_rne ef uf
      rw [uv] at a
      obtain ⟨af, ae⟩ := a.err32 (-3) (by rw [abs_le]; norm_num; constructor <;> linarith [e2.1, e2.2]) (by norm_num) (by norm_num)
      have a2 := abs_le.1 ae
      norm_num at a2
      have b := sub_rne h.xf af
      obtain ⟨bf, be⟩ := b.err32 (-1) (by rw [abs_le]; norm_num; constructor <;> linarith [n2.1, n2.2, a2.1, a2.2]) (by norm_num) (by norm_num)
      have b2 := abs_le.1 be
      norm_num at b2
      have s := add_rne bf (y := (1.0 : Flt f32)) (by decide +kernel)
      rw [one_val] at s
      have sb : |(x - (ee x c + V)).val + 1 - (Real.exp ρ - v)| ≤ 0.53 * (1 / 2 ^ 24) := by
        rw [abs_le]; norm_num; constructor <;> linarith [n2.1, n2.2, a2.1, a2.2, b2.1, b2.2]
      have s2 := abs_le.1 sb
      norm_num at s2
      have hv := abs_le.1 (s.err32 1 (by rw [abs_le]; norm_num; constructor <;> linarith [s2.1, s2.2]) (by norm_num) (by norm_num)).2
      norm_num at hv
      refine fin _ ?_ (by linarith [hv.1, s2.1]) (by linarith [hv.2, s2.2])
      refine WithinUlp.of_rne_abs2 (-1) s ?_ (one_lt_bias (by rw [f32_bias]; norm_num) tl) (by rw [f32_bias]; norm_num) sb (δ := 0.94) (by rw [f32_sb]; norm_num) (by norm_num) (by norm_num) (by norm_num)
      refine le_trans ?_ (le_abs_self _)
      norm_num; linarith

/-- the kernel after a reduction -/
theorem Red.kernel (h : Red x c ρ) {k : ℤ} (hk0 : -40 ≤ k) (hk1 : k ≤ 128) (hk : k ≠ 0) (ht : k = 128 → Real.exp ρ ≤ 1 - 1 / 2 ^ 12) :
    ∃ r, kernel x c k = some r ∧ WithinUlp 1.45 r (Real.exp ρ * 2 ^ k - 1) := by
  rw [kernel_eq, if_neg hk]
  by_cases h1 : k = -1
  · rw [if_pos h1]
    exact ⟨_, rfl, by rw [h1]; exact h.neg_one⟩
  rw [if_neg h1]
  by_cases h2 : k = 1
  · rw [if_pos h2]
    have qv : (-0.25 : Flt f32).val = -(1 / 4) := by
      rw [show (-0.25 : Flt f32) = -(0.25 : Flt f32) from rfl, val_neg, val_const32 1 147 (-2) (by decide +kernel) (by norm_num)]; norm_num
    by_cases h3 : (x <ᶠ -0.25) = true
    · rw [if_pos h3]
      have := (lt_iff.1 h3).2.2
      rw [← val_lt_iff, qv] at this
      exact ⟨_, rfl, by rw [h2]; exact h.one_low this⟩
    · rw [if_neg h3]
      have : -(1 / 4) ≤ x.val := by
        by_contra hc
        rw [not_le, ← qv] at hc
        exact h3 (lt_iff.2 ⟨not_nan_of_finite h.xf, by decide +kernel, val_lt_iff.1 hc⟩)
      exact ⟨_, rfl, by rw [h2]; exact h.one_high this⟩
  rw [if_neg h2]
  exact h.scaled hk0 hk1 (by omega) ht

/-- the kernel without a reduction -/
theorem kernel_zero {x c : Flt f32} (xf : x.isFinite) (bx : |x.val| ≤ 89 / 2 ^ 8) (h0 : 2 ^ (-40 : ℤ) ≤ |x.val|) :
    ∃ r, kernel x c 0 = some r ∧ WithinUlp 1.45 r (Real.exp x.val - 1) := by
  rw [kernel_eq, if_pos rfl]
  refine ⟨_, rfl, ?_⟩
  obtain ⟨sf, se⟩ := s_rel xf bx h0
  have ha := approx (r := x.val) (bx.trans (by norm_num))
  have hl := lower (r := x.val) (bx.trans (by norm_num))
  have r := sub_rne xf sf
  have a0 : 0 < |x.val| := lt_of_lt_of_le (zp _) h0
  have hne : Real.exp x.val - 1 ≠ 0 := by
    intro hc
    rw [hc, abs_zero] at hl
    norm_num at hl; linarith
  have tb : |Real.exp x.val - 1| < 2 := by
    have := exp_range' (r := x.val) (bx.trans (by norm_num))
    rw [abs_lt]; norm_num at this ⊢; constructor <;> linarith [this.1, this.2]
  refine WithinUlp.of_rne_two r hne (one_lt_bias (by rw [f32_bias]; norm_num) tb) (by rw [f32_bias]; norm_num) (δ := 0.7) ?_ (by norm_num) (by norm_num)
  have hu := lt_ulpAt (F := f32) hne
  rw [f32_sb] at hu
  generalize (x * (hxs x * quo x) - hxs x).val = S at *
  generalize x.val * (x.val * (x.val / 2) * W x.val) - x.val * (x.val / 2) = A at *
  have e : x.val - S - (Real.exp x.val - 1) = (x.val - A - (Real.exp x.val - 1)) - (S - A) := by ring
  rw [e]
  refine (abs_sub _ _).trans ((add_le_add ha se).trans ?_)
  norm_num at hl hu ⊢
  linarith
end Expm1f

end Verif
