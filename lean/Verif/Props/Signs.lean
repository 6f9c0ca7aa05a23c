import Verif.Props.RangeHyp
import Verif.Props.InvHypAcc
import Verif.Props.AtanAcc
import Verif.Props.TanAccD

/-! # Signs: the trigonometric functions have the sign of the exact value, the odd functions the sign of their argument -/

namespace Verif
open Flt
variable {F : Fmt}

/-- `r` is positive, zero or negative exactly if the real `t` is -/
def HasSign (r : Flt F) (t : ℝ) : Prop := (0 < r.toRat ↔ 0 < t) ∧ (r.toRat = 0 ↔ t = 0) ∧ (r.toRat < 0 ↔ t < 0)

/-- For every finite argument in the domain `D` the function returns a finite float of the sign of `g x`. -/
def SignOf (f : Flt F → Option (Flt F)) (D : ℝ → Prop) (g : ℝ → ℝ) : Prop :=
  ∀ x : Flt F, x.isFinite → D ((x.toRat : ℚ) : ℝ) → ∃ r, f x = some r ∧ r.isFinite ∧ HasSign r (g ((x.toRat : ℚ) : ℝ))

namespace Signs

theorem mul_ulp_lt [StdFmt F] {t c : ℝ} (h0 : 0 ≤ c) (hc : c ≤ 6) (h : c * 2 ^ (1 - (F.bias : ℤ) - F.sb) < |t|) : c * ulpAt F t < |t| := by
  have ht : t ≠ 0 := by
    rintro rfl
    rw [abs_zero] at h
    exact absurd h (not_lt.2 (mul_nonneg h0 (zp _).le))
  have hp : 0 < |t| := abs_pos.2 ht
  have hsb : 4 ≤ F.sb := by
    rcases StdFmt.out (F := F) with rfl | rfl
    · rw [f64_sb]; norm_num
    · rw [f32_sb]; norm_num
  unfold ulpAt
  rw [if_neg ht]
  rcases le_total (Int.log 2 |t|) (1 - (F.bias : ℤ)) with hm | hm
  · rwa [max_eq_right hm]
  · rw [max_eq_left hm]
    have h1 : ((2 : ℕ) : ℝ) ^ Int.log 2 |t| ≤ |t| := Int.zpow_log_le_self (by norm_num) hp
    push_cast at h1
    have h2 : (2 : ℝ) ^ (Int.log 2 |t| - (F.sb : ℤ)) ≤ 2 ^ (Int.log 2 |t|) * (1 / 16) := by
      rw [show (1 / 16 : ℝ) = 2 ^ (-4 : ℤ) by norm_num, ← zpow_add₀ (by norm_num)]
      exact zpow_le_zpow_right₀ (by norm_num) (by omega)
    have h3 := zp (Int.log 2 |t| - (F.sb : ℤ))
    nlinarith

theorem fmt [StdFmt F] : (2 : ℝ) ^ (1 - (F.bias : ℤ) - F.sb) ≤ 2 ^ (-140 : ℤ) := by
  rcases StdFmt.out (F := F) with rfl | rfl
  · exact zpow_le_zpow_right₀ (by norm_num) (by rw [f64_bias, f64_sb]; norm_num)
  · exact zpow_le_zpow_right₀ (by norm_num) (by rw [f32_bias, f32_sb]; norm_num)

/-- at sixteen smallest subnormals and above -/
theorem ge16 {x : Flt F} (h : 16 ≤ x.mag) : 16 * (2 : ℝ) ^ (1 - (F.bias : ℤ) - F.sb) ≤ |x.val| := by
  rw [val_abs, ← ulp_real]
  have hu : (0 : ℝ) < ((F.ulp : ℚ) : ℝ) := by exact_mod_cast F.ulp_pos
  have : (16 : ℝ) ≤ x.mag := by exact_mod_cast h
  nlinarith

theorem self (x : Flt F) : HasSign x x.val := by
  refine ⟨?_, ?_, ?_⟩
  · show _ ↔ (0 : ℝ) < ((x.toRat : ℚ) : ℝ); exact_mod_cast Iff.rfl
  · show _ ↔ ((x.toRat : ℚ) : ℝ) = 0; exact_mod_cast Iff.rfl
  · show _ ↔ ((x.toRat : ℚ) : ℝ) < 0; exact_mod_cast Iff.rfl

/-- two reals of the same sign -/
def Same (a b : ℝ) : Prop := (0 < a ↔ 0 < b) ∧ (a < 0 ↔ b < 0)

theorem Same.zero {a b : ℝ} (h : Same a b) : a = 0 ↔ b = 0 := by
  obtain ⟨h1, h2⟩ := h
  constructor
  · rintro rfl
    have := h1.not.1 (lt_irrefl _); have := h2.not.1 (lt_irrefl _); linarith
  · rintro rfl
    have := h1.not.2 (lt_irrefl _); have := h2.not.2 (lt_irrefl _); linarith

theorem HasSign.same {r : Flt F} {a b : ℝ} (h : HasSign r a) (hs : Same a b) : HasSign r b :=
  ⟨h.1.trans hs.1, h.2.1.trans hs.zero, h.2.2.trans hs.2⟩

/-- an accurate result at an argument whose exact value is not much smaller than the argument -/
theorem near_id [StdFmt F] {c t : ℝ} (h0 : 0 ≤ c) (hc : c ≤ 6) {x r : Flt F} (h : WithinUlp c r t) (hs : x.mag < 16 → r = x)
    (hl : min |x.val| 1 / 2 ≤ |t|) (ht : Same t x.val) : HasSign r x.val := by
  rcases lt_or_ge x.mag 16 with hm | hm
  · rw [hs hm]; exact self x
  · refine HasSign.same (Range.sign_of h fun hne => mul_ulp_lt h0 hc (lt_of_lt_of_le ?_ hl)) ht
    have h1 := ge16 hm
    have h2 := fmt (F := F)
    have h3 := zp (1 - (F.bias : ℤ) - F.sb)
    have h4 : (2 : ℝ) ^ (1 - (F.bias : ℤ) - F.sb) ≤ 1 / 100 := h2.trans (by norm_num)
    clear h2
    have h5 : c * (2 : ℝ) ^ (1 - (F.bias : ℤ) - F.sb) ≤ 6 * 2 ^ (1 - (F.bias : ℤ) - F.sb) := mul_le_mul_of_nonneg_right hc h3.le
    rcases min_choice |x.val| 1 with e | e <;> rw [e] <;> linarith

/-- the argument of sign `s` and magnitude `k` smallest subnormals -/
def mk64 (s : Bool) (k : Fin 16) : Flt f64 := bits64 (BitVec.ofNat 64 (k + if s then 2 ^ 63 else 0))
def mk32 (s : Bool) (k : Fin 16) : Flt f32 := bits32 (BitVec.ofNat 32 (k + if s then 2 ^ 31 else 0))

theorem all64 {f : Flt f64 → Option (Flt f64)} (h : ∀ s k, f (mk64 s k) = some (mk64 s k)) {x : Flt f64} (hx : x.mag < 16) : f x = some x := by
  have hmk : ∀ s k, (mk64 s k).sign = s ∧ (mk64 s k).mag = k.val := by decide +kernel
  have := eq_of_sign_mag (x := x) (y := mk64 x.sign ⟨x.mag, hx⟩) (hmk _ _).1.symm (hmk x.sign ⟨x.mag, hx⟩).2.symm
  have h1 := h x.sign ⟨x.mag, hx⟩
  rwa [← this] at h1

theorem all32 {f : Flt f32 → Option (Flt f32)} (h : ∀ s k, f (mk32 s k) = some (mk32 s k)) {x : Flt f32} (hx : x.mag < 16) : f x = some x := by
  have hmk : ∀ s k, (mk32 s k).sign = s ∧ (mk32 s k).mag = k.val := by decide +kernel
  have := eq_of_sign_mag (x := x) (y := mk32 x.sign ⟨x.mag, hx⟩) (hmk _ _).1.symm (hmk x.sign ⟨x.mag, hx⟩).2.symm
  have h1 := h x.sign ⟨x.mag, hx⟩
  rwa [← this] at h1

/-! ### real functions -/

/-- a function of the sign of its argument, not much smaller than it next to zero -/
structure Odd1 (D : ℝ → Prop) (g : ℝ → ℝ) : Prop where
  same : ∀ t, D t → Same (g t) t
  lb : ∀ t, D t → min |t| 1 / 2 ≤ |g t|

theorem Odd1.of_pos {D : ℝ → Prop} {g : ℝ → ℝ} (hD : ∀ t, D t → D (-t)) (hn : ∀ t, g (-t) = -g t)
    (h : ∀ t, 0 < t → D t → min t 1 / 2 ≤ g t) : Odd1 D g := by
  have h0 : g 0 = 0 := by have := hn 0; rw [neg_zero] at this; linarith
  have hp : ∀ t, 0 < t → D t → 0 < g t := fun t ht hd => lt_of_lt_of_le (by have := lt_min ht one_pos; linarith) (h t ht hd)
  refine ⟨fun t hd => ?_, fun t hd => ?_⟩
  · rcases lt_trichotomy t 0 with h1 | h1 | h1
    · have := hp (-t) (by linarith) (hD t hd)
      rw [hn] at this
      exact ⟨⟨fun h => by linarith, fun h => by linarith⟩, ⟨fun _ => h1, fun _ => by linarith⟩⟩
    · rw [h1, h0]; exact ⟨Iff.rfl, Iff.rfl⟩
    · have := hp t h1 hd
      exact ⟨⟨fun _ => h1, fun _ => this⟩, ⟨fun h => by linarith, fun h => by linarith⟩⟩
  · rcases lt_trichotomy t 0 with h1 | h1 | h1
    · have := h (-t) (by linarith) (hD t hd)
      rw [hn] at this
      rw [abs_of_neg h1]
      exact this.trans (neg_le_abs _)
    · rw [h1, h0]; simp
    · rw [abs_of_pos h1]
      exact (h t h1 hd).trans (le_abs_self _)

theorem lb_of_ge {t y : ℝ} (ht : 0 < t) (h : t ≤ y) : min t 1 / 2 ≤ y := by
  have := min_le_left t 1; have := lt_min ht one_pos; linarith

theorem o_sinh (B : ℝ → Prop) (hB : ∀ t, B t → B (-t)) : Odd1 B Real.sinh :=
  Odd1.of_pos hB Real.sinh_neg fun _ ht _ => lb_of_ge ht (Real.self_le_sinh_iff.2 ht.le)

theorem o_arcsin : Odd1 (fun t => |t| ≤ 1) Real.arcsin :=
  Odd1.of_pos (fun t h => by rwa [abs_neg]) Real.arcsin_neg fun t ht h => lb_of_ge ht (by
    have h1 := (abs_le.1 h)
    have h2 : 0 ≤ Real.arcsin t := Real.arcsin_nonneg.2 ht.le
    have := Real.sin_le h2
    rwa [Real.sin_arcsin h1.1 h1.2] at this)


theorem frac_ge {t : ℝ} (ht : 0 < t) : min t 1 / 2 ≤ t / (1 + t) := by
  rw [div_le_div_iff₀ (by norm_num) (by linarith)]
  rcases min_choice t 1 with e | e
  · have := min_le_right t 1
    rw [e] at this ⊢
    nlinarith
  · have := min_le_left t 1
    rw [e] at this ⊢
    linarith

theorem o_arctan : Odd1 (fun _ => True) Real.arctan :=
  Odd1.of_pos (fun t h => h) Real.arctan_neg fun t ht _ => by
    have hm : 0 < min t 1 := lt_min ht one_pos
    have h1 : min t 1 ≤ 1 := min_le_right _ _
    refine le_trans ?_ (Real.arctan_strictMono.monotone (min_le_left t 1))
    generalize min t 1 = m at hm h1
    have hpi := Real.pi_gt_three
    have h2 : Real.tan (m / 2) ≤ m := by
      have hc : 1 / 2 ≤ Real.cos (m / 2) := by
        have := Real.one_sub_sq_div_two_le_cos (x := m / 2)
        nlinarith
      rw [Real.tan_eq_sin_div_cos, div_le_iff₀ (by linarith)]
      have := Real.sin_le (x := m / 2) (by linarith)
      nlinarith
    have h3 := Real.arctan_strictMono.monotone h2
    rwa [Real.arctan_tan (by linarith) (by linarith)] at h3

theorem o_arsinh : Odd1 (fun _ => True) Real.arsinh :=
  Odd1.of_pos (fun t h => h) Real.arsinh_neg fun t ht _ => by
    have hm : 0 < min t 1 := lt_min ht one_pos
    have h1 : min t 1 ≤ 1 := min_le_right _ _
    refine le_trans ?_ (Real.arsinh_strictMono.monotone (min_le_left t 1))
    generalize min t 1 = m at hm h1
    have h2 : Real.sinh (m / 2) ≤ m := by
      rw [Real.sinh_eq]
      have h3 := (abs_le.1 (Real.abs_exp_sub_one_sub_id_le (x := m / 2) (by rw [abs_of_pos (by linarith)]; linarith))).2
      have h4 := Real.add_one_le_exp (-(m / 2))
      nlinarith
    have h3 := Real.arsinh_strictMono.monotone h2
    rwa [Real.arsinh_sinh] at h3

theorem o_tanh : Odd1 (fun _ => True) Real.tanh :=
  Odd1.of_pos (fun t h => h) Real.tanh_neg fun t ht _ => by
    refine (frac_ge ht).trans ?_
    rw [Real.tanh_eq_sinh_div_cosh, Real.sinh_eq, Real.cosh_eq, div_le_div_iff₀ (by linarith) (by positivity)]
    have h1 := Real.add_one_le_exp t
    have h2 := Real.exp_pos (-t)
    have h3 : Real.exp t * Real.exp (-t) = 1 := by rw [← Real.exp_add]; simp
    have h4 : (1 + 2 * t) * Real.exp (-t) ≤ Real.exp t := by
      have h5 : 1 + 2 * t ≤ Real.exp t * Real.exp t := by nlinarith
      calc (1 + 2 * t) * Real.exp (-t) ≤ Real.exp t * Real.exp t * Real.exp (-t) := mul_le_mul_of_nonneg_right h5 h2.le
        _ = Real.exp t := by rw [mul_assoc, h3, mul_one]
    nlinarith

theorem o_artanh : Odd1 (fun t => |t| < 1) Real.artanh :=
  Odd1.of_pos (fun t h => by rwa [abs_neg]) IHyp.artanh_odd fun t ht h => by
    rw [abs_of_pos ht] at h
    refine (frac_ge ht).trans ?_
    rw [Real.artanh_eq_half_log (by constructor <;> linarith)]
    have h1 := Real.one_sub_inv_le_log_of_pos (x := (1 + t) / (1 - t)) (div_pos (by linarith) (by linarith))
    have h2 : 1 - ((1 + t) / (1 - t))⁻¹ = 2 * (t / (1 + t)) := by
      rw [inv_div]; field_simp; ring
    rw [h2] at h1
    linarith

theorem o_expm1 (B : ℝ → Prop) : Odd1 B (fun t => Real.exp t - 1) := by
  have h : ∀ t : ℝ, t < 0 → min |t| 1 / 2 ≤ -(Real.exp t - 1) := fun t h1 => by
    rw [abs_of_neg h1]
    refine (frac_ge (by linarith : 0 < -t)).trans ?_
    have h2 := Real.add_one_le_exp (-t)
    have h3 : Real.exp t * Real.exp (-t) = 1 := by rw [← Real.exp_add]; simp
    have h4 := Real.exp_pos t
    rw [div_le_iff₀ (by linarith)]
    nlinarith
  have h' : ∀ t : ℝ, t < 0 → Real.exp t - 1 < 0 := fun t h1 => by
    have := h t h1
    have := lt_min (abs_pos.2 h1.ne) one_pos
    linarith
  refine ⟨fun t _ => ?_, fun t _ => ?_⟩
  · rcases lt_trichotomy t 0 with h1 | h1 | h1
    · have := h' t h1
      exact ⟨⟨fun h => by linarith, fun h => by linarith⟩, ⟨fun _ => h1, fun _ => this⟩⟩
    · rw [h1, Real.exp_zero, sub_self]; exact ⟨Iff.rfl, Iff.rfl⟩
    · have := Real.add_one_le_exp t
      exact ⟨⟨fun _ => h1, fun _ => by linarith⟩, ⟨fun h => by linarith, fun h => by linarith⟩⟩
  · rcases lt_or_ge t 0 with h1 | h1
    · exact (h t h1).trans (neg_le_abs _)
    · have := Real.add_one_le_exp t
      have h2 := min_le_left |t| 1
      have h3 := le_abs_self (Real.exp t - 1)
      rw [abs_of_nonneg h1] at h2 ⊢
      linarith

theorem main [StdFmt F] {f : Flt F → Option (Flt F)} {D : ℝ → Prop} {g : ℝ → ℝ} {c : ℝ} (h0 : 0 ≤ c) (hc : c ≤ 6)
    (ho : Odd1 D g) (hs : ∀ x : Flt F, x.mag < 16 → f x = some x)
    (ha : ∀ x : Flt F, x.isFinite → D ((x.toRat : ℚ) : ℝ) → ∃ r, f x = some r ∧ WithinUlp c r (g ((x.toRat : ℚ) : ℝ))) :
    SignOf f D id := by
  intro x xf hD
  obtain ⟨r, h1, h2⟩ := ha x xf hD
  refine ⟨r, h1, h2.1, near_id h0 hc h2 (fun hm => ?_) (ho.lb _ hD) (ho.same _ hD)⟩
  have := hs x hm
  rw [h1] at this
  exact Option.some.inj this


/-! ### trigonometric functions -/

/-- the sine and cosine of a double are far from zero, except for the sine of an argument next to zero -/
theorem trig_lb {x : Flt f64} (xf : x.isFinite) : 2 ^ (-101 : ℤ) ≤ |Real.cos x.val| ∧
    (2 ^ (-101 : ℤ) ≤ |Real.sin x.val| ∨ |x.val| ≤ 0.7855) := by
  have hfin : x.mb < 0x7ff0000000000000 := by have := (isFinite64 x).1 xf; omega
  rcases lt_or_ge x.mb (0x3fe921fc * 2 ^ 32) with h | h
  · have hhi := thr_le (x := x) 0x3fe921fc 1647100 1053 (-21) (by omega) (by decide +kernel) (by decide +kernel) (by norm_num) (by norm_num)
    have h1 : |x.val| ≤ 0.7855 := hhi.trans (by norm_num)
    have h2 := cos_lower (r := x.val) (h1.trans (by norm_num))
    refine ⟨?_, Or.inr h1⟩
    refine le_trans ?_ (h2.trans (le_abs_self _))
    norm_num
  · obtain ⟨n, y0, y1, hr, N, hN, hnear⟩ := remPio2_quad Rpl.goodTbl_wide xf h
    have h1 := hnear.hi
    have h2 := hnear.lo
    have h3 := sin_lower (h1.trans (by norm_num))
    have h4 := cos_lower (h1.trans (by norm_num))
    have hs : (2 : ℝ) ^ (-101 : ℤ) ≤ |Real.sin (x.val - N * (Real.pi / 2))| := by
      refine le_trans ?_ h3
      norm_num at h2 ⊢
      linarith
    have hc : (2 : ℝ) ^ (-101 : ℤ) ≤ |Real.cos (x.val - N * (Real.pi / 2))| := by
      refine le_trans ?_ (h4.trans (le_abs_self _))
      norm_num
    rcases (by omega : N % 4 = 0 ∨ N % 4 = 1 ∨ N % 4 = 2 ∨ N % 4 = 3) with h | h | h | h
    · rw [(quad0 _ h).1] at hs; rw [(quad0 _ h).2] at hc; exact ⟨hc, Or.inl hs⟩
    · rw [(quad1 _ h).1, abs_neg] at hs; rw [(quad1 _ h).2] at hc; exact ⟨hs, Or.inl hc⟩
    · rw [(quad2 _ h).1, abs_neg] at hs; rw [(quad2 _ h).2, abs_neg] at hc; exact ⟨hc, Or.inl hs⟩
    · rw [(quad3 _ h).1] at hs; rw [(quad3 _ h).2, abs_neg] at hc; exact ⟨hs, Or.inl hc⟩

theorem widen_lb {x : Flt f32} (xf : x.isFinite) : 2 ^ (-101 : ℤ) ≤ |Real.cos x.val| ∧
    (2 ^ (-101 : ℤ) ≤ |Real.sin x.val| ∨ |x.val| ≤ 0.7855) := by
  have := trig_lb (Hypotf.widen xf).1
  rwa [(Hypotf.widen xf).2] at this

/-- the sine and tangent next to zero -/
theorem o_sin : Odd1 (fun t => |t| ≤ 0.7855) Real.sin :=
  Odd1.of_pos (fun t h => by rwa [abs_neg]) Real.sin_neg fun t ht h => by
    have h1 := sin_lower (r := t) (h.trans (by norm_num))
    have h2 := min_le_left t 1
    have h3 : 0 ≤ Real.sin t := Real.sin_nonneg_of_nonneg_of_le_pi ht.le (by
      have := Real.pi_gt_three; rw [abs_of_pos ht] at h; norm_num at h; linarith)
    rw [abs_of_nonneg h3, abs_of_pos ht] at h1
    linarith

theorem o_tan : Odd1 (fun t => |t| ≤ 0.7855) Real.tan :=
  Odd1.of_pos (fun t h => by rwa [abs_neg]) Real.tan_neg fun t ht h => lb_of_ge ht (by
    rw [abs_of_pos ht] at h
    exact Real.le_tan ht.le (by have := Real.pi_gt_three; norm_num at h; linarith))

theorem far [StdFmt F] {c t : ℝ} (h0 : 0 ≤ c) (hc : c ≤ 6) {r : Flt F} (h : WithinUlp c r t) (ht : 2 ^ (-101 : ℤ) ≤ |t|) : HasSign r t := by
  refine Range.sign_of h fun _ => mul_ulp_lt h0 hc (lt_of_lt_of_le ?_ ht)
  have h2 := fmt (F := F)
  have h3 := zp (1 - (F.bias : ℤ) - F.sb)
  have h5 : c * (2 : ℝ) ^ (1 - (F.bias : ℤ) - F.sb) ≤ 6 * 2 ^ (1 - (F.bias : ℤ) - F.sb) := mul_le_mul_of_nonneg_right hc h3.le
  refine lt_of_le_of_lt (h5.trans (mul_le_mul_of_nonneg_left h2 (by norm_num))) (by norm_num)

theorem Same.symm {a b : ℝ} (h : Same a b) : Same b a := ⟨h.1.symm, h.2.symm⟩

theorem trig [StdFmt F] {f : Flt F → Option (Flt F)} {g : ℝ → ℝ} {c : ℝ} (h0 : 0 ≤ c) (hc : c ≤ 6)
    (hl : ∀ x : Flt F, x.isFinite → 2 ^ (-101 : ℤ) ≤ |g x.val| ∨ |x.val| ≤ 0.7855)
    (ho : Odd1 (fun t => |t| ≤ 0.7855) g) (hs : ∀ x : Flt F, x.mag < 16 → f x = some x) (ha : AccurateTo c f g) :
    SignOf f (fun _ => True) g := by
  intro x xf _
  obtain ⟨r, h1, h2⟩ := ha x xf
  refine ⟨r, h1, h2.1, ?_⟩
  rcases hl x xf with h | h
  · exact far h0 hc h2 h
  · refine HasSign.same (near_id h0 hc h2 (fun hm => ?_) (ho.lb _ h) (ho.same _ h)) (ho.same _ h).symm
    have := hs x hm
    rw [h1] at this
    exact Option.some.inj this

theorem trigc [StdFmt F] {f : Flt F → Option (Flt F)} {c : ℝ} (h0 : 0 ≤ c) (hc : c ≤ 6)
    (hl : ∀ x : Flt F, x.isFinite → 2 ^ (-101 : ℤ) ≤ |Real.cos x.val|) (ha : AccurateTo c f Real.cos) :
    SignOf f (fun _ => True) Real.cos := by
  intro x xf _
  obtain ⟨r, h1, h2⟩ := ha x xf
  exact ⟨r, h1, h2.1, far h0 hc h2 (hl x xf)⟩

theorem tan_lb {t : ℝ} (h : 2 ^ (-101 : ℤ) ≤ |Real.sin t| ∨ |t| ≤ 0.7855) (hc : 2 ^ (-101 : ℤ) ≤ |Real.cos t|) :
    2 ^ (-101 : ℤ) ≤ |Real.tan t| ∨ |t| ≤ 0.7855 := h.imp_left fun h => by
  rw [Real.tan_eq_sin_div_cos, abs_div]
  have h1 := Real.abs_cos_le_one t
  have h2 : 0 < |Real.cos t| := lt_of_lt_of_le (zp _) hc
  rw [le_div_iff₀ h2]
  nlinarith [zp (-101)]

end Signs

/-- C74 for `sin` -/
theorem sin_sign : SignOf sin (fun _ => True) Real.sin :=
  Signs.trig (by norm_num) (by norm_num) (fun _ h => (Signs.trig_lb h).2) Signs.o_sin (fun _ => Signs.all64 (by decide +kernel)) sin_accurate
/-- C74 for `sinf` -/
theorem sinf_sign : SignOf sinf (fun _ => True) Real.sin :=
  Signs.trig (by norm_num) (by norm_num) (fun _ h => (Signs.widen_lb h).2) Signs.o_sin (fun _ => Signs.all32 (by decide +kernel)) sinf_accurate
/-- C74 for `cos` -/
theorem cos_sign : SignOf cos (fun _ => True) Real.cos :=
  Signs.trigc (by norm_num) (by norm_num) (fun _ h => (Signs.trig_lb h).1) cos_accurate
/-- C74 for `cosf` -/
theorem cosf_sign : SignOf cosf (fun _ => True) Real.cos :=
  Signs.trigc (by norm_num) (by norm_num) (fun _ h => (Signs.widen_lb h).1) cosf_accurate
/-- C74 for `tan` -/
theorem tan_sign : SignOf tan (fun _ => True) Real.tan :=
  Signs.trig (by norm_num) (by norm_num) (fun _ h => Signs.tan_lb (Signs.trig_lb h).2 (Signs.trig_lb h).1) Signs.o_tan
    (fun _ => Signs.all64 (by decide +kernel)) tan_accurate
/-- C74 for `tanf` -/
theorem tanf_sign : SignOf tanf (fun _ => True) Real.tan :=
  Signs.trig (by norm_num) (by norm_num) (fun _ h => Signs.tan_lb (Signs.widen_lb h).2 (Signs.widen_lb h).1) Signs.o_tan
    (fun _ => Signs.all32 (by decide +kernel)) tanf_accurate

/-- C74: the cosine of a double is never zero -/
theorem cos_nonzero (x : Flt f64) (xf : x.isFinite) : ∃ r, cos x = some r ∧ r.isFinite ∧ r.toRat ≠ 0 := by
  obtain ⟨r, h1, h2, h3⟩ := cos_sign x xf trivial
  refine ⟨r, h1, h2, fun h => ?_⟩
  have h4 := (Signs.trig_lb xf).1
  rw [show Real.cos x.val = 0 from h3.2.1.1 h, abs_zero] at h4
  exact absurd h4 (not_le.2 (zp _))
/-- C74: the cosine of a float is never zero -/
theorem cosf_nonzero (x : Flt f32) (xf : x.isFinite) : ∃ r, cosf x = some r ∧ r.isFinite ∧ r.toRat ≠ 0 := by
  obtain ⟨r, h1, h2, h3⟩ := cosf_sign x xf trivial
  refine ⟨r, h1, h2, fun h => ?_⟩
  have h4 := (Signs.widen_lb xf).1
  rw [show Real.cos x.val = 0 from h3.2.1.1 h, abs_zero] at h4
  exact absurd h4 (not_le.2 (zp _))

/-- C75 for `asin` -/
theorem asin_sign : SignOf asin (fun t => |t| ≤ 1) id :=
  Signs.main (by norm_num) (by norm_num) Signs.o_arcsin (fun _ => Signs.all64 (by decide +kernel)) asin_accurate
/-- C75 for `asinf` -/
theorem asinf_sign : SignOf asinf (fun t => |t| ≤ 1) id :=
  Signs.main (by norm_num) (by norm_num) Signs.o_arcsin (fun _ => Signs.all32 (by decide +kernel)) asinf_accurate
/-- C75 for `atan` -/
theorem atan_sign : SignOf atan (fun _ => True) id :=
  Signs.main (by norm_num) (by norm_num) Signs.o_arctan (fun _ => Signs.all64 (by decide +kernel)) fun x xf _ => atan_accurate x xf
/-- C75 for `atanf` -/
theorem atanf_sign : SignOf atanf (fun _ => True) id :=
  Signs.main (by norm_num) (by norm_num) Signs.o_arctan (fun _ => Signs.all32 (by decide +kernel)) fun x xf _ => atanf_accurate x xf
/-- C75 for `sinh` -/
theorem sinh_sign : SignOf sinh (fun t => |Real.sinh t| < (overflowThreshold f64 : ℝ)) id :=
  Signs.main (by norm_num) (by norm_num) (Signs.o_sinh _ fun t h => by rwa [Real.sinh_neg, abs_neg]) (fun _ => Signs.all64 (by decide +kernel)) sinh_accurate
/-- C75 for `sinhf`, outside the gap of `sinhf_nan_gap` -/
theorem sinhf_sign : SignOf sinhf (fun t => |Real.sinh t| < (overflowThreshold f32 : ℝ) ∧ (|t| ≤ 88.7216796875 ∨ 88.7228317 ≤ |t|)) id :=
  Signs.main (by norm_num) (by norm_num) (Signs.o_sinh _ fun t h => by rwa [Real.sinh_neg, abs_neg, abs_neg]) (fun _ => Signs.all32 (by decide +kernel))
    fun x xf h => sinhf_accurate x xf h.1 h.2
/-- C75 for `tanh` -/
theorem tanh_sign : SignOf tanh (fun _ => True) id :=
  Signs.main (by norm_num) (by norm_num) Signs.o_tanh (fun _ => Signs.all64 (by decide +kernel)) fun x xf _ => tanh_accurate x xf
/-- C75 for `tanhf` -/
theorem tanhf_sign : SignOf tanhf (fun _ => True) id :=
  Signs.main (by norm_num) (by norm_num) Signs.o_tanh (fun _ => Signs.all32 (by decide +kernel)) fun x xf _ => tanhf_accurate x xf
/-- C75 for `asinh` -/
theorem asinh_sign : SignOf asinh (fun _ => True) id :=
  Signs.main (by norm_num) (by norm_num) Signs.o_arsinh (fun _ => Signs.all64 (by decide +kernel)) fun x xf _ => asinh_accurate x xf
/-- C75 for `asinhf` -/
theorem asinhf_sign : SignOf asinhf (fun _ => True) id :=
  Signs.main (by norm_num) (by norm_num) Signs.o_arsinh (fun _ => Signs.all32 (by decide +kernel)) fun x xf _ => asinhf_accurate x xf
/-- C75 for `atanh` -/
theorem atanh_sign : SignOf atanh (fun t => |t| < 1) id :=
  Signs.main (by norm_num) (by norm_num) Signs.o_artanh (fun _ => Signs.all64 (by decide +kernel)) atanh_accurate
/-- C75 for `atanhf` -/
theorem atanhf_sign : SignOf atanhf (fun t => |t| < 1) id :=
  Signs.main (by norm_num) (by norm_num) Signs.o_artanh (fun _ => Signs.all32 (by decide +kernel)) atanhf_accurate
/-- C75 for `expm1` -/
theorem expm1_sign : SignOf expm1 (fun t => Real.exp t - 1 < ((overflowThreshold f64 : ℚ) : ℝ)) id :=
  Signs.main (by norm_num) (by norm_num) (Signs.o_expm1 _) (fun _ => Signs.all64 (by decide +kernel)) expm1_accurate
/-- C75 for `expm1f`, up to its own overflow threshold -/
theorem expm1f_sign : SignOf expm1f (fun t => t ≤ 88.7216796875) id :=
  Signs.main (by norm_num) (by norm_num) (Signs.o_expm1 _) (fun _ => Signs.all32 (by decide +kernel)) expm1f_accurate

/-- arguments to which these apply: the doubles next to pi/2 and pi, the smallest subnormal, the predecessor of one -/
example : (bits64 0x3ff921fb54442d18 : Flt f64).isFinite ∧ (bits64 0x400921fb54442d18 : Flt f64).isFinite ∧ (bits64 1 : Flt f64).isFinite ∧
    0 < (bits64 1 : Flt f64).toRat ∧ |(bits64 0x3fefffffffffffff : Flt f64).toRat| < 1 := by decide +kernel
example : |Real.sinh (((one f64).toRat : ℚ) : ℝ)| < (overflowThreshold f64 : ℝ) := by
  change |Real.sinh (one f64).val| < _
  rw [val_one, Real.abs_sinh, abs_one]
  refine (Real.sinh_lt_cosh 1).trans (lt_of_le_of_lt ?_ thr_std)
  rw [Real.cosh_eq]
  have h := Real.exp_one_lt_d9
  have h1 : Real.exp (-1) ≤ 1 := Real.exp_le_one_iff.2 (by norm_num)
  have h3 := hi_std (F := f64)
  generalize (2 : ℝ) ^ ((f64.bias : ℕ) : ℤ) = T at *
  norm_num at h h3 ⊢
  linarith

end Verif
