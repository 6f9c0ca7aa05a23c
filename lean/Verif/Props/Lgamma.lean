import Verif.Theory.SinPi
import Verif.Props.Gamma
import Verif.Theory.Odd

/-! # C53: the logarithm of the Gamma function: totality, special values, poles and the sign -/

namespace Verif
open Flt

/-- `x` is zero or a negative integer -/
def IsGammaPole {F : Fmt} (x : Flt F) : Prop := x.isFinite ∧ ∃ n : ℕ, ((x.toRat : ℚ) : ℝ) = -(n : ℝ)

/-- `f` returns a logarithm of the absolute value of the Gamma function together with the sign of the Gamma function -/
structure IsLgammaSpecial {F : Fmt} (f : Flt F → Option (Flt F × ℤ)) : Prop where
  /-- no panic, no endless loop -/
  total : ∀ x, ∃ r, f x = some r
  nan : ∀ x r, x.isNaN → f x = some r → r.1.isNaN
  inf : ∀ x r, x.isInf → f x = some r → r.1 = inf F false
  pole : ∀ x r, IsGammaPole x → f x = some r → r.1 = Flt.inf F false
  /-- the two zeros are exact -/
  unit : ∀ x, x.isFinite → ((x.toRat : ℚ) : ℝ) = 1 ∨ ((x.toRat : ℚ) : ℝ) = 2 → f x = some (zero F false, 1)
  /-- the second component is the sign of `Γ x` -/
  sgn : ∀ x r, x.isFinite → ¬ IsGammaPole x → f x = some r → r.2 = if Real.Gamma ((x.toRat : ℚ) : ℝ) < 0 then -1 else 1
  /-- at the zeros it is the sign of the one-sided limit -/
  sgn_zero : ∀ x r, x.isZero → f x = some r → r.2 = if x.sign then -1 else 1

namespace Lgamma

theorem c2 : (2.0 : Flt f64).isFinite ∧ (2.0 : Flt f64).val = 2 := by
  refine ⟨by decide +kernel, ?_⟩
  rw [val_const64 2 1074 0 (by decide +kernel) (by norm_num)]
  norm_num
theorem c4 : (4.0 : Flt f64).isFinite ∧ (4.0 : Flt f64).val = 4 := by
  refine ⟨by decide +kernel, ?_⟩
  rw [val_const64 4 1074 0 (by decide +kernel) (by norm_num)]
  norm_num
theorem c2f : (2.0 : Flt f32).isFinite ∧ (2.0 : Flt f32).val = 2 := by
  refine ⟨by decide +kernel, ?_⟩
  rw [val_const32 2 149 0 (by decide +kernel) (by norm_num)]
  norm_num
theorem c4f : (4.0 : Flt f32).isFinite ∧ (4.0 : Flt f32).val = 4 := by
  refine ⟨by decide +kernel, ?_⟩
  rw [val_const32 4 149 0 (by decide +kernel) (by norm_num)]
  norm_num
theorem c5f : (0.5 : Flt f32).isFinite ∧ (0.5 : Flt f32).val = 1 / 2 := by
  refine ⟨by decide +kernel, ?_⟩
  rw [val_const32 1 148 (-1) (by decide +kernel) (by norm_num)]
  norm_num
theorem cpi : pi.isFinite ∧ |pi.val - 3.1415926535897931| ≤ 1 / 2 ^ 51 := by
  refine ⟨by decide +kernel, ?_⟩
  rw [val_const64 884279719003555 1026 (-48) (by decide +kernel) (by norm_num), abs_le]
  norm_num

/-- the remainder modulo two -/
theorem mod2 {a : ℝ} (ha : 0 < a) : let y := a - 2 * (⌊a / 2⌋ : ℝ)
    0 ≤ y ∧ y < 2 ∧ (y = 0 ∨ y = 1 ↔ ∃ n : ℤ, a = n) ∧ ((0 < y ∧ y < 1) ↔ (Even ⌊a⌋ ∧ ¬ ∃ n : ℤ, a = n)) := by
  intro y
  have h1 := Int.floor_le (a / 2)
  have h2 := Int.lt_floor_add_one (a / 2)
  have y0 : 0 ≤ y := by show 0 ≤ a - 2 * _; linarith
  have y2 : y < 2 := by show a - 2 * _ < 2; linarith
  set m := ⌊a / 2⌋
  have hy : a = y + 2 * m := by show a = a - 2 * m + 2 * m; ring
  have hfl : ⌊a⌋ = ⌊y⌋ + 2 * m := by
    rw [hy, show (2 : ℝ) * m = ((2 * m : ℤ) : ℝ) by push_cast; rfl, Int.floor_add_intCast]
  have hint : (∃ n : ℤ, a = n) ↔ y = 0 ∨ y = 1 := by
    constructor
    · rintro ⟨n, hn⟩
      have e : y = ((n - 2 * m : ℤ) : ℝ) := by push_cast; linarith
      rw [e] at y0 y2
      have : 0 ≤ n - 2 * m := by exact_mod_cast y0
      have : n - 2 * m < 2 := by exact_mod_cast y2
      have : n - 2 * m = 0 ∨ n - 2 * m = 1 := by omega
      rcases this with h | h
      · left; rw [e, h]; simp
      · right; rw [e, h]; simp
    · rintro (h | h)
      · exact ⟨2 * m, by push_cast; linarith⟩
      · exact ⟨2 * m + 1, by push_cast; linarith⟩
  refine ⟨y0, y2, hint.symm, ?_⟩
  rw [hint, hfl]
  rcases lt_or_ge y 1 with h | h
  · have : ⌊y⌋ = 0 := by rw [Int.floor_eq_iff]; push_cast; constructor <;> linarith
    rw [this]
    simp only [zero_add, even_two_mul, true_and, not_or]
    constructor
    · rintro ⟨a, b⟩; exact ⟨a.ne', by linarith⟩
    · rintro ⟨a, b⟩; exact ⟨lt_of_le_of_ne y0 (Ne.symm a), h⟩
  · have : ⌊y⌋ = 1 := by rw [Int.floor_eq_iff]; push_cast; constructor <;> linarith
    rw [this]
    constructor
    · rintro ⟨_, b⟩; linarith
    · rintro ⟨b, _⟩
      rw [Int.even_iff] at b
      omega

/-- what the sign of the sine tells -/
structure SinSign {G : Fmt} (t : Flt G) (a : ℝ) : Prop where
  fin : t.isFinite
  zer : t.val = 0 ↔ ∃ n : ℤ, a = n
  pos : 0 < t.val ↔ (Even ⌊a⌋ ∧ ¬ ∃ n : ℤ, a = n)

theorem four {F : Fmt} {y c : Flt F} (hb : 124 ≤ F.bias) (hf : y.isFinite) (h0 : 0 ≤ y.val) (h2 : y.val < 2) (hg : ∃ j : ℤ, y.val = j * 2 ^ (-122 : ℤ))
    (hc : c.isFinite) (h4 : c.val = 4) : (y * c).isFinite ∧ (y * c).val = 4 * y.val := by
  by_cases hy0 : y.val = 0
  · have := (mul_rne hf hc).exact_real (z := zero F false) (finite_of_zero (isZero_zero _)) (by rw [val_zero, hy0]; simp)
    rw [h4] at this
    exact ⟨this.1, by rw [this.2]; ring⟩
  · obtain ⟨j, hj⟩ := hg
    have hyp : 0 < y.val := lt_of_le_of_ne h0 (Ne.symm hy0)
    have hj1 : (2 : ℝ) ^ (-122 : ℤ) ≤ y.val := by
      have hjp : 0 < j := by
        rw [hj] at hyp
        have := pos_of_mul_pos_left hyp (zp (-122)).le
        exact_mod_cast this
      have : (1 : ℝ) ≤ j := by exact_mod_cast hjp
      rw [hj]
      nlinarith [zp (-122)]
    obtain ⟨d, hd, hdv⟩ := scale_exact (x := y) 2 (by
      rw [abs_of_pos (by positivity)]
      refine (zpow_le_zpow_right₀ (by norm_num) (by omega : 1 - (F.bias : ℤ) ≤ -122)).trans (hj1.trans ?_)
      norm_num
      linarith) (by
      rw [abs_of_pos (by positivity)]
      have : (2 : ℝ) ^ (3 : ℤ) ≤ 2 ^ ((F.bias : ℤ) + 1) := zpow_le_zpow_right₀ (by norm_num) (by omega)
      norm_num at this ⊢
      linarith)
    have := (mul_rne hf hc).exact_real hd (by rw [hdv, h4]; norm_num)
    rw [h4] at this
    exact ⟨this.1, by rw [this.2]; ring⟩

theorem sinPi_sign {x : Flt f64} (hf : x.isFinite) (hx : 2 ^ (-70 : ℤ) ≤ x.val) : SinSign (sinPi x) x.val := by
  have hp := zp (-70)
  have hx0 : 0 < x.val := by linarith
  obtain ⟨y1, y2⟩ := SinPi.red (c2 := 2.0) (c5 := 0.5) (by rw [f64_bias]; norm_num) hf (by
    rw [f64_bias]
    exact (zpow_le_zpow_right₀ (by norm_num) (by norm_num)).trans hx) c2.1 c2.2 Tgamma.half.1 Tgamma.half.2
  obtain ⟨m0, m2, mi, me⟩ := mod2 hx0
  obtain ⟨g, hg⟩ := grid x (-70) (by rw [abs_of_pos hx0]; exact hx)
  have hgy : ∃ j : ℤ, (2.0 * (x * 0.5 - Generic.floor (x * 0.5))).val = (j : ℝ) * 2 ^ (-122 : ℤ) := by
    refine ⟨g - ⌊x.val / 2⌋ * 2 ^ 123, ?_⟩
    rw [y2]
    nth_rw 1 [hg]
    rw [f64_sb]
    push_cast
    norm_num
    ring
  obtain ⟨q1, q2⟩ := four (c := 4.0) (by rw [f64_bias]; norm_num) y1 (by rw [y2]; exact m0) (by rw [y2]; exact m2) hgy c4.1 c4.2
  have hn : ((2.0 * (x * 0.5 - Generic.floor (x * 0.5))) * 4.0 : Flt f64).toSInt 32 = ⌊4 * (x.val - 2 * (⌊x.val / 2⌋ : ℝ))⌋ := by
    rw [toSInt_floor q1 (by rw [q2, y2]; linarith) (by rw [q2, y2]; norm_num; linarith), q2, y2]
  have A := SinPi.arg y1 (by rw [y2]; exact m0) (by rw [y2]; exact m2) hgy cpi.1 cpi.2
  simp only [y2] at A
  have := SinPi.final SinPi.kernD m0 m2 rfl A (t := sinPi x) (by
    unfold sinPi
    simp only [hn])
  exact ⟨this.1, this.2.1.trans mi, this.2.2.trans me⟩
end Lgamma

namespace Lgammaf
open Lgamma
theorem sinPi_sign {x : Flt f32} (hf : x.isFinite) (hx : 2 ^ (-21 : ℤ) ≤ x.val) : SinSign (sinPi x) x.val := by
  have hp := zp (-21)
  have hx0 : 0 < x.val := by linarith
  obtain ⟨y1, y2⟩ := SinPi.red (c2 := 2.0) (c5 := 0.5) (by rw [f32_bias]; norm_num) hf (by
    rw [f32_bias]
    exact (zpow_le_zpow_right₀ (by norm_num) (by norm_num)).trans hx) c2f.1 c2f.2 c5f.1 c5f.2
  obtain ⟨m0, m2, mi, me⟩ := mod2 hx0
  obtain ⟨g, hg⟩ := grid x (-21) (by rw [abs_of_pos hx0]; exact hx)
  have hgy : ∃ j : ℤ, (2.0 * (x * 0.5 - Generic.floor (x * 0.5))).val = (j : ℝ) * 2 ^ (-122 : ℤ) := by
    refine ⟨g * 2 ^ 78 - ⌊x.val / 2⌋ * 2 ^ 123, ?_⟩
    rw [y2]
    nth_rw 1 [hg]
    rw [f32_sb]
    push_cast
    norm_num
    ring
  obtain ⟨q1, q2⟩ := four (c := 4.0) (by rw [f32_bias]; norm_num) y1 (by rw [y2]; exact m0) (by rw [y2]; exact m2) hgy c4f.1 c4f.2
  have hn : ((2.0 * (x * 0.5 - Generic.floor (x * 0.5))) * 4.0 : Flt f32).toSInt 64 = ⌊4 * (x.val - 2 * (⌊x.val / 2⌋ : ℝ))⌋ := by
    rw [toSInt_floor q1 (by rw [q2, y2]; linarith) (by rw [q2, y2]; norm_num; linarith), q2, y2]
  obtain ⟨w1, w2⟩ := Hypotf.widen y1
  have cpi' : (3.14159265358979323846 : Flt f64).isFinite ∧ |(3.14159265358979323846 : Flt f64).val - 3.1415926535897931| ≤ 1 / 2 ^ 51 := by
    refine ⟨by decide +kernel, ?_⟩
    rw [val_const64 884279719003555 1026 (-48) (by decide +kernel) (by norm_num), abs_le]
    norm_num
  have A := SinPi.arg w1 (by rw [w2, y2]; exact m0) (by rw [w2, y2]; exact m2) (by rw [w2]; exact hgy) cpi'.1 cpi'.2
  simp only [w2, y2] at A
  have := SinPi.final SinPi.kernF m0 m2 rfl A (t := sinPi x) (by
    unfold sinPi
    simp only [hn])
  exact ⟨this.1, this.2.1.trans mi, this.2.2.trans me⟩
end Lgammaf

namespace Lgamma
/-- the sign of the Gamma function at the negative of a positive non-integer -/
theorem gamma_neg {a : ℝ} (hi : ¬ ∃ n : ℤ, a = n) (ha : 0 < a) : Real.Gamma (-a) < 0 ↔ Even ⌊a⌋ := by
  have hfr : Int.fract (-a) ≠ 0 := by
    intro h0
    apply hi
    refine ⟨-⌊-a⌋, ?_⟩
    have := Int.floor_add_fract (-a)
    push_cast
    linarith
  rw [(GammaR.sign (by linarith) hfr).2]
  have : ⌊-a⌋ = -⌊a⌋ - 1 := by
    rw [Int.floor_eq_iff]
    have h1 := Int.floor_le a
    have h2 := Int.lt_floor_add_one a
    have h3 : (⌊a⌋ : ℝ) ≠ a := fun h => hi ⟨_, h.symm⟩
    have h4 : (⌊a⌋ : ℝ) < a := lt_of_le_of_ne h1 h3
    push_cast
    constructor <;> linarith
  rw [this, Int.even_iff, Int.even_iff]
  omega

theorem zero_sub_self {F : Fmt} {x : Flt F} (hx : x.isFinite) : x - x = zero F false := by
  rw [sub_eq_add_neg', add_finite hx (by simpa using hx), if_pos (by rw [sval_neg]; omega)]
  congr 1
  cases h : x.sign <;> simp [h]

theorem pole_iff {F : Fmt} {x : Flt F} (hf : x.isFinite) (h : x.val < 0) : IsGammaPole x ↔ ∃ n : ℤ, (-x).val = n := by
  rw [val_neg]
  constructor
  · rintro ⟨-, n, hn⟩
    change x.val = _ at hn
    exact ⟨n, by rw [hn]; push_cast; ring⟩
  · rintro ⟨n, hn⟩
    refine ⟨hf, n.toNat, ?_⟩
    change x.val = _
    have : 0 ≤ n := by
      have : (0 : ℝ) < n := by linarith
      exact_mod_cast this.le
    have h2 : ((n.toNat : ℤ) : ℝ) = n := by rw [Int.toNat_of_nonneg this]
    rw [Int.cast_natCast] at h2
    linarith

theorem not_pole_pos {F : Fmt} {x : Flt F} (h : 0 < x.val) : ¬ IsGammaPole x := by
  rintro ⟨-, n, hn⟩
  change x.val = _ at hn
  have : (0 : ℝ) ≤ n := Nat.cast_nonneg n
  linarith

theorem gamma_pos {x : ℝ} (h : 0 < x) : (if Real.Gamma x < 0 then (-1 : ℤ) else 1) = 1 := by
  rw [if_neg (not_lt.2 (Real.Gamma_pos_of_pos h).le)]
end Lgamma

namespace Lgamma

theorem pos_total (x : Flt f64) : ∃ r, pos x = some r := by
  unfold pos
  simp only
  obtain ⟨l, hl⟩ := log_tot x
  rw [hl]
  split
  · exact ⟨_, rfl⟩
  split
  · split
    · exact ⟨_, rfl⟩
    split
    · exact ⟨_, rfl⟩
    split <;> exact ⟨_, rfl⟩
  split
  · unfold mid
    simp only
    split
    · exact map_total (log_tot _)
    · exact ⟨_, rfl⟩
  split <;> exact ⟨_, rfl⟩

theorem nonfin {x : Flt f64} (h : ¬ x.isFinite) : lgamma_r x = some (x * x, 1) := by
  unfold lgamma_r
  rw [isFinite64] at h
  simp only
  rw [if_pos (Tgamma.ix_ge.2 (by rw [show (0x7ff00000#32).toNat = 0x7ff00000 from rfl]; omega))]

theorem tiny {x : Flt f64} (h : x.mb < 0x3b90000000000000) : lgamma_r x = if x.sign then (log (-x)).map fun l => (-l, -1) else (log x).map fun l => (-l, 1) := by
  unfold lgamma_r
  simp only
  rw [if_neg (by rw [Tgamma.ix_ge, show (0x7ff00000#32).toNat = 0x7ff00000 from rfl]; omega), if_pos (Tgamma.ix_lt.2 (by rw [show (0x3b900000#32).toNat = 0x3b900000 from rfl]; omega))]

theorem chain {x : Flt f64} (hf : x.isFinite) (h : 0x3b90000000000000 ≤ x.mb) : lgamma_r x =
    if x.sign then
      if sinPi (-x) =ᶠ 0.0 then some (1.0 / (-x - -x), 1)
      else (log (pi / ((if sinPi (-x) >ᶠ 0.0 then sinPi (-x) else -sinPi (-x)) * -x))).bind fun nadj =>
        (pos (-x)).map fun r => (nadj - r, if sinPi (-x) >ᶠ 0.0 then -1 else 1)
    else (pos x).map fun r => (r, 1) := by
  rw [isFinite64] at hf
  conv_lhs => unfold lgamma_r
  simp only
  rw [if_neg (by rw [Tgamma.ix_ge, show (0x7ff00000#32).toNat = 0x7ff00000 from rfl]; omega), if_neg (by rw [Tgamma.ix_lt, show (0x3b900000#32).toNat = 0x3b900000 from rfl]; omega)]

theorem val_tiny {x : Flt f64} (h : 0x3b90000000000000 ≤ x.mb) : 2 ^ (-70 : ℤ) ≤ |x.val| := by
  have := val_ge_of_mb (x := x) (E := 0x3b9) (by norm_num) (by rw [f64_sb]; omega)
  rw [f64_bias] at this
  norm_num at this ⊢
  exact this

theorem zf : (0.0 : Flt f64).isFinite ∧ (0.0 : Flt f64).val = 0 := by
  have : (0.0 : Flt f64).isZero := by decide +kernel
  exact ⟨finite_of_zero this, isZero_val.1 this⟩

/-- everything the second component needs for negative arguments -/
theorem neg_sign {x : Flt f64} (hf : x.isFinite) (hs : x.sign = true) (hm : 0x3b90000000000000 ≤ x.mb) :
    ((sinPi (-x) =ᶠ 0.0) = true ↔ IsGammaPole x) ∧ (¬ IsGammaPole x → ((sinPi (-x) >ᶠ 0.0) = true ↔ Real.Gamma x.val < 0)) := by
  have h1 := val_tiny hm
  have h2 := val_nonpos hs
  have hp := zp (-70)
  have hx : x.val < 0 := by
    rw [abs_of_nonpos h2] at h1
    linarith
  have hnf : (-x).isFinite := by simpa using hf
  have S := sinPi_sign hnf (by rw [val_neg]; rwa [abs_of_neg hx] at h1)
  have e := Lgamma.pole_iff hf hx
  refine ⟨by rw [feq_val S.fin zf.1, zf.2, S.zer, e], fun hnp => ?_⟩
  rw [lt_iff, ← val_lt_iff, zf.2, S.pos]
  have hni : ¬ ∃ n : ℤ, (-x).val = n := fun h => hnp (e.2 h)
  have := Lgamma.gamma_neg hni (by rw [val_neg]; linarith)
  rw [show -(-x).val = x.val by rw [val_neg]; ring] at this
  rw [this]
  simp only [hni, not_false_eq_true, and_true, not_nan_of_finite S.fin, not_nan_of_finite zf.1, true_and]

theorem total (x : Flt f64) : ∃ r, lgamma_r x = some r := by
  by_cases hf : x.isFinite
  · rcases lt_or_ge x.mb 0x3b90000000000000 with hm | hm
    · rw [tiny hm]
      obtain ⟨l, hl⟩ := log_tot x
      obtain ⟨l2, hl2⟩ := log_tot (-x)
      rw [hl, hl2]
      split <;> exact ⟨_, rfl⟩
    · rw [chain hf hm]
      obtain ⟨r, hr⟩ := pos_total x
      obtain ⟨r2, hr2⟩ := pos_total (-x)
      obtain ⟨l, hl⟩ := log_tot (pi / ((if sinPi (-x) >ᶠ 0.0 then sinPi (-x) else -sinPi (-x)) * -x))
      rw [hr, hr2, hl]
      split
      · split <;> exact ⟨_, rfl⟩
      · exact ⟨_, rfl⟩
  · exact ⟨_, nonfin hf⟩

theorem mb_unit {x : Flt f64} (hf : x.isFinite) {n : ℕ} (c : Flt f64) (hc : c.isFinite) (hcv : c.val = n) (h0 : ¬ c.isZero) (hx : x.val = n) : x = c := by
  refine eq_of_val (by rw [hx, hcv]) ?_
  intro h
  exact h0 (isZero_val.2 h)
end Lgamma

/-- C53, binary64 -/
theorem lgamma_r_special : IsLgammaSpecial lgamma_r where
  total := Lgamma.total
  nan x r hx hr := by
    rw [Lgamma.nonfin (fun h => not_nan_of_finite h hx), mul_nan (Or.inl hx)] at hr
    obtain rfl := Option.some.inj hr
    exact isNaN_qnan
  inf x r hx hr := by
    rw [Lgamma.nonfin (fun h => not_inf_of_finite h hx), inf_mul hx (not_nan_of_inf hx) (fun h => not_inf_of_finite (finite_of_zero h) hx), Bool.xor_self] at hr
    obtain rfl := Option.some.inj hr
    rfl
  pole x r hp hr := by
    obtain ⟨hf, n, hn⟩ := hp
    change x.val = _ at hn
    rcases Nat.eq_zero_or_pos n with rfl | h0
    · have hz : x.isZero := isZero_val.2 (by rw [hn]; simp)
      have hzn : (-x).isZero := by simpa using hz
      have e : ∀ y : Flt f64, y.isZero → log y = some (Flt.inf f64 true) := fun y hy => log_domain.pole y (by
        rw [feq_val (finite_of_zero hy) (finite_of_zero (isZero_zero _)), isZero_val.1 hy, val_zero])
      rw [Lgamma.tiny (by rw [isZero_iff] at hz; omega), e _ hz, e _ hzn] at hr
      split at hr
      · obtain rfl := Option.some.inj hr
        show -Flt.inf f64 true = _
        decide +kernel
      · obtain rfl := Option.some.inj hr
        show -Flt.inf f64 true = _
        decide +kernel
    · have h1 : (1 : ℝ) ≤ n := by exact_mod_cast h0
      have hx : x.val < 0 := by linarith
      have hm : 0x3b90000000000000 ≤ x.mb := by
        by_contra hc
        have h := val_lt_of_mb (x := x) (E := 0x3b9) (by norm_num) (by rw [f64_sb]; omega)
        rw [abs_of_neg hx, f64_bias] at h
        have h2 : (2 : ℝ) ^ (((0x3b9 : ℕ) : ℤ) - (1023 : ℕ)) ≤ 1 := zpow_le_one_of_nonpos₀ (by norm_num) (by norm_num)
        linarith
      rw [Lgamma.chain hf hm, if_pos (sign_of_val_neg hx), if_pos ((Lgamma.neg_sign hf (sign_of_val_neg hx) hm).1.2 ⟨hf, n, hn⟩)] at hr
      obtain rfl := Option.some.inj hr
      rw [Lgamma.zero_sub_self (by simpa using hf)]
      decide +kernel
  unit x hf h := by
    change x.val = 1 ∨ x.val = 2 at h
    rcases h with h | h
    · rw [Lgamma.mb_unit hf (n := 1) 1.0 (by decide +kernel) (by rw [show (1.0 : Flt f64) = one f64 by decide +kernel, val_one]; simp) (by decide +kernel) (by rw [h]; simp)]
      decide +kernel
    · rw [Lgamma.mb_unit hf (n := 2) 2.0 (by decide +kernel) (by rw [Lgamma.c2.2]; norm_num) (by decide +kernel) (by rw [h]; norm_num)]
      decide +kernel
  sgn x r hf hnp hr := by
    change r.2 = if Real.Gamma x.val < 0 then -1 else 1
    have hv0 : x.val ≠ 0 := fun h => hnp ⟨hf, 0, by change x.val = _; rw [h]; simp⟩
    rcases lt_or_ge x.mb 0x3b90000000000000 with hm | hm
    · rw [Lgamma.tiny hm] at hr
      by_cases hs : x.sign = true
      · rw [if_pos hs] at hr
        obtain ⟨l, -, rfl⟩ := Option.map_eq_some_iff.1 hr
        have hx : x.val < 0 := lt_of_le_of_ne (val_nonpos hs) hv0
        have h := val_lt_of_mb (x := x) (E := 0x3b9) (by norm_num) (by rw [f64_sb]; omega)
        rw [abs_of_neg hx, f64_bias] at h
        have h2 : (2 : ℝ) ^ (((0x3b9 : ℕ) : ℤ) - (1023 : ℕ)) ≤ 1 := zpow_le_one_of_nonpos₀ (by norm_num) (by norm_num)
        have hfl : ⌊-x.val⌋ = 0 := by rw [Int.floor_eq_iff]; push_cast; constructor <;> linarith
        have := Lgamma.gamma_neg (a := -x.val) (by rw [← val_neg]; exact fun h => hnp ((Lgamma.pole_iff hf hx).2 h)) (by linarith)
        rw [_root_.neg_neg, hfl] at this
        rw [if_pos (this.2 (by norm_num))]
      · rw [if_neg hs] at hr
        obtain ⟨l, -, rfl⟩ := Option.map_eq_some_iff.1 hr
        have hx : 0 < x.val := lt_of_le_of_ne (val_nonneg (by simpa using hs)) (Ne.symm hv0)
        rw [Lgamma.gamma_pos hx]
    · rw [Lgamma.chain hf hm] at hr
      by_cases hs : x.sign = true
      · obtain ⟨h1, h2⟩ := Lgamma.neg_sign hf hs hm
        rw [if_pos hs, if_neg (fun h => hnp (h1.1 h))] at hr
        obtain ⟨l, -, hr⟩ := Option.bind_eq_some_iff.1 hr
        obtain ⟨l2, -, rfl⟩ := Option.map_eq_some_iff.1 hr
        simp only [h2 hnp]
      · rw [if_neg hs] at hr
        obtain ⟨l, -, rfl⟩ := Option.map_eq_some_iff.1 hr
        have hx : 0 < x.val := lt_of_le_of_ne (val_nonneg (by simpa using hs)) (Ne.symm hv0)
        rw [Lgamma.gamma_pos hx]
  sgn_zero x r hz hr := by
    rw [Lgamma.tiny (by rw [isZero_iff] at hz; omega)] at hr
    by_cases hs : x.sign = true
    · rw [if_pos hs] at hr ⊢
      obtain ⟨l, -, rfl⟩ := Option.map_eq_some_iff.1 hr
      rfl
    · rw [if_neg hs] at hr ⊢
      obtain ⟨l, -, rfl⟩ := Option.map_eq_some_iff.1 hr
      rfl

namespace Tgamma
theorem ix_ge32 {x : Flt f32} {c : BitVec 32} : x.u32 &&& 0x7fffffff#32 ≥ c ↔ c.toNat ≤ x.mb := by
  rw [ge_iff_le, BitVec.le_def, u32_abs]
theorem ix_lt32 {x : Flt f32} {c : BitVec 32} : x.u32 &&& 0x7fffffff#32 < c ↔ x.mb < c.toNat := by
  rw [BitVec.lt_def, u32_abs]
end Tgamma

namespace Lgammaf

theorem pos_total (x : Flt f32) : ∃ r, pos x = some r := by
  unfold pos
  simp only
  obtain ⟨l, hl⟩ := logf_tot x
  rw [hl]
  split
  · exact ⟨_, rfl⟩
  split
  · split
    · exact ⟨_, rfl⟩
    split
    · exact ⟨_, rfl⟩
    split <;> exact ⟨_, rfl⟩
  split
  · unfold mid
    simp only
    split
    · exact map_total (logf_tot _)
    · exact ⟨_, rfl⟩
  split <;> exact ⟨_, rfl⟩

theorem nonfin {x : Flt f32} (h : ¬ x.isFinite) : lgammaf_r x = some (x * x, 1) := by
  unfold lgammaf_r
  rw [isFinite32] at h
  simp only
  rw [if_pos (Tgamma.ix_ge32.2 (by rw [show (0x7f800000#32).toNat = 0x7f800000 from rfl]; omega))]

theorem tiny {x : Flt f32} (h : x.mb < 0x35000000) : lgammaf_r x = if x.sign then (logf (-x)).map fun l => (-l, -1) else (logf x).map fun l => (-l, 1) := by
  unfold lgammaf_r
  simp only
  rw [if_neg (by rw [Tgamma.ix_ge32, show (0x7f800000#32).toNat = 0x7f800000 from rfl]; omega), if_pos (Tgamma.ix_lt32.2 (by rw [show (0x35000000#32).toNat = 0x35000000 from rfl]; omega))]

theorem chain {x : Flt f32} (hf : x.isFinite) (h : 0x35000000 ≤ x.mb) : lgammaf_r x =
    if x.sign then
      if sinPi (-x) =ᶠ 0.0 then some (1.0 / (-x - -x), 1)
      else (logf (pi / ((if sinPi (-x) >ᶠ 0.0 then sinPi (-x) else -sinPi (-x)) * -x))).bind fun nadj =>
        (pos (-x)).map fun r => (nadj - r, if sinPi (-x) >ᶠ 0.0 then -1 else 1)
    else (pos x).map fun r => (r, 1) := by
  rw [isFinite32] at hf
  conv_lhs => unfold lgammaf_r
  simp only
  rw [if_neg (by rw [Tgamma.ix_ge32, show (0x7f800000#32).toNat = 0x7f800000 from rfl]; omega), if_neg (by rw [Tgamma.ix_lt32, show (0x35000000#32).toNat = 0x35000000 from rfl]; omega)]

theorem val_tiny {x : Flt f32} (h : 0x35000000 ≤ x.mb) : 2 ^ (-21 : ℤ) ≤ |x.val| := by
  have := val_ge_of_mb (x := x) (E := 0x6a) (by norm_num) (by rw [f32_sb]; omega)
  rw [f32_bias] at this
  norm_num at this ⊢
  exact this

theorem zf : (0.0 : Flt f32).isFinite ∧ (0.0 : Flt f32).val = 0 := by
  have : (0.0 : Flt f32).isZero := by decide +kernel
  exact ⟨finite_of_zero this, isZero_val.1 this⟩

/-- everything the second component needs for negative arguments -/
theorem neg_sign {x : Flt f32} (hf : x.isFinite) (hs : x.sign = true) (hm : 0x35000000 ≤ x.mb) :
    ((sinPi (-x) =ᶠ 0.0) = true ↔ IsGammaPole x) ∧ (¬ IsGammaPole x → ((sinPi (-x) >ᶠ 0.0) = true ↔ Real.Gamma x.val < 0)) := by
  have h1 := val_tiny hm
  have h2 := val_nonpos hs
  have hp := zp (-21)
  have hx : x.val < 0 := by
    rw [abs_of_nonpos h2] at h1
    linarith
  have hnf : (-x).isFinite := by simpa using hf
  have S := sinPi_sign hnf (by rw [val_neg]; rwa [abs_of_neg hx] at h1)
  have e := Lgamma.pole_iff hf hx
  refine ⟨by rw [feq_val S.fin zf.1, zf.2, S.zer, e], fun hnp => ?_⟩
  rw [lt_iff, ← val_lt_iff, zf.2, S.pos]
  have hni : ¬ ∃ n : ℤ, (-x).val = n := fun h => hnp (e.2 h)
  have := Lgamma.gamma_neg hni (by rw [val_neg]; linarith)
  rw [show -(-x).val = x.val by rw [val_neg]; ring] at this
  rw [this]
  simp only [hni, not_false_eq_true, and_true, not_nan_of_finite S.fin, not_nan_of_finite zf.1, true_and]

theorem total (x : Flt f32) : ∃ r, lgammaf_r x = some r := by
  by_cases hf : x.isFinite
  · rcases lt_or_ge x.mb 0x35000000 with hm | hm
    · rw [tiny hm]
      obtain ⟨l, hl⟩ := logf_tot x
      obtain ⟨l2, hl2⟩ := logf_tot (-x)
      rw [hl, hl2]
      split <;> exact ⟨_, rfl⟩
    · rw [chain hf hm]
      obtain ⟨r, hr⟩ := pos_total x
      obtain ⟨r2, hr2⟩ := pos_total (-x)
      obtain ⟨l, hl⟩ := logf_tot (pi / ((if sinPi (-x) >ᶠ 0.0 then sinPi (-x) else -sinPi (-x)) * -x))
      rw [hr, hr2, hl]
      split
      · split <;> exact ⟨_, rfl⟩
      · exact ⟨_, rfl⟩
  · exact ⟨_, nonfin hf⟩

theorem mb_unit {x : Flt f32} (hf : x.isFinite) {n : ℕ} (c : Flt f32) (hc : c.isFinite) (hcv : c.val = n) (h0 : ¬ c.isZero) (hx : x.val = n) : x = c := by
  refine eq_of_val (by rw [hx, hcv]) ?_
  intro h
  exact h0 (isZero_val.2 h)
end Lgammaf

/-- C53, binary32 -/
theorem lgammaf_r_special : IsLgammaSpecial lgammaf_r where
  total := Lgammaf.total
  nan x r hx hr := by
    rw [Lgammaf.nonfin (fun h => not_nan_of_finite h hx), mul_nan (Or.inl hx)] at hr
    obtain rfl := Option.some.inj hr
    exact isNaN_qnan
  inf x r hx hr := by
    rw [Lgammaf.nonfin (fun h => not_inf_of_finite h hx), inf_mul hx (not_nan_of_inf hx) (fun h => not_inf_of_finite (finite_of_zero h) hx), Bool.xor_self] at hr
    obtain rfl := Option.some.inj hr
    rfl
  pole x r hp hr := by
    obtain ⟨hf, n, hn⟩ := hp
    change x.val = _ at hn
    rcases Nat.eq_zero_or_pos n with rfl | h0
    · have hz : x.isZero := isZero_val.2 (by rw [hn]; simp)
      have hzn : (-x).isZero := by simpa using hz
      have e : ∀ y : Flt f32, y.isZero → logf y = some (Flt.inf f32 true) := fun y hy => logf_domain.pole y (by
        rw [feq_val (finite_of_zero hy) (finite_of_zero (isZero_zero _)), isZero_val.1 hy, val_zero])
      rw [Lgammaf.tiny (by rw [isZero_iff] at hz; omega), e _ hz, e _ hzn] at hr
      split at hr
      · obtain rfl := Option.some.inj hr
        show -Flt.inf f32 true = _
        decide +kernel
      · obtain rfl := Option.some.inj hr
        show -Flt.inf f32 true = _
        decide +kernel
    · have h1 : (1 : ℝ) ≤ n := by exact_mod_cast h0
      have hx : x.val < 0 := by linarith
      have hm : 0x35000000 ≤ x.mb := by
        by_contra hc
        have h := val_lt_of_mb (x := x) (E := 0x6a) (by norm_num) (by rw [f32_sb]; omega)
        rw [abs_of_neg hx, f32_bias] at h
        have h2 : (2 : ℝ) ^ (((0x6a : ℕ) : ℤ) - (127 : ℕ)) ≤ 1 := zpow_le_one_of_nonpos₀ (by norm_num) (by norm_num)
        linarith
      rw [Lgammaf.chain hf hm, if_pos (sign_of_val_neg hx), if_pos ((Lgammaf.neg_sign hf (sign_of_val_neg hx) hm).1.2 ⟨hf, n, hn⟩)] at hr
      obtain rfl := Option.some.inj hr
      rw [Lgamma.zero_sub_self (by simpa using hf)]
      decide +kernel
  unit x hf h := by
    change x.val = 1 ∨ x.val = 2 at h
    rcases h with h | h
    · rw [Lgammaf.mb_unit hf (n := 1) 1.0 (by decide +kernel) (by rw [show (1.0 : Flt f32) = one f32 by decide +kernel, val_one]; simp) (by decide +kernel) (by rw [h]; simp)]
      decide +kernel
    · rw [Lgammaf.mb_unit hf (n := 2) 2.0 (by decide +kernel) (by rw [Lgamma.c2f.2]; norm_num) (by decide +kernel) (by rw [h]; norm_num)]
      decide +kernel
  sgn x r hf hnp hr := by
    change r.2 = if Real.Gamma x.val < 0 then -1 else 1
    have hv0 : x.val ≠ 0 := fun h => hnp ⟨hf, 0, by change x.val = _; rw [h]; simp⟩
    rcases lt_or_ge x.mb 0x35000000 with hm | hm
    · rw [Lgammaf.tiny hm] at hr
      by_cases hs : x.sign = true
      · rw [if_pos hs] at hr
        obtain ⟨l, -, rfl⟩ := Option.map_eq_some_iff.1 hr
        have hx : x.val < 0 := lt_of_le_of_ne (val_nonpos hs) hv0
        have h := val_lt_of_mb (x := x) (E := 0x6a) (by norm_num) (by rw [f32_sb]; omega)
        rw [abs_of_neg hx, f32_bias] at h
        have h2 : (2 : ℝ) ^ (((0x6a : ℕ) : ℤ) - (127 : ℕ)) ≤ 1 := zpow_le_one_of_nonpos₀ (by norm_num) (by norm_num)
        have hfl : ⌊-x.val⌋ = 0 := by rw [Int.floor_eq_iff]; push_cast; constructor <;> linarith
        have := Lgamma.gamma_neg (a := -x.val) (by rw [← val_neg]; exact fun h => hnp ((Lgamma.pole_iff hf hx).2 h)) (by linarith)
        rw [_root_.neg_neg, hfl] at this
        rw [if_pos (this.2 (by norm_num))]
      · rw [if_neg hs] at hr
        obtain ⟨l, -, rfl⟩ := Option.map_eq_some_iff.1 hr
        have hx : 0 < x.val := lt_of_le_of_ne (val_nonneg (by simpa using hs)) (Ne.symm hv0)
        rw [Lgamma.gamma_pos hx]
    · rw [Lgammaf.chain hf hm] at hr
      by_cases hs : x.sign = true
      · obtain ⟨h1, h2⟩ := Lgammaf.neg_sign hf hs hm
        rw [if_pos hs, if_neg (fun h => hnp (h1.1 h))] at hr
        obtain ⟨l, -, hr⟩ := Option.bind_eq_some_iff.1 hr
        obtain ⟨l2, -, rfl⟩ := Option.map_eq_some_iff.1 hr
        simp only [h2 hnp]
      · rw [if_neg hs] at hr
        obtain ⟨l, -, rfl⟩ := Option.map_eq_some_iff.1 hr
        have hx : 0 < x.val := lt_of_le_of_ne (val_nonneg (by simpa using hs)) (Ne.symm hv0)
        rw [Lgamma.gamma_pos hx]
  sgn_zero x r hz hr := by
    rw [Lgammaf.tiny (by rw [isZero_iff] at hz; omega)] at hr
    by_cases hs : x.sign = true
    · rw [if_pos hs] at hr ⊢
      obtain ⟨l, -, rfl⟩ := Option.map_eq_some_iff.1 hr
      rfl
    · rw [if_neg hs] at hr ⊢
      obtain ⟨l, -, rfl⟩ := Option.map_eq_some_iff.1 hr
      rfl

/-- `Γ(-0.5) < 0`, and `-1.5` has a positive value; `-3` is a pole -/
example : (lgamma_r (ofNat f64 0xbfe0000000000000)).map (·.2) = some (-1) ∧ (lgamma_r (ofNat f64 0xbff8000000000000)).map (·.2) = some 1 ∧
    lgamma_r (ofNat f64 0xc008000000000000) = some (inf f64 false, 1) := by decide +kernel

/-- C53 for the functions that drop the sign -/
theorem lgamma_total (x : Flt f64) : ∃ r, lgamma x = some r := by
  obtain ⟨r, hr⟩ := lgamma_r_special.total x
  exact ⟨r.1, by rw [lgamma, hr]; rfl⟩
theorem lgammaf_total (x : Flt f32) : ∃ r, lgammaf x = some r := by
  obtain ⟨r, hr⟩ := lgammaf_r_special.total x
  exact ⟨r.1, by rw [lgammaf, hr]; rfl⟩

end Verif
