import Verif.Theory.Err

/-! # Rounding errors at f32 and f64 (instances of `Verif.Theory.Err` with literal exponents) -/

namespace Verif
namespace Flt

theorem f64_bias : f64.bias = 1023 := by decide
theorem f32_bias : f32.bias = 127 := by decide
theorem f64_sb : f64.sb = 52 := rfl
theorem f32_sb : f32.sb = 23 := rfl


section
variable {x y r : Flt f64}

theorem _root_.Verif.IsRNE.err64 {q : ℝ} (h : IsRNE q r) (k : ℤ) (hq : |q| ≤ 2 ^ k) (h1 : -1021 ≤ k)
    (h2 : k ≤ 1023) : r.isFinite ∧ |r.val - q| ≤ 2 ^ (k - 54) := by
  have := h.err k hq (by rw [f64_bias]; omega) (by rw [f64_bias]; omega)
  rw [f64_sb] at this
  rwa [show k - 54 = k - 2 - ((52 : ℕ) : ℤ) by push_cast; ring]

theorem _root_.Verif.IsRNE.rel64 {q : ℝ} (h : IsRNE q r) (h1 : 2 ^ (-1022 : ℤ) ≤ |q|) (h2 : |q| ≤ 3 / 2 * 2 ^ (1023 : ℤ)) :
    r.isFinite ∧ |r.val - q| ≤ |q| * 2 ^ (-53 : ℤ) := by
  have := h.rel (by rw [f64_bias]; exact h1) (by rw [f64_bias]; exact h2)
  rwa [f64_sb] at this

theorem add_err64 (hx : x.isFinite) (hy : y.isFinite) (k : ℤ) (h : |x.val + y.val| ≤ 2 ^ k) (hk : k ≤ 1023) :
    (x + y).isFinite ∧ |(x + y).val - (x.val + y.val)| ≤ 2 ^ (k - 54) := by
  have := add_err hx hy k h (by rw [f64_bias]; omega)
  rw [f64_sb] at this
  rwa [show k - 54 = k - 2 - ((52 : ℕ) : ℤ) by push_cast; ring]

theorem sub_err64 (hx : x.isFinite) (hy : y.isFinite) (k : ℤ) (h : |x.val - y.val| ≤ 2 ^ k) (hk : k ≤ 1023) :
    (x - y).isFinite ∧ |(x - y).val - (x.val - y.val)| ≤ 2 ^ (k - 54) := by
  have := sub_err hx hy k h (by rw [f64_bias]; omega)
  rw [f64_sb] at this
  rwa [show k - 54 = k - 2 - ((52 : ℕ) : ℤ) by push_cast; ring]

theorem add_rel64 (hx : x.isFinite) (hy : y.isFinite) (h : |x.val + y.val| ≤ 3 / 2 * 2 ^ (1023 : ℤ)) :
    (x + y).isFinite ∧ |(x + y).val - (x.val + y.val)| ≤ |x.val + y.val| * 2 ^ (-53 : ℤ) := by
  have := add_rel hx hy (by rw [f64_bias]; exact h)
  rwa [f64_sb] at this

theorem sub_rel64 (hx : x.isFinite) (hy : y.isFinite) (h : |x.val - y.val| ≤ 3 / 2 * 2 ^ (1023 : ℤ)) :
    (x - y).isFinite ∧ |(x - y).val - (x.val - y.val)| ≤ |x.val - y.val| * 2 ^ (-53 : ℤ) := by
  have := sub_rel hx hy (by rw [f64_bias]; exact h)
  rwa [f64_sb] at this

theorem mul_err64 (hx : x.isFinite) (hy : y.isFinite) (k : ℤ) (h : |x.val * y.val| ≤ 2 ^ k) (h1 : -1021 ≤ k)
    (hk : k ≤ 1023) : (x * y).isFinite ∧ |(x * y).val - x.val * y.val| ≤ 2 ^ (k - 54) :=
  (mul_rne hx hy).err64 k h h1 hk

theorem mul_rel64 (hx : x.isFinite) (hy : y.isFinite) (h1 : 2 ^ (-1022 : ℤ) ≤ |x.val * y.val|)
    (h2 : |x.val * y.val| ≤ 3 / 2 * 2 ^ (1023 : ℤ)) :
    (x * y).isFinite ∧ |(x * y).val - x.val * y.val| ≤ |x.val * y.val| * 2 ^ (-53 : ℤ) :=
  (mul_rne hx hy).rel64 h1 h2

theorem div_err64 (hx : x.isFinite) (hy : y.isFinite) (h0 : y.val ≠ 0) (k : ℤ) (h : |x.val / y.val| ≤ 2 ^ k)
    (h1 : -1021 ≤ k) (hk : k ≤ 1023) :
    (x / y).isFinite ∧ |(x / y).val - x.val / y.val| ≤ 2 ^ (k - 54) :=
  (div_rne hx hy (fun h => h0 (isZero_val.1 h))).err64 k h h1 hk

theorem div_rel64 (hx : x.isFinite) (hy : y.isFinite) (h0 : y.val ≠ 0) (h1 : 2 ^ (-1022 : ℤ) ≤ |x.val / y.val|)
    (h2 : |x.val / y.val| ≤ 3 / 2 * 2 ^ (1023 : ℤ)) :
    (x / y).isFinite ∧ |(x / y).val - x.val / y.val| ≤ |x.val / y.val| * 2 ^ (-53 : ℤ) :=
  (div_rne hx hy (fun h => h0 (isZero_val.1 h))).rel64 h1 h2

theorem exists_val64 {n k : ℤ} (hn : |n| ≤ 2 ^ 53) (hk : -1074 ≤ k)
    (hb : |(n : ℝ)| * 2 ^ k < 2 ^ (1024 : ℤ)) : ∃ c : Flt f64, c.isFinite ∧ c.val = n * 2 ^ k :=
  exists_val (F := f64) hn (by rw [f64_bias, f64_sb]; omega) (by rw [f64_bias]; exact hb)

/-- representable with small exponent: the usual side condition -/
theorem exists_val64' {n k : ℤ} (hn : |n| ≤ 2 ^ 53) (hk : -1074 ≤ k) (hb : k ≤ 970) :
    ∃ c : Flt f64, c.isFinite ∧ c.val = n * 2 ^ k :=
  exists_val64 hn hk (by
    have h1 : |(n : ℝ)| ≤ 2 ^ (53 : ℤ) := by exact_mod_cast hn
    calc |(n : ℝ)| * 2 ^ k ≤ 2 ^ (53 : ℤ) * 2 ^ (970 : ℤ) := by
          exact mul_le_mul h1 (zpow_le_zpow_right₀ (by norm_num) hb) (zp k).le (zp _).le
      _ < 2 ^ (1024 : ℤ) := by
          rw [← zpow_add₀ (by norm_num)]; exact zpow_lt_zpow_right₀ (by norm_num) (by norm_num))

theorem grid64 (x : Flt f64) (k : ℤ) (h : 2 ^ k ≤ |x.val|) : ∃ n : ℤ, x.val = n * 2 ^ (k - 52) := by
  have := grid x k h
  rwa [f64_sb] at this

theorem norm_form64 (h : 2 ^ (-1022 : ℤ) ≤ |x.val|) (hx : x.isFinite) :
    ∃ n e : ℤ, x.val = n * 2 ^ e ∧ 2 ^ 52 ≤ |n| ∧ |n| < 2 ^ 53 ∧ -1074 ≤ e ∧ e ≤ 971 := by
  obtain ⟨n, e, a, b, c, d, g⟩ := norm_form (by rw [f64_bias]; exact h) hx
  refine ⟨n, e, a, by rwa [f64_sb] at b, by rwa [f64_sb] at c, ?_, ?_⟩
  · rw [f64_bias, f64_sb] at d; omega
  · rw [f64_bias, f64_sb] at g; omega

theorem val_lt_top64 (hx : x.isFinite) : |x.val| < 2 ^ (1024 : ℤ) := by
  have := val_lt_top hx
  rwa [f64_bias] at this

theorem scale_exact64 (k : ℤ) (h1 : 2 ^ (-1022 : ℤ) ≤ |x.val * 2 ^ k|) (h2 : |x.val * 2 ^ k| < 2 ^ (1024 : ℤ)) :
    ∃ c : Flt f64, c.isFinite ∧ c.val = x.val * 2 ^ k :=
  scale_exact k (by rw [f64_bias]; exact h1) (by rw [f64_bias]; exact h2)

theorem scale_err64 (k : ℤ) (h : IsRNE (x.val * 2 ^ k) r) (hr : r.isFinite) :
    |r.val - x.val * 2 ^ k| ≤ 2 ^ (-1075 : ℤ) := by
  have := scale_err k h hr
  rwa [f64_bias, f64_sb] at this

theorem val_const64 (m : ℤ) (k : ℕ) (e : ℤ) (h : x.sval = m * 2 ^ k) (he : (k : ℤ) - 1074 = e) :
    x.val = m * (2 : ℝ) ^ e :=
  val_const m k e h (by rw [f64_bias, f64_sb]; omega)

end

section
variable {x y r : Flt f32}

theorem _root_.Verif.IsRNE.err32 {q : ℝ} (h : IsRNE q r) (k : ℤ) (hq : |q| ≤ 2 ^ k) (h1 : -125 ≤ k)
    (h2 : k ≤ 127) : r.isFinite ∧ |r.val - q| ≤ 2 ^ (k - 25) := by
  have := h.err k hq (by rw [f32_bias]; omega) (by rw [f32_bias]; omega)
  rw [f32_sb] at this
  rwa [show k - 25 = k - 2 - ((23 : ℕ) : ℤ) by push_cast; ring]

theorem _root_.Verif.IsRNE.rel32 {q : ℝ} (h : IsRNE q r) (h1 : 2 ^ (-126 : ℤ) ≤ |q|) (h2 : |q| ≤ 3 / 2 * 2 ^ (127 : ℤ)) :
    r.isFinite ∧ |r.val - q| ≤ |q| * 2 ^ (-24 : ℤ) := by
  have := h.rel (by rw [f32_bias]; exact h1) (by rw [f32_bias]; exact h2)
  rwa [f32_sb] at this

theorem add_err32 (hx : x.isFinite) (hy : y.isFinite) (k : ℤ) (h : |x.val + y.val| ≤ 2 ^ k) (hk : k ≤ 127) :
    (x + y).isFinite ∧ |(x + y).val - (x.val + y.val)| ≤ 2 ^ (k - 25) := by
  have := add_err hx hy k h (by rw [f32_bias]; omega)
  rw [f32_sb] at this
  rwa [show k - 25 = k - 2 - ((23 : ℕ) : ℤ) by push_cast; ring]

theorem sub_err32 (hx : x.isFinite) (hy : y.isFinite) (k : ℤ) (h : |x.val - y.val| ≤ 2 ^ k) (hk : k ≤ 127) :
    (x - y).isFinite ∧ |(x - y).val - (x.val - y.val)| ≤ 2 ^ (k - 25) := by
  have := sub_err hx hy k h (by rw [f32_bias]; omega)
  rw [f32_sb] at this
  rwa [show k - 25 = k - 2 - ((23 : ℕ) : ℤ) by push_cast; ring]

theorem add_rel32 (hx : x.isFinite) (hy : y.isFinite) (h : |x.val + y.val| ≤ 3 / 2 * 2 ^ (127 : ℤ)) :
    (x + y).isFinite ∧ |(x + y).val - (x.val + y.val)| ≤ |x.val + y.val| * 2 ^ (-24 : ℤ) := by
  have := add_rel hx hy (by rw [f32_bias]; exact h)
  rwa [f32_sb] at this

theorem sub_rel32 (hx : x.isFinite) (hy : y.isFinite) (h : |x.val - y.val| ≤ 3 / 2 * 2 ^ (127 : ℤ)) :
    (x - y).isFinite ∧ |(x - y).val - (x.val - y.val)| ≤ |x.val - y.val| * 2 ^ (-24 : ℤ) := by
  have := sub_rel hx hy (by rw [f32_bias]; exact h)
  rwa [f32_sb] at this

theorem mul_err32 (hx : x.isFinite) (hy : y.isFinite) (k : ℤ) (h : |x.val * y.val| ≤ 2 ^ k) (h1 : -125 ≤ k)
    (hk : k ≤ 127) : (x * y).isFinite ∧ |(x * y).val - x.val * y.val| ≤ 2 ^ (k - 25) :=
  (mul_rne hx hy).err32 k h h1 hk

theorem mul_rel32 (hx : x.isFinite) (hy : y.isFinite) (h1 : 2 ^ (-126 : ℤ) ≤ |x.val * y.val|)
    (h2 : |x.val * y.val| ≤ 3 / 2 * 2 ^ (127 : ℤ)) :
    (x * y).isFinite ∧ |(x * y).val - x.val * y.val| ≤ |x.val * y.val| * 2 ^ (-24 : ℤ) :=
  (mul_rne hx hy).rel32 h1 h2

theorem div_err32 (hx : x.isFinite) (hy : y.isFinite) (h0 : y.val ≠ 0) (k : ℤ) (h : |x.val / y.val| ≤ 2 ^ k)
    (h1 : -125 ≤ k) (hk : k ≤ 127) :
    (x / y).isFinite ∧ |(x / y).val - x.val / y.val| ≤ 2 ^ (k - 25) :=
  (div_rne hx hy (fun h => h0 (isZero_val.1 h))).err32 k h h1 hk

theorem div_rel32 (hx : x.isFinite) (hy : y.isFinite) (h0 : y.val ≠ 0) (h1 : 2 ^ (-126 : ℤ) ≤ |x.val / y.val|)
    (h2 : |x.val / y.val| ≤ 3 / 2 * 2 ^ (127 : ℤ)) :
    (x / y).isFinite ∧ |(x / y).val - x.val / y.val| ≤ |x.val / y.val| * 2 ^ (-24 : ℤ) :=
  (div_rne hx hy (fun h => h0 (isZero_val.1 h))).rel32 h1 h2

theorem exists_val32 {n k : ℤ} (hn : |n| ≤ 2 ^ 24) (hk : -149 ≤ k)
    (hb : |(n : ℝ)| * 2 ^ k < 2 ^ (128 : ℤ)) : ∃ c : Flt f32, c.isFinite ∧ c.val = n * 2 ^ k :=
  exists_val (F := f32) hn (by rw [f32_bias, f32_sb]; omega) (by rw [f32_bias]; exact hb)

/-- representable with small exponent: the usual side condition -/
theorem exists_val32' {n k : ℤ} (hn : |n| ≤ 2 ^ 24) (hk : -149 ≤ k) (hb : k ≤ 103) :
    ∃ c : Flt f32, c.isFinite ∧ c.val = n * 2 ^ k :=
  exists_val32 hn hk (by
    have h1 : |(n : ℝ)| ≤ 2 ^ (24 : ℤ) := by exact_mod_cast hn
    calc |(n : ℝ)| * 2 ^ k ≤ 2 ^ (24 : ℤ) * 2 ^ (103 : ℤ) := by
          exact mul_le_mul h1 (zpow_le_zpow_right₀ (by norm_num) hb) (zp k).le (zp _).le
      _ < 2 ^ (128 : ℤ) := by
          rw [← zpow_add₀ (by norm_num)]; exact zpow_lt_zpow_right₀ (by norm_num) (by norm_num))

theorem grid32 (x : Flt f32) (k : ℤ) (h : 2 ^ k ≤ |x.val|) : ∃ n : ℤ, x.val = n * 2 ^ (k - 23) := by
  have := grid x k h
  rwa [f32_sb] at this

theorem norm_form32 (h : 2 ^ (-126 : ℤ) ≤ |x.val|) (hx : x.isFinite) :
    ∃ n e : ℤ, x.val = n * 2 ^ e ∧ 2 ^ 23 ≤ |n| ∧ |n| < 2 ^ 24 ∧ -149 ≤ e ∧ e ≤ 104 := by
  obtain ⟨n, e, a, b, c, d, g⟩ := norm_form (by rw [f32_bias]; exact h) hx
  refine ⟨n, e, a, by rwa [f32_sb] at b, by rwa [f32_sb] at c, ?_, ?_⟩
  · rw [f32_bias, f32_sb] at d; omega
  · rw [f32_bias, f32_sb] at g; omega

theorem val_lt_top32 (hx : x.isFinite) : |x.val| < 2 ^ (128 : ℤ) := by
  have := val_lt_top hx
  rwa [f32_bias] at this

theorem scale_exact32 (k : ℤ) (h1 : 2 ^ (-126 : ℤ) ≤ |x.val * 2 ^ k|) (h2 : |x.val * 2 ^ k| < 2 ^ (128 : ℤ)) :
    ∃ c : Flt f32, c.isFinite ∧ c.val = x.val * 2 ^ k :=
  scale_exact k (by rw [f32_bias]; exact h1) (by rw [f32_bias]; exact h2)

theorem scale_err32 (k : ℤ) (h : IsRNE (x.val * 2 ^ k) r) (hr : r.isFinite) :
    |r.val - x.val * 2 ^ k| ≤ 2 ^ (-150 : ℤ) := by
  have := scale_err k h hr
  rwa [f32_bias, f32_sb] at this

theorem val_const32 (m : ℤ) (k : ℕ) (e : ℤ) (h : x.sval = m * 2 ^ k) (he : (k : ℤ) - 149 = e) :
    x.val = m * (2 : ℝ) ^ e :=
  val_const m k e h (by rw [f32_bias, f32_sb]; omega)

end

end Flt
end Verif
