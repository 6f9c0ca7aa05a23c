import Verif.Theory.Trans
import Verif.Props.Exp
import Verif.Model.Log

/-!
# C31: domain handling of the logarithms
-/

namespace Verif
open Flt

/-- The claim about a logarithm `f` with a pole at `pole` and its zero at `root`: it never fails; NaN gives NaN; any
argument below the pole, `-inf` included, gives NaN; the pole itself gives `-inf`; `+inf` gives `+inf`; the root gives a
zero. -/
structure IsLogFn {F : Fmt} (f : Flt F → Option (Flt F)) (pole root : Flt F) : Prop where
  total : ∀ x, ∃ r, f x = some r
  nan : ∀ x : Flt F, x.isNaN → ∃ r, f x = some r ∧ r.isNaN
  domain : ∀ x : Flt F, (x <ᶠ pole) = true → ∃ r, f x = some r ∧ r.isNaN
  pole : ∀ x : Flt F, (x =ᶠ pole) = true → f x = some (inf F true)
  pinf : f (inf F false) = some (inf F false)
  root : ∀ x : Flt F, (x =ᶠ root) = true → ∃ r, f x = some r ∧ r.isZero

namespace Flt
variable {F : Fmt}

theorem sval_of_neg {x : Flt F} (h : x.sign = true) : x.sval = -(x.mag : ℤ) := by unfold sval; rw [if_pos h]
theorem sval_of_nonneg {x : Flt F} (h : x.sign = false) : x.sval = x.mag := by
  unfold sval; rw [if_neg (by rw [h]; decide)]

theorem one_mag_pos : 0 < (one F).mag := by rw [mag_one]; exact F.oneMag_pos

/-- numerically equal to one is being one -/
theorem sval_eq_one {x : Flt F} (h : x.sval = (one F).sval) : x = one F := by
  have hp := one_mag_pos (F := F)
  rw [sval_of_nonneg Flt.sign_one] at h
  cases hs : x.sign
  · rw [sval_of_nonneg hs] at h
    exact eq_of_sign_mag (by rw [hs, Flt.sign_one]) (by omega)
  · rw [sval_of_neg hs] at h; omega

theorem sval_eq_neg_one {x : Flt F} (h : x.sval = (-one F).sval) : x = -one F := by
  have : (-x).sval = (one F).sval := by rw [sval_neg, h, sval_neg, _root_.neg_neg]
  rw [← sval_eq_one this, neg_neg]

end Flt

namespace Log

theorem reduce_total (x : Flt f64) (hs : x.sign = false) (k0 : Int) (hk : |k0| ≤ 2 ^ 20) :
    ∃ r, reduce x k0 = some r := by
  have hm := mb64_lt x
  have hu := hi_toNat x
  rw [hs, if_neg (by decide)] at hu
  unfold reduce
  dsimp only
  have a1 : uadd (getHighWord x) (0x3ff00000#32 - 0x3fe6a09e#32) = some (getHighWord x + (0x3ff00000#32 - 0x3fe6a09e#32)) := by
    unfold uadd; rw [if_pos]
    rw [show (0x3ff00000#32 - 0x3fe6a09e#32).toNat = 614242 by rfl]
    omega
  rw [a1]
  simp only [Option.bind_some]
  generalize getHighWord x + (0x3ff00000#32 - 0x3fe6a09e#32) = w
  have hw : (w >>> 20).toNat < 4096 := by
    rw [BitVec.toNat_ushiftRight, Nat.shiftRight_eq_div_pow]
    have := w.isLt
    omega
  rw [abs_le] at hk
  have hk2 : i32 (k0 + (((w >>> 20).toNat : ℤ) - 0x3ff)) = some (k0 + (((w >>> 20).toNat : ℤ) - 0x3ff)) :=
    i32_some (by omega) (by omega)
  rw [hk2, Option.bind_some]
  have a2 : uadd (w &&& 0x000fffff#32) 0x3fe6a09e#32 = some ((w &&& 0x000fffff#32) + 0x3fe6a09e#32) := by
    unfold uadd; rw [if_pos]
    have e : (0x000fffff#32).toNat = 0x000fffff := rfl
    have : (w &&& 0x000fffff#32).toNat ≤ (0x000fffff#32).toNat := by rw [BitVec.toNat_and]; exact Nat.and_le_right
    rw [e] at this
    rw [show (0x3fe6a09e#32).toNat = 0x3fe6a09e by rfl]
    omega
  rw [a2]
  exact ⟨_, rfl⟩

theorem mul_sign {F : Fmt} {x y : Flt F} (hx : x.isFinite) (hy : y.isFinite) : (x * y).sign = (x.sign ^^ y.sign) := by
  rw [mul_finite hx hy, sign_roundMag]

theorem filter_eq (x : Flt f64) (body : Flt f64 → Int → Flt f64) : filter x body =
    if x.mb / 2 ^ 32 < 0x00100000 ∨ x.sign = true then
      if x.mb = 0 then some (-1.0 / (x * x))
      else if x.sign = true then some ((x - x) / 0.0)
      else (reduce (x * bits64 0x4350000000000000) (-54)).map fun (f, k) => body f k
    else if 0x7ff00000 ≤ x.mb / 2 ^ 32 then some x
    else if x.mb = 0x3ff0000000000000 then some 0.0
    else (reduce x 0).map fun (f, k) => body f k := by
  have hm := mb64_lt x
  have hu := hi_toNat x
  have hu6 := u64_toNat x
  have hsg : getHighWord x >>> 31 ≠ 0 ↔ x.sign = true := by
    rw [ne_eq, ← BitVec.toNat_inj, hi_sign]
    cases x.sign <;> simp
  have hz : x.u64 <<< 1 = 0 ↔ x.mb = 0 := by
    rw [← BitVec.toNat_inj, BitVec.toNat_shiftLeft, hu6, Nat.shiftLeft_eq]
    have e0 : (0 : BitVec 64).toNat = 0 := rfl
    rw [e0]
    split <;> omega
  unfold filter
  dsimp only
  by_cases hs : x.sign = true
  · rw [if_pos (Or.inr (hsg.2 hs)), if_pos (Or.inr hs)]
    refine if_congr hz rfl (if_congr hsg rfl rfl)
  · rw [if_neg hs] at hu hu6
    have h1 : getHighWord x < 0x00100000#32 ↔ x.mb / 2 ^ 32 < 0x00100000 := by
      rw [BitVec.lt_def, hu]; rfl
    have h2 : 0x7ff00000#32 ≤ getHighWord x ↔ 0x7ff00000 ≤ x.mb / 2 ^ 32 := by
      rw [BitVec.le_def, hu]; rfl
    refine if_congr (or_congr h1 hsg) (if_congr hz rfl (if_congr hsg rfl rfl)) (if_congr h2 rfl (if_congr ?_ rfl rfl))
    rw [← BitVec.toNat_inj, ← BitVec.toNat_inj, hu, BitVec.toNat_shiftLeft, hu6, Nat.shiftLeft_eq]
    have e0 : (0 : BitVec 64).toNat = 0 := rfl
    have e1 : (0x3ff00000#32).toNat = 0x3ff00000 := rfl
    rw [e0, e1]
    omega

theorem filter_spec (body : Flt f64 → Int → Flt f64) :
    IsLogFn (fun x => filter x body) (zero f64 false) (one f64) where
  total x := by
    rw [filter_eq]
    split_ifs with h1 h2 h3 h4 h5
    · exact ⟨_, rfl⟩
    · exact ⟨_, rfl⟩
    · have hs : (x * bits64 0x4350000000000000).sign = false := by
        rw [mul_sign (by rw [isFinite64]; rcases h1 with h1 | h1; omega; exact absurd h1 h3) (by decide +kernel)]
        rw [show (bits64 0x4350000000000000).sign = false by decide +kernel]
        simpa using h3
      obtain ⟨r, hr⟩ := reduce_total _ hs (-54) (by norm_num)
      rw [hr]; exact ⟨_, rfl⟩
    · exact ⟨_, rfl⟩
    · exact ⟨_, rfl⟩
    · obtain ⟨r, hr⟩ := reduce_total x (by push Not at h1; simpa using h1.2) 0 (by norm_num)
      rw [hr]; exact ⟨_, rfl⟩
  nan x hx := by
    have h := (isNaN64 x).1 hx
    rw [filter_eq]
    by_cases hs : x.sign = true
    · rw [if_pos (Or.inr hs), if_neg (by omega), if_pos hs]
      exact ⟨_, rfl, by rw [div_nan (Or.inl (by rw [sub_nan (Or.inl hx)]; exact isNaN_qnan))]; exact isNaN_qnan⟩
    · rw [if_neg (by rintro (h1 | h1); omega; exact hs h1), if_pos (by omega)]
      exact ⟨_, rfl, hx⟩
  domain x hx := by
    obtain ⟨hn, -, hlt⟩ := lt_iff.1 hx
    rw [sval_zero] at hlt
    have hs : x.sign = true := by
      by_contra hc
      unfold sval at hlt
      rw [if_neg hc] at hlt
      omega
    have h0 : ¬ x.isZero := by
      intro hc
      have := isZero_val.1 hc
      rw [eq_zero hc, sval_zero] at hlt
      omega
    have h0' : x.mb ≠ 0 := fun hc => h0 (by rw [isZero_iff]; exact hc)
    rw [filter_eq, if_pos (Or.inr hs), if_neg h0', if_pos hs]
    refine ⟨_, rfl, ?_⟩
    by_cases hf : x.isFinite
    · have : (x - x).isZero := by
        have h := (sub_rne hf hf).exact_real (z := zero f64 false) (by simp) (by simp)
        rw [isZero_val, h.2]; ring
      rw [zero_div_zero this (by decide +kernel)]; exact isNaN_qnan
    · have hi : x.isInf := by rw [isFinite_iff] at hf; rw [isNaN_iff] at hn; rw [isInf_iff]; omega
      rw [inf_sub_inf hi hi rfl, div_nan (Or.inl isNaN_qnan)]; exact isNaN_qnan
  pole x hx := by
    obtain ⟨-, -, h⟩ := feq_iff.1 hx
    rw [sval_zero] at h
    have hz : x.isZero := by rw [isZero_val, val_eq, h]; simp
    have hm : x.mb = 0 := by rwa [isZero_iff] at hz
    rw [filter_eq, if_pos (Or.inl (by omega)), if_pos hm, eq_zero hz]
    cases x.sign <;> decide +kernel
  pinf := by
    rw [filter_eq]
    have : (inf f64 false).mb = 0x7ff0000000000000 := by decide +kernel
    rw [this, sign_inf, if_neg (by norm_num), if_pos (by norm_num)]
  root x hx := by
    obtain ⟨hn, -, h⟩ := feq_iff.1 hx
    have hx1 : x = one f64 := sval_eq_one h
    subst hx1
    rw [filter_eq]
    have h1 : (one f64).mb = 0x3ff0000000000000 := by decide +kernel
    rw [h1, Flt.sign_one, if_neg (by norm_num), if_neg (by norm_num), if_pos rfl]
    exact ⟨_, rfl, by decide +kernel⟩
end Log

namespace Logf

theorem reduce_total (x : Flt f32) (hs : x.sign = false) (k0 : Int) (hk : |k0| ≤ 2 ^ 20) :
    ∃ r, reduce x k0 = some r := by
  have hm := mb32_lt x
  have hu := u32_toNat x
  rw [hs, if_neg (by decide)] at hu
  unfold reduce
  dsimp only
  have a1 : uadd x.u32 (0x3f800000#32 - 0x3f3504f3#32) = some (x.u32 + (0x3f800000#32 - 0x3f3504f3#32)) := by
    unfold uadd; rw [if_pos]
    rw [show (0x3f800000#32 - 0x3f3504f3#32).toNat = 4913933 by rfl]
    omega
  rw [a1, Option.bind_some]
  generalize x.u32 + (0x3f800000#32 - 0x3f3504f3#32) = w
  have hw : (w >>> 23).toNat < 512 := by
    rw [BitVec.toNat_ushiftRight, Nat.shiftRight_eq_div_pow]
    have := w.isLt
    omega
  rw [abs_le] at hk
  have hk2 : i32 (k0 + (((w >>> 23).toNat : ℤ) - 0x7f)) = some (k0 + (((w >>> 23).toNat : ℤ) - 0x7f)) :=
    i32_some (by omega) (by omega)
  rw [hk2, Option.bind_some]
  have a2 : uadd (w &&& 0x007fffff#32) 0x3f3504f3#32 = some ((w &&& 0x007fffff#32) + 0x3f3504f3#32) := by
    unfold uadd; rw [if_pos]
    have e : (0x007fffff#32).toNat = 0x007fffff := rfl
    have : (w &&& 0x007fffff#32).toNat ≤ (0x007fffff#32).toNat := by rw [BitVec.toNat_and]; exact Nat.and_le_right
    rw [e] at this
    rw [show (0x3f3504f3#32).toNat = 0x3f3504f3 by rfl]
    omega
  rw [a2]
  exact ⟨_, rfl⟩

theorem filter_eq (x : Flt f32) (body : Flt f32 → Int → Flt f32) : filter x body =
    if x.mb < 0x00800000 ∨ x.sign = true then
      if x.mb = 0 then some (-1.0 / (x * x))
      else if x.sign = true then some ((x - x) / 0.0)
      else (reduce (x * bits32 0x4c000000) (-25)).map fun (f, k) => body f k
    else if 0x7f800000 ≤ x.mb then some x
    else if x.mb = 0x3f800000 then some 0.0
    else (reduce x 0).map fun (f, k) => body f k := by
  have hm := mb32_lt x
  have hu := u32_toNat x
  have hsg : x.u32 >>> 31 ≠ 0 ↔ x.sign = true := by
    rw [ne_eq, ← BitVec.toNat_inj, u32_sign]
    cases x.sign <;> simp
  have hz : x.u32 <<< 1 = 0 ↔ x.mb = 0 := by
    rw [← BitVec.toNat_inj, BitVec.toNat_shiftLeft, hu, Nat.shiftLeft_eq]
    have e0 : (0 : BitVec 32).toNat = 0 := rfl
    rw [e0]
    split <;> omega
  unfold filter
  dsimp only
  by_cases hs : x.sign = true
  · rw [if_pos (Or.inr (hsg.2 hs)), if_pos (Or.inr hs)]
    refine if_congr hz rfl (if_congr hsg rfl rfl)
  · rw [if_neg hs] at hu
    have h1 : x.u32 < 0x00800000#32 ↔ x.mb < 0x00800000 := by
      rw [BitVec.lt_def, hu]; rfl
    have h2 : 0x7f800000#32 ≤ x.u32 ↔ 0x7f800000 ≤ x.mb := by
      rw [BitVec.le_def, hu]; rfl
    refine if_congr (or_congr h1 hsg) (if_congr hz rfl (if_congr hsg rfl rfl)) (if_congr h2 rfl (if_congr ?_ rfl rfl))
    rw [← BitVec.toNat_inj, hu]
    exact Iff.rfl

theorem filter_spec (body : Flt f32 → Int → Flt f32) :
    IsLogFn (fun x => filter x body) (zero f32 false) (one f32) where
  total x := by
    rw [filter_eq]
    split_ifs with h1 h2 h3 h4 h5
    · exact ⟨_, rfl⟩
    · exact ⟨_, rfl⟩
    · have hs : (x * bits32 0x4c000000).sign = false := by
        rw [Log.mul_sign (by rw [isFinite32]; rcases h1 with h1 | h1; omega; exact absurd h1 h3) (by decide +kernel)]
        rw [show (bits32 0x4c000000).sign = false by decide +kernel]
        simpa using h3
      obtain ⟨r, hr⟩ := reduce_total _ hs (-25) (by norm_num)
      rw [hr]; exact ⟨_, rfl⟩
    · exact ⟨_, rfl⟩
    · exact ⟨_, rfl⟩
    · obtain ⟨r, hr⟩ := reduce_total x (by push Not at h1; simpa using h1.2) 0 (by norm_num)
      rw [hr]; exact ⟨_, rfl⟩
  nan x hx := by
    have h := (isNaN32 x).1 hx
    rw [filter_eq]
    by_cases hs : x.sign = true
    · rw [if_pos (Or.inr hs), if_neg (by omega), if_pos hs]
      exact ⟨_, rfl, by rw [div_nan (Or.inl (by rw [sub_nan (Or.inl hx)]; exact isNaN_qnan))]; exact isNaN_qnan⟩
    · rw [if_neg (by rintro (h1 | h1); omega; exact hs h1), if_pos (by omega)]
      exact ⟨_, rfl, hx⟩
  domain x hx := by
    obtain ⟨hn, -, hlt⟩ := lt_iff.1 hx
    rw [sval_zero] at hlt
    have hs : x.sign = true := by
      by_contra hc
      unfold sval at hlt
      rw [if_neg hc] at hlt
      omega
    have h0 : ¬ x.isZero := by
      intro hc
      have := isZero_val.1 hc
      rw [eq_zero hc, sval_zero] at hlt
      omega
    have h0' : x.mb ≠ 0 := fun hc => h0 (by rw [isZero_iff]; exact hc)
    rw [filter_eq, if_pos (Or.inr hs), if_neg h0', if_pos hs]
    refine ⟨_, rfl, ?_⟩
    by_cases hf : x.isFinite
    · have : (x - x).isZero := by
        have h := (sub_rne hf hf).exact_real (z := zero f32 false) (by simp) (by simp)
        rw [isZero_val, h.2]; ring
      rw [zero_div_zero this (by decide +kernel)]; exact isNaN_qnan
    · have hi : x.isInf := by rw [isFinite_iff] at hf; rw [isNaN_iff] at hn; rw [isInf_iff]; omega
      rw [inf_sub_inf hi hi rfl, div_nan (Or.inl isNaN_qnan)]; exact isNaN_qnan
  pole x hx := by
    obtain ⟨-, -, h⟩ := feq_iff.1 hx
    rw [sval_zero] at h
    have hz : x.isZero := by rw [isZero_val, val_eq, h]; simp
    have hm : x.mb = 0 := by rwa [isZero_iff] at hz
    rw [filter_eq, if_pos (Or.inl (by omega)), if_pos hm, eq_zero hz]
    cases x.sign <;> decide +kernel
  pinf := by
    rw [filter_eq]
    have : (inf f32 false).mb = 0x7f800000 := by decide +kernel
    rw [this, sign_inf, if_neg (by norm_num), if_pos (by norm_num)]
  root x hx := by
    obtain ⟨hn, -, h⟩ := feq_iff.1 hx
    have hx1 : x = one f32 := sval_eq_one h
    subst hx1
    rw [filter_eq]
    have h1 : (one f32).mb = 0x3f800000 := by decide +kernel
    rw [h1, Flt.sign_one, if_neg (by norm_num), if_neg (by norm_num), if_pos rfl]
    exact ⟨_, rfl, by decide +kernel⟩
end Logf

theorem log_domain : IsLogFn log (zero f64 false) (one f64) := Log.filter_spec _
theorem log2_domain : IsLogFn log2 (zero f64 false) (one f64) := Log.filter_spec _
theorem log10_domain : IsLogFn log10 (zero f64 false) (one f64) := Log.filter_spec _

theorem logf_domain : IsLogFn logf (zero f32 false) (one f32) := Logf.filter_spec _
theorem log2f_domain : IsLogFn log2f (zero f32 false) (one f32) := Logf.filter_spec _
theorem log10f_domain : IsLogFn log10f (zero f32 false) (one f32) := Logf.filter_spec _

/-! ## log1p, log1pf -/

namespace Flt
variable {F : Fmt}

/-- `1 + x` is positive for every finite `x` above minus one -/
theorem one_add_sign {x : Flt F} (hx : x.isFinite) (h : -1 < x.val) : (one F + x).sign = false := by
  have hp : 0 < (one F).sval + x.sval := by
    have h1 : (-one F).sval < x.sval := val_lt_iff.1 (by rw [val_neg, val_one]; exact h)
    rw [sval_neg] at h1
    omega
  rw [add_finite (by simp) hx, if_neg (by omega), sign_roundMag]
  exact decide_eq_false (by omega)

theorem self_sub_zero {x : Flt F} (hx : x.isFinite) : (x - x).isZero := by
  have h := (sub_rne hx hx).exact_real (z := zero F false) (by simp) (by simp)
  rw [isZero_val, h.2]; ring

/-- the way the library makes a NaN -/
theorem make_nan {x z : Flt F} (hz : z.isZero) : ((x - x) / z).isNaN := by
  by_cases hf : x.isFinite
  · rw [zero_div_zero (self_sub_zero hf) hz]; exact isNaN_qnan
  · have : (x - x) = qnan F := by
      by_cases hn : x.isNaN
      · exact sub_nan (Or.inl hn)
      · have hi : x.isInf := by rw [isFinite_iff] at hf; rw [isNaN_iff] at hn; rw [isInf_iff]; omega
        exact inf_sub_inf hi hi rfl
    rw [this, div_nan (Or.inl isNaN_qnan)]; exact isNaN_qnan

/-- sign and magnitude of a value on the negative side of minus one -/
theorem lt_neg_one_mb {x : Flt F} (h : x.sval ≤ (-one F).sval) : x.sign = true ∧ (one F).mb ≤ x.mb := by
  have hp := one_mag_pos (F := F)
  rw [sval_neg, sval_of_nonneg Flt.sign_one] at h
  cases hs : x.sign
  · rw [sval_of_nonneg hs] at h; omega
  · refine ⟨rfl, ?_⟩
    rw [sval_of_neg hs] at h
    by_contra hc
    have := magOf_strictMono (sb := F.sb) (not_le.1 hc)
    unfold mag at h
    omega

theorem gt_neg_one_of_mb {x : Flt F} (h : x.sign = true → x.mb < (one F).mb) : -1 < x.val := by
  by_contra hc
  push Not at hc
  have h1 : x.val ≤ (-one F).val := by rw [val_neg, val_one]; exact hc
  obtain ⟨a, b⟩ := lt_neg_one_mb (val_le_iff.1 h1)
  have := h a
  omega
end Flt

namespace Log
theorem reduce1p_total (x : Flt f64) (hs : (1.0 + x).sign = false) : ∃ r, reduce1p x = some r := by
  have hm := mb64_lt (1.0 + x)
  have hu := hi_toNat (1.0 + x)
  rw [hs, if_neg (by decide)] at hu
  unfold reduce1p
  dsimp only
  have a1 : uadd (getHighWord (1.0 + x)) (0x3ff00000#32 - 0x3fe6a09e#32) =
      some (getHighWord (1.0 + x) + (0x3ff00000#32 - 0x3fe6a09e#32)) := by
    unfold uadd; rw [if_pos]
    rw [show (0x3ff00000#32 - 0x3fe6a09e#32).toNat = 614242 by rfl]
    omega
  rw [a1, Option.bind_some]
  generalize getHighWord (1.0 + x) + (0x3ff00000#32 - 0x3fe6a09e#32) = w
  have a2 : uadd (w &&& 0x000fffff#32) 0x3fe6a09e#32 = some ((w &&& 0x000fffff#32) + 0x3fe6a09e#32) := by
    unfold uadd; rw [if_pos]
    have e : (0x000fffff#32).toNat = 0x000fffff := rfl
    have : (w &&& 0x000fffff#32).toNat ≤ (0x000fffff#32).toNat := by rw [BitVec.toNat_and]; exact Nat.and_le_right
    rw [e] at this
    rw [show (0x3fe6a09e#32).toNat = 0x3fe6a09e by rfl]
    omega
  rw [a2]
  exact ⟨_, rfl⟩

theorem log1p_eq (x : Flt f64) : log1p x =
    if x.mb / 2 ^ 32 < 0x3fda827a ∨ x.sign = true then
      if x.sign = true ∧ 0x3ff00000 ≤ x.mb / 2 ^ 32 then
        if (x =ᶠ -1.0) = true then some (x / 0.0) else some ((x - x) / 0.0)
      else if x.mb / 2 ^ 32 < 0x3ca00000 then some x
      else if getHighWord x ≤ 0xbfd2bec4#32 then some (body1p x 0.0 0)
      else (reduce1p x).map fun (f, c, k) => body1p f c k
    else if 0x7ff00000 ≤ x.mb / 2 ^ 32 then some x
    else (reduce1p x).map fun (f, c, k) => body1p f c k := by
  have hm := mb64_lt x
  have hu := hi_toNat x
  have hsg : getHighWord x >>> 31 > 0 ↔ x.sign = true := by
    rw [gt_iff_lt, BitVec.lt_def, hi_sign]
    cases x.sign <;> simp
  have e1 : (0x3fda827a#32).toNat = 0x3fda827a := rfl
  have e2 : (0xbff00000#32).toNat = 0xbff00000 := rfl
  have e3 : (0x3ca00000#32 <<< 1).toNat = 0x79400000 := rfl
  have e4 : (0x7ff00000#32).toNat = 0x7ff00000 := rfl
  have hz : getHighWord x <<< 1 < 0x3ca00000#32 <<< 1 ↔ x.mb / 2 ^ 32 < 0x3ca00000 := by
    rw [BitVec.lt_def, BitVec.toNat_shiftLeft, hu, Nat.shiftLeft_eq, e3]
    split <;> omega
  unfold log1p
  dsimp only
  have h0 : (getHighWord x < 0x3fda827a#32 ∨ getHighWord x >>> 31 > 0) ↔ (x.mb / 2 ^ 32 < 0x3fda827a ∨ x.sign = true) := by
    rw [hsg, BitVec.lt_def, hu, e1]
    split <;> rename_i hs
    · exact ⟨fun _ => Or.inr hs, fun _ => Or.inr hs⟩
    · simp [hs]
  have h1 : getHighWord x ≥ 0xbff00000#32 ↔ (x.sign = true ∧ 0x3ff00000 ≤ x.mb / 2 ^ 32) := by
    rw [ge_iff_le, BitVec.le_def, hu, e2]
    split <;> rename_i hs
    · exact ⟨fun _ => ⟨hs, by omega⟩, fun h => by have := h.2; omega⟩
    · exact ⟨fun _ => by omega, fun h => absurd h.1 hs⟩
  by_cases hc : x.mb / 2 ^ 32 < 0x3fda827a ∨ x.sign = true
  · rw [if_pos (h0.2 hc), if_pos hc]
    exact if_congr h1 rfl (if_congr hz rfl rfl)
  · rw [if_neg (fun h => hc (h0.1 h)), if_neg hc]
    refine if_congr ?_ rfl rfl
    push Not at hc
    rw [ge_iff_le, BitVec.le_def, hu, e4, if_neg hc.2]
    exact Iff.rfl
end Log

theorem log1p_domain : IsLogFn log1p (-one f64) (zero f64 false) where
  total x := by
    have hr : ∀ h : x.isFinite, (x.sign = true → x.mb < (one f64).mb) →
        ∃ r, ((Log.reduce1p x).map fun (f, c, k) => Log.body1p f c k) = some r := by
      intro h h1
      obtain ⟨r, hr⟩ := Log.reduce1p_total x (by
        rw [show (1.0 : Flt f64) = one f64 by decide +kernel]; exact one_add_sign h (gt_neg_one_of_mb h1))
      rw [hr]; exact ⟨_, rfl⟩
    have ho : (one f64).mb = 0x3ff0000000000000 := by decide +kernel
    rw [Log.log1p_eq]
    split_ifs with h1 h2 h3 h4 h5 h6
    · exact ⟨_, rfl⟩
    · exact ⟨_, rfl⟩
    · exact ⟨_, rfl⟩
    · exact ⟨_, rfl⟩
    · have : x.mb < 0x3ff0000000000000 := by
        rcases h1 with h1 | h1
        · omega
        · have : ¬ 0x3ff00000 ≤ x.mb / 2 ^ 32 := fun hc => h2 ⟨h1, hc⟩
          omega
      exact hr (by rw [isFinite64]; omega) (fun _ => by rw [ho]; exact this)
    · exact ⟨_, rfl⟩
    · push Not at h1
      exact hr (by rw [isFinite64]; omega) (fun h => absurd h h1.2)
  nan x hx := by
    have h := (isNaN64 x).1 hx
    rw [Log.log1p_eq]
    by_cases hs : x.sign = true
    · rw [if_pos (Or.inr hs), if_pos ⟨hs, by omega⟩, if_neg (fun h => (feq_iff.1 h).1 hx)]
      exact ⟨_, rfl, make_nan (by decide +kernel)⟩
    · rw [if_neg (by rintro (h1 | h1); omega; exact hs h1), if_pos (by omega)]
      exact ⟨_, rfl, hx⟩
  domain x hx := by
    obtain ⟨hn, -, hlt⟩ := lt_iff.1 hx
    obtain ⟨hs, hm⟩ := lt_neg_one_mb hlt.le
    rw [show (one f64).mb = 0x3ff0000000000000 by decide +kernel] at hm
    rw [Log.log1p_eq, if_pos (Or.inr hs), if_pos ⟨hs, by omega⟩, if_neg]
    · exact ⟨_, rfl, make_nan (by decide +kernel)⟩
    · intro h
      have h2 := (feq_iff.1 h).2.2
      rw [show (-1.0 : Flt f64) = -one f64 by decide +kernel] at h2
      omega
  pole x hx := by
    rw [sval_eq_neg_one (feq_iff.1 hx).2.2]
    decide +kernel
  pinf := by decide +kernel
  root x hx := by
    have h := (feq_iff.1 hx).2.2
    rw [sval_zero] at h
    have hz : x.isZero := by rw [isZero_val, val_eq, h]; simp
    rw [eq_zero hz]
    cases x.sign
    · exact ⟨zero f64 false, by decide +kernel, by decide +kernel⟩
    · exact ⟨zero f64 true, by decide +kernel, by decide +kernel⟩

namespace Logf
theorem reduce1p_total (x : Flt f32) (hs : (1.0 + x).sign = false) : ∃ r, reduce1p x = some r := by
  have hm := mb32_lt (1.0 + x)
  have hu := u32_toNat (1.0 + x)
  rw [hs, if_neg (by decide)] at hu
  unfold reduce1p
  dsimp only
  have a1 : uadd (1.0 + x).u32 (0x3f800000#32 - 0x3f3504f3#32) =
      some ((1.0 + x).u32 + (0x3f800000#32 - 0x3f3504f3#32)) := by
    unfold uadd; rw [if_pos]
    rw [show (0x3f800000#32 - 0x3f3504f3#32).toNat = 4913933 by rfl]
    omega
  rw [a1, Option.bind_some]
  generalize (1.0 + x).u32 + (0x3f800000#32 - 0x3f3504f3#32) = w
  have a2 : uadd (w &&& 0x007fffff#32) 0x3f3504f3#32 = some ((w &&& 0x007fffff#32) + 0x3f3504f3#32) := by
    unfold uadd; rw [if_pos]
    have e : (0x007fffff#32).toNat = 0x007fffff := rfl
    have : (w &&& 0x007fffff#32).toNat ≤ (0x007fffff#32).toNat := by rw [BitVec.toNat_and]; exact Nat.and_le_right
    rw [e] at this
    rw [show (0x3f3504f3#32).toNat = 0x3f3504f3 by rfl]
    omega
  rw [a2]
  exact ⟨_, rfl⟩

theorem log1pf_eq (x : Flt f32) : log1pf x =
    if x.mb < 0x3ed413d0 ∨ x.sign = true then
      if x.sign = true ∧ 0x3f800000 ≤ x.mb then
        if (x =ᶠ -1.0) = true then some (x / 0.0) else some ((x - x) / 0.0)
      else if x.mb < 0x33800000 then some x
      else if x.u32 ≤ 0xbe95f619#32 then some (body1p x 0.0 0)
      else (reduce1p x).map fun (f, c, k) => body1p f c k
    else if 0x7f800000 ≤ x.mb then some x
    else (reduce1p x).map fun (f, c, k) => body1p f c k := by
  have hm := mb32_lt x
  have hu := u32_toNat x
  have hsg : x.u32 >>> 31 > 0 ↔ x.sign = true := by
    rw [gt_iff_lt, BitVec.lt_def, u32_sign]
    cases x.sign <;> simp
  have e1 : (0x3ed413d0#32).toNat = 0x3ed413d0 := rfl
  have e2 : (0xbf800000#32).toNat = 0xbf800000 := rfl
  have e3 : (0x33800000#32 <<< 1).toNat = 0x67000000 := rfl
  have e4 : (0x7f800000#32).toNat = 0x7f800000 := rfl
  have hz : x.u32 <<< 1 < 0x33800000#32 <<< 1 ↔ x.mb < 0x33800000 := by
    rw [BitVec.lt_def, BitVec.toNat_shiftLeft, hu, Nat.shiftLeft_eq, e3]
    split <;> omega
  unfold log1pf
  dsimp only
  have h0 : (x.u32 < 0x3ed413d0#32 ∨ x.u32 >>> 31 > 0) ↔ (x.mb < 0x3ed413d0 ∨ x.sign = true) := by
    rw [hsg, BitVec.lt_def, hu, e1]
    split <;> rename_i hs
    · exact ⟨fun _ => Or.inr hs, fun _ => Or.inr hs⟩
    · simp [hs]
  have h1 : x.u32 ≥ 0xbf800000#32 ↔ (x.sign = true ∧ 0x3f800000 ≤ x.mb) := by
    rw [ge_iff_le, BitVec.le_def, hu, e2]
    split <;> rename_i hs
    · exact ⟨fun _ => ⟨hs, by omega⟩, fun h => by have := h.2; omega⟩
    · exact ⟨fun _ => by omega, fun h => absurd h.1 hs⟩
  by_cases hc : x.mb < 0x3ed413d0 ∨ x.sign = true
  · rw [if_pos (h0.2 hc), if_pos hc]
    exact if_congr h1 rfl (if_congr hz rfl rfl)
  · rw [if_neg (fun h => hc (h0.1 h)), if_neg hc]
    refine if_congr ?_ rfl rfl
    push Not at hc
    rw [ge_iff_le, BitVec.le_def, hu, e4, if_neg hc.2]
    exact Iff.rfl
end Logf

theorem log1pf_domain : IsLogFn log1pf (-one f32) (zero f32 false) where
  total x := by
    have hr : ∀ h : x.isFinite, (x.sign = true → x.mb < (one f32).mb) →
        ∃ r, ((Logf.reduce1p x).map fun (f, c, k) => Logf.body1p f c k) = some r := by
      intro h h1
      obtain ⟨r, hr⟩ := Logf.reduce1p_total x (by
        rw [show (1.0 : Flt f32) = one f32 by decide +kernel]; exact one_add_sign h (gt_neg_one_of_mb h1))
      rw [hr]; exact ⟨_, rfl⟩
    have ho : (one f32).mb = 0x3f800000 := by decide +kernel
    rw [Logf.log1pf_eq]
    split_ifs with h1 h2 h3 h4 h5 h6
    · exact ⟨_, rfl⟩
    · exact ⟨_, rfl⟩
    · exact ⟨_, rfl⟩
    · exact ⟨_, rfl⟩
    · have : x.mb < 0x3f800000 := by
        rcases h1 with h1 | h1
        · omega
        · have : ¬ 0x3f800000 ≤ x.mb := fun hc => h2 ⟨h1, hc⟩
          omega
      exact hr (by rw [isFinite32]; omega) (fun _ => by rw [ho]; exact this)
    · exact ⟨_, rfl⟩
    · push Not at h1
      exact hr (by rw [isFinite32]; omega) (fun h => absurd h h1.2)
  nan x hx := by
    have h := (isNaN32 x).1 hx
    rw [Logf.log1pf_eq]
    by_cases hs : x.sign = true
    · rw [if_pos (Or.inr hs), if_pos ⟨hs, by omega⟩, if_neg (fun h => (feq_iff.1 h).1 hx)]
      exact ⟨_, rfl, make_nan (by decide +kernel)⟩
    · rw [if_neg (by rintro (h1 | h1); omega; exact hs h1), if_pos (by omega)]
      exact ⟨_, rfl, hx⟩
  domain x hx := by
    obtain ⟨hn, -, hlt⟩ := lt_iff.1 hx
    obtain ⟨hs, hm⟩ := lt_neg_one_mb hlt.le
    rw [show (one f32).mb = 0x3f800000 by decide +kernel] at hm
    rw [Logf.log1pf_eq, if_pos (Or.inr hs), if_pos ⟨hs, by omega⟩, if_neg]
    · exact ⟨_, rfl, make_nan (by decide +kernel)⟩
    · intro h
      have h2 := (feq_iff.1 h).2.2
      rw [show (-1.0 : Flt f32) = -one f32 by decide +kernel] at h2
      omega
  pole x hx := by
    rw [sval_eq_neg_one (feq_iff.1 hx).2.2]
    decide +kernel
  pinf := by decide +kernel
  root x hx := by
    have h := (feq_iff.1 hx).2.2
    rw [sval_zero] at h
    have hz : x.isZero := by rw [isZero_val, val_eq, h]; simp
    rw [eq_zero hz]
    cases x.sign
    · exact ⟨zero f32 false, by decide +kernel, by decide +kernel⟩
    · exact ⟨zero f32 true, by decide +kernel, by decide +kernel⟩

/-- the hypotheses are met: an argument below the pole, one at the pole, one at the root, in each case not the literal
itself (`-0` for `+0`) -/
example : (bits64 0xbff8000000000000 <ᶠ zero f64 false) = true ∧ (zero f64 true =ᶠ zero f64 false) = true ∧
    (bits32 0xc0000000 <ᶠ -one f32) = true ∧ (zero f32 true =ᶠ zero f32 false) = true := by decide +kernel

end Verif
