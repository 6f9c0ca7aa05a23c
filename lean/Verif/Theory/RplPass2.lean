import Verif.Theory.RplPass

/-!
# One pass of the large argument reduction, continued
-/

namespace Verif
open Flt
open Generic (scalbn)
namespace Rpl

theorem is_lit {a : Flt f64} (hf : a.isFinite) {q : ℚ} (h : a.toRat = q) {m e : ℤ} (hq : (q : ℝ) = (m : ℝ) * 2 ^ e) :
    Is a m e := ⟨hf, by show ((a.toRat : ℚ) : ℝ) = _; rw [h, hq]⟩

theorem is_eight : Is (8.0 : Flt f64) 1 3 := is_lit (by decide +kernel) (q := 8) (by decide +kernel) (by norm_num)
theorem is_eighth : Is (0.125 : Flt f64) 1 (-3) :=
  is_lit (by decide +kernel) (q := 1 / 8) (by decide +kernel) (by norm_num [zpow_neg])
theorem is_one : Is (1.0 : Flt f64) 1 0 := is_lit (by decide +kernel) (q := 1) (by decide +kernel) (by norm_num)
theorem is_half : Is (0.5 : Flt f64) 1 (-1) :=
  is_lit (by decide +kernel) (q := 1 / 2) (by decide +kernel) (by norm_num [zpow_neg])

/-- `z %= 8.0` -/
theorem mod8_spec {z : Flt f64} {Z : ℕ} {q0 : ℤ} (k : ℕ) (hz : Is z Z q0) (hZ : Z < 2 ^ 50) (h1 : -27 ≤ q0)
    (hk : (k : ℤ) = 3 - q0) (hk0 : 0 < k) : Is (z - 8.0 * Generic.floor (z * 0.125)) ((Z % 2 ^ k : ℕ) : ℤ) q0 := by
  have hZ' : (Z : ℤ) < 2 ^ 50 := by exact_mod_cast hZ
  have a1 : Is (z * 0.125) Z (-(k : ℤ)) := by
    have := hz.mul is_eighth (by rw [mul_one, abs_of_nonneg (by positivity)]; omega) (by omega) (by omega)
    rw [mul_one] at this
    rwa [hk, show -(3 - q0) = q0 + -3 by ring]
  have a2 : Is (Generic.floor (z * 0.125)) ((Z / 2 ^ k : ℕ) : ℤ) 0 := by
    have := a1.floor k
    push_cast
    exact this
  have hle : Z / 2 ^ k ≤ Z := Nat.div_le_self _ _
  have a3 : Is (8.0 * Generic.floor (z * 0.125)) ((Z / 2 ^ k * 2 ^ k : ℕ) : ℤ) q0 := by
    have := (is_eight.mul a2 (by rw [one_mul, abs_of_nonneg (by positivity)]; omega) (by norm_num) (by norm_num)).unshift k
    rw [one_mul] at this
    push_cast at this ⊢
    rwa [hk, show (3 : ℤ) - (3 - q0) = q0 by ring] at this
  have hm := Nat.div_add_mod Z (2 ^ k)
  rw [mul_comm] at hm
  have e : (Z : ℤ) - ((Z / 2 ^ k * 2 ^ k : ℕ) : ℤ) = ((Z % 2 ^ k : ℕ) : ℤ) := by
    generalize Z / 2 ^ k * 2 ^ k = u at *
    omega
  have hl : Z % 2 ^ k ≤ Z := Nat.mod_le _ _
  have := hz.sub a3 (by rw [e, abs_of_nonneg (by positivity)]; omega) (by omega) (by omega)
  exact this.congr e

/-- integer and fractional part, `q0 ≤ 0` -/
theorem split_spec_nonpos {z : Flt f64} {Y p : ℕ} (hz : Is z Y (-p)) (hY : Y < 2 ^ (3 + p)) (hp : p ≤ 27) :
    z.toSInt 32 = ((Y / 2 ^ p : ℕ) : ℤ) ∧ Is (z - ofInt f64 (z.toSInt 32)) ((Y % 2 ^ p : ℕ) : ℤ) (-p) := by
  have h1 : z.toSInt 32 = ((Y / 2 ^ p : ℕ) : ℤ) := by
    rw [hz.toSInt p (by positivity)]
    · norm_cast
    · have : 2 ^ (3 + p) ≤ 2 ^ (31 + p) := Nat.pow_le_pow_right (by norm_num) (by omega)
      exact_mod_cast hY.trans_le this
  have hY30 : Y < 2 ^ 30 := hY.trans_le (Nat.pow_le_pow_right (by norm_num) (by omega))
  refine ⟨h1, ?_⟩
  rw [h1]
  have hle : Y / 2 ^ p ≤ Y := Nat.div_le_self _ _
  have h2 : Is (ofInt f64 ((Y / 2 ^ p : ℕ) : ℤ)) ((Y / 2 ^ p * 2 ^ p : ℕ) : ℤ) (-p) := by
    have := (Is.ofInt ((Y / 2 ^ p : ℕ) : ℤ) (by rw [abs_of_nonneg (by positivity)]; omega)).unshift p
    push_cast at this ⊢
    rwa [zero_sub] at this
  have hm := Nat.div_add_mod Y (2 ^ p)
  rw [mul_comm] at hm
  have e : (Y : ℤ) - ((Y / 2 ^ p * 2 ^ p : ℕ) : ℤ) = ((Y % 2 ^ p : ℕ) : ℤ) := by
    generalize Y / 2 ^ p * 2 ^ p = u at *
    omega
  have hl : Y % 2 ^ p ≤ Y := Nat.mod_le _ _
  have := hz.sub h2 (by rw [e, abs_of_nonneg (by positivity)]; omega) (by omega) (by omega)
  exact this.congr e

/-- integer and fractional part, `q0 > 0` -/
theorem split_spec_pos {z : Flt f64} {Y c : ℕ} (hz : Is z Y c) (hY : Y < 8) (hc : c ≤ 2) :
    z.toSInt 32 = ((Y * 2 ^ c : ℕ) : ℤ) ∧ Is (z - ofInt f64 (z.toSInt 32)) 0 c := by
  have hb : Y * 2 ^ c < 32 := by
    have : 2 ^ c ≤ 2 ^ 2 := Nat.pow_le_pow_right (by norm_num) hc
    calc Y * 2 ^ c ≤ 7 * 2 ^ 2 := Nat.mul_le_mul (by omega) this
      _ < 32 := by norm_num
  have h0 : Is z ((Y * 2 ^ c : ℕ) : ℤ) (-(0 : ℕ)) := by
    have := hz.unshift c
    push_cast at this ⊢
    simpa using this
  have h1 : z.toSInt 32 = ((Y * 2 ^ c : ℕ) : ℤ) := by
    rw [h0.toSInt 0 (by positivity) (by generalize Y * 2 ^ c = u at *; norm_num; omega)]
    simp
  refine ⟨h1, ?_⟩
  rw [h1]
  have h2 := Is.ofInt ((Y * 2 ^ c : ℕ) : ℤ) (by rw [abs_of_nonneg (by positivity)]; omega)
  have := h0.sub h2 (by rw [sub_self]; norm_num) (by norm_num) (by norm_num)
  rw [sub_self] at this
  refine ⟨this.1, ?_⟩
  rw [this.2]
  simp

/-- state after `head`: `N = (n + 8 k) 2^B + F` with `0 ≤ F < 2^B`, and `ih` tells whether `F` is at least one half -/
structure HeadOut (q0 : ℤ) (jz B N : ℕ) (z : Flt f64) (n ih : ℤ) (iq : List ℤ) : Prop where
  ex : ∃ (zf : ℕ) (d : ℕ → ℕ), Is z zf q0 ∧ (0 ≤ q0 → zf = 0) ∧ Dig iq jz d ∧ zf * 2 ^ (24 * jz) + ds d jz < 2 ^ B ∧
    (∃ k : ℕ, (N : ℤ) = (n + 8 * k) * 2 ^ B + (zf * 2 ^ (24 * jz) + ds d jz : ℕ)) ∧
    (ih = 0 ∧ 2 * (zf * 2 ^ (24 * jz) + ds d jz) < 2 ^ B ∨
      (ih = if q0 < 0 then 2 else 1) ∧ 2 ^ B ≤ 2 * (zf * 2 ^ (24 * jz) + ds d jz))
  n0 : 0 ≤ n
  n7 : n ≤ 7

theorem head_neg {z : Flt f64} {Z jz p B : ℕ} {d : ℕ → ℕ} {iq : List ℤ} (hp0 : 0 < p) (hp : p ≤ 27)
    (hB : B = 24 * jz + p) (hz : Is z ((Z % 2 ^ (3 + p) : ℕ) : ℤ) (-p)) (hd : Dig iq jz d) :
    ∃ n ih iq', head (z - ofInt f64 (z.toSInt 32)) (z.toSInt 32) iq jz (-p) = some (n, ih, iq') ∧
      HeadOut (-p) jz B (Z * 2 ^ (24 * jz) + ds d jz) (z - ofInt f64 (z.toSInt 32)) n ih iq' := by
  obtain ⟨h1, h2⟩ := split_spec_nonpos hz (Nat.mod_lt _ (by positivity)) hp
  have hn : Z % 2 ^ (3 + p) / 2 ^ p < 8 := by
    rw [Nat.div_lt_iff_lt_mul (by positivity)]
    have : 8 * 2 ^ p = 2 ^ (3 + p) := by rw [pow_add]; norm_num
    rw [this]
    exact Nat.mod_lt _ (by positivity)
  have hmm : Z % 2 ^ (3 + p) % 2 ^ p = Z % 2 ^ p := Nat.mod_mod_of_dvd _ (pow_dvd_pow 2 (by omega))
  rw [hmm] at h2
  have hF : Z % 2 ^ p * 2 ^ (24 * jz) + ds d jz < 2 ^ B := by
    have a := hd.lt
    have b : Z % 2 ^ p < 2 ^ p := Nat.mod_lt _ (by positivity)
    rw [hB, pow_add]
    generalize 2 ^ (24 * jz) = T at *
    nlinarith
  have hN : ((Z * 2 ^ (24 * jz) + ds d jz : ℕ) : ℤ) = (((Z % 2 ^ (3 + p) / 2 ^ p : ℕ) : ℤ) + 8 * ((Z / 2 ^ (3 + p) : ℕ) : ℤ)) * 2 ^ B +
      (Z % 2 ^ p * 2 ^ (24 * jz) + ds d jz : ℕ) := by
    have a := Nat.div_add_mod Z (2 ^ (3 + p))
    have b := Nat.div_add_mod (Z % 2 ^ (3 + p)) (2 ^ p)
    rw [hmm] at b
    have c : 2 ^ (3 + p) = 8 * 2 ^ p := by rw [pow_add]; norm_num
    rw [← b] at a
    have key : ∀ u v r : ℕ, 2 ^ (3 + p) * v + (2 ^ p * u + r) = Z →
        Z * 2 ^ (24 * jz) + ds d jz = (u + 8 * v) * 2 ^ B + (r * 2 ^ (24 * jz) + ds d jz) := by
      rintro u v r rfl
      rw [hB, c, pow_add]
      ring
    exact_mod_cast key _ _ _ a
  have hge : ((z - ofInt f64 (z.toSInt 32)) ≥ᶠ 0.5) = true ↔ 2 ^ p ≤ 2 * (Z % 2 ^ p) := by
    have hh : Is (0.5 : Flt f64) ((2 ^ (p - 1) : ℕ) : ℤ) (-p) := by
      have := is_half.unshift (p - 1)
      have e : (-1 : ℤ) - ((p - 1 : ℕ) : ℤ) = -p := by omega
      rw [e] at this
      push_cast
      simpa using this
    rw [h2.ge_iff hh]
    have : 2 ^ p = 2 * 2 ^ (p - 1) := by rw [← pow_succ']; congr 1; omega
    rw [this]
    norm_cast
    omega
  have hhalf : 2 ^ B ≤ 2 * (Z % 2 ^ p * 2 ^ (24 * jz) + ds d jz) ↔ 2 ^ p ≤ 2 * (Z % 2 ^ p) := by
    have a := hd.lt
    have : 2 ^ p = 2 * 2 ^ (p - 1) := by rw [← pow_succ']; congr 1; omega
    rw [hB, pow_add, this]
    generalize 2 ^ (p - 1) = P at *
    generalize Z % (2 * P) = y at *
    have ht : 0 < 2 ^ (24 * jz) := by positivity
    generalize 2 ^ (24 * jz) = T at *
    constructor
    · intro h
      by_contra hc
      have : y + 1 ≤ P := by omega
      have := Nat.mul_le_mul_right T this
      nlinarith
    · intro h
      have : P ≤ y := by omega
      have := Nat.mul_le_mul_right T this
      nlinarith
  have hq0 : ¬ (-(p : ℤ)) > 0 := by omega
  have hq1 : ¬ (-(p : ℤ)) = 0 := by omega
  by_cases hc : ((z - ofInt f64 (z.toSInt 32)) ≥ᶠ 0.5) = true
  · refine ⟨z.toSInt 32, 2, iq, by rw [head, if_neg hq0, if_neg hq1, if_pos hc], ⟨⟨Z % 2 ^ p, d, h2, by omega, hd, hF,
      ⟨Z / 2 ^ (3 + p), by rw [h1]; exact hN⟩, Or.inr ⟨by rw [if_pos (by omega)], hhalf.2 (hge.1 hc)⟩⟩, by rw [h1]; positivity,
      by rw [h1]; omega⟩⟩
  · refine ⟨z.toSInt 32, 0, iq, by rw [head, if_neg hq0, if_neg hq1, if_neg hc], ⟨⟨Z % 2 ^ p, d, h2, by omega, hd, hF,
      ⟨Z / 2 ^ (3 + p), by rw [h1]; exact hN⟩, Or.inl ⟨rfl, not_le.1 (fun h => hc (hge.2 (hhalf.1 h)))⟩⟩, by rw [h1]; positivity,
      by rw [h1]; omega⟩⟩

theorem top_half {jz c t s : ℕ} (hjz : 0 < jz) (hc : c ≤ 2) (ht : t < 2 ^ (24 - c)) (hs : s < 2 ^ (24 * (jz - 1))) :
    s + t * 2 ^ (24 * (jz - 1)) < 2 ^ (24 * jz - c) ∧
    (t / 2 ^ (23 - c) = 0 ∧ 2 * (s + t * 2 ^ (24 * (jz - 1))) < 2 ^ (24 * jz - c) ∨
     t / 2 ^ (23 - c) = 1 ∧ 2 ^ (24 * jz - c) ≤ 2 * (s + t * 2 ^ (24 * (jz - 1)))) := by
  have e : 2 ^ (24 * jz - c) = 2 ^ (24 - c) * 2 ^ (24 * (jz - 1)) := by rw [← pow_add]; congr 1; omega
  have e2 : 2 ^ (24 - c) = 2 * 2 ^ (23 - c) := by rw [← pow_succ']; congr 1; omega
  rw [e, e2]
  rw [e2] at ht
  have hpos : 0 < 2 ^ (23 - c) := by positivity
  generalize 2 ^ (23 - c) = H at *
  generalize 2 ^ (24 * (jz - 1)) = T at *
  refine ⟨by nlinarith, ?_⟩
  by_cases h : t < H
  · left
    refine ⟨Nat.div_eq_of_lt h, ?_⟩
    nlinarith
  · right
    refine ⟨?_, by nlinarith⟩
    have h1 : 1 ≤ t / H := (Nat.le_div_iff_mul_le hpos).2 (by omega)
    have h2 : t / H < 2 := (Nat.div_lt_iff_lt_mul hpos).2 ht
    omega

theorem head_zero {z : Flt f64} {Z jz B : ℕ} {d : ℕ → ℕ} {iq : List ℤ} (hjz : 0 < jz) (hB : B = 24 * jz)
    (hz : Is z ((Z % 8 : ℕ) : ℤ) 0) (hd : Dig iq jz d) :
    ∃ n ih iq', head (z - ofInt f64 (z.toSInt 32)) (z.toSInt 32) iq jz 0 = some (n, ih, iq') ∧
      HeadOut 0 jz B (Z * 2 ^ (24 * jz) + ds d jz) (z - ofInt f64 (z.toSInt 32)) n ih iq' := by
  obtain ⟨h1, h2⟩ := split_spec_pos (c := 0) hz (Nat.mod_lt _ (by norm_num)) (by norm_num)
  rw [pow_zero, mul_one] at h1
  have ht := hd.2 (jz - 1) (by omega)
  have hds : ds d jz = ds d (jz - 1) + d (jz - 1) * 2 ^ (24 * (jz - 1)) := by
    rw [← ds_succ, Nat.sub_add_cancel hjz]
  have hlow : ds d (jz - 1) < 2 ^ (24 * (jz - 1)) := ds_lt fun t ht' => (hd.2 t (by omega)).1
  obtain ⟨hF, hhalf⟩ := top_half hjz (Nat.zero_le 2) ht.1 hlow
  rw [← hds] at hF hhalf
  refine ⟨z.toSInt 32, ((d (jz - 1) / 2 ^ 23 : ℕ) : ℤ), iq, ?_, ⟨⟨0, d, h2, fun _ => rfl, hd, ?_, ⟨Z / 8, ?_⟩, ?_⟩, ?_, ?_⟩⟩
  · rw [head, if_neg (by norm_num), if_pos rfl, psub_some hjz]
    simp only [Option.bind_some]
    rw [ht.2]
    simp only [Option.map_some]
    norm_cast
  · rw [zero_mul, zero_add, hB]
    exact hF
  · rw [h1, hB]
    have a := Nat.div_add_mod Z 8
    have key : Z * 2 ^ (24 * jz) + ds d jz = (Z % 8 + 8 * (Z / 8)) * 2 ^ (24 * jz) + (0 * 2 ^ (24 * jz) + ds d jz) := by
      have : Z % 8 + 8 * (Z / 8) = Z := by omega
      rw [this]
      ring
    exact_mod_cast key
  · rw [zero_mul, zero_add, hB, if_neg (by norm_num)]
    rcases hhalf with h | h
    · exact Or.inl ⟨by exact_mod_cast h.1, h.2⟩
    · exact Or.inr ⟨by exact_mod_cast h.1, h.2⟩
  · rw [h1]; positivity
  · rw [h1]; omega

theorem shl32_eq {i s : ℕ} (h : i * 2 ^ s < 2 ^ 31) : shl32 i s = ((i * 2 ^ s : ℕ) : ℤ) := by
  unfold shl32
  have h1 : (BitVec.ofInt 32 (i : ℤ) <<< s).toNat = i * 2 ^ s := by
    rw [BitVec.toNat_shiftLeft, BitVec.ofInt_natCast, BitVec.toNat_ofNat, Nat.shiftLeft_eq, Nat.mod_mul_mod]
    exact Nat.mod_eq_of_lt (by omega)
  rw [BitVec.toInt_eq_toNat_cond, h1, if_pos (by omega)]

theorem i32_nat {n : ℕ} (h : n < 2 ^ 31) : i32 (n : ℤ) = some (n : ℤ) := i32_some (by omega) (by omega)

theorem head_pos {z : Flt f64} {Z jz c B : ℕ} {d : ℕ → ℕ} {iq : List ℤ} (hjz : 0 < jz) (hjz2 : jz < 20) (hc0 : 0 < c) (hc : c ≤ 2)
    (hB : B = 24 * jz - c) (hz : Is z ((Z % 2 ^ (3 - c) : ℕ) : ℤ) c) (hd : Dig iq jz d) :
    ∃ n ih iq', head (z - ofInt f64 (z.toSInt 32)) (z.toSInt 32) iq jz c = some (n, ih, iq') ∧
      HeadOut c jz B (Z * 2 ^ (24 * jz) + ds d jz) (z - ofInt f64 (z.toSInt 32)) n ih iq' := by
  have hY : Z % 2 ^ (3 - c) < 2 ^ (3 - c) := Nat.mod_lt _ (by positivity)
  have hY8 : Z % 2 ^ (3 - c) < 8 := hY.trans_le (Nat.pow_le_pow_right (n := 2) (by norm_num) (by omega : 3 - c ≤ 3))
  obtain ⟨h1, h2⟩ := split_spec_pos hz hY8 hc
  have ht := hd.2 (jz - 1) (by omega)
  have hds : ds d jz = ds d (jz - 1) + d (jz - 1) * 2 ^ (24 * (jz - 1)) := by
    rw [← ds_succ, Nat.sub_add_cancel hjz]
  have hlow : ds d (jz - 1) < 2 ^ (24 * (jz - 1)) := ds_lt fun t ht' => (hd.2 t (by omega)).1
  set v := d (jz - 1) with hv
  obtain ⟨hF, hhalf⟩ := top_half hjz hc (t := v % 2 ^ (24 - c)) (Nat.mod_lt _ (by positivity)) hlow
  have e24 : 2 ^ (24 - c) * 2 ^ c = 2 ^ 24 := by rw [← pow_add]; congr 1; omega
  have e8 : 2 ^ (3 - c) * 2 ^ c = 2 ^ 3 := by rw [← pow_add]; congr 1; omega
  have hi : v / 2 ^ (24 - c) < 2 ^ c := by
    rw [Nat.div_lt_iff_lt_mul (by positivity), mul_comm, e24]
    exact ht.1
  have hn : Z % 2 ^ (3 - c) * 2 ^ c + v / 2 ^ (24 - c) < 8 := by
    have : (Z % 2 ^ (3 - c) + 1) * 2 ^ c ≤ 8 := by
      have := Nat.mul_le_mul_right (2 ^ c) hY
      rw [e8] at this
      exact this
    generalize Z % 2 ^ (3 - c) = y at *
    generalize 2 ^ c = T at *
    nlinarith
  have hm := Nat.div_add_mod v (2 ^ (24 - c))
  rw [mul_comm] at hm
  have hd' : Dig (iq.set (jz - 1) ((v % 2 ^ (24 - c) : ℕ) : ℤ)) jz (Function.update d (jz - 1) (v % 2 ^ (24 - c))) :=
    hd.set (by omega) ((Nat.mod_le _ _).trans_lt ht.1) (Or.inl le_rfl)
  have hds' : ds (Function.update d (jz - 1) (v % 2 ^ (24 - c))) jz = ds d (jz - 1) + v % 2 ^ (24 - c) * 2 ^ (24 * (jz - 1)) := by
    have := ds_succ (Function.update d (jz - 1) (v % 2 ^ (24 - c))) (jz - 1)
    rw [Nat.sub_add_cancel hjz, Function.update_self, ds_update d le_rfl] at this
    exact this
  refine ⟨((Z % 2 ^ (3 - c) * 2 ^ c + v / 2 ^ (24 - c) : ℕ) : ℤ), ((v % 2 ^ (24 - c) / 2 ^ (23 - c) : ℕ) : ℤ),
    iq.set (jz - 1) ((v % 2 ^ (24 - c) : ℕ) : ℤ), ?_, ⟨⟨0, _, h2, fun _ => rfl, hd', ?_, ⟨Z / 2 ^ (3 - c), ?_⟩, ?_⟩, ?_, ?_⟩⟩
  · have hs1 : sh32 (24 - (c : ℤ)) = some (24 - c) := by
      interval_cases c <;> rfl
    have hs2 : sh32 (23 - (c : ℤ)) = some (23 - c) := by
      interval_cases c <;> rfl
    rw [head, if_pos (by omega), psub_some hjz]
    simp only [Option.bind_some]
    rw [ht.2]
    simp only [Option.bind_some]
    rw [hs1]
    simp only [Option.bind_some]
    have ed : (v : ℤ) / 2 ^ (24 - c) = ((v / 2 ^ (24 - c) : ℕ) : ℤ) := by norm_cast
    have hv' := ht.1
    rw [ed, h1, ← Nat.cast_add, i32_nat (hn.trans (by norm_num))]
    simp only [Option.bind_some]
    rw [shl32_eq (by omega)]
    have es : (v : ℤ) - ((v / 2 ^ (24 - c) * 2 ^ (24 - c) : ℕ) : ℤ) = ((v % 2 ^ (24 - c) : ℕ) : ℤ) := by
      generalize v / 2 ^ (24 - c) * 2 ^ (24 - c) = u at *
      omega
    have hml : v % 2 ^ (24 - c) ≤ v := Nat.mod_le _ _
    rw [es, i32_some (by omega) (by omega)]
    simp only [Option.bind_some]
    rw [setU_some _ (by rw [hd.1]; omega)]
    simp only [Option.bind_some]
    rw [hs2]
    simp only [Option.map_some]
    norm_cast
  · rw [zero_mul, zero_add, hB, hds']
    exact hF
  · have a := Nat.div_add_mod Z (2 ^ (3 - c))
    have eB : 2 ^ (24 * jz) = 2 ^ c * 2 ^ B := by rw [← pow_add]; congr 1; omega
    have eB' : 2 ^ (24 - c) * 2 ^ (24 * (jz - 1)) = 2 ^ B := by rw [← pow_add]; congr 1; omega
    have key : Z * 2 ^ (24 * jz) + ds d jz = ((Z % 2 ^ (3 - c) * 2 ^ c + v / 2 ^ (24 - c)) + 8 * (Z / 2 ^ (3 - c))) * 2 ^ B +
        (0 * 2 ^ (24 * jz) + (ds d (jz - 1) + v % 2 ^ (24 - c) * 2 ^ (24 * (jz - 1)))) := by
      have gen : ∀ y k i w : ℕ, 2 ^ (3 - c) * k + y = Z → i * 2 ^ (24 - c) + w = v →
          Z * 2 ^ (24 * jz) + (ds d (jz - 1) + v * 2 ^ (24 * (jz - 1))) = ((y * 2 ^ c + i) + 8 * k) * 2 ^ B +
          (0 * 2 ^ (24 * jz) + (ds d (jz - 1) + w * 2 ^ (24 * (jz - 1)))) := by
        intro y k i w h1 h2
        rw [← h1, ← h2, eB, ← eB']
        have e8' : 8 = 2 ^ (3 - c) * 2 ^ c := by rw [e8]; norm_num
        rw [e8']
        ring
      rw [hds]
      exact gen _ _ _ _ a hm
    rw [hds']
    exact_mod_cast key
  · rw [zero_mul, zero_add, hB, if_neg (by omega), hds']
    rcases hhalf with h | h
    · exact Or.inl ⟨by exact_mod_cast h.1, h.2⟩
    · exact Or.inr ⟨by exact_mod_cast h.1, h.2⟩
  · positivity
  · omega

theorem and32_mask {v k : ℕ} (hv : v < 2 ^ 31) (hk : k ≤ 31) : and32 v ((2 ^ k - 1 : ℕ) : ℤ) = ((v % 2 ^ k : ℕ) : ℤ) := by
  unfold and32
  have hp : 2 ^ k ≤ 2 ^ 31 := Nat.pow_le_pow_right (by norm_num) hk
  have h1 : (BitVec.ofInt 32 (v : ℤ) &&& BitVec.ofInt 32 ((2 ^ k - 1 : ℕ) : ℤ)).toNat = v % 2 ^ k := by
    rw [BitVec.toNat_and, BitVec.ofInt_natCast, BitVec.ofInt_natCast, BitVec.toNat_ofNat, BitVec.toNat_ofNat,
      Nat.mod_eq_of_lt (by omega), Nat.mod_eq_of_lt (by omega), Nat.and_two_pow_sub_one_eq_mod]
  have hl : v % 2 ^ k ≤ v := Nat.mod_le _ _
  rw [BitVec.toInt_eq_toNat_cond, h1, if_pos (by omega)]

/-- the mask on the top digit reduces modulo `2^B` -/
theorem maskTop_spec {iq : List ℤ} {jz c : ℕ} {d : ℕ → ℕ} (hjz : 0 < jz) (hjz2 : jz < 20) (hc : c ≤ 2) (h : Dig iq jz d) :
    ∃ iq' d', maskTop jz c iq = some iq' ∧ Dig iq' jz d' ∧ ds d' jz = ds d jz % 2 ^ (24 * jz - c) := by
  by_cases h0 : c = 0
  · subst h0
    refine ⟨iq, d, rfl, h, ?_⟩
    rw [Nat.mod_eq_of_lt]
    exact h.lt
  · have ht := h.2 (jz - 1) (by omega)
    have hds : ds d jz = ds d (jz - 1) + d (jz - 1) * 2 ^ (24 * (jz - 1)) := by
      rw [← ds_succ, Nat.sub_add_cancel hjz]
    have hlow : ds d (jz - 1) < 2 ^ (24 * (jz - 1)) := ds_lt fun t ht' => (h.2 t (by omega)).1
    set v := d (jz - 1) with hv
    refine ⟨iq.set (jz - 1) ((v % 2 ^ (24 - c) : ℕ) : ℤ), Function.update d (jz - 1) (v % 2 ^ (24 - c)), ?_, ?_, ?_⟩
    · have hm := and32_mask (v := v) (k := 24 - c) (by have := ht.1; omega) (by omega)
      have hl : jz - 1 < iq.length := by rw [h.1]; omega
      unfold maskTop
      have hc' : c = 1 ∨ c = 2 := by omega
      rcases hc' with rfl | rfl
      · rw [if_pos (by norm_num), psub_some hjz]
        simp only [Option.bind_some]
        rw [ht.2]
        simp only [Option.bind_some]
        rw [setU_some _ hl]
        have e : (0x7fffff : ℤ) = ((2 ^ (24 - 1) - 1 : ℕ) : ℤ) := by norm_num
        rw [e, hm]
      · rw [if_neg (by norm_num), if_pos (by norm_num), psub_some hjz]
        simp only [Option.bind_some]
        rw [ht.2]
        simp only [Option.bind_some]
        rw [setU_some _ hl]
        have e : (0x3fffff : ℤ) = ((2 ^ (24 - 2) - 1 : ℕ) : ℤ) := by norm_num
        rw [e, hm]
    · exact h.set (by omega) ((Nat.mod_le _ _).trans_lt ht.1) (Or.inl le_rfl)
    · have := ds_succ (Function.update d (jz - 1) (v % 2 ^ (24 - c))) (jz - 1)
      rw [Nat.sub_add_cancel hjz, Function.update_self, ds_update d le_rfl] at this
      rw [this, hds]
      have e : 2 ^ (24 * jz - c) = 2 ^ (24 * (jz - 1)) * 2 ^ (24 - c) := by rw [← pow_add]; congr 1; omega
      have hp : 0 < 2 ^ (24 * (jz - 1)) := by positivity
      rw [e]
      generalize 2 ^ (24 * (jz - 1)) = T at *
      rw [Nat.mod_mul, mul_comm v T, mul_comm _ T, Nat.add_mul_mod_self_left, Nat.mod_eq_of_lt hlow,
        Nat.add_mul_div_left _ _ hp, Nat.div_eq_of_lt hlow, zero_add]

/-- state after a pass: `N` is `n + 8 k` units of `2^B` plus (`ih = 0`) or minus (`ih > 0`) the rest `G ≤ 2^B / 2` -/
structure PassOut (q0 : ℤ) (jz B N : ℕ) (o : Out) (zf : ℕ) (d : ℕ → ℕ) : Prop where
  z : Is o.z zf q0
  zf0 : 0 ≤ q0 → zf = 0
  dig : Dig o.iq jz d
  le : 2 * (zf * 2 ^ (24 * jz) + ds d jz) ≤ 2 ^ B
  eq : ∃ k : ℕ, (N : ℤ) = (o.n + 8 * k) * 2 ^ B + (if o.ih = 0 then 1 else -1) * (zf * 2 ^ (24 * jz) + ds d jz : ℕ)
  n0 : 0 ≤ o.n
  n8 : o.n ≤ 8
  jz_eq : o.jz = jz

theorem negate_spec {q0 : ℤ} {jz B M : ℕ} {z : Flt f64} {n ih : ℤ} {iq : List ℤ} (h : HeadOut q0 jz B M z n ih iq)
    (hjz : 0 < jz) (hjz2 : jz < 20) (h1 : -27 ≤ q0) (h2 : q0 ≤ 2) (hB : (B : ℤ) = 24 * jz - q0) (q : List (Flt f64)) :
    ∃ z' n' iq' zf d, negate z n ih iq jz q0 = some (z', n', iq') ∧ PassOut q0 jz B M ⟨z', n', ih, jz, q, iq'⟩ zf d := by
  obtain ⟨⟨zf, d, hz, hz0, hd, hF, ⟨k, hk⟩, hih⟩, hn0, hn7⟩ := h
  rcases hih with ⟨rfl, hh⟩ | ⟨hih, hh⟩
  · exact ⟨z, n, iq, zf, d, rfl, ⟨hz, hz0, hd, hh.le, ⟨k, by simpa using hk⟩, hn0, by simp only; omega, rfl⟩⟩
  · have hpos : ih > 0 := by rw [hih]; split_ifs <;> norm_num
    obtain ⟨c, iq1, d1, hc, hd1, hcase⟩ := complement_spec hjz2 hd
    have hne : ¬ ih = 0 := by omega
    have finish : ∀ (z' : Flt f64) (iq' : List ℤ) (zf' : ℕ) (d' : ℕ → ℕ), Is z' zf' q0 → (0 ≤ q0 → zf' = 0) → Dig iq' jz d' →
        zf' * 2 ^ (24 * jz) + ds d' jz + (zf * 2 ^ (24 * jz) + ds d jz) = 2 ^ B →
        PassOut q0 jz B M ⟨z', n + 1, ih, jz, q, iq'⟩ zf' d' := by
      intro z' iq' zf' d' a1 a2 a3 a4
      refine ⟨a1, a2, a3, ?_, ⟨k, ?_⟩, by simp only; omega, by simp only; omega, rfl⟩
      · generalize zf' * 2 ^ (24 * jz) + ds d' jz = u at *
        omega
      · simp only [if_neg hne]
        rw [hk]
        have a5 : ((zf' * 2 ^ (24 * jz) + ds d' jz : ℕ) : ℤ) + ((zf * 2 ^ (24 * jz) + ds d jz : ℕ) : ℤ) = 2 ^ B := by
          exact_mod_cast a4
        linear_combination a5
    rw [negate, if_pos hpos, i32_some (by omega) (by omega)]
    simp only [Option.bind_some]
    rw [hc]
    simp only [Option.bind_some]
    by_cases hq : q0 < 0
    · rw [if_pos hq] at hih
      subst hih
      have hm : maskTop jz q0 iq1 = some iq1 := by
        rw [maskTop, if_neg (by omega), if_neg (by omega)]
      rw [hm]
      simp only [Option.bind_some]
      obtain ⟨p, rfl⟩ : ∃ p : ℕ, q0 = -(p : ℤ) := ⟨q0.natAbs, by omega⟩
      have hBp : B = 24 * jz + p := by omega
      have hone : Is (1.0 : Flt f64) ((2 ^ p : ℕ) : ℤ) (-p) := by
        have := is_one.unshift p
        push_cast
        simpa using this
      have hp27 : 2 ^ p ≤ 2 ^ 27 := Nat.pow_le_pow_right (by norm_num) (by omega)
      have hzf : zf < 2 ^ p := by
        rw [hBp, pow_add] at hF
        have : 0 < 2 ^ (24 * jz) := by positivity
        generalize 2 ^ (24 * jz) = T at *
        by_contra hcon
        nlinarith
      have hsub : Is (1.0 - z) ((2 ^ p - zf : ℕ) : ℤ) (-p) := by
        have e : ((2 ^ p : ℕ) : ℤ) - (zf : ℤ) = ((2 ^ p - zf : ℕ) : ℤ) := by omega
        refine (hone.sub hz ?_ (by omega) (by omega)).congr e
        rw [e, abs_of_nonneg (by positivity)]
        omega
      rw [if_pos trivial]
      rcases hcase with ⟨rfl, c1, c2⟩ | ⟨rfl, c1⟩
      · rw [if_neg (by simp)]
        refine ⟨_, _, _, 2 ^ p - zf, d1, rfl, finish _ _ _ _ hsub (by omega) hd1 ?_⟩
        rw [c1, c2, hBp, pow_add, add_zero, add_zero, ← add_mul, Nat.sub_add_cancel hzf.le]
        ring
      · obtain ⟨u, hu, hu'⟩ := is_one.scalbn (-(p : ℤ)) (by norm_num) (by omega) (by omega) (by rw [abs_neg, abs_of_nonneg (by positivity)]; omega)
        rw [if_pos (by simp), hu]
        simp only [Option.map_some]
        rw [zero_add] at hu'
        have e : ((2 ^ p - zf : ℕ) : ℤ) - 1 = ((2 ^ p - zf - 1 : ℕ) : ℤ) := by omega
        have hsub2 : Is (1.0 - z - u) ((2 ^ p - zf - 1 : ℕ) : ℤ) (-p) := by
          refine (hsub.sub hu' ?_ (by omega) (by omega)).congr e
          rw [e, abs_of_nonneg (by positivity)]
          omega
        refine ⟨_, _, _, 2 ^ p - zf - 1, d1, rfl, finish _ _ _ _ hsub2 (by omega) hd1 ?_⟩
        rw [hBp, pow_add]
        have e2 : 2 ^ p - zf - 1 + zf + 1 = 2 ^ p := by omega
        generalize 2 ^ p - zf - 1 = y at *
        rw [← e2]
        generalize 2 ^ (24 * jz) = T at *
        linarith
    · rw [if_neg hq] at hih
      subst hih
      obtain ⟨cc, rfl⟩ : ∃ c : ℕ, q0 = (c : ℤ) := ⟨q0.natAbs, by omega⟩
      have hzf := hz0 (by omega)
      subst hzf
      have hcc : cc ≤ 2 := by omega
      have hBc : B = 24 * jz - cc := by omega
      obtain ⟨iq2, d2, hm, hd2, hds2⟩ := maskTop_spec hjz hjz2 hcc hd1
      rw [hm]
      simp only [Option.bind_some]
      rw [if_neg (by norm_num)]
      refine ⟨_, _, _, 0, d2, rfl, finish _ _ _ _ hz (fun _ => rfl) hd2 ?_⟩
      rw [zero_mul, zero_add] at hF hh ⊢
      rw [zero_add]
      have hBpos : 0 < 2 ^ B := by positivity
      rcases hcase with ⟨-, c1, c2⟩ | ⟨-, c1⟩
      · omega
      · rw [hds2, ← hBc]
        have e1 : 2 ^ (24 * jz) = 2 ^ cc * 2 ^ B := by rw [← pow_add]; congr 1; omega
        rw [e1] at c1
        have hcp : 0 < 2 ^ cc := by positivity
        have e2 : ds d1 jz = (2 ^ B - ds d jz) + 2 ^ B * (2 ^ cc - 1) := by
          have : 2 ^ cc * 2 ^ B = 2 ^ B + 2 ^ B * (2 ^ cc - 1) := by
            obtain ⟨w, hw⟩ : ∃ w, 2 ^ cc = w + 1 := ⟨2 ^ cc - 1, by omega⟩
            rw [hw]
            simp
            ring
          omega
        rw [e2, Nat.add_mul_mod_self_left, Nat.mod_eq_of_lt (by omega)]
        omega

/-- one pass -/
theorem pass_spec {X : ℕ → ℕ} (hX : ∀ j, X j < 2 ^ 24) {jv jz B : ℕ} {q : List (Flt f64)} (hq : Qz X jv q (jz + 1))
    (hjz : 0 < jz) (hjz2 : jz < 20) {iq : List ℤ} (hiq : iq.length = 20) {q0 : ℤ} (h1 : -27 ≤ q0) (h2 : q0 ≤ 2)
    (hB : (B : ℤ) = 24 * jz - q0) :
    ∃ o zf d, pass q0 jz q iq = some o ∧ PassOut q0 jz B (N X jv jz) o zf d ∧ o.q = q := by
  obtain ⟨z, iq1, Z, d, hdis, hz, hZ, hd, hN⟩ := distill_spec hX hq hjz2 hiq
  obtain ⟨z1, hz1, hz1'⟩ := hz.scalbn q0 (by rw [abs_of_nonneg (by positivity)]; omega) (by omega) (by omega)
    (by rw [abs_le]; constructor <;> omega)
  rw [zero_add] at hz1'
  have hm := mod8_spec (3 - q0).toNat hz1' hZ h1 (by omega) (by omega)
  set z2 := z1 - 8.0 * Generic.floor (z1 * 0.125) with hz2
  have hh : ∃ n ih iq', head (z2 - ofInt f64 (z2.toSInt 32)) (z2.toSInt 32) iq1 jz q0 = some (n, ih, iq') ∧
      HeadOut q0 jz B (Z * 2 ^ (24 * jz) + ds d jz) (z2 - ofInt f64 (z2.toSInt 32)) n ih iq' := by
    rcases lt_trichotomy q0 0 with hq0 | hq0 | hq0
    · obtain ⟨p, rfl⟩ : ∃ p : ℕ, q0 = -(p : ℤ) := ⟨q0.natAbs, by omega⟩
      have : (3 - -(p : ℤ)).toNat = 3 + p := by omega
      rw [this] at hm
      exact head_neg (by omega) (by omega) (by omega) hm hd
    · subst hq0
      exact head_zero hjz (by omega) hm hd
    · obtain ⟨c, rfl⟩ : ∃ c : ℕ, q0 = (c : ℤ) := ⟨q0.natAbs, by omega⟩
      have : (3 - (c : ℤ)).toNat = 3 - c := by omega
      rw [this] at hm
      exact head_pos hjz hjz2 (by omega) (by omega) (by omega) hm hd
  obtain ⟨n, ih, iq2, hhead, hout⟩ := hh
  obtain ⟨z', n', iq', zf, d', hneg, hpo⟩ := negate_spec hout hjz hjz2 h1 h2 hB q
  refine ⟨⟨z', n', ih, jz, q, iq'⟩, zf, d', ?_, ?_, rfl⟩
  · rw [pass, hdis]
    simp only [Option.bind_some]
    rw [hz1]
    simp only [Option.bind_some]
    rw [← hz2, hhead]
    simp only [Option.bind_some]
    rw [hneg]
    rfl
  · rw [hN]
    exact hpo

end Rpl
end Verif
