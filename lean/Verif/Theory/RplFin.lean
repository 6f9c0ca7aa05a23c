import Verif.Theory.RplLoop

/-!
# The end of the large argument reduction

The chunks are multiplied by π/2; these products and their sums per position are exact.  Only the final sums round.
-/

namespace Verif
open Flt
open Generic (scalbn)
namespace Rpl

/-- the chunks that represent the rest `G / 2^B` -/
structure Chunks (jk B G : ℕ) (jz : ℕ) (q0 : ℤ) (iq : List ℤ) (d : ℕ → ℕ) : Prop where
  dig : Dig iq (jz + 1) d
  lo : jk ≤ jz
  hi : jz ≤ jk + 4
  exp : q0 = 24 * jz - B
  val : ds d (jz + 1) = G
  top : d jz ≠ 0

theorem chop_spec {iq : List ℤ} {n : ℕ} {d : ℕ → ℕ} (hd : Dig iq n d) (jz : ℕ) (hi : jz < n) (hne : ∃ t ≤ jz, d t ≠ 0) :
    ∀ q0, ∃ h ≤ jz, d h ≠ 0 ∧ (∀ t, h < t → t ≤ jz → d t = 0) ∧ chop iq jz q0 = some (h, q0 - 24 * ((jz : ℤ) - h)) := by
  induction jz with
  | zero =>
    intro q0
    obtain ⟨t, ht, h0⟩ := hne
    obtain rfl : t = 0 := by omega
    refine ⟨0, le_rfl, h0, fun t _ _ => by omega, ?_⟩
    rw [chop, (hd.2 0 hi).2]
    simp only [Option.bind_some]
    rw [if_neg (by exact_mod_cast h0)]
    simp
  | succ idx ih =>
    intro q0
    by_cases h0 : d (idx + 1) = 0
    · obtain ⟨t, ht, hne⟩ := hne
      have htn : t ≠ idx + 1 := by rintro rfl; exact hne h0
      obtain ⟨h, hh, a, b, c⟩ := ih (by omega) ⟨t, by omega, hne⟩ (q0 - 24)
      refine ⟨h, by omega, a, fun t h1 h2 => ?_, ?_⟩
      · by_cases e : t = idx + 1
        · rw [e]; exact h0
        · exact b t h1 (by omega)
      · rw [chop, (hd.2 _ hi).2, h0]
        simp only [Option.bind_some]
        rw [if_pos (by simp), c]
        congr 2
        push_cast
        ring
    · refine ⟨idx + 1, le_rfl, h0, fun t _ _ => by omega, ?_⟩
      rw [chop, (hd.2 _ hi).2]
      simp only [Option.bind_some]
      rw [if_neg (by exact_mod_cast h0)]
      simp

theorem chunk_spec {X : ℕ → ℕ} {jv jk : ℕ} {q0 : ℤ} {o : Out} {B zf : ℕ} {d : ℕ → ℕ} (ho : LoopOut X jv jk q0 o B zf d)
    (hlo : -27 ≤ q0) (hhi : q0 ≤ 2) (hjk : 3 ≤ jk) (hjk4 : jk ≤ 4) :
    ∃ jz q0' iq d', chunk o q0 = some (jz, q0', iq) ∧ Chunks jk B (zf * 2 ^ (24 * o.jz) + ds d o.jz) jz q0' iq d' := by
  have hB := ho.hB
  have h1 := ho.lo
  have h2 := ho.hi
  have hp := ho.pass
  by_cases hz : zf = 0
  · subst hz
    obtain ⟨t, ht1, ht2, ht3⟩ := ho.sig.resolve_left (by simp)
    obtain ⟨h, hh, ha, hb, hc⟩ := chop_spec hp.dig (o.jz - 1) (by omega) ⟨t, by omega, ht3⟩ (q0 - 24)
    have hjh : jk ≤ h := by
      by_contra hcon
      exact ht3 (hb t (by omega) (by omega))
    refine ⟨h, q0 - 24 - 24 * (((o.jz - 1 : ℕ) : ℤ) - h), o.iq, d, ?_, ⟨⟨hp.dig.1, fun t ht => hp.dig.2 t (by omega)⟩, hjh, by omega, ?_, ?_, ha⟩⟩
    · rw [chunk, if_pos (hp.z.feq_zero.2 (by simp)), psub_some (by omega)]
      simp only [Option.bind_some]
      rw [hc]
      rfl
    · omega
    · rw [zero_mul, zero_add]
      exact (ds_top (by omega) (fun t a b => hb t (by omega) (by omega))).symm
  · have hq0 : q0 < 0 := by
      by_contra hcon
      exact hz (hp.zf0 (by omega))
    obtain ⟨p, rfl⟩ : ∃ p : ℕ, q0 = -(p : ℤ) := ⟨q0.natAbs, by omega⟩
    have hBp : B = 24 * o.jz + p := by omega
    have hzf : zf ≤ 2 ^ 26 := by
      have hle := hp.le
      have h26 : 2 ^ p ≤ 2 ^ 27 := Nat.pow_le_pow_right (by norm_num) (by omega)
      rw [hBp, pow_add] at hle
      have hT : 0 < 2 ^ (24 * o.jz) := by positivity
      generalize 2 ^ (24 * o.jz) = T at *
      have : 2 * zf * T ≤ 2 ^ p * T := by nlinarith
      have := Nat.le_of_mul_le_mul_right this hT
      omega
    obtain ⟨z, hz1, hz2⟩ := hp.z.scalbn (- -(p : ℤ)) (by rw [abs_of_nonneg (by positivity)]; omega) (by omega) (by omega)
      (by rw [_root_.neg_neg, abs_of_nonneg (by positivity)]; omega)
    rw [add_neg_cancel] at hz2
    have hl := hp.dig.1
    rw [chunk, if_neg (by rw [hp.z.feq_zero]; exact_mod_cast hz), hz1]
    simp only [Option.bind_some]
    have h24 : Is x1p24 ((2 ^ 24 : ℕ) : ℤ) 0 := by
      have := is_x1p24.unshift 24
      simpa using this
    by_cases hbig : 2 ^ 24 ≤ zf
    · rw [if_pos (by rw [hz2.ge_iff h24]; exact_mod_cast hbig)]
      have a1 : Is (x1pm24 * z) (zf : ℕ) (-(24 : ℕ)) := by
        have := is_x1pm24.mul hz2 (by rw [one_mul, abs_of_nonneg (by positivity)]; omega) (by norm_num) (by norm_num)
        simpa using this
      have a2 : (x1pm24 * z).toSInt 32 = ((zf / 2 ^ 24 : ℕ) : ℤ) := by
        rw [a1.toSInt 24 (by positivity) (by norm_num; omega)]
        norm_cast
      have a3 : Is (ofInt f64 ((zf / 2 ^ 24 : ℕ) : ℤ)) (zf / 2 ^ 24 : ℕ) (-(0 : ℕ)) := by
        refine Is.ofInt _ ?_
        rw [abs_of_nonneg (by positivity)]
        omega
      have a3' : (ofInt f64 ((zf / 2 ^ 24 : ℕ) : ℤ)).toSInt 32 = ((zf / 2 ^ 24 : ℕ) : ℤ) := by
        rw [a3.toSInt 0 (by positivity) (by norm_num; omega)]
        simp
      have a4 : Is (x1p24 * ofInt f64 ((zf / 2 ^ 24 : ℕ) : ℤ)) (((zf / 2 ^ 24 * 2 ^ 24 : ℕ)) : ℤ) 0 := by
        have := (is_x1p24.mul a3 (by rw [abs_of_nonneg (by positivity)]; omega) (by norm_num) (by norm_num)).unshift 24
        push_cast at this ⊢
        simpa using this
      have a5 : Is (z - x1p24 * ofInt f64 ((zf / 2 ^ 24 : ℕ) : ℤ)) ((zf % 2 ^ 24 : ℕ) : ℤ) (-(0 : ℕ)) := by
        have e : (zf : ℤ) - ((zf / 2 ^ 24 * 2 ^ 24 : ℕ) : ℤ) = ((zf % 2 ^ 24 : ℕ) : ℤ) := by omega
        have := hz2.sub a4 (by rw [e, abs_of_nonneg (by positivity)]; omega) (by norm_num) (by norm_num)
        exact this.congr e
      have a6 : (z - x1p24 * ofInt f64 ((zf / 2 ^ 24 : ℕ) : ℤ)).toSInt 32 = ((zf % 2 ^ 24 : ℕ) : ℤ) := by
        rw [a5.toSInt 0 (by positivity) (by norm_num; omega)]
        simp
      have d1 : Dig (o.iq.set o.jz ((zf % 2 ^ 24 : ℕ) : ℤ)) (o.jz + 1) (Function.update d o.jz (zf % 2 ^ 24)) :=
        hp.dig.set (by omega) (Nat.mod_lt _ (by norm_num)) (Or.inr ⟨rfl, rfl⟩)
      have d2 := d1.set (i := o.jz + 1) (by omega) (v := zf / 2 ^ 24) (by omega) (Or.inr ⟨rfl, rfl⟩)
      rw [a2, a6, setU_some _ (by rw [hl]; omega)]
      simp only [Option.bind_some]
      rw [a3', setU_some _ (by rw [List.length_set, hl]; omega)]
      refine ⟨o.jz + 1, _, _, _, rfl, ⟨d2, by omega, by omega, by push_cast; omega, ?_, ?_⟩⟩
      · rw [ds_succ, ds_succ, Function.update_self, ds_update _ (by omega), ds_update _ le_rfl,
          Function.update_of_ne (by omega), Function.update_self]
        have e : 2 ^ (24 * (o.jz + 1)) = 2 ^ 24 * 2 ^ (24 * o.jz) := by rw [← pow_add]; congr 1; omega
        rw [e]
        have hm := Nat.div_add_mod zf (2 ^ 24)
        generalize 2 ^ (24 * o.jz) = T
        calc ds d o.jz + zf % 2 ^ 24 * T + zf / 2 ^ 24 * (2 ^ 24 * T) = (2 ^ 24 * (zf / 2 ^ 24) + zf % 2 ^ 24) * T + ds d o.jz := by ring
          _ = _ := by rw [hm]
      · rw [Function.update_self]
        omega
    · rw [if_neg (by rw [hz2.ge_iff h24]; exact_mod_cast hbig)]
      have a1 : Is z (zf : ℕ) (-(0 : ℕ)) := hz2
      have a6 : z.toSInt 32 = ((zf : ℕ) : ℤ) := by
        rw [a1.toSInt 0 (by positivity) (by norm_num; omega)]
        simp
      have d1 : Dig (o.iq.set o.jz ((zf : ℕ) : ℤ)) (o.jz + 1) (Function.update d o.jz zf) :=
        hp.dig.set (by omega) (by omega) (Or.inr ⟨rfl, rfl⟩)
      rw [a6, setU_some _ (by rw [hl]; omega)]
      refine ⟨o.jz, _, _, _, rfl, ⟨d1, by omega, by omega, by omega, ?_, ?_⟩⟩
      · rw [ds_succ, Function.update_self, ds_update _ le_rfl, add_comm]
      · rw [Function.update_self]
        exact hz

/-- the chunks as floats -/
theorem toFloat_spec {jk B G jz : ℕ} {q0 : ℤ} {iq : List ℤ} {d : ℕ → ℕ} (h : Chunks jk B G jz q0 iq d) (hjk : 3 ≤ jk)
    (hjk4 : jk ≤ 4) (hB : B ≤ 200) (hB0 : (24 * jz : ℤ) - B ≤ 24) {q : List (Flt f64)} (hq : q.length = 20) :
    ∃ q', toFloat iq jz q0 q = some q' ∧ q'.length = 20 ∧ ∀ i ≤ jz, ∃ v, q'[i]? = some v ∧ Is v (d i) (24 * i - B) := by
  have h1 := h.lo
  have h2 := h.hi
  have h3 := h.exp
  obtain ⟨fw, hfw, hfw'⟩ := is_one.scalbn q0 (by norm_num) (by omega) (by omega) (by rw [abs_le]; constructor <;> omega)
  rw [zero_add] at hfw'
  obtain ⟨⟨fw', q'⟩, hs, -, hl, hv⟩ := foldlM_range
    (fun i (s : Flt f64 × List (Flt f64)) => Is s.1 1 (q0 - 24 * i) ∧ s.2.length = 20 ∧
      ∀ j ≤ jz, jz < j + i → ∃ v, s.2[j]? = some v ∧ Is v (d j) (24 * j - B))
    (fun (s : Flt f64 × List (Flt f64)) t =>
      let i := jz - t
      (iq[i]?).bind fun v => (setU s.2 i (s.1 * ofInt f64 v)).map fun q => (s.1 * x1pm24, q)) (jz + 1) (fw, q)
    ⟨by simpa using hfw', hq, fun j h1 h2 => by omega⟩ (by
    rintro i hi ⟨fw, q⟩ ⟨hf, hql, hv⟩
    have hd := h.dig.2 (jz - i) (by omega)
    have hlt := hd.1
    have hm : Is (fw * ofInt f64 (d (jz - i))) (d (jz - i)) (24 * ((jz - i : ℕ) : ℤ) - B) := by
      have := hf.mul (Is.ofInt (d (jz - i) : ℤ) (by rw [abs_of_nonneg (by positivity)]; omega))
        (by rw [one_mul, abs_of_nonneg (by positivity)]; omega) (by omega) (by omega)
      rw [one_mul, add_zero] at this
      have e : q0 - 24 * (i : ℤ) = 24 * ((jz - i : ℕ) : ℤ) - B := by omega
      rwa [e] at this
    simp only at hql
    refine ⟨(fw * x1pm24, q.set (jz - i) (fw * ofInt f64 (d (jz - i)))), ?_, ?_, by simpa using hql, fun j hj1 hj2 => ?_⟩
    · simp only
      rw [hd.2]
      simp only [Option.bind_some]
      rw [setU_some _ (by rw [hql]; omega)]
      rfl
    · have := hf.mul is_x1pm24 (by norm_num) (by omega) (by omega)
      rw [one_mul] at this
      have e : q0 - 24 * (i : ℤ) + -24 = q0 - 24 * ((i + 1 : ℕ) : ℤ) := by push_cast; ring
      rwa [e] at this
    · by_cases e : j = jz - i
      · subst e
        exact ⟨_, by rw [List.getElem?_set_self (by rw [hql]; omega)], hm⟩
      · obtain ⟨v, hv1, hv2⟩ := hv j hj1 (by omega)
        exact ⟨v, by rw [List.getElem?_set_ne (Ne.symm e)]; exact hv1, hv2⟩)
  refine ⟨q', ?_, hl, fun i hi => hv i hi (by omega)⟩
  rw [toFloat, hfw]
  simp only [Option.bind_some]
  rw [hs]
  rfl

/-- the chunks of π/2, scaled to integers -/
def P (k : ℕ) : ℕ := ([13176794, 10625384, 12727492, 13001355, 8444956, 13707522, 5113994, 6802548][k]?).getD 0

theorem pio2_get : ∀ k < 8, ∃ v, pio2[k]? = some v ∧ v.isFinite ∧ v.toRat = ((P k : ℕ) : ℚ) / 2 ^ (23 + 24 * k) := by
  have h : ∀ k < 8, (pio2[k]?).any (fun v => decide v.isFinite && decide (v.toRat = ((P k : ℕ) : ℚ) / 2 ^ (23 + 24 * k))) = true := by decide +kernel
  intro k hk
  have := h k hk
  cases hv : pio2[k]? with
  | none => rw [hv] at this; simp at this
  | some v =>
    rw [hv] at this
    simp only [Option.any_some, Bool.and_eq_true, decide_eq_true_eq] at this
    exact ⟨v, rfl, this.1, this.2⟩

theorem pio2_is {k : ℕ} (hk : k < 8) : ∃ v, pio2[k]? = some v ∧ Is v (P k) (-(23 + 24 * k)) := by
  obtain ⟨v, h1, h2, h3⟩ := pio2_get k hk
  refine ⟨v, h1, h2, ?_⟩
  show ((v.toRat : ℚ) : ℝ) = _
  rw [h3, zpow_neg]
  have : (23 + 24 * (k : ℤ)) = ((23 + 24 * k : ℕ) : ℤ) := by push_cast; ring
  rw [this, zpow_natCast]
  push_cast
  rfl

theorem P_lt (k : ℕ) : P k < 2 ^ 24 := by
  by_cases h : k < 8
  · interval_cases k <;> decide
  · unfold P
    rw [List.getElem?_eq_none (by simp; omega)]
    decide

/-- the exact `fq[jz - i]` -/
def E (d : ℕ → ℕ) (jp jz i : ℕ) : ℕ := ∑ k ∈ Finset.range (min jp (jz - i) + 1), P k * d (i + k)

theorem conv_spec {jp jz B i : ℕ} {d : ℕ → ℕ} {q : List (Flt f64)} (hjp : jp ≤ 4) (hB : B ≤ 200) (hB0 : (24 * jz : ℤ) - B ≤ 24)
    (hd : ∀ i ≤ jz, d i < 2 ^ 24) (hq : ∀ i ≤ jz, ∃ v, q[i]? = some v ∧ Is v (d i) (24 * i - B)) (hi : i ≤ jz) :
    ∃ v, conv q jp jz i = some v ∧ Is v (E d jp jz i) (24 * i - B - 23) ∧ E d jp jz i ≤ 5 * 2 ^ 48 := by
  obtain ⟨v, h1, h2, h3⟩ := foldlM_range
    (fun m (fw : Flt f64) => Is fw ((∑ k ∈ Finset.range m, P k * d (i + k) : ℕ) : ℤ) (24 * i - B - 23) ∧
      (∑ k ∈ Finset.range m, P k * d (i + k)) ≤ m * 2 ^ 48)
    (fun (fw : Flt f64) k => (pio2[k]?).bind fun a => (q[i + k]?).map fun b => fw + a * b) (min jp (jz - i) + 1) 0.0
    ⟨by simpa using Is.cast_zero, by simp⟩ (by
    rintro k hk s ⟨hs, hb⟩
    obtain ⟨a, ha1, ha2⟩ := pio2_is (k := k) (by omega)
    obtain ⟨b, hb1, hb2⟩ := hq (i + k) (by omega)
    have hprod : P k * d (i + k) < 2 ^ 48 := by
      have := Nat.mul_lt_mul'' (P_lt k) (hd (i + k) (by omega))
      norm_num at this ⊢
      exact this
    have hm : Is (a * b) ((P k * d (i + k) : ℕ) : ℤ) (24 * i - B - 23) := by
      have := ha2.mul hb2 (by
        rw [abs_of_nonneg (by positivity)]
        have : ((P k * d (i + k) : ℕ) : ℤ) < 2 ^ 48 := by exact_mod_cast hprod
        push_cast at this
        omega) (by push_cast; omega) (by push_cast; omega)
      have e : -(23 + 24 * (k : ℤ)) + (24 * ((i + k : ℕ) : ℤ) - B) = 24 * i - B - 23 := by push_cast; ring
      rw [e] at this
      push_cast
      exact this
    have hkm : k * 2 ^ 48 ≤ 4 * 2 ^ 48 := Nat.mul_le_mul_right _ (by omega)
    refine ⟨s + a * b, by rw [ha1]; simp [hb1], ?_, ?_⟩
    · have := hs.add hm (by
        rw [← Nat.cast_add, abs_of_nonneg (by positivity)]
        generalize (∑ k ∈ Finset.range k, P k * d (i + k)) = S at *
        generalize P k * d (i + k) = R at *
        omega) (by omega) (by omega)
      rw [Finset.sum_range_succ]
      push_cast at this ⊢
      exact this
    · rw [Finset.sum_range_succ]
      have : (k + 1) * 2 ^ 48 = k * 2 ^ 48 + 2 ^ 48 := by ring
      omega)
  refine ⟨v, h1, h2, h3.trans (Nat.mul_le_mul_right _ (by omega))⟩

/-- the real value of `fq[t]` -/
noncomputable def fv (d : ℕ → ℕ) (jp jz B t : ℕ) : ℝ := (E d jp jz (jz - t) : ℝ) * 2 ^ (24 * ((jz - t : ℕ) : ℤ) - B - 23)

theorem product_spec {jp jz B : ℕ} {d : ℕ → ℕ} {q : List (Flt f64)} (hjp : jp ≤ 4) (hB : B ≤ 200) (hB0 : (24 * jz : ℤ) - B ≤ 24)
    (hjz : jz < 20) (hd : ∀ i ≤ jz, d i < 2 ^ 24) (hq : ∀ i ≤ jz, ∃ v, q[i]? = some v ∧ Is v (d i) (24 * i - B))
    {fq : List (Flt f64)} (hfq : fq.length = 20) :
    ∃ fq', product q jp jz fq = some fq' ∧ fq'.length = 20 ∧
      ∀ t ≤ jz, ∃ v, fq'[t]? = some v ∧ v.isFinite ∧ v.val = fv d jp jz B t ∧ 0 ≤ v.val ∧ v.val ≤ 2 ^ 55 := by
  obtain ⟨fq', h1, h2, h3⟩ := foldlM_range
    (fun i (s : List (Flt f64)) => s.length = 20 ∧
      ∀ t < i, ∃ v, s[t]? = some v ∧ v.isFinite ∧ v.val = fv d jp jz B t ∧ 0 ≤ v.val ∧ v.val ≤ 2 ^ 55)
    (fun (fq : List (Flt f64)) t =>
      let i := jz - t
      (conv q jp jz i).bind fun fw => setU fq (jz - i) fw) (jz + 1) fq ⟨hfq, fun t ht => by omega⟩ (by
    rintro t ht s ⟨hl, hs⟩
    obtain ⟨v, hv1, hv2, hv3⟩ := conv_spec hjp hB hB0 hd hq (i := jz - t) (by omega)
    have e : jz - (jz - t) = t := by omega
    refine ⟨s.set t v, ?_, by simpa using hl, fun j hj => ?_⟩
    · simp only
      rw [hv1]
      simp only [Option.bind_some]
      rw [e, setU_some _ (by rw [hl]; omega)]
    · by_cases e : j = t
      · subst e
        refine ⟨v, by rw [List.getElem?_set_self (by rw [hl]; omega)], hv2.1, ?_, ?_, ?_⟩
        · rw [hv2.2]
          rfl
        · rw [hv2.2]
          have : (0 : ℝ) < 2 ^ (24 * ((jz - j : ℕ) : ℤ) - B - 23) := zp _
          positivity
        · rw [hv2.2]
          have a : (2 : ℝ) ^ (24 * ((jz - j : ℕ) : ℤ) - B - 23) ≤ 2 ^ (1 : ℤ) := zpow_le_zpow_right₀ (by norm_num) (by omega)
          have b : ((E d jp jz (jz - j) : ℕ) : ℝ) ≤ 5 * 2 ^ 48 := by exact_mod_cast hv3
          have c : (0 : ℝ) < 2 ^ (24 * ((jz - j : ℕ) : ℤ) - B - 23) := zp _
          push_cast
          generalize (2 : ℝ) ^ (24 * ((jz - j : ℕ) : ℤ) - B - 23) = w at *
          calc ((E d jp jz (jz - j) : ℕ) : ℝ) * w ≤ (5 * 2 ^ 48) * w := mul_le_mul_of_nonneg_right b c.le
            _ ≤ (5 * 2 ^ 48) * 2 ^ (1 : ℤ) := mul_le_mul_of_nonneg_left a (by norm_num)
            _ ≤ 2 ^ 55 := by norm_num
      · obtain ⟨u, hu1, hu2⟩ := hs j (by omega)
        exact ⟨u, by rw [List.getElem?_set_ne (Ne.symm e)]; exact hu1, hu2⟩)
  exact ⟨fq', h1, h2, fun t ht => h3 t (by omega)⟩

/-- the sum of the `fq[t]` -/
noncomputable def fsum (d : ℕ → ℕ) (jp jz B : ℕ) : ℝ := ∑ t ∈ Finset.range (jz + 1), fv d jp jz B t

theorem sumDown_spec {fq : List (Flt f64)} {jz : ℕ} {g : ℕ → ℝ} (hjz : jz ≤ 8)
    (hfq : ∀ t ≤ jz, ∃ v, fq[t]? = some v ∧ v.isFinite ∧ v.val = g t ∧ 0 ≤ v.val ∧ v.val ≤ 2 ^ 55) :
    ∃ v, sumDown fq jz 0 = some v ∧ v.isFinite ∧ |v.val - ∑ t ∈ Finset.range (jz + 1), g t| ≤ 2 ^ (-48 : ℤ) * ∑ t ∈ Finset.range (jz + 1), g t ∧
      (∑ t ∈ Finset.range (jz + 1), g t) ≤ 2 ^ 59 := by
  have hg : ∀ t ≤ jz, 0 ≤ g t ∧ g t ≤ 2 ^ 55 := by
    intro t ht
    obtain ⟨v, -, -, h, h1, h2⟩ := hfq t ht
    rw [← h]
    exact ⟨h1, h2⟩
  obtain ⟨v, h1, h2, h3, h4, h5, h6⟩ := foldlM_range
    (fun i (s : Flt f64) => s.isFinite ∧ |s.val - ∑ t ∈ Finset.range i, g (jz - t)| ≤ i * 2 ^ (-52 : ℤ) * ∑ t ∈ Finset.range i, g (jz - t) ∧
      0 ≤ ∑ t ∈ Finset.range i, g (jz - t) ∧ (∑ t ∈ Finset.range i, g (jz - t)) ≤ i * 2 ^ 55 ∧ i ≤ 9)
    (fun (fw : Flt f64) t => (fq[jz - t]?).map fun v => fw + v) (jz + 1) 0.0
    (by
      have h0 : (0.0 : Flt f64) = zero f64 false := by decide +kernel
      refine ⟨by rw [h0]; decide, by rw [h0]; simp, by simp, by simp, by omega⟩) (by
    rintro i hi s ⟨hf, he, hn, hu, h9⟩
    obtain ⟨v, hv, hvf, hvv, hv0, hv1⟩ := hfq (jz - i) (by omega)
    refine ⟨s + v, by rw [hv]; rfl, ?_⟩
    rw [Finset.sum_range_succ]
    have hi8 : (i : ℝ) ≤ 8 := by exact_mod_cast (by omega : i ≤ 8)
    have hi0 : (0 : ℝ) ≤ i := by positivity
    generalize (∑ t ∈ Finset.range i, g (jz - t)) = S at *
    rw [← hvv]
    have he' := abs_le.1 he
    have hq : (2 : ℝ) ^ (-52 : ℤ) = 2 * 2 ^ (-53 : ℤ) := by norm_num
    have hqs : (2 : ℝ) ^ (-53 : ℤ) ≤ 1 / 1000 := by norm_num
    have hq0 : (0 : ℝ) < 2 ^ (-53 : ℤ) := zp _
    rw [hq] at he he' ⊢
    obtain ⟨u, hu'⟩ : ∃ u : ℝ, (2 : ℝ) ^ (-53 : ℤ) = u := ⟨_, rfl⟩
    rw [hu'] at he he' hqs hq0 ⊢
    have hiu : (i : ℝ) * (2 * u) ≤ 16 / 1000 := by nlinarith
    have hiu0 : 0 ≤ (i : ℝ) * (2 * u) := by positivity
    have hiS : (i : ℝ) * (2 * u) * S ≤ 16 / 1000 * S := mul_le_mul_of_nonneg_right hiu hn
    have hpow : (2 : ℝ) ^ 60 ≤ 3 / 2 * 2 ^ (1023 : ℤ) := by
      have : (2 : ℝ) ^ (60 : ℤ) ≤ 2 ^ (1023 : ℤ) := zpow_le_zpow_right₀ (by norm_num) (by norm_num)
      have h2 : (2 : ℝ) ^ (60 : ℤ) = 2 ^ 60 := by norm_cast
      have h3 := zp (1023 : ℤ)
      rw [h2] at this
      generalize (2 : ℝ) ^ (1023 : ℤ) = T at *
      linarith
    have hS8 : S ≤ 8 * 2 ^ 55 := hu.trans (by nlinarith)
    have hsum0 : 0 ≤ s.val + v.val := by linarith
    obtain ⟨af, ae⟩ := add_rel64 hf hvf (by
      rw [abs_of_nonneg hsum0]
      refine le_trans ?_ hpow
      linarith)
    rw [abs_of_nonneg hsum0, hu'] at ae
    refine ⟨af, ?_, by linarith, ?_, by omega⟩
    · push_cast
      have ae' := abs_le.1 ae
      rw [abs_le]
      have h7 : (s.val + v.val) * u ≤ 2 * (S + v.val) * u := mul_le_mul_of_nonneg_right (by linarith) hq0.le
      have h8 : 0 ≤ (i : ℝ) * (2 * u) * v.val := mul_nonneg hiu0 hv0
      have h9 : ((i : ℝ) + 1) * (2 * u) * (S + v.val) = i * (2 * u) * S + i * (2 * u) * v.val + 2 * (S + v.val) * u := by ring
      rw [h9]
      constructor <;> linarith
    · push_cast
      linarith)
  have hrefl : (∑ t ∈ Finset.range (jz + 1), g (jz - t)) = ∑ t ∈ Finset.range (jz + 1), g t := by
    have := Finset.sum_range_reflect g (jz + 1)
    rw [← this]
    exact Finset.sum_congr rfl fun t ht => by congr 1
  rw [hrefl] at h3 h4 h5
  refine ⟨v, h1, h2, h3.trans (mul_le_mul_of_nonneg_right ?_ h4), h5.trans ?_⟩
  · have : ((jz + 1 : ℕ) : ℝ) ≤ 9 := by exact_mod_cast h6
    calc ((jz + 1 : ℕ) : ℝ) * 2 ^ (-52 : ℤ) ≤ 9 * 2 ^ (-52 : ℤ) := mul_le_mul_of_nonneg_right this (zp _).le
      _ ≤ 2 ^ (-48 : ℤ) := by norm_num
  · have : ((jz + 1 : ℕ) : ℝ) ≤ 9 := by exact_mod_cast h6
    nlinarith

theorem sumUp_spec {fq : List (Flt f64)} {jz : ℕ} (hjz : jz ≤ 8)
    (hfq : ∀ t ≤ jz, ∃ v, fq[t]? = some v ∧ v.isFinite ∧ 0 ≤ v.val ∧ v.val ≤ 2 ^ 55) {fw : Flt f64} (hf : fw.isFinite)
    (hw : |fw.val| ≤ 2 ^ 61) : ∃ v, sumUp fq jz fw = some v ∧ v.isFinite ∧ |v.val| ≤ 2 ^ 70 := by
  obtain ⟨v, h1, h2, h3⟩ := foldlM_range
    (fun i (s : Flt f64) => s.isFinite ∧ |s.val| ≤ 2 ^ (61 + i))
    (fun (fw : Flt f64) t => (fq[t + 1]?).map fun v => fw + v) jz fw ⟨hf, by simpa using hw⟩ (by
    rintro i hi s ⟨hs, hb⟩
    obtain ⟨v, hv, hvf, hv0, hv1⟩ := hfq (i + 1) (by omega)
    have hp : (2 : ℝ) ^ 55 ≤ 2 ^ (61 + i) / 2 := by
      have : (2 : ℝ) ^ 56 ≤ 2 ^ (61 + i) := pow_le_pow_right₀ (by norm_num) (by omega)
      linarith
    have hsum : |s.val + v.val| ≤ 2 ^ (61 + i) * (3 / 2) := by
      have := abs_add_le s.val v.val
      rw [abs_of_nonneg hv0] at this
      linarith
    have hle : (2 : ℝ) ^ (61 + i) ≤ 2 ^ (1023 : ℤ) := by
      have : (2 : ℝ) ^ ((61 + i : ℕ) : ℤ) ≤ 2 ^ (1023 : ℤ) := zpow_le_zpow_right₀ (by norm_num) (by omega)
      rwa [zpow_natCast] at this
    obtain ⟨af, ae⟩ := add_rel64 hs hvf (by
      refine hsum.trans ?_
      generalize (2 : ℝ) ^ (1023 : ℤ) = T at *
      linarith)
    refine ⟨s + v, by rw [hv]; rfl, af, ?_⟩
    have e : (2 : ℝ) ^ (61 + (i + 1)) = 2 * 2 ^ (61 + i) := by rw [← add_assoc, pow_succ']
    rw [e]
    have h5 : |(s + v).val| ≤ |s.val + v.val| + |(s + v).val - (s.val + v.val)| := by
      have := abs_add_le (s.val + v.val) ((s + v).val - (s.val + v.val))
      simpa using this
    have h6 : |s.val + v.val| * (2 : ℝ) ^ (-53 : ℤ) ≤ |s.val + v.val| * (1 / 4) := mul_le_mul_of_nonneg_left (by norm_num) (abs_nonneg _)
    clear hle hp
    generalize (2 : ℝ) ^ (61 + i) = T at *
    linarith [h5.trans (add_le_add_right (ae.trans h6) _)])
  refine ⟨v, h1, h2, h3.trans (pow_le_pow_right₀ (by norm_num) (by omega))⟩

/-- `f` positions of the number: `N` up to multiples of eight quadrants is `n` quadrants plus `sg G / 2^B` quadrants, and `y` is
about `sg` times the product of `G / 2^B` with the chunks of π/2 -/
structure Red (X : ℕ → ℕ) (jv jk r : ℕ) (q0 : ℤ) (n : ℤ) (y : Flt f64) (jz B G jz' : ℕ) (d : ℕ → ℕ) (sg : ℤ) : Prop where
  n0 : 0 ≤ n
  n7 : n ≤ 7
  fin : y.isFinite
  sg1 : sg = 1 ∨ sg = -1
  lo : jk ≤ jz
  hi : jz ≤ jk + 3
  hB : (B : ℤ) = 24 * jz - q0
  eq : ∃ k : ℕ, (N X jv jz : ℤ) = (n + 8 * k) * 2 ^ B + sg * G
  le : 2 * G ≤ 2 ^ B
  ge : 2 ^ (B - r - 1) ≤ G
  dlt : ∀ t ≤ jz', d t < 2 ^ 24
  lo' : jk ≤ jz'
  hi' : jz' ≤ jk + 4
  val : ds d (jz' + 1) = G
  top : d jz' ≠ 0
  err : |sg * y.val - fsum d jk jz' B| ≤ 2 ^ (-48 : ℤ) * fsum d jk jz' B

theorem and32_seven {n : ℤ} (h0 : 0 ≤ n) (h8 : n ≤ 8) : and32 n 7 = n % 8 := by
  interval_cases n <;> decide

/-- everything up to the final sums -/
theorem large_core {tbl : List ℤ} (ht : GoodTbl tbl) {x : List (Flt f64)} {jx : ℕ} {X : ℕ → ℕ} (hx : Inp x jx X)
    (hlen : x.length = jx + 1) {jv jk prec K r : ℕ} {e0 q0 : ℤ} (he0 : e0 ≤ 16360) (hjv : jv = ((e0 - 3).tdiv 24).toNat)
    (hq0 : q0 = e0 - 24 * ((jv : ℤ) + 1)) (he : Exps jv q0 K) (hm : Marg X jv K r) (hprec : initJk[prec]? = some jk)
    (hjk : 3 ≤ jk) (hjk4 : jk ≤ 4) (hr62 : r ≤ 62) (hr : (r : ℤ) + 27 ≤ 24 * jk - q0) (y : List (Flt f64)) :
    ∃ (n ih : ℤ) (fq : List (Flt f64)) (jz B G jz' : ℕ) (d : ℕ → ℕ),
      remPio2Large tbl x y e0 prec = (compress prec fq jz' ih y).map (fun y => (n, y)) ∧ jz' ≤ 8 ∧
      (∀ t ≤ jz', ∃ v, fq[t]? = some v ∧ v.isFinite ∧ v.val = fv d jk jz' B t ∧ 0 ≤ v.val ∧ v.val ≤ 2 ^ 55) ∧
      ∀ w : Flt f64, w.isFinite → |w.val - fsum d jk jz' B| ≤ 2 ^ (-48 : ℤ) * fsum d jk jz' B →
        Red X jv jk r q0 n (if ih = 0 then w else -w) jz B G jz' d (if ih = 0 then 1 else -1) := by
  have hjvle := he.jv_le
  have hjxle := hx.jx_le
  have hlo := he.lo
  have hhi := he.hi
  obtain ⟨f, hf, hf'⟩ := initF_spec ht (jv := jv) hjxle (m := jx + jk) (by omega) (by omega) (f := List.replicate 20 0.0) (by simp)
  obtain ⟨q, hq, hq'⟩ := initQ_spec hx (jk := jk) hf' (by omega) (q := List.replicate 20 0.0) (by simp)
  obtain ⟨o, B, zf, d, hrec, hout⟩ := recompute_spec ht hx he hm hjk hjk4 hr62 hr 0 20 (by omega) (by omega) f q
    (List.replicate 20 0) hf' hq' (by simp)
  obtain ⟨jz', q0', iq, d', hch, hchunks⟩ := chunk_spec hout hlo hhi hjk hjk4
  have hB := hout.hB
  have hjz1 := hout.lo
  have hjz2 := hout.hi
  have hj1 := hchunks.lo
  have hj2 := hchunks.hi
  have hexp := hchunks.exp
  have hp := hout.pass
  have hG := G_ge hx.lt he hm (by omega) (by omega) hB (by omega) hp
  have hdlt : ∀ t ≤ jz', d' t < 2 ^ 24 := fun t ht => (hchunks.dig.2 t (by omega)).1
  have htop : (24 * jz' : ℤ) - B ≤ 24 := by
    have h1 : 2 ^ (24 * jz') ≤ ds d' (jz' + 1) := by
      rw [ds_succ]
      have h2 : 1 * 2 ^ (24 * jz') ≤ d' jz' * 2 ^ (24 * jz') := Nat.mul_le_mul_right _ (by have := hchunks.top; omega)
      omega
    rw [hchunks.val] at h1
    have h2 := hp.le
    have h3 : 2 ^ (24 * jz') < 2 ^ B := by
      generalize zf * 2 ^ (24 * o.jz) + ds d o.jz = G at *
      have : 0 < 2 ^ (24 * jz') := by positivity
      omega
    have := (Nat.pow_lt_pow_iff_right (by norm_num)).1 h3
    omega
  obtain ⟨q', hq1, hq2, hq3⟩ := toFloat_spec hchunks hjk hjk4 (by omega) htop hout.qlen
  obtain ⟨fq, hfq, hfql, hfq'⟩ := product_spec (jp := jk) hjk4 (B := B) (by omega) htop (by omega) hdlt hq3
    (fq := List.replicate 20 0.0) (by simp)
  obtain ⟨k, hk⟩ := hp.eq
  have hn0 := hp.n0
  have hn8 := hp.n8
  refine ⟨o.n % 8, o.ih, fq, o.jz, B, zf * 2 ^ (24 * o.jz) + ds d o.jz, jz', d', ?_, by omega, hfq', ?_⟩
  · rw [remPio2Large, if_neg (by omega), hprec]
    simp only [Option.bind_some]
    rw [psub_some (by omega), hlen]
    simp only [Option.bind_some, Nat.add_sub_cancel]
    rw [← hjv, hf]
    simp only [Option.bind_some]
    rw [hq]
    simp only [Option.bind_some]
    rw [← hq0]
    rw [add_zero] at hrec
    rw [hrec]
    simp only [Option.bind_some]
    rw [finish, hch]
    simp only [Option.bind_some]
    rw [hq1]
    simp only [Option.bind_some]
    rw [hfq]
    simp only [Option.bind_some]
    rw [and32_seven hn0 hn8]
  · intro w hw hwe
    refine ⟨by omega, by omega, ?_, ?_, hjz1, hjz2, hB, ⟨k + (o.n / 8).toNat, ?_⟩, hp.le, hG, hdlt, hj1, hj2, hchunks.val, hchunks.top, ?_⟩
    · split_ifs
      · exact hw
      · exact (isFinite_neg _).2 hw
    · split_ifs
      · exact Or.inl rfl
      · exact Or.inr rfl
    · rw [hk]
      have : o.n % 8 + 8 * ((k + (o.n / 8).toNat : ℕ) : ℤ) = o.n + 8 * k := by push_cast; omega
      rw [this]
    · split_ifs
      · simpa using hwe
      · rw [val_neg]
        push_cast
        simpa using hwe

/-- the reduction for one output (single precision) -/
theorem large0 {tbl : List ℤ} (ht : GoodTbl tbl) {x : List (Flt f64)} {jx : ℕ} {X : ℕ → ℕ} (hx : Inp x jx X)
    (hlen : x.length = jx + 1) {jv K r : ℕ} {e0 q0 : ℤ} (he0 : e0 ≤ 16360) (hjv : jv = ((e0 - 3).tdiv 24).toNat)
    (hq0 : q0 = e0 - 24 * ((jv : ℤ) + 1)) (he : Exps jv q0 K) (hm : Marg X jv K r) (hr62 : r ≤ 62)
    (hr : (r : ℤ) + 27 ≤ 72 - q0) (c : Flt f64) :
    ∃ n y jz B G jz' d sg, remPio2Large tbl x [c] e0 0 = some (n, [y]) ∧ Red X jv 3 r q0 n y jz B G jz' d sg := by
  obtain ⟨n, ih, fq, jz, B, G, jz', d, h1, h8, hfq, hred⟩ := large_core ht hx hlen he0 hjv hq0 he hm (prec := 0) (jk := 3) rfl
    le_rfl (by norm_num) hr62 (by omega) [c]
  obtain ⟨w, hw, hwf, hwe, -⟩ := sumDown_spec h8 hfq
  refine ⟨n, _, jz, B, G, jz', d, _, ?_, hred w hwf hwe⟩
  rw [h1, compress, hw]
  rfl

/-- the reduction for two outputs (double precision) -/
theorem large1 {tbl : List ℤ} (ht : GoodTbl tbl) {x : List (Flt f64)} {jx : ℕ} {X : ℕ → ℕ} (hx : Inp x jx X)
    (hlen : x.length = jx + 1) {jv K r : ℕ} {e0 q0 : ℤ} (he0 : e0 ≤ 16360) (hjv : jv = ((e0 - 3).tdiv 24).toNat)
    (hq0 : q0 = e0 - 24 * ((jv : ℤ) + 1)) (he : Exps jv q0 K) (hm : Marg X jv K r) (hr62 : r ≤ 62)
    (hr : (r : ℤ) + 27 ≤ 96 - q0) (a b c : Flt f64) :
    ∃ n y y1 jz B G jz' d sg, remPio2Large tbl x [a, b, c] e0 1 = some (n, [y, y1, c]) ∧ y1.isFinite ∧
      Red X jv 4 r q0 n y jz B G jz' d sg := by
  obtain ⟨n, ih, fq, jz, B, G, jz', d, h1, h8, hfq, hred⟩ := large_core ht hx hlen he0 hjv hq0 he hm (prec := 1) (jk := 4) rfl
    (by norm_num) (by norm_num) hr62 (by omega) [a, b, c]
  obtain ⟨w, hw, hwf, hwe, hwb⟩ := sumDown_spec h8 hfq
  obtain ⟨v0, hv0, hv0f, -, hv00, hv01⟩ := hfq 0 (by omega)
  have hf : (v0 - w).isFinite ∧ |(v0 - w).val| ≤ 2 ^ 61 := by
    have hS : 0 ≤ ∑ t ∈ Finset.range (jz' + 1), fv d 4 jz' B t := by
      refine Finset.sum_nonneg fun t ht => ?_
      obtain ⟨u, -, -, e, h, -⟩ := hfq t (by have := Finset.mem_range.1 ht; omega)
      rw [← e]
      exact h
    generalize (∑ t ∈ Finset.range (jz' + 1), fv d 4 jz' B t) = S at *
    have hq : (2 : ℝ) ^ (-48 : ℤ) * S ≤ S := by
      have : (2 : ℝ) ^ (-48 : ℤ) ≤ 1 := by norm_num
      nlinarith
    have hw2 := abs_le.1 (hwe.trans hq)
    have hd : |v0.val - w.val| ≤ 2 ^ (60 : ℤ) * (5 / 4) := by
      rw [abs_le]
      norm_num at hwb hv01 ⊢
      constructor <;> linarith
    have hle : (2 : ℝ) ^ (60 : ℤ) ≤ 2 ^ (1023 : ℤ) := zpow_le_zpow_right₀ (by norm_num) (by norm_num)
    obtain ⟨sf, se⟩ := sub_rel64 hv0f hwf (by
      refine hd.trans ?_
      have := zp (1023 : ℤ)
      generalize (2 : ℝ) ^ (1023 : ℤ) = T at *
      linarith)
    refine ⟨sf, ?_⟩
    clear hle
    have h5 : |(v0 - w).val| ≤ |v0.val - w.val| + |(v0 - w).val - (v0.val - w.val)| := by
      have := abs_add_le (v0.val - w.val) ((v0 - w).val - (v0.val - w.val))
      simpa using this
    have h6 : |v0.val - w.val| * (2 : ℝ) ^ (-53 : ℤ) ≤ |v0.val - w.val| * (1 / 4) := mul_le_mul_of_nonneg_left (by norm_num) (abs_nonneg _)
    have h7 := se.trans h6
    norm_num at hd ⊢
    linarith
  obtain ⟨v, hv, hvf, -⟩ := sumUp_spec h8 (fun t ht => by
    obtain ⟨u, a, b, -, c⟩ := hfq t ht
    exact ⟨u, a, b, c⟩) hf.1 hf.2
  refine ⟨n, _, if ih = 0 then v else -v, jz, B, G, jz', d, _, ?_, ?_, hred w hwf hwe⟩
  · rw [h1, compress, hw]
    simp only [Option.bind_some]
    rw [setU_some _ (by simp)]
    simp only [Option.bind_some]
    rw [hv0]
    simp only [Option.bind_some]
    rw [hv]
    rfl
  · split_ifs
    · exact hvf
    · exact (isFinite_neg _).2 hvf

end Rpl
end Verif
