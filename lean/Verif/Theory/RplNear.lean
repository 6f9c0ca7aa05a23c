import Verif.Theory.RplTail

/-!
# Large doubles: both words of the reduced argument
-/

namespace Verif
open Flt

/-- `y0 + y1` is `x` minus a whole number of quadrants, and that number is `n` modulo four -/
def Quad64 (x : ℝ) (n : ℤ) (y0 y1 : Flt f64) : Prop := ∃ N : ℤ, N % 4 = n % 4 ∧ NearD y0 y1 (x - N * (Real.pi / 2))

theorem NearD.neg {a b : Flt f64} {r : ℝ} (h : NearD a b r) : NearD (-a) (-b) (-r) := by
  refine ⟨(isFinite_neg a).2 h.af, (isFinite_neg b).2 h.bf, ?_, ?_, ?_, ?_⟩
  · rw [val_neg, val_neg, abs_neg, abs_neg]; exact h.tail
  · have e : (-a).val + (-b).val - -r = -(a.val + b.val - r) := by rw [val_neg, val_neg]; ring
    rw [e, abs_neg, abs_neg]; exact h.err
  · rw [abs_neg]; exact h.hi
  · rw [abs_neg]; exact h.lo

theorem Quad64.neg {x : ℝ} {n : ℤ} {a b : Flt f64} (h : Quad64 x n a b) : Quad64 (-x) (-n) (-a) (-b) := by
  obtain ⟨N, h1, h2⟩ := h
  refine ⟨-N, by omega, ?_⟩
  have := h2.neg
  have e : -x - ((-N : ℤ) : ℝ) * (Real.pi / 2) = -(x - N * (Real.pi / 2)) := by push_cast; ring
  rw [e]
  exact this

namespace Rpl

theorem E_le {d : ℕ → ℕ} {jz : ℕ} (hd : ∀ t ≤ jz, d t < 2 ^ 24) {i : ℕ} (hi : i ≤ jz) : E d 4 jz i ≤ 5 * 2 ^ 48 := by
  unfold E
  have h1 := Finset.sum_le_card_nsmul (Finset.range (min 4 (jz - i) + 1)) (fun k => P k * d (i + k)) (2 ^ 48) (fun k hk => by
    have hk' := Finset.mem_range.1 hk
    have h2 := hd (i + k) (by omega)
    have h3 : P k ≤ 2 ^ 24 := by
      have : ∀ k < 5, P k ≤ 2 ^ 24 := by decide +kernel
      exact this k (by omega)
    calc P k * d (i + k) ≤ 2 ^ 24 * 2 ^ 24 := Nat.mul_le_mul h3 h2.le
      _ = 2 ^ 48 := by norm_num)
  rw [Finset.card_range, smul_eq_mul] at h1
  refine h1.trans (Nat.mul_le_mul_right _ ?_)
  omega

theorem E_top (d : ℕ → ℕ) (jz : ℕ) : E d 4 jz jz = 13176794 * d jz := by
  unfold E
  simp
  left
  decide +kernel

/-- the products meet the conditions of `Prods` -/
theorem prods {fq : List (Flt f64)} {d : ℕ → ℕ} {m B : ℕ} (h4 : 4 ≤ m) (h8 : m ≤ 8) (hB : B ≤ 200) (hB0 : (24 * m : ℤ) - B ≤ 24)
    (hfq : ∀ t ≤ m, ∃ v, fq[t]? = some v ∧ v.isFinite ∧ v.val = fv d 4 m B t ∧ 0 ≤ v.val ∧ v.val ≤ 2 ^ 55)
    (hd : ∀ t ≤ m, d t < 2 ^ 24) (htop : d m ≠ 0) :
    ∃ (e : ℕ → ℕ) (g : ℕ → ℝ), Prods fq m e (24 * m - B - 23) (d m) g ∧ ∑ t ∈ Finset.range (m + 1), g t = fsum d 4 m B := by
  obtain ⟨s, hs⟩ : ∃ s : ℤ, s = 24 * m - B - 23 := ⟨_, rfl⟩
  have hgv : ∀ t ≤ m, (E d 4 m (m - t) : ℝ) * 2 ^ (s - 24 * t) = fv d 4 m B t := by
    intro t ht
    unfold fv
    congr 2
    rw [hs]
    push_cast [ht]
    ring
  have hsum : ∑ t ∈ Finset.range (m + 1), (E d 4 m (m - t) : ℝ) * 2 ^ (s - 24 * t) = fsum d 4 m B :=
    Finset.sum_congr rfl fun t ht => hgv t (by have := Finset.mem_range.1 ht; omega)
  rw [← hs]
  refine ⟨fun t => E d 4 m (m - t), fun t => (E d 4 m (m - t) : ℝ) * 2 ^ (s - 24 * t), ⟨h4, h8, by omega, by omega, ?_, fun t => rfl,
    fun t => E_le hd (by omega), ?_, by omega, hd m le_rfl, ?_⟩, hsum⟩
  · intro t ht
    obtain ⟨v, a1, a2, a3, a4⟩ := hfq t ht
    exact ⟨v, a1, a2, by rw [a3]; exact (hgv t ht).symm, a4⟩
  · exact E_top d m
  · rw [hsum]
    have h1 := (fsum_acc (jp := 4) (B := B) hd (by norm_num) le_rfl h4).1
    refine h1.trans ?_
    have hG : ((ds d (m + 1) : ℕ) : ℝ) ≤ (d m + 1) * 2 ^ (24 * m) := by
      have h5 : ds d (m + 1) ≤ (d m + 1) * 2 ^ (24 * m) := by
        rw [ds_succ]
        have := ds_lt (d := d) (n := m) (fun t ht => hd t (by omega))
        nlinarith
      exact_mod_cast h5
    have hp : Real.pi / 2 ≤ 13176795 * 2 ^ (-23 : ℤ) := by
      have := pi_hi
      norm_num at this ⊢
      linarith
    have hpos := Real.pi_pos
    calc Real.pi / 2 * (((ds d (m + 1) : ℕ) : ℝ) * 2 ^ (-(B : ℤ)))
        ≤ (13176795 * 2 ^ (-23 : ℤ)) * (((d m + 1) * 2 ^ (24 * m)) * 2 ^ (-(B : ℤ))) := by
          have := zp (-(B : ℤ))
          gcongr
      _ = 13176795 * (d m + 1) * (2 ^ (-23 : ℤ) * 2 ^ (24 * m) * 2 ^ (-(B : ℤ))) := by ring
      _ = _ := by
        rw [← zpow_natCast, ← zpow_add₀ (by norm_num), ← zpow_add₀ (by norm_num), hs]
        congr 2
        push_cast
        ring

/-- the reduction for two outputs (double precision), with the tail -/
theorem large1t {tbl : List ℤ} (ht : GoodTbl tbl) {x : List (Flt f64)} {jx : ℕ} {X : ℕ → ℕ} (hx : Inp x jx X)
    (hlen : x.length = jx + 1) {jv K r : ℕ} {e0 q0 : ℤ} (he0 : e0 ≤ 16360) (hjv : jv = ((e0 - 3).tdiv 24).toNat)
    (hq0 : q0 = e0 - 24 * ((jv : ℤ) + 1)) (he : Exps jv q0 K) (hm : Marg X jv K r) (hr62 : r ≤ 62)
    (hr : (r : ℤ) + 27 ≤ 96 - q0) (a b c : Flt f64) :
    ∃ n y y1 jz B G jz' d sg, remPio2Large tbl x [a, b, c] e0 1 = some (n, [y, y1, c]) ∧ y1.isFinite ∧
      Red X jv 4 r q0 n y jz B G jz' d sg ∧
      |sg * y.val - fsum d 4 jz' B| ≤ 1.501 / 2 ^ 53 * fsum d 4 jz' B ∧
      |sg * y.val + sg * y1.val - fsum d 4 jz' B| ≤ 1 / 2 ^ 80 * fsum d 4 jz' B := by
  obtain ⟨n, ih, fq, jz, B, G, jz', d, h1, h8, hfq, hred⟩ := large_core ht hx hlen he0 hjv hq0 he hm (prec := 1) (jk := 4) rfl
    (by norm_num) (by norm_num) hr62 (by omega) [a, b, c]
  obtain ⟨w, hw, hwf, hwe, hwb⟩ := sumDown_spec h8 hfq
  have hR := hred w hwf hwe
  have hlo := he.lo
  have hhi := he.hi
  have hB := hR.hB
  have hjz := hR.hi
  have hjz4 := hR.lo
  have htop : (24 * jz' : ℤ) - B ≤ 24 := by
    have h1 : 2 ^ (24 * jz') ≤ ds d (jz' + 1) := by
      rw [ds_succ]
      have h2 : 1 * 2 ^ (24 * jz') ≤ d jz' * 2 ^ (24 * jz') := Nat.mul_le_mul_right _ (by have := hR.top; omega)
      omega
    rw [hR.val] at h1
    have h2 := hR.le
    have h3 : 2 ^ (24 * jz') < 2 ^ B := by
      have : 0 < 2 ^ (24 * jz') := by positivity
      omega
    have := (Nat.pow_lt_pow_iff_right (by norm_num)).1 h3
    omega
  obtain ⟨e, g, hP, hsum⟩ := prods hR.lo' h8 (by omega) htop hfq hR.dlt hR.top
  obtain ⟨w', hw', hwf', hw0', hwe'⟩ := hP.down
  obtain rfl : w = w' := by
    rw [hw] at hw'
    exact Option.some.inj hw'
  obtain ⟨v0, v, hv0, hv, hvf, hve⟩ := hP.up hwf' hw0' hwe'
  rw [hsum] at hwe' hve
  refine ⟨n, _, if ih = 0 then v else -v, jz, B, G, jz', d, _, ?_, ?_, hR, ?_, ?_⟩
  · rw [h1, compress, hw]
    simp only [Option.bind_some]
    rw [setU_some _ (by simp)]
    simp only [Option.bind_some]
    rw [hv0]
    simp only [Option.bind_some]
    rw [hv]
    rfl
  · split_ifs
    · exact hvf
    · exact (isFinite_neg _).2 hvf
  · split_ifs
    · simpa using hwe'
    · rw [val_neg]
      push_cast
      simpa using hwe'
  · split_ifs
    · simpa using hve
    · rw [val_neg, val_neg]
      push_cast
      simpa using hve

/-- large doubles: the reduction returns both words -/
theorem large_quad {tbl : List ℤ} (ht : GoodTbl tbl) (x : Flt f64) (hx : x.isFinite) (hbig : 0x41300000 * 2 ^ 32 ≤ x.mb) :
    ∃ n y y1, RemPio2.large tbl x (getHighWord x &&& 0x7fffffff#32) = some (n, y, y1) ∧ Quad64 x.val n y y1 := by
  obtain ⟨t0, t1, t2, hsp, h0, h1, h2⟩ := split24_spec (scaled_is x) (by omega)
  obtain ⟨jx, hinp, hlen⟩ := slice_spec (by omega) h0 h1 h2
  have hfin : x.mb < 2047 * 2 ^ 52 := (isFinite64 x).1 hx
  have he : (((getHighWord x &&& 0x7fffffff#32) >>> 20).toNat : ℤ) - (0x3ff + 23) = ((x.mb / 2 ^ 52 : ℕ) : ℤ) - 1046 := by
    rw [BitVec.toNat_ushiftRight, hi_abs, Nat.shiftRight_eq_div_pow, Nat.div_div_eq_div_mul]
    norm_num
  set e0 : ℤ := ((x.mb / 2 ^ 52 : ℕ) : ℤ) - 1046 with he0
  obtain ⟨jv, hjv⟩ : ∃ jv : ℕ, jv = ((e0 - 3).tdiv 24).toNat := ⟨_, rfl⟩
  obtain ⟨q0, hq0⟩ : ∃ q0 : ℤ, q0 = e0 - 24 * ((jv : ℤ) + 1) := ⟨_, rfl⟩
  have hlo : -3 ≤ e0 := by omega
  have hhi : e0 ≤ 1000 := by omega
  have hq2 : q0 ≤ 216 ∧ (q0 < -21 → jv = 0) := by
    rw [hq0, hjv]
    by_cases h : 3 ≤ e0
    · rw [Int.tdiv_eq_ediv_of_nonneg (by omega)]
      omega
    · have h5 : (e0 - 3).tdiv 24 = 0 := by
        have : -6 ≤ e0 - 3 ∧ e0 - 3 < 0 := by omega
        generalize e0 - 3 = z at *
        obtain ⟨a, b⟩ := this
        interval_cases z <;> rfl
      rw [h5]
      omega
  have hK : (((216 - q0).toNat : ℕ) : ℤ) = 216 - q0 := by omega
  obtain ⟨hexp, -, -⟩ := exps_of hlo hhi hjv hq0 hK
  have hqhi := hexp.hi
  have hmarg := marg53 hlo hhi hjv hq0 hK (words_U (2 ^ 52 + x.mb % 2 ^ 52)) (by omega) (by omega)
  obtain ⟨n, y, y1, jz, B, G, jz', d, sg, hrun, hy1, hred, hye, hyt⟩ := large1t ht hinp hlen (by omega) hjv hq0 hexp hmarg le_rfl (by omega) 0.0 0.0 0.0
  refine ⟨if x.sign then -n else n, if x.sign then -y else y, if x.sign then -y1 else y1, ?_, ?_⟩
  · rw [RemPio2.large]
    simp only
    rw [hsp]
    simp only
    rw [he, hrun]
    simp only [Option.bind_some]
    split_ifs <;> rfl
  have hB := hred.hB
  have hlo' := hred.lo
  obtain ⟨m, hm, hf1, hf2⟩ := hred.exact (fun j => hinp.lt j) hexp hq2.2 (by norm_num) le_rfl (by omega)
  have hxv : (U (words (2 ^ 52 + x.mb % 2 ^ 52)) : ℝ) * 2 ^ (24 * jv - 24 + q0 : ℤ) = |x.val| := by
    rw [val_normal64 x (by omega), words_U]
    have e : (24 * jv - 24 + q0 : ℤ) = -19 + (((x.mb / 2 ^ 52 : ℕ) : ℤ) - 1075) := by rw [hq0, he0]; ring
    rw [e, zpow_add₀ (by norm_num)]
    generalize 2 ^ 52 + x.mb % 2 ^ 52 = M
    generalize (2 : ℝ) ^ (((x.mb / 2 ^ 52 : ℕ) : ℤ) - 1075) = T
    push_cast
    norm_num
    ring
  rw [hxv] at hm
  generalize fsum d 4 jz' B = f at *
  have hf1' : (1 : ℝ) / 2 ^ 63 ≤ f := by
    refine le_trans (le_of_eq ?_) hf1
    norm_num
  have hf0 : 0 < f := lt_of_lt_of_le (by norm_num) hf1'
  set r := |x.val| - (n + 8 * m) * (Real.pi / 2) with hr
  have hsg : |(sg : ℝ)| = 1 := by rcases hred.sg1 with h | h <;> rw [h] <;> norm_num
  have hsg2 : (sg : ℝ) * sg = 1 := by rcases hred.sg1 with h | h <;> rw [h] <;> norm_num
  have hrf : abs (|r| - f) ≤ 1 / 2 ^ 67 * f := by
    have h3 : abs (|r| - |sg * f|) ≤ |r - sg * f| := abs_abs_sub_abs_le _ _
    rw [abs_mul, hsg, one_mul, abs_of_pos hf0] at h3
    refine h3.trans (hm.trans (le_of_eq ?_))
    norm_num
  have hyf : abs (|y.val| - f) ≤ 1.501 / 2 ^ 53 * f := by
    have h3 : abs (|sg * y.val| - |f|) ≤ |sg * y.val - f| := abs_abs_sub_abs_le _ _
    rw [abs_mul, hsg, one_mul, abs_of_pos hf0] at h3
    exact h3.trans hye
  have hy1f : |y1.val| ≤ 1.502 / 2 ^ 53 * f := by
    have e : |y1.val| = |(sg * y.val + sg * y1.val - f) - (sg * y.val - f)| := by
      rw [show (sg * y.val + sg * y1.val - f) - (sg * y.val - f) = sg * y1.val by ring, abs_mul, hsg, one_mul]
    rw [e]
    refine (abs_sub _ _).trans ((add_le_add hyt hye).trans ?_)
    norm_num
    linarith
  have hsum : |y.val + y1.val - sg * f| ≤ 1 / 2 ^ 80 * f := by
    have e : y.val + y1.val - sg * f = sg * (sg * y.val + sg * y1.val - f) := by
      rw [mul_sub, mul_add, ← mul_assoc, ← mul_assoc, hsg2, one_mul, one_mul]
    rw [e, abs_mul, hsg, one_mul]
    exact hyt
  have hrf' := abs_le.1 hrf
  have hyf' := abs_le.1 hyf
  have hm' : |r - sg * f| ≤ 1 / 2 ^ 67 * f := by
    refine hm.trans (le_of_eq ?_)
    norm_num
  have hN : NearD y y1 r := by
    refine ⟨hred.fin, hy1, ?_, ?_, ?_, ?_⟩
    · norm_num at hyf' hy1f ⊢
      linarith
    · have e : y.val + y1.val - r = (y.val + y1.val - sg * f) - (r - sg * f) := by ring
      rw [e]
      refine (abs_sub _ _).trans ((add_le_add hsum hm').trans ?_)
      norm_num at hrf' ⊢
      linarith
    · have := pi_hi
      norm_num at hrf' ⊢
      linarith
    · norm_num at hrf' hf1' ⊢
      linarith
  by_cases hs : x.sign
  · rw [if_pos hs, if_pos hs, if_pos hs]
    have hxn : |x.val| = -x.val := abs_of_nonpos (val_nonpos hs)
    have e : x.val - ((-(n + 8 * m) : ℤ) : ℝ) * (Real.pi / 2) = -r := by rw [hr, hxn]; push_cast; ring
    refine ⟨-(n + 8 * m), by omega, ?_⟩
    rw [e]
    exact hN.neg
  · rw [if_neg hs, if_neg hs, if_neg hs]
    have hxn : |x.val| = x.val := abs_of_nonneg (val_nonneg (by simpa using hs))
    have e : x.val - ((n + 8 * m : ℤ) : ℝ) * (Real.pi / 2) = r := by rw [hr, hxn]; push_cast; ring
    refine ⟨n + 8 * m, by omega, ?_⟩
    rw [e]
    exact hN

end Rpl
end Verif
