import Verif.Theory.RplPass2

/-!
# The recomputation loop of the large argument reduction

At most three further digits are ever needed, because the argument is never too close to a multiple of π/2.
-/

namespace Verif
open Flt
open Generic (scalbn)
namespace Rpl

/-- the integer made of the three input words -/
def U (X : ℕ → ℕ) : ℕ := X 0 * 2 ^ 48 + X 1 * 2 ^ 24 + X 2

theorem tstep {q t k : ℕ} (hq : q < 3 * 2 ^ 48) (ht : t < 2 ^ 26 * 2 ^ k) : q * 2 ^ k + t < 2 ^ 26 * 2 ^ (k + 24) := by
  have e : 2 ^ (k + 24) = 2 ^ 24 * 2 ^ k := by rw [pow_add, mul_comm]
  rw [e]
  generalize 2 ^ k = T at *
  have : q * T ≤ 3 * 2 ^ 48 * T := Nat.mul_le_mul_right _ hq.le
  norm_num at *
  omega

/-- the digits beyond the `jz`-th contribute little -/
theorem tail_spec {X : ℕ → ℕ} (hX : ∀ j, X j < 2 ^ 24) {jv jz : ℕ} (hjv : jv < 50) (h3 : 3 ≤ jz) (h7 : jz ≤ 7) :
    ∃ tail : ℕ, tail < 2 ^ 26 * 2 ^ (216 - 24 * jz) ∧ U X * CF.A jv =
      (X 0 * W jv * 2 ^ 24 + (X 0 * W (jv + 1) + X 1 * W jv)) * 2 ^ 240 + N X jv jz * 2 ^ (216 - 24 * jz) + tail := by
  have h : ∀ a b, X a * W b < 2 ^ 48 := by
    intro a b
    have := Nat.mul_lt_mul'' (hX a) (W_lt b)
    norm_num at this ⊢
    exact this
  have q4 := Q_lt hX jv 4
  have q5 := Q_lt hX jv 5
  have q6 := Q_lt hX jv 6
  have q7 := Q_lt hX jv 7
  have q8a := h 1 (jv + 9)
  have q8b := h 2 (jv + 8)
  have q9 := h 2 (jv + 9)
  have t7 : (X 1 * W (jv + 9) + X 2 * W (jv + 8)) * 2 ^ 24 + X 2 * W (jv + 9) < 2 ^ 26 * 2 ^ 48 := by omega
  have t6 := tstep q7 t7
  have t5 := tstep q6 t6
  have t4 := tstep q5 t5
  have t3 := tstep q4 t4
  rw [A_eq jv hjv]
  interval_cases jz
  · exact ⟨_, t3, by simp only [N, U, Q, Finset.sum_range_succ, Finset.sum_range_zero]; norm_num; ring⟩
  · exact ⟨_, t4, by simp only [N, U, Q, Finset.sum_range_succ, Finset.sum_range_zero]; norm_num; ring⟩
  · exact ⟨_, t5, by simp only [N, U, Q, Finset.sum_range_succ, Finset.sum_range_zero]; norm_num; ring⟩
  · exact ⟨_, t6, by simp only [N, U, Q, Finset.sum_range_succ, Finset.sum_range_zero]; norm_num; ring⟩
  · exact ⟨_, t7, by simp only [N, U, Q, Finset.sum_range_succ, Finset.sum_range_zero]; norm_num; ring⟩

/-- the product is at least `2^-r` quadrants (of `2^K`) away from the multiples of a quadrant -/
def Marg (X : ℕ → ℕ) (jv K r : ℕ) : Prop := ∀ m : ℤ, (2 : ℤ) ^ (K - r) ≤ |(U X : ℤ) * CF.A jv - m * 2 ^ K|

/-- the exponents `jv`, `q0` of the reduction -/
structure Exps (jv : ℕ) (q0 : ℤ) (K : ℕ) : Prop where
  jv_le : jv ≤ 41
  lo : -27 ≤ q0
  hi : q0 ≤ 2
  hK : (K : ℤ) = 216 - q0
  zero : q0 < -24 → jv = 0

theorem head_dvd {X : ℕ → ℕ} {jv K : ℕ} {q0 : ℤ} (he : Exps jv q0 K) :
    (2 ^ K : ℤ) ∣ (((X 0 * W jv * 2 ^ 24 + (X 0 * W (jv + 1) + X 1 * W jv)) * 2 ^ 240 : ℕ) : ℤ) := by
  have hK := he.hK
  by_cases h : q0 < -24
  · have := he.zero h
    subst this
    have w0 : W 0 = 0 := rfl
    have w1 : W (0 + 1) = 0 := rfl
    rw [w0, w1]
    simp
  · push_cast
    exact Dvd.dvd.mul_left (pow_dvd_pow (2 : ℤ) (by omega : K ≤ 240)) _

/-- the sum of the first digits is away from the multiples of a quadrant -/
theorem N_away {X : ℕ → ℕ} (hX : ∀ j, X j < 2 ^ 24) {jv jz K B r : ℕ} {q0 : ℤ} (he : Exps jv q0 K) (hm : Marg X jv K r)
    (h3 : 3 ≤ jz) (h7 : jz ≤ 7) (hB : (B : ℤ) = 24 * jz - q0) (hr : r + 27 ≤ B) (m : ℤ) :
    (2 : ℤ) ^ (B - r - 1) ≤ |(N X jv jz : ℤ) - m * 2 ^ B| := by
  obtain ⟨tail, ht, heq⟩ := tail_spec hX (jv := jv) (by have := he.jv_le; omega) h3 h7
  obtain ⟨c, hc⟩ := head_dvd (X := X) he
  have hK := he.hK
  have hhi := he.hi
  have hlo := he.lo
  have hKB : K = B + (216 - 24 * jz) := by omega
  have := hm (m + c)
  have e : (U X : ℤ) * CF.A jv - (m + c) * 2 ^ K = ((N X jv jz : ℤ) - m * 2 ^ B) * 2 ^ (216 - 24 * jz) + tail := by
    have h1 : ((U X * CF.A jv : ℕ) : ℤ) = ((X 0 * W jv * 2 ^ 24 + (X 0 * W (jv + 1) + X 1 * W jv)) * 2 ^ 240 : ℕ) +
        ((N X jv jz * 2 ^ (216 - 24 * jz) + tail : ℕ) : ℤ) := by
      rw [heq]
      push_cast
      ring
    rw [hc] at h1
    push_cast at h1
    rw [h1]
    have e2 : (2 : ℤ) ^ K = 2 ^ B * 2 ^ (216 - 24 * jz) := by rw [← pow_add, hKB]
    rw [add_mul, e2]
    ring
  rw [e] at this
  have e3 : (2 : ℤ) ^ (K - r) = 2 * 2 ^ (B - r - 1) * 2 ^ (216 - 24 * jz) := by
    rw [← pow_succ', ← pow_add]
    congr 1
    omega
  have e4 : (2 : ℤ) ^ 26 ≤ 2 ^ (B - r - 1) := pow_le_pow_right₀ (by norm_num) (by omega)
  have ht' : (tail : ℤ) < 2 ^ 26 * 2 ^ (216 - 24 * jz) := by exact_mod_cast ht
  have htri := abs_add_le (((N X jv jz : ℤ) - m * 2 ^ B) * 2 ^ (216 - 24 * jz)) tail
  rw [abs_mul, abs_of_pos (show (0 : ℤ) < 2 ^ (216 - 24 * jz) by positivity), abs_of_nonneg (show (0 : ℤ) ≤ tail by positivity)] at htri
  rw [e3] at this
  have hT : (0 : ℤ) < 2 ^ (216 - 24 * jz) := by positivity
  generalize (2 : ℤ) ^ (216 - 24 * jz) = T at *
  generalize (2 : ℤ) ^ (B - r - 1) = S at *
  generalize |(N X jv jz : ℤ) - m * 2 ^ B| = V at *
  by_contra hcon
  have h5 : V * T < S * T := mul_lt_mul_of_pos_right (not_le.1 hcon) hT
  have h6 : 2 ^ 26 * T ≤ S * T := mul_le_mul_of_nonneg_right e4 hT.le
  have h7 : 2 * S * T = S * T + S * T := by ring
  linarith

/-- the rest after a pass is at least `2^-(r+1)` quadrants -/
theorem G_ge {X : ℕ → ℕ} (hX : ∀ j, X j < 2 ^ 24) {jv jz K B r : ℕ} {q0 : ℤ} (he : Exps jv q0 K) (hm : Marg X jv K r)
    (h3 : 3 ≤ jz) (h7 : jz ≤ 7) (hB : (B : ℤ) = 24 * jz - q0) (hr : r + 27 ≤ B) {o : Out} {zf : ℕ} {d : ℕ → ℕ}
    (ho : PassOut q0 jz B (N X jv jz) o zf d) : 2 ^ (B - r - 1) ≤ zf * 2 ^ (24 * jz) + ds d jz := by
  obtain ⟨k, hk⟩ := ho.eq
  have := N_away hX he hm h3 h7 hB hr (o.n + 8 * k)
  rw [hk] at this
  have e : (o.n + 8 * (k : ℤ)) * 2 ^ B + (if o.ih = 0 then 1 else -1) * ((zf * 2 ^ (24 * jz) + ds d jz : ℕ) : ℤ) - (o.n + 8 * (k : ℤ)) * 2 ^ B =
      (if o.ih = 0 then 1 else -1) * ((zf * 2 ^ (24 * jz) + ds d jz : ℕ) : ℤ) := by ring
  rw [e] at this
  have e2 : |(if o.ih = 0 then (1 : ℤ) else -1) * ((zf * 2 ^ (24 * jz) + ds d jz : ℕ) : ℤ)| = ((zf * 2 ^ (24 * jz) + ds d jz : ℕ) : ℤ) := by
    split_ifs
    · rw [one_mul, abs_of_nonneg (by positivity)]
    · rw [abs_mul, abs_neg, abs_one, one_mul, abs_of_nonneg (by positivity)]
  rw [e2] at this
  exact_mod_cast this

theorem ds_top {d : ℕ → ℕ} {h n : ℕ} (hn : h ≤ n) (hz : ∀ t, h ≤ t → t < n → d t = 0) : ds d n = ds d h := by
  induction n with
  | zero => have : h = 0 := by omega
            rw [this]
  | succ n ih =>
    by_cases e : h = n + 1
    · rw [e]
    · rw [ds_succ, hz n (by omega) (by omega), ih (by omega) (fun t a b => hz t a (by omega))]
      simp

theorem or32_zero {a b : ℤ} (ha : -2 ^ 31 ≤ a) (ha' : a < 2 ^ 31) (hb : -2 ^ 31 ≤ b) (hb' : b < 2 ^ 31) :
    or32 a b = 0 ↔ a = 0 ∧ b = 0 := by
  unfold or32
  have key : ∀ v : ℤ, -2 ^ 31 ≤ v → v < 2 ^ 31 → (BitVec.ofInt 32 v = 0#32 ↔ v = 0) := by
    intro v h1 h2
    constructor
    · intro h
      have : (BitVec.ofInt 32 v).toInt = 0 := by rw [h]; rfl
      rw [BitVec.toInt_ofInt, Int.bmod_eq_of_le (by omega) (by omega)] at this
      exact this
    · rintro rfl
      rfl
  constructor
  · intro h
    have h0 : BitVec.ofInt 32 a ||| BitVec.ofInt 32 b = 0#32 := BitVec.eq_of_toInt_eq (by rw [h]; rfl)
    rw [BitVec.or_eq_zero_iff] at h0
    exact ⟨(key a ha ha').1 h0.1, (key b hb hb').1 h0.2⟩
  · rintro ⟨rfl, rfl⟩
    rfl

theorem or32_range (a b : ℤ) : -2 ^ 31 ≤ or32 a b ∧ or32 a b < 2 ^ 31 :=
  ⟨BitVec.le_toInt _, BitVec.toInt_lt⟩

theorem orHigh_spec {iq : List ℤ} {jk jz : ℕ} {d : ℕ → ℕ} (hjz : 0 < jz) (h : Dig iq jz d) :
    ∃ j, orHigh iq jk jz = some j ∧ (j = 0 ↔ ∀ t, jk ≤ t → t < jz → d t = 0) := by
  obtain ⟨j, h1, h2, -⟩ := foldlM_range
    (fun i (s : ℤ) => (s = 0 ↔ ∀ t, jz - i ≤ t → t < jz → d t = 0) ∧ -2 ^ 31 ≤ s ∧ s < 2 ^ 31)
    (fun (j : ℤ) i => (iq[jz - 1 - i]?).map fun v => or32 j v) (jz - 1 + 1 - jk) 0
    ⟨by simp; omega, by norm_num, by norm_num⟩ (by
      rintro i hi s ⟨hs, r1, r2⟩
      have hd := h.2 (jz - 1 - i) (by omega)
      refine ⟨or32 s (d (jz - 1 - i)), by rw [hd.2]; rfl, ?_, or32_range _ _⟩
      have hlt := hd.1
      rw [or32_zero r1 r2 (by omega) (by omega), hs]
      constructor
      · rintro ⟨a, b⟩ t ht1 ht2
        by_cases e : t = jz - 1 - i
        · rw [e]; exact_mod_cast b
        · exact a t (by omega) ht2
      · intro a
        refine ⟨fun t ht1 ht2 => a t (by omega) ht2, ?_⟩
        exact_mod_cast a (jz - 1 - i) (by omega) (by omega))
  refine ⟨j, by rw [orHigh, psub_some hjz]; exact h1, h2.trans ?_⟩
  constructor
  · intro a t ht1 ht2
    exact a t (by omega) ht2
  · intro a t ht1 ht2
    exact a t (by omega) ht2

/-- the number of further terms: `h` is the highest nonzero digit -/
theorem terms_spec {iq : List ℤ} {n : ℕ} {d : ℕ → ℕ} (hd : Dig iq n d) (idx : ℕ) (hi : idx < n) (hne : ∃ t ≤ idx, d t ≠ 0) :
    ∀ k, ∃ h ≤ idx, d h ≠ 0 ∧ (∀ t, h < t → t ≤ idx → d t = 0) ∧ terms iq idx k = some (k + (idx - h)) := by
  induction idx with
  | zero =>
    intro k
    obtain ⟨t, ht, h0⟩ := hne
    obtain rfl : t = 0 := by omega
    refine ⟨0, le_rfl, h0, fun t _ _ => by omega, ?_⟩
    rw [terms, (hd.2 0 hi).2]
    simp only [Option.bind_some]
    rw [if_neg (by exact_mod_cast h0)]
    simp
  | succ idx ih =>
    intro k
    by_cases h0 : d (idx + 1) = 0
    · obtain ⟨t, ht, hne⟩ := hne
      have htn : t ≠ idx + 1 := by rintro rfl; exact hne h0
      obtain ⟨h, hh, a, b, c⟩ := ih (by omega) ⟨t, by omega, hne⟩ (k + 1)
      refine ⟨h, by omega, a, fun t h1 h2 => ?_, ?_⟩
      · by_cases e : t = idx + 1
        · rw [e]; exact h0
        · exact b t h1 (by omega)
      · rw [terms, (hd.2 _ hi).2, h0]
        simp only [Option.bind_some]
        rw [if_pos (by simp), c]
        congr 1
        omega
    · refine ⟨idx + 1, le_rfl, h0, fun t _ _ => by omega, ?_⟩
      rw [terms, (hd.2 _ hi).2]
      simp only [Option.bind_some]
      rw [if_neg (by exact_mod_cast h0)]
      simp

/-- result of the loop: a pass with `jz` digits, and enough significant digits -/
structure LoopOut (X : ℕ → ℕ) (jv jk : ℕ) (q0 : ℤ) (o : Out) (B zf : ℕ) (d : ℕ → ℕ) : Prop where
  hB : (B : ℤ) = 24 * o.jz - q0
  pass : PassOut q0 o.jz B (N X jv o.jz) o zf d
  lo : jk ≤ o.jz
  hi : o.jz ≤ jk + 3
  qlen : o.q.length = 20
  sig : zf ≠ 0 ∨ ∃ t, jk ≤ t ∧ t < o.jz ∧ d t ≠ 0

theorem recompute_spec {tbl : List ℤ} (ht : GoodTbl tbl) {x : List (Flt f64)} {jx : ℕ} {X : ℕ → ℕ} (hx : Inp x jx X)
    {jv jk K r : ℕ} {q0 : ℤ} (he : Exps jv q0 K) (hm : Marg X jv K r) (hjk : 3 ≤ jk) (hjk4 : jk ≤ 4) (hr62 : r ≤ 62)
    (hr : (r : ℤ) + 27 ≤ 24 * jk - q0) :
    ∀ c fuel : ℕ, c ≤ 3 → 4 - c ≤ fuel → ∀ f q iq, Fz jv jx f (jx + (jk + c) + 1) → Qz X jv q (jk + c + 1) → iq.length = 20 →
      ∃ o B zf d, recompute tbl x jv jx jk q0 fuel (jk + c) f q iq = some o ∧ LoopOut X jv jk q0 o B zf d := by
  intro c
  induction h3c : 3 - c using Nat.strong_induction_on generalizing c with
  | _ m ih =>
    subst h3c
    intro fuel hc hfuel f q iq hf hq hiq
    obtain ⟨fuel, rfl⟩ : ∃ n, fuel = n + 1 := ⟨fuel - 1, by omega⟩
    have hlo := he.lo
    have hhi := he.hi
    have hB : (((24 * (jk + c : ℕ) - q0).toNat : ℕ) : ℤ) = 24 * (jk + c : ℕ) - q0 := by omega
    generalize (24 * ((jk + c : ℕ) : ℤ) - q0).toNat = B at hB
    obtain ⟨o, zf, d, hp, hpo, hoq⟩ := pass_spec hx.lt hq (by omega) (by omega) hiq hlo hhi hB
    have hG := G_ge hx.lt he hm (by omega) (by omega) hB (by omega) hpo
    have hjz := hpo.jz_eq
    rw [recompute, hp]
    simp only [Option.bind_some]
    have hdone : (zf ≠ 0 ∨ ∃ t, jk ≤ t ∧ t < jk + c ∧ d t ≠ 0) → LoopOut X jv jk q0 o B zf d := by
      intro h
      exact ⟨by rw [hjz]; exact hB, by rw [hjz]; exact hpo, by omega, by omega, by rw [hoq]; exact hq.1, by rw [hjz]; exact h⟩
    by_cases hz : zf = 0
    · rw [if_pos (hpo.z.feq_zero.2 (by exact_mod_cast hz))]
      obtain ⟨j, hj, hj0⟩ := orHigh_spec (jk := jk) (by omega) hpo.dig
      rw [hj]
      simp only [Option.bind_some]
      by_cases h0 : j = 0
      · rw [if_pos h0, psub_some (by omega)]
        simp only [Option.bind_some]
        have hall := hj0.1 h0
        subst hz
        rw [zero_mul, zero_add, ds_top (h := jk) (by omega) hall] at hG
        have hex : ∃ t ≤ jk - 1, d t ≠ 0 := by
          by_contra hcon
          push Not at hcon
          rw [ds_zero (fun t ht => hcon t (by omega))] at hG
          have : 0 < 2 ^ (B - r - 1) := by positivity
          omega
        obtain ⟨h, hh, hdh, hzero, hterms⟩ := terms_spec hpo.dig (jk - 1) (by omega) hex 1
        have hG' : 2 ^ (B - r - 1) < 2 ^ (24 * (h + 1)) := by
          have e : ds d jk = ds d (h + 1) := ds_top (by omega) (fun t a b => hzero t (by omega) (by omega))
          rw [e] at hG
          exact hG.trans_lt (ds_lt fun t ht => (hpo.dig.2 t (by omega)).1)
        have hexp : B - r - 1 < 24 * (h + 1) := (Nat.pow_lt_pow_iff_right (by norm_num)).1 hG'
        have hk : 1 + (jk - 1 - h) ≤ 3 - c := by omega
        have hjvle := he.jv_le
        have hjxle := hx.jx_le
        rw [hterms]
        simp only [Option.bind_some]
        obtain ⟨f', q', hext, hf', hq'⟩ := extend_spec ht hx hf hq (k := 1 + (jk - 1 - h)) (by omega) (by omega)
        rw [hext]
        simp only [Option.bind_some]
        have e : jk + c + (1 + (jk - 1 - h)) = jk + (c + (1 + (jk - 1 - h))) := by omega
        rw [e] at hf' hq' ⊢
        exact ih (3 - (c + (1 + (jk - 1 - h)))) (by omega) _ rfl fuel (by omega) (by omega) f' q' o.iq hf' hq' hpo.dig.1
      · rw [if_neg h0]
        refine ⟨o, B, zf, d, rfl, hdone (Or.inr ?_)⟩
        by_contra hcon
        push Not at hcon
        exact h0 (hj0.2 hcon)
    · rw [if_neg (by rw [hpo.z.feq_zero]; exact_mod_cast hz)]
      exact ⟨o, B, zf, d, rfl, hdone (Or.inl hz)⟩

end Rpl
end Verif
