import Verif.Theory.CF
import Verif.Theory.Exact
import Mathlib.Tactic.IntervalCases
import Mathlib.Algebra.BigOperators.Intervals
import Mathlib.Algebra.Order.BigOperators.Group.Finset

/-!
# The loops of the large argument reduction

Everything up to the final sums is exact integer arithmetic carried out in doubles and `i32`s.
-/

namespace Verif
open Flt
open Generic (scalbn)

/-- invariants of loops over `0..n` that may fail -/
theorem foldlM_range {σ : Type} (P : ℕ → σ → Prop) (g : σ → ℕ → Option σ) (n : ℕ) (s0 : σ) (h0 : P 0 s0)
    (hs : ∀ i < n, ∀ s, P i s → ∃ s', g s i = some s' ∧ P (i + 1) s') :
    ∃ s, (List.range n).foldlM g s0 = some s ∧ P n s := by
  induction n with
  | zero => exact ⟨s0, rfl, h0⟩
  | succ n ih =>
    obtain ⟨s, h1, h2⟩ := ih (fun i hi => hs i (by omega))
    obtain ⟨s', h3, h4⟩ := hs n (by omega) s h2
    refine ⟨s', ?_, h4⟩
    rw [List.range_succ, List.foldlM_append, h1]
    simp [h3]

theorem setU_some {α : Type} {l : List α} {i : ℕ} (v : α) (h : i < l.length) : setU l i v = some (l.set i v) := by
  simp [setU, h]

theorem psub_some {a b : ℕ} (h : b ≤ a) : psub a b = some (a - b) := by simp [psub, h]

namespace Rpl

/-- the digits of 2/π preceded by two zeros -/
def W (k : ℕ) : ℕ := ((0 :: 0 :: ipio2Narrow.map Int.toNat)[k]?).getD 0

theorem narrow_get : ∀ k < 66, ipio2Narrow[k]? = some ((W (k + 2) : ℕ) : ℤ) := by decide +kernel
theorem W_small : ∀ k < 68, W k < 2 ^ 24 := by decide +kernel
theorem narrow_len : (0 :: 0 :: ipio2Narrow.map Int.toNat).length = 68 := by decide +kernel
theorem W_lt (k : ℕ) : W k < 2 ^ 24 := by
  by_cases h : k < 68
  · exact W_small k h
  · unfold W
    rw [List.getElem?_eq_none (by rw [narrow_len]; omega)]
    decide
theorem A_eq : ∀ jv < 50, CF.A jv = W jv * 2 ^ 216 + W (jv + 1) * 2 ^ 192 + W (jv + 2) * 2 ^ 168 + W (jv + 3) * 2 ^ 144 +
    W (jv + 4) * 2 ^ 120 + W (jv + 5) * 2 ^ 96 + W (jv + 6) * 2 ^ 72 + W (jv + 7) * 2 ^ 48 + W (jv + 8) * 2 ^ 24 +
    W (jv + 9) := by decide +kernel

/-- the table starts with the digits of the 32-bit table -/
def GoodTbl (tbl : List ℤ) : Prop := ∀ k < 66, tbl[k]? = ipio2Narrow[k]?

theorem goodTbl_narrow : GoodTbl ipio2Narrow := fun _ _ => rfl
theorem goodTbl_wide : GoodTbl ipio2 := by unfold GoodTbl; decide +kernel

theorem GoodTbl.get {tbl : List ℤ} (h : GoodTbl tbl) {k : ℕ} (hk : k < 66) : tbl[k]? = some ((W (k + 2) : ℕ) : ℤ) := by
  rw [h k hk, narrow_get k hk]

/-- the input of the reduction: up to three 24-bit integers -/
structure Inp (x : List (Flt f64)) (jx : ℕ) (X : ℕ → ℕ) : Prop where
  jx_le : jx ≤ 2
  get : ∀ j ≤ jx, ∃ a, x[j]? = some a ∧ Is a (X j) 0
  lt : ∀ j, X j < 2 ^ 24
  zero : ∀ j, jx < j → X j = 0

/-- `f[i]` for `i < n` -/
def Fz (jv jx : ℕ) (f : List (Flt f64)) (n : ℕ) : Prop :=
  f.length = 20 ∧ ∀ i < n, ∃ v, f[i]? = some v ∧ Is v (W (jv + i + 2 - jx)) 0

/-- the exact `q[i]` -/
def Q (X : ℕ → ℕ) (jv i : ℕ) : ℕ := X 0 * W (jv + i + 2) + X 1 * W (jv + i + 1) + X 2 * W (jv + i)

/-- `q[i]` for `i < n` -/
def Qz (X : ℕ → ℕ) (jv : ℕ) (q : List (Flt f64)) (n : ℕ) : Prop :=
  q.length = 20 ∧ ∀ i < n, ∃ v, q[i]? = some v ∧ Is v (Q X jv i) 0

theorem Q_lt {X : ℕ → ℕ} (hX : ∀ j, X j < 2 ^ 24) (jv i : ℕ) : Q X jv i < 3 * 2 ^ 48 := by
  unfold Q
  have h (a b : ℕ) : X a * W b < 2 ^ 48 := by
    have := Nat.mul_lt_mul'' (hX a) (W_lt b)
    norm_num at this ⊢
    exact this
  have := h 0 (jv + i + 2)
  have := h 1 (jv + i + 1)
  have := h 2 (jv + i)
  omega

theorem initF_spec {tbl : List ℤ} (ht : GoodTbl tbl) {jv jx m : ℕ} (hjx : jx ≤ 2) (h1 : m < 20) (h2 : jv + m < 66)
    {f : List (Flt f64)} (hf : f.length = 20) : ∃ f', initF tbl jv jx m f = some f' ∧ Fz jv jx f' (m + 1) := by
  refine foldlM_range (fun n f => Fz jv jx f n) _ _ _ ⟨hf, by simp⟩ ?_
  rintro i hi s ⟨hl, hs⟩
  have hil : i < s.length := by omega
  have key : ∀ v, Is v (W (jv + i + 2 - jx)) 0 → Fz jv jx (s.set i v) (i + 1) := by
    intro v hv
    refine ⟨by simpa using hl, fun j hj => ?_⟩
    by_cases e : j = i
    · subst e
      exact ⟨v, by rw [List.getElem?_set_self hil], hv⟩
    · obtain ⟨u, hu⟩ := hs j (by omega)
      exact ⟨u, by rw [List.getElem?_set_ne (Ne.symm e)]; exact hu.1, hu.2⟩
  by_cases hneg : (jv : ℤ) - jx + i < 0
  · refine ⟨s.set i 0.0, ?_, key _ ?_⟩
    · simp only [if_pos hneg]
      exact setU_some _ hil
    · have : jv + i + 2 - jx < 2 := by omega
      have hW : W (jv + i + 2 - jx) = 0 := by
        generalize jv + i + 2 - jx = k at *
        interval_cases k <;> rfl
      rw [hW]
      exact Is.cast_zero
  · have hk : ((jv : ℤ) - jx + i).toNat = jv + i - jx := by omega
    have hW : jv + i - jx + 2 = jv + i + 2 - jx := by omega
    refine ⟨s.set i (ofInt f64 (W (jv + i + 2 - jx))), ?_, key _ ?_⟩
    · simp only [if_neg hneg, hk]
      rw [ht.get (by omega), hW]
      exact setU_some _ hil
    · refine Is.ofInt _ ?_
      have := W_lt (jv + i + 2 - jx)
      rw [abs_of_nonneg (by positivity)]
      omega

theorem dot_spec {x f : List (Flt f64)} {jx : ℕ} {X : ℕ → ℕ} (hx : Inp x jx X) {jv n i : ℕ} (hf : Fz jv jx f n)
    (hi : jx + i < n) : ∃ v, dot x f jx i = some v ∧ Is v (Q X jv i) 0 := by
  have hprod : ∀ a b, X a * W b < 2 ^ 48 := by
    intro a b
    have := Nat.mul_lt_mul'' (hx.lt a) (W_lt b)
    norm_num at this ⊢
    exact this
  obtain ⟨v, h1, h2⟩ := foldlM_range
    (fun m (fw : Flt f64) => Is fw ((∑ l ∈ Finset.range m, X l * W (jv + i + 2 - l) : ℕ) : ℤ) 0 ∧
      (∑ l ∈ Finset.range m, X l * W (jv + i + 2 - l)) ≤ m * 2 ^ 48)
    (fun fw j => (x[j]?).bind fun a => (f[jx + i - j]?).map fun b => fw + a * b) (jx + 1) 0.0
    ⟨by simpa using Is.cast_zero, by simp⟩ (by
      rintro j hj s ⟨hs, hb⟩
      obtain ⟨a, ha, ha'⟩ := hx.get j (by omega)
      obtain ⟨b, hb1, hb'⟩ := hf.2 (jx + i - j) (by omega)
      have e : jv + (jx + i - j) + 2 - jx = jv + i + 2 - j := by have := hx.jx_le; omega
      rw [e] at hb'
      have hp := hprod j (jv + i + 2 - j)
      have hle := hx.jx_le
      refine ⟨s + a * b, by simp [ha, hb1], ?_, ?_⟩
      · rw [Finset.sum_range_succ]
        push_cast
        have hm : Is (a * b) ((X j : ℤ) * (W (jv + i + 2 - j) : ℤ)) 0 := by
          refine (ha'.mul hb' ?_ (by norm_num) (by norm_num))
          rw [abs_of_nonneg (by positivity)]
          have : ((X j * W (jv + i + 2 - j) : ℕ) : ℤ) < 2 ^ 48 := by exact_mod_cast hp
          push_cast at this
          omega
        have := hs.add hm (by
          rw [abs_of_nonneg (by positivity)]
          have h1 : (((∑ l ∈ Finset.range j, X l * W (jv + i + 2 - l)) + X j * W (jv + i + 2 - j) : ℕ) : ℤ) ≤ 3 * 2 ^ 48 := by
            have : j * 2 ^ 48 ≤ 2 * 2 ^ 48 := Nat.mul_le_mul_right _ (by omega)
            have : ((∑ l ∈ Finset.range j, X l * W (jv + i + 2 - l)) + X j * W (jv + i + 2 - j) : ℕ) ≤ 3 * 2 ^ 48 := by omega
            exact_mod_cast this
          push_cast at h1 ⊢
          exact h1.trans (by norm_num)) (by norm_num) (by norm_num)
        push_cast at this
        exact this
      · rw [Finset.sum_range_succ]
        have : (j + 1) * 2 ^ 48 = j * 2 ^ 48 + 2 ^ 48 := by ring
        omega)
  refine ⟨v, h1, h2.1.congr ?_⟩
  have hz := hx.zero
  have hle := hx.jx_le
  norm_cast
  unfold Q
  interval_cases jx
  · simp [Finset.sum_range_succ, hz 1, hz 2]
  · simp [Finset.sum_range_succ, hz 2]
  · simp [Finset.sum_range_succ]

theorem Qz.set {X : ℕ → ℕ} {jv i : ℕ} {q : List (Flt f64)} (hq : Qz X jv q i) (hi : i < 20) {v : Flt f64}
    (hv : Is v (Q X jv i) 0) : Qz X jv (q.set i v) (i + 1) := by
  refine ⟨by simpa using hq.1, fun j hj => ?_⟩
  by_cases e : j = i
  · subst e
    exact ⟨v, by rw [List.getElem?_set_self (by rw [hq.1]; exact hi)], hv⟩
  · obtain ⟨u, hu⟩ := hq.2 j (by omega)
    exact ⟨u, by rw [List.getElem?_set_ne (Ne.symm e)]; exact hu.1, hu.2⟩

theorem initQ_spec {x f : List (Flt f64)} {jx : ℕ} {X : ℕ → ℕ} (hx : Inp x jx X) {jv jk : ℕ}
    (hf : Fz jv jx f (jx + jk + 1)) (hjk : jk < 20) {q : List (Flt f64)} (hq : q.length = 20) :
    ∃ q', initQ x f jx jk q = some q' ∧ Qz X jv q' (jk + 1) := by
  refine foldlM_range (fun n q => Qz X jv q n) _ _ _ ⟨hq, by simp⟩ ?_
  intro i hi s hs
  obtain ⟨v, hv, hv'⟩ := dot_spec hx hf (i := i) (by omega)
  refine ⟨s.set i v, ?_, hs.set (by omega) hv'⟩
  rw [hv]
  exact setU_some _ (by rw [hs.1]; omega)

theorem extend_spec {tbl : List ℤ} (ht : GoodTbl tbl) {x f q : List (Flt f64)} {jx : ℕ} {X : ℕ → ℕ} (hx : Inp x jx X)
    {jv jz k : ℕ} (hf : Fz jv jx f (jx + jz + 1)) (hq : Qz X jv q (jz + 1)) (h1 : jx + jz + k < 20)
    (h2 : jv + jz + k < 66) :
    ∃ f' q', extend tbl x jv jx jz k f q = some (f', q') ∧ Fz jv jx f' (jx + (jz + k) + 1) ∧ Qz X jv q' (jz + k + 1) := by
  obtain ⟨s, hs, hs'⟩ := foldlM_range
    (fun n (s : List (Flt f64) × List (Flt f64)) => Fz jv jx s.1 (jx + jz + 1 + n) ∧ Qz X jv s.2 (jz + 1 + n))
    (fun (s : List (Flt f64) × List (Flt f64)) t =>
      let i := jz + 1 + t
      (tbl[jv + i]?).bind fun c =>
      (setU s.1 (jx + i) (ofInt f64 c)).bind fun f =>
      (dot x f jx i).bind fun fw =>
      (setU s.2 i fw).map fun q => (f, q)) k (f, q) ⟨hf, hq⟩ (by
    rintro t ht' ⟨f, q⟩ ⟨hf, hq⟩
    have hfl : jx + (jz + 1 + t) < f.length := by rw [hf.1]; omega
    have hf' : Fz jv jx (f.set (jx + (jz + 1 + t)) (ofInt f64 (W (jv + (jz + 1 + t) + 2)))) (jx + jz + 1 + (t + 1)) := by
      refine ⟨by simpa using hf.1, fun j hj => ?_⟩
      by_cases e : j = jx + (jz + 1 + t)
      · subst e
        refine ⟨_, by rw [List.getElem?_set_self hfl], ?_⟩
        have : jv + (jx + (jz + 1 + t)) + 2 - jx = jv + (jz + 1 + t) + 2 := by omega
        rw [this]
        refine Is.ofInt _ ?_
        have := W_lt (jv + (jz + 1 + t) + 2)
        rw [abs_of_nonneg (by positivity)]
        omega
      · obtain ⟨u, hu⟩ := hf.2 j (by omega)
        exact ⟨u, by rw [List.getElem?_set_ne (Ne.symm e)]; exact hu.1, hu.2⟩
    obtain ⟨v, hv, hv'⟩ := dot_spec hx hf' (i := jz + 1 + t) (by omega)
    refine ⟨(_, q.set (jz + 1 + t) v), ?_, hf', ?_⟩
    · simp only
      rw [ht.get (by omega)]
      simp only [Option.bind_some]
      rw [setU_some _ hfl]
      simp only [Option.bind_some]
      rw [hv]
      simp only [Option.bind_some]
      rw [setU_some _ (by rw [hq.1]; omega)]
      rfl
    · exact hq.set (by omega) hv')
  refine ⟨s.1, s.2, hs, ?_, ?_⟩
  · have : jx + (jz + k) + 1 = jx + jz + 1 + k := by omega
    rw [this]
    exact hs'.1
  · have : jz + k + 1 = jz + 1 + k := by omega
    rw [this]
    exact hs'.2

end Rpl
end Verif
