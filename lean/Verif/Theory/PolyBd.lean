import Mathlib.Tactic.LinearCombination
import Mathlib.Data.Real.Basic
import Mathlib.Data.Rat.Cast.Order
import Mathlib.Tactic.Ring
import Mathlib.Tactic.Linarith
import Mathlib.Tactic.Positivity
import Mathlib.Tactic.FieldSimp
import Mathlib.Algebra.Order.Floor.Ring
import Mathlib.Algebra.Order.Archimedean.Real.Basic

/-!
# Bounds on polynomials over an interval

A polynomial with rational coefficients is bounded over an interval by expanding it about the midpoint and
adding the magnitudes of the terms.  The interval is cut in equal parts; the test is evaluated by the kernel.
-/

namespace Verif
namespace Poly

/-- `c₀ + c₁ x + c₂ x² + …` -/
def ev : List ℚ → ℝ → ℝ
  | [], _ => 0
  | c :: p, x => c + x * ev p x

def add : List ℚ → List ℚ → List ℚ
  | [], q => q
  | p, [] => p
  | a :: p, b :: q => (a + b) :: add p q

def smul (c : ℚ) (p : List ℚ) : List ℚ := p.map (c * ·)

def mul : List ℚ → List ℚ → List ℚ
  | [], _ => []
  | a :: p, q => add (smul a q) (0 :: mul p q)

/-- the polynomial in `x - c` -/
def shift (c : ℚ) : List ℚ → List ℚ
  | [] => []
  | a :: p => let q := shift c p; add (a :: q) (smul c q)

/-- the sum of the magnitudes of the terms at `d` -/
def bnd (d : ℚ) : List ℚ → ℚ
  | [] => 0
  | a :: p => |a| + d * bnd d p

theorem ev_add (p q : List ℚ) (x : ℝ) : ev (add p q) x = ev p x + ev q x := by
  induction p generalizing q with
  | nil => simp [add, ev]
  | cons a p ih => cases q with
    | nil => simp [add, ev]
    | cons b q => simp only [add, ev, ih]; push_cast; ring

theorem ev_smul (c : ℚ) (p : List ℚ) (x : ℝ) : ev (smul c p) x = c * ev p x := by
  induction p with
  | nil => simp [smul, ev]
  | cons a p ih =>
    simp only [smul, List.map_cons, ev] at ih ⊢
    rw [ih]; push_cast; ring

theorem ev_mul (p q : List ℚ) (x : ℝ) : ev (mul p q) x = ev p x * ev q x := by
  induction p with
  | nil => simp [mul, ev]
  | cons a p ih => simp only [mul, ev, ev_add, ev_smul, ih]; push_cast; ring

theorem ev_shift (c : ℚ) (p : List ℚ) (x : ℝ) : ev (shift c p) (x - c) = ev p x := by
  induction p with
  | nil => simp [shift, ev]
  | cons a p ih => simp only [shift, ev_add, ev_smul, ev, ih]; ring

theorem ev_le_bnd (p : List ℚ) (d : ℚ) (x : ℝ) (h : |x| ≤ d) : |ev p x| ≤ bnd d p := by
  induction p with
  | nil => simp [bnd, ev]
  | cons a p ih =>
    simp only [ev, bnd]
    have h1 := abs_add_le (a : ℝ) (x * ev p x)
    rw [abs_mul] at h1
    have h2 : |x| * |ev p x| ≤ d * (bnd d p : ℚ) := mul_le_mul h ih (abs_nonneg _) ((abs_nonneg _).trans h)
    push_cast
    linarith

/-! ### The test, in natural numbers

The polynomial is brought to integer coefficients; the coefficients of its expansion about a midpoint are the digits, in a
large base, of its value at one number. -/

/-- `f n`, after evaluating `n` (the kernel does not evaluate arguments) -/
def fz {α : Type} (n : ℕ) (f : ℕ → α) : α := @Nat.rec (fun _ => α) (f 0) (fun k _ => f (Nat.succ k)) n

theorem fz_eq {α : Type} (n : ℕ) (f : ℕ → α) : fz n f = f n := by cases n <;> rfl

/-- the same for an integer -/
def fi {α : Type} (z : ℤ) (f : ℤ → α) : α := match z with
  | .ofNat n => fz n fun n => f (.ofNat n)
  | .negSucc n => fz n fun n => f (.negSucc n)

theorem fi_eq {α : Type} (z : ℤ) (f : ℤ → α) : fi z f = f z := by cases z <;> simp only [fi, fz_eq]

/-- the same for a list -/
def fl {α : Type} : List ℕ → (List ℕ → α) → α
  | [], f => f []
  | a :: p, f => fz a fun a => fl p fun p => f (a :: p)

theorem fl_eq {α : Type} (p : List ℕ) (f : List ℕ → α) : fl p f = f p := by
  induction p generalizing f with
  | nil => rfl
  | cons a p ih => simp only [fl, fz_eq, ih]

/-- a common denominator -/
def den : List ℚ → ℕ
  | [] => 1
  | q :: p => Nat.lcm q.den (den p)

/-- the positive parts of the coefficients, times `D` -/
def pos (D : ℕ) : List ℚ → List ℕ
  | [] => []
  | q :: p => q.num.toNat * (D / q.den) :: pos D p

/-- the negative parts of the coefficients, times `D` -/
def neg (D : ℕ) : List ℚ → List ℕ
  | [] => []
  | q :: p => (-q.num).toNat * (D / q.den) :: neg D p

/-- the coefficients in terms of `M x`, times a power of `M` -/
def hm (M : ℕ) : List ℕ → List ℕ
  | [] => []
  | a :: p => a * M ^ (p.length + 1) :: hm M p

/-- fixed odd numbers added to the coefficients. They cancel in every difference; without them the numbers that occur tend to
be divisible by large powers of two and fall into one bucket of the kernel's tables. -/
def aw : ℕ → List ℕ → List ℕ
  | _, [] => []
  | c, a :: p => (a + c) :: aw (c * 15074714826142052245 % 18446744073709551616) p

/-- Horner's rule -/
def hn : List ℕ → ℕ → ℕ
  | [], _ => 0
  | a :: p, y => fz (hn p y) fun r => a + y * r

/-- the even coefficients of the first polynomial and the odd ones of the second, or the other way round -/
def mix : Bool → List ℕ → List ℕ → List ℕ
  | _, [], _ => []
  | _, _ :: _, [] => []
  | true, a :: p, _ :: q => a :: mix false p q
  | false, _ :: p, b :: q => b :: mix true p q

/-- the sum of the distances of the digits in base `X` -/
def ds (X : ℕ) : ℕ → ℕ → ℕ → ℕ
  | 0, _, _ => 0
  | f + 1, U, V => fz (U / X) fun U' => fz (V / X) fun V' => (U % X - V % X) + (V % X - U % X) + ds X f U' V'

/-- the bound of the difference of two polynomials on the interval of radius `H` about `m` -/
def ivl (U V : List ℕ) (X H : ℕ) (m : ℕ) : ℕ :=
  fz (m + H * X) fun Y => fz (hn U Y) fun u => fz (hn V Y) fun v => ds X U.length u v

/-- on each of the `n` intervals of radius `h` that start at `a`, the bound is at most `B` -/
@[irreducible] def check (p : List ℚ) (a h B : ℚ) (n : ℕ) : Bool :=
  fz (den p) fun D => fz (Nat.lcm a.den h.den) fun M => fz (h.num.toNat * (M / h.den)) fun H => fi (a.num * (M / a.den : ℕ)) fun A =>
  fl (aw 11400714819323198485 (hm M (pos D p))) fun U => fl (aw 11400714819323198485 (hm M (neg D p))) fun V =>
  fz (2 * (hn U (A.natAbs + 2 * n * H) + hn V (A.natAbs + 2 * n * H) + 1)) fun X =>
  fz (B.num * (D * M ^ p.length : ℕ) / B.den).toNat fun Bd =>
  fl (mix true U V) fun U' => fl (mix false U V) fun V' =>
  decide (0 ≤ B.num) && (List.range n).all fun i => match A + ((2 * i + 1) * H : ℕ) with
    | .ofNat m => Nat.ble (ivl U V X H m) Bd
    | .negSucc m => Nat.ble (ivl U' V' X H (m + 1)) Bd

/-- the value of a polynomial with natural coefficients -/
def en : List ℕ → ℝ → ℝ
  | [], _ => 0
  | a :: p, y => a + y * en p y

theorem en_nonneg (p : List ℕ) {y : ℝ} (hy : 0 ≤ y) : 0 ≤ en p y := by
  induction p with
  | nil => exact le_rfl
  | cons a p ih => simp only [en]; positivity

theorem hn_en (p : List ℕ) (y : ℕ) : ((hn p y : ℕ) : ℝ) = en p y := by
  induction p with
  | nil => simp [hn, en]
  | cons a p ih => simp only [hn, fz_eq, en]; push_cast; rw [ih]

theorem hm_en (M : ℕ) (p : List ℕ) (x : ℝ) : en (hm M p) (M * x) = M ^ p.length * en p x := by
  induction p with
  | nil => simp [hm, en]
  | cons a p ih => simp only [hm, en, ih, List.length_cons]; push_cast; ring

theorem parts (D : ℕ) (p : List ℚ) (hD : ∀ q ∈ p, q.den ∣ D) (x : ℝ) : en (pos D p) x - en (neg D p) x = D * ev p x := by
  induction p with
  | nil => simp [pos, neg, en, ev]
  | cons q p ih =>
    have h1 := ih fun r hr => hD r (List.mem_cons_of_mem _ hr)
    obtain ⟨k, hk⟩ := hD q (List.mem_cons_self ..)
    have hq : 0 < q.den := q.den_pos
    have h2 : D / q.den = k := by rw [hk, Nat.mul_div_cancel_left _ hq]
    have h3 : (q : ℝ) = q.num / q.den := by exact_mod_cast (Rat.num_div_den q).symm
    have h4 : ((q.num.toNat : ℕ) : ℝ) - ((-q.num).toNat : ℕ) = q.num := by
      have : ((q.num.toNat : ℕ) : ℤ) - ((-q.num).toNat : ℕ) = q.num := by omega
      exact_mod_cast this
    have h5 : (D : ℝ) * q = q.num * k := by
      rw [h3, hk]
      have : (q.den : ℝ) ≠ 0 := by exact_mod_cast hq.ne'
      push_cast; field_simp
    simp only [pos, neg, en, ev, h2]
    push_cast
    rw [mul_add, h5, ← h4]
    linear_combination x * h1

theorem den_dvd (p : List ℚ) : ∀ q ∈ p, q.den ∣ den p := by
  induction p with
  | nil => intro q hq; cases hq
  | cons r p ih =>
    intro q hq
    rcases List.mem_cons.1 hq with h | h
    · rw [h]; exact Nat.dvd_lcm_left _ _
    · exact (ih q h).trans (Nat.dvd_lcm_right _ _)

theorem den_pos (p : List ℚ) : 0 < den p := by
  induction p with
  | nil => exact Nat.one_pos
  | cons q p ih => exact Nat.lcm_pos q.den_pos ih

theorem pos_length (D : ℕ) (p : List ℚ) : (pos D p).length = p.length := by induction p <;> simp_all [pos]
theorem neg_length (D : ℕ) (p : List ℚ) : (neg D p).length = p.length := by induction p <;> simp_all [neg]
theorem hm_length (M : ℕ) (p : List ℕ) : (hm M p).length = p.length := by induction p <;> simp_all [hm]

theorem aw_en : ∀ (c : ℕ) (p q : List ℕ), p.length = q.length → ∀ y : ℝ, en (aw c p) y - en (aw c q) y = en p y - en q y
  | _, [], [], _, y => by simp [aw, en]
  | c, a :: p, b :: q, h, y => by
    have ih := aw_en (c * 15074714826142052245 % 18446744073709551616) p q (by simpa using h) y
    simp only [aw, en]
    push_cast
    linear_combination y * ih

theorem aw_length (c : ℕ) (p : List ℕ) : (aw c p).length = p.length := by induction p generalizing c <;> simp_all [aw]

theorem mix_en : ∀ (p q : List ℕ), p.length = q.length → ∀ y : ℝ, en (mix true p q) y - en (mix false p q) y = en p (-y) - en q (-y)
  | [], [], _, y => by simp [mix, en]
  | a :: p, b :: q, h, y => by
    have ih := mix_en p q (by simpa using h) y
    simp only [mix, en]
    linear_combination (-y) * ih

theorem mix_le {y : ℝ} (hy : 0 ≤ y) : ∀ (f : Bool) (p q : List ℕ), en (mix f p q) y ≤ en p y + en q y
  | f, [], q => by have := en_nonneg q hy; cases f <;> simpa [mix, en] using this
  | f, a :: p, [] => by have := en_nonneg (a :: p) hy; cases f <;> simpa [mix, en] using this
  | true, a :: p, b :: q => by
    have h1 := mul_le_mul_of_nonneg_left (mix_le hy false p q) hy
    have : (0 : ℝ) ≤ b := by positivity
    simp only [mix, en]
    linarith
  | false, a :: p, b :: q => by
    have h1 := mul_le_mul_of_nonneg_left (mix_le hy true p q) hy
    have : (0 : ℝ) ≤ a := by positivity
    simp only [mix, en]
    linarith

theorem mix_length : ∀ (f : Bool) (p q : List ℕ), p.length = q.length → (mix f p q).length = p.length
  | f, [], [], _ => by cases f <;> rfl
  | true, a :: p, b :: q, h => by simp only [mix, List.length_cons, mix_length false p q (by simpa using h)]
  | false, a :: p, b :: q, h => by simp only [mix, List.length_cons, mix_length true p q (by simpa using h)]

/-- the coefficients of `p (m + H s)` -/
def sh (m H : ℕ) : List ℕ → List ℕ
  | [] => []
  | a :: p => addn (a :: (sh m H p).map (H * ·)) ((sh m H p).map (m * ·))
where
  addn : List ℕ → List ℕ → List ℕ
    | [], q => q
    | p, [] => p
    | a :: p, b :: q => (a + b) :: addn p q

theorem addn_en : ∀ (p q : List ℕ) (y : ℝ), en (sh.addn p q) y = en p y + en q y
  | [], q, y => by simp [sh.addn, en]
  | a :: p, [], y => by simp [sh.addn, en]
  | a :: p, b :: q, y => by simp only [sh.addn, en, addn_en p q y]; push_cast; ring

theorem addn_length : ∀ (p q : List ℕ), (sh.addn p q).length = max p.length q.length
  | [], q => by simp [sh.addn]
  | a :: p, [] => by simp [sh.addn]
  | a :: p, b :: q => by simp only [sh.addn, List.length_cons, addn_length p q]; omega

theorem map_en (c : ℕ) (p : List ℕ) (y : ℝ) : en (p.map (c * ·)) y = c * en p y := by
  induction p with
  | nil => simp [en]
  | cons a p ih => simp only [List.map_cons, en, ih]; push_cast; ring

theorem sh_en (m H : ℕ) (p : List ℕ) (y : ℝ) : en (sh m H p) y = en p (m + H * y) := by
  induction p with
  | nil => simp [sh, en]
  | cons a p ih => simp only [sh, addn_en, en, map_en, ih]; ring

theorem sh_length (m H : ℕ) (p : List ℕ) : (sh m H p).length = p.length := by
  induction p with
  | nil => rfl
  | cons a p ih => simp [sh, addn_length, ih]

theorem mem_le_en (p : List ℕ) : ∀ a ∈ p, (a : ℝ) ≤ en p 1 := by
  induction p with
  | nil => intro a ha; cases ha
  | cons b p ih =>
    intro a ha
    have h0 := en_nonneg p (y := 1) one_pos.le
    have hb : (0 : ℝ) ≤ b := by positivity
    simp only [en]
    rcases List.mem_cons.1 ha with h | h
    · rw [h]; linarith
    · have := ih a h; linarith

theorem digits (X : ℕ) {s : ℝ} (hs : |s| ≤ 1) : ∀ (f : ℕ) (p q : List ℕ), p.length ≤ f → q.length ≤ f → (∀ a ∈ p, a < X) → (∀ a ∈ q, a < X) →
    |en p s - en q s| ≤ ds X f (hn p X) (hn q X)
  | 0, [], [], _, _, _, _ => by simp [en, ds]
  | 0, _ :: _, _, h, _, _, _ => by simp at h
  | 0, [], _ :: _, _, h, _, _ => by simp at h
  | f + 1, p, q, hp, hq, hpX, hqX => by
    have key : ∀ p : List ℕ, p.length ≤ f + 1 → (∀ a ∈ p, a < X) → ∃ (a : ℕ) (p' : List ℕ), p'.length ≤ f ∧ (∀ b ∈ p', b < X) ∧ en p s = a + s * en p' s ∧
        hn p X % X = a ∧ hn p X / X = hn p' X := by
      intro p hl hX
      cases p with
      | nil => exact ⟨0, [], by simp, by simp, by simp [en], by simp [hn], by simp [hn]⟩
      | cons a p =>
        have ha := hX a (List.mem_cons_self ..)
        refine ⟨a, p, by simpa using hl, fun b hb => hX b (List.mem_cons_of_mem _ hb), rfl, ?_, ?_⟩
        · simp only [hn, fz_eq]; rw [Nat.add_mul_mod_self_left, Nat.mod_eq_of_lt ha]
        · simp only [hn, fz_eq]; rw [Nat.add_mul_div_left _ _ (by omega), Nat.div_eq_of_lt ha, Nat.zero_add]
    obtain ⟨a, p', h1, h2, h3, h4, h5⟩ := key p hp hpX
    obtain ⟨b, q', k1, k2, k3, k4, k5⟩ := key q hq hqX
    have ih := digits X hs f p' q' h1 k1 h2 k2
    simp only [ds, fz_eq, h4, k4, h5, k5, h3, k3]
    push_cast
    have e : (a : ℝ) + s * en p' s - (b + s * en q' s) = (a - b) + s * (en p' s - en q' s) := by ring
    rw [e]
    refine (abs_add_le _ _).trans (add_le_add ?_ ?_)
    · rcases le_total a b with h | h
      · rw [Nat.sub_eq_zero_of_le h, Nat.cast_sub h, abs_le]
        have : (a : ℝ) ≤ b := by exact_mod_cast h
        constructor <;> simp
        linarith
      · rw [Nat.sub_eq_zero_of_le h, Nat.cast_sub h, abs_le]
        have : (b : ℝ) ≤ a := by exact_mod_cast h
        constructor <;> simp
        linarith
    · rw [abs_mul]
      exact (mul_le_of_le_one_left (abs_nonneg _) hs).trans ih

theorem ivl_bound {U V : List ℕ} {X H m : ℕ} (hl : V.length = U.length) (hU : en U (m + H) < X) (hV : en V (m + H) < X) {s : ℝ} (hs : |s| ≤ 1) :
    |en U (m + H * s) - en V (m + H * s)| ≤ ivl U V X H m := by
  have key : ∀ W : List ℕ, en W (m + H) < X → ∀ a ∈ sh m H W, a < X := by
    intro W hW a ha
    have h := mem_le_en _ a ha
    rw [sh_en, mul_one] at h
    exact_mod_cast h.trans_lt hW
  have e : ∀ W : List ℕ, hn W (m + H * X) = hn (sh m H W) X := by
    intro W
    have : ((hn W (m + H * X) : ℕ) : ℝ) = (hn (sh m H W) X : ℕ) := by rw [hn_en, hn_en, sh_en]; push_cast; rfl
    exact_mod_cast this
  have := digits X hs U.length (sh m H U) (sh m H V) (by rw [sh_length]) (by rw [sh_length, hl]) (key U hU) (key V hV)
  rw [sh_en, sh_en] at this
  simpa only [ivl, fz_eq, e] using this

theorem check_step {p : List ℚ} {a h B : ℚ} {n : ℕ} (hc : check p a h B n = true) (hh : 0 < h) {i : ℕ} (hi : i < n) {x : ℝ} (h3 : (a : ℝ) + 2 * i * h ≤ x)
    (h4 : x ≤ a + 2 * (i + 1) * h) : |ev p x| ≤ B := by
  simp only [check, fz_eq, fi_eq, fl_eq] at hc
  have hD : (0 : ℝ) < den p := by exact_mod_cast den_pos p
  generalize hDD : den p = D at hc hD
  have hMn : 0 < Nat.lcm a.den h.den := Nat.lcm_pos a.den_pos h.den_pos
  have hMa : a.den * (Nat.lcm a.den h.den / a.den) = Nat.lcm a.den h.den := Nat.mul_div_cancel' (Nat.dvd_lcm_left _ _)
  have hMh : h.den * (Nat.lcm a.den h.den / h.den) = Nat.lcm a.den h.den := Nat.mul_div_cancel' (Nat.dvd_lcm_right _ _)
  generalize Nat.lcm a.den h.den = M at hc hMn hMa hMh
  have hM : (0 : ℝ) < M := by exact_mod_cast hMn
  have ha : (a : ℝ) * M = ((a.num * (M / a.den : ℕ) : ℤ) : ℝ) := by
    have h5 : (a : ℝ) = a.num / a.den := by exact_mod_cast (Rat.num_div_den a).symm
    have : (a.den : ℝ) ≠ 0 := by exact_mod_cast a.den_pos.ne'
    have h6 : (M : ℝ) = a.den * (M / a.den : ℕ) := by exact_mod_cast hMa.symm
    generalize M / a.den = k at h6 ⊢
    rw [h5, h6]; push_cast; field_simp
  have hH : (h : ℝ) * M = ((h.num.toNat * (M / h.den) : ℕ) : ℝ) := by
    have h5 : (h : ℝ) = h.num / h.den := by exact_mod_cast (Rat.num_div_den h).symm
    have : (h.den : ℝ) ≠ 0 := by exact_mod_cast h.den_pos.ne'
    have h6 : ((h.num.toNat : ℕ) : ℝ) = h.num := by
      have : ((h.num.toNat : ℕ) : ℤ) = h.num := Int.toNat_of_nonneg (Rat.num_pos.2 hh).le
      exact_mod_cast this
    have h7 : (M : ℝ) = h.den * (M / h.den : ℕ) := by exact_mod_cast hMh.symm
    generalize M / h.den = k at h7 ⊢
    push_cast; rw [h5, h6, h7]; field_simp
  generalize h.num.toNat * (M / h.den) = H at hc hH
  generalize a.num * ((M / a.den : ℕ) : ℤ) = A at hc ha
  have hh' : (0 : ℝ) < h := by exact_mod_cast hh
  have hH0 : (0 : ℝ) < H := by rw [← hH]; positivity
  have hl : (hm M (neg D p)).length = (hm M (pos D p)).length := by rw [hm_length, hm_length, pos_length, neg_length]
  have hUV : ∀ y : ℝ, en (aw 11400714819323198485 (hm M (pos D p))) (M * y) - en (aw 11400714819323198485 (hm M (neg D p))) (M * y) = M ^ p.length * D * ev p y := by
    intro y
    rw [aw_en _ _ _ hl.symm, hm_en, hm_en, pos_length, neg_length, mul_assoc, ← parts D p (hDD ▸ den_dvd p) y]; ring
  replace hl : (aw 11400714819323198485 (hm M (neg D p))).length = (aw 11400714819323198485 (hm M (pos D p))).length := by rw [aw_length, aw_length, hl]
  generalize aw 11400714819323198485 (hm M (pos D p)) = U at hc hUV hl
  generalize aw 11400714819323198485 (hm M (neg D p)) = V at hc hUV hl
  have hX : ∀ z : ℝ, 0 ≤ z → z ≤ ((A.natAbs + 2 * n * H : ℕ) : ℝ) → en U z + en V z < ((2 * (hn U (A.natAbs + 2 * n * H) + hn V (A.natAbs + 2 * n * H) + 1) : ℕ) : ℝ) := by
    intro z hz hz2
    have mono : ∀ W : List ℕ, en W z ≤ en W ((A.natAbs + 2 * n * H : ℕ) : ℝ) := by
      intro W
      induction W with
      | nil => exact le_rfl
      | cons b W ih => simp only [en]; exact add_le_add le_rfl (mul_le_mul hz2 ih (en_nonneg _ hz) (hz.trans hz2))
    push_cast [hn_en]
    have h1 := mono U
    have h2 := mono V
    have h3 := en_nonneg U hz
    have h4 := en_nonneg V hz
    push_cast at h1 h2
    linarith
  generalize 2 * (hn U (A.natAbs + 2 * n * H) + hn V (A.natAbs + 2 * n * H) + 1) = X at hc hX
  obtain ⟨hB0, hc⟩ := Bool.and_eq_true_iff.1 hc
  replace hB0 := of_decide_eq_true hB0
  have fin : ∀ k : ℕ, k ≤ (B.num * (D * M ^ p.length : ℕ) / B.den).toNat → |(M : ℝ) ^ p.length * D * ev p x| ≤ k → |ev p x| ≤ B := by
    intro k hk h
    have hB : (B : ℝ) = B.num / B.den := by exact_mod_cast (Rat.num_div_den B).symm
    have hBd : (0 : ℝ) < B.den := by exact_mod_cast B.den_pos
    have hp : 0 < (M : ℝ) ^ p.length * D := by positivity
    rw [abs_mul, abs_of_pos hp] at h
    have hq : 0 ≤ B.num * (D * M ^ p.length : ℕ) / B.den := Int.ediv_nonneg (mul_nonneg hB0 (Int.natCast_nonneg _)) (Int.natCast_nonneg _)
    have h5 : (k : ℤ) ≤ B.num * (D * M ^ p.length : ℕ) / B.den := by omega
    have h6 := (Int.le_ediv_iff_mul_le (by exact_mod_cast B.den_pos)).1 h5
    have h7 : (k : ℝ) * B.den ≤ B.num * (D * M ^ p.length) := by exact_mod_cast h6
    have h8 : (k : ℝ) ≤ B * (M ^ p.length * D) := by
      rw [hB, div_mul_eq_mul_div, le_div_iff₀ hBd]; linarith
    have h9 := h.trans h8
    rw [mul_comm] at h9
    exact le_of_mul_le_mul_right h9 hp
  have hall := List.all_eq_true.1 hc i (List.mem_range.2 hi)
  have hin : (i : ℝ) + 1 ≤ n := by exact_mod_cast hi
  -- the place in the interval
  have hs : |(x - (a + (2 * i + 1) * h)) / h| ≤ 1 := by
    rw [abs_div, abs_of_pos hh', div_le_one hh', abs_le]; constructor <;> linarith
  have hx : M * x = ((A + ((2 * i + 1) * H : ℕ) : ℤ) : ℝ) + H * ((x - (a + (2 * i + 1) * h)) / h) := by
    push_cast
    rw [← ha, ← hH]
    field_simp
    ring
  generalize (x - (a + (2 * i + 1) * h)) / h = s at hs hx
  have hA : |((A + ((2 * i + 1) * H : ℕ) : ℤ) : ℝ)| + H ≤ ((A.natAbs + 2 * n * H : ℕ) : ℝ) := by
    have h1 : ((A.natAbs : ℕ) : ℝ) = |(A : ℝ)| := by rw [← Int.cast_abs, Int.abs_eq_natAbs, Int.cast_natCast]
    push_cast [h1]
    have h2 := abs_add_le (A : ℝ) ((2 * i + 1) * H)
    rw [abs_of_nonneg (a := (2 * (i : ℝ) + 1) * H) (by positivity)] at h2
    have h3 := mul_le_mul_of_nonneg_right hin hH0.le
    linarith
  generalize A + ((2 * i + 1) * H : ℕ) = m at hall hx hA
  have hu0 : ∀ (W : List ℕ) (k : ℕ), 0 ≤ en W (k + H) := fun W k => en_nonneg W (by positivity)
  cases m with
  | ofNat k =>
    have e : ((Int.ofNat k : ℤ) : ℝ) = k := by simp
    rw [e] at hx hA
    rw [abs_of_nonneg (by positivity)] at hA
    have hlt := hX (k + H) (by positivity) hA
    have h1 := hu0 U k
    have h2 := hu0 V k
    refine fin _ (Nat.le_of_ble_eq_true hall) ?_
    rw [← hUV, hx]
    exact ivl_bound hl (by linarith) (by linarith) hs
  | negSucc k =>
    have e : ((Int.negSucc k : ℤ) : ℝ) = -((k + 1 : ℕ) : ℝ) := by rw [Int.cast_negSucc]
    rw [e] at hx hA
    rw [abs_neg, abs_of_nonneg (by positivity)] at hA
    have hlt := hX ((k + 1 : ℕ) + H) (by positivity) hA
    have h1 := mix_le (y := (k + 1 : ℕ) + H) (by positivity) true U V
    have h2 := mix_le (y := (k + 1 : ℕ) + H) (by positivity) false U V
    refine fin _ (Nat.le_of_ble_eq_true hall) ?_
    rw [← hUV, hx]
    have h3 := mix_en U V hl.symm ((k + 1 : ℕ) + H * (-s))
    have e2 : -((k + 1 : ℕ) : ℝ) + H * s = -((k + 1 : ℕ) + H * (-s)) := by ring
    rw [e2, ← h3]
    exact ivl_bound (by rw [mix_length _ _ _ hl.symm, mix_length _ _ _ hl.symm]) (by linarith) (by linarith) (by rw [abs_neg]; exact hs)

theorem bound {p : List ℚ} {a h B : ℚ} {n : ℕ} (hc : check p a h B n = true) (hh : 0 < h) (hn : 0 < n) (x : ℝ)
    (h1 : a ≤ x) (h2 : x ≤ a + 2 * n * h) : |ev p x| ≤ B := by
  have hh' : (0 : ℝ) < h := by exact_mod_cast hh
  have hq : 0 ≤ (x - a) / (2 * h) := div_nonneg (by linarith) (by linarith)
  obtain ⟨i, hi, h3, h4⟩ : ∃ i < n, (a : ℝ) + 2 * i * h ≤ x ∧ x ≤ a + 2 * (i + 1) * h := by
    rcases lt_or_ge ⌊(x - a) / (2 * h)⌋₊ n with hl | hl
    · refine ⟨_, hl, ?_, ?_⟩
      · have := Nat.floor_le hq
        rw [le_div_iff₀ (by linarith)] at this
        linarith
      · have := (Nat.lt_floor_add_one ((x - a) / (2 * h))).le
        rw [div_le_iff₀ (by linarith)] at this
        linarith
    · have h5 : (n : ℝ) ≤ (x - a) / (2 * h) := le_trans (by exact_mod_cast hl) (Nat.floor_le hq)
      rw [le_div_iff₀ (by linarith)] at h5
      obtain ⟨m, rfl⟩ : ∃ m, n = m + 1 := ⟨n - 1, by omega⟩
      push_cast at h5 h2
      refine ⟨m, by omega, ?_, ?_⟩ <;> nlinarith
  exact check_step hc hh hi h3 h4

end Poly
end Verif
