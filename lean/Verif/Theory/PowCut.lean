import Verif.Theory.PowLog
import Verif.Theory.Exact
import Verif.Props.Pow

/-!
# Clearing low bits of a float
-/

namespace Verif
open Flt

theorem abs_sub_of_sign {F : Fmt} {x y : Flt F} (hs : y.sign = x.sign) (hm : y.mag ≤ x.mag) :
    |y.val - x.val| = ((x.mag - y.mag : ℕ) : ℝ) / (F.oneMag : ℝ) := by
  have h1 := Flt.abs_val_div x
  have h2 := Flt.abs_val_div y
  have hp : (0 : ℝ) < F.oneMag := (by exact_mod_cast F.oneMag_pos)
  have h3 : (y.mag : ℝ) ≤ x.mag := by exact_mod_cast hm
  have e : |y.val - x.val| = abs (|y.val| - |x.val|) := by
    cases hx : x.sign
    · rw [abs_of_nonneg (val_nonneg hx), abs_of_nonneg (val_nonneg (hs.trans hx))]
    · rw [abs_of_nonpos (val_nonpos hx), abs_of_nonpos (val_nonpos (hs.trans hx)), ← abs_neg]
      congr 1; ring
  rw [e, h1, h2, ← sub_div, abs_div, abs_of_pos hp, abs_of_nonpos (by linarith), Nat.cast_sub hm]
  congr 1; ring

theorem magOf_cut {sb b t p : ℕ} (h : t + p ≤ sb) : magOf sb (b - b % 2 ^ t) ≤ magOf sb b ∧
    (magOf sb b - magOf sb (b - b % 2 ^ t)) * 2 ^ p ≤ magOf sb b + 2 ^ (t + p) := by
  refine ⟨magOf_le.2 (Nat.sub_le _ _), ?_⟩
  have hp := Nat.two_pow_pos p
  rcases lt_or_ge b (2 ^ sb) with hb | hb
  · rw [magOf, if_pos hb, magOf, if_pos (lt_of_le_of_lt (Nat.sub_le _ _) hb)]
    have := Nat.mod_lt b (Nat.two_pow_pos t)
    have h1 : (b - (b - b % 2 ^ t)) ≤ 2 ^ t := by have := Nat.mod_le b (2 ^ t); omega
    have := Nat.mul_le_mul_right (2 ^ p) h1
    rw [← pow_add] at this
    omega
  · obtain ⟨h1, h2, -, -⟩ := magOf_chop sb b t hb (by omega)
    rw [h2, Nat.sub_sub_self (Nat.mod_le _ _), h1]
    refine le_trans ?_ (Nat.le_add_right _ _)
    rw [magOf, if_neg (by omega)]
    have h3 : b % 2 ^ t * 2 ^ p ≤ 2 ^ sb := by
      calc b % 2 ^ t * 2 ^ p ≤ 2 ^ t * 2 ^ p := Nat.mul_le_mul_right _ (Nat.mod_lt _ (Nat.two_pow_pos t)).le
        _ = 2 ^ (t + p) := (pow_add _ _ _).symm
        _ ≤ _ := Nat.pow_le_pow_right (by norm_num) h
    calc b % 2 ^ t * 2 ^ (b / 2 ^ sb - 1) * 2 ^ p = b % 2 ^ t * 2 ^ p * 2 ^ (b / 2 ^ sb - 1) := by ring
      _ ≤ 2 ^ sb * 2 ^ (b / 2 ^ sb - 1) := Nat.mul_le_mul_right _ h3
      _ ≤ _ := Nat.mul_le_mul_right _ (Nat.le_add_right _ _)

theorem cuts_of {F : Fmt} (hF : F.W) {T : Flt F → Flt F} {t p : ℕ} (h : t + p ≤ F.sb) (hb : t + 131 ≤ F.bias + F.sb)
    (hT : ∀ x : Flt F, (T x).sign = x.sign ∧ (T x).mb = x.mb - x.mb % 2 ^ t) : AsW.Cuts T (1 / 2 ^ p) := by
  intro a ha
  obtain ⟨hs, hm⟩ := hT a
  obtain ⟨h1, h2⟩ := magOf_cut (b := a.mb) h
  rw [← hm] at h1 h2
  refine ⟨?_, ?_⟩
  · rw [isFinite_iff] at ha ⊢
    rw [hm]; omega
  · rw [abs_sub_of_sign hs h1, Flt.abs_val_div a]
    have hp : (0 : ℝ) < F.oneMag := (by exact_mod_cast F.oneMag_pos)
    have hpp : (0 : ℝ) < 2 ^ p := by positivity
    have h3 : ((a.mag - (T a).mag : ℕ) : ℝ) * 2 ^ p ≤ a.mag + 2 ^ (t + p) := by exact_mod_cast h2
    have h4 : (2 : ℝ) ^ t / (F.oneMag : ℝ) ≤ 1 / 2 ^ 130 := by
      rw [div_le_div_iff₀ hp (by positivity), one_mul, ← pow_add, oneMag_eq]
      push_cast
      exact pow_le_pow_right₀ (by norm_num) (by have := hF.2; omega)
    have h5 : ((a.mag - (T a).mag : ℕ) : ℝ) ≤ 1 / 2 ^ p * a.mag + 2 ^ t := by
      rw [pow_add] at h3
      rw [show (1 : ℝ) / 2 ^ p * a.mag + 2 ^ t = (a.mag + 2 ^ t * 2 ^ p) / 2 ^ p by field_simp, le_div_iff₀ hpp]
      exact h3
    calc ((a.mag - (T a).mag : ℕ) : ℝ) / (F.oneMag : ℝ) ≤ (1 / 2 ^ p * a.mag + 2 ^ t) / (F.oneMag : ℝ) := div_le_div_of_nonneg_right h5 hp.le
      _ = 1 / 2 ^ p * (a.mag / F.oneMag) + 2 ^ t / F.oneMag := by ring
      _ ≤ _ := by linarith

theorem clear_low' {F : Fmt} (x : Flt F) {t : ℕ} (ht : t ≤ F.sb) {m : BitVec F.bits} (hm : m.toNat = 2 ^ t - 1) :
    (⟨x.toBits &&& ~~~m⟩ : Flt F).sign = x.sign ∧ (⟨x.toBits &&& ~~~m⟩ : Flt F).mb = x.mb - x.mb % 2 ^ t := by
  rw [Flt.clear_low x ht hm]
  have hl := x.mb_lt
  exact ⟨sign_mk' (by omega), mb_mk' (by omega)⟩

theorem low_word_cut (x : Flt f64) : (withSetLowWord x 0).sign = x.sign ∧ (withSetLowWord x 0).mb = x.mb - x.mb % 2 ^ 32 := by
  have := clear_low' (F := f64) x (t := 32) (by rw [f64_sb]; norm_num) (m := (0xffffffff#64 : BitVec 64)) (by decide)
  have e : withSetLowWord x 0 = (⟨(show BitVec 64 from x.toBits) &&& ~~~(0xffffffff#64)⟩ : Flt f64) := by
    unfold withSetLowWord
    show (⟨((show BitVec 64 from x.toBits) &&& 0xffffffff00000000#64) ||| (0#32).setWidth 64⟩ : Flt f64) = _
    rw [show ((0#32).setWidth 64) = 0#64 by decide, BitVec.or_zero]
    rfl
  rw [e]; exact this

theorem cuts64 : AsW.Cuts (F := f64) (fun x => withSetLowWord x 0) (1 / 2 ^ 11) :=
  cuts_of W64 (t := 32) (p := 11) (by rw [f64_sb]; norm_num) (by rw [f64_bias, f64_sb]; norm_num) low_word_cut

theorem cuts64' : AsW.Cuts (F := f64) (fun x => withSetLowWord x 0) (1 / 2 ^ 8) :=
  cuts_of W64 (t := 32) (p := 8) (by rw [f64_sb]; norm_num) (by rw [f64_bias, f64_sb]; norm_num) low_word_cut

theorem top_cut (x : Flt f32) : (Powf.top x).sign = x.sign ∧ (Powf.top x).mb = x.mb - x.mb % 2 ^ 12 := by
  have := clear_low' (F := f32) x (t := 12) (by rw [f32_sb]; norm_num) (m := (0xfff#32 : BitVec 32)) (by decide)
  exact this

theorem cuts32 : AsW.Cuts (F := f32) Powf.top (1 / 2 ^ 11) :=
  cuts_of W32 (t := 12) (p := 11) (by rw [f32_sb]) (by rw [f32_bias, f32_sb]; norm_num) top_cut

theorem mask15_cut (x : Flt f32) : (bits32 (x.u32 &&& 0xffff8000#32)).sign = x.sign ∧ (bits32 (x.u32 &&& 0xffff8000#32)).mb = x.mb - x.mb % 2 ^ 15 := by
  have := clear_low' (F := f32) x (t := 15) (by rw [f32_sb]; norm_num) (m := (0x7fff#32 : BitVec 32)) (by decide)
  exact this

theorem cuts32' : AsW.Cuts (F := f32) (fun x => bits32 (x.u32 &&& 0xffff8000#32)) (1 / 2 ^ 8) :=
  cuts_of W32 (t := 15) (p := 8) (by rw [f32_sb]) (by rw [f32_bias, f32_sb]; norm_num) mask15_cut

end Verif
