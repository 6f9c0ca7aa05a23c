import Verif.Theory.AsW

/-!
# The last step of pow: the exponential of a reduced argument stays in `[1/2, 3/2]`

Written once for both formats, over the constants and the function that clears the low bits.
-/

namespace Verif
open Flt

theorem As.null {F : Fmt} {t : ℝ} {a : Flt F} {v e B : ℝ} (h : As t a v e B) (hv : v = 0) : As t a 0 e e := by
  subst hv
  exact ⟨h.fin, h.err, by have := h.err; rwa [sub_zero] at this⟩

theorem As.self {F : Fmt} {t : ℝ} {a : Flt F} {v e B : ℝ} (h : As t a v e B) : As t a a.val 0 B := ⟨h.fin, by simp, h.bd⟩

/-- a finite float of bounded magnitude -/
def Bd {F : Fmt} (a : Flt F) (B : ℝ) : Prop := As 1 a a.val 0 B

theorem Bd.mk {F : Fmt} {a : Flt F} {B : ℝ} (h : a.isFinite) (hB : |a.val| ≤ B) : Bd a B := ⟨h, by simp, by rwa [mul_one]⟩

namespace PowT
open AsW
variable {F : Fmt}

theorem le_abs_of_dist {d a b e D L : ℝ} (h : |d - (a - b)| ≤ e * 1) (ha : |a| ≤ D * 1) (hb : b = 2) (hL : L + D + e ≤ 2) : L ≤ |d| := by
  subst hb
  obtain ⟨h1, h2⟩ := abs_le.1 h
  obtain ⟨h3, h4⟩ := abs_le.1 ha
  have := neg_abs_le d
  linarith

/-- pow.rs 374-382, powf.rs 315-325 -/
def tailZ (T : Flt F → Flt F) (lg2 lg2H lg2L p1 p2 p3 p4 p5 one two ph pl : Flt F) : Flt F :=
  let t := T (pl + ph)
  let u := t * lg2H
  let v := (pl - (t - ph)) * lg2 + t * lg2L
  let z := u + v
  let w := v - (z - u)
  let t := z * z
  let t1 := z - t * (p1 + t * (p2 + t * (p3 + t * (p4 + t * p5))))
  let r := (z * t1) / (t1 - two) - (w + z * w)
  one - (r - z)

set_option maxHeartbeats 4000000 in
theorem tail_core (hF : F.W) {T : Flt F → Flt F} (hT : Cuts T (1 / 2 ^ 8)) {lg2 lg2H lg2L p1 p2 p3 p4 p5 one two ph pl : Flt F}
    (hlg2 : Bd lg2 (89 / 2 ^ 7)) (hlg2H : Bd lg2H (89 / 2 ^ 7)) (hlg2L : Bd lg2L (1 / 2 ^ 19)) (hp1 : Bd p1 (11 / 2 ^ 6)) (hp2 : Bd p2 (1 / 2 ^ 8))
    (hp3 : Bd p3 (1 / 2 ^ 13)) (hp4 : Bd p4 (1 / 2 ^ 19)) (hp5 : Bd p5 (1 / 2 ^ 24)) (htwo : Bd two 2) (htwov : two.val = 2)
    (hone : Bd one 1) (honev : one.val = 1) (hph : Bd ph 2048) (hpl : Bd pl 2048) (hs0 : |pl.val + ph.val| ≤ 129 / 2 ^ 8) :
    (tailZ T lg2 lg2H lg2L p1 p2 p3 p4 p5 one two ph pl).isFinite ∧
      1 / 2 ≤ (tailZ T lg2 lg2H lg2L p1 p2 p3 p4 p5 one two ph pl).val ∧
      (tailZ T lg2 lg2H lg2L p1 p2 p3 p4 p5 one two ph pl).val ≤ 3 / 2 := by
  unfold Bd at *
  have hs := AsW.add hF zero_le_one AsW.one_hi hpl hph (by norm_num) (by norm_num) (g := (1 / 2 ^ 12)) (D := (16385 / 2 ^ 2)) (by norm_num) (by norm_num)
  have hs1 := hs.rebound zero_le_one (V := (129 / 2 ^ 8)) (by rw [mul_one]; exact hs0) (C := (2065 / 2 ^ 12)) (by norm_num)
  have ht := AsW.cut hT (by norm_num) AsW.one_lo hs1 (g := (18569 / 2 ^ 23)) (D := (16585 / 2 ^ 15)) (by norm_num) (by norm_num)
  have htmp := AsW.sub hF zero_le_one AsW.one_hi ht hph (by norm_num) (by norm_num) (g := (9797 / 2 ^ 22)) (D := (16389 / 2 ^ 3)) (by norm_num) (by norm_num)
  have hq := AsW.sub hF zero_le_one AsW.one_hi hpl htmp (by norm_num) (by norm_num) (g := (21643 / 2 ^ 23)) (D := (16387 / 2 ^ 2)) (by norm_num) (by norm_num)
  have hq0 := hq.null (by ring)
  have hu := AsW.mul hF AsW.one_lo AsW.one_hi ht hlg2H (by norm_num) (by norm_num) (by norm_num) (by norm_num) (g := (25823 / 2 ^ 24)) (D := (2883 / 2 ^ 13)) (by norm_num) (by norm_num)
  have hus := hu.self
  have hqa := AsW.mul hF AsW.one_lo AsW.one_hi hq0 hlg2 (by norm_num) (by norm_num) (by norm_num) (by norm_num) (g := (15049 / 2 ^ 23)) (D := (15049 / 2 ^ 23)) (by norm_num) (by norm_num)
  have hqb := AsW.mul hF AsW.one_lo AsW.one_hi ht hlg2L (by norm_num) (by norm_num) (by norm_num) (by norm_num) (g := (9285 / 2 ^ 41)) (D := (8293 / 2 ^ 33)) (by norm_num) (by norm_num)
  have hv := AsW.add hF zero_le_one AsW.one_hi hqa hqb (by norm_num) (by norm_num) (g := (30099 / 2 ^ 24)) (D := (30115 / 2 ^ 24)) (by norm_num) (by norm_num)
  have hvs := hv.self
  have hz := AsW.add hF zero_le_one AsW.one_hi hus hvs (by norm_num) (by norm_num) (g := (11591 / 2 ^ 39)) (D := (11591 / 2 ^ 15)) (by norm_num) (by norm_num)
  have hzu := AsW.sub hF zero_le_one AsW.one_hi hz hus (by norm_num) (by norm_num) (g := (17357 / 2 ^ 38)) (D := (5781 / 2 ^ 13)) (by norm_num) (by norm_num)
  have hw := AsW.sub hF zero_le_one AsW.one_hi hvs hzu (by norm_num) (by norm_num) (g := (28949 / 2 ^ 38)) (D := (23183 / 2 ^ 15)) (by norm_num) (by norm_num)
  have hw0 := hw.null (by ring)
  have hzs := hz.self
  have ht2 := AsW.mul hF AsW.one_lo AsW.one_hi hzs hzs (by norm_num) (by norm_num) (by norm_num) (by norm_num) (g := (16401 / 2 ^ 41)) (D := (16401 / 2 ^ 17)) (by norm_num) (by norm_num)
  have hmp4 := AsW.mul hF AsW.one_lo AsW.one_hi ht2 hp5 (by norm_num) (by norm_num) (by norm_num) (by norm_num) (g := (8201 / 2 ^ 63)) (D := (8201 / 2 ^ 40)) (by norm_num) (by norm_num)
  have hap4 := AsW.add hF zero_le_one AsW.one_hi hp4 hmp4 (by norm_num) (by norm_num) (g := (16577 / 2 ^ 57)) (D := (16449 / 2 ^ 33)) (by norm_num) (by norm_num)
  have hmp3 := AsW.mul hF AsW.one_lo AsW.one_hi ht2 hap4 (by norm_num) (by norm_num) (by norm_num) (by norm_num) (g := (6191 / 2 ^ 57)) (D := (16467 / 2 ^ 36)) (by norm_num) (by norm_num)
  have hap3 := AsW.add hF zero_le_one AsW.one_hi hp3 hmp3 (by norm_num) (by norm_num) (g := (16513 / 2 ^ 51)) (D := (16417 / 2 ^ 27)) (by norm_num) (by norm_num)
  have hmp2 := AsW.mul hF AsW.one_lo AsW.one_hi ht2 hap3 (by norm_num) (by norm_num) (by norm_num) (by norm_num) (g := (6175 / 2 ^ 51)) (D := (16435 / 2 ^ 30)) (by norm_num) (by norm_num)
  have hap2 := AsW.add hF zero_le_one AsW.one_hi hp2 hmp2 (by norm_num) (by norm_num) (g := (8321 / 2 ^ 45)) (D := (16449 / 2 ^ 22)) (by norm_num) (by norm_num)
  have hmp1 := AsW.mul hF AsW.one_lo AsW.one_hi ht2 hap2 (by norm_num) (by norm_num) (by norm_num) (by norm_num) (g := (6199 / 2 ^ 46)) (D := (16467 / 2 ^ 25)) (by norm_num) (by norm_num)
  have hap1 := AsW.add hF zero_le_one AsW.one_hi hp1 hmp1 (by norm_num) (by norm_num) (g := (22787 / 2 ^ 41)) (D := (22593 / 2 ^ 17)) (by norm_num) (by norm_num)
  have hmm := AsW.mul hF AsW.one_lo AsW.one_hi ht2 hap1 (by norm_num) (by norm_num) (by norm_num) (by norm_num) (g := (17011 / 2 ^ 42)) (D := (22617 / 2 ^ 20)) (by norm_num) (by norm_num)
  have ht1 := AsW.sub hF zero_le_one AsW.one_hi hzs hmm (by norm_num) (by norm_num) (g := (28849 / 2 ^ 40)) (D := (6149 / 2 ^ 14)) (by norm_num) (by norm_num)
  have ht1s := ht1.self
  have hd := AsW.sub hF zero_le_one AsW.one_hi ht1s htwo (by norm_num) (by norm_num) (g := (19459 / 2 ^ 37)) (D := (19459 / 2 ^ 13)) (by norm_num) (by norm_num)
  have hL := le_abs_of_dist (L := (103 / 2 ^ 6)) hd.err ht1s.bd htwov (by norm_num)
  have hds := hd.self
  have hnz := AsW.mul hF AsW.one_lo AsW.one_hi hzs ht1s (by norm_num) (by norm_num) (by norm_num) (by norm_num) (g := (17401 / 2 ^ 41)) (D := (17401 / 2 ^ 17)) (by norm_num) (by norm_num)
  have hr1 := AsW.div hF AsW.one_lo AsW.one_hi hnz hds (103 / 2 ^ 6) hL (by norm_num) (by norm_num) (by norm_num) (by norm_num) (by norm_num) (g := (21625 / 2 ^ 41)) (D := (21625 / 2 ^ 18)) (by norm_num) (by norm_num)
  have hzw := AsW.mul hF AsW.one_lo AsW.one_hi hzs hw0 (by norm_num) (by norm_num) (by norm_num) (by norm_num) (g := (20481 / 2 ^ 39)) (D := (20481 / 2 ^ 39)) (by norm_num) (by norm_num)
  have hww := AsW.add hF zero_le_one AsW.one_hi hw0 hzw (by norm_num) (by norm_num) (g := (19595 / 2 ^ 37)) (D := (19595 / 2 ^ 37)) (by norm_num) (by norm_num)
  have hr := AsW.sub hF zero_le_one AsW.one_hi hr1 hww (by norm_num) (by norm_num) (g := (21623 / 2 ^ 37)) (D := (10813 / 2 ^ 17)) (by norm_num) (by norm_num)
  have hrz := AsW.sub hF zero_le_one AsW.one_hi hr hzs (by norm_num) (by norm_num) (g := (25197 / 2 ^ 37)) (D := (28589 / 2 ^ 16)) (by norm_num) (by norm_num)
  have hrzs := hrz.self
  have hf := AsW.sub hF zero_le_one AsW.one_hi hone hrzs (by norm_num) (by norm_num) (g := (5883 / 2 ^ 36)) (D := (5883 / 2 ^ 12)) (by norm_num) (by norm_num)

  unfold tailZ
  dsimp only
  have h1 := hf.err
  have h2 := hrzs.bd
  refine ⟨hf.fin, ?_⟩
  rw [honev] at h1
  obtain ⟨a1, a2⟩ := abs_le.1 h1
  obtain ⟨b1, b2⟩ := abs_le.1 h2
  constructor <;> linarith

end PowT
end Verif
