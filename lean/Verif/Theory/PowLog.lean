import Verif.Theory.PowTail

/-!
# The logarithm inside pow: a head and a smaller tail, both finite

Written once for both formats, over the constants and the function that clears the low bits.
-/

namespace Verif
open Flt
namespace PowT
open AsW
variable {F : Fmt}

theorem le_abs_of_near {d a e D L : ℝ} (h : |d - a| ≤ e * 1) (ha : D ≤ a) (hL : L + e ≤ D) : L ≤ |d| := by
  obtain ⟨h1, h2⟩ := abs_le.1 h
  have := le_abs_self d
  linarith

theorem up_bd {zh cpH ph u2 v2 e1 e2 B1 B2 B3 t : ℝ} (a1 : |zh - cpH * ph| ≤ e1 * t) (a2 : |ph - (u2 + v2)| ≤ e2 * t) (a3 : |u2| ≤ B1 * 1)
    (a4 : |v2| ≤ B2 * t) (a5 : |cpH| ≤ 247 / 2 ^ 8 * 1) (h0 : 0 ≤ t) (h1 : e1 ≤ 1 / 2 ^ 12) (h2 : e2 ≤ 1 / 2 ^ 10) (h3 : B1 ≤ 94 / 2 ^ 8)
    (h4 : B2 ≤ 3 / 2 ^ 9) : |zh| ≤ 91 / 2 ^ 8 + 1 / 2 ^ 7 * t := by
  have b1 : |ph| ≤ B1 + B2 * t + e2 * t := by
    have := abs_add_le u2 v2
    have := abs_sub_abs_le_abs_sub ph (u2 + v2)
    linarith
  have b2 := mul_le_mul_of_nonneg_right h1 h0
  have b3 := mul_le_mul_of_nonneg_right h2 h0
  have b4 := mul_le_mul_of_nonneg_right h4 h0
  have b5 : |cpH * ph| ≤ 247 / 2 ^ 8 * 1 * (94 / 2 ^ 8 + 3 / 2 ^ 9 * t + 1 / 2 ^ 10 * t) := by
    rw [abs_mul]
    exact mul_le_mul a5 (by linarith) (abs_nonneg _) (by norm_num)
  have := abs_sub_abs_le_abs_sub zh (cpH * ph)
  linarith

theorem lo_bd {zh cpH ph u2 v2 u d s2 r e1 e2 e3 B2 B3 B4 t : ℝ} (a1 : |zh - cpH * ph| ≤ e1 * t) (a2 : |ph - (u2 + v2)| ≤ e2 * t)
    (a3 : |u2 - u * (1 / d) * (3 + s2 + r)| ≤ e3 * t) (a4 : |v2| ≤ B2 * t) (a6 : |s2| ≤ B3 * 1) (a7 : |r| ≤ B4 * 1) (hc : 15 / 16 ≤ cpH)
    (hd : 0 < d) (hd2 : d ≤ 13 / 4) (h0 : 0 ≤ t) (h1 : e1 ≤ 1 / 2 ^ 12) (h2 : e2 ≤ 1 / 2 ^ 10) (h3 : e3 ≤ 1 / 2 ^ 9)
    (h4 : B2 ≤ 3 / 2 ^ 9) (h5 : B3 + B4 ≤ 1 / 16) : 3 / 4 * |u| - 1 / 2 ^ 6 * t ≤ |zh| := by
  have b2 := mul_le_mul_of_nonneg_right h1 h0
  have b3 := mul_le_mul_of_nonneg_right h2 h0
  have b4 := mul_le_mul_of_nonneg_right h4 h0
  have b5 := mul_le_mul_of_nonneg_right h3 h0
  have c1 : 13 / 15 * |u| ≤ |u * (1 / d) * (3 + s2 + r)| := by
    rw [abs_mul, abs_mul, abs_of_pos (show 0 < 1 / d by positivity)]
    have k1 : 4 / 13 ≤ 1 / d := by rw [div_le_div_iff₀ (by norm_num) hd]; linarith
    have k2 : 47 / 16 ≤ |3 + s2 + r| := by
      have := le_abs_self (3 + s2 + r)
      have := neg_abs_le s2
      have := neg_abs_le r
      linarith
    have k3 : |u| * (4 / 13) ≤ |u| * (1 / d) := mul_le_mul_of_nonneg_left k1 (abs_nonneg _)
    have k4 : |u| * (4 / 13) * (47 / 16) ≤ |u| * (1 / d) * |3 + s2 + r| := mul_le_mul k3 k2 (by norm_num) (by positivity)
    have := abs_nonneg u
    linarith
  have c2 : 13 / 15 * |u| - (1 / 2 ^ 9 * t + 3 / 2 ^ 9 * t + 1 / 2 ^ 10 * t) ≤ |ph| := by
    have k1 := abs_sub_abs_le_abs_sub (u * (1 / d) * (3 + s2 + r)) u2
    have k2 := abs_sub_abs_le_abs_sub u2 (-v2)
    have k3 := abs_sub_abs_le_abs_sub (u2 + v2) ph
    rw [abs_sub_comm] at k1 k3
    rw [abs_neg, sub_neg_eq_add] at k2
    linarith
  have c3 : 15 / 16 * |ph| ≤ |cpH * ph| := by
    rw [abs_mul]
    exact mul_le_mul_of_nonneg_right (hc.trans (le_abs_self _)) (abs_nonneg _)
  have k := abs_sub_abs_le_abs_sub (cpH * ph) zh
  rw [abs_sub_comm] at k
  have := abs_nonneg u
  linarith

/-- pow.rs 312-320, powf.rs 262-268 -/
def sumZ (T : Flt F → Flt F) (zh zl dph tn : Flt F) : Flt F × Flt F :=
  let t1 := T (((zh + zl) + dph) + tn)
  (t1, zl - (((t1 - tn) - dph) - zh))

set_option maxHeartbeats 2000000 in
theorem sum_core (hF : F.W) {T : Flt F → Flt F} (hT : Cuts T (1 / 2 ^ 11)) {t : ℝ} (sc : 2 ^ (-60 : ℤ) ≤ t) (sc1 : t ≤ 2 ^ 12)
    {zh zl dph tn : Flt F} (hzh : As t zh zh.val 0 (7 / 2 ^ 2)) (hzl : As t zl zl.val 0 (1 / 2 ^ 5)) (hdph : As t dph dph.val 0 (5 / 2 ^ 3))
    (htn : As t tn tn.val 0 1) (hlow : 1 / 2 ^ 6 * t ≤ |zh.val + zl.val + dph.val + tn.val|) :
    (sumZ T zh zl dph tn).1.isFinite ∧ (sumZ T zh zl dph tn).2.isFinite ∧
      |(sumZ T zh zl dph tn).2.val| ≤ |(sumZ T zh zl dph tn).1.val| / 4 ∧ |(sumZ T zh zl dph tn).1.val| ≤ 4 * t := by
  have sc0 : 0 ≤ t := (Flt.zp _).le.trans sc
  have hx1 := AsW.add hF sc0 sc1 hzh hzl (by norm_num) (by norm_num) (g := (57 / 2 ^ 29)) (D := (29185 / 2 ^ 14)) (by norm_num) (by norm_num)
  have hx2 := AsW.add hF sc0 sc1 hx1 hdph (by norm_num) (by norm_num) (g := (17153 / 2 ^ 36)) (D := (19713 / 2 ^ 13)) (by norm_num) (by norm_num)
  have hx3 := AsW.add hF sc0 sc1 hx2 htn (by norm_num) (by norm_num) (g := (15553 / 2 ^ 35)) (D := (13953 / 2 ^ 12)) (by norm_num) (by norm_num)
  have ht1 := AsW.cut hT (by norm_num) sc hx3 (g := (13957 / 2 ^ 23)) (D := (1745 / 2 ^ 9)) (by norm_num) (by norm_num)
  have hy1 := AsW.sub hF sc0 sc1 ht1 htn (by norm_num) (by norm_num) (g := (27919 / 2 ^ 24)) (D := (18057 / 2 ^ 12)) (by norm_num) (by norm_num)
  have hy2 := AsW.sub hF sc0 sc1 hy1 hdph (by norm_num) (by norm_num) (g := (27925 / 2 ^ 24)) (D := (10309 / 2 ^ 11)) (by norm_num) (by norm_num)
  have hy3 := AsW.sub hF sc0 sc1 hy2 hzh (by norm_num) (by norm_num) (g := (6983 / 2 ^ 22)) (D := (27787 / 2 ^ 12)) (by norm_num) (by norm_num)
  have ht2 := AsW.sub hF sc0 sc1 hzl hy3 (by norm_num) (by norm_num) (g := (27939 / 2 ^ 24)) (D := (6979 / 2 ^ 10)) (by norm_num) (by norm_num)
  have ht20 := ht2.null (by ring)
  unfold sumZ
  dsimp only
  have h1 := ht1.err
  have h2 := ht1.bd
  have h3 := ht20.bd
  have h4 := abs_sub_abs_le_abs_sub (zh.val + zl.val + dph.val + tn.val) (T (zh + zl + dph + tn)).val
  rw [abs_sub_comm] at h4
  refine ⟨ht1.fin, ht20.fin, ?_, ?_⟩ <;> linarith

/-- pow.rs 286-311, powf.rs 233-261, up to the addition of the table entry: `(zh, cpL * ph + pl * cp)` -/
def logZ (T : Flt F → Flt F) (l1 l2 l3 l4 l5 l6 cp cpH cpL one three ax bp th : Flt F) : Flt F × Flt F :=
  let u := ax - bp
  let v := one / (ax + bp)
  let ss := u * v
  let sh := T ss
  let tl := ax - (th - bp)
  let sl := v * ((u - sh * th) - sh * tl)
  let s2 := ss * ss
  let r := s2 * s2 * (l1 + s2 * (l2 + s2 * (l3 + s2 * (l4 + s2 * (l5 + s2 * l6)))))
  let r := r + sl * (sh + ss)
  let s2 := sh * sh
  let th := T (three + s2 + r)
  let tl := r - ((th - three) - s2)
  let u := sh * th
  let v := sl * th + tl * ss
  let ph := T (u + v)
  let pl := v - (ph - u)
  (cpH * ph, cpL * ph + pl * cp)

set_option maxHeartbeats 8000000 in
theorem log_core (hF : F.W) {T : Flt F → Flt F} (hT : Cuts T (1 / 2 ^ 11)) {t : ℝ} (sc : 2 ^ (-60 : ℤ) ≤ t) (sc2 : t ≤ 1)
    {l1 l2 l3 l4 l5 l6 cp cpH cpL one three ax bp th : Flt F}
    (hl1 : Bd l1 (5 / 2 ^ 3)) (hl2 : Bd l2 (5 / 2 ^ 3)) (hl3 : Bd l3 (5 / 2 ^ 3)) (hl4 : Bd l4 (5 / 2 ^ 3)) (hl5 : Bd l5 (5 / 2 ^ 3))
    (hl6 : Bd l6 (5 / 2 ^ 3)) (hcp : Bd cp (247 / 2 ^ 8)) (hcpH : Bd cpH (247 / 2 ^ 8)) (hcpHl : 15 / 16 ≤ cpH.val) (hcpL : Bd cpL (1 / 2 ^ 13))
    (hone : Bd one 1) (honev : one.val = 1) (hthree : Bd three 3) (hthreev : three.val = 3)
    (hax : Bd ax (7 / 2 ^ 2)) (hbp : Bd bp (3 / 2 ^ 1)) (hth : Bd th 4) (hD : 119 / 2 ^ 6 ≤ ax.val + bp.val)
    (hu : As t (ax - bp) (ax - bp).val 0 1) (hub : |(ax - bp).val| ≤ 31 / 2 ^ 8 * (ax.val + bp.val)) :
    (logZ T l1 l2 l3 l4 l5 l6 cp cpH cpL one three ax bp th).1.isFinite ∧
    (logZ T l1 l2 l3 l4 l5 l6 cp cpH cpL one three ax bp th).2.isFinite ∧
    |(logZ T l1 l2 l3 l4 l5 l6 cp cpH cpL one three ax bp th).1.val| ≤ 7 / 4 * t ∧
    |(logZ T l1 l2 l3 l4 l5 l6 cp cpH cpL one three ax bp th).2.val| ≤ 1 / 2 ^ 9 * t ∧
    |(logZ T l1 l2 l3 l4 l5 l6 cp cpH cpL one three ax bp th).1.val| ≤ 91 / 2 ^ 8 + 1 / 2 ^ 7 * t ∧
    3 / 4 * |(ax - bp).val| - 1 / 2 ^ 6 * t ≤ |(logZ T l1 l2 l3 l4 l5 l6 cp cpH cpL one three ax bp th).1.val| := by
  have sc0 : 0 ≤ t := (Flt.zp _).le.trans sc
  have sc1 : t ≤ 2 ^ 12 := sc2.trans (by norm_num)
  unfold Bd at *
  obtain ⟨u, eu⟩ : ∃ u, u = ax - bp := ⟨_, rfl⟩
  rw [← eu] at hu hub ⊢
  have hden := AsW.add hF zero_le_one AsW.one_hi hax hbp (by norm_num) (by norm_num) (g := (13 / 2 ^ 26)) (D := (26625 / 2 ^ 13)) (by norm_num) (by norm_num)
  have hL : 59 / 2 ^ 5 ≤ |(ax + bp).val| := le_abs_of_near hden.err hD (by norm_num)
  have hDp : (0 : ℝ) < ax.val + bp.val := lt_of_lt_of_le (by norm_num) hD
  have hq : |u.val * (one.val / (ax.val + bp.val))| ≤ 31 / 2 ^ 8 := by rw [honev, mul_one_div, abs_div, abs_of_pos hDp, div_le_iff₀ hDp]; exact hub
  have hv := AsW.div hF AsW.one_lo AsW.one_hi hone hden (59 / 2 ^ 5) hL (by norm_num) (by norm_num) (by norm_num) (by norm_num) (by norm_num) (g := (24551 / 2 ^ 38)) (D := (17773 / 2 ^ 15)) (by norm_num) (by norm_num)
  have hss := AsW.mul hF sc sc1 hu hv (by norm_num) (by norm_num) (by norm_num) (by norm_num) (g := (16719 / 2 ^ 37)) (D := (8887 / 2 ^ 14)) (by norm_num) (by norm_num)
  have hsh := AsW.cut hT (by norm_num) sc hss (g := (17783 / 2 ^ 26)) (D := (17783 / 2 ^ 15)) (by norm_num) (by norm_num)
  have hthb := AsW.sub hF zero_le_one AsW.one_hi hth hbp (by norm_num) (by norm_num) (g := (11 / 2 ^ 25)) (D := (22529 / 2 ^ 12)) (by norm_num) (by norm_num)
  have htl := AsW.sub hF zero_le_one AsW.one_hi hax hthb (by norm_num) (by norm_num) (g := (26113 / 2 ^ 35)) (D := (14849 / 2 ^ 11)) (by norm_num) (by norm_num)
  have ha := AsW.mul hF sc sc1 hsh hth (by norm_num) (by norm_num) (by norm_num) (by norm_num) (g := (8893 / 2 ^ 23)) (D := (2223 / 2 ^ 10)) (by norm_num) (by norm_num)
  have hb := AsW.sub hF sc0 sc1 hu ha (by norm_num) (by norm_num) (g := (8895 / 2 ^ 23)) (D := (25977 / 2 ^ 13)) (by norm_num) (by norm_num)
  have hc := AsW.mul hF sc sc1 hsh htl (by norm_num) (by norm_num) (by norm_num) (by norm_num) (g := (32245 / 2 ^ 24)) (D := (16117 / 2 ^ 12)) (by norm_num) (by norm_num)
  have hd := AsW.sub hF sc0 sc1 hb hc (by norm_num) (by norm_num) (g := (12511 / 2 ^ 22)) (D := (14553 / 2 ^ 11)) (by norm_num) (by norm_num)
  have hd0 := hd.null (by rw [honev]; field_simp; ring)
  have hsl := AsW.mulr hF sc sc1 hv hd0 (by norm_num) (by norm_num) (by norm_num) (by norm_num) (g := (3393 / 2 ^ 21)) (D := (3393 / 2 ^ 21)) (by norm_num) (by norm_num)
  have hssa := hss.scale sc2 (by norm_num) (by norm_num)
  have hss1 := hssa.rebound zero_le_one (V := (31 / 2 ^ 8)) (by rw [mul_one]; exact hq) (C := (31745 / 2 ^ 18)) (by norm_num)
  have hsha := hsh.scale sc2 (by norm_num) (by norm_num)
  have hsh1 := hsha.rebound zero_le_one (V := (31 / 2 ^ 8)) (by rw [mul_one]; exact hq) (C := (15907 / 2 ^ 17)) (by norm_num)
  have hsl1 := hsl.scale sc2 (by norm_num) (by norm_num)
  have hs2 := AsW.mul hF AsW.one_lo AsW.one_hi hss1 hss1 (by norm_num) (by norm_num) (by norm_num) (by norm_num) (g := (8339 / 2 ^ 38)) (D := (15377 / 2 ^ 20)) (by norm_num) (by norm_num)
  have hs4 := AsW.mul hF AsW.one_lo AsW.one_hi hs2 hs2 (by norm_num) (by norm_num) (by norm_num) (by norm_num) (g := (31757 / 2 ^ 45)) (D := (451 / 2 ^ 21)) (by norm_num) (by norm_num)
  have hpm5 := AsW.mul hF AsW.one_lo AsW.one_hi hs2 hl6 (by norm_num) (by norm_num) (by norm_num) (by norm_num) (g := (21449 / 2 ^ 40)) (D := (9611 / 2 ^ 20)) (by norm_num) (by norm_num)
  have hpa5 := AsW.add hF zero_le_one AsW.one_hi hl5 hpm5 (by norm_num) (by norm_num) (g := (31505 / 2 ^ 39)) (D := (20781 / 2 ^ 15)) (by norm_num) (by norm_num)
  have hpm4 := AsW.mul hF AsW.one_lo AsW.one_hi hs2 hpa5 (by norm_num) (by norm_num) (by norm_num) (by norm_num) (g := (709 / 2 ^ 35)) (D := (1219 / 2 ^ 17)) (by norm_num) (by norm_num)
  have hpa4 := AsW.add hF zero_le_one AsW.one_hi hl4 hpm4 (by norm_num) (by norm_num) (g := (32129 / 2 ^ 39)) (D := (20785 / 2 ^ 15)) (by norm_num) (by norm_num)
  have hpm3 := AsW.mul hF AsW.one_lo AsW.one_hi hs2 hpa4 (by norm_num) (by norm_num) (by norm_num) (by norm_num) (g := (11355 / 2 ^ 39)) (D := (4877 / 2 ^ 19)) (by norm_num) (by norm_num)
  have hpa3 := AsW.add hF zero_le_one AsW.one_hi hl3 hpm3 (by norm_num) (by norm_num) (g := (8035 / 2 ^ 37)) (D := (20785 / 2 ^ 15)) (by norm_num) (by norm_num)
  have hpm2 := AsW.mul hF AsW.one_lo AsW.one_hi hs2 hpa3 (by norm_num) (by norm_num) (by norm_num) (by norm_num) (g := (22711 / 2 ^ 40)) (D := (4877 / 2 ^ 19)) (by norm_num) (by norm_num)
  have hpa2 := AsW.add hF zero_le_one AsW.one_hi hl2 hpm2 (by norm_num) (by norm_num) (g := (32141 / 2 ^ 39)) (D := (20785 / 2 ^ 15)) (by norm_num) (by norm_num)
  have hpm1 := AsW.mul hF AsW.one_lo AsW.one_hi hs2 hpa2 (by norm_num) (by norm_num) (by norm_num) (by norm_num) (g := (22711 / 2 ^ 40)) (D := (4877 / 2 ^ 19)) (by norm_num) (by norm_num)
  have hpa1 := AsW.add hF zero_le_one AsW.one_hi hl1 hpm1 (by norm_num) (by norm_num) (g := (32141 / 2 ^ 39)) (D := (20785 / 2 ^ 15)) (by norm_num) (by norm_num)
  have hr0 := AsW.mul hF AsW.one_lo AsW.one_hi hs4 hpa1 (by norm_num) (by norm_num) (by norm_num) (by norm_num) (g := (20873 / 2 ^ 45)) (D := (18309 / 2 ^ 27)) (by norm_num) (by norm_num)
  have hshss := AsW.add hF zero_le_one AsW.one_hi hsh1 hss1 (by norm_num) (by norm_num) (g := (17793 / 2 ^ 26)) (D := (7945 / 2 ^ 15)) (by norm_num) (by norm_num)
  have hslm := AsW.mul hF AsW.one_lo AsW.one_hi hsl1 hshss (by norm_num) (by norm_num) (by norm_num) (by norm_num) (g := (1649 / 2 ^ 22)) (D := (13163 / 2 ^ 25)) (by norm_num) (by norm_num)
  have hr := AsW.add hF zero_le_one AsW.one_hi hr0 hslm (by norm_num) (by norm_num) (g := (26385 / 2 ^ 26)) (D := (17741 / 2 ^ 25)) (by norm_num) (by norm_num)
  have hrs := hr.self
  have hs2b := AsW.mul hF AsW.one_lo AsW.one_hi hsh1 hsh1 (by norm_num) (by norm_num) (by norm_num) (by norm_num) (g := (17285 / 2 ^ 28)) (D := (3861 / 2 ^ 18)) (by norm_num) (by norm_num)
  have hs2s := hs2b.self
  have hx1 := AsW.add hF zero_le_one AsW.one_hi hthree hs2s (by norm_num) (by norm_num) (g := (24697 / 2 ^ 37)) (D := (24697 / 2 ^ 13)) (by norm_num) (by norm_num)
  have hx2 := AsW.add hF zero_le_one AsW.one_hi hx1 hrs (by norm_num) (by norm_num) (g := (6175 / 2 ^ 34)) (D := (12351 / 2 ^ 12)) (by norm_num) (by norm_num)
  have hth2 := AsW.cut hT (by norm_num) AsW.one_lo hx2 (g := (24709 / 2 ^ 24)) (D := (24715 / 2 ^ 13)) (by norm_num) (by norm_num)
  have hy1 := AsW.sub hF zero_le_one AsW.one_hi hth2 hthree (by norm_num) (by norm_num) (g := (6179 / 2 ^ 22)) (D := (12323 / 2 ^ 11)) (by norm_num) (by norm_num)
  have hy2 := AsW.sub hF zero_le_one AsW.one_hi hy1 hs2s (by norm_num) (by norm_num) (g := (24723 / 2 ^ 24)) (D := (24707 / 2 ^ 12)) (by norm_num) (by norm_num)
  have htl2 := AsW.sub hF zero_le_one AsW.one_hi hrs hy2 (by norm_num) (by norm_num) (g := (12365 / 2 ^ 23)) (D := (12355 / 2 ^ 11)) (by norm_num) (by norm_num)
  have htl20 := htl2.null (by ring)
  have hu2 := AsW.mul hF sc sc1 hsh hth2 (by norm_num) (by norm_num) (by norm_num) (by norm_num) (g := (26831 / 2 ^ 24)) (D := (13413 / 2 ^ 13)) (by norm_num) (by norm_num)
  have hu2s := hu2.self
  have hu21 := AsW.mul hF AsW.one_lo AsW.one_hi hsh1 hth2 (by norm_num) (by norm_num) (by norm_num) (by norm_num) (g := (16419 / 2 ^ 24)) (D := (5999 / 2 ^ 14)) (by norm_num) (by norm_num)
  have hv2a := AsW.mul hF sc sc1 hsl hth2 (by norm_num) (by norm_num) (by norm_num) (by norm_num) (g := (10247 / 2 ^ 21)) (D := (10237 / 2 ^ 21)) (by norm_num) (by norm_num)
  have hv2b := AsW.mulr hF sc sc1 htl20 hss (by norm_num) (by norm_num) (by norm_num) (by norm_num) (g := (26829 / 2 ^ 25)) (D := (26829 / 2 ^ 25)) (by norm_num) (by norm_num)
  have hv2 := AsW.add hF sc0 sc1 hv2a hv2b (by norm_num) (by norm_num) (g := (2981 / 2 ^ 19)) (D := (5957 / 2 ^ 20)) (by norm_num) (by norm_num)
  have hv2s := hv2.self
  have hx3 := AsW.add hF sc0 sc1 hu2s hv2s (by norm_num) (by norm_num) (g := (3365 / 2 ^ 35)) (D := (3365 / 2 ^ 11)) (by norm_num) (by norm_num)
  have hph := AsW.cut hT (by norm_num) sc hx3 (g := (6731 / 2 ^ 23)) (D := (13467 / 2 ^ 13)) (by norm_num) (by norm_num)
  have hy3 := AsW.sub hF sc0 sc1 hph hu2s (by norm_num) (by norm_num) (g := (26931 / 2 ^ 25)) (D := (26881 / 2 ^ 13)) (by norm_num) (by norm_num)
  have hpl := AsW.sub hF sc0 sc1 hv2s hy3 (by norm_num) (by norm_num) (g := (13469 / 2 ^ 24)) (D := (1683 / 2 ^ 9)) (by norm_num) (by norm_num)
  have hpl0 := hpl.null (by ring)
  have hphs := hph.self
  have hzh := AsW.mulr hF sc sc1 hcpH hphs (by norm_num) (by norm_num) (by norm_num) (by norm_num) (g := (6497 / 2 ^ 36)) (D := (6497 / 2 ^ 12)) (by norm_num) (by norm_num)
  have hz1 := AsW.mulr hF sc sc1 hcpL hphs (by norm_num) (by norm_num) (by norm_num) (by norm_num) (g := (26935 / 2 ^ 51)) (D := (26935 / 2 ^ 27)) (by norm_num) (by norm_num)
  have hz2 := AsW.mul hF sc sc1 hpl0 hcp (by norm_num) (by norm_num) (by norm_num) (by norm_num) (g := (25991 / 2 ^ 25)) (D := (25991 / 2 ^ 25)) (by norm_num) (by norm_num)
  have hz3 := AsW.add hF sc0 sc1 hz1 hz2 (by norm_num) (by norm_num) (g := (3249 / 2 ^ 22)) (D := (32725 / 2 ^ 25)) (by norm_num) (by norm_num)
  have hzls := hz3.self

  have hax3 := hax.bd
  have hbp3 := hbp.bd
  unfold logZ
  rw [← eu]
  dsimp only
  refine ⟨hzh.fin, hzls.fin, ?_, ?_, ?_, ?_⟩
  · have := hzh.bd; linarith
  · have := hzls.bd; linarith
  · have a1 := hzh.err
    have a2 := hph.err
    have a3 := hu21.bd
    have a4 := hv2s.bd
    have a5 := hcpH.bd
    exact up_bd (B3 := 0) a1 a2 a3 a4 a5 sc0 (by norm_num) (by norm_num) (by norm_num) (by norm_num)
  · have a1 := hzh.err
    have a2 := hph.err
    have a3 := hu2.err
    have a4 := hv2s.bd
    have a6 := hs2s.bd
    have a7 := hrs.bd
    rw [honev, hthreev] at a3
    refine lo_bd a1 a2 a3 a4 a6 a7 hcpHl hDp ?_ sc0 (by norm_num) (by norm_num) (by norm_num) (by norm_num) (by norm_num)
    have := le_abs_self ax.val
    have := le_abs_self bp.val
    linarith

/-- pow.rs 248-255, powf.rs 192-201 -/
def nearZ (T : Flt F → Flt F) (half third quarter iv ivH ivL t : Flt F) : Flt F × Flt F :=
  let w := (t * t) * (half - t * (third - t * quarter))
  let u := ivH * t
  let v := t * ivL - w * iv
  let t1 := T (u + v)
  (t1, v - (t1 - u))

set_option maxHeartbeats 2000000 in
theorem near_core (hF : F.W) {T : Flt F → Flt F} (hT : Cuts T (1 / 2 ^ 11)) {half third quarter iv ivH ivL tt : Flt F}
    (htf : tt.isFinite) (sc : 2 ^ (-60 : ℤ) ≤ |tt.val|) (ht2 : |tt.val| ≤ 1 / 2 ^ 16) (hhalf : Bd half 1) (hthird : Bd third 1) (hquarter : Bd quarter 1)
    (hiv : Bd iv 2) (hivH : Bd ivH 2) (hivHl : 1 ≤ ivH.val) (hivL : Bd ivL (1 / 2 ^ 16)) :
    (nearZ T half third quarter iv ivH ivL tt).1.isFinite ∧ (nearZ T half third quarter iv ivH ivL tt).2.isFinite ∧
      |(nearZ T half third quarter iv ivH ivL tt).2.val| ≤ |(nearZ T half third quarter iv ivH ivL tt).1.val| / 4 ∧
      |(nearZ T half third quarter iv ivH ivL tt).1.val| ≤ 4 * |tt.val| := by
  unfold Bd at *
  obtain ⟨t, et⟩ : ∃ t, t = |tt.val| := ⟨_, rfl⟩
  have sc1 : t ≤ 2 ^ 12 := by rw [et]; exact ht2.trans (by norm_num)
  rw [← et] at sc
  have sc0 : 0 ≤ t := (Flt.zp _).le.trans sc
  have htt : As t tt tt.val 0 1 := ⟨htf, by simp, by rw [et, one_mul]⟩
  have hta : As 1 tt tt.val 0 (1 / 2 ^ 16) := ⟨htf, by simp, by rw [mul_one]; exact ht2⟩
  have ha := AsW.mul hF AsW.one_lo AsW.one_hi hta hquarter (by norm_num) (by norm_num) (by norm_num) (by norm_num) (g := (16385 / 2 ^ 54)) (D := (16385 / 2 ^ 30)) (by norm_num) (by norm_num)
  have hb := AsW.sub hF zero_le_one AsW.one_hi hthird ha (by norm_num) (by norm_num) (g := (16385 / 2 ^ 38)) (D := (16385 / 2 ^ 14)) (by norm_num) (by norm_num)
  have hc := AsW.mul hF AsW.one_lo AsW.one_hi hta hb (by norm_num) (by norm_num) (by norm_num) (by norm_num) (g := (8193 / 2 ^ 52)) (D := (8193 / 2 ^ 29)) (by norm_num) (by norm_num)
  have hd := AsW.sub hF zero_le_one AsW.one_hi hhalf hc (by norm_num) (by norm_num) (g := (16385 / 2 ^ 38)) (D := (16385 / 2 ^ 14)) (by norm_num) (by norm_num)
  have he := AsW.mul hF sc sc1 htt hta (by norm_num) (by norm_num) (by norm_num) (by norm_num) (g := (16385 / 2 ^ 54)) (D := (16385 / 2 ^ 30)) (by norm_num) (by norm_num)
  have hw := AsW.mul hF sc sc1 he hd (by norm_num) (by norm_num) (by norm_num) (by norm_num) (g := (6145 / 2 ^ 51)) (D := (16387 / 2 ^ 30)) (by norm_num) (by norm_num)
  have hu := AsW.mulr hF sc sc1 hivH htt (by norm_num) (by norm_num) (by norm_num) (by norm_num) (g := (16385 / 2 ^ 37)) (D := (16385 / 2 ^ 13)) (by norm_num) (by norm_num)
  have hus := hu.self
  have hf := AsW.mul hF sc sc1 htt hivL (by norm_num) (by norm_num) (by norm_num) (by norm_num) (g := (16385 / 2 ^ 54)) (D := (16385 / 2 ^ 30)) (by norm_num) (by norm_num)
  have hg := AsW.mul hF sc sc1 hw hiv (by norm_num) (by norm_num) (by norm_num) (by norm_num) (g := (16387 / 2 ^ 51)) (D := (4097 / 2 ^ 27)) (by norm_num) (by norm_num)
  have hv := AsW.sub hF sc0 sc1 hf hg (by norm_num) (by norm_num) (g := (24581 / 2 ^ 51)) (D := (24581 / 2 ^ 29)) (by norm_num) (by norm_num)
  have hvs := hv.self
  have hx := AsW.add hF sc0 sc1 hus hvs (by norm_num) (by norm_num) (g := (8193 / 2 ^ 36)) (D := (8193 / 2 ^ 12)) (by norm_num) (by norm_num)
  have ht1 := AsW.cut hT (by norm_num) sc hx (g := (16389 / 2 ^ 24)) (D := (16395 / 2 ^ 13)) (by norm_num) (by norm_num)
  have hy := AsW.sub hF sc0 sc1 ht1 hus (by norm_num) (by norm_num) (g := (8197 / 2 ^ 23)) (D := (16391 / 2 ^ 12)) (by norm_num) (by norm_num)
  have ht2 := AsW.sub hF sc0 sc1 hvs hy (by norm_num) (by norm_num) (g := (16399 / 2 ^ 24)) (D := (2049 / 2 ^ 9)) (by norm_num) (by norm_num)
  have ht20 := ht2.null (by ring)
  unfold nearZ
  dsimp only
  have h1 := ht1.err
  have h2 := ht1.bd
  have h3 := ht20.bd
  have h5 := hu.err
  have h6 := hvs.bd
  have h7 : |ivH.val * tt.val| ≥ 1 * t := by
    rw [abs_mul, ← et]
    exact mul_le_mul_of_nonneg_right (hivHl.trans (le_abs_self _)) sc0
  have h8 := abs_sub_abs_le_abs_sub (ivH.val * tt.val) (ivH * tt).val
  have h9 := abs_sub_abs_le_abs_sub (ivH * tt).val (-(tt * ivL - tt * tt * (half - tt * (third - tt * quarter)) * iv).val)
  have h10 := abs_sub_abs_le_abs_sub ((ivH * tt).val + (tt * ivL - tt * tt * (half - tt * (third - tt * quarter)) * iv).val) (T (ivH * tt + (tt * ivL - tt * tt * (half - tt * (third - tt * quarter)) * iv))).val
  rw [abs_sub_comm] at h8 h10
  rw [abs_neg, sub_neg_eq_add] at h9
  rw [← et]
  refine ⟨ht1.fin, ht20.fin, ?_, ?_⟩ <;> linarith

end PowT
end Verif
