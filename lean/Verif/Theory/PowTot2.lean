import Verif.Theory.PowTot
import Verif.Theory.PowSum

/-!
# pow in `f64`: the logarithm is well behaved, and the general case returns
-/

namespace Verif
open Flt
namespace PowT

/-- the exponent and the table entry cannot cancel -/
theorem far {n : ℤ} {d : ℝ} (hn : |n| ≤ 2 ^ 11) (h : d = 0 ∧ n ≠ 0 ∨ 0.58 ≤ d ∧ d ≤ 0.59) :
    ∃ W : ℝ, 1 ≤ W ∧ W ≤ 2 ^ 12 ∧ |(n : ℝ)| ≤ W ∧ |d| ≤ 5 / 8 ∧ 3 / 8 + W / 64 ≤ |(n : ℝ) + d| := by
  have hn' : |(n : ℝ)| ≤ 2 ^ 11 := by exact_mod_cast hn
  have h0 := abs_nonneg (n : ℝ)
  refine ⟨|(n : ℝ)| + 1, by linarith, by linarith, by linarith, ?_, ?_⟩
  · rcases h with ⟨a, -⟩ | ⟨a, b⟩
    · rw [a]; norm_num
    · rw [abs_of_nonneg (by linarith)]; linarith
  · rcases h with ⟨a, b⟩ | ⟨a, b⟩
    · rw [a, add_zero]
      have : (1 : ℝ) ≤ |(n : ℝ)| := by exact_mod_cast Int.one_le_abs b
      linarith
    · rcases le_or_gt 0 n with hp | hp
      · have hp' : (0 : ℝ) ≤ n := by exact_mod_cast hp
        rw [abs_of_nonneg hp', abs_of_nonneg (by linarith)]; linarith
      · have hp' : (n : ℝ) ≤ -1 := by exact_mod_cast (show n ≤ -1 by omega)
        rw [abs_of_nonpos (show (n : ℝ) ≤ 0 by linarith), abs_of_nonpos (by linarith)]; linarith

end PowT

namespace Pow
open PowT AsW

theorem bd_const' {c : Flt f64} {b : ℕ} (hf : c.isFinite) (h : |c.sval| * 2 ^ b ≤ 1 * 2 ^ 1074) : Bd c (1 / 2 ^ b) := by
  have := bd_const (c := c) (a := 1) (b := b) hf (by exact_mod_cast h)
  exact_mod_cast this

theorem cpH_lo : 15 / 16 ≤ cpH.val := by
  rw [val_const64 (x := cpH) 16136271 1050 (-24) (by decide +kernel) (by norm_num), zpow_neg]; norm_num

theorem v_dpH1 : (5.84962487220764160156e-01 : Flt f64).val = (4907021 : ℤ) * 2 ^ (-23 : ℤ) :=
  val_const64 4907021 1051 (-23) (by decide +kernel) (by norm_num)
theorem v_15 : (1.5 : Flt f64).val = 3 / 2 := by
  rw [val_const64 3 1073 (-1) (by decide +kernel) (by norm_num), zpow_neg]; norm_num
theorem v_0 : (0.0 : Flt f64).val = 0 := by
  rw [val_const64 0 0 (-1074) (by decide +kernel) (by norm_num)]; norm_num

theorem ofInt_val {n : ℤ} (h : |n| ≤ 2 ^ 11) : (ofInt f64 n).isFinite ∧ (ofInt f64 n).val = n := by
  have := Is.ofInt n (h.trans (by norm_num))
  exact ⟨this.1, by rw [this.2]; simp⟩

theorem ge64 {x : Flt f64} (hs : x.sign = false) {b : BitVec 64} (m : ℤ) (k : ℕ) (e : ℤ) (h : b.toNat ≤ x.mb) (hb : (bits64 b).mb = b.toNat)
    (hv : (bits64 b).sval = m * 2 ^ k) (he : (k : ℤ) - 1074 = e) (hm : 0 ≤ m) : (m : ℝ) * 2 ^ e ≤ x.val := by
  have := val_mono (x := x) (y := bits64 b) (by omega)
  rw [val_const64 (x := bits64 b) m k e hv he, abs_of_nonneg (val_nonneg hs), abs_of_nonneg (by positivity)] at this
  exact this

theorem le64 {x : Flt f64} {b : BitVec 64} (m : ℤ) (k : ℕ) (e : ℤ) (h : x.mb ≤ b.toNat) (hb : (bits64 b).mb = b.toNat)
    (hv : (bits64 b).sval = m * 2 ^ k) (he : (k : ℤ) - 1074 = e) (hm : 0 ≤ m) : x.val ≤ (m : ℝ) * 2 ^ e := by
  have := val_mono (x := bits64 b) (y := x) (by omega)
  rw [val_const64 (x := bits64 b) m k e hv he, abs_of_nonneg (a := (m : ℝ) * _) (by positivity)] at this
  exact (le_abs_self _).trans this

/-- the word for the first approximation of the divisor -/
theorem th_word {ix : BitVec 32} {k : ℕ} (hk : k ≤ 1) (h1 : 0x3fe00000 ≤ ix.toNat) (h2 : ix.toNat < 0x40000000) :
    ∃ w w', uadd ((ix >>> 1) ||| 0x20000000#32) 0x00080000#32 = some w ∧ uadd w (BitVec.ofNat 32 k <<< 18) = some w' ∧ w'.toNat < 0x40100000 := by
  have e1 : ((ix >>> 1) ||| 0x20000000#32).toNat = 0x20000000 + ix.toNat / 2 := by
    rw [BitVec.or_comm, BV.or_disjoint (k := 29) (by decide) (by rw [BV.shr]; omega), BV.shr]; rfl
  have e2 : (BitVec.ofNat 32 k <<< 18).toNat = k * 2 ^ 18 := by
    rw [BV.shl, BitVec.toNat_ofNat]; omega
  have e3 : (0x00080000#32).toNat = 0x80000 := by decide
  have e4 : ((ix >>> 1 ||| 0x20000000#32) + 0x00080000#32).toNat = 0x20000000 + ix.toNat / 2 + 0x80000 := by
    rw [BitVec.toNat_add, e1, e3]; omega
  refine ⟨(ix >>> 1 ||| 0x20000000#32) + 0x00080000#32, (ix >>> 1 ||| 0x20000000#32) + 0x00080000#32 + (BitVec.ofNat 32 k <<< 18), ?_, ?_, ?_⟩
  · rw [uadd, if_pos (by rw [e1, e3]; omega)]
  · rw [uadd, if_pos (by rw [e4, e2]; omega)]
  · rw [BitVec.toNat_add, e4, e2]; omega

theorem th_bd {w : BitVec 32} (h : w.toNat < 0x40100000) : Bd (withSetHighWord 0.0 w) 4 := by
  obtain ⟨-, h2⟩ := set_high_zero w
  refine .mk ?_ ?_
  · rw [isFinite_iff, f64.infEnc_eq, f64_bias, f64_sb, h2]; omega
  · have := val_lt_of_mb (x := withSetHighWord 0.0 w) (E := 1025) (by norm_num) (by rw [f64_sb, h2]; omega)
    rw [f64_bias] at this
    norm_num at this
    exact this.le

/-- the logarithm of a reduced argument -/
theorem logCore_some {ax : Flt f64} {ix : BitVec 32} {k : ℕ} {n : ℤ} (hk : k ≤ 1) (h1 : 0x3fe00000 ≤ ix.toNat) (h2 : ix.toNat < 0x40000000)
    (hn : |n| ≤ 2 ^ 11) (hax : ax.isFinite)
    (hr : k = 0 ∧ 0.8655 ≤ ax.val ∧ ax.val ≤ 1.2255 ∨ k = 1 ∧ 1.2241 ≤ ax.val ∧ ax.val ≤ 1.7325)
    (h0 : k = 0 → n = 0 → 1 / 2 ^ 54 ≤ |ax.val - 1|) : ∃ p, logCore ax ix k n = some p ∧ Split p := by
  obtain ⟨w, w', hw, hw', hw2⟩ := th_word (ix := ix) hk h1 h2
  have hth := th_bd hw2
  obtain ⟨f, v⟩ := ofInt_val hn
  have main : ∀ bp dph dpl : Flt f64, bp.isFinite → dph.isFinite → dpl.isFinite →
      (bp.val = 1 ∧ 0.8655 ≤ ax.val ∧ ax.val ≤ 1.2255 ∨ bp.val = 3 / 2 ∧ 1.2241 ≤ ax.val ∧ ax.val ≤ 1.7325) →
      (dph.val = 0 ∧ dpl.val = 0 ∧ (ofInt f64 n).val = 0 ∧ 1 / 2 ^ 54 ≤ |ax.val - bp.val| ∨
      ∃ W : ℝ, 1 ≤ W ∧ W ≤ 2 ^ 12 ∧ |(ofInt f64 n).val| ≤ W ∧ |dph.val| ≤ 5 / 8 ∧ |dpl.val| ≤ 1 / 2 ^ 16 ∧
        3 / 8 + W / 64 ≤ |(ofInt f64 n).val + dph.val|) →
      Split (logAll (fun x => withSetLowWord x 0) l1 l2 l3 l4 l5 l6 cp cpH cpL 1.0 3.0 ax bp (withSetHighWord 0.0 w') dph dpl (ofInt f64 n)) := by
    intro bp dph dpl b1 b2 b3 b4 b5
    exact log_all W64 cuts64
      (bd_const (a := 5) (b := 3) (by decide +kernel) (by decide +kernel)) (bd_const (a := 5) (b := 3) (by decide +kernel) (by decide +kernel))
      (bd_const (a := 5) (b := 3) (by decide +kernel) (by decide +kernel)) (bd_const (a := 5) (b := 3) (by decide +kernel) (by decide +kernel))
      (bd_const (a := 5) (b := 3) (by decide +kernel) (by decide +kernel)) (bd_const (a := 5) (b := 3) (by decide +kernel) (by decide +kernel))
      (bd_const (a := 247) (b := 8) (by decide +kernel) (by decide +kernel)) (bd_const (a := 247) (b := 8) (by decide +kernel) (by decide +kernel))
      cpH_lo (bd_const' (b := 13) (by decide +kernel) (by decide +kernel)) bd_one v_one bd_three v_three hax b1 hth b2 b3 f b4 b5
  rcases hr with ⟨rfl, r1, r2⟩ | ⟨rfl, r1, r2⟩
  · refine ⟨_, ?_, main 1.0 0.0 0.0 (by decide +kernel) (by decide +kernel) (by decide +kernel) (Or.inl ⟨v_one, r1, r2⟩) ?_⟩
    · unfold logCore
      rw [show bp[0]? = some (1.0 : Flt f64) from rfl, show dpH[0]? = some (0.0 : Flt f64) from rfl, show dpL[0]? = some (0.0 : Flt f64) from rfl]
      simp only [Option.bind_some, hw, hw']
      rfl
    · by_cases hn0 : n = 0
      · left
        refine ⟨v_0, v_0, by rw [v, hn0]; simp, ?_⟩
        rw [v_one]; exact h0 rfl hn0
      · right
        obtain ⟨W, a, b, c, d, e⟩ := far (n := n) (d := 0) hn (Or.inl ⟨rfl, hn0⟩)
        exact ⟨W, a, b, by rw [v]; exact c, by rw [v_0]; exact d, by rw [v_0]; norm_num, by rw [v, v_0]; exact e⟩
  · refine ⟨_, ?_, main 1.5 5.84962487220764160156e-01 1.35003920212974897128e-08 (by decide +kernel) (by decide +kernel) (by decide +kernel) (Or.inr ⟨v_15, r1, r2⟩) ?_⟩
    · unfold logCore
      rw [show bp[1]? = some (1.5 : Flt f64) from rfl, show dpH[1]? = some (5.84962487220764160156e-01 : Flt f64) from rfl,
        show dpL[1]? = some (1.35003920212974897128e-08 : Flt f64) from rfl]
      simp only [Option.bind_some, hw, hw']
      rfl
    · right
      obtain ⟨W, a, b, c, d, e⟩ := far (n := n) (d := (5.84962487220764160156e-01 : Flt f64).val) hn (Or.inr (by
        rw [v_dpH1, zpow_neg]; norm_num))
      have := (bd_const' (c := (1.35003920212974897128e-08 : Flt f64)) (b := 16) (by decide +kernel) (by decide +kernel)).bd
      rw [mul_one] at this
      exact ⟨W, a, b, by rw [v]; exact c, d, this, by rw [v]; exact e⟩

theorem set_high_mb (x : Flt f64) {w : BitVec 32} (hw : w.toNat < 2 ^ 31) :
    (withSetHighWord x w).sign = false ∧ (withSetHighWord x w).mb = w.toNat * 2 ^ 32 + x.mb % 2 ^ 32 := by
  obtain ⟨h1, h2⟩ := set_high_word x w
  have h3 := hi_toNat (withSetHighWord x w)
  have h4 := lo_toNat (withSetHighWord x w)
  have h5 := lo_toNat x
  rw [h1] at h3
  rw [h2, h5] at h4
  have h6 := mb64_lt (withSetHighWord x w)
  generalize (withSetHighWord x w).mb = M at *
  generalize (withSetHighWord x w).sign = S at *
  cases S
  · rw [if_neg (by decide)] at h3
    exact ⟨rfl, by omega⟩
  · rw [if_pos rfl] at h3
    omega

theorem ix_top {ix : BitVec 32} {M : ℕ} (h : ix.toNat = M / 2 ^ 32) (hM : M < 2 ^ 63) : (ix.sshiftRight 20).toInt = (M / 2 ^ 52 : ℕ) := by
  have : ix.toInt = ix.toNat := by rw [BitVec.toInt_eq_toNat_of_lt]; omega
  rw [BitVec.toInt_sshiftRight, this, Int.shiftRight_eq_div_pow, h]
  omega

theorem i32_some {v : ℤ} (h1 : -2 ^ 31 ≤ v) (h2 : v < 2 ^ 31) : i32 v = some v := if_pos ⟨h1, h2⟩

/-- the reduction to the two intervals, for a normalized argument -/
theorem logStep {a : Flt f64} (hs : a.sign = false) (hf : a.mb < 0x7ff0000000000000) {n0 : ℤ}
    (h : n0 = 0 ∧ a.mb ≠ 0x3ff0000000000000 ∨ n0 = -53 ∧ a.mb < 55 * 2 ^ 52) :
    ∃ p, ((i32 (n0 + (((getHighWord a).sshiftRight 20).toInt - 0x3ff))).bind fun n =>
      let j := getHighWord a &&& 0x000fffff#32
      let ix := j ||| 0x3ff00000#32
      if j ≤ 0x3988E#32 then logCore (withSetHighWord a ix) ix 0 n
      else if j < 0xBB67A#32 then logCore (withSetHighWord a ix) ix 1 n
      else
        (i32 (n + 1)).bind fun n =>
        (isub ix 0x00100000#32).bind fun ix =>
        logCore (withSetHighWord a ix) ix 0 n) = some p ∧ Split p := by
  have hi : (getHighWord a).toNat = a.mb / 2 ^ 32 := by rw [hi_toNat, hs]; simp
  have hM := mb64_lt a
  rw [ix_top hi hM]
  obtain ⟨E, hE⟩ : ∃ E, a.mb / 2 ^ 52 = E := ⟨_, rfl⟩
  rw [hE, i32_some (by omega) (by omega), Option.bind_some]
  dsimp only
  have hj : (getHighWord a &&& 0x000fffff#32).toNat = a.mb / 2 ^ 32 % 2 ^ 20 := by
    rw [BV.and_low (k := 20) (by decide), hi]
  have hix : ((getHighWord a &&& 0x000fffff#32) ||| 0x3ff00000#32).toNat = 0x3ff00000 + a.mb / 2 ^ 32 % 2 ^ 20 := by
    rw [BitVec.or_comm, BV.or_disjoint (k := 20) (by decide) (by rw [hj]; omega), hj]; rfl
  generalize (getHighWord a &&& 0x000fffff#32) = j at *
  generalize hx : (j ||| 0x3ff00000#32) = ix at *
  have hn : |n0 + ((E : ℤ) - 0x3ff)| ≤ 2 ^ 11 - 1 := by rw [abs_le]; omega
  have fin : ∀ {w : BitVec 32}, w.toNat < 0x40000000 → (withSetHighWord a w).isFinite := by
    intro w hw
    rw [isFinite_iff, f64.infEnc_eq, f64_bias, f64_sb, (set_high_mb a (by omega)).2]; omega
  split
  · rename_i h1
    rw [BitVec.le_def, hj, show (0x3988E#32).toNat = 0x3988E from rfl] at h1
    obtain ⟨q1, q2⟩ := set_high_mb a (w := ix) (by omega)
    refine logCore_some (by omega) (by omega) (by omega) (by omega) (fin (by omega)) (Or.inl ⟨rfl, ?_, ?_⟩) ?_
    · have := ge64 (b := 0x3ff0000000000000#64) q1 1 1074 0 (by rw [q2, hix, show (0x3ff0000000000000#64).toNat = 0x3ff0000000000000 from rfl]; omega) (by decide +kernel) (by decide +kernel) (by norm_num) (by norm_num)
      norm_num at this; linarith
    · have := le64 (x := withSetHighWord a ix) (b := 0x3ff3988f00000000#64) 0x13988f 1054 (-20) (by rw [q2, hix, show (0x3ff3988f00000000#64).toNat = 0x3ff3988f00000000 from rfl]; omega) (by decide +kernel) (by decide +kernel) (by norm_num) (by norm_num)
      rw [zpow_neg] at this; norm_num at this; linarith
    · intro _ h0
      have := ge64 (b := 0x3ff0000000000001#64) q1 0x10000000000001 1022 (-52) (by rw [q2, hix, show (0x3ff0000000000001#64).toNat = 0x3ff0000000000001 from rfl]; omega) (by decide +kernel) (by decide +kernel) (by norm_num) (by norm_num)
      rw [zpow_neg] at this
      have h2 : 1 / 2 ^ 54 ≤ (withSetHighWord a ix).val - 1 := by
        refine le_trans ?_ (sub_le_sub_right this 1); norm_num
      exact h2.trans (le_abs_self _)
  · rename_i h1
    rw [BitVec.le_def, hj, show (0x3988E#32).toNat = 0x3988E from rfl] at h1
    split
    · rename_i h2
      rw [BitVec.lt_def, hj, show (0xBB67A#32).toNat = 0xBB67A from rfl] at h2
      obtain ⟨q1, q2⟩ := set_high_mb a (w := ix) (by omega)
      refine logCore_some (by omega) (by omega) (by omega) (by omega) (fin (by omega)) (Or.inr ⟨rfl, ?_, ?_⟩) (by intro h; omega)
      · have := ge64 (b := 0x3ff3988f00000000#64) q1 0x13988f 1054 (-20) (by rw [q2, hix, show (0x3ff3988f00000000#64).toNat = 0x3ff3988f00000000 from rfl]; omega) (by decide +kernel) (by decide +kernel) (by norm_num) (by norm_num)
        rw [zpow_neg] at this; norm_num at this; linarith
      · have := le64 (x := withSetHighWord a ix) (b := 0x3ffbb67a00000000#64) 0x1bb67a 1054 (-20) (by rw [q2, hix, show (0x3ffbb67a00000000#64).toNat = 0x3ffbb67a00000000 from rfl]; omega) (by decide +kernel) (by decide +kernel) (by norm_num) (by norm_num)
        rw [zpow_neg] at this; norm_num at this; linarith
    · rename_i h2
      rw [BitVec.lt_def, hj, show (0xBB67A#32).toNat = 0xBB67A from rfl] at h2
      rw [i32_some (by omega) (by omega), Option.bind_some]
      have t1 : ix.toInt = ix.toNat := by rw [BitVec.toInt_eq_toNat_of_lt]; omega
      have t2 : (0x00100000#32).toInt = 0x100000 := by decide
      obtain ⟨r, hr, e⟩ := isub_eq (a := ix) (b := 0x00100000#32) (by rw [t1, t2]; omega) (by rw [t1, t2]; omega)
      rw [hr, Option.bind_some]
      have hr2 : r.toNat = 0x3fe00000 + a.mb / 2 ^ 32 % 2 ^ 20 := by
        rw [e, BitVec.toNat_sub, hix, show (0x00100000#32).toNat = 0x100000 from rfl]; omega
      obtain ⟨q1, q2⟩ := set_high_mb a (w := r) (by omega)
      have hup := le64 (x := withSetHighWord a r) (b := 0x3fefffffffffffff#64) 0x1fffffffffffff 1021 (-53) (by rw [q2, hr2, show (0x3fefffffffffffff#64).toNat = 0x3fefffffffffffff from rfl]; omega) (by decide +kernel) (by decide +kernel) (by norm_num) (by norm_num)
      rw [zpow_neg] at hup
      have h3 : 1 / 2 ^ 54 ≤ 1 - (withSetHighWord a r).val := by
        refine le_trans ?_ (sub_le_sub_left hup 1); norm_num
      refine logCore_some (by omega) (by omega) (by omega) (by rw [abs_le] at hn ⊢; omega) (fin (by omega)) (Or.inl ⟨rfl, ?_, ?_⟩) ?_
      · have := ge64 (b := 0x3febb67a00000000#64) q1 0x1bb67a 1053 (-21) (by rw [q2, hr2, show (0x3febb67a00000000#64).toNat = 0x3febb67a00000000 from rfl]; omega) (by decide +kernel) (by decide +kernel) (by norm_num) (by norm_num)
        rw [zpow_neg] at this; norm_num at this; linarith
      · have : (0 : ℝ) < 1 / 2 ^ 54 := by positivity
        linarith
      · intro _ _
        rw [abs_sub_comm]
        exact h3.trans (le_abs_self _)

theorem logAx_some {a : Flt f64} (hs : a.sign = false) (hz : a.mb ≠ 0) (hf : a.mb < 0x7ff0000000000000) (h1 : a.mb ≠ 0x3ff0000000000000) :
    ∃ p, logAx a (BitVec.ofNat 32 (a.mb / 2 ^ 32)) = some p ∧ Split p := by
  have hM := mb64_lt a
  have hi : getHighWord a = BitVec.ofNat 32 (a.mb / 2 ^ 32) := by
    rw [← BitVec.toNat_inj, hi_toNat, hs, BitVec.toNat_ofNat]
    simp only [Bool.false_eq_true, if_false]; omega
  rw [← hi]
  have hi' : (getHighWord a).toNat = a.mb / 2 ^ 32 := by rw [hi_toNat, hs]; simp
  unfold logAx
  by_cases hc : getHighWord a < 0x00100000#32
  · rw [if_pos hc]
    rw [BitVec.lt_def, hi', show (0x00100000#32).toNat = 0x100000 from rfl] at hc
    have hfin : a.isFinite := by rw [isFinite_iff, f64.infEnc_eq, f64_bias, f64_sb]; omega
    have h2 := mul_rne (x := a) (y := two53) hfin (by decide +kernel)
    have hv : two53.val = 2 ^ (53 : ℤ) := by
      rw [val_const64 (x := two53) 1 1127 53 (by decide +kernel) (by norm_num)]; norm_num
    have hlt := le64 (x := a) (b := 0x0010000000000000#64) 1 52 (-1022) (by rw [show (0x0010000000000000#64).toNat = 0x0010000000000000 from rfl]; omega) (by decide +kernel) (by decide +kernel) (by norm_num) (by norm_num)
    have hgt := ge64 (b := 1#64) hs 1 0 (-1074) (by rw [show (1#64).toNat = 1 from rfl]; omega) (by decide +kernel) (by decide +kernel) (by norm_num) (by norm_num)
    have v1 : (bits64 0x0360000000000000#64).val = 2 ^ (-969 : ℤ) := by
      rw [val_const64 1 105 (-969) (by decide +kernel) (by norm_num)]; norm_num
    have v2 : (bits64 0x0020000000000000#64).val = 2 ^ (-1021 : ℤ) := by
      rw [val_const64 1 53 (-1021) (by decide +kernel) (by norm_num)]; norm_num
    rw [Int.cast_one, one_mul] at hlt hgt
    have q1 : a.val * two53.val ≤ (bits64 0x0360000000000000#64).val := by
      rw [v1, hv]
      refine (mul_le_mul_of_nonneg_right hlt (zp _).le).trans ?_
      rw [← zpow_add₀ two_ne_zero]; norm_num
    have q2 : (bits64 0x0020000000000000#64).val ≤ a.val * two53.val := by
      rw [v2, hv]
      refine le_trans ?_ (mul_le_mul_of_nonneg_right hgt (zp _).le)
      rw [← zpow_add₀ two_ne_zero]; norm_num
    have q0 : 0 < a.val * two53.val := lt_of_lt_of_le (by rw [v2]; exact zp _) q2
    have hf2 := (rnd W64 h2 (by
      rw [abs_of_nonneg q0.le]
      refine q1.trans ?_
      rw [v1]
      refine le_trans ?_ (le_mul_of_one_le_left (zp _).le (by norm_num))
      exact zpow_le_zpow_right₀ (by norm_num) (by rw [f64_bias]; norm_num))).1
    have u1 := h2.le_of_le hf2 (by decide +kernel) q1
    have u2 := h2.ge_of_ge hf2 (by decide +kernel) q2
    rw [v1] at u1
    rw [v2] at u2
    have hpos : 0 < (a * two53).val := lt_of_lt_of_le (zp _) u2
    have hs2 : (a * two53).sign = false := by
      by_contra hc
      rw [Bool.not_eq_false] at hc
      exact absurd (val_nonpos hc) (not_le.2 hpos)
    have hm2 : (a * two53).mb < 55 * 2 ^ 52 := by
      by_contra hc
      have := val_ge_of_mb (x := a * two53) (E := 55) (by norm_num) (by rw [f64_sb]; omega)
      rw [f64_bias, abs_of_pos hpos] at this
      have h3 := this.trans u1
      rw [zpow_le_zpow_iff_right₀ (by norm_num)] at h3
      norm_num at h3
    exact logStep hs2 (by omega) (Or.inr ⟨rfl, hm2⟩)
  · rw [if_neg hc]
    exact logStep hs hf (Or.inl ⟨rfl, h1⟩)

/-- arguments within a few units of one -/
theorem near_arg {F : Fmt} (hF : F.W) {ax one : Flt F} (h : ax.isFinite) (ho : one.isFinite) (v1 : one.val = 1)
    (h1 : 1 / 2 ^ 54 ≤ |ax.val - 1|) (h2 : |ax.val - 1| ≤ 1 / 2 ^ 20) :
    (ax - one).isFinite ∧ 2 ^ (-60 : ℤ) ≤ |(ax - one).val| ∧ |(ax - one).val| ≤ 9 / 8 * |ax.val - 1| := by
  have h3 := sub_rne h ho
  rw [v1] at h3
  obtain ⟨f, e⟩ := rnd hF h3 (h2.trans (by
    have : (1 : ℝ) ≤ 2 ^ (F.bias : ℤ) := one_le_zpow₀ (by norm_num) (by positivity)
    norm_num at this ⊢; linarith))
  refine ⟨f, ?_, ?_⟩
  · have h4 := abs_sub_abs_le_abs_sub (ax.val - 1) (ax - one).val
    rw [abs_sub_comm (ax.val - 1) (ax - one).val] at h4
    rw [zpow_neg]
    norm_num at h1 e ⊢
    linarith
  · have h4 := abs_sub_abs_le_abs_sub (ax - one).val (ax.val - 1)
    norm_num at h1 e ⊢
    linarith

theorem logNear1_split {a : Flt f64} (hs : a.sign = false) (h1 : 0x3fefffff00000000 ≤ a.mb) (h2 : a.mb < 0x3ff0000100000000)
    (h3 : a.mb ≠ 0x3ff0000000000000) : Split (logNear1 a) ∧ |(logNear1 a).1.val| ≤ 1 := by
  have hlo := ge64 (b := 0x3fefffff00000000#64) hs 0x1fffff 1053 (-21) (by rw [show (0x3fefffff00000000#64).toNat = 0x3fefffff00000000 from rfl]; omega) (by decide +kernel) (by decide +kernel) (by norm_num) (by norm_num)
  have hup := le64 (x := a) (b := 0x3ff0000100000000#64) 0x100001 1054 (-20) (by rw [show (0x3ff0000100000000#64).toNat = 0x3ff0000100000000 from rfl]; omega) (by decide +kernel) (by decide +kernel) (by norm_num) (by norm_num)
  rw [zpow_neg] at hlo hup
  have hfin : a.isFinite := by rw [isFinite_iff, f64.infEnc_eq, f64_bias, f64_sb]; omega
  have far1 : 1 / 2 ^ 54 ≤ |a.val - 1| := by
    rcases lt_or_gt_of_ne h3 with hc | hc
    · have := le64 (x := a) (b := 0x3fefffffffffffff#64) 0x1fffffffffffff 1021 (-53) (by rw [show (0x3fefffffffffffff#64).toNat = 0x3fefffffffffffff from rfl]; omega) (by decide +kernel) (by decide +kernel) (by norm_num) (by norm_num)
      rw [zpow_neg] at this
      rw [abs_sub_comm]
      refine le_trans ?_ (le_abs_self _)
      refine le_trans ?_ (sub_le_sub_left this 1); norm_num
    · have := ge64 (x := a) (b := 0x3ff0000000000001#64) hs 0x10000000000001 1022 (-52) (by rw [show (0x3ff0000000000001#64).toNat = 0x3ff0000000000001 from rfl]; omega) (by decide +kernel) (by decide +kernel) (by norm_num) (by norm_num)
      rw [zpow_neg] at this
      refine le_trans ?_ (le_abs_self _)
      refine le_trans ?_ (sub_le_sub_right this 1); norm_num
  have hclose : |a.val - 1| ≤ 1 / 2 ^ 20 := by
    rw [abs_le]
    norm_num at hlo hup ⊢
    constructor <;> linarith
  obtain ⟨f, l, u⟩ := near_arg W64 hfin (by decide +kernel) v_one far1 hclose
  replace u : |(a - 1.0).val| ≤ 1 / 2 ^ 19 := by norm_num at hclose ⊢; linarith
  have hH : 1 ≤ ivln2H.val := by
    have := ge64 (x := ivln2H) (b := 0x3ff0000000000000#64) (by decide +kernel) 1 1074 0 (by decide +kernel) (by decide +kernel) (by decide +kernel) (by norm_num) (by norm_num)
    norm_num at this; exact this
  have key := near_core W64 cuts64 (half := 0.5) (third := 0.3333333333333333333333) (quarter := 0.25) (iv := ivln2) (ivH := ivln2H) (ivL := ivln2L)
    f l (u.trans (by norm_num)) (.mk (by decide +kernel) (by
      have := (bd_const (c := (0.5 : Flt f64)) (a := 1) (b := 0) (by decide +kernel) (by decide +kernel)).bd; norm_num at this; exact this))
    (.mk (by decide +kernel) (by
      have := (bd_const (c := (0.3333333333333333333333 : Flt f64)) (a := 1) (b := 0) (by decide +kernel) (by decide +kernel)).bd; norm_num at this; norm_num; exact this))
    (.mk (by decide +kernel) (by
      have := (bd_const (c := (0.25 : Flt f64)) (a := 1) (b := 0) (by decide +kernel) (by decide +kernel)).bd; norm_num at this; norm_num; exact this))
    (.mk (by decide +kernel) (by
      have := (bd_const (c := ivln2) (a := 2) (b := 0) (by decide +kernel) (by decide +kernel)).bd; norm_num at this; exact this))
    (.mk (by decide +kernel) (by
      have := (bd_const (c := ivln2H) (a := 2) (b := 0) (by decide +kernel) (by decide +kernel)).bd; norm_num at this; exact this))
    hH (bd_const' (b := 16) (by decide +kernel) (by decide +kernel))
  obtain ⟨k1, k2, k3, k4⟩ := key
  have k5 : |(logNear1 a).1.val| ≤ 1 := k4.trans (by norm_num at u ⊢; linarith)
  exact ⟨⟨k1, k2, k3, k5.trans (by norm_num)⟩, k5⟩

theorem general_some {s x y : Flt f64} (hx : x.isFinite) (hy : y.isFinite) (h0 : ¬ x.isZero) (h1 : x.mag ≠ f64.oneMag) :
    ∃ r, general s x y (getHighWord y) (getHighWord x &&& 0x7fffffff#32) (getHighWord y &&& 0x7fffffff#32) = some r ∧ SP s r := by
  have hix := hi_abs x
  have hiy := hi_abs y
  have hmx := mb64_lt x
  have hmy := mb64_lt y
  have hxf : x.mb < 0x7ff0000000000000 := by
    rw [isFinite_iff, f64.infEnc_eq, f64_bias, f64_sb] at hx; omega
  have hx1 : x.mb ≠ 0x3ff0000000000000 := by
    rw [Ne, mb_iff_mag x (b := 0x3ff0000000000000) (m := f64.oneMag) (by decide +kernel)]; exact h1
  have hx0 : x.mb ≠ 0 := fun h => h0 ((isZero_iff _).2 h)
  have hs : (Generic.fabs x).sign = false := by rw [fabs_eq]; exact sign_mk' x.mb_lt
  have hm : (Generic.fabs x).mb = x.mb := by rw [fabs_eq]; exact mb_mk' x.mb_lt
  have key : ∀ p : Flt f64 × Flt f64, Split p → |y.val| * |p.1.val| ≤ 2 ^ 110 → ∃ r, mulOut s y p.1 p.2 = some r ∧ SP s r :=
    fun p hp hb => mulOut_some hy hp.1 hp.2.1 hp.2.2.1 hp.2.2.2 hb
  have hxe : getHighWord x &&& 0x7fffffff#32 = BitVec.ofNat 32 (x.mb / 2 ^ 32) := by
    rw [← BitVec.toNat_inj, hix, BitVec.toNat_ofNat]; omega
  unfold general
  dsimp only
  by_cases c : getHighWord y &&& 0x7fffffff#32 > 0x41e00000#32
  · rw [if_pos c]
    split
    · exact ⟨_, rfl, fun _ => Or.inr (by split <;> decide +kernel)⟩
    split
    · exact ⟨_, rfl, fun _ => Or.inr (by split <;> decide +kernel)⟩
    split
    · exact ⟨_, rfl, by split <;> exact sp_mul2 (by decide +kernel)⟩
    split
    · exact ⟨_, rfl, by split <;> exact sp_mul2 (by decide +kernel)⟩
    rename_i c1 c2 c3 c4
    rw [BitVec.lt_def, hix, show (0x3fefffff#32).toNat = 0x3fefffff from rfl] at c3
    rw [gt_iff_lt, BitVec.lt_def, hix, show (0x3ff00000#32).toNat = 0x3ff00000 from rfl] at c4
    rw [gt_iff_lt, BitVec.lt_def, BitVec.le_def, hix, hiy, show (0x3fefffff#32).toNat = 0x3fefffff from rfl, show (0x43f00000#32).toNat = 0x43f00000 from rfl] at c1
    rw [gt_iff_lt, BitVec.lt_def, ge_iff_le, BitVec.le_def, hix, hiy, show (0x3ff00000#32).toNat = 0x3ff00000 from rfl, show (0x43f00000#32).toNat = 0x43f00000 from rfl] at c2
    obtain ⟨q1, q2⟩ := logNear1_split (a := Generic.fabs x) hs (by rw [hm]; omega) (by rw [hm]; omega) (by rw [hm]; exact hx1)
    refine key _ q1 ?_
    have hyv := val_lt_of_mb (x := y) (E := 1088) (by norm_num) (by rw [f64_sb]; omega)
    rw [f64_bias] at hyv
    refine (mul_le_mul hyv.le q2 (abs_nonneg _) (zp _).le).trans ?_
    norm_num
  · rw [if_neg c, hxe, ← hm]
    rw [gt_iff_lt, BitVec.lt_def, hiy, show (0x41e00000#32).toNat = 0x41e00000 from rfl] at c
    obtain ⟨p, e, hp⟩ := logAx_some (a := Generic.fabs x) hs (by rw [hm]; exact hx0) (by rw [hm]; exact hxf) (by rw [hm]; exact hx1)
    rw [e, Option.bind_some]
    refine key _ hp ?_
    have hyv := val_lt_of_mb (x := y) (E := 1055) (by norm_num) (by rw [f64_sb]; omega)
    rw [f64_bias] at hyv
    refine (mul_le_mul hyv.le hp.2.2.2 (abs_nonneg _) (zp _).le).trans ?_
    norm_num

end Pow
end Verif
