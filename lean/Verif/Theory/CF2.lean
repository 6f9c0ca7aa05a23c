import Verif.Props.PiTable

/-!
# Floats of moderate size are not close to multiples of π/2

Certificates (two successive convergents) for the exponents below those of `Theory/CF`.
-/

namespace Verif
namespace CF

/-- the certificate is good for `k`-bit integers, the modulus `2^d` and the distance `w` -/
def ok2 (k d w : ℕ) (c : ℕ × ℕ × ℕ × ℕ) : Bool :=
  let D := 2 ^ d
  let a := A 0 % D
  let (p, q, p', q') := c
  decide (0 < q) && decide (2 ^ k ≤ q') &&
  (decide (p * D + w ≤ q * a) && decide (q' * a ≤ p' * D) && decide (q * p' = q' * p + 1) ||
   decide (q * a + w ≤ p * D) && decide (p' * D ≤ q' * a) && decide (q' * p = q * p' + 1))

theorem ok2_spec {k d w : ℕ} {c : ℕ × ℕ × ℕ × ℕ} (h : ok2 k d w c = true) (M m : ℤ) (h0 : 0 < M) (h1 : M < 2 ^ k) :
    (w : ℤ) ≤ |M * (A 0 : ℤ) - m * 2 ^ d| := by
  obtain ⟨p, q, p', q'⟩ := c
  simp only [ok2, Bool.and_eq_true, Bool.or_eq_true, decide_eq_true_eq] at h
  generalize hA : A 0 = a₀ at *
  obtain ⟨⟨hq, hq'⟩, h⟩ := h
  have ha : ((a₀ % 2 ^ d : ℕ) : ℤ) = (a₀ : ℤ) - 2 ^ d * ((a₀ / 2 ^ d : ℕ) : ℤ) := by
    have := Nat.div_add_mod a₀ (2 ^ d)
    zify at this ⊢
    linarith
  have hM' : M < (q' : ℤ) := by zify at hq'; exact h1.trans_le hq'
  have e : M * (a₀ : ℤ) - m * 2 ^ d = M * ((a₀ % 2 ^ d : ℕ) : ℤ) - (m - M * ((a₀ / 2 ^ d : ℕ) : ℤ)) * 2 ^ d := by
    rw [ha]; ring
  rw [e]
  generalize hx : a₀ % 2 ^ d = a at *
  have hw : (0 : ℤ) ≤ w := by positivity
  rcases h with ⟨⟨h1, h2⟩, h3⟩ | ⟨⟨h1, h2⟩, h3⟩
  · zify at h1 h2 h3
    refine le_trans ?_ (best (p := p) (q := q) (p' := p') (q' := q') (Or.inl (by linarith)) ?_ (by exact_mod_cast hq) h0 hM')
    · exact le_trans (by linarith) (le_abs_self _)
    · exact mul_nonpos_of_nonneg_of_nonpos (by linarith) (by linarith)
  · zify at h1 h2 h3
    refine le_trans ?_ (best (p := p) (q := q) (p' := p') (q' := q') (Or.inr (by linarith)) ?_ (by exact_mod_cast hq) h0 hM')
    · exact le_trans (by linarith) (neg_le_abs _)
    · exact mul_nonpos_of_nonpos_of_nonneg (by linarith) (by linarith)

/-- certificates for 24-bit integers times `2^(i-25)` -/
def certs24m : List (ℕ × ℕ × ℕ × ℕ) := [
  (0, 1, 1, 52707178),
  (0, 1, 1, 26353589),
  (1, 13176795, 2, 26353589),
  (1, 6588397, 3, 19765192),
  (3, 9882596, 38, 125179549),
  (3, 4941298, 79, 130120847),
  (3, 2470649, 158, 130120847),
  (6, 2470649, 155, 63825099),
  (12, 2470649, 149, 30677225),
  (161, 16573937, 3518, 362155965),
  (322, 16573937, 3357, 172791014),
  (644, 16573937, 3357, 86395507),
  (1288, 16573937, 2713, 34910785),
  (1425, 9168424, 4001, 25742361),
  (1425, 4584212, 8002, 25742361),
  (1425, 2292106, 16004, 25742361),
  (1425, 1146053, 33433, 26888414),
  (33433, 13444207, 236881, 95255502),
  (66866, 13444207, 236881, 47627751),
  (133732, 13444207, 170015, 17091772),
  (170015, 8545886, 777509, 39081865),
  (170015, 4272943, 1725033, 43354808),
  (340030, 4272943, 1725033, 21677404),
  (1725033, 10838702, 12755291, 80143857),
  (1725033, 5419351, 25510582, 80143857),
  (3450066, 5419351, 23785549, 37362253),
  (4364032, 15971451, 5844813, 21390802),
  (5844813, 10695401, 73021007, 133620862),
  (994225, 10695401, 6210576, 66810431),
  (1988450, 10695401, 5216351, 28057515),
  (3227901, 8681057, 7204801, 19376458)]

/-- certificates for 53-bit integers times `2^(i-54)` -/
def certs53m : List (ℕ × ℕ × ℕ × ℕ) := [
  (0, 1, 1, 28296951008113761),
  (0, 1, 1, 14148475504056880),
  (1, 7074237752028440, 3, 21222713256085321),
  (1, 3537118876014220, 7, 24759832132099541),
  (1, 1768559438007110, 14, 24759832132099541),
  (1, 884279719003555, 29, 25644111851103096),
  (2, 884279719003555, 29, 12822055925551548),
  (29, 6411027962775774, 11459, 2533240325015434285),
  (29, 3205513981387887, 22947, 2536445838996822172),
  (58, 3205513981387887, 22947, 1268222919498411086),
  (116, 3205513981387887, 22947, 634111459749205543),
  (232, 3205513981387887, 22831, 315452972883908828),
  (464, 3205513981387887, 22831, 157726486441954414),
  (928, 3205513981387887, 22831, 78863243220977207),
  (1856, 3205513981387887, 21903, 37828864619794660),
  (3712, 3205513981387887, 21903, 18914432309897330),
  (7424, 3205513981387887, 21903, 9457216154948665),
  (29327, 6331365068168276, 43806, 9457216154948665),
  (29327, 3165682534084138, 87612, 9457216154948665),
  (29327, 1582841267042069, 204551, 11040057421990734),
  (204551, 5520028710995367, 1285960, 34703013533014271),
  (409102, 5520028710995367, 1081409, 14591492411009452),
  (1081409, 7295746205504726, 4062431, 27407267327509545),
  (1081409, 3647873102752363, 9206271, 31055140430261908)]

theorem certs24m_len : certs24m.length = 31 := by decide +kernel
theorem certs53m_len : certs53m.length = 24 := by decide +kernel

/-- distance times `2^31`, in quadrants -/
def w24 (i : ℕ) : ℕ := if i < 25 then 4 else 3 * 2 ^ (i - 25)

theorem certs24m_ok : certs24m.zipIdx.all (fun c => ok2 24 (217 - c.2) (w24 c.2 * 2 ^ (217 - c.2 - 31) + 2 ^ 24) c.1) = true := by decide +kernel
theorem certs53m_ok : certs53m.zipIdx.all (fun c => ok2 53 (246 - c.2) (2 ^ (246 - c.2 - 62) + 2 ^ 53) c.1) = true := by decide +kernel

/-- 192 bits of `2/π` -/
theorem two_div_pi_192 : (A 0 : ℝ) / 2 ^ 192 ≤ 2 / Real.pi ∧ 2 / Real.pi < (A 0 + 1 : ℝ) / 2 ^ 192 := by
  obtain ⟨h1, h2⟩ := PiBits.two_div_pi_1584
  have e : PiBits.number Rpl.ipio2Narrow / 2 ^ 1392 = A 0 := by decide +kernel
  have h3 : A 0 * 2 ^ 1392 ≤ PiBits.number Rpl.ipio2Narrow := by
    rw [← e]; exact Nat.div_mul_le_self _ _
  have h4 : PiBits.number Rpl.ipio2Narrow + 1 ≤ (A 0 + 1) * 2 ^ 1392 := by
    rw [← e]
    have := Nat.div_add_mod (PiBits.number Rpl.ipio2Narrow) (2 ^ 1392)
    have h := Nat.mod_lt (PiBits.number Rpl.ipio2Narrow) (show 0 < 2 ^ 1392 by positivity)
    rw [Nat.add_mul, one_mul, mul_comm (_ / _)]
    omega
  generalize PiBits.number Rpl.ipio2Narrow = n at *
  generalize A 0 = a at *
  have h3' : (a : ℝ) * 2 ^ 1392 ≤ n := by exact_mod_cast h3
  have h4' : (n : ℝ) + 1 ≤ (a + 1) * 2 ^ 1392 := by exact_mod_cast h4
  have e2 : (2 : ℝ) ^ 1584 = 2 ^ 1392 * 2 ^ 192 := by rw [← pow_add]
  have p1 : (0 : ℝ) < 2 ^ 1392 := by positivity
  have p2 : (0 : ℝ) < 2 ^ 192 := by positivity
  rw [e2] at h1 h2
  clear e e2 h3 h4
  generalize (2 : ℝ) ^ 1392 = P at *
  generalize (2 : ℝ) ^ 192 = R at *
  constructor
  · refine le_trans ?_ h1
    rw [div_le_div_iff₀ p2 (by positivity)]
    nlinarith
  · refine lt_of_lt_of_le h2 ?_
    rw [div_le_div_iff₀ (by positivity) p2]
    nlinarith

theorem real_of_ok2 {k d w : ℕ} {c : ℕ × ℕ × ℕ × ℕ} (h : ok2 k d (w + 2 ^ k) c = true) (M : ℕ) (m : ℤ) (h0 : 0 < M) (h1 : M < 2 ^ k) :
    (w : ℝ) / 2 ^ d ≤ |M * 2 ^ ((192 : ℤ) - d) * (2 / Real.pi) - m| := by
  have h2 := ok2_spec h (M : ℤ) m (by exact_mod_cast h0) (by exact_mod_cast h1)
  obtain ⟨h3, h4⟩ := two_div_pi_192
  generalize A 0 = a at *
  have h5 : ((w : ℝ) + 2 ^ k) ≤ |(M : ℝ) * a - m * 2 ^ d| := by exact_mod_cast h2
  have p1 : (0 : ℝ) < 2 ^ d := by positivity
  have e1 : (2 : ℝ) ^ ((192 : ℤ) - d) = 2 ^ 192 / 2 ^ d := by
    rw [zpow_sub₀ (by norm_num), zpow_natCast]
    norm_num
  rw [div_le_iff₀ (by positivity)] at h3
  rw [lt_div_iff₀ (by positivity)] at h4
  have hM : (M : ℝ) ≤ 2 ^ k := by exact_mod_cast h1.le
  have hM0 : (0 : ℝ) < M := by exact_mod_cast h0
  rw [div_le_iff₀ p1, ← abs_of_pos p1, ← abs_mul, e1]
  have e2 : ((M : ℝ) * (2 ^ 192 / 2 ^ d) * (2 / Real.pi) - m) * 2 ^ d = (M * a - m * 2 ^ d) + M * (2 / Real.pi * 2 ^ 192 - a) := by
    field_simp; ring
  rw [e2]
  set t := 2 / Real.pi * 2 ^ 192 - (a : ℝ) with ht
  have t0 : 0 ≤ t := by linarith
  have t1 : t ≤ 1 := by linarith
  have h6 : |(M : ℝ) * t| ≤ 2 ^ k := by
    rw [abs_of_nonneg (by positivity)]
    nlinarith
  have h7 := abs_sub_abs_le_abs_sub ((M : ℝ) * a - m * 2 ^ d) (-(M * t))
  rw [abs_neg, sub_neg_eq_add] at h7
  linarith

theorem away24m (i : ℕ) (hi : i ≤ 30) (M : ℕ) (m : ℤ) (h0 : 0 < M) (h1 : M < 2 ^ 24) :
    (w24 i : ℝ) / 2 ^ 31 ≤ |M * 2 ^ ((i : ℤ) - 25) * (2 / Real.pi) - m| := by
  have hl : i < certs24m.length := by rw [certs24m_len]; omega
  have h := List.all_eq_true.1 certs24m_ok (certs24m[i], i) (List.mem_zipIdx_iff_getElem?.2 (by simp [hl]))
  have h2 := real_of_ok2 h M m h0 h1
  simp only at h2
  have e : (192 : ℤ) - ((217 - i : ℕ) : ℤ) = (i : ℤ) - 25 := by omega
  rw [e] at h2
  refine le_trans (le_of_eq ?_) h2
  push_cast
  rw [show (2 : ℝ) ^ (217 - i) = 2 ^ (217 - i - 31) * 2 ^ 31 by rw [← pow_add]; congr 1; omega]
  field_simp

theorem away53m (i : ℕ) (hi : i ≤ 23) (M : ℕ) (m : ℤ) (h0 : 0 < M) (h1 : M < 2 ^ 53) :
    1 / 2 ^ 62 ≤ |M * 2 ^ ((i : ℤ) - 54) * (2 / Real.pi) - m| := by
  have hl : i < certs53m.length := by rw [certs53m_len]; omega
  have h := List.all_eq_true.1 certs53m_ok (certs53m[i], i) (List.mem_zipIdx_iff_getElem?.2 (by simp [hl]))
  have h2 := real_of_ok2 h M m h0 h1
  simp only at h2
  have e : (192 : ℤ) - ((246 - i : ℕ) : ℤ) = (i : ℤ) - 54 := by omega
  rw [e] at h2
  refine le_trans (le_of_eq ?_) h2
  push_cast
  rw [show (2 : ℝ) ^ (246 - i) = 2 ^ (246 - i - 62) * 2 ^ 62 by rw [← pow_add]; congr 1; omega]
  field_simp

end CF
end Verif
