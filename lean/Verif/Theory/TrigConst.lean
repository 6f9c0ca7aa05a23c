import Verif.Model.Trig
import Verif.Theory.Err64

/-!
# The constants of the trigonometric functions as real numbers
-/

namespace Verif
open Flt

theorem RemPio2.eps_val : ((RemPio2.eps : Flt f64)).val = (1 : ℝ) * 2 ^ (-52 : ℤ) := by
  rw [val_const64 (1) 1022 (-52) (by decide +kernel) (by norm_num)]; norm_num

theorem RemPio2.invPio2_val : ((RemPio2.invPio2 : Flt f64)).val = (5734161139222659 : ℝ) * 2 ^ (-53 : ℤ) := by
  rw [val_const64 (5734161139222659) 1021 (-53) (by decide +kernel) (by norm_num)]; norm_num

theorem RemPio2.pio2_1_val : ((RemPio2.pio2_1 : Flt f64)).val = (1686629713 : ℝ) * 2 ^ (-30 : ℤ) := by
  rw [val_const64 (1686629713) 1044 (-30) (by decide +kernel) (by norm_num)]; norm_num

theorem RemPio2.pio2_1t_val : ((RemPio2.pio2_1t : Flt f64)).val = (4701928774853425 : ℝ) * 2 ^ (-86 : ℤ) := by
  rw [val_const64 (4701928774853425) 988 (-86) (by decide +kernel) (by norm_num)]; norm_num

theorem RemPio2.pio2_2_val : ((RemPio2.pio2_2 : Flt f64)).val = (2242054355 : ℝ) * 2 ^ (-65 : ℤ) := by
  rw [val_const64 (2242054355) 1009 (-65) (by decide +kernel) (by norm_num)]; norm_num

theorem RemPio2.pio2_2t_val : ((RemPio2.pio2_2t : Flt f64)).val = (5376105825661043 : ℝ) * 2 ^ (-121 : ℤ) := by
  rw [val_const64 (5376105825661043) 953 (-121) (by decide +kernel) (by norm_num)]; norm_num

theorem RemPio2.pio2_3_val : ((RemPio2.pio2_3 : Flt f64)).val = (160220439 : ℝ) * 2 ^ (-96 : ℤ) := by
  rw [val_const64 (160220439) 978 (-96) (by decide +kernel) (by norm_num)]; norm_num

theorem RemPio2.pio2_3t_val : ((RemPio2.pio2_3t : Flt f64)).val = (7744522442262977 : ℝ) * 2 ^ (-156 : ℤ) := by
  rw [val_const64 (7744522442262977) 918 (-156) (by decide +kernel) (by norm_num)]; norm_num

theorem RemPio2f.invPio2_val : ((RemPio2f.invPio2 : Flt f64)).val = (5734161139222659 : ℝ) * 2 ^ (-53 : ℤ) := by
  rw [val_const64 (5734161139222659) 1021 (-53) (by decide +kernel) (by norm_num)]; norm_num

theorem RemPio2f.pio2_1_val : ((RemPio2f.pio2_1 : Flt f64)).val = (26353589 : ℝ) * 2 ^ (-24 : ℤ) := by
  rw [val_const64 (26353589) 1050 (-24) (by decide +kernel) (by norm_num)]; norm_num

theorem RemPio2f.pio2_1t_val : ((RemPio2f.pio2_1t : Flt f64)).val = (4803441513357923 : ℝ) * 2 ^ (-78 : ℤ) := by
  rw [val_const64 (4803441513357923) 996 (-78) (by decide +kernel) (by norm_num)]; norm_num

theorem KSin.s1_val : ((KSin.s1 : Flt f64)).val = (-6004799503160649 : ℝ) * 2 ^ (-55 : ℤ) := by
  rw [val_const64 (-6004799503160649) 1019 (-55) (by decide +kernel) (by norm_num)]; norm_num

theorem KSin.s2_val : ((KSin.s2 : Flt f64)).val = (2401919801261139 : ℝ) * 2 ^ (-58 : ℤ) := by
  rw [val_const64 (2401919801261139) 1016 (-58) (by decide +kernel) (by norm_num)]; norm_num

theorem KSin.s3_val : ((KSin.s3 : Flt f64)).val = (-7320136532976085 : ℝ) * 2 ^ (-65 : ℤ) := by
  rw [val_const64 (-7320136532976085) 1009 (-65) (by decide +kernel) (by norm_num)]; norm_num

theorem KSin.s4_val : ((KSin.s4 : Flt f64)).val = (6506786730409597 : ℝ) * 2 ^ (-71 : ℤ) := by
  rw [val_const64 (6506786730409597) 1003 (-71) (by decide +kernel) (by norm_num)]; norm_num

theorem KSin.s5_val : ((KSin.s5 : Flt f64)).val = (-7571127717829867 : ℝ) * 2 ^ (-78 : ℤ) := by
  rw [val_const64 (-7571127717829867) 996 (-78) (by decide +kernel) (by norm_num)]; norm_num

theorem KSin.s6_val : ((KSin.s6 : Flt f64)).val = (1537454791456095 : ℝ) * 2 ^ (-83 : ℤ) := by
  rw [val_const64 (1537454791456095) 991 (-83) (by decide +kernel) (by norm_num)]; norm_num

theorem KCos.c1_val : ((KCos.c1 : Flt f64)).val = (1501199875790163 : ℝ) * 2 ^ (-55 : ℤ) := by
  rw [val_const64 (1501199875790163) 1019 (-55) (by decide +kernel) (by norm_num)]; norm_num

theorem KCos.c2_val : ((KCos.c2 : Flt f64)).val = (-6405119470031223 : ℝ) * 2 ^ (-62 : ℤ) := by
  rw [val_const64 (-6405119470031223) 1012 (-62) (by decide +kernel) (by norm_num)]; norm_num

theorem KCos.c3_val : ((KCos.c3 : Flt f64)).val = (457508533350745 : ℝ) * 2 ^ (-64 : ℤ) := by
  rw [val_const64 (457508533350745) 1010 (-64) (by decide +kernel) (by norm_num)]; norm_num

theorem KCos.c4_val : ((KCos.c4 : Flt f64)).val = (-5205429506036397 : ℝ) * 2 ^ (-74 : ℤ) := by
  rw [val_const64 (-5205429506036397) 1000 (-74) (by decide +kernel) (by norm_num)]; norm_num

theorem KCos.c5_val : ((KCos.c5 : Flt f64)).val = (1261860039765105 : ℝ) * 2 ^ (-79 : ℤ) := by
  rw [val_const64 (1261860039765105) 995 (-79) (by decide +kernel) (by norm_num)]; norm_num

theorem KCos.c6_val : ((KCos.c6 : Flt f64)).val = (-1757820317994549 : ℝ) * 2 ^ (-87 : ℤ) := by
  rw [val_const64 (-1757820317994549) 987 (-87) (by decide +kernel) (by norm_num)]; norm_num

theorem KTan.t0_val : ((KTan.t0 : Flt f64)).val = (6004799503160675 : ℝ) * 2 ^ (-54 : ℤ) := by
  rw [val_const64 (6004799503160675) 1020 (-54) (by decide +kernel) (by norm_num)]; norm_num

theorem KTan.t1_val : ((KTan.t1 : Flt f64)).val = (2401919801261885 : ℝ) * 2 ^ (-54 : ℤ) := by
  rw [val_const64 (2401919801261885) 1020 (-54) (by decide +kernel) (by norm_num)]; norm_num

theorem KTan.t2_val : ((KTan.t2 : Flt f64)).val = (3888822535954687 : ℝ) * 2 ^ (-56 : ℤ) := by
  rw [val_const64 (3888822535954687) 1018 (-56) (by decide +kernel) (by norm_num)]; norm_num

theorem KTan.t3_val : ((KTan.t3 : Flt f64)).val = (6303450837472823 : ℝ) * 2 ^ (-58 : ℤ) := by
  rw [val_const64 (6303450837472823) 1016 (-58) (by decide +kernel) (by norm_num)]; norm_num

theorem KTan.t4_val : ((KTan.t4 : Flt f64)).val = (5109309896557715 : ℝ) * 2 ^ (-59 : ℤ) := by
  rw [val_const64 (5109309896557715) 1015 (-59) (by decide +kernel) (by norm_num)]; norm_num

theorem KTan.t5_val : ((KTan.t5 : Flt f64)).val = (1035346312347749 : ℝ) * 2 ^ (-58 : ℤ) := by
  rw [val_const64 (1035346312347749) 1016 (-58) (by decide +kernel) (by norm_num)]; norm_num

theorem KTan.t6_val : ((KTan.t6 : Flt f64)).val = (6715580780413717 : ℝ) * 2 ^ (-62 : ℤ) := by
  rw [val_const64 (6715580780413717) 1012 (-62) (by decide +kernel) (by norm_num)]; norm_num

theorem KTan.t7_val : ((KTan.t7 : Flt f64)).val = (5423723137099009 : ℝ) * 2 ^ (-63 : ℤ) := by
  rw [val_const64 (5423723137099009) 1011 (-63) (by decide +kernel) (by norm_num)]; norm_num

theorem KTan.t8_val : ((KTan.t8 : Flt f64)).val = (568305296450061 : ℝ) * 2 ^ (-61 : ℤ) := by
  rw [val_const64 (568305296450061) 1013 (-61) (by decide +kernel) (by norm_num)]; norm_num

theorem KTan.t9_val : ((KTan.t9 : Flt f64)).val = (2884312401430867 : ℝ) * 2 ^ (-65 : ℤ) := by
  rw [val_const64 (2884312401430867) 1009 (-65) (by decide +kernel) (by norm_num)]; norm_num

theorem KTan.t10_val : ((KTan.t10 : Flt f64)).val = (5268924999444457 : ℝ) * 2 ^ (-66 : ℤ) := by
  rw [val_const64 (5268924999444457) 1008 (-66) (by decide +kernel) (by norm_num)]; norm_num

theorem KTan.t11_val : ((KTan.t11 : Flt f64)).val = (-5477542976836467 : ℝ) * 2 ^ (-68 : ℤ) := by
  rw [val_const64 (-5477542976836467) 1006 (-68) (by decide +kernel) (by norm_num)]; norm_num

theorem KTan.t12_val : ((KTan.t12 : Flt f64)).val = (1911621713649333 : ℝ) * 2 ^ (-66 : ℤ) := by
  rw [val_const64 (1911621713649333) 1008 (-66) (by decide +kernel) (by norm_num)]; norm_num

theorem KTan.pio4_val : ((KTan.pio4 : Flt f64)).val = (884279719003555 : ℝ) * 2 ^ (-50 : ℤ) := by
  rw [val_const64 (884279719003555) 1024 (-50) (by decide +kernel) (by norm_num)]; norm_num

theorem KTan.pio4lo_val : ((KTan.pio4lo : Flt f64)).val = (4967757600021511 : ℝ) * 2 ^ (-107 : ℤ) := by
  rw [val_const64 (4967757600021511) 967 (-107) (by decide +kernel) (by norm_num)]; norm_num

theorem KSinf.s1_val : ((KSinf.s1 : Flt f64)).val = (-6004799494138999 : ℝ) * 2 ^ (-55 : ℤ) := by
  rw [val_const64 (-6004799494138999) 1019 (-55) (by decide +kernel) (by norm_num)]; norm_num

theorem KSinf.s2_val : ((KSinf.s2 : Flt f64)).val = (2401918663491033 : ℝ) * 2 ^ (-58 : ℤ) := by
  rw [val_const64 (2401918663491033) 1016 (-58) (by decide +kernel) (by norm_num)]; norm_num

theorem KSinf.s3_val : ((KSinf.s3 : Flt f64)).val = (-1829855661570525 : ℝ) * 2 ^ (-63 : ℤ) := by
  rw [val_const64 (-1829855661570525) 1011 (-63) (by decide +kernel) (by norm_num)]; norm_num

theorem KSinf.s4_val : ((KSinf.s4 : Flt f64)).val = (6418431544608423 : ℝ) * 2 ^ (-71 : ℤ) := by
  rw [val_const64 (6418431544608423) 1003 (-71) (by decide +kernel) (by norm_num)]; norm_num

theorem KCosf.c0_val : ((KCosf.c0 : Flt f64)).val = (-9007199205219969 : ℝ) * 2 ^ (-54 : ℤ) := by
  rw [val_const64 (-9007199205219969) 1020 (-54) (by decide +kernel) (by norm_num)]; norm_num

theorem KCosf.c1_val : ((KCosf.c1 : Flt f64)).val = (3002396628393249 : ℝ) * 2 ^ (-56 : ℤ) := by
  rw [val_const64 (3002396628393249) 1018 (-56) (by decide +kernel) (by norm_num)]; norm_num

theorem KCosf.c2_val : ((KCosf.c2 : Flt f64)).val = (-6404139434057255 : ℝ) * 2 ^ (-62 : ℤ) := by
  rw [val_const64 (-6404139434057255) 1012 (-62) (by decide +kernel) (by norm_num)]; norm_num

theorem KCosf.c3_val : ((KCosf.c3 : Flt f64)).val = (7198789868605545 : ℝ) * 2 ^ (-68 : ℤ) := by
  rw [val_const64 (7198789868605545) 1006 (-68) (by decide +kernel) (by norm_num)]; norm_num

theorem KTanf.t0_val : ((KTanf.t0 : Flt f64)).val = (6004764585806239 : ℝ) * 2 ^ (-54 : ℤ) := by
  rw [val_const64 (6004764585806239) 1020 (-54) (by decide +kernel) (by norm_num)]; norm_num

theorem KTanf.t1_val : ((KTanf.t1 : Flt f64)).val = (2402976694849465 : ℝ) * 2 ^ (-54 : ℤ) := by
  rw [val_const64 (2402976694849465) 1020 (-54) (by decide +kernel) (by norm_num)]; norm_num

theorem KTanf.t2_val : ((KTanf.t2 : Flt f64)).val = (3846523565845887 : ℝ) * 2 ^ (-56 : ℤ) := by
  rw [val_const64 (3846523565845887) 1018 (-56) (by decide +kernel) (by norm_num)]; norm_num

theorem KTanf.t3_val : ((KTanf.t3 : Flt f64)).val = (3534903178566119 : ℝ) * 2 ^ (-57 : ℤ) := by
  rw [val_const64 (3534903178566119) 1017 (-57) (by decide +kernel) (by norm_num)]; norm_num

theorem KTanf.t4_val : ((KTanf.t4 : Flt f64)).val = (3429200647584295 : ℝ) * 2 ^ (-60 : ℤ) := by
  rw [val_const64 (3429200647584295) 1014 (-60) (by decide +kernel) (by norm_num)]; norm_num

theorem KTanf.t5_val : ((KTanf.t5 : Flt f64)).val = (5456574480325581 : ℝ) * 2 ^ (-59 : ℤ) := by
  rw [val_const64 (5456574480325581) 1015 (-59) (by decide +kernel) (by norm_num)]; norm_num

theorem Trigf.fracPi2_val : ((Trigf.fracPi2 : Flt f64)).val = (884279719003555 : ℝ) * 2 ^ (-49 : ℤ) := by
  rw [val_const64 (884279719003555) 1025 (-49) (by decide +kernel) (by norm_num)]; norm_num

theorem RemPio2.toint_val : ((RemPio2.toint : Flt f64)).val = (3 : ℝ) * 2 ^ (51 : ℤ) := by
  rw [val_const64 (3) 1125 (51) (by decide +kernel) (by norm_num)]; norm_num

theorem RemPio2f.toint_val : ((RemPio2f.toint : Flt f64)).val = (3 : ℝ) * 2 ^ (51 : ℤ) := by
  rw [val_const64 (3) 1125 (51) (by decide +kernel) (by norm_num)]; norm_num

theorem Trigf.pio2x1_val : ((Trigf.pio2x1 : Flt f64)).val = (884279719003555 : ℝ) * 2 ^ (-49 : ℤ) := by
  rw [val_const64 (884279719003555) 1025 (-49) (by decide +kernel) (by norm_num)]; norm_num

theorem Trigf.s1pio2_val : ((Trigf.s1pio2 : Flt f64)).val = (884279719003555 : ℝ) * 2 ^ (-49 : ℤ) := by
  rw [val_const64 (884279719003555) 1025 (-49) (by decide +kernel) (by norm_num)]; norm_num

theorem Trigf.pio2x2_val : ((Trigf.pio2x2 : Flt f64)).val = (884279719003555 : ℝ) * 2 ^ (-48 : ℤ) := by
  rw [val_const64 (884279719003555) 1026 (-48) (by decide +kernel) (by norm_num)]; norm_num

theorem Trigf.s2pio2_val : ((Trigf.s2pio2 : Flt f64)).val = (884279719003555 : ℝ) * 2 ^ (-48 : ℤ) := by
  rw [val_const64 (884279719003555) 1026 (-48) (by decide +kernel) (by norm_num)]; norm_num

theorem Trigf.pio2x3_val : ((Trigf.pio2x3 : Flt f64)).val = (2652839157010665 : ℝ) * 2 ^ (-49 : ℤ) := by
  rw [val_const64 (2652839157010665) 1025 (-49) (by decide +kernel) (by norm_num)]; norm_num

theorem Trigf.s3pio2_val : ((Trigf.s3pio2 : Flt f64)).val = (2652839157010665 : ℝ) * 2 ^ (-49 : ℤ) := by
  rw [val_const64 (2652839157010665) 1025 (-49) (by decide +kernel) (by norm_num)]; norm_num

theorem Trigf.pio2x4_val : ((Trigf.pio2x4 : Flt f64)).val = (884279719003555 : ℝ) * 2 ^ (-47 : ℤ) := by
  rw [val_const64 (884279719003555) 1027 (-47) (by decide +kernel) (by norm_num)]; norm_num

theorem Trigf.s4pio2_val : ((Trigf.s4pio2 : Flt f64)).val = (884279719003555 : ℝ) * 2 ^ (-47 : ℤ) := by
  rw [val_const64 (884279719003555) 1027 (-47) (by decide +kernel) (by norm_num)]; norm_num

end Verif
