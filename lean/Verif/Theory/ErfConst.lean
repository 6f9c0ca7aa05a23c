import Verif.Model.Erf
import Verif.Theory.Err64

/-!
# The constants of the error function as real numbers
-/

namespace Verif
open Flt

theorem Erf.erx_val : ((Erf.erx : Flt f64)).val = (14177803 : ℝ) * 2 ^ (-24 : ℤ) := by
  rw [val_const64 (14177803) 1050 (-24) (by decide +kernel) (by norm_num)]; norm_num

theorem Erf.efx8_val : ((Erf.efx8 : Flt f64)).val = (4625346952747881 : ℝ) * 2 ^ (-52 : ℤ) := by
  rw [val_const64 (4625346952747881) 1022 (-52) (by decide +kernel) (by norm_num)]; norm_num

theorem Erf.pp0_val : ((Erf.pp0 : Flt f64)).val = (578168369093485 : ℝ) * 2 ^ (-52 : ℤ) := by
  rw [val_const64 (578168369093485) 1022 (-52) (by decide +kernel) (by norm_num)]; norm_num

theorem Erf.pp1_val : ((Erf.pp1 : Flt f64)).val = (-5855438052309267 : ℝ) * 2 ^ (-54 : ℤ) := by
  rw [val_const64 (-5855438052309267) 1020 (-54) (by decide +kernel) (by norm_num)]; norm_num

theorem Erf.pp2_val : ((Erf.pp2 : Flt f64)).val = (-8209305393633615 : ℝ) * 2 ^ (-58 : ℤ) := by
  rw [val_const64 (-8209305393633615) 1016 (-58) (by decide +kernel) (by norm_num)]; norm_num

theorem Erf.pp3_val : ((Erf.pp3 : Flt f64)).val = (-1663167178054201 : ℝ) * 2 ^ (-58 : ℤ) := by
  rw [val_const64 (-1663167178054201) 1016 (-58) (by decide +kernel) (by norm_num)]; norm_num

theorem Erf.pp4_val : ((Erf.pp4 : Flt f64)).val = (-1753401146738091 : ℝ) * 2 ^ (-66 : ℤ) := by
  rw [val_const64 (-1753401146738091) 1008 (-66) (by decide +kernel) (by norm_num)]; norm_num

theorem Erf.qq1_val : ((Erf.qq1 : Flt f64)).val = (7168239446187017 : ℝ) * 2 ^ (-54 : ℤ) := by
  rw [val_const64 (7168239446187017) 1020 (-54) (by decide +kernel) (by norm_num)]; norm_num

theorem Erf.qq2_val : ((Erf.qq2 : Flt f64)).val = (2342673446561629 : ℝ) * 2 ^ (-55 : ℤ) := by
  rw [val_const64 (2342673446561629) 1019 (-55) (by decide +kernel) (by norm_num)]; norm_num

theorem Erf.qq3_val : ((Erf.qq3 : Flt f64)).val = (5858347283868431 : ℝ) * 2 ^ (-60 : ℤ) := by
  rw [val_const64 (5858347283868431) 1014 (-60) (by decide +kernel) (by norm_num)]; norm_num

theorem Erf.qq4_val : ((Erf.qq4 : Flt f64)).val = (305512065384865 : ℝ) * 2 ^ (-61 : ℤ) := by
  rw [val_const64 (305512065384865) 1013 (-61) (by decide +kernel) (by norm_num)]; norm_num

theorem Erf.qq5_val : ((Erf.qq5 : Flt f64)).val = (-146106635064073 : ℝ) * 2 ^ (-65 : ℤ) := by
  rw [val_const64 (-146106635064073) 1009 (-65) (by decide +kernel) (by norm_num)]; norm_num

theorem Erf.pa0_val : ((Erf.pa0 : Flt f64)).val = (-680834321280679 : ℝ) * 2 ^ (-58 : ℤ) := by
  rw [val_const64 (-680834321280679) 1016 (-58) (by decide +kernel) (by norm_num)]; norm_num

theorem Erf.pa1_val : ((Erf.pa1 : Flt f64)).val = (7473383446065997 : ℝ) * 2 ^ (-54 : ℤ) := by
  rw [val_const64 (7473383446065997) 1020 (-54) (by decide +kernel) (by norm_num)]; norm_num

theorem Erf.pa2_val : ((Erf.pa2 : Flt f64)).val = (-6705101007274993 : ℝ) * 2 ^ (-54 : ℤ) := by
  rw [val_const64 (-6705101007274993) 1020 (-54) (by decide +kernel) (by norm_num)]; norm_num

theorem Erf.pa3_val : ((Erf.pa3 : Flt f64)).val = (1433705718761529 : ℝ) * 2 ^ (-52 : ℤ) := by
  rw [val_const64 (1433705718761529) 1022 (-52) (by decide +kernel) (by norm_num)]; norm_num

theorem Erf.pa4_val : ((Erf.pa4 : Flt f64)).val = (-1997701215390267 : ℝ) * 2 ^ (-54 : ℤ) := by
  rw [val_const64 (-1997701215390267) 1020 (-54) (by decide +kernel) (by norm_num)]; norm_num

theorem Erf.pa5_val : ((Erf.pa5 : Flt f64)).val = (5112962500498923 : ℝ) * 2 ^ (-57 : ℤ) := by
  rw [val_const64 (5112962500498923) 1017 (-57) (by decide +kernel) (by norm_num)]; norm_num

theorem Erf.pa6_val : ((Erf.pa6 : Flt f64)).val = (-4995322020759359 : ℝ) * 2 ^ (-61 : ℤ) := by
  rw [val_const64 (-4995322020759359) 1013 (-61) (by decide +kernel) (by norm_num)]; norm_num

theorem Erf.qa1_val : ((Erf.qa1 : Flt f64)).val = (7668432597082915 : ℝ) * 2 ^ (-56 : ℤ) := by
  rw [val_const64 (7668432597082915) 1018 (-56) (by decide +kernel) (by norm_num)]; norm_num

theorem Erf.qa2_val : ((Erf.qa2 : Flt f64)).val = (4867471721590579 : ℝ) * 2 ^ (-53 : ℤ) := by
  rw [val_const64 (4867471721590579) 1021 (-53) (by decide +kernel) (by norm_num)]; norm_num

theorem Erf.qa3_val : ((Erf.qa3 : Flt f64)).val = (5175800020068775 : ℝ) * 2 ^ (-56 : ℤ) := by
  rw [val_const64 (5175800020068775) 1018 (-56) (by decide +kernel) (by norm_num)]; norm_num

theorem Erf.qa4_val : ((Erf.qa4 : Flt f64)).val = (4545797268124959 : ℝ) * 2 ^ (-55 : ℤ) := by
  rw [val_const64 (4545797268124959) 1019 (-55) (by decide +kernel) (by norm_num)]; norm_num

theorem Erf.qa5_val : ((Erf.qa5 : Flt f64)).val = (1965310912788295 : ℝ) * 2 ^ (-57 : ℤ) := by
  rw [val_const64 (1965310912788295) 1017 (-57) (by decide +kernel) (by norm_num)]; norm_num

theorem Erf.qa6_val : ((Erf.qa6 : Flt f64)).val = (6908593797666077 : ℝ) * 2 ^ (-59 : ℤ) := by
  rw [val_const64 (6908593797666077) 1015 (-59) (by decide +kernel) (by norm_num)]; norm_num

theorem Erf.ra0_val : ((Erf.ra0 : Flt f64)).val = (-5686753059759157 : ℝ) * 2 ^ (-59 : ℤ) := by
  rw [val_const64 (-5686753059759157) 1015 (-59) (by decide +kernel) (by norm_num)]; norm_num

theorem Erf.ra1_val : ((Erf.ra1 : Flt f64)).val = (-195303825593243 : ℝ) * 2 ^ (-48 : ℤ) := by
  rw [val_const64 (-195303825593243) 1026 (-48) (by decide +kernel) (by norm_num)]; norm_num

theorem Erf.ra2_val : ((Erf.ra2 : Flt f64)).val = (-2971989070869395 : ℝ) * 2 ^ (-48 : ℤ) := by
  rw [val_const64 (-2971989070869395) 1026 (-48) (by decide +kernel) (by norm_num)]; norm_num

theorem Erf.ra3_val : ((Erf.ra3 : Flt f64)).val = (-8778547624387469 : ℝ) * 2 ^ (-47 : ℤ) := by
  rw [val_const64 (-8778547624387469) 1027 (-47) (by decide +kernel) (by norm_num)]; norm_num

theorem Erf.ra4_val : ((Erf.ra4 : Flt f64)).val = (-2856912422179123 : ℝ) * 2 ^ (-44 : ℤ) := by
  rw [val_const64 (-2856912422179123) 1030 (-44) (by decide +kernel) (by norm_num)]; norm_num

theorem Erf.ra5_val : ((Erf.ra5 : Flt f64)).val = (-3247607139161561 : ℝ) * 2 ^ (-44 : ℤ) := by
  rw [val_const64 (-3247607139161561) 1030 (-44) (by decide +kernel) (by norm_num)]; norm_num

theorem Erf.ra6_val : ((Erf.ra6 : Flt f64)).val = (-2860047377000825 : ℝ) * 2 ^ (-45 : ℤ) := by
  rw [val_const64 (-2860047377000825) 1029 (-45) (by decide +kernel) (by norm_num)]; norm_num

theorem Erf.ra7_val : ((Erf.ra7 : Flt f64)).val = (-1381244061790359 : ℝ) * 2 ^ (-47 : ℤ) := by
  rw [val_const64 (-1381244061790359) 1027 (-47) (by decide +kernel) (by norm_num)]; norm_num

theorem Erf.sa1_val : ((Erf.sa1 : Flt f64)).val = (5531341234927239 : ℝ) * 2 ^ (-48 : ℤ) := by
  rw [val_const64 (5531341234927239) 1026 (-48) (by decide +kernel) (by norm_num)]; norm_num

theorem Erf.sa2_val : ((Erf.sa2 : Flt f64)).val = (4843401642698529 : ℝ) * 2 ^ (-45 : ℤ) := by
  rw [val_const64 (4843401642698529) 1029 (-45) (by decide +kernel) (by norm_num)]; norm_num

theorem Erf.sa3_val : ((Erf.sa3 : Flt f64)).val = (7644963765099121 : ℝ) * 2 ^ (-44 : ℤ) := by
  rw [val_const64 (7644963765099121) 1030 (-44) (by decide +kernel) (by norm_num)]; norm_num

theorem Erf.sa4_val : ((Erf.sa4 : Flt f64)).val = (709610809689357 : ℝ) * 2 ^ (-40 : ℤ) := by
  rw [val_const64 (709610809689357) 1034 (-40) (by decide +kernel) (by norm_num)]; norm_num

theorem Erf.sa5_val : ((Erf.sa5 : Flt f64)).val = (1886797753483461 : ℝ) * 2 ^ (-42 : ℤ) := by
  rw [val_const64 (1886797753483461) 1032 (-42) (by decide +kernel) (by norm_num)]; norm_num

theorem Erf.sa6_val : ((Erf.sa6 : Flt f64)).val = (1911127228427147 : ℝ) * 2 ^ (-44 : ℤ) := by
  rw [val_const64 (1911127228427147) 1030 (-44) (by decide +kernel) (by norm_num)]; norm_num

theorem Erf.sa7_val : ((Erf.sa7 : Flt f64)).val = (7397443604335251 : ℝ) * 2 ^ (-50 : ℤ) := by
  rw [val_const64 (7397443604335251) 1024 (-50) (by decide +kernel) (by norm_num)]; norm_num

theorem Erf.sa8_val : ((Erf.sa8 : Flt f64)).val = (-4354037981531441 : ℝ) * 2 ^ (-56 : ℤ) := by
  rw [val_const64 (-4354037981531441) 1018 (-56) (by decide +kernel) (by norm_num)]; norm_num

theorem Erf.rb0_val : ((Erf.rb0 : Flt f64)).val = (-2843376209901477 : ℝ) * 2 ^ (-58 : ℤ) := by
  rw [val_const64 (-2843376209901477) 1016 (-58) (by decide +kernel) (by norm_num)]; norm_num

theorem Erf.rb1_val : ((Erf.rb1 : Flt f64)).val = (-3599651691381487 : ℝ) * 2 ^ (-52 : ℤ) := by
  rw [val_const64 (-3599651691381487) 1022 (-52) (by decide +kernel) (by norm_num)]; norm_num

theorem Erf.rb2_val : ((Erf.rb2 : Flt f64)).val = (-2499209973451949 : ℝ) * 2 ^ (-47 : ℤ) := by
  rw [val_const64 (-2499209973451949) 1027 (-47) (by decide +kernel) (by norm_num)]; norm_num

theorem Erf.rb3_val : ((Erf.rb3 : Flt f64)).val = (-706486291971507 : ℝ) * 2 ^ (-42 : ℤ) := by
  rw [val_const64 (-706486291971507) 1032 (-42) (by decide +kernel) (by norm_num)]; norm_num

theorem Erf.rb4_val : ((Erf.rb4 : Flt f64)).val = (-701011717963333 : ℝ) * 2 ^ (-40 : ℤ) := by
  rw [val_const64 (-701011717963333) 1034 (-40) (by decide +kernel) (by norm_num)]; norm_num

theorem Erf.rb5_val : ((Erf.rb5 : Flt f64)).val = (-2254208033565897 : ℝ) * 2 ^ (-41 : ℤ) := by
  rw [val_const64 (-2254208033565897) 1033 (-41) (by decide +kernel) (by norm_num)]; norm_num

theorem Erf.rb6_val : ((Erf.rb6 : Flt f64)).val = (-8506159574825023 : ℝ) * 2 ^ (-44 : ℤ) := by
  rw [val_const64 (-8506159574825023) 1030 (-44) (by decide +kernel) (by norm_num)]; norm_num

theorem Erf.sb1_val : ((Erf.sb1 : Flt f64)).val = (533712808826137 : ℝ) * 2 ^ (-44 : ℤ) := by
  rw [val_const64 (533712808826137) 1030 (-44) (by decide +kernel) (by norm_num)]; norm_num

theorem Erf.sb2_val : ((Erf.sb2 : Flt f64)).val = (2865701250256773 : ℝ) * 2 ^ (-43 : ℤ) := by
  rw [val_const64 (2865701250256773) 1031 (-43) (by decide +kernel) (by norm_num)]; norm_num

theorem Erf.sb3_val : ((Erf.sb3 : Flt f64)).val = (844826024323619 : ℝ) * 2 ^ (-39 : ℤ) := by
  rw [val_const64 (844826024323619) 1035 (-39) (by decide +kernel) (by norm_num)]; norm_num

theorem Erf.sb4_val : ((Erf.sb4 : Flt f64)).val = (3518281319584309 : ℝ) * 2 ^ (-40 : ℤ) := by
  rw [val_const64 (3518281319584309) 1034 (-40) (by decide +kernel) (by norm_num)]; norm_num

theorem Erf.sb5_val : ((Erf.sb5 : Flt f64)).val = (2807108608171507 : ℝ) * 2 ^ (-40 : ℤ) := by
  rw [val_const64 (2807108608171507) 1034 (-40) (by decide +kernel) (by norm_num)]; norm_num

theorem Erf.sb6_val : ((Erf.sb6 : Flt f64)).val = (8347994380298083 : ℝ) * 2 ^ (-44 : ℤ) := by
  rw [val_const64 (8347994380298083) 1030 (-44) (by decide +kernel) (by norm_num)]; norm_num

theorem Erf.sb7_val : ((Erf.sb7 : Flt f64)).val = (-3158283283633841 : ℝ) * 2 ^ (-47 : ℤ) := by
  rw [val_const64 (-3158283283633841) 1027 (-47) (by decide +kernel) (by norm_num)]; norm_num

theorem Erff.erx_val : ((Erff.erx : Flt f32)).val = (14177803 : ℝ) * 2 ^ (-24 : ℤ) := by
  rw [val_const32 (14177803) 125 (-24) (by decide +kernel) (by norm_num)]; norm_num

theorem Erff.efx8_val : ((Erff.efx8 : Flt f32)).val = (2153845 : ℝ) * 2 ^ (-21 : ℤ) := by
  rw [val_const32 (2153845) 128 (-21) (by decide +kernel) (by norm_num)]; norm_num

theorem Erff.pp0_val : ((Erff.pp0 : Flt f32)).val = (2153845 : ℝ) * 2 ^ (-24 : ℤ) := by
  rw [val_const32 (2153845) 125 (-24) (by decide +kernel) (by norm_num)]; norm_num

theorem Erff.pp1_val : ((Erff.pp1 : Flt f32)).val = (-10906603 : ℝ) * 2 ^ (-25 : ℤ) := by
  rw [val_const32 (-10906603) 124 (-25) (by decide +kernel) (by norm_num)]; norm_num

theorem Erff.pp2_val : ((Erff.pp2 : Flt f32)).val = (-15291023 : ℝ) * 2 ^ (-29 : ℤ) := by
  rw [val_const32 (-15291023) 120 (-29) (by decide +kernel) (by norm_num)]; norm_num

theorem Erff.pp3_val : ((Erff.pp3 : Flt f32)).val = (-12391561 : ℝ) * 2 ^ (-31 : ℤ) := by
  rw [val_const32 (-12391561) 118 (-31) (by decide +kernel) (by norm_num)]; norm_num

theorem Erff.pp4_val : ((Erff.pp4 : Flt f32)).val = (-13063857 : ℝ) * 2 ^ (-39 : ℤ) := by
  rw [val_const32 (-13063857) 110 (-39) (by decide +kernel) (by norm_num)]; norm_num

theorem Erff.qq1_val : ((Erff.qq1 : Flt f32)).val = (6675943 : ℝ) * 2 ^ (-24 : ℤ) := by
  rw [val_const32 (6675943) 125 (-24) (by decide +kernel) (by norm_num)]; norm_num

theorem Erff.qq2_val : ((Erff.qq2 : Flt f32)).val = (8727139 : ℝ) * 2 ^ (-27 : ℤ) := by
  rw [val_const32 (8727139) 122 (-27) (by decide +kernel) (by norm_num)]; norm_num

theorem Erff.qq3_val : ((Erff.qq3 : Flt f32)).val = (5456011 : ℝ) * 2 ^ (-30 : ℤ) := by
  rw [val_const32 (5456011) 119 (-30) (by decide +kernel) (by norm_num)]; norm_num

theorem Erff.qq4_val : ((Erff.qq4 : Flt f32)).val = (9104969 : ℝ) * 2 ^ (-36 : ℤ) := by
  rw [val_const32 (9104969) 113 (-36) (by decide +kernel) (by norm_num)]; norm_num

theorem Erff.qq5_val : ((Erff.qq5 : Flt f32)).val = (-4354317 : ℝ) * 2 ^ (-40 : ℤ) := by
  rw [val_const32 (-4354317) 109 (-40) (by decide +kernel) (by norm_num)]; norm_num

theorem Erff.pa0_val : ((Erff.pa0 : Flt f32)).val = (-5072611 : ℝ) * 2 ^ (-31 : ℤ) := by
  rw [val_const32 (-5072611) 118 (-31) (by decide +kernel) (by norm_num)]; norm_num

theorem Erff.pa1_val : ((Erff.pa1 : Flt f32)).val = (13920261 : ℝ) * 2 ^ (-25 : ℤ) := by
  rw [val_const32 (13920261) 124 (-25) (by decide +kernel) (by norm_num)]; norm_num

theorem Erff.pa2_val : ((Erff.pa2 : Flt f32)).val = (-1561153 : ℝ) * 2 ^ (-22 : ℤ) := by
  rw [val_const32 (-1561153) 127 (-22) (by decide +kernel) (by norm_num)]; norm_num

theorem Erff.pa3_val : ((Erff.pa3 : Flt f32)).val = (2670485 : ℝ) * 2 ^ (-23 : ℤ) := by
  rw [val_const32 (2670485) 126 (-23) (by decide +kernel) (by norm_num)]; norm_num

theorem Erff.pa4_val : ((Erff.pa4 : Flt f32)).val = (-7442017 : ℝ) * 2 ^ (-26 : ℤ) := by
  rw [val_const32 (-7442017) 123 (-26) (by decide +kernel) (by norm_num)]; norm_num

theorem Erff.pa5_val : ((Erff.pa5 : Flt f32)).val = (9523635 : ℝ) * 2 ^ (-28 : ℤ) := by
  rw [val_const32 (9523635) 121 (-28) (by decide +kernel) (by norm_num)]; norm_num

theorem Erff.pa6_val : ((Erff.pa6 : Flt f32)).val = (-145383 : ℝ) * 2 ^ (-26 : ℤ) := by
  rw [val_const32 (-145383) 123 (-26) (by decide +kernel) (by norm_num)]; norm_num

theorem Erff.qa1_val : ((Erff.qa1 : Flt f32)).val = (14283569 : ℝ) * 2 ^ (-27 : ℤ) := by
  rw [val_const32 (14283569) 122 (-27) (by decide +kernel) (by norm_num)]; norm_num

theorem Erff.qa2_val : ((Erff.qa2 : Flt f32)).val = (9066373 : ℝ) * 2 ^ (-24 : ℤ) := by
  rw [val_const32 (9066373) 125 (-24) (by decide +kernel) (by norm_num)]; norm_num

theorem Erff.qa3_val : ((Erff.qa3 : Flt f32)).val = (9640679 : ℝ) * 2 ^ (-27 : ℤ) := by
  rw [val_const32 (9640679) 122 (-27) (by decide +kernel) (by norm_num)]; norm_num

theorem Erff.qa4_val : ((Erff.qa4 : Flt f32)).val = (8467207 : ℝ) * 2 ^ (-26 : ℤ) := by
  rw [val_const32 (8467207) 123 (-26) (by decide +kernel) (by norm_num)]; norm_num

theorem Erff.qa5_val : ((Erff.qa5 : Flt f32)).val = (14642707 : ℝ) * 2 ^ (-30 : ℤ) := by
  rw [val_const32 (14642707) 119 (-30) (by decide +kernel) (by norm_num)]; norm_num

theorem Erff.qa6_val : ((Erff.qa6 : Flt f32)).val = (12868259 : ℝ) * 2 ^ (-30 : ℤ) := by
  rw [val_const32 (12868259) 119 (-30) (by decide +kernel) (by norm_num)]; norm_num

theorem Erff.ra0_val : ((Erff.ra0 : Flt f32)).val = (-10592403 : ℝ) * 2 ^ (-30 : ℤ) := by
  rw [val_const32 (-10592403) 119 (-30) (by decide +kernel) (by norm_num)]; norm_num

theorem Erff.ra1_val : ((Erff.ra1 : Flt f32)).val = (-11641015 : ℝ) * 2 ^ (-24 : ℤ) := by
  rw [val_const32 (-11641015) 125 (-24) (by decide +kernel) (by norm_num)]; norm_num

theorem Erff.ra2_val : ((Erff.ra2 : Flt f32)).val = (-5535761 : ℝ) * 2 ^ (-19 : ℤ) := by
  rw [val_const32 (-5535761) 130 (-19) (by decide +kernel) (by norm_num)]; norm_num

theorem Erff.ra3_val : ((Erff.ra3 : Flt f32)).val = (-16351319 : ℝ) * 2 ^ (-18 : ℤ) := by
  rw [val_const32 (-16351319) 131 (-18) (by decide +kernel) (by norm_num)]; norm_num

theorem Erff.ra4_val : ((Erff.ra4 : Flt f32)).val = (-2660707 : ℝ) * 2 ^ (-14 : ℤ) := by
  rw [val_const32 (-2660707) 135 (-14) (by decide +kernel) (by norm_num)]; norm_num

theorem Erff.ra5_val : ((Erff.ra5 : Flt f32)).val = (-12098279 : ℝ) * 2 ^ (-16 : ℤ) := by
  rw [val_const32 (-12098279) 133 (-16) (by decide +kernel) (by norm_num)]; norm_num

theorem Erff.ra6_val : ((Erff.ra6 : Flt f32)).val = (-10654507 : ℝ) * 2 ^ (-17 : ℤ) := by
  rw [val_const32 (-10654507) 132 (-17) (by decide +kernel) (by norm_num)]; norm_num

theorem Erff.ra7_val : ((Erff.ra7 : Flt f32)).val = (-5145535 : ℝ) * 2 ^ (-19 : ℤ) := by
  rw [val_const32 (-5145535) 130 (-19) (by decide +kernel) (by norm_num)]; norm_num

theorem Erff.sa1_val : ((Erff.sa1 : Flt f32)).val = (5151463 : ℝ) * 2 ^ (-18 : ℤ) := by
  rw [val_const32 (5151463) 131 (-18) (by decide +kernel) (by norm_num)]; norm_num

theorem Erff.sa2_val : ((Erff.sa2 : Flt f32)).val = (9021539 : ℝ) * 2 ^ (-16 : ℤ) := by
  rw [val_const32 (9021539) 133 (-16) (by decide +kernel) (by norm_num)]; norm_num

theorem Erff.sa3_val : ((Erff.sa3 : Flt f32)).val = (14239855 : ℝ) * 2 ^ (-15 : ℤ) := by
  rw [val_const32 (14239855) 134 (-15) (by decide +kernel) (by norm_num)]; norm_num

theorem Erff.sa4_val : ((Erff.sa4 : Flt f32)).val = (10574025 : ℝ) * 2 ^ (-14 : ℤ) := by
  rw [val_const32 (10574025) 135 (-14) (by decide +kernel) (by norm_num)]; norm_num

theorem Erff.sa5_val : ((Erff.sa5 : Flt f32)).val = (14057739 : ℝ) * 2 ^ (-15 : ℤ) := by
  rw [val_const32 (14057739) 134 (-15) (by decide +kernel) (by norm_num)]; norm_num

theorem Erff.sa6_val : ((Erff.sa6 : Flt f32)).val = (14239007 : ℝ) * 2 ^ (-17 : ℤ) := by
  rw [val_const32 (14239007) 132 (-17) (by decide +kernel) (by norm_num)]; norm_num

theorem Erff.sa7_val : ((Erff.sa7 : Flt f32)).val = (3444703 : ℝ) * 2 ^ (-19 : ℤ) := by
  rw [val_const32 (3444703) 130 (-19) (by decide +kernel) (by norm_num)]; norm_num

theorem Erff.sa8_val : ((Erff.sa8 : Flt f32)).val = (-16220055 : ℝ) * 2 ^ (-28 : ℤ) := by
  rw [val_const32 (-16220055) 121 (-28) (by decide +kernel) (by norm_num)]; norm_num

theorem Erff.rb0_val : ((Erff.rb0 : Flt f32)).val = (-5296201 : ℝ) * 2 ^ (-29 : ℤ) := by
  rw [val_const32 (-5296201) 120 (-29) (by decide +kernel) (by norm_num)]; norm_num

theorem Erff.rb1_val : ((Erff.rb1 : Flt f32)).val = (-3352437 : ℝ) * 2 ^ (-22 : ℤ) := by
  rw [val_const32 (-3352437) 127 (-22) (by decide +kernel) (by norm_num)]; norm_num

theorem Erff.rb2_val : ((Erff.rb2 : Flt f32)).val = (-9310283 : ℝ) * 2 ^ (-19 : ℤ) := by
  rw [val_const32 (-9310283) 130 (-19) (by decide +kernel) (by norm_num)]; norm_num

theorem Erff.rb3_val : ((Erff.rb3 : Flt f32)).val = (-5263733 : ℝ) * 2 ^ (-15 : ℤ) := by
  rw [val_const32 (-5263733) 134 (-15) (by decide +kernel) (by norm_num)]; norm_num

theorem Erff.rb4_val : ((Erff.rb4 : Flt f32)).val = (-10445889 : ℝ) * 2 ^ (-14 : ℤ) := by
  rw [val_const32 (-10445889) 135 (-14) (by decide +kernel) (by norm_num)]; norm_num

theorem Erff.rb5_val : ((Erff.rb5 : Flt f32)).val = (-8397579 : ℝ) * 2 ^ (-13 : ℤ) := by
  rw [val_const32 (-8397579) 136 (-13) (by decide +kernel) (by norm_num)]; norm_num

theorem Erff.rb6_val : ((Erff.rb6 : Flt f32)).val = (-15843957 : ℝ) * 2 ^ (-15 : ℤ) := by
  rw [val_const32 (-15843957) 134 (-15) (by decide +kernel) (by norm_num)]; norm_num

theorem Erff.sb1_val : ((Erff.sb1 : Flt f32)).val = (15905881 : ℝ) * 2 ^ (-19 : ℤ) := by
  rw [val_const32 (15905881) 130 (-19) (by decide +kernel) (by norm_num)]; norm_num

theorem Erff.sb2_val : ((Erff.sb2 : Flt f32)).val = (10675569 : ℝ) * 2 ^ (-15 : ℤ) := by
  rw [val_const32 (10675569) 134 (-15) (by decide +kernel) (by norm_num)]; norm_num

theorem Erff.sb3_val : ((Erff.sb3 : Flt f32)).val = (12588889 : ℝ) * 2 ^ (-13 : ℤ) := by
  rw [val_const32 (12588889) 136 (-13) (by decide +kernel) (by norm_num)]; norm_num

theorem Erff.sb4_val : ((Erff.sb4 : Flt f32)).val = (13106619 : ℝ) * 2 ^ (-12 : ℤ) := by
  rw [val_const32 (13106619) 137 (-12) (by decide +kernel) (by norm_num)]; norm_num

theorem Erff.sb5_val : ((Erff.sb5 : Flt f32)).val = (5228647 : ℝ) * 2 ^ (-11 : ℤ) := by
  rw [val_const32 (5228647) 138 (-11) (by decide +kernel) (by norm_num)]; norm_num

theorem Erff.sb6_val : ((Erff.sb6 : Flt f32)).val = (15549351 : ℝ) * 2 ^ (-15 : ℤ) := by
  rw [val_const32 (15549351) 134 (-15) (by decide +kernel) (by norm_num)]; norm_num

theorem Erff.sb7_val : ((Erff.sb7 : Flt f32)).val = (-5882761 : ℝ) * 2 ^ (-18 : ℤ) := by
  rw [val_const32 (-5882761) 131 (-18) (by decide +kernel) (by norm_num)]; norm_num

end Verif
