import Verif.Model.InvTrig
import Verif.Theory.Err64

/-!
# The constants of the inverse trigonometric functions as real numbers
-/

namespace Verif
open Flt

theorem Asin.pio2Hi_val : ((Asin.pio2Hi : Flt f64)).val = (884279719003555 : ℝ) * 2 ^ (-49 : ℤ) := by
  rw [val_const64 (884279719003555) 1025 (-49) (by decide +kernel) (by norm_num)]; norm_num

theorem Asin.pio2Lo_val : ((Asin.pio2Lo : Flt f64)).val = (4967757600021511 : ℝ) * 2 ^ (-106 : ℤ) := by
  rw [val_const64 (4967757600021511) 968 (-106) (by decide +kernel) (by norm_num)]; norm_num

theorem Asin.ps0_val : ((Asin.ps0 : Flt f64)).val = (6004799503160661 : ℝ) * 2 ^ (-55 : ℤ) := by
  rw [val_const64 (6004799503160661) 1019 (-55) (by decide +kernel) (by norm_num)]; norm_num

theorem Asin.ps1_val : ((Asin.ps1 : Flt f64)).val = (-5864872397729661 : ℝ) * 2 ^ (-54 : ℤ) := by
  rw [val_const64 (-5864872397729661) 1020 (-54) (by decide +kernel) (by norm_num)]; norm_num

theorem Asin.ps2_val : ((Asin.ps2 : Flt f64)).val = (7249445477958741 : ℝ) * 2 ^ (-55 : ℤ) := by
  rw [val_const64 (7249445477958741) 1019 (-55) (by decide +kernel) (by norm_num)]; norm_num

theorem Asin.ps3_val : ((Asin.ps3 : Flt f64)).val = (-5772610888044347 : ℝ) * 2 ^ (-57 : ℤ) := by
  rw [val_const64 (-5772610888044347) 1017 (-57) (by decide +kernel) (by norm_num)]; norm_num

theorem Asin.ps4_val : ((Asin.ps4 : Flt f64)).val = (912577716565585 : ℝ) * 2 ^ (-60 : ℤ) := by
  rw [val_const64 (912577716565585) 1014 (-60) (by decide +kernel) (by norm_num)]; norm_num

theorem Asin.ps5_val : ((Asin.ps5 : Flt f64)).val = (5134586392475401 : ℝ) * 2 ^ (-67 : ℤ) := by
  rw [val_const64 (5134586392475401) 1007 (-67) (by decide +kernel) (by norm_num)]; norm_num

theorem Asin.qs1_val : ((Asin.qs1 : Flt f64)).val = (-5411964214455627 : ℝ) * 2 ^ (-51 : ℤ) := by
  rw [val_const64 (-5411964214455627) 1023 (-51) (by decide +kernel) (by norm_num)]; norm_num

theorem Asin.qs2_val : ((Asin.qs2 : Flt f64)).val = (568845660795225 : ℝ) * 2 ^ (-48 : ℤ) := by
  rw [val_const64 (568845660795225) 1026 (-48) (by decide +kernel) (by norm_num)]; norm_num

theorem Asin.qs3_val : ((Asin.qs3 : Flt f64)).val = (-6199510876094809 : ℝ) * 2 ^ (-53 : ℤ) := by
  rw [val_const64 (-6199510876094809) 1021 (-53) (by decide +kernel) (by norm_num)]; norm_num

theorem Asin.qs4_val : ((Asin.qs4 : Flt f64)).val = (2775591889094977 : ℝ) * 2 ^ (-55 : ℤ) := by
  rw [val_const64 (2775591889094977) 1019 (-55) (by decide +kernel) (by norm_num)]; norm_num

theorem Asinf.pio2_val : ((Asinf.pio2 : Flt f64)).val = (884279719003555 : ℝ) * 2 ^ (-49 : ℤ) := by
  rw [val_const64 (884279719003555) 1025 (-49) (by decide +kernel) (by norm_num)]; norm_num

theorem Asinf.ps0_val : ((Asinf.ps0 : Flt f32)).val = (11184757 : ℝ) * 2 ^ (-26 : ℤ) := by
  rw [val_const32 (11184757) 123 (-26) (by decide +kernel) (by norm_num)]; norm_num

theorem Asinf.ps1_val : ((Asinf.ps1 : Flt f32)).val = (-5736925 : ℝ) * 2 ^ (-27 : ℤ) := by
  rw [val_const32 (-5736925) 122 (-27) (by decide +kernel) (by norm_num)]; norm_num

theorem Asinf.ps2_val : ((Asinf.ps2 : Flt f32)).val = (-9294699 : ℝ) * 2 ^ (-30 : ℤ) := by
  rw [val_const32 (-9294699) 119 (-30) (by decide +kernel) (by norm_num)]; norm_num

theorem Asinf.qs1_val : ((Asinf.qs1 : Flt f32)).val = (-5927639 : ℝ) * 2 ^ (-23 : ℤ) := by
  rw [val_const32 (-5927639) 126 (-23) (by decide +kernel) (by norm_num)]; norm_num

theorem Asinf.pio2Hi_val : ((Asinf.pio2Hi : Flt f32)).val = (6588397 : ℝ) * 2 ^ (-22 : ℤ) := by
  rw [val_const32 (6588397) 127 (-22) (by decide +kernel) (by norm_num)]; norm_num

theorem Asinf.pio2Lo_val : ((Asinf.pio2Lo : Flt f32)).val = (1328173 : ℝ) * 2 ^ (-44 : ℤ) := by
  rw [val_const32 (1328173) 105 (-44) (by decide +kernel) (by norm_num)]; norm_num

theorem Atan.at0_val : ((Atan.at0 : Flt f64)).val = (6004799503160589 : ℝ) * 2 ^ (-54 : ℤ) := by
  rw [val_const64 (6004799503160589) 1020 (-54) (by decide +kernel) (by norm_num)]; norm_num

theorem Atan.at1_val : ((Atan.at1 : Flt f64)).val = (-1801439850937073 : ℝ) * 2 ^ (-53 : ℤ) := by
  rw [val_const64 (-1801439850937073) 1021 (-53) (by decide +kernel) (by norm_num)]; norm_num

theorem Atan.at2_val : ((Atan.at2 : Flt f64)).val = (5146970997949439 : ℝ) * 2 ^ (-55 : ℤ) := by
  rw [val_const64 (5146970997949439) 1019 (-55) (by decide +kernel) (by norm_num)]; norm_num

theorem Atan.at3_val : ((Atan.at3 : Flt f64)).val = (-8006398829074033 : ℝ) * 2 ^ (-56 : ℤ) := by
  rw [val_const64 (-8006398829074033) 1018 (-56) (by decide +kernel) (by norm_num)]; norm_num

theorem Atan.at4_val : ((Atan.at4 : Flt f64)).val = (3275337272528951 : ℝ) * 2 ^ (-55 : ℤ) := by
  rw [val_const64 (3275337272528951) 1019 (-55) (by decide +kernel) (by norm_num)]; norm_num

theorem Atan.at5_val : ((Atan.at5 : Flt f64)).val = (-5542580929731181 : ℝ) * 2 ^ (-56 : ℤ) := by
  rw [val_const64 (-5542580929731181) 1018 (-56) (by decide +kernel) (by norm_num)]; norm_num

theorem Atan.at6_val : ((Atan.at6 : Flt f64)).val = (4799809039908177 : ℝ) * 2 ^ (-56 : ℤ) := by
  rw [val_const64 (4799809039908177) 1018 (-56) (by decide +kernel) (by norm_num)]; norm_num

theorem Atan.at7_val : ((Atan.at7 : Flt f64)).val = (-4203530284924621 : ℝ) * 2 ^ (-56 : ℤ) := by
  rw [val_const64 (-4203530284924621) 1018 (-56) (by decide +kernel) (by norm_num)]; norm_num

theorem Atan.at8_val : ((Atan.at8 : Flt f64)).val = (7172437082246635 : ℝ) * 2 ^ (-57 : ℤ) := by
  rw [val_const64 (7172437082246635) 1017 (-57) (by decide +kernel) (by norm_num)]; norm_num

theorem Atan.at9_val : ((Atan.at9 : Flt f64)).val = (-5264754476739631 : ℝ) * 2 ^ (-57 : ℤ) := by
  rw [val_const64 (-5264754476739631) 1017 (-57) (by decide +kernel) (by norm_num)]; norm_num

theorem Atan.at10_val : ((Atan.at10 : Flt f64)).val = (4694068057790993 : ℝ) * 2 ^ (-58 : ℤ) := by
  rw [val_const64 (4694068057790993) 1016 (-58) (by decide +kernel) (by norm_num)]; norm_num

theorem Atanf.at0_val : ((Atanf.at0 : Flt f32)).val = (11184809 : ℝ) * 2 ^ (-25 : ℤ) := by
  rw [val_const32 (11184809) 124 (-25) (by decide +kernel) (by norm_num)]; norm_num

theorem Atanf.at1_val : ((Atanf.at1 : Flt f32)).val = (-1677651 : ℝ) * 2 ^ (-23 : ℤ) := by
  rw [val_const32 (-1677651) 126 (-23) (by decide +kernel) (by norm_num)]; norm_num

theorem Atanf.at2_val : ((Atanf.at2 : Flt f32)).val = (9565453 : ℝ) * 2 ^ (-26 : ℤ) := by
  rw [val_const32 (9565453) 123 (-26) (by decide +kernel) (by norm_num)]; norm_num

theorem Atanf.at3_val : ((Atanf.at3 : Flt f32)).val = (-14291527 : ℝ) * 2 ^ (-27 : ℤ) := by
  rw [val_const32 (-14291527) 122 (-27) (by decide +kernel) (by norm_num)]; norm_num

theorem Atanf.at4_val : ((Atanf.at4 : Flt f32)).val = (16559141 : ℝ) * 2 ^ (-28 : ℤ) := by
  rw [val_const32 (16559141) 121 (-28) (by decide +kernel) (by norm_num)]; norm_num

theorem Atan2.pi_val : ((Atan2.pi : Flt f64)).val = (884279719003555 : ℝ) * 2 ^ (-48 : ℤ) := by
  rw [val_const64 (884279719003555) 1026 (-48) (by decide +kernel) (by norm_num)]; norm_num

theorem Atan2.piLo_val : ((Atan2.piLo : Flt f64)).val = (4967757600021511 : ℝ) * 2 ^ (-105 : ℤ) := by
  rw [val_const64 (4967757600021511) 969 (-105) (by decide +kernel) (by norm_num)]; norm_num

theorem Atan2f.pi_val : ((Atan2f.pi : Flt f32)).val = (13176795 : ℝ) * 2 ^ (-22 : ℤ) := by
  rw [val_const32 (13176795) 127 (-22) (by decide +kernel) (by norm_num)]; norm_num

theorem Atan2f.piLo_val : ((Atan2f.piLo : Flt f32)).val = (-6151831 : ℝ) * 2 ^ (-46 : ℤ) := by
  rw [val_const32 (-6151831) 103 (-46) (by decide +kernel) (by norm_num)]; norm_num

end Verif
