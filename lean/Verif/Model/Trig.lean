import Verif.Model.Lit
import Verif.Model.Decomp
import Verif.Model.Generic
import Verif.Model.Pow

/-!
# Model of the trigonometric functions and their argument reduction

`force_eval!` statements only raise floating-point flags and are left out.  Array and table accesses (`i!`, unchecked in
release builds) are list lookups and updates: `none` is an access out of bounds.  `usize` subtractions that would wrap
are `none` too.
-/

namespace Verif
open Flt
open Generic (scalbn)

/-- mod.rs 12-16: `i!(array, index, =, value)` -/
def setU {α : Type} (l : List α) (i : Nat) (v : α) : Option (List α) := if i < l.length then some (l.set i v) else none
/-- Rust `a - b` on `usize` with overflow check -/
def psub (a b : Nat) : Option Nat := if b ≤ a then some (a - b) else none

/-! ## rem_pio2_large.rs -/
namespace Rpl
/-- rem_pio2_large.rs 17 -/
def initJk : List Nat := [3, 4, 4, 6]
/-- rem_pio2_large.rs 29-39: the table on 32-bit targets -/
def ipio2Narrow : List Int :=
  [0xA2F983, 0x6E4E44, 0x1529FC, 0x2757D1, 0xF534DD, 0xC0DB62, 0x95993C, 0x439041, 0xFE5163, 0xABDEBB,
   0xC561B7, 0x246E3A, 0x424DD2, 0xE00649, 0x2EEA09, 0xD1921C, 0xFE1DEB, 0x1CB129, 0xA73EE8, 0x8235F5,
   0x2EBB44, 0x84E99C, 0x7026B4, 0x5F7E41, 0x3991D6, 0x398353, 0x39F49C, 0x845F8B, 0xBDF928, 0x3B1FF8,
   0x97FFDE, 0x05980F, 0xEF2F11, 0x8B5A0A, 0x6D1F6D, 0x367ECF, 0x27CB09, 0xB74F46, 0x3F669E, 0x5FEA2D,
   0x7527BA, 0xC7EBE5, 0xF17B3D, 0x0739F7, 0x8A5292, 0xEA6BFB, 0x5FB11F, 0x8D5D08, 0x560330, 0x46FC7B,
   0x6BABF0, 0xCFBC20, 0x9AF436, 0x1DA9E3, 0x91615E, 0xE61B08, 0x659985, 0x5F14A0, 0x68408D, 0xFFD880,
   0x4D7327, 0x310606, 0x1556CA, 0x73A8C9, 0x60E27B, 0xC08C6B]
/-- rem_pio2_large.rs 41-120: the table on 64-bit targets -/
def ipio2 : List Int :=
  [0xA2F983, 0x6E4E44, 0x1529FC, 0x2757D1, 0xF534DD, 0xC0DB62, 0x95993C, 0x439041, 0xFE5163, 0xABDEBB,
   0xC561B7, 0x246E3A, 0x424DD2, 0xE00649, 0x2EEA09, 0xD1921C, 0xFE1DEB, 0x1CB129, 0xA73EE8, 0x8235F5,
   0x2EBB44, 0x84E99C, 0x7026B4, 0x5F7E41, 0x3991D6, 0x398353, 0x39F49C, 0x845F8B, 0xBDF928, 0x3B1FF8,
   0x97FFDE, 0x05980F, 0xEF2F11, 0x8B5A0A, 0x6D1F6D, 0x367ECF, 0x27CB09, 0xB74F46, 0x3F669E, 0x5FEA2D,
   0x7527BA, 0xC7EBE5, 0xF17B3D, 0x0739F7, 0x8A5292, 0xEA6BFB, 0x5FB11F, 0x8D5D08, 0x560330, 0x46FC7B,
   0x6BABF0, 0xCFBC20, 0x9AF436, 0x1DA9E3, 0x91615E, 0xE61B08, 0x659985, 0x5F14A0, 0x68408D, 0xFFD880,
   0x4D7327, 0x310606, 0x1556CA, 0x73A8C9, 0x60E27B, 0xC08C6B, 0x47C419, 0xC367CD, 0xDCE809, 0x2A8359,
   0xC4768B, 0x961CA6, 0xDDAF44, 0xD15719, 0x053EA5, 0xFF0705, 0x3F7E33, 0xE832C2, 0xDE4F98, 0x327DBB,
   0xC33D26, 0xEF6B1E, 0x5EF89F, 0x3A1F35, 0xCAF27F, 0x1D87F1, 0x21907C, 0x7C246A, 0xFA6ED5, 0x772D30,
   0x433B15, 0xC614B5, 0x9D19C3, 0xC2C4AD, 0x414D2C, 0x5D000C, 0x467D86, 0x2D71E3, 0x9AC69B, 0x006233,
   0x7CD2B4, 0x97A7B4, 0xD55537, 0xF63ED7, 0x1810A3, 0xFC764D, 0x2A9D64, 0xABD770, 0xF87C63, 0x57B07A,
   0xE71517, 0x5649C0, 0xD9D63B, 0x3884A7, 0xCB2324, 0x778AD6, 0x23545A, 0xB91F00, 0x1B0AF1, 0xDFCE19,
   0xFF319F, 0x6A1E66, 0x615799, 0x47FBAC, 0xD87F7E, 0xB76522, 0x89E832, 0x60BFE6, 0xCDC4EF, 0x09366C,
   0xD43F5D, 0xD7DE16, 0xDE3B58, 0x929BDE, 0x2822D2, 0xE88628, 0x4D58E2, 0x32CAC6, 0x16E308, 0xCB7DE0,
   0x50C017, 0xA71DF3, 0x5BE018, 0x34132E, 0x621283, 0x014883, 0x5B8EF5, 0x7FB0AD, 0xF2E91E, 0x434A48,
   0xD36710, 0xD8DDAA, 0x425FAE, 0xCE616A, 0xA4280A, 0xB499D3, 0xF2A606, 0x7F775C, 0x83C2A3, 0x883C61,
   0x78738A, 0x5A8CAF, 0xBDD76F, 0x63A62D, 0xCBBFF4, 0xEF818D, 0x67C126, 0x45CA55, 0x36D9CA, 0xD2A828,
   0x8D61C2, 0x77C912, 0x142604, 0x9B4612, 0xC459C4, 0x44C5C8, 0x91B24D, 0xF31700, 0xAD43D4, 0xE54929,
   0x10D5FD, 0xFCBE00, 0xCC941E, 0xEECE70, 0xF53E13, 0x80F1EC, 0xC3E7B3, 0x28F8C7, 0x940593, 0x3E71C1,
   0xB3092E, 0xF3450B, 0x9C1288, 0x7B20AB, 0x9FB52E, 0xC29247, 0x2F327B, 0x6D550C, 0x90A772, 0x1FE76B,
   0x96CB31, 0x4A1679, 0xE27941, 0x89DFF4, 0x9794E8, 0x84E6E2, 0x973199, 0x6BED88, 0x365F5F, 0x0EFDBB,
   0xB49A48, 0x6CA467, 0x427271, 0x325D8D, 0xB8159F, 0x09E5BC, 0x25318D, 0x3974F7, 0x1C0530, 0x010C0D,
   0x68084B, 0x58EE2C, 0x90AA47, 0x02E774, 0x24D6BD, 0xA67DF7, 0x72486E, 0xEF169F, 0xA6948E, 0xF691B4,
   0x5153D1, 0xF20ACF, 0x339820, 0x7E4BF5, 0x6863B2, 0x5F3EDD, 0x035D40, 0x7F8985, 0x295255, 0xC06437,
   0x10D86D, 0x324832, 0x754C5B, 0xD4714E, 0x6E5445, 0xC1090B, 0x69F52A, 0xD56614, 0x9D0727, 0x50045D,
   0xDB3BB4, 0xC576EA, 0x17F987, 0x7D6B49, 0xBA271D, 0x296996, 0xACCCC6, 0x5414AD, 0x6AE290, 0x89D988,
   0x50722C, 0xBEA404, 0x940777, 0x7030F3, 0x27FC00, 0xA871EA, 0x49C266, 0x3DE064, 0x83DD97, 0x973FA3,
   0xFD9443, 0x8C860D, 0xDE4131, 0x9D3992, 0x8C70DD, 0xE7B717, 0x3BDF08, 0x2B3715, 0xA0805C, 0x93805A,
   0x921110, 0xD8E80F, 0xAF806C, 0x4BFFDB, 0x0F9038, 0x761859, 0x15A562, 0xBBCB61, 0xB989C7, 0xBD4010,
   0x04F2D2, 0x277549, 0xF6B6EB, 0xBB22DB, 0xAA140A, 0x2F2689, 0x768364, 0x333B09, 0x1A940E, 0xAA3A51,
   0xC2A31D, 0xAEEDAF, 0x12265C, 0x4DC26D, 0x9C7A2D, 0x9756C0, 0x833F03, 0xF6F009, 0x8C402B, 0x99316D,
   0x07B439, 0x15200C, 0x5BC3D8, 0xC492F5, 0x4BADC6, 0xA5CA4E, 0xCD37A7, 0x36A9E6, 0x9492AB, 0x6842DD,
   0xDE6319, 0xEF8C76, 0x528B68, 0x37DBFC, 0xABA1AE, 0x3115DF, 0xA1AE00, 0xDAFB0C, 0x664D64, 0xB705ED,
   0x306529, 0xBF5657, 0x3AFF47, 0xB9F96A, 0xF3BE75, 0xDF9328, 0x3080AB, 0xF68C66, 0x15CB04, 0x0622FA,
   0x1DE4D9, 0xA4B33D, 0x8F1B57, 0x09CD36, 0xE9424E, 0xA4BE13, 0xB52333, 0x1AAAF0, 0xA8654F, 0xA5C1D2,
   0x0F3F0B, 0xCD785B, 0x76F923, 0x048B7B, 0x721789, 0x53A6C6, 0xE26E6F, 0x00EBEF, 0x584A9B, 0xB7DAC4,
   0xBA66AA, 0xCFCF76, 0x1D02D1, 0x2DF1B1, 0xC1998C, 0x77ADC3, 0xDA4886, 0xA05DF7, 0xF480C6, 0x2FF0AC,
   0x9AECDD, 0xBC5C3F, 0x6DDED0, 0x1FC790, 0xB6DB2A, 0x3A25A3, 0x9AAF00, 0x9353AD, 0x0457B6, 0xB42D29,
   0x7E804B, 0xA707DA, 0x0EAA76, 0xA1597B, 0x2A1216, 0x2DB7DC, 0xFDE5FA, 0xFEDB89, 0xFDBE89, 0x6C76E4,
   0xFCA906, 0x70803E, 0x156E85, 0xFF87FD, 0x073E28, 0x336761, 0x86182A, 0xEABD4D, 0xAFE7B3, 0x6E6D8F,
   0x396795, 0x5BBF31, 0x48D784, 0x16DF30, 0x432DC7, 0x356125, 0xCE70C9, 0xB8CB30, 0xFD6CBF, 0xA200A4,
   0xE46C05, 0xA0DD5A, 0x476F21, 0xD21262, 0x845CB9, 0x496170, 0xE0566B, 0x015299, 0x375550, 0xB7D51E,
   0xC4F133, 0x5F6E13, 0xE4305D, 0xA92E85, 0xC3B21D, 0x3632A1, 0xA4B708, 0xD4B1EA, 0x21F716, 0xE4698F,
   0x77FF27, 0x80030C, 0x2D408D, 0xA0CD4F, 0x99A520, 0xD3A2B3, 0x0A5D2F, 0x42F9B4, 0xCBDA11, 0xD0BE7D,
   0xC1DB9B, 0xBD17AB, 0x81A2CA, 0x5C6A08, 0x17552E, 0x550027, 0xF0147F, 0x8607E1, 0x640B14, 0x8D4196,
   0xDEBE87, 0x2AFDDA, 0xB6256B, 0x34897B, 0xFEF305, 0x9EBFB9, 0x4F6A68, 0xA82A4A, 0x5AC44F, 0xBCF82D,
   0x985AD7, 0x95C7F4, 0x8D4D0D, 0xA63A20, 0x5F57A4, 0xB13F14, 0x953880, 0x0120CC, 0x86DD71, 0xB6DEC9,
   0xF560BF, 0x11654D, 0x6B0701, 0xACB08C, 0xD0C0B2, 0x485551, 0x0EFB1E, 0xC37295, 0x3B06A3, 0x3540C0,
   0x7BDC06, 0xCC45E0, 0xFA294E, 0xC8CAD6, 0x41F3E8, 0xDE647C, 0xD8649B, 0x31BED9, 0xC397A4, 0xD45877,
   0xC5E369, 0x13DAF0, 0x3C3ABA, 0x461846, 0x5F7555, 0xF5BDD2, 0xC6926E, 0x5D2EAC, 0xED440E, 0x423E1C,
   0x87C461, 0xE9FD29, 0xF3D6E7, 0xCA7C22, 0x35916F, 0xC5E008, 0x8DD7FF, 0xE26A6E, 0xC6FDB0, 0xC10893,
   0x745D7C, 0xB2AD6B, 0x9D6ECD, 0x7B723E, 0x6A11C6, 0xA9CFF7, 0xDF7329, 0xBAC9B5, 0x5100B7, 0x0DB2E2,
   0x24BA74, 0x607DE5, 0x8AD874, 0x2C150D, 0x0C1881, 0x94667E, 0x162901, 0x767A9F, 0xBEFDFD, 0xEF4556,
   0x367ED9, 0x13D9EC, 0xB9BA8B, 0xFC97C4, 0x27A831, 0xC36EF1, 0x36C594, 0x56A8D8, 0xB5A8B4, 0x0ECCCF,
   0x2D8912, 0x34576F, 0x89562C, 0xE3CE99, 0xB920D6, 0xAA5E6B, 0x9C2A3E, 0xCC5F11, 0x4A0BFD, 0xFBF4E1,
   0x6D3B8E, 0x2C86E2, 0x84D4E9, 0xA9B4FC, 0xD1EEEF, 0xC9352E, 0x61392F, 0x442138, 0xC8D91B, 0x0AFC81,
   0x6A4AFB, 0xD81C2F, 0x84B453, 0x8C994E, 0xCC2254, 0xDC552A, 0xD6C6C0, 0x96190B, 0xB8701A, 0x649569,
   0x605A26, 0xEE523F, 0x0F117F, 0x11B5F4, 0xF5CBFC, 0x2DBC34, 0xEEBC34, 0xCC5DE8, 0x605EDD, 0x9B8E67,
   0xEF3392, 0xB817C9, 0x9B5861, 0xBC57E1, 0xC68351, 0x103ED8, 0x4871DD, 0xDD1C2D, 0xA118AF, 0x462C21,
   0xD7F359, 0x987AD9, 0xC0549E, 0xFA864F, 0xFC0656, 0xAE79E5, 0x362289, 0x22AD38, 0xDC9367, 0xAAE855,
   0x382682, 0x9BE7CA, 0xA40D51, 0xB13399, 0x0ED7A9, 0x480569, 0xF0B265, 0xA7887F, 0x974C88, 0x36D1F9,
   0xB39221, 0x4A827B, 0x21CF98, 0xDC9F40, 0x5547DC, 0x3A74E1, 0x42EB67, 0xDF9DFE, 0x5FD45E, 0xA4677B,
   0x7AACBA, 0xA2F655, 0x23882B, 0x55BA41, 0x086E59, 0x862A21, 0x834739, 0xE6E389, 0xD49EE5, 0x40FB49,
   0xE956FF, 0xCA0F1C, 0x8A59C5, 0x2BFA94, 0xC5C1D3, 0xCFC50F, 0xAE5ADB, 0x86C547, 0x624385, 0x3B8621,
   0x94792C, 0x876110, 0x7B4C2A, 0x1A2C80, 0x12BF43, 0x902688, 0x893C78, 0xE4C4A8, 0x7BDBE5, 0xC23AC4,
   0xEAF426, 0x8A67F7, 0xBF920D, 0x2BA365, 0xB1933D, 0x0B7CBD, 0xDC51A4, 0x63DD27, 0xDDE169, 0x19949A,
   0x9529A8, 0x28CE68, 0xB4ED09, 0x209F44, 0xCA984E, 0x638270, 0x237C7E, 0x32B90F, 0x8EF5A7, 0xE75614,
   0x08F121, 0x2A9DB5, 0x4D7E6F, 0x5119A5, 0xABF9B5, 0xD6DF82, 0x61DD96, 0x023616, 0x9F3AC4, 0xA1A283,
   0x6DED72, 0x7A8D39, 0xA9B882, 0x5C326B, 0x5B2746, 0xED3400, 0x7700D2, 0x55F4FC, 0x4D5901, 0x8071E0]
/-- rem_pio2_large.rs 122-131 -/
def pio2 : List (Flt f64) :=
  [1.57079625129699707031e+00, 7.54978941586159635335e-08, 5.39030252995776476554e-15, 3.28200341580791294123e-22,
   1.27065575308067607349e-29, 1.22933308981111328932e-36, 2.73370053816464559624e-44, 2.16741683877804819444e-51]
/-- rem_pio2_large.rs 226 -/
def x1p24 : Flt f64 := bits64 0x4170000000000000
/-- rem_pio2_large.rs 227 -/
def x1pm24 : Flt f64 := bits64 0x3e70000000000000

/-- rem_pio2_large.rs 258-267: `f[i]` for `i` in `0..=m`; `tbl` is `IPIO2` -/
def initF (tbl : List Int) (jv jx m : Nat) (f : List (Flt f64)) : Option (List (Flt f64)) :=
  (List.range (m + 1)).foldlM (fun (f : List (Flt f64)) (i : Nat) =>
    let j : Int := (jv : Int) - (jx : Int) + (i : Int)
    if j < 0 then setU f i 0.0 else (tbl[j.toNat]?).bind fun t => setU f i (ofInt f64 t)) f

/-- rem_pio2_large.rs 271-274, 361-364: `fw` after the loop over `j` in `0..=jx` (`jx + i - j` does not wrap) -/
def dot (x f : List (Flt f64)) (jx i : Nat) : Option (Flt f64) :=
  (List.range (jx + 1)).foldlM (fun fw j =>
    (x[j]?).bind fun a => (f[jx + i - j]?).map fun b => fw + a * b) 0.0

/-- rem_pio2_large.rs 270-276: `q[0..=jk]` -/
def initQ (x f : List (Flt f64)) (jx jk : Nat) (q : List (Flt f64)) : Option (List (Flt f64)) :=
  (List.range (jk + 1)).foldlM (fun q i => (dot x f jx i).bind fun fw => setU q i fw) q

/-- rem_pio2_large.rs 282-289: distills `q[]` into `iq[]`; returns `z` and `iq` (the loop variable is `j = jz - i`) -/
def distill (q : List (Flt f64)) (jz : Nat) (iq : List Int) : Option (Flt f64 × List Int) :=
  (q[jz]?).bind fun z =>
  (List.range jz).foldlM (fun (s : Flt f64 × List Int) i =>
    let fw := ofInt f64 ((x1pm24 * s.1).toSInt 32)
    (setU s.2 i ((s.1 - x1p24 * fw).toSInt 32)).bind fun iq =>
    (q[jz - i - 1]?).map fun v => (v + fw, iq)) (z, iq)

/-- `v << s` on `i32` (bits shifted out are lost) -/
def shl32 (v : Int) (s : Nat) : Int := (BitVec.ofInt 32 v <<< s).toInt
/-- `a & b` on `i32` -/
def and32 (a b : Int) : Int := (BitVec.ofInt 32 a &&& BitVec.ofInt 32 b).toInt
/-- `a | b` on `i32` -/
def or32 (a b : Int) : Int := (BitVec.ofInt 32 a ||| BitVec.ofInt 32 b).toInt

/-- rem_pio2_large.rs 296-307: `(n, ih, iq)`; an arithmetic right shift by `s` is `/ 2^s` rounding down -/
def head (z : Flt f64) (n : Int) (iq : List Int) (jz : Nat) (q0 : Int) : Option (Int × Int × List Int) :=
  if q0 > 0 then
    (psub jz 1).bind fun t =>
    (iq[t]?).bind fun v =>
    (sh32 (24 - q0)).bind fun s =>
    let i := v / 2 ^ s
    (i32 (n + i)).bind fun n =>
    (i32 (v - shl32 i s)).bind fun v =>
    (setU iq t v).bind fun iq =>
    (sh32 (23 - q0)).map fun s' => (n, v / 2 ^ s', iq)
  else if q0 = 0 then
    (psub jz 1).bind fun t =>
    (iq[t]?).map fun v => (n, v / 2 ^ 23, iq)
  else if (z ≥ᶠ 0.5) = true then some (n, 2, iq)
  else some (n, 0, iq)

/-- rem_pio2_large.rs 312-324: `1 - q`; returns the carry and `iq` -/
def complement (jz : Nat) (iq : List Int) : Option (Int × List Int) :=
  (List.range jz).foldlM (fun (s : Int × List Int) i =>
    (s.2[i]?).bind fun j =>
    if s.1 = 0 then
      if j ≠ 0 then (i32 (0x1000000 - j)).bind fun v => (setU s.2 i v).map fun iq => (1, iq)
      else some s
    else (i32 (0xffffff - j)).bind fun v => (setU s.2 i v).map fun iq => (s.1, iq)) (0, iq)

/-- rem_pio2_large.rs 325-336 -/
def maskTop (jz : Nat) (q0 : Int) (iq : List Int) : Option (List Int) :=
  if q0 = 1 then (psub jz 1).bind fun t => (iq[t]?).bind fun v => setU iq t (and32 v 0x7fffff)
  else if q0 = 2 then (psub jz 1).bind fun t => (iq[t]?).bind fun v => setU iq t (and32 v 0x3fffff)
  else some iq

/-- rem_pio2_large.rs 309-343: `(z, n, iq)` -/
def negate (z : Flt f64) (n ih : Int) (iq : List Int) (jz : Nat) (q0 : Int) : Option (Flt f64 × Int × List Int) :=
  if ih > 0 then
    (i32 (n + 1)).bind fun n =>
    (complement jz iq).bind fun (carry, iq) =>
    (maskTop jz q0 iq).bind fun iq =>
    if ih = 2 then
      if carry ≠ 0 then (scalbn 1.0 q0).map fun u => (1.0 - z - u, n, iq)
      else some (1.0 - z, n, iq)
    else some (z, n, iq)
  else some (z, n, iq)

/-- rem_pio2_large.rs 347-350: the bitwise or of `iq[jk..=jz-1]` (in reverse order) -/
def orHigh (iq : List Int) (jk jz : Nat) : Option Int :=
  (psub jz 1).bind fun t =>
  (List.range (t + 1 - jk)).foldlM (fun j i => (iq[t - i]?).map fun v => or32 j v) 0

/-- rem_pio2_large.rs 353-356: counts up `k` while `iq[jk - k] == 0`, starting at index `idx = jk - k` -/
def terms (iq : List Int) : Nat → Nat → Option Nat
  | idx, k => (iq[idx]?).bind fun v =>
    if v = 0 then (match idx with | 0 => none | idx + 1 => terms iq idx (k + 1)) else some k

/-- rem_pio2_large.rs 358-366: extends `f` and `q` by the terms `jz+1..=jz+k` -/
def extend (tbl : List Int) (x : List (Flt f64)) (jv jx jz k : Nat) (f q : List (Flt f64)) :
    Option (List (Flt f64) × List (Flt f64)) :=
  (List.range k).foldlM (fun (s : List (Flt f64) × List (Flt f64)) t =>
    let i := jz + 1 + t
    (tbl[jv + i]?).bind fun c =>
    (setU s.1 (jx + i) (ofInt f64 c)).bind fun f =>
    (dot x f jx i).bind fun fw =>
    (setU s.2 i fw).map fun q => (f, q)) (f, q)

/-- result of the `'recompute` loop -/
structure Out where
  z : Flt f64
  n : Int
  ih : Int
  jz : Nat
  q : List (Flt f64)
  iq : List Int

/-- rem_pio2_large.rs 281-343: one pass of the loop body, before the test for recomputation -/
def pass (q0 : Int) (jz : Nat) (q : List (Flt f64)) (iq : List Int) : Option Out :=
  (distill q jz iq).bind fun (z, iq) =>
  (scalbn z q0).bind fun z =>
  let z := z - 8.0 * Generic.floor (z * 0.125)
  let n := z.toSInt 32
  let z := z - ofInt f64 n
  (head z n iq jz q0).bind fun (n, ih, iq) =>
  (negate z n ih iq jz q0).map fun (z, n, iq) => ⟨z, n, ih, jz, q, iq⟩

/-- rem_pio2_large.rs 280-373: the `'recompute` loop.  `jz` grows on every turn and indexes arrays of 20 entries, so
20 turns are never used up. -/
def recompute (tbl : List Int) (x : List (Flt f64)) (jv jx jk : Nat) (q0 : Int) :
    Nat → Nat → List (Flt f64) → List (Flt f64) → List Int → Option Out
  | 0, _, _, _, _ => none
  | fuel + 1, jz, f, q, iq =>
    (pass q0 jz q iq).bind fun o =>
    if (o.z =ᶠ 0.0) = true then
      (orHigh o.iq jk jz).bind fun j =>
      if j = 0 then
        (psub jk 1).bind fun t =>
        (terms o.iq t 1).bind fun k =>
        (extend tbl x jv jx jz k f q).bind fun (f, q) =>
        recompute tbl x jv jx jk q0 fuel (jz + k) f q o.iq
      else some o
    else some o

/-- rem_pio2_large.rs 379-382: `while iq[jz] == 0 { jz -= 1; q0 -= 24 }` -/
def chop (iq : List Int) : Nat → Int → Option (Nat × Int)
  | jz, q0 => (iq[jz]?).bind fun v =>
    if v = 0 then (match jz with | 0 => none | jz + 1 => chop iq jz (q0 - 24)) else some (jz, q0)

/-- rem_pio2_large.rs 376-395: `(jz, q0, iq)` -/
def chunk (o : Out) (q0 : Int) : Option (Nat × Int × List Int) :=
  if (o.z =ᶠ 0.0) = true then
    (psub o.jz 1).bind fun jz => (chop o.iq jz (q0 - 24)).map fun (jz, q0) => (jz, q0, o.iq)
  else
    (scalbn o.z (-q0)).bind fun z =>
    if (z ≥ᶠ x1p24) = true then
      let fw := ofInt f64 ((x1pm24 * z).toSInt 32)
      (setU o.iq o.jz ((z - x1p24 * fw).toSInt 32)).bind fun iq =>
      (setU iq (o.jz + 1) (fw.toSInt 32)).map fun iq => (o.jz + 1, q0 + 24, iq)
    else (setU o.iq o.jz (z.toSInt 32)).map fun iq => (o.jz, q0, iq)

/-- rem_pio2_large.rs 398-402: the chunks as floats -/
def toFloat (iq : List Int) (jz : Nat) (q0 : Int) (q : List (Flt f64)) : Option (List (Flt f64)) :=
  (scalbn 1.0 q0).bind fun fw =>
  ((List.range (jz + 1)).foldlM (fun (s : Flt f64 × List (Flt f64)) t =>
    let i := jz - t
    (iq[i]?).bind fun v => (setU s.2 i (s.1 * ofInt f64 v)).map fun q => (s.1 * x1pm24, q)) (fw, q)).map (·.2)

/-- rem_pio2_large.rs 406-411: the inner loop, `k` up to `min jp (jz - i)` -/
def conv (q : List (Flt f64)) (jp jz i : Nat) : Option (Flt f64) :=
  (List.range (min jp (jz - i) + 1)).foldlM (fun fw k =>
    (pio2[k]?).bind fun a => (q[i + k]?).map fun b => fw + a * b) 0.0

/-- rem_pio2_large.rs 405-413 -/
def product (q : List (Flt f64)) (jp jz : Nat) (fq : List (Flt f64)) : Option (List (Flt f64)) :=
  (List.range (jz + 1)).foldlM (fun fq t =>
    let i := jz - t
    (conv q jp jz i).bind fun fw => setU fq (jz - i) fw) fq

/-- rem_pio2_large.rs 418-421, 425-428, 448-451: `fq[jz] + ... + fq[lo]`, from the top down -/
def sumDown (fq : List (Flt f64)) (jz lo : Nat) : Option (Flt f64) :=
  (List.range (jz + 1 - lo)).foldlM (fun fw t => (fq[jz - t]?).map fun v => fw + v) 0.0

/-- rem_pio2_large.rs 431-433 -/
def sumUp (fq : List (Flt f64)) (jz : Nat) (fw : Flt f64) : Option (Flt f64) :=
  (List.range jz).foldlM (fun fw t => (fq[t + 1]?).map fun v => fw + v) fw

/-- rem_pio2_large.rs 438-442, 443-447: one sweep, `i` from `jz` down to `lo` -/
def sweep (jz lo : Nat) (fq : List (Flt f64)) : Option (List (Flt f64)) :=
  (List.range (jz + 1 - lo)).foldlM (fun fq t =>
    let i := jz - t
    (psub i 1).bind fun i1 =>
    (fq[i1]?).bind fun a =>
    (fq[i]?).bind fun b =>
    let fw := a + b
    (setU fq i (b + (a - fw))).bind fun fq => setU fq i1 fw) fq

/-- rem_pio2_large.rs 416-466: compresses `fq[]` into `y[]` -/
def compress (prec : Nat) (fq : List (Flt f64)) (jz : Nat) (ih : Int) (y : List (Flt f64)) : Option (List (Flt f64)) :=
  let sg := fun v : Flt f64 => if ih = 0 then v else -v
  match prec with
  | 0 => (sumDown fq jz 0).bind fun fw => setU y 0 (sg fw)
  | 1 | 2 =>
    (sumDown fq jz 0).bind fun fw =>
    (setU y 0 (sg fw)).bind fun y =>
    (fq[0]?).bind fun a =>
    (sumUp fq jz (a - fw)).bind fun fw => setU y 1 (sg fw)
  | 3 =>
    (sweep jz 1 fq).bind fun fq =>
    (sweep jz 2 fq).bind fun fq =>
    (sumDown fq jz 2).bind fun fw =>
    (fq[0]?).bind fun a =>
    (setU y 0 (sg a)).bind fun y =>
    (fq[1]?).bind fun b =>
    (setU y 1 (sg b)).bind fun y => setU y 2 (sg fw)
  | _ => none

/-- rem_pio2_large.rs 375-467: everything after the loop -/
def finish (o : Out) (q0 : Int) (jp prec : Nat) (y : List (Flt f64)) : Option (Int × List (Flt f64)) :=
  (chunk o q0).bind fun (jz, q0, iq) =>
  (toFloat iq jz q0 o.q).bind fun q =>
  (product q jp jz (List.replicate 20 0.0)).bind fun fq =>
  (compress prec fq jz o.ih y).map fun y => (and32 o.n 7, y)
end Rpl

/-- rem_pio2_large.rs 225-468: returns the last three bits of the quotient and `y`; `tbl` is `IPIO2` -/
def remPio2Large (tbl : List Int) (x y : List (Flt f64)) (e0 : Int) (prec : Nat) : Option (Int × List (Flt f64)) :=
  if e0 > 16360 then none
  else
    (Rpl.initJk[prec]?).bind fun jk =>
    (psub x.length 1).bind fun jx =>
    let jv : Nat := ((e0 - 3).tdiv 24).toNat
    let q0 : Int := e0 - 24 * ((jv : Int) + 1)
    let zeros : List (Flt f64) := List.replicate 20 0.0
    (Rpl.initF tbl jv jx (jx + jk) zeros).bind fun f =>
    (Rpl.initQ x f jx jk zeros).bind fun q =>
    (Rpl.recompute tbl x jv jx jk q0 20 jk f q (List.replicate 20 0)).bind fun o =>
    Rpl.finish o q0 jk prec y

/-! ## rem_pio2.rs -/
namespace RemPio2
/-- rem_pio2.rs 17 -/
def eps : Flt f64 := 2.2204460492503131e-16
/-- rem_pio2.rs 24 -/
def toint : Flt f64 := 1.5 / eps
/-- rem_pio2.rs 26 -/
def invPio2 : Flt f64 := 6.36619772367581382433e-01
/-- rem_pio2.rs 28 -/
def pio2_1 : Flt f64 := 1.57079632673412561417e+00
/-- rem_pio2.rs 30 -/
def pio2_1t : Flt f64 := 6.07710050650619224932e-11
/-- rem_pio2.rs 32 -/
def pio2_2 : Flt f64 := 6.07710050630396597660e-11
/-- rem_pio2.rs 34 -/
def pio2_2t : Flt f64 := 2.02226624879595063154e-21
/-- rem_pio2.rs 36 -/
def pio2_3 : Flt f64 := 2.02226624871116645580e-21
/-- rem_pio2.rs 38 -/
def pio2_3t : Flt f64 := 8.47842766036889956997e-32

/-- rem_pio2.rs 59, 67: the biased exponent of `y` -/
def ey (y : Flt f64) : Int := ((y.u64 >>> 52) &&& 0x7ff).toNat

/-- rem_pio2.rs 51-83: medium-size arguments -/
def medium (x : Flt f64) (ix : BitVec 32) : Int × Flt f64 × Flt f64 :=
  let fn := x * invPio2 + toint - toint
  let n := fn.toSInt 32
  let ex : Int := (ix >>> 20).toNat
  let r := x - fn * pio2_1
  let w := fn * pio2_1t
  let y0 := r - w
  if ex - ey y0 > 16 then
    let t := r
    let w := fn * pio2_2
    let r := t - w
    let w := fn * pio2_2t - ((t - r) - w)
    let y0 := r - w
    if ex - ey y0 > 49 then
      let t := r
      let w := fn * pio2_3
      let r := t - w
      let w := fn * pio2_3t - ((t - r) - w)
      let y0 := r - w
      (n, y0, (r - y0) - w)
    else (n, y0, (r - y0) - w)
  else (n, y0, (r - y0) - w)

/-- rem_pio2.rs 93-102, 104-112, 122-132, 139-149: subtracts the multiple `k` of pi/2 from a positive argument, adds it
to a negative one (for `k = 1` the code has no multiplication by one; `1.0 * c` is `c`) -/
def small (x : Flt f64) (sign : Bool) (k : Int) (a b : Flt f64) : Int × Flt f64 × Flt f64 :=
  if sign = false then
    let z := x - a
    let y0 := z - b
    (k, y0, (z - y0) - b)
  else
    let z := x + a
    let y0 := z + b
    (-k, y0, (z - y0) + b)

/-- rem_pio2.rs 173-178: the loop over `i` in `0..2`; `(tx[0], tx[1], tx[2])` -/
def split24 (z : Flt f64) : Flt f64 × Flt f64 × Flt f64 :=
  let x1p24 := bits64 0x4170000000000000
  let t0 := ofInt f64 (z.toSInt 32)
  let z := (z - t0) * x1p24
  let t1 := ofInt f64 (z.toSInt 32)
  let z := (z - t1) * x1p24
  (t0, t1, z)

/-- rem_pio2.rs 179-183: drops trailing zero terms -/
def slice (t0 t1 t2 : Flt f64) : List (Flt f64) :=
  if (t2 =ᶠ 0.0) = true then (if (t1 =ᶠ 0.0) = true then [t0] else [t0, t1]) else [t0, t1, t2]

/-- rem_pio2.rs 168-189: large arguments -/
def large (tbl : List Int) (x : Flt f64) (ix : BitVec 32) : Option (Int × Flt f64 × Flt f64) :=
  let ui := x.u64 &&& 0x000fffffffffffff#64
  let z := bits64 (ui ||| ((0x3ff#64 + 23#64) <<< 52))
  let (t0, t1, t2) := split24 z
  (remPio2Large tbl (slice t0 t1 t2) [0.0, 0.0, 0.0] (((ix >>> 20).toNat : Int) - (0x3ff + 23)) 1).bind fun (n, ty) =>
  (ty[0]?).bind fun y0 =>
  (ty[1]?).map fun y1 => if x.sign then (-n, -y0, -y1) else (n, y0, y1)
end RemPio2

/-- rem_pio2.rs 44-190 with the table of `rem_pio2_large` as a parameter -/
def remPio2With (tbl : List Int) (x : Flt f64) : Option (Int × Flt f64 × Flt f64) :=
  open RemPio2 in
  let sign := x.sign
  let ix := getHighWord x &&& 0x7fffffff#32
  if ix ≤ 0x400f6a7a#32 then
    if ix &&& 0xfffff#32 = 0x921fb#32 then some (medium x ix)
    else if ix ≤ 0x4002d97c#32 then some (small x sign 1 pio2_1 pio2_1t)
    else some (small x sign 2 (2.0 * pio2_1) (2.0 * pio2_1t))
  else if ix ≤ 0x401c463b#32 then
    if ix ≤ 0x4015fdbc#32 then
      if ix = 0x4012d97c#32 then some (medium x ix)
      else some (small x sign 3 (3.0 * pio2_1) (3.0 * pio2_1t))
    else
      if ix = 0x401921fb#32 then some (medium x ix)
      else some (small x sign 4 (4.0 * pio2_1) (4.0 * pio2_1t))
  else if ix < 0x413921fb#32 then some (medium x ix)
  else if ix ≥ 0x7ff00000#32 then some (0, x - x, x - x)
  else large tbl x ix

/-- rem_pio2.rs 44-190 on a 64-bit target -/
def remPio2 (x : Flt f64) : Option (Int × Flt f64 × Flt f64) := remPio2With Rpl.ipio2 x

/-! ## rem_pio2f.rs -/
namespace RemPio2f
/-- rem_pio2f.rs 21: `1.5 / f64::EPSILON` -/
def toint : Flt f64 := 1.5 / bits64 0x3cb0000000000000
/-- rem_pio2f.rs 24 -/
def invPio2 : Flt f64 := 6.36619772367581382433e-01
/-- rem_pio2f.rs 26 -/
def pio2_1 : Flt f64 := 1.57079631090164184570e+00
/-- rem_pio2f.rs 28 -/
def pio2_1t : Flt f64 := 1.58932547735281966916e-08
end RemPio2f

/-- rem_pio2f.rs 32-67 with the table of `rem_pio2_large` as a parameter -/
def remPio2fWith (tbl : List Int) (x : Flt f32) : Option (Int × Flt f64) :=
  open RemPio2f in
  let x64 := x.cast f64
  let ix := x.u32 &&& 0x7fffffff#32
  if ix < 0x4dc90fdb#32 then
    let fn := x64 * invPio2 + toint - toint
    some (fn.toSInt 32, x64 - fn * pio2_1 - fn * pio2_1t)
  else if ix ≥ 0x7f800000#32 then some (0, x64 - x64)
  else
    (usub (ix >>> 23) (0x7f#32 + 23#32)).bind fun e0 =>
    (usub ix (e0 <<< 23)).bind fun b =>
    (remPio2Large tbl [(bits32 b).cast f64] [0.0] e0.toNat 0).bind fun (n, ty) =>
    (ty[0]?).map fun y => if x.sign then (-n, -y) else (n, y)

/-- rem_pio2f.rs 32-67 on a 64-bit target -/
def remPio2f (x : Flt f32) : Option (Int × Flt f64) := remPio2fWith Rpl.ipio2 x

/-! ## k_sin.rs, k_cos.rs, k_tan.rs -/
namespace KSin
/-- k_sin.rs 12 -/
def s1 : Flt f64 := -1.66666666666666324348e-01
/-- k_sin.rs 13 -/
def s2 : Flt f64 := 8.33333333332248946124e-03
/-- k_sin.rs 14 -/
def s3 : Flt f64 := -1.98412698298579493134e-04
/-- k_sin.rs 15 -/
def s4 : Flt f64 := 2.75573137070700676789e-06
/-- k_sin.rs 16 -/
def s5 : Flt f64 := -2.50507602534068634195e-08
/-- k_sin.rs 17 -/
def s6 : Flt f64 := 1.58969099521155010221e-10
end KSin

/-- k_sin.rs 47-53 -/
def kSin (x y : Flt f64) (iy : Int) : Flt f64 :=
  open KSin in
  let z := x * x
  let w := z * z
  let r := s2 + z * (s3 + z * s4) + z * w * (s5 + z * s6)
  let v := z * x
  if iy = 0 then x + v * (s1 + z * r) else x - ((z * (0.5 * y - v * r) - y) - v * s1)

namespace KCos
/-- k_cos.rs 12 -/
def c1 : Flt f64 := 4.16666666666666019037e-02
/-- k_cos.rs 13 -/
def c2 : Flt f64 := -1.38888888888741095749e-03
/-- k_cos.rs 14 -/
def c3 : Flt f64 := 2.48015872894767294178e-05
/-- k_cos.rs 15 -/
def c4 : Flt f64 := -2.75573143513906633035e-07
/-- k_cos.rs 16 -/
def c5 : Flt f64 := 2.08757232129817482790e-09
/-- k_cos.rs 17 -/
def c6 : Flt f64 := -1.13596475577881948265e-11
end KCos

/-- k_cos.rs 55-62 -/
def kCos (x y : Flt f64) : Flt f64 :=
  open KCos in
  let z := x * x
  let w := z * z
  let r := z * (c1 + z * (c2 + z * c3)) + w * w * (c4 + z * (c5 + z * c6))
  let hz := 0.5 * z
  let w := 1.0 - hz
  w + (((1.0 - w) - hz) + (z * r - x * y))

namespace KTan
/-- k_tan.rs 44: `T[0]` -/
def t0 : Flt f64 := 3.33333333333334091986e-01
/-- k_tan.rs 45: `T[1]` -/
def t1 : Flt f64 := 1.33333333333201242699e-01
/-- k_tan.rs 46: `T[2]` -/
def t2 : Flt f64 := 5.39682539762260521377e-02
/-- k_tan.rs 47: `T[3]` -/
def t3 : Flt f64 := 2.18694882948595424599e-02
/-- k_tan.rs 48: `T[4]` -/
def t4 : Flt f64 := 8.86323982359930005737e-03
/-- k_tan.rs 49: `T[5]` -/
def t5 : Flt f64 := 3.59207910759131235356e-03
/-- k_tan.rs 50: `T[6]` -/
def t6 : Flt f64 := 1.45620945432529025516e-03
/-- k_tan.rs 51: `T[7]` -/
def t7 : Flt f64 := 5.88041240820264096874e-04
/-- k_tan.rs 52: `T[8]` -/
def t8 : Flt f64 := 2.46463134818469906812e-04
/-- k_tan.rs 53: `T[9]` -/
def t9 : Flt f64 := 7.81794442939557092300e-05
/-- k_tan.rs 54: `T[10]` -/
def t10 : Flt f64 := 7.14072491382608190305e-05
/-- k_tan.rs 55: `T[11]` -/
def t11 : Flt f64 := -1.85586374855275456654e-05
/-- k_tan.rs 56: `T[12]` -/
def t12 : Flt f64 := 2.59073051863633712884e-05
/-- k_tan.rs 58 -/
def pio4 : Flt f64 := 7.85398163397448278999e-01
/-- k_tan.rs 59 -/
def pio4lo : Flt f64 := 3.06161699786838301793e-17

/-- k_tan.rs 103-105 -/
def zeroLowWord (x : Flt f64) : Flt f64 := bits64 (x.u64 &&& 0xffffffff00000000#64)
end KTan

/-- k_tan.rs 62-101 -/
def kTan (x y : Flt f64) (odd : Int) : Flt f64 :=
  open KTan in
  let hx := getHighWord x
  let big : Bool := decide (hx &&& 0x7fffffff#32 ≥ 0x3FE59428#32)
  let sign : Bool := decide (hx >>> 31 ≠ 0)
  let x' := if big && sign then -x else x
  let y' := if big && sign then -y else y
  let x := if big then (pio4 - x') + (pio4lo - y') else x
  let y := if big then 0.0 else y
  let z := x * x
  let w := z * z
  let r := t1 + w * (t3 + w * (t5 + w * (t7 + w * (t9 + w * t11))))
  let v := z * (t2 + w * (t4 + w * (t6 + w * (t8 + w * (t10 + w * t12)))))
  let s := z * x
  let r := y + z * (s * (r + v) + y) + s * t0
  let w := x + r
  if big then
    let s := 1.0 - 2.0 * ofInt f64 odd
    let v := s - 2.0 * (x + (r - w * w / (w + s)))
    if sign then -v else v
  else if odd = 0 then w
  else
    let w0 := zeroLowWord w
    let v := r - (w0 - x)
    let a := -1.0 / w
    let a0 := zeroLowWord a
    a0 + a * (1.0 + a0 * w0 + a0 * v)

/-! ## k_sinf.rs, k_cosf.rs, k_tanf.rs -/
namespace KSinf
/-- k_sinf.rs 18 -/
def s1 : Flt f64 := -0.166666666416265235595
/-- k_sinf.rs 19 -/
def s2 : Flt f64 := 0.0083333293858894631756
/-- k_sinf.rs 20 -/
def s3 : Flt f64 := -0.000198393348360966317347
/-- k_sinf.rs 21 -/
def s4 : Flt f64 := 0.0000027183114939898219064
end KSinf

/-- k_sinf.rs 24-30 -/
def kSinf (x : Flt f64) : Flt f32 :=
  open KSinf in
  let z := x * x
  let w := z * z
  let r := s3 + z * s4
  let s := z * x
  ((x + s * (s1 + z * s2)) + s * w * r).cast f32

namespace KCosf
/-- k_cosf.rs 18 -/
def c0 : Flt f64 := -0.499999997251031003120
/-- k_cosf.rs 19 -/
def c1 : Flt f64 := 0.0416666233237390631894
/-- k_cosf.rs 20 -/
def c2 : Flt f64 := -0.00138867637746099294692
/-- k_cosf.rs 21 -/
def c3 : Flt f64 := 0.0000243904487962774090654
end KCosf

/-- k_cosf.rs 24-29 -/
def kCosf (x : Flt f64) : Flt f32 :=
  open KCosf in
  let z := x * x
  let w := z * z
  let r := c2 + z * c3
  (((1.0 + z * c0) + w * c1) + (w * z) * r).cast f32

namespace KTanf
/-- k_tanf.rs 14: `T[0]` -/
def t0 : Flt f64 := 0.333331395030791399758
/-- k_tanf.rs 15: `T[1]` -/
def t1 : Flt f64 := 0.133392002712976742718
/-- k_tanf.rs 16: `T[2]` -/
def t2 : Flt f64 := 0.0533812378445670393523
/-- k_tanf.rs 17: `T[3]` -/
def t3 : Flt f64 := 0.0245283181166547278873
/-- k_tanf.rs 18: `T[4]` -/
def t4 : Flt f64 := 0.00297435743359967304927
/-- k_tanf.rs 19: `T[5]` -/
def t5 : Flt f64 := 0.00946564784943673166728
end KTanf

/-- k_tanf.rs 23-46 -/
def kTanf (x : Flt f64) (odd : Bool) : Flt f32 :=
  open KTanf in
  let z := x * x
  let r := t4 + z * t5
  let t := t2 + z * t3
  let w := z * z
  let s := z * x
  let u := t0 + z * t1
  let r := (x + s * u) + (s * w) * (t + w * r)
  (if odd then -1.0 / r else r).cast f32

/-! ## sin.rs, cos.rs, tan.rs, sincos.rs -/

/-- `n & 3` on `i32` -/
def and3 (n : Int) : Int := Rpl.and32 n 3

/-- sin.rs 48-82 -/
def sin (x : Flt f64) : Option (Flt f64) :=
  let ix := getHighWord x &&& 0x7fffffff#32
  if ix ≤ 0x3fe921fb#32 then
    if ix < 0x3e500000#32 then some x else some (kSin x 0.0 0)
  else if ix ≥ 0x7ff00000#32 then some (x - x)
  else
    (remPio2 x).map fun (n, y0, y1) =>
    if and3 n = 0 then kSin y0 y1 1
    else if and3 n = 1 then kCos y0 y1
    else if and3 n = 2 then -kSin y0 y1 1
    else -kCos y0 y1

/-- cos.rs 49-77 -/
def cos (x : Flt f64) : Option (Flt f64) :=
  let ix := getHighWord x &&& 0x7fffffff#32
  if ix ≤ 0x3fe921fb#32 then
    if ix < 0x3e46a09e#32 ∧ x.toSInt 32 = 0 then some 1.0 else some (kCos x 0.0)
  else if ix ≥ 0x7ff00000#32 then some (x - x)
  else
    (remPio2 x).map fun (n, y0, y1) =>
    if and3 n = 0 then kCos y0 y1
    else if and3 n = 1 then -kSin y0 y1 1
    else if and3 n = 2 then -kCos y0 y1
    else kSin y0 y1 1

/-- tan.rs 47-70 -/
def tan (x : Flt f64) : Option (Flt f64) :=
  let ix := getHighWord x &&& 0x7fffffff#32
  if ix ≤ 0x3fe921fb#32 then
    if ix < 0x3e400000#32 then some x else some (kTan x 0.0 0)
  else if ix ≥ 0x7ff00000#32 then some (x - x)
  else (remPio2 x).map fun (n, y0, y1) => kTan y0 y1 (Rpl.and32 n 1)

/-- sincos.rs 19-63; the `unreachable!()` arm is `none` -/
def sincos (x : Flt f64) : Option (Flt f64 × Flt f64) :=
  let ix := getHighWord x &&& 0x7fffffff#32
  if ix ≤ 0x3fe921fb#32 then
    if ix < 0x3e46a09e#32 then some (x, 1.0) else some (kSin x 0.0 0, kCos x 0.0)
  else if ix ≥ 0x7ff00000#32 then some (x - x, x - x)
  else
    (remPio2 x).bind fun (n, y0, y1) =>
    let s := kSin y0 y1 1
    let c := kCos y0 y1
    if and3 n = 0 then some (s, c)
    else if and3 n = 1 then some (c, -s)
    else if and3 n = 2 then some (-s, -c)
    else if and3 n = 3 then some (-c, s)
    else none

/-! ## sinf.rs, cosf.rs, tanf.rs, sincosf.rs -/
namespace Trigf
/-- `core::f64::consts::FRAC_PI_2` -/
def fracPi2 : Flt f64 := 1.57079632679489661923132169163975144
/-- sinf.rs 22, cosf.rs 22, tanf.rs 22 -/
def pio2x1 : Flt f64 := 1.0 * fracPi2
/-- sinf.rs 23, cosf.rs 23, tanf.rs 23 -/
def pio2x2 : Flt f64 := 2.0 * fracPi2
/-- sinf.rs 24, cosf.rs 24, tanf.rs 24 -/
def pio2x3 : Flt f64 := 3.0 * fracPi2
/-- sinf.rs 25, cosf.rs 25, tanf.rs 25 -/
def pio2x4 : Flt f64 := 4.0 * fracPi2
/-- sincosf.rs 20 -/
def pi2 : Flt f64 := 0.5 * 3.1415926535897931160E+00
/-- sincosf.rs 21 -/
def s1pio2 : Flt f64 := 1.0 * pi2
/-- sincosf.rs 22 -/
def s2pio2 : Flt f64 := 2.0 * pi2
/-- sincosf.rs 23 -/
def s3pio2 : Flt f64 := 3.0 * pi2
/-- sincosf.rs 24 -/
def s4pio2 : Flt f64 := 4.0 * pi2
end Trigf

/-- sinf.rs 31-88 -/
def sinf (x : Flt f32) : Option (Flt f32) :=
  open Trigf in
  let x64 := x.cast f64
  let sign := x.sign
  let ix := x.u32 &&& 0x7fffffff#32
  if ix ≤ 0x3f490fda#32 then
    if ix < 0x39800000#32 then some x else some (kSinf x64)
  else if ix ≤ 0x407b53d1#32 then
    if ix ≤ 0x4016cbe3#32 then
      if sign then some (-kCosf (x64 + pio2x1)) else some (kCosf (x64 - pio2x1))
    else some (kSinf (if sign then -(x64 + pio2x2) else -(x64 - pio2x2)))
  else if ix ≤ 0x40e231d5#32 then
    if ix ≤ 0x40afeddf#32 then
      if sign then some (kCosf (x64 + pio2x3)) else some (-kCosf (x64 - pio2x3))
    else some (kSinf (if sign then x64 + pio2x4 else x64 - pio2x4))
  else if ix ≥ 0x7f800000#32 then some (x - x)
  else
    (remPio2f x).map fun (n, y) =>
    if and3 n = 0 then kSinf y
    else if and3 n = 1 then kCosf y
    else if and3 n = 2 then kSinf (-y)
    else -kCosf y

/-- cosf.rs 31-86 -/
def cosf (x : Flt f32) : Option (Flt f32) :=
  open Trigf in
  let x64 := x.cast f64
  let sign := x.sign
  let ix := x.u32 &&& 0x7fffffff#32
  if ix ≤ 0x3f490fda#32 then
    if ix < 0x39800000#32 then some 1.0 else some (kCosf x64)
  else if ix ≤ 0x407b53d1#32 then
    if ix > 0x4016cbe3#32 then some (-kCosf (if sign then x64 + pio2x2 else x64 - pio2x2))
    else if sign then some (kSinf (x64 + pio2x1))
    else some (kSinf (pio2x1 - x64))
  else if ix ≤ 0x40e231d5#32 then
    if ix > 0x40afeddf#32 then some (kCosf (if sign then x64 + pio2x4 else x64 - pio2x4))
    else if sign then some (kSinf (-x64 - pio2x3))
    else some (kSinf (x64 - pio2x3))
  else if ix ≥ 0x7f800000#32 then some (x - x)
  else
    (remPio2f x).map fun (n, y) =>
    if and3 n = 0 then kCosf y
    else if and3 n = 1 then kSinf (-y)
    else if and3 n = 2 then -kCosf y
    else kSinf y

/-- tanf.rs 31-77 -/
def tanf (x : Flt f32) : Option (Flt f32) :=
  open Trigf in
  let x64 := x.cast f64
  let sign := x.sign
  let ix := x.u32 &&& 0x7fffffff#32
  if ix ≤ 0x3f490fda#32 then
    if ix < 0x39800000#32 then some x else some (kTanf x64 false)
  else if ix ≤ 0x407b53d1#32 then
    if ix ≤ 0x4016cbe3#32 then some (kTanf (if sign then x64 + pio2x1 else x64 - pio2x1) true)
    else some (kTanf (if sign then x64 + pio2x2 else x64 - pio2x2) false)
  else if ix ≤ 0x40e231d5#32 then
    if ix ≤ 0x40afeddf#32 then some (kTanf (if sign then x64 + pio2x3 else x64 - pio2x3) true)
    else some (kTanf (if sign then x64 + pio2x4 else x64 - pio2x4) false)
  else if ix ≥ 0x7f800000#32 then some (x - x)
  else (remPio2f x).map fun (n, y) => kTanf y (decide (Rpl.and32 n 1 ≠ 0))

/-- sincosf.rs 30-123; the `unreachable!()` arm is `none` -/
def sincosf (x : Flt f32) : Option (Flt f32 × Flt f32) :=
  open Trigf in
  let x64 := x.cast f64
  let sign := x.sign
  let ix := x.u32 &&& 0x7fffffff#32
  if ix ≤ 0x3f490fda#32 then
    if ix < 0x39800000#32 then some (x, 1.0) else some (kSinf x64, kCosf x64)
  else if ix ≤ 0x407b53d1#32 then
    if ix ≤ 0x4016cbe3#32 then
      if sign then some (-kCosf (x64 + s1pio2), kSinf (x64 + s1pio2))
      else some (kCosf (s1pio2 - x64), kSinf (s1pio2 - x64))
    else if sign then some (-kSinf (x64 + s2pio2), -kCosf (x64 + s2pio2))
    else some (-kSinf (x64 - s2pio2), -kCosf (x64 - s2pio2))
  else if ix ≤ 0x40e231d5#32 then
    if ix ≤ 0x40afeddf#32 then
      if sign then some (kCosf (x64 + s3pio2), -kSinf (x64 + s3pio2))
      else some (-kCosf (x64 - s3pio2), kSinf (x64 - s3pio2))
    else if sign then some (kSinf (x64 + s4pio2), kCosf (x64 + s4pio2))
    else some (kSinf (x64 - s4pio2), kCosf (x64 - s4pio2))
  else if ix ≥ 0x7f800000#32 then some (x - x, x - x)
  else
    (remPio2f x).bind fun (n, y) =>
    let s := kSinf y
    let c := kCosf y
    if and3 n = 0 then some (s, c)
    else if and3 n = 1 then some (c, -s)
    else if and3 n = 2 then some (-s, -c)
    else if and3 n = 3 then some (-c, s)
    else none

end Verif
