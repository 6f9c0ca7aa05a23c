import Verif.Model.Trig
import Mathlib.Tactic.Linarith
import Mathlib.Tactic.LinearCombination
import Mathlib.Tactic.Ring
import Mathlib.Algebra.Order.Ring.Abs

/-!
# No double is very close to a multiple of π/2 (with the table of 2/π digits of the code)

For every exponent, a pair of neighbouring continued-fraction convergents certifies that the product of a 53-bit integer
with the relevant digits of 2/π stays away from the multiples of one quadrant.
-/

namespace Verif
namespace CF

/-- Best approximation: two fractions with determinant one around `a / D` bound `|M a - m D|` from below for all
`0 < M < q'`. -/
theorem best {a D p q p' q' M m : ℤ} (hdet : q * p' - q' * p = 1 ∨ q * p' - q' * p = -1)
    (hopp : (q * a - p * D) * (q' * a - p' * D) ≤ 0) (hq : 0 < q) (h0 : 0 < M) (h1 : M < q') :
    |q * a - p * D| ≤ |M * a - m * D| := by
  obtain ⟨u, v, hM, hm⟩ : ∃ u v : ℤ, M = u * q + v * q' ∧ m = u * p + v * p' := by
    rcases hdet with h | h
    · exact ⟨M * p' - m * q', m * q - M * p, by linear_combination (-M) * h, by linear_combination (-m) * h⟩
    · exact ⟨m * q' - M * p', M * p - m * q, by linear_combination M * h, by linear_combination m * h⟩
  have he : M * a - m * D = u * (q * a - p * D) + v * (q' * a - p' * D) := by
    rw [hM, hm]; ring
  rw [he]
  set s := q * a - p * D
  set t := q' * a - p' * D
  have hq' : 0 < q' := h0.trans h1
  have huv : u ≠ 0 ∧ u * v ≤ 0 := by
    rcases lt_trichotomy v 0 with hv | hv | hv
    · have : 0 < u := by nlinarith
      exact ⟨this.ne', by nlinarith⟩
    · subst hv
      refine ⟨?_, by simp⟩
      rintro rfl
      simp at hM
      omega
    · have : u < 0 := by nlinarith
      exact ⟨this.ne, by nlinarith⟩
  have hprod : 0 ≤ (u * s) * (v * t) := by
    have : (u * s) * (v * t) = (u * v) * (s * t) := by ring
    rw [this]
    exact mul_nonneg_of_nonpos_of_nonpos huv.2 hopp
  have h2 : |u * s| ≤ |u * s + v * t| := by
    rw [← sq_le_sq]
    nlinarith [sq_nonneg (v * t)]
  refine le_trans ?_ h2
  rw [abs_mul]
  have : 1 ≤ |u| := Int.one_le_abs huv.1
  nlinarith [abs_nonneg s]

/-- ten 24-bit digits of 2/π, the first one being digit `jv - 2` (zero before the first digit) -/
def A (jv : ℕ) : ℕ := (((0 :: 0 :: Rpl.ipio2Narrow.map Int.toNat).drop jv).take 10).foldl (fun s d => s * 2 ^ 24 + d) 0

/-- `jv` for the exponent `e0 = i - 3` -/
def jvOf (i : ℕ) : ℕ := (i - 6) / 24

/-- the certificate `(p, q, p', q')` is good for the exponent `e0 = i - 3`, `k`-bit integers and a distance of `2^-r` -/
def ok (k r i : ℕ) (c : ℕ × ℕ × ℕ × ℕ) : Bool :=
  let d := 171 + k + 24 * jvOf i - i
  let D := 2 ^ d
  let a := A (jvOf i) % D
  let w := 2 ^ (d - r)
  let (p, q, p', q') := c
  decide (0 < q) && decide (2 ^ k ≤ q') &&
  (decide (p * D + w ≤ q * a) && decide (q' * a ≤ p' * D) && decide (q * p' = q' * p + 1) ||
   decide (q * a + w ≤ p * D) && decide (p' * D ≤ q' * a) && decide (q' * p = q * p' + 1))

theorem ok_spec {k r i : ℕ} {c : ℕ × ℕ × ℕ × ℕ} (h : ok k r i c = true) (M m : ℤ) (h0 : 0 < M) (h1 : M < 2 ^ k) :
    (2 : ℤ) ^ (171 + k + 24 * jvOf i - i - r) ≤ |M * (A (jvOf i) : ℤ) - m * 2 ^ (171 + k + 24 * jvOf i - i)| := by
  obtain ⟨p, q, p', q'⟩ := c
  simp only [ok, Bool.and_eq_true, Bool.or_eq_true, decide_eq_true_eq] at h
  generalize hA : A (jvOf i) = a₀ at *
  generalize hd : 171 + k + 24 * jvOf i - i = d at *
  obtain ⟨⟨hq, hq'⟩, h⟩ := h
  have ha : ((a₀ % 2 ^ d : ℕ) : ℤ) = (a₀ : ℤ) - 2 ^ d * ((a₀ / 2 ^ d : ℕ) : ℤ) := by
    have := Nat.div_add_mod a₀ (2 ^ d)
    zify at this ⊢
    linarith
  have hM' : M < (q' : ℤ) := by zify at hq'; exact h1.trans_le hq'
  have e : M * (a₀ : ℤ) - m * 2 ^ d = M * ((a₀ % 2 ^ d : ℕ) : ℤ) - (m - M * ((a₀ / 2 ^ d : ℕ) : ℤ)) * 2 ^ d := by
    rw [ha]; ring
  rw [e]
  generalize hx : a₀ % 2 ^ d = a at *
  rcases h with ⟨⟨h1, h2⟩, h3⟩ | ⟨⟨h1, h2⟩, h3⟩
  · zify at h1 h2 h3
    refine le_trans ?_ (best (p := p) (q := q) (p' := p') (q' := q') (Or.inl (by linarith)) ?_ (by exact_mod_cast hq) h0 hM')
    · exact le_trans (by linarith) (le_abs_self _)
    · have : (0 : ℤ) < 2 ^ (d - r) := by positivity
      exact mul_nonpos_of_nonneg_of_nonpos (by linarith) (by linarith)
  · zify at h1 h2 h3
    refine le_trans ?_ (best (p := p) (q := q) (p' := p') (q' := q') (Or.inr (by linarith)) ?_ (by exact_mod_cast hq) h0 hM')
    · exact le_trans (by linarith) (neg_le_abs _)
    · have : (0 : ℤ) < 2 ^ (d - r) := by positivity
      exact mul_nonpos_of_nonpos_of_nonneg (by linarith) (by linarith)

set_option maxRecDepth 20000 in
/-- convergents around the relevant multiple of 2/π, for the exponents `e0` from -3 to 1000 -/
def certs : List (ℕ × ℕ × ℕ × ℕ) := [
  (1081409, 7295746205504726, 4062431, 27407267327509545),
  (1081409, 3647873102752363, 9206271, 31055140430261908),
  (2162818, 3647873102752363, 9206271, 15527570215130954),
  (9206271, 7763785107565477, 1090665614, 919774515795478649),
  (18412542, 7763785107565477, 1081459343, 456005365343956586),
  (36825084, 7763785107565477, 1081459343, 228002682671978293),
  (73650168, 7763785107565477, 1044634259, 110119448782206408),
  (147300336, 7763785107565477, 1044634259, 55059724391103204),
  (294600672, 7763785107565477, 1044634259, 27529862195551602),
  (589201344, 7763785107565477, 1044634259, 13764931097775801),
  (455432915, 3000572995105162, 1633835603, 10764358102670639),
  (455432915, 1500286497552581, 3723104121, 12264644600223220),
  (3723104121, 6132322300111610, 8357074072, 13764931097775801),
  (3723104121, 3066161150055805, 20437252265, 16831092247831606),
  (20437252265, 8415546123915803, 48320712772, 19897253397887411),
  (27883460507, 5740853636985804, 68757965037, 14156399760901607),
  (27883460507, 2870426818492902, 165399390581, 17026826579394509),
  (27883460507, 1435213409246451, 330798781162, 17026826579394509),
  (302915320655, 7795806585074029, 358682241669, 9231019994320480),
  (358682241669, 4615509997160240, 7779475474690, 100106006528278829),
  (358682241669, 2307754998580120, 15917633191049, 102413761526858949),
  (358682241669, 1153877499290060, 32193948623767, 103567639026149009),
  (358682241669, 576938749645030, 64746579489203, 104144577775794039),
  (358682241669, 288469374822515, 129851841220075, 104433047150616554),
  (717364483338, 288469374822515, 129851841220075, 52216523575308277),
  (1434728966676, 288469374822515, 129134476736737, 25964027100242881),
  (2869457933352, 288469374822515, 127699747770061, 12837778862710183),
  (130569205703413, 6563124118766349, 1561091552574252, 78469020050373673),
  (261138411406826, 6563124118766349, 1430522346870839, 35952947965803662),
  (522276822813652, 6563124118766349, 1430522346870839, 17976473982901831),
  (908245524057187, 5706674932067741, 1952799169684491, 12269799050834090),
  (1952799169684491, 6134899525417045, 9627687726852338, 30246273033735921),
  (3905598339368982, 6134899525417045, 7674888557167847, 12055686754159438),
  (1647045180088128, 6027843377079719, 4970387513497175, 18190586279576483),
  (3323342333409047, 6081371451248382, 6617432693585303, 12109214828328101),
  (282656607784856, 3040685725624191, 1125650558842505, 12109214828328101),
  (1408307166627361, 7574950276976146, 2251301117685010, 12109214828328101),
  (1408307166627361, 3787475138488073, 5910909401997381, 15896689966816174),
  (5910909401997381, 7948344983408087, 14638433137249484, 19684165105304247),
  (2859613674304023, 5867910060948080, 6733087494890698, 13816255044356167),
  (2859613674304023, 2933955030474040, 13466174989781396, 13816255044356167),
  (1392636159067003, 1466977515237020, 13116094935206625, 13816255044356167),
  (659147401448493, 733488757618510, 13075082227505576, 14549743801974677),
  (292403022639238, 366744378809255, 11892823675675713, 14916488180783932),
  (4434579585283747, 7458244090391966, 13521800422320462, 22741476649985153),
  (705457540087764, 3729122045195983, 5007581734743535, 26470598695181136),
  (1410915080175528, 3729122045195983, 5007581734743535, 13235299347590568),
  (5007581734743535, 6617649673795284, 228163008223810131, 301523357365983763),
  (1698756897845893, 3308824836897642, 156501415979482392, 304832182202881405),
  (44344479397072, 1654412418448821, 8170649756083379, 304832182202881405),
  (88688958794144, 1654412418448821, 8126305276686307, 151588884892216292),
  (177377917588288, 1654412418448821, 8126305276686307, 75794442446108146),
  (354755835176576, 1654412418448821, 8126305276686307, 37897221223054073),
  (709511670353152, 1654412418448821, 7771549441509731, 18121404402302626),
  (1419023340706304, 1654412418448821, 7771549441509731, 9060702201151313),
  (3833015472415968, 5357557309800067, 6482396681868149, 9060702201151313),
  (3106282398808427, 7209129755475690, 53604609543519817, 124406778288762353),
  (3106282398808427, 3604564877737845, 110315501485848061, 128011343166500198),
  (2607999919879009, 3604564877737845, 46309829902597962, 64005671583250099),
  (1611434962020173, 3604564877737845, 13501276629962826, 30200553352756127),
  (3222869924040346, 3604564877737845, 11889841667942653, 13297994237509141),
  (6661432034359506, 8451279557623493, 97080305545049743, 123164628486614550),
  (4871584511095519, 8451279557623493, 35497991301742468, 61582314243307275),
  (1291889464567545, 8451279557623493, 4060889447805058, 26565517342841891),
  (2583778929135090, 8451279557623493, 2768999983237513, 9057118892609199),
  (5352778912372603, 8754199225116346, 59065789090201056, 96599111143772659),
  (975679299814430, 4377099612558173, 21532467036629453, 96599111143772659),
  (1951358599628860, 4377099612558173, 20556787736815023, 46111005765607243),
  (3902717199257720, 4377099612558173, 18605429137186163, 20866953076524535),
  (6457785205945262, 8244926731983181, 9886119991902529, 12622026344541354),
  (3575106819631852, 6311013172270677, 172700664202604387, 304862545828705000),
  (839200466993027, 6311013172270677, 20269391288251887, 152431272914352500),
  (1678400933986054, 6311013172270677, 20269391288251887, 76215636457176250),
  (3356801867972108, 6311013172270677, 20269391288251887, 38107818228588125),
  (402590563673539, 6311013172270677, 1014186892121055, 15898402528158724),
  (1014186892121055, 7949201264079362, 3847741803710243, 30158616964508763),
  (1014186892121055, 3974600632039681, 8709670499541541, 34133217596548444),
  (2028373784242110, 3974600632039681, 8709670499541541, 17066608798274222),
  (176366100404430, 8533304399137111, 963977438466689, 46641122627725236),
  (352732200808860, 8533304399137111, 963977438466689, 23320561313862618),
  (705464401617720, 8533304399137111, 963977438466689, 11660280656931309),
  (258513036848969, 1563488128897099, 1669441840084409, 10096792528034210),
  (1669441840084409, 5048396264017105, 3855909753866756, 11660280656931309),
  (5525351593951165, 8354338460474207, 7711819507733512, 11660280656931309),
  (533496815553796, 1652971098228551, 3229861542981919, 10007309558702758),
  (3229861542981919, 5003654779351379, 10756578260053349, 16663935436282688),
  (2424610541912005, 8331967718141344, 8729899932348474, 29999557933775411),
  (2424610541912005, 4165983859070672, 17459799864696948, 29999557933775411),
  (341618612376669, 2082991929535336, 4920041795618485, 29999557933775411),
  (341618612376669, 1041495964767668, 9840083591236970, 29999557933775411),
  (341618612376669, 520747982383834, 19680167182473940, 29999557933775411),
  (81244621184752, 260373991191917, 9360776431172469, 29999557933775411),
  (162489242369504, 260373991191917, 9279531809987717, 14869591971291747),
  (1877038071115389, 7564982981241832, 11197623933145243, 45129523896259075),
  (1877038071115389, 3782491490620916, 22395247866290486, 45129523896259075),
  (1877038071115389, 1891245745310458, 46667533803696361, 47020769641569533),
  (931415198460160, 945622872655229, 47245713164283349, 47966392514224762),
  (917207524265091, 945622872655229, 23262516907170968, 23983196257112381),
  (888792175874953, 945622872655229, 10826522690677301, 11518786692228576),
  (5067129344563013, 5759393346114288, 10966220168220703, 12464409564883805),
  (2187432671505869, 2879696673057144, 11655463443063470, 15344106237940949),
  (747584334977297, 1439848336528572, 8714404983163288, 16783954574469521),
  (27660166713011, 719924168264286, 644855391857055, 16783954574469521),
  (27660166713011, 359962084132143, 1317370950427121, 17143916658601664),
  (1317370950427121, 8571958329300832, 2690062234280264, 17503878742733807),
  (1317370950427121, 4285979164650416, 6697495418987649, 21789857907384223),
  (1317370950427121, 2142989582325208, 13394990837975298, 21789857907384223),
  (245876159264517, 1071494791162604, 5245999927830890, 22861352698546827),
  (245876159264517, 535747395581302, 10737876014926297, 23397100094128129),
  (245876159264517, 267873697790651, 21721628189117111, 23664973791918780),
  (223878620738383, 267873697790651, 9889141293157721, 11832486895959390),
  (3972897845178026, 5916243447979695, 576250071094499885, 858123173654846426),
  (2029552242376357, 5916243447979695, 147188484267076672, 429061586827423213),
  (4059104484752714, 5916243447979695, 145158932024700315, 211572671689721759),
  (2201965521525733, 5916243447979695, 38271613419076569, 102828214120871032),
  (4403931043051466, 5916243447979695, 38271613419076569, 51414107060435516),
  (2891618638123237, 5916243447979695, 12564559888858811, 25707053530217758),
  (5783237276246474, 5916243447979695, 12564559888858811, 12853526765108879),
  (3312680954047745, 3468641658564592, 8962912058560998, 9384885106544287),
  (1578360124765449, 1734320829282296, 10119299135343158, 11119205935826583),
  (711199710124301, 867160414641148, 9830592044984034, 11986366350467731),
  (277619502803727, 433580207320574, 7674817739500337, 11986366350467731),
  (60829399143440, 216790103660287, 3363269128532943, 11986366350467731),
  (3424098527676383, 6101578227064009, 112873592615033759, 201135291389452010),
  (746618828288757, 6101578227064009, 12305946920307754, 100567645694726005),
  (1493237656577514, 6101578227064009, 11559328092018997, 47233033733830998),
  (2986475313155028, 6101578227064009, 11559328092018997, 23616516866915499),
  (8572852778863969, 8757469319925745, 14545803405174025, 14859047546989754),
  (7116279631679148, 7429523773494877, 29737075132839637, 31046040640410376),
  (6803035489863419, 7429523773494877, 14214054812634449, 15523020320205188),
  (6452544652531855, 7761510160102594, 70701993731550511, 85044625374520817),
  (2571789572480558, 3880755080051297, 56359362088580205, 85044625374520817),
  (1262824064909819, 3880755080051297, 13205637368864887, 40581935147234760),
  (2525648129819638, 3880755080051297, 13205637368864887, 20290967573617380),
  (1170541179587979, 3880755080051297, 3060153582056197, 10145483786808690),
  (3060153582056197, 5072741893404345, 26822311015625534, 44462690227286057),
  (1047565270708049, 5072741893404345, 4067183266628481, 19694974166940856),
  (2095130541416098, 5072741893404345, 4067183266628481, 9847487083470428),
  (4067183266628481, 4923743541735214, 24526177415974601, 29691459602080415),
  (1605311495760874, 2461871770867607, 20966206725629661, 32153331372948022),
  (748751220654141, 2461871770867607, 4889541039155650, 16076665686474011),
  (4140789818501509, 6807396957803202, 5638292259809791, 9269268728670809),
  (737091339599908, 3403698478901601, 2007315790948773, 9269268728670809),
  (2744407130548681, 6336483603786205, 36947517148481718, 85307071974105269),
  (5488814261097362, 6336483603786205, 34203110017933037, 39485294185159532),
  (4641144918408519, 6336483603786205, 14460462925353271, 19742647092579766),
  (2945806233030833, 6336483603786205, 4589139379063388, 9871323546289883),
  (7534945612094221, 8103903575038044, 9178278758126776, 9871323546289883),
  (3482993824575199, 4051951787519022, 11968227794538868, 13923275333808905),
  (1457017930815688, 2025975893759511, 10013180255268831, 13923275333808905),
  (3495572572300311, 7974625613784208, 6103085176728757, 13923275333808905),
  (3495572572300311, 3987312806892104, 12206170353457514, 13923275333808905),
  (1501916168854259, 1993656403446052, 11990981541960382, 15916931737254957),
  (505087967131233, 996828201723026, 8065031346665807, 15916931737254957),
  (6673866269720, 498414100861513, 219804822346377, 16415345838116470),
  (219804822346377, 8207672919058235, 1332176666617702, 49744451615210923),
  (439609644692754, 8207672919058235, 1112371844271325, 20768389348076344),
  (879219289385508, 8207672919058235, 1112371844271325, 10384194674038172),
  (1112371844271325, 5192097337019086, 7320297800127641, 34168159604153665),
  (1112371844271325, 2596048668509543, 15752967444526607, 36764208272663208),
  (2224743688542650, 2596048668509543, 15752967444526607, 18382104136331604),
  (1853438708575757, 2596048668509543, 6561915376360805, 9191052068165802),
  (1966389342277904, 4595526034082901, 79766402439758131, 186417090031825583),
  (3932778684555808, 4595526034082901, 77800013097480227, 90910781998871341),
  (3270031335028715, 4595526034082901, 30709606430530199, 43157627982394220),
  (1944536635974529, 4595526034082901, 9130792439333089, 21578813991197110),
  (3889073271949058, 4595526034082901, 9130792439333089, 10789406995598555),
  (5327399196441419, 7692466514840728, 7472177883067623, 10789406995598555),
  (1481165939021055, 3846233257420364, 5636114709557746, 14635640253018919),
  (1481165939021055, 1923116628710182, 11272229419115492, 14635640253018919),
  (519607624665964, 961558314355091, 7908818585212065, 14635640253018919),
  (629826926191024, 7798599283687005, 1181996917405211, 14635640253018919),
  (552169991214187, 3418520484665957, 1811823843596235, 11217119768352962),
  (1811823843596235, 5608559884176481, 4727987669620844, 14635640253018919),
  (2916163826024609, 4513540184421219, 6539811513217079, 10122100068597700),
  (1478761478918229, 5061050034298850, 4276310425464457, 14635640253018919),
  (1478761478918229, 2530525017149425, 10031382329847143, 17166165270168344),
  (1448299694762971, 8583082635084172, 78635181457887467, 466016987311694713),
  (1448299694762971, 4291541317542086, 157270362915774934, 466016987311694713),
  (1448299694762971, 2145770658771043, 315989025526312839, 468162757970465756),
  (750828730754899, 2145770658771043, 81907646541079961, 234081378985232878),
  (1501657461509798, 2145770658771043, 81907646541079961, 117040689492616439),
  (857544264248553, 2145770658771043, 22958529662647465, 57447459416922698),
  (1715088528497106, 2145770658771043, 22958529662647465, 28723729708461349),
  (1284406398223169, 2145770658771043, 7954461609305206, 13288979524845153),
  (1521492915720277, 7717375091808098, 7184422440926090, 36441104800269447),
  (1521492915720277, 3858687545904049, 15890337797572457, 40299792346173496),
  (3042985831440554, 3858687545904049, 15890337797572457, 20149896173086748),
  (2227284116977059, 3858687545904049, 5815389711029083, 10074948086543374),
  (777915667757396, 5037474043271687, 13820447039925801, 89495746281522728),
  (1555831335514792, 5037474043271687, 13820447039925801, 44747873140761364),
  (3111662671029584, 5037474043271687, 13820447039925801, 22373936570380682),
  (1185851298787481, 5037474043271687, 2633478754735460, 11186968285190341),
  (3819330053522941, 8112221164231014, 5266957509470920, 11186968285190341),
  (3819330053522941, 4056110582115507, 10533915018941840, 11186968285190341),
  (6731705638811857, 7621539433652924, 9880861752693339, 11186968285190341),
  (2920935921985395, 3810769716826462, 8574755220196337, 11186968285190341),
  (1015551063572164, 1905384858413231, 5962542155202333, 11186968285190341),
  (431916646972711, 6546176571801786, 5489199141914146, 83194910575009987),
  (431916646972711, 3273088285900893, 11410314930801003, 86467998860910880),
  (863833293945422, 3273088285900893, 11410314930801003, 43233999430455440),
  (1727666587890844, 3273088285900893, 11410314930801003, 21616999715227720),
  (182244889880795, 3273088285900893, 601815073187143, 10808499857613860),
  (601815073187143, 5404249928806930, 14808051536253022, 132975086577267213),
  (601815073187143, 2702124964403465, 29616103072506044, 132975086577267213),
  (1203630146374286, 2702124964403465, 29014287999318901, 65136480806431874),
  (2407260292748572, 2702124964403465, 29014287999318901, 32568240403215937),
  (2112395621093679, 2702124964403465, 11673969987164093, 14933057719406236),
  (4207441127460975, 7466528859703118, 9937548532705843, 17635182683809701),
  (474176697609416, 3733264429851559, 2714091079211401, 21368447113661260),
  (948353395218832, 3733264429851559, 2714091079211401, 10684223556830630),
  (2714091079211401, 5342111778415315, 23609435424128872, 46470158657174079),
  (86070380007487, 5342111778415315, 331320905538089, 20564023439379382),
  (172140760014974, 5342111778415315, 331320905538089, 10282011719689691),
  (503461665553063, 7812061749052503, 1166103476629241, 18094073468742194),
  (1006923331106126, 7812061749052503, 1166103476629241, 9047036734371097),
  (2173026807735367, 8429549241711800, 2332206953258482, 9047036734371097),
  (2173026807735367, 4214774620855900, 4664413906516964, 9047036734371097),
  (65639497307417, 2107387310427950, 347430575970248, 11154424044799047),
  (65639497307417, 1053693655213975, 694861151940496, 11154424044799047),
  (760500649247913, 6104058850006511, 3671224251624731, 29466600594818580),
  (1521001298495826, 6104058850006511, 3671224251624731, 14733300297409290),
  (3671224251624731, 7366650148704645, 47096693616488424, 94503860634462251),
  (7342448503249462, 7366650148704645, 43425469364863693, 43568605242878803),
  (7318246857794279, 7366650148704645, 17982043314527152, 18100977547087079),
  (5296632757541656, 5367163699191217, 12566476324425569, 12733813847895862),
  (6199569400477638, 6366906923947931, 315204571839773995, 323712509896587767),
  (6032231877007345, 6366906923947931, 150332200952976439, 158672801486319918),
  (5697556830066759, 6366906923947931, 70995800209816480, 79336400743159959),
  (5028206736185587, 6366906923947931, 28813496470143707, 36484746909606014),
  (3689506548423243, 6366906923947931, 10571123015340700, 18242373454803007),
  (943883201489919, 5937733265427538, 1955989374388474, 12304640189375469),
  (943883201489919, 2968866632713769, 3911978748776948, 12304640189375469),
  (4855861950266867, 7636753411044619, 265184640861697847, 417052570974740276),
  (2074970489489115, 7636753411044619, 56658355374327709, 208526285487370138),
  (4149940978978230, 7636753411044619, 56658355374327709, 104263142743685069),
  (663128546911841, 7636753411044619, 4195219729029254, 48313194666320225),
  (1326257093823682, 7636753411044619, 3532091182117413, 20338220627637803),
  (2205834088293731, 6350733608296592, 4858348275941095, 13987487019341211),
  (2205834088293731, 3175366804148296, 9716696551882190, 13987487019341211),
  (618150686219583, 1587683402074148, 5445906084423169, 13987487019341211),
  (618150686219583, 793841701037074, 10891812168846338, 13987487019341211),
  (221229835701046, 396920850518537, 8017367154052511, 14384407869859748),
  (825163219122637, 7192203934929874, 1695865259128829, 14781328720378285),
  (825163219122637, 3596101967464937, 3391730518257658, 14781328720378285),
  (2566567299135021, 5592613376456674, 4216893737380295, 9188715343921611),
  (2566567299135021, 2796306688228337, 8433787474760590, 9188715343921611),
  (5007843757820637, 5992511016074974, 22702390879061480, 27166248392146533),
  (2011588249783150, 2996255508037487, 18238533365976427, 27166248392146533),
  (1026920991528813, 2996255508037487, 4141948674138754, 12084996442054523),
  (5168869665667567, 7540625975046005, 18621636679612642, 27166248392146533),
  (2797113356289129, 7540625975046005, 3639955805394811, 9812811208550264),
  (3639955805394811, 4906405604275132, 12874138323367880, 17353437183596269),
  (1186753003257245, 2453202802137566, 8394839463139491, 17353437183596269),
  (1186753003257245, 1226601401068783, 17976431929536227, 18580038584665052),
  (1146904605445707, 1226601401068783, 8686412637203701, 9290019292332526),
  (4041402991037438, 4645009646166263, 106143685576796019, 121996852201391621),
  (3437796335908613, 4645009646166263, 43426361308145902, 58675921277612679),
  (2230583025650963, 4645009646166263, 12973109156514081, 27015455815723208),
  (4461166051301926, 4645009646166263, 12973109156514081, 13507727907861604),
  (6219245202583279, 6753863953930802, 29154303266770705, 31660465461889471),
  (2842313225617878, 3376931976965401, 26648141071651939, 31660465461889471),
  (2307694474270355, 3376931976965401, 9664061103572026, 14141766742462035),
  (3212406218128663, 8759349359713718, 21248386555325332, 57938513541030625),
  (3212406218128663, 4379674679856859, 45709179328779327, 62318188220887484),
  (2045137756400467, 4379674679856859, 14550085218335585, 31159094110443742),
  (4090275512800934, 4379674679856859, 14550085218335585, 15579547055221871),
  (4859873517852145, 5599936187682506, 8660749863597154, 9979610867539365),
  (2059905424010892, 2799968093841253, 9401794283665835, 12779578961380618),
  (3012004802975526, 6389789480690309, 7343852360131583, 15579547055221871),
  (4331847557156057, 4594878787265781, 10355857163107109, 10984668267956090),
  (4863523029129064, 5492334133978045, 18659385414433525, 21071881189199916),
  (4234711924280083, 5492334133978045, 8123444819833567, 10535940594599958),
  (2855474522533588, 5267970297299979, 14398987804716473, 26564215323177961),
  (442978747767197, 5267970297299979, 895390769243894, 10648122512938991),
  (1338369517011091, 7958046405119485, 75401104974097793, 448340674794510666),
  (2676739034022182, 7958046405119485, 75401104974097793, 224170337397255333),
  (5353478068044364, 7958046405119485, 72724365940075611, 108106145496067924),
  (2748909730969243, 7958046405119485, 18671293192041649, 54053072748033962),
  (5497819461938486, 7958046405119485, 18671293192041649, 27026536374016981),
  (3037592518757487, 7958046405119485, 3639228745654415, 9534244984448748),
  (3639228745654415, 4767122492224374, 16992871274478219, 22259413881792607),
  (1255667499542228, 2383561246112187, 11726328667163831, 22259413881792607),
  (127773752972269, 2383561246112187, 532734849781393, 9937926317840210),
  (532734849781393, 4968963158920105, 1321017205507324, 12321487563952397),
  (1853752055288717, 8645225361436251, 2642034411014648, 12321487563952397),
  (788282355725931, 1838131101258073, 4495786466303365, 10483356462694324),
  (4495786466303365, 5241678231347162, 10568137644058592, 12321487563952397),
  (1874947350629784, 2620839115673581, 8814787724164787, 12321487563952397),
  (3218571734981582, 7471163339812989, 5308087884377177, 12321487563952397),
  (2089516149395595, 2425162112069704, 8526659619358759, 9896325451882693),
  (876935093360743, 1212581056034852, 8033928880195568, 11108906507917545),
  (270644565343317, 606290528017426, 4958951252473591, 11108906507917545),
  (270644565343317, 303145264008713, 10188547070290499, 11412051771926258),
  (4482521184327370, 5706025885963129, 98853609921880061, 125835714755197551),
  (3259016482691611, 5706025885963129, 34306244302935480, 60064844434617211),
  (812007079420093, 5706025885963129, 3867818545916828, 27179409274327041),
  (1624014158840186, 5706025885963129, 3055811466496735, 10736691694181956),
  (3055811466496735, 5368345847090978, 9359651250673842, 16442717580145085),
  (371638542951246, 2684172923545489, 2276584921202599, 16442717580145085),
  (1904946378251353, 6879272328299798, 2648223464153845, 9563445251845287),
  (1904946378251353, 3439636164149899, 7201393306559043, 13003081415995186),
  (699852598561450, 6501540707997593, 1769961789475707, 16442717580145085),
  (1070109190914257, 4970588436073746, 2469814388037157, 11472129144071339),
  (1070109190914257, 2485294218036873, 4939628776074314, 11472129144071339),
  (6009737966988571, 6978711681054106, 9879257552148628, 11472129144071339),
  (2520382126461518, 3489355840527053, 10806768086687435, 14961484984598392),
  (3326025594388239, 7480742492299196, 34811664356278373, 78296780763519013),
  (3326025594388239, 3740371246149598, 69623328712556746, 78296780763519013),
  (1455839971313440, 1870185623074799, 60949876661594479, 78296780763519013),
  (1041494319552081, 1870185623074799, 21280739120058932, 38213297570222107),
  (212803016029363, 1870185623074799, 2067688826933197, 18171555973573654),
  (425606032058726, 1870185623074799, 2067688826933197, 9085777986786827),
  (2493294858991923, 5477981804930813, 6628672512858317, 14563759791717640),
  (6628672512858317, 7281879895858820, 38129952282275431, 41887381284224913),
  (2987732564928907, 3640939947929410, 37360255845254856, 45528321232154323),
  (1167262590964202, 1820469973964705, 29192190458355389, 45528321232154323),
  (514055207963699, 1820469973964705, 6171002238296378, 21853925629094809),
  (1028110415927398, 1820469973964705, 5656947030332679, 10016727827565052),
  (648583116550153, 5008363913782526, 1532917090990397, 11837197801529757),
  (648583116550153, 2504181956891263, 3714417298530947, 14341379758421020),
  (3714417298530947, 7170689879210510, 38441339218409776, 74211080748996363),
  (129072358925692, 3585344939605255, 2800670046748881, 77796425688601618),
  (258144717851384, 3585344939605255, 2800670046748881, 38898212844300809),
  (516289435702768, 3585344939605255, 2542525328897497, 17656433952347777),
  (2026235893194729, 7035544506371261, 3058814764600265, 10620889445976516),
  (3058814764600265, 5310444722988258, 40758248961592638, 70760881182230357),
  (403592403106136, 2655222361494129, 11159209144061055, 73416103543724486),
  (807184806212272, 2655222361494129, 11159209144061055, 36708051771862243),
  (1614369612424544, 2655222361494129, 10352024337848783, 17026414705184057),
  (1552058553579275, 7185596171844964, 2125575416934234, 9840818533339093),
  (1552058553579275, 3592798085922482, 4251150833868468, 9840818533339093),
  (1552058553579275, 1796399042961241, 8502301667736936, 9840818533339093),
  (4235751433166044, 5818608788150167, 19871039101632911, 27296644897789594),
  (2652894078181921, 5818608788150167, 6222716652738114, 13648322448894797),
  (3569822574556193, 3914856830372315, 8875610730920035, 9733465618522482),
  (4008877921658794, 4866732809261241, 11242544162057659, 13648322448894797),
  (2842871420582087, 4390794819816778, 5993894454638434, 9257527629078019),
  (647474010673698, 2195397409908389, 2730261280198849, 9257527629078019),
  (3377735290872547, 5726462519493204, 15593728433015339, 26436915187557631),
  (514504031125945, 2863231259746602, 4750541678473047, 26436915187557631),
  (514504031125945, 1431615629873301, 10015587388072039, 27868530817430932),
  (1029008062251890, 1431615629873301, 10015587388072039, 13934265408715466),
  (3048454683714306, 6967132704357733, 15868673913202009, 36267279151661966),
  (6096909367428612, 6967132704357733, 15868673913202009, 18133639575830983),
  (4188511110036772, 5583253435736625, 9415197140536263, 12550386140094358),
  (3140004070489084, 6275193070047179, 12213780995804171, 24408832645878162),
  (4815070930989, 6275193070047179, 9364672865090, 12204416322939081),
  (4549601934101, 2964611626445951, 14179743796079, 9239804696493130),
  (14179743796079, 4619902348246565, 37458691460360, 12204416322939081),
  (51638435256439, 8412159335592823, 178194253433598, 29028734994124727),
  (103276870512878, 8412159335592823, 126555818177159, 10308287829265952),
  (126555818177159, 5154143914632976, 459665377380074, 18720447164858775),
  (126555818177159, 2577071957316488, 919330754760148, 18720447164858775),
  (126555818177159, 1288535978658244, 1838661509520296, 18720447164858775),
  (126555818177159, 644267989329122, 3677323019040592, 18720447164858775),
  (126555818177159, 322133994664561, 7481201856258343, 19042581159523336),
  (253111636354318, 322133994664561, 7481201856258343, 9521290579761668),
  (2720556566377509, 4760645289880834, 11066315543554111, 19364715154187897),
  (340233921437092, 2380322644940417, 2767915932920325, 19364715154187897),
  (2427682011483233, 8492196254623740, 3108149854357417, 10872518899564157),
  (2427682011483233, 4246098127311870, 6216299708714834, 10872518899564157),
  (304632947827298, 2123049063655935, 1560080517865511, 10872518899564157),
  (1864713465692809, 6497783981610046, 6849587967116640, 23868086862784249),
  (1864713465692809, 3248891990805023, 13699175934233280, 23868086862784249),
  (480534940580595, 3248891990805023, 1524865032550858, 10309597435989613),
  (2005399973131453, 6779244713397318, 11071329957627528, 37426576289578885),
  (2005399973131453, 3389622356698659, 22142659915255056, 37426576289578885),
  (621177589564247, 3389622356698659, 3118782975683490, 17018476966440113),
  (2497605386119243, 6814427304870727, 3739960565247737, 10204049661569386),
  (3739960565247737, 5102024830784693, 31174934728972645, 42528601120363578),
  (2377896299710781, 5102024830784693, 9910634168790856, 21264300560181789),
  (7532737869080075, 8081137864698548, 12288530468501637, 13183162695483241),
  (3492168936730801, 4040568932349274, 11393898241520033, 13183162695483241),
  (1471884470556164, 2020284466174637, 11076518258112989, 15203447161657878),
  (3474794677284050, 7601723580828939, 7873073829505791, 17223731627832515),
  (4398279152221741, 4811004023501788, 11347868506789841, 12412727604330727),
  (1992777140470847, 2405502011750894, 10283009409248955, 12412727604330727),
  (790026134595400, 1202751005875447, 8153291214167183, 12412727604330727),
  (2135578043659496, 6807739305103087, 12436166998641623, 39643684824743075),
  (4271156087318992, 6807739305103087, 10300588954982127, 16417972759819994),
  (2091602575072130, 8208986379909997, 8009380594751287, 31434698444833078),
  (4183205150144260, 8208986379909997, 8009380594751287, 15717349222416539),
  (71994023353756, 3754181421253271, 229417943732279, 11963167801163268),
  (229417943732279, 5981583900581634, 832241877904349, 21698933122998173),
  (229417943732279, 2990791950290817, 1664483755808698, 21698933122998173),
  (458835887464558, 2990791950290817, 1435065812076419, 9354070586353678),
  (1435065812076419, 4677035293176839, 5222869211158373, 17021897829821334),
  (5222869211158373, 8510948914910667, 112550385058478671, 183406962506300846),
  (1934789507406079, 8510948914910667, 20846903805328248, 91703481253150423),
  (3869579014812158, 8510948914910667, 18912114297922169, 41596266169119878),
  (7739158029624316, 8510948914910667, 18912114297922169, 20798133084559939),
  (5029364183473217, 6143592084824636, 11996731327811182, 14654540999735303),
  (1957568141060899, 3071796042412318, 11296489796947960, 17726337042147621),
  (421670119854740, 1535898021206159, 4866642551748299, 17726337042147621),
  (4444972431893559, 8095219510470731, 5288312671603039, 9631117531676890),
  (472753905764594, 4815558765838445, 2685740976374763, 27357454573824511),
  (945507811529188, 4815558765838445, 2212987070610169, 11270947903993033),
  (3158494882139357, 8043253334915739, 17059953669777766, 43443961243655989),
  (6316989764278714, 8043253334915739, 13901458787638409, 17700353954370125),
  (2755918713632502, 4828550309727193, 7346644907274191, 12871803644642932),
  (910743084952725, 6435901822321466, 12522947221923236, 88495273999906251),
  (910743084952725, 3217950911160733, 25956637528799197, 91713224911066984),
  (1821486169905450, 3217950911160733, 25956637528799197, 45856612455533492),
  (425021428650167, 3217950911160733, 3028331301032451, 22928306227766746),
  (850042857300334, 3217950911160733, 3028331301032451, 11464153113883373),
  (3878374158332785, 7341052012522053, 6056662602064902, 11464153113883373),
  (116737893051457, 2061550550680660, 532434197194974, 9402602563202713),
  (116737893051457, 1030775275340330, 1181606287441405, 10433377838543043),
  (116737893051457, 515387637670165, 2363212574882810, 10433377838543043),
  (2479950467934267, 5474382738106604, 14646227021502688, 32330908790969459),
  (2479950467934267, 2737191369053302, 31772404510939643, 35068100160022761),
  (1111354783407616, 1368595684526651, 29588063645264141, 36436695844549412),
  (854113882288581, 1368595684526651, 11369715722989435, 18218347922274706),
  (339632080050511, 1368595684526651, 2260541761852082, 9109173961137353),
  (2600173841902593, 5238884822832002, 4521083523704164, 9109173961137353),
  (2600173841902593, 2619442411416001, 9042167047408328, 9109173961137353),
  (5778032703034244, 5864308186276677, 14753192836713547, 14973482147414030),
  (7266451763006532, 7486741073707015, 71089823086850599, 73244977849639812),
  (7046162452306049, 7486741073707015, 34467334162030693, 36622488924819906),
  (6605583830905083, 7486741073707015, 16156089699620740, 18311244462409953),
  (4138254174364188, 5412251694351469, 9862680762467339, 12898992768058484),
  (3413184378438097, 6449496384029242, 9690625411253101, 18311244462409953),
  (188436186423476, 3224748192014621, 1258442546519725, 21535992654424574),
  (376872372846952, 3224748192014621, 1258442546519725, 10767996327212287),
  (1635314919366677, 6996372259613454, 4152200012406127, 17764368586825741),
  (1635314919366677, 3498186129806727, 8304400024812254, 17764368586825741),
  (6669085105445577, 7133091228509507, 9939714944178931, 10631277358316234),
  (4624076265020814, 5315638679158117, 20077307777444089, 23080007265983858),
  (3932513850883511, 5315638679158117, 8537304144452160, 11540003632991929),
  (4041996839260648, 8427821156075023, 5534604655912391, 11540003632991929),
  (1492607816651743, 1556091238458453, 9576601495173039, 9983912394533476),
  (4584645297906301, 4991956197266738, 24352350884376538, 26515872224792143),
  (2088667199272932, 2495978098633369, 22188829543960933, 26515872224792143),
  (1681356299912495, 2495978098633369, 8090215281608614, 12009947063079387),
  (2518609000664731, 7252962580856378, 9207701501467303, 26515872224792143),
  (2518609000664731, 3626481290428189, 20934012003599337, 30142353515220332),
  (1410736710901273, 3626481290428189, 5862835245989171, 15071176757610166),
  (5862835245989171, 7535588378805083, 32135649651748401, 41304423184453604),
  (4190082113173259, 7535588378805083, 11483438059521599, 20652211592226802),
  (844575847541435, 7535588378805083, 1157332263408198, 10326105796113401),
  (2001908110949633, 8930847087459242, 2314664526816396, 10326105796113401),
  (2001908110949633, 4465423543729621, 4629329053632792, 10326105796113401),
  (6631237164582425, 7395764669921511, 9258658107265584, 10326105796113401),
  (7028960038830553, 8860935233017456, 8191210418417767, 10326105796113401),
  (2598492422321825, 4430467616508728, 8654807463043958, 14756573412622129),
  (383258614067461, 2215233808254364, 2936300127533248, 16971807220876493),
  (383258614067461, 1107616904127182, 6255858869133957, 18079424125003675),
  (383258614067461, 553808452063591, 12894976352335375, 18633232577067266),
  (212708776071331, 553808452063591, 3578360063801742, 9316616288533633),
  (3791068839873073, 4935212370298612, 7156720127603484, 9316616288533633),
  (1323462654723767, 2467606185149306, 6320286621397102, 11784222473682939),
  (89659562149114, 1233803092574653, 946010331260379, 13018025566257592),
  (946010331260379, 6509012783128796, 3017350118079365, 20760841441961041),
  (946010331260379, 3254506391564398, 6034700236158730, 20760841441961041),
  (946010331260379, 1627253195782199, 12069400472317460, 20760841441961041),
  (264767466738559, 1627253195782199, 1556596017967660, 9566794123089421),
  (1821363484706219, 5597023659435810, 6755919005347758, 20760841441961041),
  (1821363484706219, 2798511829717905, 13511838010695516, 20760841441961041),
  (2709309719867729, 8981164806121568, 3553524859562262, 11779676635839473),
  (2709309719867729, 4490582403060784, 9816359438992253, 16270259038900257),
  (464018518337337, 2245291201530392, 3826478357421586, 18515550240430649),
  (464018518337337, 1122645600765196, 8116975233180509, 19638195841195845),
  (464018518337337, 561322800382598, 16697968984698355, 20199518641578443),
  (183357118146038, 280661400191299, 13379776445964305, 20480180041769742),
  (86052836100777, 280661400191299, 3139686425079434, 10240090020884871),
  (3225739261180211, 5260375710538085, 9505112111339079, 15500465731422956),
  (1754879245627601, 7750232865711478, 41553325461257160, 183515731621902079),
  (1754879245627601, 3875116432855739, 83106650922514320, 183515731621902079),
  (3509758491255202, 3875116432855739, 81351771676886719, 89820307594523170),
  (3144400549654665, 3875116432855739, 36441617879625134, 44910153797261585),
  (2413684666453591, 3875116432855739, 12779698647767546, 20517518682202923),
  (2044812856640363, 8321201124673592, 2997065756691806, 12196317557529331),
  (2044812856640363, 4160600562336796, 5994131513383612, 12196317557529331),
  (2044812856640363, 2080300281168398, 11988263026767224, 12196317557529331),
  (1004662716056164, 1040150140584199, 12784871212061281, 13236467698113530),
  (6166637363004516, 6618233849056765, 19469087380541677, 20894851687754494),
  (5715040876952267, 6618233849056765, 9021661536664430, 10447425843877247),
  (6203872567149691, 8532829846467006, 13799769796601304, 18980255690344253),
  (1937457643916188, 4266414923233503, 8619283902858355, 18980255690344253),
  (6681826258942167, 7356920383555375, 10556741546774543, 11623335306788878),
  (4745073893380104, 5811667653394439, 20241953814469271, 24791923343738692),
  (3678480133365769, 5811667653394439, 7845992142599925, 12395961671869346),
  (1648011306665252, 6197980835934673, 11433360453328611, 42999552669002477),
  (3296022613330504, 6197980835934673, 9785349146663359, 18400785916533902),
  (394064390726335, 6197980835934673, 584956188396408, 9200392958266951),
  (979020579122743, 7699186897100812, 2148932955915559, 16899579855367763),
  (979020579122743, 3849593448550406, 5276886490953861, 20749173303918169),
  (979020579122743, 1924796724275203, 10553772981907722, 20749173303918169),
  (33244433970283, 1924796724275203, 162564112963496, 9412188289821483),
  (195808546933779, 5668492507048343, 716745319794550, 20749173303918169),
  (520936772860771, 7540340398434913, 912553866728329, 13208832905483256),
  (912553866728329, 6604416452741628, 4692089012634858, 33958006209401425),
  (912553866728329, 3302208226370814, 9384178025269716, 33958006209401425),
  (912553866728329, 1651104113185407, 18768356050539432, 33958006209401425),
  (174003620271251, 1651104113185407, 1702351135703094, 16153451048108009),
  (1876354755974345, 8902277580646708, 9033766539329223, 42860283790048133),
  (1876354755974345, 4451138790323354, 19943887834632791, 47311422580371487),
  (1876354755974345, 2225569395161677, 39887775669265582, 47311422580371487),
  (1527140116787013, 2225569395161677, 15468494320686332, 22542926592604905),
  (828710838412349, 2225569395161677, 3782675605177705, 10158678598721614),
  (3782675605177705, 5079339299360807, 9222772887180108, 12384247993883291),
  (4273654845735764, 8731793646622049, 18882262317684217, 38579628933749438),
  (8547309691471528, 8731793646622049, 18882262317684217, 19289814466874719),
  (5055942216086354, 5279010410126335, 13418767952407361, 14010804056748384),
  (6413365924033169, 7005402028374192, 17659605870112711, 19289814466874719),
  (2910664909846073, 3502701014187096, 18940062183196776, 22792515481061815),
  (1159314402752525, 1751350507093548, 16246923288084262, 24543865988155363),
  (283639149205751, 875675253546774, 7949980588013161, 24543865988155363),
  (283639149205751, 437837626773387, 15899961176026322, 24543865988155363),
  (129440671638115, 437837626773387, 3563307846129583, 12053014180690988),
  (3563307846129583, 6026507090345494, 7385497035535396, 12490851807464375),
  (550054300956836, 3013253545172747, 2280142263606417, 12490851807464375),
  (2830196564563253, 7752052676318561, 7390481091776087, 20242904483782936),
  (5660393129126506, 7752052676318561, 7390481091776087, 10121452241891468),
  (2329754970830353, 5060726120945734, 33855548202729040, 73541492248613103),
  (2329754970830353, 2530363060472867, 70040851376288433, 76071855309085970),
  (2129146881187839, 2530363060472867, 32004923721745448, 38035927654542985),
  (1727930701902811, 2530363060472867, 12122994543522550, 17752782297035059),
  (2783854223338643, 7611209618281096, 3709352566671398, 10141572678753963),
  (2783854223338643, 3805604809140548, 7418705133342796, 10141572678753963),
  (881051818768369, 1902802404570274, 4695837587931629, 10141572678753963),
  (881051818768369, 951401202285137, 10272726994631627, 11092973881039100),
  (4726240054112077, 5546486940519550, 24441902705811986, 28683835904882887),
  (1952996583852302, 2773243470259775, 22152966090593387, 31457079375142662),
  (1132749697444829, 2773243470259775, 6424426403022056, 15728539687571331),
  (5291676705577227, 6477648108655778, 7557176100466885, 9250891578915553),
  (2052852651249338, 3238824054327889, 7916313273267555, 12489715633243442),
  (1671455456645834, 6244857816621721, 4209792161462455, 15728539687571331),
  (2538336704816621, 4741840935474805, 5881247618108289, 10986698752096526),
  (387898242060026, 5493349376048263, 1110628958278489, 15728539687571331),
  (722730716218463, 5117595155761534, 1498527200338515, 10610944531809797),
  (722730716218463, 2558797577880767, 2997054400677030, 10610944531809797),
  (3719785116895493, 6584871054845282, 5994108801354060, 10610944531809797),
  (427349589472852, 3292435527422641, 1804622660371175, 13903380059232438),
  (1804622660371175, 6951690029616219, 60407246971194479, 232698206504757868),
  (3609245320742350, 6951690029616219, 60407246971194479, 116349103252378934),
  (266800611868481, 6951690029616219, 2232695345005012, 58174551626189467),
  (533601223736962, 6951690029616219, 1965894733136531, 25611430798286624),
  (1067202447473924, 6951690029616219, 1965894733136531, 12805715399143312),
  (1965894733136531, 6402857699571656, 15895668026903565, 51771693926617811),
  (1965894733136531, 3201428849785828, 31791336053807130, 51771693926617811),
  (365180308243617, 1600714424892914, 12176158489240066, 53372408351510725),
  (365180308243617, 800357212446457, 24352316978480132, 53372408351510725),
  (730360616487234, 800357212446457, 23987136670236515, 26286025569532134),
  (660364020528011, 800357212446457, 10844123885470448, 13143012784766067),
  (4532802907392197, 6971684998606262, 13078037893567026, 20114697783372329),
  (1046960408089066, 3485842499303131, 6041378003761723, 20114697783372329),
  (4994417595672657, 8314427642034599, 7088338411850789, 11800270141337730),
  (1188203341181924, 5900135070668865, 9991830937584183, 49615373136716654),
  (2376406682363848, 5900135070668865, 9991830937584183, 24807686568358327),
  (4752813364727696, 5900135070668865, 7615424255220335, 9453775748844731),
  (4691282210191233, 7676955409756798, 15159637181978405, 24807686568358327),
  (852804505312834, 3838477704878399, 6364392300911317, 28646164273236726),
  (1705609010625668, 3838477704878399, 6364392300911317, 14323082136618363),
  (4658783290285649, 5242302215869982, 8070001311536985, 9080779920748381),
  (2037632182350658, 2621151107934991, 7059222702325589, 9080779920748381),
  (3245889370334561, 5850965514341686, 349101938739366263, 629283124440967097),
  (320406613163718, 2925482757170843, 68920753037765429, 629283124440967097),
  (640813226327436, 2925482757170843, 68600346424601711, 313178820841898127),
  (1281626452654872, 2925482757170843, 67959533198274275, 155126669042363642),
  (2563252905309744, 2925482757170843, 67959533198274275, 77563334521181821),
  (2201023053448645, 2925482757170843, 28077354410959042, 37318925882005489),
  (1476563349726447, 2925482757170843, 8679609795093074, 17196721562417323),
  (67427042743387, 7135619402623240, 95070985025438, 10061102159794083),
  (67427042743387, 3567809701311620, 190141970050876, 10061102159794083),
  (67427042743387, 1783904850655810, 380283940101752, 10061102159794083),
  (67427042743387, 891952425327905, 760567880203504, 10061102159794083),
  (827994922946891, 5476527292560994, 3177125606300790, 21014156744916071),
  (827994922946891, 2738263646280497, 6354251212601580, 21014156744916071),
  (1655989845893782, 2738263646280497, 5526256289654689, 9137946549317787),
  (1244141037749329, 5938105097799142, 18088399520732868, 86333312820706633),
  (1244141037749329, 2969052548899571, 37420940079215065, 89302365369606204),
  (2488282075498658, 2969052548899571, 37420940079215065, 44651182684803102),
  (2007511602097745, 2969052548899571, 15095348736813514, 22325591342401551),
  (1045970655295919, 2969052548899571, 3409567737964779, 9678269396750990),
  (3409567737964779, 4839134698375495, 12320644524486175, 17486456644026056),
  (3577416202473147, 8743228322013028, 12712249384973504, 31068819664414579),
  (3577416202473147, 4371614161006514, 25424498769947008, 31068819664414579),
  (1391609121969890, 2185807080503257, 19780177875479437, 31068819664414579),
  (597411163436523, 2185807080503257, 3947062461553886, 14441506291955661),
  (4544473624990409, 8313656686229459, 39705440298040635, 72637103095561874),
  (775290563751359, 8313656686229459, 3386888750259698, 36318551547780937),
  (1550581127502718, 8313656686229459, 2611598186508339, 14002447430775739),
  (1061017059005621, 2844395372273140, 4162179314011057, 11158052058502599),
  (1061017059005621, 1422197686136570, 8324358628022114, 11158052058502599),
  (349918215937336, 711098843068285, 5490665197541629, 11158052058502599),
  (5840583413478965, 5934575450785442, 46024830875957048, 46765504763215251),
  (2873295688086244, 2967287725392721, 45284156988698845, 46765504763215251),
  (2779303650779767, 2967287725392721, 20511752781701336, 21899108518911265),
  (2591319576166813, 2967287725392721, 8266538734162297, 9465910396759272),
  (3533583535782661, 4732955198379636, 9282518498506227, 12433198122151993),
  (1167105936592843, 2366477599189818, 6131838874860461, 12433198122151993),
  (1167105936592843, 1183238799594909, 13430783686313765, 13616436921746902),
  (6622565225440314, 6808218460873451, 411750017050890245, 423292783373748871),
  (6436911990007177, 6808218460873451, 196885169369012221, 208242282456437710),
  (6065605519140903, 6808218460873451, 92764028140793366, 104121141228218855),
  (5322992577408355, 6808218460873451, 38041961237979761, 48656461383672702),
  (3837766693943259, 6808218460873451, 13713730546143410, 24328230691836351),
  (1115957736718701, 8760006115481450, 1983272663731768, 15568224576354901),
  (1115957736718701, 4380003057740725, 3966545327463536, 15568224576354901),
  (2850587590744835, 5594110759307088, 5082503064182237, 9974113817047813),
  (53532211091291, 2797055379653544, 190892311316661, 9974113817047813),
  (53532211091291, 1398527689826772, 381784622633322, 9974113817047813),
  (53532211091291, 699263844913386, 763569245266644, 9974113817047813),
  (53532211091291, 349631922456693, 1527138490533288, 9974113817047813),
  (1580670701624579, 5161872869752253, 3054276981066576, 9974113817047813),
  (4634947682691155, 7567993343400033, 6108553962133152, 9974113817047813),
  (1972448064600384, 8771053580223923, 2242994107218491, 9974113817047813),
  (270546042618107, 601530118411945, 4215442171818875, 9372583698635868),
  (4215442171818875, 4686291849317934, 8971976428873964, 9974113817047813),
  (1872296247159908, 2343145924658967, 9842135287860023, 12317259741706780),
  (3683505417006633, 6158629870853390, 8768457403674115, 14660405666365747),
  (604190481579938, 3079314935426695, 3480699622562421, 17739720601792442),
  (3480699622562421, 8869860300896221, 11650479830847139, 29688895838115358),
  (6961399245124842, 8869860300896221, 11650479830847139, 14844447919057679),
  (1701786776641568, 2987293809080729, 6754724965995031, 11857154109976950),
  (826147911006556, 5928577054988475, 2068575566215519, 14844447919057679),
  (1242427655208963, 4457935432034602, 2894723477222075, 10386512487023077),
  (1242427655208963, 2228967716017301, 7031874609653113, 12615480203040378),
  (724134508132924, 6307740101520189, 3152425626932321, 27459928122098057),
  (1448269016265848, 6307740101520189, 2428291118799397, 10576094010288934),
  (2428291118799397, 5288047005144467, 7753120270130490, 16883834111809123),
  (5324829151331093, 5797893553332328, 10181411388929887, 11085940558476795),
  (2425882374664929, 2898946776666164, 11702764594047908, 13984887335142959),
  (976408986331847, 1449473388333082, 10397050839284704, 15434360723476041),
  (251672292165306, 724736694166541, 5359740955093367, 15434360723476041),
  (5611413247258673, 8079548708821291, 16330895157445407, 23513909432297332),
  (3143277785696055, 8079548708821291, 4573940441296741, 11756954716148666),
  (4573940441296741, 5878477358074333, 24582317336579074, 31593458141118623),
  (3269403524519149, 5878477358074333, 7150886503760188, 12857490391522145),
  (391976462517133, 3489506516723906, 1052306153481098, 9367983874798239),
  (391976462517133, 1744753258361953, 2104612306962196, 9367983874798239),
  (2496588769479329, 5556368566580096, 4209224613924392, 9367983874798239),
  (2496588769479329, 2778184283290048, 8418449227848784, 9367983874798239),
  (1107496627834305, 1389092141645024, 8576411208733634, 10757076016443263),
  (412950557011793, 694546070822512, 6395746401024005, 10757076016443263),
  (65677521600537, 347273035411256, 2100094307205284, 11104349051854519),
  (65677521600537, 173636517705628, 4265866136011105, 11277985569560147),
  (65677521600537, 86818258852814, 8531732272022210, 11277985569560147),
  (22268392174130, 43409129426407, 5807747366658403, 11321394698986554),
  (147050017165126, 5660697349493277, 2648027963894121, 101935961420305393),
  (294100034330252, 5660697349493277, 2500977946728995, 48137632035406058),
  (588200068660504, 5660697349493277, 2500977946728995, 24068816017703029),
  (1176400137321008, 5660697349493277, 1912777878068491, 9204059334104876),
  (1912777878068491, 4602029667052438, 8091133908847489, 19466786350650591),
  (1912777878068491, 2301014833526219, 16182267817694978, 19466786350650591),
  (5686604181064301, 8582885758562186, 7211145103675064, 10883900592088405),
  (1395161301783208, 4291442879281093, 4933550917044931, 15175343471369498),
  (4933550917044931, 7587671735684749, 52125831774015726, 80168160236128583),
  (2279430098405113, 7587671735684749, 10902036606748878, 36290244250221917),
  (4558860196810226, 7587671735684749, 8622606508343765, 14351286257268584),
  (1446963379709473, 7175643128634292, 4423975417354649, 21938957992953333),
  (1446963379709473, 3587821564317146, 8847950834709298, 21938957992953333),
  (1446963379709473, 1793910782158573, 17695901669418596, 21938957992953333),
  (1100015977260373, 1793910782158573, 6176414684311743, 10072523605397380),
  (1140152881613053, 5036261802698690, 2686426935588279, 11866434387555953),
  (1140152881613053, 2518130901349345, 5372853871176558, 11866434387555953),
  (6513006752789611, 7192282644452649, 30284728000721949, 33443282320913900),
  (5833730861126573, 7192282644452649, 13563086840264999, 16721641160456950),
  (5202266260036524, 8360820580228475, 295802089639845841, 475398235137247249),
  (2043711939844573, 8360820580228475, 57081116101299930, 233518707278509387),
  (4087423879689146, 8360820580228475, 55037404161455357, 112578943349140456),
  (8174847759378292, 8360820580228475, 55037404161455357, 56289471674570228),
  (7988874938528109, 8360820580228475, 26892668324170243, 28144735837285114),
  (7616929296827743, 8360820580228475, 12820300405527686, 14072367918642557),
  (2347597439492902, 2855773669207041, 9220635452919913, 11216594249435516),
  (3612338328202155, 5608297124717758, 9064097866183073, 14072367918642557),
  (808189765843276, 2804148562358879, 4864017579566865, 16876516481001436),
  (4864017579566865, 8438258240500718, 108624766282157582, 188445829853374675),
  (644888459316506, 4219129120250359, 29448591170256995, 192664958973625034),
  (1289776918633012, 4219129120250359, 29448591170256995, 96332479486812517),
  (2579553837266024, 4219129120250359, 28158814251623983, 46056675183281079),
  (939978554281689, 4219129120250359, 4660487382842599, 20918773031515360),
  (1879957108563378, 4219129120250359, 4660487382842599, 10459386515757680),
  (4660487382842599, 5229693257878840, 22401863748497152, 25137902151765719),
  (2045640753903179, 2614846628939420, 21711466099131764, 27752748780705139),
  (738217439433469, 1307423314469710, 16408400856991858, 29060172095174849),
  (84505782198614, 653711657234855, 3756629618808867, 29060172095174849),
  (169011564397228, 653711657234855, 3672123836610253, 14203230218969997),
  (3841135401007481, 7428470938102426, 26549924678257911, 51345584909482127),
  (126899931956268, 3714235469051213, 1881164378989963, 55059820378533340),
  (253799863912536, 3714235469051213, 1881164378989963, 27529910189266670),
  (507599727825072, 3714235469051213, 1881164378989963, 13764955094633335),
  (2388764106815035, 8739595281842274, 3762328757979926, 13764955094633335),
  (2388764106815035, 4369797640921137, 7524657515959852, 13764955094633335),
  (438314682288718, 4697578726856099, 846045254997651, 9067376367777236),
  (846045254997651, 4533688183888618, 16951489209532805, 90837654220739841),
  (846045254997651, 2266844091944309, 34749023674063261, 93104498312684150),
  (1692090509995302, 2266844091944309, 34749023674063261, 46552249156342075),
  (1117336928046295, 2266844091944309, 10914230631869076, 22142702532198883),
  (2234673856092590, 2266844091944309, 9796893703822781, 9937929220127287),
  (5929180903879573, 6102386656035798, 45230943610795713, 46552249156342075),
  (2877987575861674, 3051193328017899, 43909638065249351, 46552249156342075),
  (2704781823705449, 3051193328017899, 19281122575225589, 21750527914162088),
  (2358370319392999, 3051193328017899, 8405858618144545, 10875263957081044),
  (2968226639604023, 5437631978540522, 16506680508788214, 30239353220720509),
  (249410650333762, 2718815989270261, 3023418447189681, 32958169209990770),
  (498821300667524, 2718815989270261, 3023418447189681, 16479084604995385),
  (2524597146522157, 6880134307862562, 3522239747857205, 9598950297132823),
  (2524597146522157, 3440067153931281, 9569076642236567, 13039017451064104),
  (3049567916704515, 6519508725532052, 10757830889226578, 22998593330527437),
  (3049567916704515, 3259754362766026, 24565229695157671, 26258347693293463),
  (1419690735321502, 1629877181383013, 24291802432343381, 27888224874676476),
  (1209504289259991, 1629877181383013, 10347689995005143, 13944112437338238),
  (3375633776336024, 6972056218669119, 48048004265841305, 99238664242750679),
  (6751267552672048, 6972056218669119, 44672370489505281, 46133304012040780),
  (6530478886674977, 6972056218669119, 21605718483484891, 23066652006020390),
  (6088901554680835, 6972056218669119, 10072392480474696, 11533326003010195),
  (1702856033623323, 2280634892170538, 6908602924315874, 9252691110839657),
  (562538587538054, 1140317446085269, 5127053325330145, 10393008556924926),
  (5127053325330145, 5196504278462463, 21633290476396688, 21926334559935121),
  (8141322010330214, 8364915140736329, 13198924382528041, 13561419419198792),
  (6418214672928645, 6780709709599396, 27172372898710034, 28707044269534517),
  (3027859818128947, 3390354854799698, 28665561346014498, 32097399124334215),
  (1332682390729098, 1695177427399849, 26566405958423879, 33792576551734064),
  (970187354058347, 1695177427399849, 9670117682556847, 16896288275867032),
  (1221973544623331, 8448144137933516, 7577038548456831, 52384042255000945),
  (1221973544623331, 4224072068966758, 16376050641536993, 56608114323967703),
  (1221973544623331, 2112036034483379, 33974074827697317, 58720150358451082),
  (331911054763283, 2112036034483379, 4613999648471776, 29360075179225541),
  (663822109526566, 2112036034483379, 4282088593708493, 13624019572371081),
  (4945910703235059, 7868027803427230, 23401909297122163, 37228102982652771),
  (1011896801521444, 3934013901713615, 10587612413112999, 41162116884366386),
  (2023793603042888, 3934013901713615, 10587612413112999, 20581058442183193),
  (240296539835322, 8323522270234789, 353869844207483, 12257536171948404),
  (353869844207483, 6128768085974202, 1188332768085610, 20581058442183193),
  (353869844207483, 3064384042987101, 2376665536171220, 20581058442183193),
  (2022795691963737, 8758337199598046, 2730535380378703, 11822721242585147),
  (2022795691963737, 4379168599799023, 5461070760757406, 11822721242585147),
  (7483866452721143, 8100944921192085, 10922141521514812, 11822721242585147),
  (1577386908097138, 1860888160696531, 8444174892347339, 9961833081888616),
  (3463258351403031, 4980916540944308, 8220402358303807, 11822721242585147),
  (972800080930877, 2490458270472154, 4618083474022467, 11822721242585147),
  (972800080930877, 1245229135236077, 9236166948044934, 11822721242585147),
  (3674991840065199, 6533975188910612, 17674588173700318, 31424646809316983),
  (408004245609893, 3266987594455306, 3924529538083653, 31424646809316983),
  (408004245609893, 1633493797227653, 8257063321777199, 33058140606544636),
  (816008491219786, 1633493797227653, 8257063321777199, 16529070303272318),
  (8257063321777199, 8264535151636159, 133745030130874756, 133866056223406197),
  (8249591491918239, 8264535151636159, 62687206273212538, 62800760535885019),
  (8234647832200319, 8264535151636159, 27169502089169869, 27268112692124430),
  (8204760512764479, 8264535151636159, 13535445743107654, 13634056346062215),
  (2645924633130147, 2684760597213028, 10790910507022946, 10949295748849187),
  (1303544334523633, 1342380298606514, 10632525265196705, 10949295748849187),
  (632354185220376, 671190149303257, 10948108966764599, 11620485898152444),
  (5137866017688377, 5810242949076222, 16007116274202626, 18101918996531923),
  (2232744543150266, 2905121474538111, 13912313551873329, 18101918996531923),
  (4081170247726157, 7598398760996906, 5641537859488578, 10503520235535017),
  (281970867227704, 3799199380498453, 1061526350669843, 14302719616033470),
  (1061526350669843, 7151359808016735, 10117678890483995, 68161437652649068),
  (2123052701339686, 7151359808016735, 10117678890483995, 34080718826324534),
  (4246105402679372, 7151359808016735, 10117678890483995, 17040359413162267),
  (927073685231857, 4944499802572766, 2267924682573866, 12095859610589501),
  (927073685231857, 2472249901286383, 5462923050379589, 14568109511875884),
  (5462923050379589, 7284054755937942, 29168762622361659, 38892523680976093),
  (1820895672410618, 3642027377968971, 21265897236157843, 42534551058945064),
  (3641791344821236, 3642027377968971, 21265897236157843, 21267275529472532),
  (3641555311673501, 3642027377968971, 10632259471421577, 10633637764736266),
  (5315440589053444, 5316818882368133, 62110929724965915, 62127035084018434),
  (5314062295738755, 5316818882368133, 31047412182956698, 31063517542009217),
  (5311305709109377, 5316818882368133, 12860000557397401, 12873349329820542),
  (6423325892487130, 6436674664910271, 24575770213312011, 24626842877098946),
  (6409977120063989, 6436674664910271, 12262348774762538, 12313421438549473),
  (2913998267878948, 2938373386819601, 9297277843096655, 9375048051729872),
  (4609753817231719, 4687524025864936, 16718884600633452, 17000945464414409),
  (2265991804299251, 2343762012932468, 16436823736852495, 17000945464414409),
  (1094110797833017, 1171881006466234, 15872702009290581, 17000945464414409),
  (508170294599900, 585940503233117, 15252628848766653, 17586885967647526),
  (6459185864942890, 8793442983823763, 19807957680795353, 26966269454704406),
  (4124928746062017, 8793442983823763, 6324822953443150, 13483134727352203),
  (2199894207381133, 2344845871764220, 10449751699505167, 11138288855587983),
  (1027471271499023, 1172422935882110, 10788685814921374, 12310711791470093),
  (441259803557968, 586211467941055, 9707919641930623, 12896923259411148),
  (3259458012225049, 6448461629705574, 91561132481476253, 181143137099697127),
  (35227197372262, 3224230814852787, 1979127863255379, 181143137099697127),
  (70454394744524, 3224230814852787, 1943900665883117, 88959453142422170),
  (140908789489048, 3224230814852787, 1943900665883117, 44479726571211085),
  (281817578978096, 3224230814852787, 1802991876394069, 20627747878179149),
  (1521174297415973, 8701758531663181, 2084809455372165, 11925989346515968),
  (2084809455372165, 5962994673257984, 25975252603925761, 74294699937501005),
  (2084809455372165, 2981497336628992, 54035314663223687, 77276197274129997),
  (594060787057669, 1490748668314496, 30794432052317377, 77276197274129997),
  (594060787057669, 745374334157248, 62182924891692423, 78021571608287245),
  (221373619979045, 372687167078624, 46344278175097601, 78021571608287245),
  (35030036439733, 186343583539312, 14666984741907957, 78021571608287245),
  (35030036439733, 93171791769656, 29333969483815914, 78021571608287245),
  (35030036439733, 46585895884828, 58667938967631828, 78021571608287245),
  (11737088497319, 23292947942414, 39326043415473730, 78044864556229659),
  (90614526112, 11646473971207, 607312889243913, 78056511030200866),
  (181229052224, 11646473971207, 607312889243913, 39028255515100433),
  (362458104448, 11646473971207, 607131660191689, 19508304520564613),
  (724916208896, 11646473971207, 606769202087241, 9748329023296703),
  (607494118296137, 4879987748633955, 4858503113951304, 39028255515100433),
  (1214988236592274, 4879987748633955, 4251008995655167, 17074133883233239),
  (3036020759062893, 6097073067299642, 5465997232247441, 10977060815933597),
  (3036020759062893, 3048536533649821, 10931994464494882, 10977060815933597),
  (6955216548766066, 7012798674791709, 10886928113056167, 10977060815933597),
  (8847214916459580, 8994929745362653, 10796795410178737, 10977060815933597),
  (958514958433685, 991065535285472, 9658015045990192, 9985995280648125),
  (462982190790949, 495532767642736, 9330034811332259, 9985995280648125),
  (215215806969581, 247766383821368, 8674074342016393, 9985995280648125),
  (91332615058897, 123883191910684, 7453486018443558, 10109878472558809),
  (29391019103555, 61941595955342, 4797093564328307, 10109878472558809),
  (29391019103555, 30970797977671, 9623578147760169, 10140849270536480),
  (4553153512491929, 5070424635268240, 13687271777705226, 15242244703782391),
  (2017941194857809, 2535212317634120, 12132298851628061, 15242244703782391),
  (750335036040749, 1267606158817060, 9772688035514480, 16509850862599451),
  (116531956632219, 633803079408530, 3152057165061728, 17143653942007981),
  (116531956632219, 316901539704265, 6304114330123456, 17143653942007981),
  (6420646286755675, 8730277740856123, 12608228660246912, 17143653942007981),
  (1980894272915308, 4206688100575929, 6091909105570535, 12936965841432052),
  (6091909105570535, 6468482920716026, 16145606756971686, 17143653942007981),
  (2857667645212522, 3234241460358013, 15147559571935391, 17143653942007981),
  (5335185685897885, 6954706240824984, 7816279515964916, 10188947701182997),
  (1857832565485393, 3477353120412492, 5443611330746835, 10188947701182997),
  (119156005279147, 1738676560206246, 817430965589820, 11927624261389243),
  (119156005279147, 869338280103123, 1754017936458787, 12796962541492366),
  (1754017936458787, 6398481270746183, 10762419629311016, 39260225904580221),
  (3508035872917574, 6398481270746183, 9008401692852229, 16430872316917019),
  (484170296849237, 5016195523085418, 1101760771938202, 11414676793831601),
  (484170296849237, 2508097761542709, 2203521543876404, 11414676793831601),
  (2687691840725641, 6961387277687155, 4407043087752808, 11414676793831601),
  (1719351247027167, 2226644758072223, 7094734928478449, 9188032035759378),
  (2500718910598760, 4594016017879689, 36222122484364751, 66542869008387869),
  (407421803317831, 4594016017879689, 2746977078511901, 30974426495254090),
  (814843606635662, 4594016017879689, 2746977078511901, 15487213247627045),
  (1932133471876239, 5446598614873678, 3561820685147563, 10040614632753367),
  (1932133471876239, 2723299307436839, 7123641370295126, 10040614632753367),
  (2673817872076262, 6381956970095103, 1402613415203721911, 3347804109992492236),
  (5347635744152524, 6381956970095103, 1402613415203721911, 1673902054996246118),
  (4313314518209945, 6381956970095103, 565662387705598852, 836951027498123059),
  (2244672066324787, 6381956970095103, 146064537923374929, 415284535264013978),
  (4489344132649574, 6381956970095103, 146064537923374929, 207642267632006989),
  (2596731295204045, 6381956970095103, 40945038459769412, 100630155330955943),
  (5193462590408090, 6381956970095103, 38348307164565367, 47124099180430420),
  (4004968210721077, 6381956970095103, 14786257574350157, 23562049590215210),
  (1627979451347051, 6381956970095103, 3005232779242552, 11781024795107605),
  (1377253327895501, 2699533912506251, 4633212230589603, 9081490882601354),
  (92466789288926, 4540745441300677, 332373111151529, 16321770236408282),
  (332373111151529, 8160885118204141, 20127320247669592, 494193852533549137),
  (664746222303058, 8160885118204141, 19794947136518063, 243016483707672498),
  (1329492444606116, 8160885118204141, 19794947136518063, 121508241853836249),
  (2658984889212232, 8160885118204141, 18465454691911947, 56673678367816054),
  (5317969778424464, 8160885118204141, 18465454691911947, 28336839183908027),
  (2475054438644787, 8160885118204141, 3059507880635540, 10087977032851943),
  (584453441990753, 963545957323901, 5534562319280327, 9124431075528042),
  (972346781516306, 4562215537764021, 9928828741820665, 46585701334964111),
  (1944693563032612, 4562215537764021, 8956481960304359, 21011742898600045),
  (7011788397271747, 8224763680418012, 10901175523336971, 12786979218182033),
  (2899406557062741, 4112381840209006, 9015371828491909, 12786979218182033),
  (843215636958238, 2056190920104503, 5243764438801785, 12786979218182033),
  (6086980075760023, 7421585069143268, 83531289786723846, 101846000047901249),
  (2376187541188389, 3710792534571634, 65216579525546443, 101846000047901249),
  (520791273902572, 1855396267285817, 28587159003191637, 101846000047901249),
  (1041582547805144, 1855396267285817, 28066367729289065, 49995301890307716),
  (227768828324471, 1855396267285817, 3068716784135207, 24997650945153858),
  (455537656648942, 1855396267285817, 3068716784135207, 12498825472576929),
  (3524254440784149, 7177110869931373, 6137433568270414, 12498825472576929),
  (2613179127486265, 2660857301322778, 9661688009054563, 9837968171254151),
  (1282750476824876, 1330428650661389, 9485407846854975, 9837968171254151),
  (5183959912722081, 5584198410957770, 14316807435177880, 15422166582211921),
  (2391860707243196, 2792099205478885, 13211448288143839, 15422166582211921),
  (4504553892534125, 6315033688366518, 6496176101541632, 9107132893845403),
  (1347037048350866, 3157516844183259, 3885219309237861, 9107132893845403),
  (5232256357588727, 6132324869014331, 7770438618475722, 9107132893845403),
  (5382966094634582, 7619728881429867, 6433744343106041, 9107132893845403),
  (3453279550102988, 8363430887637635, 3760355792366679, 9107132893845403),
  (7213635342469667, 8735281890741519, 36375252954612026, 44048260456811479),
  (5691988794197815, 8735281890741519, 11505128329107379, 17656489283034980),
  (2676883687589889, 8828244641517490, 10679346760423778, 35220015815293989),
  (2676883687589889, 4414122320758745, 24035577208437445, 39634138136052734),
  (939645054421033, 4414122320758745, 4218508140411078, 19817069068026367),
  (3278863085990045, 7701473373633811, 5158153194832111, 12115595694392556),
  (5158153194832111, 6057797847196278, 22032185756476423, 25874866915222645),
  (2129254271233972, 3028898923598139, 18189504597730201, 25874866915222645),
  (1229609618869805, 3028898923598139, 4637266330683976, 11422983995812253),
  (5866875949553781, 7225941459705196, 62076416207351981, 76456457133159017),
  (2253905219701183, 3612970729852598, 49950280501246128, 80069427863011615),
  (447419854774884, 1806485364926299, 19831133139480641, 80069427863011615),
  (894839709549768, 1806485364926299, 19383713284705757, 39131471249042658),
  (1789679419099536, 1806485364926299, 19383713284705757, 19565735624521329),
  (8714408735808706, 8879625129797515, 10487282209081479, 10686110494723814),
  (5144226961719572, 5343055247361907, 23981873226978613, 24908790871883236),
  (4945398676077237, 5343055247361907, 11527477791036995, 12454395435941618),
  (5300280073066186, 6227197717970809, 25748862397057311, 30251846119245143),
  (4373362428161563, 6227197717970809, 8436258123353958, 12012324200637167),
  (1170332453859216, 2892563241333179, 3689859592211533, 9119760959303988),
  (3689859592211533, 4559880479651994, 83517575936372158, 103209933793677047),
  (1409919352385536, 2279940239825997, 65235137431452805, 105489874033503044),
  (539898464945075, 2279940239825997, 12490200414701283, 52744937016751522),
  (1079796929890150, 2279940239825997, 12490200414701283, 26372468508375761),
  (2159593859780300, 2279940239825997, 11410403484811133, 12046264134274882),
  (5387271417673692, 6023132067137441, 18201061732755679, 20349336441238320),
  (4751410768209943, 6023132067137441, 8026393512136519, 10174668220619160),
  (2939059401826939, 5087334110309580, 44626521094859591, 77245809611471561),
  (395392346672149, 2543667055154790, 12007232578247621, 77245809611471561),
  (395392346672149, 1271833527577395, 24014465156495242, 77245809611471561),
  (790784693344298, 1271833527577395, 23619072809823093, 37986988041947083),
  (309735859111201, 1271833527577395, 4470710859293951, 18357577257184844),
  (619471718222402, 1271833527577395, 4470710859293951, 9178788628592422),
  (4470710859293951, 4589394314296211, 19121786873620608, 19629410784762239),
  (7131067779093643, 7520008235233014, 11483095183385334, 12109402549529225),
  (3371063661477136, 3760004117616507, 10856787817241443, 12109402549529225),
  (6293148145145713, 7934703333572866, 53656210100973652, 67652325884539287),
  (2325796478359280, 3967351666786433, 39660094317408017, 67652325884539287),
  (684241289932127, 3967351666786433, 5491810730172310, 31842487108876427),
  (1368482579864254, 3967351666786433, 4807569440240183, 13937567721044997),
  (6176052020104437, 8952459693915715, 96079867161942484, 139272003435865007),
  (3399644346293159, 8952459693915715, 24744043270863401, 65159771870974646),
  (6799288692586318, 8952459693915715, 24744043270863401, 32579885935487323),
  (4646117691256921, 8952459693915715, 6131041457491279, 11813713120785804),
  (224184897098377, 5906856560392902, 1012330379893258, 26673029375094421),
  (224184897098377, 2953428280196451, 2024660759786516, 26673029375094421),
  (448369794196754, 2953428280196451, 1800475862688139, 11859800547448985),
  (2248845656884893, 7406614413822718, 12596334352915850, 41486258202739857),
  (2248845656884893, 3703307206911359, 27441514362716593, 45189565409651216),
  (794384106858427, 3703307206911359, 4846731657890985, 22594782704825608),
  (1588768213716854, 3703307206911359, 4846731657890985, 11297391352412804),
  (4846731657890985, 5648695676206402, 211586997716746063, 246597221283786645),
  (2022383819787784, 2824347838103201, 178599157969493265, 249421569121889846),
  (1220419801472367, 2824347838103201, 53888373408548342, 124710784560944923),
  (2440839602944734, 2824347838103201, 52667953607075975, 60943218361420861),
  (2057331367786267, 2824347838103201, 21167678742472411, 29059435261658830),
  (1290314897469333, 2824347838103201, 6637961111642996, 14529717630829415),
  (7928276009112329, 8677032734466308, 21204198232398321, 23206750365295723),
  (3589759641879175, 4338516367233154, 19201646099500919, 23206750365295723),
  (1420501458262598, 2169258183616577, 16617043291968713, 25376008548912300),
  (671744732908619, 2169258183616577, 3929039017512563, 12688004274456150),
  (3929039017512563, 6344002137228075, 17059645535867490, 27545266732528877),
  (1514075897797051, 6344002137228075, 2529974220704526, 10600632297650401),
  (4044050118501577, 8472317217439238, 77852850574437438, 163102342211556685),
  (4044050118501577, 4236158608719619, 155705701148874876, 163102342211556685),
  (3851941628283535, 4236158608719619, 72228559228954766, 79433091801418533),
  (3467724647847451, 4236158608719619, 30778151004321774, 37598466596349457),
  (2699290686975283, 4236158608719619, 10629272362659404, 16681153993814919),
  (1707483983136471, 6222497692547650, 2869906748367418, 10458656301267269),
  (1707483983136471, 3111248846273825, 5739813496734836, 10458656301267269),
  (662344906100760, 6784952573770547, 1020970692202403, 10458656301267269),
  (1683315598303163, 8621804437518908, 2041941384404806, 10458656301267269),
  (1683315598303163, 4310902218759454, 5767198367112775, 14769558520026723),
  (1683315598303163, 2155451109379727, 13217712332528713, 16925009629406450),
  (4755207517825488, 8462504814703225, 44008047747655991, 78317994441708752),
  (1047910220947751, 8462504814703225, 4849050526801615, 39158997220854376),
  (2095820441895502, 8462504814703225, 4849050526801615, 19579498610427188),
  (4191640883791004, 8462504814703225, 4849050526801615, 9789749305213594),
  (4849050526801615, 4894874652606797, 90817140723209463, 91675373909018774),
  (4803226400996433, 4894874652606797, 44979453768700076, 45837686954509387),
  (4711578149386069, 4894874652606797, 19704821216752348, 20471406150951295),
  (7204977318194030, 7788265749172249, 11733258964359371, 12683140401779046),
  (5391688763469848, 6341570200889523, 65930265285384139, 77545537958957002),
  (4441807326050173, 6341570200889523, 27157496305905638, 38772768979478501),
  (2542044451210823, 6341570200889523, 6500089590560976, 16215599389294489),
  (3958045139350153, 4937014594202483, 9042134041771799, 11278584795092006),
  (3402841644225796, 5639292397546003, 37007492126755783, 61329938569662513),
  (1166390890905589, 5639292397546003, 5759327396471732, 27845323086058255),
  (2332781781811178, 5639292397546003, 4592936505566143, 11103015344256126),
  (4592936505566143, 5551507672128063, 13851436574754642, 16742307741802129),
  (3663100034351466, 5595400034837033, 7297465373355689, 11146907706965096),
  (1724011519873141, 5573453853482548, 6902834593485322, 22315761595284677),
  (1724011519873141, 2786726926741274, 15529680706843785, 25102488522025951),
  (330648056502504, 1393363463370637, 5956872891661619, 25102488522025951),
  (661296113005008, 1393363463370637, 5626224835159115, 11854562529327657),
  (6287520948164123, 6623962996349147, 48977575359302968, 51598340507422539),
  (5951078899979099, 6623962996349147, 20202865655602149, 22487188755536696),
  (5278194803609051, 6623962996349147, 8959271277833801, 11243594377768348),
  (3337474088949627, 5621797188884174, 23957271144566717, 40354746129654191),
  (526575494507540, 2810898594442087, 8086371653986783, 43165644724096278),
  (1053150989015080, 2810898594442087, 8086371653986783, 21582822362048139),
  (2106301978030160, 2810898594442087, 7033220664971703, 9385961883803026),
  (2340239723070190, 4692980941901513, 6082184807758613, 12196860478245113),
  (8422424530828803, 8444920710073313, 770182577390109496, 772239724384843283),
  (8399928351584293, 8444920710073313, 379862751021895708, 381897401837384985),
  (8354935993095273, 8444920710073313, 184736582106655579, 186726240563655836),
  (8264951276117233, 8444920710073313, 91373461824827661, 93363120281827918),
  (8084981842161153, 8444920710073313, 44691901683913702, 46681560140913959),
  (7725042974248993, 8444920710073313, 17488600126332226, 19118319715420323),
  (4426857649409728, 5336699502673505, 11432022887834401, 13781620212746818),
  (4541212781460992, 6890810106373409, 39846718047833887, 60463180353660777),
  (2191615456548575, 6890810106373409, 8519320142729211, 26786185123643684),
  (4383230913097150, 6890810106373409, 8519320142729211, 13393092561821842),
  (1822773861818290, 6696546280910921, 10989521028912341, 40373541510928014),
  (3645547723636580, 6696546280910921, 10989521028912341, 20186770755464007),
  (598861067999218, 6745112237276543, 1193410234361457, 13441658518187464),
  (1193410234361457, 6720829259093732, 3584542604721350, 20186770755464007),
  (1193410234361457, 3360414629546866, 7169085209442700, 20186770755464007),
  (1193410234361457, 1680207314773433, 15531580653246857, 21866978070237440),
  (706613153949481, 1680207314773433, 4598091618128137, 10933489035118720),
  (4598091618128137, 5466744517559360, 47394142489180332, 56347652490367033),
  (1864719359348457, 2733372258779680, 40305351847342088, 59081024749146713),
  (498033229958617, 1366686129389840, 22027712175496080, 60447710878536553),
  (498033229958617, 683343064694920, 44553457580950777, 61131053943231473),
  (156361697611157, 341671532347460, 27975861218670081, 61131053943231473),
  (156361697611157, 170835766173730, 55951722437340162, 61131053943231473),
  (70943814524292, 85417883086865, 50843334745973143, 61216471826318338),
  (56469745961719, 85417883086865, 20235098832813974, 30608235913159169),
  (27521608836573, 85417883086865, 4917220071816103, 15261409015036152),
  (4917220071816103, 7630704507518076, 14806703433121455, 22977531405641093),
  (1101867818057065, 3815352253759038, 6635875460601817, 22977531405641093),
  (1101867818057065, 1907676126879519, 14373618739260699, 24885207532520612),
  (296059509234611, 1907676126879519, 1931014973000393, 12442603766260306),
  (1931014973000393, 6221301883130153, 73970687992484156, 238317147685825333),
  (3862029946000786, 6221301883130153, 72039673019483763, 116047922901347590),
  (1502758008871419, 6221301883130153, 14015711568809968, 58023961450673795)]

theorem certs_len : certs.length = 1004 := by decide +kernel

theorem certs_ok : certs.zipIdx.all (fun c => ok 53 62 c.2 c.1) = true := by decide +kernel

/-- The product of a 53-bit integer with the digits of 2/π that matter for the exponent `e0 = i - 3` is at least `2^-62`
quadrants away from every multiple of a quadrant. -/
theorem away (i : ℕ) (hi : i ≤ 1003) (M m : ℤ) (h0 : 0 < M) (h1 : M < 2 ^ 53) :
    (2 : ℤ) ^ (224 + 24 * jvOf i - i - 62) ≤ |M * (A (jvOf i) : ℤ) - m * 2 ^ (224 + 24 * jvOf i - i)| := by
  have hl : i < certs.length := by rw [certs_len]; omega
  have hmem : (certs[i], i) ∈ certs.zipIdx := by
    rw [List.mk_mem_zipIdx_iff_getElem?]
    exact List.getElem?_eq_getElem hl
  exact ok_spec (List.all_eq_true.1 certs_ok _ hmem) M m h0 h1

set_option maxRecDepth 20000 in
/-- the same for 24-bit integers and the exponents `e0` from 5 to 104 -/
def certs24 : List (ℕ × ℕ × ℕ × ℕ) := [
  (3227901, 8681057, 7204801, 19376458),
  (7204801, 9688229, 49684608, 66810431),
  (4721373, 9688229, 13918706, 28561101),
  (9197333, 9436436, 18640079, 19124665),
  (4479115, 4718218, 18155493, 19124665),
  (2120006, 2359109, 19306327, 21483774),
  (8564440, 10741887, 618520583, 775774973),
  (6386993, 10741887, 227439600, 382516543),
  (2032099, 10741887, 35165279, 185887328),
  (4064198, 10741887, 35165279, 92943664),
  (8128396, 10741887, 35165279, 46471832),
  (5514905, 10741887, 11929363, 23235916),
  (311405, 11617958, 5893213, 219865131),
  (311405, 5808979, 12097831, 225674110),
  (622810, 5808979, 12097831, 112837055),
  (1245620, 5808979, 11475021, 53514038),
  (2491240, 5808979, 11475021, 26757019),
  (13966261, 16282999, 22950042, 26757019),
  (3746771, 5237010, 15396294, 21520009),
  (1128266, 2618505, 9272579, 21520009),
  (10400845, 12069257, 18545158, 21520009),
  (3418937, 4725376, 12151370, 16794633),
  (1056249, 2362688, 7508107, 16794633),
  (1056249, 1181344, 15016214, 16794633),
  (465577, 590672, 13703372, 17385305),
  (170241, 295336, 10191680, 17680641),
  (22573, 147668, 2702719, 17680641),
  (22573, 73834, 5428011, 17754475),
  (22573, 36917, 10878595, 17791392),
  (1982899, 8895696, 25785916, 115680965),
  (1982899, 4447848, 51571832, 115680965),
  (1982899, 2223924, 105126563, 117904889),
  (870937, 1111962, 92348237, 117904889),
  (314956, 555981, 66791585, 117904889),
  (73931, 555981, 7802175, 58674454),
  (147862, 555981, 7802175, 29337227),
  (7950037, 14946604, 23554387, 44283831),
  (476735, 7473302, 2824943, 44283831),
  (476735, 3736651, 6126621, 48020482),
  (953470, 3736651, 6126621, 24010241),
  (7080091, 13873446, 12253242, 24010241),
  (143368, 6936723, 639611, 30946964),
  (639611, 15473482, 1565958, 37883687),
  (639611, 7736741, 3131916, 37883687),
  (2492305, 15073473, 3771527, 22810214),
  (3771527, 11405107, 23842245, 72099008),
  (7543054, 11405107, 23842245, 36049504),
  (3681001, 11405107, 5817493, 18024752),
  (5817493, 9012376, 135346848, 209677379),
  (1311305, 4506188, 62327622, 214183567),
  (1311305, 2253094, 124655244, 214183567),
  (184758, 1126547, 35126921, 214183567),
  (369516, 1126547, 34942163, 106528510),
  (739032, 1126547, 34942163, 53264255),
  (351517, 1126547, 8134277, 26068854),
  (8134277, 13034427, 25105865, 40229828),
  (3234127, 13034427, 4990951, 20114914),
  (4990951, 10057457, 116269176, 234298481),
  (9981902, 10057457, 111278225, 112120512),
  (9906347, 10057457, 55217969, 56060256),
  (9755237, 10057457, 27187841, 28030128),
  (13172777, 14015064, 114835233, 122177969),
  (6165245, 7007532, 113657742, 129185501),
  (2661479, 3503766, 98129983, 129185501),
  (909596, 1751883, 67984061, 130937384),
  (67309, 1751883, 2515369, 65468692),
  (134618, 1751883, 2515369, 32734346),
  (2515369, 16367173, 148676007, 967415090),
  (5030738, 16367173, 148676007, 483707545),
  (10061476, 16367173, 143645269, 233670186),
  (3755779, 16367173, 26810176, 116835093),
  (7511558, 16367173, 23054397, 50233960),
  (15023116, 16367173, 23054397, 25116980),
  (10495907, 12558490, 76654501, 91718113),
  (4216662, 6279245, 61590889, 91718113),
  (2154079, 6279245, 14654793, 42719434),
  (4308158, 6279245, 14654793, 21359717),
  (5143470, 13819481, 13093339, 35179198),
  (10286940, 13819481, 13093339, 17589599),
  (7675739, 15704540, 8597079, 17589599),
  (7675739, 7852270, 17194158, 17589599),
  (3749604, 3926135, 16798717, 17589599),
  (9790454, 10757867, 16007835, 17589599),
  (11624556, 14173733, 119047075, 145153196),
  (9075379, 14173733, 46470477, 72576598),
  (3977025, 14173733, 10182178, 36288299),
  (6205153, 11057283, 14159203, 25231016),
  (1543695, 12615508, 4440413, 36288299),
  (1543695, 6307754, 10424521, 42596053),
  (1543695, 3153877, 20849042, 42596053),
  (3087390, 3153877, 19305347, 19721088),
  (9444803, 9860544, 21910509, 22874965),
  (4514531, 4930272, 20946053, 22874965),
  (2049395, 2465136, 19017141, 22874965),
  (816827, 1232568, 15976144, 24107533),
  (200543, 616284, 8045298, 24723817),
  (200543, 308142, 16090596, 24723817),
  (46472, 154071, 7503847, 24877888),
  (7503847, 12438944, 37612179, 62348791),
  (1284375, 6219472, 12875567, 62348791)]

theorem certs24_len : certs24.length = 100 := by decide +kernel

theorem certs24_ok : certs24.zipIdx.all (fun c => ok 24 30 (c.2 + 8) c.1) = true := by decide +kernel

/-- The product of a 24-bit integer with the digits of 2/π that matter for the exponent `e0 = i - 3` is at least `2^-30`
quadrants away from every multiple of a quadrant. -/
theorem away24 (i : ℕ) (hi : 8 ≤ i) (hi2 : i ≤ 107) (M m : ℤ) (h0 : 0 < M) (h1 : M < 2 ^ 24) :
    (2 : ℤ) ^ (195 + 24 * jvOf i - i - 30) ≤ |M * (A (jvOf i) : ℤ) - m * 2 ^ (195 + 24 * jvOf i - i)| := by
  have hl : i - 8 < certs24.length := by rw [certs24_len]; omega
  have hmem : (certs24[i - 8], i - 8) ∈ certs24.zipIdx := by
    rw [List.mk_mem_zipIdx_iff_getElem?]
    exact List.getElem?_eq_getElem hl
  have := List.all_eq_true.1 certs24_ok _ hmem
  simp only [Nat.sub_add_cancel hi] at this
  exact ok_spec this M m h0 h1
end CF
end Verif
