import Verif.Conformance.Eval

/-!
# The numbers in `tests/test_KaonUAModelB.py`

For every `expected_value` in that file: the model built with the arguments of the test, called at the test's `t`, returns a
number that the test's `cmath.isclose(actual, expected, abs_tol=1.0e-15)` accepts. Decimal literals are read exactly. The
long integers approximate square roots and values of the conformal variable in units of `2 ^ -120`; they are checked, not
trusted.
-/

namespace UA
namespace Conformance

open Complex Ball

/-- The model built at `tests/test_KaonUAModelB.py:10-38` (`test___call__`). -/
noncomputable def b1 : KaonArgs := .b {
  t_0_isoscalar := 1,
  t_0_isovector := 0.1,
  t_in_isoscalar := 4.5,
  t_in_isovector := 14.7,
  a_omega := 0.21,
  a_omega_double_prime := 0.12,
  a_phi := 0.15,
  a_phi_prime := 0.07,
  a_rho := 0.34,
  a_rho_prime := 0.03,
  mass_omega := 1.4,
  decay_rate_omega := 0.001,
  mass_omega_double_prime := 1.6,
  decay_rate_omega_double_prime := 0.001,
  mass_phi := 2,
  decay_rate_phi := 0.01,
  mass_phi_prime := 2.2,
  decay_rate_phi_prime := 0.01,
  mass_phi_double_prime := 2.4,
  decay_rate_phi_double_prime := 0.01,
  mass_rho := 3.1,
  decay_rate_rho := 0.1,
  mass_rho_prime := 3.2,
  decay_rate_rho_prime := 0.1,
  mass_rho_double_prime := 3.3,
  decay_rate_rho_double_prime := 0.1 }

def b1S : Ball × Ball × Ball × List ResB :=
  ((ofRat (1) 0 1), ((ofRat (9) 0 2) - (ofRat (1) 0 1)).sqrt 2486757874567675950026827032449833550 0, ⟨-332960514119876919641537488772335086, -1, 1048623, false, true⟩,
   [⟨ofRat (21) 0 100, .A, ⟨-321758552118559632979649390014831, -375912005969132418088126459584108047, 47454237, false, true⟩⟩,
    ⟨ofRat (3) 0 25, .A, ⟨-350392127031280753978431393046135, -508693058348880035150343780062491701, 64064192, false, true⟩⟩,
    ⟨ofRat (3) 0 20, .A, ⟨-7874060044059710836713020892858938, -892978243104185103101382817841871943, 1673121, false, true⟩⟩,
    ⟨ofRat (7) 0 100, .B, ⟨-392114538569299161478059602101059322, -1257350328406772680177172048362739883, 1074036, false, true⟩⟩,
    ⟨ofRat (-1) 0 20, .B, ⟨-681044653483284573950861828795983724, -1135006962510334502615425984743950663, 1067103, false, true⟩⟩])

theorem b1S_ok : ChanOK (1) (4.5) [⟨0.21, 1.4, 0.001⟩, ⟨0.12, 1.6, 0.001⟩, ⟨0.15, 2, 0.01⟩, ⟨0.07, 2.2, 0.01⟩, ⟨1 / 2 - (0.21 + 0.12 + 0.15 + 0.07), 2.4, 0.01⟩]
    b1S.1 b1S.2.1 b1S.2.2.1 b1S.2.2.2 := by
  have h0 : Mem (((1 : ℝ)) : ℂ) (ofRat (1) 0 1) := mem_real (by norm_num)
  have hA := mem_sqrt_real (x := 4.5) (y := 1) (X := (ofRat (9) 0 2)) (mem_real (by norm_num)) h0 (by norm_num) 2486757874567675950026827032449833550
  refine ⟨h0, hA, (mem_Wval h0 hA mem_zero ⟨0, 1329227995784915872903807060280344576, 1172268904183899755306327946274351284, 626604086375011748815192115827148585⟩).within (by decide +kernel), ?_⟩
  exact .cons ⟨mem_real (by norm_num), by norm_num [Res.var], (mem_Wval h0 hA (mem_pole (M := (ofRat (7) 0 5)) (G := (ofRat (1) 0 1000)) (mem_real (by norm_num)) (mem_real (by norm_num))) ⟨-1302372313243577609882319022664267688, 949646220798888001247257869113927, 743149638952469974797615494721314457, 391055999220037882682565820113775⟩).within (by decide +kernel)⟩ (
    .cons ⟨mem_real (by norm_num), by norm_num [Res.var], (mem_Wval h0 hA (mem_pole (M := (ofRat (8) 0 5)) (G := (ofRat (1) 0 1000)) (mem_real (by norm_num)) (mem_real (by norm_num))) ⟨-1660205319893528459429684331022887619, 851387256073457213378109664010070, 593430212615133480014413992719893663, 366546918693931170475865951581916⟩).within (by decide +kernel)⟩ (
    .cons ⟨mem_real (by norm_num), by norm_num [Res.var], (mem_Wval h0 hA (mem_pole (M := (ofRat (2) 0 1)) (G := (ofRat (1) 0 100)) (mem_real (by norm_num)) (mem_real (by norm_num))) ⟨-2302293621130262813533451314903544669, 7674290753196752479056543758628444, 260925834907411431930925340205236468, 5634475559938252222872186830693170⟩).within (by decide +kernel)⟩ (
    .cons ⟨mem_real (by norm_num), by norm_num [Res.var], (mem_Wval h0 hA (mem_pole (M := (ofRat (11) 0 5)) (G := (ofRat (1) 0 100)) (mem_real (by norm_num)) (mem_real (by norm_num))) ⟨-2604746481246338823331817577474014715, 7461500707455671314851511655705018, 6246583315163009734087668480018268, 202452403415427615176900326131398822⟩).within (by decide +kernel)⟩ (
    .cons ⟨mem_real (by norm_num), by norm_num [Res.var], (mem_Wval h0 hA (mem_pole (M := (ofRat (12) 0 5)) (G := (ofRat (1) 0 100)) (mem_real (by norm_num)) (mem_real (by norm_num))) ⟨-2900034708058696113808043433169176291, 7311003802272936260240896217936091, 3006588465313783736481763823188684, 368191855137393340086051967971105922⟩).within (by decide +kernel)⟩ (
    .nil)))))

def b1V : Ball × Ball × Ball × List ResB :=
  ((ofRat (1) 0 10), ((ofRat (147) 0 10) - (ofRat (1) 0 10)).sqrt 5078973040464421603988318875246040629 0, ⟨-54909982338855774784866431219278422, -1, 1048755, false, true⟩,
   [⟨ofRat (17) 0 50, .A, ⟨-18604581334496880483797498842624156, -674131468317704493823510233142812333, 1064337, false, true⟩⟩,
    ⟨ofRat (3) 0 100, .A, ⟨-20346466816229337894785056889449782, -712941469838053132744333870879164429, 1064375, false, true⟩⟩,
    ⟨ofRat (13) 0 100, .A, ⟨-22607605748006384702743258815004271, -755683796606964124368943694592627758, 1065843, false, true⟩⟩])

theorem b1V_ok : ChanOK (0.1) (14.7) [⟨0.34, 3.1, 0.1⟩, ⟨0.03, 3.2, 0.1⟩, ⟨1 / 2 - (0.34 + 0.03), 3.3, 0.1⟩]
    b1V.1 b1V.2.1 b1V.2.2.1 b1V.2.2.2 := by
  have h0 : Mem (((0.1 : ℝ)) : ℂ) (ofRat (1) 0 10) := mem_real (by norm_num)
  have hA := mem_sqrt_real (x := 14.7) (y := 0.1) (X := (ofRat (147) 0 10)) (mem_real (by norm_num)) h0 (by norm_num) 5078973040464421603988318875246040629
  refine ⟨h0, hA, (mem_Wval h0 hA mem_zero ⟨0, 420338799634102815186760061431442430, 1324699096772839304603173426720612422, 109632877311543988610151583216431203⟩).within (by decide +kernel), ?_⟩
  exact .cons ⟨mem_real (by norm_num), by norm_num [Res.var], (mem_Wval h0 hA (mem_pole (M := (ofRat (31) 0 10)) (G := (ofRat (1) 0 10)) (mem_real (by norm_num)) (mem_real (by norm_num))) ⟨-4099117224572994784398073784515343930, 66809822709858636413102522584550403, 434504107236348732579761313629499431, 16379235953853514400846012086306612⟩).within (by decide +kernel)⟩ (
    .cons ⟨mem_real (by norm_num), by norm_num [Res.var], (mem_Wval h0 hA (mem_pole (M := (ofRat (16) 0 5)) (G := (ofRat (1) 0 10)) (mem_real (by norm_num)) (mem_real (by norm_num))) ⟨-4232714588455949921180154780198277941, 66788233521709260809565006119860451, 400963084373865437243732653701103898, 17238175377109455186154825431964373⟩).within (by decide +kernel)⟩ (
    .cons ⟨mem_real (by norm_num), by norm_num [Res.var], (mem_Wval h0 hA (mem_pole (M := (ofRat (33) 0 10)) (G := (ofRat (1) 0 10)) (mem_real (by norm_num)) (mem_real (by norm_num))) ⟨-4366270806595774997454670250693584162, 66768594666194956819162507426684956, 365461774420867642174194707066691632, 18376258568732102250466711361270441⟩).within (by decide +kernel)⟩ (
    .nil)))

theorem b1_builds (charged : Bool) : b1.Builds charged ∧ b1.Proper := by
  have hp : b1.Proper := by constructor <;> norm_num [b1, KaonArgs.t0S, KaonArgs.tinS, KaonArgs.t0V, KaonArgs.tinV]
  refine ⟨builds_of_pos ?_ ?_ hp ?_ ?_, hp⟩ <;>
    simp [b1, KaonArgs.t0S, KaonArgs.tinS, KaonArgs.t0V, KaonArgs.tinV, KaonArgs.resS, KaonArgs.resV,
      KaonUAModelB.Args.resS, KaonUAModelB.Args.resV] <;> norm_num

/-- `tests/test_KaonUAModelB.py:56`. -/
example : ∃ y, b1.run true ⟨1.7, 0⟩ = .ok y ∧ IsClose y ⟨2.833713686104681, -0.026098804207375276⟩ 1e-15 :=
  kaon_close (T := ofRat (17) (0) 10) (E := ofRat (708428421526170250) (-6524701051843819) 250000000000000000)
    (TinS := (ofRat (9) 0 2)) (TinV := (ofRat (147) 0 10))
    (b1_builds _).1 (b1_builds true).2 b1S_ok b1V_ok (by norm_num) (mem_gauss (by norm_num) (by norm_num))
    (mem_real (by norm_num [b1, KaonArgs.tinS])) (mem_real (by norm_num [b1, KaonArgs.tinV])) (mem_gauss (by norm_num) (by norm_num))
    ⟨1112111930223243774868268191090535710, 0, 2150736075977895846207464755139767750, 0⟩
    ⟨1681355198536411260747040245725769727, 0, 1874977700360359814028952537284059932, 0⟩
    (by decide +kernel)

/-- `tests/test_KaonUAModelB.py:57`. -/
example : ∃ y, b1.run false ⟨1.7, 0⟩ = .ok y ∧ IsClose y ⟨1.6349283545517954, 0.004620037297262777⟩ 1e-15 :=
  kaon_close (T := ofRat (17) (0) 10) (E := ofRat (1634928354551795400) (4620037297262777) 1000000000000000000)
    (TinS := (ofRat (9) 0 2)) (TinV := (ofRat (147) 0 10))
    (b1_builds _).1 (b1_builds true).2 b1S_ok b1V_ok (by norm_num) (mem_gauss (by norm_num) (by norm_num))
    (mem_real (by norm_num [b1, KaonArgs.tinS])) (mem_real (by norm_num [b1, KaonArgs.tinV])) (mem_gauss (by norm_num) (by norm_num))
    ⟨1112111930223243774868268191090535710, 0, 2150736075977895846207464755139767750, 0⟩
    ⟨1681355198536411260747040245725769727, 0, 1874977700360359814028952537284059932, 0⟩
    (by decide +kernel)

/-- `tests/test_KaonUAModelB.py:58`. -/
example : ∃ y, b1.run true ⟨0.4, 1.2⟩ = .ok y ∧ IsClose y ⟨0.9626535493160868, 0.3024515794728611⟩ 1e-15 :=
  kaon_close (T := ofRat (2) (6) 5) (E := ofRat (9626535493160868) (3024515794728611) 10000000000000000)
    (TinS := (ofRat (9) 0 2)) (TinV := (ofRat (147) 0 10))
    (b1_builds _).1 (b1_builds true).2 b1S_ok b1V_ok (by norm_num) (mem_gauss (by norm_num) (by norm_num))
    (mem_real (by norm_num [b1, KaonArgs.tinS])) (mem_real (by norm_num [b1, KaonArgs.tinV])) (mem_gauss (by norm_num) (by norm_num))
    ⟨809433705360492897797671831053780652, 1309691246913045466682226456122827491, 1488725079532169245989171190724141134, 853517848073823852165075058211638250⟩
    ⟨1165230286499552319294788066170105849, 909784315726707546949805264559700413, 1636846982737512793587718622697891403, 308933328855165956357916625913503984⟩
    (by decide +kernel)

/-- `tests/test_KaonUAModelB.py:59`. -/
example : ∃ y, b1.run false ⟨162.42, -0.647⟩ = .ok y ∧ IsClose y ⟨0.0255536766560733, 0.00011344168647315351⟩ 1e-15 :=
  kaon_close (T := ofRat (162420) (-647) 1000) (E := ofRat (2555367665607330000) (11344168647315351) 100000000000000000000)
    (TinS := (ofRat (9) 0 2)) (TinV := (ofRat (147) 0 10))
    (b1_builds _).1 (b1_builds true).2 b1S_ok b1V_ok (by norm_num) (mem_gauss (by norm_num) (by norm_num))
    (mem_real (by norm_num [b1, KaonArgs.tinS])) (mem_real (by norm_num [b1, KaonArgs.tinV])) (mem_gauss (by norm_num) (by norm_num))
    ⟨-16888031225663431272136052399048075634, 33844976825198492880548312310058169, 345676380669581064144452798971932, 1145992256996926699445348124901978663⟩
    ⟨-16935045163390869538366473985176404525, 33751018668164096559721303144467035, 640680229424339068945087724778226, 975485383302450111943466346397833810⟩
    (by decide +kernel)

/-- `tests/test_KaonUAModelB.py:61`. -/
example : ∃ y, b1.run true ⟨84.1, -9124.1⟩ = .ok y ∧ IsClose y ⟨-0.000005962543662602656, -0.0007201950671674711⟩ 1e-15 :=
  kaon_close (T := ofRat (841) (-91241) 10) (E := ofRat (-1490635915650664) (-180048766791867775) 250000000000000000000)
    (TinS := (ofRat (9) 0 2)) (TinV := (ofRat (147) 0 10))
    (b1_builds _).1 (b1_builds true).2 b1S_ok b1V_ok (by norm_num) (mem_gauss (by norm_num) (by norm_num))
    (mem_real (by norm_num [b1, KaonArgs.tinS])) (mem_real (by norm_num [b1, KaonArgs.tinV])) (mem_gauss (by norm_num) (by norm_num))
    ⟨-90189752476219395403662161570484755824, 89372067563857102628912951285423543046, 18072968000453979376824795797618801, 1310741757770971700162614959040326631⟩
    ⟨-90194200551962868398875110281861349473, 89367660032957754011772494071790234968, 36390880033070769214825296368135317, 1291496241376325658467377969866263141⟩
    (by decide +kernel)

/-- `tests/test_KaonUAModelB.py:63`. -/
example : ∃ y, b1.run false ⟨0, 62.4⟩ = .ok y ∧ IsClose y ⟨-0.012181619593386869, -0.05928607568642251⟩ 1e-15 :=
  kaon_close (T := ofRat (0) (312) 5) (E := ofRat (-12181619593386869) (-59286075686422510) 1000000000000000000)
    (TinS := (ofRat (9) 0 2)) (TinV := (ofRat (147) 0 10))
    (b1_builds _).1 (b1_builds true).2 b1S_ok b1V_ok (by norm_num) (mem_gauss (by norm_num) (by norm_num))
    (mem_real (by norm_num [b1, KaonArgs.tinS])) (mem_real (by norm_num [b1, KaonArgs.tinV])) (mem_gauss (by norm_num) (by norm_num))
    ⟨7365411268114338713337213872999907442, 7484392441156733962457974161897747879, 267313976605516178954508417615153756, 1541238426255387342263988078076857375⟩
    ⟨7418716658219482181627914242650094864, 7430615153634393386512021470368543198, 647637132857685761178398926784524780, 1696531421859167314472832721538277855⟩
    (by decide +kernel)

/-- The model built at `tests/test_KaonUAModelB.py:73-101` (`test___call___2`). -/
noncomputable def b2 : KaonArgs := .b {
  t_0_isoscalar := 0.17531851630709158,
  t_0_isovector := 0.07791934058092959,
  t_in_isoscalar := 4.5,
  t_in_isovector := 14.7,
  a_omega := 0.21,
  a_omega_double_prime := 0.12,
  a_phi := 0.15,
  a_phi_prime := 0.07,
  a_rho := 0.34,
  a_rho_prime := 0.03,
  mass_omega := 1.4,
  decay_rate_omega := 0.001,
  mass_omega_double_prime := 1.6,
  decay_rate_omega_double_prime := 0.001,
  mass_phi := 2,
  decay_rate_phi := 0.01,
  mass_phi_prime := 2.2,
  decay_rate_phi_prime := 0.01,
  mass_phi_double_prime := 2.4,
  decay_rate_phi_double_prime := 0.01,
  mass_rho := 3.1,
  decay_rate_rho := 0.1,
  mass_rho_prime := 3.2,
  decay_rate_rho_prime := 0.1,
  mass_rho_double_prime := 3.3,
  decay_rate_rho_double_prime := 0.1 }

def b2S : Ball × Ball × Ball × List ResB :=
  ((ofRat (8765925815354579) 0 50000000000000000), ((ofRat (9) 0 2) - (ofRat (8765925815354579) 0 50000000000000000)).sqrt 2764245066119182461232125662125004448 0, ⟨-132486090673452862209735553633815624, -1, 1048665, false, true⟩,
   [⟨ofRat (21) 0 100, .A, ⟨-247410440103760113716581449882191, -483415411063906615474238638645897871, 88566403, false, true⟩⟩,
    ⟨ofRat (3) 0 25, .A, ⟨-296085709820844052335347403468915, -591128161223299222765764343541597199, 91943924, false, true⟩⟩,
    ⟨ofRat (3) 0 20, .A, ⟨-7171135649908139062098125415721714, -932752098290141195493794214477568031, 1735956, false, true⟩⟩,
    ⟨ofRat (7) 0 100, .B, ⟨-356044013298737163756237444440177015, -1269103937852773231995427266424240499, 1079155, false, true⟩⟩,
    ⟨ofRat (-1) 0 20, .B, ⟨-628891282820213804614491229591239934, -1165046054837265635442555986576149068, 1066428, false, true⟩⟩])

theorem b2S_ok : ChanOK (0.17531851630709158) (4.5) [⟨0.21, 1.4, 0.001⟩, ⟨0.12, 1.6, 0.001⟩, ⟨0.15, 2, 0.01⟩, ⟨0.07, 2.2, 0.01⟩, ⟨1 / 2 - (0.21 + 0.12 + 0.15 + 0.07), 2.4, 0.01⟩]
    b2S.1 b2S.2.1 b2S.2.2.1 b2S.2.2.2 := by
  have h0 : Mem (((0.17531851630709158 : ℝ)) : ℂ) (ofRat (8765925815354579) 0 50000000000000000) := mem_real (by norm_num)
  have hA := mem_sqrt_real (x := 4.5) (y := 0.17531851630709158) (X := (ofRat (9) 0 2)) (mem_real (by norm_num)) h0 (by norm_num) 2764245066119182461232125662125004448
  refine ⟨h0, hA, (mem_Wval h0 hA mem_zero ⟨0, 556561771898219817252374821959199314, 1303077620742886897623524998673202996, 262365735372287796887663573537111309⟩).within (by decide +kernel), ?_⟩
  exact .cons ⟨mem_real (by norm_num), by norm_num [Res.var], (mem_Wval h0 hA (mem_pole (M := (ofRat (7) 0 5)) (G := (ofRat (1) 0 1000)) (mem_real (by norm_num)) (mem_real (by norm_num))) ⟨-1775741896903594984609562475025091662, 696493644431938810766884345661111, 620242071175144055634651642849398463, 266086117883593947477229216881070⟩).within (by decide +kernel)⟩ (
    .cons ⟨mem_real (by norm_num), by norm_num [Res.var], (mem_Wval h0 hA (mem_pole (M := (ofRat (8) 0 5)) (G := (ofRat (1) 0 1000)) (mem_real (by norm_num)) (mem_real (by norm_num))) ⟨-2052648901387721052727887916753614220, 688611506267392723260522139282834, 510896312748541326818852671318125306, 283715346271773778423057491316417⟩).within (by decide +kernel)⟩ (
    .cons ⟨mem_real (by norm_num), by norm_num [Res.var], (mem_Wval h0 hA (mem_pole (M := (ofRat (2) 0 1)) (G := (ofRat (1) 0 100)) (mem_real (by norm_num)) (mem_real (by norm_num))) ⟨-2599544051927482450000206173625599480, 6796757544725280732007024467624302, 232969046932595630142327651101610716, 4952619580763156630425685427913822⟩).within (by decide +kernel)⟩ (
    .cons ⟨mem_real (by norm_num), by norm_num [Res.var], (mem_Wval h0 hA (mem_pole (M := (ofRat (11) 0 5)) (G := (ofRat (1) 0 100)) (mem_real (by norm_num)) (mem_real (by norm_num))) ⟨-2870850126307508987440740773146709380, 6769882389353413410050407336053100, 5692317128018906891712827156759763, 182921350228766316220894477920414463⟩).within (by decide +kernel)⟩ (
    .cons ⟨mem_real (by norm_num), by norm_num [Res.var], (mem_Wval h0 hA (mem_pole (M := (ofRat (12) 0 5)) (G := (ofRat (1) 0 100)) (mem_real (by norm_num)) (mem_real (by norm_num))) ⟨-3141222608131006516676767517094346000, 6749653692947177252683290306302286, 2814481201935744617768298190373181, 335853192200077049728528716051634245⟩).within (by decide +kernel)⟩ (
    .nil)))))

def b2V : Ball × Ball × Ball × List ResB :=
  ((ofRat (7791934058092959) 0 100000000000000000), ((ofRat (147) 0 10) - (ofRat (7791934058092959) 0 100000000000000000)).sqrt 5082812242651440587512480375045644758 0, ⟨-48451821370515552157202556011666592, -2, 1048772, false, true⟩,
   [⟨ofRat (17) 0 50, .A, ⟨-18588231418260890705082290148375150, -674593311710469813439642152985142137, 1067349, false, true⟩⟩,
    ⟨ofRat (3) 0 100, .A, ⟨-20329813858735925695973977105517781, -713370415550947441334690901093986049, 1064776, false, true⟩⟩,
    ⟨ofRat (13) 0 100, .A, ⟨-22590275838953193575131589670122218, -756078908042590764489126419853912735, 1065714, false, true⟩⟩])

theorem b2V_ok : ChanOK (0.07791934058092959) (14.7) [⟨0.34, 3.1, 0.1⟩, ⟨0.03, 3.2, 0.1⟩, ⟨1 / 2 - (0.34 + 0.03), 3.3, 0.1⟩]
    b2V.1 b2V.2.1 b2V.2.2.1 b2V.2.2.2 := by
  have h0 : Mem (((0.07791934058092959 : ℝ)) : ℂ) (ofRat (7791934058092959) 0 100000000000000000) := mem_real (by norm_num)
  have hA := mem_sqrt_real (x := 14.7) (y := 0.07791934058092959) (X := (ofRat (147) 0 10)) (mem_real (by norm_num)) h0 (by norm_num) 5082812242651440587512480375045644758
  refine ⟨h0, hA, (mem_Wval h0 hA mem_zero ⟨0, 371041181265479875522770747947249765, 1325700438506483811608405086865772563, 96775059401174554631304382667176891⟩).within (by decide +kernel), ?_⟩
  exact .cons ⟨mem_real (by norm_num), by norm_num [Res.var], (mem_Wval h0 hA (mem_pole (M := (ofRat (31) 0 10)) (G := (ofRat (1) 0 10)) (mem_real (by norm_num)) (mem_real (by norm_num))) ⟨-4103871931750110783070146973140977490, 66732417481619717034027829526292212, 434097937033008356987216375338375130, 16357302111937847787371116982917185⟩).within (by decide +kernel)⟩ (
    .cons ⟨mem_real (by norm_num), by norm_num [Res.var], (mem_Wval h0 hA (mem_pole (M := (ofRat (16) 0 5)) (G := (ofRat (1) 0 10)) (mem_real (by norm_num)) (mem_real (by norm_num))) ⟨-4237319464671189758252494973542829547, 66715651893024847103572232415424832, 400600097130397275114283882840347686, 17216836624082718916261144213841059⟩).within (by decide +kernel)⟩ (
    .cons ⟨mem_real (by norm_num), by norm_num [Res.var], (mem_Wval h0 hA (mem_pole (M := (ofRat (33) 0 10)) (G := (ofRat (1) 0 10)) (mem_real (by norm_num)) (mem_real (by norm_num))) ⟨-4370735041459120884494122991572284766, 66700397741591188065342837541333083, 365141055417303070829804262924933568, 18355218682386181052049058601980269⟩).within (by decide +kernel)⟩ (
    .nil)))

theorem b2_builds (charged : Bool) : b2.Builds charged ∧ b2.Proper := by
  have hp : b2.Proper := by constructor <;> norm_num [b2, KaonArgs.t0S, KaonArgs.tinS, KaonArgs.t0V, KaonArgs.tinV]
  refine ⟨builds_of_pos ?_ ?_ hp ?_ ?_, hp⟩ <;>
    simp [b2, KaonArgs.t0S, KaonArgs.tinS, KaonArgs.t0V, KaonArgs.tinV, KaonArgs.resS, KaonArgs.resV,
      KaonUAModelB.Args.resS, KaonUAModelB.Args.resV] <;> norm_num

/-- `tests/test_KaonUAModelB.py:119`. -/
example : ∃ y, b2.run true ⟨1.7, 0⟩ = .ok y ∧ IsClose y ⟨2.8367557064873146, -0.027743617685714858⟩ 1e-15 :=
  kaon_close (T := ofRat (17) (0) 10) (E := ofRat (1418377853243657300) (-13871808842857429) 500000000000000000)
    (TinS := (ofRat (9) 0 2)) (TinV := (ofRat (147) 0 10))
    (b2_builds _).1 (b2_builds true).2 b2S_ok b2V_ok (by norm_num) (mem_gauss (by norm_num) (by norm_num))
    (mem_real (by norm_num [b2, KaonArgs.tinS])) (mem_real (by norm_num [b2, KaonArgs.tinV])) (mem_gauss (by norm_num) (by norm_num))
    ⟨1641304055982549290065833546611921038, 0, 2632819175282005802298009406794933060, 0⟩
    ⟨1692917142664805868475208470295912948, 0, 1879249209801986505804666440038961681, 0⟩
    (by decide +kernel)

/-- `tests/test_KaonUAModelB.py:120`. -/
example : ∃ y, b2.run false ⟨1.7, 0⟩ = .ok y ∧ IsClose y ⟨1.6371740678666105, 0.0031724417146562368⟩ 1e-15 :=
  kaon_close (T := ofRat (17) (0) 10) (E := ofRat (2046467584833263125) (3965552143320296) 1250000000000000000)
    (TinS := (ofRat (9) 0 2)) (TinV := (ofRat (147) 0 10))
    (b2_builds _).1 (b2_builds true).2 b2S_ok b2V_ok (by norm_num) (mem_gauss (by norm_num) (by norm_num))
    (mem_real (by norm_num [b2, KaonArgs.tinS])) (mem_real (by norm_num [b2, KaonArgs.tinV])) (mem_gauss (by norm_num) (by norm_num))
    ⟨1641304055982549290065833546611921038, 0, 2632819175282005802298009406794933060, 0⟩
    ⟨1692917142664805868475208470295912948, 0, 1879249209801986505804666440038961681, 0⟩
    (by decide +kernel)

/-- `tests/test_KaonUAModelB.py:121`. -/
example : ∃ y, b2.run true ⟨0.4, 1.2⟩ = .ok y ∧ IsClose y ⟨0.9635319901700389, 0.302257376647137⟩ 1e-15 :=
  kaon_close (T := ofRat (2) (6) 5) (E := ofRat (9635319901700389) (3022573766471370) 10000000000000000)
    (TinS := (ofRat (9) 0 2)) (TinV := (ofRat (147) 0 10))
    (b2_builds _).1 (b2_builds true).2 b2S_ok b2V_ok (by norm_num) (mem_gauss (by norm_num) (by norm_num))
    (mem_real (by norm_num [b2, KaonArgs.tinS])) (mem_real (by norm_num [b2, KaonArgs.tinV])) (mem_gauss (by norm_num) (by norm_num))
    ⟨1130052688600585097698625409328006455, 938105142849426706447666638481196210, 1800681741681587311198039000187905441, 716613740412549790409272691623572413⟩
    ⟨1175654022730849665420773160507789759, 901717867986854380555041451484220665, 1640697916509369567682577251880882605, 306963379751653949698821587038888518⟩
    (by decide +kernel)

/-- `tests/test_KaonUAModelB.py:122`. -/
example : ∃ y, b2.run false ⟨162.42, -0.647⟩ = .ok y ∧ IsClose y ⟨0.025559278162859647, 0.00011346805059342094⟩ 1e-15 :=
  kaon_close (T := ofRat (162420) (-647) 1000) (E := ofRat (1277963908142982350) (5673402529671047) 50000000000000000000)
    (TinS := (ofRat (9) 0 2)) (TinV := (ofRat (147) 0 10))
    (b2_builds _).1 (b2_builds true).2 b2S_ok b2V_ok (by norm_num) (mem_gauss (by norm_num) (by norm_num))
    (mem_real (by norm_num [b2, KaonArgs.tinS])) (mem_real (by norm_num [b2, KaonArgs.tinV])) (mem_gauss (by norm_num) (by norm_num))
    ⟨-16931115702027442139154293745423165907, 33758851780060968572309572849670380, 377032914943568364355502256112115, 1127339558791533811854015000811095576⟩
    ⟨-16936196966244689572333949945105517935, 33748723316988221306267612109369743, 640975594913398694735082929724800, 975264272355925859244511990484252226⟩
    (by decide +kernel)

/-- `tests/test_KaonUAModelB.py:124`. -/
example : ∃ y, b2.run true ⟨84.1, -9124.1⟩ = .ok y ∧ IsClose y ⟨-0.000005967699168267497, -0.0007208147331877005⟩ 1e-15 :=
  kaon_close (T := ofRat (841) (-91241) 10) (E := ofRat (-5967699168267497) (-720814733187700500) 1000000000000000000000)
    (TinS := (ofRat (9) 0 2)) (TinV := (ofRat (147) 0 10))
    (b2_builds _).1 (b2_builds true).2 b2S_ok b2V_ok (by norm_num) (mem_gauss (by norm_num) (by norm_num))
    (mem_real (by norm_num [b2, KaonArgs.tinS])) (mem_real (by norm_num [b2, KaonArgs.tinV])) (mem_gauss (by norm_num) (by norm_num))
    ⟨-90193828296522243842817852442698320481, 89368028878568273872272867601845522025, 20058036765814769752333867185401857, 1308679239708505048331160305046823241⟩
    ⟨-90194309684053298448459464008396126043, 89367551901085683560965318970381080385, 36417583509084221395735457888848505, 1291467726980009978511436373474899052⟩
    (by decide +kernel)

/-- `tests/test_KaonUAModelB.py:126`. -/
example : ∃ y, b2.run false ⟨0, 62.4⟩ = .ok y ∧ IsClose y ⟨-0.012187220864615354, -0.05929700651742506⟩ 1e-15 :=
  kaon_close (T := ofRat (0) (312) 5) (E := ofRat (-6093610432307677) (-29648503258712530) 500000000000000000)
    (TinS := (ofRat (9) 0 2)) (TinV := (ofRat (147) 0 10))
    (b2_builds _).1 (b2_builds true).2 b2S_ok b2V_ok (by norm_num) (mem_gauss (by norm_num) (by norm_num))
    (mem_real (by norm_num [b2, KaonArgs.tinS])) (mem_real (by norm_num [b2, KaonArgs.tinV])) (mem_gauss (by norm_num) (by norm_num))
    ⟨7414240722634221828176129609177595042, 7435100974371909225199096142013709871, 301762226786351176396951754747517387, 1564779560134599178381330937710800123⟩
    ⟨7420029354378870498225121599074625902, 7429300584714485789755801224363104551, 648243509414005509153216578799397424, 1696802131329000735788298337724316577⟩
    (by decide +kernel)

end Conformance
end UA
