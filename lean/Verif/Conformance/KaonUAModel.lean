import Verif.Conformance.Eval

/-!
# The numbers in `tests/test_KaonUAModel.py`

For every `expected_value` in that file: the model built with the arguments of the test, called at the test's `t`, returns a
number that the test's `cmath.isclose(actual, expected, abs_tol=1.0e-15)` accepts. Decimal literals are read exactly. The
long integers approximate square roots and values of the conformal variable in units of `2 ^ -120`; they are checked, not
trusted.
-/

namespace UA
namespace Conformance

open Complex Ball

/-- The model built at `tests/test_KaonUAModel.py:10-44` (`test___call__`). -/
noncomputable def full1 : KaonArgs := .full {
  t_0_isoscalar := 1,
  t_0_isovector := 0.1,
  t_in_isoscalar := 4.5,
  t_in_isovector := 14.7,
  a_omega := 0.21,
  a_omega_prime := 0.09,
  a_omega_double_prime := 0.12,
  a_phi := 0.15,
  a_phi_prime := 0.07,
  a_rho := 0.34,
  a_rho_prime := 0.03,
  a_rho_double_prime := 0.09,
  mass_omega := 1.4,
  decay_rate_omega := 0.001,
  mass_omega_prime := 1.5,
  decay_rate_omega_prime := 0.001,
  mass_omega_double_prime := 1.6,
  decay_rate_omega_double_prime := 0.001,
  mass_phi := 2,
  decay_rate_phi := 0.01,
  mass_phi_prime := 2.2,
  decay_rate_phi_prime := 0.01,
  mass_phi_double_prime := 2.4,
  decay_rate_phi_double_prime := 0.01,
  mass_rho := 3.1,
  decay_rate_rho := 0.1,
  mass_rho_prime := 3.2,
  decay_rate_rho_prime := 0.1,
  mass_rho_double_prime := 3.3,
  decay_rate_rho_double_prime := 0.1,
  mass_rho_triple_prime := 3.4,
  decay_rate_rho_triple_prime := 0.1 }

def full1S : Ball × Ball × Ball × List ResB :=
  ((ofRat (1) 0 1), ((ofRat (9) 0 2) - (ofRat (1) 0 1)).sqrt 2486757874567675950026827032449833550 0, ⟨-332960514119876919641537488772335086, -1, 1048623, false, true⟩,
   [⟨ofRat (21) 0 100, .A, ⟨-321758552118559632979649390014831, -375912005969132418088126459584108047, 47454237, false, true⟩⟩,
    ⟨ofRat (9) 0 100, .A, ⟨-329922361186078888411207279933724, -440877331277613152801616830728719885, 55154458, false, true⟩⟩,
    ⟨ofRat (3) 0 25, .A, ⟨-350392127031280753978431393046135, -508693058348880035150343780062491701, 64064192, false, true⟩⟩,
    ⟨ofRat (3) 0 20, .A, ⟨-7874060044059710836713020892858938, -892978243104185103101382817841871943, 1673121, false, true⟩⟩,
    ⟨ofRat (7) 0 100, .B, ⟨-392114538569299161478059602101059322, -1257350328406772680177172048362739883, 1074036, false, true⟩⟩,
    ⟨ofRat (-7) 0 50, .B, ⟨-681044653483284573950861828795983724, -1135006962510334502615425984743950663, 1067103, false, true⟩⟩])

theorem full1S_ok : ChanOK (1) (4.5) [⟨0.21, 1.4, 0.001⟩, ⟨0.09, 1.5, 0.001⟩, ⟨0.12, 1.6, 0.001⟩, ⟨0.15, 2, 0.01⟩, ⟨0.07, 2.2, 0.01⟩, ⟨1 / 2 - (0.21 + 0.09 + 0.12 + 0.15 + 0.07), 2.4, 0.01⟩]
    full1S.1 full1S.2.1 full1S.2.2.1 full1S.2.2.2 := by
  have h0 : Mem (((1 : ℝ)) : ℂ) (ofRat (1) 0 1) := mem_real (by norm_num)
  have hA := mem_sqrt_real (x := 4.5) (y := 1) (X := (ofRat (9) 0 2)) (mem_real (by norm_num)) h0 (by norm_num) 2486757874567675950026827032449833550
  refine ⟨h0, hA, (mem_Wval h0 hA mem_zero ⟨0, 1329227995784915872903807060280344576, 1172268904183899755306327946274351284, 626604086375011748815192115827148585⟩).within (by decide +kernel), ?_⟩
  exact .cons ⟨mem_real (by norm_num), by norm_num [Res.var], (mem_Wval h0 hA (mem_pole (M := (ofRat (7) 0 5)) (G := (ofRat (1) 0 1000)) (mem_real (by norm_num)) (mem_real (by norm_num))) ⟨-1302372313243577609882319022664267688, 949646220798888001247257869113927, 743149638952469974797615494721314457, 391055999220037882682565820113775⟩).within (by decide +kernel)⟩ (
    .cons ⟨mem_real (by norm_num), by norm_num [Res.var], (mem_Wval h0 hA (mem_pole (M := (ofRat (3) 0 2)) (G := (ofRat (1) 0 1000)) (mem_real (by norm_num)) (mem_real (by norm_num))) ⟨-1486122196975156600710155891308450530, 891673175517437237984337883569009, 667090501635600122849391167422723006, 372085266497339705976988262731906⟩).within (by decide +kernel)⟩ (
    .cons ⟨mem_real (by norm_num), by norm_num [Res.var], (mem_Wval h0 hA (mem_pole (M := (ofRat (8) 0 5)) (G := (ofRat (1) 0 1000)) (mem_real (by norm_num)) (mem_real (by norm_num))) ⟨-1660205319893528459429684331022887619, 851387256073457213378109664010070, 593430212615133480014413992719893663, 366546918693931170475865951581916⟩).within (by decide +kernel)⟩ (
    .cons ⟨mem_real (by norm_num), by norm_num [Res.var], (mem_Wval h0 hA (mem_pole (M := (ofRat (2) 0 1)) (G := (ofRat (1) 0 100)) (mem_real (by norm_num)) (mem_real (by norm_num))) ⟨-2302293621130262813533451314903544669, 7674290753196752479056543758628444, 260925834907411431930925340205236468, 5634475559938252222872186830693170⟩).within (by decide +kernel)⟩ (
    .cons ⟨mem_real (by norm_num), by norm_num [Res.var], (mem_Wval h0 hA (mem_pole (M := (ofRat (11) 0 5)) (G := (ofRat (1) 0 100)) (mem_real (by norm_num)) (mem_real (by norm_num))) ⟨-2604746481246338823331817577474014715, 7461500707455671314851511655705018, 6246583315163009734087668480018268, 202452403415427615176900326131398822⟩).within (by decide +kernel)⟩ (
    .cons ⟨mem_real (by norm_num), by norm_num [Res.var], (mem_Wval h0 hA (mem_pole (M := (ofRat (12) 0 5)) (G := (ofRat (1) 0 100)) (mem_real (by norm_num)) (mem_real (by norm_num))) ⟨-2900034708058696113808043433169176291, 7311003802272936260240896217936091, 3006588465313783736481763823188684, 368191855137393340086051967971105922⟩).within (by decide +kernel)⟩ (
    .nil))))))

def full1V : Ball × Ball × Ball × List ResB :=
  ((ofRat (1) 0 10), ((ofRat (147) 0 10) - (ofRat (1) 0 10)).sqrt 5078973040464421603988318875246040629 0, ⟨-54909982338855774784866431219278422, -1, 1048755, false, true⟩,
   [⟨ofRat (17) 0 50, .A, ⟨-18604581334496880483797498842624156, -674131468317704493823510233142812333, 1064337, false, true⟩⟩,
    ⟨ofRat (3) 0 100, .A, ⟨-20346466816229337894785056889449782, -712941469838053132744333870879164429, 1064375, false, true⟩⟩,
    ⟨ofRat (9) 0 100, .A, ⟨-22607605748006384702743258815004271, -755683796606964124368943694592627758, 1065843, false, true⟩⟩,
    ⟨ofRat (1) 0 25, .A, ⟨-25678631788587751699266854577723414, -803627307669215056521434066951767454, 1064629, false, true⟩⟩])

theorem full1V_ok : ChanOK (0.1) (14.7) [⟨0.34, 3.1, 0.1⟩, ⟨0.03, 3.2, 0.1⟩, ⟨0.09, 3.3, 0.1⟩, ⟨1 / 2 - (0.34 + 0.03 + 0.09), 3.4, 0.1⟩]
    full1V.1 full1V.2.1 full1V.2.2.1 full1V.2.2.2 := by
  have h0 : Mem (((0.1 : ℝ)) : ℂ) (ofRat (1) 0 10) := mem_real (by norm_num)
  have hA := mem_sqrt_real (x := 14.7) (y := 0.1) (X := (ofRat (147) 0 10)) (mem_real (by norm_num)) h0 (by norm_num) 5078973040464421603988318875246040629
  refine ⟨h0, hA, (mem_Wval h0 hA mem_zero ⟨0, 420338799634102815186760061431442430, 1324699096772839304603173426720612422, 109632877311543988610151583216431203⟩).within (by decide +kernel), ?_⟩
  exact .cons ⟨mem_real (by norm_num), by norm_num [Res.var], (mem_Wval h0 hA (mem_pole (M := (ofRat (31) 0 10)) (G := (ofRat (1) 0 10)) (mem_real (by norm_num)) (mem_real (by norm_num))) ⟨-4099117224572994784398073784515343930, 66809822709858636413102522584550403, 434504107236348732579761313629499431, 16379235953853514400846012086306612⟩).within (by decide +kernel)⟩ (
    .cons ⟨mem_real (by norm_num), by norm_num [Res.var], (mem_Wval h0 hA (mem_pole (M := (ofRat (16) 0 5)) (G := (ofRat (1) 0 10)) (mem_real (by norm_num)) (mem_real (by norm_num))) ⟨-4232714588455949921180154780198277941, 66788233521709260809565006119860451, 400963084373865437243732653701103898, 17238175377109455186154825431964373⟩).within (by decide +kernel)⟩ (
    .cons ⟨mem_real (by norm_num), by norm_num [Res.var], (mem_Wval h0 hA (mem_pole (M := (ofRat (33) 0 10)) (G := (ofRat (1) 0 10)) (mem_real (by norm_num)) (mem_real (by norm_num))) ⟨-4366270806595774997454670250693584162, 66768594666194956819162507426684956, 365461774420867642174194707066691632, 18376258568732102250466711361270441⟩).within (by decide +kernel)⟩ (
    .cons ⟨mem_real (by norm_num), by norm_num [Res.var], (mem_Wval h0 hA (mem_pole (M := (ofRat (17) 0 5)) (G := (ofRat (1) 0 10)) (mem_real (by norm_num)) (mem_real (by norm_num))) ⟨-4499789539263431066591307500222678372, 66750677646468730505899949374533838, 327322256760495405215580942168054994, 19944130249021595150910471967710166⟩).within (by decide +kernel)⟩ (
    .nil))))

theorem full1_builds (charged : Bool) : full1.Builds charged ∧ full1.Proper := by
  have hp : full1.Proper := by constructor <;> norm_num [full1, KaonArgs.t0S, KaonArgs.tinS, KaonArgs.t0V, KaonArgs.tinV]
  refine ⟨builds_of_pos ?_ ?_ hp ?_ ?_, hp⟩ <;>
    simp [full1, KaonArgs.t0S, KaonArgs.tinS, KaonArgs.t0V, KaonArgs.tinV, KaonArgs.resS, KaonArgs.resV,
      KaonUAModel.Args.resS, KaonUAModel.Args.resV] <;> norm_num

/-- `tests/test_KaonUAModel.py:62`. -/
example : ∃ y, full1.run true ⟨1.7, 0⟩ = .ok y ∧ IsClose y ⟨3.073269926471771, -0.02695425107525793⟩ 1e-15 :=
  kaon_close (T := ofRat (17) (0) 10) (E := ofRat (307326992647177100) (-2695425107525793) 100000000000000000)
    (TinS := (ofRat (9) 0 2)) (TinV := (ofRat (147) 0 10))
    (full1_builds _).1 (full1_builds true).2 full1S_ok full1V_ok (by norm_num) (mem_gauss (by norm_num) (by norm_num))
    (mem_real (by norm_num [full1, KaonArgs.tinS])) (mem_real (by norm_num [full1, KaonArgs.tinV])) (mem_gauss (by norm_num) (by norm_num))
    ⟨1112111930223243774868268191090535710, 0, 2150736075977895846207464755139767750, 0⟩
    ⟨1681355198536411260747040245725769727, 0, 1874977700360359814028952537284059932, 0⟩
    (by decide +kernel)

/-- `tests/test_KaonUAModel.py:63`. -/
example : ∃ y, full1.run false ⟨1.7, 0⟩ = .ok y ∧ IsClose y ⟨1.8755035816025236, 0.0038004114642766432⟩ 1e-15 :=
  kaon_close (T := ofRat (17) (0) 10) (E := ofRat (586094869250788625) (1187628582586451) 312500000000000000)
    (TinS := (ofRat (9) 0 2)) (TinV := (ofRat (147) 0 10))
    (full1_builds _).1 (full1_builds true).2 full1S_ok full1V_ok (by norm_num) (mem_gauss (by norm_num) (by norm_num))
    (mem_real (by norm_num [full1, KaonArgs.tinS])) (mem_real (by norm_num [full1, KaonArgs.tinV])) (mem_gauss (by norm_num) (by norm_num))
    ⟨1112111930223243774868268191090535710, 0, 2150736075977895846207464755139767750, 0⟩
    ⟨1681355198536411260747040245725769727, 0, 1874977700360359814028952537284059932, 0⟩
    (by decide +kernel)

/-- `tests/test_KaonUAModel.py:64`. -/
example : ∃ y, full1.run true ⟨0.4, 1.2⟩ = .ok y ∧ IsClose y ⟨0.9475875980415935, 0.33143141222536704⟩ 1e-15 :=
  kaon_close (T := ofRat (2) (6) 5) (E := ofRat (47379379902079675) (16571570611268352) 50000000000000000)
    (TinS := (ofRat (9) 0 2)) (TinV := (ofRat (147) 0 10))
    (full1_builds _).1 (full1_builds true).2 full1S_ok full1V_ok (by norm_num) (mem_gauss (by norm_num) (by norm_num))
    (mem_real (by norm_num [full1, KaonArgs.tinS])) (mem_real (by norm_num [full1, KaonArgs.tinV])) (mem_gauss (by norm_num) (by norm_num))
    ⟨809433705360492897797671831053780652, 1309691246913045466682226456122827491, 1488725079532169245989171190724141134, 853517848073823852165075058211638250⟩
    ⟨1165230286499552319294788066170105849, 909784315726707546949805264559700413, 1636846982737512793587718622697891403, 308933328855165956357916625913503984⟩
    (by decide +kernel)

/-- `tests/test_KaonUAModel.py:65`. -/
example : ∃ y, full1.run false ⟨162.42, -0.647⟩ = .ok y ∧ IsClose y ⟨0.027789176727690115, 0.00011725561280149965⟩ 1e-15 :=
  kaon_close (T := ofRat (162420) (-647) 1000) (E := ofRat (555783534553802300) (2345112256029993) 20000000000000000000)
    (TinS := (ofRat (9) 0 2)) (TinV := (ofRat (147) 0 10))
    (full1_builds _).1 (full1_builds true).2 full1S_ok full1V_ok (by norm_num) (mem_gauss (by norm_num) (by norm_num))
    (mem_real (by norm_num [full1, KaonArgs.tinS])) (mem_real (by norm_num [full1, KaonArgs.tinV])) (mem_gauss (by norm_num) (by norm_num))
    ⟨-16888031225663431272136052399048075634, 33844976825198492880548312310058169, 345676380669581064144452798971932, 1145992256996926699445348124901978663⟩
    ⟨-16935045163390869538366473985176404525, 33751018668164096559721303144467035, 640680229424339068945087724778226, 975485383302450111943466346397833810⟩
    (by decide +kernel)

/-- `tests/test_KaonUAModel.py:67`. -/
example : ∃ y, full1.run true ⟨84.1, -9124.1⟩ = .ok y ∧ IsClose y ⟨-0.000005691108792051046, -0.0006893509534412159⟩ 1e-15 :=
  kaon_close (T := ofRat (841) (-91241) 10) (E := ofRat (-2845554396025523) (-344675476720607950) 500000000000000000000)
    (TinS := (ofRat (9) 0 2)) (TinV := (ofRat (147) 0 10))
    (full1_builds _).1 (full1_builds true).2 full1S_ok full1V_ok (by norm_num) (mem_gauss (by norm_num) (by norm_num))
    (mem_real (by norm_num [full1, KaonArgs.tinS])) (mem_real (by norm_num [full1, KaonArgs.tinV])) (mem_gauss (by norm_num) (by norm_num))
    ⟨-90189752476219395403662161570484755824, 89372067563857102628912951285423543046, 18072968000453979376824795797618801, 1310741757770971700162614959040326631⟩
    ⟨-90194200551962868398875110281861349473, 89367660032957754011772494071790234968, 36390880033070769214825296368135317, 1291496241376325658467377969866263141⟩
    (by decide +kernel)

/-- `tests/test_KaonUAModel.py:69`. -/
example : ∃ y, full1.run false ⟨0, 62.4⟩ = .ok y ∧ IsClose y ⟨-0.012972244493240833, -0.0646782195188189⟩ 1e-15 :=
  kaon_close (T := ofRat (0) (312) 5) (E := ofRat (-12972244493240833) (-64678219518818900) 1000000000000000000)
    (TinS := (ofRat (9) 0 2)) (TinV := (ofRat (147) 0 10))
    (full1_builds _).1 (full1_builds true).2 full1S_ok full1V_ok (by norm_num) (mem_gauss (by norm_num) (by norm_num))
    (mem_real (by norm_num [full1, KaonArgs.tinS])) (mem_real (by norm_num [full1, KaonArgs.tinV])) (mem_gauss (by norm_num) (by norm_num))
    ⟨7365411268114338713337213872999907442, 7484392441156733962457974161897747879, 267313976605516178954508417615153756, 1541238426255387342263988078076857375⟩
    ⟨7418716658219482181627914242650094864, 7430615153634393386512021470368543198, 647637132857685761178398926784524780, 1696531421859167314472832721538277855⟩
    (by decide +kernel)

/-- The model built at `tests/test_KaonUAModel.py:81-115` (`test___call___2`). -/
noncomputable def full2 : KaonArgs := .full {
  t_0_isoscalar := 9 * 0.13957039 ^ 2,
  t_0_isovector := 4 * 0.13957039 ^ 2,
  t_in_isoscalar := 1.35,
  t_in_isovector := 0.59,
  a_omega := 0.004,
  a_omega_prime := 0.27,
  a_omega_double_prime := 0,
  a_phi := -0.01,
  a_phi_prime := 0,
  a_rho := 0.24,
  a_rho_prime := 0.1,
  a_rho_double_prime := -0.1,
  mass_omega := 0.78266,
  decay_rate_omega := 0.00868,
  mass_omega_prime := 1.41,
  decay_rate_omega_prime := 0.29,
  mass_omega_double_prime := 1.67,
  decay_rate_omega_double_prime := 0.315,
  mass_phi := 1.019461,
  decay_rate_phi := 0.004249,
  mass_phi_prime := 1.68,
  decay_rate_phi_prime := 0.15,
  mass_phi_double_prime := 2.159,
  decay_rate_phi_double_prime := 0.137,
  mass_rho := 0.77525,
  decay_rate_rho := 0.1474,
  mass_rho_prime := 1.465,
  decay_rate_rho_prime := 0.4,
  mass_rho_double_prime := 1.57,
  decay_rate_rho_double_prime := 0.144,
  mass_rho_triple_prime := 1.72,
  decay_rate_rho_triple_prime := 0.25 }

def full2S : Ball × Ball × Ball × List ResB :=
  ((ofRat (1753190438827689) 0 10000000000000000), ((ofRat (27) 0 20) - (ofRat (1753190438827689) 0 10000000000000000)).sqrt 1440653184970899183603728118461066399 0, ⟨-247832371716745286972297857258411996, -1, 1048665, false, true⟩,
   [⟨ofRat (1) 0 250, .A, ⟨-4436193995148669838900629221578461, -452451121910134879543737592500506564, 1651450, false, true⟩⟩,
    ⟨ofRat (27) 0 100, .B, ⟨-710943770123738545956752521075537148, -904633047718628540925415288710310459, 1049286, false, true⟩⟩,
    ⟨ofRat (0) 0 1, .B, ⟨-912807631617739086616464774526727440, -803820261037854062493924385316833651, 1049249, false, true⟩⟩,
    ⟨ofRat (-1) 0 100, .A, ⟨-3669261600014330214803687761183368, -752787831271910252635714324201438225, 3550520, false, true⟩⟩,
    ⟨ofRat (0) 0 1, .B, ⟨-952739317889229460420642199697471671, -846073884138392886619122821889810745, 1049664, false, true⟩⟩,
    ⟨ofRat (59) 0 250, .B, ⟨-1120355748922248667526641588104498976, -666122528897100742498673156050211838, 1049776, false, true⟩⟩])

theorem full2S_ok : ChanOK (9 * 0.13957039 ^ 2) (1.35) [⟨0.004, 0.78266, 0.00868⟩, ⟨0.27, 1.41, 0.29⟩, ⟨0, 1.67, 0.315⟩, ⟨-0.01, 1.019461, 0.004249⟩, ⟨0, 1.68, 0.15⟩, ⟨1 / 2 - (0.004 + 0.27 + 0 + (-0.01) + 0), 2.159, 0.137⟩]
    full2S.1 full2S.2.1 full2S.2.2.1 full2S.2.2.2 := by
  have h0 : Mem (((9 * 0.13957039 ^ 2 : ℝ)) : ℂ) (ofRat (1753190438827689) 0 10000000000000000) := mem_real (by norm_num)
  have hA := mem_sqrt_real (x := 1.35) (y := 9 * 0.13957039 ^ 2) (X := (ofRat (27) 0 20)) (mem_real (by norm_num)) h0 (by norm_num) 1440653184970899183603728118461066399
  refine ⟨h0, hA, (mem_Wval h0 hA mem_zero ⟨0, 556562609311857193495124351664243605, 1239916842900659073109441613283410935, 479012825997015091903916883888108752⟩).within (by decide +kernel), ?_⟩
  exact .cons ⟨mem_real (by norm_num), by norm_num [Res.var], (mem_Wval h0 hA (mem_pole (M := (ofRat (39133) 0 50000)) (G := (ofRat (217) 0 25000)) (mem_real (by norm_num)) (mem_real (by norm_num))) ⟨-878945601005082175515123572328462464, 6828099334110795115418264284385507, 654110186263353215529117650949098150, 4938303898927743259560512719885833⟩).within (by decide +kernel)⟩ (
    .cons ⟨mem_real (by norm_num), by norm_num [Res.var], (mem_Wval h0 hA (mem_pole (M := (ofRat (141) 0 100)) (G := (ofRat (29) 0 100)) (mem_real (by norm_num)) (mem_real (by norm_num))) ⟨-1790657509889317814592107813260223416, 201731420106276353553564491030616076, 107160357289406011479105006707254749, 457141841506340677206214697235142666⟩).within (by decide +kernel)⟩ (
    .cons ⟨mem_real (by norm_num), by norm_num [Res.var], (mem_Wval h0 hA (mem_pole (M := (ofRat (167) 0 100)) (G := (ofRat (63) 0 200)) (mem_real (by norm_num)) (mem_real (by norm_num))) ⟨-2149583313345044758590141934475702863, 216193039054698999386561148764745157, 70991655872300577548786696739423644, 599204063895698519034110560965143514⟩).within (by decide +kernel)⟩ (
    .cons ⟨mem_real (by norm_num), by norm_num [Res.var], (mem_Wval h0 hA (mem_pole (M := (ofRat (1019461) 0 1000000)) (G := (ofRat (4249) 0 1000000)) (mem_real (by norm_num)) (mem_real (by norm_num))) ⟨-1235526254381797683692463547797796355, 3097236243293990619359835230797179, 368013258734889265676806360274352800, 2991150249790917553205172248044527⟩).within (by decide +kernel)⟩ (
    .cons ⟨mem_real (by norm_num), by norm_num [Res.var], (mem_Wval h0 hA (mem_pole (M := (ofRat (42) 0 25)) (G := (ofRat (3) 0 20)) (mem_real (by norm_num)) (mem_real (by norm_num))) ⟨-2162786158721047446350845971043458999, 102933306311578783401425018408418797, 33773402072096180631731949060226126, 596967728507704006921201850463961041⟩).within (by decide +kernel)⟩ (
    .cons ⟨mem_real (by norm_num), by norm_num [Res.var], (mem_Wval h0 hA (mem_pole (M := (ofRat (2159) 0 1000)) (G := (ofRat (137) 0 1000)) (mem_real (by norm_num)) (mem_real (by norm_num))) ⟨-2815374285869387502483798893680207883, 92812406503877149602029342374759685, 17243099187661887963906475916234200, 756020866183682009366322260863103519⟩).within (by decide +kernel)⟩ (
    .nil))))))

def full2V : Ball × Ball × Ball × List ResB :=
  ((ofRat (194798937647521) 0 2500000000000000), ((ofRat (59) 0 100) - (ofRat (194798937647521) 0 2500000000000000)).sqrt 951192827841683612833139530759015150 0, ⟨-250076570451075855049630455198968379, -1, 1048748, false, true⟩,
   [⟨ofRat (6) 0 25, .B, ⟨-349060287431752658101848996988321958, -923843425026751431302399128345188913, 1050355, false, true⟩⟩,
    ⟨ofRat (1) 0 10, .B, ⟨-1073468223191976296363562837144997028, -597130284549614914403505449315271123, 1049130, false, true⟩⟩,
    ⟨ofRat (-1) 0 10, .B, ⟨-1150149733387952260645811159334779150, -599113589030030801577950389271693587, 1049783, false, true⟩⟩,
    ⟨ofRat (13) 0 50, .B, ⟨-1166033376569217865905787837472295196, -538110302936440158603025875059062367, 1049403, false, true⟩⟩])

theorem full2V_ok : ChanOK (4 * 0.13957039 ^ 2) (0.59) [⟨0.24, 0.77525, 0.1474⟩, ⟨0.1, 1.465, 0.4⟩, ⟨-0.1, 1.57, 0.144⟩, ⟨1 / 2 - (0.24 + 0.1 + (-0.1)), 1.72, 0.25⟩]
    full2V.1 full2V.2.1 full2V.2.2.1 full2V.2.2.2 := by
  have h0 : Mem (((4 * 0.13957039 ^ 2 : ℝ)) : ℂ) (ofRat (194798937647521) 0 2500000000000000) := mem_real (by norm_num)
  have hA := mem_sqrt_real (x := 0.59) (y := 4 * 0.13957039 ^ 2) (X := (ofRat (59) 0 100)) (mem_real (by norm_num)) h0 (by norm_num) 951192827841683612833139530759015150
  refine ⟨h0, hA, (mem_Wval h0 hA mem_zero ⟨0, 371041739541238128996749567776162402, 1238347583894790701530447304062930912, 483055199993042860029651952417247882⟩).within (by decide +kernel), ?_⟩
  exact .cons ⟨mem_real (by norm_num), by norm_num [Res.var], (mem_Wval h0 hA (mem_pole (M := (ofRat (3101) 0 4000)) (G := (ofRat (737) 0 5000)) (mem_real (by norm_num)) (mem_real (by norm_num))) ⟨-962100846065289582682701438200666740, 104927089288514421288107783791288557, 202399338867925407068610773187749821, 237289538509014434825367169834478001⟩).within (by decide +kernel)⟩ (
    .cons ⟨mem_real (by norm_num), by norm_num [Res.var], (mem_Wval h0 hA (mem_pole (M := (ofRat (293) 0 200)) (G := (ofRat (2) 0 5)) (mem_real (by norm_num)) (mem_real (by norm_num))) ⟨-1912325686987829905263429869191911005, 270710263164164242132452137022299214, 70503578783532523230694165423481926, 780004104966789556881919320572533372⟩).within (by decide +kernel)⟩ (
    .cons ⟨mem_real (by norm_num), by norm_num [Res.var], (mem_Wval h0 hA (mem_pole (M := (ofRat (157) 0 100)) (G := (ofRat (18) 0 125)) (mem_real (by norm_num)) (mem_real (by norm_num))) ⟨-2053710710382475005604465736498648854, 97250499397431042911601906977482623, 22428838462998119500546470170000956, 806188986320818161243729178689512556⟩).within (by decide +kernel)⟩ (
    .cons ⟨mem_real (by norm_num), by norm_num [Res.var], (mem_Wval h0 hA (mem_pole (M := (ofRat (43) 0 25)) (G := (ofRat (1) 0 4)) (mem_real (by norm_num)) (mem_real (by norm_num))) ⟨-2256127443378672426592955415914324596, 168373519874601437360157331362803947, 32266914268488609139959445690718324, 850166522176744884110888267234819280⟩).within (by decide +kernel)⟩ (
    .nil))))

theorem full2_builds (charged : Bool) : full2.Builds charged ∧ full2.Proper := by
  have hp : full2.Proper := by constructor <;> norm_num [full2, KaonArgs.t0S, KaonArgs.tinS, KaonArgs.t0V, KaonArgs.tinV]
  refine ⟨builds_of_pos ?_ ?_ hp ?_ ?_, hp⟩ <;>
    simp [full2, KaonArgs.t0S, KaonArgs.tinS, KaonArgs.t0V, KaonArgs.tinV, KaonArgs.resS, KaonArgs.resV,
      KaonUAModel.Args.resS, KaonUAModel.Args.resV] <;> norm_num

/-- `tests/test_KaonUAModel.py:118`. -/
example : ∃ y, full2.run true ⟨1.123, 0⟩ = .ok y ∧ IsClose y ⟨1.2281718258244398, -0.1663965540096885⟩ 1e-15 :=
  kaon_close (T := ofRat (1123) (0) 1000) (E := ofRat (12281718258244398) (-1663965540096885) 10000000000000000)
    (TinS := (ofRat (27) 0 20)) (TinV := (ofRat (59) 0 100))
    (full2_builds _).1 (full2_builds true).2 full2S_ok full2V_ok (by norm_num) (mem_gauss (by norm_num) (by norm_num))
    (mem_real (by norm_num [full2, KaonArgs.tinS])) (mem_real (by norm_num [full2, KaonArgs.tinV])) (mem_gauss (by norm_num) (by norm_num))
    ⟨1293988916359835987343641887319187296, 0, 5739678505774528751415729676730691914, 0⟩
    ⟨1358858815795201590536334799988969926, 0, 0, 3164157439302475453065004558753501802⟩
    (by decide +kernel)

/-- `tests/test_KaonUAModel.py:119`. -/
example : ∃ y, full2.run true ⟨1.123, 0.732⟩ = .ok y ∧ IsClose y ⟨1.0245709713591054, 0.5280438561870465⟩ 1e-15 :=
  kaon_close (T := ofRat (1123) (732) 1000) (E := ofRat (10245709713591054) (5280438561870465) 10000000000000000)
    (TinS := (ofRat (27) 0 20)) (TinV := (ofRat (59) 0 100))
    (full2_builds _).1 (full2_builds true).2 full2S_ok full2V_ok (by norm_num) (mem_gauss (by norm_num) (by norm_num))
    (mem_real (by norm_num [full2, KaonArgs.tinS])) (mem_real (by norm_num [full2, KaonArgs.tinV])) (mem_gauss (by norm_num) (by norm_num))
    ⟨1376616395903759889981525513714972579, 469750344128617722367765046807217022, 2272426137784735990267151410968463557, 2341018961740024048608601744424158938⟩
    ⟨1431936471523139019151464277989135164, 451602454835887617641556104499009357, 712840316189559581398627019339223103, 2447277295918731188752191142051871136⟩
    (by decide +kernel)

/-- `tests/test_KaonUAModel.py:120`. -/
example : ∃ y, full2.run true ⟨0, 0.732⟩ = .ok y ∧ IsClose y ⟨0.7804119622898475, 0.3011765340455964⟩ 1e-15 :=
  kaon_close (T := ofRat (0) (183) 250) (E := ofRat (7804119622898475) (3011765340455964) 10000000000000000)
    (TinS := (ofRat (27) 0 20)) (TinV := (ofRat (59) 0 100))
    (full2_builds _).1 (full2_builds true).2 full2S_ok full2V_ok (by norm_num) (mem_gauss (by norm_num) (by norm_num))
    (mem_real (by norm_num [full2, KaonArgs.tinS])) (mem_real (by norm_num [full2, KaonArgs.tinV])) (mem_gauss (by norm_num) (by norm_num))
    ⟨714194626345812786224259222125644442, 905447901530098047837250142545472662, 1505829821051783706419940459957451710, 1135774419911208825736432207142643458⟩
    ⟨762550607485089477571638004818385680, 848030306921673050452291716015620387, 1216961887698233334185860137759381858, 1551685897997275864781929195765886372⟩
    (by decide +kernel)

/-- `tests/test_KaonUAModel.py:121`. -/
example : ∃ y, full2.run true ⟨0, -0.732⟩ = .ok y ∧ IsClose y ⟨0.7804119622898478, -0.3011765340455964⟩ 1e-15 :=
  kaon_close (T := ofRat (0) (-183) 250) (E := ofRat (3902059811449239) (-1505882670227982) 5000000000000000)
    (TinS := (ofRat (27) 0 20)) (TinV := (ofRat (59) 0 100))
    (full2_builds _).1 (full2_builds true).2 full2S_ok full2V_ok (by norm_num) (mem_gauss (by norm_num) (by norm_num))
    (mem_real (by norm_num [full2, KaonArgs.tinS])) (mem_real (by norm_num [full2, KaonArgs.tinV])) (mem_gauss (by norm_num) (by norm_num))
    ⟨-714194626345812786224259222125644442, 905447901530098047837250142545472662, 747875130582915868048058253637525879, 564085948311565785992708044352451194⟩
    ⟨-762550607485089477571638004818385680, 848030306921673050452291716015620388, 552928103422548275351219154476694069, 705010361754152213350237966932700884⟩
    (by decide +kernel)

/-- `tests/test_KaonUAModel.py:122`. -/
example : ∃ y, full2.run true ⟨1.123, -0.732⟩ = .ok y ∧ IsClose y ⟨1.0245709713591045, -0.5280438561870471⟩ 1e-15 :=
  kaon_close (T := ofRat (1123) (-732) 1000) (E := ofRat (10245709713591045) (-5280438561870471) 10000000000000000)
    (TinS := (ofRat (27) 0 20)) (TinV := (ofRat (59) 0 100))
    (full2_builds _).1 (full2_builds true).2 full2S_ok full2V_ok (by norm_num) (mem_gauss (by norm_num) (by norm_num))
    (mem_real (by norm_num [full2, KaonArgs.tinS])) (mem_real (by norm_num [full2, KaonArgs.tinV])) (mem_gauss (by norm_num) (by norm_num))
    ⟨-1376616395903759889981525513714972579, 469750344128617722367765046807217023, 377200294867007252589143669151929946, 388586026174832190343381269271726670⟩
    ⟨-1431936471523139019151464277989135164, 451602454835887617641556104499009357, 193846423966880534633589987405852248, 665501012632163227055446252713010639⟩
    (by decide +kernel)

end Conformance
end UA
