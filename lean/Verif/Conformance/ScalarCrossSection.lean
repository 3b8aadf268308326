import Verif.Conformance.EvalCS

/-!
# The numbers in `tests/test_ScalarMesonProductionTotalCrossSection.py`

For every `expected_value` in that file: the cross section built with the arguments of the test, called at the test's `t`,
returns a number that the test's `cmath.isclose(actual, expected, abs_tol=1e-15)` accepts. Decimal literals are read exactly
(`1/137` as the rational number). The long integers approximate square roots, values of the conformal variable and of the form factor
in units of `2 ^ -120`; they are checked, not trusted.
-/

namespace UA
namespace Conformance

open Complex Ball

/-- `tests/test_ScalarMesonProductionTotalCrossSection.py:23` (`test___call__`, the form factor is `lambda t: t`). -/
example : ∃ y, (ScalarCS.init 1 (1 / 137) 1).call (fun t => .ok t) ⟨1, 0⟩ = .ok y ∧ IsClose y ⟨0, -0.0002899141186372558⟩ 1e-15 :=
  scalar_close (M := (ofRat (1) 0 1)) (AL := (ofRat (1) 0 137)) (HC := (ofRat (1) 0 1)) (T := ofRat (1) (0) 1) (F := ofRat (1) (0) 1)
    (E := ofRat (0) (-1449570593186279) 5000000000000000000) (mem_real (by norm_num)) (mem_real (by norm_num)) (mem_real (by norm_num)) rfl
    (mem_gauss (by norm_num) (by norm_num)) (mem_gauss (by norm_num) (by norm_num)) (mem_gauss (by norm_num) (by norm_num)) (by norm_num)
    false (by norm_num) (0) (2302290423542423760813183247545055291) (by decide +kernel)

/-- `tests/test_ScalarMesonProductionTotalCrossSection.py:24` (`test___call__`, the form factor is `lambda t: t`). -/
example : ∃ y, (ScalarCS.init 1 (1 / 137) 1).call (fun t => .ok t) ⟨4, 0⟩ = .ok y ∧ IsClose y ⟨0, 0⟩ 1e-15 := by
  have h4 : (⟨4, 0⟩ : ℂ) = 4 := by apply Complex.ext <;> simp
  refine ⟨0, ?_, ?_⟩
  · rw [h4]
    have h : (4 : ℂ) ≠ 0 := by norm_num
    simp only [ScalarCS.call, ScalarCS.init, except_ok_bind, pyDiv_ok h]
    norm_num
  · rw [show (⟨0, 0⟩ : ℂ) = 0 from rfl]
    unfold IsClose
    norm_num

/-- `tests/test_ScalarMesonProductionTotalCrossSection.py:25` (`test___call__`, the form factor is `lambda t: t`). -/
example : ∃ y, (ScalarCS.init 1 (1 / 137) 1).call (fun t => .ok t) ⟨4.72, 0⟩ = .ok y ∧ IsClose y ⟨0.000015689721292965648, 0⟩ 1e-15 :=
  scalar_close (M := (ofRat (1) 0 1)) (AL := (ofRat (1) 0 137)) (HC := (ofRat (1) 0 1)) (T := ofRat (118) (0) 25) (F := ofRat (118) (0) 25)
    (E := ofRat (980607580810353) (0) 62500000000000000000) (mem_real (by norm_num)) (mem_real (by norm_num)) (mem_real (by norm_num)) rfl
    (mem_gauss (by norm_num) (by norm_num)) (mem_gauss (by norm_num) (by norm_num)) (mem_gauss (by norm_num) (by norm_num)) (by norm_num)
    false (by norm_num) (519152235649384006195352702407632326) (0) (by decide +kernel)

/-- `tests/test_ScalarMesonProductionTotalCrossSection.py:26` (`test___call__`, the form factor is `lambda t: t`). -/
example : ∃ y, (ScalarCS.init 1 (1 / 137) 1).call (fun t => .ok t) ⟨14.31, 8.21⟩ = .ok y ∧ IsClose y ⟨0.0006291427281578755, -0.00019011327189063848⟩ 1e-15 :=
  scalar_close (M := (ofRat (1) 0 1)) (AL := (ofRat (1) 0 137)) (HC := (ofRat (1) 0 1)) (T := ofRat (1431) (821) 100) (F := ofRat (1431) (821) 100)
    (E := ofRat (31457136407893775) (-9505663594531924) 50000000000000000000) (mem_real (by norm_num)) (mem_real (by norm_num)) (mem_real (by norm_num)) rfl
    (mem_gauss (by norm_num) (by norm_num)) (mem_gauss (by norm_num) (by norm_num)) (mem_gauss (by norm_num) (by norm_num)) (by norm_num)
    false (by norm_num) (1184639874207770790107600692688278241) (89976529240715828095501324948429707) (by decide +kernel)

/-- `tests/test_ScalarMesonProductionTotalCrossSection.py:27` (`test___call__`, the form factor is `lambda t: t`). -/
example : ∃ y, (ScalarCS.init 1 (1 / 137) 1).call (fun t => .ok t) ⟨862, -0.87⟩ = .ok y ∧ IsClose y ⟨0.04776005175092199, 0.000047866214477648565⟩ 1e-15 :=
  scalar_close (M := (ofRat (1) 0 1)) (AL := (ofRat (1) 0 137)) (HC := (ofRat (1) 0 1)) (T := ofRat (86200) (-87) 100) (F := ofRat (86200) (-87) 100)
    (E := ofRat (9552010350184398000) (9573242895529713) 200000000000000000000) (mem_real (by norm_num)) (mem_real (by norm_num)) (mem_real (by norm_num)) rfl
    (mem_gauss (by norm_num) (by norm_num)) (mem_gauss (by norm_num) (by norm_num)) (mem_gauss (by norm_num) (by norm_num)) (by norm_num)
    true (by norm_num) (-1326140357146689793150894342404413797) (3119922038455423875133479298394) (by decide +kernel)

/-- The model built at `tests/test_ScalarMesonProductionTotalCrossSection.py:40-74` (`test___call___kaon_ua_model`). -/
noncomputable def scalarFF : KaonArgs := .full {
  t_0_isoscalar := 9 * 0.13957039 ^ 2,
  t_0_isovector := 4 * 0.13957039 ^ 2,
  t_in_isoscalar := 1.35,
  t_in_isovector := 0.59,
  a_omega := 0.004,
  a_omega_prime := 0.27,
  a_omega_double_prime := 0,
  a_phi := -0.01,
  a_phi_prime := 0,
  a_rho := 0.24,
  a_rho_prime := 0.1,
  a_rho_double_prime := -0.1,
  mass_omega := 0.78266,
  decay_rate_omega := 0.00868,
  mass_omega_prime := 1.41,
  decay_rate_omega_prime := 0.29,
  mass_omega_double_prime := 1.67,
  decay_rate_omega_double_prime := 0.315,
  mass_phi := 1.019461,
  decay_rate_phi := 0.004249,
  mass_phi_prime := 1.68,
  decay_rate_phi_prime := 0.15,
  mass_phi_double_prime := 2.159,
  decay_rate_phi_double_prime := 0.137,
  mass_rho := 0.77525,
  decay_rate_rho := 0.1474,
  mass_rho_prime := 1.465,
  decay_rate_rho_prime := 0.4,
  mass_rho_double_prime := 1.57,
  decay_rate_rho_double_prime := 0.144,
  mass_rho_triple_prime := 1.72,
  decay_rate_rho_triple_prime := 0.25 }

def scalarFFS : Ball × Ball × Ball × List ResB :=
  ((ofRat (1753190438827689) 0 10000000000000000), ((ofRat (27) 0 20) - (ofRat (1753190438827689) 0 10000000000000000)).sqrt 1440653184970899183603728118461066399 0, ⟨-247832371716745286972297857258411996, -1, 1048665, false, true⟩,
   [⟨ofRat (1) 0 250, .A, ⟨-4436193995148669838900629221578461, -452451121910134879543737592500506564, 1651450, false, true⟩⟩,
    ⟨ofRat (27) 0 100, .B, ⟨-710943770123738545956752521075537148, -904633047718628540925415288710310459, 1049286, false, true⟩⟩,
    ⟨ofRat (0) 0 1, .B, ⟨-912807631617739086616464774526727440, -803820261037854062493924385316833651, 1049249, false, true⟩⟩,
    ⟨ofRat (-1) 0 100, .A, ⟨-3669261600014330214803687761183368, -752787831271910252635714324201438225, 3550520, false, true⟩⟩,
    ⟨ofRat (0) 0 1, .B, ⟨-952739317889229460420642199697471671, -846073884138392886619122821889810745, 1049664, false, true⟩⟩,
    ⟨ofRat (59) 0 250, .B, ⟨-1120355748922248667526641588104498976, -666122528897100742498673156050211838, 1049776, false, true⟩⟩])

theorem scalarFFS_ok : ChanOK (9 * 0.13957039 ^ 2) (1.35) [⟨0.004, 0.78266, 0.00868⟩, ⟨0.27, 1.41, 0.29⟩, ⟨0, 1.67, 0.315⟩, ⟨-0.01, 1.019461, 0.004249⟩, ⟨0, 1.68, 0.15⟩, ⟨1 / 2 - (0.004 + 0.27 + 0 + (-0.01) + 0), 2.159, 0.137⟩]
    scalarFFS.1 scalarFFS.2.1 scalarFFS.2.2.1 scalarFFS.2.2.2 := by
  have h0 : Mem (((9 * 0.13957039 ^ 2 : ℝ)) : ℂ) (ofRat (1753190438827689) 0 10000000000000000) := mem_real (by norm_num)
  have hA := mem_sqrt_real (x := 1.35) (y := 9 * 0.13957039 ^ 2) (X := (ofRat (27) 0 20)) (mem_real (by norm_num)) h0 (by norm_num) 1440653184970899183603728118461066399
  refine ⟨h0, hA, (mem_Wval h0 hA mem_zero ⟨0, 556562609311857193495124351664243605, 1239916842900659073109441613283410935, 479012825997015091903916883888108752⟩).within (by decide +kernel), ?_⟩
  exact .cons ⟨mem_real (by norm_num), by norm_num [Res.var], (mem_Wval h0 hA (mem_pole (M := (ofRat (39133) 0 50000)) (G := (ofRat (217) 0 25000)) (mem_real (by norm_num)) (mem_real (by norm_num))) ⟨-878945601005082175515123572328462464, 6828099334110795115418264284385507, 654110186263353215529117650949098150, 4938303898927743259560512719885833⟩).within (by decide +kernel)⟩ (
    .cons ⟨mem_real (by norm_num), by norm_num [Res.var], (mem_Wval h0 hA (mem_pole (M := (ofRat (141) 0 100)) (G := (ofRat (29) 0 100)) (mem_real (by norm_num)) (mem_real (by norm_num))) ⟨-1790657509889317814592107813260223416, 201731420106276353553564491030616076, 107160357289406011479105006707254749, 457141841506340677206214697235142666⟩).within (by decide +kernel)⟩ (
    .cons ⟨mem_real (by norm_num), by norm_num [Res.var], (mem_Wval h0 hA (mem_pole (M := (ofRat (167) 0 100)) (G := (ofRat (63) 0 200)) (mem_real (by norm_num)) (mem_real (by norm_num))) ⟨-2149583313345044758590141934475702863, 216193039054698999386561148764745157, 70991655872300577548786696739423644, 599204063895698519034110560965143514⟩).within (by decide +kernel)⟩ (
    .cons ⟨mem_real (by norm_num), by norm_num [Res.var], (mem_Wval h0 hA (mem_pole (M := (ofRat (1019461) 0 1000000)) (G := (ofRat (4249) 0 1000000)) (mem_real (by norm_num)) (mem_real (by norm_num))) ⟨-1235526254381797683692463547797796355, 3097236243293990619359835230797179, 368013258734889265676806360274352800, 2991150249790917553205172248044527⟩).within (by decide +kernel)⟩ (
    .cons ⟨mem_real (by norm_num), by norm_num [Res.var], (mem_Wval h0 hA (mem_pole (M := (ofRat (42) 0 25)) (G := (ofRat (3) 0 20)) (mem_real (by norm_num)) (mem_real (by norm_num))) ⟨-2162786158721047446350845971043458999, 102933306311578783401425018408418797, 33773402072096180631731949060226126, 596967728507704006921201850463961041⟩).within (by decide +kernel)⟩ (
    .cons ⟨mem_real (by norm_num), by norm_num [Res.var], (mem_Wval h0 hA (mem_pole (M := (ofRat (2159) 0 1000)) (G := (ofRat (137) 0 1000)) (mem_real (by norm_num)) (mem_real (by norm_num))) ⟨-2815374285869387502483798893680207883, 92812406503877149602029342374759685, 17243099187661887963906475916234200, 756020866183682009366322260863103519⟩).within (by decide +kernel)⟩ (
    .nil))))))

def scalarFFV : Ball × Ball × Ball × List ResB :=
  ((ofRat (194798937647521) 0 2500000000000000), ((ofRat (59) 0 100) - (ofRat (194798937647521) 0 2500000000000000)).sqrt 951192827841683612833139530759015150 0, ⟨-250076570451075855049630455198968379, -1, 1048748, false, true⟩,
   [⟨ofRat (6) 0 25, .B, ⟨-349060287431752658101848996988321958, -923843425026751431302399128345188913, 1050355, false, true⟩⟩,
    ⟨ofRat (1) 0 10, .B, ⟨-1073468223191976296363562837144997028, -597130284549614914403505449315271123, 1049130, false, true⟩⟩,
    ⟨ofRat (-1) 0 10, .B, ⟨-1150149733387952260645811159334779150, -599113589030030801577950389271693587, 1049783, false, true⟩⟩,
    ⟨ofRat (13) 0 50, .B, ⟨-1166033376569217865905787837472295196, -538110302936440158603025875059062367, 1049403, false, true⟩⟩])

theorem scalarFFV_ok : ChanOK (4 * 0.13957039 ^ 2) (0.59) [⟨0.24, 0.77525, 0.1474⟩, ⟨0.1, 1.465, 0.4⟩, ⟨-0.1, 1.57, 0.144⟩, ⟨1 / 2 - (0.24 + 0.1 + (-0.1)), 1.72, 0.25⟩]
    scalarFFV.1 scalarFFV.2.1 scalarFFV.2.2.1 scalarFFV.2.2.2 := by
  have h0 : Mem (((4 * 0.13957039 ^ 2 : ℝ)) : ℂ) (ofRat (194798937647521) 0 2500000000000000) := mem_real (by norm_num)
  have hA := mem_sqrt_real (x := 0.59) (y := 4 * 0.13957039 ^ 2) (X := (ofRat (59) 0 100)) (mem_real (by norm_num)) h0 (by norm_num) 951192827841683612833139530759015150
  refine ⟨h0, hA, (mem_Wval h0 hA mem_zero ⟨0, 371041739541238128996749567776162402, 1238347583894790701530447304062930912, 483055199993042860029651952417247882⟩).within (by decide +kernel), ?_⟩
  exact .cons ⟨mem_real (by norm_num), by norm_num [Res.var], (mem_Wval h0 hA (mem_pole (M := (ofRat (3101) 0 4000)) (G := (ofRat (737) 0 5000)) (mem_real (by norm_num)) (mem_real (by norm_num))) ⟨-962100846065289582682701438200666740, 104927089288514421288107783791288557, 202399338867925407068610773187749821, 237289538509014434825367169834478001⟩).within (by decide +kernel)⟩ (
    .cons ⟨mem_real (by norm_num), by norm_num [Res.var], (mem_Wval h0 hA (mem_pole (M := (ofRat (293) 0 200)) (G := (ofRat (2) 0 5)) (mem_real (by norm_num)) (mem_real (by norm_num))) ⟨-1912325686987829905263429869191911005, 270710263164164242132452137022299214, 70503578783532523230694165423481926, 780004104966789556881919320572533372⟩).within (by decide +kernel)⟩ (
    .cons ⟨mem_real (by norm_num), by norm_num [Res.var], (mem_Wval h0 hA (mem_pole (M := (ofRat (157) 0 100)) (G := (ofRat (18) 0 125)) (mem_real (by norm_num)) (mem_real (by norm_num))) ⟨-2053710710382475005604465736498648854, 97250499397431042911601906977482623, 22428838462998119500546470170000956, 806188986320818161243729178689512556⟩).within (by decide +kernel)⟩ (
    .cons ⟨mem_real (by norm_num), by norm_num [Res.var], (mem_Wval h0 hA (mem_pole (M := (ofRat (43) 0 25)) (G := (ofRat (1) 0 4)) (mem_real (by norm_num)) (mem_real (by norm_num))) ⟨-2256127443378672426592955415914324596, 168373519874601437360157331362803947, 32266914268488609139959445690718324, 850166522176744884110888267234819280⟩).within (by decide +kernel)⟩ (
    .nil))))

theorem scalarFF_builds (charged : Bool) : scalarFF.Builds charged ∧ scalarFF.Proper := by
  have hp : scalarFF.Proper := by constructor <;> norm_num [scalarFF, KaonArgs.t0S, KaonArgs.tinS, KaonArgs.t0V, KaonArgs.tinV]
  refine ⟨builds_of_pos ?_ ?_ hp ?_ ?_, hp⟩ <;>
    simp [scalarFF, KaonArgs.t0S, KaonArgs.tinS, KaonArgs.t0V, KaonArgs.tinV, KaonArgs.resS, KaonArgs.resV,
      KaonUAModel.Args.resS, KaonUAModel.Args.resV] <;> norm_num

/-- `tests/test_ScalarMesonProductionTotalCrossSection.py:89` (`test___call___kaon_ua_model`). -/
example : ∃ y, (ScalarCS.init 0.493677 0.0072973525693 389379.3721).call (scalarFF.run true) ⟨1.123, 0⟩ = .ok y ∧ IsClose y ⟨1.422899583299445, 0⟩ 1e-15 := by
  have ht : Mem ⟨1.123, 0⟩ (ofRat (1123) (0) 1000) := mem_gauss (by norm_num) (by norm_num)
  obtain ⟨F, h1, h2⟩ := kaon_value (TinS := (ofRat (27) 0 20)) (TinV := (ofRat (59) 0 100))
    (scalarFF_builds true).1 (scalarFF_builds true).2 scalarFFS_ok scalarFFV_ok (by norm_num) ht
    (mem_real (by norm_num [scalarFF, KaonArgs.tinS])) (mem_real (by norm_num [scalarFF, KaonArgs.tinV]))
    ⟨1293988916359835987343641887319187296, 0, 5739678505774528751415729676730691914, 0⟩
    ⟨1358858815795201590536334799988969926, 0, 0, 3164157439302475453065004558753501802⟩
    (by decide +kernel)
  exact scalar_close (M := (ofRat (493677) 0 1000000)) (AL := (ofRat (72973525693) 0 10000000000000)) (HC := (ofRat (3893793721) 0 10000)) (E := ofRat (284579916659889) (0) 200000000000000)
    (F := ⟨1632520374520121053597666709791918347, -221178957991815432972788375394959567, 70922121, false, true⟩) (mem_real (by norm_num)) (mem_real (by norm_num)) (mem_real (by norm_num)) h1
    (h2.within (by decide +kernel)) ht (mem_gauss (by norm_num) (by norm_num)) (by norm_num)
    false (by norm_num) (482763203092702558683897364924339117) (0) (by decide +kernel)

/-- `tests/test_ScalarMesonProductionTotalCrossSection.py:90` (`test___call___kaon_ua_model`). -/
example : ∃ y, (ScalarCS.init 0.493677 0.0072973525693 389379.3721).call (scalarFF.run true) ⟨1.123, 0.732⟩ = .ok y ∧ IsClose y ⟨7.322169806015914, 5.145404160322535⟩ 1e-15 := by
  have ht : Mem ⟨1.123, 0.732⟩ (ofRat (1123) (732) 1000) := mem_gauss (by norm_num) (by norm_num)
  obtain ⟨F, h1, h2⟩ := kaon_value (TinS := (ofRat (27) 0 20)) (TinV := (ofRat (59) 0 100))
    (scalarFF_builds true).1 (scalarFF_builds true).2 scalarFFS_ok scalarFFV_ok (by norm_num) ht
    (mem_real (by norm_num [scalarFF, KaonArgs.tinS])) (mem_real (by norm_num [scalarFF, KaonArgs.tinV]))
    ⟨1376616395903759889981525513714972579, 469750344128617722367765046807217022, 2272426137784735990267151410968463557, 2341018961740024048608601744424158938⟩
    ⟨1431936471523139019151464277989135164, 451602454835887617641556104499009357, 712840316189559581398627019339223103, 2447277295918731188752191142051871136⟩
    (by decide +kernel)
  exact scalar_close (M := (ofRat (493677) 0 1000000)) (AL := (ofRat (72973525693) 0 10000000000000)) (HC := (ofRat (3893793721) 0 10000)) (E := ofRat (7322169806015914) (5145404160322535) 1000000000000000)
    (F := ⟨1361888418799068087622916640829218542, 701890676646046586463317062117261801, 89805638, false, true⟩) (mem_real (by norm_num)) (mem_real (by norm_num)) (mem_real (by norm_num)) h1
    (h2.within (by decide +kernel)) ht (mem_gauss (by norm_num) (by norm_num)) (by norm_num)
    false (by norm_num) (915089930106689593950863983873585976) (383376360529195966079857209577184871) (by decide +kernel)

/-- `tests/test_ScalarMesonProductionTotalCrossSection.py:91` (`test___call___kaon_ua_model`). -/
example : ∃ y, (ScalarCS.init 0.493677 0.0072973525693 389379.3721).call (scalarFF.run true) ⟨0, 0.732⟩ = .ok y ∧ IsClose y ⟨43.88590980666062, -8.017152698541237⟩ 1e-15 := by
  have ht : Mem ⟨0, 0.732⟩ (ofRat (0) (183) 250) := mem_gauss (by norm_num) (by norm_num)
  obtain ⟨F, h1, h2⟩ := kaon_value (TinS := (ofRat (27) 0 20)) (TinV := (ofRat (59) 0 100))
    (scalarFF_builds true).1 (scalarFF_builds true).2 scalarFFS_ok scalarFFV_ok (by norm_num) ht
    (mem_real (by norm_num [scalarFF, KaonArgs.tinS])) (mem_real (by norm_num [scalarFF, KaonArgs.tinV]))
    ⟨714194626345812786224259222125644442, 905447901530098047837250142545472662, 1505829821051783706419940459957451710, 1135774419911208825736432207142643458⟩
    ⟨762550607485089477571638004818385680, 848030306921673050452291716015620387, 1216961887698233334185860137759381858, 1551685897997275864781929195765886372⟩
    (by decide +kernel)
  exact scalar_close (M := (ofRat (493677) 0 1000000)) (AL := (ofRat (72973525693) 0 10000000000000)) (HC := (ofRat (3893793721) 0 10000)) (E := ofRat (43885909806660620) (-8017152698541237) 1000000000000000)
    (F := ⟨1037345428521107725196572320940172986, 400332280726875647470640690809699712, 49900836, false, true⟩) (mem_real (by norm_num)) (mem_real (by norm_num)) (mem_real (by norm_num)) h1
    (h2.within (by decide +kernel)) ht (mem_gauss (by norm_num) (by norm_num)) (by norm_num)
    false (by norm_num) (1534504253454742830334636586685697847) (766717835381643703917071483810931098) (by decide +kernel)

/-- `tests/test_ScalarMesonProductionTotalCrossSection.py:92` (`test___call___kaon_ua_model`). -/
example : ∃ y, (ScalarCS.init 0.493677 0.0072973525693 389379.3721).call (scalarFF.run true) ⟨0, -0.732⟩ = .ok y ∧ IsClose y ⟨43.88590980666064, 8.01715269854124⟩ 1e-15 := by
  have ht : Mem ⟨0, -0.732⟩ (ofRat (0) (-183) 250) := mem_gauss (by norm_num) (by norm_num)
  obtain ⟨F, h1, h2⟩ := kaon_value (TinS := (ofRat (27) 0 20)) (TinV := (ofRat (59) 0 100))
    (scalarFF_builds true).1 (scalarFF_builds true).2 scalarFFS_ok scalarFFV_ok (by norm_num) ht
    (mem_real (by norm_num [scalarFF, KaonArgs.tinS])) (mem_real (by norm_num [scalarFF, KaonArgs.tinV]))
    ⟨-714194626345812786224259222125644442, 905447901530098047837250142545472662, 747875130582915868048058253637525879, 564085948311565785992708044352451194⟩
    ⟨-762550607485089477571638004818385680, 848030306921673050452291716015620388, 552928103422548275351219154476694069, 705010361754152213350237966932700884⟩
    (by decide +kernel)
  exact scalar_close (M := (ofRat (493677) 0 1000000)) (AL := (ofRat (72973525693) 0 10000000000000)) (HC := (ofRat (3893793721) 0 10000)) (E := ofRat (1097147745166516) (200428817463531) 25000000000000)
    (F := ⟨1037345428521107725196572320940172985, -400332280726875647470640690809699724, 49390302, false, true⟩) (mem_real (by norm_num)) (mem_real (by norm_num)) (mem_real (by norm_num)) h1
    (h2.within (by decide +kernel)) ht (mem_gauss (by norm_num) (by norm_num)) (by norm_num)
    true (by norm_num) (-1534504253454742830334636586685697847) (766717835381643703917071483810931096) (by decide +kernel)

/-- `tests/test_ScalarMesonProductionTotalCrossSection.py:93` (`test___call___kaon_ua_model`). -/
example : ∃ y, (ScalarCS.init 0.493677 0.0072973525693 389379.3721).call (scalarFF.run true) ⟨1.123, -0.732⟩ = .ok y ∧ IsClose y ⟨7.32216980601591, -5.145404160322531⟩ 1e-15 := by
  have ht : Mem ⟨1.123, -0.732⟩ (ofRat (1123) (-732) 1000) := mem_gauss (by norm_num) (by norm_num)
  obtain ⟨F, h1, h2⟩ := kaon_value (TinS := (ofRat (27) 0 20)) (TinV := (ofRat (59) 0 100))
    (scalarFF_builds true).1 (scalarFF_builds true).2 scalarFFS_ok scalarFFV_ok (by norm_num) ht
    (mem_real (by norm_num [scalarFF, KaonArgs.tinS])) (mem_real (by norm_num [scalarFF, KaonArgs.tinV]))
    ⟨-1376616395903759889981525513714972579, 469750344128617722367765046807217023, 377200294867007252589143669151929946, 388586026174832190343381269271726670⟩
    ⟨-1431936471523139019151464277989135164, 451602454835887617641556104499009357, 193846423966880534633589987405852248, 665501012632163227055446252713010639⟩
    (by decide +kernel)
  exact scalar_close (M := (ofRat (493677) 0 1000000)) (AL := (ofRat (72973525693) 0 10000000000000)) (HC := (ofRat (3893793721) 0 10000)) (E := ofRat (7322169806015910) (-5145404160322531) 1000000000000000)
    (F := ⟨1361888418799068087622916640829218539, -701890676646046586463317062117261816, 88901715, false, true⟩) (mem_real (by norm_num)) (mem_real (by norm_num)) (mem_real (by norm_num)) h1
    (h2.within (by decide +kernel)) ht (mem_gauss (by norm_num) (by norm_num)) (by norm_num)
    true (by norm_num) (-915089930106689593950863983873585975) (383376360529195966079857209577184870) (by decide +kernel)

end Conformance
end UA
