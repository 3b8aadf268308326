import Verif.Conformance.EvalCS

/-!
# The numbers in `tests/test_NucleonPairToElectronPositronTotalCrossSection.py`

For every `expected_value` in that file: the cross section built with the arguments of the test, called at the test's `t`,
returns a number that the test's `cmath.isclose(actual, expected, abs_tol=1e-15)` accepts. Decimal literals are read exactly
(`1/137` as the rational number). The long integers approximate square roots, values of the conformal variable and of the form factor
in units of `2 ^ -120`; they are checked, not trusted.
-/

namespace UA
namespace Conformance

open Complex Ball

/-- `tests/test_NucleonPairToElectronPositronTotalCrossSection.py:23` (`test___call__`, the form factor is `lambda t: t`). -/
example : ∃ y, ((NucleonCS.init 1 (1 / 137) 1).call identityFF () ⟨4.1, 0⟩).1 = .ok y ∧ IsClose y ⟨0.00021261082938175543, 0⟩ 1e-15 :=
  nucCS_identity (M := (ofRat (1) 0 1)) (AL := (ofRat (1) 0 137)) (HC := (ofRat (1) 0 1)) (T := ofRat (41) (0) 10)
    (E := ofRat (21261082938175543) (0) 100000000000000000000) (mem_real (by norm_num)) (mem_real (by norm_num)) (mem_real (by norm_num))
    (mem_gauss (by norm_num) (by norm_num)) (mem_gauss (by norm_num) (by norm_num)) (le_norm (by norm_num) (by norm_num))
    5449834782718155078905608947149412760 207590536509382518458908427624489644 (by decide +kernel)

/-- `tests/test_NucleonPairToElectronPositronTotalCrossSection.py:24` (`test___call__`, the form factor is `lambda t: t`). -/
example : ∃ y, ((NucleonCS.init 1 (1 / 137) 1).call identityFF () ⟨4.21, 0⟩).1 = .ok y ∧ IsClose y ⟨0.0003095335115185389, 0⟩ 1e-15 :=
  nucCS_identity (M := (ofRat (1) 0 1)) (AL := (ofRat (1) 0 137)) (HC := (ofRat (1) 0 1)) (T := ofRat (421) (0) 100)
    (E := ofRat (3095335115185389) (0) 10000000000000000000) (mem_real (by norm_num)) (mem_real (by norm_num)) (mem_real (by norm_num))
    (mem_gauss (by norm_num) (by norm_num)) (mem_gauss (by norm_num) (by norm_num)) (le_norm (by norm_num) (by norm_num))
    5596049862254495824925027723780250663 296871207630618712681454730095626537 (by decide +kernel)

/-- `tests/test_NucleonPairToElectronPositronTotalCrossSection.py:25` (`test___call__`, the form factor is `lambda t: t`). -/
example : ∃ y, ((NucleonCS.init 1 (1 / 137) 1).call identityFF () ⟨14.31, 8.21⟩).1 = .ok y ∧ IsClose y ⟨0.0029757326393812914, -0.0019301384158627749⟩ 1e-15 :=
  nucCS_identity (M := (ofRat (1) 0 1)) (AL := (ofRat (1) 0 137)) (HC := (ofRat (1) 0 1)) (T := ofRat (1431) (821) 100)
    (E := ofRat (29757326393812914) (-19301384158627749) 10000000000000000000) (mem_real (by norm_num)) (mem_real (by norm_num)) (mem_real (by norm_num))
    (mem_gauss (by norm_num) (by norm_num)) (mem_gauss (by norm_num) (by norm_num)) (le_norm (by norm_num) (by norm_num))
    21929450231613048864842561622470228099 1156920734298225278556093065517293045 (by decide +kernel)

/-- `tests/test_NucleonPairToElectronPositronTotalCrossSection.py:26` (`test___call__`, the form factor is `lambda t: t`). -/
example : ∃ y, ((NucleonCS.init 1 (1 / 137) 1).call identityFF () ⟨862, -0.87⟩).1 = .ok y ∧ IsClose y ⟨0.1923761490892198, 0.0001946109906016082⟩ 1e-15 :=
  nucCS_identity (M := (ofRat (1) 0 1)) (AL := (ofRat (1) 0 137)) (HC := (ofRat (1) 0 1)) (T := ofRat (86200) (-87) 100)
    (E := ofRat (961880745446099000) (973054953008041) 5000000000000000000) (mem_real (by norm_num)) (mem_real (by norm_num)) (mem_real (by norm_num))
    (mem_gauss (by norm_num) (by norm_num)) (mem_gauss (by norm_num) (by norm_num)) (le_norm (by norm_num) (by norm_num))
    1145795115946883907186758095076465018571 1326140355568581561140088563566838861 (by decide +kernel)

/-- The model built at `tests/test_NucleonPairToElectronPositronTotalCrossSection.py:39-79` (`test___call___nucleon_ua_model`). -/
noncomputable def nucleonCSFF : NucleonArgs := {
  nucleon_mass := 0.938272081,
  magnetic_moment_proton := 2.792847351,
  magnetic_moment_neutron := -1.91304273,
  t_0_dirac_isoscalar := 0.17531904388276887,
  t_0_dirac_isovector := 0.07791957505900839,
  t_in_dirac_isoscalar := 0.9001581776629138,
  t_in_dirac_isovector := 2.713739494786232,
  t_0_pauli_isoscalar := 0.17531904388276887,
  t_0_pauli_isovector := 0.07791957505900839,
  t_in_pauli_isoscalar := 1.0512202460515163,
  t_in_pauli_isovector := 4.176812892690669,
  a_dirac_omega := 1.3200505056850964,
  a_dirac_omega_prime := 0.11215926509622014,
  a_dirac_phi := -1.013845791442124,
  a_dirac_phi_prime := 0.26717864421535276,
  a_dirac_rho := 0.06479104707666819,
  a_pauli_omega := -0.32774864723704805,
  a_pauli_phi := 0.07195092152400877,
  a_pauli_phi_prime := 0.349116996120233,
  mass_omega := 0.78266,
  decay_rate_omega := 0.00868,
  mass_omega_prime := 1.41,
  decay_rate_omega_prime := 0.29,
  mass_omega_double_prime := 1.67,
  decay_rate_omega_double_prime := 0.315,
  mass_phi := 1.019461,
  decay_rate_phi := 0.004249,
  mass_phi_prime := 1.68,
  decay_rate_phi_prime := 0.15,
  mass_phi_double_prime := 2.159,
  decay_rate_phi_double_prime := 0.137,
  mass_rho := 0.77526,
  decay_rate_rho := 0.1474,
  mass_rho_prime := 1.465,
  decay_rate_rho_prime := 0.4,
  mass_rho_double_prime := 1.72,
  decay_rate_rho_double_prime := 0.25 }

def nucleonCSFF_ds : Grp6 where
  T0 := (ofRat (17531904388276887) 0 100000000000000000)
  A := ((ofRat (4500790888314569) 0 5000000000000000) - (ofRat (17531904388276887) 0 100000000000000000)).sqrt 1131671284409017649908348422004703883 0
  B0 := ⟨-309177143056291954593398420054264997, -1, 1048691, false, true⟩
  V := ⟨.A, .B, .B, .B, .B, .B⟩
  W := ⟨⟨-7810804663014922280741066907762032, -633340647704876243368477294066086236, 1592498, false, true⟩,
    ⟨-951997413219474096301765672710058579, -755374814396139560481803694922184145, 1049294, false, true⟩,
    ⟨-1067672226006819730717466075965032687, -650338025230206943384692016202612638, 1049226, false, true⟩,
    ⟨-530450813513183535976726208612528628, -1210524147901769692582196011820866129, 1105401, false, true⟩,
    ⟨-1101340732593886383603200950792578016, -673738743908962295208283539360560369, 1049686, false, true⟩,
    ⟨-1199927845196875051635159363997356846, -526005193647519154852959186437537229, 1049841, false, true⟩⟩

theorem nucleonCSFF_ds_ok : Grp6OK nucleonCSFF.t_0_dirac_isoscalar nucleonCSFF.t_in_dirac_isoscalar (nucleonCSFF.thrS NucleonClass.new.thr nucleonCSFF.t_in_dirac_isoscalar) nucleonCSFF.poleS nucleonCSFF_ds := by
  have h0 : Mem nucleonCSFF.t_0_dirac_isoscalar (ofRat (17531904388276887) 0 100000000000000000) := mem_real (by norm_num [nucleonCSFF])
  have hA := mem_sqrt_real (x := nucleonCSFF.t_in_dirac_isoscalar) (X := (ofRat (4500790888314569) 0 5000000000000000)) (mem_real (by norm_num [nucleonCSFF])) h0 (by norm_num [nucleonCSFF]) 1131671284409017649908348422004703883
  refine ⟨h0, hA, (mem_Wval h0 hA mem_zero ⟨0, 556562609311857145876571599002453029, 1192781460949842139483304486558585670, 586616954402738466295725230920161801⟩).within (by decide +kernel), ?_, (mem_Wval h0 hA (t := nucleonCSFF.poleS.omega) (T := poleB (ofRat (39133) 0 50000) (ofRat (217) 0 25000)) (mem_pole (mem_real (by norm_num [nucleonCSFF])) (mem_real (by norm_num [nucleonCSFF]))) ⟨-878945601005082205666143846512207678, 6828099334110794881189705404864229, 471288979847346689054568279137916665, 7165857069895221653556988264751535⟩).within (by decide +kernel), (mem_Wval h0 hA (t := nucleonCSFF.poleS.omega_prime) (T := poleB (ofRat (141) 0 100) (ofRat (29) 0 100)) (mem_pole (mem_real (by norm_num [nucleonCSFF])) (mem_real (by norm_num [nucleonCSFF]))) ⟨-1790657509889317829207161377782352394, 201731420106276351907065652353987531, 73386994069102307788124473853743050, 640546887667252889619201673082127451⟩).within (by decide +kernel), (mem_Wval h0 hA (t := nucleonCSFF.poleS.omega_double_prime) (T := poleB (ofRat (167) 0 100) (ofRat (63) 0 200)) (mem_pole (mem_real (by norm_num [nucleonCSFF])) (mem_real (by norm_num [nucleonCSFF]))) ⟨-2149583313345044770795907554589109622, 216193039054698998158973668428686437, 53599874513096634041691876274808110, 745823526364756620662123447869442091⟩).within (by decide +kernel), (mem_Wval h0 hA (t := nucleonCSFF.poleS.phi) (T := poleB (ofRat (1019461) 0 1000000) (ofRat (4249) 0 1000000)) (mem_pole (mem_real (by norm_num [nucleonCSFF])) (mem_real (by norm_num [nucleonCSFF]))) ⟨-1235526254381797705142869261520801038, 3097236243293990565587627821780612, 3968951104868105777060925898855926, 278450559362229260033887417527204613⟩).within (by decide +kernel), (mem_Wval h0 hA (t := nucleonCSFF.poleS.phi_prime) (T := poleB (ofRat (42) 0 25) (ofRat (3) 0 20)) (mem_pole (mem_real (by norm_num [nucleonCSFF])) (mem_real (by norm_num [nucleonCSFF]))) ⟨-2162786158721047458577117452600896268, 102933306311578782819541070989468329, 25433427457651994176151936049378377, 744866988913987922288213158256689341⟩).within (by decide +kernel), (mem_Wval h0 hA (t := nucleonCSFF.poleS.phi_double_prime) (T := poleB (ofRat (2159) 0 1000) (ofRat (137) 0 1000)) (mem_pole (mem_real (by norm_num [nucleonCSFF])) (mem_real (by norm_num [nucleonCSFF]))) ⟨-2815374285869387511887143551721325941, 92812406503877149292036084540954597, 13706591053172210741983350349440547, 868583321063785077479217584480124106⟩).within (by decide +kernel)⟩
  norm_num [nucleonCSFF, nucleonCSFF_ds, NucleonArgs.thrS, NucleonClass.thr, tMesonPole_re]

def nucleonCSFF_dv : Grp3 where
  T0 := (ofRat (7791957505900839) 0 100000000000000000)
  A := ((ofRat (339217436848279) 0 125000000000000) - (ofRat (7791957505900839) 0 100000000000000000)).sqrt 2158029353010389809632735119739562887 0
  B0 := ⟨-113438449046762114625095891034099004, -1, 1048709, false, true⟩
  V := ⟨.A, .A, .B⟩
  W := ⟨⟨-38048918093825345921903743588658410, -311947531774144894254064933766705214, 1051659, false, true⟩,
    ⟨-212581780198749520030165827503183972, -742979331278706481545015648686299500, 1049359, false, true⟩,
    ⟨-392572442719032349757141688632576016, -1019369278479204168459407572974205569, 1049664, false, true⟩⟩

theorem nucleonCSFF_dv_ok : Grp3OK nucleonCSFF.t_0_dirac_isovector nucleonCSFF.t_in_dirac_isovector (nucleonCSFF.thrT NucleonClass.new.thr nucleonCSFF.t_in_dirac_isovector) nucleonCSFF.poleT nucleonCSFF_dv := by
  have h0 : Mem nucleonCSFF.t_0_dirac_isovector (ofRat (7791957505900839) 0 100000000000000000) := mem_real (by norm_num [nucleonCSFF])
  have hA := mem_sqrt_real (x := nucleonCSFF.t_in_dirac_isovector) (X := (ofRat (339217436848279) 0 125000000000000)) (mem_real (by norm_num [nucleonCSFF])) h0 (by norm_num [nucleonCSFF]) 2158029353010389809632735119739562887
  refine ⟨h0, hA, (mem_Wval h0 hA mem_zero ⟨0, 371041739541238105187473191445267368, 1310005955185735170970602039832897178, 225236458319460227877232702663929480⟩).within (by decide +kernel), ?_, (mem_Wval h0 hA (t := nucleonCSFF.poleT.rho) (T := poleB (ofRat (38763) 0 50000) (ofRat (737) 0 5000)) (mem_pole (mem_real (by norm_num [nucleonCSFF])) (mem_real (by norm_num [nucleonCSFF]))) ⟨-962115061633269921087449161184972479, 104926892397423560836482719237916828, 822763517060113894335641239962637545, 49891646223015711848797526856974500⟩).within (by decide +kernel), (mem_Wval h0 hA (t := nucleonCSFF.poleT.rho_prime) (T := poleB (ofRat (293) 0 200) (ofRat (2) 0 5)) (mem_pole (mem_real (by norm_num [nucleonCSFF])) (mem_real (by norm_num [nucleonCSFF]))) ⟨-1912325686987829909792302825515683849, 270710263164164241491341473610875074, 358292542696108341765738130332499022, 173117870739598226653738871635089601⟩).within (by decide +kernel), (mem_Wval h0 hA (t := nucleonCSFF.poleT.rho_double_prime) (T := poleB (ofRat (43) 0 25) (ofRat (1) 0 4)) (mem_pole (mem_real (by norm_num [nucleonCSFF])) (mem_real (by norm_num [nucleonCSFF]))) ⟨-2256127443378672430486930966385179108, 168373519874601437069552130108500372, 134474259992781476809183556036803736, 244660579427798811143474481003366405⟩).within (by decide +kernel)⟩
  norm_num [nucleonCSFF, nucleonCSFF_dv, NucleonArgs.thrT, NucleonClass.thr, tMesonPole_re]

def nucleonCSFF_ps : Grp6 where
  T0 := (ofRat (17531904388276887) 0 100000000000000000)
  A := ((ofRat (10512202460515163) 0 10000000000000000) - (ofRat (17531904388276887) 0 100000000000000000)).sqrt 1244019078667087645274586531990379995 0
  B0 := ⟨-283788756391918125971477776610222438, -1, 1048673, false, true⟩
  V := ⟨.A, .B, .B, .A, .B, .B⟩
  W := ⟨⟨-6036792382616550385373827914031361, -549924221116814628377032204811817172, 1630892, false, true⟩,
    ⟨-874545413928004575686135091994339166, -816022362957814708304443363924280347, 1049290, false, true⟩,
    ⟨-1016838870912115689002440621243696063, -708209523674497852720430623811389855, 1049218, false, true⟩,
    ⟨-24963364329005858979568206004538676, -1179795047122035765695923402961139051, 1840815, false, true⟩,
    ⟨-1053141536510844708291088253295105802, -737413270057087638155590044304638020, 1049668, false, true⟩,
    ⟨-1173592215896447277416770273437866338, -577191051868966756991590075908353039, 1049812, false, true⟩⟩

theorem nucleonCSFF_ps_ok : Grp6OK nucleonCSFF.t_0_pauli_isoscalar nucleonCSFF.t_in_pauli_isoscalar (nucleonCSFF.thrS NucleonClass.new.thr nucleonCSFF.t_in_pauli_isoscalar) nucleonCSFF.poleS nucleonCSFF_ps := by
  have h0 : Mem nucleonCSFF.t_0_pauli_isoscalar (ofRat (17531904388276887) 0 100000000000000000) := mem_real (by norm_num [nucleonCSFF])
  have hA := mem_sqrt_real (x := nucleonCSFF.t_in_pauli_isoscalar) (X := (ofRat (10512202460515163) 0 10000000000000000)) (mem_real (by norm_num [nucleonCSFF])) h0 (by norm_num [nucleonCSFF]) 1244019078667087645274586531990379995
  refine ⟨h0, hA, (mem_Wval h0 hA mem_zero ⟨0, 556562609311857145876571599002453029, 1213333483198633666487238178442445694, 542834158217272914959592962373436651⟩).within (by decide +kernel), ?_, (mem_Wval h0 hA (t := nucleonCSFF.poleS.omega) (T := poleB (ofRat (39133) 0 50000) (ofRat (217) 0 25000)) (mem_pole (mem_real (by norm_num [nucleonCSFF])) (mem_real (by norm_num [nucleonCSFF]))) ⟨-878945601005082205666143846512207678, 6828099334110794881189705404864229, 551225130727521513173282813720535370, 6040971565738467043988621476301675⟩).within (by decide +kernel), (mem_Wval h0 hA (t := nucleonCSFF.poleS.omega_prime) (T := poleB (ofRat (141) 0 100) (ofRat (29) 0 100)) (mem_pole (mem_real (by norm_num [nucleonCSFF])) (mem_real (by norm_num [nucleonCSFF]))) ⟨-1790657509889317829207161377782352394, 201731420106276351907065652353987531, 83248097347309936131542060079662467, 575818334907862196795203186946813800⟩).within (by decide +kernel), (mem_Wval h0 hA (t := nucleonCSFF.poleS.omega_double_prime) (T := poleB (ofRat (167) 0 100) (ofRat (63) 0 200)) (mem_pole (mem_real (by norm_num [nucleonCSFF])) (mem_real (by norm_num [nucleonCSFF]))) ⟨-2149583313345044770795907554589109622, 216193039054698998158973668428686437, 59301259405802642517016481683192886, 692983468985683801341735447513072097⟩).within (by decide +kernel), (mem_Wval h0 hA (t := nucleonCSFF.poleS.phi) (T := poleB (ofRat (1019461) 0 1000000) (ofRat (4249) 0 1000000)) (mem_pole (mem_real (by norm_num [nucleonCSFF])) (mem_real (by norm_num [nucleonCSFF]))) ⟨-1235526254381797705142869261520801038, 3097236243293990565587627821780612, 79027049648973725323169944002818748, 14011343525405245717265703696878956⟩).within (by decide +kernel), (mem_Wval h0 hA (t := nucleonCSFF.poleS.phi_prime) (T := poleB (ofRat (42) 0 25) (ofRat (3) 0 20)) (mem_pole (mem_real (by norm_num [nucleonCSFF])) (mem_real (by norm_num [nucleonCSFF]))) ⟨-2162786158721047458577117452600896268, 102933306311578782819541070989468329, 28155727127882742528081605158603967, 691710362708146576105768423954502101⟩).within (by decide +kernel), (mem_Wval h0 hA (t := nucleonCSFF.poleS.phi_double_prime) (T := poleB (ofRat (2159) 0 1000) (ofRat (137) 0 1000)) (mem_pole (mem_real (by norm_num [nucleonCSFF])) (mem_real (by norm_num [nucleonCSFF]))) ⟨-2815374285869387511887143551721325941, 92812406503877149292036084540954597, 14952927020528145040604083536709231, 827478234495366297884744705841280908⟩).within (by decide +kernel)⟩
  norm_num [nucleonCSFF, nucleonCSFF_ps, NucleonArgs.thrS, NucleonClass.thr, tMesonPole_re]

def nucleonCSFF_pv : Grp3 where
  T0 := (ofRat (7791957505900839) 0 100000000000000000)
  A := ((ofRat (4176812892690669) 0 1000000000000000) - (ofRat (7791957505900839) 0 100000000000000000)).sqrt 2691118285601216992574457835266929245 0
  B0 := ⟨-91203194428890615192331427239315022, -1, 1048717, false, true⟩
  V := ⟨.A, .A, .A⟩
  W := ⟨⟨-28677177465808908398578606777013040, -245390481453077748319730505021538812, 1051702, false, true⟩,
    ⟨-109362842509405342988337415849095936, -543558759383966511648019337691637516, 1049508, false, true⟩,
    ⟨-96394805246053510796417870681816854, -710009845408406373121917320341511145, 1050572, false, true⟩⟩

theorem nucleonCSFF_pv_ok : Grp3OK nucleonCSFF.t_0_pauli_isovector nucleonCSFF.t_in_pauli_isovector (nucleonCSFF.thrT NucleonClass.new.thr nucleonCSFF.t_in_pauli_isovector) nucleonCSFF.poleT nucleonCSFF_pv := by
  have h0 : Mem nucleonCSFF.t_0_pauli_isovector (ofRat (7791957505900839) 0 100000000000000000) := mem_real (by norm_num [nucleonCSFF])
  have hA := mem_sqrt_real (x := nucleonCSFF.t_in_pauli_isovector) (X := (ofRat (4176812892690669) 0 1000000000000000)) (mem_real (by norm_num [nucleonCSFF])) h0 (by norm_num [nucleonCSFF]) 2691118285601216992574457835266929245
  refine ⟨h0, hA, (mem_Wval h0 hA mem_zero ⟨0, 371041739541238105187473191445267368, 1316771071427793405563036839891094120, 181551673716562929350899222581255827⟩).within (by decide +kernel), ?_, (mem_Wval h0 hA (t := nucleonCSFF.poleT.rho) (T := poleB (ofRat (38763) 0 50000) (ofRat (737) 0 5000)) (mem_pole (mem_real (by norm_num [nucleonCSFF])) (mem_real (by norm_num [nucleonCSFF]))) ⟨-962115061633269921087449161184972479, 104926892397423560836482719237916828, 914186841473271262468665246496228358, 40857392662081688995200048368128582⟩).within (by decide +kernel), (mem_Wval h0 hA (t := nucleonCSFF.poleT.rho_prime) (T := poleB (ofRat (293) 0 200) (ofRat (2) 0 5)) (mem_pole (mem_real (by norm_num [nucleonCSFF])) (mem_real (by norm_num [nucleonCSFF]))) ⟨-1912325686987829909792302825515683849, 270710263164164241491341473610875074, 551223656260499819868534927081311087, 109810440137723444673239672898243717⟩).within (by decide +kernel), (mem_Wval h0 hA (t := nucleonCSFF.poleT.rho_double_prime) (T := poleB (ofRat (43) 0 25) (ofRat (1) 0 4)) (mem_pole (mem_real (by norm_num [nucleonCSFF])) (mem_real (by norm_num [nucleonCSFF]))) ⟨-2256127443378672430486930966385179108, 168373519874601437069552130108500372, 399759071619007624759037768587651185, 81729246225549184678038455863653091⟩).within (by decide +kernel)⟩
  norm_num [nucleonCSFF, nucleonCSFF_pv, NucleonArgs.thrT, NucleonClass.thr, tMesonPole_re]

def nucleonCSFF_data : NData where
  k := { nucleon_mass := ofRat (938272081) 0 1000000000, mu_p := ofRat (2792847351) 0 1000000000, mu_n := ofRat (-191304273) 0 100000000, a_dirac_omega := ofRat (3300126264212741) 0 2500000000000000, a_dirac_omega_prime := ofRat (5607963254811007) 0 50000000000000000, a_dirac_phi := ofRat (-253461447860531) 0 250000000000000, a_dirac_phi_prime := ofRat (6679466105383819) 0 25000000000000000, a_dirac_rho := ofRat (6479104707666819) 0 100000000000000000, a_pauli_omega := ofRat (-6554972944740961) 0 20000000000000000, a_pauli_phi := ofRat (7195092152400877) 0 100000000000000000, a_pauli_phi_prime := ofRat (349116996120233) 0 1000000000000000 }
  tin := (ofRat (4500790888314569) 0 5000000000000000, ofRat (339217436848279) 0 125000000000000, ofRat (10512202460515163) 0 10000000000000000, ofRat (4176812892690669) 0 1000000000000000)
  pS := ⟨poleB (ofRat (39133) 0 50000) (ofRat (217) 0 25000), poleB (ofRat (141) 0 100) (ofRat (29) 0 100), poleB (ofRat (167) 0 100) (ofRat (63) 0 200), poleB (ofRat (1019461) 0 1000000) (ofRat (4249) 0 1000000), poleB (ofRat (42) 0 25) (ofRat (3) 0 20), poleB (ofRat (2159) 0 1000) (ofRat (137) 0 1000)⟩
  pT := ⟨poleB (ofRat (38763) 0 50000) (ofRat (737) 0 5000), poleB (ofRat (293) 0 200) (ofRat (2) 0 5), poleB (ofRat (43) 0 25) (ofRat (1) 0 4)⟩
  ds := nucleonCSFF_ds
  dv := nucleonCSFF_dv
  ps := nucleonCSFF_ps
  pv := nucleonCSFF_pv
  cDS := ⟨⟨-248170692639799018677466534061741685, 0, 6844245, false, true⟩,
    ⟨-573851467363262221164031670385936430, 0, 12086736, false, true⟩,
    ⟨-897961163398090096929421282159833303, 1, 17545373, false, true⟩,
    ⟨-417020057101980221605744295174254301, 0, 6872627, false, true⟩,
    ⟨-1029735305660271347087137756207446490, 1, 19148737, false, true⟩,
    ⟨-1802648888576104248586111206126078152, 3, 31468525, false, true⟩⟩
  cDV := ⟨⟨-69391006175219437661068806410637788, 0, 3431598, false, true⟩,
    ⟨-244194260304453733415704669810012084, 0, 5232286, false, true⟩,
    ⟨-169260090107081416097386806209132133, 0, 3774156, false, true⟩⟩
  cPS := ⟨⟨-209411389555589560438359803036326013, 0, 6600770, false, true⟩,
    ⟨-455083246913808179304532774493203307, 0, 9970112, false, true⟩,
    ⟨-731521759021279222762569724710464511, 0, 14668940, false, true⟩,
    ⟨-352992593934557123685625745541442173, 0, 6637682, false, true⟩,
    ⟨-853741248119707179349901265372726032, 0, 16194970, false, true⟩,
    ⟨-1508584648530390162708754122388797474, 1, 26560176, false, true⟩⟩

theorem nucleonCSFF_ok : NOK .new nucleonCSFF nucleonCSFF_data where
  hk := ⟨mem_real (by norm_num [nucleonCSFF]), mem_real (by norm_num [nucleonCSFF]), mem_real (by norm_num [nucleonCSFF]), mem_real (by norm_num [nucleonCSFF]), mem_real (by norm_num [nucleonCSFF]), mem_real (by norm_num [nucleonCSFF]), mem_real (by norm_num [nucleonCSFF]), mem_real (by norm_num [nucleonCSFF]), mem_real (by norm_num [nucleonCSFF]), mem_real (by norm_num [nucleonCSFF]), mem_real (by norm_num [nucleonCSFF])⟩
  htin := ⟨mem_real (by norm_num [nucleonCSFF]), mem_real (by norm_num [nucleonCSFF]), mem_real (by norm_num [nucleonCSFF]), mem_real (by norm_num [nucleonCSFF])⟩
  hpS := ⟨mem_pole (mem_real (by norm_num [nucleonCSFF])) (mem_real (by norm_num [nucleonCSFF])), mem_pole (mem_real (by norm_num [nucleonCSFF])) (mem_real (by norm_num [nucleonCSFF])), mem_pole (mem_real (by norm_num [nucleonCSFF])) (mem_real (by norm_num [nucleonCSFF])), mem_pole (mem_real (by norm_num [nucleonCSFF])) (mem_real (by norm_num [nucleonCSFF])), mem_pole (mem_real (by norm_num [nucleonCSFF])) (mem_real (by norm_num [nucleonCSFF])), mem_pole (mem_real (by norm_num [nucleonCSFF])) (mem_real (by norm_num [nucleonCSFF]))⟩
  hpT := ⟨mem_pole (mem_real (by norm_num [nucleonCSFF])) (mem_real (by norm_num [nucleonCSFF])), mem_pole (mem_real (by norm_num [nucleonCSFF])) (mem_real (by norm_num [nucleonCSFF])), mem_pole (mem_real (by norm_num [nucleonCSFF])) (mem_real (by norm_num [nucleonCSFF]))⟩
  ds := nucleonCSFF_ds_ok
  dv := nucleonCSFF_dv_ok
  ps := nucleonCSFF_ps_ok
  pv := nucleonCSFF_pv_ok
  cDS := nucleonCSFF_ds_ok.c.within (by decide +kernel)
  cDV := nucleonCSFF_dv_ok.c.within (by decide +kernel)
  cPS := nucleonCSFF_ps_ok.c.within (by decide +kernel)
  mass := by norm_num [nucleonCSFF]
  okDS := by decide +kernel
  okDV := by decide +kernel
  okPS := by decide +kernel

theorem nucleonCSFF_proper : nucleonCSFF.Proper := by refine ⟨?_, ?_, ?_, ?_⟩ <;> norm_num [nucleonCSFF]

theorem nucleonCSFF_builds (k : NucleonClass) (proton electric : Bool) : k.Builds proton electric nucleonCSFF := by
  apply builds_of_base
  intro b
  apply NucleonBase.init_ok _ _ _ _ nucleonCSFF_proper
  · apply initSix_ok <;> apply build_ok <;> norm_num [nucleonCSFF]
  · apply initThree_ok <;> apply build_ok <;> norm_num [nucleonCSFF]
  · apply initSix_ok <;> apply build_ok <;> norm_num [nucleonCSFF]
  · apply initThree_ok <;> apply build_ok <;> norm_num [nucleonCSFF]
  all_goals norm_num [nucleonCSFF]

/-- `tests/test_NucleonPairToElectronPositronTotalCrossSection.py:94` (`test___call___nucleon_ua_model`). -/
example : ∃ m, NucleonUAModel.init true true nucleonCSFF = .ok m ∧
    ∃ y, ((NucleonCS.init 0.938272081 0.0072973525693 389379.3721).call nucleonFF m ⟨4, 0⟩).1 = .ok y ∧ IsClose y ⟨4.037438660548728, 0⟩ 1e-15 := by
  obtain ⟨m, hm⟩ : ∃ m, NucleonUAModel.init true true nucleonCSFF = .ok m := nucleonCSFF_builds .new true true
  refine ⟨m, hm, nucCS_close (M := (ofRat (938272081) 0 1000000000)) (AL := (ofRat (72973525693) 0 10000000000000)) (HC := (ofRat (3893793721) 0 10000)) (T := ofRat (4) (0) 1)
    (E := ofRat (504679832568591) (0) 125000000000000) (GE := ⟨-687827046409973378209941661480670486, 378064495109077974443409001248057229, 24007314021, false, true⟩) (GM := ⟨-604088331244232435968588554527648714, 560084133594011850518395035750595316, 22609292473, false, true⟩) nucleonCSFF_ok nucleonCSFF_proper (nucleonCSFF_builds .new true) hm
    (mem_real (by norm_num)) (mem_real (by norm_num)) (mem_real (by norm_num)) (mem_gauss (by norm_num) (by norm_num))
    (mem_gauss (by norm_num) (by norm_num)) (by norm_num) (le_norm (by norm_num) (by norm_num))
    ⟨⟨2599543483196523562962188974952765819, 0, 0, 2119241651277006267565138218396040232⟩,
     ⟨2632435428767769289596252099688378432, 0, 0, 4223895686534194911290492468605986773⟩,
     ⟨2599543483196523562962188974952765819, 0, 0, 2238271611379506188358263500958211972⟩,
     ⟨2632435428767769289596252099688378432, 0, 12660319789849259800852870430711501008, 0⟩⟩
    5316911983139663491615228241121378304 459777450567969018576329260956389054 (by decide +kernel) (by decide +kernel) (by decide +kernel)⟩

/-- `tests/test_NucleonPairToElectronPositronTotalCrossSection.py:95` (`test___call___nucleon_ua_model`). -/
example : ∃ m, NucleonUAModel.init true true nucleonCSFF = .ok m ∧
    ∃ y, ((NucleonCS.init 0.938272081 0.0072973525693 389379.3721).call nucleonFF m ⟨4.123, 0.732⟩).1 = .ok y ∧ IsClose y ⟨1.074340393409335, -0.3040419016151704⟩ 1e-15 := by
  obtain ⟨m, hm⟩ : ∃ m, NucleonUAModel.init true true nucleonCSFF = .ok m := nucleonCSFF_builds .new true true
  refine ⟨m, hm, nucCS_close (M := (ofRat (938272081) 0 1000000000)) (AL := (ofRat (72973525693) 0 10000000000000)) (HC := (ofRat (3893793721) 0 10000)) (T := ofRat (4123) (732) 1000)
    (E := ofRat (5371701967046675) (-1520209508075852) 5000000000000000) (GE := ⟨-519025979436063006383580264147692685, -234078258027008789524020607491430762, 24845605309, false, true⟩) (GM := ⟨-306957529637845859988224768705911210, -94094881908626597224408182724332220, 21239860743, false, true⟩) nucleonCSFF_ok nucleonCSFF_proper (nucleonCSFF_builds .new true) hm
    (mem_real (by norm_num)) (mem_real (by norm_num)) (mem_real (by norm_num)) (mem_gauss (by norm_num) (by norm_num))
    (mem_gauss (by norm_num) (by norm_num)) (by norm_num) (le_norm (by norm_num) (by norm_num))
    ⟨⟨2652243572257190274730356560777420454, 243818491059078687033824754984558255, 98667242567250078637421845328406001, 2083405198748728667471623060171980948⟩,
     ⟨2684227575342595382432424579438993006, 240913263707289383954206835779068466, 725917701379246080495615100800148931, 3778188836467822924384252202682168283⟩,
     ⟨2652243572257190274730356560777420454, 243818491059078687033824754984558255, 119608163923409434461461171583465261, 2193615281010943522470928541275161011⟩,
     ⟨2684227575342595382432424579438993006, 240913263707289383954206835779068466, 4404954244633975714579812722100351465, 4476869990712101307483865897855504179⟩⟩
    5566109973677929823730419709283866794 530126198898651588627032333598298103 (by decide +kernel) (by decide +kernel) (by decide +kernel)⟩

/-- `tests/test_NucleonPairToElectronPositronTotalCrossSection.py:96` (`test___call___nucleon_ua_model`). -/
example : ∃ m, NucleonUAModel.init true true nucleonCSFF = .ok m ∧
    ∃ y, ((NucleonCS.init 0.938272081 0.0072973525693 389379.3721).call nucleonFF m ⟨0, 3.732⟩).1 = .ok y ∧ IsClose y ⟨-0.019159837461526916, -0.5369667339262477⟩ 1e-15 := by
  obtain ⟨m, hm⟩ : ∃ m, NucleonUAModel.init true true nucleonCSFF = .ok m := nucleonCSFF_builds .new true true
  refine ⟨m, hm, nucCS_close (M := (ofRat (938272081) 0 1000000000)) (AL := (ofRat (72973525693) 0 10000000000000)) (HC := (ofRat (3893793721) 0 10000)) (T := ofRat (0) (933) 250)
    (E := ofRat (-4789959365381729) (-134241683481561925) 250000000000000000) (GE := ⟨-96792828015854042152740115713217036, 60087796482251362113332445299553723, 833227819, false, true⟩) (GM := ⟨-331500316268097005565115901425938523, 248440778039696631291779722260065648, 817588524, false, true⟩) nucleonCSFF_ok nucleonCSFF_proper (nucleonCSFF_builds .new true) hm
    (mem_real (by norm_num)) (mem_real (by norm_num)) (mem_real (by norm_num)) (mem_gauss (by norm_num) (by norm_num))
    (mem_gauss (by norm_num) (by norm_num)) (by norm_num) (le_norm (by norm_num) (by norm_num))
    ⟨⟨1773609762275438234097728174852629720, 1858885022512893200353712391519401590, 577983803030349729949830158648371532, 1662728977584836558070502232952580557⟩,
     ⟨1796891528098082326986453825754206049, 1834800026224233888688885717565051507, 1252996034347542286630861499686366473, 1596653533051562719287900164268266327⟩,
     ⟨1773609762275438234097728174852629720, 1858885022512893200353712391519401590, 651850936672584010405324843375675490, 1677771016840143372021978518829498787⟩,
     ⟨1796891528098082326986453825754206049, 1834800026224233888688885717565051507, 1495223469868402351798099789914724130, 1400494111505298506394543599535664722⟩⟩
    4960678880269306037677007948966245956 315747044057942766521983396155895533 (by decide +kernel) (by decide +kernel) (by decide +kernel)⟩

/-- `tests/test_NucleonPairToElectronPositronTotalCrossSection.py:97` (`test___call___nucleon_ua_model`). -/
example : ∃ m, NucleonUAModel.init true true nucleonCSFF = .ok m ∧
    ∃ y, ((NucleonCS.init 0.938272081 0.0072973525693 389379.3721).call nucleonFF m ⟨0, -7.732⟩).1 = .ok y ∧ IsClose y ⟨-0.0007610111434823791, 0.0474064128632346⟩ 1e-15 := by
  obtain ⟨m, hm⟩ : ∃ m, NucleonUAModel.init true true nucleonCSFF = .ok m := nucleonCSFF_builds .new true true
  refine ⟨m, hm, nucCS_close (M := (ofRat (938272081) 0 1000000000)) (AL := (ofRat (72973525693) 0 10000000000000)) (HC := (ofRat (3893793721) 0 10000)) (T := ofRat (0) (-1933) 250)
    (E := ofRat (-7610111434823791) (474064128632346000) 10000000000000000000) (GE := ⟨-26458025727641896275156269660815514, -3504620759964006036271900422160194, 266004273, false, true⟩) (GM := ⟨-97111592797129928527594248757830511, -25956481932059153771355189216154476, 212461816, false, true⟩) nucleonCSFF_ok nucleonCSFF_proper (nucleonCSFF_builds .new true) hm
    (mem_real (by norm_num)) (mem_real (by norm_num)) (mem_real (by norm_num)) (mem_gauss (by norm_num) (by norm_num))
    (mem_gauss (by norm_num) (by norm_num)) (by norm_num) (le_norm (by norm_num) (by norm_num))
    ⟨⟨-2584086972243283845163749008833718712, 2643343984085590958828696034659027129, 241204314430778806581207844137467650, 1053773268223837389851081825360149938⟩,
     ⟨-2600411814741699583974697862103014125, 2626749622390761341171212563506965812, 404565128725600815494273670761846216, 837988731709506852620207024722940740⟩,
     ⟨-2584086972243283845163749008833718712, 2643343984085590958828696034659027129, 261075041860586636070127749139827948, 1028309124124928309005701953273853549⟩,
     ⟨-2600411814741699583974697862103014125, 2626749622390761341171212563506965812, 480137303012784813128888170637298267, 745346558469477153092612181049548607⟩⟩
    10277590863408969529292236190087624261 980899746255099222582342349163851413 (by decide +kernel) (by decide +kernel) (by decide +kernel)⟩

/-- `tests/test_NucleonPairToElectronPositronTotalCrossSection.py:98` (`test___call___nucleon_ua_model`). -/
example : ∃ m, NucleonUAModel.init true true nucleonCSFF = .ok m ∧
    ∃ y, ((NucleonCS.init 0.938272081 0.0072973525693 389379.3721).call nucleonFF m ⟨12.123, -0.732⟩).1 = .ok y ∧ IsClose y ⟨0.007284922223154086, 0.0004451300075981765⟩ 1e-15 := by
  obtain ⟨m, hm⟩ : ∃ m, NucleonUAModel.init true true nucleonCSFF = .ok m := nucleonCSFF_builds .new true true
  refine ⟨m, hm, nucCS_close (M := (ofRat (938272081) 0 1000000000)) (AL := (ofRat (72973525693) 0 10000000000000)) (HC := (ofRat (3893793721) 0 10000)) (T := ofRat (12123) (-732) 1000)
    (E := ofRat (14569844446308172) (890260015196353) 2000000000000000000) (GE := ⟨9833389487808456011982744617944090, -8912520197263180944569456687522899, 214048245, false, true⟩) (GM := ⟨45746130039865129212624323462894234, -4659820444728008764503818012139584, 155775974, false, true⟩) nucleonCSFF_ok nucleonCSFF_proper (nucleonCSFF_builds .new true) hm
    (mem_real (by norm_num)) (mem_real (by norm_num)) (mem_real (by norm_num)) (mem_gauss (by norm_num) (by norm_num))
    (mem_gauss (by norm_num) (by norm_num)) (by norm_num) (le_norm (by norm_num) (by norm_num))
    ⟨⟨-4596685344435767072249906697075324670, 140680942299361472735240604538753216, 8285070239270458265140282025921839, 1034037708991806564864827306225165188⟩,
     ⟨-4615348998868227323877908241917767462, 140112053469296397377401812886840794, 14530252967934283879041887344297507, 801054685243010902588343086681070531⟩,
     ⟨-4596685344435767072249906697075324670, 140680942299361472735240604538753216, 8993032823116630197331273332911470, 1007332277602060596895591327823122840⟩,
     ⟨-4615348998868227323877908241917767462, 140112053469296397377401812886840794, 18271727504430379290678197845405344, 682736419908946120233840622577687115⟩⟩
    16143579514909138613285214306001590659 1120069956842345881945598140866711366 (by decide +kernel) (by decide +kernel) (by decide +kernel)⟩

end Conformance
end UA
