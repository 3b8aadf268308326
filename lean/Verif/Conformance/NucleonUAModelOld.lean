import Verif.Conformance.EvalNucleon

/-!
# The numbers in `tests/test_NucleonUAModelOld.py`

For every `expected_value` in that file: the model built with the arguments of the test, called at the test's `t`, returns a
number that the test's `cmath.isclose(actual, expected, abs_tol=1.0e-15)` accepts. Decimal literals are read exactly. The
long integers approximate square roots and values of the conformal variable in units of `2 ^ -120`; they are checked, not
trusted.
-/

namespace UA
namespace Conformance

open Complex Ball

/-- The model built at `tests/test_NucleonUAModelOld.py:10-50` (`test___call__`). -/
noncomputable def old1 : NucleonArgs := {
  nucleon_mass := 1,
  magnetic_moment_proton := 0.3,
  magnetic_moment_neutron := 1.7,
  t_0_dirac_isoscalar := 1,
  t_0_dirac_isovector := 0.1,
  t_in_dirac_isoscalar := 4.5,
  t_in_dirac_isovector := 14.7,
  t_0_pauli_isoscalar := 1.1,
  t_0_pauli_isovector := 0.2,
  t_in_pauli_isoscalar := 3.9,
  t_in_pauli_isovector := 14.5,
  a_dirac_omega := 0.21,
  a_dirac_omega_prime := 0.09,
  a_dirac_phi := 0.15,
  a_dirac_phi_prime := 0.07,
  a_dirac_rho := 0.34,
  a_pauli_omega := -0.17,
  a_pauli_phi := -0.42,
  a_pauli_phi_prime := 0.09,
  mass_omega := 1.4,
  decay_rate_omega := 0.001,
  mass_omega_prime := 1.5,
  decay_rate_omega_prime := 0.001,
  mass_omega_double_prime := 1.6,
  decay_rate_omega_double_prime := 0.001,
  mass_phi := 2,
  decay_rate_phi := 0.01,
  mass_phi_prime := 2.2,
  decay_rate_phi_prime := 0.01,
  mass_phi_double_prime := 2.4,
  decay_rate_phi_double_prime := 0.01,
  mass_rho := 3.1,
  decay_rate_rho := 0.1,
  mass_rho_prime := 3.2,
  decay_rate_rho_prime := 0.1,
  mass_rho_double_prime := 3.3,
  decay_rate_rho_double_prime := 0.1 }

def old1_ds : Grp6 where
  T0 := (ofRat (1) 0 1)
  A := ((ofRat (9) 0 2) - (ofRat (1) 0 1)).sqrt 2486757874567675950026827032449833550 0
  B0 := ⟨-332960514119876919641537488772335086, -1, 1048623, false, true⟩
  V := ⟨.A, .A, .A, .A, .B, .B⟩
  W := ⟨⟨-321758552118559632979649390014831, -375912005969132418088126459584108047, 47454237, false, true⟩,
    ⟨-329922361186078888411207279933724, -440877331277613152801616830728719885, 55154458, false, true⟩,
    ⟨-350392127031280753978431393046135, -508693058348880035150343780062491701, 64064192, false, true⟩,
    ⟨-7874060044059710836713020892858938, -892978243104185103101382817841871943, 1673121, false, true⟩,
    ⟨-392114538569299161478059602101059322, -1257350328406772680177172048362739883, 1074036, false, true⟩,
    ⟨-681044653483284573950861828795983724, -1135006962510334502615425984743950663, 1067103, false, true⟩⟩

theorem old1_ds_ok : Grp6OK old1.t_0_dirac_isoscalar old1.t_in_dirac_isoscalar (old1.thrS NucleonClass.old.thr old1.t_in_dirac_isoscalar) old1.poleS old1_ds := by
  have h0 : Mem old1.t_0_dirac_isoscalar (ofRat (1) 0 1) := mem_real (by norm_num [old1])
  have hA := mem_sqrt_real (x := old1.t_in_dirac_isoscalar) (X := (ofRat (9) 0 2)) (mem_real (by norm_num [old1])) h0 (by norm_num [old1]) 2486757874567675950026827032449833550
  refine ⟨h0, hA, (mem_Wval h0 hA mem_zero ⟨0, 1329227995784915872903807060280344576, 1172268904183899755306327946274351284, 626604086375011748815192115827148585⟩).within (by decide +kernel), ?_, (mem_Wval h0 hA (t := old1.poleS.omega) (T := poleB (ofRat (7) 0 5) (ofRat (1) 0 1000)) (mem_pole (mem_real (by norm_num [old1])) (mem_real (by norm_num [old1]))) ⟨-1302372313243577609882319022664267688, 949646220798888001247257869113927, 743149638952469974797615494721314457, 391055999220037882682565820113775⟩).within (by decide +kernel), (mem_Wval h0 hA (t := old1.poleS.omega_prime) (T := poleB (ofRat (3) 0 2) (ofRat (1) 0 1000)) (mem_pole (mem_real (by norm_num [old1])) (mem_real (by norm_num [old1]))) ⟨-1486122196975156600710155891308450530, 891673175517437237984337883569009, 667090501635600122849391167422723006, 372085266497339705976988262731906⟩).within (by decide +kernel), (mem_Wval h0 hA (t := old1.poleS.omega_double_prime) (T := poleB (ofRat (8) 0 5) (ofRat (1) 0 1000)) (mem_pole (mem_real (by norm_num [old1])) (mem_real (by norm_num [old1]))) ⟨-1660205319893528459429684331022887619, 851387256073457213378109664010070, 593430212615133480014413992719893663, 366546918693931170475865951581916⟩).within (by decide +kernel), (mem_Wval h0 hA (t := old1.poleS.phi) (T := poleB (ofRat (2) 0 1) (ofRat (1) 0 100)) (mem_pole (mem_real (by norm_num [old1])) (mem_real (by norm_num [old1]))) ⟨-2302293621130262813533451314903544669, 7674290753196752479056543758628444, 260925834907411431930925340205236468, 5634475559938252222872186830693170⟩).within (by decide +kernel), (mem_Wval h0 hA (t := old1.poleS.phi_prime) (T := poleB (ofRat (11) 0 5) (ofRat (1) 0 100)) (mem_pole (mem_real (by norm_num [old1])) (mem_real (by norm_num [old1]))) ⟨-2604746481246338823331817577474014715, 7461500707455671314851511655705018, 6246583315163009734087668480018268, 202452403415427615176900326131398822⟩).within (by decide +kernel), (mem_Wval h0 hA (t := old1.poleS.phi_double_prime) (T := poleB (ofRat (12) 0 5) (ofRat (1) 0 100)) (mem_pole (mem_real (by norm_num [old1])) (mem_real (by norm_num [old1]))) ⟨-2900034708058696113808043433169176291, 7311003802272936260240896217936091, 3006588465313783736481763823188684, 368191855137393340086051967971105922⟩).within (by decide +kernel)⟩
  norm_num [old1, old1_ds, NucleonArgs.thrS, NucleonClass.thr, tMesonPole_re]

def old1_dv : Grp3 where
  T0 := (ofRat (1) 0 10)
  A := ((ofRat (147) 0 10) - (ofRat (1) 0 10)).sqrt 5078973040464421603988318875246040629 0
  B0 := ⟨-54909982338855774784866431219278422, -1, 1048755, false, true⟩
  V := ⟨.A, .A, .A⟩
  W := ⟨⟨-18604581334496880483797498842624156, -674131468317704493823510233142812333, 1064337, false, true⟩,
    ⟨-20346466816229337894785056889449782, -712941469838053132744333870879164429, 1064375, false, true⟩,
    ⟨-22607605748006384702743258815004271, -755683796606964124368943694592627758, 1065843, false, true⟩⟩

theorem old1_dv_ok : Grp3OK old1.t_0_dirac_isovector old1.t_in_dirac_isovector (old1.thrT NucleonClass.old.thr old1.t_in_dirac_isovector) old1.poleT old1_dv := by
  have h0 : Mem old1.t_0_dirac_isovector (ofRat (1) 0 10) := mem_real (by norm_num [old1])
  have hA := mem_sqrt_real (x := old1.t_in_dirac_isovector) (X := (ofRat (147) 0 10)) (mem_real (by norm_num [old1])) h0 (by norm_num [old1]) 5078973040464421603988318875246040629
  refine ⟨h0, hA, (mem_Wval h0 hA mem_zero ⟨0, 420338799634102815186760061431442430, 1324699096772839304603173426720612422, 109632877311543988610151583216431203⟩).within (by decide +kernel), ?_, (mem_Wval h0 hA (t := old1.poleT.rho) (T := poleB (ofRat (31) 0 10) (ofRat (1) 0 10)) (mem_pole (mem_real (by norm_num [old1])) (mem_real (by norm_num [old1]))) ⟨-4099117224572994784398073784515343930, 66809822709858636413102522584550403, 434504107236348732579761313629499431, 16379235953853514400846012086306612⟩).within (by decide +kernel), (mem_Wval h0 hA (t := old1.poleT.rho_prime) (T := poleB (ofRat (16) 0 5) (ofRat (1) 0 10)) (mem_pole (mem_real (by norm_num [old1])) (mem_real (by norm_num [old1]))) ⟨-4232714588455949921180154780198277941, 66788233521709260809565006119860451, 400963084373865437243732653701103898, 17238175377109455186154825431964373⟩).within (by decide +kernel), (mem_Wval h0 hA (t := old1.poleT.rho_double_prime) (T := poleB (ofRat (33) 0 10) (ofRat (1) 0 10)) (mem_pole (mem_real (by norm_num [old1])) (mem_real (by norm_num [old1]))) ⟨-4366270806595774997454670250693584162, 66768594666194956819162507426684956, 365461774420867642174194707066691632, 18376258568732102250466711361270441⟩).within (by decide +kernel)⟩
  norm_num [old1, old1_dv, NucleonArgs.thrT, NucleonClass.thr, tMesonPole_re]

def old1_ps : Grp6 where
  T0 := (ofRat (11) 0 10)
  A := ((ofRat (39) 0 10) - (ofRat (11) 0 10)).sqrt 2224223860446487549736536382181071422 0
  B0 := ⟨-382139321781015610278015885846830370, -1, 1048623, false, true⟩
  V := ⟨.A, .A, .A, .B, .B, .B⟩
  W := ⟨⟨-393125925309039115964814099791495, -402025902647001083296013007406503793, 43499538, false, true⟩,
    ⟨-409424287352178165926095559874588, -481918029582138591733612819153434681, 50784601, false, true⟩,
    ⟨-449380700125222223031945592664054, -567349531665297121182460004008935423, 57875831, false, true⟩,
    ⟨-243597683520827385705686864111136784, -1282382267746802353047773509348161589, 1089045, false, true⟩,
    ⟨-663059282488924959524477265206928900, -1144270090494551274872598390141915765, 1066876, false, true⟩,
    ⟨-837141540215389398137507225408239382, -1027089056864058600823407896976480613, 1065937, false, true⟩⟩

theorem old1_ps_ok : Grp6OK old1.t_0_pauli_isoscalar old1.t_in_pauli_isoscalar (old1.thrS NucleonClass.old.thr old1.t_in_pauli_isoscalar) old1.poleS old1_ps := by
  have h0 : Mem old1.t_0_pauli_isoscalar (ofRat (11) 0 10) := mem_real (by norm_num [old1])
  have hA := mem_sqrt_real (x := old1.t_in_pauli_isoscalar) (X := (ofRat (39) 0 10)) (mem_real (by norm_num [old1])) h0 (by norm_num [old1]) 2224223860446487549736536382181071422
  refine ⟨h0, hA, (mem_Wval h0 hA mem_zero ⟨0, 1394106083214696672224308983864113157, 1126279532340482711371950311457497131, 705933056181170685820925530626866530⟩).within (by decide +kernel), ?_, (mem_Wval h0 hA (t := old1.poleS.omega) (T := poleB (ofRat (7) 0 5) (ofRat (1) 0 1000)) (mem_pole (mem_real (by norm_num [old1])) (mem_real (by norm_num [old1]))) ⟨-1232675561812272757554068681504978704, 1003340200503807278191206503260041, 711890265694820473606385663515388387, 463488634414736782227682090466553⟩).within (by decide +kernel), (mem_Wval h0 hA (t := old1.poleS.omega_prime) (T := poleB (ofRat (3) 0 2) (ofRat (1) 0 1000)) (mem_pole (mem_real (by norm_num [old1])) (mem_real (by norm_num [old1]))) ⟨-1425438370117020902399951459654211390, 929633526334079033549945872378248, 621853749962670156194188229264840209, 441057894907538895564471908377522⟩).within (by decide +kernel), (mem_Wval h0 hA (t := old1.poleS.omega_double_prime) (T := poleB (ofRat (8) 0 5) (ofRat (1) 0 1000)) (mem_pole (mem_real (by norm_num [old1])) (mem_real (by norm_num [old1]))) ⟨-1606112401848910876872879609316726148, 880061476516557762344881990772367, 533967091166782649095844526673043745, 441470965740000890270750346815881⟩).within (by decide +kernel), (mem_Wval h0 hA (t := old1.poleS.phi) (T := poleB (ofRat (2) 0 1) (ofRat (1) 0 100)) (mem_pole (mem_real (by norm_num [old1])) (mem_real (by norm_num [old1]))) ⟨-2263597411697214849199510384874542098, 7805482793221724879958133595657460, 12172549246166053053988940072997654, 125119000337080083800831316987561013⟩).within (by decide +kernel), (mem_Wval h0 hA (t := old1.poleS.phi_prime) (T := poleB (ofRat (11) 0 5) (ofRat (1) 0 100)) (mem_pole (mem_real (by norm_num [old1])) (mem_real (by norm_num [old1]))) ⟨-2570607129392064513496126933366949651, 7560594339889884777412742433504927, 3617139287694876740383735339183069, 357289679677661504175051119772562707⟩).within (by decide +kernel), (mem_Wval h0 hA (t := old1.poleS.phi_double_prime) (T := poleB (ofRat (12) 0 5) (ofRat (1) 0 100)) (mem_pole (mem_real (by norm_num [old1])) (mem_real (by norm_num [old1]))) ⟨-2869410697071913228041624900508859492, 7389031064453874125588390172689007, 2365764706445312068283381281240513, 473082537999611245266251208508448415⟩).within (by decide +kernel)⟩
  norm_num [old1, old1_ps, NucleonArgs.thrS, NucleonClass.thr, tMesonPole_re]

def old1_pv : Grp3 where
  T0 := (ofRat (1) 0 5)
  A := ((ofRat (29) 0 2) - (ofRat (1) 0 5)).sqrt 5026520966466855981360607713149202318 0
  B0 := ⟨-78325982965830222410004613336778720, -1, 1048684, false, true⟩
  V := ⟨.A, .A, .A⟩
  W := ⟨⟨-19149069563230440650477439209321348, -679980734784480207991616287912463040, 1064033, false, true⟩,
    ⟨-21013500322985464221479029701447150, -719986369486526197282747021363662654, 1063932, false, true⟩,
    ⟨-23460723146443790584519951307618000, -764220914873981572603952127458028485, 1066132, false, true⟩⟩

theorem old1_pv_ok : Grp3OK old1.t_0_pauli_isovector old1.t_in_pauli_isovector (old1.thrT NucleonClass.old.thr old1.t_in_pauli_isovector) old1.poleT old1_pv := by
  have h0 : Mem old1.t_0_pauli_isovector (ofRat (1) 0 5) := mem_real (by norm_num [old1])
  have hA := mem_sqrt_real (x := old1.t_in_pauli_isovector) (X := (ofRat (29) 0 2)) (mem_real (by norm_num [old1])) h0 (by norm_num [old1]) 5026520966466855981360607713149202318
  refine ⟨h0, hA, (mem_Wval h0 hA mem_zero ⟨0, 594448831234175163902224489999838185, 1320029075602735923025379930480006003, 156109911093981532441740476962383936⟩).within (by decide +kernel), ?_, (mem_Wval h0 hA (t := old1.poleT.rho) (T := poleB (ofRat (31) 0 10) (ofRat (1) 0 10)) (mem_pole (mem_real (by norm_num [old1])) (mem_real (by norm_num [old1]))) ⟨-4077514529152862934889201469496976876, 67163781534715095143136743702290987, 429361406969639978589287437606016499, 16760503920846242318955695524806717⟩).within (by decide +kernel), (mem_Wval h0 hA (t := old1.poleT.rho_prime) (T := poleB (ofRat (16) 0 5) (ofRat (1) 0 10)) (mem_pole (mem_real (by norm_num [old1])) (mem_real (by norm_num [old1]))) ⟨-4211796825397210915649936859939197845, 67119935287448420966848443557405815, 395004788088854718025909304404724014, 17681003400556503649066480493701553⟩).within (by decide +kernel), (mem_Wval h0 hA (t := old1.poleT.rho_double_prime) (T := poleB (ofRat (33) 0 10) (ofRat (1) 0 10)) (mem_pole (mem_real (by norm_num [old1])) (mem_real (by norm_num [old1]))) ⟨-4345995598591693598496724763244913862, 67080087651930142597212503952294787, 358537283601951330895119049454632203, 18914334978164353404676491971965208⟩).within (by decide +kernel)⟩
  norm_num [old1, old1_pv, NucleonArgs.thrT, NucleonClass.thr, tMesonPole_re]

def old1_data : NData where
  k := { nucleon_mass := ofRat (1) 0 1, mu_p := ofRat (3) 0 10, mu_n := ofRat (17) 0 10, a_dirac_omega := ofRat (21) 0 100, a_dirac_omega_prime := ofRat (9) 0 100, a_dirac_phi := ofRat (3) 0 20, a_dirac_phi_prime := ofRat (7) 0 100, a_dirac_rho := ofRat (17) 0 50, a_pauli_omega := ofRat (-17) 0 100, a_pauli_phi := ofRat (-21) 0 50, a_pauli_phi_prime := ofRat (9) 0 100 }
  tin := (ofRat (9) 0 2, ofRat (147) 0 10, ofRat (39) 0 10, ofRat (29) 0 2)
  pS := ⟨poleB (ofRat (7) 0 5) (ofRat (1) 0 1000), poleB (ofRat (3) 0 2) (ofRat (1) 0 1000), poleB (ofRat (8) 0 5) (ofRat (1) 0 1000), poleB (ofRat (2) 0 1) (ofRat (1) 0 100), poleB (ofRat (11) 0 5) (ofRat (1) 0 100), poleB (ofRat (12) 0 5) (ofRat (1) 0 100)⟩
  pT := ⟨poleB (ofRat (31) 0 10) (ofRat (1) 0 10), poleB (ofRat (16) 0 5) (ofRat (1) 0 10), poleB (ofRat (33) 0 10) (ofRat (1) 0 10)⟩
  ds := old1_ds
  dv := old1_dv
  ps := old1_ps
  pv := old1_pv
  cDS := ⟨(ofRat (7) 0 5) * (ofRat (7) 0 5),
    (ofRat (3) 0 2) * (ofRat (3) 0 2),
    (ofRat (8) 0 5) * (ofRat (8) 0 5),
    (ofRat (2) 0 1) * (ofRat (2) 0 1),
    (ofRat (11) 0 5) * (ofRat (11) 0 5),
    (ofRat (12) 0 5) * (ofRat (12) 0 5)⟩
  cDV := ⟨(ofRat (31) 0 10) * (ofRat (31) 0 10),
    (ofRat (16) 0 5) * (ofRat (16) 0 5),
    (ofRat (33) 0 10) * (ofRat (33) 0 10)⟩
  cPS := ⟨(ofRat (7) 0 5) * (ofRat (7) 0 5),
    (ofRat (3) 0 2) * (ofRat (3) 0 2),
    (ofRat (8) 0 5) * (ofRat (8) 0 5),
    (ofRat (2) 0 1) * (ofRat (2) 0 1),
    (ofRat (11) 0 5) * (ofRat (11) 0 5),
    (ofRat (12) 0 5) * (ofRat (12) 0 5)⟩

theorem old1_ok : NOK .old old1 old1_data where
  hk := ⟨mem_real (by norm_num [old1]), mem_real (by norm_num [old1]), mem_real (by norm_num [old1]), mem_real (by norm_num [old1]), mem_real (by norm_num [old1]), mem_real (by norm_num [old1]), mem_real (by norm_num [old1]), mem_real (by norm_num [old1]), mem_real (by norm_num [old1]), mem_real (by norm_num [old1]), mem_real (by norm_num [old1])⟩
  htin := ⟨mem_real (by norm_num [old1]), mem_real (by norm_num [old1]), mem_real (by norm_num [old1]), mem_real (by norm_num [old1])⟩
  hpS := ⟨mem_pole (mem_real (by norm_num [old1])) (mem_real (by norm_num [old1])), mem_pole (mem_real (by norm_num [old1])) (mem_real (by norm_num [old1])), mem_pole (mem_real (by norm_num [old1])) (mem_real (by norm_num [old1])), mem_pole (mem_real (by norm_num [old1])) (mem_real (by norm_num [old1])), mem_pole (mem_real (by norm_num [old1])) (mem_real (by norm_num [old1])), mem_pole (mem_real (by norm_num [old1])) (mem_real (by norm_num [old1]))⟩
  hpT := ⟨mem_pole (mem_real (by norm_num [old1])) (mem_real (by norm_num [old1])), mem_pole (mem_real (by norm_num [old1])) (mem_real (by norm_num [old1])), mem_pole (mem_real (by norm_num [old1])) (mem_real (by norm_num [old1]))⟩
  ds := old1_ds_ok
  dv := old1_dv_ok
  ps := old1_ps_ok
  pv := old1_pv_ok
  cDS := ⟨(mem_real (by norm_num [old1]) : Mem (old1.mass_omega : ℂ) (ofRat (7) 0 5)).sq, (mem_real (by norm_num [old1]) : Mem (old1.mass_omega_prime : ℂ) (ofRat (3) 0 2)).sq, (mem_real (by norm_num [old1]) : Mem (old1.mass_omega_double_prime : ℂ) (ofRat (8) 0 5)).sq, (mem_real (by norm_num [old1]) : Mem (old1.mass_phi : ℂ) (ofRat (2) 0 1)).sq, (mem_real (by norm_num [old1]) : Mem (old1.mass_phi_prime : ℂ) (ofRat (11) 0 5)).sq, (mem_real (by norm_num [old1]) : Mem (old1.mass_phi_double_prime : ℂ) (ofRat (12) 0 5)).sq⟩
  cDV := ⟨(mem_real (by norm_num [old1]) : Mem (old1.mass_rho : ℂ) (ofRat (31) 0 10)).sq, (mem_real (by norm_num [old1]) : Mem (old1.mass_rho_prime : ℂ) (ofRat (16) 0 5)).sq, (mem_real (by norm_num [old1]) : Mem (old1.mass_rho_double_prime : ℂ) (ofRat (33) 0 10)).sq⟩
  cPS := ⟨(mem_real (by norm_num [old1]) : Mem (old1.mass_omega : ℂ) (ofRat (7) 0 5)).sq, (mem_real (by norm_num [old1]) : Mem (old1.mass_omega_prime : ℂ) (ofRat (3) 0 2)).sq, (mem_real (by norm_num [old1]) : Mem (old1.mass_omega_double_prime : ℂ) (ofRat (8) 0 5)).sq, (mem_real (by norm_num [old1]) : Mem (old1.mass_phi : ℂ) (ofRat (2) 0 1)).sq, (mem_real (by norm_num [old1]) : Mem (old1.mass_phi_prime : ℂ) (ofRat (11) 0 5)).sq, (mem_real (by norm_num [old1]) : Mem (old1.mass_phi_double_prime : ℂ) (ofRat (12) 0 5)).sq⟩
  mass := by norm_num [old1]
  okDS := by decide +kernel
  okDV := by decide +kernel
  okPS := by decide +kernel

theorem old1_proper : old1.Proper := by refine ⟨?_, ?_, ?_, ?_⟩ <;> norm_num [old1]

theorem old1_builds (k : NucleonClass) (proton electric : Bool) : k.Builds proton electric old1 := by
  apply builds_of_base
  intro b
  apply NucleonBase.init_ok _ _ _ _ old1_proper
  · apply initSix_ok <;> apply build_ok <;> norm_num [old1]
  · apply initThree_ok <;> apply build_ok <;> norm_num [old1]
  · apply initSix_ok <;> apply build_ok <;> norm_num [old1]
  · apply initThree_ok <;> apply build_ok <;> norm_num [old1]
  all_goals norm_num [old1]

/-- `tests/test_NucleonUAModelOld.py:109`. -/
example : ∃ y, NucleonClass.old.run true false old1 ⟨1.7, 0⟩ = .ok y ∧ IsClose y ⟨9.264041524614782, 0.07288173635849036⟩ 1e-15 :=
  nuc_close (T := ofRat (17) (0) 10) (E := ofRat (231601038115369550) (1822043408962259) 25000000000000000)
    old1_ok old1_proper (old1_builds _ _ _) (by norm_num) (mem_gauss (by norm_num) (by norm_num)) (mem_gauss (by norm_num) (by norm_num))
    ⟨⟨1112111930223243774868268191090535710, 0, 2150736075977895846207464755139767750, 0⟩,
     ⟨1681355198536411260747040245725769727, 0, 1874977700360359814028952537284059932, 0⟩,
     ⟨1029615578197528340869256474574819385, 0, 2193738102011268350440796657253674771, 0⟩,
     ⟨1627965170747696461410134546278143332, 0, 1859985419767716537743037234657507240, 0⟩⟩
    (by decide +kernel)

/-- `tests/test_NucleonUAModelOld.py:111`. -/
example : ∃ y, NucleonClass.old.run false true old1 ⟨1.7, 0⟩ = .ok y ∧ IsClose y ⟨6.36801456730032, -0.05590379378968173⟩ 1e-15 :=
  nuc_close (T := ofRat (17) (0) 10) (E := ofRat (636801456730032000) (-5590379378968173) 100000000000000000)
    old1_ok old1_proper (old1_builds _ _ _) (by norm_num) (mem_gauss (by norm_num) (by norm_num)) (mem_gauss (by norm_num) (by norm_num))
    ⟨⟨1112111930223243774868268191090535710, 0, 2150736075977895846207464755139767750, 0⟩,
     ⟨1681355198536411260747040245725769727, 0, 1874977700360359814028952537284059932, 0⟩,
     ⟨1029615578197528340869256474574819385, 0, 2193738102011268350440796657253674771, 0⟩,
     ⟨1627965170747696461410134546278143332, 0, 1859985419767716537743037234657507240, 0⟩⟩
    (by decide +kernel)

/-- `tests/test_NucleonUAModelOld.py:113`. -/
example : ∃ y, NucleonClass.old.run true true old1 ⟨0.4, 1.2⟩ = .ok y ∧ IsClose y ⟨0.7782203362803921, 0.1525683395543666⟩ 1e-15 :=
  nuc_close (T := ofRat (2) (6) 5) (E := ofRat (7782203362803921) (1525683395543666) 10000000000000000)
    old1_ok old1_proper (old1_builds _ _ _) (by norm_num) (mem_gauss (by norm_num) (by norm_num)) (mem_gauss (by norm_num) (by norm_num))
    ⟨⟨809433705360492897797671831053780652, 1309691246913045466682226456122827491, 1488725079532169245989171190724141134, 853517848073823852165075058211638250⟩,
     ⟨1165230286499552319294788066170105849, 909784315726707546949805264559700413, 1636846982737512793587718622697891403, 308933328855165956357916625913503984⟩,
     ⟨780317064785488478458946032358657064, 1358560880836891039162977302088080744, 1424621869137488865482097260323573366, 953461432097777512679418268114122937⟩,
     ⟨1118666982939057331400779560765741010, 947653104127399732885329253851054126, 1621423571077614466533242757797240316, 321015711460700422052842399074766378⟩⟩
    (by decide +kernel)

/-- `tests/test_NucleonUAModelOld.py:115`. -/
example : ∃ y, NucleonClass.old.run false false old1 ⟨162.42, -0.647⟩ = .ok y ∧ IsClose y ⟨-0.002759958992972902, -0.00002598171690422949⟩ 1e-15 :=
  nuc_close (T := ofRat (162420) (-647) 1000) (E := ofRat (-275995899297290200) (-2598171690422949) 100000000000000000000)
    old1_ok old1_proper (old1_builds _ _ _) (by norm_num) (mem_gauss (by norm_num) (by norm_num)) (mem_gauss (by norm_num) (by norm_num))
    ⟨⟨-16888031225663431272136052399048075634, 33844976825198492880548312310058169, 345676380669581064144452798971932, 1145992256996926699445348124901978663⟩,
     ⟨-16935045163390869538366473985176404525, 33751018668164096559721303144467035, 640680229424339068945087724778226, 975485383302450111943466346397833810⟩,
     ⟨-16882799373402742048719192136362474270, 33855465128388001204381106558176275, 313018309670565461868509493100900, 1164257570860697587365409187462356711⟩,
     ⟨-16929827839698160460655545705401766005, 33761419836505429108442857127000885, 635494990386987134305838369932469, 978709399118377821068114170137723672⟩⟩
    (by decide +kernel)

/-- `tests/test_NucleonUAModelOld.py:117`. -/
example : ∃ y, NucleonClass.old.run true true old1 ⟨84.1, -9124.1⟩ = .ok y ∧ IsClose y ⟨-0.0000051303718120553975, 0.00000007795611633972505⟩ 1e-15 :=
  nuc_close (T := ofRat (841) (-91241) 10) (E := ofRat (-102607436241107950) (1559122326794501) 20000000000000000000000)
    old1_ok old1_proper (old1_builds _ _ _) (by norm_num) (mem_gauss (by norm_num) (by norm_num)) (mem_gauss (by norm_num) (by norm_num))
    ⟨⟨-90189752476219395403662161570484755824, 89372067563857102628912951285423543046, 18072968000453979376824795797618801, 1310741757770971700162614959040326631⟩,
     ⟨-90194200551962868398875110281861349473, 89367660032957754011772494071790234968, 36390880033070769214825296368135317, 1291496241376325658467377969866263141⟩,
     ⟨-90189258258874993108242324436197592825, 89372557303175818065271700544922200216, 16188477681878397613528479258083085, 1312692664839956528868542675287966334⟩,
     ⟨-90193706310690239497828303821473637458, 89368149747682131857297633561468943495, 36025517145121760780275421852937078, 1291885432625489495069175582328189644⟩⟩
    (by decide +kernel)

/-- `tests/test_NucleonUAModelOld.py:119`. -/
example : ∃ y, NucleonClass.old.run false false old1 ⟨0, 62.4⟩ = .ok y ∧ IsClose y ⟨0.009671246342365719, -0.009930048457120286⟩ 1e-15 :=
  nuc_close (T := ofRat (0) (312) 5) (E := ofRat (9671246342365719) (-9930048457120286) 1000000000000000000)
    old1_ok old1_proper (old1_builds _ _ _) (by norm_num) (mem_gauss (by norm_num) (by norm_num)) (mem_gauss (by norm_num) (by norm_num))
    ⟨⟨7365411268114338713337213872999907442, 7484392441156733962457974161897747879, 267313976605516178954508417615153756, 1541238426255387342263988078076857375⟩,
     ⟨7418716658219482181627914242650094864, 7430615153634393386512021470368543198, 647637132857685761178398926784524780, 1696531421859167314472832721538277855⟩,
     ⟨7359512695438803439158611908721327375, 7490391103646133693648841227976658926, 234756381012034143343869900930115412, 1520305603961925123452863584381903649⟩,
     ⟨7412774572482873256446981571198694204, 7436571540394425684753938007259139415, 639112289330845122065650986691457460, 1694162168696080223692005309205620930⟩⟩
    (by decide +kernel)

/-- The model built at `tests/test_NucleonUAModelOld.py:131-171` (`test___call___2`). -/
noncomputable def old2 : NucleonArgs := {
  nucleon_mass := 0.938272,
  magnetic_moment_proton := 2.79,
  magnetic_moment_neutron := -1.91,
  t_0_dirac_isoscalar := 0.17531904388276887,
  t_0_dirac_isovector := 0.07791957505900839,
  t_in_dirac_isoscalar := 0.9001581776629138,
  t_in_dirac_isovector := 2.713739494786232,
  t_0_pauli_isoscalar := 0.17531904388276887,
  t_0_pauli_isovector := 0.07791957505900839,
  t_in_pauli_isoscalar := 1.0512202460515163,
  t_in_pauli_isovector := 4.176812892690669,
  a_dirac_omega := 1.3200505056850964,
  a_dirac_omega_prime := 0.11215926509622014,
  a_dirac_phi := -1.013845791442124,
  a_dirac_phi_prime := 0.26717864421535276,
  a_dirac_rho := 0.06479104707666819,
  a_pauli_omega := -0.32774864723704805,
  a_pauli_phi := 0.07195092152400877,
  a_pauli_phi_prime := 0.349116996120233,
  mass_omega := 0.78266,
  decay_rate_omega := 0.00868,
  mass_omega_prime := 1.41,
  decay_rate_omega_prime := 0.29,
  mass_omega_double_prime := 1.67,
  decay_rate_omega_double_prime := 0.315,
  mass_phi := 1.019461,
  decay_rate_phi := 0.004249,
  mass_phi_prime := 1.68,
  decay_rate_phi_prime := 0.15,
  mass_phi_double_prime := 2.159,
  decay_rate_phi_double_prime := 0.137,
  mass_rho := 0.77526,
  decay_rate_rho := 0.1474,
  mass_rho_prime := 1.465,
  decay_rate_rho_prime := 0.4,
  mass_rho_double_prime := 1.72,
  decay_rate_rho_double_prime := 0.25 }

def old2_ds : Grp6 where
  T0 := (ofRat (17531904388276887) 0 100000000000000000)
  A := ((ofRat (4500790888314569) 0 5000000000000000) - (ofRat (17531904388276887) 0 100000000000000000)).sqrt 1131671284409017649908348422004703883 0
  B0 := ⟨-309177143056291954593398420054264997, -1, 1048691, false, true⟩
  V := ⟨.A, .B, .B, .B, .B, .B⟩
  W := ⟨⟨-7810804663014922280741066907762032, -633340647704876243368477294066086236, 1592498, false, true⟩,
    ⟨-951997413219474096301765672710058579, -755374814396139560481803694922184145, 1049294, false, true⟩,
    ⟨-1067672226006819730717466075965032687, -650338025230206943384692016202612638, 1049226, false, true⟩,
    ⟨-530450813513183535976726208612528628, -1210524147901769692582196011820866129, 1105401, false, true⟩,
    ⟨-1101340732593886383603200950792578016, -673738743908962295208283539360560369, 1049686, false, true⟩,
    ⟨-1199927845196875051635159363997356846, -526005193647519154852959186437537229, 1049841, false, true⟩⟩

theorem old2_ds_ok : Grp6OK old2.t_0_dirac_isoscalar old2.t_in_dirac_isoscalar (old2.thrS NucleonClass.old.thr old2.t_in_dirac_isoscalar) old2.poleS old2_ds := by
  have h0 : Mem old2.t_0_dirac_isoscalar (ofRat (17531904388276887) 0 100000000000000000) := mem_real (by norm_num [old2])
  have hA := mem_sqrt_real (x := old2.t_in_dirac_isoscalar) (X := (ofRat (4500790888314569) 0 5000000000000000)) (mem_real (by norm_num [old2])) h0 (by norm_num [old2]) 1131671284409017649908348422004703883
  refine ⟨h0, hA, (mem_Wval h0 hA mem_zero ⟨0, 556562609311857145876571599002453029, 1192781460949842139483304486558585670, 586616954402738466295725230920161801⟩).within (by decide +kernel), ?_, (mem_Wval h0 hA (t := old2.poleS.omega) (T := poleB (ofRat (39133) 0 50000) (ofRat (217) 0 25000)) (mem_pole (mem_real (by norm_num [old2])) (mem_real (by norm_num [old2]))) ⟨-878945601005082205666143846512207678, 6828099334110794881189705404864229, 471288979847346689054568279137916665, 7165857069895221653556988264751535⟩).within (by decide +kernel), (mem_Wval h0 hA (t := old2.poleS.omega_prime) (T := poleB (ofRat (141) 0 100) (ofRat (29) 0 100)) (mem_pole (mem_real (by norm_num [old2])) (mem_real (by norm_num [old2]))) ⟨-1790657509889317829207161377782352394, 201731420106276351907065652353987531, 73386994069102307788124473853743050, 640546887667252889619201673082127451⟩).within (by decide +kernel), (mem_Wval h0 hA (t := old2.poleS.omega_double_prime) (T := poleB (ofRat (167) 0 100) (ofRat (63) 0 200)) (mem_pole (mem_real (by norm_num [old2])) (mem_real (by norm_num [old2]))) ⟨-2149583313345044770795907554589109622, 216193039054698998158973668428686437, 53599874513096634041691876274808110, 745823526364756620662123447869442091⟩).within (by decide +kernel), (mem_Wval h0 hA (t := old2.poleS.phi) (T := poleB (ofRat (1019461) 0 1000000) (ofRat (4249) 0 1000000)) (mem_pole (mem_real (by norm_num [old2])) (mem_real (by norm_num [old2]))) ⟨-1235526254381797705142869261520801038, 3097236243293990565587627821780612, 3968951104868105777060925898855926, 278450559362229260033887417527204613⟩).within (by decide +kernel), (mem_Wval h0 hA (t := old2.poleS.phi_prime) (T := poleB (ofRat (42) 0 25) (ofRat (3) 0 20)) (mem_pole (mem_real (by norm_num [old2])) (mem_real (by norm_num [old2]))) ⟨-2162786158721047458577117452600896268, 102933306311578782819541070989468329, 25433427457651994176151936049378377, 744866988913987922288213158256689341⟩).within (by decide +kernel), (mem_Wval h0 hA (t := old2.poleS.phi_double_prime) (T := poleB (ofRat (2159) 0 1000) (ofRat (137) 0 1000)) (mem_pole (mem_real (by norm_num [old2])) (mem_real (by norm_num [old2]))) ⟨-2815374285869387511887143551721325941, 92812406503877149292036084540954597, 13706591053172210741983350349440547, 868583321063785077479217584480124106⟩).within (by decide +kernel)⟩
  norm_num [old2, old2_ds, NucleonArgs.thrS, NucleonClass.thr, tMesonPole_re]

def old2_dv : Grp3 where
  T0 := (ofRat (7791957505900839) 0 100000000000000000)
  A := ((ofRat (339217436848279) 0 125000000000000) - (ofRat (7791957505900839) 0 100000000000000000)).sqrt 2158029353010389809632735119739562887 0
  B0 := ⟨-113438449046762114625095891034099004, -1, 1048709, false, true⟩
  V := ⟨.A, .A, .B⟩
  W := ⟨⟨-38048918093825345921903743588658410, -311947531774144894254064933766705214, 1051659, false, true⟩,
    ⟨-212581780198749520030165827503183972, -742979331278706481545015648686299500, 1049359, false, true⟩,
    ⟨-392572442719032349757141688632576016, -1019369278479204168459407572974205569, 1049664, false, true⟩⟩

theorem old2_dv_ok : Grp3OK old2.t_0_dirac_isovector old2.t_in_dirac_isovector (old2.thrT NucleonClass.old.thr old2.t_in_dirac_isovector) old2.poleT old2_dv := by
  have h0 : Mem old2.t_0_dirac_isovector (ofRat (7791957505900839) 0 100000000000000000) := mem_real (by norm_num [old2])
  have hA := mem_sqrt_real (x := old2.t_in_dirac_isovector) (X := (ofRat (339217436848279) 0 125000000000000)) (mem_real (by norm_num [old2])) h0 (by norm_num [old2]) 2158029353010389809632735119739562887
  refine ⟨h0, hA, (mem_Wval h0 hA mem_zero ⟨0, 371041739541238105187473191445267368, 1310005955185735170970602039832897178, 225236458319460227877232702663929480⟩).within (by decide +kernel), ?_, (mem_Wval h0 hA (t := old2.poleT.rho) (T := poleB (ofRat (38763) 0 50000) (ofRat (737) 0 5000)) (mem_pole (mem_real (by norm_num [old2])) (mem_real (by norm_num [old2]))) ⟨-962115061633269921087449161184972479, 104926892397423560836482719237916828, 822763517060113894335641239962637545, 49891646223015711848797526856974500⟩).within (by decide +kernel), (mem_Wval h0 hA (t := old2.poleT.rho_prime) (T := poleB (ofRat (293) 0 200) (ofRat (2) 0 5)) (mem_pole (mem_real (by norm_num [old2])) (mem_real (by norm_num [old2]))) ⟨-1912325686987829909792302825515683849, 270710263164164241491341473610875074, 358292542696108341765738130332499022, 173117870739598226653738871635089601⟩).within (by decide +kernel), (mem_Wval h0 hA (t := old2.poleT.rho_double_prime) (T := poleB (ofRat (43) 0 25) (ofRat (1) 0 4)) (mem_pole (mem_real (by norm_num [old2])) (mem_real (by norm_num [old2]))) ⟨-2256127443378672430486930966385179108, 168373519874601437069552130108500372, 134474259992781476809183556036803736, 244660579427798811143474481003366405⟩).within (by decide +kernel)⟩
  norm_num [old2, old2_dv, NucleonArgs.thrT, NucleonClass.thr, tMesonPole_re]

def old2_ps : Grp6 where
  T0 := (ofRat (17531904388276887) 0 100000000000000000)
  A := ((ofRat (10512202460515163) 0 10000000000000000) - (ofRat (17531904388276887) 0 100000000000000000)).sqrt 1244019078667087645274586531990379995 0
  B0 := ⟨-283788756391918125971477776610222438, -1, 1048673, false, true⟩
  V := ⟨.A, .B, .B, .A, .B, .B⟩
  W := ⟨⟨-6036792382616550385373827914031361, -549924221116814628377032204811817172, 1630892, false, true⟩,
    ⟨-874545413928004575686135091994339166, -816022362957814708304443363924280347, 1049290, false, true⟩,
    ⟨-1016838870912115689002440621243696063, -708209523674497852720430623811389855, 1049218, false, true⟩,
    ⟨-24963364329005858979568206004538676, -1179795047122035765695923402961139051, 1840815, false, true⟩,
    ⟨-1053141536510844708291088253295105802, -737413270057087638155590044304638020, 1049668, false, true⟩,
    ⟨-1173592215896447277416770273437866338, -577191051868966756991590075908353039, 1049812, false, true⟩⟩

theorem old2_ps_ok : Grp6OK old2.t_0_pauli_isoscalar old2.t_in_pauli_isoscalar (old2.thrS NucleonClass.old.thr old2.t_in_pauli_isoscalar) old2.poleS old2_ps := by
  have h0 : Mem old2.t_0_pauli_isoscalar (ofRat (17531904388276887) 0 100000000000000000) := mem_real (by norm_num [old2])
  have hA := mem_sqrt_real (x := old2.t_in_pauli_isoscalar) (X := (ofRat (10512202460515163) 0 10000000000000000)) (mem_real (by norm_num [old2])) h0 (by norm_num [old2]) 1244019078667087645274586531990379995
  refine ⟨h0, hA, (mem_Wval h0 hA mem_zero ⟨0, 556562609311857145876571599002453029, 1213333483198633666487238178442445694, 542834158217272914959592962373436651⟩).within (by decide +kernel), ?_, (mem_Wval h0 hA (t := old2.poleS.omega) (T := poleB (ofRat (39133) 0 50000) (ofRat (217) 0 25000)) (mem_pole (mem_real (by norm_num [old2])) (mem_real (by norm_num [old2]))) ⟨-878945601005082205666143846512207678, 6828099334110794881189705404864229, 551225130727521513173282813720535370, 6040971565738467043988621476301675⟩).within (by decide +kernel), (mem_Wval h0 hA (t := old2.poleS.omega_prime) (T := poleB (ofRat (141) 0 100) (ofRat (29) 0 100)) (mem_pole (mem_real (by norm_num [old2])) (mem_real (by norm_num [old2]))) ⟨-1790657509889317829207161377782352394, 201731420106276351907065652353987531, 83248097347309936131542060079662467, 575818334907862196795203186946813800⟩).within (by decide +kernel), (mem_Wval h0 hA (t := old2.poleS.omega_double_prime) (T := poleB (ofRat (167) 0 100) (ofRat (63) 0 200)) (mem_pole (mem_real (by norm_num [old2])) (mem_real (by norm_num [old2]))) ⟨-2149583313345044770795907554589109622, 216193039054698998158973668428686437, 59301259405802642517016481683192886, 692983468985683801341735447513072097⟩).within (by decide +kernel), (mem_Wval h0 hA (t := old2.poleS.phi) (T := poleB (ofRat (1019461) 0 1000000) (ofRat (4249) 0 1000000)) (mem_pole (mem_real (by norm_num [old2])) (mem_real (by norm_num [old2]))) ⟨-1235526254381797705142869261520801038, 3097236243293990565587627821780612, 79027049648973725323169944002818748, 14011343525405245717265703696878956⟩).within (by decide +kernel), (mem_Wval h0 hA (t := old2.poleS.phi_prime) (T := poleB (ofRat (42) 0 25) (ofRat (3) 0 20)) (mem_pole (mem_real (by norm_num [old2])) (mem_real (by norm_num [old2]))) ⟨-2162786158721047458577117452600896268, 102933306311578782819541070989468329, 28155727127882742528081605158603967, 691710362708146576105768423954502101⟩).within (by decide +kernel), (mem_Wval h0 hA (t := old2.poleS.phi_double_prime) (T := poleB (ofRat (2159) 0 1000) (ofRat (137) 0 1000)) (mem_pole (mem_real (by norm_num [old2])) (mem_real (by norm_num [old2]))) ⟨-2815374285869387511887143551721325941, 92812406503877149292036084540954597, 14952927020528145040604083536709231, 827478234495366297884744705841280908⟩).within (by decide +kernel)⟩
  norm_num [old2, old2_ps, NucleonArgs.thrS, NucleonClass.thr, tMesonPole_re]

def old2_pv : Grp3 where
  T0 := (ofRat (7791957505900839) 0 100000000000000000)
  A := ((ofRat (4176812892690669) 0 1000000000000000) - (ofRat (7791957505900839) 0 100000000000000000)).sqrt 2691118285601216992574457835266929245 0
  B0 := ⟨-91203194428890615192331427239315022, -1, 1048717, false, true⟩
  V := ⟨.A, .A, .A⟩
  W := ⟨⟨-28677177465808908398578606777013040, -245390481453077748319730505021538812, 1051702, false, true⟩,
    ⟨-109362842509405342988337415849095936, -543558759383966511648019337691637516, 1049508, false, true⟩,
    ⟨-96394805246053510796417870681816854, -710009845408406373121917320341511145, 1050572, false, true⟩⟩

theorem old2_pv_ok : Grp3OK old2.t_0_pauli_isovector old2.t_in_pauli_isovector (old2.thrT NucleonClass.old.thr old2.t_in_pauli_isovector) old2.poleT old2_pv := by
  have h0 : Mem old2.t_0_pauli_isovector (ofRat (7791957505900839) 0 100000000000000000) := mem_real (by norm_num [old2])
  have hA := mem_sqrt_real (x := old2.t_in_pauli_isovector) (X := (ofRat (4176812892690669) 0 1000000000000000)) (mem_real (by norm_num [old2])) h0 (by norm_num [old2]) 2691118285601216992574457835266929245
  refine ⟨h0, hA, (mem_Wval h0 hA mem_zero ⟨0, 371041739541238105187473191445267368, 1316771071427793405563036839891094120, 181551673716562929350899222581255827⟩).within (by decide +kernel), ?_, (mem_Wval h0 hA (t := old2.poleT.rho) (T := poleB (ofRat (38763) 0 50000) (ofRat (737) 0 5000)) (mem_pole (mem_real (by norm_num [old2])) (mem_real (by norm_num [old2]))) ⟨-962115061633269921087449161184972479, 104926892397423560836482719237916828, 914186841473271262468665246496228358, 40857392662081688995200048368128582⟩).within (by decide +kernel), (mem_Wval h0 hA (t := old2.poleT.rho_prime) (T := poleB (ofRat (293) 0 200) (ofRat (2) 0 5)) (mem_pole (mem_real (by norm_num [old2])) (mem_real (by norm_num [old2]))) ⟨-1912325686987829909792302825515683849, 270710263164164241491341473610875074, 551223656260499819868534927081311087, 109810440137723444673239672898243717⟩).within (by decide +kernel), (mem_Wval h0 hA (t := old2.poleT.rho_double_prime) (T := poleB (ofRat (43) 0 25) (ofRat (1) 0 4)) (mem_pole (mem_real (by norm_num [old2])) (mem_real (by norm_num [old2]))) ⟨-2256127443378672430486930966385179108, 168373519874601437069552130108500372, 399759071619007624759037768587651185, 81729246225549184678038455863653091⟩).within (by decide +kernel)⟩
  norm_num [old2, old2_pv, NucleonArgs.thrT, NucleonClass.thr, tMesonPole_re]

def old2_data : NData where
  k := { nucleon_mass := ofRat (29321) 0 31250, mu_p := ofRat (279) 0 100, mu_n := ofRat (-191) 0 100, a_dirac_omega := ofRat (3300126264212741) 0 2500000000000000, a_dirac_omega_prime := ofRat (5607963254811007) 0 50000000000000000, a_dirac_phi := ofRat (-253461447860531) 0 250000000000000, a_dirac_phi_prime := ofRat (6679466105383819) 0 25000000000000000, a_dirac_rho := ofRat (6479104707666819) 0 100000000000000000, a_pauli_omega := ofRat (-6554972944740961) 0 20000000000000000, a_pauli_phi := ofRat (7195092152400877) 0 100000000000000000, a_pauli_phi_prime := ofRat (349116996120233) 0 1000000000000000 }
  tin := (ofRat (4500790888314569) 0 5000000000000000, ofRat (339217436848279) 0 125000000000000, ofRat (10512202460515163) 0 10000000000000000, ofRat (4176812892690669) 0 1000000000000000)
  pS := ⟨poleB (ofRat (39133) 0 50000) (ofRat (217) 0 25000), poleB (ofRat (141) 0 100) (ofRat (29) 0 100), poleB (ofRat (167) 0 100) (ofRat (63) 0 200), poleB (ofRat (1019461) 0 1000000) (ofRat (4249) 0 1000000), poleB (ofRat (42) 0 25) (ofRat (3) 0 20), poleB (ofRat (2159) 0 1000) (ofRat (137) 0 1000)⟩
  pT := ⟨poleB (ofRat (38763) 0 50000) (ofRat (737) 0 5000), poleB (ofRat (293) 0 200) (ofRat (2) 0 5), poleB (ofRat (43) 0 25) (ofRat (1) 0 4)⟩
  ds := old2_ds
  dv := old2_dv
  ps := old2_ps
  pv := old2_pv
  cDS := ⟨(ofRat (39133) 0 50000) * (ofRat (39133) 0 50000),
    (ofRat (141) 0 100) * (ofRat (141) 0 100),
    (ofRat (167) 0 100) * (ofRat (167) 0 100),
    (ofRat (1019461) 0 1000000) * (ofRat (1019461) 0 1000000),
    (ofRat (42) 0 25) * (ofRat (42) 0 25),
    (ofRat (2159) 0 1000) * (ofRat (2159) 0 1000)⟩
  cDV := ⟨(ofRat (38763) 0 50000) * (ofRat (38763) 0 50000),
    (ofRat (293) 0 200) * (ofRat (293) 0 200),
    (ofRat (43) 0 25) * (ofRat (43) 0 25)⟩
  cPS := ⟨(ofRat (39133) 0 50000) * (ofRat (39133) 0 50000),
    (ofRat (141) 0 100) * (ofRat (141) 0 100),
    (ofRat (167) 0 100) * (ofRat (167) 0 100),
    (ofRat (1019461) 0 1000000) * (ofRat (1019461) 0 1000000),
    (ofRat (42) 0 25) * (ofRat (42) 0 25),
    (ofRat (2159) 0 1000) * (ofRat (2159) 0 1000)⟩

theorem old2_ok : NOK .old old2 old2_data where
  hk := ⟨mem_real (by norm_num [old2]), mem_real (by norm_num [old2]), mem_real (by norm_num [old2]), mem_real (by norm_num [old2]), mem_real (by norm_num [old2]), mem_real (by norm_num [old2]), mem_real (by norm_num [old2]), mem_real (by norm_num [old2]), mem_real (by norm_num [old2]), mem_real (by norm_num [old2]), mem_real (by norm_num [old2])⟩
  htin := ⟨mem_real (by norm_num [old2]), mem_real (by norm_num [old2]), mem_real (by norm_num [old2]), mem_real (by norm_num [old2])⟩
  hpS := ⟨mem_pole (mem_real (by norm_num [old2])) (mem_real (by norm_num [old2])), mem_pole (mem_real (by norm_num [old2])) (mem_real (by norm_num [old2])), mem_pole (mem_real (by norm_num [old2])) (mem_real (by norm_num [old2])), mem_pole (mem_real (by norm_num [old2])) (mem_real (by norm_num [old2])), mem_pole (mem_real (by norm_num [old2])) (mem_real (by norm_num [old2])), mem_pole (mem_real (by norm_num [old2])) (mem_real (by norm_num [old2]))⟩
  hpT := ⟨mem_pole (mem_real (by norm_num [old2])) (mem_real (by norm_num [old2])), mem_pole (mem_real (by norm_num [old2])) (mem_real (by norm_num [old2])), mem_pole (mem_real (by norm_num [old2])) (mem_real (by norm_num [old2]))⟩
  ds := old2_ds_ok
  dv := old2_dv_ok
  ps := old2_ps_ok
  pv := old2_pv_ok
  cDS := ⟨(mem_real (by norm_num [old2]) : Mem (old2.mass_omega : ℂ) (ofRat (39133) 0 50000)).sq, (mem_real (by norm_num [old2]) : Mem (old2.mass_omega_prime : ℂ) (ofRat (141) 0 100)).sq, (mem_real (by norm_num [old2]) : Mem (old2.mass_omega_double_prime : ℂ) (ofRat (167) 0 100)).sq, (mem_real (by norm_num [old2]) : Mem (old2.mass_phi : ℂ) (ofRat (1019461) 0 1000000)).sq, (mem_real (by norm_num [old2]) : Mem (old2.mass_phi_prime : ℂ) (ofRat (42) 0 25)).sq, (mem_real (by norm_num [old2]) : Mem (old2.mass_phi_double_prime : ℂ) (ofRat (2159) 0 1000)).sq⟩
  cDV := ⟨(mem_real (by norm_num [old2]) : Mem (old2.mass_rho : ℂ) (ofRat (38763) 0 50000)).sq, (mem_real (by norm_num [old2]) : Mem (old2.mass_rho_prime : ℂ) (ofRat (293) 0 200)).sq, (mem_real (by norm_num [old2]) : Mem (old2.mass_rho_double_prime : ℂ) (ofRat (43) 0 25)).sq⟩
  cPS := ⟨(mem_real (by norm_num [old2]) : Mem (old2.mass_omega : ℂ) (ofRat (39133) 0 50000)).sq, (mem_real (by norm_num [old2]) : Mem (old2.mass_omega_prime : ℂ) (ofRat (141) 0 100)).sq, (mem_real (by norm_num [old2]) : Mem (old2.mass_omega_double_prime : ℂ) (ofRat (167) 0 100)).sq, (mem_real (by norm_num [old2]) : Mem (old2.mass_phi : ℂ) (ofRat (1019461) 0 1000000)).sq, (mem_real (by norm_num [old2]) : Mem (old2.mass_phi_prime : ℂ) (ofRat (42) 0 25)).sq, (mem_real (by norm_num [old2]) : Mem (old2.mass_phi_double_prime : ℂ) (ofRat (2159) 0 1000)).sq⟩
  mass := by norm_num [old2]
  okDS := by decide +kernel
  okDV := by decide +kernel
  okPS := by decide +kernel

theorem old2_proper : old2.Proper := by refine ⟨?_, ?_, ?_, ?_⟩ <;> norm_num [old2]

theorem old2_builds (k : NucleonClass) (proton electric : Bool) : k.Builds proton electric old2 := by
  apply builds_of_base
  intro b
  apply NucleonBase.init_ok _ _ _ _ old2_proper
  · apply initSix_ok <;> apply build_ok <;> norm_num [old2]
  · apply initThree_ok <;> apply build_ok <;> norm_num [old2]
  · apply initSix_ok <;> apply build_ok <;> norm_num [old2]
  · apply initThree_ok <;> apply build_ok <;> norm_num [old2]
  all_goals norm_num [old2]

/-- `tests/test_NucleonUAModelOld.py:230`. -/
example : ∃ y, NucleonClass.old.run true false old2 ⟨1.7, 0⟩ = .ok y ∧ IsClose y ⟨2.107422993708366, 0.9337984540696413⟩ 1e-15 :=
  nuc_close (T := ofRat (17) (0) 10) (E := ofRat (21074229937083660) (9337984540696413) 10000000000000000)
    old2_ok old2_proper (old2_builds _ _ _) (by norm_num) (mem_gauss (by norm_num) (by norm_num)) (mem_gauss (by norm_num) (by norm_num))
    ⟨⟨1641303772017608697028365887221463512, 0, 0, 3100586905437901922599782373756531590⟩,
     ⟨1692917020305917233728748194322106163, 0, 3824760869361877094278611681802839612, 0⟩,
     ⟨1641303772017608697028365887221463512, 0, 0, 3582166522937141313026565310259448926⟩,
     ⟨1692917020305917233728748194322106163, 0, 2785655734968447002828064928185989046, 0⟩⟩
    (by decide +kernel)

/-- `tests/test_NucleonUAModelOld.py:232`. -/
example : ∃ y, NucleonClass.old.run false true old2 ⟨1.7, 0⟩ = .ok y ∧ IsClose y ⟨2.5894982538118754, -0.12916481280320902⟩ 1e-15 :=
  nuc_close (T := ofRat (17) (0) 10) (E := ofRat (129474912690593770) (-6458240640160451) 50000000000000000)
    old2_ok old2_proper (old2_builds _ _ _) (by norm_num) (mem_gauss (by norm_num) (by norm_num)) (mem_gauss (by norm_num) (by norm_num))
    ⟨⟨1641303772017608697028365887221463512, 0, 0, 3100586905437901922599782373756531590⟩,
     ⟨1692917020305917233728748194322106163, 0, 3824760869361877094278611681802839612, 0⟩,
     ⟨1641303772017608697028365887221463512, 0, 0, 3582166522937141313026565310259448926⟩,
     ⟨1692917020305917233728748194322106163, 0, 2785655734968447002828064928185989046, 0⟩⟩
    (by decide +kernel)

/-- `tests/test_NucleonUAModelOld.py:234`. -/
example : ∃ y, NucleonClass.old.run true true old2 ⟨0.4, 1.2⟩ = .ok y ∧ IsClose y ⟨-0.19619513739474426, 0.4388475016590333⟩ 1e-15 :=
  nuc_close (T := ofRat (2) (6) 5) (E := ofRat (-9809756869737213) (21942375082951665) 50000000000000000)
    old2_ok old2_proper (old2_builds _ _ _) (by norm_num) (mem_gauss (by norm_num) (by norm_num)) (mem_gauss (by norm_num) (by norm_num))
    ⟨⟨1130052444431824584072469857277891883, 938105345544417624474514871038625985, 1194187369918524781236680739999284325, 1784817755895482506929072204903569315⟩,
     ⟨1175653911796698002005867767863947021, 901717953072529442862775846797162873, 1873768745025150440877534108471920207, 1031908011461852517560465024616428120⟩,
     ⟨1130052444431824584072469857277891883, 938105345544417624474514871038625985, 1335452923671048498611266768368114966, 1728952106170167026559321388001872751⟩,
     ⟨1175653911796698002005867767863947021, 901717953072529442862775846797162873, 1850087771198765152392956758084038150, 745225644628307909916483234053957759⟩⟩
    (by decide +kernel)

/-- `tests/test_NucleonUAModelOld.py:236`. -/
example : ∃ y, NucleonClass.old.run false false old2 ⟨162.42, -0.647⟩ = .ok y ∧ IsClose y ⟨-0.00006642301488991929, 0.000005521637016319888⟩ 1e-15 :=
  nuc_close (T := ofRat (162420) (-647) 1000) (E := ofRat (-33211507444959645) (2760818508159944) 500000000000000000000)
    old2_ok old2_proper (old2_builds _ _ _) (by norm_num) (mem_gauss (by norm_num) (by norm_num)) (mem_gauss (by norm_num) (by norm_num))
    ⟨⟨-16931115674499964086464585364232394341, 33758851834947844861227173427957894, 166420861859764315572608885409919, 1243163125590277386183975269419447065⟩,
     ⟨-16936196954013925452280661910296562847, 33748723341360438715158636075179575, 301820833827744143372213859134861, 1169388862735267328103457419481598210⟩,
     ⟨-16931115674499964086464585364232394341, 33758851834947844861227173427957894, 181896700640710208467419675770748, 1234900791182203483530336451390696235⟩,
     ⟨-16936196954013925452280661910296562847, 33748723341360438715158636075179575, 367844522490681089190177970630603, 1132404853858688808032152085762196815⟩⟩
    (by decide +kernel)

/-- `tests/test_NucleonUAModelOld.py:238`. -/
example : ∃ y, NucleonClass.old.run true true old2 ⟨84.1, -9124.1⟩ = .ok y ∧ IsClose y ⟨-0.0000000055543905991798604, 0.00000000029716623338340846⟩ 1e-15 :=
  nuc_close (T := ofRat (841) (-91241) 10) (E := ofRat (-277719529958993020) (14858311669170423) 50000000000000000000000000)
    old2_ok old2_proper (old2_builds _ _ _) (by norm_num) (mem_gauss (by norm_num) (by norm_num)) (mem_gauss (by norm_num) (by norm_num))
    ⟨⟨-90193828293914750652391400088913449638, 89368028881151893296689995771992053210, 8286171023393110660550865079686787, 1320813126065934014539059944094019011⟩,
     ⟨-90194309682894406514593718338945618526, 89367551902233952619308568393711848619, 15711533974777552821475210691386848, 1313183715545360242295666726541777232⟩,
     ⟨-90193828293914750652391400088913449638, 89368028881151893296689995771992053210, 9103104654105033084597687511893449, 1319977858531602664235791105681322105⟩,
     ⟨-90194309682894406514593718338945618526, 89367551902233952619308568393711848619, 19535166276622732830001210294448790, 1309222436061868157654500303763962058⟩⟩
    (by decide +kernel)

/-- `tests/test_NucleonUAModelOld.py:240`. -/
example : ∃ y, NucleonClass.old.run false false old2 ⟨0, 62.4⟩ = .ok y ∧ IsClose y ⟨0.0005048360661170517, 0.00004787044738370395⟩ 1e-15 :=
  nuc_close (T := ofRat (0) (312) 5) (E := ofRat (10096721322341034) (957408947674079) 20000000000000000000)
    old2_ok old2_proper (old2_builds _ _ _) (by norm_num) (mem_gauss (by norm_num) (by norm_num)) (mem_gauss (by norm_num) (by norm_num))
    ⟨⟨7414240691291612661393344097933491604, 7435101005802702162500975449707022981, 109742568379092517669767347941548506, 1429701418644392970749640993983438573⟩,
     ⟨7420029340437901991961689972259985070, 7429300598672873381381785065169602901, 225273603135763483204504056730702804, 1517147051891552460323246918771901588⟩,
     ⟨7414240691291612661393344097933491604, 7435101005802702162500975449707022981, 121610878695106217332209466489287461, 1439511494089925212457161974629461115⟩,
     ⟨7420029340437901991961689972259985070, 7429300598672873381381785065169602901, 292064074111029335083798655614484265, 1559480456770222109404957436071141510⟩⟩
    (by decide +kernel)

end Conformance
end UA
