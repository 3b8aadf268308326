import Verif.Lemmas.Shipped
import Verif.Conformance.Eval

/-!
# The form factor of `plot_fit.py` at the points of `charged_ff_2.csv`

The long integers approximate square roots and values of the conformal variable in units of `2 ^ -120`; they are checked, not trusted.
-/

namespace UA

open Complex Ball

/-- The arguments with which `plot_fit.py` builds its model. -/
noncomputable def plotFitArgs : KaonArgs := .b {
  t_0_isoscalar := 0.17531904388276887,
  t_0_isovector := 0.07791957505900839,
  t_in_isoscalar := 3.2291595069331067,
  t_in_isovector := 0.5835126419012053,
  a_omega := 0.32729801061391034,
  mass_omega := 0.78266,
  decay_rate_omega := 0.00868,
  a_omega_double_prime := -0.1322560747876571,
  mass_omega_double_prime := 1.67,
  decay_rate_omega_double_prime := 0.315,
  a_phi := 0.33178701236457975,
  mass_phi := 1.0190536833008472,
  decay_rate_phi := 0.004229702507790191,
  a_phi_prime := 0.08303027600714324,
  mass_phi_prime := 3.0321618703565654,
  decay_rate_phi_prime := 1.7409626508527738,
  mass_phi_double_prime := 1.984329537423646,
  decay_rate_phi_double_prime := 0.6816716770166859,
  a_rho := 0.5456549089807899,
  mass_rho := 0.76388,
  decay_rate_rho := 0.14428,
  a_rho_prime := -0.03127769956987407,
  mass_rho_prime := 1.32635,
  decay_rate_rho_prime := 0.32413,
  mass_rho_double_prime := 1.77054,
  decay_rate_rho_double_prime := 0.26898 }

def plotFitArgsS : Ball × Ball × Ball × List ResB :=
  ((ofRat (17531904388276887) 0 100000000000000000), ((ofRat (32291595069331067) 0 10000000000000000) - (ofRat (17531904388276887) 0 100000000000000000)).sqrt 2322857950551852286172917760433531720 0, ⟨-157021015155666132642851019588347677, -1, 1048655, false, true⟩,
   [⟨ofRat (16364900530695517) 0 50000000000000000, .A, ⟨-2192064549100434514344463918915512, -261191347036949357241696075121844556, 1721548, false, true⟩⟩,
    ⟨ofRat (-1322560747876571) 0 10000000000000000, .A, ⟨-199667121273928962230864053515905542, -828535062744814740307582502112544711, 1049641, false, true⟩⟩,
    ⟨ofRat (1327148049458319) 0 4000000000000000, .A, ⟨-1127930552708799057166990624693832, -382612960618774012076713693246484163, 4640061, false, true⟩⟩,
    ⟨ofRat (2075756900178581) 0 25000000000000000, .B, ⟨-940695760339598915695024449195728696, -583104963004470736122040987134001179, 1048784, false, true⟩⟩,
    ⟨ofRat (-10985922419797623) 0 100000000000000000, .B, ⟨-545831012652815171920657912714041748, -839329712844384712729126920507190135, 1048932, false, true⟩⟩])

theorem plotFitArgsS_ok : ChanOK (0.17531904388276887) (3.2291595069331067) [⟨0.32729801061391034, 0.78266, 0.00868⟩, ⟨-0.1322560747876571, 1.67, 0.315⟩, ⟨0.33178701236457975, 1.0190536833008472, 0.004229702507790191⟩, ⟨0.08303027600714324, 3.0321618703565654, 1.7409626508527738⟩, ⟨1 / 2 - (0.32729801061391034 + (-0.1322560747876571) + 0.33178701236457975 + 0.08303027600714324), 1.984329537423646, 0.6816716770166859⟩]
    plotFitArgsS.1 plotFitArgsS.2.1 plotFitArgsS.2.2.1 plotFitArgsS.2.2.2 := by
  have h0 : Mem (((0.17531904388276887 : ℝ)) : ℂ) (ofRat (17531904388276887) 0 100000000000000000) := mem_real (by norm_num)
  have hA := mem_sqrt_real (x := 3.2291595069331067) (y := 0.17531904388276887) (X := (ofRat (32291595069331067) 0 10000000000000000)) (mem_real (by norm_num)) h0 (by norm_num) 2322857950551852286172917760433531720
  refine ⟨h0, hA, (mem_Wval h0 hA mem_zero ⟨0, 556562609311857145876571599002453029, 1292640930223550950573631036786120828, 309720019193427682813333565993772638⟩).within (by decide +kernel), ?_⟩
  exact .cons ⟨mem_real (by norm_num), by norm_num [Res.var], (mem_Wval h0 hA (mem_pole (M := (ofRat (39133) 0 50000)) (G := (ofRat (217) 0 25000)) (mem_real (by norm_num)) (mem_real (by norm_num))) ⟨-878945601005082205666143846512207678, 6828099334110794881189705404864229, 892630932544264928300460290260434613, 3062373588371400720138859936598649⟩).within (by decide +kernel)⟩ (
    .cons ⟨mem_real (by norm_num), by norm_num [Res.var], (mem_Wval h0 hA (mem_pole (M := (ofRat (167) 0 100)) (G := (ofRat (63) 0 200)) (mem_real (by norm_num)) (mem_real (by norm_num))) ⟨-2149583313345044770795907554589109622, 216193039054698998158973668428686437, 294533887632660458812918822566143674, 150253689632277750970769142123381291⟩).within (by decide +kernel)⟩ (
    .cons ⟨mem_real (by norm_num), by norm_num [Res.var], (mem_Wval h0 hA (mem_pole (M := (ofRat (1273817104126059) 0 1250000000000000)) (G := (ofRat (4229702507790191) 0 1000000000000000000)) (mem_real (by norm_num)) (mem_real (by norm_num))) ⟨-1234932411832808144796342569250177617, 3083419824280856062697839160809411, 735036550633350277968605658426438547, 1360142156938589857987514824546746⟩).within (by decide +kernel)⟩ (
    .cons ⟨mem_real (by norm_num), by norm_num [Res.var], (mem_Wval h0 hA (mem_pole (M := (ofRat (15160809351782827) 0 5000000000000000)) (G := (ofRat (8704813254263869) 0 5000000000000000)) (mem_real (by norm_num)) (mem_real (by norm_num))) ⟨-3994823552008249597393853929990938774, 1167382553297643254704852433430200954, 158598965799985580332723885290097272, 731877003138556060090636972158544202⟩).within (by decide +kernel)⟩ (
    .cons ⟨mem_real (by norm_num), by norm_num [Res.var], (mem_Wval h0 hA (mem_pole (M := (ofRat (992164768711823) 0 500000000000000)) (G := (ofRat (6816716770166859) 0 10000000000000000)) (mem_real (by norm_num)) (mem_real (by norm_num))) ⟨-2580034231754257138880119213371086097, 463161596531269988313264192506657334, 203200001195213058294764581175972662, 385715686550896185455314098653065498⟩).within (by decide +kernel)⟩ (
    .nil)))))

def plotFitArgsV : Ball × Ball × Ball × List ResB :=
  ((ofRat (7791957505900839) 0 100000000000000000), ((ofRat (5835126419012053) 0 10000000000000000) - (ofRat (7791957505900839) 0 100000000000000000)).sqrt 945148467767068372407837336633915084 0, ⟨-251565546168257629661582010740323340, -1, 1048758, false, true⟩,
   [⟨ofRat (5456549089807899) 0 10000000000000000, .B, ⟨-328689841389358469089457939833732482, -914994662162697417628166142249867807, 1050562, false, true⟩⟩,
    ⟨ofRat (-3127769956987407) 0 100000000000000000, .B, ⟨-1032954620304529215487665818712783819, -658558333672147481870658831267956297, 1049237, false, true⟩⟩,
    ⟨ofRat (-1437720941091583) 0 100000000000000000, .B, ⟨-1174817484402196695686535546742670174, -518801190143110162530059570530690523, 1049320, false, true⟩⟩])

theorem plotFitArgsV_ok : ChanOK (0.07791957505900839) (0.5835126419012053) [⟨0.5456549089807899, 0.76388, 0.14428⟩, ⟨-0.03127769956987407, 1.32635, 0.32413⟩, ⟨1 / 2 - (0.5456549089807899 + (-0.03127769956987407)), 1.77054, 0.26898⟩]
    plotFitArgsV.1 plotFitArgsV.2.1 plotFitArgsV.2.2.1 plotFitArgsV.2.2.2 := by
  have h0 : Mem (((0.07791957505900839 : ℝ)) : ℂ) (ofRat (7791957505900839) 0 100000000000000000) := mem_real (by norm_num)
  have hA := mem_sqrt_real (x := 0.5835126419012053) (y := 0.07791957505900839) (X := (ofRat (5835126419012053) 0 10000000000000000)) (mem_real (by norm_num)) h0 (by norm_num) 945148467767068372407837336633915084
  refine ⟨h0, hA, (mem_Wval h0 hA mem_zero ⟨0, 371041739541238105187473191445267368, 1237299677815325811752570554655889343, 485733025494947453501984590520631922⟩).within (by decide +kernel), ?_⟩
  exact .cons ⟨mem_real (by norm_num), by norm_num [Res.var], (mem_Wval h0 hA (mem_pole (M := (ofRat (19097) 0 25000)) (G := (ofRat (3607) 0 25000)) (mem_real (by norm_num)) (mem_real (by norm_num))) ⟨-945889065788763640435574152826356703, 102934280119325483649196861202824460, 212279420546630518915109147181462822, 225769856827799255924033083188980043⟩).within (by decide +kernel)⟩ (
    .cons ⟨mem_real (by norm_num), by norm_num [Res.var], (mem_Wval h0 hA (mem_pole (M := (ofRat (26527) 0 20000)) (G := (ofRat (32413) 0 100000)) (mem_real (by norm_num)) (mem_real (by norm_num))) ⟨-1724148824611547630136603855200453437, 220278233079791591262843301828173852, 70497657432667279176534551726426629, 727368459689926899031836940632439738⟩).within (by decide +kernel)⟩ (
    .cons ⟨mem_real (by norm_num), by norm_num [Res.var], (mem_Wval h0 hA (mem_pole (M := (ofRat (88527) 0 50000)) (G := (ofRat (13449) 0 50000)) (mem_real (by norm_num)) (mem_real (by norm_num))) ⟨-2324192527816368799891891665202837668, 181018347150456379317221876834172203, 32568517492837440153103744687363359, 865712709614620542114206642108948279⟩).within (by decide +kernel)⟩ (
    .nil)))

theorem plotFitArgs_builds (charged : Bool) : plotFitArgs.Builds charged ∧ plotFitArgs.Proper := by
  have hp : plotFitArgs.Proper := by constructor <;> norm_num [plotFitArgs, KaonArgs.t0S, KaonArgs.tinS, KaonArgs.t0V, KaonArgs.tinV]
  refine ⟨builds_of_pos ?_ ?_ hp ?_ ?_, hp⟩ <;>
    simp [plotFitArgs, KaonArgs.t0S, KaonArgs.tinS, KaonArgs.t0V, KaonArgs.tinV, KaonArgs.resS, KaonArgs.resV,
      KaonUAModelB.Args.resS, KaonUAModelB.Args.resV] <;> norm_num

/-- Approximations for the points of `charged_ff_2.csv`. -/
def plotFitCerts : List (Cert × Cert) := [
  (⟨1188776690522140667578454173362478818, 0, 2339009872676784733671955684847575980, 0⟩, ⟨1259079022750759821060295415712978057, 0, 0, 3522174698616582258026238384068651038⟩),
  (⟨1196111117693535784891097108716692095, 0, 2349059576228963122663815043835153331, 0⟩, ⟨1266006228844200581305838506030116356, 0, 0, 3489416169372561462843314515416035431⟩),
  (⟨1203437548925836175336909482742685538, 0, 2359186216763449880091088665100876914, 0⟩, ⟨1272930437913580294170553846417861133, 0, 0, 3457764768087814385397011228266200759⟩),
  (⟨1207829630151084666593319612436534904, 0, 2365299693957534172054919273459863672, 0⟩, ⟨1277083545063963672278105818147686471, 0, 0, 3439280560586179522741213989678663893⟩),
  (⟨1209293034501808539773249741306567141, 0, 2367343834338698031232731809242729727, 0⟩, ⟨1278467680036076335194839974076248584, 0, 0, 3433200885645447866072826316025843390⟩),
  (⟨1210756129372223406026942432349735121, 0, 2369391150507403138905029289058918501, 0⟩, ⟨1279851698602085357765481696995035166, 0, 0, 3427161349194120310592592378340295953⟩),
  (⟨1212218915882916595445511928207667796, 0, 2371441653604938304844805171825574874, 0⟩, ⟨1281235601139223955759580097063962000, 0, 0, 3421161525668692907846153009870913372⟩),
  (⟨1213681395148837492571144340217324502, 0, 2373495354815453315698100963111936300, 0⟩, ⟨1282619388023065700771669833446146404, 0, 0, 3415200995744286897433343474933437274⟩),
  (⟨1215143568279334295365617479763751955, 0, 2375552265366240466456076304642849207, 0⟩, ⟨1284003059627533802909848192098271997, 0, 0, 3409279346217906315921479227509993783⟩),
  (⟨1216605436378190477638473162111150967, 0, 2377612396528017734366272132432123368, 0⟩, ⟨1285386616324910330202026121553144850, 0, 0, 3403396169894350896921115746535133231⟩),
  (⟨1218067000543660957797907399608660961, 0, 2379675759615213611771571291707432366, 0⟩, ⟨1286770058485845365230340038879070042, 0, 0, 3397551065474713233390453670327863876⟩),
  (⟨1219528261868507976755180913411445561, 0, 2381742365986253614488358066163758859, 0⟩, ⟨1288153386479366099499444804356658749, 0, 0, 3391743637447391355647764037765931649⟩),
  (⟨1220989221440036687781505532879828128, 0, 2383812227043848482460133261114221240, 0⟩, ⟨1289536600672885866039692484375433347, 0, 0, 3385973495981549985317866372425243985⟩),
  (⟨1222449880340130461084925270958199725, 0, 2385885354235284089549369721244084156, 0⟩, ⟨1290919701432213110741535773984098292, 0, 0, 3380240256822965759438446351180400185⟩),
  (⟨1223910239645285905843678211277504959, 0, 2387961759052713079458709711191894183, 0⟩, ⟨1292302689121560302912878637778574617, 0, 0, 3374543541192193683000496149349531454⟩),
  (⟨1225370300426647612401890963760608938, 0, 2390041453033448244902725991789656925, 0⟩, ⟨1293685564103552785546529262598754224, 0, 0, 3368882975684993964971793833106283641⟩),
  (⟨1226830063750042617303215579823517269, 0, 2392124447760257667283408543314770050, 0⟩, ⟨1295068326739237565780391217800959224, 0, 0, 3363258192174960224917707029706688182⟩),
  (⟨1228289530676014593808163798260122876, 0, 2394210754861661634256314885236194254, 0⟩, ⟨1296450977388092046028557216293020089, 0, 0, 3357668827718291827146696539888896170⟩),
  (⟨1229748702259857770511419742051023290, 0, 2396300386012231352709950297081961702, 0⟩, ⟨1297833516408032696257045497208949400, 0, 0, 3352114524460654809223006318092334075⟩),
  (⟨1231207579551650580646314217587390716, 0, 2398393352932889474818441749245157869, 0⟩, ⟨1299215944155423667873541051629195961, 0, 0, 3346594929546077523962450219369055146⟩),
  (⟨1232666163596289044634916181969702834, 0, 2400489667391212454966953115430218367, 0⟩, ⟨1300598260985085349696172136004588875, 0, 0, 3341109695027828710821680439632893728⟩),
  (⟨1234124455433519888413834428280248664, 0, 2402589341201734755490576690362418427, 0⟩, ⟨1301980467250302866462066221011332061, 0, 0, 3335658477781227255980261009035599913⟩),
  (⟨1235582456097973400037819865000205126, 0, 2404692386226254919310644931529054202, 0⟩, ⟨1303362563302834520332188170650768181, 0, 0, 3330240939418334392386385738069618979⟩),
  (⟨1237040166619196027035610789328600171, 0, 2406798814374143527697554763361258713, 0⟩, ⟨1304744549492920175844766508714818052, 0, 0, 3324856746204480533497815763468814679⟩),
  (⟨1238497588021682716965165212200274222, 0, 2408908637602653061536303138070249623, 0⟩, ⟨1306126426169289588765460585372848706, 0, 0, 3319505568976580329228379852672802553⟩),
  (⟨1239954721324909003588470602853873395, 0, 2411021867917229684620015584790169295, 0⟩, ⟨1307508193679170679278311790509119717, 0, 0, 3314187083063190881461629697660276844⟩),
  (⟨1241411567543362841059507479444915630, 0, 2413138517371826967647828280503941351, 0⟩, ⟨1308889852368297749957455164169347783, 0, 0, 3308900968206269361100356286992898923⟩),
  (⟨1242868127686576188492664253643915617, 0, 2415258598069221571756578166042688449, 0⟩, ⟨1310271402580919648955543326288335116, 0, 0, 3303646908484587530599111006653446205⟩),
  (⟨1244324402759156347252951891897289014, 0, 2417382122161330910570884576362410835, 0⟩, ⟨1311652844659807878840852092512144447, 0, 0, 3298424592238761896827160516224786439⟩),
  (⟨1245780393760817053283743609504029085, 0, 2419509101849532809913389872668176985, 0⟩, ⟨1313034178946264651511095971565175760, 0, 0, 3293233711997859400419874532563929637⟩),
  (⟨1247236101686409326762462364968749274, 0, 2421639549384987184476186123202800929, 0⟩, ⟨1314415405780130889608081469743436672, 0, 0, 3288073964407539690926462319435996030⟩),
  (⟨1248691527525952081349652842698321639, 0, 2423773477068959750915810804058536588, 0⟩, ⟨1315796525499794174853466283480417280, 0, 0, 3282945050159696143423507870986661632⟩),
  (⟨1250146672264662495272200444599739469, 0, 2425910897253147796997667965613992323, 0⟩, ⟨1317177538442196643722072571424049176, 0, 0, 3277846673923558843154847732766640497⟩),
  (⟨1251601536882986146457093167983560260, 0, 2428051822340008026581343882639214413, 0⟩, ⟨1318558444942842830865422099040302210, 0, 0, 3272778544278223801444949327333790494⟩),
  (⟨1253056122356626913908058809533813196, 0, 2430196264783086500406059793518768643, 0⟩, ⟨1319939245335807460694419683358384488, 0, 0, 3267740373646573669831296603588092543⟩),
  (⟨1254510429656576647493645451621780737, 0, 2432344237087350692805461225737766062, 0⟩, ⟨1321319939953743187526408580926191416, 0, 0, 3262731878230556191239976402780009606⟩),
  (⟨1255964459749144608291843472902630851, 0, 2434495751809523684653106267006846703, 0⟩, ⟨1322700529127888284698156811995754420, 0, 0, 3257752777947787568210706919340344494⟩),
  (⟨1257418213595986681613168260120337460, 0, 2436650821558420513014407021809868339, 0⟩, ⟨1324081013188074283042706457779264650, 0, 0, 3252802796369448839742343622878394001⟩),
  (⟨1258871692154134364801230326613700228, 0, 2438809458995286698157422825339571330, 0⟩, ⟨1325461392462733559124428270327403881, 0, 0, 3247881660659444241315033617478197056⟩),
  (⟨1260324896376023531887209672399064297, 0, 2440971676834138968753824394956013364, 0⟩, ⟨1326841667278906873623071066772555023, 0, 0, 3242989101514791378048238568618203778⟩),
  (⟨1261777827209522977152320020039387705, 0, 2443137487842108206282569203050591573, 0⟩, ⟨1328221837962250860254078917429721518, 0, 0, 3238124853107213869734041779415257757⟩),
  (⟨1263230485597962739630292159774761725, 0, 2445306904839784629832374574350847657, 0⟩, ⟨1329601904837045465608968662050620131, 0, 0, 3233288653025907929564998078015234303⟩),
  (⟨1264682872480162210560120226373504098, 0, 2447479940701565242684971370279437344, 0⟩, ⟨1330981868226201340296115387211643844, 0, 0, 3228480242221455116642580534503818579⟩),
  (⟨1269038413410437320047757050858594918, 0, 2454020891029964499129866456909261659, 0⟩, ⟨1335121140688557510595063882957287989, 0, 0, 3214219204249106245872977810437810257⟩),
  (⟨1276292304504816065903552755513094238, 0, 2464996069666573654258517253230896711, 0⟩, ⟨1342017888159635930909164160640428587, 0, 0, 3190983350534699099634027743651414141⟩),
  (⟨1283539614004331060487225251431121103, 0, 2476064681510266836617356943748108881, 0⟩, ⟨1348912119569181619109391866943026789, 0, 0, 3168387649095333070841081456004949796⟩),
  (⟨1290780452769485941013066037510353582, 0, 2487228420207207102901120102737210716, 0⟩, ⟨1355803873299539620347709713352377035, 0, 0, 3146404245501899646404023005700494481⟩),
  (⟨1298014929089203503673537385587315609, 0, 2498489016475782460131948201273394390, 0⟩, ⟨1362693186942932124143950485347568089, 0, 0, 3125006937843993237272545565155217206⟩),
  (⟨1305243148757479513127066769366123862, 0, 2509848239332132936898801408814599310, 0⟩, ⟨1369580097322013054837210269655733065, 0, 0, 3104171053205484601836557582490329478⟩),
  (⟨1312465215147231437443315138832384779, 0, 2521307897358797416567577412264623227, 0⟩, ⟨1376464640509774759970873245784639292, 0, 0, 3083873335223239078790417059145873994⟩),
  (⟨1319681229281464068578895741194340859, 0, 2532869840018561727371885238925101330, 0⟩, ⟨1383346851848830823344667407952024867, 0, 0, 3064091841573586074953181877727798641⟩),
  (⟨1326891289901867841679843472639293579, 0, 2544535959015691341995863954778869462, 0⟩, ⟨1390226765970098003957681369791087222, 0, 0, 3044805850367863304522832440365004036⟩),
  (⟨1334095493534959872026039885031820538, 0, 2556308189706840389259222610705700375, 0⟩, ⟨1397104416810899326085016230229805740, 0, 0, 3025995774557031900243322811092804838⟩),
  (⟨1341293934555872263633617242794983443, 0, 2568188512564043933282851552745062658, 0⟩, ⟨1403979837632509416607650267514970657, 0, 0, 3007643083548607251901162378790300053⟩),
  (⟨1348486705249887087406147892698505258, 0, 2580178954692323074127152614755432547, 0⟩, ⟨1410853061037162300938996248949823954, 0, 0, 2989730231329181567693103118654892977⟩),
  (⟨1366444411759740923085528701682399905, 0, 2610650574141350520558433301963774986, 0⟩, ⟨1428026714046925438560384739215346117, 0, 0, 2946765375338747962008763748998916751⟩),
  (⟨1395107551026621035347773147243595521, 0, 2660949193646818519207337996949642053, 0⟩, ⟨1455477600148394923290575853243576751, 0, 0, 2882946333853663363604858133409670296⟩),
  (⟨1423690031251673245095792934146410169, 0, 2713280710613149431531492274284035098, 0⟩, ⟨1482896918429472392656519019831156036, 0, 0, 2824478648401300670411176254666742781⟩),
  (⟨1452196615094219042499189160804861734, 0, 2767811229922334537623599317031002846, 0⟩, ⟨1510286388236794754152917505711589040, 0, 0, 2770680596883168064475015285711468150⟩),
  (⟨1480631686257135020704540605874493967, 0, 2824725223951846673955382936365946098, 0⟩, ⟨1537647604606101570701293091062847379, 0, 0, 2720984974163457171304663559796868249⟩),
  (⟨1508999287427933003116723067747451597, 0, 2884228370998869594365995059750142552, 0⟩, ⟨1564982049437067671098663537217258944, 0, 0, 2674915581584936310646468651484279446⟩),
  (⟨1537303153649010998359470635657998047, 0, 2946550931945854090096453156700958789, 0⟩, ⟨1592291101470277536955480727974833331, 0, 0, 2632069348489394721484280438704784493⟩),
  (⟨1565546741758994106204031518593879572, 0, 3011951792765584050154336153957559694, 0⟩, ⟨1619576045215054895156548546793807987, 0, 0, 2592102559236527609308323212457743696⟩),
  (⟨1593733256444450666091074120967253770, 0, 3080723336260004226209728085760724763, 0⟩, ⟨1646838078955933089450492968561144397, 0, 0, 2554720117265373458050924361946398427⟩),
  (⟨1621865673356978854174861134443591667, 0, 3153197354135047469443301178464349458, 0⟩, ⟨1674078321947907366200356035087501939, 0, 0, 2519667086060917736322368293210137948⟩),
  (⟨1649946759681100259656326230480056381, 0, 3229752274727678386288808433035555254, 0⟩, ⟨1701297820895682382752674448205965462, 0, 0, 2486721958143416462267673560468482794⟩),
  (⟨1677979092480732045314072425881514442, 0, 3310822069061185287818479416034621077, 0⟩, ⟨1728497555799456739221183114931161018, 0, 0, 2455691250314798735093665675763996493⟩),
  (⟨1705965075103995939386031422134679546, 0, 3396907318137113007397833758785379272, 0⟩, ⟨1755678445238995768610650136233740519, 0, 0, 2426405127383322981309282366934206237⟩),
  (⟨1733906951885978976568495482822633232, 0, 3488589091934757417062846481569779604, 0⟩, ⟨1782841351158526828547060015248884769, 0, 0, 2398713831101769207089428348363643322⟩),
  (⟨1761806821355364553182086270813851524, 0, 3586546527312791047226753263347057096, 0⟩, ⟨1809987083207095261720277154959125368, 0, 0, 2372484745128222134658854540884741508⟩),
  (⟨1789666648122460528482616539916728446, 0, 3691579331425710608772661176484852317, 0⟩, ⟨1837116402682235568098346268099492174, 0, 0, 2347599966520968033262331583412760203⟩),
  (⟨1817488273602142166233481504627663979, 0, 3804636931857316977728903840685192247, 0⟩, ⟨1864230026118968543727914108391810472, 0, 0, 2323954283748297062317417158101723400⟩),
  (⟨1845273425704854754212398449598240483, 0, 3926856728244511795059909785248179344, 0⟩, ⟨1891328628561087761374876964242970565, 0, 0, 2301453483290231424202711120050239449⟩),
  (⟨1873023727611475765313856463528587960, 0, 4059615009591570672653085874468621216, 0⟩, ⟨1918412846547328227357061480614991484, 0, 0, 2280012923634435915024678833010480865⟩),
  (⟨1900740705733022416643775058321428927, 0, 4204595815864473072610518880734186436, 0⟩, ⟨1945483280841216346147072825505838169, 0, 0, 2259556328240845015399767257854701041⟩),
  (⟨1928425796943499502535879238594250152, 0, 4363885735904586786941370273570353232, 0⟩, ⟨1972540498930099567517523990400032128, 0, 0, 2240014758884391249411532208488574478⟩),
  (⟨1956080355163278291680637495408120707, 0, 4540107045060283392783220132578342502, 0⟩, ⟨1999585037315975691911799359789760082, 0, 0, 2221325738417486773763461555614313924⟩),
  (⟨1983705657361002087949275404109166683, 0, 4736608977526621987744724677310083502, 0⟩, ⟨2026617403618226203405665704853095065, 0, 0, 2203432497960523985994419923529221190⟩),
  (⟨2011302909033897012178673670003647205, 0, 4957749745860960029631239912243533945, 0⟩, ⟨2053638078506154783354452563481888479, 0, 0, 2186283328225546320666984345595008586⟩),
  (⟨2038873249219335480620025270855584080, 0, 5209325038271174047264187346746387037, 0⟩, ⟨2080647517477298567236156189086999169, 0, 0, 2169831018399875756821704776891721725⟩),
  (⟨2066417755084394130924356977535441813, 0, 5499242367006360737709351158783338512, 0⟩, ⟨2107646152495779364498011722929683826, 0, 0, 2154032368983685265703801622068487187⟩),
  (⟨2093937446134832937761434867369955297, 0, 5838627565281924049482594923492395682, 0⟩, ⟨2134634393503463943579353392530342247, 0, 0, 2138847767355133607311486714365680859⟩),
  (⟨2121433288080284744428435301312704092, 0, 6243734290385721825918501298032648155, 0⟩, ⟨2161612629815380071229472390070872878, 0, 0, 2124240816755749828532803800344952778⟩),
  (⟨2148906196388388918312291237464429192, 0, 6739450970560111213716182835521893514, 0⟩, ⟨2188581231409665561732683042666964312, 0, 0, 2110178010944618887975088274230812962⟩),
  (⟨2176357039557048541295567604899279239, 0, 7366270962689055006485884014146925996, 0⟩, ⟨2215540550121291620433567713359626561, 0, 0, 2096628448037690223312483719055713338⟩),
  (⟨2203786642130868957216281669496795983, 0, 8195663438127388939521527618706120808, 0⟩, ⟨2242490920747882457592872531475138169, 0, 0, 2083563578086523887410622551571546821⟩),
  (⟨2231195787485088347871770372580490568, 0, 9369221457691600340911641834358810429, 0⟩, ⟨2269432662075136011942093269131888499, 0, 0, 2070956979804550714734023467315893653⟩),
  (⟨2258585220397888611571752383808700329, 0, 11222439105995930081675384851429132570, 0⟩, ⟨2296366077828623132209256126009764132, 0, 0, 2058784162554229934333130300192837541⟩),
  (⟨2285955649429834702007550503303984772, 0, 14854817731311577077949015405952960263, 0⟩, ⟨2323291457558093869843609410318182826, 0, 0, 2047022390293594203047485976870571045⟩),
  (⟨2313307749127296356282526704608614067, 0, 29286851744055520053490275345943699510, 0⟩, ⟨2350209077459840221353591908220996684, 0, 0, 2035650524668008483297199910877154267⟩),
  (⟨2340642162065026540258835397663691670, 0, 0, 21524752576486778233521418833804756569⟩, ⟨2377119201142146536872604789033591758, 0, 0, 2024648884840430791942665306482311356⟩),
  (⟨2367959500741579057033195470771611817, 0, 0, 13555889221049605280365575066192708459⟩, ⟨2404022080338394750602790919157457281, 0, 0, 2013999121995394753248778926748239309⟩),
  (⟨2395260349339920383389045611338424801, 0, 0, 10730190073278990175230359106322156376⟩, ⟨2430917955571975364313579074383980384, 0, 0, 2003684106739887933855697420963642732⟩),
  (⟨2422545265364407845729369376850899939, 0, 0, 9170987274369194008641787638219929291⟩, ⟨2457807056776781285450881875585842808, 0, 0, 1993687827867619302828935794933900566⟩),
  (⟨2449814781164250329113257846353787336, 0, 0, 8149899837724960049995995101399500270⟩, ⟨2484689603876725421126829761179503773, 0, 0, 1983995301159442437904719195618113555⟩),
  (⟨2477069405352623731397326889766573077, 0, 0, 7415808303195406305973700168123865825⟩, ⟨2511565807327420177931462618669338383, 0, 0, 1974592487068116700068768852977849112⟩),
  (⟨2504309624129768194881563421737659382, 0, 0, 6855911113989723996203293946435324297⟩, ⟨2538435868622884042083715879834935954, 0, 0, 1965466216285212710946089856478367706⟩),
  (⟨2531535902517636323529131988085803589, 0, 0, 6411043171263184892868361638982700709⟩, ⟨2565299980769893982502421289504535630, 0, 0, 1956604122315964075016943016166386834⟩),
  (⟨2558748685512981130233721681226937410, 0, 0, 6046797547523926520970369214914568831⟩, ⟨2592158328732379681887789887683269246, 0, 0, 1947994580297667515900859137667382991⟩),
  (⟨2585948399165160613471616098319372471, 0, 0, 5741625853583253963843123539635016857⟩, ⟨2619011089848054042937088178648735164, 0, 0, 1939626651391679495776559903512035290⟩),
  (⟨2599543483196523562962188974952765819, 0, 0, 5606537977423715646508838088174656110⟩, ⟨2632435428767769289596252099688378432, 0, 0, 1935530048501753651101224563265312870⟩),
  (⟨2667473121073038518441832441622837592, 0, 0, 5058211249737760146700923437735750957⟩, ⟨2699537519140893912731977113480673748, 0, 0, 1915872413053000625643797065899004600⟩),
  (⟨2735330623085379775655200718768621573, 0, 0, 4654782549009755996600707892367801312⟩, ⟨2766608679085440683972938052319345924, 0, 0, 1897489633896029215394130325932804808⟩),
  (⟨2769233980509026760430965478094216966, 0, 0, 4489491616086094475734376026646045909⟩, ⟨2800133354754395221722871737162906289, 0, 0, 1888737239557395409574072048436737643⟩),
  (⟨2803121227998186065770969568134614087, 0, 0, 4342583805244402645357269120568395744⟩, ⟨2833651104927403300004524336436880713, 0, 0, 1880258716482565758396381643533156644⟩),
  (⟨2836992942841631644397772962970905793, 0, 0, 4210944078285541856260211106484526782⟩, ⟨2867162172486142506222013515154900401, 0, 0, 1872041104240611995724167609876170974⟩),
  (⟨2870849674825095613124814157568359194, 0, 0, 4092147022661172328052475895869861397⟩, ⟨2900666789041028783152122321917340294, 0, 0, 1864072262046093052756814557267691029⟩),
  (⟨2914706561280721007763498569182341503, 0, 0, 3954202042121868475137657907529719276⟩, ⟨2944079534247524435436077654738670663, 0, 0, 1854096238516822807853087601198283590⟩),
  (⟨3018843093021114823200877480253331719, 0, 0, 3682470569100683856574100311717369107⟩, ⟨3047212428742624809644237133027963418, 0, 0, 1831856344765620484762643718527904538⟩),
  (⟨3122861536265070988513075335966265533, 0, 0, 3468016429643423944045137393660837753⟩, ⟨3150294294234440923388004665117652007, 0, 0, 1811470444707735515495563103693985978⟩),
  (⟨3135822373947344977205064682010736870, 0, 0, 3444352093761535675401758425611802343⟩, ⟨3163142729399196307566480554251944445, 0, 0, 1809047124327364357301028712603538467⟩),
  (⟨3276130677610537428195646114446641717, 0, 0, 3221407669608423366033774863447010703⟩, ⟨3302290444885657552763495118606506713, 0, 0, 1784309465651540690022157069995426742⟩),
  (⟨3470668085796092086908609716398408921, 0, 0, 2986317185714662961911245178674825518⟩, ⟨3495372215854235026752786619318165308, 0, 0, 1753990696721819336891676823232307142⟩),
  (⟨3473360480955607489069492099961416211, 0, 0, 2983513878250478810884702662106272959⟩, ⟨3498045596653423260310700963005275217, 0, 0, 1753599703398985052062795440331373118⟩),
  (⟨3545497590487179957135286478662511379, 0, 0, 2912114539465234655762563745825984374⟩, ⟨3569683897735573138663345112381871090, 0, 0, 1743388089248602752984229436536885515⟩),
  (⟨3679989001312165635226803980920571201, 0, 0, 2795549724619313525193855462908034951⟩, ⟨3703297046603302813040465116277841327, 0, 0, 1725617448048220651596682099618269254⟩),
  (⟨3814370443035415153332068002616902023, 0, 0, 2696324605192666901414861797311128303⟩, ⟨3836862239161633521962999249525491134, 0, 0, 1709334664993003715821498910080139459⟩),
  (⟨3881523495117589352450750501349079968, 0, 0, 2651992291164344618112949320053698475⟩, ⟨3903628390197010242481514080561115252, 0, 0, 1701693208719674590495617194823847960⟩),
  (⟨3923146557462145743593311677549372746, 0, 0, 2626040802265824547583167742844287825⟩, ⟨3945018235310113262062957522963848024, 0, 0, 1697110463801941004760214884132998677⟩),
  (⟨3948653143151653936072336747747298764, 0, 0, 2610674093635385144987265166107754835⟩, ⟨3970384315217315457078852436524710320, 0, 0, 1694357928276772043659533387424827960⟩),
  (⟨3975498714818148888511521661674040269, 0, 0, 2594919408928654333483205298019278714⟩, ⟨3997083936712236277417972812925576796, 0, 0, 1691505399158689599532331935843260292⟩),
  (⟨4056014799927342741644796623053425750, 0, 0, 2550072425204905221604565992698669614⟩, ⟨4077173778836496579989860595079410766, 0, 0, 1683213228169408204732025741693603626⟩),
  (⟨4082846844352142787429220673178713322, 0, 0, 2535875782797825159990034460160598620⟩, ⟨4103867483245345414997005883466169873, 0, 0, 1680534194321347666792637884356655430⟩),
  (⟨4351000183561543176250977372416930903, 0, 0, 2411230678794598959303408584801203909⟩, ⟨4370731353326902585911307535808697950, 0, 0, 1655845517035192411596368507223823362⟩),
  (⟨4618886727930355416891333276107769974, 0, 0, 2311240473989361576514532249055243615⟩, ⟨4637478255588204918195656393850282629, 0, 0, 1634438308109411594248039243748817179⟩),
  (⟨4886550355693887509517733340500830328, 0, 0, 2229032150392693951079498038258891641⟩, ⟨4904127276522734528526284394439783244, 0, 0, 1615693354611369974480031241345994458⟩),
  (⟨5154025797102222762445123055664770006, 0, 0, 2160115558954423634618466621482303286⟩, ⟨5170693559165679050166847917450643449, 0, 0, 1599139088002313554656387536337250128⟩),
  (⟨5421340906163402084502907231914449694, 0, 0, 2101421503918091703404453605414805095⟩, ⟨5437189272633687947425667798081529999, 0, 0, 1584409816802655503588721315990382875⟩),
  (⟨5688518285957100034485795704096726539, 0, 0, 2050774465501365133898769261894704742⟩, ⟨5703624308741814235622011956868066504, 0, 0, 1571217439504574791194895330064160540⟩),
  (⟨5955576472825973186730795054022385806, 0, 0, 2006585695820666919148405137893790605⟩, ⟨5970006791393163456963528959217409800, 0, 0, 1559331803601448742059601317571846648⟩),
  (⟨6222530813332344351606717996472192386, 0, 0, 1967665650322170746656509128192324204⟩, ⟨6236343454980067233057648830356690303, 0, 0, 1548566766757969979718779819217423785⟩),
  (⟨6489394123278766062058709932496980017, 0, 0, 1933104612959136457533514193724280885⟩, ⟨6502639929509185100783943075647017664, 0, 0, 1538770111724859373938067590321356214⟩),
  (⟨6756177189565246554589444241201174457, 0, 0, 1902194078616595681545364106861937314⟩, ⟨6768900958235686021363516563009722534, 0, 0, 1529816122871099714468535616683767232⟩),
  (⟨7089556980061256446725688698892595169, 0, 0, 1867846341267452596781113213497876831⟩, ⟨7101683472187247342347214831863158262, 0, 0, 1519650679725758975101772650986976670⟩),
  (⟨7622769781460759094322797785255918329, 0, 0, 1820879711681020742273884367652701595⟩, ⟨7634049325669408059829576607647970316, 0, 0, 1505377569010794314934214491099271086⟩),
  (⟨8289010889715468032138188488998863181, 0, 0, 1772752985448895095266029442180241467⟩, ⟨8299385007060694849538704267245192184, 0, 0, 1490298218296309114817972527265122742⟩),
  (⟨8955010187089745186185178302661450517, 0, 0, 1733347915823853024413695210028637959⟩, ⟨8964613623379612674729009788152133600, 0, 0, 1477605134142452879113526904575910451⟩),
  (⟨9620817891651925628872247843671022214, 0, 0, 1700465190251525578026857065851311117⟩, ⟨9629757362983349766250242800539674552, 0, 0, 1466771968194486691361685932039719079⟩)]

/-- Approximations for `t = 8`. -/
def plotFitCert8 : Cert × Cert := (⟨3718200449161267542928856408176199191, 0, 0, 2765766969907024012348272279577774015⟩, ⟨3741270445416274188202465963635159756, 0, 0, 1720845881034547058658370733803786749⟩)

/-- The test that the form factor can be evaluated at the points and does not vanish there. -/
def plotFitTests : List (Numeral × Numeral × Numeral) → List (Cert × Cert) → Bool
  | [], [] => true
  | r :: l, k :: ks =>
    kaonRegular plotFitArgsS plotFitArgsV (ofRat r.1.digits 0 (10 ^ r.1.after)) (ofRat 32291595069331067 0 10000000000000000)
        (ofRat 5835126419012053 0 10000000000000000) k.1 k.2 &&
      (kaonB plotFitArgsS plotFitArgsV (ofRat r.1.digits 0 (10 ^ r.1.after)) k.1 k.2 true).away && plotFitTests l ks
  | _, _ => false

set_option maxRecDepth 20000 in
theorem plotFit_tests : plotFitTests chargedFF2Table plotFitCerts = true := by decide +kernel

theorem plotFitArgs_chanS : ChanOK plotFitArgs.t0S plotFitArgs.tinS plotFitArgs.resS plotFitArgsS.1 plotFitArgsS.2.1 plotFitArgsS.2.2.1 plotFitArgsS.2.2.2 :=
  plotFitArgsS_ok

theorem plotFitArgs_chanV : ChanOK plotFitArgs.t0V plotFitArgs.tinV plotFitArgs.resV plotFitArgsV.1 plotFitArgsV.2.1 plotFitArgsV.2.2.1 plotFitArgsV.2.2.2 :=
  plotFitArgsV_ok

theorem mem_numeral (x : Numeral) : Mem ((x.value : ℝ) : ℂ) (ofRat x.digits 0 (10 ^ x.after)) := by
  refine mem_real ?_
  unfold Numeral.value
  push_cast
  field_simp

theorem plotFit_nonzero_rows {l : List (Numeral × Numeral × Numeral)} {ks : List (Cert × Cert)} (h : plotFitTests l ks = true)
    (hl : ∀ d ∈ l.map rowValues, 0 < d.1) : ∀ d ∈ l.map rowValues, ∃ y, plotFitArgs.run true (d.1 : ℝ) = .ok y ∧ y ≠ 0 := by
  induction l generalizing ks with
  | nil => intro d hd; cases hd
  | cons r l ih =>
    cases ks with
    | nil => cases h
    | cons k ks =>
      obtain ⟨h, h3⟩ := Bool.and_eq_true_iff.mp h
      obtain ⟨h1, h2⟩ := Bool.and_eq_true_iff.mp h
      intro d hd
      rcases List.mem_cons.mp hd with rfl | hd
      · obtain ⟨y, hy, hm⟩ := kaon_value (plotFitArgs_builds true).1 (plotFitArgs_builds true).2 plotFitArgs_chanS plotFitArgs_chanV
          (t := ((r.1.value : ℝ) : ℂ)) (by rw [ofReal_re]; exact (hl _ List.mem_cons_self).le) (mem_numeral r.1)
          (mem_real (by norm_num [plotFitArgs, KaonArgs.tinS])) (mem_real (by norm_num [plotFitArgs, KaonArgs.tinV])) k.1 k.2 h1
        exact ⟨y, hy, hm.of_away h2⟩
      · exact ih h3 (fun d hd => hl d (List.mem_cons_of_mem _ hd)) d hd

/-- The wiring of the model of `plot_fit.py`. -/
theorem plotFit_wiring {p : ModelParameters ℝ} (hr : Reachable p) (hc : p.cls = .kaonB)
    (hh : p.HoldsExactly (plotFitValues.map fun q => (q.1, (q.2 : ℝ)))) : KaonWiring p plotFitArgs := by
  have hw := reachable_wellFormed hr
  obtain ⟨v, hv⟩ := hw.exists_values
  have hx := kaon_wiring_values hw hv (by rw [hc]; trivial)
  have e : KaonArgs.ofValues p.cls v = plotFitArgs := by
    rw [hc]
    have hval : ∀ q ∈ plotFitValues, v q.1 = (q.2 : ℝ) := fun q hq =>
      ((hw.holds_iff hv).mp (hh.1 (q.1, (q.2 : ℝ)) (List.mem_map.mpr ⟨q, hq, rfl⟩))).2.symm
    simp only [plotFitValues, List.forall_mem_cons] at hval
    show KaonArgs.b (.ofValues v) = _
    obtain ⟨h1, h2, h3, h4, h5, h6, h7, h8, h9, h10, h11, h12, h13, h14, h15, h16, h17, h18, h19, h20, h21, h22, h23, h24, h25, h26, -⟩ := hval
    unfold plotFitArgs KaonUAModelB.Args.ofValues
    simp only [h1, h2, h3, h4, h5, h6, h7, h8, h9, h10, h11, h12, h13, h14, h15, h16, h17, h18, h19, h20, h21, h22, h23, h24, h25, h26]
    norm_num
  rw [e] at hx
  exact hx

theorem plotFit_at_eight : ∃ y, plotFitArgs.run true 8 = .ok y ∧ IsClose y ⟨0.1160606909987352, -0.0565020455991096⟩ 1e-15 := by
  have := kaon_close (x := plotFitArgs) (charged := true) (T := ofRat 8 0 1) (E := ofRat (1160606909987352) (-565020455991096) 10000000000000000)
    (t := ⟨8, 0⟩) (e := ⟨0.1160606909987352, -0.0565020455991096⟩)
    (TinS := ofRat 32291595069331067 0 10000000000000000) (TinV := ofRat 5835126419012053 0 10000000000000000)
    (plotFitArgs_builds true).1 (plotFitArgs_builds true).2 plotFitArgs_chanS plotFitArgs_chanV (by norm_num) (mem_gauss (by norm_num) (by norm_num))
    (mem_real (by norm_num [plotFitArgs, KaonArgs.tinS])) (mem_real (by norm_num [plotFitArgs, KaonArgs.tinV])) (mem_gauss (by norm_num) (by norm_num))
    plotFitCert8.1 plotFitCert8.2 (by decide +kernel)
  have e : (8 : ℂ) = ⟨8, 0⟩ := by apply Complex.ext <;> simp
  rw [e]
  exact this

/-- The absolute value of the number close to that one. -/
theorem norm_of_close {y : ℂ} (h : IsClose y ⟨0.1160606909987352, -0.0565020455991096⟩ 1e-15) : |‖y‖ - 0.1290835588| ≤ 1e-9 := by
  set e : ℂ := ⟨0.1160606909987352, -0.0565020455991096⟩ with he
  have hn : ‖e‖ ^ 2 = 0.1160606909987352 ^ 2 + 0.0565020455991096 ^ 2 := by
    rw [← normSq_eq_norm_sq, normSq_apply, he]; ring
  have hup : ‖e‖ ≤ 0.1290835589 := abs_le_of_sq_le_sq' (by rw [hn]; norm_num) (by norm_num) |>.2
  have hlow : 0.1290835587 ≤ ‖e‖ := abs_le_of_sq_le_sq' (by rw [hn]; norm_num) (norm_nonneg e) |>.2
  unfold IsClose at h
  have h0 := norm_nonneg y
  have h1 := abs_le.mp (abs_norm_sub_norm_le y e)
  have hy : max ‖y‖ ‖e‖ ≤ ‖y‖ + ‖e‖ := max_le (by linarith) (by linarith)
  have h2 : ‖y - e‖ ≤ 1e-9 * (‖y‖ + ‖e‖) + 1e-15 :=
    h.trans (max_le (by linarith) (by have : 0 ≤ ‖e‖ := norm_nonneg e; linarith))
  have h3 : ‖y‖ ≤ 0.2 := by linarith [h1.2]
  rw [abs_le]
  constructor <;> linarith [h1.1, h1.2]

end UA
